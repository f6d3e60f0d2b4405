import Verif.Lemmas.Rescale
import Verif.Lemmas.ListAux

/-! Property theorems C35: `rescale`, `apply_double_scaling`. -/

namespace Improver

/-- **C35.** Unclipped rescaling is the unique affine map sending the data range ends to the scale range ends:
the value keeps its relative position `(x - a)/(b - a)`. -/
theorem C35_rescale_affine (x a b c d : ℚ) (clip : Bool) (hab : a ≠ b) (hcd : c ≠ d) :
    (∃ v, rescale x (a, b) (c, d) false = .ok v ∧ (v - c) * (b - a) = (x - a) * (d - c)) ∧
    rescale a (a, b) (c, d) clip = .ok c ∧ rescale b (a, b) (c, d) clip = .ok d := by
  have hba : b - a ≠ 0 := sub_ne_zero.2 (Ne.symm hab)
  refine ⟨⟨(x - a) * (d - c) / (b - a) + c, by simp [rescale, hab, hcd], by field_simp; ring⟩, ?_, ?_⟩
  · cases clip <;> simp [rescale, hab, hcd, npClip]
  · have : (b - a) * (d - c) / (b - a) + c = d := by field_simp; ring
    cases clip <;> simp [rescale, hab, hcd, this, npClip]

/-- **C35.** With clipping the result never leaves the scale range (given in either order), for every input. -/
theorem C35_rescale_clip_range (x a b c d v : ℚ) (h : rescale x (a, b) (c, d) true = .ok v) :
    min c d ≤ v ∧ v ≤ max c d := by
  obtain ⟨-, -, rfl⟩ := rescale_clip_ok h
  exact npClip_mem (min_le_max)

/-- **C35.** Data inside the data range are not altered by clipping. -/
theorem C35_rescale_clip_inside (x a b c d : ℚ) (h : min a b ≤ x ∧ x ≤ max a b) :
    rescale x (a, b) (c, d) true = rescale x (a, b) (c, d) false := by
  by_cases hab : a = b
  · simp [rescale, hab]
  by_cases hcd : c = d
  · simp [rescale, hab, hcd]
  simp only [rescale, hab, hcd, if_false, if_true, Bool.false_eq_true]
  congr 1
  have hr : (x - a) * (d - c) / (b - a) = (x - a) / (b - a) * (d - c) := by ring
  have h01 : 0 ≤ (x - a) / (b - a) ∧ (x - a) / (b - a) ≤ 1 := by
    rcases lt_or_gt_of_ne hab with hlt | hgt
    · rw [min_eq_left hlt.le, max_eq_right hlt.le] at h
      have hp : 0 < b - a := by linarith
      exact ⟨div_nonneg (by linarith) hp.le, (div_le_one hp).2 (by linarith)⟩
    · rw [min_eq_right hgt.le, max_eq_left hgt.le] at h
      have hp : b - a < 0 := by linarith
      exact ⟨div_nonneg_of_nonpos (by linarith) hp.le, (div_le_one_of_neg hp).2 (by linarith)⟩
  rw [hr]
  generalize (x - a) / (b - a) = t at h01
  rcases lt_or_gt_of_ne hcd with hlt | hgt
  · rw [min_eq_left hlt.le, max_eq_right hlt.le]
    apply npClip_of_mem <;> nlinarith [h01.1, h01.2]
  · rw [min_eq_right hgt.le, max_eq_left hgt.le]
    apply npClip_of_mem <;> nlinarith [h01.1, h01.2]

/-- **C35.** Swapping the ranges undoes an unclipped rescale. -/
theorem C35_rescale_inverse (x a b c d v : ℚ) (h : rescale x (a, b) (c, d) false = .ok v) :
    rescale v (c, d) (a, b) false = .ok x := by
  have h1 : a ≠ b := by rintro rfl; simp [rescale] at h
  have h2 : c ≠ d := by rintro rfl; simp [rescale] at h
  have hba : b - a ≠ 0 := sub_ne_zero.2 (Ne.symm h1)
  have hdc : d - c ≠ 0 := sub_ne_zero.2 (Ne.symm h2)
  simp only [rescale, h1, h2, if_false, Bool.false_eq_true] at h ⊢
  injection h with h
  congr 1
  subst h
  field_simp
  ring

/-- **C35.** Zero-width ranges are rejected with a `ValueError`; all others are accepted. -/
theorem C35_rescale_error_iff (x a b c d : ℚ) (clip : Bool) :
    rescale x (a, b) (c, d) clip = .error .valueError ↔ (a = b ∨ c = d) := by
  unfold rescale
  by_cases h1 : a = b <;> by_cases h2 : c = d <;> cases clip <;> simp [h1, h2]

/-- **C35.** Clipped rescaling is monotone: increasing when the two ranges run the same way, decreasing
otherwise. -/
theorem C35_rescale_monotone (x y a b c d v w : ℚ) (clip : Bool) (hxy : x ≤ y) (hab : a < b)
    (hv : rescale x (a, b) (c, d) clip = .ok v) (hw : rescale y (a, b) (c, d) clip = .ok w) :
    if c ≤ d then v ≤ w else w ≤ v := by
  have hp : 0 < b - a := by linarith
  have hraw : ∀ z, (z - a) * (d - c) / (b - a) + c = (z - a) / (b - a) * (d - c) + c := fun z => by ring
  have hq : (x - a) / (b - a) ≤ (y - a) / (b - a) := by
    apply div_le_div_of_nonneg_right _ hp.le; linarith
  have h1 : a ≠ b := hab.ne
  have h2 : c ≠ d := by rintro rfl; simp [rescale] at hv
  simp only [rescale, h1, h2, if_false, hraw] at hv hw
  generalize (x - a) / (b - a) = s at *
  generalize (y - a) / (b - a) = t at *
  have mono : if c ≤ d then s * (d - c) + c ≤ t * (d - c) + c else t * (d - c) + c ≤ s * (d - c) + c := by
    split_ifs with h
    · nlinarith
    · push Not at h; nlinarith
  cases clip
  · simp only [Bool.false_eq_true, if_false] at hv hw
    injection hv with hv; injection hw with hw; subst hv; subst hw; exact mono
  · simp only [if_true] at hv hw
    injection hv with hv; injection hw with hw; subst hv; subst hw
    split_ifs at mono ⊢ <;> exact npClip_mono mono

/-- **C35.** `data_range=None`: every value stays inside the scale range even without clipping. -/
theorem C35_rescale_auto (data : List ℚ) (c d : ℚ) (clip : Bool) (out : List ℚ)
    (h : rescaleAuto data (c, d) clip = .ok out) :
    out.length = data.length ∧ ∀ v ∈ out, min c d ≤ v ∧ v ≤ max c d := by
  unfold rescaleAuto at h
  cases data with
  | nil => cases h
  | cons a as =>
    simp only at h
    have hf := mapM_ok_forall _ _ _ h
    refine ⟨hf.length_eq.symm, ?_⟩
    have hmin := foldl_min_le a as
    have hmax := foldl_le_max a as
    have hall : ∀ x ∈ a :: as, as.foldl min a ≤ x ∧ x ≤ as.foldl max a := by
      intro x hx
      rcases List.mem_cons.1 hx with rfl | hx
      · exact ⟨hmin.1, hmax.1⟩
      · exact ⟨hmin.2 x hx, hmax.2 x hx⟩
    clear h
    generalize as.foldl min a = lo at hf hall
    generalize as.foldl max a = hi at hf hall
    generalize a :: as = l at hf hall
    induction hf with
    | nil => simp
    | cons hh ht ih =>
      rename_i x b l1 l2
      intro v hv
      rcases List.mem_cons.1 hv with rfl | hv
      · have hx := hall x (by simp)
        cases clip
        · rw [← C35_rescale_clip_inside x lo hi c d
            ⟨(min_le_left _ _).trans hx.1, hx.2.trans (le_max_right _ _)⟩] at hh
          exact C35_rescale_clip_range _ _ _ _ _ _ hh
        · exact C35_rescale_clip_range _ _ _ _ _ _ hh
      · exact ih (fun y hy => hall y (by simp [hy])) v hv

/-- **C35.** `apply_double_scaling` with increasing data values: below the first value the scaling is the first
scaling value, above the last it is the last, at the middle value the middle one. -/
theorem C35_double_scaling_anchors (x s a b c p q r : ℚ) (f : ℚ → ℚ → ℚ) (hab : a < b) (hbc : b < c)
    (hpq : p ≠ q) (hqr : q ≠ r) :
    (x ≤ a → applyDoubleScaling x s (a, b, c) (p, q, r) f = .ok (f s p)) ∧
    applyDoubleScaling b s (a, b, c) (p, q, r) f = .ok (f s q) ∧
    (c ≤ x → applyDoubleScaling x s (a, b, c) (p, q, r) f = .ok (f s r)) := by
  unfold applyDoubleScaling
  simp only [rescale_clip_eq hab.ne hpq, rescale_clip_eq hbc.ne hqr, bind, Except.bind, pure, Except.pure]
  have key : ∀ {x u v m n : ℚ}, u < v → x ≤ u →
      npClip ((x - u) * (n - m) / (v - u) + m) (min m n) (max m n) = m := by
    intro x u v m n huv hx
    have hp : 0 < v - u := by linarith
    have e : (x - u) * (n - m) / (v - u) = (x - u) / (v - u) * (n - m) := by ring
    have ht : (x - u) / (v - u) ≤ 0 := div_nonpos_of_nonpos_of_nonneg (by linarith) hp.le
    rw [e]; generalize (x - u) / (v - u) = t at ht
    rcases le_total m n with hmn | hmn
    · rw [min_eq_left hmn, max_eq_right hmn]; apply npClip_of_le hmn; nlinarith
    · rw [min_eq_right hmn, max_eq_left hmn]; apply npClip_of_ge hmn; nlinarith
  have key2 : ∀ {x u v m n : ℚ}, u < v → v ≤ x →
      npClip ((x - u) * (n - m) / (v - u) + m) (min m n) (max m n) = n := by
    intro x u v m n huv hx
    have hp : 0 < v - u := by linarith
    have e : (x - u) * (n - m) / (v - u) = (x - u) / (v - u) * (n - m) := by ring
    have ht : 1 ≤ (x - u) / (v - u) := (one_le_div hp).2 (by linarith)
    rw [e]; generalize (x - u) / (v - u) = t at ht
    rcases le_total m n with hmn | hmn
    · rw [min_eq_left hmn, max_eq_right hmn]; apply npClip_of_ge hmn; nlinarith
    · rw [min_eq_right hmn, max_eq_left hmn]; apply npClip_of_le hmn; nlinarith
  refine ⟨fun hx => ?_, ?_, fun hx => ?_⟩
  · rw [if_pos (by linarith), key hab hx]
  · rw [if_neg (lt_irrefl _), key hbc le_rfl]
  · rw [if_neg (by linarith), key2 hbc hx]

example : (rescale (3/2) (1, 3) (10, 0) true).toOption = some (15/2) := by decide +kernel
example : (rescale 7 (1, 3) (10, 0) true).toOption = some 0 := by decide +kernel
example : (rescaleAuto [4, 2, 3] (0, 1) false).toOption = some [1, 0, 1/2] := by decide +kernel
example : (applyDoubleScaling (-5) 2 (0, 1, 2) (1, 3, 5) (· * ·)).toOption = some 2 := by decide +kernel

end Improver
