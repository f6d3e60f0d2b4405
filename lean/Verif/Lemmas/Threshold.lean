import Verif.Lemmas.Rescale
import Verif.Spec.Threshold

namespace Improver

/-- The below-threshold branch value. -/
def lowBranch (lo thr x : ℚ) : ℚ := npClip ((x - lo) * (1 / 2 - 0) / (thr - lo) + 0) 0 (1 / 2)
/-- The above-threshold branch value. -/
def highBranch (thr hi x : ℚ) : ℚ := npClip ((x - thr) * (1 - 1 / 2) / (hi - thr) + 1 / 2) (1 / 2) 1
def exceed (lo thr hi x : ℚ) : ℚ := if x < thr then lowBranch lo thr x else highBranch thr hi x

theorem truthValue_fuzzy {op : CmpOp} {thr lo hi x : ℚ} (h0 : lo ≠ hi) (h1 : lo ≠ thr) (h2 : thr ≠ hi) :
    truthValue op thr (lo, hi) x
      = .ok (if op.lessThan then 1 - exceed lo thr hi x else exceed lo thr hi x) := by
  unfold truthValue
  simp only [h0, if_false]
  rw [rescale_clip_eq h1 (by norm_num), rescale_clip_eq h2 (by norm_num)]
  have e1 : min (0:ℚ) (1/2) = 0 := by norm_num
  have e2 : max (0:ℚ) (1/2) = 1/2 := by norm_num
  have e3 : min (1/2:ℚ) 1 = 1/2 := by norm_num
  have e4 : max (1/2:ℚ) 1 = 1 := by norm_num
  rw [e1, e2, e3, e4]
  rfl

theorem truthValue_crisp {op : CmpOp} {thr lo x : ℚ} :
    truthValue op thr (lo, lo) x = .ok (if op.eval x thr then 1 else 0) := by
  simp [truthValue]

theorem truthValue_ok_cases {op : CmpOp} {thr lo hi x v : ℚ} (h : truthValue op thr (lo, hi) x = .ok v) :
    lo = hi ∨ (lo ≠ hi ∧ lo ≠ thr ∧ thr ≠ hi) := by
  by_cases h0 : lo = hi
  · exact .inl h0
  right
  refine ⟨h0, ?_, ?_⟩
  · rintro rfl
    simp [truthValue, h0, rescale] at h
    cases h
  · rintro rfl
    simp [truthValue, h0, rescale] at h
    cases h

theorem lowBranch_mem (lo thr x : ℚ) : 0 ≤ lowBranch lo thr x ∧ lowBranch lo thr x ≤ 1 / 2 :=
  npClip_mem (by norm_num)
theorem highBranch_mem (thr hi x : ℚ) : 1 / 2 ≤ highBranch thr hi x ∧ highBranch thr hi x ≤ 1 :=
  npClip_mem (by norm_num)

theorem exceed_mem (lo thr hi x : ℚ) : 0 ≤ exceed lo thr hi x ∧ exceed lo thr hi x ≤ 1 := by
  have h1 := lowBranch_mem lo thr x
  have h2 := highBranch_mem thr hi x
  unfold exceed
  split_ifs <;> constructor <;> linarith [h1.1, h1.2, h2.1, h2.2]

theorem exceed_mono {lo thr hi x y : ℚ} (h1 : lo < thr) (h2 : thr < hi) (h : x ≤ y) :
    exceed lo thr hi x ≤ exceed lo thr hi y := by
  have d1 : 0 < thr - lo := by linarith
  have d2 : 0 < hi - thr := by linarith
  unfold exceed
  split_ifs with hx hy
  · apply npClip_mono
    gcongr
  · linarith [(lowBranch_mem lo thr x).2, (highBranch_mem thr hi y).1]
  · exact absurd (lt_of_le_of_lt h ‹_›) hx
  · apply npClip_mono
    gcongr

theorem exceed_eq_spec {lo thr hi : ℚ} (h1 : lo < thr) (h2 : thr < hi) (x : ℚ) :
    exceed lo thr hi x = Spec.exceedance lo thr hi x := by
  have d1 : 0 < thr - lo := by linarith
  have d2 : 0 < hi - thr := by linarith
  unfold exceed Spec.exceedance
  by_cases a : x ≤ lo
  · have : x < thr := by linarith
    simp only [this, if_true, a]
    apply npClip_of_le (by norm_num)
    have : (x - lo) * (1 / 2 - 0) / (thr - lo) ≤ 0 := by
      apply div_nonpos_of_nonpos_of_nonneg <;> linarith
    linarith
  by_cases b : hi ≤ x
  · have : ¬ x < thr := by linarith
    simp only [this, if_false, a, b, if_true]
    apply npClip_of_ge (by norm_num)
    have : (1/2 : ℚ) ≤ (x - thr) * (1 - 1/2) / (hi - thr) := by
      rw [le_div_iff₀ d2]; linarith
    linarith
  push Not at a b
  by_cases c : x < thr
  · simp only [c, if_true, a.not_ge, b.not_ge, if_false]
    unfold lowBranch
    rw [npClip_of_mem]
    · ring
    · have : 0 ≤ (x - lo) * (1 / 2 - 0) / (thr - lo) := by
        apply div_nonneg <;> linarith
      linarith
    · have : (x - lo) * (1 / 2 - 0) / (thr - lo) ≤ 1/2 := by
        rw [div_le_iff₀ d1]; linarith
      linarith
  · simp only [c, a.not_ge, b.not_ge, if_false]
    push Not at c
    unfold highBranch
    rw [npClip_of_mem]
    · ring
    · have : 0 ≤ (x - thr) * (1 - 1/2) / (hi - thr) := by
        apply div_nonneg <;> linarith
      linarith
    · have : (x - thr) * (1 - 1/2) / (hi - thr) ≤ 1/2 := by
        rw [div_le_iff₀ d2]; linarith
      linarith

/-- With symmetric bounds produced from a fuzzy factor the two branches are one clipped line. -/
theorem spec_sym {thr w x : ℚ} (hw : 0 < w) :
    Spec.exceedance (thr - w) thr (thr + w) x = npClip ((x - (thr - w)) / (2 * w)) 0 1 := by
  have e1 : thr - (thr - w) = w := by ring
  have e2 : thr + w - thr = w := by ring
  unfold Spec.exceedance
  split_ifs with a b c
  · rw [npClip_of_le (by norm_num)]
    apply div_nonpos_of_nonpos_of_nonneg <;> linarith
  · rw [npClip_of_ge (by norm_num)]
    rw [le_div_iff₀ (by linarith)]; linarith
  · push Not at a b
    rw [npClip_of_mem]
    · rw [e1]; field_simp
    · apply div_nonneg <;> linarith
    · rw [div_le_iff₀ (by linarith)]; linarith
  · push Not at a b c
    rw [npClip_of_mem]
    · rw [e2]; field_simp; ring
    · apply div_nonneg <;> linarith
    · rw [div_le_iff₀ (by linarith)]; linarith

/-- Truth-value function used in the mean, when it does not raise. -/
theorem accumulateTruth_eq {op : CmpOp} {thr : ℚ} {b : ℚ × ℚ} {f : ℚ → ℚ}
    (hf : ∀ x, truthValue op thr b x = .ok (f x)) (ms : List MVal) (acc : ℚ × ℕ) :
    accumulateTruth op thr b ms acc
      = .ok (acc.1 + ((ms.filter (fun m => !m.masked)).map (fun m => f m.val)).sum,
             acc.2 + (ms.filter (fun m => !m.masked)).length) := by
  induction ms generalizing acc with
  | nil => simp [accumulateTruth]
  | cons m ms ih =>
    unfold accumulateTruth
    rw [hf]
    show accumulateTruth op thr b ms _ = _
    rw [ih]
    cases hm : m.masked
    · simp [hm]; constructor <;> ring
    · simp [hm]

end Improver
