import Verif.Model.SpatialWeights
import Verif.Lemmas.Rescale
import Verif.Lemmas.ListAux
import Mathlib.Data.List.GetD

/-! Property C24: spatially varying blending weights from masks. -/

namespace Improver
namespace SWInput

variable {P : Type} (s : SWInput P)

/-- Sum of the weights that were not changed by the mask rescaling. -/
private def keptSum (L : List ℕ) (f g : ℕ → ℚ) : ℚ := (L.map (fun i => if f i ≠ g i then 0 else f i)).sum
private def changedSum (L : List ℕ) (f g : ℕ → ℚ) : ℚ := (L.map (fun i => if f i ≠ g i then f i else 0)).sum
private def fac (L : List ℕ) (f g : ℕ → ℚ) : ℚ :=
  if keptSum L f g > 0 then (1 - changedSum L f g) / keptSum L f g else 0

theorem finish_eq (L : List ℕ) (f g : ℕ → ℚ) :
    finish (L.map f) (L.map g) = L.map (fun i => if f i ≠ g i then f i else f i * fac L f g) := by
  have h1 : (((L.map f).zip (((L.map f).zip (L.map g)).map (fun x => decide (x.1 ≠ x.2)))).map
      (fun x => if x.2 then x.1 else 0)) = L.map (fun i => if f i ≠ g i then f i else 0) := by
    simp only [List.zip_map', List.map_map]
    apply List.map_congr_left
    intro i _
    simp [Function.comp]
  have h2 : (((L.map f).zip (((L.map f).zip (L.map g)).map (fun x => decide (x.1 ≠ x.2)))).map
      (fun x => if x.2 then 0 else x.1)) = L.map (fun i => if f i ≠ g i then 0 else f i) := by
    simp only [List.zip_map', List.map_map]
    apply List.map_congr_left
    intro i _
    simp [Function.comp]
  unfold finish
  simp only [h1, h2]
  rw [List.zip_map', List.map_map]
  apply List.map_congr_left
  intro i _
  simp only [Function.comp]
  by_cases h : f i ≠ g i
  · rw [if_pos h, if_pos h, if_pos h]; ring
  · rw [if_neg h, if_neg h, if_neg h, add_zero]; rfl

theorem sum_mul_const (L : List ℕ) (f : ℕ → ℚ) (c : ℚ) : (L.map (fun i => f i * c)).sum = (L.map f).sum * c := by
  induction L with
  | nil => simp
  | cons a l ih => simp [ih, add_mul]

theorem finish_sum (L : List ℕ) (f g : ℕ → ℚ) :
    (finish (L.map f) (L.map g)).sum = keptSum L f g * fac L f g + changedSum L f g := by
  rw [finish_eq]
  generalize hc : fac L f g = c
  clear hc
  unfold keptSum changedSum
  induction L with
  | nil => simp
  | cons a l ih =>
    simp only [List.map_cons, List.sum_cons, ih]
    by_cases h : f a ≠ g a
    · simp only [if_pos h]; ring
    · simp only [if_neg h]; ring

theorem kept_nonneg (L : List ℕ) (f g : ℕ → ℚ) (h : ∀ i ∈ L, 0 ≤ f i) : 0 ≤ keptSum L f g := by
  apply List.sum_nonneg
  intro x hx
  obtain ⟨i, hi, rfl⟩ := List.mem_map.1 hx
  by_cases hfg : f i ≠ g i
  · rw [if_pos hfg]
  · rw [if_neg hfg]; exact h i hi

theorem kept_add_changed_le (L : List ℕ) (f g : ℕ → ℚ) (h : ∀ i ∈ L, f i ≤ g i) :
    keptSum L f g + changedSum L f g ≤ (L.map g).sum := by
  unfold keptSum changedSum
  induction L with
  | nil => simp
  | cons a l ih =>
    have := ih (fun i hi => h i (List.mem_cons_of_mem _ hi))
    have ha := h a (List.mem_cons_self ..)
    simp only [List.map_cons, List.sum_cons]
    by_cases hfg : f a ≠ g a
    · rw [if_pos hfg, if_pos hfg]; linarith
    · rw [if_neg hfg, if_neg hfg]; linarith

theorem w0_nonneg (hw : ∀ x ∈ s.w1d, 0 ≤ x) (i : ℕ) (p : P) : 0 ≤ s.w0 i p := by
  unfold w0
  by_cases h : s.mask i p
  · rw [if_pos h]
  · rw [if_neg h]
    by_cases hi : i < s.w1d.length
    · rw [List.getD_eq_getElem _ _ hi]; exact hw _ (List.getElem_mem hi)
    · rw [List.getD_eq_default _ _ (by omega)]

theorem w1_nonneg (hw : ∀ x ∈ s.w1d, 0 ≤ x) (i : ℕ) (p : P) : 0 ≤ s.w1 i p := by
  unfold w1
  by_cases h : s.sumOver s.w0 p > 0
  · rw [if_pos h]; exact div_nonneg (s.w0_nonneg hw i p) h.le
  · rw [if_neg h]

theorem w1_sum (p : P) : s.sumOver s.w1 p = if s.sumOver s.w0 p > 0 then 1 else 0 := by
  have hd : ∀ (L : List ℕ) (f : ℕ → ℚ) (c : ℚ), (L.map (fun i => f i / c)).sum = (L.map f).sum / c := by
    intro L f c
    induction L with
    | nil => simp
    | cons a l ih => simp [ih, add_div]
  by_cases h : s.sumOver s.w0 p > 0
  · rw [if_pos h]
    have : s.sumOver s.w1 p = s.sumOver s.w0 p / s.sumOver s.w0 p := by
      unfold sumOver
      rw [← hd]
      congr 1
      apply List.map_congr_left
      intro i _
      unfold w1
      rw [if_pos h]
      rfl
    rw [this]; exact div_self h.ne'
  · rw [if_neg h]
    unfold sumOver
    apply List.sum_eq_zero
    intro x hx
    obtain ⟨i, _, rfl⟩ := List.mem_map.1 hx
    unfold w1
    rw [if_neg h]

theorem w1_pos_iff (hw : ∀ x ∈ s.w1d, 0 ≤ x) {i : ℕ} (hi : i < s.w1d.length) (p : P) :
    s.w1 i p > 0 ↔ s.mask i p = false ∧ 0 < s.w1d.getD i 0 := by
  have hmem : s.w0 i p ∈ (List.range s.w1d.length).map (fun i : ℕ => s.w0 i p) :=
    List.mem_map.2 ⟨i, List.mem_range.2 hi, rfl⟩
  have hle : s.w0 i p ≤ s.sumOver s.w0 p := List.single_le_sum (by
    intro x hx; obtain ⟨j, _, rfl⟩ := List.mem_map.1 hx; exact s.w0_nonneg hw j p) _ hmem
  have h0 : s.w1 i p > 0 ↔ s.w0 i p > 0 := by
    unfold w1
    constructor
    · intro h
      by_cases hs : s.sumOver s.w0 p > 0
      · rw [if_pos hs] at h
        rcases (s.w0_nonneg hw i p).eq_or_lt with h' | h'
        · rw [← h', zero_div] at h; exact absurd h (lt_irrefl _)
        · exact h'
      · rw [if_neg hs] at h; exact absurd h (lt_irrefl _)
    · intro h
      have hs : s.sumOver s.w0 p > 0 := lt_of_lt_of_le h hle
      rw [if_pos hs]; exact div_pos h hs
  rw [h0]
  unfold w0
  cases hm : s.mask i p
  · simp
  · simp

theorem nonzero_eq (hw : ∀ x ∈ s.w1d, 0 ≤ x) {i : ℕ} (hi : i < s.w1d.length) (hpos : 0 < s.w1d.getD i 0) :
    s.nonzero i = fun q => !s.mask i q := by
  funext q
  unfold nonzero
  have := s.w1_pos_iff hw hi q
  cases hm : s.mask i q
  · rw [decide_eq_true (this.2 ⟨hm, hpos⟩)]; rfl
  · have hn : ¬ s.w1 i q > 0 := fun h => by
      have := (this.1 h).1
      rw [hm] at this
      cases this
    rw [decide_eq_false hn]; rfl

/-- The fuzzy factor applied to slice `i` at `p`. -/
private def factorOf (i : ℕ) (p : P) : ℚ :=
  if s.allNonzero i then 1 else npClip (s.edt (s.nonzero i) p / s.fuzzy) 0 1

theorem w2_eq (hf : 0 < s.fuzzy) (i : ℕ) (p : P) : s.w2 i p = .ok (s.w1 i p * s.factorOf i p) := by
  unfold w2 factorOf
  by_cases h : s.allNonzero i = true
  · rw [if_pos h, if_pos h, mul_one]
  · rw [if_neg h, if_neg h, rescale_clip_eq hf.ne (by norm_num)]
    simp only [bind, Except.bind, pure, Except.pure]
    congr 3
    · ring

theorem factorOf_mem (i : ℕ) (p : P) : 0 ≤ s.factorOf i p ∧ s.factorOf i p ≤ 1 := by
  unfold factorOf
  by_cases h : s.allNonzero i = true
  · rw [if_pos h]; exact ⟨zero_le_one, le_rfl⟩
  · rw [if_neg h]; exact npClip_mem zero_le_one

theorem process_eq (hf : 0 < s.fuzzy) (p : P)
    (hm : ∃ i, i < s.w1d.length ∧ ∃ q ∈ s.pts, s.mask i q = true) :
    s.process p = .ok (finish ((List.range s.w1d.length).map (fun i : ℕ => s.w1 i p * s.factorOf i p))
      ((List.range s.w1d.length).map (fun i : ℕ => s.w1 i p))) := by
  unfold process
  rw [if_neg]
  · rw [mapM_ok_of_forall (fun i : ℕ => s.w2 i p) (fun i : ℕ => s.w1 i p * s.factorOf i p) _
      (fun i _ => s.w2_eq hf i p)]
    rfl
  · intro hall
    obtain ⟨i, hi, q, hq, hmq⟩ := hm
    have := List.all_eq_true.1 hall i (List.mem_range.2 hi)
    have := List.all_eq_true.1 this q hq
    rw [hmq] at this
    cases this

/-- **C24.** With non-negative one-dimensional weights, a positive fuzzy length and at least one masked point, weights
exist at every grid point; there is one per input, none is negative, they are zero where the input is masked and their
sum never exceeds one. -/
theorem C24_valid (hw : ∀ x ∈ s.w1d, 0 ≤ x) (hf : 0 < s.fuzzy)
    (hm : ∃ i, i < s.w1d.length ∧ ∃ q ∈ s.pts, s.mask i q = true) (p : P) :
    ∃ out, s.process p = .ok out ∧ out.length = s.w1d.length ∧ (∀ x ∈ out, 0 ≤ x) ∧ out.sum ≤ 1 ∧
      ∀ i, s.mask i p = true → out.getD i 0 = 0 := by
  refine ⟨_, s.process_eq hf p hm, ?_⟩
  set L := List.range s.w1d.length with hL
  set f := fun i : ℕ => s.w1 i p * s.factorOf i p with hfdef
  set g := fun i : ℕ => s.w1 i p with hgdef
  have hg0 : ∀ i, 0 ≤ g i := fun i => s.w1_nonneg hw i p
  have hf0 : ∀ i, 0 ≤ f i := fun i => mul_nonneg (hg0 i) (s.factorOf_mem i p).1
  have hfg : ∀ i, f i ≤ g i := fun i => by
    have := mul_le_mul_of_nonneg_left (s.factorOf_mem i p).2 (hg0 i)
    simpa [hfdef] using this
  have hsum : (L.map g).sum ≤ 1 := by
    have := s.w1_sum p
    have h' : (L.map g).sum = s.sumOver s.w1 p := rfl
    rw [h', this]
    by_cases h : s.sumOver s.w0 p > 0
    · rw [if_pos h]
    · rw [if_neg h]; norm_num
  have hk := kept_nonneg L f g (fun i _ => hf0 i)
  have hkc := kept_add_changed_le L f g (fun i _ => hfg i)
  have hfac : 0 ≤ fac L f g := by
    unfold fac
    by_cases h : keptSum L f g > 0
    · rw [if_pos h]; exact div_nonneg (by linarith) h.le
    · rw [if_neg h]
  refine ⟨by rw [finish_eq]; simp [hL], ?_, ?_, ?_⟩
  · intro x hx
    rw [finish_eq] at hx
    obtain ⟨i, _, rfl⟩ := List.mem_map.1 hx
    by_cases h : f i ≠ g i
    · rw [if_pos h]; exact hf0 i
    · rw [if_neg h]; exact mul_nonneg (hf0 i) hfac
  · rw [finish_sum]
    unfold fac
    by_cases h : keptSum L f g > 0
    · rw [if_pos h, mul_div_cancel₀ _ h.ne']; linarith
    · rw [if_neg h, mul_zero]; linarith
  · intro i hmi
    have hgi : s.w1 i p = 0 := by
      unfold w1 w0
      rw [if_pos hmi]
      by_cases h : s.sumOver (fun i p => if s.mask i p then 0 else s.w1d.getD i 0) p > 0
      · rw [if_pos h, zero_div]
      · rw [if_neg h]
    rw [finish_eq]
    by_cases hi : i < s.w1d.length
    · rw [List.getD_eq_getElem _ _ (by simp [hL, hi])]
      simp only [List.getElem_map, hL, List.getElem_range]
      have h1 : f i = 0 := by simp [hfdef, hgi]
      have h2 : g i = 0 := by simp [hgdef, hgi]
      rw [h1, h2]; simp
    · rw [List.getD_eq_default _ _ (by simp [hL]; omega)]

/-- **C24.** The weights sum to exactly one wherever some input of positive weight is unmasked and either has no masked
point at all or is at least the fuzzy length away from its own mask. -/
theorem C24_sum_one (hw : ∀ x ∈ s.w1d, 0 ≤ x) (hf : 0 < s.fuzzy)
    (hm : ∃ i, i < s.w1d.length ∧ ∃ q ∈ s.pts, s.mask i q = true) (p : P) (i : ℕ) (hi : i < s.w1d.length)
    (hpos : 0 < s.w1d.getD i 0) (hun : s.mask i p = false)
    (hfar : (∀ q ∈ s.pts, s.mask i q = false) ∨ s.fuzzy ≤ s.edt (fun q => !s.mask i q) p)
    (out : List ℚ) (h : s.process p = .ok out) : out.sum = 1 := by
  rw [s.process_eq hf p hm] at h
  injection h with h
  rw [← h, finish_sum]
  set L := List.range s.w1d.length with hL
  set f := fun i : ℕ => s.w1 i p * s.factorOf i p with hfdef
  set g := fun i : ℕ => s.w1 i p with hgdef
  have hgi : 0 < s.w1 i p := (s.w1_pos_iff hw hi p).2 ⟨hun, hpos⟩
  have hfac1 : s.factorOf i p = 1 := by
    unfold factorOf
    by_cases ha : s.allNonzero i = true
    · rw [if_pos ha]
    · rw [if_neg ha]
      rcases hfar with hfar | hfar
      · exfalso
        apply ha
        unfold allNonzero
        rw [s.nonzero_eq hw hi hpos]
        exact List.all_eq_true.2 (fun q hq => by rw [hfar q hq]; rfl)
      · rw [s.nonzero_eq hw hi hpos]
        exact npClip_of_ge zero_le_one ((one_le_div hf).2 hfar)
  have hfi : f i = g i := by simp [hfdef, hgdef, hfac1]
  have hkept : 0 < keptSum L f g := by
    have hmem : f i ∈ L.map (fun i => if f i ≠ g i then 0 else f i) :=
      List.mem_map.2 ⟨i, List.mem_range.2 hi, by rw [if_neg (not_not.2 hfi)]⟩
    have hnn : ∀ x ∈ L.map (fun i => if f i ≠ g i then 0 else f i), 0 ≤ x := by
      intro x hx
      obtain ⟨j, _, rfl⟩ := List.mem_map.1 hx
      by_cases hj : f j ≠ g j
      · rw [if_pos hj]
      · rw [if_neg hj]; exact mul_nonneg (s.w1_nonneg hw j p) (s.factorOf_mem j p).1
    have := List.single_le_sum hnn _ hmem
    have hfp : 0 < f i := by rw [hfi]; exact hgi
    exact lt_of_lt_of_le hfp this
  unfold fac
  rw [if_pos hkept, mul_div_cancel₀ _ hkept.ne']; ring

/-- **C24.** An input of positive weight that is not masked at a point keeps a positive weight there (distances to the mask being positive
outside it). -/
theorem C24_positive (hw : ∀ x ∈ s.w1d, 0 ≤ x) (hf : 0 < s.fuzzy)
    (hm : ∃ i, i < s.w1d.length ∧ ∃ q ∈ s.pts, s.mask i q = true) (p : P) (i : ℕ) (hi : i < s.w1d.length)
    (hpos : 0 < s.w1d.getD i 0) (hun : s.mask i p = false) (hedt : 0 < s.edt (fun q => !s.mask i q) p)
    (out : List ℚ) (h : s.process p = .ok out) : 0 < out.getD i 0 := by
  rw [s.process_eq hf p hm] at h
  injection h with h
  rw [← h, finish_eq]
  set L := List.range s.w1d.length with hL
  set f := fun i : ℕ => s.w1 i p * s.factorOf i p with hfdef
  set g := fun i : ℕ => s.w1 i p with hgdef
  have hgi : 0 < s.w1 i p := (s.w1_pos_iff hw hi p).2 ⟨hun, hpos⟩
  have hfacpos : 0 < s.factorOf i p := by
    unfold factorOf
    by_cases ha : s.allNonzero i = true
    · rw [if_pos ha]; exact zero_lt_one
    · rw [if_neg ha, s.nonzero_eq hw hi hpos]
      by_cases h1 : s.fuzzy ≤ s.edt (fun q => !s.mask i q) p
      · rw [npClip_of_ge zero_le_one ((one_le_div hf).2 h1)]; exact zero_lt_one
      · rw [npClip_of_mem (div_pos hedt hf).le ((div_le_one hf).2 (not_le.1 h1).le)]
        exact div_pos hedt hf
  have hfi : 0 < f i := mul_pos hgi hfacpos
  rw [List.getD_eq_getElem _ _ (by simp [hL, hi])]
  simp only [List.getElem_map, hL, List.getElem_range]
  by_cases hne : f i ≠ g i
  · rw [if_pos hne]; exact hfi
  · rw [if_neg hne]
    push Not at hne
    have hfg : ∀ j ∈ L, f j ≤ g j := fun j _ => by
      have := mul_le_mul_of_nonneg_left (s.factorOf_mem j p).2 (s.w1_nonneg hw j p)
      simpa [hfdef] using this
    have hsum : (L.map g).sum ≤ 1 := by
      have h' : (L.map g).sum = s.sumOver s.w1 p := rfl
      rw [h', s.w1_sum p]
      by_cases h : s.sumOver s.w0 p > 0
      · rw [if_pos h]
      · rw [if_neg h]; norm_num
    have hkc := kept_add_changed_le L f g hfg
    have hkept : 0 < keptSum L f g := by
      have hmem : f i ∈ L.map (fun i => if f i ≠ g i then 0 else f i) :=
        List.mem_map.2 ⟨i, List.mem_range.2 hi, by rw [if_neg (not_not.2 hne)]⟩
      have hnn : ∀ x ∈ L.map (fun i => if f i ≠ g i then 0 else f i), 0 ≤ x := by
        intro x hx
        obtain ⟨j, _, rfl⟩ := List.mem_map.1 hx
        by_cases hj : f j ≠ g j
        · rw [if_pos hj]
        · rw [if_neg hj]; exact mul_nonneg (s.w1_nonneg hw j p) (s.factorOf_mem j p).1
      exact lt_of_lt_of_le hfi (List.single_le_sum hnn _ hmem)
    have hfac : 0 < fac L f g := by
      unfold fac
      rw [if_pos hkept]
      exact div_pos (by linarith) hkept
    exact mul_pos hfi hfac

/-- **C24.** Where no input is masked, and each is without masked points or at least the fuzzy length away from them, the weights are the
given ones in proportion. -/
theorem C24_far (hw : ∀ x ∈ s.w1d, 0 < x) (hf : 0 < s.fuzzy)
    (hm : ∃ i, i < s.w1d.length ∧ ∃ q ∈ s.pts, s.mask i q = true) (p : P)
    (hfar : ∀ i, i < s.w1d.length → s.mask i p = false ∧
      ((∀ q ∈ s.pts, s.mask i q = false) ∨ s.fuzzy ≤ s.edt (fun q => !s.mask i q) p)) :
    s.process p = .ok (s.w1d.map fun x => x / s.w1d.sum) := by
  have hw' : ∀ x ∈ s.w1d, 0 ≤ x := fun x hx => (hw x hx).le
  have hposd : ∀ i, i < s.w1d.length → 0 < s.w1d.getD i 0 := fun i hi => by
    rw [List.getD_eq_getElem _ _ hi]; exact hw _ (List.getElem_mem hi)
  have hfac : ∀ i ∈ List.range s.w1d.length, s.w1 i p * s.factorOf i p = s.w1 i p := by
    intro i hi
    have hi := List.mem_range.1 hi
    have : s.factorOf i p = 1 := by
      unfold factorOf
      by_cases ha : s.allNonzero i = true
      · rw [if_pos ha]
      · rw [if_neg ha]
        rcases (hfar i hi).2 with h | h
        · exfalso
          apply ha
          unfold allNonzero
          rw [s.nonzero_eq hw' hi (hposd i hi)]
          exact List.all_eq_true.2 (fun q hq => by rw [h q hq]; rfl)
        · rw [s.nonzero_eq hw' hi (hposd i hi)]
          exact npClip_of_ge zero_le_one ((one_le_div hf).2 h)
    rw [this, mul_one]
  have hw0 : (List.range s.w1d.length).map (fun i : ℕ => s.w0 i p) = s.w1d := by
    apply List.ext_getElem
    · simp
    · intro i h1 h2
      simp only [List.getElem_map, List.getElem_range]
      unfold w0
      rw [(hfar i h2).1, if_neg (by simp), List.getD_eq_getElem _ _ h2]
  have hlen : s.w1d ≠ [] := by
    obtain ⟨i, hi, _⟩ := hm
    intro h; rw [h] at hi; simp at hi
  have hsum : 0 < s.w1d.sum := List.sum_pos _ hw hlen
  have hso : s.sumOver s.w0 p = s.w1d.sum := by unfold sumOver; rw [hw0]
  have hw1 : (List.range s.w1d.length).map (fun i : ℕ => s.w1 i p) = s.w1d.map fun x => x / s.w1d.sum := by
    conv_rhs => rw [← hw0]
    rw [List.map_map]
    apply List.map_congr_left
    intro i _
    unfold w1
    rw [hso, if_pos hsum]
    simp only [Function.comp]
    rw [hw0]
  rw [s.process_eq hf p hm, List.map_congr_left hfac, finish_eq]
  congr 1
  have hs1 : ((List.range s.w1d.length).map (fun i : ℕ => s.w1 i p)).sum = 1 := by
    have := s.w1_sum p
    rw [hso, if_pos hsum] at this
    exact this
  have hfc : fac (List.range s.w1d.length) (fun i : ℕ => s.w1 i p) (fun i : ℕ => s.w1 i p) = 1 := by
    have hz : ∀ L : List ℕ, (L.map fun _ => (0 : ℚ)).sum = 0 := by
      intro L
      induction L with
      | nil => rfl
      | cons a l ih => rw [List.map_cons, List.sum_cons, ih, add_zero]
    unfold fac keptSum changedSum
    simp only [ne_eq, not_true_eq_false, if_false, hz, sub_zero]
    rw [hs1]
    norm_num
  rw [hfc, ← hw1]
  apply List.map_congr_left
  intro i _
  simp

/-- **C24.** Without any masked point the one-dimensional weights are returned unchanged everywhere. -/
theorem C24_no_mask (hm : ∀ i, i < s.w1d.length → ∀ q ∈ s.pts, s.mask i q = false) (p : P) :
    s.process p = .ok s.w1d := by
  unfold process
  rw [if_pos]
  apply List.all_eq_true.2
  intro i hi
  apply List.all_eq_true.2
  intro q hq
  rw [hm i (List.mem_range.1 hi) q hq]; rfl

/-- Example input on a line of four points: both inputs are masked at point 3 only. -/
def exBoth : SWInput ℕ :=
  { pts := [0, 1, 2, 3], w1d := [1/2, 1/2], mask := fun _ q => q == 3, fuzzy := 2,
    edt := fun f q => if f q then (3 - q : ℚ) else 0 }

/-- Example input: only the second input is masked at point 3. -/
def exOne : SWInput ℕ := { exBoth with mask := fun i q => i == 1 && q == 3 }

/-- C24 (finding): where every contributing input is within the fuzzy length of its mask the weights do not sum to one:
here they sum to one half although both inputs are valid at the point. -/
theorem C24_deficit_refuted : exBoth.process 2 = .ok [1/4, 1/4] := by decide +kernel

example : exBoth.process 0 = .ok [1/2, 1/2] ∧ exBoth.process 3 = .ok [0, 0] := by decide +kernel
example : exOne.process 2 = .ok [3/4, 1/4] ∧ exOne.process 3 = .ok [1, 0] ∧ exOne.process 0 = .ok [1/2, 1/2] := by
  decide +kernel

end SWInput
end Improver
