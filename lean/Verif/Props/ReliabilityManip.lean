import Verif.Model.Reliability
import Verif.Lemmas.ListAux
import Mathlib.Data.List.GetD

/-! Properties C30 and C31: manipulation of reliability tables. -/

namespace Improver

/-- Specification: the bin obtained by pooling a run of adjacent bins: sums of the three counts, outer bounds. -/
def Spec.pool (g : List RelBin) : RelBin :=
  ⟨(g.map RelBin.obs).sum, (g.map RelBin.psum).sum, (g.map RelBin.fc).sum, (g.headD zeroBin).lo, (g.getLastD zeroBin).hi⟩

/-- Specification: `out` is obtained from `l` by pooling runs of adjacent bins: `l` is cut into non-empty consecutive groups
and each group becomes one bin. -/
def Spec.PooledFrom (l out : List RelBin) : Prop :=
  ∃ groups : List (List RelBin), (∀ g ∈ groups, g ≠ []) ∧ groups.flatten = l ∧ out = groups.map Spec.pool

theorem pool_append {g h : List RelBin} (hg : g ≠ []) (hh : h ≠ []) :
    Spec.pool (g ++ h) = mergeBin (Spec.pool g) (Spec.pool h) := by
  unfold Spec.pool mergeBin
  simp only [List.map_append, List.sum_append]
  congr 1
  · cases g with
    | nil => exact absurd rfl hg
    | cons a g => rfl
  · cases h with
    | nil => exact absurd rfl hh
    | cons a h => simp [List.getLastD_eq_getLast?, List.getLast?_append, List.getLast?_cons]

theorem split_at_pair {α : Type} (l : List α) (u : ℕ) (h1 : 1 ≤ u) (h2 : u < l.length) :
    ∃ A x y B, l = A ++ x :: y :: B ∧ A.length = u - 1 := by
  refine ⟨l.take (u - 1), l[u - 1], l[u], l.drop (u + 1), ?_, by simp; omega⟩
  have e1 : l.drop (u - 1) = l[u - 1] :: l.drop u := by
    rw [List.drop_eq_getElem_cons (by omega : u - 1 < l.length)]
    have : u - 1 + 1 = u := by omega
    rw [this]
  have e2 : l.drop u = l[u] :: l.drop (u + 1) := List.drop_eq_getElem_cons h2
  rw [← e2, ← e1, List.take_append_drop]

theorem sumPairs_split (A B : List RelBin) (x y : RelBin) (u : ℕ) (hu : 1 ≤ u) (hA : A.length = u - 1) :
    sumPairs (A ++ x :: y :: B) u = A ++ mergeBin x y :: B := by
  unfold sumPairs
  have e0 : u = A.length + 1 := by omega
  subst e0
  simp only [Nat.add_sub_cancel]
  congr 1
  · simp
  · congr 1
    · congr 1
      · simp [List.getD_eq_getElem?_getD]
      · simp [List.getD_eq_getElem?_getD, List.getElem?_append]
    · have : A.length + 1 + 1 = A.length + 2 := rfl
      rw [this, List.drop_append]; simp

theorem pooled_refl (l : List RelBin) : Spec.PooledFrom l l := by
  refine ⟨l.map (fun b => [b]), ?_, ?_, ?_⟩
  · intro g hg
    obtain ⟨b, _, rfl⟩ := List.mem_map.1 hg
    simp
  · induction l with
    | nil => rfl
    | cons a l ih => rw [List.map_cons, List.flatten_cons, ih]; rfl
  · rw [List.map_map]
    symm
    conv_rhs => rw [← List.map_id l]
    apply List.map_congr_left
    intro b _
    simp [Spec.pool]

theorem pooled_sumPairs {l0 l : List RelBin} (h : Spec.PooledFrom l0 l) {u : ℕ} (h1 : 1 ≤ u) (h2 : u < l.length) :
    Spec.PooledFrom l0 (sumPairs l u) := by
  obtain ⟨gs, hne, hfl, rfl⟩ := h
  rw [List.length_map] at h2
  obtain ⟨A, x, y, B, rfl, hA⟩ := split_at_pair gs u h1 h2
  refine ⟨A ++ (x ++ y) :: B, ?_, ?_, ?_⟩
  · intro g hg
    rcases List.mem_append.1 hg with hg | hg
    · exact hne g (by simp [hg])
    · rcases List.mem_cons.1 hg with rfl | hg
      · have := hne x (by simp)
        simp [this]
      · exact hne g (by simp [hg])
  · rw [← hfl]; simp
  · simp only [List.map_append, List.map_cons]
    rw [sumPairs_split _ _ _ _ _ h1 (by simpa using hA), pool_append (hne x (by simp)) (hne y (by simp))]

/-! ### The choice of bins -/

theorem bestBelow_none {m : ℚ} : ∀ {l : List ℚ}, bestBelow m l = none → ∀ x ∈ l, m ≤ x
  | [], _ => by simp
  | a :: l, h => by
    simp only [bestBelow] at h
    cases hb : bestBelow m l with
    | none =>
      rw [hb] at h
      by_cases ha : a < m
      · simp [ha] at h
      · intro x hx
        rcases List.mem_cons.1 hx with rfl | hx
        · exact not_lt.1 ha
        · exact bestBelow_none hb x hx
    | some p =>
      rw [hb] at h
      simp only [] at h
      by_cases ha : a < m ∧ p.2 ≤ a
      · rw [if_pos ha] at h; cases h
      · rw [if_neg ha] at h; cases h

theorem bestBelow_some {m : ℚ} : ∀ {l : List ℚ} {i : ℕ} {v : ℚ}, bestBelow m l = some (i, v) →
    ∃ hi : i < l.length, l[i] = v ∧ v < m ∧ (∀ j (hj : j < l.length), l[j] < m → l[j] ≤ v) ∧
      (∀ j (hj : j < i), l[j] < m → l[j] < v)
  | [], i, v, h => by cases h
  | a :: l, i, v, h => by
    simp only [bestBelow] at h
    cases hb : bestBelow m l with
    | none =>
      rw [hb] at h
      by_cases ha : a < m
      · simp only [ha, if_true] at h
        injection h with h
        injection h with h1 h2
        subst h1; subst h2
        refine ⟨by simp, rfl, ha, ?_, ?_⟩
        · intro j hj hlt
          cases j with
          | zero => exact le_rfl
          | succ j =>
            have := bestBelow_none hb _ (List.getElem_mem (by simpa using hj))
            simp only [List.getElem_cons_succ] at hlt
            exact absurd hlt (not_lt.2 this)
        · intro j hj; omega
      · simp [ha] at h
    | some p =>
      obtain ⟨i', v'⟩ := p
      obtain ⟨hi, he, hm, hmax, hfirst⟩ := bestBelow_some hb
      rw [hb] at h
      simp only [] at h
      by_cases ha : a < m ∧ v' ≤ a
      · rw [if_pos ha] at h
        injection h with h
        injection h with h1 h2
        subst h1; subst h2
        refine ⟨by simp, rfl, ha.1, ?_, ?_⟩
        · intro j hj hlt
          cases j with
          | zero => exact le_rfl
          | succ j =>
            simp only [List.getElem_cons_succ] at hlt ⊢
            exact le_trans (hmax j (by simpa using hj) hlt) ha.2
        · intro j hj; omega
      · rw [if_neg ha] at h
        injection h with h
        injection h with h1 h2
        subst h1; subst h2
        refine ⟨by simpa using hi, by simpa using he, hm, ?_, ?_⟩
        · intro j hj hlt
          cases j with
          | zero =>
            simp only [List.getElem_cons_zero] at hlt ⊢
            by_contra hc
            exact ha ⟨hlt, (not_le.1 hc).le⟩
          | succ j =>
            simp only [List.getElem_cons_succ] at hlt ⊢
            exact hmax j (by simpa using hj) hlt
        · intro j hj hlt
          cases j with
          | zero =>
            simp only [List.getElem_cons_zero] at hlt ⊢
            by_contra hc
            exact ha ⟨hlt, not_lt.1 hc⟩
          | succ j =>
            simp only [List.getElem_cons_succ] at hlt ⊢
            exact hfirst j (by omega) hlt

theorem chooseUpper_range (fc : List ℚ) (i : ℕ) (hi : i < fc.length) (hn : 1 < fc.length) :
    1 ≤ chooseUpper fc i ∧ chooseUpper fc i < fc.length ∧ (chooseUpper fc i = i ∨ chooseUpper fc i = i + 1) := by
  unfold chooseUpper
  split_ifs <;> omega

/-- **C30** (which bins are combined): at each step the pair consists of the best sampled of the under-sampled bins (the
lowest one when several tie) and the less well sampled of its neighbours (the upper one when they tie). -/
theorem C30_choice (m : ℚ) (fc : List ℚ) (i : ℕ) (v : ℚ) (h : bestBelow m fc = some (i, v)) (hn : 1 < fc.length) :
    (∃ hi : i < fc.length, fc[i] < m ∧ (∀ j (hj : j < fc.length), fc[j] < m → fc[j] ≤ fc[i]) ∧
      (∀ j (hj : j < i), fc[j] < m → fc[j] < fc[i])) ∧
    (∀ (h0 : 0 < i) (h1 : i + 1 < fc.length), chooseUpper fc i = if fc[i - 1] < fc[i + 1] then i else i + 1) ∧
    (i = 0 → chooseUpper fc i = 1) ∧ (i + 1 = fc.length → chooseUpper fc i = i) := by
  obtain ⟨hi, he, hm, hmax, hfirst⟩ := bestBelow_some h
  refine ⟨⟨hi, he ▸ hm, fun j hj hl => he ▸ hmax j hj hl, fun j hj hl => he ▸ hfirst j hj hl⟩, ?_, ?_, ?_⟩
  · intro h0 h1
    unfold chooseUpper
    rw [if_neg (by omega), if_neg (by omega), List.getD_eq_getElem _ _ h1, List.getD_eq_getElem _ _ (by omega)]
  · intro h0; unfold chooseUpper; rw [if_pos h0, h0]
  · intro h1; unfold chooseUpper; rw [if_neg (by omega), if_pos h1]

theorem sumPairs_length (l : List RelBin) (u : ℕ) (h1 : 1 ≤ u) (h2 : u < l.length) :
    (sumPairs l u).length = l.length - 1 := by
  unfold sumPairs
  simp only [List.length_append, List.length_take, List.length_cons, List.length_drop]
  omega

theorem combineLoop_spec (m : ℚ) (l0 : List RelBin) : ∀ (k : ℕ) (l : List RelBin), l.length ≤ k + 1 →
    Spec.PooledFrom l0 l →
    Spec.PooledFrom l0 (combineLoop m k l) ∧
      ((∀ b ∈ combineLoop m k l, m ≤ b.fc) ∨ (combineLoop m k l).length ≤ 1)
  | 0, l, hl, hp => ⟨hp, .inr hl⟩
  | k + 1, l, hl, hp => by
    simp only [combineLoop]
    by_cases hc : (l.any (fun b => decide (b.fc < m)) && decide (1 < l.length)) = true
    · rw [if_pos hc]
      rw [Bool.and_eq_true, decide_eq_true_eq] at hc
      cases hb : bestBelow m (l.map RelBin.fc) with
      | none =>
        refine ⟨hp, .inl ?_⟩
        intro b hbm
        exact bestBelow_none hb _ (List.mem_map_of_mem hbm)
      | some p =>
        obtain ⟨i, v⟩ := p
        obtain ⟨hi, _⟩ := bestBelow_some hb
        obtain ⟨u1, u2, _⟩ := chooseUpper_range (l.map RelBin.fc) i hi (by simpa using hc.2)
        rw [List.length_map] at u2
        simp only []
        exact combineLoop_spec m l0 k _ (by rw [sumPairs_length l _ u1 u2]; omega) (pooled_sumPairs hp u1 u2)
    · rw [if_neg hc]
      refine ⟨hp, ?_⟩
      simp only [Bool.and_eq_true, decide_eq_true_eq, List.any_eq_true, not_and] at hc
      by_cases hany : ∃ x ∈ l, x.fc < m
      · exact .inr (by have := hc hany; omega)
      · left
        intro b hb
        by_contra hlt
        exact hany ⟨b, hb, not_le.1 hlt⟩

/-- **C30.** Combining under-sampled bins pools runs of adjacent bins (conserving all three counts bin by bin and leaving
neither gaps nor overlaps), and ends with every bin at or above the minimum count, or with a single bin. -/
theorem C30_combine (m : ℚ) (l : List RelBin) :
    Spec.PooledFrom l (combineUndersampled m l) ∧
    ((∀ b ∈ combineUndersampled m l, m ≤ b.fc) ∨ (combineUndersampled m l).length ≤ 1) :=
  combineLoop_spec m l l.length l (by omega) (pooled_refl l)

theorem pooled_sum {l out : List RelBin} (h : Spec.PooledFrom l out) :
    (out.map RelBin.obs).sum = (l.map RelBin.obs).sum ∧ (out.map RelBin.psum).sum = (l.map RelBin.psum).sum ∧
    (out.map RelBin.fc).sum = (l.map RelBin.fc).sum := by
  obtain ⟨gs, hne, rfl, rfl⟩ := h
  clear hne
  induction gs with
  | nil => simp
  | cons g gs ih =>
    simp only [List.map_cons, List.sum_cons, List.flatten_cons, List.map_append, List.sum_append]
    obtain ⟨h1, h2, h3⟩ := ih
    rw [h1, h2, h3]
    simp [Spec.pool]

theorem pooled_ends {l out : List RelBin} (h : Spec.PooledFrom l out) :
    (out = [] ↔ l = []) ∧ (out.headD zeroBin).lo = (l.headD zeroBin).lo ∧
    (out.getLastD zeroBin).hi = (l.getLastD zeroBin).hi := by
  obtain ⟨gs, hne, rfl, rfl⟩ := h
  refine ⟨?_, ?_, ?_⟩
  · cases gs with
    | nil => simp
    | cons g gs => have := hne g (by simp); simp [this]
  · cases gs with
    | nil => simp
    | cons g gs =>
      cases g with
      | nil => exact absurd rfl (hne [] (by simp))
      | cons a g => simp [Spec.pool]
  · rcases List.eq_nil_or_concat gs with rfl | ⟨gs, g, rfl⟩
    · simp
    · have hg := hne g (by simp)
      rcases List.eq_nil_or_concat g with rfl | ⟨g, b, rfl⟩
      · exact absurd rfl hg
      · simp [Spec.pool, List.getLastD_eq_getLast?]

/-- **C30** (totals): the three totals and the range covered by the bins are conserved. -/
theorem C30_totals (m : ℚ) (l : List RelBin) :
    ((combineUndersampled m l).map RelBin.obs).sum = (l.map RelBin.obs).sum ∧
    ((combineUndersampled m l).map RelBin.psum).sum = (l.map RelBin.psum).sum ∧
    ((combineUndersampled m l).map RelBin.fc).sum = (l.map RelBin.fc).sum ∧
    ((combineUndersampled m l).headD zeroBin).lo = (l.headD zeroBin).lo ∧
    ((combineUndersampled m l).getLastD zeroBin).hi = (l.getLastD zeroBin).hi := by
  obtain ⟨h1, h2, h3⟩ := pooled_sum (C30_combine m l).1
  obtain ⟨_, h4, h5⟩ := pooled_ends (C30_combine m l).1
  exact ⟨h1, h2, h3, h4, h5⟩

/-- A five-bin example. -/
def exTable : List RelBin := [⟨0, 1, 100, 0, 1/5⟩, ⟨50, 60, 200, 1/5, 2/5⟩, ⟨90, 50, 100, 2/5, 3/5⟩, ⟨10, 35, 50, 3/5, 4/5⟩, ⟨300, 280, 300, 4/5, 1⟩]

example : combineUndersampled 200 exTable
    = [⟨50, 61, 300, 0, 2/5⟩, ⟨400, 365, 450, 2/5, 1⟩] := by decide +kernel

/-! ### C31 -/

theorem npDiff_all_nonneg {l : List ℚ} : (npDiff l).all (fun d => decide (d ≥ 0)) = true ↔ l.Pairwise (· ≤ ·) := by
  induction l with
  | nil => simp [npDiff]
  | cons a l ih =>
    cases l with
    | nil => simp [npDiff]
    | cons b l =>
      simp only [npDiff, List.all_cons, Bool.and_eq_true, decide_eq_true_eq]
      rw [ih]
      constructor
      · rintro ⟨h1, h2⟩
        refine List.pairwise_cons.2 ⟨?_, h2⟩
        intro x hx
        rcases List.mem_cons.1 hx with rfl | hx
        · linarith
        · have := (List.pairwise_cons.1 h2).1 x hx; linarith
      · intro h
        have h1 := (List.pairwise_cons.1 h).1 b (by simp)
        exact ⟨by linarith, (List.pairwise_cons.1 h).2⟩

theorem npDiff_all_nonpos {l : List ℚ} : (npDiff l).all (fun d => decide (d ≤ 0)) = true ↔ l.Pairwise (· ≥ ·) := by
  induction l with
  | nil => simp [npDiff]
  | cons a l ih =>
    cases l with
    | nil => simp [npDiff]
    | cons b l =>
      simp only [npDiff, List.all_cons, Bool.and_eq_true, decide_eq_true_eq]
      rw [ih]
      constructor
      · rintro ⟨h1, h2⟩
        refine List.pairwise_cons.2 ⟨?_, h2⟩
        intro x hx
        rcases List.mem_cons.1 hx with rfl | hx
        · linarith
        · have := (List.pairwise_cons.1 h2).1 x hx; linarith
      · intro h
        have h1 := (List.pairwise_cons.1 h).1 b (by simp)
        exact ⟨by linarith, (List.pairwise_cons.1 h).2⟩

theorem runUp_spec : ∀ (prev : ℚ) (l : List ℚ), (runUp prev l).length = l.length ∧ (prev :: runUp prev l).Pairwise (· ≤ ·) ∧
    ∀ x ∈ runUp prev l, x = prev ∨ x ∈ l
  | _, [] => by simp [runUp]
  | prev, a :: l => by
    simp only [runUp]
    by_cases h : a - prev < 0
    · simp only [if_pos h]
      obtain ⟨h1, h2, h3⟩ := runUp_spec prev l
      refine ⟨by simp [h1], ?_, ?_⟩
      · refine List.pairwise_cons.2 ⟨?_, h2⟩
        intro x hx
        rcases List.mem_cons.1 hx with rfl | hx
        · exact le_rfl
        · exact (List.pairwise_cons.1 h2).1 x hx
      · intro x hx
        rcases List.mem_cons.1 hx with rfl | hx
        · exact .inl rfl
        · rcases h3 x hx with h | h
          · exact .inl h
          · exact .inr (List.mem_cons_of_mem _ h)
    · simp only [if_neg h]
      obtain ⟨h1, h2, h3⟩ := runUp_spec a l
      refine ⟨by simp [h1], ?_, ?_⟩
      · refine List.pairwise_cons.2 ⟨?_, h2⟩
        intro x hx
        rcases List.mem_cons.1 hx with rfl | hx
        · linarith
        · have := (List.pairwise_cons.1 h2).1 x hx; linarith
      · intro x hx
        rcases List.mem_cons.1 hx with rfl | hx
        · exact .inr (by simp)
        · rcases h3 x hx with h | h
          · exact .inr (by simp [h])
          · exact .inr (List.mem_cons_of_mem _ h)

theorem runDown_spec : ∀ (prev : ℚ) (l : List ℚ), (runDown prev l).length = l.length ∧
    (prev :: runDown prev l).Pairwise (· ≥ ·) ∧ ∀ x ∈ runDown prev l, x = prev ∨ x ∈ l
  | _, [] => by simp [runDown]
  | prev, a :: l => by
    simp only [runDown]
    by_cases h : a - prev > 0
    · simp only [if_pos h]
      obtain ⟨h1, h2, h3⟩ := runDown_spec prev l
      refine ⟨by simp [h1], ?_, ?_⟩
      · refine List.pairwise_cons.2 ⟨?_, h2⟩
        intro x hx
        rcases List.mem_cons.1 hx with rfl | hx
        · exact le_rfl
        · exact (List.pairwise_cons.1 h2).1 x hx
      · intro x hx
        rcases List.mem_cons.1 hx with rfl | hx
        · exact .inl rfl
        · rcases h3 x hx with h | h
          · exact .inl h
          · exact .inr (List.mem_cons_of_mem _ h)
    · simp only [if_neg h]
      obtain ⟨h1, h2, h3⟩ := runDown_spec a l
      refine ⟨by simp [h1], ?_, ?_⟩
      · refine List.pairwise_cons.2 ⟨?_, h2⟩
        intro x hx
        rcases List.mem_cons.1 hx with rfl | hx
        · change x ≤ prev; linarith
        · have : x ≤ a := (List.pairwise_cons.1 h2).1 x hx
          change x ≤ prev; linarith
      · intro x hx
        rcases List.mem_cons.1 hx with rfl | hx
        · exact .inr (by simp)
        · rcases h3 x hx with h | h
          · exact .inr (by simp [h])
          · exact .inr (List.mem_cons_of_mem _ h)

theorem constantFreq_spec (freq : List ℚ) (td : Bool) : (constantFreq freq td).length = freq.length ∧
    (constantFreq freq td).Pairwise (· ≤ ·) ∧ ∀ x ∈ constantFreq freq td, x ∈ freq := by
  unfold constantFreq
  by_cases h : td = true
  · rw [if_pos h]
    cases hr : freq.reverse with
    | nil =>
      have : freq = [] := by simpa using hr
      subst this; simp
    | cons a l =>
      simp only []
      obtain ⟨h1, h2, h3⟩ := runDown_spec a l
      have hlen : freq.length = l.length + 1 := by rw [← List.length_reverse, hr]; rfl
      refine ⟨by simp [h1, hlen], ?_, ?_⟩
      · rw [List.pairwise_reverse]; exact h2
      · intro x hx
        have hm : ∀ y, y ∈ freq ↔ y ∈ a :: l := by intro y; rw [← hr, List.mem_reverse]
        rw [hm]
        rw [List.mem_reverse] at hx
        rcases List.mem_cons.1 hx with rfl | hx
        · simp
        · rcases h3 x hx with rfl | hx <;> simp [*]
  · rw [if_neg h]
    cases freq with
    | nil => simp
    | cons a l =>
      simp only []
      obtain ⟨h1, h2, h3⟩ := runUp_spec a l
      refine ⟨by simp [h1], h2, ?_⟩
      intro x hx
      rcases List.mem_cons.1 hx with rfl | hx
      · simp
      · rcases h3 x hx with rfl | hx <;> simp [*]

theorem findDescent_range (freq : List ℚ) : ∀ (n u : ℕ), findDescent freq n = some u → 1 ≤ u ∧ u ≤ n
  | 0, u, h => by cases h
  | n + 1, u, h => by
    simp only [findDescent] at h
    by_cases hc : freq.getD (n + 1) 0 - freq.getD n 0 < 0
    · rw [if_pos hc] at h; injection h with h; omega
    · rw [if_neg hc] at h
      have := findDescent_range freq n u h
      omega

theorem combineBinPair_pooled {l0 l : List RelBin} (h : Spec.PooledFrom l0 l) : Spec.PooledFrom l0 (combineBinPair l) := by
  unfold combineBinPair
  cases hf : findDescent (obsFreq l) (l.length - 1) with
  | none => exact h
  | some u =>
    obtain ⟨h1, h2⟩ := findDescent_range _ _ _ hf
    exact pooled_sumPairs h h1 (by omega)

/-- In a pooled table of bins satisfying an additive-closed condition every bin satisfies it. -/
theorem pooled_forall {P : RelBin → Prop} (hP : ∀ a b, P a → P b → P (mergeBin a b)) {l out : List RelBin}
    (h : Spec.PooledFrom l out) (hl : ∀ b ∈ l, P b) : ∀ b ∈ out, P b := by
  obtain ⟨gs, hne, rfl, rfl⟩ := h
  intro b hb
  obtain ⟨g, hg, rfl⟩ := List.mem_map.1 hb
  have hg' : ∀ b ∈ g, P b := fun b hb => hl b (List.mem_flatten.2 ⟨g, hg, hb⟩)
  have key : ∀ g : List RelBin, g ≠ [] → (∀ b ∈ g, P b) → P (Spec.pool g) := by
    intro g
    induction g with
    | nil => intro h; exact absurd rfl h
    | cons a g ih =>
      intro _ hall
      cases g with
      | nil =>
        have : Spec.pool [a] = a := by simp [Spec.pool]
        rw [this]; exact hall a (by simp)
      | cons c g =>
        have e : a :: c :: g = [a] ++ (c :: g) := rfl
        rw [e, pool_append (by simp) (by simp)]
        have : Spec.pool [a] = a := by simp [Spec.pool]
        rw [this]
        exact hP _ _ (hall a (by simp)) (ih (by simp) (fun b hb => hall b (List.mem_cons_of_mem _ hb)))
  exact key g (hne g hg) hg'

/-- The fields that `_assume_constant_observation_frequency` leaves alone. -/
def Spec.fixed (b : RelBin) : ℚ × ℚ × ℚ × ℚ := (b.psum, b.fc, b.lo, b.hi)

theorem assumeConstant_fixed (l : List RelBin) : (assumeConstant l).map Spec.fixed = l.map Spec.fixed := by
  unfold assumeConstant
  simp only []
  have hlen := (constantFreq_spec (obsFreq l) (decide ((l.map RelBin.fc).headD 0 < (l.map RelBin.fc).getLastD 0))).1
  apply List.ext_getElem
  · rw [List.length_map, List.length_zipWith, hlen]; simp [obsFreq]
  · intro i h1 h2
    simp [Spec.fixed]

theorem assumeConstant_freq (l : List RelBin) (hpos : ∀ b ∈ l, 0 < b.fc) :
    obsFreq (assumeConstant l)
      = constantFreq (obsFreq l) (decide ((l.map RelBin.fc).headD 0 < (l.map RelBin.fc).getLastD 0)) := by
  have hlen := (constantFreq_spec (obsFreq l) (decide ((l.map RelBin.fc).headD 0 < (l.map RelBin.fc).getLastD 0))).1
  have hl2 : (obsFreq l).length = l.length := by simp [obsFreq]
  unfold assumeConstant
  simp only []
  generalize constantFreq (obsFreq l) (decide ((l.map RelBin.fc).headD 0 < (l.map RelBin.fc).getLastD 0)) = cf at *
  rw [hl2] at hlen
  apply List.ext_getElem
  · simp [obsFreq, hlen]
  · intro i h1 h2
    simp only [obsFreq, List.getElem_map, List.getElem_zipWith]
    have hi : i < l.length := by omega
    have := hpos _ (List.getElem_mem hi)
    field_simp

/-- The table after the minimum count step. -/
theorem afterMinCount (m : ℚ) (l : List RelBin) :
    let l1 := if l.any (fun b => decide (b.fc < m)) then combineUndersampled m l else l
    Spec.PooledFrom l l1 ∧ ((∀ b ∈ l1, m ≤ b.fc) ∨ l1.length ≤ 1) := by
  intro l1
  by_cases h : l.any (fun b => decide (b.fc < m)) = true
  · have e : l1 = combineUndersampled m l := if_pos h
    rw [e]; exact C30_combine m l
  · have e : l1 = l := if_neg h
    rw [e]
    refine ⟨pooled_refl l, .inl ?_⟩
    intro b hb
    by_contra hc
    exact h (List.any_eq_true.2 ⟨b, hb, by simpa using hc⟩)

theorem not_monotone_length {l : List RelBin} (h : ¬ (npDiff (obsFreq l)).all (fun d => decide (d ≥ 0)) = true) :
    1 < l.length := by
  by_contra hc
  apply h
  match l, hc with
  | [], _ => rfl
  | [a], _ => rfl
  | a :: b :: l, hc => simp at hc

/-- **C31.** For every table and every accepted minimum count, the observation frequencies of the manipulated table are
non-decreasing; its bins are pools of runs of adjacent input bins as far as forecast counts, forecast probability sums
and bin bounds are concerned (so these are conserved); every bin reaches the minimum count or there is only one bin; and when
every input bin has no more (and no negative) observations than forecasts, so has every output bin. -/
theorem C31_manipulated (m m' : ℚ) (hm : manipulateInit m' = .ok m) (l : List RelBin) :
    (obsFreq (enforceTable m l)).Pairwise (· ≤ ·) ∧
    (∃ pooled, Spec.PooledFrom l pooled ∧ (enforceTable m l).map Spec.fixed = pooled.map Spec.fixed) ∧
    ((∀ b ∈ enforceTable m l, m ≤ b.fc) ∨ (enforceTable m l).length ≤ 1) ∧
    ((∀ b ∈ l, 0 ≤ b.obs ∧ b.obs ≤ b.fc) → ∀ b ∈ enforceTable m l, 0 ≤ b.obs ∧ b.obs ≤ b.fc) := by
  have hm1 : 1 ≤ m := by
    unfold manipulateInit at hm
    by_cases h : m' < 1
    · rw [if_pos h] at hm; cases hm
    · rw [if_neg h] at hm; injection hm with hm; rw [← hm]; exact not_lt.1 h
  obtain ⟨hp, hcount⟩ := afterMinCount m l
  unfold enforceTable
  simp only []
  generalize (if l.any (fun b => decide (b.fc < m)) then combineUndersampled m l else l) = l1 at *
  have hclosed : ∀ a b : RelBin, (0 ≤ a.obs ∧ a.obs ≤ a.fc) → (0 ≤ b.obs ∧ b.obs ≤ b.fc) →
      (0 ≤ (mergeBin a b).obs ∧ (mergeBin a b).obs ≤ (mergeBin a b).fc) := by
    intro a b h1 h2
    simp only [mergeBin]
    constructor <;> linarith [h1.1, h1.2, h2.1, h2.2]
  by_cases hmono : (npDiff (obsFreq l1)).all (fun d => decide (d ≥ 0)) = true
  · have hc : ¬ ((!(npDiff (obsFreq l1)).all (fun d => decide (d ≥ 0))) = true) := by simp [hmono]
    rw [if_neg hc]
    exact ⟨npDiff_all_nonneg.1 hmono, ⟨l1, hp, rfl⟩, hcount, fun hall => pooled_forall hclosed hp hall⟩
  · have hc : (!(npDiff (obsFreq l1)).all (fun d => decide (d ≥ 0))) = true := by simpa using hmono
    rw [if_pos hc]
    have hlen := not_monotone_length hmono
    have hge : ∀ b ∈ l1, m ≤ b.fc := by
      rcases hcount with h | h
      · exact h
      · omega
    have hp2 := combineBinPair_pooled hp
    have hp12 : Spec.PooledFrom l1 (combineBinPair l1) := combineBinPair_pooled (pooled_refl l1)
    have hge2 : ∀ b ∈ combineBinPair l1, m ≤ b.fc :=
      pooled_forall (P := fun b => m ≤ b.fc) (fun a b h1 h2 => by simp only [mergeBin]; linarith) hp12 hge
    have hpos2 : ∀ b ∈ combineBinPair l1, 0 < b.fc := fun b hb => by linarith [hge2 b hb]
    obtain ⟨c1, c2, c3⟩ := constantFreq_spec (obsFreq (combineBinPair l1))
      (decide (((combineBinPair l1).map RelBin.fc).headD 0 < ((combineBinPair l1).map RelBin.fc).getLastD 0))
    have hfreq := assumeConstant_freq _ hpos2
    have hfix := assumeConstant_fixed (combineBinPair l1)
    have hfc : ∀ b ∈ assumeConstant (combineBinPair l1), m ≤ b.fc := by
      intro b hb
      have : Spec.fixed b ∈ (combineBinPair l1).map Spec.fixed := by rw [← hfix]; exact List.mem_map_of_mem hb
      obtain ⟨b', hb', he⟩ := List.mem_map.1 this
      have : b'.fc = b.fc := congrArg (fun t => t.2.1) he
      rw [← this]; exact hge2 b' hb'
    refine ⟨by rw [hfreq]; exact c2, ⟨_, hp2, hfix⟩, .inl hfc, ?_⟩
    intro hall b hb
    have hall2 := pooled_forall hclosed hp2 hall
    have hbpos : 0 < b.fc := by linarith [hfc b hb]
    have hbf : b.obs / b.fc ∈ obsFreq (combineBinPair l1) := by
      apply c3; rw [← hfreq]
      exact List.mem_map_of_mem (f := fun b : RelBin => b.obs / b.fc) hb
    obtain ⟨b', hb', he⟩ := List.mem_map.1 hbf
    obtain ⟨o1, o2⟩ := hall2 b' hb'
    have hb'pos := hpos2 b' hb'
    have f0 : 0 ≤ b.obs / b.fc := by rw [← he]; exact div_nonneg o1 hb'pos.le
    have f1 : b.obs / b.fc ≤ 1 := by rw [← he]; exact (div_le_one hb'pos).2 o2
    exact ⟨by rw [← div_mul_cancel₀ b.obs hbpos.ne']; exact mul_nonneg f0 hbpos.le, (div_le_one hbpos).1 f1⟩

/-- **C31** (unchanged): a table that already has enough forecasts in every bin and non-decreasing observation frequencies is
returned unchanged. -/
theorem C31_unchanged (m : ℚ) (l : List RelBin) (hc : ∀ b ∈ l, m ≤ b.fc) (hf : (obsFreq l).Pairwise (· ≤ ·)) :
    enforceTable m l = l := by
  have h1 : ¬ l.any (fun b => decide (b.fc < m)) = true := by
    simp only [List.any_eq_true, decide_eq_true_eq, not_exists, not_and, not_lt]
    exact hc
  unfold enforceTable
  simp only []
  rw [if_neg h1]
  rw [npDiff_all_nonneg.2 hf]
  rfl

/-- **C31** (idempotence): manipulating a manipulated table changes nothing. -/
theorem C31_idempotent (m m' : ℚ) (hm : manipulateInit m' = .ok m) (l : List RelBin) :
    enforceTable m (enforceTable m l) = enforceTable m l := by
  obtain ⟨h1, _, h3, _⟩ := C31_manipulated m m' hm l
  generalize enforceTable m l = t at *
  rcases h3 with h3 | h3
  · exact C31_unchanged m t h3 h1
  · have hnocomb : combineUndersampled m t = t := by
      unfold combineUndersampled
      cases hl : t.length with
      | zero => rfl
      | succ k =>
        simp only [combineLoop]
        have : ¬ (t.any (fun b => decide (b.fc < m)) && decide (1 < t.length)) = true := by
          rw [Bool.and_eq_true, decide_eq_true_eq]; omega
        rw [if_neg this]
    unfold enforceTable
    simp only [hnocomb, ite_self]
    rw [npDiff_all_nonneg.2 h1]
    rfl

example : manipulateInit 200 = .ok 200 := by decide +kernel
example : enforceTable 50 exTable = [⟨0, 1, 100, 0, 1/5⟩, ⟨50, 60, 200, 1/5, 2/5⟩, ⟨100, 85, 150, 2/5, 4/5⟩, ⟨300, 280, 300, 4/5, 1⟩] := by
  decide +kernel

end Improver
