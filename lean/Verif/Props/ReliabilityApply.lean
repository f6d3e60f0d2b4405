import Verif.Props.ReliabilityManip
import Verif.Lemmas.NpInterp

/-! Property C33: applying reliability calibration. -/

namespace Improver

/-- Specification: the straight line through points `k` and `k + 1` of the reliability curve, at `v`. -/
def Spec.relLine (p f : List ℚ) (k : ℕ) (v : ℚ) : ℚ :=
  f.getD k 0 + (f.getD (k + 1) 0 - f.getD k 0) * ((v - p.getD k 0) / (p.getD (k + 1) 0 - p.getD k 0))

/-- Specification: the curve's segment to use for `v`: the one containing `v`, the first and last segments being extended to 0
and to 1. -/
def Spec.relSegment (p : List ℚ) (k : ℕ) (v : ℚ) : Prop :=
  k + 1 < p.length ∧ (k = 0 ∨ p.getD k 0 ≤ v) ∧ (k + 2 = p.length ∨ v ≤ p.getD (k + 1) 0)

/-- Specification: mean forecast probabilities of the bins, strictly ascending and within [0, 1]. -/
structure Spec.RelCurve (p f : List ℚ) : Prop where
  two : 2 ≤ p.length
  len : f.length = p.length
  asc : p.Pairwise (· < ·)
  rng : ∀ x ∈ p, 0 ≤ x ∧ x ≤ 1

theorem setEnds_length (l : List ℚ) (a b : ℚ) : (setEnds l a b).length = l.length := by simp [setEnds]

theorem setEnds_getD (l : List ℚ) (a b : ℚ) (h : 2 ≤ l.length) (i : ℕ) :
    (setEnds l a b).getD i 0 = if i = 0 then a else if i + 1 = l.length then b else l.getD i 0 := by
  unfold setEnds
  rw [List.getD_eq_getElem?_getD, List.getD_eq_getElem?_getD, List.getElem?_set, List.getElem?_set]
  by_cases h0 : i = 0
  · subst h0
    rw [if_neg (by omega), if_pos rfl, if_pos (by omega), if_pos rfl]; rfl
  · rw [if_neg h0]
    by_cases h1 : i + 1 = l.length
    · rw [if_pos (by omega), if_pos (by simp; omega), if_pos h1]; rfl
    · rw [if_neg (by omega), if_neg (by omega), if_neg h1]

theorem getD_strict {l : List ℚ} (h : l.Pairwise (· < ·)) {i j : ℕ} (hij : i < j) (hj : j < l.length) :
    l.getD i 0 < l.getD j 0 := by
  rw [List.getD_eq_getElem _ _ (by omega), List.getD_eq_getElem _ _ hj]
  exact List.pairwise_iff_getElem.1 h i j (by omega) hj hij

theorem pairwise_of_getD {R : ℚ → ℚ → Prop} {l : List ℚ} (h : ∀ i j, i < j → j < l.length → R (l.getD i 0) (l.getD j 0)) :
    l.Pairwise R := by
  rw [List.pairwise_iff_getElem]
  intro i j hi hj hij
  have := h i j hij hj
  rwa [List.getD_eq_getElem _ _ hi, List.getD_eq_getElem _ _ hj] at this

namespace Spec.RelCurve

variable {p f : List ℚ} (hc : Spec.RelCurve p f)
include hc

theorem rngD (i : ℕ) (hi : i < p.length) : 0 ≤ p.getD i 0 ∧ p.getD i 0 ≤ 1 := by
  rw [List.getD_eq_getElem _ _ hi]; exact hc.rng _ (List.getElem_mem _)

theorem ends_strict (i j : ℕ) (hij : i < j) (hj : j < p.length) : (setEnds p 0 1).getD i 0 < (setEnds p 0 1).getD j 0 := by
  have h2 := hc.two
  rw [setEnds_getD _ _ _ h2, setEnds_getD _ _ _ h2, if_neg (by omega : ¬ j = 0), if_neg (by omega : ¬ i + 1 = p.length)]
  by_cases hi : i = 0
  · rw [if_pos hi]
    by_cases hj' : j + 1 = p.length
    · rw [if_pos hj']; norm_num
    · rw [if_neg hj']
      have := getD_strict hc.asc (i := 0) (j := j) (by omega) hj
      have := (hc.rngD 0 (by omega)).1
      linarith
  · rw [if_neg hi]
    by_cases hj' : j + 1 = p.length
    · rw [if_pos hj']
      have := getD_strict hc.asc hij hj
      have := (hc.rngD j hj).2
      linarith
    · rw [if_neg hj']; exact getD_strict hc.asc hij hj

theorem ends_sorted : (setEnds p 0 1).Pairwise (· ≤ ·) :=
  pairwise_of_getD (fun i j hij hj => (hc.ends_strict i j hij (by rwa [setEnds_length] at hj)).le)

theorem y0 : interp1dLin p f 0 = Spec.relLine p f 0 0 := by
  have h2 := hc.two
  have hs : searchsortedLeft p 0 = 0 :=
    ss_unique (by omega) (fun i hi => by omega) (fun h => (hc.rngD 0 h).1)
  unfold interp1dLin Spec.relLine
  simp only [hs]
  have : min (max 0 1) (p.length - 1) = 1 := by omega
  rw [this]
  simp only [Nat.sub_self, zero_add]
  ring

theorem y1 : interp1dLin p f 1 = Spec.relLine p f (p.length - 2) 1 := by
  have h2 := hc.two
  have hs : p.length - 1 ≤ searchsortedLeft p 1 := by
    by_contra hlt
    push Not at hlt
    have h := ss_ge (xp := p) (x := 1) (by omega)
    have := getD_strict hc.asc hlt (by omega)
    have := (hc.rngD (p.length - 1) (by omega)).2
    linarith
  unfold interp1dLin Spec.relLine
  simp only []
  have : min (max (searchsortedLeft p 1) 1) (p.length - 1) = p.length - 1 := by omega
  rw [this]
  have e1 : p.length - 1 - 1 = p.length - 2 := by omega
  have e2 : p.length - 2 + 1 = p.length - 1 := by omega
  rw [e1, e2]
  ring

end Spec.RelCurve

/-- `np.interp` between two consecutive strictly ascending abscissae is the straight line. -/
theorem npInterp_segment {xp fp : List ℚ} (hs : ∀ i j, i < j → j < xp.length → xp.getD i 0 < xp.getD j 0) {k : ℕ} {v : ℚ}
    (hk : k + 1 < xp.length) (h0 : xp.getD k 0 ≤ v) (h1 : v ≤ xp.getD (k + 1) 0) :
    npInterp xp fp v = Spec.relLine xp fp k v := by
  have hs' : xp.Pairwise (· ≤ ·) := pairwise_of_getD (fun i j a b => (hs i j a b).le)
  rcases lt_or_eq_of_le h1 with h | h
  · have hc : cntLe xp v = k + 1 := by
      refine cntLe_unique (by omega) (fun i hi => ?_) (fun _ => h)
      rcases Nat.lt_or_eq_of_le (Nat.lt_succ_iff.1 hi) with h' | h'
      · exact le_trans (hs i k h' (by omega)).le h0
      · rw [h']; exact h0
    rw [npInterp_eq hs' (by omega), if_neg (by omega), if_neg (by omega), hc]
    unfold Spec.relLine
    simp only [Nat.add_sub_cancel]
    ring
  · have hpos : xp.getD (k + 1) 0 - xp.getD k 0 ≠ 0 := by
      have := hs k (k + 1) (by omega) hk
      linarith
    have hv : Spec.relLine xp fp k v = fp.getD (k + 1) 0 := by
      unfold Spec.relLine
      rw [h, div_self hpos]; ring
    rw [hv, h]
    exact npInterp_at hs' hk (fun h' => hs _ _ (by omega) h')

/-- **C33** (the calibrated value): between the mean probabilities of two neighbouring bins the calibrated probability is the
straight line through the two points of the reliability curve; below the first and above the last bin mean the end segments
are extended; the result is clipped to [0, 1]. -/
theorem C33_value (p f : List ℚ) (hc : Spec.RelCurve p f) (v : ℚ) (h0 : 0 ≤ v) (h1 : v ≤ 1) (k : ℕ)
    (hk : Spec.relSegment p k v) : relInterpolate p f v = npClip (Spec.relLine p f k v) 0 1 := by
  obtain ⟨hk1, hlo, hhi⟩ := hk
  have h2 := hc.two
  have hf2 : 2 ≤ f.length := by rw [hc.len]; exact h2
  unfold relInterpolate
  simp only []
  rw [hc.y0, hc.y1]
  congr 1
  have hgp : ∀ i, (setEnds p 0 1).getD i 0 = if i = 0 then 0 else if i + 1 = p.length then 1 else p.getD i 0 :=
    setEnds_getD p 0 1 h2
  have hpk : 0 < p.getD (k + 1) 0 - p.getD k 0 := by
    have := getD_strict hc.asc (i := k) (j := k + 1) (by omega) hk1
    linarith
  rw [npInterp_segment (k := k) (fun i j a b => hc.ends_strict i j a (by rwa [setEnds_length] at b))
    (by rw [setEnds_length]; exact hk1)]
  · -- the two lines coincide
    unfold Spec.relLine
    rw [hgp, hgp, setEnds_getD _ _ _ hf2, setEnds_getD _ _ _ hf2, if_neg (by omega : ¬ k + 1 = 0),
      if_neg (by omega : ¬ k + 1 = 0), if_neg (by omega : ¬ k + 1 = p.length), hc.len,
      if_neg (by omega : ¬ k + 1 = p.length)]
    by_cases hz : k = 0
    · subst hz
      rw [if_pos rfl, if_pos rfl]
      simp only [zero_add] at hpk ⊢
      by_cases hl : 1 + 1 = p.length
      · rw [if_pos hl, if_pos hl, ← hl]
        simp only [Nat.reduceAdd, Nat.sub_self, zero_add]
        field_simp
        ring
      · rw [if_neg hl, if_neg hl]
        have hp1 : 0 < p.getD 1 0 := by have := (hc.rngD 0 (by omega)).1; linarith
        have hne1 := hp1.ne'
        have hne2 := hpk.ne'
        rw [sub_zero, sub_zero]
        field_simp
        ring
    · rw [if_neg hz, if_neg hz]
      by_cases hl : k + 1 + 1 = p.length
      · rw [if_pos hl, if_pos hl]
        have e : p.length - 2 = k := by omega
        rw [e]
        have hp1 : 0 < 1 - p.getD k 0 := by have := (hc.rngD (k + 1) hk1).2; linarith
        have hne1 := hp1.ne'
        have hne2 := hpk.ne'
        field_simp
        ring
      · rw [if_neg hl, if_neg hl]
  · rw [hgp, if_neg (by omega : ¬ k + 1 = p.length)]
    by_cases hz : k = 0
    · rw [if_pos hz]; exact h0
    · rw [if_neg hz]; exact hlo.resolve_left hz
  · rw [hgp, if_neg (by omega : ¬ k + 1 = 0)]
    by_cases hl : k + 1 + 1 = p.length
    · rw [if_pos hl]; exact h1
    · rw [if_neg hl]; exact hhi.resolve_left (by omega)

/-- Every value has a segment. -/
theorem C33_segment_exists (p f : List ℚ) (hc : Spec.RelCurve p f) (v : ℚ) : ∃ k, Spec.relSegment p k v := by
  have h2 := hc.two
  have hle := ss_le p v
  by_cases h0 : searchsortedLeft p v ≤ 1
  · refine ⟨0, by omega, Or.inl rfl, ?_⟩
    by_cases hl : 0 + 2 = p.length
    · exact Or.inl hl
    · refine Or.inr ?_
      have h := ss_ge (xp := p) (x := v) (by omega)
      rcases Nat.lt_or_eq_of_le h0 with h' | h'
      · have e : searchsortedLeft p v = 0 := by omega
        rw [e] at h
        have := getD_strict hc.asc (i := 0) (j := 0 + 1) (by omega) (by omega)
        linarith
      · rw [h'] at h; exact h
  · by_cases hn : searchsortedLeft p v = p.length
    · refine ⟨p.length - 2, by omega, Or.inr ?_, Or.inl (by omega)⟩
      exact (ss_lt (by omega)).le
    · refine ⟨searchsortedLeft p v - 1, by omega, Or.inr (ss_lt (by omega)).le, Or.inr ?_⟩
      have h := ss_ge (xp := p) (x := v) (by omega)
      rwa [Nat.sub_add_cancel (by omega)]

/-- **C33** (exact at bin means): at the mean probability of a bin the calibrated probability is the bin's observed
frequency. -/
theorem C33_at_bin (p f : List ℚ) (hc : Spec.RelCurve p f) (k : ℕ) (hk : k < p.length)
    (hf : 0 ≤ f.getD k 0 ∧ f.getD k 0 ≤ 1) : relInterpolate p f (p.getD k 0) = f.getD k 0 := by
  have h2 := hc.two
  have hr := hc.rngD k hk
  have hclip : npClip (f.getD k 0) 0 1 = f.getD k 0 := by
    unfold npClip; rw [max_eq_left hf.1, min_eq_left hf.2]
  by_cases hl : k + 1 < p.length
  · rw [C33_value p f hc _ hr.1 hr.2 k ⟨hl, Or.inr le_rfl, Or.inr (getD_strict hc.asc (by omega) hl).le⟩]
    have : Spec.relLine p f k (p.getD k 0) = f.getD k 0 := by unfold Spec.relLine; simp
    rw [this, hclip]
  · have hk' : k - 1 + 1 = k := by omega
    rw [C33_value p f hc _ hr.1 hr.2 (k - 1)
      ⟨by omega, Or.inr (getD_strict hc.asc (by omega) hk).le, Or.inl (by omega)⟩]
    have hd : p.getD k 0 - p.getD (k - 1) 0 ≠ 0 := by
      have := getD_strict hc.asc (i := k - 1) (j := k) (by omega) hk
      linarith
    have : Spec.relLine p f (k - 1) (p.getD k 0) = f.getD k 0 := by
      unfold Spec.relLine
      rw [hk', div_self hd]; ring
    rw [this, hclip]

theorem relInterpolate_range (p f : List ℚ) (v : ℚ) : 0 ≤ relInterpolate p f v ∧ relInterpolate p f v ≤ 1 := by
  unfold relInterpolate npClip
  exact ⟨le_min (le_max_right _ _) zero_le_one, min_le_right _ _⟩

theorem npClip_mono_left {a b : ℚ} (h : a ≤ b) (lo hi : ℚ) : npClip a lo hi ≤ npClip b lo hi :=
  min_le_min (max_le_max h le_rfl) le_rfl

theorem relInterpolate_mono (p f : List ℚ) (hc : Spec.RelCurve p f) (hf : f.Pairwise (· ≤ ·)) {v w : ℚ} (h : v ≤ w) :
    relInterpolate p f v ≤ relInterpolate p f w := by
  have h2 := hc.two
  have hf2 : 2 ≤ f.length := by rw [hc.len]; exact h2
  unfold relInterpolate
  simp only []
  apply npClip_mono_left
  rw [hc.y0, hc.y1]
  have hy0 : Spec.relLine p f 0 0 ≤ f.getD 0 0 := by
    unfold Spec.relLine
    have h1 := getD_mono hf (i := 0) (j := 0 + 1) (by omega) (by omega)
    have h3 := (hc.rngD 0 (by omega)).1
    have h4 := getD_strict hc.asc (i := 0) (j := 0 + 1) (by omega) (by omega)
    have : (0 - p.getD 0 0) / (p.getD (0 + 1) 0 - p.getD 0 0) ≤ 0 := div_nonpos_of_nonpos_of_nonneg (by linarith) (by linarith)
    have := mul_nonpos_of_nonneg_of_nonpos (sub_nonneg.2 h1) this
    linarith
  have hy1 : f.getD (f.length - 1) 0 ≤ Spec.relLine p f (p.length - 2) 1 := by
    unfold Spec.relLine
    have e : p.length - 2 + 1 = p.length - 1 := by omega
    rw [e, hc.len]
    have h1 := getD_mono hf (i := p.length - 2) (j := p.length - 1) (by omega) (by rw [hc.len]; omega)
    have h3 := (hc.rngD (p.length - 1) (by omega)).2
    have h4 := getD_strict hc.asc (i := p.length - 2) (j := p.length - 1) (by omega) (by omega)
    have : 1 ≤ (1 - p.getD (p.length - 2) 0) / (p.getD (p.length - 1) 0 - p.getD (p.length - 2) 0) :=
      (one_le_div (by linarith)).2 (by linarith)
    have := mul_le_mul_of_nonneg_left this (sub_nonneg.2 h1)
    linarith
  refine npInterp_mono hc.ends_sorted (by rw [setEnds_length]; omega) (by rw [setEnds_length, setEnds_length, hc.len]) ?_ h
  apply pairwise_of_getD
  intro i j hij hj
  rw [setEnds_length] at hj
  rw [setEnds_getD _ _ _ hf2, setEnds_getD _ _ _ hf2, if_neg (by omega : ¬ j = 0), if_neg (by omega : ¬ i + 1 = f.length)]
  by_cases hi : i = 0
  · rw [if_pos hi]
    by_cases hj' : j + 1 = f.length
    · rw [if_pos hj']
      exact le_trans hy0 (le_trans (getD_mono hf (by omega) (by omega)) hy1)
    · rw [if_neg hj']
      exact le_trans hy0 (getD_mono hf (by omega) hj)
  · rw [if_neg hi]
    by_cases hj' : j + 1 = f.length
    · rw [if_pos hj']
      exact le_trans (getD_mono hf (by omega) (by omega)) hy1
    · rw [if_neg hj']
      exact getD_mono hf (by omega) hj

/-- **C33** (range): a table of at least two bins gives calibrated probabilities in [0, 1], whatever the forecast. -/
theorem C33_range (table : List RelBin) (h : 2 ≤ table.length) (v : ℚ) :
    0 ≤ calibrateValue table v ∧ calibrateValue table v ≤ 1 := by
  unfold calibrateValue reliabilityProbabilities
  rw [if_neg (by omega)]
  exact relInterpolate_range _ _ _

/-- **C33** (too few bins): a table with fewer than two bins leaves the forecast unchanged. -/
theorem C33_unchanged (table : List RelBin) (h : table.length < 2) (v : ℚ) : calibrateValue table v = v := by
  unfold calibrateValue reliabilityProbabilities
  rw [if_pos h]

/-- **C33** (monotone): if the bins' mean forecast probabilities are strictly ascending in [0, 1] and the observed frequencies do
not decrease, a higher forecast probability is never calibrated to a lower one. -/
theorem C33_monotone (table : List RelBin) (hp : (table.map (fun b => b.psum / b.fc)).Pairwise (· < ·))
    (hr : ∀ b ∈ table, 0 ≤ b.psum / b.fc ∧ b.psum / b.fc ≤ 1)
    (hf : (table.map (fun b => b.obs / b.fc)).Pairwise (· ≤ ·)) {v w : ℚ} (h : v ≤ w) :
    calibrateValue table v ≤ calibrateValue table w := by
  unfold calibrateValue reliabilityProbabilities
  by_cases h2 : table.length < 2
  · rw [if_pos h2]; exact h
  · rw [if_neg h2]
    refine relInterpolate_mono _ _ ⟨by simp; omega, by simp [obsFreq], hp, ?_⟩ hf h
    intro x hx
    obtain ⟨b, hb, rfl⟩ := List.mem_map.1 hx
    exact hr b hb

/-! ### Across thresholds -/

/-- Specification: probabilities at a point, in ascending threshold order, are ordered as the inequality requires. -/
def Spec.thresholdOrdered (above : Bool) (c : List ℚ) : Prop :=
  if above then c.Pairwise (· ≥ ·) else c.Pairwise (· ≤ ·)

theorem ensureMonotone_spec (above : Bool) (cols : List (List ℚ)) (i : ℕ) (hi : i < cols.length) :
    ∃ h : i < (ensureMonotone above cols).length,
      Spec.thresholdOrdered above (ensureMonotone above cols)[i] ∧ (ensureMonotone above cols)[i].Perm cols[i] := by
  unfold ensureMonotone Spec.thresholdOrdered
  cases above with
  | true =>
    simp only [if_true]
    by_cases h : cols.all (fun c => (npDiff c).all (fun d => decide (d ≤ 0))) = true
    · simp only [if_pos h]
      exact ⟨hi, npDiff_all_nonpos.1 (List.all_eq_true.1 h _ (List.getElem_mem hi)), List.Perm.refl _⟩
    · simp only [if_neg h]
      refine ⟨by simpa using hi, ?_, ?_⟩
      · rw [List.getElem_map, List.pairwise_reverse]
        exact npSort_sorted _
      · rw [List.getElem_map]
        exact (List.reverse_perm _).trans (npSort_perm _)
  | false =>
    simp only [Bool.false_eq_true, if_false]
    by_cases h : cols.all (fun c => (npDiff c).all (fun d => decide (d ≥ 0))) = true
    · simp only [if_pos h]
      exact ⟨hi, npDiff_all_nonneg.1 (List.all_eq_true.1 h _ (List.getElem_mem hi)), List.Perm.refl _⟩
    · simp only [if_neg h]
      refine ⟨by simpa using hi, ?_, ?_⟩
      · rw [List.getElem_map]
        exact npSort_sorted _
      · rw [List.getElem_map]
        exact npSort_perm _

/-- **C33** (across thresholds): after calibration the probabilities at every point are monotone in the direction of the
inequality, and are a rearrangement of the probabilities calibrated threshold by threshold, hence in [0, 1] when the forecasts
are. -/
theorem C33_thresholds (above : Bool) (tables : List (List RelBin)) (cols out : List (List ℚ))
    (h : applyCalibration above tables cols = .ok out) : out.length = cols.length ∧
    ∀ (i : ℕ) (hi : i < cols.length) (ho : i < out.length), Spec.thresholdOrdered above out[i] ∧
      out[i].Perm (List.zipWith calibrateValue tables cols[i]) ∧
      ((∀ v ∈ cols[i], 0 ≤ v ∧ v ≤ 1) → ∀ v ∈ out[i], 0 ≤ v ∧ v ≤ 1) := by
  unfold applyCalibration at h
  by_cases h1 : tables.length ≤ 1
  · rw [if_pos h1] at h; cases h
  · rw [if_neg h1] at h
    simp only [Except.ok.injEq] at h
    subst h
    have hlen : ∀ c : List (List ℚ), (ensureMonotone above c).length = c.length := by
      intro c; unfold ensureMonotone; split_ifs <;> simp
    refine ⟨by rw [hlen]; simp, ?_⟩
    intro i hi ho
    obtain ⟨_, h2, h3⟩ := ensureMonotone_spec above (cols.map (fun c => List.zipWith calibrateValue tables c)) i (by simpa using hi)
    rw [List.getElem_map] at h3
    refine ⟨h2, h3, ?_⟩
    intro hv v hvm
    have hm := h3.mem_iff.1 hvm
    rw [List.mem_iff_getElem] at hm
    obtain ⟨j, hj, rfl⟩ := hm
    rw [List.getElem_zipWith]
    simp only [List.length_zipWith] at hj
    by_cases h2' : 2 ≤ tables[j].length
    · exact C33_range _ h2' _
    · rw [C33_unchanged _ (by omega)]
      exact hv _ (List.getElem_mem _)

/-- **C33** (finding): a forecast with a single threshold cannot be calibrated, whatever the table. -/
theorem C33_single_threshold_refuted (above : Bool) (table : List RelBin) (cols : List (List ℚ)) :
    applyCalibration above [table] cols = .error .valueError := rfl

/-! Concrete cases. -/

example : Spec.RelCurve [1/10, 1/2, 9/10] [0, 1/2, 3/4] :=
  ⟨by decide, rfl, by decide +kernel, by decide +kernel⟩

example : Spec.relSegment [1/10, 1/2, 9/10] 1 (7/10) := by
  refine ⟨by decide, Or.inr ?_, Or.inl rfl⟩; norm_num

example : relInterpolate [1/10, 1/2, 9/10] [0, 1/2, 3/4] (1/20) = 0 ∧
    relInterpolate [1/10, 1/2, 9/10] [0, 1/2, 3/4] (7/10) = 5/8 ∧
    relInterpolate [1/10, 1/2, 9/10] [0, 1/2, 3/4] 1 = 13/16 := by decide +kernel

example : calibrateValue [⟨0, 1, 10, 0, 1/2⟩, ⟨8, 9, 10, 1/2, 1⟩] (1/2) = 2/5 := by decide +kernel

example : (applyCalibration true [[⟨0, 1, 10, 0, 1/2⟩, ⟨8, 9, 10, 1/2, 1⟩], []] [[1/2, 1/2], [9/10, 1/10]]).toOption
    = some [[1/2, 2/5], [4/5, 1/10]] := by decide +kernel

end Improver
