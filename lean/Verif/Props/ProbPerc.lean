import Verif.Props.Interp

/-! Property theorems C14 and C37: `ConvertProbabilitiesToPercentiles`. -/

namespace Improver

theorem around9_int (x : ℚ) : ∃ n : ℤ, around9 x = (n : ℚ) / 1000000000 := ⟨_, rfl⟩

/-- Rounding moves a probability by at most half a unit of the ninth decimal. -/
theorem around9_close (x : ℚ) : |around9 x - x| ≤ 1/2000000000 := by
  have hf1 := Int.floor_le (x * 1000000000)
  have hf2 := Int.lt_floor_add_one (x * 1000000000)
  unfold around9
  simp only []
  generalize ⌊x * 1000000000⌋ = f at *
  rw [abs_le]
  split_ifs with h1 h2 h3 <;> push_cast <;> constructor <;> linarith

/-- A probability with at most nine decimals is not altered. -/
theorem around9_fixed (n : ℤ) : around9 ((n : ℚ) / 1000000000) = (n : ℚ) / 1000000000 := by
  have : (n : ℚ) / 1000000000 * 1000000000 = n := by field_simp
  unfold around9
  simp only [this, Int.floor_intCast, sub_self]
  norm_num

theorem nine_decimals_gap {a b : ℚ} (ha : ∃ n : ℤ, a = (n : ℚ) / 1000000000) (hb : ∃ n : ℤ, b = (n : ℚ) / 1000000000)
    (h : a < b) : interpEps ≤ b - a := by
  obtain ⟨m, rfl⟩ := ha
  obtain ⟨n, rfl⟩ := hb
  have hmn : (m : ℚ) < n := by
    rw [div_lt_div_iff_of_pos_right (by norm_num)] at h; exact h
  have hmn' : m + 1 ≤ n := by exact_mod_cast hmn
  have hq : (m : ℚ) + 1 ≤ n := by exact_mod_cast hmn'
  unfold interpEps
  rw [← sub_div, div_le_div_iff₀ (by norm_num) (by norm_num)]
  linarith

theorem addBoundsT_ok {warn : Bool} {ts t : List ℚ} {lo hi : ℚ} (hlh : lo ≤ hi)
    (h : addBoundsToThresholds warn ts (lo, hi) = .ok t) (hs : warn = true → ts.Pairwise (· ≤ ·)) :
    ∃ lo' hi', t = lo' :: (ts ++ [hi']) ∧ t.Pairwise (· ≤ ·) ∧ (warn = false → lo' = lo ∧ hi' = hi) ∧
      lo' ∈ lo :: ts ∧ hi' ∈ hi :: ts := by
  unfold addBoundsToThresholds at h
  simp only [] at h
  by_cases hd : hasDescent (lo :: (ts ++ [hi])) = true
  · rw [if_pos hd] at h
    cases warn with
    | false => cases h
    | true =>
      simp only [if_true] at h
      cases hwb : widenBounds lo hi (lo :: (ts ++ [hi])) with
      | error e => simp [hwb, bind, Except.bind] at h
      | ok b =>
        obtain ⟨lo', hi'⟩ := b
        simp only [hwb, bind, Except.bind, pure, Except.pure] at h
        injection h with h
        subst h
        obtain ⟨w1, w2, w3, w4, w5⟩ := widen_spec hwb
        refine ⟨lo', hi', rfl, ?_, by simp, ?_, ?_⟩
        · exact sorted_with_ends (hs rfl) (fun x hx => (w3 x (by simp [hx])).1)
            (fun x hx => (w3 x (by simp [hx])).2) (by linarith)
        · simp only [List.mem_cons, List.mem_append, List.mem_singleton, List.not_mem_nil, or_false] at w4 ⊢
          rcases w4 with h | h | h | h
          · exact .inl h
          · exact .inl h
          · exact .inr h
          · left; linarith
        · simp only [List.mem_cons, List.mem_append, List.mem_singleton, List.not_mem_nil, or_false] at w5 ⊢
          rcases w5 with h | h | h | h
          · exact .inl h
          · left; linarith
          · exact .inr h
          · exact .inl h
  · rw [if_neg hd] at h
    simp only [bind, Except.bind, pure, Except.pure] at h
    injection h with h
    subst h
    exact ⟨lo, hi, rfl, hasDescent_false (Bool.eq_false_iff.2 hd), by simp, by simp, by simp⟩

/-- The cumulative distribution used: rounded probabilities of not exceeding. -/
def Spec.cdf (above : Bool) (probs : List ℚ) : List ℚ :=
  probs.map (fun p => if above then 1 - around9 p else around9 p)

theorem cdf_eq (above : Bool) (probs : List ℚ) :
    (if above then (probs.map around9).map (fun p => 1 - p) else probs.map around9) = Spec.cdf above probs := by
  cases above <;> simp [Spec.cdf]

theorem probsToPercentiles_bounds {warn above : Bool} {b : ℚ × ℚ} {ts probs ps out : List ℚ}
    (h : probsToPercentiles warn (some b) above ts probs ps = .ok out) :
    ∃ t, addBoundsToThresholds warn ts b = .ok t ∧ t.length = probs.length + 2 ∧
      out = (ps.map (fun p => p / 100)).map (fastInterpX (0 :: (Spec.cdf above probs ++ [1])) t) := by
  unfold probsToPercentiles at h
  simp only [cdf_eq] at h
  cases hb : addBoundsToThresholds warn ts b with
  | error e => simp only [hb, bind, Except.bind] at h; cases h
  | ok t =>
    simp only [hb, bind, Except.bind, pure, Except.pure] at h
    unfold fastInterpRowY at h
    split_ifs at h with hl
    push Not at hl
    injection h with h
    rw [scanLoop_eq] at h
    exact ⟨t, rfl, by rw [← hl]; simp [Spec.cdf], h.symm⟩

/-- **C14.** Ascending requested percentiles give ascending values, inside the ECC bounds (expanded at most to
the thresholds under `ecc_bounds_warning`).  No assumption on the probabilities: a non-monotone CDF only triggers
a warning in the code. -/
theorem C14_percentiles_ordered_and_bounded (warn above : Bool) (lo hi : ℚ) (hlh : lo ≤ hi)
    (ts probs ps out : List ℚ) (hts : ts.Pairwise (· ≤ ·)) (hps : ps.Pairwise (· ≤ ·))
    (h : probsToPercentiles warn (some (lo, hi)) above ts probs ps = .ok out) :
    out.length = ps.length ∧ out.Pairwise (· ≤ ·) ∧
    (∀ v ∈ out, (∃ l ∈ lo :: ts, l ≤ v) ∧ ∃ u ∈ hi :: ts, v ≤ u) ∧
    (warn = false → ∀ v ∈ out, lo ≤ v ∧ v ≤ hi) := by
  obtain ⟨t, hb, hl, rfl⟩ := probsToPercentiles_bounds h
  obtain ⟨lo', hi', ht, hs, hw, hlo, hhi⟩ := addBoundsT_ok hlh hb (fun _ => hts)
  have hlen : t.length = (0 :: (Spec.cdf above probs ++ [1])).length := by rw [hl]; simp [Spec.cdf]
  have hends : t.getD 0 0 = lo' ∧ t.getD (t.length - 1) 0 = hi' := by subst ht; simp
  have hrange : ∀ v ∈ (ps.map (fun p => p / 100)).map (fastInterpX (0 :: (Spec.cdf above probs ++ [1])) t),
      lo' ≤ v ∧ v ≤ hi' := by
    intro v hv
    obtain ⟨x, -, rfl⟩ := List.mem_map.1 hv
    have := fastInterpX_range hlen (by simp) hs x
    rwa [hends.1, hends.2] at this
  refine ⟨by simp, ?_, ?_, ?_⟩
  · rw [List.map_map, List.pairwise_map]
    refine hps.imp ?_
    intro a b hab
    exact fastInterpX_mono hlen (by simp) hs (by simp only; linarith)
  · intro v hv
    exact ⟨⟨lo', hlo, (hrange v hv).1⟩, ⟨hi', hhi, (hrange v hv).2⟩⟩
  · intro hwf v hv
    obtain ⟨rfl, rfl⟩ := hw hwf
    exact hrange v hv

/-- **C14.** A threshold outside the ECC bounds is rejected unless `ecc_bounds_warning` is set. -/
theorem C14_out_of_bounds_rejected (above : Bool) (lo hi : ℚ) (ts probs ps : List ℚ)
    (h : ∃ t ∈ ts, t < lo ∨ hi < t) :
    probsToPercentiles false (some (lo, hi)) above ts probs ps = .error .valueError := by
  obtain ⟨t, ht, hc⟩ := h
  have hd : hasDescent (lo :: (ts ++ [hi])) = true := by
    by_contra hd
    have hs := hasDescent_false (Bool.eq_false_iff.2 hd)
    rw [List.pairwise_cons, List.pairwise_append] at hs
    have h1 := hs.1 t (by simp [ht])
    have h2 := hs.2.2.2 t ht hi (by simp)
    rcases hc with hc | hc <;> linarith
  have hb : addBoundsToThresholds false ts (lo, hi) = .error .valueError := by
    unfold addBoundsToThresholds
    simp [hd, bind, Except.bind]
  unfold probsToPercentiles
  simp only [hb, bind, Except.bind]

theorem cdf_nine (above : Bool) (probs : List ℚ) : ∀ c ∈ Spec.cdf above probs, ∃ n : ℤ, c = (n : ℚ) / 1000000000 := by
  intro c hc
  obtain ⟨p, -, rfl⟩ := List.mem_map.1 hc
  obtain ⟨n, hn⟩ := around9_int p
  cases above
  · exact ⟨n, by simp [hn]⟩
  · refine ⟨1000000000 - n, ?_⟩
    simp only [if_true, hn]
    push_cast
    field_simp

/-- **C14.** Where the CDF increases strictly, asking for the percentile equal to the (rounded) probability of
not exceeding threshold `k` returns that threshold. -/
theorem C14_threshold_recovered (warn above : Bool) (lo hi : ℚ) (ts probs out : List ℚ) (k : ℕ)
    (hk : k < ts.length) (hl : probs.length = ts.length)
    (hstrict : (0 :: Spec.cdf above probs).Pairwise (· < ·))
    (h : probsToPercentiles warn (some (lo, hi)) above ts probs [100 * (Spec.cdf above probs).getD k 0] = .ok out) :
    out = [ts[k]] := by
  obtain ⟨t, hb, hlen, rfl⟩ := probsToPercentiles_bounds h
  obtain ⟨lo', hi', rfl⟩ : ∃ lo' hi', t = lo' :: (ts ++ [hi']) := by
    unfold addBoundsToThresholds at hb
    simp only [bind, Except.bind, pure, Except.pure] at hb
    split at hb
    · cases hb
    · injection hb with hb; exact ⟨_, _, hb.symm⟩
  have hcl : (Spec.cdf above probs).length = ts.length := by simp [Spec.cdf, hl]
  have hk' : k < (Spec.cdf above probs).length := by omega
  have he : 100 * (Spec.cdf above probs).getD k 0 / 100 = (0 :: (Spec.cdf above probs ++ [1])).getD (k + 1) 0 := by
    simp [List.getElem?_append_left hk']
  have hg : ∀ i, i ≤ (Spec.cdf above probs).length →
      (0 :: (Spec.cdf above probs ++ [1])).getD i 0 = (0 :: Spec.cdf above probs).getD i 0 := by
    intro i hi
    cases i with
    | zero => simp
    | succ i =>
      have : i < (Spec.cdf above probs).length := by omega
      simp [List.getElem?_append_left this]
  have hlt : ∀ i j, i < j → j ≤ (Spec.cdf above probs).length →
      (0 :: Spec.cdf above probs).getD i 0 < (0 :: Spec.cdf above probs).getD j 0 := by
    intro i j hij hj
    rw [List.getD_eq_getElem _ _ (by simp; omega), List.getD_eq_getElem _ _ (by simp; omega)]
    exact List.pairwise_iff_getElem.1 hstrict i j _ _ hij
  have hnine : ∀ i, i ≤ (Spec.cdf above probs).length →
      ∃ n : ℤ, (0 :: Spec.cdf above probs).getD i 0 = (n : ℚ) / 1000000000 := by
    intro i hi
    rw [List.getD_eq_getElem _ _ (by simp; omega)]
    rcases List.mem_cons.1 (List.getElem_mem (l := 0 :: Spec.cdf above probs) (n := i) (by simp; omega)) with h | h
    · exact ⟨0, by rw [h]; simp⟩
    · exact cdf_nine above probs _ h
  rw [List.map_singleton, List.map_singleton, he, fastInterpX_at (by simp; omega)]
  · simp [List.getElem?_append_left hk, List.getElem?_eq_getElem hk]
  · intro i hi
    rw [hg _ (by omega), hg _ (by omega)]
    exact hlt _ _ hi (by omega)
  · intro _
    rw [hg _ (by omega), hg _ (by omega)]
    exact nine_decimals_gap (hnine _ (by omega)) (hnine _ (by omega)) (hlt _ _ (by omega) (by omega))

/-- **C14.** The CDF that is inverted is within half a unit of the ninth decimal of the probabilities given. -/
theorem C14_cdf_rounding (above : Bool) (probs : List ℚ) (k : ℕ) (hk : k < probs.length) :
    |(Spec.cdf above probs).getD k 0 - (if above then 1 - probs[k] else probs[k])| ≤ 1/2000000000 := by
  have : (Spec.cdf above probs).getD k 0 = if above then 1 - around9 probs[k] else around9 probs[k] := by
    rw [List.getD_eq_getElem _ _ (by simpa [Spec.cdf] using hk)]
    simp [Spec.cdf]
  rw [this]
  have h := around9_close probs[k]
  cases above
  · simpa using h
  · simp only [if_true]
    rw [show 1 - around9 probs[k] - (1 - probs[k]) = -(around9 probs[k] - probs[k]) by ring, abs_neg]
    exact h

example : (probsToPercentiles false (some (0, 10)) true [2, 5] [3/4, 1/4] [25, 50, 90]).toOption
    = some [2, 7/2, 8] := by decide +kernel
example : (0 :: Spec.cdf true [3/4, 1/4]).Pairwise (· < ·) := by decide +kernel

/-! ### C37 -/

/-- **C37.** With `mask_percentiles`, a percentile is masked exactly when the probability of not exceeding the
highest threshold is at most that percentile, and values left unmasked never exceed the highest threshold.
Probabilities are assumed to have at most nine decimals, so that the rounding in the code is exact. -/
theorem C37_mask_percentiles (warn above : Bool) (lo hi : ℚ) (hlh : lo ≤ hi) (ts probs ps out : List ℚ)
    (hts : ts.Pairwise (· ≤ ·)) (hne : ts ≠ []) (hl : probs.length = ts.length)
    (hnine : ∀ p ∈ probs, around9 p = p)
    (h : probsToPercentiles warn (some (lo, hi)) above ts probs ps = .ok out) (k : ℕ) (hk : k < ps.length) :
    ∀ (hm : k < (maskPercentiles above probs ps out).length),
      ((maskPercentiles above probs ps out)[k] = none ↔
        (if above then 1 - probs.getLast (by rintro rfl; simp at hl; exact hne (List.length_eq_zero_iff.1 hl.symm))
          else probs.getLast (by rintro rfl; simp at hl; exact hne (List.length_eq_zero_iff.1 hl.symm))) ≤ ps[k] / 100) ∧
      (∀ v, (maskPercentiles above probs ps out)[k] = some v → v ≤ ts.getLast hne ∧ out[k]? = some v) := by
  intro hm
  have hpne : probs ≠ [] := by
    rintro rfl; simp at hl; exact hne (List.length_eq_zero_iff.1 hl.symm)
  have hplen : 0 < probs.length := List.length_pos_iff.2 hpne
  have hlast : probs.getD (probs.length - 1) 0 = probs.getLast hpne := by
    rw [List.getD_eq_getElem _ _ (by omega), List.getLast_eq_getElem]
  obtain ⟨t, hb, htl, rfl⟩ := probsToPercentiles_bounds h
  obtain ⟨lo', hi', ht, hs, hw, hlo, hhi⟩ := addBoundsT_ok hlh hb (fun _ => hts)
  have hko : k < ((ps.map (fun p => p / 100)).map (fastInterpX (0 :: (Spec.cdf above probs ++ [1])) t)).length := by
    simpa using hk
  have hval : (maskPercentiles above probs ps
      ((ps.map (fun p => p / 100)).map (fastInterpX (0 :: (Spec.cdf above probs ++ [1])) t)))[k]
      = if (if above then 1 - probs.getLast hpne else probs.getLast hpne) ≤ ps[k] / 100 then none
        else some (fastInterpX (0 :: (Spec.cdf above probs ++ [1])) t (ps[k] / 100)) := by
    simp only [maskPercentiles, List.getElem_zipWith, List.getElem_map, hlast]
  rw [hval]
  constructor
  · split_ifs <;> simp_all
  · intro v hv
    split_ifs at hv with h1 h2 h2
    all_goals
      injection hv with hv
      subst hv
      refine ⟨?_, by simp [hk]⟩
    all_goals
      push Not at h2
      set c := Spec.cdf above probs with hc
      have hcl : c.length = probs.length := by simp [hc, Spec.cdf]
      have hclast : (0 :: (c ++ [1])).getD probs.length 0
          = if above then 1 - probs.getLast hpne else probs.getLast hpne := by
        obtain ⟨m, hm'⟩ : ∃ m, probs.length = m + 1 := ⟨probs.length - 1, by omega⟩
        have hlt : m < c.length := by omega
        rw [hm']
        simp only [List.getD_cons_succ]
        rw [List.getD_eq_getElem _ _ (by simp; omega), List.getElem_append_left hlt]
        simp only [hc, Spec.cdf, List.getElem_map]
        have : probs[m] = probs.getLast hpne := by
          rw [List.getLast_eq_getElem]; congr 1; omega
        rw [this, hnine _ (List.getLast_mem hpne)]
      have hss : searchsortedLeft (0 :: (c ++ [1])) (ps[k] / 100) ≤ probs.length := by
        by_contra hgt
        push Not at hgt
        have := ss_lt hgt
        rw [hclast] at this
        simp only [h1, if_true, if_false, Bool.false_eq_true] at this
        linarith
      have hgl : t.getD probs.length 0 = ts.getLast hne := by
        subst ht
        obtain ⟨m, hm'⟩ : ∃ m, probs.length = m + 1 := ⟨probs.length - 1, by omega⟩
        have hlt : m < ts.length := by omega
        rw [hm']
        simp only [List.getD_cons_succ]
        rw [List.getD_eq_getElem _ _ (by simp; omega), List.getElem_append_left hlt, List.getLast_eq_getElem]
        congr 1; omega
      rw [← hgl]
      have hlen : t.length = (0 :: (c ++ [1])).length := by rw [htl]; simp [hcl]
      by_cases h0 : searchsortedLeft (0 :: (c ++ [1])) (ps[k] / 100) = 0
      · rw [fastInterpX_zero h0]; exact getD_mono hs (by omega) (by omega)
      · have hnl : searchsortedLeft (0 :: (c ++ [1])) (ps[k] / 100) ≠ (0 :: (c ++ [1])).length := by
          simp only [List.length_cons, List.length_append, hcl]; simp; omega
        exact (fastInterpX_bracket hlen hs h0 hnl).2.trans (getD_mono hs hss (by omega))

example : maskPercentiles true [3/4, 1/4] [25, 80] [2, 6] = [some 2, none] := by decide +kernel

end Improver
