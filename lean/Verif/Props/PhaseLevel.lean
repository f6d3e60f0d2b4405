import Verif.Model.PhaseLevel
import Mathlib.Analysis.SpecialFunctions.Integrals.Basic

/-! Properties of the phase change level (C149-C152). -/

namespace Improver

open MeasureTheory intervalIntegral

/-! ## Extrapolation below sea level -/

namespace Spec
/-- The positive part of the straight wet bulb profile `m x + c`, integrated from the height `z` up to sea level. -/
noncomputable def belowSea (m c z : ℝ) : ℝ := ∫ x in z..0, max (m * x + c) 0
end Spec

theorem line_integral (m c a b : ℝ) : ∫ x in a..b, (m * x + c) = m * (b ^ 2 - a ^ 2) / 2 + c * (b - a) := by
  rw [integral_add (Continuous.intervalIntegrable (by fun_prop) _ _)
    (Continuous.intervalIntegrable (by fun_prop) _ _), intervalIntegral.integral_const_mul, integral_id, intervalIntegral.integral_const]
  simp only [smul_eq_mul]
  ring

theorem pos_cont (m c : ℝ) : Continuous fun x : ℝ => max (m * x + c) 0 := by fun_prop

theorem belowSea_split (m c a b : ℝ) :
    Spec.belowSea m c a = (∫ x in a..b, max (m * x + c) 0) + Spec.belowSea m c b :=
  (integral_add_adjacent_intervals ((pos_cont m c).intervalIntegrable _ _) ((pos_cont m c).intervalIntegrable _ _)).symm

theorem part_pos {m c a b : ℝ} (hm : m < 0) (hab : a ≤ b) (hb : 0 ≤ m * b + c) :
    ∫ x in a..b, max (m * x + c) 0 = m * (b ^ 2 - a ^ 2) / 2 + c * (b - a) := by
  rw [← line_integral]
  apply integral_congr
  intro x hx
  rw [Set.uIcc_of_le hab] at hx
  dsimp only
  apply max_eq_left
  nlinarith [hx.2]

theorem part_zero {m c a b : ℝ} (hm : m < 0) (hab : a ≤ b) (ha : m * a + c ≤ 0) :
    ∫ x in a..b, max (m * x + c) 0 = 0 := by
  have : ∫ x in a..b, max (m * x + c) 0 = ∫ x in a..b, (0 : ℝ) := by
    apply integral_congr
    intro x hx
    rw [Set.uIcc_of_le hab] at hx
    simp only []
    apply max_eq_right
    nlinarith [hx.1]
  rw [this]; simp

theorem belowSea_inj {m c a b v : ℝ} (hm : m < 0) (hb0 : b ≤ 0) (hv : 0 < v)
    (ha : Spec.belowSea m c a = v) (hb : Spec.belowSea m c b = v) : ¬ a < b := by
  intro hab
  have hpos : 0 < m * b + c := by
    by_contra hc
    have := part_zero hm hb0 (not_lt.mp hc)
    unfold Spec.belowSea at hb
    linarith
  have h1 := belowSea_split m c a b
  rw [part_pos hm hab.le hpos.le, ha, hb] at h1
  have h2 : m * (b ^ 2 - a ^ 2) / 2 + c * (b - a) = (b - a) * ((m * b + c) + (m * a + c)) / 2 := by ring
  have h3 : m * b + c < m * a + c := by nlinarith
  have : 0 < (b - a) * ((m * b + c) + (m * a + c)) / 2 := by
    apply div_pos (mul_pos (by linarith) (by linarith)) (by norm_num)
  linarith

/-- Where the fitted wet bulb temperature falls with height, the extrapolated level is the one and only height at or
below sea level down to which the positive wet bulb temperatures make up what the integral above sea level lacks of
the threshold, limited to 2000 m below sea level. -/
theorem C149_extrapolated {threshold maxInt m c : ℝ} (hm : m < 0) (h : maxInt < threshold) (level : Option ℝ) :
    ∃ z ≤ 0, maxInt + Spec.belowSea m c z = threshold ∧
      (∀ z' ≤ 0, maxInt + Spec.belowSea m c z' = threshold → z' = z) ∧
      extrapolatedLevel threshold maxInt m c level = some (max z (-2000)) := by
  suffices hz : ∃ z ≤ 0, maxInt + Spec.belowSea m c z = threshold ∧
      extrapolatedLevel threshold maxInt m c level = some (max z (-2000)) by
    obtain ⟨z, hz0, hz1, hz2⟩ := hz
    refine ⟨z, hz0, hz1, ?_, hz2⟩
    intro z' hz0' hz1'
    have hv : 0 < threshold - maxInt := by linarith
    have a := belowSea_inj (a := z) (b := z') hm hz0' hv (by linarith) (by linarith)
    have b := belowSea_inj (a := z') (b := z) hm hz0 hv (by linarith) (by linarith)
    exact le_antisymm (not_lt.mp a) (not_lt.mp b)
  unfold extrapolatedLevel
  rw [if_pos hm]
  dsimp only
  by_cases hc : -c / m ≥ 0
  · have hc0 : 0 ≤ c := by
      by_contra hcn
      push Not at hcn
      have : -c / m < 0 := div_neg_of_pos_of_neg (by linarith) hm
      linarith
    rw [if_pos hc]
    have harg : 0 ≤ c * c - 2 * m * (threshold - maxInt) := by nlinarith
    set s := Real.sqrt (c * c - 2 * m * (threshold - maxInt)) with hs
    have hss : s * s = c * c - 2 * m * (threshold - maxInt) := Real.mul_self_sqrt harg
    have hs0 : 0 ≤ s := Real.sqrt_nonneg _
    have hsc : c ≤ s := by
      by_contra hcn
      push Not at hcn
      nlinarith
    have hmz : m * ((c - s) / -m) = s - c := by
      have hm0 : m ≠ 0 := hm.ne
      field_simp
      ring
    have hz0 : (c - s) / -m ≤ 0 := div_nonpos_of_nonpos_of_nonneg (by linarith) (by linarith)
    refine ⟨(c - s) / -m, hz0, ?_, rfl⟩
    generalize (c - s) / -m = z at *
    have : Spec.belowSea m c z = m * (0 ^ 2 - z ^ 2) / 2 + c * (0 - z) := part_pos hm hz0 (by linarith)
    rw [this]
    have hkey : m * (m * (0 ^ 2 - z ^ 2) / 2 + c * (0 - z)) = m * (threshold - maxInt) := by
      have e : m * (m * (0 ^ 2 - z ^ 2) / 2 + c * (0 - z)) = -((m * z) * (m * z) / 2 + c * (m * z)) := by ring
      rw [e, hmz]
      linarith [hss]
    have := mul_left_cancel₀ hm.ne hkey
    linarith
  · rw [if_neg hc]
    push Not at hc
    have hc0 : c < 0 := by
      by_contra hcn
      push Not at hcn
      have : 0 ≤ -c / m := div_nonneg_of_nonpos (by linarith) hm.le
      linarith
    have harg : 0 < 2 * m * (maxInt - threshold) := by nlinarith
    set s := Real.sqrt (2 * m * (maxInt - threshold)) with hs
    have hss : s * s = 2 * m * (maxInt - threshold) := Real.mul_self_sqrt harg.le
    have hs0 : 0 < s := Real.sqrt_pos.mpr harg
    have hmz : m * ((c - s) / -m) = s - c := by
      have hm0 : m ≠ 0 := hm.ne
      field_simp
      ring
    have hz0 : (c - s) / -m ≤ 0 := div_nonpos_of_nonpos_of_nonneg (by linarith) (by linarith)
    have hmt : m * (-c / m) = -c := mul_div_cancel₀ _ hm.ne
    refine ⟨(c - s) / -m, hz0, ?_, rfl⟩
    have htop : (c - s) / -m ≤ -c / m := by
      by_contra hcn
      push Not at hcn
      have := mul_lt_mul_of_neg_left hcn hm
      linarith
    generalize (c - s) / -m = z at *
    generalize -c / m = top at *
    rw [belowSea_split m c z top, part_pos hm htop (by linarith)]
    have hz : Spec.belowSea m c top = 0 := part_zero hm hc.le (by linarith)
    rw [hz]
    have hkey : m * (m * (top ^ 2 - z ^ 2) / 2 + c * (top - z)) = m * (threshold - maxInt) := by
      have e : m * (m * (top ^ 2 - z ^ 2) / 2 + c * (top - z))
        = ((m * top) * (m * top) - (m * z) * (m * z)) / 2 + c * (m * top - m * z) := by ring
      rw [e, hmz, hmt]
      nlinarith [hss]
    have := mul_left_cancel₀ hm.ne hkey
    linarith

/-- A 6.5 K/km fit through 1 C at sea level satisfies the hypotheses. -/
example : (-0.0065 : ℝ) < 0 ∧ (50 : ℝ) < 90 := by norm_num

/-- Elsewhere (gradient zero or positive) nothing is extrapolated. -/
theorem C149_otherwise {threshold maxInt m c : ℝ} (hm : 0 ≤ m) (level : Option ℝ) :
    extrapolatedLevel threshold maxInt m c level = level := by
  unfold extrapolatedLevel
  rw [if_neg (not_lt.mpr hm)]

/-- The fit is the least-squares line through the levels it is given: no other line has a smaller sum of squares. -/
theorem C149_least_squares (pts : List (ℝ × ℝ)) {m c : ℝ} (h : fitLineR pts = some (m, c)) (m' c' : ℝ) :
    (pts.map fun p => (p.2 - (m * p.1 + c)) ^ 2).sum ≤ (pts.map fun p => (p.2 - (m' * p.1 + c')) ^ 2).sum := by
  unfold fitLineR at h
  simp only [] at h
  have hn : (pts.length : ℝ) ≠ 0 := by
    intro h0
    have : pts = [] := List.length_eq_zero_iff.mp (by exact_mod_cast h0)
    subst this
    simp at h
  set xm := (pts.map (·.1)).sum / pts.length with hxm
  set ym := (pts.map (·.2)).sum / pts.length with hym
  set cov := (pts.map fun p => (p.1 - xm) * (p.2 - ym)).sum with hcov
  set var := (pts.map fun p => (p.1 - xm) * (p.1 - xm)).sum with hvar
  by_cases hv : var = 0
  · rw [if_pos hv] at h; cases h
  rw [if_neg hv] at h
  obtain ⟨rfl, rfl⟩ : cov / var = m ∧ ym - cov / var * xm = c := by
    have := Option.some.inj h
    exact ⟨congrArg Prod.fst this, congrArg Prod.snd this⟩
  have hsx : (pts.map fun p => p.1 - xm).sum = 0 := by
    have e : ∀ l : List (ℝ × ℝ), (l.map fun p => p.1 - xm).sum = (l.map (·.1)).sum - l.length * xm := by
      intro l; induction l with
      | nil => simp
      | cons a l ih => simp only [List.map_cons, List.sum_cons, ih, List.length_cons]; push_cast; ring
    rw [e, hxm]; field_simp; ring
  have hsy : (pts.map fun p => p.2 - ym).sum = 0 := by
    have e : ∀ l : List (ℝ × ℝ), (l.map fun p => p.2 - ym).sum = (l.map (·.2)).sum - l.length * ym := by
      intro l; induction l with
      | nil => simp
      | cons a l ih => simp only [List.map_cons, List.sum_cons, ih, List.length_cons]; push_cast; ring
    rw [e, hym]; field_simp; ring
  have expand : ∀ (a b : ℝ), (pts.map fun p => (p.2 - (a * p.1 + b)) ^ 2).sum
      = (pts.map fun p => (p.2 - ym) * (p.2 - ym)).sum - 2 * a * cov + a ^ 2 * var
        + pts.length * (ym - a * xm - b) ^ 2
        + 2 * (ym - a * xm - b) * ((pts.map fun p => p.2 - ym).sum - a * (pts.map fun p => p.1 - xm).sum) := by
    intro a b
    rw [hcov, hvar]
    clear_value xm ym
    clear hcov hvar hsx hsy h hn hv hxm hym cov var
    induction pts with
    | nil => simp
    | cons p l ih =>
      simp only [List.map_cons, List.sum_cons, List.length_cons, ih]
      push_cast
      ring
  rw [expand, expand, hsx, hsy]
  have hvp : 0 < var := by
    apply lt_of_le_of_ne _ (Ne.symm hv)
    rw [hvar]
    apply List.sum_nonneg
    intro x hx
    obtain ⟨p, -, rfl⟩ := List.mem_map.mp hx
    exact mul_self_nonneg _
  have h1 : cov / var * var = cov := div_mul_cancel₀ _ hv
  have e0 : ym - cov / var * xm - (ym - cov / var * xm) = 0 := by ring
  rw [e0]
  have hl : (0 : ℝ) ≤ pts.length := Nat.cast_nonneg _
  have h2 : 0 ≤ pts.length * (ym - m' * xm - c') ^ 2 := mul_nonneg hl (sq_nonneg _)
  have h3 : 0 ≤ var * (m' - cov / var) ^ 2 := mul_nonneg hvp.le (sq_nonneg _)
  have h4 : var * (m' - cov / var) ^ 2 = m' ^ 2 * var - 2 * m' * (cov / var * var) + (cov / var) ^ 2 * var := by ring
  rw [h4, h1] at h3
  have h5 : 2 * (cov / var) * cov = 2 * (cov / var) ^ 2 * var := by
    nth_rewrite 2 [← h1]; ring
  nlinarith

/-! ## One column -/

namespace Spec
/-- `(z, v)` lies on the straight segment between two consecutive levels of the profile, or on a level. -/
def onProfile (column : List (ℝ × ℝ)) (z v : ℝ) : Prop :=
  (z, v) ∈ column ∨
  ∃ pre a b post, column = pre ++ a :: b :: post ∧
    ∃ s : ℝ, 0 ≤ s ∧ s ≤ 1 ∧ z = a.1 + s * (b.1 - a.1) ∧ v = a.2 + s * (b.2 - a.2)

/-- From the top down the heights do not increase. -/
def downwards (column : List (ℝ × ℝ)) : Prop := column.Pairwise fun a b => b.1 ≤ a.1

/-- From the top down the integral does not decrease. -/
def growing (column : List (ℝ × ℝ)) : Prop := column.Pairwise fun a b => a.2 ≤ b.2
end Spec

theorem onProfile_cons (a : ℝ × ℝ) {l : List (ℝ × ℝ)} {z v : ℝ} (h : Spec.onProfile l z v) :
    Spec.onProfile (a :: l) z v := by
  rcases h with h | ⟨pre, x, y, post, rfl, h⟩
  · exact Or.inl (List.mem_cons_of_mem _ h)
  · exact Or.inr ⟨a :: pre, x, y, post, rfl, h⟩

theorem crossing_on (t : ℝ) (l : List (ℝ × ℝ)) {z : ℝ} (h : crossing t l = some z) : Spec.onProfile l z t := by
  induction l with
  | nil => simp [crossing] at h
  | cons a l ih =>
    cases l with
    | nil =>
      rw [crossing] at h
      by_cases ha : a.2 = t
      · rw [if_pos ha] at h
        left
        have hz : a.1 = z := Option.some.inj h
        rw [← ha, ← hz]; exact List.mem_singleton.mpr rfl
      · rw [if_neg ha] at h; cases h
    | cons b rest =>
      rw [crossing] at h
      by_cases ha : a.2 = t
      · rw [if_pos ha] at h
        left
        have hz : a.1 = z := Option.some.inj h
        rw [← ha, ← hz]; exact List.mem_cons_self
      · rw [if_neg ha] at h
        by_cases hb : a.2 < t ∧ t ≤ b.2
        · rw [if_pos hb] at h
          right
          have hd : 0 < b.2 - a.2 := by linarith [hb.1, hb.2]
          refine ⟨[], a, b, rest, rfl, (t - a.2) / (b.2 - a.2), div_nonneg (by linarith [hb.1]) hd.le, ?_, ?_, ?_⟩
          · rw [div_le_one hd]; linarith [hb.2]
          · exact (Option.some.inj h).symm
          · rw [div_mul_cancel₀ _ hd.ne']; ring
        · rw [if_neg hb] at h
          exact onProfile_cons a (ih h)

theorem crossing_below (t : ℝ) (l : List (ℝ × ℝ)) (h : ∀ a ∈ l, a.2 < t) : crossing t l = none := by
  induction l with
  | nil => rfl
  | cons a l ih =>
    have ha := h a List.mem_cons_self
    cases l with
    | nil => rw [crossing, if_neg ha.ne]
    | cons b rest =>
      have hb := h b (List.mem_cons_of_mem _ List.mem_cons_self)
      rw [crossing, if_neg ha.ne, if_neg (by rintro ⟨_, h2⟩; linarith)]
      exact ih fun x hx => h x (List.mem_cons_of_mem _ hx)

theorem crossing_above (t : ℝ) (l : List (ℝ × ℝ)) (h : ∀ a ∈ l, t < a.2) : crossing t l = none := by
  induction l with
  | nil => rfl
  | cons a l ih =>
    have ha := h a List.mem_cons_self
    cases l with
    | nil => rw [crossing, if_neg ha.ne']
    | cons b rest =>
      rw [crossing, if_neg ha.ne', if_neg (by rintro ⟨h2, _⟩; linarith)]
      exact ih fun x hx => h x (List.mem_cons_of_mem _ hx)

theorem crossing_exists (t : ℝ) (a : ℝ × ℝ) (l : List (ℝ × ℝ)) (ha : a.2 ≤ t) (hl : ∃ b ∈ a :: l, t ≤ b.2) :
    ∃ z, crossing t (a :: l) = some z := by
  induction l generalizing a with
  | nil =>
    obtain ⟨b, hb, hbt⟩ := hl
    rw [List.mem_singleton.mp hb] at hbt
    exact ⟨a.1, by rw [crossing, if_pos (le_antisymm ha hbt)]⟩
  | cons b rest ih =>
    rw [crossing]
    by_cases h1 : a.2 = t
    · exact ⟨_, if_pos h1⟩
    rw [if_neg h1]
    by_cases h2 : a.2 < t ∧ t ≤ b.2
    · exact ⟨_, if_pos h2⟩
    rw [if_neg h2]
    have halt : a.2 < t := lt_of_le_of_ne ha h1
    have hbt : b.2 ≤ t := by
      by_contra hc
      exact h2 ⟨halt, (not_le.mp hc).le⟩
    apply ih b hbt
    obtain ⟨x, hx, hxt⟩ := hl
    rcases List.mem_cons.mp hx with rfl | hx
    · exact absurd hxt (not_le.mpr halt)
    · exact ⟨x, hx, hxt⟩

theorem foldl_max_ge (l : List (ℝ × ℝ)) (m : ℝ) :
    m ≤ l.foldl (fun m b => max m b.2) m ∧ (∀ b ∈ l, b.2 ≤ l.foldl (fun m b => max m b.2) m) ∧
    (l.foldl (fun m b => max m b.2) m = m ∨ ∃ b ∈ l, l.foldl (fun m b => max m b.2) m = b.2) := by
  induction l generalizing m with
  | nil => exact ⟨le_rfl, by simp, Or.inl rfl⟩
  | cons a l ih =>
    rw [List.foldl_cons]
    obtain ⟨h1, h2, h3⟩ := ih (max m a.2)
    refine ⟨(le_max_left _ _).trans h1, ?_, ?_⟩
    · intro b hb
      rcases List.mem_cons.mp hb with rfl | hb
      · exact (le_max_right _ _).trans h1
      · exact h2 b hb
    · rcases h3 with h3 | ⟨b, hb, h3⟩
      · rcases max_choice m a.2 with h | h
        · left; rw [h3, h]
        · right; exact ⟨a, List.mem_cons_self, by rw [h3, h]⟩
      · exact Or.inr ⟨b, List.mem_cons_of_mem _ hb, h3⟩

theorem columnMax_spec {column : List (ℝ × ℝ)} (h : column ≠ []) :
    (∀ b ∈ column, b.2 ≤ columnMax column) ∧ ∃ b ∈ column, columnMax column = b.2 := by
  cases column with
  | nil => exact absurd rfl h
  | cons a l =>
    obtain ⟨h1, h2, h3⟩ := foldl_max_ge l a.2
    refine ⟨?_, ?_⟩
    · intro b hb
      rcases List.mem_cons.mp hb with rfl | hb
      · exact h1
      · exact h2 b hb
    · rcases h3 with h3 | ⟨b, hb, h3⟩
      · exact ⟨a, List.mem_cons_self, h3⟩
      · exact ⟨b, List.mem_cons_of_mem _ hb, h3⟩

theorem onProfile_shift {column : List (ℝ × ℝ)} {o z v : ℝ}
    (h : Spec.onProfile (column.map fun hv => (o + hv.1, hv.2)) z v) : Spec.onProfile column (z - o) v := by
  rcases h with h | ⟨pre, a, b, post, e, s, hs0, hs1, hz, hv⟩
  · obtain ⟨p, hp, he⟩ := List.mem_map.mp h
    left
    have h1 : o + p.1 = z := congrArg Prod.fst he
    have h2 : p.2 = v := congrArg Prod.snd he
    have : (z - o, v) = p := by rw [← h1, ← h2]; simp
    rw [this]; exact hp
  · right
    obtain ⟨l1, l2, rfl, h1, h2⟩ := List.map_eq_append_iff.mp e
    obtain ⟨a', l3, rfl, h3, h4⟩ := List.map_eq_cons_iff.mp h2
    obtain ⟨b', l4, rfl, h5, h6⟩ := List.map_eq_cons_iff.mp h4
    refine ⟨l1, a', b', l4, rfl, s, hs0, hs1, ?_, ?_⟩
    · rw [hz, ← h3, ← h5]; ring
    · rw [hv, ← h3, ← h5]

/-- The profile's heights bound every height on it. -/
theorem onProfile_bounds {column : List (ℝ × ℝ)} {z v lo hi : ℝ} (h : Spec.onProfile column z v)
    (hb : ∀ a ∈ column, lo ≤ a.1 ∧ a.1 ≤ hi) : lo ≤ z ∧ z ≤ hi := by
  rcases h with h | ⟨pre, a, b, post, rfl, s, hs0, hs1, hz, -⟩
  · exact hb _ h
  · have ha := hb a (by simp)
    have hb' := hb b (by simp)
    rw [hz]
    constructor <;> nlinarith

/-- When the integral is at or below the threshold at the top and reaches it further down, the level is the ground
height plus a height on the profile where the integral equals the threshold. -/
theorem C150_crossing {threshold orog land highest : ℝ} {a : ℝ × ℝ} {column wbt : List (ℝ × ℝ)}
    (ha : a.2 ≤ threshold) (hr : ∃ b ∈ a :: column, threshold ≤ b.2) :
    ∃ z, columnLevel threshold orog land highest (a :: column) wbt = some (orog + z) ∧
      Spec.onProfile (a :: column) z threshold := by
  obtain ⟨z, hz⟩ := crossing_exists threshold (orog + a.1, a.2) (column.map fun hv => (orog + hv.1, hv.2)) ha (by
    obtain ⟨b, hb, hbt⟩ := hr
    refine ⟨(orog + b.1, b.2), ?_, hbt⟩
    rcases List.mem_cons.mp hb with rfl | hb
    · exact List.mem_cons_self
    · exact List.mem_cons_of_mem _ (List.mem_map.mpr ⟨b, hb, rfl⟩))
  have hf : fallingLevel threshold orog (a :: column) = some z := hz
  refine ⟨z - orog, ?_, ?_⟩
  · unfold columnLevel fillHigh fillSea
    simp [hf]
  · apply onProfile_shift
    exact crossing_on _ _ hf

example : ((1000 : ℝ), (0 : ℝ)).2 ≤ 90 ∧ ∃ b ∈ [((1000 : ℝ), (0 : ℝ)), (0, 120)], (90 : ℝ) ≤ b.2 :=
  ⟨by norm_num, (0, 120), by simp, by norm_num⟩

/-- When the integral exceeds the threshold at every level the level is the highest height above the ground. -/
theorem C150_high {threshold orog land highest : ℝ} {column wbt : List (ℝ × ℝ)} (hne : column ≠ [])
    (h : ∀ b ∈ column, threshold < b.2) :
    columnLevel threshold orog land highest column wbt = some (highest + orog) := by
  have hf : fallingLevel threshold orog column = none := by
    apply crossing_above
    intro x hx
    obtain ⟨p, hp, rfl⟩ := List.mem_map.mp hx
    exact h p hp
  have hm : threshold < columnMax column := by
    obtain ⟨b, hb, e⟩ := (columnMax_spec hne).2
    rw [e]; exact h b hb
  unfold columnLevel fillHigh fillSea
  simp [hf, hm]

/-- When the integral stays below the threshold, a land point is left missing; a sea point gets the level
extrapolated from the line fitted to the first five wet bulb temperatures, above its ground height, if that line
falls with height, and is left missing if not. -/
theorem C150_low {threshold orog land highest : ℝ} {column wbt : List (ℝ × ℝ)} (hne : column ≠ [])
    (h : ∀ b ∈ column, b.2 < threshold) :
    (1 ≤ land → columnLevel threshold orog land highest column wbt = none) ∧
    (land < 1 → ∀ m c, fitLineR (wbt.take 5) = some (m, c) →
      (0 ≤ m → columnLevel threshold orog land highest column wbt = none) ∧
      (m < 0 → ∃ z ≤ 0, columnMax column + Spec.belowSea m c z = threshold ∧
        columnLevel threshold orog land highest column wbt = some (max z (-2000) + orog))) := by
  have hf : fallingLevel threshold orog column = none := by
    apply crossing_below
    intro x hx
    obtain ⟨p, hp, rfl⟩ := List.mem_map.mp hx
    exact h p hp
  have hm : columnMax column < threshold := by
    obtain ⟨b, hb, e⟩ := (columnMax_spec hne).2
    rw [e]; exact h b hb
  have hh : fillHigh threshold none orog (columnMax column) highest = none := by
    unfold fillHigh
    rw [if_neg (by rintro ⟨_, h2⟩; linarith)]
  refine ⟨?_, ?_⟩
  · intro hl
    unfold columnLevel fillSea
    simp only [hf, hh]
    rw [if_neg (by rintro ⟨_, h2, _⟩; linarith)]
  · intro hl m c hfit
    have e : columnLevel threshold orog land highest column wbt
        = (extrapolatedLevel threshold (columnMax column) m c none).map (· + orog) := by
      unfold columnLevel fillSea wetBulbFit
      simp only [hf, hh, hfit]
      rw [if_pos ⟨trivial, hl, hm⟩]
    refine ⟨?_, ?_⟩
    · intro h0
      rw [e, C149_otherwise h0]; rfl
    · intro hneg
      obtain ⟨z, hz0, hz1, -, hz2⟩ := C149_extrapolated (c := c) hneg hm none
      exact ⟨z, hz0, hz1, by rw [e, hz2]; rfl⟩

/-- For an integral that does not decrease downwards these cases are all there are, so a level found before any
filling lies between the ground height plus the lowest height and plus the highest, or at the top, or was extrapolated from sea level
downwards. -/
theorem C150_range {threshold orog land highest lo : ℝ} {column wbt : List (ℝ × ℝ)} (hne : column ≠ [])
    (hg : Spec.growing column) (hb : ∀ a ∈ column, lo ≤ a.1 ∧ a.1 ≤ highest) (hlo : lo ≤ highest) {v : ℝ}
    (hv : columnLevel threshold orog land highest column wbt = some v) :
    (orog + lo ≤ v ∧ v ≤ orog + highest) ∨ (land < 1 ∧ orog - 2000 ≤ v ∧ v ≤ orog) := by
  cases column with
  | nil => exact absurd rfl hne
  | cons a column =>
    by_cases ha : threshold < a.2
    · left
      have := C150_high (land := land) (orog := orog) (highest := highest) (wbt := wbt) hne (fun b hb' => by
        rcases List.mem_cons.mp hb' with rfl | hb'
        · exact ha
        · exact lt_of_lt_of_le ha ((List.pairwise_cons.mp hg).1 b hb'))
      rw [this] at hv
      have := Option.some.inj hv
      constructor <;> linarith
    · push Not at ha
      by_cases hr : ∃ b ∈ a :: column, threshold ≤ b.2
      · left
        obtain ⟨z, hz, hp⟩ := C150_crossing (orog := orog) (land := land) (highest := highest) (wbt := wbt) ha hr
        rw [hz] at hv
        have hbd := onProfile_bounds hp hb
        have := Option.some.inj hv
        constructor <;> linarith [hbd.1, hbd.2]
      · push Not at hr
        have hlow := C150_low (orog := orog) (land := land) (highest := highest) (wbt := wbt) hne hr
        by_cases hl : 1 ≤ land
        · rw [hlow.1 hl] at hv; cases hv
        · push Not at hl
          right
          cases hfit : fitLineR (wbt.take 5) with
          | none =>
            exfalso
            have hf : fallingLevel threshold orog (a :: column) = none := by
              apply crossing_below
              intro x hx
              obtain ⟨p, hp, rfl⟩ := List.mem_map.mp hx
              exact hr p hp
            have hm : columnMax (a :: column) < threshold := by
              obtain ⟨b, hb', e⟩ := (columnMax_spec hne).2
              rw [e]; exact hr b hb'
            unfold columnLevel fillSea fillHigh wetBulbFit at hv
            simp [hf, hfit, not_lt.mpr hm.le] at hv
          | some mc =>
            obtain ⟨m, c⟩ := mc
            have h2 := hlow.2 hl m c hfit
            by_cases hm0 : 0 ≤ m
            · rw [h2.1 hm0] at hv; cases hv
            · obtain ⟨z, hz0, -, hz⟩ := h2.2 (not_le.mp hm0)
              rw [hz] at hv
              have := Option.some.inj hv
              have h3 := le_max_right z (-2000)
              have h4 : max z (-2000) ≤ 0 := max_le hz0 (by norm_num)
              exact ⟨hl, by linarith, by linarith⟩

example : Spec.growing [((1000 : ℝ), (0 : ℝ)), (500, 60), (0, 120)] := by
  simp [Spec.growing]; norm_num

/-! ## Filling across the grid -/

namespace Spec
/-- Nearest-neighbour interpolation always has a value once some point has one, and it is one of those values. -/
def IsNearest (n : ℕ) (near : (ℕ → Option ℝ) → ℕ → Option ℝ) : Prop :=
  ∀ d, (∃ k < n, (d k).isSome) → ∀ i, ∃ k < n, (d k).isSome ∧ near d i = d k
end Spec

theorem fillMissingR_keeps {n : ℕ} {grid valid limit data} {i : ℕ} {v : ℝ} (h : data i = some v) :
    fillMissingR n grid valid limit data i = some v := by
  unfold fillMissingR
  simp only [h]

theorem fillMissingR_limit {n : ℕ} {grid valid limit data} {i : ℕ} {v : ℝ} (h : data i = none)
    (hv : fillMissingR n grid valid limit data i = some v) : v ≤ limit i := by
  unfold fillMissingR at hv
  simp only [h] at hv
  split_ifs at hv with hc
  · obtain ⟨w, -, rfl⟩ := Option.map_eq_some_iff.mp hv
    exact min_le_right _ _

theorem horizontal_keeps {n : ℕ} {lin near orog maxOrog data} {i : ℕ} {v : ℝ} (h : data i = some v) :
    horizontalFill n lin near orog maxOrog data i = some v := by
  unfold horizontalFill
  have h2 := fillMissingR_keeps (n := n) (grid := near) (limit := orog)
    (valid := notAbove (fillMissingR n lin (notAbove data maxOrog) orog data) maxOrog)
    (fillMissingR_keeps (n := n) (grid := lin) (limit := orog) (valid := notAbove data maxOrog) h)
  split_ifs
  · exact fillMissingR_keeps h2
  · exact h2

theorem horizontal_limit {n : ℕ} {lin near orog maxOrog data} {i : ℕ} {v : ℝ} (h : data i = none)
    (hv : horizontalFill n lin near orog maxOrog data i = some v) : v ≤ orog i := by
  unfold horizontalFill at hv
  set d1 := fillMissingR n lin (notAbove data maxOrog) orog data with hd1
  set d2 := fillMissingR n near (notAbove d1 maxOrog) orog d1 with hd2
  have step2 : ∀ w, d2 i = some w → w ≤ orog i := by
    intro w hw
    cases h1 : d1 i with
    | none => exact fillMissingR_limit h1 hw
    | some u =>
      rw [hd2, fillMissingR_keeps h1] at hw
      rw [← Option.some.inj hw]
      exact fillMissingR_limit h h1
  split_ifs at hv
  · cases h2 : d2 i with
    | none => exact fillMissingR_limit h2 hv
    | some u =>
      rw [fillMissingR_keeps h2] at hv
      rw [← Option.some.inj hv]
      exact step2 u h2
  · exact step2 v hv

/-- Horizontal filling keeps every level already found and never puts a level above the ground of the point it
fills, whatever the interpolator returns. -/
theorem C151_fill {n : ℕ} (lin near : (ℕ → Option ℝ) → ℕ → Option ℝ) (threshold highest : ℝ)
    (orog maxOrog land : ℕ → ℝ) (column wbt : ℕ → List (ℝ × ℝ)) (i : ℕ) :
    (∀ v, columnLevel threshold (orog i) (land i) highest (column i) (wbt i) = some v →
      phaseLevel n lin near true threshold highest orog maxOrog land column wbt i = some v) ∧
    (columnLevel threshold (orog i) (land i) highest (column i) (wbt i) = none →
      ∀ v, phaseLevel n lin near true threshold highest orog maxOrog land column wbt i = some v → v ≤ orog i) := by
  unfold phaseLevel
  simp only [if_true]
  exact ⟨fun v h => horizontal_keeps h, fun h v hv => horizontal_limit h hv⟩

/-- The levels a fill may use: those not above the highest ground around their own point. -/
noncomputable def Spec.usable (maxOrog : ℕ → ℝ) (level : ℕ → Option ℝ) (k : ℕ) : Option ℝ :=
  open Classical in if ∃ v, level k = some v ∧ v ≤ maxOrog k then level k else none

/-- A point without a level of its own takes the linear interpolation, made only from levels not above the highest
ground around them, and capped at its own ground, wherever that interpolation reaches. -/
theorem C151_sources {n : ℕ} (lin near : (ℕ → Option ℝ) → ℕ → Option ℝ) (threshold highest : ℝ)
    (orog maxOrog land : ℕ → ℝ) (column wbt : ℕ → List (ℝ × ℝ)) (i : ℕ) {level : ℕ → Option ℝ}
    (hl : level = fun k => columnLevel threshold (orog k) (land k) highest (column k) (wbt k))
    (hi : level i = none) (hsome : ∃ k < n, (Spec.usable maxOrog level k).isSome) {w : ℝ}
    (hw : lin (Spec.usable maxOrog level) i = some w) :
    phaseLevel n lin near true threshold highest orog maxOrog land column wbt i = some (min w (orog i)) := by
  have hu : (fun k => if notAbove level maxOrog k then level k else none) = Spec.usable maxOrog level := by
    funext k
    unfold notAbove Spec.usable
    cases h : level k with
    | none => simp
    | some v => simp
  have h1 : fillMissingR n lin (notAbove level maxOrog) orog level i = some (min w (orog i)) := by
    unfold fillMissingR
    dsimp only
    rw [hi]
    dsimp only
    rw [if_pos, hu, hw]
    · rfl
    · obtain ⟨k, hk, hs⟩ := hsome
      exact List.any_eq_true.2 ⟨k, List.mem_range.2 hk, by rw [← hu] at hs; exact hs⟩
  unfold phaseLevel
  simp only [if_true]
  rw [← hl]
  unfold horizontalFill
  have h2 := fillMissingR_keeps (n := n) (grid := near)
    (valid := notAbove (fillMissingR n lin (notAbove level maxOrog) orog level) maxOrog) (limit := orog) h1
  split
  · exact fillMissingR_keeps h2
  · exact h2

example : Spec.usable (fun _ => 100) (fun k => if k = 0 then some 50 else if k = 1 then some 150 else none) 0 = some 50 ∧
    Spec.usable (fun _ => 100) (fun k => if k = 0 then some 50 else if k = 1 then some 150 else none) 1 = none := by
  unfold Spec.usable
  constructor
  · rw [if_pos ⟨50, by simp, by norm_num⟩]; simp
  · rw [if_neg]
    rintro ⟨v, h1, h2⟩
    simp at h1
    subst h1
    norm_num at h2

/-- With a nearest-neighbour interpolator, no point is left masked once any column has a level. -/
theorem C151_complete {n : ℕ} (lin near : (ℕ → Option ℝ) → ℕ → Option ℝ) (hnear : Spec.IsNearest n near)
    (threshold highest : ℝ) (orog maxOrog land : ℕ → ℝ) (column wbt : ℕ → List (ℝ × ℝ))
    (hany : ∃ k < n, (columnLevel threshold (orog k) (land k) highest (column k) (wbt k)).isSome)
    (i : ℕ) (hi : i < n) :
    (phaseLevel n lin near true threshold highest orog maxOrog land column wbt i).isSome := by
  unfold phaseLevel
  simp only [if_true]
  set d := fun i => columnLevel threshold (orog i) (land i) highest (column i) (wbt i) with hd
  unfold horizontalFill
  set d1 := fillMissingR n lin (notAbove d maxOrog) orog d with hd1
  set d2 := fillMissingR n near (notAbove d1 maxOrog) orog d1 with hd2
  obtain ⟨k, hk, hks⟩ := hany
  have h2k : (d2 k).isSome := by
    obtain ⟨v, hv⟩ := Option.isSome_iff_exists.mp hks
    rw [hd2, fillMissingR_keeps (v := v), Option.isSome_some]
    rw [hd1]
    exact fillMissingR_keeps hv
  split_ifs with hc
  · cases h2 : d2 i with
    | some v => rw [fillMissingR_keeps h2]; rfl
    | none =>
      unfold fillMissingR
      simp only [h2, if_true]
      have hex : ((List.range n).any fun k => (d2 k).isSome) = true :=
        List.any_eq_true.mpr ⟨k, List.mem_range.mpr hk, h2k⟩
      rw [if_pos hex]
      obtain ⟨j, -, hj, e⟩ := hnear d2 ⟨k, hk, h2k⟩ i
      rw [e]
      simpa using hj
  · rw [Bool.not_eq_true, List.any_eq_false] at hc
    have := hc i (List.mem_range.mpr hi)
    rw [Bool.not_eq_true] at this
    cases h2 : d2 i with
    | none => rw [h2] at this; cases this
    | some v => rfl

/-- Nothing at all can be filled when no column has a level, and without horizontal filling each point's level is its
column's. -/
theorem C151_otherwise {n : ℕ} (lin near : (ℕ → Option ℝ) → ℕ → Option ℝ) (threshold highest : ℝ)
    (orog maxOrog land : ℕ → ℝ) (column wbt : ℕ → List (ℝ × ℝ)) (i : ℕ) :
    ((∀ k, columnLevel threshold (orog k) (land k) highest (column k) (wbt k) = none) →
      phaseLevel n lin near true threshold highest orog maxOrog land column wbt i = none) ∧
    phaseLevel n lin near false threshold highest orog maxOrog land column wbt i
      = columnLevel threshold (orog i) (land i) highest (column i) (wbt i) := by
  refine ⟨?_, by simp [phaseLevel]⟩
  intro hall
  have hf : ∀ (grid : (ℕ → Option ℝ) → ℕ → Option ℝ) (valid : ℕ → Bool) (d : ℕ → Option ℝ), (∀ k, d k = none) →
      ∀ k, fillMissingR n grid valid orog d k = none := by
    intro grid valid d h k
    unfold fillMissingR
    simp [h]
  unfold phaseLevel
  simp only [if_true]
  unfold horizontalFill
  have h1 := hf lin (notAbove (fun i => columnLevel threshold (orog i) (land i) highest (column i) (wbt i)) maxOrog) _ hall
  have h2 := hf near (notAbove (fillMissingR n lin
    (notAbove (fun i => columnLevel threshold (orog i) (land i) highest (column i) (wbt i)) maxOrog) orog
    (fun i => columnLevel threshold (orog i) (land i) highest (column i) (wbt i))) maxOrog) _ h1
  split_ifs
  · exact hf near _ _ h2 i
  · exact h2 i

/-! ## Options and checks -/

/-- The three phase changes and their thresholds; any other name is an error. -/
theorem C152_phase_changes (s : String) :
    (∃ e, phaseChange s = .error e) ↔ s ∉ ["snow-sleet", "sleet-rain", "hail-rain"] := by
  unfold phaseChange
  by_cases h1 : s = "snow-sleet"
  · simp [h1]
  by_cases h2 : s = "sleet-rain"
  · simp [h2]
  by_cases h3 : s = "hail-rain"
  · simp [h3]
  simp [h1, h2, h3]

/-- Snow turns to sleet before sleet turns to rain, and hail melts last. -/
theorem C152_thresholds : ∃ a b c : ℝ, 0 < a ∧ a < b ∧ b < c ∧
    phaseChange "snow-sleet" = .ok (a, "snow_falling") ∧ phaseChange "sleet-rain" = .ok (b, "rain_falling") ∧
    phaseChange "hail-rain" = .ok (c, "rain_from_hail_falling") := by
  refine ⟨90, 202.5, 5000, by norm_num, by norm_num, by norm_num, ?_, ?_, ?_⟩ <;> simp [phaseChange]

theorem crossing_le_top {t : ℝ} {a : ℝ × ℝ} {l : List (ℝ × ℝ)} (hd : Spec.downwards (a :: l)) {z : ℝ}
    (h : crossing t (a :: l) = some z) : z ≤ a.1 := by
  have hp := crossing_on _ _ h
  have hle : ∀ x ∈ a :: l, x.1 ≤ a.1 := by
    intro x hx
    rcases List.mem_cons.mp hx with rfl | hx
    · exact le_rfl
    · exact (List.pairwise_cons.mp hd).1 x hx
  rcases hp with hp | ⟨pre, u, v, post, e, s, hs0, hs1, hz, -⟩
  · exact hle _ hp
  · have hu := hle u (by rw [e]; simp)
    have hv := hle v (by rw [e]; simp)
    rw [hz]; nlinarith

/-- In one column with an integral that grows downwards, a larger threshold never gives a higher crossing: the
snow-sleet level is never below the sleet-rain level found in the same column. -/
theorem C152_order {t1 t2 : ℝ} (h12 : t1 ≤ t2) {l : List (ℝ × ℝ)} (hd : Spec.downwards l) (hg : Spec.growing l)
    {z1 z2 : ℝ} (h1 : crossing t1 l = some z1) (h2 : crossing t2 l = some z2) : z2 ≤ z1 := by
  induction l with
  | nil => simp [crossing] at h1
  | cons a l ih =>
    have hz2 := crossing_le_top hd h2
    cases l with
    | nil =>
      rw [crossing] at h1
      by_cases ha : a.2 = t1
      · rw [if_pos ha] at h1
        rw [← Option.some.inj h1]; exact hz2
      · rw [if_neg ha] at h1; cases h1
    | cons b rest =>
      have hba := (List.pairwise_cons.mp hd).1 b List.mem_cons_self
      have hd' := (List.pairwise_cons.mp hd).2
      have hg' := (List.pairwise_cons.mp hg).2
      rw [crossing] at h1
      by_cases ha : a.2 = t1
      · rw [if_pos ha] at h1
        rw [← Option.some.inj h1]; exact hz2
      rw [if_neg ha] at h1
      by_cases hb : a.2 < t1 ∧ t1 ≤ b.2
      · rw [if_pos hb] at h1
        have hpos : 0 < b.2 - a.2 := by linarith [hb.1, hb.2]
        have hz1 := Option.some.inj h1
        have hf1 : (t1 - a.2) / (b.2 - a.2) ≤ 1 := by rw [div_le_one hpos]; linarith [hb.2]
        rw [crossing, if_neg (by intro hh; linarith [hb.1])] at h2
        by_cases hb2 : a.2 < t2 ∧ t2 ≤ b.2
        · rw [if_pos hb2] at h2
          rw [← hz1, ← Option.some.inj h2]
          have : (t1 - a.2) / (b.2 - a.2) ≤ (t2 - a.2) / (b.2 - a.2) :=
            div_le_div_of_nonneg_right (by linarith) hpos.le
          nlinarith
        · rw [if_neg hb2] at h2
          have := crossing_le_top hd' h2
          rw [← hz1]
          nlinarith
      · rw [if_neg hb] at h1
        have halt : a.2 < t1 := by
          rcases lt_trichotomy a.2 t1 with h | h | h
          · exact h
          · exact absurd h ha
          · exfalso
            rw [crossing_above t1 (b :: rest) (fun x hx =>
              lt_of_lt_of_le h ((List.pairwise_cons.mp hg).1 x hx))] at h1
            cases h1
        have hbt : b.2 < t1 := by
          by_contra hc
          exact hb ⟨halt, not_lt.mp hc⟩
        rw [crossing, if_neg (by intro hh; linarith), if_neg (by rintro ⟨_, hh⟩; linarith)] at h2
        exact ih hd' hg' h1 h2

example : Spec.downwards [((1000 : ℝ), (0 : ℝ)), (500, 60), (0, 300)] := by
  simp [Spec.downwards]; norm_num

/-- The checks before the calculation. -/
theorem C152_checks (n : ℕ) (ids : Option (String × String)) :
    phaseChecks n ids = .ok () ↔ n = 4 ∧ ∀ a b, ids = some (a, b) → a = b := by
  unfold phaseChecks
  by_cases hn : n = 4
  · subst hn
    rcases ids with _ | ⟨a, b⟩
    · simp
    · by_cases hab : a = b
      · simp [hab]
      · simp [hab]
  · simp [hn]

/-- Without bounds on the integral's levels, the highest height is the highest of the wet bulb temperature's when these
are stored from the bottom up. -/
theorem C152_highest {heights : List ℝ} {h : ℝ} (hs : heights.Pairwise (· ≤ ·)) {bounds : List (Option (ℝ × ℝ))}
    (hb : ∀ b ∈ bounds, b = none) (hh : highestHeight bounds heights = some h) : h ∈ heights ∧ ∀ x ∈ heights, x ≤ h := by
  have e : heights.getLast? = some h := by
    unfold highestHeight at hh
    cases bounds with
    | nil => exact hh
    | cons b l =>
      rw [hb b List.mem_cons_self] at hh
      exact hh
  have hm : h ∈ heights := List.mem_of_getLast? e
  refine ⟨hm, ?_⟩
  intro x hx
  obtain ⟨ys, rfl⟩ := List.getLast?_eq_some_iff.mp e
  rcases List.mem_append.mp hx with hx | hx
  · exact (List.pairwise_append.mp hs).2.2 x hx h (List.mem_singleton.mpr rfl)
  · exact le_of_eq (List.mem_singleton.mp hx)

/-- With bounds on the integral's levels, sorted from the top down, it is the upper edge of the topmost layer. -/
theorem C152_highest_bounds {bounds : List (ℝ × ℝ)} {heights : List ℝ} {h : ℝ} (hb : ∀ b ∈ bounds, b.1 ≤ b.2)
    (hs : bounds.Pairwise (fun a b => b.2 ≤ a.2)) (hne : bounds ≠ [])
    (hh : highestHeight (bounds.map some) heights = some h) :
    (∃ b ∈ bounds, h = b.2) ∧ ∀ b ∈ bounds, b.1 ≤ h ∧ b.2 ≤ h := by
  cases bounds with
  | nil => exact absurd rfl hne
  | cons b l =>
    have e : b.2 = h := by
      unfold highestHeight at hh
      exact Option.some.inj hh
    subst e
    refine ⟨⟨b, List.mem_cons_self, rfl⟩, fun c hc => ?_⟩
    have h2 : c.2 ≤ b.2 := by
      rcases List.mem_cons.1 hc with rfl | hc'
      · exact le_rfl
      · exact (List.pairwise_cons.1 hs).1 c hc'
    exact ⟨(hb c hc).trans h2, h2⟩

example : highestHeight [some ((500 : ℝ), 1500), some (0, 500)] [0, 100] = some 1500 := by simp [highestHeight]

/-- Stored from the top down, it is the lowest instead. -/
theorem C152_highest_descending_refuted :
    highestHeight [none, none] [(1000 : ℝ), 500, 0] = some 0 := by
  simp [highestHeight]

end Improver
