import Verif.Model.Psychro
import Mathlib.Analysis.SpecialFunctions.Log.Deriv
import Mathlib.Analysis.Complex.ExponentialBounds
import Mathlib.Order.Monotone.Union

/-! Properties of the saturated vapour pressure table, its lookup, saturated humidity, dry adiabats and
condensation (C142-C146). -/

namespace Improver

/-! ## The Goff-Gratch formulae -/

theorem log_ten_gt : (0.69 : ℝ) < Real.log 10 := by
  have h2 : Real.log 2 < Real.log 10 := Real.log_lt_log (by norm_num) (by norm_num)
  have := Real.log_two_gt_d9
  linarith

theorem goffIce_growth {x y : ℝ} (hx : 0 < x) (hxy : x ≤ y) (hy : y ≤ 273.16) :
    goffIce x + 0.03 * (y - x) ≤ goffIce y := by
  have hy0 : 0 < y := lt_of_lt_of_le hx hxy
  have hlog : Real.logb 10 (273.16 / y) ≤ Real.logb 10 (273.16 / x) := by
    apply Real.logb_le_logb_of_le (by norm_num) (by positivity)
    exact div_le_div_of_nonneg_left (by norm_num) hx hxy
  have h1 : (y - x) / 273.16 ≤ 273.16 / x - 273.16 / y := by
    have : 273.16 / x - 273.16 / y = 273.16 * (y - x) / (x * y) := by field_simp
    rw [this, div_le_div_iff₀ (by norm_num) (by positivity)]
    have hxyT : x * y ≤ 273.16 * 273.16 := mul_le_mul (by linarith) hy hy0.le (by norm_num)
    nlinarith [mul_le_mul_of_nonneg_left hxyT (sub_nonneg.mpr hxy)]
  have h2 : y / 273.16 - x / 273.16 = (y - x) / 273.16 := by ring
  have h3 : (0 : ℝ) ≤ y - x := sub_nonneg.mpr hxy
  have h4 : 0.03 * (y - x) ≤ (9.09685 - 0.87682) * ((y - x) / 273.16) := by
    have : (9.09685 - 0.87682) * ((y - x) / 273.16) = ((9.09685 - 0.87682) / 273.16) * (y - x) := by ring
    rw [this]
    exact mul_le_mul_of_nonneg_right (by norm_num) h3
  unfold goffIce
  nlinarith

theorem goffWater_growth {x y : ℝ} (hx : 273.16 ≤ x) (hxy : x < y) (hy : y ≤ 373) :
    goffWater x < goffWater y := by
  have hx0 : 0 < x := by linarith
  have hy0 : 0 < y := by linarith
  have hl10 := log_ten_gt
  have hlog : Real.logb 10 (y / 273.16) - Real.logb 10 (x / 273.16) ≤ (y - x) / (0.69 * x) := by
    rw [← Real.logb_div (by positivity) (by positivity)]
    have e : y / 273.16 / (x / 273.16) = y / x := by field_simp
    rw [e, Real.logb]
    have h1 := Real.log_le_sub_one_of_pos (show 0 < y / x by positivity)
    have h2 : y / x - 1 = (y - x) / x := by field_simp
    rw [div_le_div_iff₀ (by linarith) (by positivity)]
    have h5 : Real.log (y / x) * x ≤ y - x := by
      have := mul_le_mul_of_nonneg_right h1 hx0.le
      rw [h2, div_mul_cancel₀ _ hx0.ne'] at this
      exact this
    have h6 : (0:ℝ) < y - x := by linarith
    nlinarith
  have h1 : 273.16 / x - 273.16 / y = (y - x) / x * (273.16 / y) := by field_simp
  have h1' : (0.73 : ℝ) ≤ 273.16 / y := by rw [le_div_iff₀ hy0]; linarith
  have h2 : 0 < (y - x) / x := div_pos (by linarith) hx0
  have e2 : (y - x) / (0.69 * x) = (y - x) / x / 0.69 := by field_simp
  have main : 10.79574 * (1 - 273.16 / x) - 5.028 * Real.logb 10 (x / 273.16)
      < 10.79574 * (1 - 273.16 / y) - 5.028 * Real.logb 10 (y / 273.16) := by
    have : (y - x) / x / 0.69 ≤ (y - x) / x * 1.4493 := by
      rw [div_eq_mul_inv]; exact mul_le_mul_of_nonneg_left (by norm_num) h2.le
    nlinarith
  have hp1 : (10 : ℝ) ^ (-8.2969 * (y / 273.16 - 1)) ≤ (10 : ℝ) ^ (-8.2969 * (x / 273.16 - 1)) := by
    apply Real.rpow_le_rpow_of_exponent_le (by norm_num)
    have : x / 273.16 ≤ y / 273.16 := div_le_div_of_nonneg_right hxy.le (by norm_num)
    nlinarith
  have hp2 : (10 : ℝ) ^ (4.76955 * (1 - 273.16 / x)) ≤ (10 : ℝ) ^ (4.76955 * (1 - 273.16 / y)) := by
    apply Real.rpow_le_rpow_of_exponent_le (by norm_num)
    have : 273.16 / y ≤ 273.16 / x := div_le_div_of_nonneg_left (by norm_num) hx0 hxy.le
    nlinarith
  unfold goffWater
  nlinarith

/-- The two formulae meet at the triple point. -/
theorem C142_branches_meet : goffWater 273.16 = goffIce 273.16 ∧ goffGratch 273.16 = (10 : ℝ) ^ (0.78614 : ℝ) := by
  have h : goffIce 273.16 = 0.78614 := by
    unfold goffIce
    rw [div_self (by norm_num), Real.logb_one]
    norm_num
  refine ⟨?_, ?_⟩
  · rw [h]
    unfold goffWater
    rw [div_self (by norm_num), Real.logb_one]
    norm_num
  · unfold goffGratch
    rw [if_neg (lt_irrefl _), h]

/-- The vapour pressure is positive and strictly increasing in temperature, up to 373 K and across the change from
the ice to the water formula. -/
theorem C142_increasing {x y : ℝ} (hx : 0 < x) (hxy : x < y) (hy : y ≤ 373) :
    0 < goffGratch x ∧ goffGratch x < goffGratch y := by
  refine ⟨Real.rpow_pos_of_pos (by norm_num) _, ?_⟩
  unfold goffGratch
  apply Real.rpow_lt_rpow_of_exponent_lt (by norm_num)
  by_cases h1 : 273.16 < x
  · rw [if_pos h1, if_pos (h1.trans hxy)]
    exact goffWater_growth h1.le hxy hy
  · rw [if_neg h1]
    by_cases h2 : 273.16 < y
    · rw [if_pos h2]
      have a := goffIce_growth hx (not_lt.mp h1) le_rfl
      have b := goffWater_growth le_rfl h2 hy
      rw [C142_branches_meet.1] at b
      have : (0:ℝ) ≤ 273.16 - x := by linarith [not_lt.mp h1]
      nlinarith
    · rw [if_neg h2]
      have a := goffIce_growth hx hxy.le (not_lt.mp h2)
      have : (0:ℝ) < y - x := by linarith
      nlinarith

/-- The warning is given exactly when some temperature lies outside 173 K to 373 K. -/
theorem C142_warning (ts : List ℝ) : goffWarns ts = true ↔ ∃ t ∈ ts, ¬(173 ≤ t ∧ t ≤ 373) := by
  classical
  unfold goffWarns
  rw [List.any_eq_true]
  constructor
  · rintro ⟨t, ht, h⟩
    refine ⟨t, ht, ?_⟩
    rintro ⟨h1, h2⟩
    rcases Bool.or_eq_true _ _ ▸ h with h | h
    · exact absurd (of_decide_eq_true h) (not_lt.mpr h2)
    · exact absurd (of_decide_eq_true h) (not_lt.mpr h1)
  · rintro ⟨t, ht, h⟩
    refine ⟨t, ht, ?_⟩
    rw [Bool.or_eq_true]
    by_contra hc
    push Not at hc
    apply h
    constructor
    · by_contra hh; exact hc.2 (decide_eq_true (not_le.mp hh))
    · by_contra hh; exact hc.1 (decide_eq_true (not_le.mp hh))

/-! ## The table -/

/-- For any positive increment the table of temperatures starts at `tmin`, goes up in steps of `inc`, and holds
every such value below `tmax` plus half an increment and no other. -/
theorem C142_temperatures {tmin tmax inc : ℝ} (hinc : 0 < inc) (t : ℝ) :
    t ∈ svpTemps tmin tmax inc ↔ ∃ k : ℕ, t = tmin + k * inc ∧ t < tmax + inc / 2 := by
  unfold svpTemps
  rw [List.mem_map]
  constructor
  · rintro ⟨k, hk, rfl⟩
    refine ⟨k, rfl, ?_⟩
    rw [List.mem_range, Nat.lt_ceil, lt_div_iff₀ hinc] at hk
    linarith
  · rintro ⟨k, rfl, h⟩
    refine ⟨k, ?_, rfl⟩
    rw [List.mem_range, Nat.lt_ceil, lt_div_iff₀ hinc]
    linarith

namespace Spec
/-- Temperature of entry `i` of the lookup table. -/
noncomputable def node (i : ℕ) : ℝ := 183.15 + i * 0.1
/-- Vapour pressure (Pa) of entry `i`. -/
noncomputable def svpEntry (i : ℕ) : ℝ := 100 * goffGratch (node i)
/-- The temperature used for the lookup: moved to the nearest end of the range of the table. -/
noncomputable def inRange (t : ℝ) : ℝ := min (max t 183.15) 338.15
end Spec

theorem svpTemps_length : (svpTemps svpTMin svpTMax svpInc).length = 1552 := by
  unfold svpTemps
  rw [List.length_map, List.length_range, Nat.ceil_eq_iff (by norm_num)]
  unfold svpTMin svpTMax svpInc
  norm_num

/-- The table has 1552 entries, entry `i` being the vapour pressure at 183.15 K + 0.1 i K in Pa. -/
theorem C142_table : svpTable.length = 1552 ∧ ∀ i < 1552, svpTable[i]? = some (Spec.svpEntry i) := by
  have hl := svpTemps_length
  constructor
  · unfold svpTable svpTableOf
    rw [List.length_map, hl]
  · intro i hi
    unfold svpTable svpTableOf
    rw [List.getElem?_map]
    have : (svpTemps svpTMin svpTMax svpInc)[i]? = some (Spec.node i) := by
      unfold svpTemps at hl ⊢
      rw [List.length_map, List.length_range] at hl
      rw [hl, List.getElem?_map, List.getElem?_range hi]
      rfl
    rw [this]
    rfl

theorem svpTable_getD {i : ℕ} (hi : i < 1552) : svpTable.getD i 0 = Spec.svpEntry i := by
  rw [List.getD_eq_getElem?_getD, C142_table.2 i hi]
  rfl

theorem node_pos (i : ℕ) : 0 < Spec.node i := by unfold Spec.node; positivity

theorem node_le {i : ℕ} (hi : i < 1552) : Spec.node i ≤ 373 := by
  unfold Spec.node
  have : (i : ℝ) ≤ 1551 := by exact_mod_cast Nat.lt_succ_iff.mp hi
  linarith

theorem node_lt {i j : ℕ} (h : i < j) : Spec.node i < Spec.node j := by
  unfold Spec.node
  have : (i : ℝ) < j := by exact_mod_cast h
  linarith

theorem entry_pos (i : ℕ) : 0 < Spec.svpEntry i :=
  mul_pos (by norm_num) (Real.rpow_pos_of_pos (by norm_num) _)

theorem entry_lt {i j : ℕ} (h : i < j) (hj : j < 1552) : Spec.svpEntry i < Spec.svpEntry j :=
  mul_lt_mul_of_pos_left (C142_increasing (node_pos i) (node_lt h) (node_le hj)).2 (by norm_num)

theorem entry_le {i j : ℕ} (h : i ≤ j) (hj : j < 1552) : Spec.svpEntry i ≤ Spec.svpEntry j := by
  rcases h.eq_or_lt with rfl | h
  · exact le_rfl
  · exact (entry_lt h hj).le

/-! ## The lookup -/

theorem svpPosition_eq (t : ℝ) : svpPosition t = (Spec.inRange t - 183.15) / 0.1 := by
  unfold svpPosition Spec.inRange svpTMin svpTMax svpInc
  norm_num

theorem inRange_bounds (t : ℝ) : 183.15 ≤ Spec.inRange t ∧ Spec.inRange t ≤ 338.15 := by
  unfold Spec.inRange
  exact ⟨le_min (le_max_right _ _) (by norm_num), min_le_right _ _⟩

theorem inRange_mono {x y : ℝ} (h : x ≤ y) : Spec.inRange x ≤ Spec.inRange y := by
  unfold Spec.inRange
  exact min_le_min_right _ (max_le_max_right _ h)

theorem svpPosition_bounds (t : ℝ) : 0 ≤ svpPosition t ∧ svpPosition t ≤ 1550 := by
  have h := inRange_bounds t
  rw [svpPosition_eq]
  constructor
  · exact div_nonneg (by linarith) (by norm_num)
  · rw [div_le_iff₀ (by norm_num)]; linarith

/-- Every temperature whatever is looked up inside the table: both entries read exist. -/
theorem C143_in_bounds (t : ℝ) : svpIndex t + 1 < svpTable.length := by
  rw [C142_table.1]
  have h := svpPosition_bounds t
  have h2 : svpIndex t ≤ 1550 := by
    unfold svpIndex
    have := Nat.floor_le_floor h.2
    simpa using this
  omega

theorem svpIndex_lt (t : ℝ) : svpIndex t + 1 < 1552 := by
  have := C143_in_bounds t
  rwa [C142_table.1] at this

/-- The looked-up pressure is the straight-line interpolation between two consecutive entries whose temperatures
bracket the (clipped) temperature. -/
theorem C143_interpolates (t : ℝ) : ∃ i : ℕ, i + 1 < 1552 ∧
    Spec.node i ≤ Spec.inRange t ∧ Spec.inRange t ≤ Spec.node (i + 1) ∧
    svpLookup t = Spec.svpEntry i + (Spec.inRange t - Spec.node i) / 0.1 * (Spec.svpEntry (i + 1) - Spec.svpEntry i) := by
  have hi := svpIndex_lt t
  have hp := svpPosition_bounds t
  have h1 : (svpIndex t : ℝ) ≤ svpPosition t := Nat.floor_le hp.1
  have h2 : svpPosition t < svpIndex t + 1 := Nat.lt_floor_add_one _
  have e : svpPosition t * 0.1 = Spec.inRange t - 183.15 := by
    rw [svpPosition_eq]; exact div_mul_cancel₀ _ (by norm_num)
  refine ⟨svpIndex t, hi, ?_, ?_, ?_⟩
  · unfold Spec.node; linarith
  · unfold Spec.node; push_cast; linarith
  · have e2 : (Spec.inRange t - Spec.node (svpIndex t)) / 0.1 = svpPosition t - svpIndex t := by
      rw [div_eq_iff (by norm_num)]
      unfold Spec.node
      linarith
    rw [e2]
    unfold svpLookup
    simp only []
    rw [svpTable_getD hi, svpTable_getD (by omega)]
    ring

/-- The straight line of one interval is used for every temperature of the interval, ends included. -/
theorem lookup_on_interval {i : ℕ} (hi : i + 1 < 1552) {t : ℝ} (h1 : Spec.node i ≤ t) (h2 : t ≤ Spec.node (i + 1))
    (h3 : t ≤ 338.15) :
    svpLookup t = Spec.svpEntry i + (t - Spec.node i) / 0.1 * (Spec.svpEntry (i + 1) - Spec.svpEntry i) := by
  obtain ⟨j, hj, a, b, e⟩ := C143_interpolates t
  have ht : Spec.inRange t = t := by
    unfold Spec.inRange
    rw [max_eq_left, min_eq_left h3]
    have : Spec.node i = 183.15 + i * 0.1 := rfl
    have : (0 : ℝ) ≤ i := Nat.cast_nonneg _
    linarith
  rw [ht] at a b e
  rw [e]
  rcases Nat.lt_trichotomy i j with h | h | h
  · have hji : Spec.node (i + 1) ≤ Spec.node j := by
      rcases (Nat.succ_le_of_lt h).eq_or_lt with h | h
      · exact le_of_eq (congrArg _ h)
      · exact (node_lt h).le
    have ht1 : t = Spec.node (i + 1) := le_antisymm h2 (hji.trans a)
    have ht2 : t = Spec.node j := le_antisymm (h2.trans hji) a
    have hij : j = i + 1 := by
      by_contra hne
      have := node_lt (show i + 1 < j by omega)
      linarith
    subst hij
    rw [ht2, sub_self]
    have : (Spec.node (i + 1) - Spec.node i) / 0.1 = 1 := by
      unfold Spec.node
      push_cast
      norm_num
      ring_nf
    rw [this]; ring
  · subst h; rfl
  · have hji : Spec.node (j + 1) ≤ Spec.node i := by
      rcases (Nat.succ_le_of_lt h).eq_or_lt with h | h
      · exact le_of_eq (congrArg _ h)
      · exact (node_lt h).le
    have ht2 : t = Spec.node i := le_antisymm (b.trans hji) h1
    have hij : i = j + 1 := by
      by_contra hne
      have := node_lt (show j + 1 < i by omega)
      linarith
    subst hij
    rw [ht2, sub_self]
    have : (Spec.node (j + 1) - Spec.node j) / 0.1 = 1 := by
      unfold Spec.node
      push_cast
      norm_num
      ring_nf
    rw [this]; ring

/-- At the temperature of a table entry the lookup returns that entry exactly. -/
theorem C143_exact_at_entries {i : ℕ} (hi : i + 1 < 1552) : svpLookup (Spec.node i) = Spec.svpEntry i := by
  have h3 : Spec.node i ≤ 338.15 := by
    unfold Spec.node
    have : (i : ℝ) ≤ 1550 := by exact_mod_cast (by omega : i ≤ 1550)
    linarith
  rw [lookup_on_interval hi le_rfl (node_lt (Nat.lt_succ_self i)).le h3, sub_self]
  ring

/-- Below the table the lookup is constant at the first entry, above it at the one for 338.15 K. -/
theorem C143_constant_outside (t : ℝ) :
    (t ≤ 183.15 → svpLookup t = Spec.svpEntry 0) ∧ (338.15 ≤ t → svpLookup t = Spec.svpEntry 1550) := by
  have key : ∀ i : ℕ, i + 1 < 1552 → Spec.inRange t = Spec.node i → svpLookup t = Spec.svpEntry i := by
    intro i hi h
    have e : svpLookup t = svpLookup (Spec.node i) := by
      have hir : Spec.inRange (Spec.node i) = Spec.inRange t := by
        rw [← h]
        unfold Spec.inRange
        have hb := inRange_bounds t
        unfold Spec.inRange at hb
        rw [max_eq_left hb.1, min_eq_left hb.2]
      unfold svpLookup svpIndex
      simp only [svpPosition_eq, hir]
    rw [e, C143_exact_at_entries hi]
  constructor
  · intro h
    apply key 0 (by norm_num)
    unfold Spec.inRange Spec.node
    rw [max_eq_right h]
    norm_num
  · intro h
    apply key 1550 (by norm_num)
    unfold Spec.inRange Spec.node
    rw [max_eq_left (by linarith), min_eq_right h]
    norm_num

theorem lookup_between (t : ℝ) : ∃ i : ℕ, i + 1 < 1552 ∧ Spec.node i ≤ Spec.inRange t ∧ Spec.inRange t ≤ Spec.node (i + 1) ∧
    Spec.svpEntry i ≤ svpLookup t ∧ svpLookup t ≤ Spec.svpEntry (i + 1) := by
  obtain ⟨i, hi, a, b, e⟩ := C143_interpolates t
  have hlt := entry_lt (Nat.lt_succ_self i) hi
  have hf0 : 0 ≤ (Spec.inRange t - Spec.node i) / 0.1 := div_nonneg (by linarith) (by norm_num)
  have hf1 : (Spec.inRange t - Spec.node i) / 0.1 ≤ 1 := by
    rw [div_le_one (by norm_num)]
    have : Spec.node (i + 1) = Spec.node i + 0.1 := by unfold Spec.node; push_cast; ring
    linarith
  refine ⟨i, hi, a, b, ?_, ?_⟩ <;> rw [e] <;> nlinarith

theorem lookup_pos (t : ℝ) : 0 < svpLookup t := by
  obtain ⟨i, -, -, -, h, -⟩ := lookup_between t
  exact lt_of_lt_of_le (entry_pos i) h

/-- A warmer temperature is never given a smaller vapour pressure, over the whole real line. -/
theorem C143_monotone {x y : ℝ} (h : x ≤ y) : 0 < svpLookup x ∧ svpLookup x ≤ svpLookup y := by
  refine ⟨lookup_pos x, ?_⟩
  obtain ⟨i, hi, a, b, e⟩ := C143_interpolates x
  obtain ⟨j, hj, a', b', e'⟩ := C143_interpolates y
  have hr := inRange_mono h
  have hlt := entry_lt (Nat.lt_succ_self i) hi
  have hlt' := entry_lt (Nat.lt_succ_self j) hj
  have hni : Spec.node (i + 1) = Spec.node i + 0.1 := by unfold Spec.node; push_cast; ring
  have hnj : Spec.node (j + 1) = Spec.node j + 0.1 := by unfold Spec.node; push_cast; ring
  rcases Nat.lt_trichotomy i j with hij | hij | hij
  · have h1 : svpLookup x ≤ Spec.svpEntry (i + 1) := by
      rw [e]
      have : (Spec.inRange x - Spec.node i) / 0.1 ≤ 1 := by rw [div_le_one (by norm_num)]; linarith
      nlinarith
    have h2 : Spec.svpEntry j ≤ svpLookup y := by
      rw [e']
      have : 0 ≤ (Spec.inRange y - Spec.node j) / 0.1 := div_nonneg (by linarith) (by norm_num)
      nlinarith
    exact h1.trans ((entry_le hij (by omega)).trans h2)
  · subst hij
    rw [e, e']
    have : (Spec.inRange x - Spec.node i) / 0.1 ≤ (Spec.inRange y - Spec.node i) / 0.1 :=
      div_le_div_of_nonneg_right (by linarith) (by norm_num)
    nlinarith
  · have hji : Spec.node (j + 1) ≤ Spec.node i := by
      rcases (Nat.succ_le_of_lt hij).eq_or_lt with h | h
      · exact le_of_eq (congrArg _ h)
      · exact (node_lt h).le
    have hxe : Spec.inRange x = Spec.node i := le_antisymm (by linarith) a
    have hye : Spec.inRange y = Spec.node i := le_antisymm (by linarith) (by linarith)
    have hij' : i = j + 1 := by
      by_contra hne
      have := node_lt (show j + 1 < i by omega)
      linarith
    subst hij'
    rw [e, e', hxe, hye, sub_self]
    have : (Spec.node (j + 1) - Spec.node j) / 0.1 = 1 := by rw [hnj]; norm_num
    rw [this]; apply le_of_eq; ring

/-- Inside the range the lookup and the formula differ by less than the step between the two bracketing entries. -/
theorem C143_accuracy {t : ℝ} (h1 : 183.15 ≤ t) (h2 : t ≤ 338.15) : ∃ i : ℕ, i + 1 < 1552 ∧
    Spec.node i ≤ t ∧ t ≤ Spec.node (i + 1) ∧
    |svpLookup t - 100 * goffGratch t| ≤ Spec.svpEntry (i + 1) - Spec.svpEntry i := by
  obtain ⟨i, hi, a, b, c, d⟩ := lookup_between t
  have ht : Spec.inRange t = t := by unfold Spec.inRange; rw [max_eq_left h1, min_eq_left h2]
  rw [ht] at a b
  have e1 : Spec.svpEntry i ≤ 100 * goffGratch t := by
    rcases a.eq_or_lt with h | h
    · rw [← h]; exact le_rfl
    · exact mul_le_mul_of_nonneg_left (C142_increasing (node_pos i) h (by linarith)).2.le (by norm_num)
  have e2 : 100 * goffGratch t ≤ Spec.svpEntry (i + 1) := by
    rcases b.eq_or_lt with h | h
    · rw [h]; exact le_rfl
    · exact mul_le_mul_of_nonneg_left (C142_increasing (by linarith) h (node_le hi)).2.le (by norm_num)
  refine ⟨i, hi, a, b, ?_⟩
  rw [abs_le]
  constructor <;> linarith

example : (183.15 : ℝ) ≤ 280 ∧ (280 : ℝ) ≤ 338.15 := by norm_num

/-! ## Saturated humidity -/

theorem svpInAir_pos {t p : ℝ} (hp : 0 ≤ p) : 0 < svpInAir t p := by
  unfold svpInAir
  apply mul_pos (lookup_pos t)
  have : 0 ≤ (t + -273.15) * (t + -273.15) := mul_self_nonneg _
  have : 0 ≤ 1e-8 * p * (4.5 + 6e-4 * (t + -273.15) * (t + -273.15)) := by
    apply mul_nonneg (by positivity)
    rw [mul_assoc]
    positivity
  linarith

theorem satDenom_pos {s p : ℝ} (hs : 0 < s) : 0 < max s p - (1 - repsilon) * s := by
  have := le_max_left s p
  unfold repsilon
  nlinarith

theorem satQuotient_le {s1 p1 s2 p2 : ℝ} (h1 : 0 < s1) (h2 : 0 < s2) (h : s1 * max s2 p2 ≤ s2 * max s1 p1) :
    satQuotient s1 p1 ≤ satQuotient s2 p2 := by
  unfold satQuotient
  rw [div_le_div_iff₀ (satDenom_pos h1) (satDenom_pos h2)]
  unfold repsilon
  nlinarith

/-- The saturated humidity lies in (0, 1], and it is 1 exactly when the vapour pressure reaches the air pressure. -/
theorem C144_range {t p : ℝ} (hp : 0 ≤ p) :
    0 < saturatedHumidity t p ∧ saturatedHumidity t p ≤ 1 ∧ (saturatedHumidity t p = 1 ↔ p ≤ svpInAir t p) := by
  have hs := svpInAir_pos (t := t) hp
  have hd := satDenom_pos (p := p) hs
  have hm := le_max_left (svpInAir t p) p
  refine ⟨?_, ?_, ?_⟩
  · exact div_pos (mul_pos (by unfold repsilon; norm_num) hs) hd
  · unfold saturatedHumidity satQuotient
    rw [div_le_one hd]
    linarith
  · unfold saturatedHumidity satQuotient
    rw [div_eq_one_iff_eq hd.ne']
    constructor
    · intro h
      have : max (svpInAir t p) p = svpInAir t p := by linarith
      exact max_eq_left_iff.mp this
    · intro h
      rw [max_eq_left h]; ring

/-- Where the vapour pressure is below the air pressure, vapour and dry air are mixed in the ratio of their partial pressures times that of the masses of their
molecules, 0.62198. -/
theorem C144_masses {t p : ℝ} (hp : 0 ≤ p) (hs : svpInAir t p < p) :
    saturatedHumidity t p * (p - svpInAir t p) = 0.62198 * svpInAir t p * (1 - saturatedHumidity t p) := by
  have h0 := svpInAir_pos (t := t) hp
  have hd := satDenom_pos (p := p) h0
  rw [max_eq_right hs.le] at hd
  have e : saturatedHumidity t p * (p - (1 - repsilon) * svpInAir t p) = repsilon * svpInAir t p := by
    unfold saturatedHumidity satQuotient
    rw [max_eq_right hs.le]
    exact div_mul_cancel₀ _ (ne_of_gt hd)
  unfold repsilon at e
  linarith

/-- At a given temperature, saturated humidity does not increase with pressure. -/
theorem C144_antitone_in_pressure {t p1 p2 : ℝ} (h1 : 0 < p1) (h : p1 ≤ p2) :
    saturatedHumidity t p2 ≤ saturatedHumidity t p1 := by
  have hp2 : 0 < p2 := lt_of_lt_of_le h1 h
  have hs1 := svpInAir_pos (t := t) h1.le
  have hs2 := svpInAir_pos (t := t) hp2.le
  apply satQuotient_le hs2 hs1
  rw [mul_max_of_nonneg _ _ hs2.le, mul_max_of_nonneg _ _ hs1.le]
  apply max_le_max (le_of_eq (mul_comm _ _))
  have hl := lookup_pos t
  unfold svpInAir
  have : svpLookup t * p1 ≤ svpLookup t * p2 := mul_le_mul_of_nonneg_left h hl.le
  have e : ∀ c : ℝ, svpLookup t * (1 + 1e-8 * p2 * c) * p1 = svpLookup t * p1 + 1e-8 * p2 * c * svpLookup t * p1 := by
    intro c; ring
  have e' : ∀ c : ℝ, svpLookup t * (1 + 1e-8 * p1 * c) * p2 = svpLookup t * p2 + 1e-8 * p2 * c * svpLookup t * p1 := by
    intro c; ring
  simp only []
  rw [e, e']
  linarith

theorem entry_growth {i : ℕ} (hi : i + 1 ≤ 900) : 0.019 * 0.1 * Spec.svpEntry (i + 1) ≤ Spec.svpEntry (i + 1) - Spec.svpEntry i := by
  have hn : Spec.node (i + 1) ≤ 273.15 := by
    unfold Spec.node
    have : ((i + 1 : ℕ) : ℝ) ≤ 900 := by exact_mod_cast hi
    linarith
  have hlt := node_lt (Nat.lt_succ_self i)
  have hni : Spec.node (i + 1) = Spec.node i + 0.1 := by unfold Spec.node; push_cast; ring
  have hg := goffIce_growth (node_pos i) hlt.le (by linarith)
  have hi0 : Spec.svpEntry i = 100 * (10 : ℝ) ^ goffIce (Spec.node i) := by
    unfold Spec.svpEntry goffGratch
    rw [if_neg (by linarith)]
  have hi1 : Spec.svpEntry (i + 1) = 100 * (10 : ℝ) ^ goffIce (Spec.node (i + 1)) := by
    unfold Spec.svpEntry goffGratch
    rw [if_neg (by linarith)]
  have h1 : (10 : ℝ) ^ (goffIce (Spec.node i) + 0.003) ≤ (10 : ℝ) ^ goffIce (Spec.node (i + 1)) := by
    apply Real.rpow_le_rpow_of_exponent_le (by norm_num)
    rw [hni] at hg ⊢
    linarith
  rw [Real.rpow_add (by norm_num)] at h1
  have h2 : (1.002 : ℝ) ≤ (10 : ℝ) ^ (0.003 : ℝ) := by
    rw [Real.rpow_def_of_pos (by norm_num)]
    have := Real.add_one_le_exp (Real.log 10 * 0.003)
    have := log_ten_gt
    linarith
  have h3 : 0 < (10 : ℝ) ^ goffIce (Spec.node i) := Real.rpow_pos_of_pos (by norm_num) _
  rw [hi0, hi1]
  nlinarith

theorem corr_ge_one {p t : ℝ} (hp : 0 ≤ p) : 1 ≤ 1 + 1e-8 * p * (4.5 + 6e-4 * (t + -273.15) * (t + -273.15)) := by
  have h := mul_self_nonneg (t + -273.15)
  have : 0 ≤ 1e-8 * p * (4.5 + 6e-4 * (t + -273.15) * (t + -273.15)) := by
    apply mul_nonneg (by positivity)
    nlinarith
  linarith

theorem svpInAir_mono_interval {i : ℕ} (hi : i + 1 ≤ 900) {p : ℝ} (hp : 0 ≤ p) (hp2 : p ≤ 1e7) :
    MonotoneOn (fun t => svpInAir t p) (Set.Icc (Spec.node i) (Spec.node (i + 1))) := by
  intro x hx y hy hxy
  have hn : Spec.node (i + 1) ≤ 273.15 := by
    unfold Spec.node
    have : ((i + 1 : ℕ) : ℝ) ≤ 900 := by exact_mod_cast hi
    linarith
  have hn0 : 183.15 ≤ Spec.node i := by
    unfold Spec.node
    have : (0 : ℝ) ≤ i := Nat.cast_nonneg _
    linarith
  have hni : Spec.node (i + 1) = Spec.node i + 0.1 := by unfold Spec.node; push_cast; ring
  have ex := lookup_on_interval (by omega) hx.1 hx.2 (by linarith [hx.2])
  have ey := lookup_on_interval (by omega) hy.1 hy.2 (by linarith [hy.2])
  have hg := entry_growth hi
  have hep := entry_pos (i + 1)
  have hlx : svpLookup x ≤ Spec.svpEntry (i + 1) := by
    rw [ex]
    have : (x - Spec.node i) / 0.1 ≤ 1 := by rw [div_le_one (by norm_num)]; linarith [hx.2]
    nlinarith
  have hd : 0.019 * (y - x) * svpLookup x ≤ svpLookup y - svpLookup x := by
    have e : svpLookup y - svpLookup x = (y - x) / 0.1 * (Spec.svpEntry (i + 1) - Spec.svpEntry i) := by
      rw [ex, ey]; ring
    rw [e]
    have h0 : 0 ≤ (y - x) / 0.1 := div_nonneg (by linarith) (by norm_num)
    have h1 := mul_le_mul_of_nonneg_left hg h0
    have h2 : (y - x) / 0.1 * (0.019 * 0.1 * Spec.svpEntry (i + 1)) = 0.019 * (y - x) * Spec.svpEntry (i + 1) := by
      field_simp
    rw [h2] at h1
    have h3 : 0 ≤ 0.019 * (y - x) := by linarith
    exact (mul_le_mul_of_nonneg_left hlx h3).trans h1
  have hlp := lookup_pos x
  have hc := corr_ge_one (t := y) hp
  have hcd : (1 + 1e-8 * p * (4.5 + 6e-4 * (x + -273.15) * (x + -273.15)))
      - (1 + 1e-8 * p * (4.5 + 6e-4 * (y + -273.15) * (y + -273.15))) ≤ 0.019 * (y - x) := by
    have e : (1 + 1e-8 * p * (4.5 + 6e-4 * (x + -273.15) * (x + -273.15)))
      - (1 + 1e-8 * p * (4.5 + 6e-4 * (y + -273.15) * (y + -273.15)))
      = 1e-8 * p * 6e-4 * ((y - x) * (546.3 - x - y)) := by ring
    rw [e]
    have h1 : (y - x) * (546.3 - x - y) ≤ (y - x) * 180 :=
      mul_le_mul_of_nonneg_left (by linarith [hx.1, hy.1]) (by linarith)
    have h2 : 0 ≤ 1e-8 * p * 6e-4 := by positivity
    have h3 : 1e-8 * p * 6e-4 ≤ 1e-4 := by linarith
    have h4 := mul_le_mul_of_nonneg_left h1 h2
    have h5 : 0 ≤ (y - x) * 180 := by linarith
    have h6 := mul_le_mul_of_nonneg_right h3 h5
    linarith
  simp only [svpInAir]
  generalize (1 + 1e-8 * p * (4.5 + 6e-4 * (x + -273.15) * (x + -273.15))) = cx at *
  generalize (1 + 1e-8 * p * (4.5 + 6e-4 * (y + -273.15) * (y + -273.15))) = cy at *
  have k1 : (0.019 * (y - x) * svpLookup x) * 1 ≤ (svpLookup y - svpLookup x) * cy := by
    apply mul_le_mul hd hc (by norm_num)
    have : 0 ≤ 0.019 * (y - x) * svpLookup x := mul_nonneg (by linarith) hlp.le
    linarith
  have k2 := mul_le_mul_of_nonneg_left hcd hlp.le
  nlinarith

theorem svpInAir_mono_below {p : ℝ} (hp : 0 ≤ p) (hp2 : p ≤ 1e7) (n : ℕ) (hn : n ≤ 900) :
    MonotoneOn (fun t => svpInAir t p) (Set.Icc (Spec.node 0) (Spec.node n)) := by
  induction n with
  | zero => intro x hx y hy _; rw [le_antisymm hx.2 hx.1, le_antisymm hy.2 hy.1]
  | succ n ih =>
    have h0 : Spec.node 0 ≤ Spec.node n := by
      rcases Nat.eq_zero_or_pos n with h | h
      · rw [h]
      · exact (node_lt h).le
    have h1 := (node_lt (Nat.lt_succ_self n)).le
    have := MonotoneOn.union_right (ih (by omega)) (svpInAir_mono_interval (by omega : n + 1 ≤ 900) hp hp2)
      (c := Spec.node n) ⟨⟨h0, le_rfl⟩, fun x hx => hx.2⟩ ⟨⟨le_rfl, h1⟩, fun x hx => hx.1⟩
    rwa [Set.Icc_union_Icc_eq_Icc h0 h1] at this

theorem svpInAir_mono {p : ℝ} (hp : 0 ≤ p) (hp2 : p ≤ 1e7) :
    MonotoneOn (fun t => svpInAir t p) (Set.Ici 183.15) := by
  have e0 : Spec.node 0 = 183.15 := by unfold Spec.node; norm_num
  have e9 : Spec.node 900 = 273.15 := by unfold Spec.node; norm_num
  have hlow := svpInAir_mono_below hp hp2 900 le_rfl
  rw [e0, e9] at hlow
  have hhigh : MonotoneOn (fun t => svpInAir t p) (Set.Ici (273.15 : ℝ)) := by
    intro x hx y hy hxy
    simp only [svpInAir]
    have hx' : (273.15 : ℝ) ≤ x := hx
    apply mul_le_mul (C143_monotone hxy).2 _ _ (lookup_pos y).le
    · have h1 : (x + -273.15) * (x + -273.15) ≤ (y + -273.15) * (y + -273.15) :=
        mul_le_mul (by linarith) (by linarith) (by linarith) (by linarith)
      have h2 : 4.5 + 6e-4 * (x + -273.15) * (x + -273.15) ≤ 4.5 + 6e-4 * (y + -273.15) * (y + -273.15) := by
        nlinarith
      have := mul_le_mul_of_nonneg_left h2 (show 0 ≤ 1e-8 * p by positivity)
      linarith
    · have := corr_ge_one (t := x) hp
      linarith
  have := MonotoneOn.union_right hlow hhigh (c := 273.15) ⟨⟨by norm_num, le_rfl⟩, fun x hx => hx.2⟩
    ⟨Set.mem_Ici.mpr le_rfl, fun x hx => hx⟩
  rwa [Set.Icc_union_Ici_eq_Ici (by norm_num)] at this

/-- From the lowest temperature of the table upwards, warmer air holds at least as much moisture (pressures up to
1e7 Pa). -/
theorem C144_monotone_in_temperature {x y p : ℝ} (hx : 183.15 ≤ x) (hxy : x ≤ y) (hp : 0 ≤ p) (hp2 : p ≤ 1e7) :
    saturatedHumidity x p ≤ saturatedHumidity y p := by
  have h : svpInAir x p ≤ svpInAir y p := svpInAir_mono hp hp2 hx (hx.trans hxy) hxy
  have hsx := svpInAir_pos (t := x) hp
  have hsy := svpInAir_pos (t := y) hp
  apply satQuotient_le hsx hsy
  rw [mul_max_of_nonneg _ _ hsx.le, mul_max_of_nonneg _ _ hsy.le]
  exact max_le_max (le_of_eq (mul_comm _ _)) (mul_le_mul_of_nonneg_right h hp)

example : (183.15 : ℝ) ≤ 250 ∧ (250 : ℝ) ≤ 290 ∧ (0 : ℝ) ≤ 1e5 ∧ (1e5 : ℝ) ≤ 1e7 := by norm_num

/-- Below the table the claim fails: the pressure is clipped but its correction is not, so of two temperatures
below 183.15 K the colder is given the larger saturated humidity. -/
theorem C144_below_table_refuted {x y p : ℝ} (hxy : x < y) (hy : y ≤ 183.15) (hp : 0 < p) (hsat : svpInAir x p ≤ p) :
    saturatedHumidity y p < saturatedHumidity x p := by
  have hl : svpLookup x = svpLookup y := by
    rw [(C143_constant_outside x).1 (by linarith), (C143_constant_outside y).1 hy]
  have hlt : svpInAir y p < svpInAir x p := by
    simp only [svpInAir]
    rw [hl]
    apply mul_lt_mul_of_pos_left _ (lookup_pos y)
    have h1 : (y + -273.15) * (y + -273.15) < (x + -273.15) * (x + -273.15) := by nlinarith
    have h2 : 4.5 + 6e-4 * (y + -273.15) * (y + -273.15) < 4.5 + 6e-4 * (x + -273.15) * (x + -273.15) := by
      nlinarith
    have := mul_lt_mul_of_pos_left h2 (show 0 < 1e-8 * p by positivity)
    linarith
  have hsx := svpInAir_pos (t := x) hp.le
  have hsy := svpInAir_pos (t := y) hp.le
  have hdx := satDenom_pos (p := p) hsx
  have hdy := satDenom_pos (p := p) hsy
  unfold saturatedHumidity satQuotient
  rw [div_lt_div_iff₀ hdy hdx, max_eq_right hsat, max_eq_right (by linarith)]
  have : svpInAir y p * p < svpInAir x p * p := mul_lt_mul_of_pos_right hlt hp
  unfold repsilon
  nlinarith

/-- The hypotheses of the refutation are met by air at 150 K and 160 K and surface pressure. -/
theorem C144_below_table_met : saturatedHumidity 160 1e5 < saturatedHumidity 150 1e5 := by
  apply C144_below_table_refuted (by norm_num) (by norm_num) (by norm_num)
  have h1 : svpLookup 150 ≤ 1000 := by
    rw [(C143_constant_outside 150).1 (by norm_num)]
    unfold Spec.svpEntry
    have h2 : goffGratch (Spec.node 0) < goffGratch 273.16 :=
      (C142_increasing (node_pos 0) (by unfold Spec.node; norm_num) (by norm_num)).2
    rw [C142_branches_meet.2] at h2
    have h3 : (10 : ℝ) ^ (0.78614 : ℝ) ≤ (10 : ℝ) ^ (1 : ℝ) :=
      Real.rpow_le_rpow_of_exponent_le (by norm_num) (by norm_num)
    rw [Real.rpow_one] at h3
    linarith
  simp only [svpInAir]
  have := lookup_pos 150
  nlinarith

/-- The humidity mixing ratio is the saturated one scaled by the relative humidity: never negative for a
non-negative relative humidity, and above saturation exactly when the relative humidity is above 1. -/
theorem C144_mixing_ratio {t p rh : ℝ} (hp : 0 ≤ p) :
    (0 ≤ rh → 0 ≤ humidityMixingRatio t p rh) ∧
    (humidityMixingRatio t p rh ≤ saturatedHumidity t p ↔ rh ≤ 1) ∧
    humidityMixingRatio t p 1 = saturatedHumidity t p := by
  have h := (C144_range (t := t) hp).1
  unfold humidityMixingRatio
  refine ⟨fun hr => mul_nonneg h.le hr, ?_, mul_one _⟩
  constructor
  · intro hh
    by_contra hc
    push Not at hc
    nlinarith
  · intro hh; nlinarith

/-! ## Dry adiabats -/

/-- Following a dry adiabat to another pressure and reading the pressure back from the temperature returns that
pressure, and conversely. -/
theorem C145_inverse {t0 p0 : ℝ} (ht : 0 < t0) (hp : 0 < p0) :
    (∀ p1, 0 < p1 → dryPressure t0 p0 (dryTemperature t0 p0 p1) = p1) ∧
    (∀ t1, 0 < t1 → dryTemperature t0 p0 (dryPressure t0 p0 t1) = t1) := by
  unfold dryPressure dryTemperature
  constructor
  · intro p1 h
    rw [mul_div_cancel_left₀ _ ht.ne', ← Real.rpow_mul (by positivity),
      show ((287 : ℝ) / 1005 * (1005 / 287)) = 1 by norm_num, Real.rpow_one]
    field_simp
  · intro t1 h
    rw [mul_div_cancel_left₀ _ hp.ne', ← Real.rpow_mul (by positivity),
      show ((1005 : ℝ) / 287 * (287 / 1005)) = 1 by norm_num, Real.rpow_one]
    field_simp

/-- Going by way of an intermediate pressure makes no difference; staying at the same pressure changes nothing;
descending to a higher pressure warms. -/
theorem C145_path {t0 p0 p1 p2 : ℝ} (ht : 0 < t0) (h0 : 0 < p0) (h1 : 0 < p1) (h2 : 0 < p2) :
    dryTemperature (dryTemperature t0 p0 p1) p1 p2 = dryTemperature t0 p0 p2 ∧
    dryTemperature t0 p0 p0 = t0 ∧
    (p1 < p2 → dryTemperature t0 p0 p1 < dryTemperature t0 p0 p2) ∧
    0 < dryTemperature t0 p0 p1 := by
  unfold dryTemperature
  refine ⟨?_, ?_, ?_, ?_⟩
  · rw [mul_assoc, ← Real.mul_rpow (by positivity) (by positivity)]
    congr 2
    field_simp
  · rw [div_self h0.ne', Real.one_rpow, mul_one]
  · intro h
    apply mul_lt_mul_of_pos_left _ ht
    exact Real.rpow_lt_rpow (by positivity) (div_lt_div_of_pos_right h h0) (by norm_num)
  · positivity

/-! ## Condensation -/

theorem latent_pos {t : ℝ} (h : t < 1341) : 0 < latentHeat t := by unfold latentHeat; linarith

/-- Whatever value the root finder stops at: the temperature is never lowered, the heat released matches the
moisture removed, and moisture is never added (temperatures below 1341 K, where the latent heat is positive). -/
theorem C146_budget (solve : (ℝ → ℝ) → ℝ → ℝ) {t q p : ℝ} (ht : t < 1341) :
    t ≤ (adjustLatent solve t q p).1 ∧
    (adjustLatent solve t q p).1 - t = latentHeat t / 1005 * (q - (adjustLatent solve t q p).2) ∧
    (adjustLatent solve t q p).2 ≤ q := by
  have hl := latent_pos ht
  unfold adjustLatent
  simp only []
  generalize solve (fun qs => qsatDifferential qs t q p) q = h
  by_cases hc : t + latentRelease q h t < t
  · rw [if_pos hc]
    refine ⟨le_rfl, ?_, le_rfl⟩
    simp
  · rw [if_neg hc]
    push Not at hc
    refine ⟨hc, ?_, ?_⟩
    · unfold latentRelease; ring
    · by_contra hh
      push Not at hh
      have : latentRelease q h t < 0 := by
        unfold latentRelease
        exact mul_neg_of_pos_of_neg (div_pos hl (by norm_num)) (by linarith)
      linarith

/-- When the root finder stops at a root and something condenses, the air left is exactly saturated. -/
theorem C146_saturated_after (solve : (ℝ → ℝ) → ℝ → ℝ) {t q p : ℝ}
    (hroot : qsatDifferential (solve (fun qs => qsatDifferential qs t q p) q) t q p = 0)
    (hchange : (adjustLatent solve t q p).1 ≠ t ∨ (adjustLatent solve t q p).2 ≠ q) :
    (adjustLatent solve t q p).2 = saturatedHumidity (adjustLatent solve t q p).1 p := by
  unfold adjustLatent at hchange ⊢
  simp only [] at hchange ⊢
  generalize solve (fun qs => qsatDifferential qs t q p) q = h at *
  by_cases hc : t + latentRelease q h t < t
  · rw [if_pos hc] at hchange
    simp at hchange
  · rw [if_neg hc]
    unfold qsatDifferential at hroot
    simp only []
    linarith

/-- Air below saturation is left alone (with an exact root). -/
theorem C146_unsaturated_unchanged (solve : (ℝ → ℝ) → ℝ → ℝ) {t q p : ℝ} (ht0 : 183.15 ≤ t) (ht : t < 1341)
    (hp : 0 ≤ p) (hp2 : p ≤ 1e7) (hunsat : q < saturatedHumidity t p)
    (hroot : qsatDifferential (solve (fun qs => qsatDifferential qs t q p) q) t q p = 0) :
    adjustLatent solve t q p = (t, q) := by
  have hl : 0 < latentHeat t / 1005 := div_pos (latent_pos ht) (by norm_num)
  unfold adjustLatent
  simp only []
  generalize solve (fun qs => qsatDifferential qs t q p) q = h at *
  apply if_pos
  by_contra hc
  push Not at hc
  have hsat := C144_monotone_in_temperature ht0 hc hp hp2
  unfold qsatDifferential at hroot
  have : q < h := by linarith
  have : latentRelease q h t < 0 := by
    unfold latentRelease
    exact mul_neg_of_pos_of_neg hl (by linarith)
  linarith

/-- Supersaturated air is warmed and dried to saturation (with an exact root at a temperature in the table). -/
theorem C146_supersaturated (solve : (ℝ → ℝ) → ℝ → ℝ) {t q p : ℝ} (ht : t < 1341)
    (hp : 0 ≤ p) (hp2 : p ≤ 1e7) (hsup : saturatedHumidity t p < q)
    (hroot : qsatDifferential (solve (fun qs => qsatDifferential qs t q p) q) t q p = 0)
    (hin : 183.15 ≤ t + latentRelease q (solve (fun qs => qsatDifferential qs t q p) q) t) :
    t < (adjustLatent solve t q p).1 ∧ (adjustLatent solve t q p).2 < q ∧
    (adjustLatent solve t q p).2 = saturatedHumidity (adjustLatent solve t q p).1 p := by
  have hl : 0 < latentHeat t / 1005 := div_pos (latent_pos ht) (by norm_num)
  unfold adjustLatent
  simp only []
  generalize solve (fun qs => qsatDifferential qs t q p) q = h at *
  have hqlt : h < q := by
    by_contra hc
    push Not at hc
    have h1 : t + latentRelease q h t ≤ t := by
      have : latentRelease q h t ≤ 0 := by
        unfold latentRelease
        exact mul_nonpos_of_nonneg_of_nonpos hl.le (by linarith)
      linarith
    have hsat := C144_monotone_in_temperature hin h1 hp hp2
    unfold qsatDifferential at hroot
    linarith
  have hpos : 0 < latentRelease q h t := by
    unfold latentRelease
    exact mul_pos hl (by linarith)
  rw [if_neg (by linarith)]
  unfold qsatDifferential at hroot
  exact ⟨by simp only []; linarith, hqlt, by simp only []; linarith⟩

/-- The hypotheses are met: air at exactly the saturation it will end at is a root. -/
example (t p : ℝ) : qsatDifferential (saturatedHumidity t p) t (saturatedHumidity t p) p = 0 := by
  unfold qsatDifferential latentRelease
  simp

end Improver
