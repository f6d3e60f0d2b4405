import Verif.Model.Lightning
import Mathlib.Analysis.Complex.ExponentialBounds
import Mathlib.Tactic.Linarith
import Mathlib.Tactic.NormNum
import Mathlib.Tactic.Positivity
import Mathlib.Tactic.FieldSimp
import Mathlib.Tactic.Ring

/-! Properties of the lightning plugins (C172, C173). -/

namespace Improver

/-! ### Lightning from CAPE and precipitation rate (C172) -/

/-- The threshold documented: one value beyond 50 degrees north or south, another within 10 degrees of the equator,
and the straight line between. -/
def Spec.thresholdAt (latitude midlatitude tropics : ℚ) : ℚ :=
  if 50 ≤ |latitude| then midlatitude
  else if |latitude| ≤ 10 then tropics
  else midlatitude + (50 - |latitude|) / 40 * (tropics - midlatitude)

theorem clip_line {a b t : ℚ} (hab : a < b) :
    npClip (a + t * (b - a)) (min a b) (max a b) = if t ≤ 0 then a else if 1 ≤ t then b else a + t * (b - a) := by
  unfold npClip
  rw [min_eq_left hab.le, max_eq_right hab.le]
  by_cases h0 : t ≤ 0
  · rw [if_pos h0, max_eq_right (by nlinarith), min_eq_left hab.le]
  · rw [if_neg h0]
    push Not at h0
    rw [max_eq_left (by nlinarith)]
    by_cases h1 : 1 ≤ t
    · rw [if_pos h1, min_eq_right (by nlinarith)]
    · rw [if_neg h1]
      push Not at h1
      rw [min_eq_left (by nlinarith)]

theorem rescale_clipped (x a b c d : ℚ) (hab : a ≠ b) (hcd : c ≠ d) :
    rescale x (a, b) (c, d) true = .ok (npClip ((x - a) * (d - c) / (b - a) + c) (min c d) (max c d)) := by
  unfold rescale
  dsimp only
  rw [if_neg hab, if_neg hcd, if_pos rfl]

/-- C172: the thresholds are those documented. -/
theorem C172_threshold (latitude mid tropics : ℚ) (h : mid < tropics) :
    latitudeThreshold latitude mid tropics = .ok (Spec.thresholdAt latitude mid tropics) := by
  unfold latitudeThreshold
  rw [rescale_clipped _ _ _ _ _ (by norm_num) h.ne, rescale_clipped _ _ _ _ _ (by norm_num) h.ne]
  simp only [bind, Except.bind]
  congr 1
  unfold Spec.thresholdAt
  by_cases hl : latitude > 0
  · rw [if_pos hl, abs_of_pos hl]
    have e : (latitude - 50) * (tropics - mid) / (10 - 50) + mid = mid + (50 - latitude) / 40 * (tropics - mid) := by ring
    rw [e, clip_line h]
    by_cases h1 : 50 ≤ latitude
    · rw [if_pos h1, if_pos (by linarith)]
    · rw [if_neg h1, if_neg (by push Not at h1 ⊢; linarith)]
      by_cases h2 : latitude ≤ 10
      · rw [if_pos h2, if_pos (by linarith)]
      · rw [if_neg h2, if_neg (by push Not at h2 ⊢; linarith)]
  · rw [if_neg hl, abs_of_nonpos (by linarith)]
    have e : (latitude - -50) * (tropics - mid) / (-10 - -50) + mid = mid + (50 - -latitude) / 40 * (tropics - mid) := by ring
    rw [e, clip_line h]
    by_cases h1 : 50 ≤ -latitude
    · rw [if_pos h1, if_pos (by linarith)]
    · rw [if_neg h1, if_neg (by push Not at h1 ⊢; linarith)]
      by_cases h2 : -latitude ≤ 10
      · rw [if_pos h2, if_pos (by linarith)]
      · rw [if_neg h2, if_neg (by push Not at h2 ⊢; linarith)]

/-- C172: the result is 1 where both CAPE and precipitation rate exceed their thresholds for the latitude, and 0
everywhere else. -/
theorem C172_value (latitude cape precip : ℚ) :
    lightningValue latitude cape precip = .ok
      (if Spec.thresholdAt latitude 350 500 < cape ∧ Spec.thresholdAt latitude 1 4 < precip then 1 else 0) := by
  unfold lightningValue
  rw [C172_threshold _ _ _ (by norm_num), C172_threshold _ _ _ (by norm_num)]
  simp only [bind, Except.bind]
  congr 1
  by_cases h1 : cape > Spec.thresholdAt latitude 350 500
  · by_cases h2 : precip > Spec.thresholdAt latitude 1 4
    · rw [if_pos h1, if_pos h2, if_pos ⟨h1, h2⟩]; norm_num
    · rw [if_pos h1, if_neg h2, if_neg (fun h => h2 h.2)]; norm_num
  · rw [if_neg h1, zero_mul]
    exact (if_neg (fun h => h1 h.1)).symm

/-- C172: more CAPE or more precipitation never takes lightning away; the hemispheres are treated alike. -/
theorem C172_monotone {latitude cape cape' precip precip' v v' : ℚ} (hc : cape ≤ cape') (hp : precip ≤ precip')
    (h : lightningValue latitude cape precip = .ok v) (h' : lightningValue (-latitude) cape' precip' = .ok v') : v ≤ v' := by
  rw [C172_value, Except.ok.injEq] at h h'
  have e : ∀ a b, Spec.thresholdAt (-latitude) a b = Spec.thresholdAt latitude a b := by
    intro a b; unfold Spec.thresholdAt; rw [abs_neg]
  rw [e, e] at h'
  rw [← h, ← h']
  by_cases h1 : Spec.thresholdAt latitude 350 500 < cape ∧ Spec.thresholdAt latitude 1 4 < precip
  · rw [if_pos h1, if_pos ⟨h1.1.trans_le hc, h1.2.trans_le hp⟩]
  · rw [if_neg h1]
    split <;> norm_num

/-- C172: inputs are accepted exactly when CAPE is valid at the start of the precipitation period, the period is one
or three hours, and reference times and grids agree. -/
theorem C172_inputs {G : Type} [DecidableEq G] (cape precip : LightCube G) :
    capePrecipChecks cape precip = .ok () ↔
      (precip.bounds = some (cape.time, cape.time + 3600) ∨ precip.bounds = some (cape.time, cape.time + 10800)) ∧
      cape.reference = precip.reference ∧ cape.grid = precip.grid := by
  unfold capePrecipChecks
  cases hb : precip.bounds with
  | none => simp
  | some b =>
    obtain ⟨b1, b2⟩ := b
    dsimp only
    simp only [Option.some.injEq, Prod.mk.injEq]
    by_cases h1 : cape.time ≠ b1
    · rw [if_pos h1]
      refine ⟨fun h => (nomatch h), fun h => ?_⟩
      rcases h.1 with h | h
      · exact absurd h.1.symm h1
      · exact absurd h.1.symm h1
    · rw [if_neg h1]
      push Not at h1
      by_cases h2 : ¬ (b2 - b1 = 3600 ∨ b2 - b1 = 3 * 3600)
      · rw [if_pos h2]
        refine ⟨fun h => (nomatch h), fun h => absurd ?_ h2⟩
        omega
      · rw [if_neg h2]
        by_cases h3 : cape.reference ≠ precip.reference
        · rw [if_pos h3]
          exact ⟨fun h => (nomatch h), fun h => absurd h.2.1 h3⟩
        · rw [if_neg h3]
          by_cases h4 : cape.grid ≠ precip.grid
          · rw [if_pos h4]
            exact ⟨fun h => (nomatch h), fun h => absurd h.2.2 h4⟩
          · rw [if_neg h4]
            refine ⟨fun _ => ⟨?_, not_not.1 h3, not_not.1 h4⟩, fun _ => rfl⟩
            omega

example : lightningValue (-30) 426 (5 / 2) = .ok 0 ∧ lightningValue (-30) 426 (13 / 5) = .ok 1 := by
  constructor <;> decide +kernel

/-! ### Multivariate probability (C173) -/

theorem log_seven_tenths : -(0.36 : ℝ) ≤ Real.log 0.7 := by
  rw [Real.le_log_iff_exp_le (by norm_num), Real.exp_neg]
  have h := Real.quadratic_le_exp_of_nonneg (x := 0.18) (by norm_num)
  have h2 : Real.exp 0.36 = Real.exp 0.18 * Real.exp 0.18 := by rw [← Real.exp_add]; norm_num
  have h3 : (1.1962 : ℝ) ≤ Real.exp 0.18 := le_trans (by norm_num) h
  have h4 : (1.4308 : ℝ) ≤ Real.exp 0.36 := by rw [h2]; nlinarith
  calc (Real.exp 0.36)⁻¹ ≤ (1.4308 : ℝ)⁻¹ := inv_anti₀ (by norm_num) h4
    _ ≤ 0.7 := by norm_num

theorem log_three_tenths_lower : -(1.2 : ℝ) ≤ Real.log 0.31 := by
  rw [Real.le_log_iff_exp_le (by norm_num), Real.exp_neg]
  have h := Real.quadratic_le_exp_of_nonneg (x := 0.3) (by norm_num)
  have h2 : Real.exp 0.6 = Real.exp 0.3 * Real.exp 0.3 := by rw [← Real.exp_add]; norm_num
  have h2' : Real.exp 1.2 = Real.exp 0.6 * Real.exp 0.6 := by rw [← Real.exp_add]; norm_num
  have h3 : (1.345 : ℝ) ≤ Real.exp 0.3 := le_trans (by norm_num) h
  have h4 : (1.809 : ℝ) ≤ Real.exp 0.6 := by rw [h2]; nlinarith
  have h5 : (3.27 : ℝ) ≤ Real.exp 1.2 := by rw [h2']; nlinarith
  calc (Real.exp 1.2)⁻¹ ≤ (3.27 : ℝ)⁻¹ := inv_anti₀ (by norm_num) h5
    _ ≤ 0.31 := by norm_num

theorem log_three_tenths_upper : Real.log 0.31 ≤ -(1.08 : ℝ) := by
  rw [Real.log_le_iff_le_exp (by norm_num), Real.exp_neg]
  have h1 := Real.exp_one_lt_d9
  have h2 : Real.exp 0.08 ≤ 1.1 := by
    have := Real.one_sub_le_exp_neg (0.08 : ℝ)
    rw [Real.exp_neg] at this
    have h3 : (0 : ℝ) < 1 - 0.08 := by norm_num
    have := (le_inv_comm₀ h3 (Real.exp_pos _)).1 this
    exact this.trans (by norm_num)
  have h4 : Real.exp 1.08 = Real.exp 1 * Real.exp 0.08 := by rw [← Real.exp_add]; norm_num
  have h5 : Real.exp 1.08 ≤ 3 := by
    rw [h4]
    have := Real.exp_pos 1
    have := Real.exp_pos 0.08
    nlinarith
  calc (0.31 : ℝ) ≤ 3⁻¹ := by norm_num
    _ ≤ (Real.exp 1.08)⁻¹ := inv_anti₀ (Real.exp_pos _) h5

theorem usafPrecip_nonneg {cape apcp : ℝ} (h1 : 0 ≤ cape) (h2 : 0 ≤ apcp) : 0 ≤ usafPrecip cape apcp := by
  unfold usafPrecip
  have h : Real.log 0.7 ≤ Real.log (cape * apcp + 0.7) :=
    Real.log_le_log (by norm_num) (by nlinarith [mul_nonneg h1 h2])
  have := log_seven_tenths
  linarith

theorem usafNoPrecip_nonneg {cape cin : ℝ} (h1 : 0 ≤ cape) (h2 : 0 ≤ cin) : 0 ≤ usafNoPrecip cape cin := by
  unfold usafNoPrecip
  have h0 : (0 : ℝ) ≤ cape / (cin + 100.0) := div_nonneg h1 (by positivity)
  have h : Real.log 0.31 ≤ Real.log (cape / (cin + 100.0) + 0.31) := Real.log_le_log (by norm_num) (by linarith)
  have := log_three_tenths_lower
  linarith

theorem usafPrecip_mono {cape cape' apcp apcp' : ℝ} (h1 : 0 ≤ cape) (h2 : 0 ≤ apcp) (hc : cape ≤ cape')
    (ha : apcp ≤ apcp') : usafPrecip cape apcp ≤ usafPrecip cape' apcp' := by
  unfold usafPrecip
  have h3 : cape * apcp ≤ cape' * apcp' := mul_le_mul hc ha h2 (h1.trans hc)
  have h := Real.log_le_log (x := cape * apcp + 0.7) (y := cape' * apcp' + 0.7)
    (by have := mul_nonneg h1 h2; linarith) (by linarith)
  linarith

theorem usafNoPrecip_mono {cape cape' cin : ℝ} (h1 : 0 ≤ cape) (h2 : 0 ≤ cin) (hc : cape ≤ cape') :
    usafNoPrecip cape cin ≤ usafNoPrecip cape' cin := by
  unfold usafNoPrecip
  have h0 : (0 : ℝ) ≤ cape / (cin + 100.0) := div_nonneg h1 (by positivity)
  have h3 : cape / (cin + 100.0) ≤ cape' / (cin + 100.0) := div_le_div_of_nonneg_right hc (by positivity)
  have h := Real.log_le_log (x := cape / (cin + 100.0) + 0.31) (y := cape' / (cin + 100.0) + 0.31)
    (by linarith) (by linarith)
  linarith

/-- With enough precipitation for the first regression it gives no less than the second. -/
theorem usafNoPrecip_le {cape cin apcp : ℝ} (h1 : 0 ≤ cape) (h2 : 0 ≤ cin) (ha : 0.01 ≤ apcp) :
    usafNoPrecip cape cin ≤ usafPrecip cape apcp := by
  have hy : usafPrecip cape 0.01 ≤ usafPrecip cape apcp := usafPrecip_mono h1 (by norm_num) le_rfl ha
  refine le_trans ?_ hy
  unfold usafNoPrecip usafPrecip
  have h0 : cape / (cin + 100.0) ≤ cape * 0.01 := by
    rw [div_le_iff₀ (by positivity)]
    nlinarith [mul_nonneg h1 h2]
  have h00 : (0 : ℝ) ≤ cape / (cin + 100.0) := div_nonneg h1 (by positivity)
  set y := cape * 0.01 with hy
  have hy0 : 0 ≤ y := by positivity
  have e1 : Real.log (cape / (cin + 100.0) + 0.31) ≤ Real.log (y + 0.31) := Real.log_le_log (by linarith) (by linarith)
  have e2 : Real.log (y + 0.31) = Real.log 0.31 + Real.log (1 + y / 0.31) := by
    rw [← Real.log_mul (by norm_num) (by positivity)]
    congr 1; field_simp; ring
  have e3 : Real.log (y + 0.7) = Real.log 0.7 + Real.log (1 + y / 0.7) := by
    rw [← Real.log_mul (by norm_num) (by positivity)]
    congr 1; field_simp; ring
  have hq : 0 ≤ y / 0.7 := by positivity
  have b : 1 + y / 0.31 ≤ (1 + y / 0.7) ^ 5 := by
    have := one_add_mul_le_pow (a := y / 0.7) (by linarith) 5
    push_cast at this
    refine le_trans ?_ this
    rw [div_eq_mul_inv, div_eq_mul_inv]
    have h31 : (0.31 : ℝ)⁻¹ ≤ 5 * 0.7⁻¹ := by norm_num
    nlinarith
  have e4 : Real.log (1 + y / 0.31) ≤ 5 * Real.log (1 + y / 0.7) := by
    have := Real.log_le_log (by positivity) b
    rw [Real.log_pow] at this
    exact_mod_cast this
  have e5 : 0 ≤ Real.log (1 + y / 0.7) := Real.log_nonneg (by linarith)
  have := log_seven_tenths
  have := log_three_tenths_upper
  linarith

/-- Lower and upper clamp used at the end. -/
theorem usaf_end {a b pwat : ℝ} (h : a ≤ b) (hp : 0 ≤ pwat) :
    (if (if pwat < 20 then a * (pwat / 20.0) else a) > 0.95 then 0.95 else (if pwat < 20 then a * (pwat / 20.0) else a)) ≤
    (if (if pwat < 20 then b * (pwat / 20.0) else b) > 0.95 then (0.95 : ℝ) else (if pwat < 20 then b * (pwat / 20.0) else b)) := by
  have key : ∀ {x y : ℝ}, x ≤ y → (if x > 0.95 then (0.95 : ℝ) else x) ≤ (if y > 0.95 then 0.95 else y) := by
    intro x y hxy
    by_cases hx : x > 0.95
    · rw [if_pos hx, if_pos (lt_of_lt_of_le hx hxy)]
    · rw [if_neg hx]
      split
      · push Not at hx; exact hx
      · exact hxy
  apply key
  split
  · exact mul_le_mul_of_nonneg_right h (by positivity)
  · exact h

/-- Inches of water from kg m-2 (mm). -/
noncomputable def Spec.inches (amount : ℝ) : ℝ := amount * 39.3701 / 1000

/-- The documented regression, before the reduction for dry columns and the cap. -/
noncomputable def Spec.regression (cape liftidx pwat cin apcp : ℝ) : ℝ :=
  if 0 < cape then
    if 0.01 ≤ Spec.inches apcp - pwat / 1000 then 0.13 * Real.log (cape * Spec.inches apcp + 0.7) + 0.05
    else 0.025 * Real.log (cape / (100 - cin) + 0.31) + 0.03
  else 0.2 * Real.sqrt (max 0 (liftidx + 4) * Spec.inches apcp)

/-- C173: the probability is the documented regression, reduced in proportion to precipitable water below 20 mm and
capped at 0.95. -/
theorem C173_value (cape liftidx pwat cin apcp : ℝ) :
    usafProbability cape liftidx pwat cin apcp = min 0.95
      (if pwat < 20 then Spec.regression cape liftidx pwat cin apcp * pwat / 20
        else Spec.regression cape liftidx pwat cin apcp) := by
  have hr : (if cape ≤ 0 then 0.2 * Real.sqrt ((if liftidx + 4.0 < 0 then 0 else liftidx + 4.0) * (apcp / 1000 * 39.3701))
      else if apcp / 1000 * 39.3701 - pwat / 1000 < 0.01 then usafNoPrecip cape (-1 * cin)
        else usafPrecip cape (apcp / 1000 * 39.3701)) = Spec.regression cape liftidx pwat cin apcp := by
    have ei : apcp / 1000 * 39.3701 = Spec.inches apcp := by unfold Spec.inches; ring
    rw [ei]
    unfold Spec.regression
    by_cases hc : cape ≤ 0
    · rw [if_pos hc, if_neg (not_lt.2 hc)]
      congr 3
      have e4 : (4.0 : ℝ) = 4 := by norm_num
      rw [e4]
      by_cases hl : liftidx + 4 < 0
      · rw [if_pos hl, max_eq_left hl.le]
      · rw [if_neg hl, max_eq_right (not_lt.1 hl)]
    · rw [if_neg hc, if_pos (not_le.1 hc)]
      by_cases ha : Spec.inches apcp - pwat / 1000 < 0.01
      · rw [if_pos ha, if_neg (not_le.2 ha)]
        unfold usafNoPrecip
        have : -1 * cin + 100.0 = 100 - cin := by norm_num; ring
        rw [this]
      · rw [if_neg ha, if_pos (not_lt.1 ha)]
        rfl
  unfold usafProbability
  dsimp only
  rw [hr]
  have h20 : Spec.regression cape liftidx pwat cin apcp * (pwat / 20.0) =
      Spec.regression cape liftidx pwat cin apcp * pwat / 20 := by norm_num; ring
  rw [h20]
  generalize (if pwat < 20 then Spec.regression cape liftidx pwat cin apcp * pwat / 20
        else Spec.regression cape liftidx pwat cin apcp) = v
  by_cases hv : v > 0.95
  · rw [if_pos hv, min_eq_left hv.le]
  · rw [if_neg hv, min_eq_right (not_lt.1 hv)]

/-- C173: the probability lies between 0 and 0.95, for any CAPE and lifted index, when precipitation and precipitable
water are not negative and CIN is not positive. -/
theorem C173_range (cape liftidx : ℝ) {pwat cin apcp : ℝ} (hp : 0 ≤ pwat) (hc : cin ≤ 0) (ha : 0 ≤ apcp) :
    0 ≤ usafProbability cape liftidx pwat cin apcp ∧ usafProbability cape liftidx pwat cin apcp ≤ 0.95 := by
  unfold usafProbability
  dsimp only
  have ha' : 0 ≤ apcp / 1000 * 39.3701 := by positivity
  have hcin : 0 ≤ -1 * cin := by linarith
  generalize apcp / 1000 * 39.3701 = a at *
  generalize -1 * cin = k at *
  have h0 : 0 ≤ (if cape ≤ 0 then 0.2 * Real.sqrt ((if liftidx + 4.0 < 0 then 0 else liftidx + 4.0) * a)
      else if a - pwat / 1000 < 0.01 then usafNoPrecip cape k else usafPrecip cape a) := by
    by_cases hcape : cape ≤ 0
    · rw [if_pos hcape]; positivity
    · rw [if_neg hcape]
      push Not at hcape
      split
      · exact usafNoPrecip_nonneg hcape.le hcin
      · exact usafPrecip_nonneg hcape.le ha'
  generalize (if cape ≤ 0 then 0.2 * Real.sqrt ((if liftidx + 4.0 < 0 then 0 else liftidx + 4.0) * a)
      else if a - pwat / 1000 < 0.01 then usafNoPrecip cape k else usafPrecip cape a) = v at *
  have h1 : 0 ≤ (if pwat < 20 then v * (pwat / 20.0) else v) := by
    split
    · positivity
    · exact h0
  generalize (if pwat < 20 then v * (pwat / 20.0) else v) = w at *
  split
  · norm_num
  · rename_i h
    push Not at h
    exact ⟨h1, h⟩

/-- C173: more precipitation never lowers the probability, across both regressions. -/
theorem C173_precipitation (cape liftidx : ℝ) {pwat cin apcp apcp' : ℝ} (hp : 0 ≤ pwat) (hc : cin ≤ 0) (ha : 0 ≤ apcp)
    (h : apcp ≤ apcp') : usafProbability cape liftidx pwat cin apcp ≤ usafProbability cape liftidx pwat cin apcp' := by
  unfold usafProbability
  dsimp only
  refine usaf_end ?_ hp
  have ha' : 0 ≤ apcp / 1000 * 39.3701 := by positivity
  have hle : apcp / 1000 * 39.3701 ≤ apcp' / 1000 * 39.3701 := by
    have : apcp / 1000 ≤ apcp' / 1000 := div_le_div_of_nonneg_right h (by norm_num)
    nlinarith
  have hcin : 0 ≤ -1 * cin := by linarith
  generalize apcp / 1000 * 39.3701 = a at *
  generalize apcp' / 1000 * 39.3701 = a' at *
  generalize -1 * cin = k at *
  by_cases hcape : cape ≤ 0
  · rw [if_pos hcape, if_pos hcape]
    have hl : (0 : ℝ) ≤ (if liftidx + 4.0 < 0 then 0 else liftidx + 4.0) := by
      split
      · exact le_rfl
      · rename_i h; push Not at h; exact h
    have := Real.sqrt_le_sqrt (mul_le_mul_of_nonneg_left hle hl)
    linarith
  · rw [if_neg hcape, if_neg hcape]
    push Not at hcape
    by_cases h1 : a' - pwat / 1000 < 0.01
    · rw [if_pos h1, if_pos (by linarith)]
    · rw [if_neg h1]
      push Not at h1
      have hpw : 0 ≤ pwat / 1000 := by positivity
      split
      · exact usafNoPrecip_le hcape.le hcin (by linarith)
      · exact usafPrecip_mono hcape.le ha' le_rfl hle

/-- C173: where there is CAPE, more of it never lowers the probability. -/
theorem C173_cape (liftidx : ℝ) {cape cape' pwat cin apcp : ℝ} (h0 : 0 < cape) (h : cape ≤ cape') (hp : 0 ≤ pwat)
    (hc : cin ≤ 0) (ha : 0 ≤ apcp) :
    usafProbability cape liftidx pwat cin apcp ≤ usafProbability cape' liftidx pwat cin apcp := by
  unfold usafProbability
  dsimp only
  refine usaf_end ?_ hp
  have ha' : 0 ≤ apcp / 1000 * 39.3701 := by positivity
  rw [if_neg (not_le.2 h0), if_neg (not_le.2 (h0.trans_le h))]
  split
  · exact usafNoPrecip_mono h0.le (by linarith) h
  · exact usafPrecip_mono h0.le ha' h le_rfl

/-- C173: without CAPE neither CIN nor the amount of negative CAPE matters, and a lifted index of -4 or less gives 0. -/
theorem C173_no_cape {cape cape' : ℝ} (liftidx pwat cin cin' apcp : ℝ) (h : cape ≤ 0) (h' : cape' ≤ 0) :
    usafProbability cape liftidx pwat cin apcp = usafProbability cape' liftidx pwat cin' apcp ∧
    (liftidx ≤ -4 → usafProbability cape liftidx pwat cin apcp = 0) := by
  unfold usafProbability
  dsimp only
  rw [if_pos h, if_pos h']
  refine ⟨rfl, fun hl => ?_⟩
  have e : (if liftidx + 4.0 < 0 then 0 else liftidx + 4.0) = (0 : ℝ) := by
    split
    · rfl
    · rename_i h
      push Not at h
      have : (4.0 : ℝ) = 4 := by norm_num
      rw [this] at h ⊢
      linarith
  rw [e, zero_mul, Real.sqrt_zero, mul_zero, zero_mul, ite_self, if_neg (by norm_num)]

/-- C173: a dry column has no lightning. -/
theorem C173_dry (cape liftidx cin apcp : ℝ) : usafProbability cape liftidx 0 cin apcp = 0 := by
  unfold usafProbability
  dsimp only
  rw [if_pos (show (0 : ℝ) < 20 by norm_num), zero_div (20.0 : ℝ), mul_zero, if_neg (by norm_num)]

/-- C173 finding: the probability drops when CAPE rises from nothing to a little: with a lifted index of 0, plenty of
precipitable water and an inch of rain it is at least 0.3 without CAPE and at most 0.06 with 0.1 J/kg. -/
theorem C173_cape_refuted : ∃ apcp : ℝ, 0 ≤ apcp ∧ 0.3 ≤ usafProbability 0 0 50 0 apcp ∧
    usafProbability 0.1 0 50 0 apcp ≤ 0.06 := by
  refine ⟨1000 / 39.3701, by positivity, ?_, ?_⟩
  · unfold usafProbability
    dsimp only
    have e : (1000 / 39.3701 / 1000 * 39.3701 : ℝ) = 1 := by norm_num
    rw [e, if_pos le_rfl, if_neg (show ¬ (50 : ℝ) < 20 by norm_num), if_neg (show ¬ (0 + 4.0 : ℝ) < 0 by norm_num)]
    have : Real.sqrt ((0 + 4.0) * 1) = 2 := by
      rw [show ((0 + 4.0) * 1 : ℝ) = 2 ^ 2 by norm_num]
      exact Real.sqrt_sq (by norm_num)
    rw [this, if_neg (by norm_num)]
    norm_num
  · unfold usafProbability
    dsimp only
    have e : (1000 / 39.3701 / 1000 * 39.3701 : ℝ) = 1 := by norm_num
    rw [e, if_neg (show ¬ (0.1 : ℝ) ≤ 0 by norm_num), if_neg (show ¬ (50 : ℝ) < 20 by norm_num),
      if_neg (show ¬ (1 - 50 / 1000 : ℝ) < 0.01 by norm_num)]
    have : usafPrecip 0.1 1 ≤ 0.06 := by
      unfold usafPrecip
      have : Real.log (0.1 * 1 + 0.7) ≤ 0 := Real.log_nonpos (by norm_num) (by norm_num)
      linarith
    rw [if_neg (by push Not; linarith)]
    exact this

/-- C173: inputs are accepted exactly when the accumulation is over three hours and every other field is valid at its
start, with the same reference time and grid. -/
theorem C173_inputs {G : Type} [DecidableEq G] (others : List (LightCube G)) (apcp : LightCube G) :
    usafChecks others apcp = .ok () ↔ ∃ start, apcp.bounds = some (start, start + 10800) ∧
      ∀ c ∈ others, c.time = start ∧ c.reference = apcp.reference ∧ c.grid = apcp.grid := by
  unfold usafChecks
  cases hb : apcp.bounds with
  | none => simp
  | some b =>
    obtain ⟨b1, b2⟩ := b
    dsimp only
    simp only [Option.some.injEq, Prod.mk.injEq]
    by_cases h1 : (others.any fun c => decide (c.time ≠ b1)) = true
    · rw [if_pos h1]
      refine ⟨fun h => (nomatch h), ?_⟩
      rintro ⟨s, ⟨rfl, _⟩, h⟩
      obtain ⟨c, hc, hd⟩ := List.any_eq_true.1 h1
      exact absurd (h c hc).1 (of_decide_eq_true hd)
    · rw [if_neg h1]
      by_cases h2 : ¬ b2 - b1 = 3 * 3600
      · rw [if_pos h2]
        refine ⟨fun h => (nomatch h), ?_⟩
        rintro ⟨s, ⟨rfl, h⟩, _⟩
        omega
      · rw [if_neg h2]
        by_cases h3 : (others.any fun c => decide (c.reference ≠ apcp.reference)) = true
        · rw [if_pos h3]
          refine ⟨fun h => (nomatch h), ?_⟩
          rintro ⟨s, _, h⟩
          obtain ⟨c, hc, hd⟩ := List.any_eq_true.1 h3
          exact absurd (h c hc).2.1 (of_decide_eq_true hd)
        · rw [if_neg h3]
          by_cases h4 : (others.any fun c => decide (c.grid ≠ apcp.grid)) = true
          · rw [if_pos h4]
            refine ⟨fun h => (nomatch h), ?_⟩
            rintro ⟨s, _, h⟩
            obtain ⟨c, hc, hd⟩ := List.any_eq_true.1 h4
            exact absurd (h c hc).2.2 (of_decide_eq_true hd)
          · rw [if_neg h4]
            simp only [List.any_eq_true, decide_eq_true_eq, not_exists, not_and, not_not] at h1 h3 h4
            exact ⟨fun _ => ⟨b1, ⟨rfl, by omega⟩, fun c hc => ⟨h1 c hc, h3 c hc, h4 c hc⟩⟩, fun _ => rfl⟩

example : usafChecks [⟨"cape", 0, none, 0, 7⟩] (⟨"apcp", 10800, some (0, 10800), 0, 7⟩ : LightCube ℕ) = .ok () ∧
    usafChecks [⟨"cape", 10800, none, 0, 7⟩] (⟨"apcp", 10800, some (0, 10800), 0, 7⟩ : LightCube ℕ) = .error .valueError := by
  decide

end Improver
