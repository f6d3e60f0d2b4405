import Verif.Model.Crps
import Verif.Props.NormDist
import Mathlib.Probability.ConditionalProbability

/-!
The closed formulas of the score are the continuous ranked probability score.
-/

open MeasureTheory ProbabilityTheory Filter Set
open scoped Topology NNReal

namespace Improver

namespace Spec

/-- The continuous ranked probability score of a forecast distribution for the outcome `y`: the
integral of the squared difference between the distribution function of the forecast and the
step function at the outcome. -/
noncomputable def crps (P : Measure ℝ) (y : ℝ) : ℝ :=
  ∫ x, (cdf P x - if y ≤ x then 1 else 0) ^ 2

/-- A normal distribution conditioned on being non-negative. -/
noncomputable def truncNormal (m : ℝ) (v : ℝ≥0) : Measure ℝ := cond (gaussianReal m v) (Ici 0)

end Spec

theorem crps_nonneg (P : Measure ℝ) (y : ℝ) : 0 ≤ Spec.crps P y :=
  integral_nonneg fun _ => sq_nonneg _

theorem gaussian_affine (m s : ℝ) :
    gaussianReal m (Real.toNNReal (s ^ 2)) = (gaussianReal 0 1).map (fun z => m + s * z) := by
  have h1 : (gaussianReal 0 1).map (fun z => s * z) = gaussianReal 0 (Real.toNNReal (s ^ 2)) := by
    rw [gaussianReal_map_const_mul]
    congr 1
    · ring
    · rw [mul_one]; ext; simp [Real.coe_toNNReal _ (sq_nonneg s)]
  have h2 := gaussianReal_map_const_add (μ := 0) (v := Real.toNNReal (s ^ 2)) m
  rw [zero_add, ← h1, Measure.map_map (by fun_prop) (by fun_prop)] at h2
  rw [← h2]; rfl

theorem cdf_gaussian (m s x : ℝ) (hs : 0 < s) :
    cdf (gaussianReal m (Real.toNNReal (s ^ 2))) x = normCdf ((x - m) / s) := by
  rw [normCdf_eq_cdf, cdf_eq_real, cdf_eq_real, gaussian_affine,
    map_measureReal_apply (by fun_prop) measurableSet_Iic]
  congr 1
  ext z
  simp only [mem_preimage, mem_Iic]
  rw [le_div_iff₀ hs]
  constructor <;> intro h <;> linarith

theorem integral_affine (g : ℝ → ℝ) (m s : ℝ) (hs : 0 < s) :
    ∫ x, g ((x - m) / s) = s * ∫ z, g z := by
  rw [integral_sub_right_eq_self (μ := volume) (fun a => g (a / s)) m,
    Measure.integral_comp_div, abs_of_pos hs, smul_eq_mul]

/-- Splitting a squared difference with a step function at the step. -/
theorem integral_step (F : ℝ → ℝ) (y : ℝ) (h1 : IntegrableOn (fun x => F x ^ 2) (Iio y))
    (h2 : IntegrableOn (fun x => (1 - F x) ^ 2) (Ici y)) :
    ∫ x, (F x - if y ≤ x then 1 else 0) ^ 2
      = (∫ x in Iio y, F x ^ 2) + ∫ x in Ici y, (1 - F x) ^ 2 := by
  have e1 : EqOn (fun x => (F x - if y ≤ x then 1 else 0) ^ 2) (fun x => F x ^ 2) (Iio y) :=
    fun x hx => by
      have : ¬ y ≤ x := not_le.2 hx
      simp [this]
  have e2 : EqOn (fun x => (F x - if y ≤ x then 1 else 0) ^ 2) (fun x => (1 - F x) ^ 2) (Ici y) :=
    fun x hx => by
      have : y ≤ x := hx
      simp only [this, if_true]; ring
  rw [← intervalIntegral.integral_Iio_add_Ici (b := y)
    (h1.congr_fun e1.symm measurableSet_Iio) (h2.congr_fun e2.symm measurableSet_Ici),
    setIntegral_congr_fun measurableSet_Iio e1, setIntegral_congr_fun measurableSet_Ici e2]

theorem integrableOn_tail_Ici (y : ℝ) : IntegrableOn (fun x => (1 - normCdf x) ^ 2) (Ici y) :=
  (integrableOn_Ici_iff_integrableOn_Ioi (by simp)).2 (integrableOn_tail y)

theorem std_crps (y : ℝ) :
    ∫ x, (normCdf x - if y ≤ x then 1 else 0) ^ 2
      = y * (2 * normCdf y - 1) + 2 * normPdf y - 1 / Real.sqrt Real.pi := by
  rw [integral_step normCdf y ((integrableOn_lower y).mono_set Iio_subset_Iic_self)
    (integrableOn_tail_Ici y), ← integral_Iic_eq_integral_Iio, integral_lower,
    integral_Ici_eq_integral_Ioi, integral_tail]
  simp only [tailPrim, normCdf_neg, normPdf_neg, mul_neg]
  ring

/-- The closed formula for the normal distribution. -/
theorem normal_formula (m s y : ℝ) (hs : 0 < s) :
    s * ((y - m) / s * (2 * normCdf ((y - m) / s) - 1) + 2 * normPdf ((y - m) / s)
      - 1 / Real.sqrt Real.pi) = Spec.crps (gaussianReal m (Real.toNNReal (s ^ 2))) y := by
  rw [← std_crps, ← integral_affine _ m s hs]
  unfold Spec.crps
  congr 1
  funext x
  rw [cdf_gaussian m s x hs]
  have : ((y - m) / s ≤ (x - m) / s) ↔ y ≤ x := by
    rw [div_le_div_iff_of_pos_right hs]; constructor <;> intro h <;> linarith
  simp only [this]

/-! ### Truncation at zero -/

theorem cdf_trunc (m s x : ℝ) (hs : 0 < s) :
    cdf (Spec.truncNormal m (Real.toNNReal (s ^ 2))) x
      = if x < 0 then 0
        else (normCdf ((x - m) / s) - normCdf (-(m / s))) / normCdf (m / s) := by
  set G := gaussianReal m (Real.toNNReal (s ^ 2)) with hG
  have hv : Real.toNNReal (s ^ 2) ≠ 0 := by simp [Real.toNNReal_eq_zero]; positivity
  have hI : G.real (Iic 0) = normCdf (-(m / s)) := by
    rw [← cdf_eq_real, hG, cdf_gaussian m s 0 hs]; congr 1; ring
  haveI := nullSingletonClass_gaussianReal (μ := m) hv
  have hIio : G.real (Iio 0) = normCdf (-(m / s)) := by
    rw [← hI]; exact measureReal_congr Iio_ae_eq_Iic
  have hp : G.real (Ici 0) = normCdf (m / s) := by
    have h := measureReal_compl (μ := G) (s := Iio (0:ℝ)) measurableSet_Iio
    rw [compl_Iio] at h
    rw [h, hIio, normCdf_neg]; simp
  have hpos : G (Ici 0) ≠ 0 := by
    intro h0
    have : G.real (Ici 0) = 0 := by simp [measureReal_def, h0]
    rw [hp] at this
    exact (normCdf_pos _).ne' this
  haveI : IsProbabilityMeasure (cond G (Ici 0)) := cond_isProbabilityMeasure hpos
  unfold Spec.truncNormal
  have hcond : ∀ t : Set ℝ, (cond G (Ici 0)).real t
      = (normCdf (m / s))⁻¹ * G.real (Ici 0 ∩ t) := fun t => by
    rw [measureReal_def, cond_apply measurableSet_Ici, ENNReal.toReal_mul, ENNReal.toReal_inv,
      ← measureReal_def, ← measureReal_def, hp]
  rw [← hG, cdf_eq_real, hcond]
  split_ifs with hx
  · have : Ici (0:ℝ) ∩ Iic x = ∅ := by
      rw [Ici_inter_Iic]; exact Icc_eq_empty (not_le.2 hx)
    simp [this]
  · push Not at hx
    have hd : Ici (0:ℝ) ∩ Iic x = Iic x \ Iio 0 := by
      ext z; simp only [mem_inter_iff, mem_Ici, mem_Iic, mem_diff, mem_Iio, not_lt]; tauto
    have hsub : Iio (0:ℝ) ⊆ Iic x := fun z hz => le_of_lt (lt_of_lt_of_le hz hx)
    rw [hd, measureReal_diff hsub measurableSet_Iio, hIio,
      ← cdf_eq_real, hG, cdf_gaussian m s x hs]
    ring

theorem hasDerivAt_midPrim (q z : ℝ) :
    HasDerivAt (fun z => tailPrim z - 2 * (1 - q) * (z * (1 - normCdf z) - normPdf z)
      + (1 - q) ^ 2 * z) ((normCdf z - q) ^ 2) z := by
  have h1 := hasDerivAt_tailPrim z
  have hc := (hasDerivAt_normCdf z).const_sub 1
  have h2 := (((hasDerivAt_id z).mul hc).sub (hasDerivAt_normPdf z)).const_mul (2 * (1 - q))
  have h3 := (hasDerivAt_id z).const_mul ((1 - q) ^ 2)
  have h4 := (h1.sub h2).add h3
  refine h4.congr_deriv ?_
  simp; ring

/-- The standardised integral for an outcome inside the support. -/
theorem std_trunc (x0 y : ℝ) (hy : -x0 ≤ y) :
    ∫ z, ((if z < -x0 then 0 else (normCdf z - normCdf (-x0)) / normCdf x0)
        - if y ≤ z then 1 else 0) ^ 2
      = 1 / (normCdf x0 * normCdf x0) *
        (y * normCdf x0 * (2 * normCdf y + normCdf x0 - 2) + 2 * normPdf y * normCdf x0
          - normCdf (Real.sqrt 2 * x0) / Real.sqrt Real.pi) := by
  set p := normCdf x0 with hp
  have hppos : 0 < p := normCdf_pos x0
  have hq : normCdf (-x0) = 1 - p := normCdf_neg x0
  set F : ℝ → ℝ := fun z => if z < -x0 then 0 else (normCdf z - normCdf (-x0)) / p with hF
  have eU : EqOn (fun z => (1 - F z) ^ 2) (fun z => (1 / p ^ 2) * (1 - normCdf z) ^ 2) (Ici y) :=
    fun z hz => by
      have : ¬ z < -x0 := not_lt.2 (hy.trans hz)
      simp only [hF, this, if_false, hq]
      field_simp
      ring
  have eL : (fun z => F z ^ 2)
      = (Ici (-x0)).indicator (fun z => (1 / p ^ 2) * (normCdf z - (1 - p)) ^ 2) := by
    funext z
    by_cases hz : z < -x0
    · rw [indicator_of_notMem (by simpa using hz)]
      simp [hF, hz]
    · rw [indicator_of_mem (by simpa using hz)]
      simp only [hF, hz, if_false, hq]
      ring
  have hcont : Continuous (fun z => (1 / p ^ 2) * (normCdf z - (1 - p)) ^ 2) := by
    have := continuous_normCdf
    fun_prop
  have hIoc : IntegrableOn (fun z => (1 / p ^ 2) * (normCdf z - (1 - p)) ^ 2) (Ico (-x0) y) :=
    (hcont.integrableOn_Icc).mono_set Ico_subset_Icc_self
  have hint1 : IntegrableOn (fun z => F z ^ 2) (Iio y) := by
    rw [eL]
    have : IntegrableOn ((Ici (-x0)).indicator
        (fun z => (1 / p ^ 2) * (normCdf z - (1 - p)) ^ 2)) (Iio y) ↔ _ :=
      integrableOn_indicator_iff measurableSet_Ici
    rw [this, Ici_inter_Iio]
    exact hIoc
  have hint2 : IntegrableOn (fun z => (1 - F z) ^ 2) (Ici y) :=
    IntegrableOn.congr_fun ((integrableOn_tail_Ici y).const_mul (1 / p ^ 2)) eU.symm
      measurableSet_Ici
  rw [integral_step F y hint1 hint2, setIntegral_congr_fun measurableSet_Ici eU, eL,
    setIntegral_indicator measurableSet_Ici, Iio_inter_Ici, integral_Ico_eq_integral_Ioc,
    ← intervalIntegral.integral_of_le hy, intervalIntegral.integral_const_mul,
    integral_const_mul, integral_Ici_eq_integral_Ioi, integral_tail]
  have hFTC : ∫ z in (-x0)..y, (normCdf z - (1 - p)) ^ 2 = _ :=
    intervalIntegral.integral_eq_sub_of_hasDerivAt
      (fun z _ => hasDerivAt_midPrim (1 - p) z)
      (by
        have : Continuous (fun z => (normCdf z - (1 - p)) ^ 2) := by
          have := continuous_normCdf
          fun_prop
        exact this.intervalIntegrable _ _)
  rw [hFTC]
  simp only [tailPrim, hq, mul_neg, normCdf_neg]
  have hpi : Real.sqrt Real.pi ≠ 0 := by positivity
  field_simp
  ring

/-- The closed formula for the truncated normal distribution and outcomes in its support. -/
theorem trunc_formula (m s y : ℝ) (hs : 0 < s) (hy : 0 ≤ y) :
    s / (normCdf (m / s) * normCdf (m / s)) *
      ((y - m) / s * normCdf (m / s) * (2 * normCdf ((y - m) / s) + normCdf (m / s) - 2)
        + 2 * normPdf ((y - m) / s) * normCdf (m / s)
        - normCdf (Real.sqrt 2 * (m / s)) / Real.sqrt Real.pi)
      = Spec.crps (Spec.truncNormal m (Real.toNNReal (s ^ 2))) y := by
  have h := std_trunc (m / s) ((y - m) / s) (by
    rw [← neg_div, div_le_div_iff_of_pos_right hs]; linarith)
  have e : Spec.crps (Spec.truncNormal m (Real.toNNReal (s ^ 2))) y = s * ∫ z,
      ((if z < -(m / s) then 0 else (normCdf z - normCdf (-(m / s))) / normCdf (m / s))
        - if (y - m) / s ≤ z then 1 else 0) ^ 2 := by
    rw [← integral_affine _ m s hs]
    unfold Spec.crps
    congr 1
    funext x
    rw [cdf_trunc m s x hs]
    have e1 : ((y - m) / s ≤ (x - m) / s) ↔ y ≤ x := by
      rw [div_le_div_iff_of_pos_right hs]; constructor <;> intro h <;> linarith
    have e2 : ((x - m) / s < -(m / s)) ↔ x < 0 := by
      rw [← neg_div, div_lt_div_iff_of_pos_right hs]; constructor <;> intro h <;> linarith
    simp only [e1, e2]
  rw [e, h]
  ring

end Improver
