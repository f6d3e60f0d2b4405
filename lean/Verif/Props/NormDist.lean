import Verif.Model.NormDist
import Mathlib.Probability.CDF
import Mathlib.Probability.Distributions.Gaussian.Real
import Mathlib.MeasureTheory.Integral.IntegralEqImproper

/-!
Facts about the standard normal distribution function needed for the continuous ranked
probability score.
-/

open MeasureTheory ProbabilityTheory Filter Set
open scoped Topology NNReal

namespace Improver

theorem normPdf_eq (x : ℝ) : normPdf x = gaussianPDFReal 0 1 x := by
  simp only [normPdf, gaussianPDFReal]
  simp
  field_simp

theorem normPdf_fun : normPdf = gaussianPDFReal 0 1 := funext normPdf_eq

theorem normPdf_pos (x : ℝ) : 0 < normPdf x := by
  unfold normPdf; positivity

theorem normPdf_neg (x : ℝ) : normPdf (-x) = normPdf x := by
  unfold normPdf; simp

theorem integrable_normPdf : Integrable normPdf := by
  rw [normPdf_fun]; exact integrable_gaussianPDFReal 0 1

theorem integral_normPdf : ∫ x, normPdf x = 1 := by
  rw [normPdf_fun]; exact integral_gaussianPDFReal_eq_one 0 one_ne_zero

theorem continuous_normPdf : Continuous normPdf := by
  unfold normPdf; fun_prop

theorem hasDerivAt_normPdf (x : ℝ) : HasDerivAt normPdf (-x * normPdf x) x := by
  have h1 : HasDerivAt (fun y : ℝ => -(y ^ 2) / 2) (-x) x := by
    exact (((hasDerivAt_pow 2 x).neg).div_const 2).congr_deriv (by simp; ring)
  have h2 : HasDerivAt normPdf _ x := (h1.exp).div_const (Real.sqrt (2 * Real.pi))
  exact h2.congr_deriv (by unfold normPdf; ring)

theorem normCdf_eq_cdf (x : ℝ) : normCdf x = cdf (gaussianReal 0 1) x := by
  rw [cdf_eq_real, measureReal_def, gaussianReal_apply_eq_integral 0 one_ne_zero,
    ENNReal.toReal_ofReal (setIntegral_nonneg measurableSet_Iic
      (fun y _ => gaussianPDFReal_nonneg 0 1 y))]
  simp only [normCdf, normPdf_eq]

theorem normCdf_nonneg (x : ℝ) : 0 ≤ normCdf x := by
  rw [normCdf_eq_cdf]; exact cdf_nonneg _ _

theorem normCdf_le_one (x : ℝ) : normCdf x ≤ 1 := by
  rw [normCdf_eq_cdf]; exact cdf_le_one _ _

theorem one_sub_normCdf (x : ℝ) : 1 - normCdf x = ∫ t in Ioi x, normPdf t := by
  have h := intervalIntegral.integral_Iic_add_Ioi (μ := volume) (b := x)
    integrable_normPdf.integrableOn integrable_normPdf.integrableOn
  rw [integral_normPdf] at h
  unfold normCdf; linarith

theorem normCdf_neg (x : ℝ) : normCdf (-x) = 1 - normCdf x := by
  rw [one_sub_normCdf]
  unfold normCdf
  rw [← integral_comp_neg_Ioi]
  simp only [normPdf_neg]

theorem hasDerivAt_normCdf (x : ℝ) : HasDerivAt normCdf (normPdf x) x := by
  have h : normCdf = fun y => normCdf 0 + ∫ t in (0:ℝ)..y, normPdf t := by
    funext y
    have := intervalIntegral.integral_Iic_sub_Iic (μ := volume) (a := 0) (b := y)
      integrable_normPdf.integrableOn integrable_normPdf.integrableOn
    unfold normCdf; linarith
  rw [h]
  apply HasDerivAt.const_add
  exact intervalIntegral.integral_hasDerivAt_right
    (integrable_normPdf.intervalIntegrable)
    continuous_normPdf.stronglyMeasurable.stronglyMeasurableAtFilter
    continuous_normPdf.continuousAt

theorem continuous_normCdf : Continuous normCdf :=
  continuous_iff_continuousAt.2 fun x => (hasDerivAt_normCdf x).continuousAt

theorem normCdf_strictMono : StrictMono normCdf :=
  strictMono_of_hasDerivAt_pos hasDerivAt_normCdf normPdf_pos

theorem normCdf_pos (x : ℝ) : 0 < normCdf x :=
  lt_of_le_of_lt (normCdf_nonneg (x - 1)) (normCdf_strictMono (by linarith))

theorem tendsto_normCdf_atTop : Tendsto normCdf atTop (𝓝 1) := by
  have : normCdf = cdf (gaussianReal 0 1) := funext normCdf_eq_cdf
  rw [this]; exact tendsto_cdf_atTop _

theorem tendsto_normPdf_atTop : Tendsto normPdf atTop (𝓝 0) := by
  have h1 : Tendsto (fun x : ℝ => -(x ^ 2) / 2) atTop atBot := by
    have : Tendsto (fun x : ℝ => x ^ 2) atTop atTop := tendsto_pow_atTop two_ne_zero
    have h2 := (this.atTop_div_const (show (0:ℝ) < 2 by norm_num))
    have h3 := tendsto_neg_atTop_atBot.comp h2
    refine h3.congr fun x => ?_
    simp only [Function.comp]; ring
  have := (Real.tendsto_exp_atBot.comp h1).div_const (Real.sqrt (2 * Real.pi))
  rw [zero_div] at this
  exact this

/-- Tail bound `x (1 - Φ x) ≤ φ x` for non-negative `x`. -/
theorem mills (x : ℝ) (hx : 0 ≤ x) : x * (1 - normCdf x) ≤ normPdf x := by
  have hd : ∀ y ∈ Ici x, HasDerivAt (fun t => -normPdf t) (y * normPdf y) y := fun y _ => by
    exact (hasDerivAt_normPdf y).neg.congr_deriv (by ring)
  have hn : ∀ y ∈ Ioi x, 0 ≤ y * normPdf y := fun y hy =>
    mul_nonneg (hx.trans (le_of_lt hy)) (normPdf_pos y).le
  have ht : Tendsto (fun t => -normPdf t) atTop (𝓝 0) := by
    simpa using tendsto_normPdf_atTop.neg
  have hi := integrableOn_Ioi_deriv_of_nonneg' hd hn ht
  have he := integral_Ioi_of_hasDerivAt_of_nonneg' hd hn ht
  rw [one_sub_normCdf, ← integral_const_mul]
  have : ∫ t in Ioi x, x * normPdf t ≤ ∫ t in Ioi x, t * normPdf t := by
    apply setIntegral_mono_on (integrable_normPdf.const_mul x).integrableOn hi measurableSet_Ioi
    intro t ht
    exact mul_le_mul_of_nonneg_right (le_of_lt ht) (normPdf_pos t).le
  rw [he] at this
  linarith

theorem tendsto_tail : Tendsto (fun x => x * (1 - normCdf x) ^ 2) atTop (𝓝 0) := by
  refine squeeze_zero' ?_ ?_ tendsto_normPdf_atTop
  · filter_upwards [eventually_ge_atTop 0] with x hx
    exact mul_nonneg hx (sq_nonneg _)
  · filter_upwards [eventually_ge_atTop 0] with x hx
    have h1 := mills x hx
    have h2 := normCdf_nonneg x
    have h3 := normCdf_le_one x
    have h4 : x * (1 - normCdf x) ^ 2 = (x * (1 - normCdf x)) * (1 - normCdf x) := by ring
    rw [h4]
    have h5 : 0 ≤ x * (1 - normCdf x) := mul_nonneg hx (by linarith)
    nlinarith

theorem normPdf_sqrt_two (x : ℝ) :
    Real.sqrt 2 * normPdf (Real.sqrt 2 * x) / Real.sqrt Real.pi = 2 * normPdf x ^ 2 := by
  unfold normPdf
  have h2 : Real.sqrt 2 ^ 2 = 2 := Real.sq_sqrt (by norm_num)
  have hp : Real.sqrt Real.pi ^ 2 = Real.pi := Real.sq_sqrt Real.pi_pos.le
  have e1 : -(Real.sqrt 2 * x) ^ 2 / 2 = -(x^2)/2 + -(x^2)/2 := by
    rw [mul_pow, h2]; ring
  rw [e1, Real.exp_add, Real.sqrt_mul (by norm_num) Real.pi]
  have : Real.sqrt 2 ≠ 0 := by positivity
  have : Real.sqrt Real.pi ≠ 0 := by positivity
  field_simp
  rw [h2]

/-- Antiderivative of the squared upper tail. -/
noncomputable def tailPrim (x : ℝ) : ℝ :=
  x * (1 - normCdf x) ^ 2 - 2 * normPdf x * (1 - normCdf x)
    - normCdf (Real.sqrt 2 * x) / Real.sqrt Real.pi

theorem hasDerivAt_sqrtCdf (x : ℝ) :
    HasDerivAt (fun t => normCdf (Real.sqrt 2 * t) / Real.sqrt Real.pi) (2 * normPdf x ^ 2) x := by
  have h1 : HasDerivAt (fun t : ℝ => Real.sqrt 2 * t) (Real.sqrt 2) x := by
    simpa using (hasDerivAt_id x).const_mul (Real.sqrt 2)
  have h2 := ((hasDerivAt_normCdf (Real.sqrt 2 * x)).comp x h1).div_const (Real.sqrt Real.pi)
  rw [← normPdf_sqrt_two]
  exact h2.congr_deriv (by ring)

theorem hasDerivAt_tailPrim (x : ℝ) : HasDerivAt tailPrim ((1 - normCdf x) ^ 2) x := by
  have hc := (hasDerivAt_normCdf x).const_sub 1
  have hp := hasDerivAt_normPdf x
  have h1 := (hasDerivAt_id x).mul (hc.pow 2)
  have h2 := (hp.const_mul 2).mul hc
  have h3 := (h1.sub h2).sub (hasDerivAt_sqrtCdf x)
  exact h3.congr_deriv (by simp; ring)

theorem tendsto_tailPrim : Tendsto tailPrim atTop (𝓝 (-(1 / Real.sqrt Real.pi))) := by
  have h1 : Tendsto (fun x => 2 * normPdf x * (1 - normCdf x)) atTop (𝓝 (2 * 0 * (1 - 1))) :=
    (tendsto_normPdf_atTop.const_mul 2).mul (tendsto_normCdf_atTop.const_sub 1)
  have h2 : Tendsto (fun x : ℝ => Real.sqrt 2 * x) atTop atTop :=
    tendsto_id.const_mul_atTop (by positivity)
  have h3 := (tendsto_normCdf_atTop.comp h2).div_const (Real.sqrt Real.pi)
  have h4 : Tendsto tailPrim atTop _ := (tendsto_tail.sub h1).sub h3
  have h5 : (0 : ℝ) - 2 * 0 * (1 - 1) - 1 / Real.sqrt Real.pi = -(1 / Real.sqrt Real.pi) := by ring
  rw [← h5]; exact h4

theorem integrableOn_tail (y : ℝ) : IntegrableOn (fun x => (1 - normCdf x) ^ 2) (Ioi y) :=
  integrableOn_Ioi_deriv_of_nonneg' (fun x _ => hasDerivAt_tailPrim x)
    (fun _ _ => sq_nonneg _) tendsto_tailPrim

theorem integral_tail (y : ℝ) :
    ∫ x in Ioi y, (1 - normCdf x) ^ 2 = -(1 / Real.sqrt Real.pi) - tailPrim y :=
  integral_Ioi_of_hasDerivAt_of_nonneg' (fun x _ => hasDerivAt_tailPrim x)
    (fun _ _ => sq_nonneg _) tendsto_tailPrim

theorem integral_lower (y : ℝ) :
    ∫ x in Iic y, normCdf x ^ 2 = -(1 / Real.sqrt Real.pi) - tailPrim (-y) := by
  rw [← integral_tail, ← integral_comp_neg_Iic]
  simp only [normCdf_neg, sub_sub_cancel]

theorem integrableOn_lower (y : ℝ) : IntegrableOn (fun x => normCdf x ^ 2) (Iic y) := by
  have h := ((integrableOn_Ici_iff_integrableOn_Ioi (by simp)).2 (integrableOn_tail (-y))).comp_neg_Iic
  simp only [neg_neg, normCdf_neg, sub_sub_cancel] at h
  exact h

end Improver
