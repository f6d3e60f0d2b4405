import Verif.Model.EmosOutput
import Verif.Props.CrpsCore

/-!
C128 (calibrated percentiles) and C129 (calibrated probabilities): the values written by ApplyEMOS
are quantiles and probabilities of the calibrated distribution, given here as a probability
measure.
-/

open MeasureTheory ProbabilityTheory Set

namespace Improver
namespace Spec

/-- The values a distribution can take. -/
def support : EmosDist → Set ℝ
  | .norm => univ
  | .truncnorm lo hi => {x | (∀ a ∈ lo, a ≤ x) ∧ ∀ b ∈ hi, x ≤ b}

/-- The calibrated distribution: the normal distribution with mean `m` and standard deviation `s`,
conditioned on lying in the support. -/
noncomputable def law (d : EmosDist) (m s : ℝ) : Measure ℝ :=
  match d with
  | .norm => gaussianReal m (Real.toNNReal (s ^ 2))
  | .truncnorm lo hi => cond (gaussianReal m (Real.toNNReal (s ^ 2))) (support (.truncnorm lo hi))

/-- The limits of a truncated distribution are ordered. -/
def proper : EmosDist → Prop
  | .truncnorm (some a) (some b) => a < b
  | _ => True

end Spec

open Spec

theorem law_zero_inf (m s : ℝ) :
    law (.truncnorm (some 0) none) m s = truncNormal m (Real.toNNReal (s ^ 2)) := by
  have e : support (.truncnorm (some 0) none) = Ici 0 := by ext x; simp [support]
  simp only [law, truncNormal, e]

theorem measurable_support (d : EmosDist) : MeasurableSet (support d) := by
  cases d with
  | norm => exact MeasurableSet.univ
  | truncnorm lo hi =>
    have h : support (.truncnorm lo hi) =
        {x | ∀ a ∈ lo, a ≤ x} ∩ {x | ∀ b ∈ hi, x ≤ b} := rfl
    rw [h]
    refine MeasurableSet.inter ?_ ?_
    · cases lo with
      | none => simp
      | some a =>
        have e : {x : ℝ | ∀ a' ∈ some a, a' ≤ x} = Ici a := by ext x; simp
        rw [e]; exact measurableSet_Ici
    · cases hi with
      | none => simp
      | some b =>
        have e : {x : ℝ | ∀ b' ∈ some b, x ≤ b'} = Iic b := by ext x; simp
        rw [e]; exact measurableSet_Iic

/-! ### The standard normal quantile -/

theorem tendsto_normCdf_atBot : Filter.Tendsto normCdf Filter.atBot (nhds 0) := by
  have h : normCdf = fun x => 1 - normCdf (-x) := by funext x; rw [normCdf_neg]; ring
  rw [h]
  have := (tendsto_normCdf_atTop.comp Filter.tendsto_neg_atBot_atTop).const_sub 1
  simpa using this

theorem normCdf_surj {q : ℝ} (h0 : 0 < q) (h1 : q < 1) : ∃ x, normCdf x = q := by
  obtain ⟨a, ha⟩ := (tendsto_normCdf_atBot.eventually (gt_mem_nhds h0)).exists
  obtain ⟨b, hb⟩ := (tendsto_normCdf_atTop.eventually (lt_mem_nhds h1)).exists
  exact mem_range_of_exists_le_of_exists_ge continuous_normCdf ⟨a, ha.le⟩ ⟨b, hb.le⟩

theorem normCdf_ppf {q : ℝ} (h0 : 0 < q) (h1 : q < 1) : normCdf (normPpf q) = q :=
  Function.invFun_eq (normCdf_surj h0 h1)

theorem normCdf_lt_one (x : ℝ) : normCdf x < 1 :=
  lt_of_lt_of_le (normCdf_strictMono (lt_add_one x)) (normCdf_le_one _)

/-! ### Truncation -/

section
variable (m s : ℝ) (hs : 0 < s)
include hs

theorem gauss_real_Iic (x : ℝ) :
    (gaussianReal m (Real.toNNReal (s ^ 2))).real (Iic x) = normCdf ((x - m) / s) := by
  rw [← cdf_eq_real, cdf_gaussian m s x hs]

theorem gauss_noAtoms : NullSingletonClass (gaussianReal m (Real.toNNReal (s ^ 2))) := by
  have hv : Real.toNNReal (s ^ 2) ≠ 0 := by simp [Real.toNNReal_eq_zero]; positivity
  exact nullSingletonClass_gaussianReal (μ := m) hv

/-- Probability of lying between the lower limit and `t`. -/
theorem gauss_between (lo : Option ℝ) (t : ℝ) (ht : ∀ a ∈ lo, a ≤ t) :
    (gaussianReal m (Real.toNNReal (s ^ 2))).real ({x | ∀ a ∈ lo, a ≤ x} ∩ Iic t)
      = normCdf ((t - m) / s) - cdfLower (rescaleLimit lo m s) := by
  cases lo with
  | none =>
    simp only [Option.not_mem_none, IsEmpty.forall_iff, implies_true, setOf_true, univ_inter,
      rescaleLimit, Option.map_none, cdfLower, sub_zero]
    exact gauss_real_Iic m s hs t
  | some a =>
    haveI := gauss_noAtoms m s hs
    have hat : a ≤ t := ht a rfl
    have e : ({x : ℝ | ∀ a' ∈ some a, a' ≤ x} ∩ Iic t) = Icc a t := by
      ext x; simp
    rw [e, ← measureReal_congr (Ioc_ae_eq_Icc (μ := gaussianReal m (Real.toNNReal (s ^ 2)))),
      ← Iic_sdiff_Iic, measureReal_diff (Iic_subset_Iic.2 hat) measurableSet_Iic,
      gauss_real_Iic m s hs, gauss_real_Iic m s hs]
    rfl

theorem gauss_above (lo : Option ℝ) :
    (gaussianReal m (Real.toNNReal (s ^ 2))).real {x | ∀ a ∈ lo, a ≤ x}
      = 1 - cdfLower (rescaleLimit lo m s) := by
  cases lo with
  | none => simp [rescaleLimit, cdfLower]
  | some a =>
    haveI := gauss_noAtoms m s hs
    have e : {x : ℝ | ∀ a' ∈ some a, a' ≤ x} = Ici a := by ext x; simp
    have h := measureReal_compl (μ := gaussianReal m (Real.toNNReal (s ^ 2))) (s := Iio a)
      measurableSet_Iio
    rw [compl_Iio] at h
    rw [e, h, measureReal_congr (Iio_ae_eq_Iic (μ := gaussianReal m (Real.toNNReal (s ^ 2)))),
      gauss_real_Iic m s hs]
    simp [rescaleLimit, cdfLower]

theorem gauss_support (lo hi : Option ℝ) (hd : proper (.truncnorm lo hi)) :
    (gaussianReal m (Real.toNNReal (s ^ 2))).real (support (.truncnorm lo hi))
      = cdfUpper (rescaleLimit hi m s) - cdfLower (rescaleLimit lo m s) := by
  cases hi with
  | none =>
    have e : support (.truncnorm lo none) = {x | ∀ a ∈ lo, a ≤ x} := by
      ext x; simp [support]
    rw [e, gauss_above m s hs]; rfl
  | some b =>
    have e : support (.truncnorm lo (some b)) = {x | ∀ a ∈ lo, a ≤ x} ∩ Iic b := by
      ext x; simp [support]
    rw [e, gauss_between m s hs lo b]
    · rfl
    · intro a ha
      obtain rfl : lo = some a := ha
      exact le_of_lt hd

theorem scaled_lt {a b : ℝ} : (a - m) / s < (b - m) / s ↔ a < b := by
  rw [div_lt_div_iff_of_pos_right hs]; constructor <;> intro h <;> linarith

theorem scaled_le {a b : ℝ} : (a - m) / s ≤ (b - m) / s ↔ a ≤ b := by
  rw [div_le_div_iff_of_pos_right hs]; constructor <;> intro h <;> linarith

theorem shapeOk_iff (lo hi : Option ℝ) :
    shapeOk (rescaleLimit lo m s) (rescaleLimit hi m s) ↔ proper (.truncnorm lo hi) := by
  cases lo <;> cases hi <;> simp [shapeOk, rescaleLimit, proper, scaled_lt m s hs]

theorem mass_pos (lo hi : Option ℝ) (hd : proper (.truncnorm lo hi)) :
    0 < cdfUpper (rescaleLimit hi m s) - cdfLower (rescaleLimit lo m s) := by
  cases lo with
  | none =>
    cases hi with
    | none => simp [rescaleLimit, cdfUpper, cdfLower]
    | some b => simp [rescaleLimit, cdfUpper, cdfLower, normCdf_pos]
  | some a =>
    cases hi with
    | none => simp [rescaleLimit, cdfUpper, cdfLower, normCdf_lt_one]
    | some b =>
      simp only [rescaleLimit, Option.map_some, cdfUpper, cdfLower, sub_pos]
      exact normCdf_strictMono ((scaled_lt m s hs).2 hd)

theorem law_prob (d : EmosDist) (hd : proper d) : IsProbabilityMeasure (law d m s) := by
  cases d with
  | norm => unfold law; infer_instance
  | truncnorm lo hi =>
    unfold law
    refine cond_isProbabilityMeasure ?_
    intro h0
    have h := gauss_support m s hs lo hi hd
    rw [measureReal_def, h0] at h
    exact (mass_pos m s hs lo hi hd).ne h

theorem cdf_law_trunc (lo hi : Option ℝ) (hd : proper (.truncnorm lo hi)) (x : ℝ) :
    cdf (law (.truncnorm lo hi) m s) x =
      (gaussianReal m (Real.toNNReal (s ^ 2))).real (support (.truncnorm lo hi) ∩ Iic x) /
        (cdfUpper (rescaleLimit hi m s) - cdfLower (rescaleLimit lo m s)) := by
  haveI := law_prob m s hs _ hd
  rw [cdf_eq_real]
  simp only [law]
  rw [measureReal_def, cond_apply (measurable_support (.truncnorm lo hi)),
    ENNReal.toReal_mul,
    ENNReal.toReal_inv, ← measureReal_def, ← measureReal_def, gauss_support m s hs lo hi hd]
  rw [div_eq_inv_mul]

/-- The distribution function of scipy is that of the calibrated distribution. -/
theorem frozenCdf_eq (d : EmosDist) (hd : proper d) (x : ℝ) :
    frozenCdf d m s x = some (cdf (law d m s) x) := by
  unfold frozenCdf
  rw [if_pos hs]
  cases d with
  | norm => simp only [law, cdf_gaussian m s x hs]
  | truncnorm lo hi =>
    simp only
    rw [if_neg (not_not.2 ((shapeOk_iff m s hs lo hi).2 hd)), cdf_law_trunc m s hs lo hi hd]
    have hpos := mass_pos m s hs lo hi hd
    by_cases h1 : atOrAbove ((x - m) / s) (rescaleLimit hi m s)
    · rw [if_pos h1]
      cases hi with
      | none => exact absurd h1 id
      | some b =>
        have hb : b ≤ x := (scaled_le m s hs).1 h1
        have e : support (.truncnorm lo (some b)) ∩ Iic x = support (.truncnorm lo (some b)) := by
          refine inter_eq_left.2 ?_
          rintro y ⟨_, hy⟩
          exact (hy b rfl).trans hb
        rw [e, gauss_support m s hs lo _ hd, div_self hpos.ne']
    · rw [if_neg h1]
      by_cases h2 : atOrBelow ((x - m) / s) (rescaleLimit lo m s)
      · rw [if_pos h2]
        cases lo with
        | none => exact absurd h2 id
        | some a =>
          have ha : x ≤ a := (scaled_le m s hs).1 h2
          haveI := gauss_noAtoms m s hs
          have e : (gaussianReal m (Real.toNNReal (s ^ 2))).real
              (support (.truncnorm (some a) hi) ∩ Iic x) = 0 := by
            have hsub : support (.truncnorm (some a) hi) ∩ Iic x ⊆ {a} := by
              rintro y ⟨⟨hy, _⟩, hyx⟩
              exact le_antisymm ((mem_Iic.1 hyx).trans ha) (hy a rfl)
            have := measureReal_mono (μ := gaussianReal m (Real.toNNReal (s ^ 2))) hsub
            rw [measureReal_def _ {a}] at this
            simp only [measure_singleton, ENNReal.toReal_zero] at this
            exact le_antisymm this measureReal_nonneg
          rw [e, zero_div]
      · rw [if_neg h2]
        have e : support (.truncnorm lo hi) ∩ Iic x = {y | ∀ a ∈ lo, a ≤ y} ∩ Iic x := by
          ext y
          simp only [support, mem_inter_iff, mem_setOf_eq, mem_Iic, and_assoc]
          refine and_congr_right fun _ => ⟨fun h => h.2, fun h => ⟨fun b hb => ?_, h⟩⟩
          obtain rfl : hi = some b := hb
          exact h.trans (le_of_lt (not_le.1 fun hc => h1 ((scaled_le m s hs).2 hc)))
        rw [e, gauss_between m s hs lo x]
        intro a ha
        obtain rfl : lo = some a := ha
        exact le_of_lt (not_le.1 fun hc => h2 ((scaled_le m s hs).2 hc))

theorem real_Ioi (d : EmosDist) (hd : proper d) (x : ℝ) :
    (law d m s).real (Ioi x) = 1 - cdf (law d m s) x := by
  haveI := law_prob m s hs d hd
  have h := measureReal_compl (μ := law d m s) (s := Iic x) measurableSet_Iic
  rw [compl_Iic] at h
  rw [h, cdf_eq_real]; simp

/-- The survival function of scipy is that of the calibrated distribution. -/
theorem frozenSf_eq (d : EmosDist) (hd : proper d) (x : ℝ) :
    frozenSf d m s x = some ((law d m s).real (Ioi x)) := by
  have h := frozenCdf_eq m s hs d hd x
  rw [real_Ioi m s hs d hd]
  unfold frozenCdf at h
  unfold frozenSf
  rw [if_pos hs] at h ⊢
  cases d with
  | norm =>
    simp only [Option.some.injEq] at h ⊢
    rw [h]
  | truncnorm lo hi =>
    simp only at h ⊢
    have ho := not_not.2 ((shapeOk_iff m s hs lo hi).2 hd)
    rw [if_neg ho] at h ⊢
    by_cases h1 : atOrAbove ((x - m) / s) (rescaleLimit hi m s)
    · rw [if_pos h1] at h
      by_cases h2 : atOrBelow ((x - m) / s) (rescaleLimit lo m s)
      · exfalso
        cases lo with
        | none => exact h2
        | some a =>
          cases hi with
          | none => exact h1
          | some b => exact absurd (h1.trans h2) (not_le.2 ((scaled_lt m s hs).2 hd))
      · rw [if_neg h2, if_pos h1]
        rw [Option.some.injEq] at h ⊢
        rw [← h]; ring
    · rw [if_neg h1] at h
      by_cases h2 : atOrBelow ((x - m) / s) (rescaleLimit lo m s)
      · rw [if_pos h2] at h ⊢
        rw [Option.some.injEq] at h ⊢
        rw [← h]; ring
      · rw [if_neg h2] at h
        rw [if_neg h2, if_neg h1]
        rw [Option.some.injEq] at h ⊢
        rw [← h]

/-- The quantile of scipy: the value in the support whose probability not to be exceeded is
`q`. -/
theorem frozenPpf_eq (d : EmosDist) (hd : proper d) (q : ℝ) (h0 : 0 < q) (h1 : q < 1) :
    ∃ x, frozenPpf d m s q = some x ∧ x ∈ support d ∧ cdf (law d m s) x = q := by
  unfold frozenPpf
  rw [if_pos ⟨hs, h0, h1⟩]
  cases d with
  | norm =>
    refine ⟨_, rfl, mem_univ _, ?_⟩
    simp only [law]
    rw [cdf_gaussian m s _ hs, add_sub_cancel_right, mul_div_cancel_right₀ _ hs.ne', normCdf_ppf h0 h1]
  | truncnorm lo hi =>
    simp only
    rw [if_neg (not_not.2 ((shapeOk_iff m s hs lo hi).2 hd))]
    have hpos := mass_pos m s hs lo hi hd
    set L := cdfLower (rescaleLimit lo m s) with hL
    set U := cdfUpper (rescaleLimit hi m s) with hU
    have hL0 : 0 ≤ L := by
      rw [hL]; cases lo <;> simp [rescaleLimit, cdfLower, normCdf_nonneg]
    have hU1 : U ≤ 1 := by
      rw [hU]; cases hi <;> simp [rescaleLimit, cdfUpper, normCdf_le_one]
    have hqL : L < q * U + L * (1 - q) := by nlinarith
    have hqU : q * U + L * (1 - q) < U := by nlinarith
    set x := normPpf (q * U + L * (1 - q)) * s + m with hx
    have hz : (x - m) / s = normPpf (q * U + L * (1 - q)) := by
      rw [hx, add_sub_cancel_right, mul_div_cancel_right₀ _ hs.ne']
    have hF : normCdf ((x - m) / s) = q * U + L * (1 - q) := by
      rw [hz]; exact normCdf_ppf (hL0.trans_lt hqL) (hqU.trans_le hU1)
    have hlo : ∀ a ∈ lo, a < x := by
      intro a ha
      obtain rfl : lo = some a := ha
      have : normCdf ((a - m) / s) < normCdf ((x - m) / s) := by rw [hF]; exact hqL
      exact (scaled_lt m s hs).1 (normCdf_strictMono.lt_iff_lt.1 this)
    have hhi : ∀ b ∈ hi, x < b := by
      intro b hb
      obtain rfl : hi = some b := hb
      have : normCdf ((x - m) / s) < normCdf ((b - m) / s) := by rw [hF]; exact hqU
      exact (scaled_lt m s hs).1 (normCdf_strictMono.lt_iff_lt.1 this)
    refine ⟨x, rfl, ⟨fun a ha => (hlo a ha).le, fun b hb => (hhi b hb).le⟩, ?_⟩
    have h := frozenCdf_eq m s hs (.truncnorm lo hi) hd x
    unfold frozenCdf at h
    rw [if_pos hs] at h
    simp only at h
    rw [if_neg (not_not.2 ((shapeOk_iff m s hs lo hi).2 hd)), if_neg, if_neg] at h
    · rw [Option.some.injEq] at h
      rw [← h, hF, ← hL, ← hU]
      field_simp
      ring
    · cases lo with
      | none => exact id
      | some a => exact fun hc => absurd ((scaled_le m s hs).1 hc) (not_le.2 (hlo a rfl))
    · cases hi with
      | none => exact id
      | some b => exact fun hc => absurd ((scaled_le m s hs).1 hc) (not_le.2 (hhi b rfl))

end

end Improver
