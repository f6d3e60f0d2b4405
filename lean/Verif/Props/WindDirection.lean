import Verif.Model.Wind
import Mathlib.Analysis.SpecialFunctions.Trigonometric.Angle
import Mathlib.Tactic.LinearCombination

/-!
C108 - C110: the mean wind direction of an ensemble.
-/

namespace Improver

open Real

/-! ### Specification -/

/-- `(r, D)` is the resultant of the unit vectors of direction `ds` degrees: the means of the cosines and of the sines are `r cos D`, `r sin D`,
with `0 ≤ D < 360`. -/
def Spec.Resultant (ds : List ℝ) (r D : ℝ) : Prop :=
  0 ≤ D ∧ D < 360 ∧ 0 ≤ r
    ∧ (ds.map (fun d => cos (d * π / 180))).sum / ds.length = r * cos (D * π / 180)
    ∧ (ds.map (fun d => sin (d * π / 180))).sum / ds.length = r * sin (D * π / 180)

/-- Square of the length of the mean of the unit vectors. -/
noncomputable def Spec.strengthSq (ds : List ℝ) : ℝ :=
  ((ds.map (fun d => cos (d * π / 180))).sum / ds.length) ^ 2 + ((ds.map (fun d => sin (d * π / 180))).sum / ds.length) ^ 2

/-- The directions of the members at a point. -/
def Spec.directions (s : WdirSlice) (y x : ℕ) : List ℝ := s.members.map (fun m => m.2 y x)

/-! ### Conversion -/

theorem mod360_range (x : ℝ) : 0 ≤ mod360 x ∧ mod360 x < 360 := by
  have h1 := Int.floor_le (x / 360)
  have h2 := Int.lt_floor_add_one (x / 360)
  unfold mod360
  constructor <;> linarith

theorem mod360_add (x : ℝ) (k : ℤ) : mod360 (x + 360 * k) = mod360 x := by
  have h : (x + 360 * k) / 360 = x / 360 + k := by ring
  unfold mod360
  rw [h, Int.floor_add_intCast]
  push_cast
  ring

theorem mod360_eq_self {x : ℝ} (h0 : 0 ≤ x) (h1 : x < 360) : mod360 x = x := by
  have : ⌊x / 360⌋ = 0 := Int.floor_eq_zero_iff.mpr ⟨by positivity, by linarith⟩
  unfold mod360
  rw [this]
  simp

theorem mod360_congr {x y : ℝ} (k : ℤ) (h : x - y = 360 * k) : mod360 x = mod360 y := by
  have : x = y + 360 * k := by linarith
  rw [this, mod360_add]

theorem mod360_spec (x : ℝ) : ∃ k : ℤ, mod360 x = x + 360 * k := ⟨-⌊x / 360⌋, by unfold mod360; push_cast; ring⟩

theorem degToComplex_mod360 (x : ℝ) : degToComplex (mod360 x) = degToComplex x := by
  obtain ⟨k, hk⟩ := mod360_spec x
  have h : mod360 x * π / 180 = x * π / 180 + k * (2 * π) := by rw [hk]; ring
  unfold degToComplex
  rw [h, Real.cos_add_int_mul_two_pi, Real.sin_add_int_mul_two_pi]

theorem degToComplex_complexToDeg (z : ℂ) :
    z.re = ‖z‖ * cos (complexToDeg z * π / 180) ∧ z.im = ‖z‖ * sin (complexToDeg z * π / 180) := by
  have h := degToComplex_mod360 (z.arg * 180 / π)
  have hpi : (z.arg * 180 / π) * π / 180 = z.arg := by
    field_simp
  have hre := congrArg Complex.re h
  have him := congrArg Complex.im h
  simp only [degToComplex, hpi] at hre him
  unfold complexToDeg
  rw [hre, him, Complex.norm_mul_cos_arg, Complex.norm_mul_sin_arg]
  exact ⟨rfl, rfl⟩

theorem complexToDeg_unique {z : ℂ} {r d : ℝ} (hr : 0 < r) (h1 : z.re = r * cos (d * π / 180)) (h2 : z.im = r * sin (d * π / 180)) :
    complexToDeg z = mod360 d := by
  have hz : z = (r : ℂ) * (Complex.cos ((d * π / 180 : ℝ) : ℂ) + Complex.sin ((d * π / 180 : ℝ) : ℂ) * Complex.I) := by
    rw [← Complex.ofReal_cos, ← Complex.ofReal_sin]
    apply Complex.ext
    · simp only [Complex.re_ofReal_mul, Complex.add_re, Complex.mul_I_re, Complex.ofReal_re, Complex.ofReal_im, h1, neg_zero, add_zero]
    · simp only [Complex.im_ofReal_mul, Complex.add_im, Complex.mul_I_im, Complex.ofReal_re, Complex.ofReal_im, h2, zero_add]
  have ha : ((z.arg : ℝ) : Angle) = ((d * π / 180 : ℝ) : Angle) := by
    rw [hz]
    have := Complex.arg_mul_cos_add_sin_mul_I_coe_angle hr ((d * π / 180 : ℝ) : Angle)
    rw [Real.Angle.cos_coe, Real.Angle.sin_coe] at this
    rw [← Complex.ofReal_cos, ← Complex.ofReal_sin]
    exact this
  obtain ⟨k, hk⟩ := Real.Angle.angle_eq_iff_two_pi_dvd_sub.mp ha
  unfold complexToDeg
  apply mod360_congr k
  have : z.arg = d * π / 180 + 2 * π * k := by linarith
  rw [this]
  field_simp
  ring

/-! ### The mean -/

theorem sum_re (l : List ℂ) : l.sum.re = (l.map Complex.re).sum := by
  induction l with
  | nil => rfl
  | cons a l ih => simp [ih]

theorem sum_im (l : List ℂ) : l.sum.im = (l.map Complex.im).sum := by
  induction l with
  | nil => rfl
  | cons a l ih => simp [ih]

theorem memberMean_re (l : List ℂ) : (memberMean l).re = (l.map Complex.re).sum / l.length := by
  unfold memberMean
  rw [Complex.div_natCast_re, sum_re]

theorem memberMean_im (l : List ℂ) : (memberMean l).im = (l.map Complex.im).sum / l.length := by
  unfold memberMean
  rw [Complex.div_natCast_im, sum_im]

theorem wdirMeanComplex_re (s : WdirSlice) (y x : ℕ) :
    (wdirMeanComplex s y x).re = ((Spec.directions s y x).map (fun d => cos (d * π / 180))).sum / (Spec.directions s y x).length := by
  unfold wdirMeanComplex
  rw [memberMean_re]
  simp [Spec.directions, degToComplex, List.map_map, Function.comp_def]

theorem wdirMeanComplex_im (s : WdirSlice) (y x : ℕ) :
    (wdirMeanComplex s y x).im = ((Spec.directions s y x).map (fun d => sin (d * π / 180))).sum / (Spec.directions s y x).length := by
  unfold wdirMeanComplex
  rw [memberMean_im]
  simp [Spec.directions, degToComplex, List.map_map, Function.comp_def]

theorem rValue_norm (z : ℂ) : rValue z = ‖z‖ := by
  unfold rValue
  rw [Complex.norm_def, Complex.normSq_apply]
  congr 1
  ring

theorem lowR_iff (s : WdirSlice) (y x : ℕ) : lowR s y x ↔ Spec.strengthSq (Spec.directions s y x) < 1 / 10000 := by
  unfold lowR rValue Spec.strengthSq
  rw [wdirMeanComplex_re, wdirMeanComplex_im]
  rw [Real.sqrt_lt' (by norm_num)]
  norm_num

theorem resultant_of (s : WdirSlice) (y x : ℕ) :
    Spec.Resultant (Spec.directions s y x) (rValue (wdirMeanComplex s y x)) (complexToDeg (wdirMeanComplex s y x)) := by
  obtain ⟨h1, h2⟩ := degToComplex_complexToDeg (wdirMeanComplex s y x)
  obtain ⟨h3, h4⟩ := mod360_range ((wdirMeanComplex s y x).arg * 180 / π)
  refine ⟨h3, h4, Real.sqrt_nonneg _, ?_, ?_⟩
  · rw [← wdirMeanComplex_re, rValue_norm]; exact h1
  · rw [← wdirMeanComplex_im, rValue_norm]; exact h2

theorem resultant_strength {ds : List ℝ} {r D : ℝ} (h : Spec.Resultant ds r D) : Spec.strengthSq ds = r ^ 2 := by
  obtain ⟨_, _, _, h1, h2⟩ := h
  unfold Spec.strengthSq
  rw [h1, h2]
  have := Real.sin_sq_add_cos_sq (D * π / 180)
  linear_combination r ^ 2 * this

/-- The direction of a resultant of positive length is unique. -/
theorem resultant_unique {ds : List ℝ} {r D r' D' : ℝ} (h : Spec.Resultant ds r D) (h' : Spec.Resultant ds r' D') (hr : 0 < r) :
    r = r' ∧ D = D' := by
  have e : r ^ 2 = r' ^ 2 := by rw [← resultant_strength h, ← resultant_strength h']
  have hrr : r = r' := by
    exact (sq_eq_sq₀ hr.le h'.2.2.1).mp e
  subst hrr
  refine ⟨rfl, ?_⟩
  have z : complexToDeg ⟨r * cos (D * π / 180), r * sin (D * π / 180)⟩ = mod360 D := complexToDeg_unique hr rfl rfl
  have z' : complexToDeg ⟨r * cos (D * π / 180), r * sin (D * π / 180)⟩ = mod360 D' := by
    apply complexToDeg_unique hr
    · show r * cos _ = _; rw [← h.2.2.2.1, ← h'.2.2.2.1]
    · show r * sin _ = _; rw [← h.2.2.2.2, ← h'.2.2.2.2]
  rw [mod360_eq_self h.1 h.2.1] at z
  rw [mod360_eq_self h'.1 h'.2.1] at z'
  rw [← z, ← z']

/-- The value given by one slice: chosen field where the mean is unreliable, mean elsewhere. -/
theorem wdirOne_point {backup : Backup} {cells : Option ℕ} {ext : (ℕ → ℕ → ℂ) → ℂ × ℂ} {s : WdirSlice} {f : ℕ → ℕ → ℝ}
    (hf : wdirOne backup cells ext s = .ok f) {y x : ℕ} (hlow : ¬ lowR s y x) : f y x = complexToDeg (wdirMeanComplex s y x) := by
  unfold wdirOne at hf
  by_cases he : ∃ y < s.h, ∃ x < s.w, lowR s y x
  · rw [if_pos he] at hf
    cases backup with
    | neighbourhood =>
      cases cells with
      | none => exact nomatch hf
      | some r => cases hf; unfold wdirChoose; rw [if_neg hlow]
    | firstRealization =>
      cases hm : s.members.find? (fun m => m.1 == 0) with
      | none => simp only [hm] at hf; exact nomatch hf
      | some m => simp only [hm] at hf; cases hf; unfold wdirChoose; rw [if_neg hlow]
  · rw [if_neg he] at hf
    cases hf
    rfl

/-! ### C108 -/

/-- C108: where the mean of the unit vectors of the members has a length of at least 0.01, the result is the direction of that mean, whatever the
fallback, and it is the only direction in `[0, 360)` with this property. -/
theorem C108_vector_mean {backup : Backup} {cells : Option ℕ} {ext : (ℕ → ℕ → ℂ) → ℂ × ℂ} {s : WdirSlice} {f : ℕ → ℕ → ℝ}
    (hf : wdirOne backup cells ext s = .ok f) (y x : ℕ) (hs : 1 / 10000 ≤ Spec.strengthSq (Spec.directions s y x)) :
    (∃ r, 1 / 100 ≤ r ∧ Spec.Resultant (Spec.directions s y x) r (f y x))
      ∧ ∀ r D, Spec.Resultant (Spec.directions s y x) r D → D = f y x := by
  have hlow : ¬ lowR s y x := by rw [lowR_iff]; exact not_lt.mpr hs
  have hv := wdirOne_point hf hlow
  have hr : 1 / 100 ≤ rValue (wdirMeanComplex s y x) := not_lt.mp hlow
  have hR := resultant_of s y x
  rw [← hv] at hR
  refine ⟨⟨_, hr, hR⟩, fun r D h => ?_⟩
  exact (resultant_unique hR h (by linarith)).2.symm

/-- C108: when all members have the same direction, that direction is the result (within `[0, 360)`). -/
theorem C108_unanimous {backup : Backup} {cells : Option ℕ} {ext : (ℕ → ℕ → ℂ) → ℂ × ℂ} {s : WdirSlice} {f : ℕ → ℕ → ℝ}
    (hf : wdirOne backup cells ext s = .ok f) (y x : ℕ) (d : ℝ) (hd : 0 ≤ d ∧ d < 360) (hne : s.members ≠ [])
    (hall : ∀ m ∈ s.members, m.2 y x = d) : f y x = d := by
  have hn : (s.members.length : ℝ) ≠ 0 := by
    simpa using hne
  have hl : Spec.directions s y x = List.replicate s.members.length d := by
    unfold Spec.directions
    rw [List.eq_replicate_iff]
    refine ⟨by simp, ?_⟩
    intro b hb
    obtain ⟨m, hm, rfl⟩ := List.mem_map.mp hb
    exact hall m hm
  have hR : Spec.Resultant (Spec.directions s y x) 1 d := by
    refine ⟨hd.1, hd.2, by norm_num, ?_, ?_⟩
    · rw [hl]; simp [hn]
    · rw [hl]; simp [hn]
  have hs : 1 / 10000 ≤ Spec.strengthSq (Spec.directions s y x) := by rw [resultant_strength hR]; norm_num
  exact ((C108_vector_mean hf y x hs).2 1 d hR).symm

/-- C108: turning every member by the same angle turns the result by this angle (modulo 360), when neither uses a fallback. -/
theorem C108_rotation {backup : Backup} {cells cells' : Option ℕ} {ext ext' : (ℕ → ℕ → ℂ) → ℂ × ℂ} {s s' : WdirSlice} {f f' : ℕ → ℕ → ℝ}
    (hf : wdirOne backup cells ext s = .ok f) (hf' : wdirOne backup cells' ext' s' = .ok f') (y x : ℕ) (c : ℝ)
    (hs : 1 / 10000 ≤ Spec.strengthSq (Spec.directions s y x))
    (hrot : Spec.directions s' y x = (Spec.directions s y x).map (fun d => d + c)) :
    ∃ k : ℤ, f' y x = f y x + c + 360 * k := by
  obtain ⟨⟨r, hr, h0, h1, h2, h3, h4⟩, -⟩ := C108_vector_mean hf y x hs
  obtain ⟨k, hk⟩ := mod360_spec (f y x + c)
  have hcos : (((Spec.directions s y x).map (fun d => d + c)).map (fun d => cos (d * π / 180))).sum
      = cos (c * π / 180) * ((Spec.directions s y x).map (fun d => cos (d * π / 180))).sum
        - sin (c * π / 180) * ((Spec.directions s y x).map (fun d => sin (d * π / 180))).sum := by
    generalize Spec.directions s y x = l
    induction l with
    | nil => simp
    | cons a l ih =>
      have e : (a + c) * π / 180 = a * π / 180 + c * π / 180 := by ring
      simp only [List.map_cons, List.sum_cons]
      rw [ih, e, Real.cos_add]
      ring
  have hsin : (((Spec.directions s y x).map (fun d => d + c)).map (fun d => sin (d * π / 180))).sum
      = cos (c * π / 180) * ((Spec.directions s y x).map (fun d => sin (d * π / 180))).sum
        + sin (c * π / 180) * ((Spec.directions s y x).map (fun d => cos (d * π / 180))).sum := by
    generalize Spec.directions s y x = l
    induction l with
    | nil => simp
    | cons a l ih =>
      have e : (a + c) * π / 180 = a * π / 180 + c * π / 180 := by ring
      simp only [List.map_cons, List.sum_cons]
      rw [ih, e, Real.sin_add]
      ring
  have hang : mod360 (f y x + c) * π / 180 = (f y x * π / 180 + c * π / 180) + k * (2 * π) := by rw [hk]; ring
  have hR : Spec.Resultant (Spec.directions s' y x) r (mod360 (f y x + c)) := by
    obtain ⟨m1, m2⟩ := mod360_range (f y x + c)
    refine ⟨m1, m2, h2, ?_, ?_⟩
    · rw [hrot, hcos, hang, Real.cos_add_int_mul_two_pi, Real.cos_add, List.length_map, sub_div,
        mul_div_assoc (cos (c * π / 180)), mul_div_assoc (sin (c * π / 180)), h3, h4]
      ring
    · rw [hrot, hsin, hang, Real.sin_add_int_mul_two_pi, Real.sin_add, List.length_map, add_div,
        mul_div_assoc (cos (c * π / 180)), mul_div_assoc (sin (c * π / 180)), h3, h4]
      ring
  have hs' : 1 / 10000 ≤ Spec.strengthSq (Spec.directions s' y x) := by
    rw [resultant_strength hR]
    nlinarith
  refine ⟨k, ?_⟩
  rw [← (C108_vector_mean hf' y x hs').2 _ _ hR, hk]

/-- C108: the order of the members does not matter where the mean is used. -/
theorem C108_order {backup : Backup} {cells cells' : Option ℕ} {ext ext' : (ℕ → ℕ → ℂ) → ℂ × ℂ} {s s' : WdirSlice} {f f' : ℕ → ℕ → ℝ}
    (hf : wdirOne backup cells ext s = .ok f) (hf' : wdirOne backup cells' ext' s' = .ok f') (y x : ℕ)
    (hs : 1 / 10000 ≤ Spec.strengthSq (Spec.directions s y x)) (hp : (Spec.directions s' y x).Perm (Spec.directions s y x)) :
    f' y x = f y x := by
  obtain ⟨⟨r, hr, h0, h1, h2, h3, h4⟩, -⟩ := C108_vector_mean hf y x hs
  have hR : Spec.Resultant (Spec.directions s' y x) r (f y x) := by
    refine ⟨h0, h1, h2, ?_, ?_⟩
    · rw [(hp.map _).sum_eq, hp.length_eq]; exact h3
    · rw [(hp.map _).sum_eq, hp.length_eq]; exact h4
  have hs' : 1 / 10000 ≤ Spec.strengthSq (Spec.directions s' y x) := by
    rw [resultant_strength hR]
    nlinarith
  exact ((C108_vector_mean hf' y x hs').2 _ _ hR).symm

theorem memberMean_norm_le (l : List ℂ) (h : ∀ z ∈ l, ‖z‖ ≤ 1) : ‖memberMean l‖ ≤ 1 := by
  have hs : ‖l.sum‖ ≤ l.length := by
    induction l with
    | nil => simp
    | cons a l ih =>
      have h1 := h a (by simp)
      have h2 := ih (fun z hz => h z (by simp [hz]))
      simp only [List.sum_cons, List.length_cons]
      push_cast
      calc ‖a + l.sum‖ ≤ ‖a‖ + ‖l.sum‖ := norm_add_le _ _
        _ ≤ l.length + 1 := by linarith
  unfold memberMean
  rw [norm_div, Complex.norm_natCast]
  by_cases hl : l.length = 0
  · simp [hl]
  · rw [div_le_one (by positivity)]
    exact hs

theorem degToComplex_norm (d : ℝ) : ‖degToComplex d‖ = 1 := by
  rw [← rValue_norm]
  unfold rValue degToComplex
  simp

/-- C108: the reliability measure is between 0 and 1. -/
theorem C108_strength_range (s : WdirSlice) (y x : ℕ) :
    0 ≤ Spec.strengthSq (Spec.directions s y x) ∧ Spec.strengthSq (Spec.directions s y x) ≤ 1 := by
  rw [resultant_strength (resultant_of s y x)]
  have h : rValue (wdirMeanComplex s y x) ≤ 1 := by
    rw [rValue_norm]
    apply memberMean_norm_le
    intro z hz
    obtain ⟨m, -, rfl⟩ := List.mem_map.mp hz
    rw [degToComplex_norm]
  have h0 : 0 ≤ rValue (wdirMeanComplex s y x) := Real.sqrt_nonneg _
  constructor <;> nlinarith

/-- C108, finding: `complex_to_deg` says its results are in `[0, 360)`, but the remainder is taken in 32 bits: an angle just below zero, which is
what northerly members give, becomes exactly 360. -/
theorem C108_f32_range_refuted : ∃ angle : ℝ, -180 < angle ∧ angle ≤ 180 ∧ f32Round360 (mod360 angle) = 360 := by
  refine ⟨-(1 / 10 ^ 6), by norm_num, by norm_num, ?_⟩
  have h : mod360 (-(1 / 10 ^ 6)) = 360 - 1 / 10 ^ 6 := by
    have : ⌊(-(1 / 10 ^ 6) : ℝ) / 360⌋ = -1 := by
      rw [Int.floor_eq_iff]
      constructor <;> norm_num
    unfold mod360
    rw [this]
    norm_num
  rw [h]
  unfold f32Round360
  have : ⌊(360 - 1 / 10 ^ 6 : ℝ) * 2 ^ 15 + 1 / 2⌋ = 360 * 2 ^ 15 := by
    rw [Int.floor_eq_iff]
    constructor <;> norm_num
  rw [this]
  norm_num

/-! ### C109: unreliable means -/

/-- C109: with the first realization as fallback, an unreliable point takes the direction of realization 0. -/
theorem C109_first_realization {cells : Option ℕ} {ext : (ℕ → ℕ → ℂ) → ℂ × ℂ} {s : WdirSlice} {f : ℕ → ℕ → ℝ}
    (hf : wdirOne .firstRealization cells ext s = .ok f) (y x : ℕ) (hy : y < s.h) (hx : x < s.w)
    (hs : Spec.strengthSq (Spec.directions s y x) < 1 / 10000) (hnd : (s.members.map Prod.fst).Nodup) :
    ∀ m ∈ s.members, m.1 = 0 → f y x = m.2 y x := by
  have hlow : lowR s y x := (lowR_iff s y x).mpr hs
  intro m hm h0
  unfold wdirOne at hf
  rw [if_pos ⟨y, hy, x, hx, hlow⟩] at hf
  cases hfind : s.members.find? (fun m => m.1 == 0) with
  | none => simp only [hfind] at hf; exact nomatch hf
  | some m' =>
    simp only [hfind] at hf
    cases hf
    have hm' := List.mem_of_find?_eq_some hfind
    have h0' : m'.1 = 0 := by simpa using List.find?_some hfind
    have : m' = m := List.inj_on_of_nodup_map hnd hm' hm (by rw [h0, h0'])
    unfold wdirChoose
    rw [if_pos hlow, this]

/-- C109: an ensemble without realization 0 is accepted by that fallback exactly when no point needs it. -/
theorem C109_needs_realization_zero (cells : Option ℕ) (ext : (ℕ → ℕ → ℂ) → ℂ × ℂ) (s : WdirSlice) (h0 : ∀ m ∈ s.members, m.1 ≠ 0) :
    (∃ f, wdirOne .firstRealization cells ext s = .ok f)
      ↔ ∀ y < s.h, ∀ x < s.w, 1 / 10000 ≤ Spec.strengthSq (Spec.directions s y x) := by
  have hfind : s.members.find? (fun m => m.1 == 0) = none := by
    rw [List.find?_eq_none]
    intro m hm
    simpa using h0 m hm
  unfold wdirOne
  by_cases he : ∃ y < s.h, ∃ x < s.w, lowR s y x
  · rw [if_pos he]
    simp only [hfind]
    constructor
    · rintro ⟨f, hf⟩; exact nomatch hf
    · intro h
      obtain ⟨y, hy, x, hx, hl⟩ := he
      exact absurd ((lowR_iff s y x).mp hl) (not_lt.mpr (h y hy x hx))
  · rw [if_neg he]
    refine ⟨fun _ y hy x hx => ?_, fun _ => ⟨_, rfl⟩⟩
    by_contra hc
    exact he ⟨y, hy, x, hx, (lowR_iff s y x).mpr (not_le.mp hc)⟩

/-! The clip of the complex neighbourhood means changes nothing. -/

theorem complexLexLe_refl (a : ℂ) : complexLexLe a a := Or.inr ⟨rfl, le_refl _⟩

theorem complexLexLe_sum {ι : Type} (t : Finset ι) (f g : ι → ℂ) (h : ∀ i ∈ t, complexLexLe (f i) (g i)) : complexLexLe (∑ i ∈ t, f i) (∑ i ∈ t, g i) := by
  classical
  induction t using Finset.induction_on with
  | empty => simp [complexLexLe]
  | insert a t ha ih =>
    rw [Finset.sum_insert ha, Finset.sum_insert ha]
    have h1 := h a (by simp)
    have h2 := ih (fun i hi => h i (by simp [hi]))
    unfold complexLexLe at *
    simp only [Complex.add_re, Complex.add_im]
    rcases h1 with h1 | ⟨h1, h1'⟩ <;> rcases h2 with h2 | ⟨h2, h2'⟩
    · left; linarith
    · left; linarith
    · left; linarith
    · right; exact ⟨by linarith, by linarith⟩

/-- Number of cells of the neighbourhood that are in the domain. -/
def Spec.cellCount (h w r y x : ℕ) : ℕ := (min h (y + r + 1) - (y - r)) * (min w (x + r + 1) - (x - r))

theorem boxSumC_one (h w r y x : ℕ) : boxSumC h w r (fun _ _ => 1) y x = (Spec.cellCount h w r y x : ℂ) := by
  simp [boxSumC, Spec.cellCount]

theorem cellCount_pos {h w y x : ℕ} (r : ℕ) (hy : y < h) (hx : x < w) : 0 < Spec.cellCount h w r y x := by
  unfold Spec.cellCount
  apply Nat.mul_pos <;> omega

theorem boxSumC_const (h w r y x : ℕ) (c : ℂ) : boxSumC h w r (fun _ _ => c) y x = (Spec.cellCount h w r y x : ℂ) * c := by
  simp [boxSumC, Spec.cellCount]
  ring

theorem boxMeanC_bounds {h w y x : ℕ} (r : ℕ) (hy : y < h) (hx : x < w) (f : ℕ → ℕ → ℂ) (lo hi : ℂ)
    (hb : ∀ i < h, ∀ j < w, complexLexLe lo (f i j) ∧ complexLexLe (f i j) hi) :
    complexLexLe lo (boxMeanC h w r f y x) ∧ complexLexLe (boxMeanC h w r f y x) hi := by
  have hc : (0 : ℝ) < Spec.cellCount h w r y x := by exact_mod_cast cellCount_pos r hy hx
  have key : ∀ g g' : ℕ → ℕ → ℂ, (∀ i < h, ∀ j < w, complexLexLe (g i j) (g' i j)) → complexLexLe (boxSumC h w r g y x) (boxSumC h w r g' y x) := by
    intro g g' hg
    unfold boxSumC
    apply complexLexLe_sum
    intro i hi
    apply complexLexLe_sum
    intro j hj
    simp only [Finset.mem_Ico] at hi hj
    exact hg i (by omega) j (by omega)
  have e := boxSumC_one h w r y x
  unfold boxMeanC
  rw [e]
  have k1 := key (fun _ _ => lo) f (fun i hi j hj => (hb i hi j hj).1)
  have k2 := key f (fun _ _ => hi) (fun i hi j hj => (hb i hi j hj).2)
  rw [boxSumC_const] at k1 k2
  unfold complexLexLe at *
  rw [Complex.div_natCast_re, Complex.div_natCast_im]
  have q1 : ((Spec.cellCount h w r y x : ℂ) * lo).re = Spec.cellCount h w r y x * lo.re := by simp
  have q2 : ((Spec.cellCount h w r y x : ℂ) * lo).im = Spec.cellCount h w r y x * lo.im := by simp
  have q3 : ((Spec.cellCount h w r y x : ℂ) * hi).re = Spec.cellCount h w r y x * hi.re := by simp
  have q4 : ((Spec.cellCount h w r y x : ℂ) * hi).im = Spec.cellCount h w r y x * hi.im := by simp
  rw [q1, q2] at k1
  rw [q3, q4] at k2
  constructor
  · rcases k1 with k | ⟨k, k'⟩
    · left; rw [lt_div_iff₀ hc]; linarith
    · right
      refine ⟨?_, ?_⟩
      · rw [eq_div_iff hc.ne']; linarith
      · rw [le_div_iff₀ hc]; linarith
  · rcases k2 with k | ⟨k, k'⟩
    · left; rw [div_lt_iff₀ hc]; linarith
    · right
      refine ⟨?_, ?_⟩
      · rw [div_eq_iff hc.ne']; linarith
      · rw [div_le_iff₀ hc]; linarith

theorem clipC_id {lo hi z : ℂ} (h1 : complexLexLe lo z) (h2 : complexLexLe z hi) : clipC lo hi z = z := by
  unfold clipC
  simp [h1, h2]

/-- Mean over the cells of the square neighbourhood that are in the domain. -/
noncomputable def Spec.complexSquareMean (h w r : ℕ) (g : ℕ → ℕ → ℝ) (y x : ℕ) : ℝ :=
  (∑ i ∈ Finset.Ico (y - r) (min h (y + r + 1)), ∑ j ∈ Finset.Ico (x - r) (min w (x + r + 1)), g i j) / Spec.cellCount h w r y x

theorem boxMeanC_re (h w r : ℕ) (f : ℕ → ℕ → ℂ) (y x : ℕ) : (boxMeanC h w r f y x).re = Spec.complexSquareMean h w r (fun i j => (f i j).re) y x := by
  unfold boxMeanC Spec.complexSquareMean
  rw [boxSumC_one, Complex.div_natCast_re]
  simp [boxSumC, Complex.re_sum]

theorem boxMeanC_im (h w r : ℕ) (f : ℕ → ℕ → ℂ) (y x : ℕ) : (boxMeanC h w r f y x).im = Spec.complexSquareMean h w r (fun i j => (f i j).im) y x := by
  unfold boxMeanC Spec.complexSquareMean
  rw [boxSumC_one, Complex.div_natCast_im]
  simp [boxSumC, Complex.im_sum]

/-- C109: with the neighbourhood as fallback, an unreliable point takes the direction of the mean over the members of the mean unit vectors over the
square of cells in the domain; the clip of complex numbers to the extremes of the field has no effect. -/
theorem C109_neighbourhood {r : ℕ} {ext : (ℕ → ℕ → ℂ) → ℂ × ℂ} {s : WdirSlice} {f : ℕ → ℕ → ℝ}
    (hf : wdirOne .neighbourhood (some r) ext s = .ok f) (y x : ℕ) (hy : y < s.h) (hx : x < s.w)
    (hs : Spec.strengthSq (Spec.directions s y x) < 1 / 10000)
    (hext : ∀ g : ℕ → ℕ → ℂ, ∀ i < s.h, ∀ j < s.w, complexLexLe (ext g).1 (g i j) ∧ complexLexLe (g i j) (ext g).2) :
    0 ≤ f y x ∧ f y x < 360 ∧ ∃ ρ, 0 ≤ ρ
      ∧ (s.members.map (fun m => Spec.complexSquareMean s.h s.w r (fun i j => cos (m.2 i j * π / 180)) y x)).sum / s.members.length
          = ρ * cos (f y x * π / 180)
      ∧ (s.members.map (fun m => Spec.complexSquareMean s.h s.w r (fun i j => sin (m.2 i j * π / 180)) y x)).sum / s.members.length
          = ρ * sin (f y x * π / 180) := by
  have hlow : lowR s y x := (lowR_iff s y x).mpr hs
  unfold wdirOne at hf
  rw [if_pos ⟨y, hy, x, hx, hlow⟩] at hf
  cases hf
  unfold wdirChoose
  rw [if_pos hlow]
  unfold wdirSmoothed
  have hmap : s.members.map (fun m =>
      nbhoodC s.h s.w r (ext (fun i j => degToComplex (m.2 i j))).1 (ext (fun i j => degToComplex (m.2 i j))).2 (fun i j => degToComplex (m.2 i j)) y x)
      = s.members.map (fun m => boxMeanC s.h s.w r (fun i j => degToComplex (m.2 i j)) y x) := by
    apply List.map_congr_left
    intro m _
    obtain ⟨b1, b2⟩ := boxMeanC_bounds r hy hx (fun i j => degToComplex (m.2 i j)) _ _ (hext (fun i j => degToComplex (m.2 i j)))
    unfold nbhoodC
    exact clipC_id b1 b2
  rw [hmap]
  set z := memberMean (s.members.map (fun m => boxMeanC s.h s.w r (fun i j => degToComplex (m.2 i j)) y x)) with hz
  obtain ⟨m1, m2⟩ := mod360_range (z.arg * 180 / π)
  obtain ⟨d1, d2⟩ := degToComplex_complexToDeg z
  refine ⟨m1, m2, ‖z‖, norm_nonneg _, ?_, ?_⟩
  · rw [← d1, hz, memberMean_re]
    simp only [List.map_map, List.length_map, Function.comp_def, boxMeanC_re, degToComplex]
  · rw [← d2, hz, memberMean_im]
    simp only [List.map_map, List.length_map, Function.comp_def, boxMeanC_im, degToComplex]

/-- C109: on a grid that neighbourhood processing refuses, the default fallback succeeds exactly when no point needs it, so that the same job can
fail on one day and not on another. -/
theorem C109_refused_grid (ext : (ℕ → ℕ → ℂ) → ℂ × ℂ) (s : WdirSlice) :
    (∃ f, wdirOne .neighbourhood none ext s = .ok f)
      ↔ ∀ y < s.h, ∀ x < s.w, 1 / 10000 ≤ Spec.strengthSq (Spec.directions s y x) := by
  unfold wdirOne
  by_cases he : ∃ y < s.h, ∃ x < s.w, lowR s y x
  · rw [if_pos he]
    constructor
    · rintro ⟨f, hf⟩; exact nomatch hf
    · intro h
      obtain ⟨y, hy, x, hx, hl⟩ := he
      exact absurd ((lowR_iff s y x).mp hl) (not_lt.mpr (h y hy x hx))
  · rw [if_neg he]
    refine ⟨fun _ y hy x hx => ?_, fun _ => ⟨_, rfl⟩⟩
    by_contra hc
    exact he ⟨y, hy, x, hx, (lowR_iff s y x).mpr (not_le.mp hc)⟩

/-- C109: only the two documented fallbacks are accepted. -/
theorem C109_backup_names (name : String) :
    (∃ b, wdirInit name = .ok b) ↔ (name = "first_realization" ∨ name = "neighbourhood") := by
  unfold wdirInit
  by_cases h1 : name = "first_realization"
  · simp [h1]
  · by_cases h2 : name = "neighbourhood"
    · simp [h2]
    · simp [h1, h2]

/-- Two members, from north and from south: the mean is unreliable, so the hypotheses of C109 are met. -/
theorem C109_example : ∃ s : WdirSlice, s.h = 2 ∧ s.w = 2 ∧ s.members.length = 2 ∧ (s.members.map Prod.fst).Nodup
    ∧ Spec.strengthSq (Spec.directions s 0 0) < 1 / 10000 ∧ 1 / 10000 ≤ Spec.strengthSq (Spec.directions s 1 1) := by
  refine ⟨⟨0, 2, 2, [(0, fun _ _ => 0), (1, fun y _ => if y = 0 then 180 else 0)]⟩, rfl, rfl, rfl, by decide, ?_, ?_⟩
  · simp [Spec.strengthSq, Spec.directions]
  · simp [Spec.strengthSq, Spec.directions]
    norm_num

/-! ### C110: the object as it is used again -/

/-- The results of the slices, in order, all computed without error. -/
def Spec.EachSlice (backup : Backup) (cells : Option ℕ) (ext : (ℕ → ℕ → ℂ) → ℂ × ℂ) (slices : List WdirSlice) (out : List (ℤ × (ℕ → ℕ → ℝ))) : Prop :=
  List.Forall₂ (fun s o => o.1 = s.key ∧ wdirOne backup cells ext s = .ok o.2) slices out

theorem wdirLoop_ok (backup : Backup) (cells : Option ℕ) (ext : (ℕ → ℕ → ℂ) → ℂ × ℂ) (slices : List WdirSlice) :
    ∀ (kept kept' : List (ℤ × (ℕ → ℕ → ℝ))), wdirLoop backup cells ext slices kept = (none, kept')
      ↔ ∃ out, kept' = kept ++ out ∧ Spec.EachSlice backup cells ext slices out := by
  induction slices with
  | nil =>
    intro kept kept'
    simp only [wdirLoop, Spec.EachSlice, List.forall₂_nil_left_iff]
    constructor
    · intro h; cases h; exact ⟨[], by simp, rfl⟩
    · rintro ⟨out, h, rfl⟩; rw [h]; simp
  | cons s rest ih =>
    intro kept kept'
    unfold wdirLoop
    cases hs : wdirOne backup cells ext s with
    | error e =>
      constructor
      · intro h; exact nomatch h
      · rintro ⟨out, _, h⟩
        cases h with
        | cons h _ => rw [hs] at h; exact nomatch h.2
    | ok f =>
      simp only
      rw [ih]
      constructor
      · rintro ⟨out, h1, h2⟩
        exact ⟨(s.key, f) :: out, by rw [h1]; simp, List.Forall₂.cons ⟨rfl, hs⟩ h2⟩
      · rintro ⟨out, h1, h2⟩
        cases h2 with
        | @cons a b l1 l2 h h' =>
          refine ⟨l2, ?_, h'⟩
          rw [hs] at h
          have hb : b = (s.key, f) := Prod.ext h.1 (Except.ok.inj h.2).symm
          rw [h1, hb]; simp

/-- C110: a new plugin returns, for every slice of the input and nothing else, its mean directions, in the order of the leading coordinate. -/
theorem C110_fresh {backup : Backup} {cells : Option ℕ} {ext : (ℕ → ℕ → ℂ) → ℂ × ℂ} {timeDim : Bool} {slices : List WdirSlice}
    {out kept : List (ℤ × (ℕ → ℕ → ℝ))} (h : wdirProcess backup cells ext [] timeDim slices = (.ok out, kept)) :
    ∃ each, Spec.EachSlice backup cells ext slices each ∧ out.Perm each ∧ (out.map Prod.fst).Pairwise (· < ·) := by
  unfold wdirProcess at h
  rcases hl : wdirLoop backup cells ext slices [] with ⟨e, kept'⟩
  rw [hl] at h
  cases e with
  | some e => exact nomatch h
  | none =>
    obtain ⟨each, hk, hE⟩ := (wdirLoop_ok backup cells ext slices [] kept').mp hl
    simp only [List.nil_append] at hk
    subst hk
    simp only [mergeSlices] at h
    by_cases hn : (kept'.map Prod.fst).Nodup
    · rw [if_pos hn] at h
      simp only at h
      split at h
      · exact nomatch h
      · cases h
        refine ⟨kept, hE, List.perm_insertionSort _ _, ?_⟩
        have hp := List.perm_insertionSort (fun a b : ℤ × (ℕ → ℕ → ℝ) => a.1 ≤ b.1) kept
        have hnd : ((kept.insertionSort (fun a b => a.1 ≤ b.1)).map Prod.fst).Nodup := (hp.map _).nodup_iff.mpr hn
        haveI : Std.Total (fun a b : ℤ × (ℕ → ℕ → ℝ) => a.1 ≤ b.1) := ⟨fun a b => le_total a.1 b.1⟩
        haveI : IsTrans (ℤ × (ℕ → ℕ → ℝ)) (fun a b => a.1 ≤ b.1) := ⟨fun a b c h1 h2 => le_trans h1 h2⟩
        have hsort := List.pairwise_insertionSort (fun a b : ℤ × (ℕ → ℕ → ℝ) => a.1 ≤ b.1) kept
        rw [List.pairwise_map]
        have hnd' := hnd
        unfold List.Nodup at hnd'
        rw [List.pairwise_map] at hnd'
        exact (hsort.and hnd').imp (fun h => lt_of_le_of_ne h.1 h.2)
    · rw [if_neg hn] at h
      exact nomatch h

/-- C110: a new plugin succeeds on slices of different times that each succeed, when the leading coordinate is a dimension or there is one slice. -/
theorem C110_fresh_succeeds {backup : Backup} {cells : Option ℕ} {ext : (ℕ → ℕ → ℂ) → ℂ × ℂ} {timeDim : Bool} {slices : List WdirSlice}
    {each : List (ℤ × (ℕ → ℕ → ℝ))} (hE : Spec.EachSlice backup cells ext slices each) (hk : (slices.map WdirSlice.key).Nodup)
    (hd : timeDim = true ∨ slices.length = 1) : ∃ out, wdirProcess backup cells ext [] timeDim slices = (.ok out, each) := by
  have hl := (wdirLoop_ok backup cells ext slices [] each).mpr ⟨each, by simp, hE⟩
  have hkeys : each.map Prod.fst = slices.map WdirSlice.key := by
    clear hl hk hd
    induction hE with
    | nil => rfl
    | cons h _ ih => simp [h.1, ih]
  have hlen : each.length = slices.length := (List.Forall₂.length_eq hE).symm
  unfold wdirProcess
  rw [hl]
  simp only [mergeSlices]
  rw [if_pos (by rw [hkeys]; exact hk)]
  simp only
  refine ⟨each.insertionSort (fun a b => a.1 ≤ b.1), ?_⟩
  rw [if_neg]
  simp only [Bool.and_eq_true, Bool.not_eq_true', decide_eq_true_eq, not_and, not_lt, List.length_insertionSort]
  intro ht
  rcases hd with h | h
  · rw [h] at ht; exact nomatch ht
  · omega

/-- One member at one point: always reliable. -/
def Spec.oneMember (key : ℤ) (d : ℝ) : WdirSlice := ⟨key, 1, 1, [(0, fun _ _ => d)]⟩

theorem oneMember_reliable (key : ℤ) (d : ℝ) (y x : ℕ) : 1 / 10000 ≤ Spec.strengthSq (Spec.directions (Spec.oneMember key d) y x) := by
  unfold Spec.strengthSq Spec.directions Spec.oneMember
  simp
  norm_num

theorem oneMember_ok (backup : Backup) (cells : Option ℕ) (ext : (ℕ → ℕ → ℂ) → ℂ × ℂ) (key : ℤ) (d : ℝ) :
    wdirOne backup cells ext (Spec.oneMember key d) = .ok (fun y x => complexToDeg (wdirMeanComplex (Spec.oneMember key d) y x)) := by
  unfold wdirOne
  rw [if_neg]
  rintro ⟨y, _, x, _, hl⟩
  exact absurd ((lowR_iff _ y x).mp hl) (not_lt.mpr (oneMember_reliable key d y x))

theorem oneMember_key (key : ℤ) (d : ℝ) : (Spec.oneMember key d).key = key := rfl

/-- C110, finding: the list of results is never emptied, so a plugin that is used again fails on data that a new plugin accepts: the same cube a
second time is a duplicate, and a cube of another time adds a dimension. -/
theorem C110_reuse_refuted (backup : Backup) (cells : Option ℕ) (ext : (ℕ → ℕ → ℂ) → ℂ × ℂ) (d : ℝ) :
    (∃ out kept, wdirProcess backup cells ext [] false [Spec.oneMember 0 d] = (.ok out, kept)
      ∧ (wdirProcess backup cells ext kept false [Spec.oneMember 0 d]).1 = .error .runtimeError
      ∧ (wdirProcess backup cells ext kept false [Spec.oneMember 1 d]).1 = .error .coordinateNotFound) := by
  simp [wdirProcess, wdirLoop, oneMember_ok, mergeSlices, oneMember_key, List.insertionSort, List.orderedInsert]

/-- C110, finding: with a time dimension the second call succeeds and returns the slices of the first call as well. -/
theorem C110_stale_refuted (backup : Backup) (cells : Option ℕ) (ext : (ℕ → ℕ → ℂ) → ℂ × ℂ) (d : ℝ) :
    ∃ out kept out2 kept2, wdirProcess backup cells ext [] true [Spec.oneMember 0 d, Spec.oneMember 1 d] = (.ok out, kept)
      ∧ wdirProcess backup cells ext kept true [Spec.oneMember 2 d, Spec.oneMember 3 d] = (.ok out2, kept2)
      ∧ out2.map Prod.fst = [0, 1, 2, 3] := by
  simp [wdirProcess, wdirLoop, oneMember_ok, mergeSlices, oneMember_key, List.insertionSort, List.orderedInsert]

end Improver
