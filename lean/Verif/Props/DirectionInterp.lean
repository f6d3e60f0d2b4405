import Verif.Model.DirectionInterp
import Verif.Props.WindDirection
import Verif.Props.TemporalInterp

/-!
C279: interpolation of directions in time.  C280: the command `temporal-interpolate`.
-/

namespace Improver

open Real

/-! ### Specification -/

/-- `(r, D)` is the weighted mean, with weights `1 - w` and `w`, of the unit vectors of directions `d0` and `d1` degrees. -/
def Spec.WeightedDirection (d0 d1 w r D : ℝ) : Prop :=
  0 ≤ D ∧ D < 360 ∧ 0 ≤ r ∧
    (1 - w) * cos (d0 * π / 180) + w * cos (d1 * π / 180) = r * cos (D * π / 180) ∧
    (1 - w) * sin (d0 * π / 180) + w * sin (d1 * π / 180) = r * sin (D * π / 180)

/-- `D` is the direction `d` degrees written between 0 and 360. -/
def Spec.SameDirection (d D : ℝ) : Prop := 0 ≤ D ∧ D < 360 ∧ ∃ k : ℤ, D = d + 360 * k

/-- The elapsed fraction of the interval from `t0` to `t1` at time `t`. -/
noncomputable def Spec.elapsed (t0 t1 t : ℤ) : ℝ := ((t : ℝ) - t0) / ((t1 : ℝ) - t0)

/-! ### Geometry -/

theorem sameDirection_mod360 (d : ℝ) : Spec.SameDirection d (mod360 d) :=
  ⟨(mod360_range d).1, (mod360_range d).2, mod360_spec d⟩

/-- The turn of the weighted mean of the unit vectors at angles `0` and `δ`. -/
theorem turn_exists (δ : ℝ) (h0 : 0 ≤ δ) (hp : δ < π) (w : ℝ) (w0 : 0 ≤ w) (w1 : w ≤ 1) :
    ∃ ε r, 0 ≤ ε ∧ ε ≤ δ ∧ 0 < r ∧ (1 - w) + w * cos δ = r * cos ε ∧ w * sin δ = r * sin ε := by
  have hs : 0 ≤ sin δ := sin_nonneg_of_nonneg_of_le_pi h0 hp.le
  have hc : -1 < cos δ := by
    rw [← cos_pi]
    exact Real.strictAntiOn_cos ⟨h0, hp.le⟩ ⟨pi_pos.le, le_refl _⟩ hp
  have hsq := sin_sq_add_cos_sq δ
  let u : ℂ := ⟨(1 - w) + w * cos δ, w * sin δ⟩
  have hu : u ≠ 0 := by
    intro h
    have h1 : (1 - w) + w * cos δ = 0 := congrArg Complex.re h
    have h2 : w * sin δ = 0 := congrArg Complex.im h
    rcases mul_eq_zero.1 h2 with h3 | h3
    · rw [h3] at h1; norm_num at h1
    · have : cos δ = 1 := by
        have : (cos δ - 1) * (cos δ + 1) = 0 := by rw [h3] at hsq; linarith [hsq, sq (cos δ)]
        rcases mul_eq_zero.1 this with h | h
        · linarith
        · linarith
      rw [this] at h1; linarith
  have hr : 0 < ‖u‖ := norm_pos_iff.2 hu
  have hre : (1 - w) + w * cos δ = ‖u‖ * cos u.arg := by
    have := Complex.norm_mul_cos_arg u
    exact this.symm
  have him : w * sin δ = ‖u‖ * sin u.arg := (Complex.norm_mul_sin_arg u).symm
  have ha0 : 0 ≤ u.arg := Complex.arg_nonneg_iff.2 (mul_nonneg w0 hs)
  have hapi : u.arg ≤ π := Complex.arg_le_pi u
  refine ⟨u.arg, ‖u‖, ha0, ?_, hr, hre, him⟩
  by_contra hlt
  push Not at hlt
  have hsin : ‖u‖ * sin (u.arg - δ) = -((1 - w) * sin δ) := by
    rw [sin_sub]
    have : ‖u‖ * (sin u.arg * cos δ - cos u.arg * sin δ) = (‖u‖ * sin u.arg) * cos δ - (‖u‖ * cos u.arg) * sin δ := by ring
    rw [this, ← hre, ← him]; ring
  have hle : ‖u‖ * sin (u.arg - δ) ≤ 0 := by
    rw [hsin]; have := mul_nonneg (sub_nonneg.2 w1) hs; linarith
  have hsin0 : sin (u.arg - δ) ≤ 0 := by
    by_contra h; push Not at h
    have := mul_pos hr h; linarith
  rcases lt_or_eq_of_le (show u.arg - δ ≤ π by linarith) with h | h
  · exact absurd (sin_pos_of_pos_of_lt_pi (by linarith) h) (not_lt.2 hsin0)
  · have hδ : δ = 0 := by linarith
    have harg : u.arg = π := by linarith
    rw [hδ, harg, cos_zero, cos_pi] at hre
    linarith

/-- A larger weight of the second direction turns further. -/
theorem turn_mono (δ : ℝ) (h0 : 0 ≤ δ) (hp : δ < π) (w w' : ℝ) (hw : w ≤ w') (ε r ε' r' : ℝ) (e0 : 0 ≤ ε) (e1 : ε ≤ δ)
    (e0' : 0 ≤ ε') (e1' : ε' ≤ δ) (hr : 0 < r) (hr' : 0 < r') (h1 : (1 - w) + w * cos δ = r * cos ε) (h2 : w * sin δ = r * sin ε)
    (h1' : (1 - w') + w' * cos δ = r' * cos ε') (h2' : w' * sin δ = r' * sin ε') : ε ≤ ε' := by
  by_contra hlt
  push Not at hlt
  have hs : 0 ≤ sin δ := sin_nonneg_of_nonneg_of_le_pi h0 hp.le
  have hpos : 0 < sin (ε - ε') := sin_pos_of_pos_of_lt_pi (by linarith) (by linarith)
  have : r * r' * sin (ε - ε') = (w - w') * sin δ := by
    rw [sin_sub]
    have : r * r' * (sin ε * cos ε' - cos ε * sin ε') = (r * sin ε) * (r' * cos ε') - (r * cos ε) * (r' * sin ε') := by ring
    rw [this, ← h1, ← h2, ← h1', ← h2']; ring
  have h3 : 0 < r * r' * sin (ε - ε') := mul_pos (mul_pos hr hr') hpos
  have h4 : (w - w') * sin δ ≤ 0 := mul_nonpos_of_nonpos_of_nonneg (by linarith) hs
  linarith

theorem elapsed_bounds (t0 t1 t : ℤ) (h : t0 < t1) (h0 : t0 ≤ t) (h1 : t ≤ t1) :
    0 ≤ Spec.elapsed t0 t1 t ∧ Spec.elapsed t0 t1 t ≤ 1 := by
  have a : (0 : ℝ) < (t1 : ℝ) - t0 := by have : (t0 : ℝ) < t1 := by exact_mod_cast h
                                         linarith
  have b : (t0 : ℝ) ≤ t := by exact_mod_cast h0
  have c : (t : ℝ) ≤ t1 := by exact_mod_cast h1
  unfold Spec.elapsed
  exact ⟨div_nonneg (by linarith) a.le, (div_le_one a).2 (by linarith)⟩

theorem elapsed_mono (t0 t1 t t' : ℤ) (h : t0 < t1) (h1 : t ≤ t') : Spec.elapsed t0 t1 t ≤ Spec.elapsed t0 t1 t' := by
  have a : (0 : ℝ) < (t1 : ℝ) - t0 := by have : (t0 : ℝ) < t1 := by exact_mod_cast h
                                         linarith
  have c : (t : ℝ) ≤ t' := by exact_mod_cast h1
  unfold Spec.elapsed
  exact div_le_div_of_nonneg_right (by linarith) a.le

/-- The components of the interpolated vector. -/
theorem tiDirection_parts (t0 t1 t : ℤ) (d0 d1 : ℝ) :
    let z : ℂ := degToComplex d0 + (degToComplex d1 - degToComplex d0) * (((((t - t0 : ℤ) : ℝ) / ((t1 - t0 : ℤ) : ℝ)) : ℝ) : ℂ)
    z.re = (1 - Spec.elapsed t0 t1 t) * cos (d0 * π / 180) + Spec.elapsed t0 t1 t * cos (d1 * π / 180) ∧
    z.im = (1 - Spec.elapsed t0 t1 t) * sin (d0 * π / 180) + Spec.elapsed t0 t1 t * sin (d1 * π / 180) := by
  intro z
  have hw : ((t - t0 : ℤ) : ℝ) / ((t1 - t0 : ℤ) : ℝ) = Spec.elapsed t0 t1 t := by unfold Spec.elapsed; push_cast; rfl
  constructor
  · show (degToComplex d0 + (degToComplex d1 - degToComplex d0) * _).re = _
    rw [hw, mul_comm, Complex.add_re, Complex.re_ofReal_mul, Complex.sub_re]
    show cos (d0 * π / 180) + _ * (cos (d1 * π / 180) - cos (d0 * π / 180)) = _
    ring
  · show (degToComplex d0 + (degToComplex d1 - degToComplex d0) * _).im = _
    rw [hw, mul_comm, Complex.add_im, Complex.im_ofReal_mul, Complex.sub_im]
    show sin (d0 * π / 180) + _ * (sin (d1 * π / 180) - sin (d0 * π / 180)) = _
    ring

theorem tiDirection_weighted (t0 t1 t : ℤ) (d0 d1 : ℝ) :
    ∃ r, Spec.WeightedDirection d0 d1 (Spec.elapsed t0 t1 t) r (tiDirection t0 t1 d0 d1 t) := by
  obtain ⟨h1, h2⟩ := tiDirection_parts t0 t1 t d0 d1
  obtain ⟨h3, h4⟩ := degToComplex_complexToDeg
    (degToComplex d0 + (degToComplex d1 - degToComplex d0) * (((((t - t0 : ℤ) : ℝ) / ((t1 - t0 : ℤ) : ℝ)) : ℝ) : ℂ))
  exact ⟨_, (mod360_range _).1, (mod360_range _).2, norm_nonneg _, h1.symm.trans h3, h2.symm.trans h4⟩

/-- The direction of a known resultant. -/
theorem tiDirection_of (t0 t1 t : ℤ) (d0 d1 r D : ℝ) (hr : 0 < r)
    (h1 : (1 - Spec.elapsed t0 t1 t) * cos (d0 * π / 180) + Spec.elapsed t0 t1 t * cos (d1 * π / 180) = r * cos (D * π / 180))
    (h2 : (1 - Spec.elapsed t0 t1 t) * sin (d0 * π / 180) + Spec.elapsed t0 t1 t * sin (d1 * π / 180) = r * sin (D * π / 180)) :
    tiDirection t0 t1 d0 d1 t = mod360 D := by
  obtain ⟨h3, h4⟩ := tiDirection_parts t0 t1 t d0 d1
  exact complexToDeg_unique hr (h3.trans h1) (h4.trans h2)

/-- The direction turned by `ε` radians in the sense `σ` from the first. -/
theorem tiDirection_turn (t0 t1 t : ℤ) (d0 d1 δ ε r : ℝ) (k : ℤ) (hd : d1 = d0 + δ * 180 / π + 360 * k) (hr : 0 < r)
    (h1 : (1 - Spec.elapsed t0 t1 t) + Spec.elapsed t0 t1 t * cos δ = r * cos ε)
    (h2 : Spec.elapsed t0 t1 t * sin δ = r * sin ε) : tiDirection t0 t1 d0 d1 t = mod360 (d0 + ε * 180 / π) := by
  have hpi : π ≠ 0 := pi_ne_zero
  have e1 : d1 * π / 180 = (d0 * π / 180 + δ) + k * (2 * π) := by rw [hd]; field_simp; ring
  have e2 : (d0 + ε * 180 / π) * π / 180 = d0 * π / 180 + ε := by field_simp
  apply tiDirection_of t0 t1 t d0 d1 r _ hr
  · rw [e1, e2, cos_add_int_mul_two_pi, cos_add, cos_add]
    linear_combination cos (d0 * π / 180) * h1 - sin (d0 * π / 180) * h2
  · rw [e1, e2, sin_add_int_mul_two_pi, sin_add, sin_add]
    linear_combination sin (d0 * π / 180) * h1 + cos (d0 * π / 180) * h2

/-! ### C279 -/

/-- **C279** (result): two instantaneous cubes of directions give one direction for each time of the time list, that of the weighted mean
of the two unit vectors with the elapsed fraction as weight; if only the time of the second cube is wanted it is returned as it is. -/
theorem C279_result (s : TIState) (t0 t1 : ℤ) (hle : t0 ≤ t1) (d0 d1 : ℝ) (ts : List ℤ) (s' : TIState)
    (hts : tiTimeList s t0 t1 = .ok (ts, s')) :
    ∃ outs c0 c1, tiDirProcess s ⟨t0, none, .degrees d0⟩ ⟨t1, none, .degrees d1⟩ = .ok (outs, s', c0, c1) ∧
      (ts = [t1] → outs = [⟨t1, none, .degrees d1⟩]) ∧
      (ts ≠ [t1] → List.Forall₂ (fun t o => o.time = t ∧ o.bounds = none ∧
        ∃ D r, o.data = .degrees D ∧ Spec.WeightedDirection d0 d1 (Spec.elapsed t0 t1 t) r D) ts outs) := by
  unfold tiDirProcess
  dsimp only
  rw [if_neg (by omega), if_neg (by simp), if_neg (by simp), hts]
  dsimp only
  by_cases h1 : ts = [t1]
  · rw [if_pos h1]
    exact ⟨_, _, _, rfl, fun _ => rfl, fun h => absurd h1 h⟩
  · rw [if_neg h1]
    refine ⟨_, _, _, rfl, fun h => absurd h h1, fun _ => ?_⟩
    rw [List.forall₂_map_right_iff]
    refine List.forall₂_same.2 (fun t _ => ?_)
    obtain ⟨r, hr⟩ := tiDirection_weighted t0 t1 t d0 d1
    exact ⟨rfl, rfl, _, r, rfl, hr⟩

/-- **C279** (shortest way): if the second direction is reached from the first by a turn of `δ` degrees, less than half a circle either way,
then between the two times the direction turns monotonically from the first to the second through that turn, never the other way
round, and half-way in time it has turned by half of it. -/
theorem C279_shortest_way (t0 t1 : ℤ) (h01 : t0 < t1) (d0 d1 δ : ℝ) (hδ : |δ| < 180) (k : ℤ) (hd : d1 = d0 + δ + 360 * k) :
    ∃ share : ℤ → ℝ, share t0 = 0 ∧ share t1 = 1 ∧ (∀ t, t0 ≤ t → t ≤ t1 → 0 ≤ share t ∧ share t ≤ 1) ∧
      (∀ t t', t0 ≤ t → t ≤ t' → t' ≤ t1 → share t ≤ share t') ∧ (∀ t, 2 * t = t0 + t1 → share t = 1 / 2) ∧
      ∀ t, t0 ≤ t → t ≤ t1 → Spec.SameDirection (d0 + share t * δ) (tiDirection t0 t1 d0 d1 t) := by
  have hpi := pi_pos
  have hpi0 : π ≠ 0 := pi_ne_zero
  have hA0 : (0 : ℝ) < (t1 : ℝ) - t0 := by
    have : (t0 : ℝ) < t1 := by exact_mod_cast h01
    linarith
  have E0 : Spec.elapsed t0 t1 t0 = 0 := by unfold Spec.elapsed; simp
  have E1 : Spec.elapsed t0 t1 t1 = 1 := by unfold Spec.elapsed; exact div_self hA0.ne'
  -- the turn in radians and its size
  let A : ℝ := |δ| * π / 180
  have A0 : 0 ≤ A := by positivity
  have Ap : A < π := by
    show |δ| * π / 180 < π
    rw [div_lt_iff₀ (by norm_num)]; nlinarith
  rcases eq_or_ne δ 0 with hz | hz
  · -- no turn at all
    refine ⟨fun t => Spec.elapsed t0 t1 t, E0, E1, fun t h0 h1 => elapsed_bounds t0 t1 t h01 h0 h1,
      fun t t' _ h _ => elapsed_mono t0 t1 t t' h01 h, ?_, ?_⟩
    · intro t ht
      show Spec.elapsed t0 t1 t = 1 / 2
      unfold Spec.elapsed
      have : (2 : ℝ) * t = t0 + t1 := by exact_mod_cast ht
      rw [div_eq_div_iff hA0.ne' (by norm_num)]; linarith
    · intro t _ _
      rw [hz, mul_zero, add_zero]
      have : tiDirection t0 t1 d0 d1 t = mod360 (d0 + 0 * 180 / π) :=
        tiDirection_turn t0 t1 t d0 d1 0 0 1 k (by rw [hd, hz]; ring) one_pos (by rw [cos_zero]; ring) (by rw [sin_zero]; ring)
      rw [this]
      have e : d0 + 0 * 180 / π = d0 := by ring
      rw [e]
      exact sameDirection_mod360 d0
  · have Apos : 0 < A := by have := abs_pos.2 hz; positivity
    have hAs : 0 < sin A := sin_pos_of_pos_of_lt_pi Apos Ap
    have ex : ∀ t : ℤ, ∃ ε r, t0 ≤ t → t ≤ t1 → 0 ≤ ε ∧ ε ≤ A ∧ 0 < r ∧
        (1 - Spec.elapsed t0 t1 t) + Spec.elapsed t0 t1 t * cos A = r * cos ε ∧ Spec.elapsed t0 t1 t * sin A = r * sin ε := by
      intro t
      by_cases h : t0 ≤ t ∧ t ≤ t1
      · obtain ⟨w0, w1⟩ := elapsed_bounds t0 t1 t h01 h.1 h.2
        obtain ⟨ε, r, hh⟩ := turn_exists A A0 Ap _ w0 w1
        exact ⟨ε, r, fun _ _ => hh⟩
      · exact ⟨0, 0, fun a b => absurd ⟨a, b⟩ h⟩
    choose ε r hε using ex
    have uniq : ∀ (a b p q : ℝ), 0 ≤ a → a ≤ A → 0 ≤ b → b ≤ A → 0 < p → 0 < q → p * cos a = q * cos b → p * sin a = q * sin b → a = b := by
      intro a b p q a0 a1 b0 b1 hp hq hc hs
      have h1 : p * q * sin (a - b) = 0 := by
        rw [sin_sub]
        have : p * q * (sin a * cos b - cos a * sin b) = (p * sin a) * (q * cos b) - (p * cos a) * (q * sin b) := by ring
        rw [this, hc, hs]; ring
      have h2 : sin (a - b) = 0 := by
        rcases mul_eq_zero.1 h1 with h | h
        · exact absurd h (mul_pos hp hq).ne'
        · exact h
      have h3 := (sin_eq_zero_iff_of_lt_of_lt (by linarith) (by linarith)).1 h2
      linarith
    have hval : ∀ t, t0 ≤ t → t ≤ t1 → ∀ a p, 0 ≤ a → a ≤ A → 0 < p →
        (1 - Spec.elapsed t0 t1 t) + Spec.elapsed t0 t1 t * cos A = p * cos a → Spec.elapsed t0 t1 t * sin A = p * sin a → ε t = a := by
      intro t h0 h1 a p a0 a1 hp hc hs
      obtain ⟨b1, b2, b3, b4, b5⟩ := hε t h0 h1
      exact uniq _ _ _ _ b1 b2 a0 a1 b3 hp (b4.symm.trans hc) (b5.symm.trans hs)
    refine ⟨fun t => ε t / A, ?_, ?_, ?_, ?_, ?_, ?_⟩
    · show ε t0 / A = 0
      rw [hval t0 le_rfl h01.le 0 1 le_rfl A0 one_pos (by rw [E0, cos_zero]; ring) (by rw [E0, sin_zero]; ring), zero_div]
    · show ε t1 / A = 1
      rw [hval t1 h01.le le_rfl A 1 A0 le_rfl one_pos (by rw [E1]; ring) (by rw [E1])]
      exact div_self Apos.ne'
    · intro t h0 h1
      obtain ⟨b1, b2, _⟩ := hε t h0 h1
      exact ⟨div_nonneg b1 A0, (div_le_one Apos).2 b2⟩
    · intro t t' h0 h h1
      obtain ⟨b1, b2, b3, b4, b5⟩ := hε t h0 (h.trans h1)
      obtain ⟨c1, c2, c3, c4, c5⟩ := hε t' (h0.trans h) h1
      exact div_le_div_of_nonneg_right
        (turn_mono A A0 Ap _ _ (elapsed_mono t0 t1 t t' h01 h) _ _ _ _ b1 b2 c1 c2 b3 c3 b4 b5 c4 c5) A0
    · intro t ht
      show ε t / A = 1 / 2
      have hh : Spec.elapsed t0 t1 t = 1 / 2 := by
        unfold Spec.elapsed
        have : (2 : ℝ) * t = t0 + t1 := by exact_mod_cast ht
        rw [div_eq_div_iff hA0.ne' (by norm_num)]; linarith
      have hcos : 0 < cos (A / 2) := cos_pos_of_mem_Ioo ⟨by linarith, by linarith⟩
      have hAA : A = 2 * (A / 2) := by ring
      have e : ε t = A / 2 := by
        apply hval t (by omega) (by omega) (A / 2) (cos (A / 2)) (by linarith) (by linarith) hcos
        · rw [hh]
          conv_lhs => rw [hAA, cos_two_mul]
          ring
        · rw [hh]
          conv_lhs => rw [hAA, sin_two_mul]
          ring
      rw [e, div_div, mul_comm, ← div_div, div_self Apos.ne']
    · intro t h0 h1
      obtain ⟨b1, b2, b3, b4, b5⟩ := hε t h0 h1
      rcases lt_or_gt_of_ne hz with hneg | hpos
      · have hAδ : δ = -(A * 180 / π) := by
          show δ = -(|δ| * π / 180 * 180 / π)
          rw [abs_of_neg hneg]; field_simp
        have : tiDirection t0 t1 d0 d1 t = mod360 (d0 + -ε t * 180 / π) :=
          tiDirection_turn t0 t1 t d0 d1 (-A) (-ε t) (r t) k (by rw [hd, hAδ]; ring) b3 (by rw [cos_neg, cos_neg]; exact b4)
            (by rw [sin_neg, sin_neg]; linarith [b5])
        rw [this]
        have e : d0 + ε t / A * δ = d0 + -ε t * 180 / π := by
          rw [hAδ]; field_simp
        rw [show (d0 + (fun t => ε t / A) t * δ) = d0 + -ε t * 180 / π from e]
        exact sameDirection_mod360 _
      · have hAδ : δ = A * 180 / π := by
          show δ = |δ| * π / 180 * 180 / π
          rw [abs_of_pos hpos]; field_simp
        have : tiDirection t0 t1 d0 d1 t = mod360 (d0 + ε t * 180 / π) :=
          tiDirection_turn t0 t1 t d0 d1 A (ε t) (r t) k (by rw [hd, hAδ]) b3 b4 b5
        rw [this]
        have e : d0 + ε t / A * δ = d0 + ε t * 180 / π := by
          rw [hAδ]; field_simp
        rw [show (d0 + (fun t => ε t / A) t * δ) = d0 + ε t * 180 / π from e]
        exact sameDirection_mod360 _

/-- **C279** (opposite directions): between opposite directions there is no turn: the first holds for the first half of the interval, the
second for the second half, and exactly half-way the direction is 0, whatever the two were. -/
theorem C279_opposite (t0 t1 : ℤ) (h01 : t0 < t1) (d0 : ℝ) (t : ℤ) (h0 : t0 ≤ t) (h1 : t ≤ t1) :
    (2 * t < t0 + t1 → Spec.SameDirection d0 (tiDirection t0 t1 d0 (d0 + 180) t)) ∧
    (t0 + t1 < 2 * t → Spec.SameDirection (d0 + 180) (tiDirection t0 t1 d0 (d0 + 180) t)) ∧
    (2 * t = t0 + t1 → tiDirection t0 t1 d0 (d0 + 180) t = 0) := by
  have hpi0 : π ≠ 0 := pi_ne_zero
  have hA0 : (0 : ℝ) < (t1 : ℝ) - t0 := by
    have : (t0 : ℝ) < t1 := by exact_mod_cast h01
    linarith
  have e180 : (d0 + 180) * π / 180 = d0 * π / 180 + π := by field_simp
  refine ⟨fun h => ?_, fun h => ?_, fun h => ?_⟩
  · have hw : Spec.elapsed t0 t1 t < 1 / 2 := by
      unfold Spec.elapsed
      have : (2 : ℝ) * t < t0 + t1 := by exact_mod_cast h
      rw [div_lt_div_iff₀ hA0 (by norm_num)]; linarith
    rw [tiDirection_of t0 t1 t d0 (d0 + 180) (1 - 2 * Spec.elapsed t0 t1 t) d0 (by linarith)
      (by rw [e180, cos_add_pi]; ring) (by rw [e180, sin_add_pi]; ring)]
    exact sameDirection_mod360 _
  · have hw : 1 / 2 < Spec.elapsed t0 t1 t := by
      unfold Spec.elapsed
      have : (t0 : ℝ) + t1 < 2 * t := by exact_mod_cast h
      rw [div_lt_div_iff₀ (by norm_num) hA0]; linarith
    rw [tiDirection_of t0 t1 t d0 (d0 + 180) (2 * Spec.elapsed t0 t1 t - 1) (d0 + 180) (by linarith)
      (by rw [e180, cos_add_pi]; ring) (by rw [e180, sin_add_pi]; ring)]
    exact sameDirection_mod360 _
  · have hw : Spec.elapsed t0 t1 t = 1 / 2 := by
      unfold Spec.elapsed
      have : (2 : ℝ) * t = t0 + t1 := by exact_mod_cast h
      rw [div_eq_div_iff hA0.ne' (by norm_num)]; linarith
    obtain ⟨h3, h4⟩ := tiDirection_parts t0 t1 t d0 (d0 + 180)
    rw [hw, e180, cos_add_pi] at h3
    rw [hw, e180, sin_add_pi] at h4
    unfold tiDirection
    rw [Complex.ext (z := degToComplex d0 + (degToComplex (d0 + 180) - degToComplex d0) * _) (w := 0)
      (by rw [h3, Complex.zero_re]; ring) (by rw [h4, Complex.zero_im]; ring)]
    unfold complexToDeg
    rw [Complex.arg_zero, zero_mul, zero_div]
    exact mod360_eq_self le_rfl (by norm_num)

/-- **C279** (inputs): interpolating directions leaves complex numbers in the caller's cubes: the same request made again with the same
cubes raises a `TypeError`. -/
theorem C279_inputs_changed_refuted (i : ℤ) (t0 t1 : ℤ) (hle : t0 ≤ t1) (d0 d1 : ℝ) (ts : List ℤ) (s' : TIState)
    (hts : tiTimeList ⟨some i, none⟩ t0 t1 = .ok (ts, s')) (hmore : ts ≠ [t1]) :
    ∃ outs c0 c1, tiDirProcess ⟨some i, none⟩ ⟨t0, none, .degrees d0⟩ ⟨t1, none, .degrees d1⟩ = .ok (outs, s', c0, c1) ∧
      (∀ d, c0.data ≠ .degrees d ∧ c1.data ≠ .degrees d) ∧
      tiDirProcess ⟨some i, none⟩ c0 c1 = .error .typeError := by
  unfold tiDirProcess
  dsimp only
  rw [if_neg (by omega), if_neg (by simp), if_neg (by simp), hts]
  dsimp only
  rw [if_neg hmore]
  refine ⟨_, _, _, rfl, fun d => ⟨nofun, nofun⟩, ?_⟩
  dsimp only
  rw [if_neg (by omega), if_neg (by simp), if_neg (by simp), hts]
  dsimp only
  rw [if_neg hmore]

/-! ### C280 -/

theorem tiOrder_comm {α : Type} (time : α → ℤ) (a b : α) (h : time a ≠ time b) : tiOrder time a b = tiOrder time b a := by
  unfold tiOrder
  rcases lt_or_gt_of_ne h with hlt | hgt
  · rw [if_neg (by omega), if_pos hlt]
  · rw [if_pos hgt, if_neg (by omega)]

/-- **C280** (order): for two inputs with different times the command gives the same, values and errors, whichever of them is named first. -/
theorem C280_order (a b : TICube) (h : a.time ≠ b.time) (interval : Option ℤ) (times : Option (List ℤ)) (method : String)
    (accumulation mx mn : Bool) :
    tiCommand a b interval times method accumulation mx mn = tiCommand b a interval times method accumulation mx mn := by
  unfold tiCommand
  rw [tiOrder_comm TICube.time a b h]

/-- **C280** (order, directions): the same for directions. -/
theorem C280_order_directions (a b : TIDirCube) (h : a.time ≠ b.time) (interval : Option ℤ) (times : Option (List ℤ)) (method : String) :
    tiDirCommand a b interval times method = tiDirCommand b a interval times method := by
  unfold tiDirCommand
  rw [tiOrder_comm TIDirCube.time a b h]

/-- **C280** (times given): with a list of times between those of the two inputs (in whatever order these are named) the result has exactly
these times and the later input's, ascending, each with the value on the straight line between the two inputs. -/
theorem C280_times (start fin : TICube) (hs : start.bounds = none) (hf : fin.bounds = none) (times : List ℤ) (hne : times ≠ [])
    (hin : ∀ t ∈ times, min start.time fin.time ≤ t ∧ t ≤ max start.time fin.time) :
    ∃ outs, tiCommand start fin none (some times) "linear" false false false = .ok outs ∧
      (outs.map TIOut.time).Pairwise (· < ·) ∧ (∀ t, t ∈ outs.map TIOut.time ↔ t ∈ times ∨ t = max start.time fin.time) ∧
      ∀ o ∈ outs, o.bounds = none ∧ ∃ r, o.value = some r ∧ Spec.OnLine start.time fin.time start.value fin.value o.time r := by
  obtain ⟨ta, ba, va⟩ := start
  obtain ⟨tb, bb, vb⟩ := fin
  dsimp only at hs hf hin
  subst hs; subst hf
  have key : ∀ (t0 t1 : ℤ) (v0 v1 : ℚ), t0 ≤ t1 → (∀ t ∈ times, t0 ≤ t ∧ t ≤ t1) →
      ∃ outs s' c0 c1, tiProcess ⟨none, some times⟩ .instant ⟨t0, none, v0⟩ ⟨t1, none, v1⟩ = .ok (outs, s', c0, c1) ∧
      (outs.map TIOut.time).Pairwise (· < ·) ∧ (∀ t, t ∈ outs.map TIOut.time ↔ t ∈ times ∨ t = t1) ∧
      ∀ o ∈ outs, o.bounds = none ∧ ∃ r, o.value = some r ∧ Spec.OnLine t0 t1 v0 v1 o.time r := by
    intro t0 t1 v0 v1 hle hall
    obtain ⟨ts, s', hts, hmem⟩ := (C55_times times hne t0 t1).1 hall
    obtain ⟨outs, c0, c1, hrun, hF, -, -⟩ := C56_instant _ t0 t1 hle v0 v1 ts s' hts
    have htimes : outs.map TIOut.time = ts := by
      clear hrun hts hmem
      induction hF with
      | nil => rfl
      | cons h _ ih => rw [List.map_cons, ih, h.1]
    refine ⟨outs, s', c0, c1, hrun, by rw [htimes]; exact (C55_shape _ s' t0 t1 hle ts hts).1, fun t => by rw [htimes]; exact hmem t, ?_⟩
    intro o ho
    clear hrun htimes hts hmem
    induction hF with
    | nil => nomatch ho
    | @cons t o' ts' outs' h _ ih =>
      rcases List.mem_cons.1 ho with rfl | ho
      · obtain ⟨h1, h2, r, h3, h4, -⟩ := h
        exact ⟨h2, r, h3, by rw [h1]; exact h4⟩
      · exact ih ho
  have hinit : tiInit none (some times) "linear" false false false = .ok (⟨none, some times⟩, .instant) := by
    unfold tiInit; simp
  unfold tiCommand tiOrder
  rw [hinit]
  dsimp only
  rw [if_neg (by simp)]
  by_cases hlt : tb < ta
  · rw [if_pos hlt]
    rw [min_eq_right hlt.le, max_eq_left hlt.le] at hin
    obtain ⟨outs, s', c0, c1, hrun, hasc, hmem, hval⟩ := key tb ta vb va hlt.le hin
    refine ⟨outs, by dsimp only; rw [hrun]; rfl, hasc, by rw [max_eq_left hlt.le]; exact hmem, ?_⟩
    intro o ho
    obtain ⟨h1, r, h2, h3⟩ := hval o ho
    refine ⟨h1, r, h2, ?_⟩
    unfold Spec.OnLine at h3 ⊢
    linear_combination -h3
  · rw [if_neg hlt]
    have hle : ta ≤ tb := by omega
    rw [min_eq_left hle, max_eq_right hle] at hin
    obtain ⟨outs, s', c0, c1, hrun, hasc, hmem, hval⟩ := key ta tb va vb hle hin
    exact ⟨outs, by dsimp only; rw [hrun]; rfl, hasc, by rw [max_eq_right hle]; exact hmem, hval⟩

/-- **C280** (outside): a time before the earlier or after the later input is refused, in either order of the inputs. -/
theorem C280_outside (start fin : TICube) (times : List ℤ) (hne : times ≠ [])
    (hout : ∃ t ∈ times, t < min start.time fin.time ∨ max start.time fin.time < t) (accumulation mx mn : Bool) :
    ∃ e, tiCommand start fin none (some times) "linear" accumulation mx mn = .error e := by
  have key : ∀ (c0 c1 : TICube) (kind : TIKind), (∃ t ∈ times, t < c0.time ∨ c1.time < t) →
      ∃ e, tiProcess ⟨none, some times⟩ kind c0 c1 = .error e := by
    intro c0 c1 kind hex
    unfold tiProcess
    rw [(C55_times times hne c0.time c1.time).2 hex]
    dsimp only
    split
    · exact ⟨_, rfl⟩
    split
    · exact ⟨_, rfl⟩
    split
    · exact ⟨_, rfl⟩
    split
    · exact ⟨_, rfl⟩
    split
    · exact ⟨_, rfl⟩
    exact ⟨_, rfl⟩
  unfold tiCommand
  cases hi : tiInit none (some times) "linear" accumulation mx mn with
  | error e => exact ⟨e, rfl⟩
  | ok sk =>
    obtain ⟨s, kind⟩ := sk
    have hs : s = ⟨none, some times⟩ := by
      unfold tiInit at hi
      by_cases h : accumulation.toNat + mx.toNat + mn.toNat > 1
      · rw [if_neg (by simp), if_neg (by simp), if_neg (by simp), if_pos h] at hi
        nomatch hi
      · rw [if_neg (by simp), if_neg (by simp), if_neg (by simp), if_neg h, if_neg (by simp)] at hi
        injection hi with hi
        exact (congrArg Prod.fst hi).symm
    subst hs
    dsimp only
    rw [if_neg (by simp)]
    unfold tiOrder
    by_cases hlt : fin.time < start.time
    · rw [if_pos hlt]
      rw [min_eq_right hlt.le, max_eq_left hlt.le] at hout
      obtain ⟨e, he⟩ := key fin start kind hout
      exact ⟨e, by dsimp only; rw [he]; rfl⟩
    · rw [if_neg hlt]
      have hle : start.time ≤ fin.time := by omega
      rw [min_eq_left hle, max_eq_right hle] at hout
      obtain ⟨e, he⟩ := key start fin kind hout
      exact ⟨e, by dsimp only; rw [he]; rfl⟩

/-- **C280** (equal times): of two inputs with the same time the one named second is returned, so the order matters then. -/
theorem C280_equal_times_refuted (a b : TICube) (ha : a.bounds = none) (hb : b.bounds = none) (h : a.time = b.time) (hv : a.value ≠ b.value)
    (i : ℤ) (hi : 0 < i) :
    tiCommand a b (some i) none "linear" false false false = .ok [⟨b.time, none, some b.value⟩] ∧
    tiCommand b a (some i) none "linear" false false false = .ok [⟨a.time, none, some a.value⟩] ∧
    tiCommand a b (some i) none "linear" false false false ≠ tiCommand b a (some i) none "linear" false false false := by
  have key : ∀ (a b : TICube), a.bounds = none → b.bounds = none → a.time = b.time →
      tiCommand a b (some i) none "linear" false false false = .ok [⟨b.time, none, some b.value⟩] := by
    intro a b ha hb h
    have hinit : tiInit (some i) none "linear" false false false = .ok (⟨some i, none⟩, .instant) := by
      unfold tiInit; simp
    have hts : tiTimeList ⟨some i, none⟩ b.time b.time = .ok ([b.time], ⟨some i, none⟩) := by
      unfold tiTimeList
      dsimp only
      rw [if_neg (by omega), if_neg (by omega), if_neg (by simp)]
      simp [tiLoop, sortedSet]
    unfold tiCommand tiOrder
    rw [hinit]
    dsimp only
    rw [if_neg (by simp), if_neg (by omega)]
    dsimp only
    unfold tiProcess
    rw [h, hts, ha, hb]
    dsimp only
    rw [if_neg (by omega), if_neg (by simp), if_neg (by simp), if_neg (by simp), if_neg (by simp), if_pos rfl]
    rfl
  refine ⟨key a b ha hb h, key b a hb ha h.symm, ?_⟩
  rw [key a b ha hb h, key b a hb ha h.symm]
  intro he
  injection he with he
  injection he with he
  injection he with _ _ he
  injection he with he
  exact hv he.symm

/-! ### Cases -/

/-- From 350 to 10 degrees the direction passes through north, not south. -/
example : tiDirection 0 7200 350 10 3600 = 0 := by
  obtain ⟨share, -, -, -, -, hh, hD⟩ := C279_shortest_way 0 7200 (by norm_num) 350 10 20 (by norm_num [abs_of_pos]) (-1) (by norm_num)
  obtain ⟨a, b, k, hk⟩ := hD 3600 (by norm_num) (by norm_num)
  rw [hh 3600 (by norm_num)] at hk
  have hk' : tiDirection 0 7200 350 10 3600 = 360 * ((k : ℝ) + 1) := by rw [hk]; ring
  have h1 : (0 : ℝ) ≤ (k : ℝ) + 1 := by rw [hk'] at a; linarith
  have h2 : (k : ℝ) + 1 < 1 := by rw [hk'] at b; linarith
  have k1 : (0 : ℤ) ≤ k + 1 := by exact_mod_cast h1
  have k2 : k + 1 < (1 : ℤ) := by exact_mod_cast h2
  have : k = -1 := by omega
  rw [hk', this]; norm_num

example : tiCommand ⟨7200, none, 30⟩ ⟨0, none, 10⟩ none (some [3600]) "linear" false false false =
    .ok [⟨3600, none, some 20⟩, ⟨7200, none, some 30⟩] := by decide +kernel

example : ∃ ts s', tiTimeList ⟨some 60, none⟩ 0 7200 = .ok (ts, s') ∧ ts ≠ [7200] :=
  ⟨[3600, 7200], ⟨some 60, none⟩, by decide +kernel, by decide⟩

end Improver
