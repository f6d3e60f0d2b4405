import Verif.Model.Solar
import Mathlib.Analysis.SpecialFunctions.Trigonometric.Inverse
import Mathlib.Analysis.Real.Pi.Bounds
import Mathlib.Tactic.Linarith
import Mathlib.Tactic.FieldSimp

/-!
Properties of solar times (C161), solar elevation (C162), day and night (C163), clear sky irradiance (C164) and clear sky
radiation (C165).
-/

namespace Improver

open Real

/-! ## Times -/

/-- The hour of the day is a whole number of minutes from 0 to 24 h, within half a minute of the time of day. -/
theorem C161_hour_of_day (us : ℤ) :
    (∃ m : ℤ, hourOfDay us = m / 60 ∧ 0 ≤ m ∧ m ≤ 1440 ∧
      -30000000 < m * 60000000 - us % 86400000000 ∧ m * 60000000 - us % 86400000000 ≤ 30000000) ∧
    0 ≤ hourOfDay us ∧ hourOfDay us ≤ 24 := by
  have main : ∃ m : ℤ, hourOfDay us = m / 60 ∧ 0 ≤ m ∧ m ≤ 1440 ∧
      -30000000 < m * 60000000 - us % 86400000000 ∧ m * 60000000 - us % 86400000000 ≤ 30000000 := by
    unfold hourOfDay
    dsimp only
    by_cases h : roundedTime us / dayUs ≠ us / dayUs
    · rw [if_pos h]
      unfold roundedTime dayUs at h
      refine ⟨1440, by norm_num, by norm_num, le_rfl, ?_, ?_⟩ <;> omega
    · rw [if_neg h]
      unfold roundedTime dayUs at *
      exact ⟨_, rfl, by omega, by omega, by omega, by omega⟩
  refine ⟨main, ?_⟩
  obtain ⟨m, e, h0, h1, -⟩ := main
  rw [e]
  have h0' : (0 : ℝ) ≤ m := by exact_mod_cast h0
  have h1' : (m : ℝ) ≤ 1440 := by exact_mod_cast h1
  constructor
  · positivity
  · rw [div_le_iff₀ (by norm_num)]; linarith

theorem solarChecks_ok {d : ℤ} {hour : ℝ} (h : 0 ≤ d) (h' : d ≤ 365) (hh : 0 ≤ hour) (hh' : hour ≤ 24) :
    solarChecks d hour = .ok () := by
  unfold solarChecks
  rw [if_neg (by omega), if_neg (by rintro (h | h) <;> linarith)]

/-- Arguments taken from a datetime are never refused by the checks, in leap years too. -/
theorem C161_never_refused (yday : ℤ → ℤ) (hy : ∀ n, 1 ≤ yday n ∧ yday n ≤ 366) (us : ℤ) :
    solarChecks (dayOfYear yday us) (hourOfDay us) = .ok () := by
  have h := hy (us / dayUs)
  have hh := (C161_hour_of_day us).2
  unfold dayOfYear
  exact solarChecks_ok (by omega) (by omega) hh.1 hh.2

/-- And all others are. -/
theorem C161_refused (d : ℤ) (hour : ℝ) :
    solarChecks d hour = .ok () ↔ 0 ≤ d ∧ d ≤ 365 ∧ 0 ≤ hour ∧ hour ≤ 24 := by
  refine ⟨fun h => ?_, fun h => solarChecks_ok h.1 h.2.1 h.2.2.1 h.2.2.2⟩
  unfold solarChecks at h
  by_cases h1 : d < 0 ∨ d > 365
  · rw [if_pos h1] at h; nomatch h
  · rw [if_neg h1] at h
    by_cases h2 : hour < 0 ∨ hour > 24
    · rw [if_pos h2] at h; nomatch h
    · push Not at h1 h2
      exact ⟨h1.1, h1.2, h2.1, h2.2⟩

theorem equationOfTime_bound (d : ℤ) : |equationOfTime d| ≤ 0.0895 := by
  unfold equationOfTime
  dsimp only
  generalize 2 * π * d / 365 = th
  have a1 := cos_le_one th
  have a2 := neg_one_le_cos th
  have b1 := sin_le_one th
  have b2 := neg_one_le_sin th
  have c1 := cos_le_one (2 * th)
  have c2 := neg_one_le_cos (2 * th)
  have d1 := sin_le_one (2 * th)
  have d2 := neg_one_le_sin (2 * th)
  rw [abs_le]
  constructor <;> linarith

/-- Solar time: 15 degrees east is an hour later, at Greenwich it is within 21 minutes of UTC, and normalised it is the same
time of day in the range from 0 up to 24, the same for longitudes a full circle apart. -/
theorem C161_solar_time (lon : ℝ) (d : ℤ) (hour : ℝ) :
    solarTimeOf (lon + 15) d hour false = solarTimeOf lon d hour false + 1 ∧
    |solarTimeOf 0 d hour false - hour| < 21 / 60 ∧
    (0 ≤ solarTimeOf lon d hour true ∧ solarTimeOf lon d hour true < 24) ∧
    (∃ k : ℤ, solarTimeOf lon d hour true = solarTimeOf lon d hour false + 24 * k) ∧
    solarTimeOf (lon + 360) d hour true = solarTimeOf lon d hour true := by
  have hf : ∀ l, solarTimeOf l d hour false = hour + 24 * l / 360 + equationOfTime d * 12 / π := by
    intro l; unfold solarTimeOf; dsimp only; rw [if_neg (by simp)]
  have ht : ∀ l, solarTimeOf l d hour true = solarTimeOf l d hour false - 24 * ⌊solarTimeOf l d hour false / 24⌋ := by
    intro l; rw [hf]; unfold solarTimeOf; dsimp only; rw [if_pos rfl]
  refine ⟨by rw [hf, hf]; ring, ?_, ?_, ⟨-⌊solarTimeOf lon d hour false / 24⌋, by rw [ht]; push_cast; ring⟩, ?_⟩
  · rw [hf]
    have he := equationOfTime_bound d
    have hp := pi_gt_three
    rw [show hour + 24 * 0 / 360 + equationOfTime d * 12 / π - hour = equationOfTime d * (12 / π) by ring, abs_mul,
      abs_of_pos (by positivity : 0 < 12 / π)]
    have h4 : 12 / π < 3.9 := by
      rw [div_lt_iff₀ pi_pos]
      have := pi_gt_d2
      linarith
    have h5 : (0 : ℝ) ≤ 12 / π := by positivity
    nlinarith [abs_nonneg (equationOfTime d)]
  · rw [ht]
    have h1 := Int.floor_le (solarTimeOf lon d hour false / 24)
    have h2 := Int.lt_floor_add_one (solarTimeOf lon d hour false / 24)
    rw [le_div_iff₀ (by norm_num)] at h1
    rw [div_lt_iff₀ (by norm_num)] at h2
    constructor <;> linarith
  · rw [ht, ht, hf, hf]
    have e : (hour + 24 * (lon + 360) / 360 + equationOfTime d * 12 / π) / 24 =
        (hour + 24 * lon / 360 + equationOfTime d * 12 / π) / 24 + ((1 : ℤ) : ℝ) := by push_cast; ring
    rw [e, Int.floor_add_intCast]
    push_cast
    ring

/-- Spencer's Fourier series for the equation of time, in minutes (229.18 minutes being the time of one radian). -/
noncomputable def Spec.spencer (day : ℤ) : ℝ :=
  let g := day * (2 * π / 365)
  720 / π * (0.000075 + 0.001868 * Real.cos g - 0.032077 * Real.sin g - 0.014615 * Real.cos (2 * g) - 0.040849 * Real.sin (2 * g))

/-- Solar time is UTC, four minutes for each degree of longitude and the equation of time. -/
theorem C161_spencer (lon : ℝ) (d : ℤ) (hour : ℝ) :
    60 * solarTimeOf lon d hour false = 60 * hour + 4 * lon + Spec.spencer d := by
  unfold solarTimeOf equationOfTime Spec.spencer
  dsimp only
  rw [if_neg (by simp), show (d : ℝ) * (2 * π / 365) = 2 * π * d / 365 by ring]
  ring

/-! ## Elevation -/

theorem declination_bound (d : ℤ) : |declinationOf d| ≤ 23.5 := by
  unfold declinationOf
  rw [abs_mul]
  have := abs_cos_le_one (radians (0.9856 * d + 9.3))
  have e : |(-23.5 : ℝ)| = 23.5 := by rw [abs_of_neg] <;> norm_num
  rw [e]
  linarith

/-- The declination is never exactly 0 on a whole day. -/
theorem declination_ne_zero (d : ℤ) : declinationOf d ≠ 0 := by
  unfold declinationOf radians
  intro h
  have h' : Real.cos ((0.9856 * d + 9.3) * π / 180) = 0 := by
    rcases mul_eq_zero.mp h with h | h
    · norm_num at h
    · exact h
  rw [cos_eq_zero_iff] at h'
  obtain ⟨k, hk⟩ := h'
  have hp := pi_ne_zero
  have e : (0.9856 * d + 9.3) / 180 = (2 * (k : ℝ) + 1) / 2 := by
    have : π * ((0.9856 * d + 9.3) / 180) = π * ((2 * (k : ℝ) + 1) / 2) := by linear_combination hk
    exact mul_left_cancel₀ hp this
  have e2 : (9856 * d + 93000 : ℝ) = 900000 * (2 * k + 1) := by linarith
  have e3 : 9856 * d + 93000 = 900000 * (2 * k + 1) := by exact_mod_cast e2
  omega

theorem radians_le {x y : ℝ} (h : x ≤ y) : radians x ≤ radians y := by
  unfold radians
  have := mul_le_mul_of_nonneg_right h pi_pos.le
  linarith

theorem radians_lt {x y : ℝ} (h : x < y) : radians x < radians y := by
  unfold radians
  have := mul_lt_mul_of_pos_right h pi_pos
  linarith

theorem radians_90 : radians 90 = π / 2 := by unfold radians; ring

theorem radians_neg (x : ℝ) : radians (-x) = -radians x := by unfold radians; ring

theorem degrees_radians (x : ℝ) : degrees (radians x) = x := by
  unfold degrees radians; have := pi_ne_zero; field_simp

theorem radians_degrees (x : ℝ) : radians (degrees x) = x := by
  unfold degrees radians; have := pi_ne_zero; field_simp

theorem degrees_le {x y : ℝ} (h : x ≤ y) : degrees x ≤ degrees y := by
  unfold degrees; gcongr

theorem degrees_lt {x y : ℝ} (h : x < y) : degrees x < degrees y := by
  unfold degrees
  have := pi_pos
  gcongr

theorem decl_range (d : ℤ) : -(π / 2) < radians (declinationOf d) ∧ radians (declinationOf d) < π / 2 := by
  have h := abs_le.mp (declination_bound d)
  rw [← radians_90, ← radians_neg]
  exact ⟨radians_lt (by linarith [h.1]), radians_lt (by linarith [h.2])⟩

theorem lat_range {lat : ℝ} (h1 : -90 ≤ lat) (h2 : lat ≤ 90) : -(π / 2) ≤ radians lat ∧ radians lat ≤ π / 2 := by
  rw [← radians_90, ← radians_neg]
  exact ⟨radians_le h1, radians_le h2⟩

/-- The sine of the elevation lies between its values at midnight and at noon of solar time. -/
theorem sine_between {lat lon hour : ℝ} {d : ℤ} (h1 : -90 ≤ lat) (h2 : lat ≤ 90) :
    -Real.cos (radians lat + radians (declinationOf d)) ≤ sineElevation lat lon d hour ∧
    sineElevation lat lon d hour ≤ Real.cos (radians lat - radians (declinationOf d)) := by
  obtain ⟨a1, a2⟩ := decl_range d
  obtain ⟨b1, b2⟩ := lat_range h1 h2
  have hc := cos_nonneg_of_neg_pi_div_two_le_of_le a1.le a2.le
  have hl := cos_nonneg_of_neg_pi_div_two_le_of_le b1 b2
  have hcl := mul_nonneg hc hl
  unfold sineElevation
  dsimp only
  generalize radians (hourAngleOf lon d hour) = x
  have c1 := cos_le_one x
  have c2 := neg_one_le_cos x
  rw [cos_add, cos_sub]
  constructor
  · nlinarith [mul_nonneg hcl (by linarith : 0 ≤ 1 + Real.cos x)]
  · nlinarith [mul_nonneg hcl (by linarith : 0 ≤ 1 - Real.cos x)]

theorem arcsin_cos_abs {x : ℝ} (h : |x| ≤ π) : arcsin (Real.cos x) = π / 2 - |x| := by
  rw [arcsin_eq_pi_div_two_sub_arccos, ← cos_abs, arccos_cos (abs_nonneg x) h]

theorem degrees_sub (x y : ℝ) : degrees (x - y) = degrees x - degrees y := by unfold degrees; ring

theorem degrees_neg (x : ℝ) : degrees (-x) = -degrees x := by unfold degrees; ring

theorem degrees_halfpi : degrees (π / 2) = 90 := by rw [← radians_90, degrees_radians]

theorem degrees_abs (x : ℝ) : degrees |x| = |degrees x| := by
  unfold degrees
  rw [abs_div, abs_mul, abs_of_pos pi_pos, abs_of_pos (by norm_num : (0:ℝ) < 180)]

/-- For valid arguments an elevation in degrees is given; it is at most 90 less the distance of the latitude from the
declination, at least the opposite at midnight, so always between -90 and 90; its sine is the sine given on request. -/
theorem C162_elevation {lat lon hour : ℝ} {d : ℤ} (h1 : -90 ≤ lat) (h2 : lat ≤ 90) (hv : solarChecks d hour = .ok ()) :
    ∃ el, solarElevation lat lon d hour false = .ok el ∧
      solarElevation lat lon d hour true = .ok (Real.sin (radians el)) ∧
      el ≤ 90 - |lat - declinationOf d| ∧ -(90 - |lat + declinationOf d|) ≤ el ∧ -90 ≤ el ∧ el ≤ 90 := by
  have hs := sine_between (lon := lon) (hour := hour) (d := d) h1 h2
  have hD := abs_le.mp (declination_bound d)
  have hp := pi_pos
  have habs : ∀ y : ℝ, |y| ≤ 180 → |radians y| ≤ π := by
    intro y hy
    unfold radians
    rw [abs_div, abs_mul, abs_of_pos hp, abs_of_pos (by norm_num : (0:ℝ) < 180), div_le_iff₀ (by norm_num)]
    nlinarith
  have e1 : radians lat - radians (declinationOf d) = radians (lat - declinationOf d) := by unfold radians; ring
  have e2 : radians lat + radians (declinationOf d) = radians (lat + declinationOf d) := by unfold radians; ring
  rw [e1, e2] at hs
  have m1 : -1 ≤ sineElevation lat lon d hour := le_trans (by linarith [cos_le_one (radians (lat + declinationOf d))]) hs.1
  have m2 : sineElevation lat lon d hour ≤ 1 := hs.2.trans (cos_le_one _)
  refine ⟨degrees (arcsin (sineElevation lat lon d hour)), ?_, ?_, ?_, ?_, ?_, ?_⟩
  · unfold solarElevation
    rw [if_neg (by rintro (h | h) <;> linarith), hv]
    simp
  · unfold solarElevation
    rw [if_neg (by rintro (h | h) <;> linarith), hv, radians_degrees, sin_arcsin m1 m2]
    simp
  · have := degrees_le (monotone_arcsin hs.2)
    rwa [arcsin_cos_abs (habs _ (abs_le.mpr ⟨by linarith [hD.2], by linarith [hD.1]⟩)), degrees_sub, degrees_halfpi,
      degrees_abs, degrees_radians] at this
  · have := degrees_le (monotone_arcsin hs.1)
    rwa [arcsin_neg, arcsin_cos_abs (habs _ (abs_le.mpr ⟨by linarith [hD.1], by linarith [hD.2]⟩)), degrees_neg, degrees_sub,
      degrees_halfpi, degrees_abs, degrees_radians] at this
  · have := degrees_le (neg_pi_div_two_le_arcsin (sineElevation lat lon d hour))
    rwa [degrees_neg, degrees_halfpi] at this
  · have := degrees_le (arcsin_le_pi_div_two (sineElevation lat lon d hour))
    rwa [degrees_halfpi] at this

/-- At solar noon the bound is reached; at the poles the elevation is the declination all day long; longitudes a full circle
apart agree. -/
theorem C162_special {lat lon hour : ℝ} {d : ℤ} :
    (hourAngleOf lon d hour = 0 → sineElevation lat lon d hour = Real.cos (radians (lat - declinationOf d))) ∧
    sineElevation 90 lon d hour = Real.sin (radians (declinationOf d)) ∧
    sineElevation (-90) lon d hour = -Real.sin (radians (declinationOf d)) ∧
    sineElevation lat (lon + 360) d hour = sineElevation lat lon d hour := by
  refine ⟨fun h => ?_, ?_, ?_, ?_⟩
  · unfold sineElevation
    dsimp only
    have e1 : radians (lat - declinationOf d) = radians lat - radians (declinationOf d) := by unfold radians; ring
    rw [h, e1, cos_sub]
    unfold radians
    rw [zero_mul, zero_div, cos_zero]
    ring
  · unfold sineElevation
    dsimp only
    rw [radians_90, sin_pi_div_two, cos_pi_div_two]
    ring
  · unfold sineElevation
    dsimp only
    rw [radians_neg, radians_90, sin_neg, cos_neg, sin_pi_div_two, cos_pi_div_two]
    ring
  · unfold sineElevation
    dsimp only
    have : radians (hourAngleOf (lon + 360) d hour) = radians (hourAngleOf lon d hour) + 2 * π := by
      unfold hourAngleOf solarTimeOf radians
      dsimp only
      rw [if_neg (by simp), if_neg (by simp)]
      ring
    rw [this, cos_add_two_pi]

/-! ## Day and night -/

/-- The sine of the elevation in terms of the distance from the terminator. -/
theorem sine_terminator (lat lon hour : ℝ) (d : ℤ) :
    ∃ T c, terminatorOf lon d hour = degrees T ∧ -(π / 2) < T ∧ T < π / 2 ∧ 0 < c ∧
      sineElevation lat lon d hour = Real.sin (radians (declinationOf d)) * Real.sin (radians lat - T) * c := by
  obtain ⟨a1, a2⟩ := decl_range d
  have hcD := cos_pos_of_mem_Ioo ⟨a1, a2⟩
  have hD0 : Real.sin (radians (declinationOf d)) ≠ 0 := by
    intro h
    have h0 : radians (declinationOf d) = 0 :=
      (sin_eq_zero_iff_of_lt_of_lt (by linarith [pi_pos]) (by linarith [pi_pos])).mp h
    apply declination_ne_zero d
    have := congrArg degrees h0
    rw [degrees_radians] at this
    rw [this]
    unfold degrees
    ring
  unfold terminatorOf sineElevation
  dsimp only
  generalize radians (hourAngleOf lon d hour) = x
  generalize radians (declinationOf d) = D at *
  generalize radians lat = L
  have ht := tan_arctan (-Real.cos x / Real.tan D)
  have t1 := neg_pi_div_two_lt_arctan (-Real.cos x / Real.tan D)
  have t2 := arctan_lt_pi_div_two (-Real.cos x / Real.tan D)
  generalize arctan (-Real.cos x / Real.tan D) = T at *
  have hcT := cos_pos_of_mem_Ioo ⟨t1, t2⟩
  refine ⟨T, 1 / Real.cos T, rfl, t1, t2, by positivity, ?_⟩
  have hx : Real.cos x = -(Real.sin D / Real.cos D) * (Real.sin T / Real.cos T) := by
    rw [← tan_eq_sin_div_cos, ← tan_eq_sin_div_cos, ht]
    have htD : Real.tan D ≠ 0 := by
      rw [tan_eq_sin_div_cos]; exact div_ne_zero hD0 hcD.ne'
    field_simp
  rw [hx, sin_sub]
  field_simp
  ring

theorem degrees_le_iff (lat T : ℝ) : degrees T ≤ lat ↔ T ≤ radians lat := by
  constructor
  · intro h; have := radians_le h; rwa [radians_degrees] at this
  · intro h; have := degrees_le h; rwa [degrees_radians] at this

theorem sin_decl_pos {d : ℤ} : (0 < declinationOf d → 0 < Real.sin (radians (declinationOf d))) ∧
    (declinationOf d < 0 → Real.sin (radians (declinationOf d)) < 0) := by
  obtain ⟨a1, a2⟩ := decl_range d
  have e : radians 0 = 0 := by unfold radians; ring
  constructor
  · intro h
    have := radians_lt h
    rw [e] at this
    exact sin_pos_of_pos_of_lt_pi this (by linarith [pi_pos])
  · intro h
    have := radians_lt h
    rw [e] at this
    exact sin_neg_of_neg_of_neg_pi_lt this (by linarith [pi_pos])

/-- The latitude-longitude mask is day exactly where the sun is above the horizon or, while the declination is positive, on
it. -/
theorem C163_lat_lon {lat lon hour : ℝ} {d : ℤ} (h1 : -90 ≤ lat) (h2 : lat ≤ 90) :
    dayLatLon lat lon d hour = true ↔
      0 < sineElevation lat lon d hour ∨ (0 < declinationOf d ∧ sineElevation lat lon d hour = 0) := by
  obtain ⟨T, c, eT, t1, t2, hc, es⟩ := sine_terminator lat lon hour d
  obtain ⟨b1, b2⟩ := lat_range h1 h2
  unfold dayLatLon
  rw [eT, es]
  have hpos : T < radians lat → 0 < Real.sin (radians lat - T) := fun h =>
    sin_pos_of_pos_of_lt_pi (by linarith) (by linarith)
  have hneg : radians lat < T → Real.sin (radians lat - T) < 0 := fun h =>
    sin_neg_of_neg_of_neg_pi_lt (by linarith) (by linarith)
  have hzero : radians lat = T → Real.sin (radians lat - T) = 0 := fun h => by rw [h, sub_self, sin_zero]
  rcases (declination_ne_zero d).lt_or_gt with hd | hd
  · have hs := sin_decl_pos.2 hd
    rw [if_neg (not_lt.mpr hd.le), decide_eq_true_eq, ← not_le, degrees_le_iff, not_le]
    constructor
    · intro h
      exact Or.inl (mul_pos (mul_pos_of_neg_of_neg hs (hneg h)) hc)
    · rintro (h | h)
      · by_contra hcon
        rcases (not_lt.mp hcon).lt_or_eq with h' | h'
        · have := mul_neg_of_neg_of_pos (mul_neg_of_neg_of_pos hs (hpos h')) hc
          linarith
        · rw [hzero h'.symm] at h
          simp at h
      · exact absurd h.1 (not_lt.mpr hd.le)
  · have hs := sin_decl_pos.1 hd
    rw [if_pos hd, decide_eq_true_eq, ge_iff_le, degrees_le_iff]
    constructor
    · intro h
      rcases h.lt_or_eq with h' | h'
      · exact Or.inl (mul_pos (mul_pos hs (hpos h')) hc)
      · exact Or.inr ⟨hd, by rw [hzero h'.symm]; ring⟩
    · intro h
      by_contra hcon
      have := mul_neg_of_neg_of_pos (mul_neg_of_pos_of_neg hs (hneg (not_le.mp hcon))) hc
      rcases h with h | h
      · linarith
      · linarith [h.2]

/-- On other grids it is day exactly where the sun is above the horizon. -/
theorem C163_projected (lat lon hour : ℝ) (d : ℤ) :
    dayProjected lat lon d hour = true ↔ 0 < sineElevation lat lon d hour := by
  unfold dayProjected
  rw [decide_eq_true_eq]
  have e : degrees 0 = 0 := by unfold degrees; ring
  rw [← arcsin_pos]
  constructor
  · intro h
    by_contra hcon
    have := degrees_le (not_lt.mp hcon)
    rw [e] at this
    linarith
  · intro h
    have := degrees_lt h
    rwa [e] at this

/-- So both kinds of grid have the same mask wherever the sun is not exactly on the horizon. -/
theorem C163_agree {lat lon hour : ℝ} {d : ℤ} (h1 : -90 ≤ lat) (h2 : lat ≤ 90) (h0 : sineElevation lat lon d hour ≠ 0) :
    dayLatLon lat lon d hour = dayProjected lat lon d hour := by
  rw [Bool.eq_iff_iff, C163_lat_lon h1 h2, C163_projected]
  constructor
  · rintro (h | h)
    · exact h
    · exact absurd h.2 h0
  · exact Or.inl

/-- Midnight sun and polar night: north of the circle the day lasts as long as the declination is large, and the night as
long as it is small. -/
theorem C163_polar {lat lon hour : ℝ} {d : ℤ} (h1 : -90 ≤ lat) (h2 : lat ≤ 90) :
    (90 < lat + declinationOf d → dayLatLon lat lon d hour = true) ∧
    (90 < lat - declinationOf d → dayLatLon lat lon d hour = false) := by
  have hs := sine_between (lon := lon) (hour := hour) (d := d) h1 h2
  have hD := abs_le.mp (declination_bound d)
  have e1 : radians lat - radians (declinationOf d) = radians (lat - declinationOf d) := by unfold radians; ring
  have e2 : radians lat + radians (declinationOf d) = radians (lat + declinationOf d) := by unfold radians; ring
  rw [e1, e2] at hs
  have hneg : ∀ y : ℝ, 90 < y → y ≤ 180 → Real.cos (radians y) < 0 := by
    intro y hy hy'
    have := radians_lt hy
    rw [radians_90] at this
    have h3 := radians_le hy'
    have e3 : radians 180 = π := by unfold radians; ring
    rw [e3] at h3
    exact cos_neg_of_pi_div_two_lt_of_lt this (by linarith [pi_pos])
  constructor
  · intro h
    rw [C163_lat_lon h1 h2]
    left
    have := hneg _ h (by linarith [hD.2])
    linarith [hs.1]
  · intro h
    have := hneg _ h (by linarith [hD.1])
    rw [← Bool.not_eq_true, C163_lat_lon h1 h2]
    rintro (h' | h') <;> linarith [hs.2]

/-- "Each slice is masked for its own time" is false of bounded times: all slices use the middle of the first. -/
theorem C163_bounded_times_refuted (times : List (ℤ × Option (ℤ × ℤ))) (b : ℤ × ℤ) (hb : times.head?.bind (·.2) = some b)
    (hall : ∀ t ∈ times, t.2.isSome) : ∀ t ∈ maskTimes times, t = b.1 + (b.2 - b.1) / 2 := by
  intro t ht
  unfold maskTimes at ht
  obtain ⟨s, hs, rfl⟩ := List.mem_map.mp ht
  obtain ⟨c, hc⟩ := Option.isSome_iff_exists.mp (hall s hs)
  rw [hc, hb]

example : maskTimes [(10, some (0, 10)), (20, some (10, 20))] = [5, 5] := by decide +kernel

/-- Without bounds each slice has its own time. -/
theorem C163_times (times : List (ℤ × Option (ℤ × ℤ))) (h : ∀ t ∈ times, t.2 = none) :
    maskTimes times = times.map (·.1) := by
  unfold maskTimes
  refine List.map_congr_left fun t ht => ?_
  rw [h t ht]

/-! ## Clear sky irradiance -/

theorem extraTerrestrial_bounds (d : ℤ) : 1322 < extraTerrestrial d ∧ extraTerrestrial d < 1413 := by
  unfold extraTerrestrial
  have h1 := cos_le_one (2 * π * d / 365)
  have h2 := neg_one_le_cos (2 * π * d / 365)
  constructor <;> nlinarith

/-- The irradiance is never negative nor above that at the top of the atmosphere (itself between 1322 and 1413 W m-2), and is
zero exactly when the sun is not above the horizon. -/
theorem C164_range {zenith altitude turbidity : ℝ} {d : ℤ} (ha : -17000 ≤ altitude) (hz0 : 0 ≤ zenith) (hz : zenith ≤ 180) :
    0 ≤ clearSky zenith d altitude turbidity ∧ clearSky zenith d altitude turbidity ≤ extraTerrestrial d ∧
    (clearSky zenith d altitude turbidity = 0 ↔ 90 ≤ zenith) := by
  obtain ⟨e1, e2⟩ := extraTerrestrial_bounds d
  unfold clearSky
  dsimp only
  have hcg : 0 < 0.0000509 * altitude + 0.868 := by linarith
  have hexp := exp_pos (-1 * (0.0000392 * altitude + 0.0387) * airMass zenith *
    (Real.exp (-1 * altitude / 8000) + Real.exp (-1 * altitude / 1250) * (turbidity - 1)))
  generalize Real.exp (-1 * (0.0000392 * altitude + 0.0387) * airMass zenith *
    (Real.exp (-1 * altitude / 8000) + Real.exp (-1 * altitude / 1250) * (turbidity - 1))) = x at *
  generalize 0.0000509 * altitude + 0.868 = c at *
  generalize extraTerrestrial d = E at *
  have hE : 0 < E := by linarith
  have hcos : (90 ≤ zenith → max (Real.cos (radians zenith)) 0 = 0) ∧
      (zenith < 90 → 0 < max (Real.cos (radians zenith)) 0) := by
    constructor
    · intro h
      apply max_eq_right
      have h3 := radians_le h
      have h4 := radians_le hz
      have e3 : radians 180 = π := by unfold radians; ring
      rw [radians_90] at h3
      rw [e3] at h4
      exact cos_nonpos_of_pi_div_two_le_of_le h3 (by linarith [pi_pos])
    · intro h
      have h3 := radians_lt h
      have h4 := radians_le hz0
      have e3 : radians 0 = 0 := by unfold radians; ring
      rw [radians_90] at h3
      rw [e3] at h4
      exact lt_max_of_lt_left (cos_pos_of_mem_Ioo ⟨by linarith [pi_pos], h3⟩)
  have hm : 0 ≤ max (Real.cos (radians zenith)) 0 := le_max_right _ _
  refine ⟨le_min (by positivity) hE.le, min_le_right _ _, ?_⟩
  constructor
  · intro h
    by_contra hcon
    have := hcos.2 (not_le.mp hcon)
    have h5 : 0 < min (c * E * max (Real.cos (radians zenith)) 0 * x) E := lt_min (by positivity) hE
    linarith
  · intro h
    rw [hcos.1 h, mul_zero, zero_mul]
    exact min_eq_left hE.le

theorem airMass_nonneg {zenith : ℝ} (hz0 : 0 ≤ zenith) : 0 ≤ airMass zenith := by
  unfold airMass
  by_cases h : |zenith| ≥ 90
  · rw [if_pos h]
  · rw [if_neg h]
    push Not at h
    rw [abs_of_nonneg hz0] at h
    have h3 := radians_lt h
    have h4 := radians_le hz0
    have e3 : radians 0 = 0 := by unfold radians; ring
    rw [radians_90] at h3
    rw [e3] at h4
    have hc := cos_pos_of_mem_Ioo ⟨by linarith [pi_pos], h3⟩
    have hb : (0 : ℝ) ≤ (96.07995 - zenith) ^ (-1.6364 : ℝ) := rpow_nonneg (by linarith) _
    positivity

/-- A more turbid atmosphere never gives more radiation. -/
theorem C164_turbidity {zenith altitude t1 t2 : ℝ} {d : ℤ} (ha : -900 ≤ altitude) (hz0 : 0 ≤ zenith) (h : t1 ≤ t2) :
    clearSky zenith d altitude t2 ≤ clearSky zenith d altitude t1 := by
  obtain ⟨e1, e2⟩ := extraTerrestrial_bounds d
  unfold clearSky
  dsimp only
  have hm := airMass_nonneg hz0
  have hf := exp_pos (-1 * altitude / 1250)
  have hcg2 : 0 ≤ 0.0000392 * altitude + 0.0387 := by linarith
  have hcg : 0 ≤ 0.0000509 * altitude + 0.868 := by linarith
  have hcos : 0 ≤ max (Real.cos (radians zenith)) 0 := le_max_right _ _
  generalize Real.exp (-1 * altitude / 1250) = f2 at *
  generalize Real.exp (-1 * altitude / 8000) = f1 at *
  generalize max (Real.cos (radians zenith)) 0 = cz at *
  generalize airMass zenith = m at *
  apply min_le_min_right
  apply mul_le_mul_of_nonneg_left _ (mul_nonneg (mul_nonneg hcg (by linarith)) hcos)
  apply exp_le_exp.mpr
  have : 0 ≤ (0.0000392 * altitude + 0.0387) * m * (f2 * (t2 - t1)) :=
    mul_nonneg (mul_nonneg hcg2 hm) (mul_nonneg hf.le (by linarith))
  nlinarith

/-! ## Clear sky radiation -/

/-- Times are given exactly when the period is a whole number of steps; they run from the start of the period to its end in
equal steps. -/
theorem C165_times {time period spacing : ℤ} (hp : 0 ≤ period) (hs : 0 < spacing) :
    ((∃ ts, irradianceTimes time period spacing = .ok ts) ↔ spacing ∣ period * 60) ∧
    ∀ ts, irradianceTimes time period spacing = .ok ts →
      ts.head? = some (time - period * 3600000000) ∧ ts.getLast? = some time ∧
      (∀ (i : ℕ) (a b : ℤ), ts[i]? = some a → ts[i + 1]? = some b → b - a = spacing * 60000000) ∧
      ((ts.length : ℤ) - 1) * spacing = period * 60 := by
  have hu : irradianceTimes time period spacing = if period * 60 % spacing ≠ 0 then .error "ValueError: must be integer multiple of temporal_spacing"
      else .ok ((List.range ((period * 60 / spacing) + 1).toNat).map fun i : ℕ => time - period * 3600000000 + i * (spacing * 60000000)) := by
    unfold irradianceTimes
    rw [if_neg (by omega)]
  rw [hu]
  by_cases h : period * 60 % spacing ≠ 0
  · rw [if_pos h]
    refine ⟨⟨fun ⟨ts, ht⟩ => (nomatch ht), fun hd => absurd (Int.emod_eq_zero_of_dvd hd) h⟩, fun ts ht => (nomatch ht)⟩
  · rw [if_neg h]
    push Not at h
    obtain ⟨n, hn⟩ := Int.dvd_of_emod_eq_zero h
    have hq : period * 60 / spacing = n := by rw [hn]; exact Int.mul_ediv_cancel_left _ (by omega)
    have hn0 : 0 ≤ n := by
      by_contra hc
      have := mul_neg_of_pos_of_neg hs (not_le.mp hc)
      omega
    obtain ⟨m, rfl⟩ := Int.eq_ofNat_of_zero_le hn0
    rw [hq, show ((m : ℤ) + 1).toNat = m + 1 by omega]
    refine ⟨⟨fun _ => ⟨m, hn⟩, fun _ => ⟨_, rfl⟩⟩, fun ts ht => ?_⟩
    rw [← Except.ok.inj ht]
    refine ⟨?_, ?_, ?_, ?_⟩
    · rw [List.head?_map, List.range_succ_eq_map]; simp
    · rw [List.getLast?_map, List.getLast?_range]
      simp only [Nat.add_one_ne_zero, if_false, Nat.add_one_sub_one, Option.map_some, Option.some.injEq]
      have : (m : ℤ) * (spacing * 60000000) = (spacing * m) * 60000000 := by ring
      rw [this, ← hn]
      ring
    · intro i a b ha hb
      rw [List.getElem?_map] at ha hb
      obtain ⟨x, hx, rfl⟩ := Option.map_eq_some_iff.mp ha
      obtain ⟨y, hy, rfl⟩ := Option.map_eq_some_iff.mp hb
      obtain ⟨_, rfl⟩ := List.getElem?_eq_some_iff.mp hx
      obtain ⟨_, rfl⟩ := List.getElem?_eq_some_iff.mp hy
      simp only [List.getElem_range]
      push_cast
      ring
    · rw [List.length_map, List.length_range, hn]
      push_cast
      ring

theorem trapz_append (dx x : ℝ) (l1 l2 : List ℝ) : trapz dx (l1 ++ x :: l2) = trapz dx (l1 ++ [x]) + trapz dx (x :: l2) := by
  induction l1 with
  | nil => simp [trapz]
  | cons a t ih =>
    cases t with
    | nil => simp [trapz]
    | cons b t =>
      simp only [List.cons_append, trapz] at ih ⊢
      rw [ih]
      ring

theorem trapz_bounds {dx M : ℝ} (hdx : 0 ≤ dx) (l : List ℝ) (h : ∀ x ∈ l, 0 ≤ x ∧ x ≤ M) (hne : l ≠ []) :
    0 ≤ trapz dx l ∧ trapz dx l ≤ dx * M * ((l.length : ℝ) - 1) := by
  induction l with
  | nil => exact absurd rfl hne
  | cons a t ih =>
    cases t with
    | nil => simp [trapz]
    | cons b t =>
      obtain ⟨i1, i2⟩ := ih (fun x hx => h x (List.mem_cons_of_mem _ hx)) (by simp)
      have ha := h a List.mem_cons_self
      have hb := h b (List.mem_cons_of_mem _ List.mem_cons_self)
      simp only [trapz, List.length_cons] at i1 i2 ⊢
      push_cast at i2 ⊢
      constructor
      · have := mul_nonneg hdx (add_nonneg ha.1 hb.1)
        linarith
      · have := mul_le_mul_of_nonneg_left (add_le_add ha.2 hb.2) hdx
        nlinarith

theorem trapz_zero (dx : ℝ) (l : List ℝ) (h : ∀ x ∈ l, x = 0) : trapz dx l = 0 := by
  induction l with
  | nil => rfl
  | cons a t ih =>
    cases t with
    | nil => rfl
    | cons b t =>
      simp only [trapz]
      rw [ih fun x hx => h x (List.mem_cons_of_mem _ hx), h a List.mem_cons_self, h b (List.mem_cons_of_mem _ List.mem_cons_self)]
      ring

theorem mapM_all_ok {α β : Type} (f : α → Except String β) (g : α → β) (l : List α) (h : ∀ a ∈ l, f a = .ok (g a)) :
    l.mapM f = .ok (l.map g) := by
  induction l with
  | nil => rfl
  | cons a t ih =>
    rw [List.mapM_cons, h a List.mem_cons_self, ih fun b hb => h b (List.mem_cons_of_mem _ hb)]
    rfl

/-- A calendar: every day is the first to the 366th of its year. -/
def Spec.calendar (yday : ℤ → ℤ) : Prop := ∀ n, 1 ≤ yday n ∧ yday n ≤ 366

/-- At every time an irradiance is given, between 0 and 1413 W m-2, and 0 when the sun is not up. -/
theorem C165_irradiance {yday : ℤ → ℤ} (hy : Spec.calendar yday) {lat lon altitude turbidity : ℝ} (h1 : -90 ≤ lat) (h2 : lat ≤ 90)
    (ha : -17000 ≤ altitude) (us : ℤ) :
    ∃ v el, irradianceAt yday lat lon altitude turbidity us = .ok v ∧
      solarElevation lat lon (dayOfYear yday us) (hourOfDay us) false = .ok el ∧ 0 ≤ v ∧ v ≤ 1413 ∧ (v = 0 ↔ el ≤ 0) := by
  obtain ⟨el, he, -, -, -, e1, e2⟩ := C162_elevation (lon := lon) h1 h2 (C161_never_refused yday hy us)
  obtain ⟨r1, r2, r3⟩ := C164_range (d := dayOfYear yday us) (turbidity := turbidity) ha (by linarith : 0 ≤ 90 - el) (by linarith)
  refine ⟨clearSky (90 - el) (dayOfYear yday us) altitude turbidity, el, ?_, he, r1,
    r2.trans (extraTerrestrial_bounds _).2.le, ?_⟩
  · unfold irradianceAt
    rw [he]
  · rw [r3]
    constructor <;> intro h <;> linarith

/-- The irradiance as a function of time, 0 where there is none. -/
noncomputable def Spec.irradiance (yday : ℤ → ℤ) (lat lon altitude turbidity : ℝ) (us : ℤ) : ℝ :=
  match irradianceAt yday lat lon altitude turbidity us with
  | .ok v => v
  | .error _ => 0

theorem irradianceAt_spec {yday : ℤ → ℤ} (hy : Spec.calendar yday) {lat lon altitude turbidity : ℝ} (h1 : -90 ≤ lat) (h2 : lat ≤ 90)
    (us : ℤ) : irradianceAt yday lat lon altitude turbidity us = .ok (Spec.irradiance yday lat lon altitude turbidity us) := by
  obtain ⟨el, he, -⟩ := C162_elevation (lon := lon) h1 h2 (C161_never_refused yday hy us)
  unfold Spec.irradiance irradianceAt
  rw [he]

theorem radiation_eq {yday : ℤ → ℤ} (hy : Spec.calendar yday) {lat lon : ℝ} {altitude turbidity : Option ℝ} (h1 : -90 ≤ lat)
    (h2 : lat ≤ 90) {time period spacing : ℤ} (n : ℕ) (hs : 0 < spacing) (hn : period * 60 = spacing * n) :
    clearSkyRadiation yday lat lon altitude turbidity time period spacing =
      .ok (trapz (60 * spacing) ((List.range (n + 1)).map fun i : ℕ =>
        Spec.irradiance yday lat lon (altitude.getD 0) (turbidity.getD 3) (time - period * 3600000000 + i * (spacing * 60000000)))) := by
  unfold clearSkyRadiation irradianceTimes
  rw [if_neg (by omega), if_neg (by rw [hn]; simp), hn, Int.mul_ediv_cancel_left _ (by omega : spacing ≠ 0)]
  dsimp only
  rw [show ((n : ℤ) + 1).toNat = n + 1 by omega, mapM_all_ok _ (Spec.irradiance yday lat lon (altitude.getD 0) (turbidity.getD 3))
    _ (fun a _ => irradianceAt_spec hy h1 h2 a), List.map_map]
  rfl

/-- For a period of whole steps the radiation is given; it is not negative, at most 1413 W m-2 over the whole period, and 0 if
the sun is never up at the times used. -/
theorem C165_radiation {yday : ℤ → ℤ} (hy : Spec.calendar yday) {lat lon : ℝ} {altitude turbidity : Option ℝ} (h1 : -90 ≤ lat)
    (h2 : lat ≤ 90) (ha : ∀ a, altitude = some a → -17000 ≤ a) {time period spacing : ℤ} (hp : 0 ≤ period) (hs : 0 < spacing)
    (hd : spacing ∣ period * 60) :
    ∃ r, clearSkyRadiation yday lat lon altitude turbidity time period spacing = .ok r ∧ 0 ≤ r ∧ r ≤ 1413 * (3600 * period) ∧
      ((∀ us, time - period * 3600000000 ≤ us → us ≤ time → ∃ el,
        solarElevation lat lon (dayOfYear yday us) (hourOfDay us) false = .ok el ∧ el ≤ 0) → r = 0) := by
  obtain ⟨n, hn⟩ := hd
  have hn0 : 0 ≤ n := by
    by_contra hc
    have := mul_neg_of_pos_of_neg hs (not_le.mp hc)
    omega
  obtain ⟨m, rfl⟩ := Int.eq_ofNat_of_zero_le hn0
  have halt : -17000 ≤ altitude.getD 0 := by
    cases altitude with
    | none => norm_num
    | some a => exact ha a rfl
  refine ⟨_, radiation_eq hy h1 h2 m hs hn, ?_⟩
  have hsr : (0 : ℝ) < spacing := by exact_mod_cast hs
  have hb : ∀ us, 0 ≤ Spec.irradiance yday lat lon (altitude.getD 0) (turbidity.getD 3) us ∧
      Spec.irradiance yday lat lon (altitude.getD 0) (turbidity.getD 3) us ≤ 1413 ∧
      ((∃ el, solarElevation lat lon (dayOfYear yday us) (hourOfDay us) false = .ok el ∧ el ≤ 0) →
        Spec.irradiance yday lat lon (altitude.getD 0) (turbidity.getD 3) us = 0) := by
    intro us
    obtain ⟨v, el, hv, hel, v1, v2, v3⟩ := C165_irradiance (turbidity := turbidity.getD 3) (lon := lon) hy h1 h2 halt us
    have := irradianceAt_spec (turbidity := turbidity.getD 3) (altitude := altitude.getD 0) (lon := lon) hy h1 h2 us
    rw [hv] at this
    have e := Except.ok.inj this
    rw [← e]
    refine ⟨v1, v2, ?_⟩
    rintro ⟨el', h3, h4⟩
    rw [hel] at h3
    rw [v3, Except.ok.inj h3]
    exact h4
  obtain ⟨t1, t2⟩ := trapz_bounds (dx := 60 * spacing) (M := 1413) (by positivity) ((List.range (m + 1)).map fun i : ℕ =>
        Spec.irradiance yday lat lon (altitude.getD 0) (turbidity.getD 3) (time - period * 3600000000 + i * (spacing * 60000000)))
    (by
      intro x hx
      obtain ⟨i, -, rfl⟩ := List.mem_map.mp hx
      exact ⟨(hb _).1, (hb _).2.1⟩) (by simp)
  refine ⟨t1, t2.trans (le_of_eq ?_), ?_⟩
  · rw [List.length_map, List.length_range]
    have : (period : ℝ) * 60 = spacing * m := by exact_mod_cast hn
    push_cast
    linear_combination (-60 * 1413) * this
  · intro hnight
    apply trapz_zero
    intro x hx
    obtain ⟨i, hi, rfl⟩ := List.mem_map.mp hx
    apply (hb _).2.2
    have him : (i : ℤ) ≤ m := by have := List.mem_range.mp hi; omega
    have hle : (i : ℤ) * spacing ≤ m * spacing := mul_le_mul_of_nonneg_right him hs.le
    have hge : 0 ≤ (i : ℤ) * spacing := by positivity
    apply hnight
    · have : (i : ℤ) * (spacing * 60000000) = i * spacing * 60000000 := by ring
      rw [this]; omega
    · have : (i : ℤ) * (spacing * 60000000) = i * spacing * 60000000 := by ring
      have h3 : (m : ℤ) * spacing = spacing * m := by ring
      rw [this]; omega

/-- Radiation adds up: that of two adjoining periods is that of both together. -/
theorem C165_additive {yday : ℤ → ℤ} (hy : Spec.calendar yday) {lat lon : ℝ} {altitude turbidity : Option ℝ} (h1 : -90 ≤ lat)
    (h2 : lat ≤ 90) {time p1 p2 spacing : ℤ} (hp1 : 0 ≤ p1) (hp2 : 0 ≤ p2) (hs : 0 < spacing)
    (hd1 : spacing ∣ p1 * 60) (hd2 : spacing ∣ p2 * 60) :
    ∃ r1 r2, clearSkyRadiation yday lat lon altitude turbidity (time - p2 * 3600000000) p1 spacing = .ok r1 ∧
      clearSkyRadiation yday lat lon altitude turbidity time p2 spacing = .ok r2 ∧
      clearSkyRadiation yday lat lon altitude turbidity time (p1 + p2) spacing = .ok (r1 + r2) := by
  have nat : ∀ p : ℤ, 0 ≤ p → spacing ∣ p * 60 → ∃ m : ℕ, p * 60 = spacing * m := by
    rintro p hp ⟨n, hn⟩
    have hn0 : 0 ≤ n := by
      by_contra hc
      have := mul_neg_of_pos_of_neg hs (not_le.mp hc)
      omega
    obtain ⟨m, rfl⟩ := Int.eq_ofNat_of_zero_le hn0
    exact ⟨m, hn⟩
  obtain ⟨n1, e1⟩ := nat p1 hp1 hd1
  obtain ⟨n2, e2⟩ := nat p2 hp2 hd2
  have e12 : (p1 + p2) * 60 = spacing * ((n1 + n2 : ℕ) : ℤ) := by push_cast; linear_combination e1 + e2
  refine ⟨_, _, radiation_eq hy h1 h2 n1 hs e1, radiation_eq hy h1 h2 n2 hs e2, ?_⟩
  rw [radiation_eq hy h1 h2 (n1 + n2) hs e12]
  congr 1
  generalize hf : Spec.irradiance yday lat lon (altitude.getD 0) (turbidity.getD 3) = f
  have r1 : List.range (n1 + n2 + 1) = List.range n1 ++ (List.range (n2 + 1)).map (n1 + ·) := by
    rw [show n1 + n2 + 1 = n1 + (n2 + 1) by omega, List.range_add]
  have r2 : ∀ g : ℕ → ℝ, (List.range (n2 + 1)).map g = g 0 :: (List.range n2).map fun i => g (i + 1) := by
    intro g
    rw [List.range_succ_eq_map, List.map_cons, List.map_map]
    rfl
  have hstep : ∀ i : ℕ, time - (p1 + p2) * 3600000000 + ((n1 + i : ℕ) : ℤ) * (spacing * 60000000) =
      time - p2 * 3600000000 + i * (spacing * 60000000) := by
    intro i
    push_cast
    linear_combination (-60000000) * e1
  have hstart : time - p2 * 3600000000 - p1 * 3600000000 = time - (p1 + p2) * 3600000000 := by ring
  rw [r1, List.map_append, List.map_map]
  have hA : (List.map ((fun i : ℕ => f (time - (p1 + p2) * 3600000000 + (i : ℤ) * (spacing * 60000000))) ∘ fun x => n1 + x)
      (List.range (n2 + 1))) = (List.range (n2 + 1)).map fun i : ℕ => f (time - p2 * 3600000000 + i * (spacing * 60000000)) := by
    refine List.map_congr_left fun i _ => ?_
    simp only [Function.comp_apply]
    rw [hstep]
  rw [hA, r2, trapz_append]
  congr 1
  rw [List.range_succ, List.map_append, hstart]
  congr 2
  simp only [List.map_cons, List.map_nil, List.cons.injEq, and_true]
  have := hstep 0
  rw [Nat.add_zero] at this
  rw [this]

/-- The conditions are met by six hours in half hourly steps. -/
example : Spec.calendar (fun n => n % 365 + 1) ∧ ∃ ts, irradianceTimes 0 6 30 = .ok ts ∧ ts.length = 13 := by
  refine ⟨fun n => by dsimp only; omega, ?_⟩
  exact ⟨_, rfl, by decide +kernel⟩

end Improver
