import Mathlib.Analysis.SpecialFunctions.Trigonometric.Arctan
import Mathlib.Analysis.SpecialFunctions.Pow.Real

/-!
Model of improver/utilities/solar.py and improver/generate_ancillaries/generate_derived_solar_fields.py.

Floating point arithmetic is replaced by the reals.  A datetime is a whole number of microseconds since an epoch at midnight;
the calendar is the parameter `yday`, the `tm_yday` of each day counted from the epoch.  Calculations act point by point and
are modelled at one point.  Cube building and the conversion of projected coordinates to latitude and longitude are left out.
-/

namespace Improver

/-- Microseconds in a day. -/
def dayUs : ℤ := 86400000000

/-- `get_day_of_year` (solar.py:23-33). -/
def dayOfYear (yday : ℤ → ℤ) (us : ℤ) : ℤ := yday (us / dayUs) - 1

/-- `rounded_time` (solar.py:53): `time.second` seconds later. -/
def roundedTime (us : ℤ) : ℤ := us + us / 1000000 % 60 * 1000000

/-- `get_hour_of_day` (solar.py:36-60).  At most 59 s are added, so that `day` differs exactly when the date does. -/
noncomputable def hourOfDay (us : ℤ) : ℝ :=
  let r := roundedTime us
  if r / dayUs ≠ us / dayUs then 24
  else
    let s := r % dayUs / 1000000
    (((s / 3600 * 60 + s / 60 % 60 : ℤ) : ℝ)) / 60

/-- Degrees to radians. -/
noncomputable def radians (x : ℝ) : ℝ := x * Real.pi / 180

/-- Radians to degrees. -/
noncomputable def degrees (x : ℝ) : ℝ := x * 180 / Real.pi

/-- `calc_solar_declination` for a valid day (solar.py:83). -/
noncomputable def declinationOf (d : ℤ) : ℝ := -23.5 * Real.cos (radians (0.9856 * d + 9.3))

/-- The equation of time in radians (solar.py:121-128). -/
noncomputable def equationOfTime (d : ℤ) : ℝ :=
  let th := 2 * Real.pi * d / 365
  0.000075 + 0.001868 * Real.cos th - 0.032077 * Real.sin th - 0.014615 * Real.cos (2 * th) - 0.040849 * Real.sin (2 * th)

/-- `calc_solar_time` for valid arguments (solar.py:121-138); `%` of floats with a positive divisor. -/
noncomputable def solarTimeOf (lon : ℝ) (d : ℤ) (hour : ℝ) (normalise : Bool) : ℝ :=
  let t := hour + 24 * lon / 360 + equationOfTime d * 12 / Real.pi
  if normalise then t - 24 * ⌊t / 24⌋ else t

/-- `calc_solar_hour_angle` (solar.py:141-164), degrees. -/
noncomputable def hourAngleOf (lon : ℝ) (d : ℤ) (hour : ℝ) : ℝ := (solarTimeOf lon d hour false - 12) * 15

/-- The sine of the elevation (solar.py:204-213). -/
noncomputable def sineElevation (lat lon : ℝ) (d : ℤ) (hour : ℝ) : ℝ :=
  let decl := radians (declinationOf d)
  let h := radians (hourAngleOf lon d hour)
  let l := radians lat
  Real.sin decl * Real.sin l + Real.cos decl * Real.cos l * Real.cos h

open Classical in
/-- The checks of day and hour (solar.py:80-82, 115-120, 198-203, 239-244). -/
noncomputable def solarChecks (d : ℤ) (hour : ℝ) : Except String Unit :=
  if d < 0 ∨ d > 365 then .error "ValueError: Day of the year must be between 0 and 365"
  else if hour < 0 ∨ hour > 24 then .error "ValueError: Hour must be between 0 and 24.0"
  else .ok ()

open Classical in
/-- `calc_solar_elevation` (solar.py:167-217) at one point, in degrees or as a sine. -/
noncomputable def solarElevation (lat lon : ℝ) (d : ℤ) (hour : ℝ) (sine : Bool) : Except String ℝ :=
  if lat < -90 ∨ lat > 90 then .error "ValueError: Latitudes must be between -90.0 and 90.0"
  else
    match solarChecks d hour with
    | .error e => .error e
    | .ok () =>
      let s := sineElevation lat lon d hour
      .ok (if sine then s else degrees (Real.arcsin s))

/-- `daynight_terminator` for valid arguments (solar.py:245-251).  A declination of 0, where numpy gives an infinity, does not
occur for whole days (`declination_ne_zero`). -/
noncomputable def terminatorOf (lon : ℝ) (d : ℤ) (hour : ℝ) : ℝ :=
  degrees (Real.arctan (-Real.cos (radians (hourAngleOf lon d hour)) / Real.tan (radians (declinationOf d))))

open Classical in
/-- `_daynight_lat_lon_cube` (solar.py:321-356) at one point: true for day. -/
noncomputable def dayLatLon (lat lon : ℝ) (d : ℤ) (hour : ℝ) : Bool :=
  if declinationOf d > 0 then decide (lat ≥ terminatorOf lon d hour) else decide (lat < terminatorOf lon d hour)

open Classical in
/-- The mask on a grid that is not latitude-longitude (solar.py:405-408) at one point: true for day. -/
noncomputable def dayProjected (lat lon : ℝ) (d : ℤ) (hour : ℝ) : Bool :=
  decide (degrees (Real.arcsin (sineElevation lat lon d hour)) > 0)

/-- The time used for each slice of `DayNightMask.process` (solar.py:395-400), a time being its point and perhaps its bounds;
note that the bounds are those of the first time of the whole cube.  Half a microsecond is rounded down. -/
def maskTimes (times : List (ℤ × Option (ℤ × ℤ))) : List ℤ :=
  times.map fun t =>
    match t.2 with
    | none => t.1
    | some _ =>
      match times.head?.bind (·.2) with
      | some b => b.1 + (b.2 - b.1) / 2
      | none => t.1

/-! ## Clear sky radiation -/

/-- `_irradiance_times` (generate_derived_solar_fields.py:197-235): period in hours, spacing in minutes. -/
def irradianceTimes (time period spacing : ℤ) : Except String (List ℤ) :=
  if spacing = 0 then .error "ZeroDivisionError"
  else if period * 60 % spacing ≠ 0 then .error "ValueError: must be integer multiple of temporal_spacing"
  else
    let start := time - period * 3600000000
    .ok ((List.range ((period * 60 / spacing) + 1).toNat).map fun i : ℕ => start + i * (spacing * 60000000))

open Classical in
/-- `_calc_optical_air_mass` (generate_derived_solar_fields.py:237-273). -/
noncomputable def airMass (zenith : ℝ) : ℝ :=
  if |zenith| ≥ 90 then 0
  else 1 / (Real.cos (radians zenith) + 0.50572 * (96.07995 - zenith) ^ (-1.6364 : ℝ))

/-- The irradiance at the top of the atmosphere (generate_derived_solar_fields.py:318-320). -/
noncomputable def extraTerrestrial (d : ℤ) : ℝ := 1367.7 * (1 + 0.033 * Real.cos (2 * Real.pi * d / 365))

/-- `_calc_clearsky_ineichen` (generate_derived_solar_fields.py:275-347). -/
noncomputable def clearSky (zenith : ℝ) (d : ℤ) (altitude turbidity : ℝ) : ℝ :=
  let fh1 := Real.exp (-1 * altitude / 8000)
  let fh2 := Real.exp (-1 * altitude / 1250)
  let cg1 := 0.0000509 * altitude + 0.868
  let cg2 := 0.0000392 * altitude + 0.0387
  let cosZ := max (Real.cos (radians zenith)) 0
  min (cg1 * extraTerrestrial d * cosZ * Real.exp (-1 * cg2 * airMass zenith * (fh1 + fh2 * (turbidity - 1))))
    (extraTerrestrial d)

/-- `np.trapz` of equally spaced values (generate_derived_solar_fields.py:407-409). -/
noncomputable def trapz (dx : ℝ) : List ℝ → ℝ
  | [] => 0
  | [_] => 0
  | a :: b :: l => dx * (a + b) / 2 + trapz dx (b :: l)

/-- The irradiance at one time (generate_derived_solar_fields.py:389-403). -/
noncomputable def irradianceAt (yday : ℤ → ℤ) (lat lon altitude turbidity : ℝ) (us : ℤ) : Except String ℝ :=
  match solarElevation lat lon (dayOfYear yday us) (hourOfDay us) false with
  | .error e => .error e
  | .ok el => .ok (clearSky (90 - el) (dayOfYear yday us) altitude turbidity)

/-- `GenerateClearskySolarRadiation.process` (generate_derived_solar_fields.py:349-411, 550-560) at one point, in W s m-2;
without a cube the altitude is 0 and the turbidity 3. -/
noncomputable def clearSkyRadiation (yday : ℤ → ℤ) (lat lon : ℝ) (altitude turbidity : Option ℝ) (time period spacing : ℤ) :
    Except String ℝ :=
  match irradianceTimes time period spacing with
  | .error e => .error e
  | .ok ts =>
    match ts.mapM (irradianceAt yday lat lon (altitude.getD 0) (turbidity.getD 3)) with
    | .error e => .error e
    | .ok values => .ok (trapz (60 * spacing) values)

end Improver
