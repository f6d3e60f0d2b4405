import Verif.Model.Psychro

/-!
Model of improver/feels_like_temperature.py, improver/uv_index.py,
improver/psychrometric_calculations/precip_phase_probability.py,
improver/psychrometric_calculations/significant_phase_mask.py and
improver/precipitation_type/calculate_sleet_prob.py.

Floating point arithmetic is replaced by the reals.  Cubes are reduced to the names and data used.
-/

namespace Improver

/-! ## Feels-like temperature -/

/-- `_calculate_wind_chill` (feels_like_temperature.py:22-85): Celsius and km/h. -/
noncomputable def windChill (t wind : ℝ) : ℝ :=
  let e := (max wind 4.824) ^ (0.16 : ℝ)
  13.12 + 0.6215 * t - 11.37 * e + 0.3965 * t * e

/-- `_calculate_apparent_temperature` (feels_like_temperature.py:88-131): Celsius and m/s. -/
noncomputable def apparentT (t wind rh p : ℝ) : ℝ :=
  let avp := 0.001 * svpInAir (t + 273.15) p * rh
  (-2.7) + 1.04 * t + 2.0 * avp - 0.65 * wind

open Classical in
/-- `_feels_like_temperature` (feels_like_temperature.py:134-169). -/
noncomputable def feelsLikeOf (t apparent chill : ℝ) : ℝ :=
  let f0 : ℝ := if t < 10 then chill else 0
  let alpha := (t - 10) / 10
  let f1 := if t ≥ 10 ∧ t ≤ 20 then alpha * apparent + (1 - alpha) * chill else f0
  if t > 20 then apparent else f1

/-- `calculate_feels_like_temperature` (feels_like_temperature.py:172-234) for inputs already in Celsius, m/s, Pa and 1; the
wind is converted to km/h for the wind chill. -/
noncomputable def feelsLike (t wind rh p : ℝ) : ℝ :=
  feelsLikeOf t (apparentT t wind rh p) (windChill t (wind * 3.6))

/-! ## UV index -/

/-- `uv_down.data < 0` (uv_index.py:67); NaN compares false. -/
def negativeFlux : Option ℚ → Bool
  | some x => decide (x < 0)
  | none => false

/-- `calculate_uv_index` (uv_index.py:19-83): `none` is NaN. -/
def uvIndex (name : String) (scale : ℚ) (data : List (Option ℚ)) : Except String (List ℚ) :=
  if name ≠ "surface_downwelling_ultraviolet_flux_in_air" then .error "ValueError: wrong name"
  else if data.any negativeFlux || data.any (·.isNone) then
    .error "ValueError: negative or NaN"
  else .ok ((data.filterMap id).map (· * scale))

/-! ## Phase of precipitation at the surface -/

/-- A cube as `PrecipPhaseProbability` sees it: name, percentiles if it has that coordinate (one field each), its data
otherwise, and for "grid_neighbours" the altitudes of the sites as data. -/
structure LevelField where
  name : String
  percentiles : Option (List (ℚ × List ℚ))
  data : List ℚ
  deriving DecidableEq

/-- `definitions` (precip_phase_probability.py:89-93) in order: diagnostic, whether snow's `>=` is used, percentile. -/
def phaseDefs : List (String × Bool × ℚ) := [("snow", true, 80), ("rain", false, 20), ("rain_from_hail", false, 20)]

/-- The falling level data for a definition (precip_phase_probability.py:105-118). -/
def fallingData (pct : ℚ) (c : LevelField) : Except String (List ℚ) :=
  match c.percentiles with
  | none => .ok c.data
  | some l =>
    match l.find? (fun x => decide (x.1 = pct)) with
    | some x => .ok x.2
    | none => .error "ValueError: does not contain the required percentile"

/-- The altitudes (precip_phase_probability.py:120-133). -/
def phaseAltitudes (cubes : List LevelField) : Except String (List ℚ) :=
  match cubes.find? (fun c => decide (c.name = "surface_altitude")) with
  | some c => .ok c.data
  | none =>
    match cubes.find? (fun c => decide (c.name = "grid_neighbours")) with
    | some c => .ok c.data
    | none => .error "ValueError: Could not extract surface_altitude"

/-- The first definition for which there is a falling level cube (precip_phase_probability.py:95-104). -/
def phaseDefOf (cubes : List LevelField) : Option ((String × Bool × ℚ) × LevelField) :=
  phaseDefs.findSome? fun d =>
    (cubes.find? fun c => decide (c.name = "altitude_of_" ++ d.1 ++ "_falling_level")).map fun c => (d, c)

/-- `np.where(comparator(altitudes, level), 1, 0)` (precip_phase_probability.py:170-172). -/
def surfacePhase (isSnow : Bool) (altitude level : ℚ) : ℤ :=
  if isSnow then (if altitude ≥ level then 1 else 0) else (if altitude < level then 1 else 0)

/-- `PrecipPhaseProbability.process` (precip_phase_probability.py:139-182): name of the result and its data.  The check that
the grids match is the parameter `gridsMatch`; units are taken to agree. -/
def phaseProbability (gridsMatch : Bool) (cubes : List LevelField) : Except String (String × List ℤ) :=
  if cubes.length ≠ 2 then .error "ValueError: Expected 2 cubes"
  else if !gridsMatch then .error "ValueError: Spatial coords mismatch"
  else
    match phaseDefOf cubes with
    | none => .error "ValueError: Could not extract a falling-level cube"
    | some (d, c) => do
      let level ← fallingData d.2.2 c
      let alt ← phaseAltitudes cubes
      .ok ("probability_of_" ++ d.1 ++ "_at_surface", List.zipWith (surfacePhase d.2.1) alt level)

/-- `calculate_sleet_probability` (calculate_sleet_prob.py:16-47). -/
def sleetProbability (snow rain : List ℚ) : Except String (List ℚ) :=
  let s := List.zipWith (fun a b => 1 - (a + b)) snow rain
  if s.any (fun x => decide (x < 0)) then .error "ValueError: Negative values of sleet probability" else .ok s

/-! ## Masks of the significant phase -/

/-- Errors of `SignificantPhaseMask`. -/
inductive PhaseMaskErr
  | wrongName | wrongUnits | notImplemented | outOfRange | keyError
  deriving DecidableEq

/-- `_validate_snow_fraction` (significant_phase_mask.py:47-71). -/
def validateFraction (name units : String) (masked : Bool) (data : List ℚ) : Except PhaseMaskErr Unit :=
  if name ≠ "snow_fraction" then .error .wrongName
  else if units ≠ "1" then .error .wrongUnits
  else if masked then .error .notImplemented
  else if data.any (fun x => decide (x < 0) || decide (x > 1)) then .error .outOfRange
  else .ok ()

/-- `_rain_phase`, `_sleet_phase` and `_snow_phase` (significant_phase_mask.py:73-88). -/
def phaseOperator (phase : String) : Option (ℚ → ℤ) :=
  if phase = "rain" then some fun x => if x ≤ 1 / 100 then 1 else 0
  else if phase = "sleet" then some fun x => if 1 / 100 < x ∧ x < 99 / 100 then 1 else 0
  else if phase = "snow" then some fun x => if x ≥ 99 / 100 then 1 else 0
  else none

/-- `SignificantPhaseMask.process` (significant_phase_mask.py:90-122): name and data. -/
def phaseMask (name units : String) (masked : Bool) (data : List ℚ) (phase : String) :
    Except PhaseMaskErr (String × List ℤ) :=
  match validateFraction name units masked data with
  | .error e => .error e
  | .ok () =>
    match phaseOperator phase with
    | none => .error .keyError
    | some f => .ok (phase ++ "_mask", data.map f)

end Improver
