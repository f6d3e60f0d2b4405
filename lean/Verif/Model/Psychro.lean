import Mathlib.Analysis.SpecialFunctions.Pow.Real
import Mathlib.Analysis.SpecialFunctions.Log.Base

/-!
Model of improver/psychrometric_calculations/psychrometric_calculations.py (lines 30-282, 318-342),
improver/generate_ancillaries/generate_svp_table.py and
improver/psychrometric_calculations/wet_bulb_temperature.py.

Floating point arithmetic is replaced by the reals; cube metadata is left out except for the vertical
coordinates used to slice the inputs.
-/

namespace Improver

/-! ## Saturated vapour pressure -/

/-- generate_svp_table.py:105-115: base-ten logarithm of the vapour pressure (hPa) over water. -/
noncomputable def goffWater (t : ℝ) : ℝ :=
  10.79574 * (1 - 273.16 / t)
    - 5.028 * Real.logb 10 (t / 273.16)
    + 1.50475e-4 * (1 - (10 : ℝ) ^ (-8.2969 * (t / 273.16 - 1)))
    + 0.42873e-3 * ((10 : ℝ) ^ (4.76955 * (1 - 273.16 / t)) - 1)
    + 0.78614

/-- generate_svp_table.py:116-121: base-ten logarithm of the vapour pressure (hPa) over ice. -/
noncomputable def goffIce (t : ℝ) : ℝ :=
  -9.09685 * (273.16 / t - 1)
    - 3.56654 * Real.logb 10 (273.16 / t)
    + 0.87682 * (1 - t / 273.16)
    + 0.78614

open Classical in
/-- `saturation_vapour_pressure_goff_gratch` at one temperature, in hPa (generate_svp_table.py:103-123). -/
noncomputable def goffGratch (t : ℝ) : ℝ :=
  (10 : ℝ) ^ (if 273.16 < t then goffWater t else goffIce t)

open Classical in
/-- Whether `saturation_vapour_pressure_goff_gratch` warns about its temperatures (generate_svp_table.py:96-101).
Being a warning it does not alter the values; an array without elements (an error in numpy) does not warn here. -/
noncomputable def goffWarns (ts : List ℝ) : Bool := ts.any fun t => decide (t > 373) || decide (t < 173)

/-- `np.arange(t_min, t_max + 0.5 * t_increment, t_increment)` (generate_svp_table.py:134-136). -/
noncomputable def svpTemps (tmin tmax inc : ℝ) : List ℝ :=
  (List.range ⌈(tmax + 0.5 * inc - tmin) / inc⌉₊).map fun i : ℕ => tmin + i * inc

/-- `SaturatedVapourPressureTable.process` (generate_svp_table.py:125-155): the table in Pa. -/
noncomputable def svpTableOf (tmin tmax inc : ℝ) : List ℝ :=
  (svpTemps tmin tmax inc).map fun t => 100 * goffGratch t

/-- psychrometric_calculations.py:30-32. -/
noncomputable def svpTMin : ℝ := 183.15
/-- psychrometric_calculations.py:30-32. -/
noncomputable def svpTMax : ℝ := 338.25
/-- psychrometric_calculations.py:30-32. -/
noncomputable def svpInc : ℝ := 0.1

/-- `_svp_table` (psychrometric_calculations.py:35-52). -/
noncomputable def svpTable : List ℝ := svpTableOf svpTMin svpTMax svpInc

/-- `np.clip(temperature, SVP_T_MIN, SVP_T_MAX - SVP_T_INCREMENT)` and the position in the table
(psychrometric_calculations.py:70-73). -/
noncomputable def svpPosition (t : ℝ) : ℝ := (min (max t svpTMin) (svpTMax - svpInc) - svpTMin) / svpInc

/-- `table_position.astype(int)` (psychrometric_calculations.py:74): truncation of a non-negative number. -/
noncomputable def svpIndex (t : ℝ) : ℕ := ⌊svpPosition t⌋₊

/-- `_svp_from_lookup` at one temperature (psychrometric_calculations.py:55-79).  Reading outside the table (which
would be an IndexError) gives 0 here; it is proved not to happen. -/
noncomputable def svpLookup (t : ℝ) : ℝ :=
  let f := svpPosition t - svpIndex t
  (1 - f) * svpTable.getD (svpIndex t) 0 + f * svpTable.getD (svpIndex t + 1) 0

/-- `calculate_svp_in_air` (psychrometric_calculations.py:82-104). -/
noncomputable def svpInAir (t p : ℝ) : ℝ :=
  let tc := t + (-273.15)
  svpLookup t * (1 + 1e-8 * p * (4.5 + 6e-4 * tc * tc))

/-- `EARTH_REPSILON` (constants.py). -/
noncomputable def repsilon : ℝ := 0.62198

/-- The quotient of `saturated_humidity` (psychrometric_calculations.py:181-183) for a vapour pressure `svp`. -/
noncomputable def satQuotient (svp p : ℝ) : ℝ := repsilon * svp / (max svp p - (1 - repsilon) * svp)

/-- `saturated_humidity` (psychrometric_calculations.py:161-183). -/
noncomputable def saturatedHumidity (t p : ℝ) : ℝ := satQuotient (svpInAir t p) p

/-- The data of `HumidityMixingRatio.process` (psychrometric_calculations.py:338-341). -/
noncomputable def humidityMixingRatio (t p rh : ℝ) : ℝ := saturatedHumidity t p * rh

/-! ## Dry adiabats -/

/-- `dry_adiabatic_temperature` (psychrometric_calculations.py:107-131). -/
noncomputable def dryTemperature (t0 p0 p1 : ℝ) : ℝ := t0 * (p1 / p0) ^ ((287 : ℝ) / 1005)

/-- `dry_adiabatic_pressure` (psychrometric_calculations.py:134-158). -/
noncomputable def dryPressure (t0 p0 t1 : ℝ) : ℝ := p0 * (t1 / t0) ^ ((1005 : ℝ) / 287)

/-! ## Latent heat -/

/-- `_calculate_latent_heat` (psychrometric_calculations.py:186-203). -/
noncomputable def latentHeat (t : ℝ) : ℝ := -1 * 2.34e3 * (t + (-273.15)) + 2.501e6

/-- `_latent_heat_release` (psychrometric_calculations.py:206-223). -/
noncomputable def latentRelease (q1 q2 t : ℝ) : ℝ := latentHeat t / 1005 * (q1 - q2)

/-- The function whose root is sought (psychrometric_calculations.py:260-266). -/
noncomputable def qsatDifferential (qs t q p : ℝ) : ℝ := saturatedHumidity (t + latentRelease q qs t) p - qs

open Classical in
/-- `adjust_for_latent_heat` at one point (psychrometric_calculations.py:268-282).  scipy's `newton` is not
modelled: `solve` gives, for each point, whatever value it stopped at. -/
noncomputable def adjustLatent (solve : (ℝ → ℝ) → ℝ → ℝ) (t q p : ℝ) : ℝ × ℝ :=
  let h := solve (fun qs => qsatDifferential qs t q p) q
  let t' := t + latentRelease q h t
  if t' < t then (t, q) else (t', h)

/-! ## Wet bulb temperature -/

/-- `_calculate_specific_heat` (wet_bulb_temperature.py:95-111). -/
noncomputable def specificHeat (r : ℝ) : ℝ := (-1 * r + 1) * 1005 + r * 1850

/-- `_calculate_enthalpy` (wet_bulb_temperature.py:113-145). -/
noncomputable def enthalpyOf (r c l t : ℝ) : ℝ := l * r + c * t

/-- `_calculate_enthalpy_gradient` (wet_bulb_temperature.py:147-175). -/
noncomputable def enthalpyGradient (r c l t : ℝ) : ℝ := r * l * l / (461.6 * t * t) + c

/-- numpy indexing by a boolean array: `a[mask]`. -/
def maskSelect {α : Type} (mask : List Bool) (a : List α) : List α :=
  ((mask.zip a).filter (·.1)).map (·.2)

/-- `delta_wbt` of one active point (wet_bulb_temperature.py:226-234). -/
noncomputable def wetDelta (w p c l h : ℝ) : ℝ :=
  let q := saturatedHumidity w p
  (h - enthalpyOf q c l w) / enthalpyGradient q c l w

/-- `delta_wbt` of the active points, from the parallel arrays (wet_bulb_temperature.py:226-234). -/
noncomputable def wetDeltas : List ℝ → List ℝ → List ℝ → List ℝ → List ℝ → List ℝ
  | w :: ws, p :: ps, c :: cs, l :: ls, h :: hs => wetDelta w p c l h :: wetDeltas ws ps cs ls hs
  | _, _, _, _, _ => []

/-- `wbt_data[to_update] += delta` (wet_bulb_temperature.py:239) for distinct indices. -/
noncomputable def addAt (wbt : ℕ → ℝ) (idx : List ℕ) (delta : List ℝ) : ℕ → ℝ :=
  (idx.zip delta).foldl (fun w id => Function.update w id.1 (w id.1 + id.2)) wbt

open Classical in
/-- The loop of `_calculate_wet_bulb_temperature` (wet_bulb_temperature.py:215-241): `wbt` is the whole flattened
array, `idx` is `to_update`, and the four arrays hold the pressure, specific heat, latent heat and enthalpy of the
points in `idx`, in that order.  The selection which the code makes at the start of the next pass
(`pressure[update_to_update]` and so on) is made here at the end of the pass. -/
noncomputable def wetLoop (precision : ℝ) : ℕ → (ℕ → ℝ) → List ℕ → List ℝ → List ℝ → List ℝ → List ℝ → (ℕ → ℝ)
  | 0, wbt, _, _, _, _, _ => wbt
  | fuel + 1, wbt, idx, ps, cs, ls, hs =>
    if idx = [] then wbt
    else
      let delta := wetDeltas (idx.map wbt) ps cs ls hs
      let mask := delta.map fun d => decide (|d| > precision)
      let idx' := maskSelect mask idx
      wetLoop precision fuel (addAt wbt idx' (maskSelect mask delta)) idx'
        (maskSelect mask ps) (maskSelect mask cs) (maskSelect mask ls) (maskSelect mask hs)

/-- `_calculate_wet_bulb_temperature` (wet_bulb_temperature.py:177-243) on `n` points.  In the first pass the code reuses
`saturation_mixing_ratio` for the initial temperature, the same value. -/
noncomputable def wetBulb (precision : ℝ) (n : ℕ) (p rh t : ℕ → ℝ) : ℕ → ℝ :=
  let idx := List.range n
  let r := fun i => rh i * saturatedHumidity (t i) (p i)
  wetLoop precision 20 t idx (idx.map p) (idx.map fun i => specificHeat (r i)) (idx.map fun i => latentHeat (t i))
    (idx.map fun i => enthalpyOf (r i) (specificHeat (r i)) (latentHeat (t i)) (t i))

/-! ### Slicing over levels -/

/-- What `_slice_inputs` looks at: the cube's z coordinate, its name and whether it has a dimension, and the levels
(the data, one item per level along that dimension, or a single item). -/
structure LevelCube (α : Type) where
  z : Option (String × Bool)
  levels : List α

/-- The list comprehension of `_slice_inputs` with its `except` (wet_bulb_temperature.py:66-74): names of the z
coordinates that have a dimension, or `none` when a cube has no z coordinate. -/
def verticalCoords {α β γ : Type} (t : LevelCube α) (r : LevelCube β) (p : LevelCube γ) : Option (List String) :=
  match t.z, r.z, p.z with
  | some a, some b, some c => some (([a, b, c].filter (·.2)).map (·.1))
  | _, _, _ => none

/-- Outcome of `_slice_inputs`: the cubes as they are, or the zipped slices. -/
inductive WetSlices (α β γ : Type)
  | whole
  | slices (l : List (α × β × γ))

/-- `_slice_inputs` (wet_bulb_temperature.py:62-93). -/
def sliceInputs {α β γ : Type} (t : LevelCube α) (r : LevelCube β) (p : LevelCube γ) :
    Except String (WetSlices α β γ) :=
  match verticalCoords t r p with
  | none => .ok .whole
  | some [] => .ok .whole
  | some (v :: vs) =>
    if (∃ w ∈ vs, w ≠ v) ∨ (v :: vs).length ≠ 3 then
      .error "ValueError: WetBulbTemperature: Cubes have differing vertical coordinates."
    else .ok (.slices (t.levels.zip (r.levels.zip p.levels)))

end Improver
