import Verif.Model.LapseRun
import Verif.Model.PhaseLevel

/-! Model of `WetBulbTemperatureIntegral.process` (improver/psychrometric_calculations/wet_bulb_temperature.py:325-360) and of `PhaseChangeLevel.process`
(psychrometric_calculations.py:832-965).  Values are exact rationals without masks; the level at a point is the real-valued `phaseLevel`.  Fields are flattened
over their horizontal points, which all inputs share; `members` counts the slices over the leading dimensions. -/

namespace Improver

/-- A field on height levels; a field without a height coordinate has no heights and its values at level 0. -/
structure ProfileCube where
  name : String
  unit : StdUnit
  heights : List ℚ
  heightUnit : StdUnit
  bounds : Option (List (ℚ × ℚ))
  members : ℕ
  points : ℕ
  data : ℕ → ℕ → ℕ → ℚ
  model : Option String

/-- Degrees Celsius. -/
def degC : StdUnit := ⟨"temperature", 1, 27315 / 100⟩

/-- The unit of the integral. -/
def kelvinMetre : StdUnit := ⟨"temperature*length", 1, 0⟩

/-- `cube.convert_units`. -/
def ProfileCube.convert (c : ProfileCube) (u : StdUnit) : Except Err ProfileCube :=
  if c.unit.dimension ≠ u.dimension then .error .valueError
  else .ok { c with data := fun m k i => convertUnit c.unit u (c.data m k i), unit := u }

/-- `cube.coord("height").convert_units` (wet_bulb_temperature.py:348). -/
def ProfileCube.convertHeights (c : ProfileCube) (u : StdUnit) : Except Err ProfileCube :=
  if c.heights = [] then .error .coordinateNotFound
  else if c.heightUnit.dimension ≠ u.dimension then .error .valueError
  else .ok { c with heights := c.heights.map (convertUnit c.heightUnit u), heightUnit := u }

/-- The (height, value) pairs of a column. -/
def ProfileCube.column (c : ProfileCube) (m i : ℕ) : List (ℚ × ℚ) :=
  c.heights.zip ((List.range c.heights.length).map fun k => c.data m k i)

/-- wet_bulb_temperature.py:333-360 `WetBulbTemperatureIntegral.process`; `Integration("height")` as in `integrate` on every column, its levels and bounds
being those of a column of zeros; mathematical_operations.py:197-204 for the name. -/
def wetBulbIntegral (useModel : Bool) (c : ProfileCube) : Except Err ProfileCube := do
  let t ← c.convert degC
  let t ← t.convertHeights metre
  let levels ← integrate false none none (t.heights.map fun h => (h, 0))
  let total (m k i : ℕ) : ℚ := match integrate false none none (t.column m i) with
    | .ok l => (l.map IntegOut.value).getD k 0
    | .error _ => 0
  if useModel ∧ c.model = none then .error .keyError
  else .ok ⟨c.name ++ "_integral", kelvinMetre, levels.map IntegOut.point, metre, some (levels.map IntegOut.bounds), c.members, c.points, total,
    if useModel then c.model else none⟩

/-- iris `extract_cube` by name: exactly one cube has it. -/
def oneProfile (n : String) (cubes : List ProfileCube) : Except Err ProfileCube :=
  match cubes.filter fun c => decide (c.name = n) with
  | [c] => .ok c
  | _ => .error .valueError

/-- psychrometric_calculations.py:904-913: the model identifiers agree. -/
def modelsAgree (useModel : Bool) (a b : ProfileCube) : Except Err Unit :=
  if useModel then
    match a.model, b.model with
    | some x, some y => if x ≠ y then .error .valueError else .ok ()
    | _, _ => .error .keyError
  else .ok ()

/-- `sort_coord_in_cube(cube, "height", descending=True)` (psychrometric_calculations.py:917-919) on the numbers of the levels. -/
def levelsDown (c : ProfileCube) : List ℕ :=
  (List.range c.heights.length).insertionSort fun a b => c.heights.getD b 0 ≤ c.heights.getD a 0

/-- psychrometric_calculations.py:922-926: the highest height. -/
def highestOf (wbt integral : ProfileCube) : Except Err ℚ :=
  if wbt.heights = [] ∨ integral.heights = [] then .error .coordinateNotFound
  else match integral.bounds with
  | some b => match levelsDown integral with
    | k :: _ => .ok (b.getD k (0, 0)).2
    | [] => .error .indexError
  | none => match wbt.heights.getLast? with
    | some h => .ok h
    | none => .error .indexError

/-- The phase change level. -/
structure PhaseOut where
  name : String
  unit : StdUnit
  members : ℕ
  points : ℕ
  data : ℕ → ℕ → Option ℝ

/-- A column of rationals as reals. -/
noncomputable def realColumn (l : List (ℚ × ℚ)) : List (ℝ × ℝ) := l.map fun p => ((p.1 : ℝ), (p.2 : ℝ))

/-- Column of the integral from the top down. -/
def columnDown (c : ProfileCube) (m i : ℕ) : List (ℚ × ℚ) :=
  (levelsDown c).map fun k => (c.heights.getD k 0, c.data m k i)

/-- psychrometric_calculations.py:857-965 `PhaseChangeLevel.process`: the result, and the temperature and integral cubes of the caller afterwards, whose units
have been changed.  `vicinity` gives the highest orography in the vicinity of each point (C68), `lin` and `near` are scipy's `griddata`. -/
noncomputable def phaseProcess (phase : String) (vicinity : (ℕ → ℚ) → ℕ → ℚ) (lin near : (ℕ → Option ℝ) → ℕ → Option ℝ) (horizontal useModel : Bool)
    (cubes : List ProfileCube) : Except Err (PhaseOut × ProfileCube × ProfileCube) :=
  match phaseChange phase with
  | .error _ => .error .valueError
  | .ok (threshold, label) =>
    if cubes.length ≠ 4 then .error .valueError
    else do
      let wbt ← oneProfile "wet_bulb_temperature" cubes
      let integral ← oneProfile "wet_bulb_temperature_integral" cubes
      let orog ← oneProfile "surface_altitude" cubes
      let land ← oneProfile "land_binary_mask" cubes
      let wbt ← wbt.convert degC
      let integral ← integral.convert kelvinMetre
      modelsAgree useModel wbt integral
      let highest ← highestOf wbt integral
      let n := integral.points
      if wbt.points ≠ n ∨ orog.points ≠ n ∨ land.points ≠ n ∨ wbt.members ≠ integral.members then .error .valueError
      else
        let maxOrog := vicinity (orog.data 0 0)
        .ok (⟨"altitude_of_" ++ label ++ "_level", metre, wbt.members, n, fun m =>
          phaseLevel n lin near horizontal threshold highest (fun i => (orog.data 0 0 i : ℝ)) (fun i => (maxOrog i : ℝ)) (fun i => (land.data 0 0 i : ℝ))
            (fun i => realColumn (columnDown integral m i)) (fun i => realColumn (wbt.column m i))⟩, wbt, integral)

end Improver
