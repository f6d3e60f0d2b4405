import Verif.Model.PrecipType
import Verif.Model.ProbName
import Verif.Model.Rename
import Verif.Model.HailRun

/-! Models of how `FreezingRain`, `SnowFraction`, `SnowSplitter` and `VisibilityCombineCloudBase` tell their input cubes apart by parts of
names and bring them together (improver/precipitation_type/freezing_rain.py, snow_fraction.py, snow_splitter.py,
improver/visibility/visibility_combine_cloud_base.py).  Names are lists of characters.  Attributes, masks and the remaining metadata
are not modelled. -/

namespace Improver

/-- A cube of probabilities by threshold: name, horizontal coordinates, time, name and unit of the threshold coordinate, thresholds,
whether the probabilities are of being below the thresholds, realizations (if there is a realization coordinate, the leading
dimension), and the data by realization, index of the threshold and point. -/
structure ProbField (X T : Type) where
  name : List Char
  place : X × X
  time : T
  thresholdName : List Char
  unit : StdUnit
  thresholds : List ℚ
  below : Bool
  realizations : Option (List ℤ)
  data : ℤ → ℕ → ℕ → ℚ

/-- `(name,) = [x for x in cube_names if part in x]` (freezing_rain.py:141-143, snow_fraction.py:94-95): unpacking fails with a
ValueError unless there is exactly one. -/
def oneNameWith (part : List Char) (names : List (List Char)) : Except Err (List Char) :=
  match names.filter (fun n => hasPart part n) with
  | [n] => .ok n
  | _ => .error .valueError

/-- `(cube,) = input_cubes.extract(name)` (freezing_rain.py:76-78). -/
def oneCubeNamed {C : Type} (nameOf : C → List Char) (n : List Char) (cubes : List C) : Except Err C :=
  match cubes.filter (fun c => decide (nameOf c = n)) with
  | [c] => .ok c
  | _ => .error .valueError

/-- `FreezingRain._get_input_cube_names` (freezing_rain.py:133-149). -/
def freezingNames (names : List (List Char)) : Except Err (List Char × List Char × List Char) := do
  if ¬ names.Nodup then .error .valueError
  else
    let rain ← oneNameWith "rain".toList names
    let sleet ← oneNameWith "sleet".toList names
    let temperature ← oneNameWith "temperature".toList names
    return (rain, sleet, temperature)

/-- `extract_subcube(temperature, ["…=273.15"], units=["K"])` (freezing_rain.py:106-113, cube_extraction.py:57-62): the index of the
threshold that is 273.15 K to `np.isclose`.  Simplification: with several such thresholds the extracted cube keeps the threshold
dimension; the model reports `invalidCube`. -/
def freezingThreshold (u : StdUnit) (thresholds : List ℚ) : Except Err ℕ :=
  if u.dimension ≠ kelvin.dimension then .error .valueError
  else
    match (List.range thresholds.length).filter (fun k => npIsclose (convertUnit u kelvin (thresholds.getD k 0)) (27315 / 100)) with
    | [] => .error .valueError
    | [k] => .ok k
    | _ => .error .invalidCube

/-- `FreezingRain._get_input_cubes` (freezing_rain.py:43-113): rain, sleet (its thresholds in the unit of rain), temperature as
probabilities of being below, and the index of the freezing threshold. -/
def freezingInputs {X T : Type} [DecidableEq X] [DecidableEq T] (cubes : List (ProbField X T)) :
    Except Err (ProbField X T × ProbField X T × ProbField X T × ℕ) := do
  if cubes.length ≠ 3 then .error .valueError
  else
    let names ← freezingNames (cubes.map fun c => c.name)
    let rain ← oneCubeNamed ProbField.name names.1 cubes
    let sleet ← oneCubeNamed ProbField.name names.2.1 cubes
    let temperature ← oneCubeNamed ProbField.name names.2.2 cubes
    let same ← spatialMatch ([rain, sleet, temperature].map fun c => c.place)
    if ¬ same then .error .valueError
    else if ¬ (rain.time = sleet.time ∧ sleet.time = temperature.time) then .error .valueError
    else if sleet.unit.dimension ≠ rain.unit.dimension then .error .valueError
    else if rain.thresholds ≠ sleet.thresholds.map (convertUnit sleet.unit rain.unit) then .error .valueError
    else
      let k ← freezingThreshold temperature.unit temperature.thresholds
      return (rain, { sleet with unit := rain.unit, thresholds := sleet.thresholds.map (convertUnit sleet.unit rain.unit) },
        { temperature with below := true, data := fun r j i => if temperature.below then temperature.data r j i else 1 - temperature.data r j i },
        k)

/-- The members of a field at one threshold and point, by realization. -/
def ProbField.members {X T : Type} (c : ProbField X T) (rs : List ℤ) (k i : ℕ) : List (ℤ × ℚ) := rs.map fun r => (r, c.data r k i)

/-- `FreezingRain.process` (freezing_rain.py:182-299).  If only some of the cubes have realizations the model reports
`coordinateNotFound` (iris does when rain has them; with realizations on the others only, numpy may broadcast). -/
def freezingRainProcess {X T : Type} [DecidableEq X] [DecidableEq T] (cubes : List (ProbField X T)) : Except Err (ProbField X T) := do
  let inp ← freezingInputs cubes
  let out (f : ℤ → ℕ → ℕ → ℚ) : ProbField X T := ⟨replaceText "sleet".toList "freezing_rain".toList inp.2.1.name, inp.2.1.place,
    inp.2.1.time, replaceText "sleet".toList "freezing_rain".toList inp.2.1.thresholdName, inp.2.1.unit, inp.2.1.thresholds, inp.2.1.below, none, f⟩
  match inp.1.realizations, inp.2.1.realizations, inp.2.2.1.realizations with
  | none, none, none =>
    .ok (out fun r j i => freezingRainSingle (inp.1.data r j i) (inp.2.1.data r j i) (inp.2.2.1.data r inp.2.2.2 i))
  | some rs, some ss, some ts =>
    if (rs.filter fun r => decide (r ∈ ss ∧ r ∈ ts)) = [] then .error .valueError
    else .ok (out fun _ j i => (freezingRain (inp.1.members rs j i) (inp.2.1.members ss j i) (inp.2.2.1.members ts inp.2.2.2 i)).toOption.getD 0)
  | _, _, _ => .error .coordinateNotFound

/-! ### Snow fraction and snow splitter -/

/-- A cube of a field: name, unit, horizontal coordinates, time, whether some value is masked, and the values of the points. -/
structure TimedField (X T : Type) where
  name : List Char
  unit : StdUnit
  place : X × X
  time : T
  masked : Bool
  data : ℕ → ℚ

/-- `SnowFraction._get_input_cubes` (snow_fraction.py:42-102); `merge_cube` of the one cube found is that cube. -/
def snowFractionInputs {X T : Type} [DecidableEq X] [DecidableEq T] (cubes : List (TimedField X T)) :
    Except Err (TimedField X T × TimedField X T) := do
  if cubes.length ≠ 2 then .error .valueError
  else
    let rainName ← oneNameWith "rain".toList (cubes.map fun c => c.name)
    let snowName ← oneNameWith "snow".toList (cubes.map fun c => c.name)
    if rainName = snowName then .error .valueError
    else
      let rain ← oneCubeNamed TimedField.name rainName cubes
      let snow ← oneCubeNamed TimedField.name snowName cubes
      if snow.unit.dimension ≠ rain.unit.dimension then .error .valueError
      else
        let same ← spatialMatch ([rain, snow].map fun c => c.place)
        if ¬ same then .error .valueError
        else if rain.time ≠ snow.time then .error .valueError
        else if rain.masked ∨ snow.masked then .error .valueError
        else .ok (rain, { snow with unit := rain.unit, data := fun i => convertUnit snow.unit rain.unit (snow.data i) })

/-- `SnowFraction.process` (snow_fraction.py:104-155) on `n` points; see `snowFraction`. -/
def snowFractionProcess {X T : Type} [DecidableEq X] [DecidableEq T] (n : ℕ) (grid : (ℕ → Option ℚ) → ℕ → Option ℚ)
    (cubes : List (TimedField X T)) : Except Err (ℕ → Option ℚ) := do
  let inp ← snowFractionInputs cubes
  return snowFraction n grid inp.1.data inp.2.data

/-- `cubes.extract_cube(Constraint(cube_func=lambda cube: part in cube.name()))` (snow_splitter.py:55-63): a
`ConstraintMismatchError`, which is a KeyError, unless exactly one cube fits. -/
def oneCubeWith {C : Type} (nameOf : C → List Char) (part : List Char) (cubes : List C) : Except Err C :=
  match cubes.filter (fun c => hasPart part (nameOf c)) with
  | [c] => .ok c
  | _ => .error .keyError

/-- The name of the result (snow_splitter.py:117-133). -/
def splitName (outputIsRain : Bool) (precip : List Char) : List Char :=
  if outputIsRain then replaceText "lwe_".toList [] (replaceText "precipitation".toList "rainfall".toList precip)
  else replaceText "precipitation".toList "snowfall".toList precip

/-- `SnowSplitter.process` (snow_splitter.py:37-138) on `n` points: name, unit and values of the result.  iris refuses to subtract
cubes of different units. -/
def snowSplitProcess {X T : Type} [DecidableEq X] (outputIsRain : Bool) (n : ℕ) (cubes : List (TimedField X T)) :
    Except Err (List Char × StdUnit × List ℚ) := do
  let rain ← oneCubeWith TimedField.name "rain".toList cubes
  let snow ← oneCubeWith TimedField.name "snow".toList cubes
  let precip ← oneCubeWith TimedField.name "precipitation".toList cubes
  let same ← spatialMatch ([rain, snow, precip].map fun c => c.place)
  if ¬ same then .error .valueError
  else
    let values ← snowSplit outputIsRain ((List.range n).map fun i => (rain.data i, snow.data i, precip.data i))
    if rain.unit ≠ snow.unit then .error .notImplemented
    else return (splitName outputIsRain precip.name, precip.unit, values)

/-! ### Visibility and cloud base -/

/-- `VisibilityCombineCloudBase.separate_input_cubes` (visibility_combine_cloud_base.py:60-100), one pass of the loop: the last cube of
each kind counts. -/
def visStep {C : Type} (nameOf : C → List Char) (acc : Option C × Option C) (c : C) : Option C × Option C :=
  if hasPart "visibility_in_air".toList (nameOf c) then (some c, acc.2)
  else if hasPart "cloud_base".toList (nameOf c) then (acc.1, some c)
  else acc

/-- `separate_input_cubes` (visibility_combine_cloud_base.py:78-100). -/
def visSeparate {C : Type} (nameOf : C → List Char) (cubes : List C) : Except Err (C × C) :=
  if cubes.length ≠ 2 then .error .valueError
  else
    match cubes.foldl (visStep nameOf) (none, none) with
    | (some v, some c) => .ok (v, c)
    | _ => .error .valueError

/-- A cube that may be one of probabilities: `above` is `none` if it is not. -/
structure VisField where
  name : List Char
  above : Option Bool
  thresholds : List ℚ
  data : ℕ → ℕ → ℚ

/-- `VisibilityCombineCloudBase.process` (visibility_combine_cloud_base.py:134-199): thresholds and values at a point.  The cloud base
cube has one threshold.  Which way the probabilities of the cloud base are and the unit of the thresholds are not looked at. -/
def visProcess (initial first : ℚ) (cubes : List VisField) : Except Err (ℕ → List (ℚ × ℚ)) := do
  let p ← visSeparate VisField.name cubes
  match p.1.above, p.2.above with
  | some above, some _ =>
    .ok fun i => visCombine initial first above (p.2.data 0 i)
      ((List.range p.1.thresholds.length).map fun k => (p.1.thresholds.getD k 0, p.1.data k i))
  | _, _ => .error .valueError

end Improver
