import Verif.Model.Times
import Verif.Model.Merge
import Verif.Model.ProbName

/-! Model of the `blend-adjacent-points` command (improver/cli/blend_adjacent_points.py) and of
`TriangularWeightedBlendAcrossAdjacentPoints` (improver/blending/blend_across_adjacent_points.py).  Data are one value per grid point,
`none` where masked; percentiles and directions in degrees are left out. -/

namespace Improver

/-- The options of the command; units and width may be missing. -/
structure AdjOptions where
  coordinate : Text
  central : ℚ
  units : Option StdUnit
  width : Option ℚ
  byPeriod : Bool

/-- The blended cube: all but the values come from the slice at the central point. -/
structure AdjOut where
  name : String
  attrs : AttrDict
  methods : List String
  point : ℤ
  bounds : Option (ℤ × ℤ)
  values : List (Option ℚ)

/-- `Unit(units).convert(value, unit)`: units not given are the unknown unit, which cannot be converted. -/
def convertParam (units : Option StdUnit) (unit : StdUnit) (v : ℚ) : Except Err ℚ :=
  match units with
  | none => .error .valueError
  | some u => if u.dimension ≠ unit.dimension then .error .valueError else .ok (convertUnit u unit v)

/-- `_find_central_point` (blend_across_adjacent_points.py:88-122): the central point in the units of the cube, and the slice there. -/
def findCentral (unit : StdUnit) (cube : Merged (List (Option ℚ))) (o : AdjOptions) :
    Except Err (ℚ × (ℤ × Option (ℤ × ℤ) × List (Option ℚ))) := do
  let central ← convertParam o.units unit o.central
  match cube.slices.find? fun s => decide ((s.1 : ℚ) = central) with
  | none => .error .valueError
  | some s => .ok (central, s)

/-- `TriangularWeightedBlendAcrossAdjacentPoints` (blend_across_adjacent_points.py:61-75, 124-149), the weights (weights.py:786-830) and the
blend (weighted_blend.py:385-387, 665-730; blending/utilities.py:52-63) of a cube whose coordinate has the unit `unit`, `isDim` when it
spans a dimension. -/
def adjacentProcess (unit : StdUnit) (isDim : Bool) (cube : Merged (List (Option ℚ))) (o : AdjOptions) : Except Err AdjOut :=
  if o.coordinate = "threshold".toList then .error .valueError
  else do
    let (central, s) ← findCentral unit cube o
    let pts := cube.slices.map fun s => (s.1 : ℚ)
    match o.width with
    | none => .error .typeError
    | some w => do
      let width ← convertParam o.units unit w
      let weights ← triangularWeights pts central width
      if isDim = false then .error .valueError
      else do
        let values ← (List.range s.2.2.length).mapM fun i : ℕ =>
          weightedBlend (cube.slices.map fun k => ((k.1 : ℚ), (k.2.2[i]?).join)) (some (pts.zip weights))
        return ⟨cube.name, cube.attrs, cube.methods, s.1, s.2.1, values⟩

/-- What the command is given: one cube, which may have the coordinate as a dimension, or several to be merged. -/
inductive AdjInput where
  | one (cube : Merged (List (Option ℚ))) (isDim : Bool)
  | several (cubes : List (MergeIn (List (Option ℚ))))

/-- `process` (cli/blend_adjacent_points.py:79-110).  The coordinate is the one that tells the cubes apart; merging needs data of one shape. -/
def adjacentCommand (unit : StdUnit) (inp : AdjInput) (o : AdjOptions) : Except Err AdjOut :=
  if hasPart "time".toList o.coordinate then .error .valueError
  else if o.byPeriod ∧ o.coordinate ≠ "forecast_period".toList then .error .valueError
  else
    match inp with
    | .one cube isDim => do
      if o.byPeriod then checkRanges (cube.slices.map fun s => s.2.1)
      adjacentProcess unit isDim cube o
    | .several cubes => do
      let cube ← mergeCubes cubes o.byPeriod
      if ¬ cube.slices.all (fun s => s.2.2.length = ((cube.slices.head?.map fun s => s.2.2.length).getD 0)) then .error .valueError
      else adjacentProcess unit (decide (cubes.length ≠ 1)) cube o

end Improver
