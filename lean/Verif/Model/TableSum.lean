import Verif.Model.CubeManip
import Mathlib.Logic.Function.Basic

/-! Model of `AggregateReliabilityCalibrationTables.process` (improver/calibration/reliability_calibration.py:530-607) for whole table
cubes: any dimensions (thresholds, bins, rows of the table, points), masks, and coordinates to sum over, on top of iris
`merge_cube` and `collapsed` (improver/utilities/cube_manipulation.py:23-56).

Simplifications: a place of a cube is given by an index for each name of a dimension; numbers are exact; a coordinate spans
one dimension or none; tables that differ in other scalar coordinates than the forecast reference time, which iris would
merge along another dimension, are refused here; a collapse in which no dimension is left to sum over is the
`CoordinateCollapseError` of iris (here `runtimeError`; see optical_flow.py:70-73). -/

namespace Improver

/-- A table cube: dimensions with their points, values (`none`: masked) by the index along each dimension, the other
coordinates with the dimensions they span, and the scalar forecast reference time with its bounds. -/
structure TableCube where
  dims : List String
  points : String → List ℚ
  value : (String → ℕ) → Option ℚ
  others : List (String × List String)
  frt : ℤ
  frtBounds : Option (ℤ × ℤ)

/-- The dimensions that a coordinate spans, if the cube has the coordinate. -/
def TableCube.spans (c : TableCube) (n : String) : Option (List String) :=
  if n ∈ c.dims then some [n] else if n = "forecast_reference_time" then some [] else c.others.lookup n

/-- The dimensions to collapse: those spanned by the coordinates named. -/
def TableCube.gone (c : TableCube) (names : List String) : List String :=
  c.dims.filter (fun d => names.any (fun n => ((c.spans n).getD []).contains d))

/-- All places that differ from `f` along the dimensions `ds` only. -/
def placesAlong (len : String → ℕ) : List String → (String → ℕ) → List (String → ℕ)
  | [], f => [f]
  | d :: ds, f => (List.range (len d)).flatMap (fun i => placesAlong len ds (Function.update f d i))

/-- Addition of masked values. -/
def plusMasked : Option ℚ → Option ℚ → Option ℚ
  | none, b => b
  | a, none => a
  | some a, some b => some (a + b)

/-- The sum of a masked array (`np.ma.sum`): masked exactly if all is masked. -/
def sumMasked (l : List (Option ℚ)) : Option ℚ := l.foldr plusMasked none

/-- The cube with the dimensions `ds` summed over; their coordinates become scalar. -/
def TableCube.summed (c : TableCube) (ds : List String) : TableCube :=
  { c with
    dims := c.dims.filter (fun d => !ds.contains d)
    value := fun f => sumMasked ((placesAlong (fun d => (c.points d).length) ds f).map c.value)
    others := ds.map (fun d => (d, [])) ++ c.others.map (fun o => (o.1, o.2.filter (fun d => !ds.contains d))) }

/-- `collapsed(cube, coordinates, iris.analysis.SUM)` (reliability_calibration.py:604). -/
def TableCube.collapseSum (c : TableCube) (names : List String) : Except Err TableCube :=
  if names.all (fun n => (c.spans n).isSome) then
    if c.gone names = [] then .error .runtimeError else .ok (c.summed (c.gone names))
  else .error .coordinateNotFound

/-- `_check_frt_coord` (reliability_calibration.py:539-567): bounds `None` cannot be indexed. -/
def checkFrtBounds (cubes : List TableCube) : Except Err Unit :=
  if cubes.all (fun c => c.frtBounds.isSome) then
    if ((cubes.map (fun c => (c.frtBounds.getD (0, 0)).2)).zip ((cubes.map (fun c => (c.frtBounds.getD (0, 0)).1)).drop 1)).all
        (fun p => decide (p.1 < p.2)) then .ok ()
    else .error .valueError
  else .error .typeError

/-- Tables that iris merges into one cube. -/
def alikeTables (a b : TableCube) : Bool :=
  decide (a.dims = b.dims ∧ a.dims.map a.points = b.dims.map b.points ∧ a.others = b.others)

/-- `cubes.merge_cube()` (reliability_calibration.py:598) of tables that differ in the forecast reference time: a new first
dimension.  An empty list cannot be merged. -/
def mergeTables : List TableCube → Except Err TableCube
  | [] => .error .valueError
  | first :: rest =>
    if rest.all (fun c => alikeTables c first) then
      .ok { first with
        dims := "forecast_reference_time" :: first.dims
        points := fun n => if n = "forecast_reference_time" then (first :: rest).map (fun c => (c.frt : ℚ)) else first.points n
        value := fun f => (((first :: rest).map TableCube.value).getD (f "forecast_reference_time") (fun _ => none)) f }
    else .error .valueError

/-- The bounds as a list. -/
def boundEnds : Option (ℤ × ℤ) → List ℤ
  | some b => [b.1, b.2]
  | none => []

/-- `create_unified_frt_coord` (calibration/utilities.py:227-251): the latest point, and bounds over all points and bounds. -/
def unifiedTableFrt (cubes : List TableCube) : ℤ × Option (ℤ × ℤ) :=
  let pts := cubes.map TableCube.frt
  let ends := cubes.flatMap (fun c => boundEnds c.frtBounds)
  let latest := foldMax (pts.headD 0) pts
  (latest, some (foldMin latest (pts ++ ends), foldMax latest (pts ++ ends)))

/-- `result.replace_coord(frt)` (reliability_calibration.py:605-606). -/
def withUnifiedFrt (cubes : List TableCube) (c : TableCube) : TableCube :=
  { c with frt := (unifiedTableFrt cubes).1, frtBounds := (unifiedTableFrt cubes).2 }

/-- `process` (reliability_calibration.py:569-607): the result, and the caller's list of coordinates afterwards (`append`, line 599,
changes it). -/
def aggregateRun (cubes : List TableCube) (coordinates : Option (List String)) : Except Err TableCube × Option (List String) :=
  match cubes with
  | [c] =>
    if coordinates.getD [] = [] then (.ok c, coordinates)
    else ((c.collapseSum (coordinates.getD [])).map (withUnifiedFrt [c]), coordinates)
  | cs =>
    match checkFrtBounds cs with
    | .error e => (.error e, coordinates)
    | .ok _ =>
      match mergeTables cs with
      | .error e => (.error e, coordinates)
      | .ok m =>
        ((m.collapseSum (coordinates.getD [] ++ ["forecast_reference_time"])).map (withUnifiedFrt cs),
          coordinates.map (fun l => l ++ ["forecast_reference_time"]))

end Improver
