import Verif.Model.Spatial

/-! Model of `DistanceBetweenGridSquares` as a whole on a two-dimensional cube (improver/utilities/spatial.py:155-486).  Exact rationals; the conversion of
degrees and the cosine of a latitude are parameters.  Both axes of a cube are present. -/

namespace Improver

/-- Unit of a horizontal axis: a length (factor to metres), degrees, or something else. -/
inductive HorizontalUnit where
  | length (scale : ℚ)
  | degrees
  | other
deriving DecidableEq

/-- A horizontal axis; `projection`: it is named `projection_x_coordinate` or `projection_y_coordinate`. -/
structure HorizontalAxis where
  projection : Bool
  unit : HorizontalUnit
  points : List ℚ
  circular : Bool
deriving DecidableEq

/-- The cube; `geographic`: its coordinate system is `GeogCS`; `xFirst`: x is its leading dimension. -/
structure DistanceGrid where
  xFirst : Bool
  y : HorizontalAxis
  x : HorizontalAxis
  geographic : Bool
deriving DecidableEq

/-- A cube of distances: rows along y, and the points of its axes. -/
structure DistanceField where
  rows : List (List ℚ)
  ys : List ℚ
  xs : List ℚ
deriving DecidableEq

def HorizontalUnit.isLength : HorizontalUnit → Bool
  | .length _ => true
  | _ => false

/-- `coord.convert_units("m")` in place, where possible. -/
def HorizontalAxis.toMetres (a : HorizontalAxis) : HorizontalAxis :=
  match a.unit with
  | .length s => { a with unit := .length 1, points := a.points.map fun p => p * s }
  | _ => a

/-- The cube after `_cube_xy_dimensions_are_distances` (spatial.py:448-470): x is converted first, and stays so if y cannot be. -/
def DistanceGrid.afterCheck (c : DistanceGrid) : DistanceGrid :=
  if c.x.unit.isLength then { c with x := c.x.toMetres, y := c.y.toMetres } else c

/-- Length of the two dimensions of the data, in their order. -/
def DistanceGrid.shape (c : DistanceGrid) : ℕ × ℕ :=
  if c.xFirst then (c.x.points.length, c.y.points.length) else (c.y.points.length, c.x.points.length)

/-- `ProjectionCubeDistanceCalculator` (spatial.py:334-396): constant arrays shaped by the dimensions of the cube, on axes (y, x). -/
def projectedDistances (c : DistanceGrid) : Except Err (DistanceField × DistanceField) :=
  if c.x.circular then .error .notImplemented
  else do
    let dx ← gridSpacing c.x.points
    if ¬ c.y.projection then .error .coordinateNotFound
    else if c.shape.1 ≠ c.y.points.length then .error .valueError
    else do
      let dy ← gridSpacing c.y.points
      if ¬ c.x.projection then .error .coordinateNotFound
      else if c.shape.2 ≠ c.x.points.length then .error .valueError
      else
        let mx := axisMidpoints false c.x.points
        let my := axisMidpoints c.y.circular c.y.points
        .ok (⟨List.replicate c.shape.1 (List.replicate mx.length dx), c.y.points, mx⟩,
          ⟨List.replicate my.length (List.replicate c.shape.2 dy), my, c.x.points⟩)

/-- `LatLonCubeDistanceCalculator` (spatial.py:247-331). -/
def latLonDistances (radius radPerDeg : ℚ) (cosLat : ℚ → ℚ) (c : DistanceGrid) : Except Err (DistanceField × DistanceField) :=
  if c.x.unit = .degrees ∧ c.y.unit = .degrees then
    .ok (⟨c.y.points.map fun lat => latLonXDistances radius radPerDeg (cosLat lat) c.x.circular c.x.points, c.y.points, axisMidpoints c.x.circular c.x.points⟩,
      ⟨(latLonYDistances radius radPerDeg c.y.points).map fun d => List.replicate c.x.points.length d, axisMidpoints c.y.circular c.y.points, c.x.points⟩)
  else .error .valueError

/-- `process` (spatial.py:409-486): the distances along x and along y, and the caller's cube afterwards. -/
def gridDistances (radius radPerDeg : ℚ) (cosLat : ℚ → ℚ) (c : DistanceGrid) : Except Err (DistanceField × DistanceField) × DistanceGrid :=
  let c' := c.afterCheck
  (if c.x.unit.isLength && c.y.unit.isLength then projectedDistances c'
   else if c.geographic then latLonDistances radius radPerDeg cosLat c'
   else .error .valueError, c')

end Improver
