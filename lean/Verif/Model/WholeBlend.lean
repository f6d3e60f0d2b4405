import Verif.Model.Blend
import Verif.Model.CubeManip
import Verif.Model.LevelRun

/-!
Model of `WeightedBlendAcrossWholeDimension` (improver/blending/weighted_blend.py:363-730) for cubes of any dimensions, all of which
have dimension coordinates, and of improver/blending/utilities.py:34-63 `find_blend_dim_coord`.  Directions in degrees, lazy data
and the other coordinates of the result are not modelled; numbers are exact.
-/

namespace Improver

/-- A cube: its dimensions, its data and the points of its dimension coordinates. -/
structure PointCube (α : Type) extends DimCube α where
  points : String → List ℚ

/-- A coordinate that is not a dimension coordinate: the dimensions it spans (none: a scalar coordinate) and its points. -/
structure SideCoord where
  name : String
  spans : List String
  points : List ℚ

/-- An input to a blend: a cube and its other coordinates; "time" may be one of them or a dimension. -/
structure BlendCube (α : Type) extends PointCube α where
  sides : List SideCoord

/-- iris `cube.coord(name)`: the dimensions it spans and its points. -/
def BlendCube.coord {α : Type} (c : BlendCube α) (n : String) : Option SideCoord :=
  if n ∈ c.dims then some ⟨n, [n], c.points n⟩ else c.sides.find? fun s => decide (s.name = n)

/-- `cube[..., order, ...]`: the given places along dimension `d`. -/
def PointCube.takeAlong {α : Type} (c : PointCube α) (d : String) (order : List ℕ) : PointCube α where
  dims := c.dims
  data := fun idx => c.data (idx.set (c.dims.idxOf d) (order.getD (idx.getD (c.dims.idxOf d) 0) 0))
  points := fun n => if n = d then order.map (fun i => (c.points d).getD i 0) else c.points n

/-- The cube at place `i` of dimension `d`. -/
def PointCube.sliceAt {α : Type} (c : PointCube α) (d : String) (i : ℕ) : PointCube α where
  dims := c.dims.erase d
  data := fun idx => c.data (idx.insertIdx (c.dims.idxOf d) i)
  points := c.points

/-- `enforce_coordinate_ordering(cube, names)` (cube_manipulation.py:468-528); no dimension is called "threshold". -/
def PointCube.reorder {α : Type} (c : PointCube α) (names : List String) : Except Err (PointCube α) :=
  (enforceOrdering c.toDimCube none names true).map fun k => ⟨k, c.points⟩

/-- utilities.py:34-63 `find_blend_dim_coord` after the check at weighted_blend.py:700-702. -/
def blendDim {α : Type} (c : BlendCube α) (blend : String) : Except Err String :=
  match c.coord blend with
  | none => .error .coordinateNotFound
  | some s =>
    match s.spans with
    | [d] => .ok d
    | _ => .error .valueError

/-- `sort_coord_in_cube` (cube_manipulation.py:431-465): a coordinate on other than one dimension cannot be unpacked.  Only the names
and dimensions of the other coordinates are used afterwards; their points are left as they were. -/
def BlendCube.sortAlong {α : Type} (c : BlendCube α) (coord : String) : Except Err (BlendCube α) :=
  match c.coord coord with
  | none => .error .coordinateNotFound
  | some s =>
    match s.spans with
    | [d] => .ok ⟨c.toPointCube.takeAlong d (argsort s.points), c.sides⟩
    | _ => .error .valueError

/-- weighted_blend.py:711-714: the weights in order of the blend coordinate. -/
def sortWeights (d : String) : Option (BlendCube ℚ) → Except Err (Option (BlendCube ℚ))
  | none => .ok none
  | some w => (w.sortAlong d).map some

/-- weighted_blend.py:437-464 `check_compatible_time_points`. -/
def checkTimes {α : Type} (timeblending : Bool) (c : BlendCube α) : Except Err Unit :=
  if timeblending then .ok ()
  else match c.coord "time" with
    | none => .error .coordinateNotFound
    | some s => if 1 < s.points.dedup.length then .error .valueError else .ok ()

/-- weighted_blend.py:400-435 `check_percentile_coord`. -/
def checkPercentile {α : Type} (c : BlendCube α) : Except Err Bool :=
  match c.coord "percentile" with
  | none => .ok false
  | some s => if s.spans = [] then .error .valueError else if s.points.length < 2 then .error .valueError else .ok true

/-- weighted_blend.py:505-513: the dimension of the cube that a dimension of the weights belongs to. -/
def spannedDim {α : Type} (c : BlendCube α) (n : String) : Except Err String :=
  match c.coord n with
  | none => .error .valueError
  | some s =>
    match s.spans with
    | [] => .error .indexError
    | d :: _ => .ok d

/-- weighted_blend.py:496: the same names of dimensions, in any order. -/
def sameDims (a b : List String) : Bool := a.all (fun n => decide (n ∈ b)) && b.all fun n => decide (n ∈ a)

/-- weighted_blend.py:466-530 `shape_weights`: the weights by the index into the cube, and their number along each dimension.  If
the names of the dimensions are the same the lengths are not compared here.  `iris.util.broadcast_to_shape` repeats a dimension of
length one. -/
def shapeWeights {α : Type} (c : BlendCube α) (w : BlendCube ℚ) : Except Err ((List ℕ → ℚ) × (String → ℕ)) :=
  if sameDims w.dims c.dims then do
    let k ← w.toPointCube.reorder c.dims
    .ok (k.data, fun n => (w.points n).length)
  else do
    let m ← w.dims.mapM (spannedDim c)
    if m.Nodup ∧ ∀ p ∈ w.dims.zip m, (w.points p.1).length = (c.points p.2).length ∨ (w.points p.1).length = 1 then
      .ok (fun idx => w.data ((w.dims.zip m).map fun p => if (w.points p.1).length = 1 then 0 else idx.getD (c.dims.idxOf p.2) 0),
        fun n => (c.points n).length)
    else .error .valueError

/-- weighted_blend.py:554-577 `get_weights_array`. -/
def weightsArray {α : Type} (c : BlendCube α) (d : String) : Option (BlendCube ℚ) → Except Err ((List ℕ → ℚ) × (String → ℕ))
  | none => .ok (fun _ => 1 / ((c.points d).length : ℚ), fun n => (c.points n).length)
  | some w => shapeWeights c w

/-- weighted_blend.py:653: `collapsed(cube, blend_coord, MEAN, weights=…)` over the leading dimension. -/
def meanOver (n : ℕ) (data : List ℕ → Option ℚ) (w : List ℕ → ℚ) (idx : List ℕ) : Option ℚ :=
  maAverage ((List.range n).map fun k => data (k :: idx)) ((List.range n).map fun k => w (k :: idx))

/-- weighted_blend.py:652-657: the slices of a cube of more than three dimensions merged along the second one (`s`), `k` of them
(`zip` stops at the shorter): merging puts them in ascending order, and one slice alone keeps no dimension. -/
def mergeAlong {α : Type} (r : PointCube α) (s : String) (k : ℕ) : Except Err (PointCube α) :=
  if k = 0 then .error .valueError
  else if k = 1 then .ok (r.sliceAt s 0)
  else .ok (r.takeAlong s (argsort ((r.points s).take k)))

/-- weighted_blend.py:615-663 `weighted_mean` of a cube led by the blend dimension.  Weights of another length along a dimension are
refused when averaging, except along the dimension cut into slices. -/
def weightedMeanCube (c : BlendCube (Option ℚ)) (d : String) (w : Option (BlendCube ℚ)) : Except Err (PointCube (Option ℚ)) := do
  let a ← weightsArray c d w
  let r : PointCube (Option ℚ) := ⟨⟨c.dims.tail, meanOver (c.points d).length c.data a.1⟩, c.points⟩
  if 3 < c.dims.length then
    let s := c.dims.getD 1 ""
    if ∀ n ∈ c.dims, n = s ∨ a.2 n = (c.points n).length then mergeAlong r s (min (c.points s).length (a.2 s))
    else .error .valueError
  else if ∀ n ∈ c.dims, a.2 n = (c.points n).length then .ok r
  else .error .valueError

/-- weighted_blend.py:546-548: every sum of weights that is not zero is close to one. -/
def sumsClose (n : ℕ) (w : List ℕ → ℚ) (grid : List (List ℕ)) : Bool :=
  grid.all fun g => let s := ((List.range n).map fun k => w (k :: g)).sum; !decide (0 < s) || npIsclose s 1

/-- weighted_blend.py:579-613 `percentile_weighted_mean` with 249-308 `aggregate`, for a cube led by the blend dimension and the
percentiles.  Masked values are not modelled (read as zero); weights whose shape differs are refused (the code accepts those of the
same number of elements with the blend dimension of the right length). -/
def percentileMeanCube (c : BlendCube (Option ℚ)) (d : String) (w : Option (BlendCube ℚ)) : Except Err (PointCube (Option ℚ)) := do
  let slice : BlendCube (Option ℚ) := ⟨c.toPointCube.sliceAt "percentile" 0, ⟨"percentile", [], [(c.points "percentile").getD 0 0]⟩ :: c.sides⟩
  let a ← weightsArray slice d w
  if ∀ n ∈ slice.dims, a.2 n = (c.points n).length then
    let n := (c.points d).length
    let ps := c.points "percentile"
    let close := sumsClose n a.1 (arrayIndices (slice.dims.tail.map fun e => (c.points e).length))
    .ok ⟨⟨c.dims.tail, fun idx => some ((blendPercentiles
        ((List.range n).map fun k => (List.range ps.length).map fun q => (c.data (k :: q :: idx.tail)).getD 0) ps
        (normaliseAtPoint close ((List.range n).map fun k => a.1 (k :: idx.tail)))).getD (idx.headD 0) 0)⟩, c.points⟩
  else .error .valueError

/-- weighted_blend.py:719-725: ordering and blending. -/
def blendBody (c : BlendCube (Option ℚ)) (d : String) (w : Option (BlendCube ℚ)) : Except Err (PointCube (Option ℚ)) := do
  let isPerc ← checkPercentile c
  if isPerc then
    let k ← c.toPointCube.reorder [d, "percentile"]
    percentileMeanCube ⟨k, c.sides⟩ d w
  else
    let k ← c.toPointCube.reorder [d]
    weightedMeanCube ⟨k, c.sides⟩ d w

/-- weighted_blend.py:383-391 `__init__` and 665-730 `process`. -/
def wholeBlend (blend : String) (timeblending : Bool) (c : BlendCube (Option ℚ)) (w : Option (BlendCube ℚ)) :
    Except Err (PointCube (Option ℚ)) :=
  if blend = "threshold" then .error .valueError
  else do
    let d ← blendDim c blend
    let c' ← c.sortAlong d
    let w' ← sortWeights d w
    checkTimes timeblending c'
    let r ← blendBody c' d w'
    r.reorder (c.dims.erase d)

end Improver
