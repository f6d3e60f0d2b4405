import Verif.Basic
import Verif.Model.CubeManip
import Verif.Model.Spatial
import Mathlib.Data.Rat.Floor
import Mathlib.Data.List.Sort

/-!
Model of `improver/regrid/grid.py`, `bilinear.py`, `nearest.py`, `idw.py` and `landsea2.py`: regridding from an even latitude/longitude grid.
A target is a pair of latitude and longitude.  Projected target grids are given by their latitudes and longitudes.
-/

namespace Improver

/-! ### The source grid -/

/-- One axis of an evenly spaced, ascending source grid (grid.py:38-68 checks this up to a relative tolerance of 4e-5; exact here). -/
structure RegAxis where
  start : ℚ
  step : ℚ
  n : ℕ

/-- The coordinate of a grid line. -/
def RegAxis.point (a : RegAxis) (k : ℕ) : ℚ := a.start + k * a.step

/-- The constraint of `slice_cube_by_domain` (grid.py:290-296) on one axis: the indices of the lines that are kept.  `d` is the spacing used
for the margin, which with a mask is the larger of the spacings of the cube and of the mask (grid.py:320-332). -/
def keepIdx (a : RegAxis) (d lo hi : ℚ) : List ℕ :=
  (List.range a.n).filter (fun k => decide (lo - 2 * d < a.point k) && decide (a.point k < hi + 2 * d))

/-- `max` of the coordinate of all targets, `out_latlons.max(axis=0)`; numpy refuses an empty array. -/
def maxOf (l : List ℚ) : Except Err ℚ :=
  match l with
  | [] => .error .valueError
  | a :: as => .ok (as.foldl max a)

/-- `out_latlons.min(axis=0)`. -/
def minOf (l : List ℚ) : Except Err ℚ :=
  match l with
  | [] => .error .valueError
  | a :: as => .ok (as.foldl min a)

/-- The source after slicing: the original indices and the coordinates of the rows and columns that remain. -/
structure SrcGrid where
  rows : List ℕ
  cols : List ℕ
  lats : List ℚ
  lons : List ℚ

/-- `slice_cube_by_domain` (grid.py:272-298), called with the extremes of the targets (landsea2.py:118-128).  An empty selection makes iris return
`None`, and the code fails. -/
def sliceSource (lat lon : RegAxis) (dlat dlon : ℚ) (out : List (ℚ × ℚ)) : Except Err SrcGrid := do
  let latMax ← maxOf (out.map (·.1))
  let lonMax ← maxOf (out.map (·.2))
  let latMin ← minOf (out.map (·.1))
  let lonMin ← minOf (out.map (·.2))
  let rows := keepIdx lat dlat latMin latMax
  let cols := keepIdx lon dlon lonMin lonMax
  if rows = [] ∨ cols = [] then .error .attributeError
  else return ⟨rows, cols, rows.map lat.point, cols.map lon.point⟩

/-- Largest and smallest entries of the (non-empty, ascending) coordinates of the sliced source. -/
def largestOf (l : List ℚ) : ℚ := l.foldl max (l.headD 0)

/-- Smallest entry. -/
def smallestOf (l : List ℚ) : ℚ := l.foldl min (l.headD 0)

/-- `group_target_points_with_source_domain` (grid.py:382-417) for one target. -/
def insideSource (s : SrcGrid) (p : ℚ × ℚ) : Bool :=
  decide (smallestOf s.lats ≤ p.1) && decide (p.1 ≤ largestOf s.lats) && (decide (smallestOf s.lons ≤ p.2) && decide (p.2 ≤ largestOf s.lons))

/-! ### Surrounding points -/

/-- The four flattened indices around a target: bottom left, top left, top right, bottom right. -/
structure Quad (α : Type) where
  i1 : α
  i2 : α
  i3 : α
  i4 : α

/-- The entries in order. -/
def Quad.toList {α : Type} (q : Quad α) : List α := [q.i1, q.i2, q.i3, q.i4]

/-- The first part of `basic_indexes` (bilinear.py:86-100). -/
def rawIndexes (s : SrcGrid) (dlat dlon : ℚ) (p : ℚ × ℚ) : Quad ℤ :=
  let n := ⌊(p.1 - s.lats.headD 0) / dlat⌋
  let m := ⌊(p.2 - s.lons.headD 0) / dlon⌋
  let i1 := n * s.cols.length + m
  let i2 := i1 + s.cols.length
  ⟨i1, i2, i2 + 1, i1 + 1⟩

/-- `adjust_boundary_indexes` at a target on the last latitude (bilinear.py:183-187). -/
def latAdjust (w : ℤ) (q : Quad ℤ) : Quad ℤ :=
  let b2 := q.i1
  let b3 := b2 + 1
  let b1 := b2 - w
  ⟨b1, b2, b3, b1 + 1⟩

/-- The same at a target on the last longitude (bilinear.py:189-193). -/
def lonAdjust (q : Quad ℤ) : Quad ℤ :=
  let b1 := q.i1 - 1
  let b2 := q.i2 - 1
  ⟨b1, b2, b2 + 1, b1 + 1⟩

/-- The same at the target in the corner (bilinear.py:178-181). -/
def cornerAdjust (w : ℤ) (q : Quad ℤ) : Quad ℤ :=
  let b3 := q.i1
  let b2 := b3 - 1
  let b1 := b2 - w
  ⟨b1, b2, b3, b1 + 1⟩

/-- The positions in the list of targets that satisfy a condition, `np.where(..)[0]`. -/
def whereIdx (c : ℚ × ℚ → Bool) (ps : List (ℚ × ℚ)) : List ℕ :=
  (List.range ps.length).filter (fun k => c (ps.getD k (0, 0)))

/-- The target treated as a corner (bilinear.py:164-171): `if point_lat_lon_max_index:` is false for an empty array and for the single index 0, and
raises `ValueError` for several indices. -/
def cornerTarget (pointLatMax : List ℕ) (isLonMax : ℕ → Bool) : Except Err (Option ℕ) :=
  match (List.range pointLatMax.length).filter (fun k => isLonMax (pointLatMax.getD k 0)) with
  | [] => .ok none
  | [k] => .ok (if k = 0 then none else some (pointLatMax.getD k 0))
  | _ => .error .valueError

/-- The corner target (bilinear.py:158-171) when both maxima agree. -/
def cornerOf (latMaxIn lonMaxIn : ℚ) (latEq lonEq : Bool) (ps : List (ℚ × ℚ)) : Except Err (Option ℕ) :=
  if latEq && lonEq then
    cornerTarget (whereIdx (fun p => npIsclose p.1 latMaxIn) ps) (fun k => npIsclose (ps.getD k (0, 0)).2 lonMaxIn)
  else .ok none

/-- The indices of the target number `k` after the adjustments (bilinear.py:164-193). -/
def targetQuad (s : SrcGrid) (dlat dlon : ℚ) (latEq lonEq : Bool) (corner : Option ℕ) (k : ℕ) (p : ℚ × ℚ) : Quad ℤ :=
  let q := rawIndexes s dlat dlon p
  if corner = some k then cornerAdjust s.cols.length q
  else
    let q' := if latEq && npIsclose p.1 (largestOf s.lats) then latAdjust s.cols.length q else q
    if lonEq && npIsclose p.2 (largestOf s.lons) then lonAdjust q' else q'

/-- `basic_indexes` (bilinear.py:60-121) with `adjust_boundary_indexes` (bilinear.py:124-195) for all targets inside the source. -/
def basicIndexes (s : SrcGrid) (dlat dlon : ℚ) (ps : List (ℚ × ℚ)) : Except Err (List (Quad ℤ)) := do
  let latMaxOut ← maxOf (ps.map (·.1))
  let lonMaxOut ← maxOf (ps.map (·.2))
  let latEq := npIsclose (largestOf s.lats) latMaxOut
  let lonEq := npIsclose (largestOf s.lons) lonMaxOut
  let corner ← cornerOf (largestOf s.lats) (largestOf s.lons) latEq lonEq ps
  return (List.range ps.length).map (fun k => targetQuad s dlat dlon latEq lonEq corner k (ps.getD k (0, 0)))

/-- Python indexing of an array of length `n` by an integer. -/
def pyIndex (n : ℕ) (i : ℤ) : Except Err ℕ :=
  if 0 ≤ i ∧ i < n then .ok i.toNat
  else if i < 0 ∧ 0 ≤ i + n then .ok (i + n).toNat
  else .error .indexError

/-- The flattened indices of a target as positions in the source. -/
def resolveQuad (s : SrcGrid) (q : Quad ℤ) : Except Err (Quad ℕ) := do
  let n := s.rows.length * s.cols.length
  let a ← pyIndex n q.i1
  let b ← pyIndex n q.i2
  let c ← pyIndex n q.i3
  let d ← pyIndex n q.i4
  return ⟨a, b, c, d⟩

/-- `latlon_from_cube` (grid.py:102-118): the coordinates of a flattened index. -/
def flatPoint (s : SrcGrid) (i : ℕ) : ℚ × ℚ := (s.lats.getD (i / s.cols.length) 0, s.lons.getD (i % s.cols.length) 0)

/-- `flatten_spatial_dimensions` (grid.py:157-184): the value at a flattened index (`none` is masked or NaN). -/
def flatValue (s : SrcGrid) (data : ℕ → ℕ → Option ℚ) (i : ℕ) : Option ℚ :=
  data (s.rows.getD (i / s.cols.length) 0) (s.cols.getD (i % s.cols.length) 0)

/-! ### Weights -/

/-- `basic_weights` (bilinear.py:198-248) at one target. -/
def basicWeights (s : SrcGrid) (dlat dlon : ℚ) (q : Quad ℕ) (p : ℚ × ℚ) : List ℚ :=
  let lat1 := (flatPoint s q.i1).1
  let lon1 := (flatPoint s q.i1).2
  let lat2_lat := lat1 + dlat - p.1
  let lon3_lon := lon1 + dlon - p.2
  let lon_lon1 := p.2 - lon1
  let lat_lat1 := p.1 - lat1
  let area := dlat * dlon
  [lat2_lat * lon3_lon / area, lat_lat1 * lon3_lon / area, lat_lat1 * lon_lon1 / area, lat2_lat * lon_lon1 / area]

/-- The product and sum of `apply_weights` (bilinear.py:44-57): NaN spreads whatever its weight. -/
def sumWeighted : List (Option ℚ) → List ℚ → Option ℚ
  | [], _ => some 0
  | _, [] => some 0
  | none :: _, _ :: _ => none
  | some v :: vs, w :: ws => (sumWeighted vs ws).map (fun t => w * v + t)

/-- `apply_weights` at one target. -/
def applyWeights (s : SrcGrid) (data : ℕ → ℕ → Option ℚ) (idx : List ℕ) (w : List ℚ) : Option ℚ := sumWeighted (idx.map (flatValue s data)) w

/-- Squared distance in degrees (landsea2.py:173-176). -/
def degDist (s : SrcGrid) (p : ℚ × ℚ) (i : ℕ) : ℚ := ((flatPoint s i).1 - p.1) ^ 2 + ((flatPoint s i).2 - p.2) ^ 2

/-- `np.argmin` of distances where infinity is `none`: the first of the least; 0 when all are infinite. -/
def argminInf : List (Option ℚ) → ℕ
  | [] => 0
  | l => go l 0 0 none
where
  go : List (Option ℚ) → ℕ → ℕ → Option ℚ → ℕ
    | [], _, best, _ => best
    | none :: rest, k, best, m => go rest (k + 1) best m
    | some d :: rest, k, best, none => go rest (k + 1) k (some d)
    | some d :: rest, k, best, some m => if d < m then go rest (k + 1) k (some d) else go rest (k + 1) best (some m)

/-- `nearest_regrid` (nearest.py:98-117) at one target: the position in the source that is used. -/
def nearestPick (dist : List (Option ℚ)) (idx : List ℕ) : ℕ := idx.getD (argminInf dist) 0

/-! ### Surface types -/

/-- `nearest_input_pts` (idw.py:102-134): the `k` nearest source points, nearest first.  `dist` is the distance through the earth from the target.
With fewer than `k` source points the tree gives an index beyond the end, which fails when it is used. -/
def nearestPts (n : ℕ) (dist : ℕ → ℚ) (k : ℕ) : Except Err (List ℕ) :=
  if n < k then .error .indexError
  else .ok (((List.range n).insertionSort (fun a b => dist a ≤ dist b)).take k)

/-- `similar_surface_classify` (grid.py:238-269) at one target. -/
def sameSurface (land : ℕ → Bool) (target : Bool) (idx : List ℕ) : List Bool := idx.map (fun i => land i == target)

/-- The 8 point search of `lakes_islands` (bilinear.py:539-566, nearest.py:218-241): the points of the same type within the vicinity. -/
def lakeMatches (n : ℕ) (dist : ℕ → ℚ) (land : ℕ → Bool) (target : Bool) (vicinity : ℚ) : Except Err (List ℕ) := do
  let pts ← nearestPts n dist 8
  return pts.filter (fun i => (land i == target) && !decide (dist i > vicinity))

/-- `nearest_with_mask_regrid` (nearest.py:18-95) and `nearest_regrid` at one target with the corners `q`: the source position used. -/
def nearestMask (s : SrcGrid) (dist : ℕ → ℚ) (land : ℕ → Bool) (target : Bool) (vicinity : ℚ) (q : Quad ℕ) (p : ℚ × ℚ) : Except Err ℕ :=
  let n := s.rows.length * s.cols.length
  let same := sameSurface land target q.toList
  if same.count true < 4 then do
    -- update_nearest_points
    let pts ← nearestPts n dist 4
    let same' := sameSurface land target pts
    if same'.count true = 0 then
      -- lakes_islands
      let found ← lakeMatches n dist land target vicinity
      match found with
      | [] => return nearestPick (pts.map (fun i => some (dist i))) pts
      | i :: _ =>
        -- only the first entry is replaced and only it keeps a finite distance
        return nearestPick ((pts.map (fun i => some (dist i))).take 1 ++ [none, none, none]) (i :: pts.drop 1)
    else return nearestPick (List.zipWith (fun i b => if b then some (dist i) else none) pts same') pts
  else return nearestPick (q.toList.map (fun i => some (degDist s p i))) q.toList

/-- Inverse distance weights (idw.py:78-94, bilinear.py:615-626); `ip d` stands for `(1 / (d + eps)) ** 1.8`. -/
def idwWeights (ip : ℚ → ℚ) (ds : List ℚ) (same : List Bool) : List ℚ :=
  let inv := List.zipWith (fun d (b : Bool) => if b then ip d else 0) ds same
  inv.map (fun v => v * (1 / inv.sum))

/-- `one_mismatched_input_point` (bilinear.py:371-484) at one target whose corner `i` (counted from 0) does not match. -/
def triangleWeights (s : SrcGrid) (dlat dlon : ℚ) (q : Quad ℕ) (p : ℚ × ℚ) (i : ℕ) : List ℚ :=
  let lat1 := (flatPoint s q.i1).1
  let lon1 := (flatPoint s q.i1).2
  let area := dlat * dlon
  let lat2_lat := lat1 + dlat - p.1
  let lon3_lon := lon1 + dlon - p.2
  let lon_lon1 := p.2 - lon1
  let lat_lat1 := p.1 - lat1
  if i = 0 then
    let w2 := dlat * lon3_lon / area
    let w4 := lat2_lat * dlon / area
    [0, w2, 1 - (w2 + w4), w4]
  else if i = 1 then
    let w1 := dlat * lon3_lon / area
    let w3 := lat_lat1 * dlon / area
    [w1, 0, w3, 1 - (w1 + w3)]
  else if i = 2 then
    let w2 := lat_lat1 * dlon / area
    let w4 := dlat * lon_lon1 / area
    [1 - (w2 + w4), w2, 0, w4]
  else
    let w3 := dlat * lon_lon1 / area
    let w1 := lat2_lat * dlon / area
    [w1, 1 - (w1 + w3), w3, 0]

/-- `lakes_islands` (bilinear.py:487-628) at one target: weights and source positions. -/
def lakesIslands (s : SrcGrid) (ip dist : ℕ → ℚ) (land : ℕ → Bool) (target : Bool) (vicinity : ℚ) (basic : List ℚ) (idx : List ℕ) :
    Except Err (List ℚ × List ℕ) := do
  let found ← lakeMatches (s.rows.length * s.cols.length) dist land target vicinity
  if found = [] then return (basic, idx)
  else
    let used := found.take 4
    let total := (used.map ip).sum
    return (used.map (fun i => ip i * (1 / total)) ++ List.replicate (4 - used.length) 0, used ++ idx.drop used.length)

/-- `inverse_distance_weighting` (idw.py:23-99) at one target, with its fallback (bilinear.py:336-366). -/
def idwOrLakes (s : SrcGrid) (ip dist : ℕ → ℚ) (land : ℕ → Bool) (target : Bool) (vicinity : ℚ) (basic : List ℚ) (idx : List ℕ) :
    Except Err (List ℚ × List ℕ) := do
  let pts ← nearestPts (s.rows.length * s.cols.length) dist 4
  let same := sameSurface land target pts
  if same.count true = 0 then lakesIslands s ip dist land target vicinity basic idx
  else
    let inv := List.zipWith (fun i (b : Bool) => if b then ip i else 0) pts same
    return (inv.map (fun v => v * (1 / inv.sum)), pts)

/-- `adjust_for_surface_mismatch` (bilinear.py:251-368) at one target.  `ip i` stands for `(1 / (dist i + eps)) ** 1.8`. -/
def bilinearMask (s : SrcGrid) (dlat dlon : ℚ) (ip dist : ℕ → ℚ) (land : ℕ → Bool) (target : Bool) (vicinity : ℚ) (q : Quad ℕ) (p : ℚ × ℚ) :
    Except Err (List ℚ × List ℕ) :=
  let basic := basicWeights s dlat dlon q p
  let same := sameSurface land target q.toList
  let count := same.count true
  if count = 4 then .ok (basic, q.toList)
  else if count = 3 then
    let w := triangleWeights s dlat dlon q p (same.idxOf false)
    if w.all (fun v => decide (v > -1 / 100000000)) then .ok (w, q.toList)
    else idwOrLakes s ip dist land target vicinity basic q.toList
  else if count = 0 then lakesIslands s ip dist land target vicinity basic q.toList
  else idwOrLakes s ip dist land target vicinity basic q.toList

/-! ### The plugin -/

/-- `mask_target_points_outside_source_domain` (grid.py:420-455): results go to the targets inside, the others are missing. -/
def scatter : List Bool → List (Option ℚ) → List (Option ℚ)
  | [], _ => []
  | false :: bs, rs => none :: scatter bs rs
  | true :: bs, [] => none :: scatter bs []
  | true :: bs, r :: rs => r :: scatter bs rs

/-- The value of one target inside the source; the land mask, the distances and the type of the target are used by the modes with a mask
(landsea2.py:154-221). -/
def regridTarget (mode : String) (s : SrcGrid) (dlat dlon : ℚ) (data : ℕ → ℕ → Option ℚ) (land : ℕ → ℕ → Bool) (ip : ℚ → ℚ)
    (dist : ℚ × ℚ → ℕ × ℕ → ℚ) (vicinity : ℚ) (tgt : ℚ × ℚ → Bool) (p : ℚ × ℚ) (qz : Quad ℤ) : Except Err (Option ℚ) := do
  let q ← resolveQuad s qz
  let orig := fun i : ℕ => (s.rows.getD (i / s.cols.length) 0, s.cols.getD (i % s.cols.length) 0)
  let landAt := fun i => land (orig i).1 (orig i).2
  let distAt := fun i => dist p (orig i)
  if mode = "nearest-2" then
    return flatValue s data (nearestPick (q.toList.map (fun i => some (degDist s p i))) q.toList)
  else if mode = "bilinear-2" then
    return applyWeights s data q.toList (basicWeights s dlat dlon q p)
  else if mode = "nearest-with-mask-2" then do
    let i ← nearestMask s distAt landAt (tgt p) vicinity q p
    return flatValue s data i
  else if mode = "bilinear-with-mask-2" then do
    let wi ← bilinearMask s dlat dlon (fun i => ip (distAt i)) distAt landAt (tgt p) vicinity q p
    return applyWeights s data wi.2 wi.1
  else .error .valueError

/-- `RegridWithLandSeaMask.process` (landsea2.py:75-237) for one two-dimensional field.  `maskStep` are the spacings of the land mask, which
only matter with a mask.  Metadata are modelled separately. -/
def regridWithMask (mode : String) (lat lon : RegAxis) (maskStep : ℚ × ℚ) (data : ℕ → ℕ → Option ℚ) (land : ℕ → ℕ → Bool) (ip : ℚ → ℚ)
    (dist : ℚ × ℚ → ℕ × ℕ → ℚ) (vicinity : ℚ) (tgt : ℚ × ℚ → Bool) (out : List (ℚ × ℚ)) : Except Err (List (Option ℚ)) := do
  let withMask := decide (mode = "nearest-with-mask-2") || decide (mode = "bilinear-with-mask-2")
  let dlat := if withMask then max lat.step maskStep.1 else lat.step
  let dlon := if withMask then max lon.step maskStep.2 else lon.step
  let s ← sliceSource lat lon dlat dlon out
  let ps := out.filter (insideSource s)
  let quads ← basicIndexes s lat.step lon.step ps
  let res ← (ps.zip quads).mapM (fun pq => regridTarget mode s lat.step lon.step data land ip dist vicinity tgt pq.1 pq.2)
  return scatter (out.map (insideSource s)) res

/-! ### Order of dimensions -/

/-- `np.swapaxes` on the list of dimension names. -/
def swapAxes (l : List String) (i j : ℕ) : List String := (l.set i (l.getD j "")).set j (l.getD i "")

/-- The dimensions after `flatten_spatial_dimensions` (grid.py:172-183); the first two are then merged and taken to be latitude and
longitude. -/
def flattenDims (dims : List String) (lat lon : ℕ) : List String := swapAxes (swapAxes dims 0 lat) 1 lon

/-- The dimensions after `unflatten_spatial_dimensions` (grid.py:147-154). -/
def unflattenDims (dims : List String) (lat lon : ℕ) : List String := swapAxes (swapAxes dims 1 lon) 0 lat

/-- The order in which `create_regrid_cube` (grid.py:359-372) attaches the dimensions. -/
def attachedDims (dims : List String) (latName lonName : String) : List String := (dims.erase latName).erase lonName ++ [latName, lonName]

end Improver
