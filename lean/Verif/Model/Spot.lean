import Verif.Model.Sorting
import Verif.Model.Times

/-! Model of `improver/spotdata/{neighbour_finding,spot_extraction,spot_manipulation,utilities}.py` and of the grid check of
`improver/metadata/utilities.py`. -/

namespace Improver

/-- Configuration of `NeighbourSelection` (neighbour_finding.py:46-100). -/
structure NbCfg where
  land : Bool := false
  minimumDz : Bool := false
  radius : ℚ := 10000
  nodeLimit : ℕ := 36
  deriving DecidableEq

/-- `get_neighbour_finding_method_name` (spotdata/utilities.py:9-23). -/
def methodName (land minimumDz : Bool) : String :=
  "nearest" ++ (if land then "_land" else "") ++ (if minimumDz then "_minimum_dz" else "")

/-- Grid points `(x index, y index)` in the order of `np.nonzero` / `np.where` on an x-y ordered array. -/
def gridNodes (nx ny : ℕ) : List (ℕ × ℕ) := (List.range nx).flatMap (fun i => (List.range ny).map (fun j => (i, j)))

/-- `build_KDTree` (neighbour_finding.py:301-337): the nodes of the tree.  Without the land constraint all points are included. -/
def treeNodes (landConstraint : Bool) (nx ny : ℕ) (land : ℕ → ℕ → Bool) : List (ℕ × ℕ) :=
  if landConstraint then (gridNodes nx ny).filter (fun n => land n.1 n.2) else gridNodes nx ny

/-- `cKDTree.query(site, k, distance_upper_bound)`: the nearest `k` nodes at a distance strictly below the bound, nearest first.
`dist` is the distance from the site to each grid point (planar, or through the earth for a global grid).  Ties are in
node order in the model, unspecified in scipy. -/
def kdQuery (dist : ℕ × ℕ → ℚ) (nodes : List (ℕ × ℕ)) (k : ℕ) (bound : ℚ) : List (ℕ × ℕ) :=
  ((nodes.insertionSort (fun a b => dist a ≤ dist b)).take k).filter (fun n => decide (dist n < bound))

/-- `select_minimum_dz` (neighbour_finding.py:339-413): the first of the returned nodes whose vertical displacement is the
least; `none` when there is no node. -/
def selectMinimumDz (orog : ℕ → ℕ → ℚ) (altitude : ℚ) (found : List (ℕ × ℕ)) : Option (ℕ × ℕ) :=
  match npMin (found.map (fun n => |orog n.1 n.2 - altitude|)) with
  | .error _ => none
  | .ok m => found.find? (fun n => decide (|orog n.1 n.2 - altitude| = m))

/-- The choice of grid point for one site (neighbour_finding.py:511-556).  `nearest` is the point found by iris' `nearest_neighbour_index`
on each axis.  An empty tree makes scipy raise. -/
def chooseNeighbour (c : NbCfg) (nx ny : ℕ) (land : ℕ → ℕ → Bool) (orog : ℕ → ℕ → ℚ) (dist : ℕ × ℕ → ℚ)
    (nearest : ℕ × ℕ) (altitude : ℚ) : Except Err (ℕ × ℕ) :=
  if c.land || c.minimumDz then
    let nodes := treeNodes c.land nx ny land
    if nodes = [] then .error .valueError
    else if !c.minimumDz then
      match nodes.insertionSort (fun a b => dist a ≤ dist b) with
      | [] => .error .valueError
      | n :: _ => if dist n < c.radius then .ok n else .ok nearest
    else
      match selectMinimumDz orog altitude (kdQuery dist nodes c.nodeLimit c.radius) with
      | some n => .ok n
      | none => .ok nearest
  else .ok nearest

/-- One site: its coordinates on the grid's coordinate system, optional altitude and identifiers, and what the grid says
about it (nearest point and distances). -/
structure Site where
  x : ℚ
  y : ℚ
  altitude : Option ℚ
  wmoId : Option ℕ
  uniqueId : Option ℕ
  nearest : ℕ × ℕ
  dist : ℕ × ℕ → ℚ

/-- `get_nearest_indices` (neighbour_finding.py:239-264) on one axis without bounds: iris `nearest_neighbour_index`, the first of the
nearest points. -/
def nearestPoint (points : List ℚ) (v : ℚ) : ℕ :=
  match points.map (fun p => |p - v|) with
  | [] => 0
  | d :: ds => argminFrom d 0 1 ds

/-- A site on a regional grid with coordinates in metres: nearest point by axis, planar distances (neighbour_finding.py:321-334).  The
model compares squared distances with the square of the search radius. -/
def planarSite (xs ys : List ℚ) (x y : ℚ) (altitude : Option ℚ) (wmoId uniqueId : Option ℕ) : Site :=
  { x, y, altitude, wmoId, uniqueId, nearest := (nearestPoint xs x, nearestPoint ys y),
    dist := fun n => (xs.getD n.1 0 - x) ^ 2 + (ys.getD n.2 0 - y) ^ 2 }

/-- Altitude used for a site (neighbour_finding.py:500-509): the orography of the nearest point if it has none. -/
def siteAltitude (orog : ℕ → ℕ → ℚ) (s : Site) : ℚ := s.altitude.getD (orog s.nearest.1 s.nearest.2)

/-- `check_sites_are_within_domain` (neighbour_finding.py:149-237); bounds are (min, max). -/
def withinDomain (global : Bool) (xb yb : ℚ × ℚ) (s : Site) : Bool :=
  if global then decide (s.y ≥ yb.1) && decide (s.y ≤ yb.2)
  else decide (s.x ≥ xb.1) && decide (s.x ≤ xb.2) && decide (s.y ≥ yb.1) && decide (s.y ≤ yb.2)

/-- One column of the neighbour cube (neighbour_finding.py:558-562, 603-608). -/
structure NbOut where
  xIndex : ℕ
  yIndex : ℕ
  displacement : ℚ
  altitude : ℚ
  deriving DecidableEq

/-- A row of the result for one site. -/
def siteNeighbour (c : NbCfg) (nx ny : ℕ) (land : ℕ → ℕ → Bool) (orog : ℕ → ℕ → ℚ) (s : Site) : Except Err NbOut := do
  let alt := siteAltitude orog s
  let n ← chooseNeighbour c nx ny land orog s.dist s.nearest alt
  return ⟨n.1, n.2, alt - orog n.1 n.2, alt⟩

/-- The unique site identifiers (neighbour_finding.py:574-596): every site has one (`KeyError`), they are distinct, and they have
at most eight digits. -/
def checkUniqueIds (ids : List (Option ℕ)) : Except Err (List ℕ) :=
  if ids.any (·.isNone) then .error .keyError
  else
    let vals := ids.filterMap id
    if vals.dedup.length ≠ ids.length then .error .valueError
    else if vals.any (fun v => decide (v ≥ 10 ^ 8)) then .error .valueError
    else .ok vals

/-- `NeighbourSelection.process` (neighbour_finding.py:415-642): the columns of the neighbour cube.  Transformations between coordinate systems are
not modelled. -/
def neighbourSelection (c : NbCfg) (global metres sameGrid useUnique : Bool) (xb yb : ℚ × ℚ) (nx ny : ℕ)
    (land : ℕ → ℕ → Bool) (orog : ℕ → ℕ → ℚ) (sites : List Site) : Except Err (List NbOut) := do
  if !global && !metres then .error .valueError
  else if !sameGrid then .error .valueError
  else
    let kept := sites.filter (withinDomain global xb yb)
    let out ← kept.mapM (siteNeighbour c nx ny land orog)
    if useUnique then
      let _ ← checkUniqueIds (kept.map (·.uniqueId))
      return out
    else return out

/-! ## Spot extraction -/

/-- What `create_coordinate_hash` feeds to the hash for one axis (metadata/utilities.py:164-177): points, names, coordinate system and
units; the bounds never take part, because `isinstance(coord.bounds, list)` is false for an array. -/
structure AxisId where
  points : List ℚ
  name : String
  system : String
  units : String
  deriving DecidableEq

/-- A grid axis with its bounds. -/
structure Axis where
  ident : AxisId
  bounds : List (ℚ × ℚ)
  deriving DecidableEq

/-- The grid identity compared by `check_grid_match` (metadata/utilities.py:150-177, 198-203), the hash being taken as injective: the
attribute `model_grid_hash` if present, otherwise from the coordinates. -/
def gridId (attr : Option (AxisId × AxisId)) (x y : Axis) : AxisId × AxisId := attr.getD (x.ident, y.ident)

/-- `check_grid_match` (metadata/utilities.py:180-214). -/
def checkGridMatch : List (AxisId × AxisId) → Except Err Unit
  | [] => .error .valueError
  | g :: gs => if gs.all (fun k => decide (k = g)) then .ok () else .error .valueError

/-- A neighbour cube: for each method name, the indices and displacement of each site. -/
structure NeighbourCube where
  grid : AxisId × AxisId
  methods : List (String × List NbOut)

/-- `SpotExtraction.extract_coordinates` (spot_extraction.py:50-88). -/
def extractCoordinates (nb : NeighbourCube) (method : String) : Except Err (List NbOut) :=
  match nb.methods.find? (fun m => m.1 == method) with
  | some m => .ok m.2
  | none => .error .valueError

/-- `SpotExtraction.process` (spot_extraction.py:248-319): `data[..., y_indices, x_indices]` for a field of `ny` rows and `nx` columns;
numpy raises `IndexError` for an index outside the array. -/
def spotExtract {V : Type} (nb : NeighbourCube) (method : String) (grid : AxisId × AxisId) (ny nx : ℕ) (data : ℕ → ℕ → V) :
    Except Err (List V) := do
  checkGridMatch [nb.grid, grid]
  let cols ← extractCoordinates nb method
  cols.mapM (fun o => if o.yIndex < ny ∧ o.xIndex < nx then .ok (data o.yIndex o.xIndex) else .error .indexError)

/-- Subsetting an existing spot cube (spot_manipulation.py:177-193): sites whose identifier is on the neighbour cube and is not the
string "None". -/
def subsetSites {V : Type} (ids : List String) (spots : List (String × V)) : Except Err (List (String × V)) :=
  let wanted := ids.filter (fun i => i != "None")
  let kept := spots.filter (fun s => decide (s.1 ∈ wanted))
  if kept.isEmpty then .error .valueError else .ok kept

end Improver
