import Verif.Basic
import Verif.Model.CubeManip
import Verif.Model.Spatial

/-!
Model of `improver/regrid/landsea.py`: the choice of the mode, the attributes, the check of the land mask and the adjustment of land and sea points after
nearest neighbour regridding.  The regridding by iris itself is not modelled: `adjustLandSea` starts from its results.
-/

namespace Improver

/-- `REGRID_REQUIRES_LANDMASK` (landsea.py:35-43). -/
def requiresLandmask (mode : String) : Option Bool :=
  if mode = "bilinear" ∨ mode = "nearest" ∨ mode = "nearest-2" ∨ mode = "bilinear-2" then some false
  else if mode = "nearest-with-mask" ∨ mode = "nearest-with-mask-2" ∨ mode = "bilinear-with-mask-2" then some true
  else none

/-- `RegridLandSea.__init__` (landsea.py:71-80): the vicinity that is kept. -/
def regridLandSeaInit (mode : String) (haveMask : Bool) (vicinity : ℚ) : Except Err (Option ℚ) :=
  match requiresLandmask mode with
  | none => .error .valueError
  | some need => if !haveMask && need then .error .valueError else .ok (if haveMask then some vicinity else none)

/-- Assignment to a key of a dictionary. -/
def attrSet (attrs : List (String × String)) (k v : String) : List (String × String) := (k, v) :: attrs.filter (fun kv => decide (kv.1 ≠ k))

/-- `dict.pop`. -/
def attrPop (attrs : List (String × String)) (k : String) : List (String × String) := attrs.filter (fun kv => decide (kv.1 ≠ k))

/-- One key of the loop (landsea.py:159-163). -/
def updateGridAttr (target attrs : List (String × String)) (k : String) : List (String × String) :=
  match attrGet target k with
  | some v => attrSet attrs k v
  | none => attrPop attrs k

/-- The attributes of the result (landsea.py:153-169).  `grid` is `MOSG_GRID_ATTRIBUTES`. -/
def regridAttributes (grid : List String) (attrs target : List (String × String)) (title : Option String) : List (String × String) :=
  let required := (attrs.map Prod.fst).filter (fun k => decide (k ∈ grid))
  attrSet (required.foldl (updateGridAttr target) attrs) "title" (title.getD "unknown")

/-- A horizontal coordinate: its name, units and coordinate system, and its points. -/
structure GridAxis where
  name : String
  units : String
  system : String
  points : List ℚ
  deriving DecidableEq

/-- `np.allclose(a, b)` with broadcasting of one dimension; unequal lengths other than one raise `ValueError`. -/
def npAllclose (a b : List ℚ) : Except Err Bool :=
  if a.length = b.length then .ok ((List.zipWith (fun x y => npIsclose x y) a b).all id)
  else match a, b with
    | [x], _ => .ok (b.all (fun y => npIsclose x y))
    | _, [y] => .ok (a.all (fun x => npIsclose x y))
    | _, _ => .error .valueError

/-- One axis of `grid_contains_cutout` (landsea.py:384-411). -/
def axisContains (grid cut : GridAxis) : Except Err Bool :=
  if cut.name ≠ grid.name ∨ cut.units ≠ grid.units ∨ cut.system ≠ grid.system then .ok false
  else match cut.points with
    | [] => .error .indexError
    | c :: _ =>
      let found := grid.points.map (fun g => npIsclose c g)
      if !found.any id then .ok false
      else
        let start := found.idxOf true
        match npAllclose cut.points ((grid.points.drop start).take cut.points.length) with
        | .ok b => .ok b
        | .error _ => .ok false

/-- `grid_contains_cutout` (landsea.py:364-413); two grids match when their axes are equal. -/
def gridContainsCutout (gx gy cx cy : GridAxis) : Except Err Bool :=
  if cx = gx ∧ cy = gy then .ok true
  else do
    let bx ← axisContains gx cx
    if !bx then return false
    axisContains gy cy

/-- All points of an `h` by `w` grid in row order. -/
def gridPts (h w : ℕ) : List (ℕ × ℕ) := (List.range h).flatMap (fun y => (List.range w).map (fun x => (y, x)))

/-- Squared distance of two grid points counted in grid lengths. -/
def idxDist (a b : ℕ × ℕ) : ℚ := ((a.1 : ℚ) - b.1) ^ 2 + ((a.2 : ℚ) - b.2) ^ 2

/-- `cKDTree(pts).query(q)`: a nearest point; which of several equally near ones is not specified, here the first. -/
def nearestOf (pts : List (ℕ × ℕ)) (q : ℕ × ℕ) : ℕ × ℕ :=
  match pts with
  | [] => q
  | a :: as => as.foldl (fun best b => if idxDist b q < idxDist best q then b else best) a

/-- The vicinity test (landsea.py:262-268): a point of the selected type within `r` cells. -/
def inVicinity (h w r : ℕ) (fill : ℚ) (inLand : ℕ → ℕ → Bool) (sel : Bool) (y x : ℕ) : Bool :=
  decide (maximumWithinVicinity h w r fill (fun _ _ => false) none (fun i j => if inLand i j = sel then 1 else 0) y x > 1 / 2)

/-- `correct_where_input_true` (landsea.py:242-305) with `_get_matches`, at one point; `near` is the regridded field and `out` the result so far. -/
def correctWhere {α : Type} (h w r : ℕ) (fill : ℚ) (inLand outLand : ℕ → ℕ → Bool) (near : ℕ → ℕ → α) (sel : Bool) (out : ℕ → ℕ → α) (y x : ℕ) : α :=
  let use := (gridPts h w).filter (fun q => inLand q.1 q.2 == sel)
  if use = [] then out y x
  else if outLand y x = sel ∧ inLand y x ≠ sel ∧ inVicinity h w r fill inLand sel y x = true then
    near (nearestOf use (y, x)).1 (nearestOf use (y, x)).2
  else out y x

/-- `AdjustLandSeaPoints.process` (landsea.py:307-361) for one field: first the sea points, then the land points; both read the regridded field.
`inLand` is the source mask regridded to the target grid; it is taken to be defined everywhere. -/
def adjustLandSea {α : Type} (h w r : ℕ) (fill : ℚ) (inLand outLand : ℕ → ℕ → Bool) (near : ℕ → ℕ → α) : ℕ → ℕ → α :=
  correctWhere h w r fill inLand outLand near true (correctWhere h w r fill inLand outLand near false near)

end Improver
