import Verif.Model.HaloRun

/-!
Model of `create_cube_with_halo` (improver/utilities/pad_spatial.py:76-105) and of the command that calls it (improver/cli/create_grid_with_halo.py:31-32).  Points are
in metres; the float32 rounding of the points is not modelled, nor are coordinate metadata other than points and bounds.
-/

namespace Improver

/-- The cube made: data on (y, x), the bounds of both coordinates, and what it says about itself. -/
structure HaloGrid where
  grid : PointCube ℚ
  yBounds : List (ℚ × ℚ)
  xBounds : List (ℚ × ℚ)
  name : String
  units : String

/-- pad_spatial.py:98-103: zeros on the two padded coordinates, y first. -/
def haloGridOf (yName xName : String) (yc xc : PaddedCoord) : HaloGrid :=
  ⟨⟨⟨[yName, xName], fun _ => 0⟩, fun n => if n = yName then yc.points else if n = xName then xc.points else []⟩, yc.bounds, xc.bounds, "grid_with_halo", "no_unit"⟩

/-- pad_spatial.py:91-105 for a cube whose spatial axes have these names and points. -/
def createCubeWithHalo (yName xName : String) (ys xs : List ℚ) (radius : ℚ) : Except Err HaloGrid := do
  let wx ← distanceToCells xs radius
  let wy ← distanceToCells ys radius
  let xc ← padCoordAdd xs wx
  let yc ← padCoordAdd ys wy
  return haloGridOf yName xName yc xc

/-- create_grid_with_halo.py:13, 31: the radius of the command, 162 km unless given. -/
def gridWithHaloCommand (yName xName : String) (ys xs : List ℚ) (radius : Option ℚ) : Except Err HaloGrid :=
  createCubeWithHalo yName xName ys xs (radius.getD 162000)

end Improver
