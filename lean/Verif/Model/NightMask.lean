import Verif.Model.CombineRun
import Verif.Model.VicinityRun
import Verif.Model.ProbName

/-! Model of `DayNightMask.process` on whole cubes (improver/utilities/solar.py:270-319, 358-414) and of the command apply-night-mask
(improver/cli/apply_night_mask.py:35-46).  Whether it is day at a time and a place of the grid is a parameter (modelled in Model/Solar.lean). -/

namespace Improver

/-- A cube to be masked: `space` are its spatial dimensions, y and x of a grid or the one dimension of spot data; the points of "time" are those of the time
coordinate, dimension or scalar, `bounds` its bounds; `isProb`: it has a threshold coordinate. -/
structure NightCube extends PointCube MVal where
  name : List Char
  isProb : Bool
  space : List String
  bounds : Option (List (ℚ × ℚ))

/-- solar.py:395-400: the time for which the slice at place `i` of the time coordinate is masked; the bounds are those of the first time of the cube. -/
def nightTime (c : NightCube) (i : ℕ) : ℚ :=
  match c.bounds with
  | some b => (b.getD 0 (0, 0)).1 + ((b.getD 0 (0, 0)).2 - (b.getD 0 (0, 0)).1) / 2
  | none => (c.points "time").getD i 0

/-- solar.py:270-319 and 394-414: true for day.  The slices are (time,) y, x whatever the order in the cube (`cube.slices` is ordered); merging the times puts
them in ascending order, and one time alone leaves no dimension. -/
def dayMask (day : ℚ → List ℕ → Bool) (c : NightCube) : PointCube Bool :=
  if "time" ∈ c.dims ∧ (c.points "time").length ≠ 1 then
    ⟨⟨"time" :: c.space, fun idx => day (nightTime c ((argsort (c.points "time")).getD (idx.getD 0 0) 0)) (idx.drop 1)⟩,
      fun n => if n = "time" then npSort (c.points n) else c.points n⟩
  else ⟨⟨c.space, fun idx => day (nightTime c 0) idx⟩, c.points⟩

/-- cli/apply_night_mask.py:41-46: the mask is fitted to the cube by position; `np.where` drops the mask of the data. -/
def maskNight (m : PointCube Bool) (c : NightCube) : Except Err (PointCube MVal) :=
  if fitsShape c.toPointCube.shape m.shape then
    .ok ⟨⟨c.dims, fun idx => ⟨if m.data (fitIndex m.shape idx) then (c.data idx).val else 0, false⟩⟩, c.points⟩
  else .error .valueError

/-- cli/apply_night_mask.py:35-46 `process`. -/
def applyNightMask (day : ℚ → List ℕ → Bool) (c : NightCube) : Except Err (PointCube MVal) :=
  if c.isProb ∧ hasPart "above_threshold".toList c.name = false then .error .valueError else maskNight (dayMask day c) c

end Improver
