import Verif.Model.OrogCoeff
import Verif.Model.OrogEnh

/-! Model of the orography gradients of `OrographicEnhancement` (improver/orographic_enhancement.py:104-134, 194-202): the topography with sorted axes in
y, x order, smoothed across the direction of each gradient, differences to the next point over the grid spacing, and the linear regridding of those
midpoint values back to the points (improver/utilities/spatial.py:707-709).  Heights and coordinates are exact rationals in metres; axes are not circular. -/

namespace Improver

/-- `sort_coord_in_cube(cube, axis)` (improver/utilities/cube_manipulation.py:431-465) for x and y (orographic_enhancement.py:194-195).  The points of a
dimension coordinate are strictly monotonic, so sorting keeps them or turns them round. -/
def axisDescends (l : List ℚ) : Bool := decide (l.getLastD 0 < l.headD 0)

/-- The points of a sorted axis. -/
def sortedAxis (l : List ℚ) : List ℚ := if axisDescends l then l.reverse else l

/-- The place before sorting of the `i`-th point after sorting. -/
def sortedIndex (l : List ℚ) (i : ℕ) : ℕ := if axisDescends l then l.length - 1 - i else i

/-- orographic_enhancement.py:194-199: both axes sorted, then y, x order. -/
def sortedTopography (t : Field2 ℚ) : Field2 ℚ :=
  Field2.toYX ⟨t.xFirst, sortedAxis t.ys, sortedAxis t.xs,
    if t.xFirst then fun i j => t.data (sortedIndex t.xs i) (sortedIndex t.ys j)
    else fun i j => t.data (sortedIndex t.ys i) (sortedIndex t.xs j)⟩

/-- `uniform_filter1d(data, 3)` (orographic_enhancement.py:123, 128) along an axis of `n` points, at place `k`: its mode "reflect" repeats the value at each
edge. -/
def smoothThree (n : ℕ) (f : ℕ → ℚ) (k : ℕ) : ℚ := (f (k - 1) + f k + f (min (k + 1) (n - 1))) / 3

/-- `cube.regrid(target, iris.analysis.Linear())` (spatial.py:709) along one axis: the line through the values at the two source points around `x`, or at
the two nearest to it beyond the ends (the default extrapolation of iris is linear).  `m` source points. -/
def regridLinear (m : ℕ) (src g : ℕ → ℚ) (x : ℚ) : ℚ :=
  let i := min (((List.range m).filter fun k => decide (src k < x)).length - 1) (m - 2)
  g i + (x - src i) / (src (i + 1) - src i) * (g (i + 1) - g i)

/-- Gradient along one axis (spatial.py:685-712 with `regrid=True`): differences of the values at neighbouring points over the spacing, at the midpoints,
then at the points again. -/
def gradientAtPoints (points : List ℚ) (spacing : ℚ) (f : ℕ → ℚ) (k : ℕ) : ℚ :=
  regridLinear (points.length - 1) (fun i => (axisMidpoints false points).getD i 0) (fun i => (f (i + 1) - f i) / spacing) (points.getD k 0)

/-- The two gradients on a sorted topography in y, x order. -/
structure OrogGradients where
  gradx : ℕ → ℕ → ℚ
  grady : ℕ → ℕ → ℚ

/-- orographic_enhancement.py:104-134 `_orography_gradients`, after 194-202.  `DistanceBetweenGridSquares` computes both spacings for either gradient
(spatial.py:364-396, 698).  With fewer than three points on an axis there is a single midpoint, from which iris cannot interpolate: an error here. -/
def orographyGradients (topography : Field2 ℚ) : Except Err OrogGradients := do
  let t := sortedTopography topography
  let dx ← gridSpacing t.xs
  let dy ← gridSpacing t.ys
  if t.xs.length < 3 ∨ t.ys.length < 3 then .error .valueError
  else
    return ⟨fun y x => gradientAtPoints t.xs dx (fun j => smoothThree t.ys.length (fun i => t.data i j) y) x,
      fun y x => gradientAtPoints t.ys dy (fun i => smoothThree t.xs.length (fun j => t.data i j) x) y⟩

/-- orographic_enhancement.py:229-232 and 569-573: the fields from which the enhancement is computed, with these gradients; the other fields are on the
sorted grid already. -/
noncomputable def OrogFields.withGradients (f : OrogFields) (g : OrogGradients) : OrogFields :=
  { f with gradx := fun y x => (g.gradx y x : ℝ), grady := fun y x => (g.grady y x : ℝ) }

end Improver
