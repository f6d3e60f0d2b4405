import Verif.Basic
import Verif.Model.Sorting
import Mathlib.Data.Rat.Floor

/-! Model of `improver/utilities/spatial.py`: grid spacing, distances in grid cells, differences and gradients between
adjacent grid squares, maxima within a vicinity.  Units are taken to be already converted to metres (or degrees for
longitude / latitude axes); cubes, names and coordinate metadata are not modelled. -/

namespace Improver

/-- `calculate_grid_spacing` (spatial.py:63-96): mean of the absolute differences of the points, provided every difference
is within a relative tolerance of the mean (`np.allclose` with `atol=0`).  With fewer than two points
the code returns NaN (with a warning), which its callers turn into an error or an empty array; the model raises an error
there. -/
def gridSpacing (points : List ℚ) (rtol : ℚ := 1 / 100000) : Except Err ℚ :=
  let diffs := (npDiff points).map abs
  if diffs = [] then .error .valueError
  else
    let m := diffs.sum / diffs.length
    if diffs.all (fun d => decide (|d - m| ≤ rtol * |m|)) then .ok m else .error .valueError

/-- `check_if_grid_is_equal_area` (spatial.py:36-60). -/
def checkEqualArea (xs ys : List ℚ) (requireEqual : Bool) : Except Err Unit := do
  let dx ← gridSpacing xs
  let dy ← gridSpacing ys
  if requireEqual && !npIsclose dx dy then .error .valueError else .ok ()

/-- `distance_to_number_of_grid_cells` (spatial.py:99-140) with `return_int=True`; `int()` truncates towards zero, and the
quotient is positive. -/
def distanceToCells (points : List ℚ) (distance : ℚ) : Except Err ℕ := do
  if distance ≤ 0 then .error .valueError
  else
    let s ← gridSpacing points
    let n := ⌊distance / |s|⌋.toNat
    if n = 0 then .error .valueError else .ok n

/-- `number_of_grid_cells_to_distance` (spatial.py:143-160). -/
def cellsToDistance (xs ys : List ℚ) (n : ℕ) : Except Err ℚ := do
  checkEqualArea xs ys true
  let s ← gridSpacing xs
  return s * n

/-- `DifferenceBetweenAdjacentGridSquares.calculate_difference` (spatial.py:580-610) along one row (or column) of values:
forward differences, with the wrap-around difference appended on a circular axis. -/
def adjacentDiff (circular : Bool) (row : List ℚ) : List ℚ :=
  npDiff row ++ (if circular then [row.headD 0 - row.getLastD 0] else [])

/-- Midpoints of an axis (spatial.py:195-207 and 550-559). -/
def axisMidpoints (circular : Bool) (points : List ℚ) : List ℚ :=
  let ps := if circular then points ++ [360 + points.headD 0] else points
  List.zipWith (fun a b => (b + a) / 2) ps ps.tail

/-- `ProjectionCubeDistanceCalculator` (spatial.py:334-396): the same distance, the grid spacing, between every pair of
neighbours; circular axes are refused. -/
def projectionDistances (circular : Bool) (points : List ℚ) : Except Err (List ℚ) :=
  if circular then .error .notImplemented
  else do
    let s ← gridSpacing points
    return List.replicate (points.length - 1) s

/-- `LatLonCubeDistanceCalculator._get_x_distances` (spatial.py:287-313) on the row at one latitude: `cosLat` is the cosine
of the latitude, `radPerDeg` the factor of `np.deg2rad` and `radius` the sphere's. -/
def latLonXDistances (radius radPerDeg cosLat : ℚ) (circular : Bool) (longs : List ℚ) : List ℚ :=
  let ls := if circular then longs ++ [360 + longs.headD 0] else longs
  (npDiff ls).map (fun d => radius * cosLat * (radPerDeg * d))

/-- `LatLonCubeDistanceCalculator._get_y_distances` (spatial.py:315-331) for one column. -/
def latLonYDistances (radius radPerDeg : ℚ) (lats : List ℚ) : List ℚ :=
  (npDiff lats).map (fun d => radius * (radPerDeg * d))

/-- `GradientBetweenAdjacentGridSquares.process` (spatial.py:685-712) along one row or column: difference over distance.
The optional regridding back to the input grid (iris) is not modelled. -/
def gradientRow (diffs distances : List ℚ) : List ℚ := List.zipWith (· / ·) diffs distances

/-- `scipy.ndimage` boundary mode "reflect" (half-sample symmetric extension `d c b a | a b c d | d c b a`): the index of the
grid whose value is used at position `i`, for an axis of length `n`. -/
def reflectIdx (n : ℕ) (i : ℤ) : ℕ :=
  let m := (i % (2 * n : ℤ)).toNat
  if m < n then m else 2 * n - 1 - m

/-- `scipy.ndimage.maximum_filter(g, size=2*r+1)` with its default boundary mode, at `(y, x)`. -/
def maximumFilter (h w r : ℕ) (g : ℕ → ℕ → ℚ) (y x : ℕ) : ℚ :=
  let vals := (List.range (2 * r + 1)).flatMap (fun a : ℕ =>
    (List.range (2 * r + 1)).map (fun b : ℕ =>
      g (reflectIdx h ((y : ℤ) + a - r)) (reflectIdx w ((x : ℤ) + b - r))))
  vals.tail.foldl max (vals.headD 0)

/-- `np.ma.is_masked`: any point of the grid is masked. -/
def anyMasked (h w : ℕ) (mask : ℕ → ℕ → Bool) : Bool :=
  (List.range h).any (fun y => (List.range w).any (fun x => mask y x))

/-- Filling the masked points (spatial.py:754-758): `low` is minus the fill value. -/
def vicinityUnmasked (h w : ℕ) (low : ℚ) (mask : ℕ → ℕ → Bool) (f : ℕ → ℕ → ℚ) : ℕ → ℕ → ℚ :=
  if anyMasked h w mask then fun y x => if mask y x then low else f y x else f

/-- The maximum of the matching points (spatial.py:759-769). -/
def vicinityMax (h w r : ℕ) (low : ℚ) (land : Option (ℕ → ℕ → Bool)) (g : ℕ → ℕ → ℚ) (y x : ℕ) : ℚ :=
  match land with
  | some l =>
    let matched := fun (m : Bool) (i j : ℕ) => if l i j ≠ m then low else g i j
    let afterTrue := if l y x = true then maximumFilter h w r (matched true) y x else 0
    if l y x = false then maximumFilter h w r (matched false) y x else afterTrue
  | none => maximumFilter h w r g y x

/-- `maximum_within_vicinity` (spatial.py:715-775): value at `(y, x)`; the mask of the result is the mask of the input.
`fill` is the netCDF default fill value of the data type (spatial.py:747). -/
def maximumWithinVicinity (h w r : ℕ) (fill : ℚ) (mask : ℕ → ℕ → Bool) (land : Option (ℕ → ℕ → Bool)) (f : ℕ → ℕ → ℚ)
    (y x : ℕ) : ℚ :=
  let m := vicinityMax h w r (-fill) land (vicinityUnmasked h w (-fill) mask f) y x
  if anyMasked h w mask then (if !mask y x then m else f y x) else m

/-- `OccurrenceWithinVicinity.__init__` (spatial.py:845-900): the radii to use and whether they are grid point radii.  An
absent argument is the empty list (both are falsy). -/
def vicinityInit (radii gridPointRadii : List ℚ) : Except Err (List ℚ × Bool) :=
  if radii ≠ [] ∧ gridPointRadii ≠ [] then .error .valueError
  else if radii = [] ∧ gridPointRadii = [] then .error .valueError
  else if (radii ≠ [] ∧ radii.any (fun r => decide (r < 0))) ∨
      (gridPointRadii ≠ [] ∧ gridPointRadii.any (fun r => decide (r < 0))) then .error .valueError
  else .ok (if radii ≠ [] then (radii, false) else (gridPointRadii, true))

/-- `OccurrenceWithinVicinity.process` (spatial.py:902-973) for one slice at `(y, x)`: one value per radius, in order.
Grid point radii are natural numbers here (`size = 2*r + 1`); merging and naming of the cubes is not modelled. -/
def vicinityProcess (h w : ℕ) (fill : ℚ) (cfg : List ℚ × Bool) (xs : List ℚ) (mask : ℕ → ℕ → Bool)
    (land : Option (ℕ → ℕ → Bool)) (f : ℕ → ℕ → ℚ) (y x : ℕ) : Except Err (List ℚ) := do
  let cells ← if cfg.2 then .ok (cfg.1.map (fun r => ⌊r⌋.toNat)) else cfg.1.mapM (distanceToCells xs)
  return cells.map (fun r => maximumWithinVicinity h w r fill mask land f y x)

end Improver
