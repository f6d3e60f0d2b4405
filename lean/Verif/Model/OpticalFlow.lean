import Verif.Basic
import Verif.Model.Spatial
import Verif.Model.NbhoodMore

/-!
Model of `improver/nowcasting/optical_flow.py`.  A field is a function of row and column, read inside its shape.
-/

namespace Improver

/-! ### Derivatives -/

/-- `interp_to_midpoint(data)` (optical_flow.py:370-373), without an axis: the mean of the four corners of a cell. -/
def midpoint2 (f : ℕ → ℕ → ℚ) (y x : ℕ) : ℚ := 1 / 4 * (f (y + 1) x + f y (x + 1) + f (y + 1) (x + 1) + f y x)

/-- `interp_to_midpoint(data, axis)` (optical_flow.py:374-377) for `axis` 0 or 1. -/
def midpoint1 (axis : ℕ) (f : ℕ → ℕ → ℚ) (y x : ℕ) : ℚ :=
  if axis = 0 then 1 / 2 * (f y x + f (y + 1) x) else 1 / 2 * (f y x + f y (x + 1))

/-- `np.diff(data, axis)`. -/
def diffAxis (axis : ℕ) (f : ℕ → ℕ → ℚ) (y x : ℕ) : ℚ :=
  if axis = 0 then f (y + 1) x - f y x else f y (x + 1) - f y x

/-- `smoothed_diffs = zeros([h + 1, w + 1]); smoothed_diffs[1:-1, 1:-1] = inner` (optical_flow.py:397-400, 414-417). -/
def zeroFrame (h w : ℕ) (inner : ℕ → ℕ → ℚ) (y x : ℕ) : ℚ :=
  if 1 ≤ y ∧ y < h ∧ 1 ≤ x ∧ x < w then inner (y - 1) (x - 1) else 0

/-- `_partial_derivative_spatial(axis)` (optical_flow.py:380-401). -/
def derivSpatial (h w axis : ℕ) (d1 d2 : ℕ → ℕ → ℚ) : ℕ → ℕ → ℚ :=
  let o1 := midpoint1 (1 - axis) (diffAxis axis d1)
  let o2 := midpoint1 (1 - axis) (diffAxis axis d2)
  midpoint2 (zeroFrame h w (fun y x => 1 / 2 * (o1 y x + o2 y x)))

/-- `_partial_derivative_temporal` (optical_flow.py:403-418). -/
def derivTemporal (h w : ℕ) (d1 d2 : ℕ → ℕ → ℚ) : ℕ → ℕ → ℚ :=
  midpoint2 (zeroFrame h w (midpoint2 (fun y x => d2 y x - d1 y x)))

/-! ### Boxes -/

/-- The points of the box `(bi, bj)` of side `bs` in row-major order: `field[i : i + bs, j : j + bs].flatten()` with `i = bi * bs`, `j = bj * bs`
(optical_flow.py:445-447, 713-715). -/
def boxPoints (h w bs bi bj : ℕ) : List (ℕ × ℕ) :=
  (List.range bs).flatMap (fun a =>
    if bi * bs + a < h then
      (List.range bs).flatMap (fun b => if bj * bs + b < w then [(bi * bs + a, bj * bs + b)] else [])
    else [])

/-- Number of boxes along an axis, `int((n - 1) / boxsize) + 1` (optical_flow.py:725-728). -/
def boxCount (n bs : ℕ) : ℕ := (n - 1) / bs + 1

/-- The start indices of `range(0, n, boxsize)` (optical_flow.py:445-446). -/
def boxStarts (n bs : ℕ) : List ℕ := (List.range n).filter (fun i => i % bs = 0)

/-- The weight of a box (optical_flow.py:444-455); `saturate x` stands for `1 - exp(-x / 0.8)`. -/
def boxWeight (saturate : ℚ → ℚ) (h w bs : ℕ) (d1 d2 : ℕ → ℕ → ℚ) (bi bj : ℕ) : ℚ :=
  let pts := boxPoints h w bs bi bj
  let wgt := saturate (1 / 2 / (bs : ℚ) ^ 2 * ((pts.map (fun p => d1 p.1 p.2)).sum + (pts.map (fun p => d2 p.1 p.2)).sum))
  if wgt < 1 / 100 then 0 else wgt

/-- `_box_to_grid` (optical_flow.py:458-474): `np.repeat` in both directions, cut to the shape of the grid. -/
def boxToGrid (bs : ℕ) (box : ℕ → ℕ → ℚ) (y x : ℕ) : ℚ := box (y / bs) (x / bs)

/-! ### Velocities -/

/-- `solve_for_uv` (optical_flow.py:631-660) for the list of `(dx, dy, dt)` of a box.  The inverse of the 2x2 matrix is exact; the matrix is
singular when its determinant is 0. -/
def solveForUv (pts : List (ℚ × ℚ × ℚ)) : ℚ × ℚ :=
  let a := (pts.map (fun p => p.1 * p.1)).sum
  let b := (pts.map (fun p => p.1 * p.2.1)).sum
  let c := (pts.map (fun p => p.2.1 * p.2.1)).sum
  let det := a * c - b * b
  if det = 0 then (0, 0)
  else
    let s := (pts.map (fun p => p.1 * p.2.2)).sum
    let t := (pts.map (fun p => p.2.1 * p.2.2)).sum
    (-(c / det * s + -b / det * t), -(-b / det * s + a / det * t))

/-- `extreme_value_check` (optical_flow.py:662-680) for one box: the components and the weight. -/
def extremeValueCheck (rows : ℕ) (uv : ℚ × ℚ) (wgt : ℚ) : ℚ × ℚ × ℚ :=
  if |uv.1| + |uv.2| > (rows : ℚ) / 3 then (0, 0, 0) else (uv.1, uv.2, wgt)

/-! ### Smoothing -/

/-- The kernel of `_smart_smooth` (optical_flow.py:567-569). -/
def neighbourKernel (a b : ℕ) : ℚ := if a = 1 ∧ b = 1 then 0 else if a = 1 ∨ b = 1 then 1 / 6 else 1 / 12

/-- `ndimage.convolve(f, neighbour_kernel)` with the default boundary mode "reflect"; the kernel is symmetric. -/
def convolve3 (h w : ℕ) (f : ℕ → ℕ → ℚ) (y x : ℕ) : ℚ :=
  ((List.range 3).map (fun a : ℕ => ((List.range 3).map (fun b : ℕ =>
    neighbourKernel a b * f (reflectIdx h ((y : ℤ) + a - 1)) (reflectIdx w ((x : ℤ) + b - 1)))).sum)).sum

/-- `_smart_smooth` (optical_flow.py:545-596) with `point_weight = 0.1`. -/
def smartSmooth (h w : ℕ) (vpoint : ℕ → ℕ → ℚ) (wgt viter : ℕ → ℕ → ℚ) (y x : ℕ) : ℚ :=
  let vn := convolve3 h w (fun j i => wgt j i * viter j i) y x
  let nw := convolve3 h w wgt y x
  let v0 := convolve3 h w viter y x
  let v1 := if |nw| > 0 then vn / nw else v0
  if |wgt y x| > 0 then (vn * (9 / 10) + vpoint y x * (1 / 10 * wgt y x)) / (9 / 10 * nw + 1 / 10 * wgt y x) else v1

/-- The loop in `_smooth_advection_fields` (optical_flow.py:616-620). -/
def smoothIterate (h w : ℕ) (vorig wgt : ℕ → ℕ → ℚ) : ℕ → ℕ → ℕ → ℚ
  | 0 => vorig
  | n + 1 => smartSmooth h w vorig wgt (smoothIterate h w vorig wgt n)

/-- The one-dimensional kernel of `makekernel` (optical_flow.py:506): `1 - |linspace(-1, 1, 2 r + 1)|`. -/
def kernel1d (r a : ℕ) : ℚ := 1 - |-1 + (a : ℚ) * (2 / (2 * r))|

/-- `makekernel` (optical_flow.py:476-511). -/
def makeKernel (r a b : ℕ) : ℚ :=
  kernel1d r a * kernel1d r b /
    ((List.range (2 * r + 1)).map (fun a => ((List.range (2 * r + 1)).map (fun b => kernel1d r a * kernel1d r b)).sum)).sum

/-- `smooth(field, radius, method="kernel")` (optical_flow.py:532-536): symmetric boundary. -/
def smoothKernel (h w r : ℕ) (f : ℕ → ℕ → ℚ) (y x : ℕ) : ℚ :=
  ((List.range (2 * r + 1)).map (fun a : ℕ => ((List.range (2 * r + 1)).map (fun b : ℕ =>
    makeKernel r a b * f (reflectIdx h ((y : ℤ) + r - a)) (reflectIdx w ((x : ℤ) + r - b)))).sum)).sum

/-- `smooth(field, radius, method="box")` (optical_flow.py:537-540): `uniform_filter` of side `2 r + 1` with the edge repeated. -/
def smoothBox (h w r : ℕ) (f : ℕ → ℕ → ℚ) (y x : ℕ) : ℚ :=
  ((List.range (2 * r + 1)).map (fun a => ((List.range (2 * r + 1)).map (fun b =>
    f (nearIdx h r y a) (nearIdx w r x b))).sum)).sum / ((2 * r + 1) * (2 * r + 1))

/-- `_smooth_advection_fields` (optical_flow.py:598-629). -/
def smoothAdvection (h w bs iterations : ℕ) (box wgt : ℕ → ℕ → ℚ) : ℕ → ℕ → ℚ :=
  smoothKernel h w (bs / 3) (boxToGrid bs (smoothIterate (boxCount h bs) (boxCount w bs) box wgt iterations))

/-- `calculate_displacement_vectors` (optical_flow.py:682-741): both components. -/
def displacement (saturate : ℚ → ℚ) (h w bs iterations : ℕ) (d1 d2 dx dy dt : ℕ → ℕ → ℚ) : (ℕ → ℕ → ℚ) × (ℕ → ℕ → ℚ) :=
  let checked := fun bi bj => extremeValueCheck (boxCount h bs)
    (solveForUv ((boxPoints h w bs bi bj).map (fun p => (dx p.1 p.2, dy p.1 p.2, dt p.1 p.2)))) (boxWeight saturate h w bs d1 d2 bi bj)
  (smoothAdvection h w bs iterations (fun i j => (checked i j).1) (fun i j => (checked i j).2.2),
   smoothAdvection h w bs iterations (fun i j => (checked i j).2.1) (fun i j => (checked i j).2.2))

/-- `process_dimensionless` (optical_flow.py:782-833) with `xaxis = 1`, `yaxis = 0` (the warnings are not modelled). -/
def processDimensionless (saturate : ℚ → ℚ) (method : String) (h w bs iterations radius : ℕ) (a b : ℕ → ℕ → ℚ) :
    (ℕ → ℕ → ℚ) × (ℕ → ℕ → ℚ) :=
  let sm := fun f => if method = "kernel" then smoothKernel h w radius f else smoothBox h w radius f
  let d1 := sm a
  let d2 := sm b
  displacement saturate h w bs iterations d1 d2 (derivSpatial h w 1 d1 d2) (derivSpatial h w 0 d1 d2) (derivTemporal h w d1 d2)

/-! ### Checks and metadata -/

/-- `_get_advection_time` (optical_flow.py:294-323): times and forecast periods in whole seconds. -/
def advectionTime (time1 time2 : ℤ) (fp1 fp2 : Option ℤ) : Except Err ℤ :=
  let diff := time2 - time1
  if diff = 0 then
    match fp2 with
    | some f =>
      if f ≠ 0 then .error .invalidCube
      else match fp1 with
        | none => .error .coordinateNotFound
        | some d => if d ≤ 0 then .error .invalidCube else .ok d
    | none =>
      match fp1 with
      | none => .error .coordinateNotFound
      | some d => if d ≤ 0 then .error .invalidCube else .ok d
  else if diff ≤ 0 then .error .invalidCube
  else .ok diff

/-- `_get_smoothing_radius` (optical_flow.py:325-348): `int` truncates. -/
def smoothingRadius (radiusKm : ℚ) (timeDiff : ℤ) (gridKm : ℚ) : Except Err ℤ :=
  let km := if timeDiff > 900 then radiusKm * (timeDiff / 900) else radiusKm
  let q := km / gridKm
  let r := if 0 ≤ q then ⌊q⌋ else ⌈q⌉
  if r < 3 then .error .valueError else .ok r

/-- `np.allclose(data, np.zeros(..))` (optical_flow.py:916-918). -/
def allZero (h w : ℕ) (f : ℕ → ℕ → ℚ) : Bool :=
  (List.range h).all (fun y => (List.range w).all (fun x => npIsclose (f y x) 0))

/-- What `OpticalFlow.process` reads from its two cubes: data in mm/h (with masked points filled with 0) and times. -/
structure FlowInput where
  h : ℕ
  w : ℕ
  gridKm : ℚ
  time1 : ℤ
  time2 : ℤ
  fp1 : Option ℤ
  fp2 : Option ℤ
  data1 : ℕ → ℕ → ℚ
  data2 : ℕ → ℕ → ℚ

/-- `OpticalFlow.__init__` (optical_flow.py:229-233) and `process` (optical_flow.py:835-950): velocities in m/s.  The checks of names, coordinates
and units are not modelled. -/
def opticalFlow (saturate : ℚ → ℚ) (method : String) (radiusKm : ℚ) (iterations boxsize : ℕ) (i : FlowInput) :
    Except Err ((ℕ → ℕ → ℚ) × (ℕ → ℕ → ℚ)) :=
  if iterations < 20 then .error .valueError
  else do
    let dt ← advectionTime i.time1 i.time2 i.fp1 i.fp2
    let r ← smoothingRadius radiusKm dt i.gridKm
    if (boxsize : ℤ) < r then .error .valueError
    else if allZero i.h i.w i.data1 || allZero i.h i.w i.data2 then return (fun _ _ => 0, fun _ _ => 0)
    else
      let uv := processDimensionless saturate method i.h i.w boxsize iterations r.toNat i.data1 i.data2
      return (fun y x => uv.1 y x * (1000 * i.gridKm) / dt, fun y x => uv.2 y x * (1000 * i.gridKm) / dt)

/-- `generate_optical_flow_components` (optical_flow.py:34-81) at one point: the cubes are sorted by time, the flow of each pair of consecutive
cubes is computed and averaged (one pair is returned as it is).  Merging needs at least one pair. -/
def flowComponents {C : Type} (time : C → ℤ) (flow : C → C → Except Err ℚ) (cubes : List C) : Except Err (ℚ × ℤ) := do
  let sorted := cubes.mergeSort (fun a b => time a ≤ time b)
  let us ← (sorted.dropLast.zip sorted.tail).mapM (fun p => flow p.1 p.2)
  match us, sorted.getLast? with
  | [], _ => .error .indexError
  | _, none => .error .indexError
  | us, some c => return (us.sum / us.length, time c)

/-- `_perturb_background_flow` (optical_flow.py:127-146) at one point: an adjustment that is not finite (`none`) is ignored. -/
def perturbFlow (flow : ℚ) (adj : Option ℚ) : ℚ :=
  match adj with
  | some a => a + flow
  | none => flow

end Improver
