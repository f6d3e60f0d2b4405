import Verif.Model.Sorting

/-! Model of `improver/utilities/mathematical_operations.py` (integration along a coordinate, least-squares line) and of
`improver/lapse_rate.py` (lapse rates and their application).  Units are taken to be already converted; cube metadata is not
modelled.  NaN is `none`. -/

namespace Improver

/-! ## Integration -/

/-- `Integration.ensure_monotonic_increase_in_chosen_direction` (mathematical_operations.py:83-105) on the (point, value)
pairs of one column. -/
def integOrder (positive : Bool) (levels : List (ℚ × ℚ)) : List (ℚ × ℚ) :=
  let increasing := (npDiff (levels.map (·.1))).all (fun d => decide (0 < d))
  let levels1 := if increasing && !positive then levels.insertionSort (fun a b => b.1 ≤ a.1) else levels
  if !increasing && positive then levels1.insertionSort (fun a b => a.1 ≤ b.1) else levels1

/-- `Integration.prepare_for_integration` and the zip of perform_integration (mathematical_operations.py:107-140, 261-264):
(upper level, lower level) pairs. -/
def integSegments (positive : Bool) (levels : List (ℚ × ℚ)) : List ((ℚ × ℚ) × (ℚ × ℚ)) :=
  if positive then levels.tail.zip levels.dropLast else levels.dropLast.zip levels.tail

/-- Python truth of an optional float: `None` and `0` are both false (mathematical_operations.py:245, 250). -/
def truthy : Option ℚ → Option ℚ
  | some s => if s = 0 then none else some s
  | none => none

/-- `skip_slice` (mathematical_operations.py:241-255). -/
def integSkip (positive : Bool) (start stop : Option ℚ) (upper lower : ℚ) : Bool :=
  (match truthy start with
    | some s => (positive && decide (lower < s)) || (!positive && decide (upper > s))
    | none => false) ||
  (match truthy stop with
    | some e => (positive && decide (upper > e)) || (!positive && decide (lower < e))
    | none => false)

/-- One output level: point, bounds and value. -/
structure IntegOut where
  point : ℚ
  bounds : ℚ × ℚ
  value : ℚ
  deriving DecidableEq, Repr

/-- `np.where(v > 0, v * 0.5 * stride, 0.0)` (mathematical_operations.py:284-289). -/
def halfData (stride v : ℚ) : ℚ := if v > 0 then v * (1 / 2) * stride else 0

/-- The loop of `perform_integration` (mathematical_operations.py:266-296); `integral` is the running total. -/
def integLoop (positive : Bool) (start stop : Option ℚ) (integral : ℚ) :
    List ((ℚ × ℚ) × (ℚ × ℚ)) → List IntegOut
  | [] => []
  | (u, l) :: rest =>
    if integSkip positive start stop u.1 l.1 then integLoop positive start stop integral rest
    else
      let stride := |u.1 - l.1|
      let total := integral + (halfData stride u.2 + halfData stride l.2)
      ⟨if positive then u.1 else l.1, (l.1, u.1), total⟩ :: integLoop positive start stop total rest

/-- `Integration.process` (mathematical_operations.py:213-337) at one position of the other dimensions. -/
def integrate (positive : Bool) (start stop : Option ℚ) (levels : List (ℚ × ℚ)) : Except Err (List IntegOut) :=
  let out := integLoop positive start stop 0 (integSegments positive (integOrder positive levels))
  if out = [] then .error .valueError else .ok out

/-! ## Least-squares line -/

/-- `np.nanmean` of the finite values, applied to a non-empty list. -/
def meanQ (l : List ℚ) : ℚ := l.sum / l.length

/-- The positions where both are finite (they agree once the check has passed). -/
def finitePairs (pts : List (Option ℚ × Option ℚ)) : List (ℚ × ℚ) :=
  pts.filterMap (fun p => match p with | (some x, some y) => some (x, y) | _ => none)

/-- `fast_linear_fit` (mathematical_operations.py:340-406) along the fitted axes; `none` for a NaN result (no finite point, or
zero variance of `x`: `0 / 0`).  The masked-array form is the same with "masked" for "NaN". -/
def linearFit (pts : List (Option ℚ × Option ℚ)) : Except Err (Option (ℚ × ℚ)) :=
  if !(pts.all (fun p => p.1.isNone == p.2.isNone)) then .error .valueError
  else
    let fin := finitePairs pts
    let xm := meanQ (fin.map (·.1))
    let ym := meanQ (fin.map (·.2))
    let cov := (fin.map (fun p => (p.1 - xm) * (p.2 - ym))).sum
    let var := (fin.map (fun p => (p.1 - xm) * (p.1 - xm))).sum
    if var = 0 then .ok none
    else .ok (some (cov / var, ym - cov / var * xm))

/-- `np.nanvar` (population variance) of a list with NaNs; `none` if nothing is finite. -/
def nanVar (l : List (Option ℚ)) : Option ℚ :=
  let fin := l.filterMap id
  if fin = [] then none else some ((fin.map (fun v => (v - meanQ fin) * (v - meanQ fin))).sum / fin.length)

/-! ## Lapse rates -/

/-- Dry adiabatic lapse rate, K m-1 (constants.py:59-60). -/
def DALR : ℚ := -98 / 10000
/-- Environmental lapse rate, K m-1 (constants.py:62-64). -/
def ELR : ℚ := -65 / 10000

/-- `compute_lapse_rate_adjustment` (lapse_rate.py:29-96) at one point. -/
def lapseAdjust (lapse diff : ℚ) (limit : ℚ := 50) : ℚ :=
  let c1 := decide (diff > limit)
  let c2 := decide (diff < -limit)
  let d1 := if c1 then limit else diff
  let d2 := if c2 then -limit else d1
  let adj := d2 * lapse
  let o1 := if c1 then max (diff - limit) 0 else diff
  let o2 := if c2 then min (o1 + limit) 0 else o1
  let adj1 := if c1 then adj + o2 * ELR else adj
  if c2 then adj1 + o2 * ELR else adj1

/-- A cube as seen by `cube.slices([y, x])` at one grid point: leading dimensions (name, coordinate points) in cube order and
the value at each index tuple. -/
structure LeadCube where
  dims : List (String × List ℚ)
  value : List ℕ → ℚ

/-- Index tuples of the slices in the order `cube.slices` yields them (C order over the leading dimensions). -/
def sliceTuples : List (String × List ℚ) → List (List ℕ)
  | [] => [[]]
  | d :: ds => (List.range d.2.length).flatMap (fun i => (sliceTuples ds).map (fun t => i :: t))

/-- `ApplyGriddedLapseRate._check_dim_coords` (lapse_rate.py:102-121): every dimension coordinate of the temperature cube is
present, and equal, on the lapse rate cube. -/
def checkDimCoords (temperature lapse : LeadCube) : Bool := temperature.dims.all (fun d => decide (d ∈ lapse.dims))

/-- `ApplyGriddedLapseRate.process` (lapse_rate.py:143-189) at one grid point whose orography difference (destination minus
source) is `orogDiff`; the output lists (index tuple of the temperature slice, adjusted temperature).  The spatial coordinate
checks and the final merge are not modelled. -/
def applyGriddedLapseRate (temperature lapse : LeadCube) (orogDiff : ℚ) : Except Err (List (List ℕ × ℚ)) :=
  if !checkDimCoords temperature lapse then .error .valueError
  else .ok ((List.zip (sliceTuples lapse.dims) (sliceTuples temperature.dims)).map
    (fun p => (p.2, temperature.value p.2 + lapseAdjust (lapse.value p.1) orogDiff)))

/-- Configuration of `LapseRate`. -/
structure LapseCfg where
  maxHeightDiff : ℚ := 35
  radius : ℤ := 7
  maxRate : ℚ := -3 * DALR
  minRate : ℚ := DALR
  deriving DecidableEq

/-- `LapseRate.__init__` (lapse_rate.py:220-270). -/
def lapseInit (c : LapseCfg) : Except Err LapseCfg :=
  if c.maxRate < c.minRate then .error .valueError
  else if c.radius < 0 then .error .valueError
  else if c.maxHeightDiff < 0 then .error .valueError
  else .ok c

/-- `np.pad` with a constant NaN, `r` cells on each side (neighbourhood_tools.py:98-100). -/
def nanPad (h w r : ℕ) (f : ℕ → ℕ → Option ℚ) (a b : ℕ) : Option ℚ :=
  if r ≤ a ∧ a < h + r ∧ r ≤ b ∧ b < w + r then f (a - r) (b - r) else none

/-- `rolling_window` of size `2 r + 1` (neighbourhood_tools.py:13-66): the window belonging to output point `(y, x)`, in
C order. -/
def window (r : ℕ) (p : ℕ → ℕ → Option ℚ) (y x : ℕ) : List (Option ℚ) :=
  (List.range (2 * r + 1)).flatMap (fun a => (List.range (2 * r + 1)).map (fun b => p (y + a) (x + b)))

/-- `height_diff_mask` (lapse_rate.py:351-352) of one window entry; comparisons with NaN are false. -/
def tooHigh (maxDiff : ℚ) (centre o : Option ℚ) : Bool :=
  match o, centre with
  | some v, some c => decide (|v - c| > maxDiff)
  | _, _ => false

/-- Lines 354-357 on one (orography, temperature) entry of the window. -/
def screenEntry (maxDiff : ℚ) (centre : Option ℚ) (p : Option ℚ × Option ℚ) : Option ℚ × Option ℚ :=
  let t := if tooHigh maxDiff centre p.1 then none else p.2
  (if t.isNone then none else p.1, t)

/-- `np.isclose(std, 0)`: a standard deviation of at most 1e-8, written with the variance; false for NaN. -/
def stdCloseZero (v : Option ℚ) : Bool :=
  match v with
  | some q => decide (q ≤ (1 / 100000000) * (1 / 100000000))
  | none => false

/-- `LapseRate._generate_lapse_rate_array` (lapse_rate.py:308-380) at one grid point. -/
def lapseRateAt (c : LapseCfg) (h w : ℕ) (temp orog : ℕ → ℕ → ℚ) (land : ℕ → ℕ → Bool) (y x : ℕ) : Except Err ℚ := do
  let r := c.radius.toNat
  let tp := nanPad h w r (fun i j => if land i j then some (temp i j) else none)
  let op := nanPad h w r (fun i j => if land i j then some (orog i j) else none)
  let centre := op (y + r) (x + r)
  let win := (List.zip (window r op y x) (window r tp y x)).map (screenEntry c.maxHeightDiff centre)
  let grad ← linearFit win
  let tempCheck := stdCloseZero (nanVar (win.map (·.2)))
  let orogCheck := stdCloseZero (nanVar (win.map (·.1)))
  let centreTemp := (screenEntry c.maxHeightDiff centre (centre, tp (y + r) (x + r))).2
  let g := match grad with
    | some (g, _) => if tempCheck || orogCheck || centreTemp.isNone then DALR else g
    | none => DALR
  return npClip g c.minRate c.maxRate

/-! ## Spot data -/

/-- Inputs of `SpotLapseRateAdjust` that `_check_inputs` looks at. -/
structure SpotLapseIn where
  isProbability : Bool
  isTemperature : Bool
  /-- `none`: no lapse rate cube; otherwise (right name, has a height coordinate, heights equal). -/
  cube : Option (Bool × Bool × Bool)
  fixed : Option ℚ
  gridsMatch : Bool

/-- `SpotLapseRateAdjust._check_inputs` (spotdata/apply_lapse_rate.py:68-155); `gridsMatch` is the verdict of
`check_grid_match` on the cubes handed to it. -/
def spotLapseCheck (i : SpotLapseIn) : Except Err Unit :=
  if i.isProbability then .error .valueError
  else if !i.isTemperature then .error .valueError
  else match i.cube with
    | none =>
      if i.fixed.isNone then .error .valueError
      else if !i.gridsMatch then .error .valueError else .ok ()
    | some (named, hasHeight, heightsEqual) =>
      if i.fixed.isSome then .error .valueError
      else if !named then .error .valueError
      else if !hasHeight then .error .coordinateNotFound
      else if !heightsEqual then .error .valueError
      else if !i.gridsMatch then .error .valueError else .ok ()

/-- `SpotLapseRateAdjust.process` (spotdata/apply_lapse_rate.py:178-236): sites with temperature `t`, extracted lapse rate
(ignored when a fixed one is set) and vertical displacement. -/
def spotLapseAdjust (i : SpotLapseIn) (sites : List (ℚ × ℚ × ℚ)) : Except Err (List ℚ) := do
  spotLapseCheck i
  return sites.map (fun s => s.1 + lapseAdjust (match i.fixed with | some f => f | none => s.2.1) s.2.2)

/-- 1-D reading of `LinearNDInterpolator` on the product grid (spot index x threshold) at a spot's own index
(spotdata/height_adjustment.py:100-109): linear interpolation between the two neighbouring thresholds of that spot, NaN outside the range
of the thresholds.  (A Delaunay triangulation of a product grid contains every edge between neighbouring grid points, so a point
on such an edge is interpolated from its two ends.) -/
def columnInterp (xs ps : List ℚ) (x : ℚ) : Option ℚ :=
  match xs, ps with
  | a :: b :: xs, p :: q :: ps =>
    if x < a then none
    else if x ≤ b then some (p + (x - a) / (b - a) * (q - p))
    else columnInterp (b :: xs) (q :: ps) x
  | _, _ => none

/-- `SpotHeightAdjustment.adjust_prob_cube` (spotdata/height_adjustment.py:52-121) at one site. -/
def heightAdjustProbs (thresholds probs : List ℚ) (displacement : ℚ) : Except Err (List ℚ) := do
  if thresholds.length < 2 then .error .valueError
  else
    let hi ← npMax probs
    let lo ← npMin probs
    return thresholds.map (fun t =>
      match columnInterp thresholds probs (t + displacement) with
      | some v => v
      | none => if displacement > 0 then hi else lo)

/-- The deterministic / percentile / realization branch (spotdata/height_adjustment.py:180-185), values in metres. -/
def heightAdjustValues (values : List ℚ) (displacement : ℚ) : List ℚ := values.map (· + displacement)

end Improver
