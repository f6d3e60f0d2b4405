import Verif.Model.Sorting
import Verif.Model.Blend

/-! Models of `improver/metadata/forecast_times.py` (forecast periods), `improver/utilities/temporal.py`,
`improver/utilities/forecast_reference_enforcement.py` and `improver/blending/blend_across_adjacent_points.py`.
Times are integers (seconds since the epoch); the conversion of units and types is not modelled. -/

namespace Improver

/-- A time-like coordinate: points and optional bounds. -/
structure TCoord where
  points : List ℤ
  bounds : Option (List (ℤ × ℤ))
  deriving DecidableEq, Repr

/-- numpy subtraction of two one-dimensional arrays with broadcasting. -/
def npSub1 (a b : List ℤ) : Except Err (List ℤ) :=
  if a.length = b.length then .ok (List.zipWith (· - ·) a b)
  else match a, b with
    | _, [y] => .ok (a.map (fun x => x - y))
    | [x], _ => .ok (b.map (fun y => x - y))
    | _, _ => .error .valueError

/-- numpy subtraction of a one-dimensional array from an array of shape `(n, 2)`: the array is aligned with the *last* axis. -/
def npSubBounds (a : List (ℤ × ℤ)) (b : List ℤ) : Except Err (List (ℤ × ℤ)) :=
  match b with
  | [y] => .ok (a.map (fun p => (p.1 - y, p.2 - y)))
  | [y, z] => .ok (a.map (fun p => (p.1 - y, p.2 - z)))
  | _ => .error .valueError

/-- `_calculate_forecast_period` (forecast_times.py:91-164).  A negative period only warns. -/
def calculateForecastPeriod (time : TCoord) (frt : List ℤ) : Except Err TCoord := do
  let points ← npSub1 time.points frt
  match time.bounds with
  | none => return ⟨points, none⟩
  | some b =>
    let bounds ← npSubBounds b frt
    return ⟨points, some bounds⟩

/-- The time metadata of a cube. -/
structure TimeMeta where
  time : Option TCoord
  frt : Option (List ℤ)
  blendTime : Option (List ℤ)
  fp : Option TCoord

/-- `forecast_period_coord` (forecast_times.py:25-88).  The comparison of the two reference times is on arrays: it is only
unambiguous for single points. -/
def forecastPeriodCoord (c : TimeMeta) (force : Bool) : Except Err TCoord :=
  let mismatch := match c.frt, c.blendTime with
    | some f, some b => decide (f ≠ b)
    | _, _ => false
  if mismatch then .error .valueError
  else
    let reference := match c.frt with
      | some f => some f
      | none => c.blendTime
    match c.fp, force with
    | some fp, false => .ok fp
    | _, _ =>
      match c.time, reference with
      | some t, some r => calculateForecastPeriod t r
      | _, _ => .error .coordinateNotFound

/-- First position of the smallest element: `np.argmin`. -/
def argminFrom {α : Type} [LinearOrder α] (best : α) (bestIdx : ℕ) (i : ℕ) : List α → ℕ
  | [] => bestIdx
  | x :: xs => if x < best then argminFrom x i (i + 1) xs else argminFrom best bestIdx (i + 1) xs

/-- `iris` `nearest_neighbour_index` for a coordinate without bounds. -/
def nearestIndex (points : List ℤ) (t : ℤ) : ℕ :=
  match points.map (fun p => |p - t|) with
  | [] => 0
  | d :: ds => argminFrom d 0 1 ds

/-- `extract_nearest_time_point` (temporal.py:194-248) for a coordinate without bounds and with distinct points: the slice
whose time is the nearest. -/
def extractNearest {D : Type} (cube : List (ℤ × D)) (timeName : String) (t allowed : ℤ) : Except Err (ℤ × D) :=
  if timeName ≠ "time" ∧ timeName ≠ "forecast_reference_time" then .error .valueError
  else
    match cube[nearestIndex (cube.map Prod.fst) t]? with
    | none => .error .indexError
    | some e => if |t - e.1| > allowed then .error .valueError else .ok e

/-- `relabel_to_period` (temporal.py:251-283) for a scalar coordinate: its new bounds. -/
def relabelToPeriod (point : ℤ) (period : Option ℤ) : Except Err (ℤ × ℤ) :=
  match period with
  | none => .error .valueError
  | some p => if p < 1 then .error .valueError else .ok (point - p * 3600, point)

/-- `integrate_time` (temporal.py:286-349): rates and their time bounds, one per time; `none` when the coordinate has no
bounds.  Merging puts the times in ascending order again and is not modelled. -/
def integrateTime (slices : List ((ℤ × ℤ) × ℚ)) (hasBounds : Bool) : Except Err (List ((ℤ × ℤ) × ℚ)) :=
  if !hasBounds then .error .valueError
  else .ok (slices.map (fun s => (s.1, s.2 * ((s.1.2 - s.1.1 : ℤ) : ℚ))))

/-! ### Consistency with a reference forecast -/

/-- `calculate_bound` (forecast_reference_enforcement.py:65-89). -/
def consistencyBound (ref : List ℚ) (add mul : ℚ) : List ℚ := ref.map (fun r => add + mul * r)

/-- An argument that may be given as a single value or as a list of two. -/
inductive OneOrTwo (α : Type) where
  | one (a : α)
  | two (a b : α)
  deriving DecidableEq, Repr

/-- `np.clip(x, lower, upper)` with optional bounds. -/
def clipOpt (x : ℚ) (lo hi : Option ℚ) : ℚ :=
  let y := match lo with
    | some l => max x l
    | none => x
  match hi with
  | some u => min y u
  | none => y

/-- The bounds of `EnforceConsistentForecasts.process` (forecast_reference_enforcement.py:146-205), one pair per point. -/
def consistencyBounds (add mul : OneOrTwo ℚ) (op : OneOrTwo String) (ref : List ℚ) :
    Except Err (List (Option ℚ × Option ℚ)) :=
  match add, mul, op with
  | .two a0 a1, .two m0 m1, .two o0 o1 =>
    let first := consistencyBound ref a0 m0
    let second := consistencyBound ref a1 m1
    let go := fun (lower upper : List ℚ) =>
      if (List.zip lower upper).any (fun p => decide (p.1 > p.2)) then (.error .valueError : Except Err _)
      else .ok ((List.zip lower upper).map (fun p => (some p.1, some p.2)))
    if o0 = "<=" ∧ o1 = ">=" then go second first
    else if o0 = ">=" ∧ o1 = "<=" then go first second
    else .error .valueError
  | .one a, .one m, .one o =>
    let bound := consistencyBound ref a m
    if o = ">=" then .ok (bound.map (fun b => (some b, none)))
    else if o = "<=" then .ok (bound.map (fun b => (none, some b)))
    else .error .valueError
  | _, _, _ => .error .valueError

/-- `EnforceConsistentForecasts.process` (forecast_reference_enforcement.py:91-219), data already in the same units. -/
def enforceConsistent (add mul : OneOrTwo ℚ) (op : OneOrTwo String) (isProb : Bool) (forecast ref : List ℚ) :
    Except Err (List ℚ) :=
  if (add ≠ .one 0 ∨ mul ≠ .one 1) ∧ isProb then .error .valueError
  else do
    let bs ← consistencyBounds add mul op ref
    return List.zipWith (fun x b => clipOpt x b.1 b.2) forecast bs

/-- `normalise_to_reference` (forecast_reference_enforcement.py:222-329) at one point, for matching coordinates: the values
of the cubes and of the reference there. -/
def normaliseToReference (vals : List ℚ) (ref : ℚ) (ignoreZero : Bool) : Except Err (List ℚ) :=
  if vals.length < 2 then .error .valueError
  else
    let total := vals.tail.foldl (· + ·) (vals.headD 0)
    if total = 0 ∧ ref ≠ 0 ∧ !ignoreZero then .error .valueError
    else
      let t := if total = 0 then 1 else total
      .ok (vals.map (fun v => ref * v / t))

/-- `split_cubes_by_name` (forecast_reference_enforcement.py:332-363) on (name, cube) pairs. -/
def splitByName {D : Type} (cubes : List (String × D)) (names : Option (List String)) :
    List (String × D) × List (String × D) :=
  match names with
  | none => (cubes, [])
  | some ns => cubes.foldl (fun acc c => if c.1 ∈ ns then (acc.1 ++ [c], acc.2) else (acc.1, acc.2 ++ [c])) ([], [])

/-! ### Triangular blending -/

/-- `TriangularWeightedBlendAcrossAdjacentPoints.process` (blend_across_adjacent_points.py:124-149) at one grid point; all
quantities in the units of the coordinate. -/
def adjacentBlend (data : List (ℚ × Option ℚ)) (central width : ℚ) : Except Err (Option ℚ) :=
  if data.all (fun p => decide (p.1 ≠ central)) then .error .valueError
  else do
    let w ← triangularWeights (data.map Prod.fst) central width
    weightedBlend data (some (List.zip (data.map Prod.fst) w))

end Improver
