import Verif.Model.TemporalInterp
import Verif.Model.Threshold
import Verif.Model.Interp
import Verif.Model.CubeManip

/-! Models of `precipitation_type/{freezing_rain,snow_splitter,snow_fraction,hail_fraction,shower_condition_probability}.py`,
`visibility/visibility_combine_cloud_base.py`, `utilities/extract_from_table.py` and `utilities/interpolation.py`. -/

namespace Improver

/-! ### Freezing rain -/

/-- One pass of the loop of `_calculate_freezing_rain_probability` (freezing_rain.py:265-268). -/
def freezingStep (denominator : ℚ) (acc : ℚ) (p : ℚ × ℚ × ℚ) : ℚ := acc + (p.1 + p.2.1) * p.2.2 * (1 / denominator)

/-- `_match_realizations` (freezing_rain.py:159-162). -/
def matchRealizations (common : List ℤ) (cube : List (ℤ × ℚ)) : List (ℤ × ℚ) := cube.filter (fun c => decide (c.1 ∈ common))

/-- `FreezingRain.process` (freezing_rain.py:151-180, 232-299) at one grid point and threshold for cubes with realizations: a cube is a
list of (realization, probability).  The number of realizations is taken from the rain cube *before* matching. -/
def freezingRain (rain sleet temperature : List (ℤ × ℚ)) : Except Err ℚ :=
  let n : ℚ := (rain.length : ℕ)
  let common := (rain.map Prod.fst).filter (fun r => decide (r ∈ sleet.map Prod.fst ∧ r ∈ temperature.map Prod.fst))
  if common = [] then .error .valueError
  else
    let values (c : List (ℤ × ℚ)) := (matchRealizations common c).map Prod.snd
    .ok (((values rain).zip ((values sleet).zip (values temperature))).foldl (freezingStep n) 0)

/-- `FreezingRain.process` for cubes without realizations. -/
def freezingRainSingle (rain sleet temperature : ℚ) : ℚ := freezingStep 1 0 (rain, sleet, temperature)

/-! ### Snow splitter -/

/-- `SnowSplitter.process` (snow_splitter.py:67-138) over the grid points, each as (rain, snow, precipitation). -/
def snowSplit (outputIsRain : Bool) (points : List (ℚ × ℚ × ℚ)) : Except Err (List ℚ) :=
  if points.any (fun p => decide (p.1 + p.2.1 > 1)) then .error .valueError
  else .ok (points.map (fun p =>
    let required := if outputIsRain then p.1 else p.2.1
    let other := if outputIsRain then p.2.1 else p.1
    p.2.2 * ((required - other + 1) / 2)))

/-! ### Snow fraction and filling of missing data -/

/-- The quotient of `_calculate_snow_fraction` (snow_fraction.py:111-112) at one grid point. -/
def snowRatio (rain snow : ℚ) : Option ℚ := divFinite snow (rain + snow)

/-- The limit in `interpolate_missing_data` (interpolation.py:78-83). -/
def applyLimit (limit : Option ℚ) (asMaximum : Bool) (v : ℚ) : ℚ :=
  match limit with
  | none => v
  | some l => if asMaximum then min v l else max v l

/-- `interpolate_missing_data` (interpolation.py:21-88) on `n` grid points: `grid` stands for scipy's `griddata` applied to the usable
values, whose result is not modelled.  Values are finite or NaN (`none`). -/
def interpolateMissing (n : ℕ) (grid : (ℕ → Option ℚ) → ℕ → Option ℚ) (valid : ℕ → Bool) (limit : Option (ℕ → ℚ)) (asMaximum : Bool)
    (data : ℕ → Option ℚ) (i : ℕ) : Option ℚ :=
  let usable (k : ℕ) : Option ℚ := if valid k then data k else none
  match data i with
  | some v => some v
  | none =>
    if (List.range n).any (fun k => (usable k).isSome) then (grid usable i).map (applyLimit (limit.map (· i)) asMaximum)
    else none

/-- `SnowFraction` (snow_fraction.py:104-155) on `n` grid points. -/
def snowFraction (n : ℕ) (grid : (ℕ → Option ℚ) → ℕ → Option ℚ) (rain snow : ℕ → ℚ) : ℕ → Option ℚ :=
  interpolateMissing n grid (fun _ => true) none true (fun i => snowRatio (rain i) (snow i))

/-- `np.nanmin`/`np.nanmax` limits of the differences at the `n` points; `none` if all are NaN. -/
def nanRange (n : ℕ) (d : ℕ → Option ℚ) : Option (ℚ × ℚ) :=
  match (List.range n).filterMap d with
  | [] => none
  | a :: l => some (foldMin a l, foldMax a l)

/-- `InterpolateUsingDifference.process` (interpolation.py:141-234) for one slice of `n` points: `cube` is `none` where masked; `lin`
and `near` stand for `griddata` with the linear and nearest methods.  A cube without masked points is returned unchanged. -/
def interpolateDifference (n : ℕ) (lin near : (ℕ → Option ℚ) → ℕ → Option ℚ) (limit : Option (ℕ → ℚ)) (asMaximum : Bool)
    (cube : ℕ → Option ℚ) (ref : ℕ → ℚ) (i : ℕ) : Option ℚ :=
  let diff (k : ℕ) : Option ℚ := (cube k).map (fun v => ref k - v)
  let d1 := interpolateMissing n lin (fun k => (cube k).isSome) none true diff
  let d2 := if (List.range n).any (fun k => (d1 k).isNone) then interpolateMissing n near (fun k => (d1 k).isSome) none true d1 else d1
  match cube i with
  | some v => some v
  | none =>
    match nanRange n diff with
    | none => none
    | some (lo, hi) => (d2 i).map (fun d => applyLimit (limit.map (· i)) asMaximum (ref i - min (max d lo) hi))

/-! ### Hail fraction -/

/-- `_compute_hail_fraction` (hail_fraction.py:40-93) at one grid point. -/
def hailFraction (updraught hailSize ccl cct melting orography : ℚ) : ℚ :=
  let f := npInterp [5, 50] [0, 1 / 4] updraught
  let f := if ccl < 26815 / 100 ∨ cct > 25815 / 100 ∨ melting > orography then 0 else f
  if hailSize > 2 / 1000 ∧ f < 5 / 100 then 5 / 100 else f

/-! ### Shower conditions -/

/-- `ShowerConditionProbability.process` (shower_condition_probability.py:128-173) for one realization at one grid point; the convective
ratio is `none` where masked.  Masked cloud is not modelled. -/
def showerMember (cloudThreshold convectionThreshold cloud : ℚ) (convection : Option ℚ) : Except Err ℚ := do
  let c ← truthValue .le cloudThreshold (cloudThreshold, cloudThreshold) cloud
  let v ← match convection with
    | some x => truthValue .gt convectionThreshold (convectionThreshold, convectionThreshold) x
    | none => .ok 0
  return max c v

/-- The mean over the realizations (shower_condition_probability.py:168-173). -/
def showerProbability (cloudThreshold convectionThreshold : ℚ) (members : List (ℚ × Option ℚ)) : Except Err ℚ := do
  let l ← members.mapM (fun m => showerMember cloudThreshold convectionThreshold m.1 m.2)
  return l.sum / (l.length : ℕ)

/-! ### Visibility and cloud base -/

/-- `get_scaling_factors` (visibility_combine_cloud_base.py:102-132), one threshold. -/
def visScaling (initial first t : ℚ) : ℚ :=
  if t > first then 1 else (1 - initial) * (-1 / first ^ 4) * (t - first) ^ 4 + 1

/-- `process` (visibility_combine_cloud_base.py:134-199) at one grid point: visibility probabilities by threshold, and whether they are
of exceeding (`above`) the thresholds; such are inverted before and after. -/
def visCombine (initial first : ℚ) (above : Bool) (cloud : ℚ) (vis : List (ℚ × ℚ)) : List (ℚ × ℚ) :=
  let inv (p : ℚ) : ℚ := if above then 1 - p else p
  vis.map (fun tp => (tp.1, inv (max (inv tp.2) (cloud * visScaling initial first tp.1))))

/-! ### Extraction from a table -/

/-- Tolerance of extract_from_table.py:71. -/
def tableTol : ℚ := 1 / 100000

/-- Indices of the labels within the tolerance of a value (extract_from_table.py:72-73). -/
def closeLabels (labels : List ℚ) (v : ℚ) : List ℕ :=
  (List.range labels.length).filter (fun k => decide (|labels.getD k 0 - v| < tableTol))

/-- `nearest_lower_index` (extract_from_table.py:51-80) for one value: the last label within the tolerance wins. -/
def nearestLowerIndex (labels : List ℚ) (v : ℚ) : ℕ :=
  let sorted : ℤ := ((labels.takeWhile (fun a => decide (a ≤ v))).length : ℤ) - 1
  let idx : ℤ := match (closeLabels labels v).getLast? with
    | some k => k
    | none => sorted
  (max idx 0).toNat

/-- `extract_table_values` of the sorted table (extract_from_table.py:82-127): columns and rows in any order; `none` inputs are NaN. -/
def tableValue {V : Type} (cols rows : List ℚ) (entry : ℚ → ℚ → V) (c r : Option ℚ) : Option V :=
  match c, r with
  | some c, some r =>
    let cols := cols.insertionSort (· ≤ ·)
    let rows := rows.insertionSort (· ≤ ·)
    some (entry (cols.getD (nearestLowerIndex cols c) 0) (rows.getD (nearestLowerIndex rows r) 0))
  | _, _ => none

end Improver
