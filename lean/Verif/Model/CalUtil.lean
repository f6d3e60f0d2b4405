import Verif.Basic
import Mathlib.Data.List.Sort
import Mathlib.Data.Rat.Floor

/-!
Model of the checks and of the matching of forecasts and truths used by the calibration:
improver/calibration/utilities.py and
`CalibratedForecastDistributionParameters` (improver/calibration/ensemble_calibration.py).
Times are integers (seconds since 1970), coordinates are rationals.
-/

namespace Improver

/-! ### Compatibility of coefficients and forecast -/

/-- A spatial coordinate: points and optional cell bounds. -/
structure SpatialCoord where
  points : List ℚ
  bounds : Option (List (ℚ × ℚ))

/-- Smallest value, `min()` of numpy, of a non-empty array. -/
def listMin (a : ℚ) (l : List ℚ) : ℚ := l.foldl min a

/-- Largest value, `max()` of numpy, of a non-empty array. -/
def listMax (a : ℚ) (l : List ℚ) : ℚ := l.foldl max a

/-- The array that `iris.coords.Coord.collapsed` looks at: the bounds if there are any, otherwise
the points. -/
def SpatialCoord.values (c : SpatialCoord) : List ℚ :=
  match c.bounds with
  | some bs => bs.flatMap fun b => [b.1, b.2]
  | none => c.points

/-- `iris.coords.Coord.collapsed()`: point (middle of the extent) and bounds (the extent). -/
def SpatialCoord.collapsed (c : SpatialCoord) : Except Err (ℚ × ℚ × ℚ) :=
  match c.values with
  | [] => .error .valueError
  | a :: l => .ok ((listMin a l + listMax a l) / 2, listMin a l, listMax a l)

/-- What the checks read from a forecast or coefficient cube. -/
structure CalMeta where
  /-- name of the forecast, or `diagnostic_standard_name` of a coefficient cube -/
  name : String
  /-- `cube.coords("wmo_id")` is not empty -/
  spot : Bool
  /-- points of `forecast_period` in seconds -/
  fp : List ℚ
  /-- points of `forecast_reference_time` -/
  frt : List ℤ
  x : SpatialCoord
  y : SpatialCoord

/-- ensemble_calibration.py:1400-1416 `_diagnostic_match`. -/
def diagnosticMatch (fc : CalMeta) : List CalMeta → Except Err Unit
  | [] => .ok ()
  | c :: rest => if fc.name ≠ c.name then .error .valueError else diagnosticMatch fc rest

/-- utilities.py:285-298 `_ceiling_fp`: hours rounded up. -/
def ceilingFp (c : CalMeta) : List ℤ := c.fp.map fun p => ⌈p / 3600⌉

/-- utilities.py:331-347 `get_frt_hours`; the set is a list without duplicates. -/
def frtHours (frt : List ℤ) : List ℤ := (frt.map fun t => t / 3600 % 24).dedup

/-- Equality of the Python sets held as lists. -/
def sameSet (a b : List ℤ) : Bool := a.all (· ∈ b) && b.all (· ∈ a)

/-- utilities.py:319: `if _ceiling_fp(a) != _ceiling_fp(b)`: the truth value of the comparison of
two arrays exists only when both have one element (arrays of other sizes raise ValueError). -/
def fpDiffer (a b : List ℤ) : Except Err Bool :=
  match a, b with
  | [p], [q] => .ok (decide (p ≠ q))
  | _, _ => .error .valueError

/-- utilities.py:301-328 `forecast_coords_match`. -/
def forecastCoordsMatch (a b : CalMeta) : Except Err Unit := do
  let d ← fpDiffer (ceilingFp a) (ceilingFp b)
  if d ∨ sameSet (frtHours a.frt) (frtHours b.frt) = false then .error .valueError else .ok ()

/-- ensemble_calibration.py:1666-1667: the loop over the coefficient cubes. -/
def allCoordsMatch (fc : CalMeta) : List CalMeta → Except Err Unit
  | [] => .ok ()
  | c :: rest => do forecastCoordsMatch c fc; allCoordsMatch fc rest

/-- ensemble_calibration.py:1438-1447: the condition to raise; `.all()` is over one point and
over the two bounds. -/
def extentsDiffer (a b : ℚ × ℚ × ℚ) : Bool :=
  decide (a.1 ≠ b.1) || (decide (a.2.1 ≠ b.2.1) && decide (a.2.2 ≠ b.2.2))

/-- ensemble_calibration.py:1436-1454: one axis and one coefficient cube. -/
def axisMatch (f c : SpatialCoord) : Except Err Unit := do
  let a ← f.collapsed
  let b ← c.collapsed
  if extentsDiffer a b then .error .valueError else .ok ()

/-- ensemble_calibration.py:1437: loop over the coefficient cubes for one axis. -/
def axisLoop (f : SpatialCoord) : List SpatialCoord → Except Err Unit
  | [] => .ok ()
  | c :: rest => do axisMatch f c; axisLoop f rest

/-- ensemble_calibration.py:1418-1454 `_spatial_domain_match`: skipped for spot forecasts. -/
def spatialDomainMatch (fc : CalMeta) (cs : List CalMeta) : Except Err Unit :=
  if fc.spot then .ok ()
  else do
    axisLoop fc.x (cs.map (·.x))
    axisLoop fc.y (cs.map (·.y))

/-- ensemble_calibration.py:1662-1668: the checks of `process` in their order. -/
def emosChecks (tolerate : Bool) (fc : CalMeta) (cs : List CalMeta) : Except Err Unit := do
  diagnosticMatch fc cs
  if tolerate then .ok () else allCoordsMatch fc cs
  spatialDomainMatch fc cs

/-! ### Matching forecasts and truths -/

/-- A cell of a time coordinate. -/
structure TimeCell where
  point : ℤ
  bound : Option (ℤ × ℤ)
  deriving DecidableEq

/-- A slice over time of the historic forecasts; `allNan` is `np.isnan(hf_slice.data).all()`. -/
structure FcSlice (α : Type) where
  cell : TimeCell
  allNan : Bool
  data : α

/-- A time of the truth cube. -/
structure TruthSlice (β : Type) where
  cell : TimeCell
  data : β

/-- utilities.py:181-200 with `iris.Constraint`: does the cell `t` of the truth satisfy the
constraint made from the forecast cell `f`?  With bounds on the forecast the lambda of lines
189-191 is used (`cell.bound[0]` of a cell without bounds raises TypeError).  Without, the
constraint is a list of one datetime, and iris tests `cell.point in list` for a coordinate
without bounds, `cell in list` otherwise, which is `Cell.contains_point`. -/
def cellTest (f t : TimeCell) : Except Err Bool :=
  match f.bound, t.bound with
  | some b, some c => .ok (decide (f.point = t.point) && decide (b.1 = c.1) && decide (b.2 = c.2))
  | some _, none => if f.point = t.point then .error .typeError else .ok false
  | none, none => .ok (decide (t.point = f.point))
  | none, some c => .ok (decide (min c.1 c.2 ≤ f.point) && decide (f.point ≤ max c.1 c.2))

/-- `truth.extract(constr)` (utilities.py:201): the times of the truth satisfying the
constraint, in order. -/
def extractTruth {β : Type} (f : TimeCell) : List (TruthSlice β) → Except Err (List (TruthSlice β))
  | [] => .ok []
  | t :: rest => do
    let b ← cellTest f t.cell
    let r ← extractTruth f rest
    .ok (if b then t :: r else r)

/-- utilities.py:180-210: the loop; `times` are the cells in `truth_times`. -/
def matchLoop {α β : Type} (truths : List (TruthSlice β)) :
    List (FcSlice α) → List TimeCell → Except Err (List (FcSlice α × List (TruthSlice β)))
  | [], _ => .ok []
  | f :: rest, times => do
    let ts ← extractTruth f.cell truths
    match ts with
    | [] => matchLoop truths rest times
    | t0 :: more =>
      if f.allNan = false ∧ t0.cell ∉ times then do
        let r ← matchLoop truths rest (times ++ [t0.cell])
        .ok ((f, t0 :: more) :: r)
      else matchLoop truths rest times

/-- `CubeList.merge_cube()` of slices with scalar times: one cube, ordered by time. -/
def mergeByTime {γ : Type} (time : γ → ℤ) (l : List γ) : List γ :=
  l.insertionSort fun a b => time a ≤ time b

/-- utilities.py:221: merging the extracted truths; a single one is returned as it is, several can
only be merged when each has one time. -/
def mergeTruths {β : Type} (l : List (List (TruthSlice β))) : Except Err (List (TruthSlice β)) :=
  match l with
  | [ts] => .ok ts
  | _ => if l.all (fun ts => ts.length == 1) then .ok (mergeByTime (·.cell.point) l.flatten)
    else .error .valueError

/-- utilities.py:142-224 `filter_non_matching_cubes`; a cube is the list of its times.  The
other dimensions and their order are not modelled. -/
def filterNonMatching {α β : Type} (fcs : List (FcSlice α)) (truths : List (TruthSlice β)) :
    Except Err (List (FcSlice α) × List (TruthSlice β)) := do
  let m ← matchLoop truths fcs []
  if m.isEmpty then .error .valueError
  else do
    let ts ← mergeTruths (m.map (·.2))
    .ok (mergeByTime (·.cell.point) (m.map (·.1)), ts)

/-! ### Reference times, consistency, amount of data -/

/-- utilities.py:227-251 `create_unified_frt_coord`: point and bounds of the new coordinate. -/
def unifiedFrt (points : List ℤ) (bounds : Option (List (ℤ × ℤ))) :
    Except Err (ℤ × ℤ × ℤ) :=
  match points with
  | [] => .error .valueError
  | p :: ps =>
    let hi := ps.foldl max p
    let lo := ps.foldl min p
    match bounds with
    | none => .ok (hi, lo, hi)
    | some bs =>
      let vs := bs.flatMap fun b => [b.1, b.2]
      .ok (hi, vs.foldl min lo, vs.foldl max hi)

/-- utilities.py:350-372 `check_forecast_consistency`. -/
def checkConsistency (frt : List ℤ) (fpPoints : ℕ) : Except Err Unit :=
  if (frtHours frt).length ≠ 1 then .error .valueError
  else if fpPoints ≠ 1 then .error .valueError
  else .ok ()

/-- A forecast-truth pair of one site: is the forecast NaN, is the truth NaN
(`truths_data` is broadcast to the shape of the forecasts, utilities.py:444). -/
abbrev NanPair := Bool × Bool

/-- utilities.py:445: `np.isnan(forecasts) & np.isnan(truths)`. -/
def nanIndex (p : NanPair) : Bool := p.1 && p.2

/-- `np.count_nonzero(index) / index.size` (an empty array gives NaN in numpy, 0 here; both are
never greater than the allowed proportion). -/
def nanProportion (ps : List NanPair) : ℚ := (ps.countP nanIndex : ℚ) / (ps.length : ℚ)

/-- utilities.py:412-472 `check_data_sufficiency`; the data are given by site. -/
def checkSufficiency (spot pointByPoint : Bool) (allowed : ℚ) (sites : List (List NanPair)) :
    Except Err Unit :=
  if spot = false then .ok ()
  else if pointByPoint then
    if sites.any (fun s => decide (allowed < nanProportion s)) then .error .valueError else .ok ()
  else if allowed < nanProportion sites.flatten then .error .valueError
  else .ok ()

end Improver
