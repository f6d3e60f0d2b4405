import Verif.Model.Sorting
import Verif.Model.ECC
import Mathlib.Data.Rat.Floor

/-! Model of the row interpolation of `improver/ensemble_copula_coupling/{numba_utilities,utilities}.py`, and of
`ResamplePercentiles` / `ConvertProbabilitiesToPercentiles`. -/

namespace Improver

/-- `np.searchsorted(xp, x)` (side "left"): the first index whose value is at least `x`.  For ascending `xp`
this is numpy's answer; for other `xp` numpy's bisection may return something else. -/
def searchsortedLeft (xp : List ℚ) (x : ℚ) : ℕ := (xp.takeWhile (fun a => decide (a < x))).length

/-- Step guard of numba_utilities.py:46,110. -/
def interpEps : ℚ := 1 / 1000000000000000

/-- Entry of `fast_interp_same_x` for one row and one `x` (numba_utilities.py:38-52). -/
def fastInterpX (xp fp : List ℚ) (x : ℚ) : ℚ :=
  let ind := searchsortedLeft xp x
  if ind = 0 then fp.getD 0 0
  else if ind = xp.length then fp.getD (fp.length - 1) 0
  else if xp.getD ind 0 - xp.getD (ind - 1) 0 ≥ interpEps then
    fp.getD (ind - 1) 0 + (x - xp.getD (ind - 1) 0) / (xp.getD ind 0 - xp.getD (ind - 1) 0)
      * (fp.getD ind 0 - fp.getD (ind - 1) 0)
  else fp.getD (ind - 1) 0

/-- `fast_interp_same_x` (numba_utilities.py:20-52) for one row. -/
def fastInterpRowX (x xp fp : List ℚ) : Except Err (List ℚ) :=
  if fp.length ≠ xp.length then .error .valueError
  else .ok (x.map (fastInterpX xp fp))

/-- `x_ordered` (numba_utilities.py:73-77). -/
def xOrdered : List ℚ → Bool
  | [] => true
  | [_] => true
  | a :: b :: l => if b < a then false else xOrdered (b :: l)

/-- Loop variables of one row of `fast_interp_same_y` (numba_utilities.py:83-86). -/
structure ScanState where
  ind : ℕ
  intercept : ℚ
  slope : ℚ
  xLower : ℚ
  deriving DecidableEq, Repr

/-- The `while` loop of numba_utilities.py:95-97: number of further steps from index `ind`. -/
def scanAdvance (xp : List ℚ) (x : ℚ) (ind : ℕ) : ℕ :=
  ind + ((xp.drop ind).takeWhile (fun a => decide (a < x))).length

/-- Lines 107-114: intercept, abscissa and slope of the bracket ending at `ind`. -/
def scanBracket (xp fp : List ℚ) (ind : ℕ) : ScanState :=
  let intercept := fp.getD (ind - 1) 0
  let xLower := xp.getD (ind - 1) 0
  let hDiff := xp.getD ind 0 - xLower
  let slope := if hDiff < interpEps then 0 else (fp.getD ind 0 - intercept) / hDiff
  ⟨ind, intercept, slope, xLower⟩

/-- One iteration over `j` (numba_utilities.py:87-115). -/
def scanStep (ordered : Bool) (xp fp : List ℚ) (s : ScanState) (x : ℚ) : ScanState × ℚ :=
  let ind' := if ordered then scanAdvance xp x s.ind else searchsortedLeft xp x
  let recalculate := ordered && decide (ind' ≠ s.ind)
  if ind' = 0 then ({ s with ind := ind' }, fp.getD 0 0)
  else if ind' = xp.length then ({ s with ind := ind' }, fp.getD (fp.length - 1) 0)
  else
    let s' := if recalculate || !ordered then scanBracket xp fp ind' else { s with ind := ind' }
    (s', s'.intercept + (x - s'.xLower) * s'.slope)

/-- The loop over the requested points. -/
def scanLoop (ordered : Bool) (xp fp : List ℚ) : ScanState → List ℚ → List ℚ
  | _, [] => []
  | s, x :: xs =>
    let r := scanStep ordered xp fp s x
    r.2 :: scanLoop ordered xp fp r.1 xs

/-- `fast_interp_same_y` (numba_utilities.py:55-116) for one row. -/
def fastInterpRowY (x xp fp : List ℚ) : Except Err (List ℚ) :=
  if xp.length ≠ fp.length then .error .valueError
  else .ok (scanLoop (xOrdered x) xp fp ⟨0, 0, 0, 0⟩ x)

/-- `np.interp(x, xp, fp)` for one `x` (used at utilities.py:281,323): with `j` the last index such that
`xp[j] <= x`. -/
def npInterp (xp fp : List ℚ) (x : ℚ) : ℚ :=
  let n := xp.length
  if xp.getD (n - 1) 0 < x then fp.getD (n - 1) 0
  else if x < xp.getD 0 0 then fp.getD 0 0
  else
    let j := (xp.takeWhile (fun a => decide (a ≤ x))).length - 1
    if j = n - 1 then fp.getD j 0
    else if xp.getD j 0 = x then fp.getD j 0
    else (fp.getD (j + 1) 0 - fp.getD j 0) / (xp.getD (j + 1) 0 - xp.getD j 0) * (x - xp.getD j 0)
      + fp.getD j 0

/-! ### ResamplePercentiles -/

/-- `np.any(np.diff(row) < 0)`. -/
def hasDescent (l : List ℚ) : Bool := (npDiff l).any (fun d => decide (d < 0))

/-- New bounds under `ecc_bounds_warning` (ensemble_copula_coupling.py:294-297 and 576-579): lower and upper
bound are moved out to the extreme values. -/
def widenBounds (lower upper : ℚ) (vals : List ℚ) : Except Err (ℚ × ℚ) := do
  let mx ← npMax vals
  let mn ← npMin vals
  let upper' := if upper < mx then mx else upper
  let lower' := if lower > mn then mn else lower
  return (lower', upper')

/-- `_add_bounds_to_percentiles_and_forecast_at_percentiles` (ensemble_copula_coupling.py:233-309).  `rows`
holds the values of every grid point, in order of percentile. -/
def addBoundsToPercentiles (warn : Bool) (pcts : List ℚ) (rows : List (List ℚ)) (bounds : ℚ × ℚ) :
    Except Err (List ℚ × List (List ℚ)) := do
  let (lower, upper) := bounds
  let pcts' := 0 :: (pcts ++ [100])
  let forecast := rows.map (fun r => lower :: (r ++ [upper]))
  let (lower', upper') ← (if forecast.any hasDescent then
      if warn then widenBounds lower upper forecast.flatten
      else .error .valueError
    else .ok (lower, upper))
  if hasDescent pcts' then .error .valueError
  else return (pcts', rows.map (fun r => lower' :: (r ++ [upper'])))

/-- `ResamplePercentiles.process` with explicit percentiles (ensemble_copula_coupling.py:391-454 and 311-389);
`bounds = none` models `skip_ecc_bounds`. One output row per grid point. -/
def resamplePercentiles (warn : Bool) (bounds : Option (ℚ × ℚ)) (pcts : List ℚ) (rows : List (List ℚ))
    (requested : List ℚ) : Except Err (List (List ℚ)) := do
  if requested.any (fun p => decide (p < 0) || decide (p > 100)) then .error .valueError
  else
    let (xp, fps) ← (match bounds with
      | none => .ok (pcts, rows)
      | some b => addBoundsToPercentiles warn pcts rows b)
    fps.mapM (fun fp => fastInterpRowX requested xp fp)

/-! ### ConvertProbabilitiesToPercentiles -/

/-- `np.around(x, 9)`: `rint(x * 1e9) / 1e9` with halves to even. -/
def around9 (x : ℚ) : ℚ :=
  let y := x * 1000000000
  let f : ℤ := ⌊y⌋
  let r := y - f
  let n : ℤ := if r < 1 / 2 then f else if r > 1 / 2 then f + 1 else if f % 2 = 0 then f else f + 1
  (n : ℚ) / 1000000000

/-- `_add_bounds_to_thresholds_and_probabilities` (ensemble_copula_coupling.py:511-585). -/
def addBoundsToThresholds (warn : Bool) (thresholds : List ℚ) (bounds : ℚ × ℚ) : Except Err (List ℚ) := do
  let (lower, upper) := bounds
  let t := lower :: (thresholds ++ [upper])
  let (lower', upper') ← (if hasDescent t then
      if warn then widenBounds lower upper t else .error .valueError
    else .ok (lower, upper))
  return lower' :: (thresholds ++ [upper'])

/-- `_probabilities_to_percentiles` (ensemble_copula_coupling.py:587-726) at one grid point, without masks.
`above`: the probabilities are of exceedance.  Percentiles are given as percentages. -/
def probsToPercentiles (warn : Bool) (bounds : Option (ℚ × ℚ)) (above : Bool) (thresholds probs : List ℚ)
    (percentiles : List ℚ) : Except Err (List ℚ) := do
  let rounded := probs.map around9
  let cdf := if above then rounded.map (fun p => 1 - p) else rounded
  let (t, c) ← (match bounds with
    | none => .ok (thresholds, cdf)
    | some b => do
      let t ← addBoundsToThresholds warn thresholds b
      return (t, 0 :: (cdf ++ [1])))
  fastInterpRowY (percentiles.map (fun p => p / 100)) c t

/-- `mask_percentiles` (ensemble_copula_coupling.py:694-707): `none` = masked. -/
def maskPercentiles (above : Bool) (probs percentiles values : List ℚ) : List (Option ℚ) :=
  let last := probs.getD (probs.length - 1) 0
  let maskProbability := if above then 1 - last else last
  List.zipWith (fun p v => if maskProbability ≤ p / 100 then none else some v) percentiles values

end Improver
