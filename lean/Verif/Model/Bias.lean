import Verif.Model.CalUtil
import Verif.Basic

/-!
Model of improver/calibration/simple_bias_correction.py and of the helpers of
improver/calibration/__init__.py it uses.  Numbers are exact rationals; `none` is a masked value;
fields are lists over the flattened points.  Coordinates other than the reference time and the
forecast period are not modelled.
-/

namespace Improver

/-- Difference of two masked values: masked where either is
(simple_bias_correction.py:54-61, 88). -/
def maskedSub (a b : Option ℚ) : Option ℚ :=
  match a, b with
  | some x, some y => some (x - y)
  | _, _ => none

/-- `np.ma` mean (`iris.analysis.MEAN`) of the values of one point: over the unmasked values,
masked if there are none. -/
def maskedMean (l : List (Option ℚ)) : Option ℚ :=
  let vs := l.filterMap id
  if vs = [] then none else some (vs.sum / (vs.length : ℚ))

/-- Mean over the leading dimension of `n` points. -/
def meanOverTime (n : ℕ) (rows : List (List (Option ℚ))) : List (Option ℚ) :=
  (List.range n).map fun i => maskedMean (rows.map fun r => r.getD i none)

/-- simple_bias_correction.py:36-67 `evaluate_additive_error`: difference of forecasts and truths
for each time, averaged over time if time is a dimension (`timeDim`); otherwise there is one
time. -/
def additiveError (timeDim : Bool) (n : ℕ) (fcs truths : List (List (Option ℚ))) :
    List (Option ℚ) :=
  let errors := List.zipWith (List.zipWith maskedSub) fcs truths
  if timeDim then meanOverTime n errors else errors.headD []

/-- A bias cube: reference times, whether they have bounds, forecast periods, data. -/
structure BiasCube where
  frt : List ℤ
  bounded : Bool
  fp : List ℤ
  data : List (Option ℚ)
deriving DecidableEq

/-- The forecast to be corrected; `comment` is its attribute. -/
structure BiasForecast where
  frt : List ℤ
  fp : List ℤ
  comment : Option String
  data : List (Option ℚ)
deriving DecidableEq

/-- simple_bias_correction.py:350-396 `_check_forecast_bias_consistent`. -/
def biasConsistent (fc : BiasForecast) (bs : List BiasCube) : Except Err Unit :=
  let hours := (bs.flatMap fun b => frtHours b.frt).dedup
  let allHours := (frtHours fc.frt ++ hours).dedup
  let periods := (bs.flatMap fun b => b.fp).dedup
  let allPeriods := (fc.fp ++ periods).dedup
  if hours.length ≠ 1 then .error .valueError
  else if allHours.length ≠ 1 then .error .valueError
  else if periods.length ≠ 1 then .error .valueError
  else if allPeriods.length ≠ 1 then .error .valueError
  else .ok ()

/-- simple_bias_correction.py:308-348 `_get_mean_bias`: one bias is used as it is; several must
have reference times without bounds and (`merge_cube`, line 340) different reference times. -/
def meanBias (n : ℕ) (bs : List BiasCube) : Except Err (List (Option ℚ)) :=
  match bs with
  | [b] => .ok b.data
  | _ =>
    if bs.any (·.bounded) then .error .valueError
    else if (bs.map (·.frt)).Nodup then .ok (meanOverTime n (bs.map (·.data)))
    else .error .valueError

/-- simple_bias_correction.py:86-87: filling masked biases by zero. -/
def fillBias (fill : Bool) (b : List (Option ℚ)) : List (Option ℚ) :=
  if fill then b.map fun x => some (x.getD 0) else b

/-- `np.clip` with optional limits (improver/utilities/cube_manipulation.py:555). -/
def biasClip (lo hi : Option ℚ) (x : ℚ) : ℚ :=
  let y := match lo with | none => x | some l => max x l
  match hi with | none => y | some h => min y h

/-- simple_bias_correction.py:441-444. -/
def clipField (lo hi : Option ℚ) (d : List (Option ℚ)) : List (Option ℚ) :=
  d.map fun x => x.map (biasClip lo hi)

/-- The text appended by improver/calibration/__init__.py:249-268 `add_warning_comment`. -/
def warningText : String := "Warning: Calibration of this forecast has been attempted, however, no calibration has been applied."

/-- improver/calibration/__init__.py:249-268 `add_warning_comment` (an empty comment counts as no
comment). -/
def addWarning (c : Option String) : Option String :=
  match c with
  | none => some warningText
  | some s => if s = "" then some warningText else some (s ++ "\n" ++ warningText)

/-- simple_bias_correction.py:398-446 `ApplyBiasCorrection.process` after splitting the inputs:
the corrected forecast, and the cubes of the caller afterwards: the forecast (its comment is
changed in place, line 302) and the bias cubes (a single bias cube is filled in place, line
87). -/
def applyBias (lo hi : Option ℚ) (fill : Bool) (fc : BiasForecast) (bs : List BiasCube) :
    Except Err (BiasForecast × BiasForecast × List BiasCube) :=
  if bs.isEmpty then
    let fc' := { fc with comment := addWarning fc.comment }
    .ok (fc', fc', [])
  else do
    biasConsistent fc bs
    let bias ← meanBias fc.data.length bs
    let used := fillBias fill bias
    let corrected := List.zipWith maskedSub fc.data used
    let out := if lo.isSome || hi.isSome then clipField lo hi corrected else corrected
    let bs' := match bs with
      | [b] => [{ b with data := fillBias fill b.data }]
      | _ => bs
    .ok ({ fc with data := out }, fc, bs')

end Improver
