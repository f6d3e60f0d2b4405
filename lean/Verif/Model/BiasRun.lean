import Verif.Model.Bias
import Verif.Model.CalSplit
import Verif.Model.EmosRun

/-! Model of `CalculateForecastBias.process` as a whole (improver/calibration/simple_bias_correction.py:92-245). -/

namespace Improver

/-- One time of the historic forecasts: reference time and forecast period (seconds), values over the flattened points (`none`: masked). -/
structure BiasCell where
  frt : ℤ
  fp : ℤ
  values : List (Option ℚ)
deriving DecidableEq

/-- The historic forecasts: is it a probability, and the lengths of its dimensions `percentile` and `realization`, if there are such dimensions. -/
structure BiasArchive where
  name : String
  units : String
  probability : Bool
  percentiles : Option ℕ
  realizations : Option ℕ
  slices : List (FcSlice BiasCell)

/-- What is written: name, units, limits of the reference time, and the rest in a `BiasCube`. -/
structure BiasProduct where
  name : String
  units : String
  frtBounds : Option (ℤ × ℤ)
  cube : BiasCube
deriving DecidableEq

/-- simple_bias_correction.py:104-137 `_ensure_single_valued_forecast`; its result, the squeezed cube, is not used by `process` (line 231). -/
def ensureSingleValued (a : BiasArchive) : Except Err Unit :=
  if a.probability then .error .valueError
  else match a.percentiles, a.realizations with
    | some n, _ => if 1 < n then .error .valueError else .ok ()
    | none, some n => if 1 < n then .error .valueError else .ok ()
    | none, none => .ok ()

/-- simple_bias_correction.py:155-198 `_create_bias_cube`: with several times (`time` is a dimension) the reference time is replaced by the latest,
with limits; with one it is kept.  The valid time is removed.  The reference times of the archive have no limits (simplification). -/
def biasReference (frts : List ℤ) : Except Err (ℤ × Option (ℤ × ℤ)) :=
  if 1 < frts.length then do
    let u ← unifiedFrt frts none
    .ok (u.1, some (u.2.1, u.2.2))
  else .ok (frts.headD 0, none)

/-- simple_bias_correction.py:200-245 `CalculateForecastBias.process`; `n` is the number of points. -/
def biasRun (n : ℕ) (a : BiasArchive) (truths : List (TruthSlice (List (Option ℚ)))) : Except Err BiasProduct := do
  ensureSingleValued a
  let m ← filterNonMatching a.slices truths
  let frts := m.1.map fun f => f.data.frt
  checkConsistency frts (mergedPoints (m.1.map fun f => (f.data.fp : ℚ)))
  let r ← biasReference frts
  .ok ⟨"forecast_error_of_" ++ a.name, a.units, r.2,
    ⟨[r.1], decide (1 < m.1.length), [(m.1.map fun f => f.data.fp).headD 0],
      additiveError (decide (1 < m.1.length)) n (m.1.map fun f => f.data.values) (m.2.map fun t => t.data)⟩⟩

end Improver
