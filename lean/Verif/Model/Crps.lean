import Verif.Model.NormDist
import Mathlib.Data.EReal.Basic
import Mathlib.Data.EReal.Inv

/-!
Model of the score minimised by the ensemble model output statistics (EMOS) training:
improver/calibration/ensemble_calibration.py, class ContinuousRankedProbabilityScoreMinimisers.

Binary64 arithmetic is replaced by the reals; a missing value (NaN) is `none`.  The only
infinities that can arise, from dividing by a zero standard deviation, are represented.
-/

namespace Improver

/-- The predictor option (`check_predictor`, improver/calibration/utilities.py:114-139). -/
inductive Predictor
  | mean
  | realizations
  deriving DecidableEq, Repr

/-- One training case: the columns of `forecast_predictor`, `truth` and `forecast_var` for one
(time, point) after flattening; `none` is NaN. -/
structure TrainCase where
  preds : List (Option ℝ)
  truth : Option ℝ
  var : Option ℝ

/-- ensemble_calibration.py:159-164: `aa, bb, gamma, delta = guess[0], guess[1:-2], guess[-2],
guess[-1]`.  Shorter guesses (never produced by the plugin) are an error here. -/
def splitGuess (g : List ℝ) : Except String (ℝ × List ℝ × ℝ × ℝ) :=
  match g, g.reverse with
  | a :: _, d :: c :: _ => .ok (a, (g.drop 1).dropLast.dropLast, c, d)
  | _, _ => .error "IndexError"

/-- ensemble_calibration.py:166-170: the weights of the predictors, squared for realizations. -/
def betaWeights (p : Predictor) (bb : List ℝ) : List ℝ :=
  match p with
  | .mean => bb
  | .realizations => bb.map fun b => b * b

/-- One row of `np.dot(all_data, a_b)` (ensemble_calibration.py:172-174): a NaN predictor gives
NaN. -/
noncomputable def dotRow (a : ℝ) (bs : List ℝ) (xs : List (Option ℝ)) : Option ℝ :=
  (xs.mapM id).map fun xs => a + (List.zipWith (· * ·) xs bs).sum

/-- ensemble_calibration.py:175. -/
noncomputable def sigmaOf (gamma delta : ℝ) (v : Option ℝ) : Option ℝ :=
  v.map fun v => Real.sqrt (gamma * gamma + delta * delta * v)

/-- numpy's `mu / sigma` with its infinities and NaN (ensemble_calibration.py:223, 275, 279). -/
noncomputable def npRatio (mu sigma : Option ℝ) : Option EReal :=
  match mu, sigma with
  | some m, some s =>
    if s = 0 then (if 0 < m then some ⊤ else if m < 0 then some ⊥ else none)
    else some ((m / s : ℝ) : EReal)
  | _, _ => none

/-- `np.min`: NaN if any entry is NaN, error on an empty array. -/
noncomputable def npMinE (l : List (Option EReal)) : Except String (Option EReal) :=
  if l = [] then .error "ValueError: zero-size array to reduction operation minimum"
  else .ok ((l.mapM id).map fun l => l.foldr min ⊤)

/-- `np.isfinite` of the minimum. -/
def isFiniteE : Option EReal → Prop
  | some r => r ≠ ⊤ ∧ r ≠ ⊥
  | none => False

/-- `np.nanmean`: NaN entries are left out; NaN if nothing is left. -/
noncomputable def nanMeanR (l : List (Option ℝ)) : Option ℝ :=
  let v := l.filterMap id
  if v = [] then none else some (v.sum / v.length)

/-- `BAD_VALUE`, ensemble_calibration.py:79. -/
def badValue : ℝ := 999999

/-- One entry of the array averaged in ensemble_calibration.py:224-226.  With a zero standard
deviation `xz` is infinite or NaN and `sigma * (...)` is `0 * inf = NaN`. -/
noncomputable def normalEntry (mu sigma y : Option ℝ) : Option ℝ :=
  match mu, sigma, y with
  | some m, some s, some y =>
    if s = 0 then none
    else
      let xz := (y - m) / s
      some (s * (xz * (2 * normCdf xz - 1) + 2 * normPdf xz - 1 / Real.sqrt Real.pi))
  | _, _, _ => none

/-- One entry of the array averaged in ensemble_calibration.py:280-287.  With a zero standard
deviation the entry is NaN (`0 * inf`, or `0 / 0`). -/
noncomputable def truncEntry (mu sigma y : Option ℝ) : Option ℝ :=
  match mu, sigma, y with
  | some m, some s, some y =>
    if s = 0 then none
    else
      let xz := (y - m) / s
      let c0 := normCdf (m / s)
      some ((s / (c0 * c0)) *
        (xz * c0 * (2 * normCdf xz + c0 - 2) + 2 * normPdf xz * c0
          - normCdf (Real.sqrt 2 * (m / s)) / Real.sqrt Real.pi))
  | _, _, _ => none

/-- `_normal_crps_preparation` (ensemble_calibration.py:134-179) for all cases: location and
standard deviation.  A number of predictors different from the number of `beta` coefficients
makes `np.dot` raise. -/
noncomputable def crpsPrep (p : Predictor) (guess : List ℝ) (cs : List TrainCase) :
    Except String (List (Option ℝ × Option ℝ × Option ℝ)) :=
  match splitGuess guess with
  | .error e => .error e
  | .ok (a, bb, gamma, delta) =>
    if cs.any (fun c => c.preds.length != bb.length) then .error "ValueError: shapes not aligned"
    else .ok (cs.map fun c =>
      (dotRow a (betaWeights p bb) c.preds, sigmaOf gamma delta c.var, c.truth))

open Classical in
/-- `calculate_normal_crps`, ensemble_calibration.py:181-229. -/
noncomputable def normalCrps (p : Predictor) (guess : List ℝ) (cs : List TrainCase) :
    Except String (Option ℝ) :=
  match crpsPrep p guess cs with
  | .error e => .error e
  | .ok rows =>
    match npMinE (rows.map fun r => npRatio r.1 r.2.1) with
    | .error e => .error e
    | .ok m =>
      if isFiniteE m then .ok (nanMeanR (rows.map fun r => normalEntry r.1 r.2.1 r.2.2))
      else .ok (some badValue)

/-- `np.min(...) >= -3` with NaN comparing false. -/
def geMinusThree : Option EReal → Prop
  | some r => ((-3 : ℝ) : EReal) ≤ r
  | none => False

open Classical in
/-- `calculate_truncated_normal_crps`, ensemble_calibration.py:231-290. -/
noncomputable def truncCrps (p : Predictor) (guess : List ℝ) (cs : List TrainCase) :
    Except String (Option ℝ) :=
  match crpsPrep p guess cs with
  | .error e => .error e
  | .ok rows =>
    match npMinE (rows.map fun r => npRatio r.1 r.2.1) with
    | .error e => .error e
    | .ok m =>
      if isFiniteE m ∨ geMinusThree m then
        .ok (nanMeanR (rows.map fun r => truncEntry r.1 r.2.1 r.2.2))
      else .ok (some badValue)

end Improver
