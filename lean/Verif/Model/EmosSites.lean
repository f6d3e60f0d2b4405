import Verif.Model.Emos
import Verif.Model.OrogCoeff

/-! Model of the estimation of EMOS coefficients point by point as a whole, from the initial guesses to the places at which the coefficients are stored
(improver/calibration/ensemble_calibration.py).  The minimisation and the regression for the initial guess are parameters; a forecast at a point consists of
its predictors (`α`) and its variance (`β`), both taken from the historic forecasts (ensemble_calibration.py:1336-1355). -/

namespace Improver

/-- The initial guess of one point (ensemble_calibration.py:1158-1187): predictors at the position of the truth, compared with `np.isclose`.  No predictor or
more than one at this position is an error (of the regression, whose inputs differ in length). -/
def pointGuess {α : Type} (g : α → List (Option ℝ) → List ℝ) (preds : List (SiteData α)) (t : SiteData (List (Option ℝ))) : Except String (List ℝ) :=
  match sitesAt preds t.y t.x with
  | [s] => .ok (g s.data t.data)
  | _ => .error "ValueError: initial guess"

/-- `guess_and_minimise` with `point_by_point` (ensemble_calibration.py:1155-1213): initial guesses by regression, in the order of the truths, then the
minimisation for each point; the variances come in the order of the forecasts. -/
def trainPoints {α β : Type} (mini : List ℝ → α → List (Option ℝ) → β → List ℝ) (g : α → List (Option ℝ) → List ℝ)
    (truths : List (SiteData (List (Option ℝ)))) (fcs : List (SiteData (α × β))) : Except String (List (List ℝ)) := do
  let preds := fcs.map fun f => (⟨f.y, f.x, f.data.1⟩ : SiteData α)
  let guesses ← truths.mapM (pointGuess g preds)
  pointByPoint mini guesses truths (fcs.map fun f => f.data.2) preds

/-- Sites: the coefficients are given one place for each site of the forecasts (`reshape`, ensemble_calibration.py:467-471) and the spatial coordinates of the
forecasts (ensemble_calibration.py:794-825, 889-947). -/
def trainSites {α β : Type} (mini : List ℝ → α → List (Option ℝ) → β → List ℝ) (g : α → List (Option ℝ) → List ℝ)
    (truths : List (SiteData (List (Option ℝ)))) (fcs : List (SiteData (α × β))) : Except String (List (SiteData (List ℝ))) := do
  let out ← trainPoints mini g truths fcs
  if out.length ≠ fcs.length then .error "ValueError: cannot reshape array"
  else .ok (List.zipWith (fun (f : SiteData (α × β)) c => (⟨f.y, f.x, c⟩ : SiteData (List ℝ))) fcs out)

/-- `cube.slices_over([y, x])`: the points of a grid in the order of its dimensions. -/
def Field2.points {V : Type} (c : Field2 V) : List (SiteData V) :=
  (List.range (c.ys.length * c.xs.length)).map fun k =>
    if c.xFirst then ⟨c.ys.getD (k % c.ys.length) 0, c.xs.getD (k / c.ys.length) 0, c.data (k / c.ys.length) (k % c.ys.length)⟩
    else ⟨c.ys.getD (k / c.xs.length) 0, c.xs.getD (k % c.xs.length) 0, c.data (k / c.xs.length) (k % c.xs.length)⟩

/-- Grids: the coefficients are given the shape (y, x) (ensemble_calibration.py:472-480) and put into a copy of the forecasts with its order of dimensions
(ensemble_calibration.py:902-947), which refuses data of another shape. -/
def trainGrid {α β : Type} (mini : List ℝ → α → List (Option ℝ) → β → List ℝ) (g : α → List (Option ℝ) → List ℝ)
    (truth : Field2 (List (Option ℝ))) (fc : Field2 (α × β)) : Except String (Field2 (List ℝ)) := do
  let out ← trainPoints mini g truth.points fc.points
  if out.length ≠ fc.ys.length * fc.xs.length then .error "ValueError: cannot reshape array"
  else if fc.xFirst = true ∧ fc.ys.length ≠ fc.xs.length then .error "ValueError: Require matching shapes"
  else .ok ⟨fc.xFirst, fc.ys, fc.xs, fun i j => out.getD (i * fc.xs.length + j) []⟩

end Improver
