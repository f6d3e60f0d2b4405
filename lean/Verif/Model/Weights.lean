import Verif.Model.Interp

/-! Model of `improver/blending/weights.py`. -/

namespace Improver

/-- `WeightsUtilities.normalise_weights` (weights.py:36-67) along one axis.  `min` of an empty array is a
`ValueError`. -/
def normaliseWeights (w : List ℚ) : Except Err (List ℚ) :=
  match npMin w with
  | .error e => .error e
  | .ok m =>
    if m < 0 then .error .valueError
    else if w.sum = 0 then .error .valueError
    else .ok (w.map (fun x => x / w.sum))

/-- `ChooseDefaultWeightsLinear.__init__` (weights.py:504-525). -/
def linearInit (y0val ynval : Option ℚ) : Except Err (ℚ × ℚ) :=
  match y0val, ynval with
  | some y0, some yn => if y0 < 0 then .error .valueError else .ok (y0, yn)
  | _, _ => .error .valueError

/-- `ChooseDefaultWeightsLinear.linear_weights` (weights.py:527-552). -/
def linearWeights (y0 yn : ℚ) (n : ℕ) : Except Err (List ℚ) :=
  if n = 1 then .ok [1]
  else
    let slope := (yn - y0) / ((n : ℚ) - 1)
    normaliseWeights ((List.range n).map (fun tval : ℕ => slope * (tval : ℚ) + y0))

/-- `ChooseDefaultWeightsNonLinear.__init__` (weights.py:597-624). -/
def nonlinearInit (cval : Option ℚ) : Except Err ℚ :=
  match cval with
  | none => .error .valueError
  | some c => if c ≤ 0 ∨ c > 1 then .error .valueError else .ok c

/-- `ChooseDefaultWeightsNonLinear.nonlinear_weights` (weights.py:626-645). -/
def nonlinearWeights (cval : ℚ) (n : ℕ) : Except Err (List ℚ) :=
  normaliseWeights ((List.range n).map (fun k : ℕ => cval ^ k))

/-- `ChooseDefaultWeightsNonLinear.process` (weights.py:647-697): pairs (coordinate point, weight).
`sort_coord_in_cube` orders the cube by the coordinate. -/
def nonlinearProcess (cval : ℚ) (inverse : Bool) (points : List ℚ) : Except Err (List (ℚ × ℚ)) := do
  let pts := if inverse then points.insertionSort (· ≥ ·) else points
  let w ← nonlinearWeights cval pts.length
  let pairs := List.zip pts w
  return if inverse then pairs.insertionSort (fun a b => a.1 ≤ b.1) else pairs

/-- `calculate_weight` (weights.py:750-769). -/
def triWeight (midpoint slope point : ℚ) : ℚ :=
  if point = midpoint then 1 else 1 - |point - midpoint| * slope

/-- `triangular_weights` (weights.py:728-784); `1.0 / 0` is a `ZeroDivisionError`. -/
def triangularWeights (coords : List ℚ) (midpoint width : ℚ) : Except Err (List ℚ) :=
  if width = 0 then .error .zeroDivision
  else
    let slope := 1 / width
    normaliseWeights (coords.map (fun x =>
      if x ≥ midpoint - width ∧ x ≤ midpoint + width then triWeight midpoint slope x else 0))

/-! ### ChooseWeightsLinear -/

/-- scipy's linear `interp1d` on ascending abscissae (`interp1d._call_linear`): bracket index from
`searchsorted`, clipped to `1 .. n-1`. -/
def interp1dLin (xs ys : List ℚ) (x : ℚ) : ℚ :=
  let hi := min (max (searchsortedLeft xs x) 1) (xs.length - 1)
  let lo := hi - 1
  (ys.getD hi 0 - ys.getD lo 0) / (xs.getD hi 0 - xs.getD lo 0) * (x - xs.getD lo 0) + ys.getD lo 0

/-- `interp1d(source_points, source_weights, fill_value=(lo, hi), bounds_error=False)` (weights.py:308-315):
scipy sorts the points (stably) and interpolates linearly inside; outside it returns the fill values. -/
def interp1dFill (points weights : List ℚ) (fill : ℚ × ℚ) (x : ℚ) : ℚ :=
  let order := argsort points
  let xs := order.map (fun i : ℕ => points.getD i 0)
  let ys := order.map (fun i : ℕ => weights.getD i 0)
  if x < xs.getD 0 0 then fill.1
  else if x > xs.getD (xs.length - 1) 0 then fill.2
  else interp1dLin xs ys x

/-- `_check_config_dict`, `_get_interpolation_inputs_from_dict` and `_calculate_weights`
(weights.py:205-272, 374-403) for one model and one target point (units equal). -/
def chooseLinearRaw (points weights : List ℚ) (x : ℚ) : Except Err ℚ :=
  if points.length ≠ weights.length then .error .valueError
  else if points = [] then .error .indexError
  else .ok (interp1dFill points weights (weights.getD 0 0, weights.getD (weights.length - 1) 0) x)

/-- `ChooseWeightsLinear.process` (weights.py:466-498) at one target point: one (points, weights) table per
model, normalised across models. -/
def chooseLinear (config : List (List ℚ × List ℚ)) (x : ℚ) : Except Err (List ℚ) := do
  let raw ← config.mapM (fun c => chooseLinearRaw c.1 c.2 x)
  normaliseWeights raw

end Improver
