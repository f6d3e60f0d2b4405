import Verif.Model.Threshold

/-! Model of `improver/utilities/probability_manipulation.py` and `improver/between_thresholds.py`. -/

namespace Improver

/-- `spp_string` entries (probability_manipulation.py:31,39,46,53). -/
def CmpOp.spp : CmpOp → String
  | .ge => "greater_than_or_equal_to"
  | .gt => "greater_than"
  | .le => "less_than_or_equal_to"
  | .lt => "less_than"

/-- `inverse` entries (probability_manipulation.py:32,39,46,53). -/
def CmpOp.inverse : CmpOp → CmpOp
  | .ge => .lt
  | .gt => .le
  | .le => .gt
  | .lt => .ge

/-- A cube name split at the occurrences of the substrings "above" and "below". -/
inductive NameTok where
  | above | below | other (s : String)
  deriving DecidableEq, Repr

/-- A probability cube: the `spp__relative_to_threshold` attribute, the name, the probabilities in order of
the threshold coordinate.  `hasThreshold = false` when there is no threshold coordinate. -/
structure ProbCube where
  hasThreshold : Bool
  inequality : String
  name : List NameTok
  data : List ℚ
  deriving DecidableEq, Repr

/-- `str.replace("above", "below")` on a split name. -/
def NameTok.toBelow : NameTok → NameTok
  | .above => .below | t => t
/-- `str.replace("below", "above")` on a split name. -/
def NameTok.toAbove : NameTok → NameTok
  | .below => .above | t => t

/-- `new_name` (probability_manipulation.py:142-146). -/
def invertName (n : List NameTok) : List NameTok :=
  if NameTok.above ∈ n then n.map NameTok.toBelow else n.map NameTok.toAbove

/-- `invert_probabilities` (probability_manipulation.py:103-149).  The set comprehension over the table yields
the inverse of the operator with this `spp_string`; unpacking an empty set is a `ValueError`. -/
def invertProbabilities (c : ProbCube) : Except Err ProbCube :=
  if ¬ c.hasThreshold then .error .valueError
  else
    match [CmpOp.ge, .gt, .le, .lt].filter (fun o => o.spp == c.inequality) with
    | [o] => .ok { c with inequality := o.inverse.spp, name := invertName c.name,
                          data := c.data.map (fun p => 1 - p) }
    | _ => .error .valueError

/-- `to_threshold_inequality` (probability_manipulation.py:59-100). -/
def toThresholdInequality (c : ProbCube) (above : Bool) : Except Err ProbCube :=
  if ¬ c.hasThreshold then .error .valueError
  else
    let aboveAttr := [CmpOp.ge.spp, CmpOp.gt.spp]
    let belowAttr := [CmpOp.le.spp, CmpOp.lt.spp]
    if (c.inequality ∈ belowAttr ∧ above = true) ∨ (c.inequality ∈ aboveAttr ∧ ¬ above = true) then
      invertProbabilities c
    else .ok c

/-! ### between_thresholds -/

/-- `OccurrenceBetweenThresholds.__init__` (between_thresholds.py:27-56): every range must increase by at
least 1e-5. -/
def betweenInit (ranges : List (ℚ × ℚ)) : Except Err (List (ℚ × ℚ)) :=
  if ranges.any (fun r => decide (r.2 - r.1 < 1 / 100000)) then .error .valueError else .ok ranges

/-- One `iris.Constraint` extraction of `_slice_cube` (between_thresholds.py:78-97): the entries of the
threshold coordinate with `np.isclose(point, value, atol=1e-5)`.  `none` = not available.
Simplification: if several thresholds match, iris returns a multi-threshold cube; the model reports
`invalidCube` for that. -/
def extractThreshold (cube : List (ℚ × ℚ)) (t : ℚ) : Except Err (ℚ × ℚ) :=
  match cube.filter (fun e => npIsclose e.1 t (1 / 100000) (1 / 100000)) with
  | [] => .error .valueError
  | [e] => .ok e
  | _ => .error .invalidCube

/-- `_get_multiplier` (between_thresholds.py:106-135). -/
def betweenMultiplier (above : Bool) : ℚ := if above then 1 else -1

/-- One range of `_calculate_probabilities` (between_thresholds.py:137-166) at one point of the grid; `cube`
lists (threshold, probability). `t_range.sort()` (line 78) puts the range in ascending order. -/
def betweenOne (cube : List (ℚ × ℚ)) (above : Bool) (r : ℚ × ℚ) : Except Err ℚ := do
  let lower ← extractThreshold cube (min r.1 r.2)
  let upper ← extractThreshold cube (max r.1 r.2)
  return (lower.2 - upper.2) * betweenMultiplier above

/-- `OccurrenceBetweenThresholds` (between_thresholds.py:24-208) for threshold units equal to the cube's. -/
def occurrenceBetween (ranges : List (ℚ × ℚ)) (cube : List (ℚ × ℚ)) (above : Bool) :
    Except Err (List ℚ) := do
  let rs ← betweenInit ranges
  rs.mapM (betweenOne cube above)

end Improver
