import Verif.Model.Sorting
import Verif.Model.ProbManip

/-! Model of `improver/expected_value.py`. -/

namespace Improver

/-- `thresholds_expanded` (expected_value.py:54-63), with `eps` the machine epsilon of the threshold type.
Accessing `thresholds[0]` of an empty array is an `IndexError`. -/
def expandThresholds (eps : ℚ) (ts : List ℚ) : Except Err (List ℚ) :=
  match ts.head?, ts.getLast? with
  | some a, some b => .ok ((a - max eps |a * eps|) :: (ts ++ [b + max eps |b * eps|]))
  | _, _ => .error .indexError

/-- `threshold_midpoints` (expected_value.py:80-82). -/
def midpoints (t : List ℚ) : List ℚ := List.zipWith (fun a d => a + 1 / 2 * d) t (npDiff t)

/-- `integrate_over_thresholds` (expected_value.py:28-103) at one grid point.  `above` tells whether the input
probabilities are of exceedance (`to_threshold_inequality(cube, above=False)` inverts them then).  The checks on
the PDF are made over the whole array in the code, here at the one point. -/
def integrateOverThresholds (eps : ℚ) (above : Bool) (ts probs : List ℚ) : Except Err ℚ := do
  let probs := if above then probs.map (fun p => 1 - p) else probs
  if (npDiff ts).any (fun d => decide (d ≤ 0)) then .error .valueError
  else
    let t ← expandThresholds eps ts
    let pdf := npDiff (0 :: (probs ++ [1]))
    if pdf.any (fun d => decide (d < 0)) then .error .valueError
    else return (List.zipWith (· * ·) pdf (midpoints t)).sum

end Improver
