import Verif.Model.Threshold

/-! Independent specification of fuzzy thresholding. -/

namespace Improver.Spec

/-- The intended exceedance membership function for `lo < thr < hi`: 0 up to `lo`, 1 from `hi`, 1/2 at `thr`,
straight lines between. -/
def exceedance (lo thr hi x : ℚ) : ℚ :=
  if x ≤ lo then 0
  else if hi ≤ x then 1
  else if x < thr then (x - lo) / (thr - lo) / 2
  else 1 / 2 + (x - thr) / (hi - thr) / 2

/-- The comparison each operator denotes. -/
def holds : CmpOp → ℚ → ℚ → Prop
  | .ge, x, t => t ≤ x
  | .gt, x, t => t < x
  | .le, x, t => x ≤ t
  | .lt, x, t => x < t

/-- Operators for which a larger value is "more true". -/
def isAbove : CmpOp → Prop
  | .ge => True | .gt => True | .le => False | .lt => False

/-- Mean of `f` over the values of the members that are not masked, `none` if all are masked. -/
def meanOfUnmasked (f : ℚ → ℚ) (members : List MVal) : Option ℚ :=
  let vals := (members.filter (fun m => !m.masked)).map (fun m => f m.val)
  if vals = [] then none else some (vals.sum / vals.length)

end Improver.Spec
