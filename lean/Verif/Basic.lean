import Mathlib.Algebra.Order.Ring.Rat
import Mathlib.Algebra.Order.Field.Basic
import Mathlib.Tactic.Linarith
import Mathlib.Tactic.Ring
import Mathlib.Tactic.FieldSimp
import Mathlib.Tactic.NormNum
import Mathlib.Algebra.Order.BigOperators.Group.List

/-!
Shared vocabulary of the model: exceptions as values and the numpy primitives used by several modules.
Numbers are exact rationals (see DESIGN.md, section 1).
-/

namespace Improver

/-- Python exception classes raised by the modelled code (the message text is not modelled). -/
inductive Err where
  | valueError
  | typeError
  | attributeError
  | indexError
  | keyError
  | runtimeError
  | notImplemented
  | coordinateNotFound
  | invalidCube
  | zeroDivision
  deriving DecidableEq, Repr

/-- `np.clip(x, lo, hi)`: numpy defines it as `minimum(maximum(x, lo), hi)`. -/
def npClip (x lo hi : ℚ) : ℚ := min (max x lo) hi

/-- `np.isclose(a, b, rtol, atol)`: `|a - b| <= atol + rtol * |b|` (numpy documentation). -/
def npIsclose (a b : ℚ) (rtol : ℚ := 1 / 100000) (atol : ℚ := 1 / 100000000) : Bool :=
  decide (|a - b| ≤ atol + rtol * |b|)

end Improver
