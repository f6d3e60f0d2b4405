import Verif.Model.Times

/-!
Model of `datetime_constraint` and `extract_cube_at_time` (improver/utilities/temporal.py:134-191).  Times are seconds since 1970-01-01 00:00 UTC; year, month, day and hour of two
times agree just if the whole hours since then do, and are in the same order (calendar fields themselves are not modelled).
-/

namespace Improver

/-- A time of a cube: its point, and its bounds if it has any. -/
structure ClockCell where
  point : ℤ
  bound : Option (ℤ × ℤ)
deriving DecidableEq

/-- The fields down to the hour (temporal.py:150, 155-157). -/
def wholeHour (t : ℤ) : ℤ := t / 3600

/-- temporal.py:150-160.  iris compares a cell with `≥` and `<` by its last bound. -/
def timeConstraint (start : ℤ) (limit : Option ℤ) (c : ClockCell) : Bool :=
  match limit with
  | none => decide (wholeHour c.point = wholeHour start)
  | some l =>
    let me := match c.bound with
      | some b => max b.1 b.2
      | none => c.point
    decide (wholeHour start ≤ wholeHour me ∧ wholeHour me < wholeHour l)

/-- A cube: its times with the data at each. -/
abbrev TimedSlices (D : Type) := List (ClockCell × D)

/-- temporal.py:183-191: what each cube has at times that fit; cubes without such times are left out; None, with a warning, unless one cube is left. -/
def extractCubeAtTime {D : Type} (fits : ClockCell → Bool) (cubes : List (TimedSlices D)) : Option (TimedSlices D) :=
  match (cubes.map fun c => c.filter fun s => fits s.1).filter fun c => !c.isEmpty with
  | [c] => some c
  | _ => none

end Improver
