import Verif.Basic
import Mathlib.Data.List.Sort
import Mathlib.Data.String.Basic

/-! Model of the coordinates and attributes that `ModalCategory.process` sets (improver/categorical/modal_code.py:172-260); the data are in Model/ModalCode.lean.
Times are whole seconds. -/

namespace Improver

/-- What the input cubes say: the period they are for, the point of their time coordinate, their forecast reference time (without bounds) and the words of the attribute
with the models. -/
structure ModeInput where
  start : ℤ
  stop : ℤ
  point : ℤ
  cycle : ℤ
  models : List String
deriving DecidableEq

/-- The coordinates and attributes of the result: the bounds and point of time, the forecast reference time, the bounds and point of the forecast period, the whole number of
hours in the interval of the cell method, and the models. -/
structure ModeMeta where
  start : ℤ
  stop : ℤ
  point : ℤ
  cycle : ℤ
  periodStart : ℤ
  periodStop : ℤ
  period : ℤ
  hours : ℤ
  models : List String
deriving DecidableEq

/-- The least and the greatest value of a coordinate, which iris makes the bounds when it collapses it. -/
def leastOf (l : List ℤ) : ℤ := l.foldl min (l.headD 0)

def greatestOf (l : List ℤ) : ℤ := l.foldl max (l.headD 0)

/-- `MergeCubes()(cubes)` (modal_code.py:212): along time, in ascending order; iris does not merge two cubes for the same time. -/
def mergeTimes (inputs : List ModeInput) : Except Err (List ModeInput) :=
  if (inputs.map ModeInput.point).Nodup then .ok (inputs.insertionSort fun a b => a.point ≤ b.point) else .error .valueError

/-- modal_code.py:218-223: the one length of all periods. -/
def commonLength (inputs : List ModeInput) : Except Err ℤ :=
  match (inputs.map fun c => c.stop - c.start).dedup with
  | [p] => .ok p
  | _ => .error .valueError

/-- modal_code.py:244-250: the models of all inputs. -/
def contributingModels (inputs : List ModeInput) : List String := ((inputs.flatMap ModeInput.models).dedup).insertionSort fun a b => a ≤ b

/-- `collapsed("time", …)` (modal_code.py:236) on the times and cycles, or the cube itself with a single time (modal_code.py:233): start, stop and cycle.  A cycle that varies with
time gets the bounds of all of them, of which modal_code.py:180-184 takes the second; one that does not vary has no bounds and is kept. -/
def collapseTimes (cubes : List ModeInput) : ℤ × ℤ × ℤ :=
  match cubes with
  | [c] => (c.start, c.stop, c.cycle)
  | _ => (leastOf (cubes.map ModeInput.start ++ cubes.map ModeInput.stop), greatestOf (cubes.map ModeInput.start ++ cubes.map ModeInput.stop),
      if (cubes.map ModeInput.cycle).dedup.length = 1 then (cubes.map ModeInput.cycle).headD 0 else greatestOf (cubes.map ModeInput.cycle))

/-- modal_code.py:212-250 with 172-192: the point of time is the end of its bounds; the forecast period is the time since the cycle
(improver/metadata/forecast_times.py:27-113, computed anew). -/
def modeMeta (inputs : List ModeInput) : Except Err ModeMeta :=
  match mergeTimes inputs with
  | .error e => .error e
  | .ok cubes =>
    match commonLength cubes with
    | .error e => .error e
    | .ok length =>
      let (start, stop, cycle) := collapseTimes cubes
      .ok ⟨start, stop, stop, cycle, start - cycle, stop - cycle, stop - cycle, length.tdiv 3600, contributingModels inputs⟩

end Improver
