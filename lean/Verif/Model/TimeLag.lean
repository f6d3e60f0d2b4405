import Verif.Basic
import Mathlib.Data.List.Sort
import Mathlib.Data.List.Dedup

/-! Model of `improver/utilities/time_lagging.py` and of the cycle handling of `improver/metadata/forecast_times.py`.
Times are integers (seconds). -/

namespace Improver

/-- An ensemble forecast cube: scalar cycle and validity times, forecast period, and the members as
(realization number, data). -/
structure LagCube (D : Type) where
  frt : ℤ
  time : ℤ
  fp : ℤ
  members : List (ℤ × D)

variable {D : Type}

/-- `_find_latest_cycletime` (forecast_times.py:280-308); `cubelist[0]` of an empty list is an `IndexError`. -/
def findLatestCycletime : List (LagCube D) → Except Err ℤ
  | [] => .error .indexError
  | c :: cs => .ok ((c :: cs).foldl (fun frt x => if x.frt > frt then x.frt else frt) c.frt)

/-- `unify_cycletime` (forecast_times.py:240-277): copies with the new cycle time and a recalculated forecast
period (`_calculate_forecast_period`, forecast_times.py:91-164; a negative period only warns). -/
def unifyCycletime (cubes : List (LagCube D)) (cycle : ℤ) : List (LagCube D) :=
  cubes.map (fun c => { c with frt := cycle, fp := c.time - cycle })

/-- `rebadge_forecasts_as_latest_cycle` (forecast_times.py:210-237). -/
def rebadgeLatest (cubes : List (LagCube D)) (cycletime : Option ℤ) : Except Err (List (LagCube D)) :=
  if cycletime = none ∧ cubes.length = 1 then .ok cubes
  else
    match cycletime with
    | some t => .ok (unifyCycletime cubes t)
    | none =>
      match findLatestCycletime cubes with
      | .ok t => .ok (unifyCycletime cubes t)
      | .error e => .error e

/-- New realization numbers for one member list, counting from `first` (time_lagging.py:53-57). -/
def renumber (first : ℤ) : List (ℤ × D) → List (ℤ × D)
  | [] => []
  | m :: ms => (first, m.2) :: renumber (first + 1) ms

/-- The renumbering loop over the cubes (time_lagging.py:51-57). -/
def renumberAll (first : ℤ) : List (LagCube D) → List (LagCube D)
  | [] => []
  | c :: cs => { c with members := renumber first c.members } :: renumberAll (first + c.members.length) cs

/-- iris `merge_cube` of the realization slices (time_lagging.py:61): ascending by realization; duplicate realization
numbers cannot be merged. -/
def mergeMembers (ms : List (ℤ × D)) : Except Err (List (ℤ × D)) :=
  if (ms.map Prod.fst).dedup.length < ms.length then .error .valueError
  else .ok (ms.insertionSort (fun a b => a.1 ≤ b.1))

/-- `GenerateTimeLaggedEnsemble.process` (time_lagging.py:20-63): the (realization number, data) pairs of the result.
All cubes are assumed to share the validity time, as required for the merge.  A single cube is returned unmerged. -/
def timeLagged (cubes : List (LagCube D)) : Except Err (List (ℤ × D)) :=
  match rebadgeLatest cubes none with
  | .error e => .error e
  | .ok cs =>
    let all := (cs.map (fun c => c.members.map Prod.fst)).flatten
    let cs' := if all.dedup.length < all.length then renumberAll 0 cs else cs
    match cs' with
    | [c] => .ok c.members
    | _ => mergeMembers (cs'.map (fun c => c.members)).flatten

end Improver
