import Verif.Basic
import Mathlib.Data.List.Sort
import Mathlib.Data.List.Dedup

/-! Model of `improver/categorical/modal_code.py` at one grid point: the list of category codes at the times merged into the cube.
Codes are integers (the int32 arithmetic of numpy is not modelled); masked data are not modelled. -/

namespace Improver

/-- One step of `np.argmax` over the counts of the sorted unique values: the first largest count wins. -/
def modeStep (l : List ℤ) (best : ℤ × ℕ) (v : ℤ) : ℤ × ℕ := if l.count v > best.2 then (v, l.count v) else best

/-- `scipy.stats.mode` of a one-dimensional array (used in modal_code.py:139 and 165): `np.unique` with counts, then the first value
with the largest count.  (`(0, 0)` stands for the result on an empty array, which cannot arise.) -/
def statsMode (l : List ℤ) : ℤ × ℕ := (l.dedup.insertionSort (· ≤ ·)).foldl (modeStep l) (0, 0)

/-- `_unify_day_and_night` (modal_code.py:90-100) at one value, the map being a list of (day, night) in dictionary order. -/
def unifyDayNight (m : List (ℤ × ℤ)) (code : ℤ) : ℤ := m.foldl (fun c dn => if c = dn.2 then dn.1 else c) code

/-- `groups[name] = groups.get(name, []) + [code]` on a dictionary kept as a list. -/
def groupInsert : List (String × List ℤ) → String → ℤ → List (String × List ℤ)
  | [], g, c => [(g, [c])]
  | (h, cs) :: rest, g, c => if h = g then (h, cs ++ [c]) :: rest else (h, cs) :: groupInsert rest g c

/-- One iteration of the loop of `_code_groups`. -/
def codeGroupsStep (gs : List (String × List ℤ)) (leaf : Option String × ℤ) : List (String × List ℤ) :=
  match leaf.1 with
  | none => gs
  | some g => groupInsert gs g leaf.2

/-- `_code_groups` (modal_code.py:102-109): the leaves of the tree are given as (group if any, code). -/
def codeGroups (leaves : List (Option String × ℤ)) : List (String × List ℤ) := leaves.foldl codeGroupsStep []

/-- One iteration of the inner loop of `_group_codes` (modal_code.py:135-138). -/
def groupReplace (data codes : List ℤ) : List ℤ :=
  match (data.filter (fun c => c ∈ codes)).insertionSort (· ≤ ·) with
  | [] => data
  | d :: _ => data.map (fun c => if c ∈ codes then d else c)

/-- `_group_codes` (modal_code.py:111-140) at an undecided point. -/
def groupedMode (codeMax : ℤ) (groups : List (String × List ℤ)) (data : List ℤ) : ℤ :=
  let data' := groups.foldl (fun d g => groupReplace d g.2) data
  codeMax - (statsMode (data'.map (fun c => codeMax - c))).1

/-- `mode_aggregator` (modal_code.py:142-169).  The comparison `counts < 0.3 * n` is made exactly. -/
def modeAggregator (codeMax unset : ℤ) (data : List ℤ) : ℤ :=
  let r := statsMode (data.map (fun c => codeMax - c))
  codeMax - (if (r.2 : ℚ) < 3 / 10 * data.length then codeMax - unset else r.1)

/-- `max(codes)`, `min(codes)` over the leaf codes (modal_code.py:81-87); python raises on an empty list. -/
def codesMax (codes : List ℤ) : ℤ := codes.foldl max (codes.headD 0)
/-- See `codesMax`. -/
def codesMin (codes : List ℤ) : ℤ := codes.foldl min (codes.headD 0)

/-- `ModalCategory.process` (modal_code.py:54-88, 194-263) at one grid point: `leaves` are the leaves of the decision tree with
their groups, `dn` the day/night map, `data` the codes at the times.  Metadata are not modelled. -/
def modalCategory (leaves : List (Option String × ℤ)) (dn : List (ℤ × ℤ)) (data : List ℤ) : ℤ :=
  let codeMax := codesMax (leaves.map Prod.snd) + 1
  let unset := codesMin (leaves.map Prod.snd) - 100
  let d := data.map (unifyDayNight dn)
  let r := match d with
    | [c] => c
    | _ => modeAggregator codeMax unset d
  if r = unset then groupedMode codeMax (codeGroups leaves) d else r

end Improver
