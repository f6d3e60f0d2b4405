import Verif.Basic
import Mathlib.Data.List.Sort
import Mathlib.Data.List.GetD

/-! Models of the numpy sorting primitives used by several modules.  All use a stable insertion sort; numpy's
default (introsort) is not stable, which matters only for equal keys of `argsort` and is discussed there. -/

namespace Improver

/-- `np.sort` of one row. -/
def npSort (l : List ℚ) : List ℚ := l.insertionSort (· ≤ ·)

/-- `np.argsort` of one column (used at ensemble_copula_coupling.py:1415,1423): indices that sort the keys.
For equal keys numpy's order is unspecified; the model keeps index order.  At line 1423 the keys are a
permutation, hence distinct. -/
def argsort {α : Type} [LinearOrder α] [Inhabited α] (keys : List α) : List ℕ :=
  (List.range keys.length).insertionSort (fun i j => keys.getD i default ≤ keys.getD j default)

/-- Order used by `np.lexsort((secondary, primary))`: the last key is the primary one. -/
def lexLe (secondary primary : List ℚ) (i j : ℕ) : Prop :=
  primary.getD i 0 < primary.getD j 0 ∨
    (primary.getD i 0 = primary.getD j 0 ∧ secondary.getD i 0 ≤ secondary.getD j 0)

instance (s p : List ℚ) : DecidableRel (lexLe s p) := fun i j => by unfold lexLe; infer_instance

/-- `np.lexsort((secondary, primary), axis=0)` of one column (stable). -/
def lexsort (secondary primary : List ℚ) : List ℕ :=
  (List.range primary.length).insertionSort (lexLe secondary primary)

/-- `np.unique`: sorted distinct values. -/
def npUnique (l : List ℚ) : List ℚ := npSort l.dedup

/-- `np.diff`. -/
def npDiff : List ℚ → List ℚ
  | [] => []
  | [_] => []
  | a :: b :: l => (b - a) :: npDiff (b :: l)

/-- `np.max` / Python `max` (`ValueError` on an empty sequence). -/
def npMax : List ℚ → Except Err ℚ
  | [] => .error .valueError
  | a :: l => .ok (l.foldl max a)

/-- `np.min` / Python `min`. -/
def npMin : List ℚ → Except Err ℚ
  | [] => .error .valueError
  | a :: l => .ok (l.foldl min a)

/-- `np.linspace(start, stop, num)` (endpoint included). -/
def npLinspace (start stop : ℚ) (num : ℕ) : List ℚ :=
  (List.range num).map (fun i : ℕ => start + (i : ℚ) * ((stop - start) / ((num : ℚ) - 1)))

end Improver
