import Verif.Model.Sorting
import Mathlib.Data.List.Dedup

/-! Model of parts of `improver/utilities/cube_manipulation.py`. -/

namespace Improver

/-- `np.min` of a non-empty list given as head and tail. -/
def foldMin {α : Type} [LinearOrder α] (a : α) (l : List α) : α := l.foldl min a
/-- `np.max` of a non-empty list given as head and tail. -/
def foldMax {α : Type} [LinearOrder α] (a : α) (l : List α) : α := l.foldl max a

/-- A scalar coordinate: its point and its bounds if any. -/
structure SCoord (α : Type) where
  point : α
  bounds : Option (α × α)
  deriving DecidableEq

/-- The bounds of a coordinate as a list. -/
def SCoord.ends {α : Type} (c : SCoord α) : List α :=
  match c.bounds with
  | some b => [b.1, b.2]
  | none => []

/-- The values over which `expand_bounds` takes minimum and maximum (cube_manipulation.py:598-610): all bounds, or all points if no
coordinate is bounded. -/
def boundVals {α : Type} (coords : List (SCoord α)) : Except Err (List α) :=
  if coords.any (fun c => c.bounds.isNone) then
    if ¬ coords.all (fun c => c.bounds.isNone) then .error .valueError
    else .ok (coords.map SCoord.point)
  else .ok (coords.flatMap SCoord.ends)

/-- `expand_bounds` (cube_manipulation.py:565-620) for one scalar coordinate: `coords` are that coordinate on the input cubes.  The
result is the coordinate of `result_cube` afterwards.  `np.min` of an empty list is a `ValueError`.  Data types are not modelled. -/
def expandBounds {α : Type} [LinearOrder α] (coords : List (SCoord α)) : Except Err (SCoord α) :=
  match boundVals coords with
  | .error e => .error e
  | .ok [] => .error .valueError
  | .ok (v :: vs) => .ok ⟨foldMax v vs, some (foldMin v vs, foldMax v vs)⟩

/-- A cube as its dimension coordinates' names and its data by index. -/
structure DimCube (α : Type) where
  dims : List String
  data : List ℕ → α

/-- `cube.transpose(new_dims)` of iris: dimension `k` of the result is dimension `new_dims[k]` of the cube; a list that is not a
permutation of the dimensions is refused. -/
def DimCube.transpose {α : Type} (c : DimCube α) (nd : List ℕ) : Except Err (DimCube α) :=
  if nd.length ≠ c.dims.length ∨ ¬ nd.Nodup then .error .valueError
  else .ok ⟨nd.map (fun d : ℕ => c.dims.getD d ""),
    fun idx => c.data ((List.range c.dims.length).map (fun d : ℕ => idx.getD (nd.idxOf d) 0))⟩

/-- The dimension coordinates asked for: "threshold" stands for the threshold coordinate if there is one
(cube_manipulation.py:495-505). -/
def coordsToReorder (dims : List String) (threshold : Option String) (names : List String) : List String :=
  (names.filterMap (fun n => if n = "threshold" then threshold else some n)).filter (fun n => decide (n ∈ dims))

/-- `enforce_coordinate_ordering` (cube_manipulation.py:468-528) for a cube all of whose dimensions have dimension coordinates. -/
def enforceOrdering {α : Type} (c : DimCube α) (threshold : Option String) (names : List String) (anchorStart : Bool) :
    Except Err (DimCube α) :=
  let re := (coordsToReorder c.dims threshold names).map (fun n => c.dims.idxOf n)
  let nd := re ++ (List.range c.dims.length).filter (fun d => decide (d ∉ re))
  let nd := if anchorStart then nd else nd.drop re.length ++ nd.take re.length
  if nd ≠ nd.insertionSort (· ≤ ·) then c.transpose nd else .ok c

/-- `filter_realizations` (cube_manipulation.py:623-648): the inputs are given as their (realization, time, data) slices.  Merging
slices with equal coordinates is an error (`DuplicateDataError`, here `valueError`), merging nothing an `IndexError`.  The merged
cube has its realizations and times in ascending order; it is returned as its slices. -/
def filterRealizations {D : Type} (slices : List (ℤ × ℤ × D)) : Except Err (List (ℤ × ℤ × D)) :=
  let times := slices.map (fun s => s.2.1)
  let realizations := (slices.map (fun s => s.1)).dedup
  if ¬ (slices.map (fun s => (s.1, s.2.1))).Nodup then .error .valueError
  else
    let keep : List ℤ := realizations.filter (fun r =>
      times.all (fun t => ((slices.filter (fun s => s.1 = r)).map (fun s => s.2.1)).contains t))
    if keep = [] then .error .indexError
    else .ok ((slices.filter (fun s => decide (s.1 ∈ keep))).insertionSort
      (fun a b => a.1 < b.1 ∨ (a.1 = b.1 ∧ a.2.1 ≤ b.2.1)))

/-- `maximum_in_height` (cube_manipulation.py:711-776) at one point: `levels` are (height, value) pairs. -/
def maximumInHeight (levels : List (ℚ × ℚ)) (lower upper : Option ℚ) : Except Err ℚ :=
  match levels.map Prod.fst with
  | [] => .error .valueError
  | h :: hs =>
    let lo := lower.getD (foldMin h hs)
    let hi := upper.getD (foldMax h hs)
    match (levels.filter (fun l => decide (lo ≤ l.1 ∧ l.1 ≤ hi))).map Prod.snd with
    | [] => .error .valueError
    | v :: vs => .ok (foldMax v vs)

/-- One pass of the loop of `height_of_maximum`. -/
def heightStep (mx : ℚ) (acc : ℚ) (level : ℚ × ℚ) : ℚ := if level.2 = mx then level.1 else acc

/-- `height_of_maximum` (cube_manipulation.py:779-826) at one point: `levels` are (height, value) pairs in coordinate order. -/
def heightOfMaximum (levels : List (ℚ × ℚ)) (mx : ℚ) (findLowest : Bool) : Except Err ℚ :=
  if levels.length = 1 then .error .valueError
  else .ok ((if findLowest then levels else levels.reverse).foldl (heightStep mx) mx)

/-- `get_filtered_attributes` (cube_manipulation.py:287-307): attributes are (key, value) pairs, `p` the key filter. -/
def filteredAttributes {V : Type} (p : String → Bool) (attrs : List (String × V)) : List (String × V) := attrs.filter (fun kv => p kv.1)

/-- Dictionary lookup. -/
def attrGet {V : Type} (attrs : List (String × V)) (k : String) : Option V := (attrs.find? (fun kv => kv.1 = k)).map Prod.snd

/-- One pass of the loop that narrows `common_keys` (cube_manipulation.py:339-348). -/
def commonStep {V : Type} [DecidableEq V] (p : String → Bool) (ref : List (String × V)) (common : List String)
    (attrs : List (String × V)) : List String :=
  ((filteredAttributes p attrs).filter (fun kv => decide (kv.1 ∈ common) && decide (attrGet ref kv.1 = some kv.2))).map Prod.fst

/-- `compare_attributes` (cube_manipulation.py:310-361).  A single cube gives an empty list. -/
def compareAttributes {V : Type} [DecidableEq V] (p : String → Bool) (cubes : List (List (String × V))) :
    List (List (String × V)) :=
  match cubes with
  | [] => []
  | [_] => []
  | c :: cs =>
    let ref := filteredAttributes p c
    let common := cs.foldl (commonStep p ref) (ref.map Prod.fst)
    cubes.map (fun a => (filteredAttributes p a).filter (fun kv => decide (kv.1 ∉ common)))

end Improver
