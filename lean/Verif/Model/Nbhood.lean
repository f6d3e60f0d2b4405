import Verif.Basic
import Mathlib.Algebra.BigOperators.Group.Finset.Basic
import Mathlib.Algebra.BigOperators.Intervals
import Mathlib.Algebra.BigOperators.Ring.Finset

/-! Model of `improver/utilities/neighbourhood_tools.py` (boxsum) and of the square method of
`improver/nbhood/nbhood.py`.  A grid is given by its height `h`, width `w` and a function of (row, column); only the
values at `row < h`, `column < w` are meaningful. -/

namespace Improver

/-- `pad_boxsum` with `mode="constant"` (neighbourhood_tools.py:104-126): padded value at (padded) indices; the shape of the
result is `(h + 2*ih + 1, w + 2*jh + 1)`. -/
def padBoxsum (h w ih jh : ℕ) (c : ℚ) (f : ℕ → ℕ → ℚ) (a b : ℕ) : ℚ :=
  if ih + 1 ≤ a ∧ a < h + ih + 1 ∧ jh + 1 ≤ b ∧ b < w + jh + 1 then f (a - (ih + 1)) (b - (jh + 1)) else c

/-- `data.cumsum(-2).cumsum(-1)` (neighbourhood_tools.py:202). -/
def cumsum2 (p : ℕ → ℕ → ℚ) (a b : ℕ) : ℚ :=
  ∑ j ∈ Finset.range (b + 1), ∑ i ∈ Finset.range (a + 1), p i j

/-- `boxsum` (neighbourhood_tools.py:129-211) with `mode="constant"` padding: value at `(y, x)`; the result has the
shape of the input.  Even sizes are refused. -/
def boxsum (h w si sj : ℕ) (c : ℚ) (f : ℕ → ℕ → ℚ) (y x : ℕ) : Except Err ℚ :=
  if si % 2 = 0 ∨ sj % 2 = 0 then .error .valueError
  else
    let d := cumsum2 (padBoxsum h w (si / 2) (sj / 2) c f)
    .ok (d (si + y) (sj + x) - d y (sj + x) + d y x - d (si + y) x)

/-- Rectangle of rows `[y0, y1)` and columns `[x0, x1)`. -/
structure Box where
  y0 : ℕ
  y1 : ℕ
  x0 : ℕ
  x1 : ℕ
  deriving DecidableEq, Repr

/-- `_size` (nbhood.py:372). -/
def Box.size (b : Box) : ℕ := (b.y1 - b.y0) * (b.x1 - b.x0)

/-- Rows (resp. columns) that contain a value other than `e`: the components of
`np.argwhere(data != _extreme)` (nbhood.py:359). -/
def nonextremeRows (h w : ℕ) (f : ℕ → ℕ → ℚ) (e : ℚ) : List ℕ :=
  (List.range h).filter (fun y => (List.range w).any (fun x => decide (f y x ≠ e)))

def nonextremeCols (h w : ℕ) (f : ℕ → ℕ → ℚ) (e : ℚ) : List ℕ :=
  (List.range w).filter (fun x => (List.range h).any (fun y => decide (f y x ≠ e)))

/-- Buffered box of the non-extreme values (nbhood.py:359-371), `r = nb_size // 2`. -/
def extremeBox (h w r : ℕ) (f : ℕ → ℕ → ℚ) (e : ℚ) : Box :=
  let ys := nonextremeRows h w f e
  let xs := nonextremeCols h w f e
  if ys = [] then ⟨0, 0, 0, 0⟩
  else ⟨ys.headD 0 - r, min h (ys.getLastD 0 + 1 + r), xs.headD 0 - r, min w (xs.getLastD 0 + 1 + r)⟩

/-- State of the search loop of nbhood.py:353-382: size, extreme value, array of default sums, box. -/
structure Shortcut where
  size : ℕ
  extreme : ℚ
  fill : ℕ → ℕ → ℚ
  box : Box

/-- One iteration of the search loop. -/
def shortcutStep (h w r : ℕ) (f : ℕ → ℕ → ℚ) (s : Shortcut) (e : ℚ) (fill : ℕ → ℕ → ℚ) : Shortcut :=
  let b := extremeBox h w r f e
  if b.size < s.size then ⟨b.size, e, fill, b⟩ else s

/-- The search over the extremes 0 and (when `max_extreme` is given) 1 (nbhood.py:344-382). -/
def findShortcut (h w r : ℕ) (f : ℕ → ℕ → ℚ) (maxExtreme : Option (ℕ → ℕ → ℚ)) : Shortcut :=
  let s0 : Shortcut := ⟨h * w, 0, fun _ _ => 0, ⟨0, h, 0, w⟩⟩
  let s1 := shortcutStep h w r f s0 0 (fun _ _ => 0)
  match maxExtreme with
  | none => s1
  | some m => shortcutStep h w r f s1 1 m

/-- `_do_nbhood_sum` (nbhood.py:319-409) for the square method and real data with `nb_size = 2*r + 1`: value at `(y, x)`. -/
def doNbhoodSum (h w r : ℕ) (f : ℕ → ℕ → ℚ) (maxExtreme : Option (ℕ → ℕ → ℚ)) (y x : ℕ) : Except Err ℚ :=
  let s := findShortcut h w r f maxExtreme
  if s.size = 0 then .ok (s.fill y x)
  else
    let b := s.box
    if b.y0 ≤ y ∧ y < b.y1 ∧ b.x0 ≤ x ∧ x < b.x1 then
      boxsum (b.y1 - b.y0) (b.x1 - b.x0) (2 * r + 1) (2 * r + 1) s.extreme
        (fun i j => f (i + b.y0) (j + b.x0)) (y - b.y0) (x - b.x0)
    else .ok (s.fill y x)

/-- Value-or-zero with the masked points zeroed (nbhood.py:293-295). -/
def zeroInvalid (valid : ℕ → ℕ → Bool) (f : ℕ → ℕ → ℚ) (y x : ℕ) : ℚ := if valid y x then f y x else 0

/-- `valid_data_mask` as numbers. -/
def validOnes (valid : ℕ → ℕ → Bool) (y x : ℕ) : ℚ := if valid y x then 1 else 0

/-- `_calculate_neighbourhood` (nbhood.py:244-317) with `sum_only=True`, square method, at `(y, x)`. -/
def nbhoodSum (h w r : ℕ) (valid : ℕ → ℕ → Bool) (f : ℕ → ℕ → ℚ) (y x : ℕ) : Except Err ℚ :=
  doNbhoodSum h w r (zeroInvalid valid f) none y x

/-- Value of a successful computation (zero for the errors, which cannot occur for odd sizes). -/
def okOr0 : Except Err ℚ → ℚ
  | .ok v => v
  | .error _ => 0

/-- `_calculate_neighbourhood` (nbhood.py:244-317) with `sum_only=False`, square method, at `(y, x)`: `none` is NaN.
`lo`, `hi` are `np.nanmin(data)`, `np.nanmax(data)`.  Re-masking is not included: it only hides values. -/
def nbhoodMean (h w r : ℕ) (valid : ℕ → ℕ → Bool) (f : ℕ → ℕ → ℚ) (lo hi : ℚ) (y x : ℕ) : Except Err (Option ℚ) := do
  let area ← doNbhoodSum h w r (validOnes valid) none y x
  let areaAll := fun i j => okOr0 (doNbhoodSum h w r (validOnes valid) none i j)
  let total ← doNbhoodSum h w r (zeroInvalid valid f) (some areaAll) y x
  return if area = 0 then none else some (npClip (total / area) lo hi)

end Improver
