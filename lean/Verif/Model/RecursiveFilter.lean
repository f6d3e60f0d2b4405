import Verif.Model.Pad

/-! Model of `improver/nbhood/recursive_filter.py` and of
`improver/generate_ancillaries/generate_orographic_smoothing_coefficients.py`.

Fields are functions of (row, column); `RecursiveFilter.process` slices the cube as (y, x), so that axis 1 is x and axis 0
is y. -/

namespace Improver

/-- `_recurse_forward` along one line (recursive_filter.py:89-99): the in-place loop for `i = 1, 2, …`. -/
def recurseForward (s g : ℕ → ℚ) : ℕ → ℚ
  | 0 => g 0
  | i + 1 => (1 - s i) * g (i + 1) + s i * recurseForward s g i

/-- Value at index `n - 1 - k` of the in-place loop of `_recurse_backward` (recursive_filter.py:137-147). -/
def recurseBackwardAux (n : ℕ) (s g : ℕ → ℚ) : ℕ → ℚ
  | 0 => g (n - 1)
  | k + 1 => (1 - s (n - 1 - (k + 1))) * g (n - 1 - (k + 1)) + s (n - 1 - (k + 1)) * recurseBackwardAux n s g k

/-- `_recurse_backward` along a line of `n` points: the loop for `i = n-2, n-3, …, 0`. -/
def recurseBackward (n : ℕ) (s g : ℕ → ℚ) (i : ℕ) : ℚ := recurseBackwardAux n s g (n - 1 - i)

/-- Forward and backward recursion along x (axis 1) on a grid of `w` columns. -/
def smoothX (w : ℕ) (cx : ℕ → ℕ → ℚ) (f : ℕ → ℕ → ℚ) (y x : ℕ) : ℚ :=
  recurseBackward w (cx y) (recurseForward (cx y) (f y)) x

/-- Forward and backward recursion along y (axis 0) on a grid of `h` rows. -/
def smoothY (h : ℕ) (cy : ℕ → ℕ → ℚ) (f : ℕ → ℕ → ℚ) (y x : ℕ) : ℚ :=
  recurseBackward h (fun i => cy i x) (recurseForward (fun i => cy i x) (fun i => f i x)) y

/-- `_run_recursion` (recursive_filter.py:150-198): `iterations` rounds of x-forward, x-backward, y-forward, y-backward. -/
def runRecursion (h w : ℕ) (cx cy : ℕ → ℕ → ℚ) : ℕ → (ℕ → ℕ → ℚ) → (ℕ → ℕ → ℚ)
  | 0, f => f
  | k + 1, f => runRecursion h w cx cy k (smoothY h cy (smoothX w cx f))

/-- `RecursiveFilter.__init__` (recursive_filter.py:27-51). -/
def recursiveFilterInit (iterations : Option ℤ) : Except Err (Option ℤ) :=
  match iterations with
  | none => .ok none
  | some k => if k < 1 then .error .valueError else .ok (some k)

/-- A smoothing coefficients cube: name, data, and its coordinate points. -/
structure CoeffCube where
  name : String
  h : ℕ
  w : ℕ
  data : ℕ → ℕ → ℚ
  ys : List ℚ
  xs : List ℚ

/-- Mid-points between adjacent points (recursive_filter.py:252-255). -/
def coordMidpoints (p : List ℚ) : List ℚ := List.zipWith (fun a b => (a + b) / 2) p.tail p

/-- `len(a) == len(b)` and `np.allclose(a, b)` (recursive_filter.py:259-261). -/
def pointsMatch (a b : List ℚ) : Bool :=
  decide (a.length = b.length) && (List.zipWith (fun x y => npIsclose x y) a b).all id

/-- Is any coefficient above one half? (recursive_filter.py:241) -/
def anyAboveHalf (c : CoeffCube) : Bool :=
  (List.range c.h).any (fun y => (List.range c.w).any (fun x => decide (c.data y x > 1 / 2)))

/-- The checks on one coefficients cube (recursive_filter.py:227-274); `isX` says which axis it smooths. -/
def validateCoefficient (xs ys : List ℚ) (c : CoeffCube) (isX : Bool) : Except Err Unit :=
  if c.name ≠ (if isX then "smoothing_coefficient_x" else "smoothing_coefficient_y") then .error .valueError
  else if anyAboveHalf c then .error .valueError
  else if !pointsMatch c.xs (if isX then coordMidpoints xs else xs) then .error .valueError
  else if !pointsMatch c.ys (if isX then ys else coordMidpoints ys) then .error .valueError
  else .ok ()

/-- `_validate_coefficients` (recursive_filter.py:200-276) on the two given cubes: sorted by name, then checked.  The list the
caller passed is sorted in place. -/
def validateCoefficients (xs ys : List ℚ) (c1 c2 : CoeffCube) : Except Err (CoeffCube × CoeffCube) := do
  let (cx, cy) := if c2.name < c1.name then (c2, c1) else (c1, c2)
  validateCoefficient xs ys cx true
  validateCoefficient xs ys cy false
  return (cx, cy)

/-- `zero_masked` with `use_mask_boundary=False`, `invert_mask=False` on a boolean mask, x-coefficients
(generate_orographic_smoothing_coefficients.py:243-250). -/
def zeroMaskedX (mask : ℕ → ℕ → Bool) (c : ℕ → ℕ → ℚ) (y x : ℕ) : ℚ :=
  if mask y x || mask y (x + 1) then 0 else c y x

/-- The same for the y-coefficients. -/
def zeroMaskedY (mask : ℕ → ℕ → Bool) (c : ℕ → ℕ → ℚ) (y x : ℕ) : ℚ :=
  if mask y x || mask (y + 1) x then 0 else c y x

/-- One slice of `RecursiveFilter.process` (recursive_filter.py:387-411) with already validated coefficients: pad by
`2*edge_width`, run, remove the halo.  `np.pad` drops the mask, so the recursion runs on the data under the mask. -/
def filterSlice (h w e iterations : ℕ) (cx cy : ℕ → ℕ → ℚ) (f : ℕ → ℕ → ℚ) (y x : ℕ) : ℚ :=
  runRecursion (h + 2 * (2 * e)) (w + 2 * (2 * e))
    (npPad2 h (w - 1) (2 * e) (2 * e) .symmetric cx) (npPad2 (h - 1) w (2 * e) (2 * e) .symmetric cy) iterations
    (npPad2 h w (2 * e) (2 * e) .symmetric f) (y + 2 * e) (x + 2 * e)

/-- Result of `process` on one slice: the filtered data, the mask re-applied to it, and the contents of the caller's
coefficient cubes afterwards (`zero_masked` writes into them). -/
structure FilterResult where
  data : ℕ → ℕ → ℚ
  mask : Option (ℕ → ℕ → Bool)
  cx : ℕ → ℕ → ℚ
  cy : ℕ → ℕ → ℚ

/-- `RecursiveFilter.process` (recursive_filter.py:314-421) for a cube with one time.  `iterations=None` fails in
`range(None)`.  A mask without any masked point is treated as no mask (`np.ma.is_masked`); the caller passes `none`. -/
def recursiveFilterProcess (iterations : Option ℤ) (e : ℕ) (g : Grid2) (mask : Option (ℕ → ℕ → Bool))
    (c1 c2 : CoeffCube) : Except Err FilterResult := do
  let (cx, cy) ← validateCoefficients g.xs g.ys c1 c2
  let dx := match mask with | none => cx.data | some m => zeroMaskedX m cx.data
  let dy := match mask with | none => cy.data | some m => zeroMaskedY m cy.data
  match iterations with
  | none => .error .typeError
  | some k => .ok ⟨filterSlice g.h g.w e k.toNat dx dy g.data, mask, dx, dy⟩

/-! ### Orographic smoothing coefficients -/

/-- `OrographicSmoothingCoefficients.__init__` limits check (generate_orographic_smoothing_coefficients.py:93-107). -/
def orogCoeffInit (minG maxG : ℚ) : Except Err Unit :=
  if minG < 0 ∨ minG > 1 / 2 then .error .valueError
  else if maxG < 0 ∨ maxG > 1 / 2 then .error .valueError
  else .ok ()

/-- `scale_smoothing_coefficients` (generate_orographic_smoothing_coefficients.py:117-149) on the values of both gradient cubes;
`none` is NaN (division of zero by zero when all gradients have the same magnitude). -/
def scaleCoefficients (minG maxG : ℚ) (xs ys : List ℚ) : Except Err (List (Option ℚ) × List (Option ℚ)) := do
  let mn1 ← npMin (xs.map abs)
  let mn2 ← npMin (ys.map abs)
  let mx1 ← npMax (xs.map abs)
  let mx2 ← npMax (ys.map abs)
  let mn := min mn1 mn2
  let mx := max mx1 mx2
  let scale := fun v : ℚ => if mx - mn = 0 then none
    else some ((|v| - mn) / (mx - mn) * (maxG - minG) + minG)
  return (xs.map scale, ys.map scale)

end Improver
