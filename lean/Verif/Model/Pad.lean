import Verif.Model.Sorting

/-! Model of `improver/utilities/pad_spatial.py`. -/

namespace Improver

/-- A two-dimensional (y, x) cube: sizes, data (meaningful for `row < h`, `column < w`) and the points of its two
spatial coordinates. -/
structure Grid2 where
  h : ℕ
  w : ℕ
  data : ℕ → ℕ → ℚ
  ys : List ℚ
  xs : List ℚ

/-- The uniformity check of `pad_coord` (pad_spatial.py:50-56): the increment, `ValueError` when refused.  With one point
`increment[0]` is an `IndexError`. -/
def coordIncrement (p : List ℚ) : Except Err ℚ :=
  let inc := npDiff p
  if npIsclose (npDiff inc).sum 0 then
    match inc with
    | [] => .error .indexError
    | i :: _ => .ok i
  else .error .valueError

/-- A padded coordinate: points and bounds. -/
structure PaddedCoord where
  points : List ℚ
  bounds : List (ℚ × ℚ)
  deriving DecidableEq

/-- Bounds of the new coordinate (pad_spatial.py:73-76). -/
def coordBounds (inc : ℚ) (p : List ℚ) : List (ℚ × ℚ) := p.map (fun v => (v - 1 / 2 * inc, v + 1 / 2 * inc))

/-- `pad_coord(coord, width, "add")` (pad_spatial.py:24-77).  The float32 cast of the points is not modelled. -/
def padCoordAdd (p : List ℚ) (width : ℕ) : Except Err PaddedCoord := do
  let inc ← coordIncrement p
  let pts := npLinspace (p.headD 0 - width * inc) (p.getLastD 0 + width * inc) (p.length + width + width)
  return ⟨pts, coordBounds inc pts⟩

/-- `pad_coord(coord, width, "remove")` (pad_spatial.py:24-77): `points[width:-width]`, or `points[0:None]` for zero. -/
def padCoordRemove (p : List ℚ) (width : ℕ) : Except Err PaddedCoord := do
  let inc ← coordIncrement p
  let pts := (p.take (p.length - width)).drop width
  return ⟨pts, coordBounds inc pts⟩

/-- `np.pad` modes: `constant` (with zero, as `pad_cube_with_halo` fixes), `symmetric`, and any other mode, whose halo values
are an arbitrary function of the padded indices. -/
inductive PadMethod where
  | constant
  | symmetric
  | other (halo : ℕ → ℕ → ℚ)

/-- Source index of padded index `i` under `np.pad(..., mode="symmetric")` of width `width` on an axis of length `n`:
reflection with the edge value repeated, repeated periodically when `width > n`. -/
def symIndex (n width i : ℕ) : ℕ :=
  let m := (((i : ℤ) - (width : ℤ)) % ((2 * n : ℕ) : ℤ)).toNat
  if m < n then m else 2 * n - 1 - m

/-- `np.pad(data, ((wy, wy), (wx, wx)), mode=...)` (pad_spatial.py:203-205). -/
def npPad2 (h w wy wx : ℕ) (method : PadMethod) (f : ℕ → ℕ → ℚ) (a b : ℕ) : ℚ :=
  match method with
  | .symmetric => f (symIndex h wy a) (symIndex w wx b)
  | .constant => if wy ≤ a ∧ a < h + wy ∧ wx ≤ b ∧ b < w + wx then f (a - wy) (b - wx) else 0
  | .other halo => if wy ≤ a ∧ a < h + wy ∧ wx ≤ b ∧ b < w + wx then f (a - wy) (b - wx) else halo a b

/-- `pad_cube_with_halo` (pad_spatial.py:163-216). -/
def padCubeWithHalo (g : Grid2) (wx wy : ℕ) (method : PadMethod) : Except Err Grid2 := do
  let xc ← padCoordAdd g.xs wx
  let yc ← padCoordAdd g.ys wy
  return ⟨g.h + 2 * wy, g.w + 2 * wx, npPad2 g.h g.w wy wx method g.data, yc.points, xc.points⟩

/-- `remove_halo_from_cube` (pad_spatial.py:262-297): `data[wy:-wy, wx:-wx]` with a zero width meaning no trimming. -/
def removeHaloFromCube (g : Grid2) (wx wy : ℕ) : Except Err Grid2 := do
  let xc ← padCoordRemove g.xs wx
  let yc ← padCoordRemove g.ys wy
  return ⟨g.h - 2 * wy, g.w - 2 * wx, fun a b => g.data (a + wy) (b + wx), yc.points, xc.points⟩

end Improver
