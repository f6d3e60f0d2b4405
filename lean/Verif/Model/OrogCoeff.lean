import Verif.Model.RecursiveFilter
import Verif.Model.Spatial

/-! Model of `OrographicSmoothingCoefficients.process` as a whole
(improver/generate_ancillaries/generate_orographic_smoothing_coefficients.py).  Gradients are exact rationals; the power is a parameter `pw` (in the
code `x ** power`); distances between neighbours are parameters (C-properties of `Spatial` say what they are); the x axis is not circular. -/

namespace Improver

/-- A field on a grid: `xFirst` tells that x is the leading dimension; `data` takes the indices in the order of the dimensions. -/
structure Field2 (V : Type) where
  xFirst : Bool
  ys : List ℚ
  xs : List ℚ
  data : ℕ → ℕ → V

/-- `enforce_coordinate_ordering(cube, [y, x])` (improver/utilities/cube_manipulation.py:343-393), in place. -/
def Field2.toYX {V : Type} (c : Field2 V) : Field2 V :=
  if c.xFirst then { c with xFirst := false, data := fun i j => c.data j i } else c

/-- `enforce_coordinate_ordering(cube, original_order)` of a field in y, x order (generate_orographic_smoothing_coefficients.py:327-328). -/
def Field2.fromYX {V : Type} (xFirst : Bool) (c : Field2 V) : Field2 V :=
  if xFirst then { c with xFirst := true, data := fun i j => c.data j i } else c

/-- Gradients to the next point along x, `GradientBetweenAdjacentGridSquares` (improver/utilities/spatial.py:685-712). -/
def gradX (distX : ℕ → ℕ → ℚ) (f : ℕ → ℕ → ℚ) (y x : ℕ) : ℚ := (f y (x + 1) - f y x) / distX y x

/-- Gradients to the next point along y (spatial.py:685-712). -/
def gradY (distY : ℕ → ℕ → ℚ) (f : ℕ → ℕ → ℚ) (y x : ℕ) : ℚ := (f (y + 1) x - f y x) / distY y x

/-- generate_orographic_smoothing_coefficients.py:151-165 `unnormalised_smoothing_coefficients`. -/
def unnormalised (pw : ℚ → ℚ) (g : ℕ → ℕ → ℚ) (y x : ℕ) : ℚ := pw |g y x|

/-- All values of an array of `h` rows and `w` columns. -/
def arrayValues (h w : ℕ) (f : ℕ → ℕ → ℚ) : List ℚ := (List.range h).flatMap fun y => (List.range w).map fun x => f y x

/-- generate_orographic_smoothing_coefficients.py:132-133: smallest and largest magnitude over both directions; an empty array has none. -/
def coefLimits (xs ys : List ℚ) : Except Err (ℚ × ℚ) := do
  let a ← npMin (xs.map abs)
  let b ← npMin (ys.map abs)
  let c ← npMax (xs.map abs)
  let d ← npMax (ys.map abs)
  return (min a b, max c d)

/-- generate_orographic_smoothing_coefficients.py:137-145 for one value; `none` is NaN. -/
def coefScale (minG maxG : ℚ) (l : ℚ × ℚ) (v : ℚ) : Option ℚ :=
  if l.2 - l.1 = 0 then none else some ((|v| - l.1) / (l.2 - l.1) * (maxG - minG) + minG)

/-- What to do with the mask (generate_orographic_smoothing_coefficients.py:112-115). -/
structure MaskRule where
  boundary : Bool
  invert : Bool

/-- generate_orographic_smoothing_coefficients.py:239-248: is the coefficient between two points with mask values `a` and `b` set to zero? -/
def MaskRule.zero (r : MaskRule) (a b : ℤ) : Bool :=
  if r.boundary then decide (b - a ≠ 0) else if r.invert then decide (a + b ≤ 1) else decide (1 ≤ a + b)

/-- generate_orographic_smoothing_coefficients.py:249 (x) for one coefficient. -/
def maskX (r : MaskRule) (m : Option (ℕ → ℕ → ℤ)) (c : ℕ → ℕ → Option ℚ) (y x : ℕ) : Option ℚ :=
  match m with
  | none => c y x
  | some m => if r.zero (m y x) (m y (x + 1)) then some 0 else c y x

/-- generate_orographic_smoothing_coefficients.py:250 (y) for one coefficient. -/
def maskY (r : MaskRule) (m : Option (ℕ → ℕ → ℤ)) (c : ℕ → ℕ → Option ℚ) (y x : ℕ) : Option ℚ :=
  match m with
  | none => c y x
  | some m => if r.zero (m y x) (m (y + 1) x) then some 0 else c y x

/-- What is returned, and the caller's orography and mask afterwards. -/
structure CoefRun where
  x : Field2 (Option ℚ)
  y : Field2 (Option ℚ)
  orography : Field2 ℚ
  mask : Option (Field2 ℤ)

/-- generate_orographic_smoothing_coefficients.py:288-294: is there a mask on another grid? -/
def maskElsewhere (c : Field2 ℚ) (mask : Option (Field2 ℤ)) : Bool :=
  match mask with
  | none => false
  | some m => !(decide (m.xFirst = c.xFirst) && decide (m.ys = c.ys) && decide (m.xs = c.xs))

/-- generate_orographic_smoothing_coefficients.py:54-115 and 252-330 `OrographicSmoothingCoefficients(...).process(cube, mask)`; `ndim` is the number of
dimensions of the orography. -/
def orogCoefficients (minG maxG : ℚ) (pw : ℚ → ℚ) (r : MaskRule) (distX distY : ℕ → ℕ → ℚ) (ndim : ℕ) (cube : Field2 ℚ) (mask : Option (Field2 ℤ)) :
    Except Err CoefRun := do
  orogCoeffInit minG maxG
  if ndim ≠ 2 then .error .valueError
  else if maskElsewhere cube mask then .error .valueError
  else
    let c := cube.toYX
    let gx := unnormalised pw (gradX distX c.data)
    let gy := unnormalised pw (gradY distY c.data)
    let l ← coefLimits (arrayValues c.ys.length (c.xs.length - 1) gx) (arrayValues (c.ys.length - 1) c.xs.length gy)
    let m := mask.map Field2.toYX
    let dx := maskX r (m.map Field2.data) fun y x => coefScale minG maxG l (gx y x)
    let dy := maskY r (m.map Field2.data) fun y x => coefScale minG maxG l (gy y x)
    return ⟨Field2.fromYX cube.xFirst ⟨false, c.ys, axisMidpoints false c.xs, dx⟩, Field2.fromYX cube.xFirst ⟨false, axisMidpoints false c.ys, c.xs, dy⟩, c, m⟩

/-- A returned cube as the recursive filter gets it (its name: generate_orographic_smoothing_coefficients.py:307); for cubes in y, x order without NaN. -/
def Field2.coeffCube (name : String) (c : Field2 (Option ℚ)) : CoeffCube :=
  ⟨name, c.ys.length, c.xs.length, fun y x => (c.data y x).getD 0, c.ys, c.xs⟩

/-- generate_orographic_smoothing_coefficients.py:307: the two cubes and their names. -/
def CoefRun.cubes (o : CoefRun) : CoeffCube × CoeffCube :=
  (o.x.coeffCube "smoothing_coefficient_x", o.y.coeffCube "smoothing_coefficient_y")

end Improver
