import Verif.Model.CubeManip

/-! Model of `improver/cube_combiner.py` at one grid point: a value is `none` where the array is masked. -/

namespace Improver

/-- The operations of `COMBINE_OPERATORS` (cube_combiner.py:160-171). -/
inductive CombineOp where
  | add | subtract | multiply | max | min | mean | maskedAdd
  deriving DecidableEq

/-- Names of the operations (cube_combiner.py:160-171, 198-202). -/
def CombineOp.decode (s : String) : Except Err CombineOp :=
  if s = "+" ∨ s = "add" then .ok .add
  else if s = "-" ∨ s = "subtract" then .ok .subtract
  else if s = "*" ∨ s = "multiply" then .ok .multiply
  else if s = "max" then .ok .max
  else if s = "min" then .ok .min
  else if s = "mean" then .ok .mean
  else if s = "masked_add" then .ok .maskedAdd
  else .error .valueError

/-- A numpy ufunc of two masked array elements: masked if either is. -/
def maskedUfunc (f : ℚ → ℚ → ℚ) : Option ℚ → Option ℚ → Option ℚ
  | some a, some b => some (f a b)
  | _, _ => none

/-- `masked_add` (cube_combiner.py:131-154): masked elements count as 0, the result is masked where both are masked. -/
def addMasked : Option ℚ → Option ℚ → Option ℚ
  | none, none => none
  | a, b => some (a.getD 0 + b.getD 0)

/-- The operator of a plugin (cube_combiner.py:160-171). -/
def CombineOp.app : CombineOp → Option ℚ → Option ℚ → Option ℚ
  | .add => maskedUfunc (· + ·)
  | .subtract => maskedUfunc (· - ·)
  | .multiply => maskedUfunc (· * ·)
  | .max => maskedUfunc Max.max
  | .min => maskedUfunc Min.min
  | .mean => maskedUfunc (· + ·)
  | .maskedAdd => addMasked

/-- `_combine_cube_data` (cube_combiner.py:299-337) at one grid point. -/
def combineData (op : CombineOp) (first : Option ℚ) (rest : List (Option ℚ)) : Option ℚ :=
  let r := rest.foldl op.app first
  if op = .mean then r.map (fun v => v / ((rest.length + 1 : ℕ) : ℚ)) else r

/-- `process` (cube_combiner.py:402-449) at one grid point: fewer than two cubes are refused. -/
def combinePoint (op : CombineOp) (vals : List (Option ℚ)) : Except Err (Option ℚ) :=
  match vals with
  | a :: b :: l => .ok (combineData op a (b :: l))
  | _ => .error .valueError

/-- The plugin called with the name of an operation (cube_combiner.py:185-202, 402-449). -/
def combineNamed (name : String) (vals : List (Option ℚ)) : Except Err (Option ℚ) :=
  match CombineOp.decode name with
  | .ok op => combinePoint op vals
  | .error e => .error e

/-- `_check_dimensions_match` with `comparators=[eq]` (cube_combiner.py:207-237): `zip` of the dimension coordinates of each further
cube with those of the first. -/
def checkDimensions {C : Type} [DecidableEq C] (cubes : List (List C)) : Except Err Unit :=
  match cubes with
  | [] => .error .indexError
  | ref :: cs => if cs.all (fun c => (c.zip ref).all (fun p => decide (p.1 = p.2))) then .ok () else .error .valueError

/-- Addition of a (y, x) array and a one-dimensional array in numpy: the one-dimensional array is taken along the *last* axis. -/
def broadcastAdd (a : ℕ → ℕ → ℚ) (b : ℕ → ℚ) (y x : ℕ) : ℚ := a y x + b x

/-- `Combine.process` as far as the name of the result goes (cube_combiner.py:108-109, 128): the name, and `self.new_name`
afterwards. -/
def combineName (newName : Option String) (firstCube : String) : String × Option String :=
  let n := newName.getD firstCube
  (n, some n)

/-- The check on `minimum_realizations` (cube_combiner.py:111-126): the filtered slices are passed on. -/
def combineRealizations {D : Type} (minimum : Option ℤ) (slices : List (ℤ × ℤ × D)) : Except Err (List (ℤ × ℤ × D)) :=
  match minimum with
  | none => .ok slices
  | some k =>
    if k < 1 then .error .valueError
    else do
      let out ← filterRealizations slices
      if (((out.map (fun s => s.1)).dedup.length : ℕ) : ℤ) < k then .error .valueError else .ok out

/-- `MaxInTimeWindow._check_input_cubes` (cube_combiner.py:486-525): bounds of the time coordinates of the inputs. -/
def checkTimeWindow (bounds : List (Option (ℚ × ℚ))) : Except Err Unit :=
  if ¬ bounds.all Option.isSome then .error .valueError
  else if (bounds.filterMap (fun b => b.map (fun p => p.2 - p.1))).dedup.length > 1 then .error .valueError
  else .ok ()

end Improver
