import Verif.Model.NbLandSea
import Verif.Model.ThresholdRun

/-!
Model of `NeighbourhoodProcessing.process` (improver/nbhood/nbhood.py:411-465) on cubes with named dimensions.  Coordinates are in metres; complex data, NaN,
data types and time coordinates other than the forecast period are not modelled.
-/

namespace Improver

/-- A cube to be smoothed: values and mask on named dimensions, the names of its y and x axes, its forecast periods in hours. -/
structure NbCube extends PointCube MVal where
  yName : String
  xName : String
  fps : List ℚ

/-- The plugin (nbhood.py:227-242), with options already checked. -/
structure NbPlugin where
  circular : Bool
  weighted : Bool
  sumOnly : Bool
  reMask : Bool
  radii : Radii

/-- `_calculate_neighbourhood` (nbhood.py:244-312) at one point of a slice; `none` is NaN. -/
def NbPlugin.value (p : NbPlugin) (h w r : ℕ) (valid : ℕ → ℕ → Bool) (f : ℕ → ℕ → ℚ) (lo hi : ℚ) (y x : ℕ) : Except Err (Option ℚ) :=
  if p.circular then
    if p.sumOnly then .ok (some (circularSum h w r p.weighted valid f y x)) else .ok (circularMean h w r p.weighted valid f lo hi y x)
  else
    if p.sumOnly then (nbhoodSum h w r valid f y x).map some else nbhoodMean h w r valid f lo hi y x

/-- `_calculate_neighbourhood` (nbhood.py:244-317) of a slice at one point, after the masking: outer `none` is masked, inner `none` NaN.  The sums do not fail
for sizes that are odd. -/
def NbPlugin.slice (p : NbPlugin) (h w r : ℕ) (mask : ℕ → ℕ → ℤ) (s : ℕ → ℕ → MVal) (y x : ℕ) : Option (Option ℚ) :=
  let present : ℕ → ℕ → Bool := fun i j => !(s i j).masked
  let f : ℕ → ℕ → ℚ := fun i j => (s i j).val
  let v := (p.value h w r (validFor present mask) f (dataLow h w present f) (dataHigh h w present f) y x).toOption.getD none
  if p.reMask ∧ validFor present mask y x = false then none else some v

/-- The indices that `idx` on the dimensions `kept` gives to the dimension `n`, with `y` and `x` on the axes; 0 on a dimension that is not kept. -/
def placeOf (yName xName : String) (kept : List String) (idx : List ℕ) (y x : ℕ) (n : String) : ℕ :=
  if n = yName then y else if n = xName then x else if n ∈ kept then idx.getD (kept.idxOf n) 0 else 0

/-- nbhood.py:271: zero in the mask is invalid; without a mask nothing is. -/
def maskArray (mask : Option (PointCube ℤ)) (i j : ℕ) : ℤ :=
  match mask with
  | none => 1
  | some m => m.data [i, j]

/-- nbhood.py:294: the array of the mask has the shape of the slices.  (With masked data numpy would stretch dimensions of length one; not modelled.) -/
def checkMaskShape (mask : Option (PointCube ℤ)) (h w : ℕ) : Except Err Unit :=
  match mask with
  | none => .ok ()
  | some m => if (m.dims.map fun n => (m.points n).length) = [h, w] then .ok () else .error .indexError

/-- nbhood.py:457-463: slices over (y, x), merged again.  Merging makes dimensions of the coordinates with several points, in an order that is iris's (`order`,
any rearrangement). -/
def NbPlugin.array (p : NbPlugin) (order : List String → List String) (r : ℕ) (mask : Option (PointCube ℤ)) (c : NbCube) : PointCube (Option (Option ℚ)) :=
  let kept := order (c.dims.filter fun n => decide (n ≠ c.yName ∧ n ≠ c.xName ∧ (c.points n).length ≠ 1))
  ⟨⟨kept ++ [c.yName, c.xName], fun idx =>
    p.slice (c.points c.yName).length (c.points c.xName).length r (maskArray mask)
      (fun i j => c.data (c.dims.map (placeOf c.yName c.xName kept idx i j))) (idx.getD kept.length 0) (idx.getD (kept.length + 1) 0)⟩, c.points⟩

/-- nbhood.py:411-465 `process`. -/
def NbPlugin.process (p : NbPlugin) (order : List String → List String) (mask : Option (PointCube ℤ)) (c : NbCube) :
    Except Err (PointCube (Option (Option ℚ))) := do
  let radius ← findRadius p.radii c.fps
  let r ← nbCells (c.points c.xName) (c.points c.yName) radius
  checkMaskShape mask (c.points c.yName).length (c.points c.xName).length
  .ok (p.array order r mask c)

end Improver
