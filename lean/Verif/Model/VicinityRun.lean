import Verif.Model.ThresholdRun
import Verif.Model.Sorting

/-!
Model of `OccurrenceWithinVicinity` (improver/utilities/spatial.py:829-973) on cubes with named dimensions.  Not modelled: data types other than float32,
dimensions without coordinates, further coordinates, spatial coordinates that are not dimensions.
-/

namespace Improver

/-- A cube: values and mask on named dimensions, its name, whether it holds probabilities, the names of its y and x axes, which coordinates have a coordinate
system, and the names of its scalar coordinates. -/
structure VicCube extends PointCube MVal where
  name : List Char
  isProb : Bool
  yName : String
  xName : String
  hasSystem : String → Bool
  scalars : List String

/-- A land mask: values on two dimensions, and its name. -/
structure VicLand extends PointCube ℚ where
  name : String

/-- spatial.py:845-900: the constructor.  The radii, whether they are numbers of grid cells, and the land mask. -/
structure VicPlugin where
  radii : List ℚ
  inCells : Bool
  land : Option VicLand

/-- spatial.py:871-900. -/
def VicPlugin.make (radii cells : List ℚ) (land : Option VicLand) : Except Err VicPlugin := do
  let (rs, b) ← vicinityInit radii cells
  match land with
  | none => .ok ⟨rs, b, none⟩
  | some l => if l.name ≠ "land_binary_mask" then .error .valueError else .ok ⟨rs, b, some l⟩

/-- spatial.py:926-931, and numpy: the mask as an array by rows and columns must have the shape of the slices. -/
def checkLand (p : VicPlugin) (c : VicCube) : Except Err (Option (ℕ → ℕ → Bool)) :=
  match p.land with
  | none => .ok none
  | some l =>
    if l.points c.yName ≠ c.points c.yName ∨ l.points c.xName ≠ c.points c.xName then .error .valueError
    else if l.dims.map (fun n => (l.points n).length) ≠ [(c.points c.yName).length, (c.points c.xName).length] then .error .indexError
    else .ok (some fun y x => decide (1 / 2 ≤ l.data [y, x]))

/-- spatial.py:933-938. -/
def vicCells (p : VicPlugin) (c : VicCube) : Except Err (List ℕ) :=
  if p.inCells then .ok (p.radii.map fun r => ⌊r⌋.toNat) else p.radii.mapM (distanceToCells (c.points c.xName))

/-- The index `idx` with `y` and `x` in place of those of the spatial dimensions. -/
def atYX (c : VicCube) (idx : List ℕ) (y x : ℕ) : List ℕ := (idx.set (c.dims.idxOf c.yName) y).set (c.dims.idxOf c.xName) x

/-- spatial.py:949-955 with `maximum_within_vicinity` (lines 738-775): the value at an index of the cube. -/
def vicValue (c : VicCube) (land : Option (ℕ → ℕ → Bool)) (cells : ℕ) (idx : List ℕ) : MVal :=
  ⟨maximumWithinVicinity (c.points c.yName).length (c.points c.xName).length cells fillFloat32 (fun y x => (c.data (atYX c idx y x)).masked) land
    (fun y x => (c.data (atYX c idx y x)).val) (idx.getD (c.dims.idxOf c.yName) 0) (idx.getD (c.dims.idxOf c.xName) 0), (c.data idx).masked⟩

/-- The places of the merged cube in the cube: merging the slices sorts every other dimension. -/
def sortedPlace (dims others : List String) (points : String → List ℚ) (idx : List ℕ) : List ℕ :=
  dims.map fun n => if n ∈ others then (argsort (points n)).getD (idx.getD (dims.idxOf n) 0) 0 else idx.getD (dims.idxOf n) 0

/-- spatial.py:943-969: the cubes of every radius, merged over the other dimensions (956-959, which keeps the order of dimensions) and over radii (967), one
radius giving a scalar coordinate. -/
def vicMerged (p : VicPlugin) (c : VicCube) (land : Option (ℕ → ℕ → Bool)) (cells : List ℕ) : PointCube MVal :=
  let others := c.dims.filter fun n => decide (n ≠ c.yName ∧ n ≠ c.xName)
  let points : String → List ℚ := fun n => if n = "radius_of_vicinity" then npSort p.radii else if n ∈ others then npSort (c.points n) else c.points n
  if p.radii.length = 1 then ⟨⟨c.dims, fun idx => vicValue c land (cells.getD 0 0) (sortedPlace c.dims others c.points idx)⟩, points⟩
  else ⟨⟨"radius_of_vicinity" :: c.dims, fun idx =>
    vicValue c land (cells.getD ((argsort p.radii).getD (idx.getD 0 0) 0) 0) (sortedPlace c.dims others c.points (idx.drop 1))⟩, points⟩

/-- spatial.py:778-790 `rename_vicinity_cube`. -/
def vicName (c : VicCube) : Except Err (List Char) := if c.isProb then vicinityName c.name else .ok (c.name ++ "_in_vicinity".toList)

/-- The result. -/
structure VicOut extends PointCube MVal where
  name : List Char

/-- spatial.py:902-973 `process`. -/
def VicPlugin.process (p : VicPlugin) (c : VicCube) : Except Err VicOut := do
  let land ← checkLand p c
  let cells ← vicCells p c
  if "radius_of_vicinity" ∈ c.dims ∨ "radius_of_vicinity" ∈ c.scalars then .error .valueError
  else if ¬ p.radii.Nodup then .error .valueError
  else do
    let n ← vicName c
    let out ← (vicMerged p c land cells).reorder (c.dims.filter fun n => !c.hasSystem n)
    .ok ⟨out, n⟩

end Improver
