import Verif.Model.Pad
import Verif.Model.PercNbRun

/-!
Model of `remove_cube_halo` (improver/utilities/pad_spatial.py:222-300) and of `MetaNeighbourhood` (improver/nbhood/nbhood.py:727-861) on cubes with named
dimensions (see `NbRun`).  Angles as complex numbers are not modelled; nor are coordinates other than the dimension coordinates, nor halos that leave no points.
-/

namespace Improver

/-- pad_spatial.py:245-249: the slices over (y, x), each trimmed (`remove_halo_from_cube`, 290-292), merged again (`order` as in `NbPlugin.array`). -/
def trimmedSlices {α : Type} (order : List String → List String) (yName xName : String) (wy wx : ℕ) (c : PointCube α) : DimCube α :=
  let kept := order (c.dims.filter fun n => decide (n ≠ yName ∧ n ≠ xName ∧ (c.points n).length ≠ 1))
  ⟨kept ++ [yName, xName], fun idx =>
    c.data (c.dims.map (placeOf yName xName kept idx (idx.getD kept.length 0 + wy) (idx.getD (kept.length + 1) 0 + wx)))⟩

/-- pad_spatial.py:252-256: dimensions that are missing, which have one point, become leading dimensions. -/
def newAxes {α : Type} (names : List String) (d : DimCube α) : DimCube α :=
  (names.filter fun n => decide (n ∉ d.dims)).foldl (fun d s => ⟨s :: d.dims, fun idx => d.data idx.tail⟩) d

/-- The coordinates of the trimmed cube. -/
def trimmedPoints (points : String → List ℚ) (yName xName : String) (ys xs : List ℚ) (n : String) : List ℚ :=
  if n = yName then ys else if n = xName then xs else points n

/-- pad_spatial.py:222-261 `remove_cube_halo`. -/
def removeCubeHalo {α : Type} (order : List String → List String) (yName xName : String) (radius : ℚ) (c : PointCube α) : Except Err (PointCube α) := do
  let wx ← distanceToCells (c.points xName) radius
  let wy ← distanceToCells (c.points yName) radius
  let xc ← padCoordRemove (c.points xName) wx
  let yc ← padCoordRemove (c.points yName) wy
  let d ← enforceOrdering (newAxes c.dims (trimmedSlices order yName xName wy wx c)) none c.dims true
  return ⟨d, trimmedPoints c.points yName xName yc.points xc.points⟩

/-- The options of `MetaNeighbourhood` (nbhood.py:733-802). -/
structure MetaNb where
  output : String
  shape : String
  weighted : Bool
  areaSum : Bool
  radii : Radii
  percentiles : List ℚ
  halo : Option ℚ

/-- The neighbourhood plugin made in nbhood.py:839-846. -/
def MetaNb.plugin (m : MetaNb) : NbPlugin := ⟨decide (m.shape = "circular"), m.weighted, m.areaSum, true, m.radii⟩

/-- nbhood.py:838-852: the fields before the halo is removed.  The mask is not used for percentiles; for any other output than the two there is no result
(an UnboundLocalError, here `runtimeError`). -/
def MetaNb.fields (m : MetaNb) (order : List String → List String) (mask : Option (PointCube ℤ)) (c : NbCube) : Except Err (PointCube (Option (Option ℚ))) :=
  if m.output = "probabilities" then do
    nbMethodCheck m.shape m.weighted
    m.plugin.process order mask c
  else if m.output = "percentiles" then do
    let out ← (⟨m.radii, m.percentiles⟩ : PercNbPlugin).process order c
    return ⟨⟨out.dims, fun idx => some (some (out.data idx))⟩, out.points⟩
  else .error .runtimeError

/-- nbhood.py:857-861. -/
def dropHalo (halo : Option ℚ) (order : List String → List String) (yName xName : String) (r : PointCube (Option (Option ℚ))) :
    Except Err (PointCube (Option (Option ℚ))) :=
  match halo with
  | none => .ok r
  | some radius => removeCubeHalo order yName xName radius r

/-- The constructor (nbhood.py:795-817) and `process` (819-861). -/
def MetaNb.process (m : MetaNb) (order : List String → List String) (mask : Option (PointCube ℤ)) (c : NbCube) : Except Err (PointCube (Option (Option ℚ))) := do
  metaNbCheck m.output m.shape false m.weighted
  let r ← m.fields order mask c
  dropHalo m.halo order c.yName c.xName r

end Improver
