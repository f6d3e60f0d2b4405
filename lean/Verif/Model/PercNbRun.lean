import Verif.Model.NbRun
import Verif.Model.NbhoodMore
import Verif.Model.Checker
import Verif.Model.LevelRun

/-!
Model of `GeneratePercentilesFromANeighbourhood.process` (improver/nbhood/nbhood.py:468-724) on cubes with named dimensions (see `NbRun`).  Coordinates other
than y and x are taken to be ascending (merging would sort them).
-/

namespace Improver

/-- The plugin (nbhood.py:472-499). -/
structure PercNbPlugin where
  radii : Radii
  percentiles : List ℚ

/-- nbhood.py:652: some value of the cube is masked. -/
def NbCube.anyMasked (c : NbCube) : Bool := (arrayIndices (c.dims.map fun n => (c.points n).length)).any fun idx => (c.data idx).masked

/-- nbhood.py:697-724 `make_percentile_cube`: the points of the percentile coordinate.  Merging sorts them; it refuses an empty list and repeated points (iris's
own errors, reported as `valueError`). -/
def percentilePoints (ps : List ℚ) : Except Err (List ℚ) := if ps = [] ∨ ¬ ps.Nodup then .error .valueError else .ok (npSort ps)

/-- `np.percentile` (nbhood.py:628-634) refuses percentiles outside 0 to 100. -/
def checkPercentiles (ps : List ℚ) : Except Err Unit := if ps.all fun p => decide (0 ≤ p ∧ p ≤ 100) then .ok () else .error .valueError

/-- The dimensions other than y and x that merging keeps: those of more than one point. -/
def NbCube.mergedDims (c : NbCube) : List String := c.dims.filter fun n => decide (n ≠ c.yName ∧ n ≠ c.xName ∧ (c.points n).length ≠ 1)

/-- nbhood.py:636: the percentile dimension, which `squeeze` drops if it has one point. -/
def percentileDim (ps : List ℚ) : List String := if ps.length = 1 then [] else ["percentile"]

/-- nbhood.py:501-636 `pad_and_unpad_cube` at one point of a slice: `np.percentile` writes the percentiles in the order in which they were given. -/
def PercNbPlugin.value (p : PercNbPlugin) (h w r : ℕ) (f : ℕ → ℕ → ℚ) (k y x : ℕ) : ℚ := npPercentile (nbWindow h w r f y x) (p.percentiles.getD k 0)

/-- nbhood.py:665-673: slices over (y, x), each with a leading percentile dimension, merged again (`order` as in `NbPlugin.array`); coordinates of one point
are scalar coordinates. -/
def PercNbPlugin.array (p : PercNbPlugin) (order : List String → List String) (r : ℕ) (c : NbCube) : ScalarCube ℚ :=
  let kept := order c.mergedDims
  let lead := kept ++ percentileDim p.percentiles
  ⟨⟨lead ++ [c.yName, c.xName], fun idx =>
    p.value (c.points c.yName).length (c.points c.xName).length r (fun i j => (c.data (c.dims.map (placeOf c.yName c.xName kept idx i j))).val)
      (if p.percentiles.length = 1 then 0 else idx.getD kept.length 0) (idx.getD lead.length 0) (idx.getD (lead.length + 1) 0)⟩,
   (c.dims.filter fun n => decide (n ≠ c.yName ∧ n ≠ c.xName ∧ (c.points n).length = 1)) ++ if p.percentiles.length = 1 then ["percentile"] else []⟩

/-- nbhood.py:683-692: realization, percentile and the other dimensions. -/
def percentileOrder (dims : List String) : List String :=
  (dims.filter fun n => decide (n = "realization")) ++ (dims.filter fun n => decide (n = "percentile")) ++
    dims.filter fun n => decide (n ≠ "realization" ∧ n ≠ "percentile")

/-- The points of the coordinates of the result. -/
def percPoints (points : String → List ℚ) (pts : List ℚ) (n : String) : List ℚ := if n = "percentile" then pts else points n

/-- nbhood.py:674-693: the dimensions of the cube in their order again, and then the order wanted. -/
def percentileArrange (names : List String) (s : ScalarCube ℚ) : Except Err (DimCube ℚ) := do
  let d ← checkCubeCoordinates names s (dimensionMismatch names s.cube.dims false)
  d.transpose ((percentileOrder d.dims).map fun n => d.dims.idxOf n)

/-- nbhood.py:638-695 `process`. -/
def PercNbPlugin.process (p : PercNbPlugin) (order : List String → List String) (c : NbCube) : Except Err (PointCube ℚ) := do
  let radius ← findRadius p.radii c.fps
  if c.anyMasked then .error .notImplemented
  else
    let r ← nbCells (c.points c.xName) (c.points c.yName) radius
    if c.yName ≠ "projection_y_coordinate" ∨ c.xName ≠ "projection_x_coordinate" then .error .coordinateNotFound
    else
      let pts ← percentilePoints p.percentiles
      checkPercentiles p.percentiles
      let d ← percentileArrange c.dims (p.array order r c)
      return ⟨d, percPoints c.points pts⟩

end Improver
