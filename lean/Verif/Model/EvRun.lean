import Verif.Model.ExpectedValue
import Verif.Model.ECC
import Verif.Model.WholeBlend
import Verif.Model.LevelRun

/-!
Model of `ExpectedValue.process` (improver/expected_value.py:105-126) on cubes with named dimensions.  Masks, data types and cell methods are not modelled.
-/

namespace Improver

/-- What the cube holds: probabilities, by threshold coordinate (exceedance or not), percentiles, by percentile coordinate, or neither. -/
inductive EvKind where
  | probability (threshold : String) (above : Bool)
  | percentile (name : String)
  | plain
  deriving DecidableEq

/-- The cube given: its dimensions, points and data, what it holds, and the names of its scalar coordinates. -/
structure EvCube extends PointCube ℚ where
  kind : EvKind
  scalars : List String

/-- The values along dimension `d` at the indices `idx` of the other dimensions. -/
def EvCube.along (c : EvCube) (d : String) (idx : List ℕ) : List ℚ :=
  (List.range (c.points d).length).map fun k => c.data (idx.insertIdx (c.dims.idxOf d) k)

/-- `collapse_realizations` (utilities/cube_manipulation.py:59-97) with the mean over the coordinate `d`; a scalar coordinate leaves the data as they are. -/
def EvCube.meanOver (c : EvCube) (d : String) : Except Err (PointCube ℚ) :=
  if d ∈ c.dims then .ok ⟨⟨c.dims.erase d, fun idx => (c.along d idx).sum / ((c.points d).length : ℕ)⟩, c.points⟩
  else if d ∈ c.scalars then .ok c.toPointCube
  else .error .coordinateNotFound

/-- `integrate_over_thresholds` (expected_value.py:27-103) on the whole array; a threshold that is not a dimension is not found among the dimension coordinates
(a ValueError). -/
def EvCube.integrate (c : EvCube) (eps : ℚ) (t : String) (above : Bool) : Except Err (PointCube ℚ) := do
  if t ∉ c.dims then .error .valueError
  else
    let _ ← (arrayIndices ((c.dims.erase t).map fun n => (c.points n).length)).mapM fun idx => integrateOverThresholds eps above (c.points t) (c.along t idx)
    return ⟨⟨c.dims.erase t, fun idx => (integrateOverThresholds eps above (c.points t) (c.along t idx)).toOption.getD 0⟩, c.points⟩

/-- expected_value.py:105-126 `process`. -/
def expectedValue (eps : ℚ) (c : EvCube) : Except Err (PointCube ℚ) :=
  match c.kind with
  | .probability t above => c.integrate eps t above
  | .percentile p => do
    let _ ← (rebadgePercentiles (α := Unit) ⟨c.points p, [], decide ("realization" ∈ c.dims ∨ "realization" ∈ c.scalars)⟩ none).1
    c.meanOver p
  | .plain => c.meanOver "realization"

end Improver
