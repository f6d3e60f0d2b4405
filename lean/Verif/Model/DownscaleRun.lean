import Verif.Model.VicinityRun
import Verif.Model.LevelRun
import Verif.Model.CombineRun

/-! Model of `RoughnessCorrection.process` on whole cubes (improver/wind_calculations/wind_downscaling.py:812-952) and of the command wind-downscaling
(improver/cli/wind_downscaling.py:74-124).  The correction of one column (modelled in Model/WindDown.lean) is a parameter: it gets the place of the column on
the grid, the heights and the speeds.  A new plugin is made for every realization and slices of the ancillaries are copies, so the correction is the same
function for all of them.  Ancillaries are taken to have passed `check_ancils`. -/

namespace Improver

/-- The wind speed: dimensions with their points, names of the horizontal dimension coordinates, names of the scalar coordinates and unit of the heights. -/
structure WindIn (α : Type) extends PointCube α where
  yName : String
  xName : String
  scalars : List String
  heightUnit : StdUnit

/-- wind_downscaling.py:703-706: the vertical coordinate; with two of them it would depend on the run (C118), here it is the first. -/
def theVertical (names : List String) : Option String := names.find? fun n => decide (n = "height" ∨ n = "model_level_number")

/-- The speeds along dimension `z` at an index. -/
def windColumn {α : Type} (c : PointCube α) (z : String) (idx : List ℕ) : List α :=
  (List.range (c.points z).length).map fun k => c.data (idx.set (c.dims.idxOf z) k)

/-- wind_downscaling.py:935 and 941 with `find_heightgrid` (lines 850-851): the corrected speed at an index; the heights are the points of the vertical
coordinate, whatever it is and whatever its unit. -/
def windCorrectedAt {α : Type} (f : ℕ → ℕ → List ℚ → List α → List α) (c : WindIn α) (z : String) (idx : List ℕ) : α :=
  (f (idx.getD (c.dims.idxOf c.yName) 0) (idx.getD (c.dims.idxOf c.xName) 0) (c.points z) (windColumn c.toPointCube z idx)).getD
    (idx.getD (c.dims.idxOf z) 0) (c.data idx)

/-- wind_downscaling.py:812-834 and 915-919: every dimension has to be one of y, x, the vertical and (optionally) time. -/
def downscaleAxes {α : Type} (c : WindIn α) (z : String) : Bool :=
  decide (c.yName ∈ c.dims) && decide (c.xName ∈ c.dims) && decide (z ∈ c.dims) &&
    (if "time" ∈ c.dims then decide (c.dims.length = 4) else decide (c.dims.length = 3))

/-- wind_downscaling.py:936-950: the corrected cube; merging the times sorts them, the order of the dimensions is put back. -/
def downscaledCube {α : Type} (f : ℕ → ℕ → List ℚ → List α → List α) (c : WindIn α) (z : String) : PointCube α :=
  let others := if "time" ∈ c.dims then ["time"] else []
  ⟨⟨c.dims, fun idx => windCorrectedAt f c z (sortedPlace c.dims others c.points idx)⟩, fun n => if n ∈ others then npSort (c.points n) else c.points n⟩

/-- wind_downscaling.py:894-952 `process`.  `bad` tells speeds that are not a number or negative; `ancY`, `ancX` name the horizontal coordinates of the
ancillaries.  One time as a dimension fails at line 950. -/
def downscaleOne {α : Type} (f : ℕ → ℕ → List ℚ → List α → List α) (bad : α → Bool) (ancY ancX : String) (c : WindIn α) : Except Err (PointCube α) :=
  match theVertical (c.dims ++ c.scalars) with
  | none => .error .coordinateNotFound
  | some z =>
    if downscaleAxes c z = false then .error .valueError
    else if c.yName ≠ ancY ∨ c.xName ≠ ancX ∨ c.dims.idxOf c.xName ≠ c.dims.idxOf c.yName + 1 then .error .valueError
    else if "time" ∉ c.dims ∧ "time" ∉ c.scalars then .error .coordinateNotFound
    else if (arrayIndices c.toPointCube.shape).any (fun idx => bad (c.data idx)) then .error .valueError
    else if "time" ∈ c.dims ∧ (c.points "time").length = 1 then .error .valueError
    else .ok (downscaledCube f c z)

/-- One realization of the wind. -/
def WindIn.member {α : Type} (c : WindIn α) (i : ℕ) : WindIn α :=
  { c with toPointCube := c.toPointCube.sliceAt "realization" i, scalars := "realization" :: c.scalars }

/-- cli/wind_downscaling.py:108-111: the members merged into a cube led by realization, in ascending order; one member gets a new dimension. -/
def mergeWindMembers {α : Type} (points : List ℚ) (first : PointCube α) (outs : List (PointCube α)) : PointCube α :=
  ⟨⟨"realization" :: first.dims, fun idx => (outs.getD ((argsort points).getD (idx.getD 0 0) 0) first).data (idx.drop 1)⟩,
    fun n => if n = "realization" then npSort points else first.points n⟩

/-- cli/wind_downscaling.py:88-111: all realizations. -/
def downscaleMembers {α : Type} (f : ℕ → ℕ → List ℚ → List α → List α) (bad : α → Bool) (ancY ancX : String) (c : WindIn α) : Except Err (PointCube α) :=
  if "realization" ∈ c.dims then
    match (List.range (c.points "realization").length).mapM fun i => downscaleOne f bad ancY ancX (c.member i) with
    | .error e => .error e
    | .ok [] => .error .valueError
    | .ok (o :: t) => .ok (mergeWindMembers (c.points "realization") o (o :: t))
  else if "realization" ∈ c.scalars then
    (downscaleOne f bad ancY ancX c).map fun o => mergeWindMembers (c.points "realization") o [o]
  else downscaleOne f bad ancY ancX c

/-- cli/wind_downscaling.py:112-123: the level asked for, in its own unit; the vertical dimension is dropped.  A cube without heights raises another error. -/
def pickHeight {α : Type} (unit want : StdUnit) (level : ℚ) (r : PointCube α) : Except Err (PointCube α) :=
  if "height" ∉ r.dims then .error .coordinateNotFound
  else match ((r.points "height").map (convertUnit unit want)).idxOf? level with
    | none => .error .valueError
    | some i => .ok (r.sliceAt "height" i)

/-- cli/wind_downscaling.py:74-124 `process`; `level` is the level asked for with its unit. -/
def downscaleCommand {α : Type} (f : ℕ → ℕ → List ℚ → List α → List α) (bad : α → Bool) (ancY ancX : String) (level : Option (ℚ × StdUnit))
    (c : WindIn α) : Except Err (PointCube α) := do
  let r ← downscaleMembers f bad ancY ancX c
  match level with
  | none => .ok r
  | some (v, u) => pickHeight c.heightUnit u v r

end Improver
