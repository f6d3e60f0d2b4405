import Verif.Model.Threshold
import Verif.Model.Spatial
import Verif.Model.ProbName
import Verif.Model.WholeBlend
import Verif.Model.Standards

/-!
Model of `Threshold.process` (improver/threshold.py:418-677) on cubes with named dimensions: masks, units, realizations, several thresholds and
several radii of vicinity.  Not modelled: NaN, data types, the rebadging of percentiles (line 561-563, see Model/CubeManip), cell methods, and
that the caller's cube is changed (lines 559, 386; see C36).
-/

namespace Improver

/-- A cube to be thresholded: values and mask on named dimensions, the names of its scalar coordinates, its name, its unit and the name of its x axis. -/
structure ThreshCube extends PointCube MVal where
  name : String
  unit : StdUnit
  scalars : List String
  xName : String

/-- The plugin: thresholds with their bounds and the operator, the unit of the thresholds, whether realizations are collapsed, the radii of vicinity
(an empty list is none, threshold.py:206-211) and the value for masked points. -/
structure ThreshPlugin extends ThresholdPlugin where
  unit : Option StdUnit
  collapse : Bool
  radii : Option (List ℚ)
  fill : Option ℚ

/-- The netCDF default fill value of float32 (netCDF4.default_fillvals["f4"]). -/
def fillFloat32 : ℚ := 9969209968386869000000000000000000000

/-- The unit of the thresholds. -/
def ThreshPlugin.unitFor (p : ThreshPlugin) (c : ThreshCube) : StdUnit := p.unit.getD c.unit

/-- threshold.py:558-559, 385-386 at one point: filled if masked, and in the unit of the thresholds. -/
def threshValue (p : ThreshPlugin) (c : ThreshCube) (v : MVal) : MVal :=
  ⟨convertUnit c.unit (p.unitFor c) (fillMasked p.fill v).val, (fillMasked p.fill v).masked⟩

/-- threshold.py:558-559, 385-386: masked points filled, and values in the unit of the thresholds. -/
def prepareThresh (p : ThreshPlugin) (c : ThreshCube) : Except Err (PointCube MVal) :=
  if (p.unitFor c).dimension ≠ c.unit.dimension then .error .valueError
  else .ok ⟨⟨c.dims, fun idx => threshValue p c (c.data idx)⟩, c.points⟩

/-- threshold.py:578-585: the slices over realizations, or the whole cube. -/
def threshSlices (p : ThreshPlugin) (c : ThreshCube) (k : PointCube MVal) : Except Err (List (PointCube MVal)) :=
  if p.collapse = false then .ok [k]
  else if "realization" ∈ c.dims then .ok ((List.range (c.points "realization").length).map fun i => k.sliceAt "realization" i)
  else if "realization" ∈ c.scalars then .ok [k]
  else .error .coordinateNotFound

/-- `_calculate_truth_value` (threshold.py:362-416) where it does not fail; whether it fails does not depend on the data. -/
def truthOf (op : CmpOp) (thr : ℚ) (b : ℚ × ℚ) (x : ℚ) : ℚ := (truthValue op thr b x).toOption.getD 0

/-- threshold.py:616: for every threshold the values must exist. -/
def checkBounds (p : ThreshPlugin) : Except Err Unit := do
  let _ ← (p.thresholds.zip p.bounds).mapM fun tb => truthValue p.op tb.1 tb.2 0
  .ok ()

/-- The place `(y, x)` of the last two dimensions in place of those of `idx`. -/
def lastTwo (idx : List ℕ) (y x : ℕ) : List ℕ := idx.take (idx.length - 2) ++ [y, x]

/-- threshold.py:451-463 with `maximum_within_vicinity`: the greatest truth value about a place, over the last two dimensions.  Comparison keeps the
mask of the data, `np.where` (fuzzy bounds) does not. -/
def truthNear (op : CmpOp) (thr : ℚ) (b : ℚ × ℚ) (cells : ℕ) (land : Option (ℕ → ℕ → Bool)) (s : PointCube MVal) (idx : List ℕ) : ℚ :=
  let n := idx.length
  let size := s.dims.map fun d => (s.points d).length
  maximumWithinVicinity (size.getD (n - 2) 0) (size.getD (n - 1) 0) cells fillFloat32
    (fun y x => decide (b.1 = b.2) && (s.data (lastTwo idx y x)).masked) land (fun y x => truthOf op thr b (s.data (lastTwo idx y x)).val)
    (idx.getD (n - 2) 0) (idx.getD (n - 1) 0)

/-- What one slice adds at a place: nothing where it is masked. -/
def sliceTruth (op : CmpOp) (tb : ℚ × (ℚ × ℚ)) (cells : Option ℕ) (land : Option (ℕ → ℕ → Bool)) (idx : List ℕ) (s : PointCube MVal) : Option ℚ :=
  if (s.data idx).masked then none
  else
    match cells with
    | none => some (truthOf op tb.1 tb.2 (s.data idx).val)
    | some r => some (truthNear op tb.1 tb.2 r land s idx)

/-- threshold.py:594-645: the sum of what the slices add over their number, masked where there are none. -/
def meanTruth (op : CmpOp) (tb : ℚ × (ℚ × ℚ)) (cells : Option ℕ) (land : Option (ℕ → ℕ → Bool)) (slices : List (PointCube MVal)) (idx : List ℕ) : Option ℚ :=
  let l := slices.filterMap (sliceTruth op tb cells land idx)
  if l.length = 0 then none else some (l.sum / l.length)

/-- threshold.py:570-574: the radii in grid cells. -/
def threshCells (p : ThreshPlugin) (c : ThreshCube) : Except Err (Option (List ℕ)) :=
  match p.radii with
  | none => .ok none
  | some rs => (rs.mapM (distanceToCells (c.points c.xName))).map some

/-- iris: merging cubes along a scalar coordinate sorts them, and refuses two alike (DuplicateDataError, here `valueError`). -/
def mergedLabels (l : List ℚ) : Except Err (List ℚ) := if l.Nodup then .ok (npSort l) else .error .valueError

/-- threshold.py:498-510: the points of the radius of vicinity. -/
def radiusLabels (p : ThreshPlugin) : Except Err (List ℚ) :=
  match p.radii with
  | none => .ok []
  | some rs => mergedLabels rs

/-- threshold.py:465-514, 594-645, 648-650: the array before its dimensions are put in order.  The labels of thresholds and radii come from merging, the
data are filled in the order in which thresholds and radii were given. -/
def threshArray (p : ThreshPlugin) (land : Option (ℕ → ℕ → Bool)) (c : ThreshCube) (cells : Option (List ℕ)) (labels radii : List ℚ)
    (slices : List (PointCube MVal)) (dims : List String) : PointCube (Option ℚ) :=
  let points : String → List ℚ := fun n =>
    if n = c.name then labels.map (convertUnit (p.unitFor c) c.unit) else if n = "radius_of_vicinity" then radii else c.points n
  match cells with
  | none => ⟨⟨c.name :: dims, fun idx => meanTruth p.op ((p.thresholds.zip p.bounds).getD (idx.getD 0 0) (0, 0, 0)) none land slices (idx.drop 1)⟩, points⟩
  | some rs => ⟨⟨"radius_of_vicinity" :: c.name :: dims, fun idx =>
      meanTruth p.op ((p.thresholds.zip p.bounds).getD (idx.getD 1 0) (0, 0, 0)) (some (rs.getD (idx.getD 0 0) 0)) land slices (idx.drop 2)⟩, points⟩

/-- `iris.util.squeeze`: dimensions of length one become scalar. -/
def PointCube.squeezed {α : Type} (c : PointCube α) : PointCube α :=
  let kept := c.dims.filter fun n => decide ((c.points n).length ≠ 1)
  ⟨⟨kept, fun idx => c.data (c.dims.map fun n => if n ∈ kept then idx.getD (kept.idxOf n) 0 else 0)⟩, c.points⟩

/-- threshold.py:354-359 and `rename_vicinity_cube` (spatial.py:778-790): the name of the result. -/
def threshName (p : ThreshPlugin) (c : ThreshCube) : Except Err (List Char) :=
  let plain := probPrefix ++ c.name.toList ++ (if p.op.lessThan then "_below_threshold".toList else "_above_threshold".toList)
  if p.radii.isSome then vicinityName plain else .ok plain

/-- The result: the array and its name. -/
structure ThreshOut extends PointCube (Option ℚ) where
  name : List Char

/-- threshold.py:516-677 `process`.  With radii the slices must have two dimensions at least (others are not modelled). -/
def ThreshPlugin.process (p : ThreshPlugin) (land : Option (ℕ → ℕ → Bool)) (c : ThreshCube) : Except Err ThreshOut :=
  if p.radii.isNone ∧ land.isSome then .error .valueError
  else do
    let k ← prepareThresh p c
    let cells ← threshCells p c
    let slices ← threshSlices p c k
    let labels ← mergedLabels p.thresholds
    let radii ← radiusLabels p
    checkBounds p
    let dims := if p.collapse then c.dims.erase "realization" else c.dims
    if cells.isSome ∧ dims.length < 2 then .error .valueError
    else do
      let a ← (threshArray p land c cells labels radii slices dims).reorder [c.name]
      let out ← a.squeezed.reorder ["realization", "percentile", c.name, "radius_of_vicinity"]
      let n ← threshName p c
      .ok ⟨out, n⟩

end Improver
