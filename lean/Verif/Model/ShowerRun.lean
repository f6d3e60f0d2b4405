import Verif.Model.ThresholdRun

/-!
Model of `ShowerConditionProbability.process` (improver/precipitation_type/shower_condition_probability.py:60-173) on cubes with named dimensions, through
`Threshold` (Model/ThresholdRun).  The metadata of the result are in Model/Convection (`makeShowerCube`); attributes are not modelled.
-/

namespace Improver

/-- shower_condition_probability.py:53-58: the name holds `key`. -/
def nameHolds (key : String) (c : ThreshCube) : Bool := decide (key.toList <:+: c.name.toList)

theorem nameHolds_iff (key : String) (c : ThreshCube) : nameHolds key c = true ↔ key.toList <:+: c.name.toList := decide_eq_true_iff

/-- shower_condition_probability.py:53-58, 108-117: the one cube whose name holds `key`. -/
def showerInput (key : String) (cubes : List ThreshCube) : Except Err ThreshCube :=
  match cubes.filter (nameHolds key) with
  | [c] => .ok c
  | _ => .error .valueError

/-- `Threshold(threshold_values=t, comparison_operator=op)` (lines 148-153): no units, nothing collapsed. -/
def showerThreshold (op : CmpOp) (t : ℚ) : ThreshPlugin := ⟨⟨[t], [(t, t)], op⟩, none, false, none, none⟩

/-- Lines 155-162 at one place: masked where the cloud is, missing convection filled with 0. -/
def showerAt (cloud convection : Option ℚ) : Option ℚ := cloud.map fun x => max x (convection.getD 0)

/-- `collapse_realizations` with the mean at one place: the mean of what is not masked. -/
def meanNotMasked (l : List (Option ℚ)) : Option ℚ :=
  let k := l.filterMap id
  if k.length = 0 then none else some (k.sum / k.length)

/-- Lines 168-171: the mean over realizations if they are a dimension (a scalar coordinate has no effect on the values). -/
def collapseMean (c : PointCube (Option ℚ)) : PointCube (Option ℚ) :=
  if "realization" ∈ c.dims then
    ⟨⟨c.dims.erase "realization", fun idx =>
      meanNotMasked ((List.range (c.points "realization").length).map fun i => (c.sliceAt "realization" i).data idx)⟩, c.points⟩
  else c

/-- Lines 155-162: the two arrays, which must have one shape, are combined element by element; the dimensions are those of the convection. -/
def combineShower (a b : PointCube (Option ℚ)) : Except Err (PointCube (Option ℚ)) :=
  if (a.dims.map fun n => (a.points n).length) ≠ (b.dims.map fun n => (b.points n).length) then .error .valueError
  else .ok ⟨⟨b.dims, fun idx => showerAt (a.data idx) (b.data idx)⟩, b.points⟩

/-- Lines 128-173 `process`. -/
def showerProcess (cloudThreshold convectionThreshold : ℚ) (cubes : List ThreshCube) : Except Err (PointCube (Option ℚ)) := do
  let cloud ← showerInput "cloud_area_fraction" cubes
  let convection ← showerInput "convective_ratio" cubes
  if (cloud.dims.map fun n => (cloud.points n).length) ≠ (convection.dims.map fun n => (convection.points n).length) then .error .valueError
  else do
    let a ← (showerThreshold .le cloudThreshold).process none cloud
    let b ← (showerThreshold .gt convectionThreshold).process none convection
    let c ← combineShower a.toPointCube b.toPointCube
    .ok (collapseMean c).squeezed

end Improver
