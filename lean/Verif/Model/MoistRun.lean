import Verif.Model.HailSizeRun
import Verif.Model.LevelRun

/-! Model of `CloudTopTemperature.process` (improver/psychrometric_calculations/cloud_top_temperature.py:50-142), of `CloudCondensationLevel.process` and
`MetaCloudCondensationLevel.process` (improver/psychrometric_calculations/cloud_condensation_level.py:47-64 and 116-162), of `HumidityMixingRatio.process`
(improver/psychrometric_calculations/psychrometric_calculations.py:318-342) and of `WetBulbTemperature.process` (improver/psychrometric_calculations/
wet_bulb_temperature.py:245-322): inputs, units, arrays and levels.  Input values are rationals without masks, computed values are real.  scipy's root finder is a
parameter, which may give another value at every point of the array.  Arrays of different shape are refused (numpy broadcasts some).  Attributes and the removal of
the scalar height are left out. -/

namespace Improver

/-- iris `extract_cube` by name: exactly one cube has it. -/
def oneField {X : Type} (n : String) (cubes : List (PressureField X)) : Except Err (PressureField X) :=
  match cubes.filter fun c => decide (c.field.name = n) with
  | [c] => .ok c
  | _ => .error .valueError

/-- A result with masked (`none`) points. -/
structure MaskedOut (X : Type) where
  name : String
  unit : String
  place : X × X
  shape : List ℕ
  data : List ℕ → Option ℝ

open Classical in
/-- `_calculate_cct` (cloud_top_temperature.py:50-96) on the whole array: the points are numbered as `arrayIndices` lists them. `solve` is what the root finder
gives at a point for a level. -/
noncomputable def cloudTopValues {X : Type} (solve : List ℕ → ℝ → (ℝ → ℝ) → ℝ → ℝ) (levels : List ℚ) (t p c : NamedField X) (idx : List ℕ) : Option ℝ :=
  let cells := arrayIndices c.shape
  let cell := fun i : ℕ => cells.getD i []
  let cct := cctLoop cells.length (fun i pr => parcelT (solve (cell i) pr) (c.data (cell i)) (p.data (cell i)) pr) (fun i => (p.data (cell i) : ℝ))
    ((List.range levels.length).map fun k => (((levels.getD k 0 : ℚ) : ℝ), fun i : ℕ => ((t.data (k :: cell i) : ℚ) : ℝ))) (fun _ => true)
    (fun i => (c.data (cell i) : ℝ)) (cells.idxOf idx)
  if (c.data idx : ℝ) - cct < 4 then none else some cct

/-- `CloudTopTemperature.process` (cloud_top_temperature.py:117-142). -/
noncomputable def cloudTopProcess {X : Type} [DecidableEq X] (solve : List ℕ → ℝ → (ℝ → ℝ) → ℝ → ℝ) (cubes : List (PressureField X)) : Except Err (MaskedOut X) := do
  let c ← oneField "air_temperature_at_condensation_level" cubes
  let p ← oneField "air_pressure_at_condensation_level" cubes
  let t ← oneField "air_temperature" cubes
  let same ← spatialMatch ([c, p, t].map fun f => f.field.place)
  if ¬ same then .error .valueError
  else
    let t' ← t.field.convert kelvin
    let c' ← c.field.convert kelvin
    let p' ← p.field.convert pascal
    if p'.shape ≠ c'.shape ∨ t'.shape ≠ c'.shape then .error .indexError
    else .ok ⟨"air_temperature_at_convective_cloud_top", "K", c'.place, c'.shape, cloudTopValues solve t.levels t' p' c'⟩

/-- `HumidityMixingRatio.process` (psychrometric_calculations.py:318-342): the data of the three inputs as they are. -/
noncomputable def humidityProcess {X : Type} (cubes : List (PressureField X)) : Except Err (HailOut X × NamedField X × NamedField X) := do
  let t ← oneField "air_temperature" cubes
  let p ← oneField "surface_air_pressure" cubes
  let r ← oneField "relative_humidity" cubes
  if t.field.shape ≠ r.field.shape ∨ p.field.shape ≠ r.field.shape then .error .valueError
  else .ok (⟨"humidity_mixing_ratio", "kg kg-1", r.field.place, r.field.shape, fun idx =>
    humidityMixingRatio (t.field.data idx) (p.field.data idx) (r.field.data idx)⟩, t.field, p.field)

/-- `CloudCondensationLevel.process` (cloud_condensation_level.py:116-162) on its three inputs: temperature and pressure of the condensation level.  The extraction
by name (lines 155-157) of three cubes given as temperature, surface pressure and humidity mixing ratio is left out. -/
noncomputable def cclProcess {X : Type} (solve : List ℕ → (ℝ → ℝ) → ℝ → ℝ) (t p : NamedField X) (q : HailOut X) : Except Err (HailOut X × HailOut X) :=
  if p.shape ≠ t.shape ∨ q.shape ≠ t.shape then .error .valueError
  else .ok (⟨"air_temperature_at_condensation_level", "K", t.place, t.shape, fun idx => (condensationLevel (solve idx) (t.data idx) (p.data idx) (q.data idx)).2⟩,
    ⟨"air_pressure_at_condensation_level", "Pa", t.place, t.shape, fun idx => (condensationLevel (solve idx) (t.data idx) (p.data idx) (q.data idx)).1⟩)

/-- `MetaCloudCondensationLevel.process` (cloud_condensation_level.py:47-64). -/
noncomputable def metaCclProcess {X : Type} (solve : List ℕ → (ℝ → ℝ) → ℝ → ℝ) (cubes : List (PressureField X)) : Except Err (HailOut X × HailOut X) := do
  let r ← humidityProcess cubes
  cclProcess solve r.2.1 r.2.2 r.1

/-! ## Wet bulb temperature -/

/-- An input of the wet bulb temperature: `z` is the name of its vertical coordinate and whether it has a dimension; then `data` takes the number of the level
first and `levels` are the points of the coordinate. -/
structure ZField (X : Type) where
  field : NamedField X
  z : Option (String × Bool)
  levels : List ℚ

/-- `slices_over` the vertical coordinate: the point of the coordinate and the field of each level. -/
def ZField.slices {X : Type} (c : ZField X) : List (ℚ × NamedField X) :=
  (List.range c.levels.length).map fun k => (c.levels.getD k 0, ⟨c.field.name, c.field.unit, c.field.place, c.field.shape, fun idx => c.field.data (k :: idx)⟩)

/-- The array as it is, the level being its first dimension if it has one. -/
def ZField.whole {X : Type} (c : ZField X) : NamedField X :=
  match c.z with
  | some (_, true) => ⟨c.field.name, c.field.unit, c.field.place, c.levels.length :: c.field.shape, c.field.data⟩
  | _ => c.field

/-- The number one. -/
def pureNumber : StdUnit := ⟨"1", 1, 0⟩

/-- `create_wet_bulb_temperature_cube` (wet_bulb_temperature.py:245-275). -/
noncomputable def wetBulbField {X : Type} (precision : ℝ) (t r p : NamedField X) : Except Err (HailOut X) := do
  let t ← t.convert kelvin
  let r ← r.convert pureNumber
  let p ← p.convert pascal
  if r.shape ≠ t.shape ∨ p.shape ≠ t.shape then .error .valueError
  else
    let cells := arrayIndices t.shape
    let cell := fun i : ℕ => cells.getD i []
    .ok ⟨"wet_bulb_temperature", "K", t.place, t.shape, fun idx =>
      wetBulb precision cells.length (fun i => (p.data (cell i) : ℝ)) (fun i => (r.data (cell i) : ℝ)) (fun i => (t.data (cell i) : ℝ)) (cells.idxOf idx)⟩

/-- The wet bulb temperature: its levels (none if the inputs are not on levels) and the field of each. -/
structure WetOut (X : Type) where
  levels : Option (List ℚ)
  fields : List (HailOut X)

/-- iris `merge_cube` of fields that differ in a scalar coordinate: ascending, and no two at one point. -/
noncomputable def mergeLevels {X : Type} (l : List (ℚ × HailOut X)) : Except Err (WetOut X) :=
  if l = [] ∨ ¬ (l.map Prod.fst).Nodup then .error .valueError
  else
    let sorted := l.insertionSort fun a b => a.1 ≤ b.1
    .ok ⟨some (sorted.map Prod.fst), sorted.map Prod.snd⟩

/-- iris `extract_cube` by name. -/
def oneZ {X : Type} (n : String) (cubes : List (ZField X)) : Except Err (ZField X) :=
  match cubes.filter fun c => decide (c.field.name = n) with
  | [c] => .ok c
  | _ => .error .valueError

/-- wet_bulb_temperature.py:311-317 for one level: labelled as the temperature is (the new cube's template). -/
noncomputable def wetBulbLevel {X : Type} (precision : ℝ) (s : (ℚ × NamedField X) × (ℚ × NamedField X) × (ℚ × NamedField X)) : Except Err (ℚ × HailOut X) := do
  let w ← wetBulbField precision s.1.2 s.2.1.2 s.2.2.2
  .ok (s.1.1, w)

/-- wet_bulb_temperature.py:308-320 for the three inputs. -/
noncomputable def wetBulbOn {X : Type} (precision : ℝ) (t r p : ZField X) : Except Err (WetOut X) :=
  match sliceInputs ⟨t.z, t.slices⟩ ⟨r.z, r.slices⟩ ⟨p.z, p.slices⟩ with
  | .error _ => .error .valueError
  | .ok .whole => do
    let w ← wetBulbField precision t.whole r.whole p.whole
    .ok ⟨none, [w]⟩
  | .ok (.slices l) => do
    let out ← l.mapM (wetBulbLevel precision)
    mergeLevels out

/-- `WetBulbTemperature.process` (wet_bulb_temperature.py:277-322). -/
noncomputable def wetBulbProcess {X : Type} (precision : ℝ) (cubes : List (ZField X)) : Except Err (WetOut X) :=
  if cubes.length ≠ 3 then .error .valueError
  else do
    let t ← oneZ "air_temperature" cubes
    let r ← oneZ "relative_humidity" cubes
    let p ← oneZ "air_pressure" cubes
    wetBulbOn precision t r p

end Improver
