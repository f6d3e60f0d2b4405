import Verif.Model.Hail
import Verif.Model.HailRun

/-! Model of `HailSize.process` and `check_cubes` (improver/psychrometric_calculations/hail_size.py:183-232 and 470-553): how the inputs are told apart, checked,
converted and combined.  Values are rationals without masks, the calculation at a point is the real-valued `hailSize`; the vertical interpolation (C249) is a
parameter.  Dimensions are taken in the order the plugin puts them in (C51); leading dimensions missing from a field are broadcast. -/

namespace Improver

/-- An input; for a field on pressure levels `data` takes the number of the level first, then the other indices (`field.shape` is without it). -/
structure PressureField (X : Type) where
  field : NamedField X
  levels : List ℚ
  levelUnit : StdUnit

/-- iris `CubeList.extract` with a list of names (hail_size.py:496-504). -/
def extractFields {X : Type} (names : List String) (cubes : List (PressureField X)) : List (PressureField X) :=
  names.flatMap fun n => cubes.filter fun c => decide (c.field.name = n)

/-- Pascal. -/
def pascal : StdUnit := ⟨"pressure", 1, 0⟩

/-- The value of a field, of the last dimensions of an array of `n` dimensions, at the index `idx`. -/
def NamedField.at {X : Type} (c : NamedField X) (n : ℕ) (idx : List ℕ) : ℚ := c.data (idx.drop (n - c.shape.length))

/-- The inputs after `check_cubes` (hail_size.py:183-232): five fields in SI units. -/
structure HailInputs (X : Type) where
  temperature : NamedField X
  cclP : NamedField X
  cclT : NamedField X
  wetBulb : NamedField X
  orography : NamedField X

/-- `check_cubes` (hail_size.py:218-232). -/
def checkHail {X : Type} [DecidableEq X] (t p c w o : NamedField X) : Except Err (HailInputs X) := do
  let a ← spatialMatch ([w, o].map fun f => f.place)
  let b ← spatialMatch ([c, p, t, w].map fun f => f.place)
  if ¬ a ∨ ¬ b then .error .valueError
  else
    let c ← c.convert kelvin
    let p ← p.convert pascal
    let t ← t.convert kelvin
    let w ← w.convert metre
    let o ← o.convert metre
    return ⟨t, p, c, w, o⟩

/-- The result. -/
structure HailOut (X : Type) where
  name : String
  unit : String
  place : X × X
  shape : List ℕ
  data : List ℕ → ℝ

/-- Fields whose values can be combined (arrays as numpy broadcasts them; lengths of one are left out). -/
def HailInputs.fit {X : Type} (i : HailInputs X) : Bool :=
  decide (i.cclP.shape = i.cclT.shape) && decide (i.temperature.shape = i.cclT.shape) && i.wetBulb.shape.isSuffixOf i.cclT.shape &&
    i.orography.shape.isSuffixOf i.wetBulb.shape

/-- hail_size.py:534-545 at one point. -/
noncomputable def HailInputs.value {X : Type} (i : HailInputs X) (solve : (ℝ → ℝ) → ℝ → ℝ) (interp : List ℚ → List ℚ → Option ℚ) (levels : List ℚ)
    (idx : List ℕ) : ℝ :=
  let n := i.cclT.shape.length
  let column := (List.range levels.length).map fun k => i.temperature.data (k :: idx)
  hailSize solve (i.cclT.data idx) (i.cclP.data idx) ((interp column levels).map fun q : ℚ => (q : ℝ))
    (some ((i.wetBulb.at n idx - i.orography.at n idx : ℚ) : ℝ))

/-- `HailSize.process` (hail_size.py:489-553); `interp` is the extraction of the pressure of 268.15 K from a column of temperatures and the points of the
pressure coordinate. -/
noncomputable def hailSizeProcess {X : Type} [DecidableEq X] (solve : (ℝ → ℝ) → ℝ → ℝ) (interp : List ℚ → List ℚ → Option ℚ) (cubes : List (PressureField X)) :
    Except Err (HailOut X) :=
  match extractFields ["air_temperature", "air_pressure_at_condensation_level", "air_temperature_at_condensation_level", "wet_bulb_freezing_level_altitude",
      "surface_altitude"] cubes with
  | [t, p, c, w, o] => do
    let i ← checkHail t.field p.field c.field w.field o.field
    if i.fit then .ok ⟨"diameter_of_hail_stones", "m", i.cclT.place, i.cclT.shape, i.value solve interp t.levels⟩
    else .error .valueError
  | _ => .error .valueError

end Improver
