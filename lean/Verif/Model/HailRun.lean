import Verif.Model.PrecipType
import Verif.Model.Standards
import Verif.Model.Checker
import Verif.Model.Amend
import Verif.Model.LapseRun

/-! Model of `HailFraction.process` (improver/precipitation_type/hail_fraction.py:95-174): how the inputs are told apart by name, brought
to the units of the calculation and to one grid.  Fields are given by the index of a point; masks, attributes and other metadata are
not modelled. -/

namespace Improver

/-- An input: its name, unit, horizontal coordinates and values. -/
structure NamedField (X : Type) where
  name : String
  unit : StdUnit
  place : X × X
  shape : List ℕ
  data : List ℕ → ℚ

/-- iris `CubeList.extract` with a list of names: for each name in turn all cubes of that name, in their order. -/
def extractNames {X : Type} (names : List String) (cubes : List (NamedField X)) : List (NamedField X) :=
  names.flatMap fun n => cubes.filter fun c => decide (c.name = n)

/-- `cube.convert_units`. -/
def NamedField.convert {X : Type} (c : NamedField X) (u : StdUnit) : Except Err (NamedField X) :=
  if c.unit.dimension ≠ u.dimension then .error .valueError
  else .ok { c with data := fun i => convertUnit c.unit u (c.data i), unit := u }

/-- Metres per second. -/
def metrePerSecond : StdUnit := ⟨"speed", 1, 0⟩

/-- `HailFraction.process` (hail_fraction.py:113-174).  Fields of different shape cannot be combined (numpy broadcasting of leading
dimensions is left out). -/
def hailFractionProcess {X : Type} [DecidableEq X] (cubes : List (NamedField X)) : Except Err (NamedField X) := do
  if cubes.length = 0 then .error .valueError
  else
    match extractNames ["maximum_vertical_updraught", "diameter_of_hail_stones", "air_temperature_at_condensation_level",
        "air_temperature_at_convective_cloud_top", "altitude_of_rain_from_hail_falling_level", "surface_altitude"] cubes with
    | [updraught, size, ccl, cct, melting, orography] => do
      let updraught ← updraught.convert metrePerSecond
      let size ← size.convert metre
      let ccl ← ccl.convert kelvin
      let cct ← cct.convert kelvin
      let melting ← melting.convert metre
      let orography ← orography.convert metre
      let same ← spatialMatch ([updraught, size, ccl, cct, melting, orography].map fun c => c.place)
      if ¬ same then .error .valueError
      else if ¬ [size, ccl, cct, melting, orography].all (fun c => decide (c.shape = updraught.shape)) then .error .valueError
      else .ok ⟨"hail_fraction", ⟨"1", 1, 0⟩, updraught.place, updraught.shape, fun i =>
        hailFraction (updraught.data i) (size.data i) (ccl.data i) (cct.data i) (melting.data i) (orography.data i)⟩
    | _ => .error .valueError

end Improver
