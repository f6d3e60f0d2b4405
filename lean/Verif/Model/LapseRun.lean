import Verif.Model.LapseRate
import Verif.Model.CubeManip
import Verif.Model.Standards

/-! Model of `LapseRate.process` (improver/lapse_rate.py:382-475) and of the command `temp-lapse-rate`
(improver/cli/temp_lapse_rate.py).  A cube is its named dimensions with their lengths, its unit and its data by index.  Modelled are
temperatures whose dimensions are the two horizontal ones and, possibly, the realizations; arrays of different shapes are not
combined (numpy's broadcasting of lengths of one is left out).  Attributes and other coordinates are not modelled. -/

namespace Improver

/-- A cube of numbers with a unit. -/
structure UnitGrid where
  grid : DimCube ℚ
  size : String → ℕ
  unit : StdUnit

/-- Kelvin, metres and Kelvin per metre. -/
def kelvin : StdUnit := ⟨"temperature", 1, 0⟩
def metre : StdUnit := ⟨"length", 1, 0⟩
def kelvinPerMetre : StdUnit := ⟨"temperature/length", 1, 0⟩

/-- `cube.convert_units`: all values are converted, another physical quantity is refused. -/
def UnitGrid.convert (c : UnitGrid) (u : StdUnit) : Except Err UnitGrid :=
  if c.unit.dimension ≠ u.dimension then .error .valueError
  else .ok { c with grid := ⟨c.grid.dims, fun i => convertUnit c.unit u (c.grid.data i)⟩, unit := u }

/-- `next(cube.slices([y, x]))`: the horizontal field at the first point of every other dimension, as rows of `y`. -/
def firstField {α : Type} (c : DimCube α) (y x : String) : Except Err (ℕ → ℕ → α) :=
  if y ∈ c.dims ∧ x ∈ c.dims then
    .ok fun i j => c.data (c.dims.map fun d => if d = y then i else if d = x then j else 0)
  else .error .coordinateNotFound

/-- `_generate_lapse_rate_array` (lapse_rate.py:308-380) on a whole field. -/
def lapseField (c : LapseCfg) (h w : ℕ) (temp orog : ℕ → ℕ → ℚ) (land : ℕ → ℕ → Bool) : Except Err (List (List ℚ)) :=
  (List.range h).mapM fun i => (List.range w).mapM fun j => lapseRateAt c h w temp orog land i j

/-- The entry of a stack of fields at an index. -/
def stackAt (s : List (List (List ℚ))) : List ℕ → ℚ
  | [r, i, j] => ((s.getD r []).getD i []).getD j 0
  | _ => 0

/-- The entry of one field at an index. -/
def fieldAt (s : List (List ℚ)) : List ℕ → ℚ
  | [i, j] => (s.getD i []).getD j 0
  | _ => 0

/-- `LapseRate.process` (lapse_rate.py:424-475); `yName` and `xName` are the names of the horizontal axes of the temperature.  The
dimensions left after the realizations are taken in the order they have (lines 445, 448); the stack of one field is squeezed
(line 459), which removes every dimension of length one, and no cube can be made then. -/
def lapseProcess (c : LapseCfg) (temperature : UnitGrid) (yName xName : String) (orography : UnitGrid) (mask : DimCube Bool)
    (maskSize : String → ℕ) : Except Err UnitGrid := do
  let c ← lapseInit c
  let t ← temperature.convert kelvin
  let o ← orography.convert metre
  let orog ← firstField o.grid yName xName
  let land ← firstField mask yName xName
  if ¬ (o.size yName = maskSize yName ∧ o.size xName = maskSize xName) then .error .valueError
  else if "realization" ∈ t.grid.dims then do
    let g ← enforceOrdering t.grid none ["realization"] true
    match g.dims with
    | [_, a, b] =>
      if ¬ (t.size a = maskSize yName ∧ t.size b = maskSize xName) then .error .valueError
      else do
        let s ← (List.range (t.size "realization")).mapM fun r =>
          lapseField c (t.size a) (t.size b) (fun i j => g.data [r, i, j]) orog land
        let out ← enforceOrdering ⟨g.dims, stackAt s⟩ none t.grid.dims true
        return ⟨out, t.size, kelvinPerMetre⟩
    | _ => .error .valueError
  else
    match t.grid.dims with
    | [a, b] =>
      if ¬ (t.size a = maskSize yName ∧ t.size b = maskSize xName) then .error .valueError
      else do
        let s ← lapseField c (t.size a) (t.size b) (fun i j => t.grid.data [i, j]) orog land
        if t.size a = 1 ∨ t.size b = 1 then .error .valueError
        else return ⟨⟨[a, b], fieldAt s⟩, t.size, kelvinPerMetre⟩
    | _ => .error .valueError

/-- The command `temp-lapse-rate` (cli/temp_lapse_rate.py:76-111). -/
def tempLapseRate (c : LapseCfg) (dryAdiabatic : Bool) (temperature : UnitGrid) (yName xName : String) (orography : Option UnitGrid)
    (mask : Option (DimCube Bool × (String → ℕ))) : Except Err UnitGrid :=
  if dryAdiabatic then .ok ⟨⟨temperature.grid.dims, fun _ => DALR⟩, temperature.size, kelvinPerMetre⟩
  else if c.minRate > c.maxRate then .error .valueError
  else if c.maxHeightDiff < 0 then .error .valueError
  else if c.radius < 0 then .error .valueError
  else match orography, mask with
    | some o, some m => lapseProcess c temperature yName xName o m.1 m.2
    | _, _ => .error .runtimeError

end Improver
