import Verif.Model.Times
import Verif.Model.Standards

/-! Model of the commands `enforce-consistent-forecasts` and `normalise-to-reference`: how the cubes are told apart by name, brought to one
unit and combined.  Data without masks; fields are lists of values, of one shape.  iris' ConstraintMismatchError is written `valueError`. -/

namespace Improver

/-- An input of the commands: name, unit, whether it is a probability, its dimension coordinates (name and what iris compares), values. -/
structure RefCube where
  name : String
  unit : StdUnit
  isProb : Bool
  coords : List (String × ℕ)
  values : List ℚ
  deriving DecidableEq

/-- The number of values the options give (cli/enforce_consistent_forecasts.py:77-91 and forecast_reference_enforcement.py:146-166): a list of
one stands for its value; of two empty lists the first is looked up. -/
def oneOrTwo {α : Type} : List α → Option (OneOrTwo α)
  | [a] => some (.one a)
  | [a, b] => some (.two a b)
  | _ => none

/-- `EnforceConsistentForecasts.process` (forecast_reference_enforcement.py:122-219): the forecast made consistent and whether there is a warning. -/
def enforceProcess (add mul : OneOrTwo ℚ) (ops : OneOrTwo String) (warnAt : Option ℚ) (forecast reference : RefCube) :
    Except Err (RefCube × Bool) := do
  if reference.unit.dimension ≠ forecast.unit.dimension then .error .valueError
  else do
    let ref := reference.values.map (convertUnit reference.unit forecast.unit)
    if ref.length ≠ forecast.values.length ∨ ref.length = 0 then .error .valueError
    let out ← enforceConsistent add mul ops forecast.isProb forecast.values ref
    let warn := match warnAt with
      | none => false
      | some w => (List.zipWith (fun a b => |a - b|) out forecast.values).any fun d => decide (d > w)
    return ({ forecast with values := out }, warn)

/-- The command (cli/enforce_consistent_forecasts.py:77-112); no name given matches every cube. -/
def enforceCommand (cubes : List RefCube) (refName : Option String) (add mul : List ℚ) (ops : List String) (warnAt : Option ℚ) :
    Except Err (RefCube × Bool) :=
  if ¬ (add.length = mul.length ∧ mul.length = ops.length ∧ ops.length < 3) then .error .valueError
  else if cubes.length ≠ 2 then .error .valueError
  else
    match cubes.filter (fun c => decide (refName = none ∨ refName = some c.name)), cubes.filter (fun c => ¬ decide (refName = none ∨ refName = some c.name)) with
    | [reference], [forecast] =>
      match oneOrTwo add, oneOrTwo mul, oneOrTwo ops with
      | some a, some m, some o => enforceProcess a m o warnAt forecast reference
      | _, _, _ => .error .indexError
    | _, _ => .error .valueError

/-- Whether the dimension coordinates of a cube are all on the reference (forecast_reference_enforcement.py:274-283). -/
def coordsOn (reference c : RefCube) : Bool := c.coords.all fun d => reference.coords.contains d

/-- `normalise_to_reference` (forecast_reference_enforcement.py:254-329) on whole fields. -/
def normaliseProcess (cubes : List RefCube) (reference : RefCube) (ignoreZero : Bool) : Except Err (List RefCube) :=
  if cubes.length < 2 then .error .valueError
  else if cubes.any (fun c => decide (c.coords.length ≠ reference.coords.length)) then .error .valueError
  else if cubes.any (fun c => !coordsOn reference c) ∧ ¬ reference.isProb then .error .valueError
  else if cubes.any (fun c => decide (c.values.length ≠ reference.values.length)) then .error .valueError
  else do
    let cols ← (List.range reference.values.length).mapM fun i =>
      normaliseToReference (cubes.map fun c => c.values.getD i 0) (reference.values.getD i 0) ignoreZero
    return cubes.zipIdx.map fun p => { p.1 with values := cols.map fun col => col.getD p.2 0 }

/-- The command (cli/normalise_to_reference.py:56-73). -/
def normaliseCommand (cubes : List RefCube) (refName returnName : String) (ignoreZero : Bool) : Except Err RefCube :=
  match splitByName (cubes.map fun c => (c.name, c)) (some [refName]) with
  | ([reference], inputs) => do
    let out ← normaliseProcess (inputs.map Prod.snd) reference.2 ignoreZero
    match out.filter fun c => decide (c.name = returnName) with
    | [c] => return c
    | _ => .error .valueError
  | _ => .error .valueError

end Improver
