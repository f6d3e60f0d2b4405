import Verif.Model.Assembly
import Verif.Model.Amend

/-!
Model of `StandardiseMetadata.process` (improver/standardise.py:241-279) as one function of a whole cube, built on the steps of
`Model/Assembly.lean`, `Model/Standards.lean` and `Model/Amend.lean`.

Coordinates have different names.  A value given for a coordinate comes with the type numpy gives it (float64 or int64).
-/

namespace Improver

/-- A cube with everything the plugin looks at; `flag` is the coordinate "air_temperature status_flag". -/
structure StdWhole where
  name : String
  dtype : NpType
  unit : StdUnit
  grid : AxisCube
  flag : Option StatusFlag
  methods : List (String × List String × List String × List String)
  attributes : AttrDict

/-- standardise.py:31-69: the options; an empty text or list is the same as none. -/
structure StdOptions where
  newName : String
  newUnit : Option StdUnit
  remove : List String
  modify : List (String × NewValue × NpType)
  attributes : AttrDict

/-- standardise.py:263-264: the name. -/
def chosenName (o : StdOptions) (old : String) : String := if o.newName = "" then old else o.newName

/-- standardise.py:265-266: `cube.convert_units`; integers become float64, an incompatible unit is a ValueError.  Gives unit, type and data. -/
def convertWhole (target : Option StdUnit) (unit : StdUnit) (dtype : NpType) (data : (String → ℕ) → Option ℚ) :
    Except Err (StdUnit × NpType × ((String → ℕ) → Option ℚ)) :=
  match target with
  | none => .ok (unit, dtype, data)
  | some u =>
    if unit = u then .ok (unit, dtype, data)
    else if unit.dimension ≠ u.dimension then .error .valueError
    else .ok (u, if dtype.isInt then .float64 else dtype, fun i => (data i).map (convertUnit unit u))

/-- standardise.py:179: the type of the points is that of the new value. -/
def retype (name : String) (t : NpType) (y : AxisCoord) : AxisCoord :=
  if y.coord.name = name then ⟨⟨y.coord.name, t, y.coord.points, y.coord.bounds, y.coord.unit⟩, y.spans, y.isDim⟩ else y

/-- standardise.py:164-179: one entry of the dictionary. -/
def modifyTyped (coords : List AxisCoord) (m : String × NewValue × NpType) : Except Err (List AxisCoord) := do
  let cs ← modifyCoord coords (m.1, m.2.1)
  .ok (cs.map (retype m.1 m.2.2))

/-- standardise.py:141-179 `_modify_scalar_coord_value`. -/
def modifyAll : List (String × NewValue × NpType) → List AxisCoord → Except Err (List AxisCoord)
  | [], cs => .ok cs
  | m :: ms, cs => do
    let cs ← modifyTyped cs m
    modifyAll ms cs

/-- standardise.py:210-221: a coordinate with the mandatory type and unit. -/
def standardAxis (cast : NpType → ℚ → ℚ) (y : AxisCoord) : Except Err AxisCoord := do
  let c ← standardCoord cast y.coord
  .ok ⟨c, y.spans, y.isDim⟩

/-- standardise.py:209: data of the mandatory type (NaN stays NaN). -/
def standardData (cast : NpType → ℚ → ℚ) (t : NpType) (data : (String → ℕ) → Option ℚ) : (String → ℕ) → Option ℚ :=
  if t ≠ requiredPlain t then fun i => (data i).map (cast (requiredPlain t)) else data

/-- standardise.py:271-272: the attributes, or the error. -/
def amendOutcome (clock : Text → Text) (render : ℕ → Text) (changes d : AttrDict) : Except Err AttrDict :=
  match (amendAttributes clock render changes d).1 with
  | .error e => .error e
  | .ok _ => .ok (amendAttributes clock render changes d).2

/-- standardise.py:267-270, 210-221: the coordinates. -/
def coordsRun (cast : NpType → ℚ → ℚ) (o : StdOptions) (coords : List AxisCoord) : Except Err (List AxisCoord) := do
  let cs ← modifyAll o.modify (o.remove.foldl removeCoordNamed coords)
  cs.mapM (standardAxis cast)

/-- standardise.py:241-279 `StandardiseMetadata.process`.  (When several steps would raise, which error comes first is not modelled for the
coordinates' types: they are looked at before the attributes here.) -/
def standardiseRun (clock : Text → Text) (render : ℕ → Text) (cast : NpType → ℚ → ℚ) (o : StdOptions) (c : StdWhole) :
    Except Err StdWhole := do
  let g ← removeStatusFlag c.flag c.grid
  let p ← convertWhole o.newUnit c.unit c.dtype (collapseScalars g).data
  let coords ← coordsRun cast o (collapseScalars g).coords
  let attrs ← amendOutcome clock render o.attributes c.attributes
  .ok ⟨chosenName o c.name, requiredPlain p.2.1, p.1, ⟨(collapseScalars g).axes, coords, standardData cast p.2.1 p.2.2⟩, none,
    discardMethods c.methods, attrs⟩

end Improver
