import Verif.Basic
import Mathlib.Algebra.Order.Floor.Ring
import Mathlib.Data.Rat.Floor

/-!
Models of improver/metadata/check_datatypes.py, improver/metadata/constants/time_types.py,
improver/utilities/round.py, improver/utilities/save.py and improver/standardise.py.

Numbers are rationals; the effect of storing a number in a type is a parameter (`cast`), as is what iris writes to
a file.  Integer overflow is not modelled.  A unit is its dimension with a linear map to the base unit of that
dimension.
-/

namespace Improver

/-! ## Types and units -/

/-- numpy types. -/
inductive NpType where
  | float32
  | float64
  | int (bits : ℕ)
  | other (name : String)
deriving DecidableEq

/-- `np.issubdtype(t, np.floating)`. -/
def NpType.isFloat : NpType → Bool
  | .float32 => true
  | .float64 => true
  | _ => false

/-- `np.issubdtype(t, np.integer)`. -/
def NpType.isInt : NpType → Bool
  | .int _ => true
  | _ => false

/-- A unit: v of this unit is v * scale + offset of the base unit of the dimension. -/
structure StdUnit where
  dimension : String
  scale : ℚ
  offset : ℚ
deriving DecidableEq

/-- A coordinate: values and bounds (flattened) with their types. -/
structure StdCoord where
  name : String
  dtype : NpType
  points : List ℚ
  bounds : Option (NpType × List ℚ)
  unit : StdUnit
deriving DecidableEq

/-- time_types.py:15-29 `TIME_COORDS`: type and unit of a time coordinate. -/
def timeSpec (name : String) : Option (NpType × StdUnit) :=
  if name = "time" ∨ name = "forecast_reference_time" ∨ name = "blend_time" then
    some (.int 64, ⟨"time since 1970-01-01", 1, 0⟩)
  else if name = "forecast_period" ∨ name = "UTC_offset" then some (.int 32, ⟨"time", 1, 0⟩)
  else none

/-- check_datatypes.py:35-55 `get_required_dtype` of an object that is not a time coordinate. -/
def requiredPlain (t : NpType) : NpType := if t.isFloat then .float32 else t

/-- check_datatypes.py:35-55 `get_required_dtype` of a coordinate. -/
def requiredType (c : StdCoord) : NpType :=
  match timeSpec c.name with
  | some s => s.1
  | none => requiredPlain c.dtype

/-- check_datatypes.py:58-78 `check_dtype` of a coordinate. -/
def checkType (c : StdCoord) : Bool :=
  let ok := decide (c.dtype = requiredType c)
  match c.bounds with
  | some b => ok && decide (b.1 = requiredType c)
  | none => ok

/-- check_datatypes.py:109-144 `check_units` of a coordinate. -/
def checkUnits (c : StdCoord) : Bool :=
  match timeSpec c.name with
  | some s => decide (c.unit = s.2)
  | none => true

/-- A cube: type and values of its data, its coordinates, its units (`none` = unknown), cell methods, attributes
and shape. -/
structure StdCube where
  name : String
  dtype : NpType
  data : List ℚ
  coords : List StdCoord
  unit : Option StdUnit
  cellMethods : List String
  attributes : List (String × String)
  shape : List ℕ
deriving DecidableEq

/-- check_datatypes.py:161-198: the errors found for one object. -/
def objectErrors (typeOk unitsOk : Bool) (name : String) : List String :=
  (if typeOk then [] else [name ++ " dtype"]) ++ if unitsOk then [] else [name ++ " units"]

/-- check_datatypes.py:147-205 `check_mandatory_standards`.  (`check_units` of a cube asks for nothing.) -/
def checkStandards (c : StdCube) : Except Err Unit :=
  let errors := objectErrors (decide (c.dtype = requiredPlain c.dtype)) true c.name ++
    c.coords.flatMap fun x => objectErrors (checkType x) (checkUnits x) x.name
  if errors ≠ [] then .error .valueError else .ok ()

/-! ## Rounding and standard types -/

/-- `np.around(x)` on rationals: nearest whole number, halves to even. -/
def rintQ (x : ℚ) : ℤ :=
  if x - ⌊x⌋ < 1 / 2 then ⌊x⌋
  else if 1 / 2 < x - ⌊x⌋ then ⌊x⌋ + 1
  else if ⌊x⌋ % 2 = 0 then ⌊x⌋ else ⌊x⌋ + 1

/-- round.py:13-35 `round_close` (`np.allclose` with `atol=1e-7` and its default `rtol=1e-5`). -/
def roundClose (l : List ℚ) : Except Err (List ℚ) :=
  let new := l.map fun x => (rintQ x : ℚ)
  if (List.zipWith (fun a b => npIsclose a b (1 / 100000) (1 / 10000000)) l new).all id then .ok new
  else .error .valueError

/-- `Unit.convert`. -/
def convertUnit (src dst : StdUnit) (v : ℚ) : ℚ := (v * src.scale + src.offset - dst.offset) / dst.scale

/-- standardise.py:211-212: conversion of a time coordinate to the required units; converted values are of type
float64. -/
def convertTime (c : StdCoord) : Except Err StdCoord :=
  match timeSpec c.name with
  | none => .ok c
  | some s =>
    if checkUnits c then .ok c
    else if c.unit.dimension ≠ s.2.dimension then .error .valueError
    else .ok { c with
      dtype := .float64
      points := c.points.map (convertUnit c.unit s.2)
      bounds := c.bounds.map fun b => (.float64, b.2.map (convertUnit c.unit s.2))
      unit := s.2 }

/-- standardise.py:192-207 `as_correct_dtype`. -/
def asType (cast : NpType → ℚ → ℚ) (old new : NpType) (l : List ℚ) : List ℚ :=
  if old ≠ new then l.map (cast new) else l

/-- standardise.py:214-221: values of type `old` become values of the required type, rounded first if that is an
integer type (`round_close` gives int64). -/
def toRequired (cast : NpType → ℚ → ℚ) (old req : NpType) (l : List ℚ) : Except Err (List ℚ) :=
  if req.isInt then do
    let r ← roundClose l
    .ok (asType cast (.int 64) req r)
  else .ok (asType cast old req l)

/-- standardise.py:210-221: one coordinate.  The required type is read once, before the values change. -/
def standardCoord (cast : NpType → ℚ → ℚ) (c : StdCoord) : Except Err StdCoord := do
  let c ← convertTime c
  let req := requiredType c
  let points ← toRequired cast c.dtype req c.points
  match c.bounds with
  | none => .ok { c with dtype := req, points := points }
  | some b =>
    let bs ← toRequired cast b.1 req b.2
    .ok { c with dtype := req, points := points, bounds := some (req, bs) }

/-- standardise.py:181-221 `_standardise_dtypes_and_units`. -/
def standardTypes (cast : NpType → ℚ → ℚ) (c : StdCube) : Except Err StdCube := do
  let req := requiredPlain c.dtype
  let coords ← c.coords.mapM (standardCoord cast)
  .ok { c with dtype := req, data := asType cast c.dtype req c.data, coords := coords }

/-! ## Saving -/

/-- The files of the system and their contents. -/
abbrev Files := String → Option (List ℕ)

/-- A step that changes the files: create (or empty) a file, append to it, rename it (which replaces the target in
one step; a file that is not there is not renamed). -/
inductive FileStep where
  | create (p : String)
  | append (p : String) (b : ℕ)
  | rename (p q : String)

/-- The effect of a step. -/
def FileStep.run (fs : Files) : FileStep → Files
  | .create p => fun x => if x = p then some [] else fs x
  | .append p b => fun x => if x = p then (fs p).map (· ++ [b]) else fs x
  | .rename p q => match fs p with
    | none => fs
    | some c => fun x => if x = q then some c else if x = p then none else fs x

/-- The effect of several steps. -/
def runSteps (fs : Files) (l : List FileStep) : Files := l.foldl FileStep.run fs

/-- save.py:134-146: write everything to a temporary file, then rename it. -/
def saveSteps (filename : String) (bytes : List ℕ) : List FileStep :=
  .create (filename ++ ".tmp") :: bytes.map (.append (filename ++ ".tmp")) ++ [.rename (filename ++ ".tmp") filename]

/-- save.py:90-97: checks and changes made to the cubes one after the other; the cubes as left, and whether all
passed.  `sortMethods` is Python's sort of cell methods. -/
def prepareCubes (sortMethods : List String → List String) : List StdCube → Except Err Unit × List StdCube
  | [] => (.ok (), [])
  | c :: rest =>
    let c := { c with cellMethods := sortMethods c.cellMethods }
    match checkStandards c with
    | .error e => (.error e, c :: rest)
    | .ok _ =>
      if c.unit = none then (.error .valueError, c :: rest)
      else
        let c := { c with attributes := c.attributes.filter fun a => a.1 ≠ "least_significant_digit" }
        let r := prepareCubes sortMethods rest
        (r.1, c :: r.2)

/-- save.py:99-109: chunk sizes, from the first cube when the first two dimensions of all cubes agree. -/
def chunkSizes (cubes : List StdCube) : Option (List ℕ) :=
  match cubes with
  | [] => none
  | c :: rest =>
    if rest.all fun d => decide (d.shape.take 2 = c.shape.take 2) then
      if c.shape.length ≥ 2 then
        some (List.replicate (c.shape.length - 2) 1 ++ c.shape.drop (c.shape.length - 2))
      else none
    else none

/-- save.py:53-146 `save_netcdf`: the steps taken on the files, and the cubes as left.  `write` is the file iris
writes; an empty list of cubes raises UnboundLocalError, here a runtime error. -/
def saveNetcdf (sortMethods : List String → List String) (write : List StdCube → Option (List ℕ) → List ℕ)
    (cubes : List StdCube) (filename : String) (level : ℤ) : Except Err (List FileStep) × List StdCube :=
  let p := prepareCubes sortMethods cubes
  match p.1 with
  | .error e => (.error e, p.2)
  | .ok _ =>
    if cubes = [] then (.error .runtimeError, p.2)
    else if level < 0 ∨ 9 < level then (.error .valueError, p.2)
    else (.ok (saveSteps filename (write p.2 (chunkSizes p.2))), p.2)

end Improver
