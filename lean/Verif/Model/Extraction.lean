import Verif.Basic

/-!
Models of improver/utilities/cube_extraction.py and improver/utilities/cube_constraints.py.

A cube is a list of axes with numeric points and a function from indices (one per axis) to values; scalar coordinates
are axes of one point that are not dimensions.  A unit is its factor to a base unit.  The reading of numbers and
literals is a parameter, as is iris's circular `intersection`.  Iris's `extract` is modelled after its documentation
and source: an axis keeps the points that pass all constraints on it, an axis constrained to exactly one point stops
being a dimension, and the result is None if a constrained coordinate is missing or keeps no points.
-/

namespace Improver

/-- A coordinate of a cube. -/
structure XAxis where
  name : String
  points : List ℚ
  isDim : Bool
  scale : ℚ
deriving DecidableEq

/-- A cube. -/
structure XCube (V : Type) where
  axes : List XAxis
  data : List ℕ → V

/-- A constraint on the points of one coordinate; `text` for values that are not numbers. -/
inductive XTest where
  | close (values : List ℚ)
  | between (lo hi : ℚ)
  | text (s : String)
deriving DecidableEq

/-- cube_extraction.py:60-61 and cube_constraints.py:47: whether a point passes. -/
def XTest.holds : XTest → ℚ → Bool
  | .close values, p => values.any fun v => npIsclose p v
  | .between lo hi, p => decide (lo ≤ p ∧ p ≤ hi)
  | .text _, _ => false

/-- cube_constraints.py:14-49 `create_sorted_lambda_constraint`. -/
def sortedConstraint (a b : ℚ) : XTest :=
  .between ((1 - 1 / 10000000) * min a b) ((1 + 1 / 10000000) * max a b)

/-- A Python dictionary entry (the position of a replaced key is not modelled). -/
def keySet {V : Type} (d : List (String × V)) (k : String) (v : V) : List (String × V) :=
  d.filter (fun e => decide (e.1 ≠ k)) ++ [(k, v)]

/-! ## Reading constraints -/

/-- `s.split("=", 1)`: nothing if there is no such character. -/
def splitEq : List Char → Option (List Char × List Char)
  | [] => none
  | c :: s => if c = '=' then some ([], s) else (splitEq s).map fun r => (c :: r.1, r.2)

/-- `s.strip(" ")`. -/
def stripBlanks (s : List Char) : List Char :=
  ((s.dropWhile (· = ' ')).reverse.dropWhile (· = ' ')).reverse

/-- `s.split(":")`. -/
def splitColon : List Char → List (List Char)
  | [] => [[]]
  | c :: s =>
    if c = ':' then [] :: splitColon s
    else match splitColon s with
      | [] => [[c]]
      | w :: rest => (c :: w) :: rest

/-- How numbers are read: `float`, `int` and `literal_eval` (`none` stands for ValueError; a literal that is not
numeric is an empty list of numbers). -/
structure Readers where
  float : String → Option ℚ
  int : String → Option ℤ
  literal : String → Option (List ℚ)

/-- What has been read so far: simple constraints, ranges, longitude range, steps and units. -/
structure Constraints where
  simple : List (String × XTest)
  ranges : List (String × XTest)
  longitude : Option (ℚ × ℚ)
  thinning : List (String × ℤ)
  units : List (String × String)

/-- cube_extraction.py:116-139: one constraint, split into key and value. -/
def readConstraint (rd : Readers) (key value : String) (acc : Constraints) : Except Err Constraints :=
  if ':' ∈ value.toList then
    match splitColon (value.toList.filter fun c => decide (c ≠ '[' ∧ c ≠ ']')) with
    | lo :: hi :: rest =>
      match rd.float (String.ofList lo), rd.float (String.ofList hi) with
      | some a, some b =>
        let acc := if key = "longitude" then { acc with longitude := some (a, b) }
          else { acc with ranges := acc.ranges ++ [(key, sortedConstraint a b)] }
        match rest with
        | [] => .ok acc
        | s :: _ =>
          if s = [] then .ok acc
          else match rd.int (String.ofList s) with
            | none => .error .valueError
            | some k => .ok { acc with thinning := keySet acc.thinning key k }
      | _, _ => .error .valueError
    | _ => .error .valueError
  else match rd.literal value with
    | none => .ok { acc with simple := keySet acc.simple key (.text value) }
    | some vs => .ok { acc with simple := keySet acc.simple key (if vs = [] then .text value else .close vs) }

/-- cube_extraction.py:112-142: one constraint with its unit. -/
def readPair (rd : Readers) (constraint : String) (unit : Option String) (acc : Constraints) : Except Err Constraints :=
  match splitEq constraint.toList with
  | none => .error .valueError
  | some (k, v) =>
    let key := String.ofList (stripBlanks k)
    match readConstraint rd key (String.ofList (stripBlanks v)) acc with
    | .error e => .error e
    | .ok acc =>
      match unit with
      | none => .ok acc
      | some u =>
        if u.toLower = "none" then .ok acc
        else .ok { acc with units := keySet acc.units key (String.ofList (stripBlanks u.toList)) }

/-- cube_extraction.py:111-142: all constraints. -/
def readPairs (rd : Readers) : List (String × Option String) → Constraints → Except Err Constraints
  | [], acc => .ok acc
  | p :: rest, acc => do
    let acc ← readPair rd p.1 p.2 acc
    readPairs rd rest acc

/-- cube_extraction.py:65-153 `parse_constraint_list`: what is read, and whether units apply at all. -/
def parseConstraints (rd : Readers) (constraints : List String) (units : Option (List String)) :
    Except Err (Constraints × Bool) :=
  match units with
  | none => do
    let r ← readPairs rd (constraints.map fun c => (c, none)) ⟨[], [], none, [], []⟩
    .ok (r, false)
  | some us =>
    if us.length ≠ constraints.length then .error .valueError
    else do
      let r ← readPairs rd (constraints.zip (us.map some)) ⟨[], [], none, [], []⟩
      .ok (r, true)

/-! ## Extraction -/

/-- The indices of an axis that pass the constraints. -/
def keptIndices (tests : List (String × XTest)) (a : XAxis) : List ℕ :=
  (List.range a.points.length).filter fun i =>
    tests.all fun t => decide (t.1 ≠ a.name) || t.2.holds (a.points.getD i 0)

/-- An axis reduced to the given indices. -/
def XAxis.select (a : XAxis) (l : List ℕ) : XAxis := { a with points := l.map fun i => a.points.getD i 0 }

/-- A cube reduced to the given indices of each axis. -/
def XCube.select {V : Type} (c : XCube V) (ls : List (List ℕ)) : XCube V :=
  ⟨List.zipWith XAxis.select c.axes ls, fun idx => c.data (List.zipWith (fun (l : List ℕ) i => l.getD i 0) ls idx)⟩

/-- Iris: an axis constrained to exactly one point stops being a dimension. -/
def XAxis.reduce (tests : List (String × XTest)) (a : XAxis) : XAxis :=
  if tests.any (fun t => decide (t.1 = a.name)) = true ∧ a.points.length = 1 then { a with isDim := false } else a

/-- Iris: `cube.extract(constraint)`. -/
def irisExtract {V : Type} (tests : List (String × XTest)) (c : XCube V) : Option (XCube V) :=
  if tests.any fun t => !(c.axes.any fun a => decide (a.name = t.1)) then none
  else if c.axes.any fun a => tests.any (fun t => decide (t.1 = a.name)) && decide (keptIndices tests a = []) then none
  else
    let r := c.select (c.axes.map (keptIndices tests))
    some { r with axes := r.axes.map (XAxis.reduce tests) }

/-- Iris: `coord.convert_units(unit)` if the coordinate has the name. -/
def XAxis.convert (name : String) (unit : ℚ) (a : XAxis) : XAxis :=
  if a.name = name then { a with points := a.points.map fun p => p * a.scale / unit, scale := unit } else a

/-- Iris: `coord.convert_units(unit)` on the named coordinate. -/
def convertAxis {V : Type} (c : XCube V) (name : String) (unit : ℚ) : XCube V :=
  { c with axes := c.axes.map (XAxis.convert name unit) }

/-- Iris: `cube.coord(name).units`. -/
def axisUnit {V : Type} (c : XCube V) (name : String) : Except Err ℚ :=
  match c.axes.find? fun a => decide (a.name = name) with
  | none => .error .coordinateNotFound
  | some a => .ok a.scale

/-- cube_extraction.py:195-197: change to the units of the constraints; the cube and its original units. -/
def toUnits {V : Type} : List (String × ℚ) → XCube V → Except Err (XCube V × List (String × ℚ))
  | [], c => .ok (c, [])
  | u :: rest, c => do
    let old ← axisUnit c u.1
    let r ← toUnits rest (convertAxis c u.1 u.2)
    .ok (r.1, (u.1, old) :: r.2)

/-- cube_extraction.py:200-203: change back. -/
def fromUnits {V : Type} (olds : List (String × ℚ)) (c : XCube V) : XCube V :=
  olds.foldl (fun c u => convertAxis c u.1 u.2) c

/-- cube_extraction.py:156-222 `apply_extraction`: the extracted cube and the input cube afterwards. -/
def applyExtraction {V : Type} (intersect : XCube V → ℚ × ℚ → Except Err (XCube V)) (c : XCube V)
    (tests : List (String × XTest)) (units : Option (List (String × ℚ))) (useOriginal : Bool)
    (longitude : Option (ℚ × ℚ)) : Except Err (Option (XCube V) × XCube V) := do
  let r ← match units with
    | none => .ok (irisExtract tests c, c)
    | some us => do
      let conv ← toUnits us c
      let out := irisExtract tests conv.1
      if useOriginal then .ok (out.map (fromUnits conv.2), fromUnits conv.2 conv.1) else .ok (out, conv.1)
  match longitude with
  | none => .ok r
  | some l =>
    match r.1 with
    | none => .error .attributeError
    | some out => do
      let o ← intersect out l
      .ok (some o, r.2)

/-- Python: `l[::k]` as indices of a list of n elements. -/
def stepIndices (n : ℕ) (k : ℤ) : Except Err (List ℕ) :=
  if k = 0 then .error .valueError
  else if 0 < k then .ok ((List.range n).filter fun i => i % k.toNat = 0)
  else .ok (((List.range n).filter fun i => i % (-k).toNat = 0).map fun i => n - 1 - i)

/-- cube_extraction.py:327-346 `thin_cube`, one axis: the step of a dimension named in the dictionary. -/
def thinAxis (thinning : List (String × ℤ)) (a : XAxis) : Except Err (List ℕ) :=
  match thinning.find? fun t => decide (t.1 = a.name) && a.isDim with
  | none => .ok (List.range a.points.length)
  | some t => stepIndices a.points.length t.2

/-- cube_extraction.py:327-346 `thin_cube`. -/
def thinCube {V : Type} (thinning : List (String × ℤ)) (c : XCube V) : Except Err (XCube V) :=
  if thinning.any fun t => !(c.axes.any fun a => decide (a.name = t.1) && a.isDim) then .error .valueError
  else do
    let ls ← c.axes.mapM (thinAxis thinning)
    .ok (c.select ls)

/-- cube_extraction.py:225-265 `extract_subcube`; `factor` gives the factor of a unit to the base unit. -/
def extractSubcube {V : Type} (rd : Readers) (factor : String → ℚ)
    (intersect : XCube V → ℚ × ℚ → Except Err (XCube V)) (c : XCube V) (constraints : List String)
    (units : Option (List String)) (useOriginal : Bool) : Except Err (Option (XCube V) × XCube V) := do
  let p ← parseConstraints rd constraints units
  let us := if p.2 then some (p.1.units.map fun u => (u.1, factor u.2)) else none
  let r ← applyExtraction intersect c (p.1.simple ++ p.1.ranges) us useOriginal p.1.longitude
  if p.1.thinning = [] then .ok r
  else match r.1 with
    | none => .error .attributeError
    | some out => do
      let t ← thinCube p.1.thinning out
      .ok (some t, r.2)

/-- cube_extraction.py:303-324 `ExtractSubCube.process`: the cube returned (`none` as a result of extraction returns the
input, or raises an error). -/
def extractProcess {V : Type} (rd : Readers) (factor : String → ℚ)
    (intersect : XCube V → ℚ × ℚ → Except Err (XCube V)) (c : XCube V) (constraints : List String)
    (units : Option (List String)) (useOriginal ignoreFailure : Bool) : Except Err (XCube V) := do
  let r ← extractSubcube rd factor intersect c constraints units useOriginal
  match r.1 with
  | some out => .ok out
  | none => if ignoreFailure then .ok r.2 else .error .valueError

/-! ## Filling missing levels -/

/-- cube_extraction.py:459-465: one pass over a column (`none` = missing), each missing value becoming the last one plus
the increment if there is one. -/
def fillFrom (inc : ℚ) : Option ℚ → List (Option ℚ) → List (Option ℚ)
  | _, [] => []
  | last, some v :: rest => some v :: fillFrom inc (some v) rest
  | last, none :: rest =>
    let v := last.map (· + inc)
    v :: fillFrom inc v rest

/-- cube_extraction.py:429-465 `_one_way_fill` on a column. -/
def oneWayFill (inc : ℚ) (reverse : Bool) (col : List (Option ℚ)) : List (Option ℚ) :=
  if reverse then (fillFrom (-inc) none col.reverse).reverse else fillFrom inc none col

/-- cube_extraction.py:414-416: the increment, from the direction of the coordinate. -/
def fillIncrement (positive increasing : Bool) (digits : ℤ) : ℚ :=
  (if positive = increasing then 1 else -1) * (10 : ℚ) ^ (-digits)

/-- cube_extraction.py:397-427 `fill_invalid` on a column: downwards first, then upwards if anything is still missing. -/
def fillColumn (inc : ℚ) (col : List (Option ℚ)) : List (Option ℚ) :=
  let c := oneWayFill inc true col
  if c.all Option.isSome then c else oneWayFill inc false c

end Improver
