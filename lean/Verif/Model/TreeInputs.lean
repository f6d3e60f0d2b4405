import Verif.Model.TreeCheck
import Verif.Model.ProbName
import Verif.Model.Times

/-!
Model of the choice of inputs of a decision tree and of the times of the result,
improver/categorical/decision_tree.py:143-328, 429-470 and 610-631.

Cubes have all the thresholds on one coordinate.  Names of probabilities of which no diagnostic can be told are not modelled
in the search for the thresholds (`get_threshold_coord_name_from_probability_name`).
-/

namespace Improver

/-- The threshold coordinate of a cube: name, units, points, and the sense of the probabilities
(`probability_is_above_or_below`). -/
structure TiThreshold where
  name : String
  units : String
  points : List ℚ
  side : Option String
deriving DecidableEq

/-- An input: name, threshold coordinate (if any), validity times with bounds, reference times. -/
structure TreeCube where
  name : String
  threshold : Option TiThreshold
  time : TCoord
  frt : Option ℤ
  blendTime : Option ℤ
deriving DecidableEq

/-- The thresholds of an input. -/
def TreeCube.points (c : TreeCube) : List ℚ := (c.threshold.map TiThreshold.points).getD []

/-- What is taken of an input: the thresholds kept. -/
structure TreeSlice where
  cube : TreeCube
  kept : List ℚ
deriving DecidableEq

/-- decision_tree.py:229-241 and 459-466: is a threshold of a cube the one asked for? -/
def closeThreshold (asked point : ℚ) : Bool :=
  if |asked| < 1 / 1000000000000 then npIsclose point 0 0 (1 / 1000000000000) else npIsclose point asked (1 / 100) 0

/-- Iris: the part of a cube with some points of a coordinate; nothing without points. -/
def keptPart (c : TreeCube) (ps : List ℚ) : Option TreeSlice := if ps = [] then none else some ⟨c, ps⟩

/-- decision_tree.py:245-251 on one cube: the part of the cube with the thresholds asked for, if the coordinate has the name
and the probabilities the sense. -/
def partAtThreshold (name : String) (asked : ℚ) (condition : String) (c : TreeCube) : Option TreeSlice :=
  match c.threshold with
  | none => none
  | some t =>
    if t.name = name ∧ t.side = some condition then
      keptPart c (t.points.filter (closeThreshold asked))
    else none

/-- What the search has gathered: parts of inputs, missing inputs of optional nodes, missing inputs, whether a coordinate is
named threshold. -/
structure TiState where
  used : List TreeSlice
  optional : List String
  missing : List String
  named : Bool
deriving DecidableEq

/-- decision_tree.py:183-193: an input of a deterministic node. -/
def takePlain (cubes : List TreeCube) (key : String) (n : RawNode) (s : TiState) (diagnostic : String) : TiState :=
  match cubes.filter fun c => decide (c.name = diagnostic) with
  | [] => if n.ifMissing = none then { s with missing := s.missing ++ [diagnostic] }
    else { s with optional := s.optional ++ [key] }
  | m => { s with used := s.used ++ m.map fun c => ⟨c, c.points⟩ }

/-- decision_tree.py:197-258: an input with a threshold.  `conv` converts units, `none` if they cannot be converted.  Also the
threshold as it is left in the tree, in the units of the cube. -/
def takeThreshold (conv : String → String → ℚ → Option ℚ) (cubes : List TreeCube) (key : String) (n : RawNode) (s : TiState)
    (diagnostic : String) (thr : Thr) (condition : String) : Except Err (TiState × Thr) :=
  match cubes.filter fun c => decide (c.name = diagnostic) with
  | [] => .ok (if n.ifMissing = none then { s with missing := s.missing ++ [diagnostic] }
    else { s with optional := s.optional ++ [key] }, thr)
  | first :: more =>
    match first.threshold with
    | none => .error .coordinateNotFound
    | some t =>
      match conv thr.units t.units thr.value with
      | none => .error .valueError
      | some v =>
        let s := { s with named := s.named || decide (t.name = "threshold") }
        match (first :: more).filterMap (partAtThreshold t.name v condition) with
        | [] => .ok ({ s with missing := s.missing ++ [diagnostic] }, ⟨v, t.units⟩)
        | m => .ok ({ s with used := s.used ++ m }, ⟨v, t.units⟩)

/-- decision_tree.py:197-258: the inputs of a node one after the other. -/
def takeAll (conv : String → String → ℚ → Option ℚ) (cubes : List TreeCube) (key : String) (n : RawNode) :
    TiState → List (String × Thr × String) → Except Err (TiState × List Thr)
  | s, [] => .ok (s, [])
  | s, a :: as => do
    let r ← takeThreshold conv cubes key n s a.1 a.2.1 a.2.2
    let rest ← takeAll conv cubes key n r.1 as
    .ok (rest.1, r.2 :: rest.2)

/-- decision_tree.py:195-199: what a node asks for. -/
def DoneEntry.asks (e : DoneEntry) (n : RawNode) : List (String × Thr × String) :=
  n.diagnostics.zip ((expandNested e.thresholds).zip (expandNested n.conditions))

/-- decision_tree.py:177-258, one entry of the tree. -/
def takeEntry (conv : String → String → ℚ → Option ℚ) (cubes : List TreeCube) (s : TiState) (e : DoneEntry) :
    Except Err TiState :=
  match e.entry with
  | .leaf _ => .ok s
  | .node n =>
    if n.deterministic then .ok (n.diagnostics.foldl (takePlain cubes e.name n) s)
    else do
      let r ← takeAll conv cubes e.name n s (e.asks n)
      .ok r.1

/-- decision_tree.py:270-328 `check_coincidence`: the template of the result, the last input with time bounds or else the first
input. -/
def coincidence (target : Option ℤ) (cubes : List TreeCube) : Except Err TreeCube :=
  match cubes with
  | [] => .error .indexError
  | first :: rest =>
    let times := (first :: rest).flatMap fun c => c.time.points
    let bounds := (first :: rest).flatMap fun c => c.time.bounds.getD []
    let template := (first :: rest).foldl (fun t c => if c.time.bounds.isSome then c else t) first
    if times.dedup.length ≠ 1 then .error .valueError
    else match bounds with
      | [] => .ok template
      | b :: bs =>
        if (bs.all fun x => decide (x = b)) = false then .error .valueError
        else match target with
          | none => .ok template
          | some p => if p ≠ 0 ∧ b.2 - b.1 ≠ p then .error .valueError else .ok template

/-- decision_tree.py:143-268 `prepare_input_cubes`: the parts of inputs, the optional nodes without data and whether a threshold
coordinate is named threshold (an OSError is a value error here). -/
def prepareInputs (conv : String → String → ℚ → Option ℚ) (target : Option ℤ) (tree : List DoneEntry) (cubes : List TreeCube) :
    Except Err (List TreeSlice × List String × Bool) := do
  let _ ← coincidence target cubes
  let s ← tree.foldlM (takeEntry conv cubes) ⟨[], [], [], false⟩
  if s.missing ≠ [] then .error .valueError else .ok (s.used, s.optional, s.named)

/-- decision_tree.py:451-469 on a part of an input: `name` is the name expected of the threshold coordinate. -/
def matchPart (name diagnostic : String) (asked : ℚ) (s : TreeSlice) : Option TreeSlice :=
  if s.cube.name = diagnostic ∧ s.cube.threshold.map TiThreshold.name = some name then
    keptPart s.cube (s.kept.filter (closeThreshold asked))
  else none

/-- decision_tree.py:429-470 and 692 `construct_extract_constraint` and its use: the part of an input that a test at a threshold
uses, with the thresholds it then has; `expected` is the name of the threshold coordinate that the name of the diagnostic
tells. -/
def lookUp (used : List TreeSlice) (named : Bool) (expected : String) (diagnostic : String) (asked : ℚ) :
    Except Err TreeSlice :=
  match used.filterMap (matchPart (if named then "threshold" else expected) diagnostic asked) with
  | [] => .error .indexError
  | x :: _ => .ok x

/-! ## Reference times -/

/-- decision_tree.py:616-621: the latest of a reference time, if all inputs have it. -/
def latestTime (times : List (Option ℤ)) : Except Err (Option ℤ) :=
  if times.any Option.isNone then .ok none
  else match times.filterMap id with
    | [] => .error .valueError
    | x :: xs => .ok (some (xs.foldl max x))

/-- decision_tree.py:610-631 `_set_reference_time`: the reference times and the forecast period of the result, whose other times
are those of `cube`.  One value is set on all reference times found: the last one looked at. -/
def setReference (cube : TimeMeta) (cubes : List TreeCube) : Except Err TimeMeta := do
  let f ← latestTime (cubes.map TreeCube.frt)
  let b ← latestTime (cubes.map TreeCube.blendTime)
  match (b.or f) with
  | none => .error .coordinateNotFound
  | some value =>
    if cube.fp = none then .error .coordinateNotFound
    else if f.isSome ∧ cube.frt = none ∨ b.isSome ∧ cube.blendTime = none then .error .coordinateNotFound
    else do
      let new : TimeMeta := ⟨cube.time, if f.isSome then some [value] else cube.frt,
        if b.isSome then some [value] else cube.blendTime, cube.fp⟩
      let period ← forecastPeriodCoord new true
      .ok { new with fp := some period }

end Improver
