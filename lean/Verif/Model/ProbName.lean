import Verif.Basic

/-!
Model of the names of probability cubes, improver/metadata/probabilistic.py:16-107, and of the
searches for threshold and percentile coordinates, lines 110-248.  Names are lists of characters
without line breaks (of which `.` and `$` in the regular expression treat the last one
differently).
-/

namespace Improver

/-- probabilistic.py:30. -/
def probPrefix : List Char := "probability_of_".toList

/-- probabilistic.py:32, in the order tried. -/
def vicinityWords : List (List Char) := ["_in_vicinity".toList, "_in_variable_vicinity".toList]

/-- probabilistic.py:33 without the end of the name. -/
def threshWords : List (List Char) :=
  ["_above_threshold".toList, "_below_threshold".toList, "_between_thresholds".toList]

/-- The last group of the expression, `_above_threshold|_below_threshold|_between_thresholds|$`,
at the start of `s`: the text matched. -/
def matchThresh (s : List Char) : Option (List Char) :=
  match threshWords.find? (fun w => w.isPrefixOf s) with
  | some w => some w
  | none => if s = [] then some [] else none

/-- The group of the vicinity, which is optional but tried first (greedy), followed by the last
group. -/
def matchTail (s : List Char) : Option (Option (List Char) × List Char) :=
  match vicinityWords.findSome? (fun v =>
      if v.isPrefixOf s then (matchThresh (s.drop v.length)).map fun t => (some v, t) else none) with
  | some r => some r
  | none => (matchThresh s).map fun t => (none, t)

/-- The lazy group `.*?` followed by the rest: the shortest diagnostic name (reversed accumulator
`acc`) after which the rest matches. -/
def matchDiag (acc : List Char) (s : List Char) :
    Option (List Char × Option (List Char) × List Char) :=
  match matchTail s with
  | some r => some (acc.reverse, r)
  | none =>
    match s with
    | [] => none
    | c :: rest => matchDiag (c :: acc) rest

/-- probabilistic.py:16-35 `probability_cube_name_regex`: the groups diag, vicinity, thresh.
`re.match` need not reach the end of the name. -/
def probRegex (name : List Char) : Option (List Char × Option (List Char) × List Char) :=
  if probPrefix.isPrefixOf name then matchDiag [] (name.drop probPrefix.length) else none

/-- probabilistic.py:71-107 `_extract_diagnostic_name`. -/
def extractDiag (checkVicinity : Bool) (name : List Char) : Except Err (List Char) :=
  match probRegex name with
  | none => .error .valueError
  | some (d, some v, _) => .ok (if checkVicinity then d ++ v else d)
  | some (d, none, _) => .ok d

/-- probabilistic.py:38-55 `in_vicinity_name_format` (`None.groupdict` is an AttributeError). -/
def vicinityName (name : List Char) : Except Err (List Char) :=
  match probRegex name with
  | none => .error .attributeError
  | some (d, _, t) => .ok (probPrefix ++ d ++ "_in_vicinity".toList ++ t)

/-- A coordinate: name, variable name, value of the attribute spp__relative_to_threshold. -/
structure NamedCoord where
  name : String
  varName : Option String
  relative : Option String
deriving DecidableEq

/-- probabilistic.py:128-165 `find_threshold_coordinate`: the coordinate named threshold, else the
first with this variable name.  (`cube.coord` also raises when several coordinates have the
name.) -/
def findThreshold (coords : List NamedCoord) : Except Err NamedCoord :=
  match coords.filter (fun c => decide (c.name = "threshold")) with
  | [c] => .ok c
  | _ =>
    match coords.find? (fun c => decide (c.varName = some "threshold")) with
    | some c => .ok c
    | none => .error .coordinateNotFound

/-- probabilistic.py:168-190 `probability_is_above_or_below`. -/
def aboveOrBelow (coords : List NamedCoord) : Except Err (Option String) :=
  match findThreshold coords with
  | .error e => .error e
  | .ok c =>
    if c.relative = some "above" ∨ c.relative = some "greater_than" ∨
        c.relative = some "greater_than_or_equal_to" then .ok (some "above")
    else if c.relative = some "below" ∨ c.relative = some "less_than" ∨
        c.relative = some "less_than_or_equal_to" then .ok (some "below")
    else .ok none

/-- probabilistic.py:110-125 `is_probability`. -/
def isProbability (coords : List NamedCoord) : Bool :=
  match findThreshold coords with
  | .ok _ => true
  | .error _ => false

/-- `sub in name`. -/
def hasPart (sub name : List Char) : Bool := decide (sub <:+: name)

theorem hasPart_iff (sub name : List Char) : hasPart sub name = true ↔ sub <:+: name := by
  simp [hasPart]

/-- probabilistic.py:235-238: the coordinates whose name holds "percentile". -/
def percentileCoords (coords : List NamedCoord) : List NamedCoord :=
  coords.filter fun c => hasPart "percentile".toList c.name.toList

/-- probabilistic.py:211-248 `find_percentile_coordinate`. -/
def findPercentile (coords : List NamedCoord) : Except Err NamedCoord :=
  match percentileCoords coords with
  | [] => .error .coordinateNotFound
  | [c] => .ok c
  | _ => .error .valueError

/-- probabilistic.py:193-208 `is_percentile`. -/
def isPercentile (coords : List NamedCoord) : Bool :=
  match findPercentile coords with
  | .ok _ => true
  | .error _ => false

end Improver
