import Verif.Model.ProbName

/-!
Model of the renaming of diagnostics (improver/metadata/amend.py:114-195), of the formatting of cell methods
(improver/metadata/probabilistic.py:251-290) and of the record of the vicinity (improver/utilities/spatial.py:1072-1141).

Cubes are their name, coordinates and cell methods.  Radii are exact numbers (no rounding to 32 bits).
-/

namespace Improver

/-- A cell method: method, coordinate names, intervals, comments. -/
structure CellMethod where
  method : String
  coords : List String
  intervals : List String
  comments : List (List Char)
deriving DecidableEq

/-- A coordinate: name, variable name and, for the radius of vicinity, value, units and comment. -/
structure RnCoord where
  name : List Char
  varName : Option String
  point : Option ℚ
  units : String
  comment : Option String
deriving DecidableEq

/-- What is renamed of a cube. -/
structure DiagMeta where
  name : List Char
  coords : List RnCoord
  methods : List CellMethod
deriving DecidableEq

/-- `str.replace` for a pattern with characters; `skip` characters belong to the last place found. -/
def replaceGo (old new : List Char) : ℕ → List Char → List Char
  | _, [] => []
  | k + 1, _ :: s => replaceGo old new k s
  | 0, c :: s =>
    if old.isPrefixOf (c :: s) then new ++ replaceGo old new (old.length - 1) s else c :: replaceGo old new 0 s

/-- `str.replace`: the empty pattern is found between all characters. -/
def replaceText (old new s : List Char) : List Char :=
  if old = [] then new ++ s.flatMap (fun c => c :: new) else replaceGo old new 0 s

/-- amend.py:126-127. -/
def stripVicinity (name : List Char) : List Char :=
  replaceText "_in_vicinity".toList [] (replaceText "_in_variable_vicinity".toList [] name)

/-- The coordinate as the search for threshold coordinates sees it. -/
def RnCoord.seen (c : RnCoord) : NamedCoord := ⟨String.ofList c.name, c.varName, none⟩

/-- `coord.rename(base)`, which clears the variable name, on the threshold coordinate. -/
def renameCoord (base : List Char) (c : RnCoord) : RnCoord :=
  if c.varName = some "threshold" then ⟨base, none, c.point, c.units, c.comment⟩ else c

/-- `coord.var_name = "threshold"` on the coordinate of that name. -/
def markThreshold (base : List Char) (c : RnCoord) : RnCoord :=
  if c.name = base then ⟨c.name, some "threshold", c.point, c.units, c.comment⟩ else c

/-- amend.py:134-135; each search must find one coordinate. -/
def renameThreshold (base : List Char) (coords : List RnCoord) : Except Err (List RnCoord) :=
  if (coords.filter fun c => decide (c.varName = some "threshold")).length = 1 then
    if ((coords.map (renameCoord base)).filter fun c => decide (c.name = base)).length = 1 then
      .ok ((coords.map (renameCoord base)).map (markThreshold base))
    else .error .coordinateNotFound
  else .error .coordinateNotFound

/-- amend.py:171-175. -/
def methodSubject (original : List Char) : List Char :=
  match extractDiag false original with
  | .ok d => d
  | .error _ => original

/-- amend.py:178-194: one cell method. -/
def updateMethod (subject new : List Char) (m : CellMethod) : CellMethod :=
  match m.comments with
  | [comment] => if hasPart subject comment then ⟨m.method, m.coords, m.intervals, ["of ".toList ++ new]⟩ else m
  | _ => m

/-- amend.py:150-195 `_update_cell_methods`. -/
def updateMethods (methods : List CellMethod) (original new : List Char) : List CellMethod :=
  methods.map (updateMethod (methodSubject original) new)

/-- amend.py:142-146: without cell methods on the source those of the result stay. -/
def methodsOfResult (source result : DiagMeta) (base : List Char) : List CellMethod :=
  if source.methods = [] then result.methods else updateMethods source.methods source.name base

/-- amend.py:114-147 `update_diagnostic_name`; the changed result. -/
def updateDiagnosticName (source : DiagMeta) (new : List Char) (result : DiagMeta) : Except Err DiagMeta := do
  let base := stripVicinity new
  if isProbability (source.coords.map RnCoord.seen) then do
    let diagnostic ← extractDiag true source.name
    let coords ← renameThreshold base result.coords
    .ok ⟨replaceText diagnostic new source.name, coords, methodsOfResult source result base⟩
  else .ok ⟨new, result.coords, methodsOfResult source result base⟩

/-- probabilistic.py:251-271 `format_cell_methods_for_probability`. -/
def methodsForProbability (threshold : List Char) (methods : List CellMethod) : List CellMethod :=
  methods.map fun m => ⟨m.method, m.coords, m.intervals, ["of ".toList ++ threshold]⟩

/-- probabilistic.py:274-290 `format_cell_methods_for_diagnostic`. -/
def methodsForDiagnostic (methods : List CellMethod) : List CellMethod :=
  methods.map fun m => ⟨m.method, m.coords, m.intervals, []⟩

/-- spatial.py:1120-1137. -/
def vicinityComment (gridPoints isMax : Bool) : Option String :=
  let points := "Units of 1 indicate radius of vicinity is defined in grid points rather than physical distance"
  match isMax, gridPoints with
  | true, true => some ("Maximum; " ++ points)
  | true, false => some "Maximum"
  | false, true => some points
  | false, false => none

/-- spatial.py:1100-1141 `add_vicinity_coordinate`; `add_aux_coord` refuses a second coordinate only when its metadata are
the same, which is so for equal units and comment. -/
def addVicinity (radius : ℚ) (gridPoints isMax : Bool) (coords : List RnCoord) : Except Err (List RnCoord) :=
  let new : RnCoord := ⟨"radius_of_vicinity".toList, none, some radius, if gridPoints then "1" else "m",
    vicinityComment gridPoints isMax⟩
  if coords.any fun c => decide (c.name = new.name ∧ c.varName = new.varName ∧ c.units = new.units ∧ c.comment = new.comment)
  then .error .valueError else .ok (coords ++ [new])

/-- spatial.py:1072-1097 `update_name_and_vicinity_coord`: an empty name and a radius of 0 (or None) do nothing. -/
def updateVicinity (new : List Char) (radius : ℚ) (cube : DiagMeta) : Except Err DiagMeta := do
  let cube ← if new = [] then .ok cube else updateDiagnosticName cube new cube
  if radius = 0 then .ok cube
  else
    let matching := cube.coords.filter fun c => decide (c.name = "radius_of_vicinity".toList)
    if matching.length > 1 then .error .coordinateNotFound
    else do
      let coords ← addVicinity radius false (matching = []) (cube.coords.filter fun c =>
        decide (c.name ≠ "radius_of_vicinity".toList))
      .ok ⟨cube.name, coords, cube.methods⟩

end Improver
