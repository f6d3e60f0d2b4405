import Verif.Model.CombineRun
import Verif.Model.Standards

/-! Model of `Combine` (improver/cube_combiner.py:69-128) and `MaxInTimeWindow.process` (cube_combiner.py:470-591) without a minimum number of realizations (see
C49 and C52 for that).  Times are scalar coordinates in seconds; the text of rounded periods is decimal. -/

namespace Improver

/-- The plugin `Combine` (cube_combiner.py:69-85). -/
structure CombinePlugin where
  newName : Option String
  combiner : Combiner

/-- cube_combiner.py:108-109. -/
def CombinePlugin.resolve (p : CombinePlugin) : List CombineIn → Except Err String
  | [] => .error .indexError
  | c :: _ => .ok (p.newName.getD c.name)

/-- cube_combiner.py:87-128 `Combine.process` without minimum realizations: the result and the plugin afterwards. -/
def CombinePlugin.process (p : CombinePlugin) (cubes : List CombineIn) : Except Err (CombineOut × CombinePlugin) := do
  let name ← p.resolve cubes
  let r ← p.combiner.process cubes name
  .ok (r.1, ⟨some name, r.2⟩)

/-- cube_combiner.py:482-483 for one cube: its bounds in hours. -/
def boundsInHours (c : CombineIn) : Except Err (Option (ℚ × ℚ)) :=
  match scalarOf c "time" with
  | none => .error .coordinateNotFound
  | some s => .ok (s.bounds.map fun b => (b.1 / 3600, b.2 / 3600))

/-- cube_combiner.py:547 `(period,) = np.unique(...)`. -/
def thePeriod (bounds : List (Option (ℚ × ℚ))) : Except Err ℚ :=
  match (bounds.filterMap fun b => b.map fun p => p.2 - p.1).dedup with
  | [d] => .ok d
  | _ => .error .valueError

/-- cube_combiner.py:543-546: the name of the diagnostic. -/
def diagnosticOf (name : String) (threshold : Option String) : Except Err String :=
  if "probability_of".toList.isPrefixOf name.toList then
    match threshold with
    | some t => .ok t
    | none => .error .coordinateNotFound
  else .ok name

/-- cube_combiner.py:548-551. -/
def sumComment (diagnostic : String) (period : ℚ) : String :=
  "of " ++ diagnostic ++ " over " ++ toString (rintQ period) ++ (if rintQ period = 1 then " hour" else " hours") ++ " within time window"

/-- A cell method: method, coordinate, comment. -/
abbrev CommentedMethod := String × String × Option String

/-- cube_combiner.py:553-567: the cell methods of the result. -/
def windowMethods (diagnostic : String) (period : ℚ) (methods : List (String × String)) : List CommentedMethod :=
  ((methods.filter fun m => decide (¬ (m.1 ∈ ["sum", "maximum"] ∧ m.2 = "time"))).map fun m => (m.1, m.2, none)) ++
    [("sum", "time", some (sumComment diagnostic period)), ("maximum", "time", some ("of " ++ diagnostic))]

/-- The result. -/
structure WindowOut extends PointCube (Option ℚ) where
  name : String
  scalars : List (String × SCoord ℚ)
  methods : List CommentedMethod

/-- cube_combiner.py:527-568 `_correct_metadata`. -/
def correctMetadata (bounds : List (Option (ℚ × ℚ))) (threshold : Option String) (c : CombineOut) : Except Err WindowOut := do
  let name := c.name.getD ""
  let diagnostic ← diagnosticOf name threshold
  let period ← thePeriod bounds
  .ok ⟨c.toPointCube, name, c.scalars, windowMethods diagnostic period c.methods⟩

/-- cube_combiner.py:570-591 `MaxInTimeWindow.process`.  (The threshold coordinate of the result is that of the first cube.) -/
def maxWindow (cubes : List CombineIn) : Except Err WindowOut := do
  let bounds ← cubes.mapM boundsInHours
  checkTimeWindow bounds
  let r ← CombinePlugin.process ⟨none, ⟨"max", .max, none, none, true⟩⟩ cubes
  correctMetadata bounds (cubes.head?.bind CombineIn.threshold) r.1

end Improver
