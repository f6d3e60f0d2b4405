import Verif.Model.Synthetic

/-!
Model of the command `generate-metadata-cube` (improver/cli/generate_metadata_cube.py:13-113).  Only the keys named in its documentation are modelled in the JSON input, where
none of them is null; time bounds are a pair.  Reading a cycle time (`cycletime_to_datetime`) is a parameter.
-/

namespace Improver

/-- The options of the command, with the mandatory attributes (generate_metadata_cube.py:13-26). -/
structure MetaOptions where
  mandatory : List (String × String)
  name : String := "air_pressure_at_sea_level"
  unit : Option String := none
  grid : String := "latlon"
  period : Option ℚ := none
  members : ℕ := 8
  dx : Option ℚ := none
  dy : Option ℚ := none
  corner : Option (List ℚ) := none
  npoints : ℕ := 71

/-- The JSON input: `coords` is a dictionary of lists of numbers. -/
structure MetaJson where
  name : Option String := none
  unit : Option String := none
  time : Option String := none
  bounds : Option (String × String) := none
  frt : Option String := none
  relative : Option String := none
  attrs : Option (List (String × String)) := none
  coords : Option (List (String × List ℚ)) := none

/-- generate_metadata_cube.py:99-103: a time, if it is there. -/
def readTime (parse : String → Except Err ℚ) : Option String → Except Err (Option ℚ)
  | none => .ok none
  | some s => (parse s).map some

/-- generate_metadata_cube.py:105-109. -/
def readBounds (parse : String → Except Err ℚ) : Option (String × String) → Except Err (Option (ℚ × ℚ))
  | none => .ok none
  | some b => do
    let l ← parse b.1
    let u ← parse b.2
    return some (l, u)

/-- generate_metadata_cube.py:85-96. -/
def jsonLeading (coords : Option (List (String × List ℚ))) : Except Err (Option (List ℚ) × String) :=
  match coords with
  | none => .ok (none, "variable")
  | some c => leadingOf (c.lookup "realizations") (c.lookup "percentiles") (c.lookup "thresholds")

/-- generate_metadata_cube.py:85-96. -/
def jsonHeights (coords : Option (List (String × List ℚ))) : Option (List ℚ) × Bool :=
  match coords with
  | none => (none, false)
  | some c => heightsOf (c.lookup "heights") (c.lookup "pressures")

/-- generate_metadata_cube.py:72-113: what is in the JSON goes before the options. -/
def metaCommand (canonical : String → Option String) (parse : String → Except Err ℚ) (o : MetaOptions) (json : Option MetaJson) : Except Err SynthCube :=
  match json with
  | none => generateMetadata canonical ⟨o.mandatory, o.name, o.unit, o.period, o.members, none, "variable", "greater_than", o.npoints, some o.grid, o.dx, o.dy, o.corner, none, false,
      none, none, none, none, []⟩
  | some j => do
    let lead ← jsonLeading j.coords
    let time ← readTime parse j.time
    let frt ← readTime parse j.frt
    let bounds ← readBounds parse j.bounds
    generateMetadata canonical ⟨o.mandatory, j.name.getD o.name, j.unit.or o.unit, o.period, o.members, lead.1, lead.2, j.relative.getD "greater_than", o.npoints, some o.grid, o.dx, o.dy,
      o.corner, (jsonHeights j.coords).1, (jsonHeights j.coords).2, time, bounds, frt, none, j.attrs.getD []⟩

end Improver
