import Verif.Model.Extraction

/-! Model of the choice of the level in the orographic enhancement command (improver/cli/orographic_enhancement.py) and of the checks on the inputs of
`OrographicEnhancement.process` and `ResolveWindComponents.process` that follow it. -/

namespace Improver

/-- A variable on height levels: points and unit (factor to metres) of its height coordinate (`none`: it has none), all its other coordinates (`others`, including
those of its horizontal grid), and its two-dimensional field on each level. -/
structure LevelledInput (V K : Type) where
  heights : Option (List ℚ)
  scale : ℚ
  others : K
  planes : ℕ → V

/-- `extract_and_check` (cli/orographic_enhancement.py:12-42): the levels from `h - 0.1` to `h + 0.1`, both in the given unit; the height coordinate is in its
original unit afterwards (cube_extraction.py:194-206). -/
def extractAndCheck {V K : Type} (h unit : ℚ) (c : LevelledInput V K) : Except Err (LevelledInput V K) :=
  match c.heights with
  | none => .error .coordinateNotFound
  | some l =>
    let kept := (List.range l.length).filter fun i => (sortedConstraint (h - 1 / 10) (h + 1 / 10)).holds (l.getD i 0 * c.scale / unit)
    if kept = [] then .error .valueError
    else .ok { c with heights := some (kept.map fun i => l.getD i 0), planes := fun k => c.planes (kept.getD k 0) }

/-- `compare_coords` of two cubes (improver/utilities/cube_manipulation.py:364-428): all coordinates are equal, in points and units. -/
def sameCoords {V K : Type} [DecidableEq K] (a b : LevelledInput V K) : Bool :=
  decide (a.heights = b.heights) && (decide (a.scale = b.scale) && decide (a.others = b.others))

/-- The command (cli/orographic_enhancement.py:90-106) up to the calculation: temperature, humidity, pressure, wind speed and wind direction in this order.
Wind components have the coordinates of the speed (wind_components.py:195-212, 146); the others are compared in orographic_enhancement.py:543-557.  The
horizontal grids are two-dimensional. -/
def enhancementInputs {V K : Type} [DecidableEq K] (h unit : ℚ) (t rh p speed dir : LevelledInput V K) : Except Err (V × V × V × V × V) := do
  let t ← extractAndCheck h unit t
  let rh ← extractAndCheck h unit rh
  let p ← extractAndCheck h unit p
  let speed ← extractAndCheck h unit speed
  let dir ← extractAndCheck h unit dir
  if ¬ sameCoords speed dir then .error .valueError
  else if ¬ (sameCoords t p && (sameCoords t rh && sameCoords t speed)) then .error .valueError
  else if (t.heights.map List.length) ≠ some 1 then .error .valueError
  else .ok (t.planes 0, rh.planes 0, p.planes 0, speed.planes 0, dir.planes 0)

end Improver
