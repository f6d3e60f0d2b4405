import Verif.Model.LapseRate
import Verif.Model.Spot
import Verif.Model.Standards

/-! Model of the `apply-height-adjustment` command (improver/cli/apply_height_adjustment.py, improver/spotdata/height_adjustment.py). -/

namespace Improver

/-- A spot cube of heights.  Probabilities: thresholds with their unit, and for every member (one if there is no realization coordinate) and
site the row of probabilities; other cubes: the unit and the data as rows along the last dimension, whatever that is. -/
inductive HeightCube where
  | probs (thresholds : List ℚ) (unit : StdUnit) (members : List (List (List ℚ)))
  | values (unit : StdUnit) (rows : List (List ℚ))
  deriving DecidableEq

/-- The metre. -/
def heightMetre : StdUnit := ⟨"length", 1, 0⟩

/-- `extract_vertical_displacements` (spotdata/apply_lapse_rate.py:239-248) and `.data`: nothing extracted is `None`, which has no data. -/
def displacements (neighbours : List (String × List ℚ)) (method : String) : Except Err (List ℚ) :=
  match neighbours.find? fun n => decide (n.1 = method) with
  | none => .error .attributeError
  | some n => .ok n.2

/-- numpy broadcasting of a vector to `n` values. -/
def broadcastTo (v : List ℚ) (n : ℕ) : Except Err (List ℚ) :=
  if v.length = n then .ok v
  else match v with
    | [a] => .ok (List.replicate n a)
    | _ => .error .valueError

/-- `adjust_prob_cube` (height_adjustment.py:52-121) for one member, thresholds in metres.  Qhull refuses the points of a single site
because they lie on a line. -/
def adjustMember (thresholds : List ℚ) (sites : List (List ℚ)) (disp : List ℚ) : Except Err (List (List ℚ)) := do
  let d ← broadcastTo disp sites.length
  if sites.length < 2 then .error .runtimeError
  else (sites.zip d).mapM fun s => heightAdjustProbs thresholds s.1 s.2

/-- Lines 182-185 of height_adjustment.py along the last dimension: to metres, plus the displacements, back to the unit. -/
def raiseRow (unit : StdUnit) (disp row : List ℚ) : Except Err (List ℚ) := do
  let d ← broadcastTo disp row.length
  return List.zipWith (fun v d => convertUnit heightMetre unit (convertUnit unit heightMetre v + d)) row d

/-- `SpotHeightAdjustment.process` (height_adjustment.py:123-187); float32 rounding is left out.  The sum with the displacements broadcasts
along the last dimension (line 184), and the data of a cube cannot change their shape. -/
def heightAdjust (neighbours : List (String × List ℚ)) (method : String) (c : HeightCube) : Except Err HeightCube :=
  match c with
  | .probs thresholds unit members =>
    if thresholds.length < 2 then .error .valueError
    else if unit.dimension ≠ heightMetre.dimension then .error .valueError
    else do
      let disp ← displacements neighbours method
      let out ← members.mapM fun m => adjustMember (thresholds.map (convertUnit unit heightMetre)) m disp
      return .probs thresholds unit out
  | .values unit rows =>
    if unit.dimension ≠ heightMetre.dimension then .error .valueError
    else do
      let disp ← displacements neighbours method
      let out ← rows.mapM (raiseRow unit disp)
      return .values unit out

/-- `process` (cli/apply_height_adjustment.py:12-60). -/
def heightCommand (neighbours : List (String × List ℚ)) (land similarAltitude : Bool) (c : HeightCube) : Except Err HeightCube :=
  heightAdjust neighbours (methodName land similarAltitude) c

end Improver
