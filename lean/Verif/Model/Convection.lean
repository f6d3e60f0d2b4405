import Verif.Model.ProbName
import Mathlib.Data.Rat.Cast.Defs

/-!
Model of improver/precipitation_type/convection.py and improver/precipitation_type/utilities.py.

Numbers are rationals.  The two components are taken on the same coordinates (iris adds cubes element by element);
the attributes of the result are not modelled.
-/

namespace Improver

/-- A component of precipitation: name, the factor that converts its units to m s-1 (`none` when they do not
convert), and the values in its own units. -/
structure CompCube where
  name : String
  toSI : Option ℚ
  data : List ℚ
deriving DecidableEq

/-- convection.py:41-67 `_get_cube`: exactly one cube of the name, its values in m s-1. -/
def getRate (cubes : List CompCube) (name : String) : Except Err (List ℚ) :=
  match cubes.filter (fun c => decide (c.name = name)) with
  | [c] =>
    match c.toSI with
    | some k => .ok (c.data.map fun x => x * k)
    | none => .error .valueError
  | _ => .error .valueError

/-- convection.py:69-81 `_convective_ratio` at one point; `none` = masked. -/
def convectiveRatio (convective dynamic : ℚ) : Option ℚ :=
  let precipitation := convective + dynamic
  if npIsclose precipitation 0 (1 / 100000) (1 / 1000000000) then none else some (convective / precipitation)

/-- convection.py:31-39, 83-116 `process`. -/
def convectionRatios (cubes : List CompCube) : Except Err (List (Option ℚ)) := do
  let convective ← getRate cubes "lwe_convective_precipitation_rate"
  let dynamic ← getRate cubes "lwe_stratiform_precipitation_rate"
  pure (List.zipWith convectiveRatio convective dynamic)

/-- A cube with coordinates; `dims` are its coordinates with their points, `data` is whatever it holds. -/
structure ShowerCube where
  name : String
  coords : List (NamedCoord × List ℚ × String)
  data : List ℚ
deriving DecidableEq

/-- utilities.py:60-63: the threshold coordinate becomes the shower condition with the point 1; its attributes
stay. -/
def showerCoord (c : NamedCoord × List ℚ × String) : NamedCoord × List ℚ × String :=
  ({ c.1 with name := "shower_condition", varName := some "threshold" }, [1], "1")

/-- utilities.py:14-65 `make_shower_condition_cube`: the result, and the cube passed in as the call leaves it (also
when it fails). -/
def makeShowerCube (cube : ShowerCube) (inPlace : Bool) : Except Err ShowerCube × ShowerCube :=
  let work := { cube with name := "probability_of_shower_condition_above_threshold" }
  let left := fun (c : ShowerCube) => if inPlace then c else cube
  match findThreshold (work.coords.map Prod.fst) with
  | .error _ => (.error .coordinateNotFound, left work)
  | .ok t =>
    match work.coords.find? (fun c => decide (c.1 = t)) with
    | some (_, [_], _) =>
      let out := { work with coords := work.coords.map fun c => if c.1 = t then showerCoord c else c }
      (.ok out, left out)
    | _ => (.error .valueError, left work)

end Improver
