import Verif.Model.Weights
import Verif.Model.Standards

/-!
Model of `ChooseWeightsLinear` (improver/blending/weights.py:123-498) for all its inputs.  Every input stands for one slice over the weighting coordinate (and
y, x, over which weights do not vary); a merged cube is the list of its slices over the configuration coordinate (lines 450-458).  The coordinates kept on
the weights (lines 344-370) and data types are not modelled.
-/

namespace Improver

/-- One entry of the configuration: points, weights and the unit of the points if it is given (weights.py:146-187). -/
structure LinTable where
  points : List ℚ
  weights : List ℚ
  unit : Option StdUnit
  deriving DecidableEq

/-- One input: the points of its configuration coordinate, those of its weighting coordinate with their unit, and whether that is a dimension. -/
structure LinInput where
  keys : List String
  points : List ℚ
  unit : StdUnit
  isDim : Bool
  deriving DecidableEq

/-- weights.py:205-233 `_check_config_dict`, for all entries. -/
def checkLinConfig (config : List (String × LinTable)) : Except Err Unit :=
  if config.all fun e => decide (e.2.points.length = e.2.weights.length) then .ok () else .error .valueError

/-- weights.py:260-266: the points of the table in the unit of the coordinate. -/
def linPoints (t : LinTable) (u : StdUnit) : Except Err (List ℚ) :=
  match t.unit with
  | none => .ok t.points
  | some v => if v.dimension ≠ u.dimension then .error .valueError else .ok (t.points.map (convertUnit v u))

/-- weights.py:235-316, 374-403: the weights of one input before normalisation, under its key. -/
def linRow (config : List (String × LinTable)) (c : LinInput) : Except Err (String × List ℚ) :=
  match c.keys with
  | [k] =>
    match config.lookup k with
    | none => .error .keyError
    | some t => do
      let pts ← linPoints t c.unit
      let ws ← c.points.mapM (chooseLinearRaw pts t.weights)
      .ok (k, ws)
  | _ => .error .valueError

/-- weights.py:492 `merge_cube`: slices of different keys; if the weighting coordinate is a dimension its points are the same in all.  (Slices of the same key
that differ in a scalar coordinate are not modelled.) -/
def checkMergeLin (inputs : List LinInput) : Except Err Unit :=
  if inputs = [] ∨ ¬ (inputs.map LinInput.keys).Nodup then .error .valueError
  else if inputs.all fun c => inputs.all fun d => decide (c.isDim = d.isDim ∧ c.unit = d.unit ∧ c.points.length = d.points.length ∧ (c.isDim → c.points = d.points))
  then .ok () else .error .valueError

/-- weights.py:493-496: normalised over the inputs, separately for every point of the weighting coordinate. -/
def normaliseRows (n : ℕ) (rows : List (String × List ℚ)) : Except Err (List (String × List ℚ)) := do
  let cols ← (List.range n).mapM fun i => normaliseWeights (rows.map fun r => r.2.getD i 0)
  .ok ((List.range rows.length).map fun j => ((rows.getD j ("", [])).1, cols.map fun col => col.getD j 0))

/-- weights.py:189-193, 466-498 `process`.  Merging puts the keys in iris's order (`order`, any rearrangement). -/
def linWeightsProcess (order : List (String × List ℚ) → List (String × List ℚ)) (config : List (String × LinTable)) (inputs : List LinInput) :
    Except Err (List (String × List ℚ)) := do
  checkLinConfig config
  let rows ← inputs.mapM (linRow config)
  checkMergeLin inputs
  let out ← normaliseRows ((inputs.map fun c => c.points.length).headD 0) rows
  .ok (order out)

end Improver
