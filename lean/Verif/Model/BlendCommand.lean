import Verif.Model.SpatialBlend
import Verif.Model.Rename

/-! Models of the blending commands (improver/cli/weighted_blending.py, improver/cli/blend_with_vicinity_and_rename.py): their options, the
way to get weights, the data and the record of the vicinity. -/

namespace Improver

/-- weighted_blending.py:14-32: the options that decide what is done.  `config`: `weighting_config` with the value of the weighting
coordinate; `modelId`, `recordRun`: whether the option is given. -/
structure BlendArgs where
  coordinate : Text
  method : Text
  y0 : Option ℚ
  yn : Option ℚ
  cval : Option ℚ
  config : Option ((ℚ → List ℚ × List ℚ) × ℚ)
  modelId : Bool
  recordRun : Bool
  spatial : Bool

/-- Python: `bool(x)` for a number or None. -/
def optTruthy : Option ℚ → Bool
  | none => false
  | some x => decide (x ≠ 0)

/-- weighted_blending.py:128-143: the checks of the options. -/
def blendArgsCheck (a : BlendArgs) : Except Err Unit :=
  if a.method = "linear".toList ∧ optTruthy a.cval = true then .error .runtimeError
  else if a.method = "nonlinear".toList ∧ (optTruthy a.y0 = true ∨ optTruthy a.yn = true) then .error .runtimeError
  else if a.method = "dict".toList ∧ a.config.isNone = true then .error .runtimeError
  else if hasPart "model".toList a.coordinate = true ∧ a.modelId = false then .error .runtimeError
  else if a.recordRun = true ∧ a.modelId = false then .error .runtimeError
  else .ok ()

/-- calculate_weights_and_blend.py:98-112: the way to get weights, which only keeps the options that belong to it; the order is not
inverted by the command. -/
def blendArgsMethod (a : BlendArgs) : Except Err WtsMethod :=
  if a.method = "dict".toList then
    match a.config with
    | some c => .ok (.dict c.1 c.2)
    | none => .error .runtimeError
  else if a.method = "linear".toList then .ok (.linear a.y0 a.yn)
  else if a.method = "nonlinear".toList then .ok (.nonlinear a.cval false)
  else .error .valueError

/-- weighted_blending.py:123-165: the data of the blend (`weightAndBlend`, `spatialBlend`). -/
def blendCommand (a : BlendArgs) (n : ℕ) (fuzzy : ℚ) (edt : (ℕ → Bool) → ℕ → ℚ) (slices : List (ℚ × List (Option ℚ))) :
    Except Err (List (Option ℚ)) := do
  blendArgsCheck a
  let m ← blendArgsMethod a
  if a.spatial then spatialBlend m n fuzzy edt slices else weightAndBlend m n slices

/-- blend_with_vicinity_and_rename.py:123-146: an empty name and a radius of 0 stand for None.  `blended`: name, coordinates and cell
methods of the result of weighted-blending. -/
def vicinityBlendCommand (name : Text) (radius : ℚ) (a : BlendArgs) (n : ℕ) (fuzzy : ℚ) (edt : (ℕ → Bool) → ℕ → ℚ)
    (slices : List (ℚ × List (Option ℚ))) (blended : DiagMeta) : Except Err (List (Option ℚ) × DiagMeta) :=
  if name = [] ∧ radius = 0 then .error .valueError
  else do
    let r ← blendCommand a n fuzzy edt slices
    let m ← updateVicinity name radius blended
    .ok (r, m)

end Improver
