import Verif.Model.BlendRun
import Verif.Model.SpatialWeights

/-! Model of a blend with weights that follow the masks of the inputs: `WeightAndBlend.process` with `spatial_weights`
(improver/blending/calculate_weights_and_blend.py) and `_create_template_slice` (improver/blending/spatial_weights.py). -/

namespace Improver

/-- spatial_weights.py:251-261: the input of the spatial weighting, from the slices (blend point and values on `n` grid points) and their
one-dimensional weights.  `fuzzy` is in grid cells (calculate_weights_and_blend.py:166-169). -/
def spatialInput (n : ℕ) (fuzzy : ℚ) (edt : (ℕ → Bool) → ℕ → ℚ) (kept : List (ℚ × List (Option ℚ))) (w : List ℚ) : SWInput ℕ where
  pts := List.range n
  w1d := w
  mask := fun i g => match kept[i]? with
    | some s => (s.2.getD g none).isNone
    | none => false
  fuzzy := fuzzy
  edt := edt

/-- calculate_weights_and_blend.py:306-317 at grid point `g`: weights by the masks, then the weighted mean. -/
def spatialPoint (n : ℕ) (fuzzy : ℚ) (edt : (ℕ → Bool) → ℕ → ℚ) (kept : List (ℚ × List (Option ℚ))) (w : List ℚ) (g : ℕ) :
    Except Err (Option ℚ) := do
  let ws ← (spatialInput n fuzzy edt kept w).process g
  weightedBlend (kept.map fun s => (s.1, s.2.getD g none)) (some ((kept.map Prod.fst).zip ws))

/-- calculate_weights_and_blend.py:207-335 with `spatial_weights`, as in `weightAndBlend`; `edt` is scipy's
`distance_transform_edt`.  The slices have no dimensions besides the spatial ones (see `templateMask`). -/
def spatialBlend (m : WtsMethod) (n : ℕ) (fuzzy : ℚ) (edt : (ℕ → Bool) → ℕ → ℚ) (slices : List (ℚ × List (Option ℚ))) :
    Except Err (List (Option ℚ)) :=
  match sortByCoord slices with
  | [] => .error .valueError
  | [s] => .ok s.2
  | cube => do
    let w ← blendWeights m (cube.map Prod.fst)
    match keepWeighted w cube with
    | [] => .error .attributeError
    | [s] => .ok s.2
    | kept => (List.range n).mapM (spatialPoint n fuzzy edt kept ((keepWeighted w w).map Prod.snd))

/-- spatial_weights.py:100-119 `_create_template_slice`: the mask (by place along the blend dimension and grid point) used for a cube with
further dimensions, from the masks of its slices along these; they are only compared if the first has a masked point. -/
def templateMask (places : List (ℕ × ℕ)) : List (ℕ × ℕ → Bool) → Except Err (ℕ × ℕ → Bool)
  | [] => .error .runtimeError -- not reached: a cube has a slice
  | m :: rest =>
    if places.any m then
      if rest.all (fun k => places.all fun p => k p == m p) then .ok m else .error .valueError
    else .ok m

end Improver
