import Verif.Model.Rescale

/-! Model of `improver/blending/spatial_weights.py`. -/

namespace Improver

/-- Inputs of `SpatiallyVaryingWeightsFromMask.process`: the grid points, the one-dimensional weights (one per slice of the
blend coordinate), the mask of every slice, the fuzzy length, and `scipy.ndimage.distance_transform_edt` (distance of a
point to the nearest point where the given field is false), which is kept as a parameter. -/
structure SWInput (P : Type) where
  pts : List P
  w1d : List ℚ
  mask : ℕ → P → Bool
  fuzzy : ℚ
  edt : (P → Bool) → P → ℚ

namespace SWInput
variable {P : Type} (s : SWInput P)

/-- Broadcast weights set to zero where masked (spatial_weights.py:254-261). -/
def w0 (i : ℕ) (p : P) : ℚ := if s.mask i p then 0 else s.w1d.getD i 0

/-- Sum over the blend axis of a weights field. -/
def sumOver (f : ℕ → P → ℚ) (p : P) : ℚ := ((List.range s.w1d.length).map (fun i : ℕ => f i p)).sum

/-- `_normalise_initial_weights` (spatial_weights.py:121-136). -/
def w1 (i : ℕ) (p : P) : ℚ := if s.sumOver s.w0 p > 0 then s.w0 i p / s.sumOver s.w0 p else 0

/-- `weights_nonzero` of slice `i` (spatial_weights.py:154). -/
def nonzero (i : ℕ) (p : P) : Bool := decide (s.w1 i p > 0)

/-- `np.all(weights_nonzero)`. -/
def allNonzero (i : ℕ) : Bool := s.pts.all (s.nonzero i)

/-- `_rescale_masked_weights` (spatial_weights.py:138-189): new weight. -/
def w2 (i : ℕ) (p : P) : Except Err ℚ :=
  if s.allNonzero i then .ok (s.w1 i p)
  else do
    let f ← rescale (s.edt (s.nonzero i) p) (0, s.fuzzy) (0, 1) true
    return s.w1 i p * f

/-- `_rescale_unmasked_weights` (spatial_weights.py:191-215) at one point, given the slices' weights after masking
(`a`) and before (`b`). -/
def finish (a b : List ℚ) : List ℚ :=
  let rescaled := (a.zip b).map (fun x => decide (x.1 ≠ x.2))
  let rescaledData := (a.zip rescaled).map (fun x => if x.2 then x.1 else 0)
  let unscaledData := (a.zip rescaled).map (fun x => if x.2 then 0 else x.1)
  let unscaledSum := unscaledData.sum
  let requiredSum := 1 - rescaledData.sum
  let factor := if unscaledSum > 0 then requiredSum / unscaledSum else 0
  (unscaledData.zip rescaledData).map (fun x => x.1 * factor + x.2)

/-- `process` (spatial_weights.py:217-271) at point `p`: the weights of the slices.  Without any masked point
(`np.ma.is_masked` false) a warning is issued and the broadcast weights are returned as they are. -/
def process (p : P) : Except Err (List ℚ) :=
  if (List.range s.w1d.length).all (fun i : ℕ => s.pts.all (fun q => !s.mask i q)) then .ok s.w1d
  else do
    let a ← (List.range s.w1d.length).mapM (fun i : ℕ => s.w2 i p)
    return finish a ((List.range s.w1d.length).map (fun i : ℕ => s.w1 i p))

end SWInput
end Improver
