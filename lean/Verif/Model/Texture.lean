import Verif.Model.Nbhood
import Verif.Model.Threshold

/-! Model of `improver/utilities/textural.py` (FieldTexture).  The square neighbourhood sums are those of
`Verif/Model/Nbhood.lean`. -/

namespace Improver

/-- `np.pad(data, 1, mode="edge")` (textural.py:169): value at padded indices. -/
def edgePad (h w : ℕ) (f : ℕ → ℕ → ℚ) (a b : ℕ) : ℚ := f (min (a - 1) (h - 1)) (min (b - 1) (w - 1))

/-- `FieldTexture._calculate_transitions` (textural.py:153-176) at `(y, x)`. -/
def textureTransitions (h w : ℕ) (f : ℕ → ℕ → ℚ) (y x : ℕ) : ℚ :=
  let p := edgePad h w f
  let diffX := fun a b => |p a (b + 1) - p a b|
  let diffY := fun a b => |p (a + 1) b - p a b|
  let sumX := fun a b => diffX a b + diffX a (b + 1)
  let sumY := fun a b => diffY a b + diffY (a + 1) b
  if f y x > 0 then sumX (y + 1) x + sumY y (x + 1) else 0

/-- `FieldTexture._calculate_ratio` (textural.py:76-151) at `(y, x)`, with a neighbourhood of `2*r + 1` points. -/
def textureRatio (h w r : ℕ) (f : ℕ → ℕ → ℚ) (y x : ℕ) : Except Err ℚ := do
  let potential ← nbhoodSum h w r (fun _ _ => true) f y x
  let actual ← nbhoodSum h w r (fun _ _ => true) (textureTransitions h w f) y x
  return if f y x > 0 then actual / (4 * potential) else 1

/-- The binary check (textural.py:195-198). -/
def textureBinary (h w : ℕ) (f : ℕ → ℕ → ℚ) : Bool :=
  (List.range h).all (fun y => (List.range w).all (fun x => decide (f y x = 0 ∨ f y x = 1)))

/-- Ratio of one realization, then `Threshold(threshold_values=textural_threshold)` (textural.py:231-237): the default
comparison `>` with no fuzziness. -/
def textureMember (h w r : ℕ) (thr : ℚ) (f : ℕ → ℕ → ℚ) (y x : ℕ) : Except Err ℚ := do
  let ratio ← textureRatio h w r f y x
  truthValue .gt thr (thr, thr) ratio

/-- `FieldTexture.process` (textural.py:178-245) at `(y, x)`: `cube` pairs each threshold with the fields of the
realizations.  The threshold is extracted with `np.isclose`; exactly one may match (the code assumes the coordinate then is
scalar).  The realizations are collapsed to their mean. -/
def textureProcess (h w r : ℕ) (diagnosticThr texturalThr : ℚ) (cube : List (ℚ × List (ℕ → ℕ → ℚ))) (y x : ℕ) :
    Except Err ℚ := do
  if cube.any (fun e => e.2.any (fun f => !textureBinary h w f)) then .error .valueError
  else
    match cube.filter (fun e => npIsclose e.1 diagnosticThr) with
    | [e] => do
      let vs ← e.2.mapM (fun f => textureMember h w r texturalThr f y x)
      return vs.sum / vs.length
    | _ => .error .valueError

end Improver
