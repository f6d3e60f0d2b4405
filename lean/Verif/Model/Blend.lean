import Verif.Model.Interp
import Verif.Model.Weights

/-! Model of `improver/blending/weighted_blend.py`. -/

namespace Improver

/-- Contribution of one (value, weight) pair to the weighted sum: nothing when masked. -/
def numTerm : Option ℚ × ℚ → ℚ
  | (some x, u) => u * x
  | (none, _) => 0

/-- Contribution of one (value, weight) pair to the total weight: nothing when masked. -/
def denTerm : Option ℚ × ℚ → ℚ
  | (some _, u) => u
  | (none, _) => 0

/-- `iris.analysis.MEAN` with weights (`np.ma.average`) at one grid point, as used at weighted_blend.py:652-655:
masked values (`none`) drop out together with their weight, and a zero total weight gives a masked result. -/
def maAverage (vals : List (Option ℚ)) (w : List ℚ) : Option ℚ :=
  let num := ((vals.zip w).map numTerm).sum
  let den := ((vals.zip w).map denTerm).sum
  if den = 0 then none else some (num / den)

/-- `sort_coord_in_cube` (cube_manipulation.py:431-465) on (coordinate point, value) pairs. -/
def sortByCoord {α : Type} (l : List (ℚ × α)) : List (ℚ × α) := l.insertionSort (fun a b => a.1 ≤ b.1)

/-- `WeightedBlendAcrossWholeDimension.process` for a non-percentile cube at one grid point
(weighted_blend.py:554-577, 615-663, 709-725; not directions in degrees): data and weights as (blend coordinate point,
value) pairs; no weights means equal weights.  A weights cube of another length is refused by `shape_weights`
(weighted_blend.py:515-528). -/
def weightedBlend (data : List (ℚ × Option ℚ)) (weights : Option (List (ℚ × ℚ))) : Except Err (Option ℚ) :=
  let d := sortByCoord data
  match weights with
  | none => .ok (maAverage (d.map Prod.snd) (d.map (fun _ => 1 / (d.length : ℚ))))
  | some w =>
    let ws := sortByCoord w
    if ws.length ≠ d.length then .error .valueError
    else .ok (maAverage (d.map Prod.snd) (ws.map Prod.snd))

/-- `_normalise_weights` (weighted_blend.py:532-552) at one grid point, given whether all grid points' non-zero sums
are already close to one. -/
def normaliseAtPoint (allClose : Bool) (w : List ℚ) : List ℚ :=
  if allClose then w else w.map (fun x => if w.sum > 0 then x / w.sum else 0)

/-- Entry of `combined_cdf` for input `j` and percentile index `k` (weighted_blend.py:340-346). -/
def combinedCdfEntry (rows : List (List ℚ)) (p w : List ℚ) (j k : ℕ) : ℚ :=
  ((List.range rows.length).map (fun i : ℕ =>
    (if i = j then p.getD k 0 else npInterp (rows.getD i []) p ((rows.getD j []).getD k 0)) * w.getD i 0)).sum

/-- `combined_cdf.flatten()`. -/
def combinedCdf (rows : List (List ℚ)) (p w : List ℚ) : List ℚ :=
  (List.range rows.length).flatMap (fun j : ℕ =>
    (List.range p.length).map (fun k : ℕ => combinedCdfEntry rows p w j k))

/-- `PercentileBlendingAggregator.blend_percentiles` (weighted_blend.py:311-360) at one grid point; `rows` has one row of
percentile values per blended input, each as long as `p`. -/
def blendPercentiles (rows : List (List ℚ)) (p w : List ℚ) : List ℚ :=
  let thres := npSort rows.flatten
  let probs := npSort (combinedCdf rows p w)
  p.map (npInterp probs thres)

end Improver
