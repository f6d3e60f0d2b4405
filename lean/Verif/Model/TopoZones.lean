import Verif.Model.Interp

/-!
Model of improver/generate_ancillaries/generate_topographic_zone_weights.py and of
improver/generate_ancillaries/generate_ancillary.py.

Exact rationals in place of 32-bit floats; the calculations act point by point, so a field is modelled at one point of height
`h`.  The bands are taken to be in the units of the orography.  Cube building (`_make_mask_cube`) is left out except for its
check of the bounds.
-/

namespace Improver

/-- `calculate_weights` (generate_topographic_zone_weights.py:118-143) at a height within the band. -/
def zoneWeight (h : ℚ) (band : ℚ × ℚ) : ℚ :=
  npInterp [band.1, (band.1 + band.2) / 2, band.2] [1 / 2, 1, 1 / 2] h

/-- `add_weight_to_lower_adjacent_band` (generate_topographic_zone_weights.py:75-116) at a point in the band. -/
def lowerBand (w : ℕ → ℚ) (h mid : ℚ) (k : ℕ) : ℕ → ℚ :=
  if h < mid then (if k = 0 then Function.update w k 1 else Function.update w (k - 1) (1 - w k)) else w

/-- `add_weight_to_upper_adjacent_band` (generate_topographic_zone_weights.py:29-73) at a point in the band. -/
def upperBand (w : ℕ → ℚ) (h mid : ℚ) (k maxBand : ℕ) : ℕ → ℚ :=
  if h > mid then (if k = maxBand then Function.update w k 1 else Function.update w (k + 1) (1 - w k)) else w

/-- The body of the loop over bands (generate_topographic_zone_weights.py:234-267): outside the band the point is NaN and is
left as it is. -/
def zoneStep (maxBand : ℕ) (h : ℚ) (w : ℕ → ℚ) (k : ℕ) (band : ℚ × ℚ) : ℕ → ℚ :=
  if band.1 < h ∧ h ≤ band.2 then
    let mid := (band.1 + band.2) / 2
    upperBand (lowerBand (Function.update w k (zoneWeight h band)) h mid k) h mid k maxBand
  else w

/-- The loop, from band number `k` on. -/
def zoneLoop (maxBand : ℕ) (h : ℚ) : ℕ → List (ℚ × ℚ) → (ℕ → ℚ) → ℕ → ℚ
  | _, [], w => w
  | k, b :: bs, w => zoneLoop maxBand h (k + 1) bs (zoneStep maxBand h w k b)

/-- `GenerateTopographicZoneWeights.process` (generate_topographic_zone_weights.py:145-284) at one point: the weight of each
band, `none` where the land mask covers it. -/
def topoWeights (bands : List (ℚ × ℚ)) (land : Option Bool) (h : ℚ) : List (Option ℚ) :=
  let w := zoneLoop (bands.length - 1) h 0 bands fun _ => 0
  (List.range bands.length).map fun k => if land = some false then none else some (w k)

/-- Whether the plugin warns that weights may not sum to one (generate_topographic_zone_weights.py:213-229), for the heights of
the whole field. -/
def zoneWarns (bands : List (ℚ × ℚ)) (heights : List ℚ) : Bool :=
  let edges := bands.flatMap fun b => [b.1, b.2]
  heights.any (fun h => edges.all fun e => decide (e < h)) || heights.any (fun h => edges.all fun e => decide (h < e))

/-- `gen_orography_masks` (generate_ancillary.py:198-283) at one point, `land` being the land mask if there is one. -/
def bandMask (land : Option Bool) (h : ℚ) (band : ℚ × ℚ) : ℤ :=
  let m : ℤ := if h > band.1 ∧ h ≤ band.2 then 1 else 0
  if land = some false then 0 else m

/-- `GenerateOrographyBandAncils.process` (generate_ancillary.py:285-322) at one point: `none` for an empty dictionary. -/
def bandMasks (thresholds : Option (List (ℚ × ℚ))) (land : Option Bool) (h : ℚ) : Except String (List ℤ) :=
  match thresholds with
  | none => .error "ValueError: No threshold(s) found for topographic bands."
  | some bounds => .ok (bounds.map (bandMask land h))

/-- `THRESHOLDS_DICT` (generate_ancillary.py:20-36). -/
def defaultBands : List (ℚ × ℚ) :=
  [(-500, 50), (50, 100), (100, 150), (150, 200), (200, 250), (250, 300), (300, 400), (400, 500), (500, 650), (650, 800),
    (800, 950), (950, 6000)]

/-- The check of `_make_mask_cube` (generate_ancillary.py:70-84). -/
def maskBoundsOk (bounds : List (Option ℚ)) : Except String Unit :=
  if bounds.any (·.isNone) then .error "TypeError: both an upper and lower limit"
  else if bounds.length ≠ 2 then .error "TypeError: only an upper and lower limit"
  else .ok ()

/-- `CorrectLandSeaMask.process` (generate_ancillary.py:126-144) at one point. -/
def correctLandSea (x : ℚ) : ℚ :=
  let y := if x < 1 / 2 then 0 else x
  if y > 0 then 1 else y

end Improver
