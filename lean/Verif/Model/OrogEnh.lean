import Verif.Model.Hail
import Mathlib.Analysis.SpecialFunctions.Exp
import Mathlib.Data.Finset.Lattice.Fold

/-!
Model of improver/orographic_enhancement.py.

Floating point arithmetic is replaced by the reals; a NaN is `none`.  Regridding, wind rotation, the orography
gradients and the 3x3 neighbourhood mean of the topography are inputs (fields on the topography grid); the cube
metadata of the result is not modelled.  Fields are functions of the row y and the column x; only 0 ≤ y < ny and
0 ≤ x < nx are read.
-/

namespace Improver

/-- A two-dimensional field on a grid. -/
abbrev RField := ℕ → ℕ → ℝ

/-- orographic_enhancement.py:250-260 `_generate_mask` at one point: mean 3x3 height (m), relative humidity and
v.gradZ (m s-1). -/
noncomputable def orogMasked (meanHeight rh vgradz : ℝ) : Bool :=
  open Classical in
  let mask := false
  let mask := if meanHeight < 20 then true else mask
  let mask := if rh < 0.8 then true else mask
  if |vgradz| < 0.0005 then true else mask

/-- orographic_enhancement.py:229-232: v.gradZ from the gradients of the orography and the wind. -/
def vGradZ (gradx grady u v : ℝ) : ℝ := gradx * u + grady * v

/-- orographic_enhancement.py:262-282 `_point_orogenh` at one point (mm h-1): temperature (K), saturation vapour
pressure (Pa).  `R_WATER_VAPOUR` is 461.6 (constants.py). -/
noncomputable def pointEnhancement (meanHeight rh svp vgradz t : ℝ) : ℝ :=
  open Classical in
  let mask := !orogMasked meanHeight rh vgradz
  let prefactor := 3600.0 / 461.6
  let numerator := rh * svp * vgradz
  let e := if mask then prefactor * (numerator / t) else 0
  if e > 0 then e else 0

/-- orographic_enhancement.py:430-438: the wind speed and the sine and cosine of its direction; both are zero
where the speed is zero to `np.isclose` (absolute tolerance 1e-8). -/
noncomputable def windSpeedOf (u v : ℝ) : ℝ := √(u ^ 2 + v ^ 2)

/-- orographic_enhancement.py:431-432: the mask of points that are not calm. -/
noncomputable def hasWind (u v : ℝ) : Bool :=
  open Classical in !decide (|windSpeedOf u v - 0| ≤ 1e-8 + 1e-5 * |(0 : ℝ)|)

/-- orographic_enhancement.py:434-435. -/
noncomputable def sinWind (u v : ℝ) : ℝ := if hasWind u v then u / windSpeedOf u v else 0

/-- orographic_enhancement.py:437-438. -/
noncomputable def cosWind (u v : ℝ) : ℝ := if hasWind u v then v / windSpeedOf u v else 0

/-- orographic_enhancement.py:440-442. -/
noncomputable def maxSinCos (u v : ℝ) : ℝ :=
  open Classical in if |sinWind u v| > |cosWind u v| then |sinWind u v| else |cosWind u v|

/-- orographic_enhancement.py:302-303: the number of source points of a cell (`astype(int)` of a value that is
not negative rounds down). -/
noncomputable def maxRoi (spacing msc : ℝ) : ℕ := ⌊15 / spacing * msc⌋₊

/-- orographic_enhancement.py:305: the length of the leading axis of the distance array. -/
noncomputable def roiLength (ny nx : ℕ) (spacing : ℝ) (u v : RField) : ℕ :=
  ((Finset.range ny) ×ˢ (Finset.range nx)).sup fun p => maxRoi spacing (maxSinCos (u p.1 p.2) (v p.1 p.2))

/-- orographic_enhancement.py:306-314: the distances (grid squares) of the source points of one cell. -/
noncomputable def pointDistances (length roi : ℕ) (msc : ℝ) : List (Option ℝ) :=
  (List.range length).map fun k => if k < roi then some ((k : ℝ) / msc) else none

/-- orographic_enhancement.py:345-357: one coordinate of a source point, forced into the domain.  A NaN distance
converts to the smallest integer, which becomes 0. -/
noncomputable def sourceIndex (n pos : ℕ) (d : Option ℝ) (s : ℝ) : ℕ :=
  match d with
  | none => 0
  | some d =>
    let i := rintR (pos - d * s)
    let i := if i < 0 then 0 else i
    let i := if i > (n : ℤ) - 1 then (n : ℤ) - 1 else i
    i.toNat

/-- orographic_enhancement.py:403-412: the weight of a source point; wind speed in m s-1, spacing in km. -/
noncomputable def sourceWeight (spacing ws : ℝ) (d : Option ℝ) : ℝ :=
  open Classical in
  let stddev := ws * 102 / (1000 * spacing)
  let variance := stddev ^ 2
  match d with
  | none => 0
  | some d => if variance > 0 then Real.exp (-0.5 * d ^ 2 / variance) else 0

/-- orographic_enhancement.py:392-416 `_compute_weighted_values` at one cell: the sum of the weighted values and
the sum of the weights. -/
noncomputable def weightedSums (ny nx : ℕ) (spacing : ℝ) (point : RField) (y x : ℕ) (u v : ℝ)
    (ds : List (Option ℝ)) : ℝ × ℝ :=
  ((ds.map fun d => point (sourceIndex ny y d (cosWind u v)) (sourceIndex nx x d (sinWind u v)) *
      sourceWeight spacing (windSpeedOf u v) d).sum,
    (ds.map fun d => sourceWeight spacing (windSpeedOf u v) d).sum)

/-- orographic_enhancement.py:418-462 `_add_upstream_component` at the cell (y, x).  `none` = division by a zero
sum of weights (0/0 is NaN). -/
noncomputable def upstreamComponent (ny nx : ℕ) (spacing : ℝ) (u v point : RField) (y x : ℕ) : Option ℝ :=
  open Classical in
  let msc := maxSinCos (u y x) (v y x)
  let ds := pointDistances (roiLength ny nx spacing u v) (maxRoi spacing msc) msc
  let s := weightedSums ny nx spacing point y x (u y x) (v y x) ds
  if hasWind (u y x) (v y x) then
    if s.2 = 0 then none else some (0.23265 * (s.1 / s.2))
  else some s.1

/-- The fields on the topography grid from which the enhancement is computed (orographic_enhancement.py:194-232). -/
structure OrogFields where
  meanHeight : RField
  rh : RField
  temperature : RField
  pressure : RField
  u : RField
  v : RField
  gradx : RField
  grady : RField

/-- orographic_enhancement.py:569-573: the point enhancement of every cell (mm h-1). -/
noncomputable def pointField (f : OrogFields) : RField := fun y x =>
  pointEnhancement (f.meanHeight y x) (f.rh y x) (svpInAir (f.temperature y x) (f.pressure y x))
    (vGradZ (f.gradx y x) (f.grady y x) (f.u y x) (f.v y x)) (f.temperature y x)

/-- orographic_enhancement.py:575-583, 505: the orographic enhancement at (y, x), converted from mm h-1 to m s-1;
`xkm` are the x points of the grid in km. -/
noncomputable def orogEnhancement (ny nx : ℕ) (xkm : ℕ → ℝ) (f : OrogFields) (y x : ℕ) : Option ℝ :=
  (upstreamComponent ny nx (xkm 1 - xkm 0) f.u f.v (pointField f) y x).map fun e => e / 3600000

end Improver
