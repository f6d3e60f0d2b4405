import Verif.Basic
import Mathlib.Analysis.SpecialFunctions.Log.Basic
import Mathlib.Analysis.SpecialFunctions.Pow.Real
import Mathlib.Data.List.Sort

/-!
Model of `improver/wind_calculations/wind_downscaling.py` for one column of the grid.  `none` is NaN.  Arithmetic is exact and real; heights are
assumed positive (negative ones are masked by the code, and the logarithm of zero is minus infinity there).
-/

namespace Improver

/-- `RMDI` (constants.py:13). -/
def rmdi : ℝ := -32767

/-- The ancillaries of one grid point.  `z0 = none`: no roughness length cube was given. -/
structure WindAncil where
  aos : Option ℝ
  sigma : Option ℝ
  z0 : Option (Option ℝ)
  pporo : Option ℝ
  modoro : Option ℝ

/-- `sigma2hover2` (wind_downscaling.py:229-231). -/
noncomputable def hOver2 (sigma : Option ℝ) : ℝ :=
  match sigma with
  | some s => if 0 < s then s * Real.sqrt 2 else rmdi
  | none => rmdi

/-- The first mask of `_setmask` (wind_downscaling.py:193-197). -/
def hcSet (a : WindAncil) (ho2 : ℝ) : Prop :=
  ¬ ho2 ≤ 0 ∧ ∃ s, a.aos = some s ∧ ¬ s ≤ 0

/-- The second mask of `_setmask` (wind_downscaling.py:198-201). -/
def rcSet (a : WindAncil) (ho2 : ℝ) : Prop :=
  hcSet a ho2 ∧ (∀ z, a.z0 = some z → ∃ v, z = some v ∧ ¬ v ≤ 0)

/-- Line 155 of wind_downscaling.py, in place: the ancillary after the construction. -/
noncomputable def z0Filled (a : WindAncil) : WindAncil :=
  match a.z0 with
  | some (some v) => if v ≤ 0 then { a with z0 := some (some (1 / 10000)) } else a
  | _ => a

/-- `_refinemask` (wind_downscaling.py:174-177). -/
def hcRefined (a : WindAncil) (ho2 : ℝ) : Prop :=
  hcSet a ho2 ∧ (∃ p, a.pporo = some p ∧ p ≠ rmdi) ∧ ∃ m, a.modoro = some m ∧ m ≠ rmdi

/-- `_calc_wav` (wind_downscaling.py:280-287). -/
noncomputable def waveNum (a : WindAncil) (ho2 dxMin dxMax : ℝ) : ℝ :=
  open Classical in
  let w0 := if hcSet a ho2 then (a.aos.getD 0 * Real.pi) / ho2 else rmdi
  let w1 := if w0 > Real.pi / dxMin then Real.pi / dxMin else w0
  let w2 := if ho2 = 0 then rmdi else w1
  if |w2| < Real.pi / dxMax then Real.pi / dxMax else w2

/-- `_calc_h_ref` (wind_downscaling.py:312-325). -/
noncomputable def hRef (a : WindAncil) (ho2 k : ℝ) : ℝ :=
  open Classical in
  let t0 := if hcSet a ho2 then -Real.log 0.04 + Real.log (k * ho2) else rmdi
  let t1 := if t0 > 1 then 1 else t0
  let t2 := if t1 < 0 then 0 else t1
  let h0 := if hcSet a ho2 then t2 / k else rmdi
  let h1 := if h0 < 1 then 1 else h0
  let h2 := min h1 (2 * ho2)
  let h3 := if h2 < 1 then 1 else h2
  if hcSet a ho2 then h3 else 0

/-- `np.argmax(h_in > here)` (wind_downscaling.py:404): the first level above, or the first level. -/
noncomputable def upIdx (hs : List ℝ) (here : ℝ) : ℕ :=
  open Classical in if ∃ h ∈ hs, here < h then hs.findIdx (fun h => decide (here < h)) else 0

/-- `np.argmin(masked_less(here - h_in, 0))` (wind_downscaling.py:406-408): the first level at the smallest distance below, or the first level. -/
noncomputable def loIdx (hs : List ℝ) (here : ℝ) : ℕ :=
  open Classical in
  if ∃ h ∈ hs, h ≤ here then hs.findIdx (fun h => decide (h ≤ here ∧ ∀ h' ∈ hs, h' ≤ here → here - h ≤ here - h')) else 0

/-- `_interpolate_1d` (wind_downscaling.py:463-471). -/
noncomputable def interpolate1d (xup xlow x yup ylow : ℝ) : ℝ :=
  open Classical in if xup - xlow ≠ 0 then ylow + (x - xlow) / (xup - xlow) * (yup - ylow) else x / xup * yup

/-- `_calc_u_at_h` at an unmasked point (wind_downscaling.py:397-438).  `col` holds the height and the speed of each level. -/
noncomputable def uAtH (col : List (ℝ × ℝ)) (here : ℝ) : ℝ :=
  let hs := col.map Prod.fst
  let us := col.map Prod.snd
  let u := upIdx hs here
  let l := loIdx hs here
  interpolate1d (hs.getD u 0) (hs.getD l 0) here (us.getD u 0) (us.getD l 0)

/-- `FrictionVelocity` and `calc_roughness_correction` for one level (wind_downscaling.py:87-92, 351-370); `mask` false makes the reference height
`RMDI`, below every level. -/
noncomputable def roughOne (col : List (ℝ × ℝ)) (href z0 : ℝ) (h u : ℝ) : ℝ :=
  open Classical in if h < href then (0.4 * (uAtH col href / Real.log (href / z0)) * Real.log (h / z0)) / 0.4 else u

/-- `calc_roughness_correction` at a column (wind_downscaling.py:327-370). -/
noncomputable def roughColumn (mask : Prop) (col : List (ℝ × ℝ)) (href z0 : ℝ) : List (ℝ × ℝ) :=
  open Classical in if mask then col.map (fun hu => (hu.1, roughOne col href z0 hu.1 hu.2)) else col

/-- `_calc_height_corr` for one level (wind_downscaling.py:552-557); `dz` is the difference of the orographies, `ua` the speed at `1/k`. -/
noncomputable def heightCorr (mask : Prop) (ua k dz h : ℝ) : ℝ :=
  open Classical in
  let expon := if k * h > 0.0001 then Real.exp (-(k * h)) else 1
  if mask then expon * ua * (dz * k) * 1 else 0

/-- The wind before the height correction (wind_downscaling.py:597-600): the masks are those of the ancillary as it is found, the roughness length is
the filled one.  A NaN roughness length is outside the mask. -/
noncomputable def baseColumn (a : WindAncil) (ho2 href : ℝ) (col : List (ℝ × ℝ)) : List (ℝ × ℝ) :=
  match (z0Filled a).z0 with
  | some z => roughColumn (rcSet a ho2) col href (z.getD 0)
  | none => col

/-- `RoughnessCorrectionUtilities.__init__` and `do_rc_hc_all` at one column (wind_downscaling.py:148-163, 593-611). -/
noncomputable def rcHcColumn (a : WindAncil) (ppres modres : ℝ) (col : List (ℝ × ℝ)) : List (ℝ × ℝ) :=
  open Classical in
  let ho2 := hOver2 a.sigma
  let k := waveNum a ho2 (ppres / 2) (3 * modres)
  let href := hRef a ho2 k
  let unew := baseColumn a ho2 href col
  let ua := uAtH col (1 / k)
  let mask := hcRefined a ho2 ∧ ¬ ua ≤ 0
  let dz := a.pporo.getD 0 - a.modoro.getD 0
  unew.map (fun hu =>
    let r := hu.2 + heightCorr mask ua k dz hu.1
    (hu.1, if r < 0 then 0 else r))

/-- `RoughnessCorrection.process` at one column for a cube of one time (wind_downscaling.py:894-952): wind that is not a number or negative raises;
the plugin is left with the filled roughness length (the array of the cube is changed in place). -/
noncomputable def roughnessProcess (a : WindAncil) (ppres modres : ℝ) (hs : List ℝ) (us : List (Option ℝ)) :
    Except Err (List (ℝ × ℝ)) × WindAncil :=
  open Classical in
  if ∃ u ∈ us, u = none ∨ ∃ v, u = some v ∧ v < 0 then (.error .valueError, z0Filled a)
  else (.ok (rcHcColumn a ppres modres (hs.zip (us.map (fun u => u.getD 0)))), z0Filled a)

/-! ### Coordinates -/

/-- `find_coord_names` for the vertical or the time coordinate (wind_downscaling.py:703-711): the names that `list(set.intersection(…))[0]` can be,
since the order of a set of strings varies from one run to another; `none` when there is none. -/
def coordChoices (names wanted : List String) : List (Option String) :=
  match (names.filter (fun n => decide (n ∈ wanted))).eraseDups with
  | [] => [none]
  | l => l.map some

inductive WAxis where
  | x | y | z | t
  deriving DecidableEq, Repr

/-- `cube.transpose(order)` on the list of dimensions; a wrong number of dimensions raises. -/
def transposeDims {α : Type} (dims : List α) (order : List ℕ) : Except Err (List α) :=
  if order.length ≠ dims.length then .error .valueError else .ok (order.filterMap (fun i => dims[i]?))

/-- `np.argsort`. -/
def argsortNat (p : List ℕ) : List ℕ := (List.range p.length).insertionSort (fun i j => p.getD i 0 ≤ p.getD j 0)

/-- The dimensions of the result (wind_downscaling.py:915-919, 936-950) for an input of dimensions `dims`; `nt` is the number of times.  Without a
time dimension, the slices over the scalar time are the cube itself. -/
def downscaleDims (dims : List WAxis) (nt : ℕ) : Except Err (List WAxis) :=
  let ywp := dims.idxOf .y
  let xwp := dims.idxOf .x
  let zwp := dims.idxOf .z
  let twp := dims.idxOf .t
  if .t ∈ dims then
    let merged : List WAxis := if nt = 1 then [.y, .x, .z] else [.t, .y, .x, .z]
    transposeDims merged (argsortNat [twp, ywp, xwp, zwp])
  else transposeDims [.y, .x, .z] (argsortNat [ywp, xwp, zwp])

/-- `check_ancils` (wind_downscaling.py:771-810) on the units and grids of the cubes; `z0` is optional.  Each pair is compared in both orders. -/
def checkAncils (aos sigma pporo modoro : String × String) (z0 : Option (String × String)) : Except Err Bool :=
  if aos.1 ≠ "1" ∨ sigma.1 ≠ "m" ∨ pporo.1 ≠ "m" ∨ modoro.1 ≠ "m" then .error .valueError
  else match z0 with
    | some z => if z.1 ≠ "m" then .error .valueError
      else
        let l := [aos.2, sigma.2, pporo.2, modoro.2, z.2]
        .ok (l.all (fun a => l.all (fun b => decide (a = b))))
    | none =>
      let l := [aos.2, sigma.2, pporo.2, modoro.2]
      .ok (l.all (fun a => l.all (fun b => decide (a = b))))

/-- `calc_av_ppgrid_res` (wind_downscaling.py:724-740) from the mean spacings of the axes. -/
def avGridRes (xname yname xunit yunit : String) (xres yres : ℚ) : Except Err ℚ :=
  if xname ≠ "projection_x_coordinate" ∨ yname ≠ "projection_y_coordinate" then .error .valueError
  else if xunit ≠ "m" ∨ yunit ≠ "m" then .error .valueError
  else .ok ((|xres| + |yres|) / 2)

end Improver
