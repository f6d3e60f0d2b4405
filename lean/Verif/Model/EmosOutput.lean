import Verif.Model.NormDist
import Verif.Basic
import Mathlib.Data.EReal.Basic

/-!
Model of the conversion of location and scale parameters into percentiles and probabilities
(improver/ensemble_copula_coupling/ensemble_copula_coupling.py,
`ConvertLocationAndScaleParametersToPercentiles` and `...ToProbabilities`), of the truncated
normal distribution of improver/ensemble_copula_coupling/_scipy_continuous_distns.py, and of the
end of `ApplyEMOS.process` (improver/calibration/ensemble_calibration.py).
Reals instead of floating point numbers; only the distributions `norm` and `truncnorm`, which are
the ones EMOS offers.
-/

namespace Improver
open Classical

/-- The distributions of EMOS.  The shape parameters of `truncnorm` are the values where the
distribution is cut (`none`: infinite), as stored in the `shape_parameters` attribute. -/
inductive EmosDist
  | norm
  | truncnorm (lo hi : Option ℝ)

/-- `_rescale_shape_parameters` (ensemble_copula_coupling.py:885-918): `(value - loc) / scale`.
Infinite values stay infinite for positive scale. -/
noncomputable def rescaleLimit (v : Option ℝ) (loc scale : ℝ) : Option ℝ :=
  v.map fun a => (a - loc) / scale

/-- `_norm_cdf(a)` of the lower end. -/
noncomputable def cdfLower : Option ℝ → ℝ
  | none => 0
  | some a => normCdf a

/-- `_norm_cdf(b)` of the upper end. -/
noncomputable def cdfUpper : Option ℝ → ℝ
  | none => 1
  | some b => normCdf b

/-- `_argcheck` of truncnorm (_scipy_continuous_distns.py:109-110): `a < b`. -/
def shapeOk : Option ℝ → Option ℝ → Prop
  | some a, some b => a < b
  | _, _ => True

/-- `z <= a`: at or below the support. -/
def atOrBelow (z : ℝ) : Option ℝ → Prop
  | none => False
  | some a => z ≤ a

/-- `z >= b`: at or above the support. -/
def atOrAbove (z : ℝ) : Option ℝ → Prop
  | none => False
  | some b => b ≤ z

/-- `cdf` of the frozen distribution of scipy (`rv_continuous.cdf`) with
`truncnorm_gen._cdf` (_scipy_continuous_distns.py:134-137): NaN (`none`) unless the scale is
positive and the shape parameters are ordered, 0 at and below the support, 1 at and above it. -/
noncomputable def frozenCdf (d : EmosDist) (loc scale x : ℝ) : Option ℝ :=
  if 0 < scale then
    match d with
    | .norm => some (normCdf ((x - loc) / scale))
    | .truncnorm lo hi =>
      let a := rescaleLimit lo loc scale
      let b := rescaleLimit hi loc scale
      let z := (x - loc) / scale
      if ¬ shapeOk a b then none
      else if atOrAbove z b then some 1
      else if atOrBelow z a then some 0
      else some ((normCdf z - cdfLower a) / (cdfUpper b - cdfLower a))
  else none

/-- `sf` of the frozen distribution: 1 at and below the support, 0 at and above it, and
`1 - cdf` inside (`_norm_sf` is the same for `norm`). -/
noncomputable def frozenSf (d : EmosDist) (loc scale x : ℝ) : Option ℝ :=
  if 0 < scale then
    match d with
    | .norm => some (1 - normCdf ((x - loc) / scale))
    | .truncnorm lo hi =>
      let a := rescaleLimit lo loc scale
      let b := rescaleLimit hi loc scale
      let z := (x - loc) / scale
      if ¬ shapeOk a b then none
      else if atOrBelow z a then some 1
      else if atOrAbove z b then some 0
      else some (1 - (normCdf z - cdfLower a) / (cdfUpper b - cdfLower a))
  else none

/-- `_norm_ppf`: inverse of the distribution function (scipy's `ndtri`). -/
noncomputable def normPpf (q : ℝ) : ℝ := Function.invFun normCdf q

/-- `ppf` of the frozen distribution for a fraction strictly between 0 and 1, with
`truncnorm_gen._ppf` (_scipy_continuous_distns.py:139-148; both branches of its `np.where`
are the same number, since `isf(p) = ppf(1 - p)`).  Fractions outside (0, 1) are not modelled
(`none`): they give NaN or the possibly infinite end of the support. -/
noncomputable def frozenPpf (d : EmosDist) (loc scale q : ℝ) : Option ℝ :=
  if 0 < scale ∧ 0 < q ∧ q < 1 then
    match d with
    | .norm => some (normPpf q * scale + loc)
    | .truncnorm lo hi =>
      let a := rescaleLimit lo loc scale
      let b := rescaleLimit hi loc scale
      if ¬ shapeOk a b then none
      else some (normPpf (q * cdfUpper b + cdfLower a * (1 - q)) * scale + loc)
  else none

/-- A value of the resulting cubes. -/
inductive OutVal
  | masked
  | nan
  | val (x : ℝ)

/-- Element of the mask of the result. -/
def OutVal.isMasked : OutVal → Bool
  | .masked => true
  | _ => false

/-- `new_data[mask] = uncalibrated.data[mask]` (improver/calibration/utilities.py:281) for one
value. -/
def OutVal.orRaw (r : ℝ) : OutVal → OutVal
  | .masked => .val r
  | v => v

/-- Value or NaN. -/
def outOf : Option ℝ → OutVal
  | none => .nan
  | some x => .val x

/-- `np.ma.filled(data, 1)`. -/
def filledOne (l : List (Option ℝ)) : List ℝ := l.map fun x => x.getD 1

/-- `np.logical_or(getmaskarray(location), getmaskarray(scale))`
(ensemble_copula_coupling.py:1030-1033, 1210-1212). -/
def paramMask (l s : List (Option ℝ)) : List Bool :=
  List.zipWith (fun a b => a.isNone || b.isNone) l s

/-- `np.ma.masked_where(mask, row)`. -/
def maskedWhere (m : List Bool) (row : List OutVal) : List OutVal :=
  List.zipWith (fun b v => if b then .masked else v) m row

/-- ensemble_copula_coupling.py:995-1005: one percentile; NaN is replaced by the location if any
scale is zero. -/
noncomputable def percentileRow (d : EmosDist) (loc scale : List ℝ) (p : ℝ) : List (Option ℝ) :=
  let raw := List.zipWith (fun l s => frozenPpf d l s (p / 100)) loc scale
  if scale.any (fun s => decide (s = 0)) then
    List.zipWith (fun r l => some (r.getD l)) raw loc
  else raw

/-- ensemble_copula_coupling.py:1006-1012: any NaN is an error. -/
noncomputable def checkedRow (d : EmosDist) (loc scale : List ℝ) (p : ℝ) :
    Except Err (List OutVal) :=
  if (percentileRow d loc scale p).any Option.isNone then .error .valueError
  else .ok ((percentileRow d loc scale p).map outOf)

/-- ensemble_copula_coupling.py:938-1040
`_location_and_scale_parameters_to_percentiles`; parameters and rows over the flattened points.
The coordinates of the result are not modelled. -/
noncomputable def toPercentiles (d : EmosDist) (loc scale : List (Option ℝ)) (ps : List ℝ) :
    Except Err (List (List OutVal)) := do
  let rows ← ps.mapM (checkedRow d (filledOne loc) (filledOne scale))
  .ok (rows.map (maskedWhere (paramMask loc scale)))

/-- ensemble_copula_coupling.py:1149-1181 `_check_unit_compatibility`: both parameters are
converted to the units of the thresholds by `cube.convert_units`, here `x ↦ factor * x + offset`
(`offset` is not zero for conversions between kelvin and celsius). -/
noncomputable def convertParams (factor offset : ℝ) (l : List (Option ℝ)) : List (Option ℝ) :=
  l.map fun x => x.map fun v => factor * v + offset

/-- ensemble_copula_coupling.py:1183-1249
`_location_and_scale_parameters_to_probabilities`: one row per threshold, `sf` for probabilities
above, `cdf` for probabilities below. -/
noncomputable def probabilityRow (d : EmosDist) (above : Bool) (loc scale : List ℝ) (t : ℝ) :
    List OutVal :=
  List.zipWith (fun l s => outOf (if above then frozenSf d l s t else frozenCdf d l s t)) loc scale

/-- ensemble_copula_coupling.py:1251-1285 `process`; the template check is not modelled. -/
noncomputable def toProbabilities (d : EmosDist) (above : Bool) (factor offset : ℝ)
    (loc scale : List (Option ℝ)) (ts : List ℝ) : List (List OutVal) :=
  ts.map fun t =>
    maskedWhere (paramMask (convertParams factor offset loc) (convertParams factor offset scale))
      (probabilityRow d above (filledOne (convertParams factor offset loc))
        (filledOne (convertParams factor offset scale)) t)

/-! ### Confinement to land -/

/-- ensemble_calibration.py:1683-1694: with a land-sea mask (1 over land) both parameters are
masked over the sea. -/
def maskSea (land : Option (List Bool)) (l : List ℝ) : List (Option ℝ) :=
  match land with
  | none => l.map some
  | some m => List.zipWith (fun b x => if b then some x else none) m l

/-- One row of improver/calibration/utilities.py:279-281: masked values are replaced by the raw
forecast. -/
def mergeRow (cal : List OutVal) (raw : List ℝ) : List OutVal :=
  List.zipWith (fun c r => c.orRaw r) cal raw

/-- improver/calibration/utilities.py:254-282 `merge_land_and_sea`, with `sameDims` the equality
of the dimension coordinates. -/
def mergeLandSea (sameDims : Bool) (cal : List (List OutVal)) (raw : List (List ℝ)) :
    Except Err (List (List OutVal)) :=
  if sameDims = false then .error .valueError
  else if cal.any (fun r => r.any OutVal.isMasked) then
    .ok (List.zipWith mergeRow cal raw)
  else .ok cal

/-- ensemble_calibration.py:1896-1905, 2025-2032: the end of `ApplyEMOS.process` for percentile
forecasts: percentiles are those requested, otherwise those of the forecast, which is merged in
over the sea. -/
noncomputable def applyPercentiles (d : EmosDist) (loc scale : List ℝ)
    (land : Option (List Bool)) (fcPs : List ℝ) (raw : List (List ℝ))
    (requested : Option (List ℝ)) : Except Err (List (List OutVal)) := do
  let ps := match requested with
    | some (q :: qs) => q :: qs
    | _ => fcPs
  let rows ← toPercentiles d (maskSea land loc) (maskSea land scale) ps
  match land with
  | none => .ok rows
  | some _ => mergeLandSea (decide (ps = fcPs)) rows raw

/-- The same for probability forecasts (ensemble_calibration.py:1881-1888): thresholds are those
of the template, which is the forecast itself when there is a land-sea mask. -/
noncomputable def applyProbabilities (d : EmosDist) (above : Bool) (factor offset : ℝ)
    (loc scale : List ℝ) (land : Option (List Bool)) (ts : List ℝ) (raw : List (List ℝ)) :
    Except Err (List (List OutVal)) :=
  let rows := toProbabilities d above factor offset (maskSea land loc) (maskSea land scale) ts
  match land with
  | none => .ok rows
  | some _ => mergeLandSea true rows raw

/-- ensemble_calibration.py:1983-1996: the input types and the refusal of a land-sea mask when a
probability template makes input and output differ. -/
inductive FcType
  | percentiles | probabilities | realizations
  deriving DecidableEq

/-- ensemble_calibration.py:1799-1816 `_get_input_forecast_type`; `percCoord` tells whether
`find_percentile_coordinate` finds a coordinate. -/
def inputType (percCoord : Bool) (name : String) : FcType :=
  if percCoord then .percentiles
  else if "probability_of".isPrefixOf name then .probabilities
  else .realizations

/-- ensemble_calibration.py:1984-1996. -/
def outputType (t : FcType) (template land : Bool) : Except Err FcType :=
  let o := if template then .probabilities else t
  if land ∧ t ≠ o then .error .valueError else .ok o

/-- ensemble_calibration.py:1834-1838: forecasts that are not realizations need a positive
`realizations_count`. -/
def needRealizations (t : FcType) (count : Option ℕ) : Except Err Unit :=
  if t = .realizations then .ok ()
  else if count = none ∨ count = some 0 then .error .valueError
  else .ok ()

/-- ensemble_calibration.py:1752-1797 `_get_attribute`; the attributes as strings, `none` where a
coefficient cube lacks it. -/
def getAttribute (optional : Bool) (l : List (Option String)) : Except Err (Option String) :=
  let vs := l.filterMap id
  if vs = [] then
    if optional then .ok none else .error .attributeError
  else if vs.dedup.length = 1 ∧ vs.length = l.length then .ok vs.head?
  else .error .attributeError

end Improver
