import Verif.Model.CalUtil
import Verif.Model.CalSplit
import Verif.Model.Bias
import Verif.Model.Emos
import Verif.Model.EmosOutput
import Verif.Model.ECC

/-! Model of whole runs of the EMOS calibration: what `EstimateCoefficientsForEnsembleCalibration.process` refuses and writes on the coefficient
cubes, the warnings of the minimisation, the command `apply-emos-coefficients`, and the application to realizations
(improver/calibration/ensemble_calibration.py, improver/cli/apply_emos_coefficients.py). -/

namespace Improver

/-! ## Checks of the training data -/

/-- One time of the historic forecasts: reference time, forecast period (seconds), and by site whether the values of the realizations are NaN. -/
structure TrainCell where
  frt : ℤ
  fp : ℚ
  nan : List (List Bool)

/-- Number of points of a coordinate of the merged forecasts: one if it has the same value at all times. -/
def mergedPoints (l : List ℚ) : ℕ := if l.all (fun p => decide (p = l.headD 0)) then 1 else l.length

/-- The pairs of NaN flags of one site over all times and realizations. -/
def sitePairs (fs : List TrainCell) (ts : List (List Bool)) (site : ℕ) : List NanPair :=
  (fs.zip ts).flatMap (fun e => (e.1.nan.getD site []).map (fun b => (b, e.2.getD site false)))

/-- What the estimation is asked for. -/
structure EstimateOpts where
  pointByPoint : Bool
  realizations : Bool
  units : Option String
  allowed : ℚ

/-- A static additional predictor: the names of its coordinates. -/
abbrev FieldCoords := List String

/-- Units after ensemble_calibration.py:1324-1326; `conv` tells which units can be converted into which. -/
def trainUnits (conv : String → String → Bool) (desired : Option String) (u : String) : Except Err String :=
  match desired with
  | none => .ok u
  | some d => if conv u d then .ok d else .error .valueError

/-- The coordinates of ensemble_calibration.py:1307-1311. -/
def disallowedCoords : List String := ["forecast_period", "forecast_reference_time", "realization"]

/-- ensemble_calibration.py:1300-1321: additional predictors. -/
def checkFields (realizations : Bool) (fields : List FieldCoords) : Except Err Unit :=
  if fields = [] then .ok ()
  else if realizations then .error .notImplemented
  else if fields.any (fun f => disallowedCoords.any (fun c => f.contains c)) then .error .valueError
  else .ok ()

/-- `EstimateCoefficientsForEnsembleCalibration.process` up to line 1334 (ensemble_calibration.py:1283-1334): everything that is refused, in its
order, and the matched forecasts and truths.  `sites` is the number of sites (0 sites: gridded data); `landMask`: a land-sea mask is given;
`none` for a missing cube. -/
def estimateChecks (conv : String → String → Bool) (o : EstimateOpts) (landMask : Bool) (sites : ℕ) (fcUnits trUnits : String)
    (fcs : Option (List (FcSlice TrainCell))) (truths : Option (List (TruthSlice (List Bool)))) (fields : List FieldCoords) :
    Except Err (List (FcSlice TrainCell) × List (TruthSlice (List Bool)) × String) :=
  if landMask && o.pointByPoint then .error .notImplemented
  else match fcs, truths with
    | some fcs, some truths => do
      let m ← filterNonMatching fcs truths
      checkConsistency (m.1.map (·.data.frt)) (mergedPoints (m.1.map (·.data.fp)))
      checkSufficiency (decide (0 < sites)) o.pointByPoint o.allowed
        ((List.range sites).map (sitePairs (m.1.map (·.data)) (m.2.map (·.data))))
      checkFields o.realizations fields
      let u ← trainUnits conv o.units fcUnits
      let v ← trainUnits conv o.units trUnits
      if u ≠ v then .error .valueError
      .ok (m.1, m.2, u)
    | _, _ => .error .valueError

/-- ensemble_calibration.py:1346-1357, 603-606: the cubes of the additional predictors after the call.  With a land-sea mask they are masked in
place over the sea. -/
def fieldsAfter (land : Option (List Bool)) (fields : List (List Entry)) : List (List Entry) :=
  match land with
  | none => fields
  | some m => fields.map (maskSlice m)

/-! ## The coefficient cubes -/

/-- What the coefficient cubes take from the historic forecasts. -/
structure HistoricMeta where
  name : String
  units : String
  spot : Bool
  fp : List ℚ
  frt : List ℤ
  frtBounds : Option (List (ℤ × ℤ))
  x : SpatialCoord
  y : SpatialCoord

/-- A coefficient cube without its data: name, units, what `ApplyEMOS` compares, distribution and whether it has the attribute with the
limits of the truncated distribution. -/
structure CoefCube where
  name : String
  units : String
  about : CalMeta
  distribution : String
  shape : Bool

/-- `coord.collapsed()` as a coordinate. -/
def collapsedCoord (c : SpatialCoord) : Except Err SpatialCoord := do
  let e ← c.collapsed
  return ⟨[e.1], some [(e.2.1, e.2.2)]⟩

/-- `_create_cubelist` (ensemble_calibration.py:744-942) for one coefficient. -/
def coefCube (h : HistoricMeta) (pointByPoint : Bool) (distribution : String) (frt : ℤ) (x y : SpatialCoord) (coeff : String) : CoefCube :=
  ⟨"emos_coefficient_" ++ coeff, if ["alpha", "gamma"].contains coeff then h.units else "1",
    ⟨h.name, h.spot && pointByPoint, h.fp, [frt], x, y⟩, distribution, decide (distribution = "truncnorm")⟩

/-- `_create_cubelist` (ensemble_calibration.py:868-942) without the data, which `create_coefficients_cubelist` splits (C122): reference
time of the latest forecast, a single forecast period, the extent of the domain or, point by point, the points themselves. -/
def coefficientCubes (h : HistoricMeta) (pointByPoint : Bool) (distribution : String) : Except Err (List CoefCube) := do
  let xy ← (if pointByPoint then .ok (h.x, h.y) else do
    let y ← collapsedCoord h.y
    let x ← collapsedCoord h.x
    .ok (x, y))
  let frt ← unifiedFrt h.frt h.frtBounds
  if h.fp.length ≠ 1 then .error .valueError
  .ok (["alpha", "beta", "gamma", "delta"].map (coefCube h pointByPoint distribution frt.1 xy.1 xy.2))

/-! ## The minimisation of all points together -/

/-- What scipy returns: coefficients, whether it converged, the coefficients after each iteration. -/
structure MinResult where
  x : List ℚ
  success : Bool
  allvecs : List (List ℚ)

/-- Warnings of the minimisation. -/
inductive MinWarning where
  | notConverged
  | lastChange
  deriving DecidableEq

/-- `abs((new - old) / old) * 100 > 5` in floating point arithmetic: division by zero gives infinity, or NaN for `0 / 0`
(ensemble_calibration.py:310-313; `TOLERATED_PERCENTAGE_CHANGE`, line 75). -/
def changedMuch (new old : ℚ) : Bool := if old = 0 then decide (new ≠ 0) else decide (5 < |(new - old) / old| * 100)

/-- `_calculate_percentage_change_in_last_iteration` (ensemble_calibration.py:292-325). -/
def changeWarning (allvecs : List (List ℚ)) : Except Err (List MinWarning) :=
  match allvecs.reverse with
  | last :: previous :: _ => .ok (if (last.zip previous).any (fun e => changedMuch e.1 e.2) then [.lastChange] else [])
  | _ => .error .indexError

/-- `_process_points_together` (ensemble_calibration.py:510-532) from the result of the minimiser on. -/
def minimisedTogether (r : MinResult) : Except Err (List ℚ × List MinWarning) := do
  let w ← changeWarning r.allvecs
  return (r.x, (if r.success then [] else [.notConverged]) ++ w)

/-! ## The command -/

/-- A forecast as far as `apply-emos-coefficients` is concerned. -/
structure EmosForecast where
  kind : FcType
  comment : Option String
  values : List ℚ
  deriving DecidableEq

/-- `process` of `apply-emos-coefficients` (cli/apply_emos_coefficients.py:124-189) after the inputs are sorted (C140).  `valid`: no validity
times were given or the forecast is at one of them; `resample` stands for `ResamplePercentiles` on a percentile forecast (C13), which
fails for other forecasts; `calibrate` for `ApplyEMOS` (C124-C130). -/
def applyEmosCommand (valid : Bool) (percentiles : List ℚ) (resample : List ℚ → EmosForecast → EmosForecast)
    (calibrate : List ℚ → Except Err EmosForecast) (forecast : EmosForecast) (template : Option EmosForecast) (coefficients : Bool) :
    Except Err EmosForecast :=
  let resampled : Except Err EmosForecast :=
    if forecast.kind = .percentiles then .ok (resample percentiles forecast) else .error .coordinateNotFound
  let commented := fun f : EmosForecast => ({ f with comment := addWarning f.comment } : EmosForecast)
  if !valid then
    if percentiles ≠ [] then resampled.map commented
    else match template with
      | some t => .ok (commented t)
      | none => .ok (commented forecast)
  else if !coefficients then
    match template with
    | some t => .ok (commented t)
    | none => if percentiles ≠ [] then resampled.map commented else .ok (commented forecast)
  else calibrate percentiles

/-! ## Application to realizations -/

/-- One value of the reordered percentiles: masked where its place was masked, NaN where a masked value comes from
(utilities/indexing_operations.py:78-83, ensemble_copula_coupling.py:1430-1433). -/
def movedVal (source place : OutVal) : OutVal :=
  match place with
  | .masked => .masked
  | _ => match source with
    | .masked => .nan
    | v => v

/-- `rank_ecc` (ensemble_copula_coupling.py:1368-1439) at grid point `i`: `rows` are the percentiles, `members` the realizations, `rnd` the random
numbers of the point. -/
def reorderedColumn (rnd : List ℚ) (members : List (List ℚ)) (rows : List (List OutVal)) (i : ℕ) : List OutVal :=
  ((eccRanking false rnd (members.map (fun m => m.getD i 0))).map (fun k => (rows.getD k []).getD i .nan)).zipWith movedVal
    (rows.map (fun r => r.getD i .nan))

/-- ensemble_calibration.py:1906-1919, 2025-2032: the end of `ApplyEMOS.process` for realizations: as many percentiles as members, reordered by
the members (`randomise` false), the sea filled in from the forecast.  `n` is the number of points, `rnd i` the random numbers of point `i`. -/
noncomputable def applyRealizations (d : EmosDist) (n : ℕ) (loc scale : List ℝ) (land : Option (List Bool)) (rnd : ℕ → List ℚ)
    (members : List (List ℚ)) : Except Err (List (List OutVal)) := do
  let ps := (chooseSetOfPercentiles members.length).map (fun p : ℚ => (p : ℝ))
  let rows ← toPercentiles d (maskSea land loc) (maskSea land scale) ps
  let columns := (List.range n).map (fun i => reorderedColumn (rnd i) members rows i)
  let out := (List.range members.length).map (fun k => columns.map (fun c => c.getD k .nan))
  match land with
  | none => .ok out
  | some _ => mergeLandSea true out (members.map (fun m : List ℚ => m.map (fun v : ℚ => (v : ℝ))))

end Improver
