import Verif.Model.Reliability
import Verif.Model.CalUtil

/-! Model of the whole way of reliability calibration: `ConstructReliabilityCalibrationTables.process`, `ManipulateReliabilityTable.process` and
`ApplyReliabilityCalibration.process` (improver/calibration/reliability_calibration.py). -/

namespace Improver

/-! ### ConstructReliabilityCalibrationTables.process -/

/-- The historic forecasts of one time: reference time, forecast period, and probabilities by threshold and point (`none`: NaN). -/
structure RelFc where
  frt : ℤ
  period : ℤ
  field : List (List (Option ℚ))

/-- The truths of one time: by threshold and point, with the mask. -/
abbrev RelTruth := List (List (ℚ × Bool))

/-- `np.ma.is_masked` of one slice (reliability_calibration.py:410). -/
def sliceHasMask (t : List (ℚ × Bool)) : Bool := t.any Prod.snd

/-- The pairs at threshold `k` and point `i`, in the order of `zip` (reliability_calibration.py:501-514). -/
def relSamples (fs : List (FcSlice RelFc)) (ts : List (TruthSlice RelTruth)) (k i : ℕ) : List RelSample :=
  List.zipWith (fun f t =>
    let v := (t.data.getD k []).getD i (0, false)
    ⟨(f.data.field.getD k []).getD i none, v.1, v.2, sliceHasMask (t.data.getD k [])⟩) fs ts

/-- `collapsed(cube, coordinates, SUM)` over all points (reliability_calibration.py:604): masked points are left out, and the sum is masked if all are. -/
def sumStates (l : List RelState) : RelState :=
  match l.filter (fun s => !s.masked) with
  | [] => ⟨(l.headD ⟨[], true⟩).data, true⟩
  | s :: rest => ⟨rest.foldl (fun acc t => addTables acc t.data) s.data, false⟩

/-- A reliability table cube: thresholds, probability bins, the forecast reference time (point and bounds), and for each threshold the tables of the points
(one if they were aggregated). -/
structure RelCube where
  thresholds : List ℚ
  bins : List (ℚ × ℚ)
  frt : ℤ × ℤ × ℤ
  tables : List (List RelState)

/-- Number of points of a coordinate of the merged cube: one if all are the same. -/
def distinctPoints (l : List ℤ) : ℕ := if l.all (fun p => decide (p = l.headD 0)) then 1 else l.length

/-- The tables of one threshold (reliability_calibration.py:505-525); `aggregate`: over all points, or not at all. -/
def thresholdTables (aggregate : Bool) (edges : List ℚ) (npts : ℕ) (fs : List (FcSlice RelFc)) (ts : List (TruthSlice RelTruth)) (k : ℕ) :
    Except Err (List RelState) := do
  let pts ← (List.range npts).mapM (fun i => constructTable edges (relSamples fs ts k i))
  .ok (if aggregate then [sumStates pts] else pts)

/-- `ConstructReliabilityCalibrationTables(...).process` (reliability_calibration.py:43-74, 428-527).  The threshold coordinates are their points, in ascending
order; attributes and the other coordinates of the table are not modelled. -/
def constructRun (up down : ℚ → ℚ) (n : ℕ) (lower upper aggregate : Bool) (npts : ℕ) (fthresholds tthresholds : List ℚ)
    (fcs : List (FcSlice RelFc)) (truths : List (TruthSlice RelTruth)) : Except Err RelCube := do
  let bins ← defineBins up down n lower upper
  let m ← filterNonMatching fcs truths
  if fthresholds ≠ tthresholds then .error .valueError
  else do
    checkConsistency (m.1.map (·.data.frt)) (distinctPoints (m.1.map (·.data.period)))
    let frt ← unifiedFrt (m.1.map (·.data.frt)) none
    let tables ← (List.range fthresholds.length).mapM (thresholdTables aggregate (binEdges bins) npts m.1 m.2)
    .ok ⟨fthresholds, bins, frt, tables⟩

/-! ### ManipulateReliabilityTable.process -/

/-- One cube of the list of manipulated tables: its threshold, its position if made point by point, and the bins. -/
structure RelTab where
  threshold : ℚ
  site : Option (ℚ × ℚ)
  bins : List RelBin
  deriving DecidableEq

/-- `_extract_reliability_table_components` (reliability_calibration.py:665-695). -/
def stateBins (bins : List (ℚ × ℚ)) (s : RelState) : List RelBin :=
  List.zipWith (fun (b : ℚ × ℚ) (e : RelEntry) => ⟨e.obs, e.psum, e.fc, b.1, b.2⟩) bins s.data

/-- One threshold (reliability_calibration.py:1050-1063); `coords` are the positions of the points.  Without `point_by_point` the table is expected to be
aggregated: with several points the comparisons of arrays fail.  Masked tables are not modelled. -/
def manipulateThreshold (m : ℚ) (pointByPoint : Bool) (coords : List (ℚ × ℚ)) (bins : List (ℚ × ℚ)) (t : ℚ × List RelState) : Except Err (List RelTab) :=
  if pointByPoint then .ok (List.zipWith (fun c s => ⟨t.1, some c, enforceTable m (stateBins bins s)⟩) coords t.2)
  else match t.2 with
    | [s] => .ok [⟨t.1, none, enforceTable m (stateBins bins s)⟩]
    | _ => .error .valueError

/-- `ManipulateReliabilityTable(...).process` (reliability_calibration.py:633-663, 1021-1064). -/
def manipulateRun (minimum : ℚ) (pointByPoint : Bool) (coords : List (ℚ × ℚ)) (c : RelCube) : Except Err (List RelTab) := do
  let m ← manipulateInit minimum
  let tabs ← (c.thresholds.zip c.tables).mapM (manipulateThreshold m pointByPoint coords c.bins)
  .ok tabs.flatten

/-! ### ApplyReliabilityCalibration.process -/

/-- `_extract_matching_reliability_table` (reliability_calibration.py:1100-1134) from a list of cubes: `extract_cube` raises `ConstraintMismatchError` unless
there is exactly one match (here `runtimeError`). -/
def matchTable (tables : List RelTab) (t : ℚ) : Except Err (List RelBin) :=
  match tables.filter (fun r => decide (r.threshold = t)) with
  | [r] => .ok r.bins
  | _ => .error .runtimeError

/-- Warnings (reliability_calibration.py:1170-1186, 1335-1341). -/
inductive RelWarning where
  | reordered
  | uncalibrated (thresholds : List ℚ)
  deriving DecidableEq

/-- Whether no column is out of order (reliability_calibration.py:1166-1180). -/
def alreadyOrdered (above : Bool) (cols : List (List ℚ)) : Bool :=
  if above then cols.all (fun c => (npDiff c).all (fun d => decide (d ≤ 0))) else cols.all (fun c => (npDiff c).all (fun d => decide (d ≥ 0)))

/-- The warning about uncalibrated thresholds, if there are any (reliability_calibration.py:1335-1341). -/
def uncalibratedWarning : List ℚ → List RelWarning
  | [] => []
  | l => [.uncalibrated l]

/-- The warnings of one calibration: `cal` are the calibrated columns before the reordering. -/
def calibrationWarnings (above : Bool) (ts : List ℚ) (tabs : List (List RelBin)) (cal : List (List ℚ)) : List RelWarning :=
  (if alreadyOrdered above cal then [] else [.reordered]) ++
  uncalibratedWarning (((ts.zip tabs).filter (fun p => (reliabilityProbabilities p.2).isNone)).map Prod.fst)

/-- `_apply_calibration` (reliability_calibration.py:1289-1343) with the matching of tables: `cols` has for each point the probabilities of the thresholds. -/
def calibrateRun (above : Option Bool) (ts : List ℚ) (tables : List RelTab) (cols : List (List ℚ)) : Except Err (List (List ℚ) × List RelWarning) := do
  let tabs ← ts.mapM (matchTable tables)
  match above with
  | none => .error .valueError
  | some a => do
    let out ← applyCalibration a tabs cols
    .ok (out, calibrationWarnings a ts tabs (cols.map (fun c => List.zipWith calibrateValue tabs c)))

/-- One point of `_apply_point_by_point_calibration` (reliability_calibration.py:1384-1402). -/
def calibratePoint (above : Option Bool) (ts : List ℚ) (tables : List RelTab) (p : (ℚ × ℚ) × List ℚ) : Except Err (List ℚ × List RelWarning) := do
  let r ← calibrateRun above ts (tables.filter (fun t => decide (t.site = some p.1))) [p.2]
  .ok (r.1.headD [], r.2)

/-- `ApplyReliabilityCalibration(...).process` (reliability_calibration.py:1345-1449), for a list of tables; `coords` are the positions of the points.  Masks of
the forecast, which pass through, are not modelled. -/
def applyRelRun (pointByPoint : Bool) (above : Option Bool) (ts : List ℚ) (tables : List RelTab) (coords : List (ℚ × ℚ)) (cols : List (List ℚ)) :
    Except Err (List (List ℚ) × List RelWarning) :=
  if pointByPoint then do
    let pts ← (coords.zip cols).mapM (calibratePoint above ts tables)
    .ok (pts.map Prod.fst, (pts.map Prod.snd).flatten)
  else calibrateRun above ts tables cols

end Improver
