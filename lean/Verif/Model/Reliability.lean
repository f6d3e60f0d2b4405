import Verif.Model.Weights

/-! Model of `improver/calibration/reliability_calibration.py`. -/

namespace Improver

/-! ### ManipulateReliabilityTable -/

/-- One column of a reliability table: observation count, sum of forecast probabilities, forecast count, and the bounds of its
probability bin.  The code keeps four parallel arrays which it always modifies at the same index. -/
structure RelBin where
  obs : ℚ
  psum : ℚ
  fc : ℚ
  lo : ℚ
  hi : ℚ
  deriving DecidableEq, Repr

/-- Two adjacent bins combined: sums of the counts (`_sum_pairs`, reliability_calibration.py:697-716) and the outer bounds
(`_create_new_bin_coord`, :718-747). -/
def mergeBin (a b : RelBin) : RelBin := ⟨a.obs + b.obs, a.psum + b.psum, a.fc + b.fc, a.lo, b.hi⟩

/-- An arbitrary bin for out-of-range reads, which do not occur. -/
def zeroBin : RelBin := ⟨0, 0, 0, 0, 0⟩

/-- `_sum_pairs` / `_create_new_bin_coord` on all arrays (reliability_calibration.py:697-747): bin `upper` is combined into bin
`upper - 1`. -/
def sumPairs (l : List RelBin) (upper : ℕ) : List RelBin :=
  l.take (upper - 1) ++ mergeBin (l.getD (upper - 1) zeroBin) (l.getD upper zeroBin) :: l.drop (upper + 1)

/-- `np.nanargmax` of the counts with those `>= m` set to NaN (reliability_calibration.py:785-792): first index of the largest
count below `m`, with that count. -/
def bestBelow (m : ℚ) : List ℚ → Option (ℕ × ℚ)
  | [] => none
  | a :: l =>
    match bestBelow m l with
    | none => if a < m then some (0, a) else none
    | some (i, v) => if a < m ∧ v ≤ a then some (0, a) else some (i + 1, v)

/-- Upper index of the pair to combine (reliability_calibration.py:795-807). -/
def chooseUpper (fc : List ℚ) (index : ℕ) : ℕ :=
  if index = 0 then index + 1
  else if index + 1 = fc.length then index
  else if fc.getD (index + 1) 0 > fc.getD (index - 1) 0 then index
  else index + 1

/-- The `while` loop of `_combine_undersampled_bins` (reliability_calibration.py:779-817), with fuel; `combineUndersampled` gives it
as many steps as there are bins. -/
def combineLoop (m : ℚ) : ℕ → List RelBin → List RelBin
  | 0, l => l
  | k + 1, l =>
    if l.any (fun b => decide (b.fc < m)) && decide (1 < l.length) then
      match bestBelow m (l.map RelBin.fc) with
      | none => l
      | some (i, _) => combineLoop m k (sumPairs l (chooseUpper (l.map RelBin.fc) i))
    else l

/-- `_combine_undersampled_bins` (reliability_calibration.py:749-824). -/
def combineUndersampled (m : ℚ) (l : List RelBin) : List RelBin := combineLoop m l.length l

/-- Observation frequency of each bin. -/
def obsFreq (l : List RelBin) : List ℚ := l.map (fun b => b.obs / b.fc)

/-- Search of `_combine_bin_pair` from the top (reliability_calibration.py:853-858): the highest `upper` with a descent. -/
def findDescent (freq : List ℚ) : ℕ → Option ℕ
  | 0 => none
  | u + 1 => if freq.getD (u + 1) 0 - freq.getD u 0 < 0 then some (u + 1) else findDescent freq u

/-- `_combine_bin_pair` (reliability_calibration.py:826-875). -/
def combineBinPair (l : List RelBin) : List RelBin :=
  match findDescent (obsFreq l) (l.length - 1) with
  | none => l
  | some u => sumPairs l u

/-- The in-place loop over the frequencies going up (reliability_calibration.py:909-912, `operator.lt`). -/
def runUp : ℚ → List ℚ → List ℚ
  | _, [] => []
  | prev, a :: l => let a' := if a - prev < 0 then prev else a; a' :: runUp a' l

/-- The in-place loop over the reversed frequencies (`operator.gt`). -/
def runDown : ℚ → List ℚ → List ℚ
  | _, [] => []
  | prev, a :: l => let a' := if a - prev > 0 then prev else a; a' :: runDown a' l

/-- Monotonic frequencies of `_assume_constant_observation_frequency` (reliability_calibration.py:898-917). -/
def constantFreq (freq : List ℚ) (topDown : Bool) : List ℚ :=
  if topDown then
    match freq.reverse with
    | [] => []
    | a :: l => (a :: runDown a l).reverse
  else
    match freq with
    | [] => []
    | a :: l => a :: runUp a l

/-- `_assume_constant_observation_frequency` (reliability_calibration.py:877-919). -/
def assumeConstant (l : List RelBin) : List RelBin :=
  let topDown := decide ((l.map RelBin.fc).headD 0 < (l.map RelBin.fc).getLastD 0)
  List.zipWith (fun (b : RelBin) f => { b with obs := f * b.fc }) l (constantFreq (obsFreq l) topDown)

/-- `_enforce_min_count_and_montonicity` (reliability_calibration.py:954-1019). -/
def enforceTable (m : ℚ) (l : List RelBin) : List RelBin :=
  let l1 := if l.any (fun b => decide (b.fc < m)) then combineUndersampled m l else l
  if !(npDiff (obsFreq l1)).all (fun d => decide (d ≥ 0)) then assumeConstant (combineBinPair l1) else l1

/-- `ManipulateReliabilityTable.__init__` (reliability_calibration.py:633-663). -/
def manipulateInit (m : ℚ) : Except Err ℚ := if m < 1 then .error .valueError else .ok m

/-! ### ConstructReliabilityCalibrationTables -/

/-- `single_value_tolerance` (reliability_calibration.py:67). -/
def svTol : ℚ := 1 / 1000000

/-- Ordinary bin `k` of `n'` (reliability_calibration.py:134-151): lower edge `k/n'`, upper edge the float before `(k+1)/n'`, or 1;
the outermost edges are overwritten next to single-value bins (`bins[0, 0] = …`, `bins[-1, 1] = …`). -/
def middleBin (up down : ℚ → ℚ) (n' : ℕ) (single_lower single_upper : Bool) (k : ℕ) : ℚ × ℚ :=
  (if k = 0 ∧ single_lower = true then up svTol else (k : ℚ) / n',
   if k + 1 = n' then (if single_upper then down (1 - svTol) else 1) else down (((k + 1 : ℕ) : ℚ) / n'))

/-- `_define_probability_bins` (reliability_calibration.py:84-153).  `up`, `down` are `np.nextafter(·, 1)` and `np.nextafter(·, 0)`
in float32, parameters of the model. -/
def defineBins (up down : ℚ → ℚ) (n : ℕ) (single_lower single_upper : Bool) : Except Err (List (ℚ × ℚ)) :=
  if single_lower && single_upper && decide (n ≤ 2) then .error .valueError
  else
    let n' := if single_lower && single_upper then n - 2 else if single_lower || single_upper then n - 1 else n
    -- with no ordinary bin, indexing `bins[0, 0]` or taking the last upper edge fails
    if n' = 0 then .error .indexError
    else
      .ok ((if single_lower then [(0, svTol)] else [])
        ++ (List.range n').map (middleBin up down n' single_lower single_upper)
        ++ (if single_upper then [(1 - svTol, 1)] else []))

/-- `bin_edges` (reliability_calibration.py:317-322). -/
def binEdges (bins : List (ℚ × ℚ)) : List ℚ := bins.map Prod.fst ++ [(bins.getLastD (0, 0)).2 + svTol]

/-- `np.searchsorted(edges, v, side="right") - 1` used as an index of an axis of length `len(edges)`: NaN (`none`) sorts last,
and `-1` wraps to the last position. -/
def binIndex (edges : List ℚ) (v : Option ℚ) : ℕ :=
  match v with
  | none => edges.length - 1
  | some v =>
    let k := (edges.takeWhile (fun e => decide (e ≤ v))).length
    if k = 0 then edges.length - 1 else k - 1

/-- Table entries (observation count, probability sum, forecast count) of one bin. -/
structure RelEntry where
  obs : ℚ
  psum : ℚ
  fc : ℚ
  deriving DecidableEq, Repr

def RelEntry.zero : RelEntry := ⟨0, 0, 0⟩
def RelEntry.add (a b : RelEntry) : RelEntry := ⟨a.obs + b.obs, a.psum + b.psum, a.fc + b.fc⟩

/-- `_populate_reliability_bins` (reliability_calibration.py:293-354) at one point: one entry per bin. -/
def populateBins (edges : List ℚ) (v : Option ℚ) (truth : ℚ) : List RelEntry :=
  (List.range (edges.length - 1)).map (fun b : ℕ =>
    if b = binIndex edges v then ⟨if npIsclose truth 1 then 1 else 0, v.getD 0, 1⟩ else RelEntry.zero)

/-- Bin-wise addition of two tables. -/
def addTables (a b : List RelEntry) : List RelEntry := List.zipWith RelEntry.add a b

/-- Forecast and truth at one point and one time: `masked` is the truth's mask there, `sliceMasked` says whether the truth slice of
that time has any masked point. -/
structure RelSample where
  forecast : Option ℚ
  truth : ℚ
  masked : Bool
  sliceMasked : Bool

/-- State of the accumulation at one point: the data and the mask of the table there. -/
structure RelState where
  data : List RelEntry
  masked : Bool
  deriving DecidableEq

/-- The table of one time (`_populate_masked_reliability_bins`, reliability_calibration.py:356-383, zeroes the data under the
mask). -/
def sampleTable (edges : List ℚ) (s : RelSample) : List RelEntry :=
  if s.masked then List.replicate (edges.length - 1) RelEntry.zero else populateBins edges s.forecast s.truth

/-- `_add_reliability_tables` (reliability_calibration.py:385-426): with masked points in the slice the masks are and-ed; otherwise
`np.add(..., out=)` leaves the accumulated mask as it is (the mask of a masked-array ufunc result is the union of the
operands' masks) while adding the data. -/
def addSample (edges : List ℚ) (st : RelState) (s : RelSample) : RelState :=
  if s.sliceMasked then ⟨addTables st.data (sampleTable edges s), st.masked && s.masked⟩
  else ⟨addTables st.data (populateBins edges s.forecast s.truth), st.masked⟩

/-- The loop over times of `process` (reliability_calibration.py:505-517) at one point, for a non-empty list of times. -/
def constructTable (edges : List ℚ) : List RelSample → Except Err RelState
  | [] => .error .valueError
  | s :: rest => .ok (rest.foldl (addSample edges) ⟨sampleTable edges s, s.masked⟩)

/-! ### AggregateReliabilityCalibrationTables -/

/-- A reliability table at one point with its forecast reference time point and bounds. -/
structure RelTable where
  entries : List RelEntry
  frt : ℚ
  lower : ℚ
  upper : ℚ
  deriving DecidableEq

/-- `all(x < y for x, y in zip(upper_bounds, lower_bounds[1:]))` (reliability_calibration.py:539-567). -/
def frtBoundsOk : List RelTable → Bool
  | [] => true
  | [_] => true
  | a :: b :: l => decide (a.upper < b.lower) && frtBoundsOk (b :: l)

/-- `create_unified_frt_coord` (calibration/utilities.py:227-251) on the merged coordinate: latest point; extreme bounds. -/
def unifyTables (a b : RelTable) : RelTable :=
  ⟨addTables a.entries b.entries, max a.frt b.frt, min (min a.frt b.frt) (min a.lower b.lower),
    max (max a.frt b.frt) (max a.upper b.upper)⟩

/-- `AggregateReliabilityCalibrationTables.process` without further coordinates (reliability_calibration.py:569-607): one table is
returned as it is; several are checked, merged and summed. -/
def aggregateTables : List RelTable → Except Err RelTable
  | [] => .error .valueError
  | [t] => .ok t
  | t :: l => if frtBoundsOk (t :: l) then .ok (l.foldl unifyTables t) else .error .valueError

/-! ### ApplyReliabilityCalibration -/

/-- `_calculate_reliability_probabilities` (reliability_calibration.py:1189-1228): forecast probability and observation frequency
per bin; `none` with fewer than two bins. -/
def reliabilityProbabilities (l : List RelBin) : Option (List ℚ × List ℚ) :=
  if l.length < 2 then none else some (l.map (fun b => b.psum / b.fc), obsFreq l)

/-- First and last entries of a list replaced (`xp[0] = …; xp[-1] = …`). -/
def setEnds (l : List ℚ) (a b : ℚ) : List ℚ := (l.set 0 a).set (l.length - 1) b

/-- `_interpolate` (reliability_calibration.py:1230-1287) at one value. -/
def relInterpolate (probs freqs : List ℚ) (v : ℚ) : ℚ :=
  let y0 := interp1dLin probs freqs 0
  let y1 := interp1dLin probs freqs 1
  npClip (npInterp (setEnds probs 0 1) (setEnds freqs y0 y1) v) 0 1

/-- Calibration of one threshold slice at one point (reliability_calibration.py:1308-1330). -/
def calibrateValue (table : List RelBin) (v : ℚ) : ℚ :=
  match reliabilityProbabilities table with
  | none => v
  | some (p, f) => relInterpolate p f v

/-- `_ensure_monotonicity_across_thresholds` (reliability_calibration.py:1136-1187) on a list of columns (one per grid point, values in
threshold order).  `above` is the direction of thresholding. -/
def ensureMonotone (above : Bool) (cols : List (List ℚ)) : List (List ℚ) :=
  if above then
    if cols.all (fun c => (npDiff c).all (fun d => decide (d ≤ 0))) then cols
    else cols.map (fun c => (npSort c).reverse)
  else
    if cols.all (fun c => (npDiff c).all (fun d => decide (d ≥ 0))) then cols
    else cols.map npSort

/-- `_apply_calibration` (reliability_calibration.py:1289-1343): `tables` are the tables of the thresholds in order, `cols` the forecast
columns.  With a single threshold `merge_cube` yields a scalar threshold coordinate and `(threshold_dim,) = ()` fails. -/
def applyCalibration (above : Bool) (tables : List (List RelBin)) (cols : List (List ℚ)) : Except Err (List (List ℚ)) :=
  if tables.length ≤ 1 then .error .valueError
  else .ok (ensureMonotone above (cols.map (fun c => List.zipWith calibrateValue tables c)))

end Improver
