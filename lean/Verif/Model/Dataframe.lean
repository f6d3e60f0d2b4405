import Verif.Model.ECC
import Mathlib.Data.List.Sort

/-!
Model of improver/calibration/dataframe_utilities.py.

Times and durations are whole seconds.  The frames hold one diagnostic, and sites are identified by wmo_id (station_id in
one of the frames at most); the truth frame has no units column.  Missing values (NaN, NaT) are `none`.
-/

namespace Improver

/-! ## Training dates -/

/-- dataframe_utilities.py:280-322 `_training_dates_for_calibration`; `Timedelta.floor("D")` rounds down to whole days. -/
def trainingDates (cycle period : ℤ) (length : ℕ) : List ℤ :=
  let validity := cycle + period
  let last := validity - 86400 - period / 86400 * 86400
  (List.range length).map fun k : ℕ => last - ((length : ℤ) - 1 - k) * 86400

/-! ## Frames -/

/-- A value of a column that describes a site or the forecast. -/
inductive DfVal where
  | num (q : ℚ)
  | text (s : String)
deriving DecidableEq

/-- A row: site, time, percentile or realization (0 in the truth frame), forecast or observation, and the other columns. -/
structure DfRow where
  site : String
  time : ℤ
  rep : ℚ
  value : Option ℚ
  static : String → Option DfVal

/-- A row of the forecast frame. -/
structure FcEntry where
  row : DfRow
  period : ℤ
  experiment : String

/-- The columns by which rows are told apart, in the order by which frames are sorted. -/
def DfRow.key (r : DfRow) : ℤ × ℚ × String := (r.time, r.rep, r.site)

/-- `pd.unique`: values in the order in which they are first seen. -/
def firstSeen {α : Type} [DecidableEq α] : List α → List α
  | [] => []
  | a :: l => a :: (firstSeen l).filter fun b => decide (b ≠ a)

/-- dataframe_utilities.py:452: the rows of the percentiles asked for. -/
def nearAny (percentiles : List ℚ) (r : DfRow) : Bool := percentiles.any fun p => npIsclose r.rep p

/-- dataframe_utilities.py:134-153 `_quantile_check`: the percentiles as they are first seen. -/
def quantileCheck (rows : List DfRow) : Except Err Unit :=
  let seen := firstSeen (rows.map DfRow.rep)
  if (List.zipWith (fun e s => npIsclose e s) (chooseSetOfPercentiles seen.length) seen).all id then .ok ()
  else .error .valueError

/-- dataframe_utilities.py:340-368 `get_forecast_representation`: whether there is a percentile and a realization column;
`true` for percentiles. -/
def representation (hasPercentile hasRealization : Bool) : Except Err Bool :=
  if hasPercentile && hasRealization then .error .valueError
  else if hasPercentile then .ok true
  else if hasRealization then .ok false
  else .error .valueError

/-- dataframe_utilities.py:65-84 `_dataframe_column_check`. -/
def columnCheck (present compulsory : List String) : Except Err Unit :=
  if compulsory.all fun c => decide (c ∈ present) then .ok () else .error .valueError

/-- dataframe_utilities.py:435-436 (an empty text counts as none). -/
def ofExperiment (experiment : Option String) (entries : List FcEntry) : List FcEntry :=
  match experiment with
  | none => entries
  | some e => if e = "" then entries else entries.filter fun x => decide (x.experiment = e)

/-- dataframe_utilities.py:434-457: forecasts of one experiment, one forecast period and the percentiles asked for. -/
def selectForecasts (experiment : Option String) (period : ℤ) (percentiles : List ℚ) (isPercentile : Bool)
    (entries : List FcEntry) : Except Err (List DfRow) := do
  let entries := (ofExperiment experiment entries).filter fun x => decide (x.period = period)
  if (firstSeen (entries.map FcEntry.experiment)).length > 1 then .error .valueError
  else do
    let rows := entries.map FcEntry.row
    let rows ← if percentiles = [] then .ok rows
      else if isPercentile then .ok (rows.filter (nearAny percentiles)) else .error .keyError
    if isPercentile then do
      quantileCheck rows
      .ok rows
    else .ok rows

/-- `drop_duplicates(keep="last")`. -/
def dropDupLast {ρ κ : Type} [DecidableEq κ] (key : ρ → κ) : List ρ → List ρ
  | [] => []
  | r :: l => if key r ∈ l.map key then dropDupLast key l else r :: dropDupLast key l

/-- `drop_duplicates()`, which keeps the first. -/
def dropDupFirst {ρ κ : Type} [DecidableEq κ] (key : ρ → κ) : List ρ → List ρ
  | [] => []
  | r :: l => r :: (dropDupFirst key l).filter fun x => decide (key x ≠ key r)

/-- Order of rows: time, percentile or realization, site. -/
def rowKeyLe (a b : ℤ × ℚ × String) : Prop :=
  a.1 < b.1 ∨ a.1 = b.1 ∧ (a.2.1 < b.2.1 ∨ a.2.1 = b.2.1 ∧ a.2.2 ≤ b.2.2)

instance : DecidableRel rowKeyLe := fun a b =>
  inferInstanceAs (Decidable (a.1 < b.1 ∨ a.1 = b.1 ∧ (a.2.1 < b.2.1 ∨ a.2.1 = b.2.1 ∧ a.2.2 ≤ b.2.2)))

/-- `sort_values`. -/
def sortFrame (df : List DfRow) : List DfRow := df.insertionSort fun a b => rowKeyLe a.key b.key

/-- dataframe_utilities.py:325-337 `_drop_duplicates`. -/
def dropDuplicates (df : List DfRow) : List DfRow := sortFrame (dropDupLast DfRow.key df)

/-! ## Missing entries -/

/-- dataframe_utilities.py:181-184: all combinations of sites, times and percentiles or realizations. -/
def combinations (df : List DfRow) : List (String × ℤ × ℚ) :=
  (firstSeen (df.map DfRow.site)).flatMap fun s => (firstSeen (df.map DfRow.time)).flatMap fun t =>
    (firstSeen (df.map DfRow.rep)).map fun p => (s, t, p)

/-- `reindex`: the row of a combination, or one with nothing in it. -/
def rowAt (df : List DfRow) (k : String × ℤ × ℚ) : DfRow :=
  match df.find? fun r => decide (r.site = k.1 ∧ r.time = k.2.1 ∧ r.rep = k.2.2) with
  | some r => r
  | none => ⟨k.1, k.2.1, k.2.2, none, fun _ => none⟩

/-- `groupby(site).fillna(method="ffill")` on one column; `last` is the last value seen for each site. -/
def ffillBy (last : String → Option DfVal) : List (String × Option DfVal) → List (Option DfVal)
  | [] => []
  | x :: l => x.2.or (last x.1) :: ffillBy (Function.update last x.1 (x.2.or (last x.1))) l

/-- `fillna(method="bfill")`, over the whole column and not by site. -/
def bfill : List (Option DfVal) → List (Option DfVal)
  | [] => []
  | v :: l => v.or ((bfill l).head?.join) :: bfill l

/-- dataframe_utilities.py:188-192: one column. -/
def fillStatic (rows : List DfRow) (c : String) : List (Option DfVal) :=
  bfill (ffillBy (fun _ => none) (rows.map fun r => (r.site, r.static c)))

/-- dataframe_utilities.py:193-194: the row with its filled columns. -/
def withFilled (cols : List String) (rows : List DfRow) (i : ℕ) (r : DfRow) : DfRow :=
  ⟨r.site, r.time, r.rep, r.value, fun c => if c ∈ cols then (fillStatic rows c).getD i none else r.static c⟩

/-- dataframe_utilities.py:156-200 `_fill_missing_entries`; reindexing needs the combinations to be unique.  (The reference
time becomes time minus forecast period, see `forecastSlices`.) -/
def fillMissing (cols : List String) (df : List DfRow) : Except Err (List DfRow) :=
  if df = [] then .ok df
  else if ¬ (df.map DfRow.key).Nodup then .error .valueError
  else
    let rows := (combinations df).map (rowAt df)
    .ok (rows.mapIdx (withFilled cols rows))

/-- The values of a column at a site. -/
def siteValues (df : List DfRow) (c s : String) : List (Option DfVal) :=
  (df.filter fun r => decide (r.site = s)).map fun r => r.static c

/-- `groupby(site)[c].nunique()` at one site: missing values do not count. -/
def uniqueCount (df : List DfRow) (c s : String) : ℕ := (firstSeen ((siteValues df c s).filterMap id)).length

/-- dataframe_utilities.py:203-235 `_ensure_consistent_static_cols`: one row. -/
def withLast (cols : List String) (df : List DfRow) (r : DfRow) : DfRow :=
  ⟨r.site, r.time, r.rep, r.value,
    fun c => if c ∈ cols then ((firstSeen (siteValues df c r.site)).getLast?).join else r.static c⟩

/-- dataframe_utilities.py:203-235 `_ensure_consistent_static_cols`. -/
def ensureConsistent (cols : List String) (df : List DfRow) : List DfRow :=
  if cols.any fun c => decide ((firstSeen ((firstSeen (df.map DfRow.site)).map (uniqueCount df c))).length > 1) then
    df.map (withLast cols df)
  else df

/-! ## Forecasts and truths -/

/-- dataframe_utilities.py:505-516 (experiment and forecast period have one value each; diagnostic is not modelled). -/
def forecastStatics : List String := ["latitude", "longitude", "altitude", "period", "height", "cf_name", "units"]

/-- dataframe_utilities.py:535. -/
def truthStatics : List String := ["latitude", "longitude", "altitude"]

/-- dataframe_utilities.py:548-563: the columns copied to the truth frame. -/
def copiedCols : List String := ["latitude", "longitude", "altitude", "period", "height", "cf_name", "units"]

/-- dataframe_utilities.py:564: the columns of `forecast_subset`. -/
def subsetKey (r : DfRow) : String × ℤ × List (Option DfVal) := (r.site, r.time, copiedCols.map r.static)

/-- dataframe_utilities.py:571: one row of the merge (`how="right"`). -/
def truthFor (truth : List DfRow) (r : DfRow) : DfRow :=
  ⟨r.site, r.time, 0, ((truth.find? fun t => decide (t.site = r.site ∧ t.time = r.time)).bind DfRow.value),
    fun c => if c ∈ copiedCols then r.static c else none⟩

/-- dataframe_utilities.py:459-498: duplicates are dropped, and only sites and times of both frames are kept. -/
def matchFrames (fc truth : List DfRow) : List DfRow × List DfRow :=
  let fc := dropDuplicates fc
  let truth := dropDuplicates truth
  let common := (fc.map DfRow.site).filter fun s => decide (s ∈ truth.map DfRow.site)
  let fc := fc.filter fun r => decide (r.site ∈ common)
  let truth := truth.filter fun r => decide (r.site ∈ common)
  let fc := fc.filter fun r => decide (r.time ∈ truth.map DfRow.time)
  let truth := truth.filter fun r => decide (r.time ∈ fc.map DfRow.time)
  (fc, truth)

/-- dataframe_utilities.py:459-572: the rest of `_prepare_dataframes`. -/
def alignFrames (fc truth : List DfRow) : Except Err (List DfRow × List DfRow) := do
  let both := matchFrames fc truth
  let fc ← fillMissing forecastStatics both.1
  let fc := ensureConsistent ["altitude", "latitude", "longitude"] fc
  let truth ← fillMissing truthStatics both.2
  let fc := sortFrame fc
  let truth := sortFrame truth
  .ok (fc, (dropDupFirst subsetKey fc).map (truthFor truth))

/-! ## Cubes -/

/-- A spot cube: time with bounds, percentile or realization, the sites with their values and places, and height, name and
units. -/
structure DfSlice where
  time : ℤ
  bounds : Option (ℚ × ℚ)
  rep : ℚ
  sites : List String
  values : List (Option ℚ)
  places : List (List (Option DfVal))
  about : List (Option DfVal)
deriving DecidableEq

/-- dataframe_utilities.py:112-131 `_unique_check`: missing values count. -/
def uniqueCheck (df : List DfRow) (c : String) : Except Err Unit :=
  if (firstSeen (df.map fun r => r.static c)).length > 1 then .error .valueError else .ok ()

/-- dataframe_utilities.py:616-622, 725-729: bounds of the time. -/
def timeBoundsOf (date : ℤ) (rows : List DfRow) : Except Err (Option (ℚ × ℚ)) :=
  if rows.all fun r => (r.static "period").isNone then .ok none
  else match rows.head?.bind fun r => r.static "period" with
    | some (.num p) => .ok (some (date - p, date))
    | some (.text _) => .error .typeError
    | none => .ok none

/-- The cube of some rows. -/
def sliceOf (date : ℤ) (bounds : Option (ℚ × ℚ)) (rep : ℚ) (rows : List DfRow) : DfSlice :=
  ⟨date, bounds, rep, rows.map DfRow.site, rows.map DfRow.value,
    rows.map fun r => ["altitude", "latitude", "longitude"].map r.static,
    ["height", "cf_name", "units"].map fun c => (rows.head?.bind fun r => r.static c)⟩

/-- dataframe_utilities.py:604-686: the cubes of one date (`height` is that of the first row of the date, which `uniqueCheck`
makes the same). -/
def forecastOn (df : List DfRow) (date : ℤ) : Except Err (List DfSlice) := do
  let rows := df.filter fun r => decide (r.time = date)
  if rows = [] then .ok []
  else do
    let _ ← (["period", "height", "cf_name", "units"]).mapM (uniqueCheck rows)
    let bounds ← timeBoundsOf date rows
    .ok ((npSort (firstSeen (rows.map DfRow.rep))).map fun p => sliceOf date bounds p (rows.filter fun r => decide (r.rep = p)))

/-- dataframe_utilities.py:575-694 `forecast_dataframe_to_cube` before the merge and before percentiles become realizations;
no slices is None. -/
def forecastSlices (df : List DfRow) (dates : List ℤ) : Except Err (List DfSlice) :=
  (dates.mapM (forecastOn df)).map List.flatten

/-- dataframe_utilities.py:713-753: the cube of one date. -/
def truthOn (df : List DfRow) (date : ℤ) : Except Err (List DfSlice) := do
  let rows := df.filter fun r => decide (r.time = date)
  if rows = [] then .ok []
  else do
    let bounds ← timeBoundsOf date rows
    .ok [sliceOf date bounds 0 rows]

/-- dataframe_utilities.py:697-758 `truth_dataframe_to_cube` before the merge. -/
def truthSlices (df : List DfRow) (dates : List ℤ) : Except Err (List DfSlice) :=
  (dates.mapM (truthOn df)).map List.flatten

/-- dataframe_utilities.py:761-818 `forecast_and_truth_dataframes_to_cubes` (column checks left out). -/
def framesToCubes (experiment : Option String) (percentiles : List ℚ) (isPercentile : Bool) (cycle period : ℤ) (length : ℕ)
    (entries : List FcEntry) (truth : List DfRow) : Except Err (List DfSlice × List DfSlice) := do
  let fc ← selectForecasts experiment period percentiles isPercentile entries
  let both ← alignFrames fc truth
  let f ← forecastSlices both.1 (trainingDates cycle period length)
  let t ← truthSlices both.2 (trainingDates cycle period length)
  .ok (f, t)

end Improver
