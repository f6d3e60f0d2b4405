import Verif.Model.RainForests
import Verif.Model.Standards

/-! Models of the configuration and of the whole of the RainForests calibration (improver/calibration/rainforest_calibration.py): choice
of the class, check of the file names, tables of models, splits read from the model files, `process` and its command line. -/

namespace Improver

/-- The entry for one threshold: file names by kind of model. -/
structure RfFiles where
  lightgbm : Option String
  treelite : Option String
deriving DecidableEq

/-- `model_config_dict`: lead times with thresholds with files, in order; keys are texts of type `K`. -/
abbrev RfConfig (K : Type) := List (K × List (K × RfFiles))

/-- `check_filenames` (rainforest_calibration.py:179-208); `key` is one of the two kinds. -/
def rfCheckFilenames {K : Type} (key : RfFiles → Option String) (config : RfConfig K) : Except Err Unit :=
  if (config.flatMap fun lead => lead.2.map fun t => key t.2).any (fun f => decide (f = none)) then .error .valueError else .ok ()

/-- `ApplyRainForestsCalibration.__new__` (rainforest_calibration.py:93-111): whether the Treelite class is used. -/
def rfChooseTreelite {K : Type} (libraryFound : Bool) (config : RfConfig K) : Except Err Bool :=
  if libraryFound ∧ rfCheckFilenames RfFiles.treelite config = .ok () then .ok true
  else match rfCheckFilenames RfFiles.lightgbm config with
    | .error e => .error e
    | .ok () => .ok false

/-- Assignment in a dictionary: an existing key keeps its place. -/
def dictPut {K V : Type} [DecidableEq K] (d : List (K × V)) (k : K) (v : V) : List (K × V) :=
  if d.any (fun e => decide (e.1 = k)) then d.map fun e => if e.1 = k then (k, v) else e else d ++ [(k, v)]

/-- `{np.float32(k): v for k, v in d.items()}`. -/
def dictByNumber {K V : Type} (num : K → ℚ) (d : List (K × V)) : List (ℚ × V) := d.foldl (fun acc e => dictPut acc (num e.1) e.2) []

/-- `sorted(d.items())` for different keys. -/
def sortItems {V : Type} (d : List (ℚ × V)) : List (ℚ × V) := d.insertionSort (fun a b => a.1 ≤ b.1)

/-- `_parse_model_config` (rainforest_calibration.py:210-241): the table, the lead times and the model thresholds. -/
def rfParse {K : Type} (num : K → ℚ) (config : RfConfig K) : List (ℚ × List (ℚ × RfFiles)) × List ℚ × List ℚ :=
  let table := dictByNumber num (config.map fun lead => (lead.1, sortItems (dictByNumber num lead.2)))
  let leads := (sortItems table).map Prod.fst
  match leads with
  | [] => (table, [], [])
  | l :: _ => (table, leads, ((table.lookup l).getD []).map Prod.fst)

/-- `np.any(curr_thresholds != self.model_thresholds)` (rainforest_calibration.py:309, 843); an array of one element is broadcast,
other different lengths are an error, which is a ValueError as well. -/
def rfThresholdsDiffer (curr model : List ℚ) : Bool :=
  if curr.length = model.length then (List.zipWith (fun a b => decide (a ≠ b)) curr model).any id
  else match curr, model with
    | [c], m => m.any fun b => decide (c ≠ b)
    | c, [b] => c.any fun a => decide (a ≠ b)
    | _, _ => true

/-- One entry of `tree_models` (rainforest_calibration.py:315-321, 845-851): the file for a threshold; a threshold that is not there is a
KeyError, a missing name a TypeError of `Path`. -/
def rfEntry (key : RfFiles → Option String) (lead : ℚ) (row : List (ℚ × RfFiles)) (t : ℚ) : Except Err ((ℚ × ℚ) × String) :=
  match row.lookup t with
  | none => .error .keyError
  | some f => match key f with
    | none => .error .typeError
    | some name => .ok ((lead, t), name)

/-- The models of one lead time (rainforest_calibration.py:306-321, 840-851). -/
def rfLead (key : RfFiles → Option String) (table : List (ℚ × List (ℚ × RfFiles))) (thresholds : List ℚ) (lead : ℚ) :
    Except Err (List ((ℚ × ℚ) × String)) :=
  let row := (table.lookup lead).getD []
  if rfThresholdsDiffer (row.map Prod.fst) thresholds then .error .valueError else thresholds.mapM (rfEntry key lead row)

/-- `__new__` and `__init__` (rainforest_calibration.py:248-321, 777-851): lead times, thresholds, and the file of the model for each
lead time and threshold.  Loading of models from their files is not modelled. -/
def rfInit {K : Type} (num : K → ℚ) (libraryFound : Bool) (config : RfConfig K) :
    Except Err (List ℚ × List ℚ × List ((ℚ × ℚ) × String)) := do
  let treelite ← rfChooseTreelite libraryFound config
  let p := rfParse num config
  let models ← p.2.1.mapM (rfLead (if treelite then RfFiles.treelite else RfFiles.lightgbm) p.1 p.2.2)
  return (p.2.1, p.2.2, models.flatten)

/-! ### Splits read from model files -/

/-- A line of a LightGBM model file: the features of the splits of a tree, their thresholds, or anything else. -/
inductive RfLine where
  | features (l : List ℕ)
  | thresholds (l : List ℚ)
  | other

/-- The loop of `_get_feature_splits` (rainforest_calibration.py:160-173) with the last features read (`none`: the name is not bound, a
NameError, reported as a runtime error).  Lines with nothing after the sign of equality are skipped. -/
def rfReadLines : Option (List ℕ) → List RfLine → Except Err (List (ℕ × ℚ))
  | _, [] => .ok []
  | fs, .other :: rest => rfReadLines fs rest
  | fs, .features l :: rest => if l = [] then rfReadLines fs rest else rfReadLines (some l) rest
  | fs, .thresholds l :: rest =>
    if l = [] then rfReadLines fs rest
    else match fs with
      | none => .error .runtimeError
      | some f => do
        let more ← rfReadLines fs rest
        return f.zip l ++ more

/-! ### The whole calibration -/

/-- The plugin: lead times, thresholds, models, number of features, and whether data are binned. -/
structure RfPlugin where
  leads : List ℚ
  thresholds : List ℚ
  model : ℚ → ℚ → Forest
  numFeatures : ℕ
  binData : Bool

/-- `_evaluate_probabilities` (rainforest_calibration.py:509-573) for a lead time in hours: for each threshold the predictions of all
rows; `junk` is what `np.empty` holds. -/
def rfPredict (P : RfPlugin) (junk : List ℚ) (hours : ℚ) (rows : List (List ℚ)) : Except Err (List (List ℚ)) := do
  let lead ← modelLeadTime P.leads hours
  let models := P.thresholds.map (P.model lead)
  if P.binData then evaluateBinned models (featureSplits models P.numFeatures) junk rows else .ok (evaluatePlain models rows)

/-- The output thresholds in the unit of the forecast (rainforest_calibration.py:747-757). -/
def rfThresholds (unit : Option StdUnit) (forecastUnit : StdUnit) (out : List ℚ) : Except Err (List ℚ) :=
  match unit with
  | none => .ok out
  | some u => if out ≠ [] ∧ u.dimension ≠ forecastUnit.dimension then .error .valueError else .ok (out.map (convertUnit u forecastUnit))

/-- The probabilities at one point (rainforest_calibration.py:611-614, 759-768): row `r * points + i` belongs to realization `r`. -/
def rfPoint (lower : ℚ) (model out : List ℚ) (n points : ℕ) (preds : List (List ℚ)) (i : ℕ) : Except Err (List ℚ) :=
  calibratedProbabilities lower model out ((List.range n).map fun r => preds.map fun p => p.getD (r * points + i) 0)

/-- `process` (rainforest_calibration.py:683-770): for each point of the grid, in row-major order, the probabilities at the output
thresholds.  `seconds` is the forecast period.  Simplification: realization is the leading dimension of the forecast (`notImplemented`
otherwise). -/
def rfProcess (P : RfPlugin) (lower : ℚ) (forecastUnit : StdUnit) (junk : List ℚ) (seconds : ℚ) (forecast : FeatCube)
    (features : List FeatCube) (outThresholds : List ℚ) (unit : Option StdUnit) : Except Err (List (List ℚ)) := do
  if P.numFeatures ≠ features.length then .error .valueError
  else
    let aligned ← alignFeatures features forecast
    let rows ← featuresArray aligned.1
    let preds ← rfPredict P junk (seconds / 3600) rows
    if aligned.2.dims.head? ≠ some "realization" then .error .notImplemented
    else if rows.length ≠ aligned.2.size "realization" * (aligned.2.dims.tail.map aligned.2.size).prod then .error .valueError
    else
      let out ← rfThresholds unit forecastUnit outThresholds
      (List.range (aligned.2.dims.tail.map aligned.2.size).prod).mapM
        (rfPoint lower P.thresholds out (aligned.2.size "realization") (aligned.2.dims.tail.map aligned.2.size).prod preds)

/-- The output thresholds of the command line (cli/apply_rainforests_calibration.py:79-95): from the option or from the keys of the
configuration, one of which must be there. -/
def rfCliThresholds (config : Option (List (ℚ × Option (ℚ × ℚ)))) (option : Option (List ℚ)) : Except Err (List ℚ) :=
  let given (l : List ℚ) : Bool := decide (l ≠ [])
  let fromConfig := (config.map fun c => c.map Prod.fst).getD []
  let fromOption := option.getD []
  if given fromConfig ∧ given fromOption then .error .valueError
  else if ¬ given fromConfig ∧ ¬ given fromOption then .error .valueError
  else if given fromConfig then .ok fromConfig else .ok fromOption

end Improver
