import Verif.Model.Interp
import Verif.Model.CubeManip

/-!
Model of improver/calibration/rainforest_calibration.py.

LightGBM models are lists of decision trees (a value not above the threshold goes left) whose leaf values are combined by
some function (`link`); missing values and categorical features are not modelled.
-/

namespace Improver

/-! ## Trees -/

/-- A decision tree. -/
inductive RfTree where
  | leaf (value : ℚ)
  | node (feature : ℕ) (threshold : ℚ) (low high : RfTree)

/-- The leaf a row of features falls on. -/
def RfTree.eval (x : List ℚ) : RfTree → ℚ
  | .leaf v => v
  | .node f t low high => if x.getD f 0 ≤ t then low.eval x else high.eval x

/-- The splits of a tree: features and thresholds. -/
def RfTree.splits : RfTree → List (ℕ × ℚ)
  | .leaf _ => []
  | .node f t low high => (f, t) :: (low.splits ++ high.splits)

/-- A model for one lead time and threshold. -/
structure Forest where
  trees : List RfTree
  link : List ℚ → ℚ

/-- rainforest_calibration.py:556-557, 569-570: `np.clip(model.predict(rows), 0, 1)` for one row. -/
def Forest.predict (F : Forest) (x : List ℚ) : ℚ := npClip (F.link (F.trees.map (RfTree.eval x))) 0 1

/-- rainforest_calibration.py:137-177 `_get_feature_splits` for one lead time: for each feature the thresholds of all
models, in order (what the model files say is taken from the trees themselves). -/
def featureSplits (models : List Forest) (n : ℕ) : List (List ℚ) :=
  (List.range n).map fun f =>
    npUnique ((((models.flatMap Forest.trees).flatMap RfTree.splits).filter fun s => decide (s.1 = f)).map Prod.snd)

/-- `np.digitize(x, bins)`, for bins in ascending order: the number of bins that are not above `x`. -/
def digitize (bins : List ℚ) (x : ℚ) : ℕ := bins.countP fun b => decide (b ≤ x)

/-- rainforest_calibration.py:535-538: the bins of a row. -/
def binRow (splits : List (List ℚ)) (x : List ℚ) : List ℕ := splits.mapIdx fun i b => digitize b (x.getD i 0)

/-- Lexicographic order. -/
def rowLe : List ℕ → List ℕ → Bool
  | [], _ => true
  | _ :: _, [] => false
  | a :: s, b :: t => if a < b then true else if a = b then rowLe s t else false

/-- rainforest_calibration.py:540: `np.lexsort` of the rows; the last feature is the first key. -/
def lexsortRows (rows : List (List ℕ)) : List ℕ :=
  (List.range rows.length).insertionSort fun i j => rowLe (rows.getD i []).reverse (rows.getD j []).reverse = true

/-- `np.maximum.accumulate`. -/
def maxAcc : ℕ → List ℕ → List ℕ
  | _, [] => []
  | m, a :: l => max m a :: maxAcc (max m a) l

/-- rainforest_calibration.py:544-545: the rows to predict for, the first and those that differ from the one before. -/
def predictRows (sorted : List (List ℕ)) : List ℕ :=
  (List.range sorted.length).filter fun i => decide (i = 0 ∨ sorted.getD i [] ≠ sorted.getD (i - 1) [])

/-- rainforest_calibration.py:549-551. -/
def fillInds (n : ℕ) (rows : List ℕ) : List ℕ := maxAcc 0 ((List.range n).map fun i => if i ∈ rows then i else 0)

/-- rainforest_calibration.py:558: `full_prediction[predict_rows] = prediction`. -/
def setRows (full : List ℚ) (rows : List ℕ) (values : List ℚ) : List ℚ :=
  (List.range full.length).map fun i => if i ∈ rows then values.getD (rows.idxOf i) 0 else full.getD i 0

/-- rainforest_calibration.py:554-564: the loop over thresholds; `full` is the array that is used again for each. -/
def binnedLoop (data : List (List ℚ)) (rows fill reverse : List ℕ) : List ℚ → List Forest → List (List ℚ)
  | _, [] => []
  | full, F :: rest =>
    let full := setRows full rows (data.map F.predict)
    let full := fill.map fun i => full.getD i 0
    let full := reverse.map fun i => full.getD i 0
    full :: binnedLoop data rows fill reverse full rest

/-- rainforest_calibration.py:530-564: evaluation with binned data.  `junk` is what `np.empty` gives.  Without rows, index 0
is out of bounds. -/
def evaluateBinned (models : List Forest) (splits : List (List ℚ)) (junk : List ℚ) (input : List (List ℚ)) :
    Except Err (List (List ℚ)) :=
  if input = [] then .error .indexError
  else
    let binned := input.map (binRow splits)
    let sortInd := lexsortRows binned
    let sorted := sortInd.map fun i => binned.getD i []
    let rows := predictRows sorted
    let data := rows.map fun i => input.getD (sortInd.getD i 0) []
    .ok (binnedLoop data rows (fillInds input.length rows) (argsort sortInd) junk models)

/-- rainforest_calibration.py:566-573: evaluation of all rows. -/
def evaluatePlain (models : List Forest) (input : List (List ℚ)) : List (List ℚ) :=
  models.map fun F => input.map F.predict

/-- rainforest_calibration.py:523-528: the model lead time used (`np.argmin` takes the first; `lead_times` ascend). -/
def modelLeadTime (leads : List ℚ) (hours : ℚ) : Except Err ℚ :=
  if hours ∈ leads then .ok hours
  else match leads with
    | [] => .error .valueError
    | l :: rest => .ok (rest.foldl (fun best x => if |x - hours| < |best - hours| then x else best) l)

/-! ## Distributions -/

/-- `np.minimum.accumulate`. -/
def minAccQ : ℚ → List ℚ → List ℚ
  | _, [] => []
  | m, a :: l => min m a :: minAccQ (min m a) l

/-- `np.minimum.accumulate` of a whole list. -/
def runMin : List ℚ → List ℚ
  | [] => []
  | a :: l => a :: minAccQ a l

/-- `np.flip(np.maximum.accumulate(np.flip(p)))`: the largest of each value and those after it. -/
def tailMax : List ℚ → List ℚ
  | [] => []
  | [a] => [a]
  | a :: b :: l => match tailMax (b :: l) with
    | [] => [a]
    | m :: rest => max a m :: m :: rest

/-- rainforest_calibration.py:485-507 `_make_decreasing` at one point. -/
def makeDecreasing (p : List ℚ) : List ℚ := List.zipWith (fun u l => 1 / 2 * (u + l)) (tailMax p) (runMin p)

/-- rainforest_calibration.py:618-681 `_get_ensemble_distributions` at one point of one realization: probabilities `probs` at
the model thresholds, wanted at the output thresholds; `lower` is the lower bound of the distribution. -/
def ensembleDistribution (lower : ℚ) (model probs out : List ℚ) : Except Err (List ℚ) :=
  match out with
  | [] => .error .indexError
  | o :: _ =>
    let p := if model.length = out.length ∧ (List.zipWith (fun a b => npIsclose a b) model out).all id then probs
      else makeDecreasing (out.map (fastInterpX (lower :: model) (1 :: probs)))
    .ok (if npIsclose o lower then 1 :: p.tail else p)

/-- The mean of a list. -/
def meanOf (l : List ℚ) : ℚ := l.sum / l.length

/-- rainforest_calibration.py:597-616, 759-770 at one point: from the predictions of the models (one for each threshold) for
each realization to the probabilities at the output thresholds. -/
def calibratedProbabilities (lower : ℚ) (model out : List ℚ) (predictions : List (List ℚ)) : Except Err (List ℚ) := do
  let dists ← predictions.mapM fun p => ensembleDistribution lower model (makeDecreasing p) out
  .ok ((List.range out.length).map fun k => meanOf (dists.map fun d => d.getD k 0))

/-! ## Features -/

/-- A feature or forecast cube: name, dimensions in order, all coordinates (name and value), sizes of dimensions and data by
the positions along the named dimensions in order. -/
structure FeatCube where
  name : String
  dims : List String
  coords : List (String × List ℚ)
  data : List ℕ → ℚ

/-- The size of a dimension. -/
def FeatCube.size (c : FeatCube) (d : String) : ℕ := ((c.coords.lookup d).getD []).length

/-- All positions, in row-major order. -/
def allIdx : List ℕ → List (List ℕ)
  | [] => [[]]
  | n :: rest => (List.range n).flatMap fun i => (allIdx rest).map (i :: ·)

/-- `cube.data.ravel()`. -/
def FeatCube.ravel (c : FeatCube) : List ℚ := (allIdx (c.dims.map c.size)).map c.data

/-- cube_manipulation.py:357-428 `compare_coords` as used at rainforest_calibration.py:366-374: every dimension coordinate of
every cube but realization is a coordinate of all cubes. -/
def dimsAgree (cubes : List FeatCube) : Bool :=
  cubes.all fun c => c.dims.all fun d =>
    decide (d = "realization") || cubes.all fun e => decide (e.coords.lookup d = c.coords.lookup d)

/-- rainforest_calibration.py:379-383: one step of the dictionary comprehension. -/
def recordRealization (acc : List (String × List ℚ)) (c : FeatCube) : List (String × List ℚ) :=
  match c.coords.lookup "realization" with
  | none => acc
  | some r => if acc.any (fun e => decide (e.1 = c.name)) then acc.map fun e => if e.1 = c.name then (c.name, r) else e
    else acc ++ [(c.name, r)]

/-- rainforest_calibration.py:379-383: the realization coordinates by name of the cube (a later cube replaces an earlier one
of its name). -/
def realizationCoords (cubes : List FeatCube) : List (String × List ℚ) := cubes.foldl recordRealization []

/-- rainforest_calibration.py:403-407: a realization dimension for a cube without one. -/
def addRealization (coord : List ℚ) (c : FeatCube) : FeatCube :=
  if (c.coords.lookup "realization").isSome then c
  else ⟨c.name, "realization" :: c.dims, ("realization", coord) :: c.coords, fun i => c.data i.tail⟩

/-- rainforest_calibration.py:330-416 `_align_feature_variables`. -/
def alignFeatures (features : List FeatCube) (forecast : FeatCube) : Except Err (List FeatCube × FeatCube) :=
  let cubes := features ++ [forecast]
  if !dimsAgree cubes then .error .valueError
  else match realizationCoords cubes with
    | [] => .ok (features.map (addRealization [0]), addRealization [0] forecast)
    | r :: rest => if rest.all fun e => decide (e.2 = r.2) then
        .ok (features.map (addRealization r.2), addRealization r.2 forecast)
      else .error .valueError

/-- Order of names. -/
def nameLe (a b : FeatCube) : Prop := a.name ≤ b.name

instance : DecidableRel nameLe := fun a b => inferInstanceAs (Decidable (a.name ≤ b.name))

/-- rainforest_calibration.py:454-483 `_prepare_features_array`: the features in order of names; two cubes of one name are an
error, and so are cubes with other numbers of points. -/
def featuresArray (features : List FeatCube) : Except Err (List (List ℚ)) :=
  let cols := (features.insertionSort nameLe).map FeatCube.ravel
  if ¬ (features.map FeatCube.name).Nodup then .error .valueError
  else match cols with
    | [] => .error .valueError
    | c :: rest =>
      if rest.all fun d => decide (d.length = c.length) then
        .ok ((List.range c.length).map fun k => cols.map fun col => col.getD k 0)
      else .error .valueError

end Improver
