import Verif.Model.Sorting

/-! Model of the reordering and rebadging parts of
`improver/ensemble_copula_coupling/ensemble_copula_coupling.py` (and `utilities.py`,
`utilities/indexing_operations.py`). -/

namespace Improver

/-- `choose` (utilities/indexing_operations.py:11-85) at one grid point: `index` and `arr` are the columns
along the leading dimension. -/
def choose (index : List ℕ) (arr : List ℚ) : Except Err (List ℚ) :=
  if index.length ≠ arr.length then .error .valueError
  else if index.any (fun k => decide (k > arr.length - 1)) then .error .indexError
  else .ok (index.map (fun k => arr.getD k 0))

/-- Ranking at one grid point (ensemble_copula_coupling.py:1411-1423). -/
def eccRanking (randomOrdering : Bool) (randomData raw : List ℚ) : List ℕ :=
  if randomOrdering then argsort randomData
  else argsort (lexsort randomData raw)

/-- One validity time of `rank_ecc` at one grid point (ensemble_copula_coupling.py:1410-1434).
`randomData` stands for `RandomState(seed).rand(*shape)`, one number per member. Masks are reapplied unchanged
and not modelled. -/
def rankEccPoint (randomOrdering : Bool) (randomData raw cal : List ℚ) : Except Err (List ℚ) :=
  choose (eccRanking randomOrdering randomData raw) cal

/-- Values held by the variable `random_seed` during `rank_ecc` (ensemble_copula_coupling.py:1407-1409). -/
inductive Seed where
  | none | int (n : ℤ) | randomState (n : Option ℤ)
  deriving DecidableEq, Repr

/-- Lines 1407-1409: `int(random_seed)` of a `RandomState` object is a `TypeError`. -/
def seedStep : Seed → Except Err Seed
  | .none => .ok (.randomState .none)
  | .int n => .ok (.randomState (some n))
  | .randomState _ => .error .typeError

/-- Loop over the time slices of `rank_ecc` (ensemble_copula_coupling.py:1402-1434) at one grid point.
`rnd` gives the random numbers drawn from a given state at a given slice. -/
def rankEccLoop (randomOrdering : Bool) (rnd : Option ℤ → ℕ → List ℚ) :
    Seed → ℕ → List (List ℚ × List ℚ) → Except Err (List (List ℚ))
  | _, _, [] => .ok []
  | seed, t, (raw, cal) :: rest => do
    let seed' ← seedStep seed
    let draw := match seed' with
      | .randomState s => rnd s t
      | _ => []
    let out ← rankEccPoint randomOrdering draw raw cal
    let outs ← rankEccLoop randomOrdering rnd seed' (t + 1) rest
    return out :: outs

/-- `rank_ecc`. -/
def rankEcc (randomOrdering : Bool) (rnd : Option ℤ → ℕ → List ℚ) (seed : Option ℤ)
    (slices : List (List ℚ × List ℚ)) : Except Err (List (List ℚ)) :=
  rankEccLoop randomOrdering rnd (match seed with | .none => .none | some n => .int n) 0 slices

/-- `mpoints[index % len(mpoints)]` (ensemble_copula_coupling.py:1348). -/
def recyclePick (mpoints : List ℤ) (index : ℕ) : Except Err ℤ :=
  match mpoints[index % mpoints.length]? with
  | some m => .ok m
  | none => .error .zeroDivision

/-- `extract(realization=r)` and renumbering (ensemble_copula_coupling.py:1357-1361). -/
def recycleExtract {α : Type} (raw : List (ℤ × α)) (x : ℤ × ℤ) : Except Err (ℤ × α) :=
  match raw.find? (fun s => s.1 = x.1) with
  | some s => .ok (x.2, s.2)
  | none => .error .attributeError

/-- `realization_list[0]` (ensemble_copula_coupling.py:1351). -/
def firstOf : List ℤ → Except Err ℤ
  | m :: _ => .ok m
  | [] => .error .indexError

/-- `_recycle_raw_ensemble_realizations` (ensemble_copula_coupling.py:1302-1365).  `raw` lists
(realization number, data).  `extract(realization=r)` picks the slice with that number. -/
def recycleRaw {α : Type} (plen : ℕ) (raw : List (ℤ × α)) : Except Err (List (ℤ × α)) :=
  if plen = raw.length then .ok raw
  else do
    let realizationList ← (List.range plen).mapM (recyclePick (raw.map (·.1)))
    let first ← firstOf realizationList
    let newNumbers := (List.range plen).map (fun k : ℕ => first + (k : ℤ))
    (List.zip realizationList newNumbers).mapM (recycleExtract raw)

/-- `choose_set_of_percentiles` with `sampling="quantile"` (utilities.py:53-108). -/
def chooseSetOfPercentiles (n : ℕ) : List ℚ :=
  (npLinspace (1 / (1 + (n : ℚ))) ((n : ℚ) / (1 + (n : ℚ))) n).map (fun item => item * 100)

/-- A percentile (or realization) cube for rebadging: coordinate points, one data column per point of the
coordinate, and whether a realization coordinate exists as well. -/
structure PCube (α : Type) where
  points : List ℚ
  data : List α
  hasRealization : Bool
  deriving DecidableEq, Repr

/-- `RebadgePercentilesAsRealizations.process` (ensemble_copula_coupling.py:125-198).  The input cube object is
modified in place; the second component is the input cube after the call. -/
def rebadgePercentiles {α : Type} (c : PCube α) (numbers : Option (List ℚ)) :
    Except Err (PCube α) × PCube α :=
  let coords := npSort (npUnique (c.points ++ [0, 100]))
  let diffs := npDiff coords
  match npMax diffs, npMin diffs with
  | .ok mx, .ok mn =>
    if ¬ npIsclose mx mn then (.error .valueError, c)
    else
      let nums := numbers.getD ((List.range c.points.length).map (fun k : ℕ => (k : ℚ)))
      if nums.length ≠ c.points.length then (.error .valueError, c)
      else
        let c' := { c with points := nums }
        if c.hasRealization then (.error .invalidCube, c')
        else (.ok c', c')
  | _, _ => (.error .valueError, c)

/-- `RebadgeRealizationsAsPercentiles.process` (ensemble_copula_coupling.py:77-114) at one grid point, for a
cube with a realization dimension.  Returns (percentile points, data). -/
def rebadgeRealizations (optimalCrps : Bool) (data : List ℚ) : List ℚ × List ℚ :=
  let lenp := data.length
  let pts := if optimalCrps then
      (List.range lenp).map (fun k : ℕ => 100 * ((k : ℚ) + 1 / 2) / (lenp : ℚ))
    else (List.range lenp).map (fun k : ℕ => 100 * ((k : ℚ) + 1) / ((lenp : ℚ) + 1))
  (pts, npSort data)

/-! ### Location and scale parameters -/

/-- State of `ConvertLocationAndScaleParameters` (ensemble_copula_coupling.py:816-918) at one grid point:
distribution kind and `self.shape_parameters`. -/
structure LocScaleState where
  truncnorm : Bool
  shape : List ℚ
  deriving DecidableEq, Repr

/-- `_rescale_shape_parameters` (ensemble_copula_coupling.py:885-918): overwrites `self.shape_parameters`. -/
def rescaleShape (s : LocScaleState) (loc scale : ℚ) : LocScaleState :=
  if s.truncnorm then { s with shape := s.shape.map (fun v => (v - loc) / scale) } else s

/-- One call of `process` of either subclass (ensemble_copula_coupling.py:986-997, 1220-1242): the answer is a
function `dist` (scipy's ppf/cdf/sf) of the rescaled shape parameters, location and scale. -/
def locScaleCall {β : Type} (dist : List ℚ → ℚ → ℚ → β) (s : LocScaleState) (loc scale : ℚ) :
    β × LocScaleState :=
  let s' := rescaleShape s loc scale
  (dist s'.shape loc scale, s')

/-- A history of calls on the same plugin object; returns the answers. -/
def locScaleRun {β : Type} (dist : List ℚ → ℚ → ℚ → β) : LocScaleState → List (ℚ × ℚ) → List β
  | _, [] => []
  | s, (l, c) :: rest =>
    let r := locScaleCall dist s l c
    r.1 :: locScaleRun dist r.2 rest

end Improver
