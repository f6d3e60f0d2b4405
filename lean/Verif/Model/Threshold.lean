import Verif.Model.Rescale

/-! Model of `improver/threshold.py` (class `Threshold`) and the operator table of
`improver/utilities/probability_manipulation.py`. -/

namespace Improver

/-- The four comparison operators of `comparison_operator_dict`
(improver/utilities/probability_manipulation.py:15-56). -/
inductive CmpOp where
  | ge | gt | le | lt
  deriving DecidableEq, Repr

/-- Key lookup in `comparison_operator_dict` (probability_manipulation.py:26-55) as used by
`Threshold._decode_comparison_operator_string` (threshold.py:318-337); an unknown key is a `ValueError`. -/
def CmpOp.decode (s : String) : Except Err CmpOp :=
  if s = "ge" ∨ s = "GE" ∨ s = ">=" then .ok .ge
  else if s = "gt" ∨ s = "GT" ∨ s = ">" then .ok .gt
  else if s = "le" ∨ s = "LE" ∨ s = "<=" then .ok .le
  else if s = "lt" ∨ s = "LT" ∨ s = "<" then .ok .lt
  else .error .valueError

/-- `function` entries of the table (probability_manipulation.py:30,39,46,53). -/
def CmpOp.eval : CmpOp → ℚ → ℚ → Bool
  | .ge, a, b => decide (a ≥ b)
  | .gt, a, b => decide (a > b)
  | .le, a, b => decide (a ≤ b)
  | .lt, a, b => decide (a < b)

/-- Whether `"less_than" in spp_string` (threshold.py:413): true for `le` and `lt`. -/
def CmpOp.lessThan : CmpOp → Bool
  | .ge => false | .gt => false | .le => true | .lt => true

/-- `Threshold._generate_fuzzy_bounds` (threshold.py:265-278), one threshold. -/
def fuzzyBound (factor thr : ℚ) : ℚ × ℚ :=
  let lower := thr * factor
  let upper := thr * (2 - factor)
  if thr < 0 then (upper, lower) else (lower, upper)

/-- `Threshold._check_fuzzy_bounds` (threshold.py:280-295): every bound pair must bracket its threshold.
`zip` stops at the shorter list, as in the code.  The length-2 check is in the types. -/
def checkFuzzyBounds (thresholds : List ℚ) (bounds : List (ℚ × ℚ)) : Except Err Unit :=
  if (thresholds.zip bounds).any (fun tb => decide (tb.2.1 > tb.1 ∨ tb.2.2 < tb.1)) then
    .error .valueError
  else .ok ()

/-- How thresholds are given: `threshold_values`, or the entries of `threshold_config` in order, each
with optional bounds (the string "None" is `none`). -/
inductive ThresholdArgs where
  | values (vs : List ℚ)
  | config (entries : List (ℚ × Option (ℚ × ℚ)))

/-- Loop body of `Threshold._set_thresholds` (threshold.py:246-255): the variable `fuzzy_bounds` becomes
`None` at a "None" entry, and `.append` on `None` is an `AttributeError`. -/
def setThresholdsStep (acc : List ℚ × Option (List (ℚ × ℚ))) (e : ℚ × Option (ℚ × ℚ)) :
    Except Err (List ℚ × Option (List (ℚ × ℚ))) :=
  match e.2 with
  | none => .ok (acc.1 ++ [e.1], none)
  | some b =>
    match acc.2 with
    | none => .error .attributeError
    | some bs => .ok (acc.1 ++ [e.1], some (bs ++ [b]))

/-- `Threshold._set_thresholds` (threshold.py:219-263).  A non-empty config is assumed (an empty dict is
falsy in Python). -/
def setThresholds : ThresholdArgs → Except Err (List ℚ × Option (List (ℚ × ℚ)))
  | .values vs => .ok (vs, none)
  | .config entries => entries.foldlM setThresholdsStep ([], some [])

/-- The validated plugin configuration. -/
structure ThresholdPlugin where
  thresholds : List ℚ
  bounds : List (ℚ × ℚ)
  op : CmpOp
  deriving Repr, DecidableEq

/-- `Threshold.__init__` (threshold.py:147-197) restricted to thresholds, fuzzy factor and operator. -/
def Threshold.init (args : ThresholdArgs) (fuzzyFactor : Option ℚ) (opStr : String) :
    Except Err ThresholdPlugin := do
  let (thresholds, fuzzyBounds) ← setThresholds args
  let factorLoc ← match fuzzyFactor with
    | none => .ok 1
    | some f =>
      if fuzzyBounds.isSome then .error Err.valueError
      else if ¬ (0 < f ∧ f < 1) then .error Err.valueError
      else if (0 : ℚ) ∈ thresholds then .error Err.valueError
      else .ok f
  let bounds ← match fuzzyBounds with
    | none => .ok (thresholds.map (fuzzyBound factorLoc))
    | some bs => do
      checkFuzzyBounds thresholds bs
      .ok bs
  let op ← CmpOp.decode opStr
  return { thresholds := thresholds, bounds := bounds, op := op }

/-- `Threshold._calculate_truth_value` (threshold.py:362-416) at one point, data already in threshold
units.  `np.where` evaluates both `rescale` calls, so their errors are raised regardless of the data. -/
def truthValue (op : CmpOp) (thr : ℚ) (bounds : ℚ × ℚ) (x : ℚ) : Except Err ℚ :=
  if bounds.1 = bounds.2 then
    .ok (if op.eval x thr then 1 else 0)
  else do
    let below ← rescale x (bounds.1, thr) (0, 1 / 2) true
    let above ← rescale x (thr, bounds.2) (1 / 2, 1) true
    let v := if x < thr then below else above
    return if op.lessThan then 1 - v else v

/-- A masked-array element: the stored data value and whether it is masked. -/
structure MVal where
  val : ℚ
  masked : Bool
  deriving Repr, DecidableEq

/-- Accumulation over realizations for one threshold at one grid point: numerator (sum of truth values of
unmasked members) and `contribution_total` (threshold.py:589-627). -/
def accumulateTruth (op : CmpOp) (thr : ℚ) (bounds : ℚ × ℚ) :
    List MVal → ℚ × ℕ → Except Err (ℚ × ℕ)
  | [], acc => .ok acc
  | m :: ms, acc => do
    let tv ← truthValue op thr bounds m.val
    accumulateTruth op thr bounds ms
      (if m.masked then acc else (acc.1 + tv, acc.2 + 1))

/-- `fill_masked` (threshold.py:558-559): `np.ma.filled`. -/
def fillMasked (fill : Option ℚ) (m : MVal) : MVal :=
  match fill with
  | none => m
  | some f => if m.masked then ⟨f, false⟩ else m

/-- `Threshold.process` at one grid point and one threshold, collapsing realizations
(threshold.py:554-645): the sum of truth values of unmasked members over their number; masked (`none`) when no
member is valid.  Not modelled: NaN check, vicinity, unit conversion, metadata. -/
def thresholdPoint (op : CmpOp) (thr : ℚ) (bounds : ℚ × ℚ) (fill : Option ℚ)
    (members : List MVal) : Except Err (Option ℚ) := do
  let acc ← accumulateTruth op thr bounds (members.map (fillMasked fill)) (0, 0)
  return if acc.2 = 0 then none else some (acc.1 / acc.2)

/-- All thresholds of a plugin at one grid point (threshold.py:613-627): `zip(thresholds, fuzzy_bounds)`. -/
def ThresholdPlugin.processPoint (p : ThresholdPlugin) (fill : Option ℚ) (members : List MVal) :
    Except Err (List (Option ℚ)) :=
  (p.thresholds.zip p.bounds).mapM (fun tb => thresholdPoint p.op tb.1 tb.2 fill members)

/-! ### Statefulness of the plugin (C06) -/

/-- Probabilistic dimension of an input cube. -/
inductive CubeKind where
  | percentile | realization | deterministic
  deriving DecidableEq, Repr

/-- The part of a `Threshold` object changed by `process`: `self.collapse_coord` (threshold.py:199-204, 561-563). -/
abbrev CollapseState := Option CubeKind

/-- The coordinate handling of `Threshold.process` (threshold.py:561-586): a percentile cube is rebadged
and `self.collapse_coord` is overwritten with `"realization"`; afterwards slicing over the collapse coordinate
needs that coordinate.  Returns the outcome, the new plugin state and the caller's cube as left by the call
(`RebadgePercentilesAsRealizations` renames the coordinate of the cube it is given,
ensemble_copula_coupling.py:178-196; equally spaced percentiles are assumed). -/
def Threshold.collapseStep (s : CollapseState) (cube : CubeKind) :
    Except Err CubeKind × CollapseState × CubeKind :=
  if s = some .percentile then
    if cube = .percentile then
      -- rebadged to realizations, then collapsed over them
      (.ok .deterministic, some .realization, .realization)
    else (.error .coordinateNotFound, s, cube)
  else if s = some .realization then
    if cube = .realization then (.ok .deterministic, s, cube)
    else (.error .coordinateNotFound, s, cube)
  else (.ok cube, s, cube)

/-- Running a plugin over a history of cubes. -/
def Threshold.runHistory (s : CollapseState) : List CubeKind → CollapseState
  | [] => s
  | c :: cs => Threshold.runHistory (Threshold.collapseStep s c).2.1 cs

/-! ### Side effects on the caller's cube (C36) -/

/-- A cube as seen by unit handling: its units and its data. -/
structure UCube where
  units : String
  data : List ℚ
  deriving DecidableEq, Repr

/-- `iris.cube.Cube.convert_units`: converts data and units in place; `conv src tgt` is the unit library. -/
def UCube.convert (conv : String → String → ℚ → ℚ) (c : UCube) (u : String) : UCube :=
  { units := u, data := c.data.map (conv c.units u) }

/-- Unit handling of `Threshold.process` for the caller's cube (threshold.py:384-385, 565, 578-585, 648-650).
Without a collapse coordinate the list of slices is `[input_cube]`, so `convert_units` acts on the caller's object;
with one, slices are new cubes.  Returns the units of the output threshold coordinate (those of the
input on entry), the data as compared with the thresholds, and the caller's cube after the call. -/
def Threshold.unitsStep (conv : String → String → ℚ → ℚ) (thresholdUnits : Option String)
    (collapsing : Bool) (cube : UCube) : String × List ℚ × UCube :=
  let originalUnits := cube.units
  let converted := match thresholdUnits with
    | none => cube
    | some u => cube.convert conv u
  (originalUnits, converted.data, if collapsing then cube else converted)

end Improver
