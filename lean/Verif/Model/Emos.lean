import Verif.Model.Crps
import Verif.Basic

/-!
Model of the estimation of EMOS coefficients and of their application:
improver/calibration/ensemble_calibration.py and the helpers of
improver/calibration/utilities.py.  Reals instead of floating point numbers; the Nelder-Mead
minimisation (scipy) and the least squares fit (statsmodels) are parameters.
-/

namespace Improver

/-! ### Flattening of the training data -/

/-- An element of a (possibly masked) numpy array. -/
inductive Entry
  | masked
  | nan
  | val (r : ℝ)

/-- Element of the mask. -/
def Entry.isMasked : Entry → Bool
  | .masked => true
  | _ => false

/-- Value of an unmasked element, NaN as `none`. -/
def Entry.unmasked? : Entry → Option (Option ℝ)
  | .masked => none
  | .nan => some none
  | .val r => some (some r)

/-- `data_array[~data_array.mask]` (improver/calibration/utilities.py:103): the unmasked
elements in C order; also `flatten()` (line 105) when nothing is masked. -/
def pickUnmasked (l : List Entry) : List (Option ℝ) := l.filterMap Entry.unmasked?

/-- `np.ma.is_masked` of an array given by its slices along the leading dimension. -/
def anyMaskedRows (rows : List (List Entry)) : Bool := rows.any fun r => r.any Entry.isMasked

/-- utilities.py:91-100: in arrays of more than two dimensions all slices along the leading
dimension must have the same mask. -/
def sameMasks (rows : List (List Entry)) : Bool :=
  match rows with
  | [] => true
  | r :: rs => rs.all fun s => s.map Entry.isMasked == r.map Entry.isMasked

/-- `flatten_ignoring_masked_data` without `preserve_leading_dimension`
(utilities.py:56-111).  `nd3` says that the array has more than two dimensions. -/
def flattenAll (nd3 : Bool) (rows : List (List Entry)) : Except String (List (Option ℝ)) :=
  if anyMaskedRows rows && nd3 && !sameMasks rows then .error "ValueError: mask differs"
  else .ok (pickUnmasked rows.flatten)

/-- `reshape((n, -1))`. -/
def reshapeRows {α : Type} (n : ℕ) (l : List α) : Except String (List (List α)) :=
  if n = 0 ∨ l.length % n ≠ 0 then .error "ValueError: cannot reshape"
  else .ok ((List.range n).map fun i => (l.drop (i * (l.length / n))).take (l.length / n))

/-- `flatten_ignoring_masked_data` with `preserve_leading_dimension` (utilities.py:106-110). -/
def flattenLeading (nd3 : Bool) (rows : List (List Entry)) :
    Except String (List (List (Option ℝ))) :=
  match flattenAll nd3 rows with
  | .error e => .error e
  | .ok l => reshapeRows rows.length l

/-- `mask_cube` (ensemble_calibration.py:1093-1118) on one slice: sea points become NaN, then
every NaN is masked (`np.ma.masked_invalid`). -/
def maskSlice (land : List Bool) (s : List Entry) : List Entry :=
  List.zipWith (fun l e => if l then (match e with | .nan => .masked | e => e) else .masked) land s

/-! ### Initial guess -/

/-- `np.any(np.isnan(data))`, masked elements being ignored. -/
def anyNan (rows : List (List Entry)) : Bool :=
  rows.any fun r => r.any fun e => match e with | .nan => true | _ => false

/-- `compute_initial_guess` (ensemble_calibration.py:1001-1091).  `ols` is the least squares fit
of statsmodels on the columns (predictors) and the truths, giving intercept and gradients;
`nReal` is the number of realizations. -/
noncomputable def initialGuess (ols : List (List ℝ) → List ℝ → ℝ × List ℝ) (useDefault : Bool)
    (p : Predictor) (nReal : ℕ) (tnd3 fnd3 : Bool) (truths preds : List (List Entry)) :
    Except String (List ℝ) :=
  let dflt := useDefault || anyNan truths || anyNan preds
  if dflt then
    match p with
    | .mean => .ok (0 :: (List.replicate preds.length (1 / (preds.length : ℝ)) ++ [0, 1]))
    | .realizations => .ok (0 :: (List.replicate nReal (Real.sqrt (1 / (nReal : ℝ))) ++ [0, 1]))
  else
    match flattenAll tnd3 truths, flattenLeading fnd3 preds with
    | .ok t, .ok f =>
      let e := ols (f.map fun r => r.filterMap id) (t.filterMap id)
      .ok (e.1 :: (e.2 ++ [0, 1]))
    | .error e, _ => .error e
    | _, .error e => .error e

/-- `create_coefficients_cubelist` (ensemble_calibration.py:944-999): the flat vector of
optimised coefficients is split into `alpha`, `beta` (possibly several), `gamma` and `delta`. -/
def splitCoeffs (p : Predictor) (nPred : ℕ) (c : List ℝ) :
    Except String (ℝ × List ℝ × ℝ × ℝ) :=
  if p = .realizations ∨ 1 < nPred then splitGuess c
  else
    match c with
    | [a, b, g, d] => .ok (a, [b], g, d)
    | _ => .error "ValueError: The number of coefficients must equal the number of names"

/-! ### Training at each point independently -/

/-- A site (or grid point) with its coordinates and its data. -/
structure SiteData (α : Type) where
  y : ℚ
  x : ℚ
  data : α

/-- The constraint of ensemble_calibration.py:438-448. -/
def sitesAt {α : Type} (l : List (SiteData α)) (y x : ℚ) : List (SiteData α) :=
  l.filter fun s => npIsclose s.y y && npIsclose s.x x

/-- Body of the loop of `_process_points_independently` (ensemble_calibration.py:434-465) for
one site: `truth` are the observations at the site, `var` the ensemble variances, `preds` the
matching predictor series.  More than one matching site makes the number of predictor rows
differ from the number of observations, an error in `np.column_stack` unless all observations
are missing (then nothing is minimised); no matching site is an error too. -/
def pointCoeffs {α β : Type} (mini : List ℝ → α → List (Option ℝ) → β → List ℝ)
    (guess : List ℝ) (truth : List (Option ℝ)) (var : β) (preds : List (SiteData α)) :
    Except String (List ℝ) :=
  match preds with
  | [] => .error "AttributeError"
  | s :: rest =>
    if truth.all Option.isNone then .ok guess
    else if rest = [] then .ok (mini guess s.data truth var)
    else .error "ValueError: all the input array dimensions must match"

/-- `_process_points_independently` (ensemble_calibration.py:393-480): the coefficients of each
site, in the order of the sites of the truth cube (`zip` stops at the shorter of truth and
variance). -/
def pointByPoint {α β : Type} (mini : List ℝ → α → List (Option ℝ) → β → List ℝ)
    (guesses : List (List ℝ)) (truths : List (SiteData (List (Option ℝ)))) (vars : List β)
    (preds : List (SiteData α)) : Except String (List (List ℝ)) :=
  ((truths.zip vars).zip guesses).mapM fun t =>
    pointCoeffs mini t.2 t.1.1.data t.1.2 (sitesAt preds t.1.1.y t.1.1.x)

/-! ### Application -/

/-- Data of a coefficient cube: one value or one value for each point. -/
inductive CoefData
  | scalar (r : ℝ)
  | field (l : List ℝ)

/-- numpy broadcasting of a coefficient against `n` points (the result must have `n` points,
because it is added in place). -/
def CoefData.expand (c : CoefData) (n : ℕ) : Except String (List ℝ) :=
  match c with
  | .scalar r => .ok (List.replicate n r)
  | .field l =>
    if l.length = n then .ok l
    else match l with
      | [r] => .ok (List.replicate n r)
      | _ => .error "ValueError: operands could not be broadcast together"

/-- A predictor cube: name and values at the points. -/
structure PredCube where
  name : String
  data : List ℝ

/-- `collapsed(current_forecast, "realization", MEAN)` for the rows of the realizations. -/
noncomputable def ensMean (n : ℕ) (members : List (List ℝ)) : List ℝ :=
  (List.range n).map fun i => (members.map fun m => m.getD i 0).sum / members.length

/-- `VARIANCE` (iris: divisor `N - 1`); NaN for a single realization. -/
noncomputable def ensVar (n : ℕ) (members : List (List ℝ)) : Option (List ℝ) :=
  if members.length ≤ 1 then none
  else some ((List.range n).map fun i =>
    let m := (members.map fun m => m.getD i 0).sum / members.length
    (members.map fun r => (r.getD i 0 - m) ^ 2).sum / (members.length - 1))

/-- `beta_cube.extract(iris.Constraint(predictor_name=...)).data`
(ensemble_calibration.py:1492-1493): no match is `None` (AttributeError), one match its data;
several matches give an array with a leading dimension, which numpy broadcasts against the
points when the coefficients are scalars and rejects otherwise. -/
def betaFor (beta : List (String × CoefData)) (name : String) : Except String CoefData :=
  match beta.filter (fun b => b.1 == name) with
  | [] => .error "AttributeError: 'NoneType' object has no attribute 'data'"
  | [b] => .ok b.2
  | bs =>
    match bs.mapM (fun b => match b.2 with | .scalar r => some r | .field _ => none) with
    | some rs => .ok (.field rs)
    | none => .error "ValueError: non-broadcastable output operand"

/-- The term `beta * fp.data` added for one predictor (ensemble_calibration.py:1491-1493). -/
def betaTerm (beta : List (String × CoefData)) (n : ℕ) (fp : PredCube) :
    Except String (List ℝ) :=
  match betaFor beta fp.name with
  | .error e => .error e
  | .ok c =>
    match c.expand n with
    | .error e => .error e
    | .ok b =>
      match CoefData.expand (.field fp.data) n with
      | .error e => .error e
      | .ok x => .ok (List.zipWith (· * ·) b x)

/-- The accumulation loop of ensemble_calibration.py:1490-1493. -/
def addTerms (beta : List (String × CoefData)) (n : ℕ) :
    List ℝ → List PredCube → Except String (List ℝ)
  | acc, [] => .ok acc
  | acc, fp :: rest =>
    match betaTerm beta n fp with
    | .error e => .error e
    | .ok t => addTerms beta n (List.zipWith (· + ·) acc t) rest

/-- `_calculate_location_parameter_from_mean` (ensemble_calibration.py:1456-1499). -/
noncomputable def locationFromMean (fcName : String) (n : ℕ) (members : List (List ℝ))
    (extra : List PredCube) (alpha : CoefData) (beta : List (String × CoefData)) :
    Except String (List ℝ) :=
  let preds := ⟨fcName, ensMean n members⟩ :: extra
  if preds.length ≠ beta.length then .error "ValueError: number of forecast predictors"
  else
    match addTerms beta n (List.replicate n 0) preds with
    | .error e => .error e
    | .ok l =>
      match alpha.expand n with
      | .error e => .error e
      | .ok a => .ok (List.zipWith (· + ·) l a)

/-- The `beta` data for the realizations option: one value for each realization, or one row of
values (over the points) for each realization. -/
inductive BetaReal
  | shared (l : List ℝ)
  | perPoint (rows : List (List ℝ))

/-- The rows `beta²` by point of ensemble_calibration.py:1518-1534 after stacking with `alpha`.
For coefficients at each point the transposition is squeezed: with a single realization and more
than one point it has the wrong orientation and `np.hstack` raises. -/
noncomputable def betaRow (beta : BetaReal) (n i : ℕ) : Except String (List ℝ) :=
  match beta with
  | .shared l => .ok (l.map fun b => b * b)
  | .perPoint rows =>
    if rows.length = 1 ∧ n ≠ 1 then .error "ValueError: hstack"
    else .ok (rows.map fun r => r.getD i 0 * r.getD i 0)

/-- One point of `_calculate_location_parameter_from_realizations`
(ensemble_calibration.py:1501-1547). -/
noncomputable def locationRealAt (n i : ℕ) (members : List (List ℝ)) (a : ℝ) (beta : BetaReal) :
    Except String ℝ :=
  match betaRow beta n i with
  | .error e => .error e
  | .ok bs =>
    if bs.length ≠ members.length then .error "ValueError: operands could not be broadcast"
    else .ok (a + (List.zipWith (· * ·) (members.map fun m => m.getD i 0) bs).sum)

/-- `_calculate_location_parameter_from_realizations` (ensemble_calibration.py:1501-1547) for
one-dimensional spatial data, and for gridded data with shared coefficients. -/
noncomputable def locationFromRealizations (n : ℕ) (members : List (List ℝ)) (alpha : CoefData)
    (beta : BetaReal) : Except String (List ℝ) :=
  match alpha.expand n with
  | .error e => .error e
  | .ok a => (List.range n).mapM fun i => locationRealAt n i members (a.getD i 0) beta

/-- `_calculate_scale_parameter` (ensemble_calibration.py:1549-1576). -/
noncomputable def scaleParameter (n : ℕ) (members : List (List ℝ)) (gamma delta : CoefData) :
    Except String (List (Option ℝ)) :=
  match gamma.expand n, delta.expand n with
  | .ok g, .ok d =>
    match ensVar n members with
    | none => .ok (List.replicate n none)
    | some v => .ok ((List.range n).map fun i =>
        some (Real.sqrt (g.getD i 0 * g.getD i 0 + d.getD i 0 * d.getD i 0 * v.getD i 0)))
  | .error e, _ => .error e
  | _, .error e => .error e

end Improver
