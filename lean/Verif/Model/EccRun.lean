import Verif.Model.ECC
import Verif.Model.Interp
import Verif.Model.NbhoodMore

/-! Model of `EnsembleReordering.process` with its masks and of the commands `generate-realizations` and `generate-percentiles`
(improver/cli/generate_realizations.py, generate_percentiles.py), on a list of grid points at one time. -/

namespace Improver

/-- One value of a result: masked, NaN, or a number. -/
inductive Cell where
  | masked
  | nan
  | val (v : ℚ)
  deriving DecidableEq

/-- A percentile forecast: the percentiles, and for each grid point one value and one mask flag for each percentile. -/
structure PctCube where
  points : List ℚ
  rows : List (List ℚ)
  masks : List (List Bool)
  deriving DecidableEq

/-- A raw ensemble: (realization number, values at the grid points), and for each grid point one mask flag for each member. -/
structure RawCube where
  members : List (ℤ × List ℚ)
  masks : List (List Bool)
  deriving DecidableEq

/-- `np.ma.is_masked`. -/
def isMasked (masks : List (List Bool)) : Bool := masks.any (fun m => m.any id)

/-- The flag of the first percentile at a grid point, `mask[0]`. -/
def firstFlag (m : List Bool) : Bool := m.headD false

/-- `EnsembleReordering._check_input_cube_masks` (ensemble_copula_coupling.py:1441-1497). -/
def checkEccMasks (post raw : List (List Bool)) : Except Err Unit :=
  if isMasked post && isMasked raw then
    if post.any (fun m => m.tail.any (fun b => b != firstFlag m)) then .error .valueError
    else if (post.zip raw).any (fun e => e.2.any (fun b => b != firstFlag e.1)) then .error .valueError
    else .ok ()
  else if isMasked raw then .error .valueError
  else .ok ()

/-- What is left of a value moved by `choose` (utilities/indexing_operations.py:78-83: a masked element put into an array is NaN) once the mask of its
new place is put back (ensemble_copula_coupling.py:1430-1433). -/
def eccCell (v : ℚ) (source place : Bool) : Cell := if place then .masked else if source then .nan else .val v

/-- `rank_ecc` (ensemble_copula_coupling.py:1368-1439) at one grid point and time, with the mask of the percentiles. -/
def rankEccCells (ro : Bool) (rnd raw cal : List ℚ) (mask : List Bool) : Except Err (List Cell) := do
  let out ← rankEccPoint ro rnd raw cal
  let source := (eccRanking ro rnd raw).map (fun k => mask.getD k false)
  return (out.zip (source.zip mask)).map (fun e => eccCell e.1 e.2.1 e.2.2)

/-- One grid point of the loop: `rnd p k` is the random number of member `k` at grid point `p`. -/
def reorderAt (ro : Bool) (rnd : ℕ → ℕ → ℚ) (members : List (ℤ × List ℚ)) (n : ℕ) (e : (List ℚ × List Bool) × ℕ) : Except Err (List Cell) :=
  rankEccCells ro ((List.range n).map (rnd e.2)) (members.map (fun m => m.2.getD e.2 0)) e.1.1 e.1.2

/-- Realizations: their numbers, and for each grid point one value for each of them. -/
structure RealCube where
  numbers : List ℚ
  rows : List (List Cell)
  deriving DecidableEq

/-- Rebadging of the percentile coordinate (`RebadgePercentilesAsRealizations`, ensemble_copula_coupling.py:125-198), which leaves the data alone. -/
def rebadgeRows (points : List ℚ) (rows : List (List Cell)) (numbers : Option (List ℚ)) : Except Err RealCube := do
  let c ← (rebadgePercentiles (α := Unit) ⟨points, [], false⟩ numbers).1
  return ⟨c.points, rows⟩

/-- `EnsembleReordering.process` (ensemble_copula_coupling.py:1499-1558), one time. -/
def ensembleReorder (ro : Bool) (rnd : ℕ → ℕ → ℚ) (post : PctCube) (raw : RawCube) : Except Err RealCube := do
  checkEccMasks post.masks raw.masks
  let members ← recycleRaw post.points.length raw.members
  if members.any (fun m => decide (m.2.length ≠ post.rows.length)) then .error .valueError
  let rows ← (post.rows.zip post.masks).zipIdx.mapM (reorderAt ro rnd members post.points.length)
  rebadgeRows post.points rows (some (members.map (fun m => (m.1 : ℚ))))

/-- The input of the two commands: realizations, percentiles, probabilities (`above`: of exceeding the thresholds; `none`: another relation),
or something else.  `bounds` are the ECC bounds of the diagnostic (`none` with `skip_ecc_bounds`). -/
inductive EccInput where
  | realizations (numbers : List ℤ) (rows : List (List ℚ))
  | percentiles (c : PctCube)
  | probabilities (above : Option Bool) (thresholds : List ℚ) (rows : List (List ℚ)) (masks : List (List Bool))
  | other

/-- Result of `generate-realizations`: the input returned, or a new cube. -/
inductive GenReal where
  | unchanged
  | made (c : RealCube)
  deriving DecidableEq

/-- `original_mask` (ensemble_copula_coupling.py:339-341, 384-388, 621-623, 721-725): the mask of the first slice for every percentile. -/
def spreadMask (masks : List (List Bool)) (n : ℕ) : List (List Bool) :=
  if isMasked masks then masks.map (fun m => List.replicate n (firstFlag m)) else masks.map (fun _ => List.replicate n false)

/-- `ResamplePercentiles(...)(cube, no_of_percentiles=n)` and `ConvertProbabilitiesToPercentiles(...)(cube, no_of_percentiles=n)`
(ensemble_copula_coupling.py:391-454, 728-813; generate_realizations.py:79-88). -/
def eccToPercentiles (warn : Bool) (bounds : Option (ℚ × ℚ)) (n : ℕ) : EccInput → Except Err PctCube
  | .percentiles c => do
    let rows ← resamplePercentiles warn bounds c.points c.rows (chooseSetOfPercentiles n)
    return ⟨chooseSetOfPercentiles n, rows, spreadMask c.masks n⟩
  | .probabilities above ts rows masks =>
    match above with
    | none => .error .notImplemented
    | some a => do
      let rows ← rows.mapM (fun p => probsToPercentiles warn bounds a ts p (chooseSetOfPercentiles n))
      return ⟨chooseSetOfPercentiles n, rows, spreadMask masks n⟩
  | _ => .error .valueError

/-- The number of realizations to make (generate_realizations.py:71-77). -/
def realizationCount (count : Option ℕ) (raw : Option RawCube) : Except Err ℕ :=
  match count with
  | some n => .ok n
  | none => match raw with
    | some r => .ok r.members.length
    | none => .error .valueError

/-- `process` of `generate-realizations` (generate_realizations.py:65-95) for inputs without realization coordinate other than the first kind. -/
def generateRealizations (warn : Bool) (bounds : Option (ℚ × ℚ)) (rnd : ℕ → ℕ → ℚ) (cube : EccInput) (raw : Option RawCube)
    (count : Option ℕ) : Except Err GenReal :=
  match cube with
  | .realizations _ _ => .ok .unchanged
  | .other => .error .valueError
  | c => do
    let n ← realizationCount count raw
    let p ← eccToPercentiles warn bounds n c
    match raw with
    | some r => do
      let out ← ensembleReorder false rnd p r
      return .made out
    | none => do
      let out ← rebadgeRows p.points ((p.rows.zip p.masks).map (fun e => (e.1.zip e.2).map (fun c => eccCell c.1 false c.2))) none
      return .made out

/-! ## generate-percentiles -/

/-- Options of `generate-percentiles` (generate_percentiles.py:13-22). -/
structure GenPctOpts where
  coordinates : Option (List String)
  percentiles : Option (List ℚ)
  warn : Bool
  bounds : Option (ℚ × ℚ)
  maskPercentiles : Bool
  optimalCrps : Bool

/-- Percentiles at each grid point (`none`: masked). -/
structure PctResult where
  points : List ℚ
  rows : List (List (Option ℚ))
  deriving DecidableEq

/-- The cube given to `generate-percentiles`: probabilities, or anything else with its coordinate names; for a collapse the values to be
collapsed at each point, for rebadging the realizations at each point. -/
inductive PctInput where
  | probabilities (above : Option Bool) (thresholds : List ℚ) (rows : List (List ℚ))
  | field (coords : List String) (rows : List (List ℚ))

/-- One grid point of a probability cube (ensemble_copula_coupling.py:587-726). -/
def probPoint (o : GenPctOpts) (above : Bool) (ts ps probs : List ℚ) : Except Err (List (Option ℚ)) := do
  let vals ← probsToPercentiles o.warn o.bounds above ts probs ps
  return if o.maskPercentiles then maskPercentiles above probs ps vals else vals.map some

/-- `DEFAULT_PERCENTILES` (constants.py:16). -/
def defaultPercentiles : List ℚ := [0, 5, 10, 20, 25, 30, 40, 50, 60, 70, 75, 80, 90, 95, 100]

/-- One grid point of a collapse (percentile.py:78-129). -/
def collapsePoint (coords collapse : List String) (ps values : List ℚ) : Except Err (List (Option ℚ)) := do
  let vals ← percentileConvert coords collapse values ps
  return vals.map some

/-- `process` of `generate-percentiles` (generate_percentiles.py:111-155), for data without masks.  An empty list of coordinates counts as none. -/
def generatePercentiles (o : GenPctOpts) : PctInput → Except Err PctResult
  | .probabilities above ts rows =>
    match above with
    | none => .error .notImplemented
    | some a => do
      let ps := o.percentiles.getD (chooseSetOfPercentiles ts.length)
      let out ← rows.mapM (probPoint o a ts ps)
      return ⟨ps, out⟩
  | .field coords rows =>
    if o.coordinates.getD [] ≠ [] then do
      let ps := o.percentiles.getD defaultPercentiles
      let out ← rows.mapM (collapsePoint coords (o.coordinates.getD []) ps)
      return ⟨ps, out⟩
    else if coords.contains "realization" then
      .ok ⟨(rebadgeRealizations o.optimalCrps (rows.headD [])).1, rows.map (fun r => (rebadgeRealizations o.optimalCrps r).2.map some)⟩
    else .error .coordinateNotFound

end Improver
