import Verif.Model.CubeManip
import Mathlib.Data.List.Sort

/-! Model of `improver/nowcasting/accumulation.py` at one grid point.  Times and periods are whole seconds, rates exact rationals.
Unit conversion and metadata other than the time coordinates are not modelled. -/

namespace Improver

/-- A rate cube at one grid point. -/
structure RateCube where
  time : ℤ
  fp : ℤ
  rate : ℚ
  deriving DecidableEq

/-- The state of the plugin: `accumulation_period` and `forecast_periods` (accumulation.py:55-57). -/
structure AccState where
  period : Option ℤ
  fps : Option (List ℤ)
  deriving DecidableEq

/-- An accumulation at one grid point: the amount and its forecast period and time coordinates. -/
structure AccOut where
  amount : ℚ
  fp : SCoord ℤ
  time : SCoord ℤ
  deriving DecidableEq

/-- `sort_cubes_by_time` (accumulation.py:70-88). -/
def sortByTime (cubes : List RateCube) : List RateCube := cubes.insertionSort (fun a b => a.time ≤ b.time)

/-- `np.diff` of integers. -/
def intDiff : List ℤ → List ℤ
  | a :: b :: l => (b - a) :: intDiff (b :: l)
  | _ => []

/-- `_check_inputs` (accumulation.py:90-197): the sorted cubes, the time interval and the state afterwards.  `np.modf` of the quotient
is made exactly; a zero interval gives an infinite quotient (or NaN for a zero period). -/
def checkAccInputs (s : AccState) (cubes : List RateCube) : Except Err (List RateCube × ℤ × AccState) :=
  let cubes := sortByTime cubes
  match (intDiff (cubes.map RateCube.time)).dedup with
  | [dt] =>
    let period := s.period.getD ((cubes.map RateCube.fp).getLastD 0)
    if (if dt = 0 then False else period.tdiv dt = 0) then .error .valueError
    else if (if dt = 0 then period = 0 else period.tmod dt ≠ 0) then .error .valueError
    else
      let fps := s.fps.getD ((cubes.map RateCube.fp).filter (fun fp => decide (fp ≥ dt)))
      let fps := if fps.any (fun fp => decide (fp < period)) then fps.filter (fun fp => decide (fp ≥ period)) else fps
      .ok (cubes, dt, ⟨some period, some fps⟩)
  | _ => .error .valueError

/-- `_get_cube_subsets` (accumulation.py:199-229). -/
def accSubset (cubes : List RateCube) (period fp : ℤ) : List RateCube :=
  cubes.filter (fun c => decide (fp - period ≤ c.fp ∧ c.fp ≤ fp))

/-- `_calculate_accumulation` (accumulation.py:231-264). -/
def accAmount (dt : ℤ) (sub : List RateCube) : ℚ :=
  (sub.zip sub.tail).foldl (fun acc p => acc + (p.1.rate + p.2.rate) * dt * (1 / 2)) 0

/-- One forecast period of the loop of `process` (accumulation.py:316-324); an empty subset is an `IndexError` in
`_set_metadata`. -/
def accOne (cubes : List RateCube) (dt period fp : ℤ) : Except Err AccOut :=
  let sub := accSubset cubes period fp
  if sub = [] then .error .indexError
  else do
    let t ← expandBounds (sub.map (fun c => ⟨c.time, none⟩))
    let f ← expandBounds (sub.map (fun c => ⟨c.fp, none⟩))
    return ⟨accAmount dt sub, f, t⟩

/-- `process` (accumulation.py:296-326): the accumulations and the state of the plugin after the call. -/
def accProcess (s : AccState) (cubes : List RateCube) : Except Err (List AccOut × AccState) := do
  let (cubes, dt, s') ← checkAccInputs s cubes
  let out ← (s'.fps.getD []).mapM (accOne cubes dt (s'.period.getD 0))
  return (out, s')

end Improver
