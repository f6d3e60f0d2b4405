import Verif.Model.Assembly
import Verif.Model.OpticalFlow

/-!
Model of `nowcast-optical-flow-from-winds` (improver/cli/nowcast_optical_flow_from_winds.py) and of
`generate_advection_velocities_from_winds` (improver/nowcasting/optical_flow.py:84-146), built on the models of the extrapolation
(`Model/Assembly.lean`) and of the optical flow (`Model/OpticalFlow.lean`).

The steering flow is in m s-1 and has no masked values.  The shape of the cubes is that of their axes.  Floating point and single precision are not modelled.
-/

namespace Improver

/-- optical_flow.py:266-292 `_check_input_cubes`: both cubes have the same name and grid (the advected cube has those of the earlier one); the
numbers of dimensions, which are two here, are not modelled. -/
def flowCompatible (a b : NowcastCube) : Except Err Unit :=
  if a.name ≠ b.name then .error .valueError
  else if a.xs ≠ b.xs ∨ a.ys ≠ b.ys then .error .invalidCube
  else do
    checkEqualArea a.xs a.ys true
    checkEqualArea b.xs b.ys true

/-- optical_flow.py:894-912: values in mm/h, 0 where masked. -/
def flowData (scale : ℚ) (f : RateField) : ℕ → ℕ → ℚ := fun y x => ((f y x).map (· * scale)).getD 0

/-- optical_flow.py:102-107: the earlier and the later cube, `none` unless there are two (cli/nowcast_optical_flow_from_winds.py:50-51). -/
def orderedPair (cubes : List NowcastCube) : Option (NowcastCube × NowcastCube) :=
  match cubes with
  | [a, b] => if a.time ≤ b.time then some (a, b) else some (b, a)
  | _ => none

/-- optical_flow.py:104-107: the lead time in minutes, `int(seconds / 60)` of a difference that is not negative. -/
def leadMinutes (a b : NowcastCube) : ℤ := (b.time - a.time) / 60

/-- optical_flow.py:109-120: the perturbations: the flow from the earlier cube, advected, to the later one, both without orographic
enhancement (`thr` is 1/32 mm/h in the units of the cubes). -/
def flowPerturbation (saturate : ℚ → ℚ) (thr : ℚ) (extrap : RateField → RateField → RateField → ℕ → List RateField)
    (a b : NowcastCube) (u v : ℕ → ℕ → ℚ) (oe : List (ℤ × (ℕ → ℕ → ℚ))) : Except Err ((ℕ → ℕ → ℚ) × (ℕ → ℕ → ℚ)) := do
  let out ← pystepsNowcast thr extrap (leadMinutes a b) (leadMinutes a b) a (fun y x => some (u y x)) (fun y x => some (v y x)) oe
  match out.getLast? with
  | none => .error .indexError
  | some adv => do
    let d1 ← oeField "subtract" thr oe adv.time adv.data
    let d2 ← oeField "subtract" thr oe b.time b.data
    flowCompatible a b
    let s ← gridSpacing a.xs
    opticalFlow saturate "box" 8 20 18
      ⟨a.ys.length, a.xs.length, s / 1000, adv.time, b.time, some adv.period, b.period, flowData a.scale d1, flowData b.scale d2⟩

/-- optical_flow.py:84-146 and cli/nowcast_optical_flow_from_winds.py:50-57: the advection velocities. -/
def flowFromWinds (saturate : ℚ → ℚ) (thr : ℚ) (extrap : RateField → RateField → RateField → ℕ → List RateField)
    (cubes : List NowcastCube) (u v : ℕ → ℕ → ℚ) (oe : List (ℤ × (ℕ → ℕ → ℚ))) : Except Err ((ℕ → ℕ → ℚ) × (ℕ → ℕ → ℚ)) :=
  match orderedPair cubes with
  | none => .error .valueError
  | some p => do
    let d ← flowPerturbation saturate thr extrap p.1 p.2 u v oe
    .ok (fun y x => perturbFlow (u y x) (some (d.1 y x)), fun y x => perturbFlow (v y x) (some (d.2 y x)))

end Improver
