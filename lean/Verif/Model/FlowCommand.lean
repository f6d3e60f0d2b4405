import Verif.Model.SteeringFlow
import Mathlib.Data.List.Sort

/-!
Model of `nowcast-optical-flow` (improver/cli/nowcast_optical_flow.py) with `generate_optical_flow_components`
(improver/nowcasting/optical_flow.py:34-81), built on the models of the orographic enhancement (`Model/Nowcast.lean`) and of the optical flow
(`Model/OpticalFlow.lean`).

Rates are in the unit of their cube (`scale` of them to mm/h), the orographic enhancement is in mm/h.  The times of the cubes have the same unit.  Floating
point and single precision are not modelled, nor the names and units of the result.
-/

namespace Improver

/-- nowcasting/utilities.py:189-368 `ApplyOrographicEnhancement("subtract")` of one cube: 1/32 mm/h and the enhancement are converted to the unit of the cube. -/
def withoutEnhancement (oe : List (ℤ × (ℕ → ℕ → ℚ))) (c : NowcastCube) : Except Err NowcastCube := do
  let d ← oeField "subtract" (1 / 32 / c.scale) (oe.map fun p => (p.1, fun y x => p.2 y x / c.scale)) c.time c.data
  .ok ⟨c.name, c.xs, c.ys, c.scale, c.time, c.timeBounds, c.frt, c.period, d⟩

/-- optical_flow.py:57-61 with the defaults of lines 200-205 and the options of cli/nowcast_optical_flow.py:47-49: the flow from one cube to the next. -/
def pairFlow (saturate : ℚ → ℚ) (a b : NowcastCube) : Except Err ((ℕ → ℕ → ℚ) × (ℕ → ℕ → ℚ)) := do
  flowCompatible a b
  let s ← gridSpacing a.xs
  opticalFlow saturate "box" 14 100 30
    ⟨a.ys.length, a.xs.length, s / 1000, a.time, b.time, a.period, b.period, flowData a.scale a.data, flowData b.scale b.data⟩

/-- optical_flow.py:66-79: the mean over the pairs (one pair is returned as it is). -/
def meanField (fields : List (ℕ → ℕ → ℚ)) : ℕ → ℕ → ℚ := fun y x => (fields.map fun f => f y x).sum / fields.length

/-- cli/nowcast_optical_flow.py:36-51 and optical_flow.py:54-81: both components and their time.  The flows of the pairs have the time of their later cube and
are merged over it (line 68), which is refused if two have the same time.  The sort of line 54 finds the cubes in order. -/
def flowCommand (saturate : ℚ → ℚ) (oe : List (ℤ × (ℕ → ℕ → ℚ))) (cubes : List NowcastCube) :
    Except Err ((ℕ → ℕ → ℚ) × (ℕ → ℕ → ℚ) × ℤ) := do
  let plain ← (cubes.insertionSort fun a b => a.time ≤ b.time).mapM (withoutEnhancement oe)
  let flows ← (plain.zip plain.tail).mapM fun p => pairFlow saturate p.1 p.2
  match plain.getLast? with
  | none => .error .indexError
  | some last =>
    if flows = [] then .error .valueError
    else if ¬ (plain.tail.map fun c => c.time).Nodup then .error .valueError
    else .ok (meanField (flows.map Prod.fst), meanField (flows.map Prod.snd), last.time)

end Improver
