import Verif.Model.BlendRun
import Verif.Model.ShowerRun

/-!
Model of `blend-cycles-and-realizations` (improver/cli/blend_cycles_and_realizations.py): the mean over realizations of each cycle and the blend of the
cycles with equal weights, built on the model of `WeightAndBlend` (`Model/BlendRun.lean`).  Fields are given on `n` grid points.  The metadata of the blend
(C185) and of the merge (C235) are not modelled here, nor the float32 rounding.
-/

namespace Improver

/-- A forecast of one cycle: `members` are the fields of its realizations, `none` without a realization coordinate. -/
structure CycleCube where
  cycle : ℚ
  members : Option (List (List (Option ℚ)))

/-- `collapse_realizations` (utilities/cube_manipulation.py:59-97) with the mean: at every grid point the mean of what is not masked. -/
def cycleMean (n : ℕ) (c : CycleCube) : Except Err (ℚ × List (Option ℚ)) :=
  match c.members with
  | none => .error .coordinateNotFound
  | some ms => .ok (c.cycle, (List.range n).map fun g => meanNotMasked (ms.map fun m => m.getD g none))

/-- cli/blend_cycles_and_realizations.py:41-47. -/
def blendCycles (n : ℕ) (cubes : List CycleCube) : Except Err (List (Option ℚ)) := do
  let slices ← cubes.mapM (cycleMean n)
  weightAndBlend (.linear (some (1 / 2)) (some (1 / 2))) n slices

end Improver
