import Verif.Model.Rescale
import Mathlib.Analysis.SpecialFunctions.Log.Basic
import Mathlib.Analysis.SpecialFunctions.Sqrt

/-!
Model of improver/lightning.py.

A cube is its name, its time cell, its forecast reference time and its horizontal grid (any value standing for the
spatial coordinates); fields are modelled point by point.  Cube building, units and attributes are left out, and so
are masks; `np.log` and square roots are those of the real numbers.
-/

namespace Improver

/-- What the checks look at in a cube: name, time point, time bounds (seconds), forecast reference time and the
spatial coordinates. -/
structure LightCube (G : Type) where
  name : String
  time : ℤ
  bounds : Option (ℤ × ℤ)
  reference : ℤ
  grid : G

/-! ## Lightning from CAPE and precipitation rate -/

/-- lightning.py:89-108 `LightningFromCapePrecip._get_inputs`, the checks (a cube without time bounds raises
TypeError when its bound is read). -/
def capePrecipChecks {G : Type} [DecidableEq G] (cape precip : LightCube G) : Except Err Unit :=
  match precip.bounds with
  | none => .error .typeError
  | some b =>
    if cape.time ≠ b.1 then .error .valueError
    else if ¬ (b.2 - b.1 = 3600 ∨ b.2 - b.1 = 3 * 3600) then .error .valueError
    else if cape.reference ≠ precip.reference then .error .valueError
    else if cape.grid ≠ precip.grid then .error .valueError
    else .ok ()

/-- lightning.py:166-191 `latitude_to_threshold` at one latitude. -/
def latitudeThreshold (latitude midlatitude tropics : ℚ) : Except Err ℚ := do
  let north ← rescale latitude (50, 10) (midlatitude, tropics) true
  let south ← rescale latitude (-50, -10) (midlatitude, tropics) true
  .ok (if latitude > 0 then north else south)

/-- threshold.py:778-794 and lightning.py:130-142: the product of the two truth values at one point (CAPE in J kg-1,
precipitation rate in mm h-1). -/
def lightningValue (latitude cape precip : ℚ) : Except Err ℚ := do
  let capeThreshold ← latitudeThreshold latitude 350 500
  let precipThreshold ← latitudeThreshold latitude 1 4
  let capeTrue : ℚ := if cape > capeThreshold then 1 else 0
  let precipTrue : ℚ := if precip > precipThreshold then 1 else 0
  .ok (capeTrue * precipTrue)

/-! ## Multivariate probability -/

/-- lightning.py:290-316 `LightningMultivariateProbability_USAF2024._get_inputs`, the checks of the four instantaneous
fields against the accumulation. -/
def usafChecks {G : Type} [DecidableEq G] (others : List (LightCube G)) (apcp : LightCube G) : Except Err Unit :=
  match apcp.bounds with
  | none => .error .typeError
  | some b =>
    if others.any fun c => decide (c.time ≠ b.1) then .error .valueError
    else if ¬ b.2 - b.1 = 3 * 3600 then .error .valueError
    else if others.any fun c => decide (c.reference ≠ apcp.reference) then .error .valueError
    else if others.any fun c => decide (c.grid ≠ apcp.grid) then .error .valueError
    else .ok ()

/-- lightning.py:353-354: the regression with precipitation (inches). -/
noncomputable def usafPrecip (cape apcp : ℝ) : ℝ := 0.13 * Real.log (cape * apcp + 0.7) + 0.05

/-- lightning.py:360-361: the regression with next to no precipitation; `cin` positive. -/
noncomputable def usafNoPrecip (cape cin : ℝ) : ℝ := 0.025 * Real.log (cape / (cin + 100.0) + 0.31) + 0.03

/-- lightning.py:343-383 at one point: CAPE, lifted index, precipitable water, CIN and accumulation as given. -/
noncomputable def usafProbability (cape liftidx pwat cinData apcpData : ℝ) : ℝ :=
  let cin := -1 * cinData
  let apcp := apcpData / 1000 * 39.3701
  let lprob := usafPrecip cape apcp
  let lprob := if apcp - pwat / 1000 < 0.01 then usafNoPrecip cape cin else lprob
  let lifted := if liftidx + 4.0 < 0 then 0 else liftidx + 4.0
  let lprob := if cape ≤ 0 then 0.2 * Real.sqrt (lifted * apcp) else lprob
  let lprob := if pwat < 20 then lprob * (pwat / 20.0) else lprob
  if lprob > 0.95 then 0.95 else lprob

end Improver
