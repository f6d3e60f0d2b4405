import Mathlib.Analysis.SpecialFunctions.Pow.Real
import Mathlib.Analysis.SpecialFunctions.Sqrt

/-!
Model of `PhaseChangeLevel`, improver/psychrometric_calculations/psychrometric_calculations.py:345-965.

Floating point arithmetic is replaced by the reals; NaN is `none`.  Input values are taken to be finite.  The
`interpolate` function of the stratify library and scipy's `griddata` are external: the first is modelled for the
profiles it is given here (see `crossing`), the second is a parameter.
-/

namespace Improver

/-- `PhaseChangeLevel.__init__` (psychrometric_calculations.py:386-400): threshold (K m) and name. -/
noncomputable def phaseChange (s : String) : Except String (ℝ × String) :=
  if s = "snow-sleet" then .ok (90, "snow_falling")
  else if s = "sleet-rain" then .ok (202.5, "rain_falling")
  else if s = "hail-rain" then .ok (5000, "rain_from_hail_falling")
  else .error "ValueError: Unknown phase change requested."

open Classical in
/-- stratify's linear `interpolate` to a single target (psychrometric_calculations.py:440-442) on the
(height, integral) pairs of a column ordered from the top down: the first place where the integral reaches the
target from below, NaN if it never does or is above it at the top.  (For the integrals used here, which do not
decrease downwards, that is the only crossing, up to flat stretches.) -/
noncomputable def crossing (target : ℝ) : List (ℝ × ℝ) → Option ℝ
  | [] => none
  | [a] => if a.2 = target then some a.1 else none
  | a :: b :: rest =>
    if a.2 = target then some a.1
    else if a.2 < target ∧ target ≤ b.2 then some (a.1 + (target - a.2) / (b.2 - a.2) * (b.1 - a.1))
    else crossing target (b :: rest)

/-- `find_falling_level` (psychrometric_calculations.py:406-444) at one point. -/
noncomputable def fallingLevel (threshold orog : ℝ) (column : List (ℝ × ℝ)) : Option ℝ :=
  crossing threshold (column.map fun hv => (orog + hv.1, hv.2))

/-- `wb_integral.max(axis=0)` (psychrometric_calculations.py:766). -/
noncomputable def columnMax (column : List (ℝ × ℝ)) : ℝ :=
  match column with
  | [] => 0
  | a :: l => l.foldl (fun m b => max m b.2) a.2

open Classical in
/-- `fill_in_high_phase_change_falling_levels` (psychrometric_calculations.py:446-474) at one point. -/
noncomputable def fillHigh (threshold : ℝ) (level : Option ℝ) (orog maxInt highest : ℝ) : Option ℝ :=
  if level = none ∧ maxInt > threshold then some (highest + orog) else level

open Classical in
/-- `find_extrapolated_falling_level` (psychrometric_calculations.py:549-576) at one sea point: the level is only
changed where the gradient is negative. -/
noncomputable def extrapolatedLevel (threshold maxInt m c : ℝ) (level : Option ℝ) : Option ℝ :=
  if m < 0 then
    let z := if -c / m ≥ 0 then (c - Real.sqrt (c * c - 2 * m * (threshold - maxInt))) / -m
      else (c - Real.sqrt (2 * m * (maxInt - threshold))) / -m
    some (max z (-2000))
  else level

/-- `fast_linear_fit` (mathematical_operations.py:340-406) for finite data; `none` is NaN (0 / 0). -/
noncomputable def fitLineR (pts : List (ℝ × ℝ)) : Option (ℝ × ℝ) :=
  let xm := (pts.map (·.1)).sum / pts.length
  let ym := (pts.map (·.2)).sum / pts.length
  let cov := (pts.map fun p => (p.1 - xm) * (p.2 - ym)).sum
  let var := (pts.map fun p => (p.1 - xm) * (p.1 - xm)).sum
  open Classical in if var = 0 then none else some (cov / var, ym - cov / var * xm)

/-- `linear_wet_bulb_fit` (psychrometric_calculations.py:578-631) at a sea point: the first five levels. -/
noncomputable def wetBulbFit (wbt : List (ℝ × ℝ)) : Option (ℝ × ℝ) := fitLineR (wbt.take 5)

open Classical in
/-- `fill_in_sea_points` (psychrometric_calculations.py:633-694) at one point.  `np.all(sea_points is False)` is never
true, so the early return never happens; it would not change the result. -/
noncomputable def fillSea (threshold : ℝ) (level : Option ℝ) (land maxInt : ℝ) (wbt : List (ℝ × ℝ)) (orog : ℝ) :
    Option ℝ :=
  if level = none ∧ land < 1 ∧ maxInt < threshold then
    (match wetBulbFit wbt with
      | none => level
      | some (m, c) => extrapolatedLevel threshold maxInt m c level).map (· + orog)
  else level

/-- The steps of `_calculate_phase_change_level` made point by point (psychrometric_calculations.py:760-775).
`column` holds (height, integral) from the top down, `wbt` (height, wet bulb temperature in Celsius) as stored. -/
noncomputable def columnLevel (threshold orog land highest : ℝ) (column wbt : List (ℝ × ℝ)) : Option ℝ :=
  let l1 := fillHigh threshold (fallingLevel threshold orog column) orog (columnMax column) highest
  fillSea threshold l1 land (columnMax column) wbt orog

open Classical in
/-- `interpolate_missing_data` (improver/utilities/interpolation.py:21-88) with a limit taken as a maximum, on `n`
points; `grid` is scipy's `griddata` on the usable values. -/
noncomputable def fillMissingR (n : ℕ) (grid : (ℕ → Option ℝ) → ℕ → Option ℝ) (valid : ℕ → Bool) (limit : ℕ → ℝ)
    (data : ℕ → Option ℝ) (i : ℕ) : Option ℝ :=
  let usable (k : ℕ) : Option ℝ := if valid k then data k else none
  match data i with
  | some v => some v
  | none =>
    if (List.range n).any (fun k => (usable k).isSome) then (grid usable i).map (fun v => min v (limit i)) else none

open Classical in
/-- `phase_change_data <= max_nbhood_orog`, false for NaN (psychrometric_calculations.py:811, 817). -/
noncomputable def notAbove (data : ℕ → Option ℝ) (maxOrog : ℕ → ℝ) (i : ℕ) : Bool :=
  match data i with
  | some v => decide (v ≤ maxOrog i)
  | none => false

/-- `_horizontally_interpolate_phase` (psychrometric_calculations.py:791-830). -/
noncomputable def horizontalFill (n : ℕ) (lin near : (ℕ → Option ℝ) → ℕ → Option ℝ) (orog maxOrog : ℕ → ℝ)
    (data : ℕ → Option ℝ) : ℕ → Option ℝ :=
  let d1 := fillMissingR n lin (notAbove data maxOrog) orog data
  let d2 := fillMissingR n near (notAbove d1 maxOrog) orog d1
  if (List.range n).any (fun k => (d2 k).isNone) then fillMissingR n near (fun _ => true) orog d2 else d2

/-- `_calculate_phase_change_level` (psychrometric_calculations.py:719-789) on `n` points; `none` in the result is a
masked point (`np.ma.masked_invalid`). -/
noncomputable def phaseLevel (n : ℕ) (lin near : (ℕ → Option ℝ) → ℕ → Option ℝ) (horizontal : Bool) (threshold highest : ℝ)
    (orog maxOrog land : ℕ → ℝ) (column wbt : ℕ → List (ℝ × ℝ)) : ℕ → Option ℝ :=
  let d := fun i => columnLevel threshold (orog i) (land i) highest (column i) (wbt i)
  if horizontal then horizontalFill n lin near orog maxOrog d else d

/-- Checks made by `process` before any calculation (psychrometric_calculations.py:892-913): the number of cubes and the
agreement of the model identifier. -/
def phaseChecks (ncubes : ℕ) (modelIds : Option (String × String)) : Except String Unit :=
  if ncubes ≠ 4 then .error "ValueError: Expected 4 cubes"
  else match modelIds with
    | some (a, b) => if a ≠ b then .error "ValueError: Attribute does not match on input cubes" else .ok ()
    | none => .ok ()

/-- The highest height (psychrometric_calculations.py:917-926): from the bounds of the first level once the integral's levels are
in descending order, or else the last height of the wet bulb temperature. -/
noncomputable def highestHeight (integBounds : List (Option (ℝ × ℝ))) (wbtHeights : List ℝ) : Option ℝ :=
  match integBounds.head? with
  | some (some b) => some b.2
  | _ => wbtHeights.getLast?

end Improver
