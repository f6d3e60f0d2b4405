import Verif.Basic
import Mathlib.Analysis.SpecialFunctions.Log.Basic
import Mathlib.Analysis.SpecialFunctions.Exp

/-!
Model of improver/calibration/dz_rescaling.py.  Numbers are reals (no rounding); `numpy`'s
polynomial fit is a parameter; times are whole seconds.  The choice of the neighbour method and
the matching of forecast and truth times (C126) are not part of this model: forecasts and truths
arrive as rows, one per common time.
-/

open Classical

namespace Improver

/-- dz_rescaling.py:265-274: the values of one row (time) at the sites found in all three inputs.
Each cube keeps its own order of sites. -/
noncomputable def selectSites (common sites : List String) (row : List ℝ) : List ℝ :=
  ((sites.zip row).filter fun p => decide (p.1 ∈ common)).map (·.2)

/-- dz_rescaling.py:265-269 (a Python set: its order is without consequence). -/
def commonSites (a b c : List String) : List String :=
  a.filter fun s => decide (s ∈ b) && decide (s ∈ c)

/-- dz_rescaling.py:97-102 for one value; a missing bound is infinite (lines 65-72). -/
def dzKept (lo hi : Option ℝ) (f t d : ℝ) : Prop :=
  f ≠ 0 ∧ t ≠ 0 ∧ (∀ l, lo = some l → l ≤ d) ∧ (∀ h, hi = some h → d ≤ h)

/-- dz_rescaling.py:97-109 for one value: the point for the fit, if it is kept. -/
noncomputable def dzPoint (lo hi : Option ℝ) (f t d : ℝ) : Option (ℝ × ℝ) :=
  if dzKept lo hi f t d then some (d, Real.log (f / t)) else none

/-- dz_rescaling.py:95-109 for one time. -/
noncomputable def dzRow (lo hi : Option ℝ) (dz : List ℝ) (r : List ℝ × List ℝ) : List (ℝ × ℝ) :=
  ((r.1.zip r.2).zip dz).filterMap fun p => dzPoint lo hi p.1.1 p.1.2 p.2

/-- dz_rescaling.py:95-109: the points of the fit, vertical displacement and logarithm of the
ratio of forecast and truth. -/
noncomputable def dzFitData (lo hi : Option ℝ) (fcs truths : List (List ℝ)) (dz : List ℝ) :
    List (ℝ × ℝ) :=
  (fcs.zip truths).flatMap (dzRow lo hi dz)

/-- A floating point value which need not be finite. -/
inductive FVal where
  | fin (r : ℝ)
  | inf
  | nan

/-- dz_rescaling.py:138: `np.exp(-1.0 * scale_factor * lower)`, the lower bound being -inf if
missing (`0 * inf` is NaN). -/
noncomputable def expLower (s : ℝ) : Option ℝ → FVal
  | some l => .fin (Real.exp (-1 * s * l))
  | none => if s = 0 then .nan else if 0 < s then .inf else .fin 0

/-- dz_rescaling.py:139, the upper bound being inf if missing. -/
noncomputable def expUpper (s : ℝ) : Option ℝ → FVal
  | some u => .fin (Real.exp (-1 * s * u))
  | none => if s = 0 then .nan else if 0 < s then .fin 0 else .inf

/-- dz_rescaling.py:140-143: clipping `x` between the smaller and the larger of `a` and `b`; NaN
(`none`) if either is. -/
noncomputable def clipF (a b : FVal) (x : ℝ) : Option ℝ :=
  match a, b with
  | .nan, _ => none
  | _, .nan => none
  | .fin p, .fin q => some (min (max x (min p q)) (max p q))
  | .fin p, .inf => some (max x p)
  | .inf, .fin q => some (max x q)
  | .inf, .inf => none

/-- dz_rescaling.py:121-143 `_compute_scaled_dz` for one site. -/
noncomputable def scaledDz (lo hi : Option ℝ) (s d : ℝ) : Option ℝ :=
  clipF (expLower s lo) (expUpper s hi) (Real.exp (-1 * s * d))

/-- dz_rescaling.py:211-288: the data of the output, at the sites of the neighbour cube.  `fit` is
`polyfit` of degree one (intercept, gradient), which raises TypeError without points. -/
noncomputable def estimateDz (fit : List (ℝ × ℝ) → ℝ × ℝ) (lo hi : Option ℝ)
    (fSites tSites dSites : List String) (fcs truths : List (List ℝ)) (dz : List ℝ) :
    Except Err (List (Option ℝ)) :=
  let common := commonSites fSites tSites dSites
  let data := dzFitData lo hi (fcs.map (selectSites common fSites))
    (truths.map (selectSites common tSites)) (selectSites common dSites dz)
  if data = [] then .error .typeError
  else .ok (dz.map (scaledDz lo hi (fit data).2))

/-- dz_rescaling.py:198-208: hour of the day, in seconds, of the validity time minus the forecast
period. -/
def dzHour (time fp : ℤ) : ℤ := (time - fp) / 3600 % 24 * 3600

/-- Scaled displacements: forecast periods and hours (in seconds) for which there are values, the
sites and the values. -/
structure ScaledDz where
  fps : List ℤ
  hours : List ℤ
  sites : List String
  data : ℤ → ℤ → List ℝ

/-- dz_rescaling.py:364-375: the first period not shorter than that of the forecast, else the
last. -/
def chosenPeriod (fps : List ℤ) (fp : ℤ) : Option ℤ :=
  match fps.find? (fun p => decide (0 ≤ p - fp)) with
  | some p => some p
  | none => fps.getLast?

/-- dz_rescaling.py:420-422: 0, -1, 1, -2, 2, ... (Python's sort is stable). -/
def leniencies : ℕ → List ℤ
  | 0 => [0]
  | n + 1 => leniencies n ++ [-((n : ℤ) + 1), (n : ℤ) + 1]

/-- dz_rescaling.py:393-396. -/
def lenientHour (frt offset : ℤ) : ℤ := ((frt / 3600 % 24) + offset) % 24 * 3600

/-- dz_rescaling.py:399-442 `ApplyDzRescaling.process`.  The result is also the new content of the
cube of the caller (line 441). -/
noncomputable def applyDz (leniency : ℕ) (sites : List String) (frt fp : ℤ) (data : List ℝ)
    (s : ScaledDz) : Except Err (List ℝ) :=
  if sites ≠ s.sites then .error .valueError
  else match chosenPeriod s.fps fp with
    | none => .error .indexError
    | some p =>
      match (leniencies leniency).find? (fun o => decide (lenientHour frt o ∈ s.hours)) with
      | none => .error .valueError
      | some o => .ok (List.zipWith (· * ·) data (s.data p (lenientHour frt o)))

end Improver
