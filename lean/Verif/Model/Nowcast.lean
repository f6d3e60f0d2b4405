import Verif.Basic
import Verif.Model.Rescale
import Verif.Model.Times
import Verif.Model.NbhoodMore
import Mathlib.Data.Rat.Floor
import Mathlib.Analysis.SpecialFunctions.Log.Base
import Mathlib.Analysis.SpecialFunctions.Pow.Real

/-!
Model of `improver/nowcasting/utilities.py`, `improver/nowcasting/forecasting.py` and `improver/nowcasting/lightning.py`.
A field is a function of the row and the column; `none` is a masked or NaN value.
-/

namespace Improver

/-! ### forecasting.py -/

/-- `point_in_bounds` (forecasting.py:188-190). -/
def pointInBounds (x y : ℚ) (nx ny : ℕ) : Bool := decide (0 ≤ x) && decide (x < nx) && decide (0 ≤ y) && decide (y < ny)

/-- `ndarray.astype(int)` of a float (forecasting.py:196-197): truncation towards zero. -/
def truncInt (x : ℚ) : ℤ := if 0 ≤ x then ⌊x⌋ else ⌈x⌉

/-- `_increment_output_array` (forecasting.py:93-138) at one destination point: NaN (`none`) spreads, whatever the weight. -/
def advIncrement (data : ℕ → ℕ → Option ℚ) (nx ny : ℕ) (acc : Option ℚ) (xpt ypt : ℤ) (xw yw : ℚ) : Option ℚ :=
  if pointInBounds xpt ypt nx ny then
    match acc, data ypt.toNat xpt.toNat with
    | some a, some d => some (a + d * xw * yw)
    | _, _ => none
  else acc

/-- `AdvectField._advect_field` (forecasting.py:140-225) at the point `(y, x)`; `velX` and `velY` are in grid squares per second.
A point that is not in bounds keeps the initial NaN, which becomes masked. -/
def advectField (nx ny : ℕ) (data : ℕ → ℕ → Option ℚ) (velX velY : ℕ → ℕ → ℚ) (timestep : ℤ) (y x : ℕ) : Option ℚ :=
  if timestep = 0 then data y x
  else
    let xs : ℚ := -velX y x * timestep + x
    let ys : ℚ := -velY y x * timestep + y
    if pointInBounds xs ys nx ny then
      let xl := truncInt xs
      let yl := truncInt ys
      let xu : ℚ := xs - xl
      let yu : ℚ := ys - yl
      -- the loops over `zip(x_points, x_weights)` and `zip(y_points, y_weights)`
      let a0 := advIncrement data nx ny (some 0) xl yl (1 - xu) (1 - yu)
      let a1 := advIncrement data nx ny a0 xl (yl + 1) (1 - xu) yu
      let a2 := advIncrement data nx ny a1 (xl + 1) yl xu (1 - yu)
      advIncrement data nx ny a2 (xl + 1) (yl + 1) xu yu
    else none

/-- `grid_spacing` (forecasting.py:345-349): the first difference of the coordinate points; `np.diff(..)[0]` of one point fails. -/
def firstSpacing (p : List ℚ) : Except Err ℚ :=
  match p with
  | a :: b :: _ => .ok (b - a)
  | _ => .error .indexError

/-- A cube given to the advection: coordinates, scalar time (seconds) and data. -/
structure NowCube where
  xs : List ℚ
  ys : List ℚ
  name : String
  time : Option ℤ
  data : ℕ → ℕ → Option ℚ

/-- An advected cube: its time coordinates and data. -/
structure NowForecast where
  time : ℤ
  frt : ℤ
  period : ℤ
  data : ℕ → ℕ → Option ℚ

/-- Velocities held by an `AdvectField` plugin (forecasting.py:41-84), in metres per second. -/
structure Velocities where
  xs : List ℚ
  ys : List ℚ
  u : ℕ → ℕ → ℚ
  v : ℕ → ℕ → ℚ

/-- `AdvectField.process` (forecasting.py:314-364) with `_update_time`, `_add_forecast_reference_time` and `_add_forecast_period`
(forecasting.py:227-278).  The time step is a whole number of seconds.  Attributes, names and the check of the number of dimensions
are not modelled. -/
def advectProcess (vel : Velocities) (cube : NowCube) (timestep : ℤ) : Except Err NowForecast :=
  match cube.time with
  | none => .error .invalidCube
  | some t =>
    if cube.xs ≠ vel.xs ∨ cube.ys ≠ vel.ys then .error .invalidCube
    else do
      let dx ← firstSpacing cube.xs
      let dy ← firstSpacing cube.ys
      return {
        time := t + timestep
        frt := t
        period := timestep
        data := advectField cube.xs.length cube.ys.length cube.data (fun y x => vel.u y x / dx) (fun y x => vel.v y x / dy) timestep }

/-! ### utilities.py -/

/-- `ApplyOrographicEnhancement._apply_orographic_enhancement` (utilities.py:250-295) at one point, with both rates in the same units;
`thr` is 1/32 mm/h in those units.  A NaN rate is not below the threshold and stays NaN.  At masked points the model gives `none`. -/
def oeCombine (op : String) (thr : ℚ) (precip : Option ℚ) (oe : ℚ) : Except Err (Option ℚ) :=
  match precip with
  | none => if op = "add" ∨ op = "subtract" then .ok none else .error .valueError
  | some p =>
    let e := if p < thr then 0 else oe
    if op = "add" then .ok (some (p + e))
    else if op = "subtract" then .ok (some (p - e))
    else .error .valueError

/-- `_apply_minimum_precip_rate` (utilities.py:297-337) at one point. -/
def oeMinimum (op : String) (thr : ℚ) (precip result : Option ℚ) : Option ℚ :=
  if op = "subtract" then
    match precip, result with
    | some p, some r => if p ≥ thr ∧ r ≤ thr then some thr else some r
    | _, r => r
  else result

/-- `_select_orographic_enhancement_cube` (utilities.py:214-248): nearest time, at most `allowed` seconds away. -/
def oeSelect (oe : List (ℤ × (ℕ → ℕ → ℚ))) (t : ℤ) : Except Err (ℕ → ℕ → ℚ) := do
  let s ← extractNearest oe "time" t 1800
  return s.2

/-- `ApplyOrographicEnhancement.process` (utilities.py:339-368) for one cube at one point. -/
def oeApply (op : String) (thr : ℚ) (oe : List (ℤ × (ℕ → ℕ → ℚ))) (t : ℤ) (precip : ℕ → ℕ → Option ℚ) (y x : ℕ) :
    Except Err (Option ℚ) := do
  let e ← oeSelect oe t
  let r ← oeCombine op thr (precip y x) (e y x)
  return oeMinimum op thr (precip y x) r

/-- `ExtendRadarMask.process` (utilities.py:44-78) at one point: the new mask replaces the old one, so the stored value under the old
mask (`raw`) is used.  Returns `none` for a masked point. -/
def extendRadarMask (coverage : ℤ) (_oldMask : Bool) (raw : ℚ) : Option ℚ :=
  if coverage = 1 ∨ coverage = 2 then some raw else none

/-- `neighbourhood_tools.pad_and_roll(.., mode="constant")` with a 9x9 window (utilities.py:133-138): the element `(a, b)` of the
window centred on `(y, x)`. -/
def speckleWindow {α : Type} (h w : ℕ) (pad : α) (f : ℕ → ℕ → α) (y x a b : ℕ) : α :=
  if 4 ≤ y + a ∧ y + a < h + 4 ∧ 4 ≤ x + b ∧ x + b < w + 4 then f (y + a - 4) (x + b - 4) else pad

/-- `np.sum(mask_windows, axis=(-2, -1))` (utilities.py:143). -/
def speckleCount (h w : ℕ) (mask : ℕ → ℕ → Bool) (y x : ℕ) : ℕ :=
  ((List.range 9).map (fun a =>
    ((List.range 9).map (fun b => if speckleWindow h w true mask y x a b then 1 else 0)).sum)).sum

/-- The speckle points (utilities.py:141-144): masked, with fewer than 30 % of the 81 points of the window masked. -/
def isSpeckle (h w : ℕ) (mask : ℕ → ℕ → Bool) (y x : ℕ) : Bool :=
  speckleWindow h w true mask y x 4 4 && decide ((speckleCount h w mask y x : ℚ) < 81 * (3 / 10))

/-- The valid points of the 5x5 window (utilities.py:147-154). -/
def speckleValid (h w : ℕ) (mask : ℕ → ℕ → Bool) (rate : ℕ → ℕ → ℝ) (y x : ℕ) : List ℝ :=
  (List.range 5).flatMap (fun a => (List.range 5).flatMap (fun b =>
    if speckleWindow h w true mask y x (a + 2) (b + 2) then [] else [speckleWindow h w 0 rate y x (a + 2) (b + 2)]))

open Classical in
/-- The value given to a speckle point (utilities.py:154-162): ten to the mean of the logarithms, or 0 when the mean is NaN, which it
is when a valid point is at most 0.001 (or when there is no valid point).  Numbers are real here because of the logarithm. -/
noncomputable def speckleValue (valid : List ℝ) : ℝ :=
  if valid = [] ∨ ∃ v ∈ valid, v ≤ 1 / 1000 then 0
  else (10 : ℝ) ^ ((valid.map (Real.logb 10)).sum / valid.length)

/-- `FillRadarHoles._find_and_interpolate_speckle` (utilities.py:119-162): all windows are taken from the input field.  `none` is a
masked point of the output. -/
noncomputable def fillRadarHoles (h w : ℕ) (mask : ℕ → ℕ → Bool) (rate : ℕ → ℕ → ℝ) (y x : ℕ) : Option ℝ :=
  if isSpeckle h w mask y x then some (speckleValue (speckleValid h w mask rate y x))
  else if mask y x then none else some (rate y x)

/-! ### CreateExtrapolationForecast -/

/-- Orographic enhancement of a whole field: raises if the enhancement time is too far away. -/
def oeField (op : String) (thr : ℚ) (oe : List (ℤ × (ℕ → ℕ → ℚ))) (t : ℤ) (f : ℕ → ℕ → Option ℚ) :
    Except Err (ℕ → ℕ → Option ℚ) := do
  let e ← oeSelect oe t
  return fun y x =>
    match oeCombine op thr (f y x) (e y x) with
    | .ok r => oeMinimum op thr (f y x) r
    | .error _ => none

/-- The input field of the plugin (forecasting.py:410-424). -/
def extrapolationInput (thr : ℚ) (oe : Option (List (ℤ × (ℕ → ℕ → ℚ)))) (isPrecip : Bool) (cube : NowCube) : Except Err NowCube :=
  match oe with
  | none => if isPrecip then .error .valueError else .ok cube
  | some o =>
    match cube.time with
    | none => .error .coordinateNotFound
    | some t => do
      let d ← oeField "subtract" thr o t cube.data
      return { cube with data := d }

/-- `extrapolate` (forecasting.py:442-471) to a lead time in whole minutes. -/
def extrapolate (thr : ℚ) (oe : Option (List (ℤ × (ℕ → ℕ → ℚ)))) (vel : Velocities) (input : NowCube) (minutes : ℤ) :
    Except Err NowForecast := do
  let f ← advectProcess vel input (60 * minutes)
  match oe with
  | none => return f
  | some o =>
    let d ← oeField "add" thr o f.time f.data
    return { f with data := d }

/-- `np.arange(0, max_lead_time + 1, interval)` (forecasting.py:486) for whole numbers. -/
def leadTimes (interval maxLead : ℤ) : Except Err (List ℤ) :=
  if interval = 0 then .error .zeroDivision
  else .ok ((List.range (⌈((maxLead + 1 : ℤ) : ℚ) / interval⌉).toNat).map (fun (k : ℕ) => (k : ℤ) * interval))

/-- `CreateExtrapolationForecast.__init__` and `process` (forecasting.py:373-490). -/
def extrapolationForecast (thr : ℚ) (oe : Option (List (ℤ × (ℕ → ℕ → ℚ)))) (isPrecip : Bool) (vel : Velocities) (cube : NowCube)
    (interval maxLead : ℤ) : Except Err (List NowForecast) := do
  let input ← extrapolationInput thr oe isPrecip cube
  let leads ← leadTimes interval maxLead
  leads.mapM (extrapolate thr oe vel input)

/-! ### lightning.py -/

/-- `np.where((obs >= limit) & (p < level), level, p)`: raise the probability to a risk level (lightning.py:263-279, 367-380). -/
def raiseTo (level limit obs p : ℚ) : ℚ := if obs ≥ limit ∧ p < level then level else p

/-- `self.lrt_lev1` (lightning.py:121): the rate for risk 1 depends on the forecast period in minutes. -/
def lrtLev1 (mins : ℚ) : ℚ := 1 / 2 + mins * 2 / 360

/-- The adjustment to the observed lightning rate in `_modify_first_guess` (lightning.py:258-279). -/
def lightningFirstGuess (mins rate guess : ℚ) : ℚ := raiseTo 1 (lrtLev1 mins) rate (raiseTo (1 / 4) 0 rate guess)

/-- `apply_precip` (lightning.py:365-385) at one point; `any`, `high` and `torr` are the probabilities of 0.5, 7 and 35 mm/h.  The
default combination of `apply_double_scaling` is `np.minimum`. -/
def lightningPrecip (p any high torr : ℚ) : Except Err ℚ :=
  let p1 := raiseTo (1 / 4) (2 / 5) high p
  let p2 := raiseTo 1 (1 / 5) torr p1
  applyDoubleScaling any p2 (0, 1 / 20, 1 / 10) (67 / 10000, 1 / 4, 1) min

/-- One ice threshold in `apply_ice` (lightning.py:436-447). -/
def lightningIceStep (mins : ℚ) (p : ℚ) (e : ℚ × ℚ) : Except Err ℚ :=
  let top := e.2 * (1 - mins / 150)
  if top > 0 then do
    let r ← rescale e.1 (0, 1) (0, top) true
    return max r p
  else .ok p

/-- `apply_ice` (lightning.py:393-452) at one point: `ice` are the probabilities of the three ice thresholds. -/
def lightningIce (mins p : ℚ) (ice : ℚ × ℚ × ℚ) : Except Err ℚ :=
  [(ice.1, (1 / 10 : ℚ)), (ice.2.1, 1 / 2), (ice.2.2, 9 / 10)].foldlM (lightningIceStep mins) p

/-- What is known at one time of the output: forecast period and the probabilities of precipitation. -/
structure LightningSlice where
  time : ℤ
  mins : ℚ
  any : ℚ
  high : ℚ
  torr : ℚ
  ice : Option (ℚ × ℚ × ℚ)

/-- One output time of `_modify_first_guess` (lightning.py:199-296) at one point.  A missing observation time raises
`ConstraintMismatchError` (given here as `keyError`); the first guess may be up to 7201 s away. -/
def lightningAt (rates guesses : List (ℤ × ℚ)) (s : LightningSlice) : Except Err ℚ :=
  match rates.lookup s.time with
  | none => .error .keyError
  | some rate => do
    let g ← extractNearest guesses "time" s.time 7201
    let p ← lightningPrecip (lightningFirstGuess s.mins rate g.2) s.any s.high s.torr
    match s.ice with
    | none => return p
    | some i => lightningIce s.mins p i

/-- `NowcastLightning.process` (lightning.py:454-518) at one point.  The neighbourhood plugin (`__init__`, lightning.py:98-103) is called with
the new cube, which may raise (nbhood.py:32-52, 151-175, modelled by `findRadius` with forecast periods in hours), but its result is not
used. -/
def nowcastLightning (radius : ℚ) (neighbourhood : ℚ → List ℚ → List ℚ) (rates guesses : List (ℤ × ℚ)) (slices : List LightningSlice) :
    Except Err (List ℚ) := do
  let new ← slices.mapM (lightningAt rates guesses)
  let r ← findRadius (.byLeadTime [radius, 2 * radius] [0, 6]) (slices.map (fun s => s.mins / 60))
  let _ := neighbourhood r new
  return new

end Improver
