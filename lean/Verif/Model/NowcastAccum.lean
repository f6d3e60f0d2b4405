import Verif.Model.Accumulation
import Verif.Model.Assembly

/-!
Model of improver/cli/nowcast_accumulate.py: extrapolation by one minute steps, accumulation over periods and the merge of the results, on whole
fields.  Times are whole seconds, lead times and periods whole minutes.
-/

namespace Improver

/-- An accumulation field: its forecast period and time coordinates and data (`none` = masked). -/
structure FieldAcc where
  fp : SCoord ℤ
  time : SCoord ℤ
  data : ℕ → ℕ → Option ℚ

/-- The time coordinates of a forecast: all that `_check_inputs` (accumulation.py:90-197) looks at. -/
def RateForecast.times (f : RateForecast) : RateCube := ⟨f.time, f.period, 0⟩

/-- accumulation.py:117-121: the rate in m s-1; `scale` turns the values into mm h-1. -/
def RateForecast.inMetres (scale : ℚ) (f : RateForecast) : RateForecast :=
  ⟨f.time, f.timeBounds, f.frt, f.period, fun y x => (f.data y x).map fun v => v * scale / 3600000⟩

/-- Sum of two values of masked arrays. -/
def maskedAdd (a b : Option ℚ) : Option ℚ := a.bind fun x => b.map fun y => x + y

/-- One step of the loop of `_calculate_accumulation` (accumulation.py:262-263) at one point. -/
def accStep (dt : ℤ) (y x : ℕ) (acc : Option ℚ) (p : RateForecast × RateForecast) : Option ℚ :=
  maskedAdd acc ((maskedAdd (p.1.data y x) (p.2.data y x)).map fun s => s * dt * (1 / 2))

/-- `_calculate_accumulation` (accumulation.py:231-264) on fields. -/
def fieldAmount (dt : ℤ) (sub : List RateForecast) (y x : ℕ) : Option ℚ := (sub.zip sub.tail).foldl (accStep dt y x) (some 0)

/-- One forecast period of the loop of `process` (accumulation.py:316-324): `fac` turns metres into the units wanted.  Without a rate there is an
`IndexError` in `_set_metadata`; of one rate the amount is a number, which iris does not accept as data of a field. -/
def fieldAccOne (fac : ℚ) (cubes : List RateForecast) (dt period fp : ℤ) : Except Err FieldAcc :=
  let sub := cubes.filter fun c => decide (fp - period ≤ c.period ∧ c.period ≤ fp)
  if sub = [] then .error .indexError
  else do
    let t ← expandBounds (sub.map fun c => ⟨c.time, c.timeBounds⟩)
    let f ← expandBounds (sub.map fun c => ⟨c.period, none⟩)
    if sub.length = 1 then .error .valueError
    else .ok ⟨f, t, fun y x => (fieldAmount dt sub y x).map fun a => a * fac⟩

/-- `Accumulation.process` (accumulation.py:296-326) on fields: period and forecast periods in seconds. -/
def fieldAccumulate (fac : ℚ) (period : ℤ) (fps : List ℤ) (cubes : List RateForecast) : Except Err (List FieldAcc) := do
  let r ← checkAccInputs ⟨some period, some fps⟩ (cubes.map RateForecast.times)
  (r.2.2.fps.getD []).mapM (fieldAccOne fac (cubes.insertionSort fun a b => a.time ≤ b.time) r.2.1 period)

/-- `np.arange(lead_time_interval, max_lead_time + 1, lead_time_interval)` (nowcast_accumulate.py:115) for a greatest lead time that is not
negative. -/
def accLeads (interval maxLead : ℤ) : Except Err (List ℤ) :=
  if interval = 0 then .error .zeroDivision else .ok ((List.range (maxLead / interval).toNat).map fun k : ℕ => ((k : ℤ) + 1) * interval)

/-- `MergeCubes` of the accumulations (nowcast_accumulate.py:125): they are given in the order of time, so the merged cube has them in this order;
there is nothing to merge without any.  Metadata that would prevent the merge is not modelled. -/
def mergeAccumulations (l : List FieldAcc) : Except Err (List FieldAcc) := if l = [] then .error .valueError else .ok l

/-- nowcast_accumulate.py:52-125 `process`: `thr` is 1/32 mm h-1 in the units of the analysis, `extrap` the extrapolation of pysteps, `fac` turns
metres into the units wanted.  The choice of the advection velocities by name is not modelled. -/
def nowcastAccumulate (thr : ℚ) (extrap : RateField → RateField → RateField → ℕ → List RateField) (fac : ℚ) (maxLead interval period : ℤ)
    (c : NowcastCube) (u v : RateField) (oe : List (ℤ × (ℕ → ℕ → ℚ))) : Except Err (List FieldAcc) := do
  let cubes ← pystepsNowcast thr extrap 1 maxLead c u v oe
  let leads ← accLeads interval maxLead
  let out ← fieldAccumulate fac (period * 60) (leads.map fun l => l * 60) (cubes.map (RateForecast.inMetres c.scale))
  mergeAccumulations out

end Improver
