import Verif.Basic
import Mathlib.Data.List.Dedup
import Mathlib.Data.List.Sort
import Mathlib.Algebra.BigOperators.Group.List.Basic

/-! Model of `improver/utilities/temporal_interpolation.py` at one grid point.  Times are whole seconds.  `none` is a value that is
not finite (NaN or infinite). -/

namespace Improver

/-- The arguments of the plugin that its methods change: `interval_in_minutes` and `times` (temporal_interpolation.py:137-150). -/
structure TIState where
  interval : Option ℤ
  times : Option (List ℤ)
  deriving DecidableEq

/-- The kind of diagnostic: instantaneous or one of the period kinds `accumulation`, `max`, `min`
(temporal_interpolation.py:158-169). -/
inductive TIKind where
  | instant | accumulation | max | min
  deriving DecidableEq

/-- A cube at one grid point: validity time, bounds of its time coordinate, value. -/
structure TICube where
  time : ℤ
  bounds : Option (ℤ × ℤ)
  value : ℚ
  deriving DecidableEq

/-- An output cube at one grid point. -/
structure TIOut where
  time : ℤ
  bounds : Option (ℤ × ℤ)
  value : Option ℚ
  deriving DecidableEq

/-- The constructor's checks (temporal_interpolation.py:137-177): exactly one of interval and times, a known method, at most one period
kind, and only the linear method for period diagnostics. -/
def tiInit (interval : Option ℤ) (times : Option (List ℤ)) (method : String) (accumulation max min : Bool) : Except Err (TIState × TIKind) :=
  if interval.isNone ∧ times.isNone then .error .valueError
  else if interval.isSome ∧ times.isSome then .error .valueError
  else if method ≠ "linear" ∧ method ≠ "solar" ∧ method ≠ "daynight" then .error .valueError
  else if accumulation.toNat + max.toNat + min.toNat > 1 then .error .valueError
  else if (accumulation || max || min) = true ∧ method ≠ "linear" then .error .valueError
  else .ok (⟨interval, times⟩, if accumulation then .accumulation else if max then .max else if min then .min else .instant)

/-- The while loop of `construct_time_list` (temporal_interpolation.py:231-236), for a positive step; the first argument limits the
number of passes and is chosen large enough below. -/
def tiLoop (step final : ℤ) : ℕ → ℤ → List ℤ
  | 0, _ => []
  | n + 1, t => if t + step ≥ final then [] else (t + step) :: tiLoop step final n (t + step)

/-- `sorted(set(time_list))`. -/
def sortedSet (l : List ℤ) : List ℤ := l.dedup.insertionSort (· ≤ ·)

/-- `construct_time_list` (temporal_interpolation.py:179-241): the times and the plugin afterwards.  `(final - initial).seconds` is the
remainder modulo one day.  `time_list.append(final_time)` appends to `self.times`, which is the same list.  An empty list of times is
an `IndexError`, an interval of 0 a `ZeroDivisionError`.  A negative interval (the loop may not end) is not modelled: it is
refused. -/
def tiTimeList (s : TIState) (initial final : ℤ) : Except Err (List ℤ × TIState) :=
  match s.times, s.interval with
  | some times, _ =>
    let times := times.insertionSort (· ≤ ·)
    match times.head?, times.getLast? with
    | some a, some b =>
      if a < initial ∨ b > final then .error .valueError
      else .ok (sortedSet (times ++ [final]), ⟨s.interval, some (times ++ [final])⟩)
    | _, _ => .error .indexError
  | none, some i =>
    if i = 0 then .error .zeroDivision
    else if i < 0 then .error .notImplemented
    else if (final - initial) % 86400 % (60 * i) ≠ 0 then .error .valueError
    else .ok (sortedSet (tiLoop (60 * i) final (final - initial).toNat initial ++ [final]), s)
  | none, none => .ok ([final], s)

/-- Linear interpolation in time (`cube.interpolate(time_list, iris.analysis.Linear())`, temporal_interpolation.py:647). -/
def tiLinear (t0 t1 : ℤ) (v0 v1 : ℚ) (t : ℤ) : ℚ := v0 + (v1 - v0) * (((t - t0 : ℤ) : ℚ) / ((t1 - t0 : ℤ) : ℚ))

/-- The quotient of two numpy floats: `none` if not finite. -/
def divFinite (a b : ℚ) : Option ℚ := if b = 0 then none else some (a / b)

/-- `add_bounds` (temporal_interpolation.py:435-467): each time is bounded below by the preceding one, the first by that of the
first input. -/
def tiBounds (t0 : ℤ) (ts : List ℤ) : List (ℤ × ℤ) := (t0 :: ts).zip ts

/-- The amounts of `_calculate_accumulation` before renormalisation (temporal_interpolation.py:492-507): mean of the rates at both ends
of each period times its length; `rates` are the rates at the times `ts`. -/
def tiAmounts (t0 : ℤ) (r0 : ℚ) (ts : List ℤ) (rates : List ℚ) : List ℚ :=
  List.zipWith (fun (b : ℤ × ℤ) (r : ℚ × ℚ) => ((b.2 - b.1 : ℤ) : ℚ) * ((r.1 + r.2) / 2)) (tiBounds t0 ts) ((r0 :: rates).zip rates)

/-- The renormalisation (temporal_interpolation.py:509-515): multiplication by `period_reference / interpolated_total`. -/
def tiRenorm (reference : ℚ) (amounts : List ℚ) : List (Option ℚ) :=
  amounts.map (fun a => (divFinite reference amounts.sum).map (fun f => a * f))

/-- The values at the times `ts` (temporal_interpolation.py:639-674).  A rate with a zero period is not finite. -/
def tiValues (kind : TIKind) (c0 c1 : TICube) (ts : List ℤ) : List (Option ℚ) :=
  match kind with
  | .instant => ts.map (fun t => some (tiLinear c0.time c1.time c0.value c1.value t))
  | .max => ts.map (fun t => some (min c1.value (tiLinear c0.time c1.time c0.value c1.value t)))
  | .min => ts.map (fun t => some (max c1.value (tiLinear c0.time c1.time c0.value c1.value t)))
  | .accumulation =>
    match c0.bounds.bind (fun b => divFinite c0.value ((b.2 - b.1 : ℤ) : ℚ)), c1.bounds.bind (fun b => divFinite c1.value ((b.2 - b.1 : ℤ) : ℚ)) with
    | some r0, some r1 => tiRenorm c1.value (tiAmounts c0.time r0 ts (ts.map (tiLinear c0.time c1.time r0 r1)))
    | _, _ => ts.map (fun _ => none)

/-- What is left in an input cube of an accumulation (temporal_interpolation.py:640-642): its data have been divided by the length of
its period in place. -/
def tiInputAfter (kind : TIKind) (c : TICube) : TICube :=
  match kind, c.bounds with
  | .accumulation, some b => { c with value := c.value / ((b.2 - b.1 : ℤ) : ℚ) }
  | _, _ => c

/-- `process` (temporal_interpolation.py:517-686) with the linear method for a diagnostic that is not a direction: the output cubes,
the plugin afterwards and the input cubes afterwards.  Forecast periods are those of the times (the inputs have one forecast
reference time). -/
def tiProcess (s : TIState) (kind : TIKind) (c0 c1 : TICube) : Except Err (List TIOut × TIState × TICube × TICube) :=
  if c0.time > c1.time then .error .valueError
  else if c0.bounds.isSome ≠ c1.bounds.isSome then .error .valueError
  else if c0.bounds.isSome = true ∧ kind = .instant then .error .valueError
  else if kind ≠ .instant ∧ c0.bounds.isSome = false then .error .valueError
  else if kind ≠ .instant ∧ c1.bounds.map (fun b => b.2 - b.1) ≠ some (c1.time - c0.time) then .error .valueError
  else
    match tiTimeList s c0.time c1.time with
    | .error e => .error e
    | .ok (ts, s') =>
      if ts = [c1.time] then .ok ([⟨c1.time, c1.bounds, some c1.value⟩], s', c0, c1)
      else
        let bounds : List (Option (ℤ × ℤ)) := if kind = .instant then ts.map (fun _ => none) else (tiBounds c0.time ts).map some
        .ok (List.zipWith (fun (tb : ℤ × Option (ℤ × ℤ)) v => (⟨tb.1, tb.2, v⟩ : TIOut)) (ts.zip bounds) (tiValues kind c0 c1 ts), s',
          tiInputAfter kind c0, tiInputAfter kind c1)

/-- `solar_interpolate` (temporal_interpolation.py:324-395) at one point and time: `sp`, `sn`, `si` are the sines of the solar elevation
at the first, last and interpolated time.  Time differences are taken modulo one day (`.seconds`). -/
def tiSolar (t0 t1 : ℤ) (v0 v1 sp sn si : ℚ) (t : ℤ) : Option ℚ :=
  if si > 0 then
    match divFinite v0 sp, divFinite v1 sn, divFinite (((t - t0) % 86400 : ℤ) : ℚ) (((t1 - t0) % 86400 : ℤ) : ℚ) with
    | some p, some n, some f => some (si * (p + (n - p) * f))
    | _, _, _ => none
  else some 0

/-- `daynight_interpolate` (temporal_interpolation.py:397-433) at one point. -/
def tiDayNight (night : Bool) (v : ℚ) : ℚ := if night then 0 else v

end Improver
