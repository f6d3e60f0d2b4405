import Verif.Model.TemporalInterp
import Verif.Model.Wind

/-! Model of the interpolation in time of directions (`improver/utilities/temporal_interpolation.py`, inputs in degrees) and of the
command `temporal-interpolate` (`improver/cli/temporal_interpolate.py`), at one grid point.  Angles are exact reals. -/

namespace Improver

/-- The data of a cube of directions: degrees as read, or the complex numbers that `process` stores in its inputs
(temporal_interpolation.py:630-632). -/
inductive TIDirData where
  | degrees (d : ℝ)
  | complex (z : ℂ)

/-- A cube of directions at one grid point: validity time, bounds of its time coordinate, data. -/
structure TIDirCube where
  time : ℤ
  bounds : Option (ℤ × ℤ)
  data : TIDirData

/-- The direction at time `t` (temporal_interpolation.py:630-632 and 647-649): linear interpolation of the complex numbers, then their
angle. -/
noncomputable def tiDirection (t0 t1 : ℤ) (d0 d1 : ℝ) (t : ℤ) : ℝ :=
  complexToDeg (degToComplex d0 + (degToComplex d1 - degToComplex d0) * (((((t - t0 : ℤ) : ℝ) / ((t1 - t0 : ℤ) : ℝ)) : ℝ) : ℂ))

/-- `process` (temporal_interpolation.py:517-686) with the linear method for two instantaneous cubes in degrees: the output cubes, the
plugin afterwards and the input cubes afterwards, whose data were replaced by complex numbers.  `np.deg2rad` of complex numbers is a
`TypeError`. -/
noncomputable def tiDirProcess (s : TIState) (c0 c1 : TIDirCube) : Except Err (List TIDirCube × TIState × TIDirCube × TIDirCube) :=
  if c0.time > c1.time then .error .valueError
  else if c0.bounds.isSome ≠ c1.bounds.isSome then .error .valueError
  else if c0.bounds.isSome = true then .error .valueError
  else
    match tiTimeList s c0.time c1.time with
    | .error e => .error e
    | .ok (ts, s') =>
      if ts = [c1.time] then .ok ([c1], s', c0, c1)
      else
        match c0.data, c1.data with
        | .degrees d0, .degrees d1 =>
          .ok (ts.map (fun t => (⟨t, none, .degrees (tiDirection c0.time c1.time d0 d1 t)⟩ : TIDirCube)), s',
            { c0 with data := .complex (degToComplex d0) }, { c1 with data := .complex (degToComplex d1) })
        | _, _ => .error .typeError

/-- The order in which the command hands over its two inputs (cli/temporal_interpolate.py:82-86). -/
def tiOrder {α : Type} (time : α → ℤ) (start fin : α) : α × α := if time fin < time start then (fin, start) else (start, fin)

/-- The command for a diagnostic that is not a direction, with the linear method (cli/temporal_interpolate.py:82-99); the other methods
are refused here.  The merged result is the list of its times with their values (they are distinct and ascending). -/
def tiCommand (start fin : TICube) (interval : Option ℤ) (times : Option (List ℤ)) (method : String) (accumulation mx mn : Bool) :
    Except Err (List TIOut) :=
  match tiInit interval times method accumulation mx mn with
  | .error e => .error e
  | .ok (s, kind) =>
    if method ≠ "linear" then .error .notImplemented
    else (tiProcess s kind (tiOrder TICube.time start fin).1 (tiOrder TICube.time start fin).2).map (·.1)

/-- The command for directions, with the linear method and no period kind (cli/temporal_interpolate.py:82-99). -/
noncomputable def tiDirCommand (start fin : TIDirCube) (interval : Option ℤ) (times : Option (List ℤ)) (method : String) :
    Except Err (List TIDirCube) :=
  match tiInit interval times method false false false with
  | .error e => .error e
  | .ok (s, _) =>
    if method ≠ "linear" then .error .notImplemented
    else (tiDirProcess s (tiOrder TIDirCube.time start fin).1 (tiOrder TIDirCube.time start fin).2).map (·.1)

end Improver
