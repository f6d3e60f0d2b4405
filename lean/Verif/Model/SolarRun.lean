import Verif.Model.Solar
import Verif.Model.CombineRun
import Verif.Model.Amend

/-! Model of `GenerateClearskySolarRadiation.process` and `GenerateSolarTime.process` on whole cubes
(improver/generate_ancillaries/generate_derived_solar_fields.py:49-130, 136-195, 349-571) and so of the commands generate-clearsky-solar-radiation and
generate-solar-time.  The point by point calculation is that of Model/Solar.lean.  Latitude and longitude of each place of the grid are given
(get_grid_y_x_values, transform_grid_to_lat_lon: spatial.py:995-1069); the data are not masked; rounding to 32 bits is left out. -/

namespace Improver

/-- The target grid: its coordinates (anything that can be compared), their lengths, the shape of the data of the cube, the latitude and longitude at each
place (y, x), and the attributes. -/
structure SunGrid (X : Type) where
  xCoord : X
  yCoord : X
  nx : ℕ
  ny : ℕ
  shape : List ℕ
  latLon : ℕ → ℕ → ℝ × ℝ
  attrs : AttrDict

/-- A field of altitudes or turbidities: its coordinates, the shape of its data and the data in the order in which they are stored. -/
structure SunField (X : Type) where
  xCoord : X
  yCoord : X
  shape : List ℕ
  data : List ℕ → ℝ

/-- generate_derived_solar_fields.py:159-195, one of the two fields: the default is a constant of the shape of the target's data; a given field is
refused when its coordinates are not those of the target (cube_checker.py:158-179). -/
def sunField {X : Type} [DecidableEq X] (g : SunGrid X) (preset : ℝ) : Option (SunField X) → Except Err (SunField X)
  | none => .ok ⟨g.xCoord, g.yCoord, g.shape, fun _ => preset⟩
  | some f => if f.xCoord = g.xCoord ∧ f.yCoord = g.yCoord then .ok f else .error .valueError

/-- numpy, assignment to `irradiance_data[time_index, :, :]`: leading dimensions of length one beyond the two of the grid are dropped. -/
def trimShape : List ℕ → List ℕ
  | 1 :: a :: b :: l => trimShape (a :: b :: l)
  | s => s

/-- generate_derived_solar_fields.py:398-403: the value of a field used at a place (y, x), by position. -/
def SunField.used {X : Type} (f : SunField X) (j i : ℕ) : ℝ :=
  f.data (List.replicate (f.shape.length - (trimShape f.shape).length) 0 ++ fitIndex (trimShape f.shape) [j, i])

/-- generate_derived_solar_fields.py:380-403: the field can be put together with the grid. -/
def SunField.fits {X : Type} (g : SunGrid X) (f : SunField X) : Bool := fitsShape [g.ny, g.nx] (trimShape f.shape)

/-- An index of an array. -/
def SunField.inside {X : Type} (f : SunField X) (idx : List ℕ) : Prop := List.Forall₂ (fun i n => i < n) idx f.shape

open Classical in
/-- generate_derived_solar_fields.py:545-548 with `np.allclose(…, 0.0)`, and 469-474: the name of the vertical coordinate. -/
noncomputable def sunVertical {X : Type} (f : SunField X) : String :=
  if ∀ idx, f.inside idx → |f.data idx| ≤ 1e-8 then "altitude" else "height"

/-- A datetime in microseconds as whole seconds: `np.array(t.timestamp(), dtype=np.int64)`. -/
def wholeSeconds (us : ℤ) : ℤ := us.tdiv 1000000

/-- generate_derived_solar_fields.py:82-87, 482-487: the attributes of the result. -/
def sunAttributes (target : AttrDict) (title : Option Text) : Except Err AttrDict := do
  let attrs ← generateMandatory [target] none
  let attrs := AttrDict.set attrs "source" (.text "IMPROVER".toList)
  match title with
  | some t => .ok (AttrDict.set attrs "title" (.text t))
  | none => .ok (AttrDict.pop attrs "title")

/-- A field made for a time: the data by place (y, x), the time with bounds, and the name of the vertical coordinate (at 0 m). -/
structure SunCube (X : Type) where
  xCoord : X
  yCoord : X
  data : ℕ → ℕ → ℝ
  time : ℤ
  bounds : Option (ℤ × ℤ)
  vertical : Option String
  attrs : AttrDict

/-- generate_derived_solar_fields.py:349-411 at one place, an error (a latitude beyond the poles) giving 0; the whole is refused then (`sunRefused`). -/
noncomputable def radiationAt (yday : ℤ → ℤ) (lat lon altitude turbidity : ℝ) (time period spacing : ℤ) : ℝ :=
  match clearSkyRadiation yday lat lon (some altitude) (some turbidity) time period spacing with
  | .ok v => v
  | .error _ => 0

/-- solar.py:196-203: the latitudes are looked at for every time, if there is a time at all. -/
def sunRefused {X : Type} (g : SunGrid X) (times : List ℤ) : Prop :=
  times ≠ [] ∧ ∃ j < g.ny, ∃ i < g.nx, (g.latLon j i).1 < -90 ∨ (g.latLon j i).1 > 90

/-- The errors of `_irradiance_times`. -/
def timesError (spacing : ℤ) : Err := if spacing = 0 then .zeroDivision else .valueError

/-- generate_derived_solar_fields.py:413-498 `_create_solar_radiation_cube`. -/
noncomputable def radiationCube {X : Type} (yday : ℤ → ℤ) (g : SunGrid X) (alt turb : SunField X) (time period spacing : ℤ) (attrs : AttrDict) : SunCube X where
  xCoord := g.xCoord
  yCoord := g.yCoord
  data := fun j i => radiationAt yday (g.latLon j i).1 (g.latLon j i).2 (alt.used j i) (turb.used j i) time period spacing
  time := wholeSeconds time
  bounds := some (wholeSeconds (time - period * 3600000000), wholeSeconds time)
  vertical := some (sunVertical alt)
  attrs := attrs

open Classical in
/-- generate_derived_solar_fields.py:550-571: what follows the choice of fields. -/
noncomputable def radiationFrom {X : Type} (yday : ℤ → ℤ) (g : SunGrid X) (alt turb : SunField X) (time period spacing : ℤ) (title : Option Text) :
    Except Err (SunCube X) :=
  match irradianceTimes time period spacing with
  | .error _ => .error (timesError spacing)
  | .ok ts =>
    if sunRefused g ts then .error .valueError
    else if ts ≠ [] ∧ (alt.fits g && turb.fits g) = false then .error .valueError
    else
      match sunAttributes g.attrs title with
      | .error e => .error e
      | .ok attrs => .ok (radiationCube yday g alt turb time period spacing attrs)

/-- generate_derived_solar_fields.py:500-571 `GenerateClearskySolarRadiation.process`. -/
noncomputable def clearSkyProcess {X : Type} [DecidableEq X] (yday : ℤ → ℤ) (g : SunGrid X) (time period : ℤ) (altitude turbidity : Option (SunField X))
    (spacing : ℤ) (title : Option Text) : Except Err (SunCube X) :=
  match sunField g 0 altitude with
  | .error e => .error e
  | .ok alt =>
    match sunField g 3 turbidity with
    | .error e => .error e
    | .ok turb => radiationFrom yday g alt turb time period spacing title

/-- generate_derived_solar_fields.py:49-130 `GenerateSolarTime.process`; day and hour of a datetime are always accepted (C161). -/
noncomputable def solarTimeProcess {X : Type} (yday : ℤ → ℤ) (g : SunGrid X) (time : ℤ) (title : Option Text) : Except Err (SunCube X) :=
  match sunAttributes g.attrs title with
  | .error e => .error e
  | .ok attrs => .ok ⟨g.xCoord, g.yCoord, fun j i => solarTimeOf (g.latLon j i).2 (dayOfYear yday time) (hourOfDay time) true, wholeSeconds time, none, none,
      attrs⟩

end Improver
