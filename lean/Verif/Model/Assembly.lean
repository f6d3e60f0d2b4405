import Verif.Model.Nowcast
import Verif.Model.Spatial
import Verif.Model.Standards
import Verif.Model.Wind

/-!
Models of improver/nowcasting/pysteps_advection.py, improver/spotdata/build_spotdata_cube.py and the parts of
improver/standardise.py that are not in `Model/Standards.lean`.
-/

namespace Improver

/-! ## pysteps_advection.py -/

/-- A precipitation rate analysis: `scale` turns its values into mm/h. -/
structure NowcastCube where
  name : String
  xs : List ℚ
  ys : List ℚ
  scale : ℚ
  time : ℤ
  timeBounds : Option (ℤ × ℤ)
  frt : Option ℤ
  period : Option ℤ
  data : ℕ → ℕ → Option ℚ

/-- A forecast. -/
structure RateForecast where
  time : ℤ
  timeBounds : Option (ℤ × ℤ)
  frt : ℤ
  period : ℤ
  data : ℕ → ℕ → Option ℚ

/-- A field, `none` where there is no value. -/
abbrev RateField := ℕ → ℕ → Option ℚ

/-- pysteps_advection.py:79-100: displacement in grid squares for one component of the velocity (m s-1); the spacing of the
grid is never negative. -/
def displacementOf (speed : RateField) (interval : ℤ) (spacing : ℚ) : RateField :=
  fun y x => (speed y x).map fun s => s * interval * 60 / spacing

/-- pysteps_advection.py:62-106 `_generate_displacement_array`: along x and y, both with the spacing of the x axis. -/
def displacementArray (xs : List ℚ) (u v : RateField) (interval : ℤ) : Except Err (RateField × RateField) := do
  let s ← gridSpacing xs
  .ok (displacementOf u interval s, displacementOf v interval s)

/-- pysteps_advection.py:108-121: the reference time and period added to the analysis. -/
def analysisForecast (c : NowcastCube) (data : RateField) : RateForecast :=
  ⟨c.time, c.timeBounds, c.frt.getD c.time, c.period.getD 0, data⟩

/-- pysteps_advection.py:134-161 `_set_up_output_cubes`: the analysis, then each forecast with its time and period; other
coordinates and the bounds of time are those of the analysis. -/
def outputCubes (interval : ℤ) (a : RateForecast) (fields : List RateField) : List RateForecast :=
  a :: fields.mapIdx fun i f =>
    ⟨a.time + (i + 1) * interval * 60, a.timeBounds, a.frt, (i + 1) * interval * 60, f⟩

/-- pysteps_advection.py:190-195: original units (`fac` turns mm/h into them), then enhancement. -/
def finishForecast (thr fac : ℚ) (oe : List (ℤ × (ℕ → ℕ → ℚ))) (f : RateForecast) : Except Err RateForecast := do
  let d ← oeField "add" thr oe f.time fun y x => (f.data y x).map (· * fac)
  .ok ⟨f.time, f.timeBounds, f.frt, f.period, d⟩

/-- pysteps_advection.py:27-264 `PystepsExtrapolate`: interval and greatest lead time in minutes; `thr` is 1/32 mm/h in the
units of the analysis and `extrap` the extrapolation of pysteps (field, displacements, number of steps).  Attributes are not
modelled. -/
def pystepsNowcast (thr : ℚ) (extrap : RateField → RateField → RateField → ℕ → List RateField) (interval maxLead : ℤ)
    (c : NowcastCube) (u v : RateField) (oe : List (ℤ × (ℕ → ℕ → ℚ))) : Except Err (List RateForecast) :=
  if interval = 0 then .error .zeroDivision
  else if !subStr "rate" c.name then .error .valueError
  else do
    checkEqualArea c.xs c.ys true
    let base ← oeField "subtract" thr oe c.time c.data
    let rate : RateField := fun y x => (base y x).map (· * c.scale)
    let d ← displacementArray c.xs u v interval
    let fields := extrap rate d.1 d.2 (maxLead / interval).toNat
    (outputCubes interval (analysisForecast c rate) fields).mapM (finishForecast thr (1 / c.scale) oe)

/-! ## build_spotdata_cube.py -/

/-- A coordinate given to the cube: name, and the shape of its points. -/
structure ShapedCoord where
  name : String
  shape : List ℕ
deriving DecidableEq

/-- The cube: shape of its data, dimension coordinates by dimension, other coordinates with their dimensions. -/
structure SpotCube where
  shape : List ℕ
  dimCoords : List (ShapedCoord × ℕ)
  auxCoords : List (ShapedCoord × Option ℕ)
deriving DecidableEq

/-- iris: a coordinate fits a dimension (or none: one value). -/
def coordFits (shape : List ℕ) (c : ShapedCoord) : Option ℕ → Bool
  | none => decide (c.shape = [1])
  | some d => decide (∃ n, shape[d]? = some n ∧ c.shape = [n])

/-- The arguments of `build_spotdata_cube`: lengths of the site values, other coordinates. -/
structure SpotArgs where
  altitude : ℕ
  latitude : ℕ
  longitude : ℕ
  wmoId : ℕ
  uniqueId : Option ℕ
  uniqueKey : String
  scalars : List ShapedCoord
  auxiliary : List ShapedCoord
  methods : Option ℕ
  gridAttributes : Option ℕ
  additional : Option (List ShapedCoord)
  additionalAux : List (List ShapedCoord)
deriving DecidableEq

/-- build_spotdata_cube.py:129-166: leading dimensions, with the auxiliary coordinates of each. -/
def leadingDims (a : SpotArgs) : List (ShapedCoord × List ShapedCoord) :=
  (match a.methods with
    | none => []
    | some n => [(⟨"neighbour_selection_method", [n]⟩, [⟨"neighbour_selection_method_name", [n]⟩])]) ++
  (match a.gridAttributes with
    | none => []
    | some n => [(⟨"grid_attributes", [n]⟩, [⟨"grid_attributes_key", [n]⟩])]) ++
  (match a.additional with
    | none => []
    | some l => l.zip (if a.additionalAux = [] then l.map fun _ => [] else a.additionalAux))

/-- build_spotdata_cube.py:169-178: the coordinates of the sites. -/
def siteCoords (a : SpotArgs) : List ShapedCoord :=
  [⟨"altitude", [a.altitude]⟩, ⟨"latitude", [a.latitude]⟩, ⟨"longitude", [a.longitude]⟩, ⟨"wmo_id", [a.wmoId]⟩] ++
  (match a.uniqueId with
    | none => []
    | some n => [⟨a.uniqueKey, [n]⟩]) ++ a.auxiliary

/-- build_spotdata_cube.py:18-191: `shape` is that of the data, `[]` for a number.  Whether two coordinates are the same
is not looked at. -/
def buildSpotCube (shape : List ℕ) (a : SpotArgs) : Except Err SpotCube :=
  if a.uniqueId.isSome ∧ a.uniqueKey = "" then .error .valueError
  else
    let shape := if shape = [] then [1] else shape
    let lead := leadingDims a
    let k := lead.length
    let dims := lead.mapIdx (fun i p => (p.1, i)) ++ [(⟨"spot_index", [shape.getLastD 0]⟩, k)]
    let aux := a.scalars.map (fun c => (c, none)) ++
      (lead.mapIdx fun i p => p.2.map fun c => (c, some i)).flatten ++ (siteCoords a).map fun c => (c, some k)
    if (dims.all fun p => coordFits shape p.1 (some p.2)) && aux.all fun p => coordFits shape p.1 p.2 then
      .ok ⟨shape, dims, aux⟩
    else .error .valueError

/-! ## standardise.py -/

/-- A cube with named axes: the name and size of each axis, coordinates with the axes they span and whether each is a
dimension coordinate, and data by position along the axes (`none` = NaN). -/
structure AxisCoord where
  coord : StdCoord
  spans : List String
  isDim : Bool
deriving DecidableEq

/-- See `AxisCoord`. -/
structure AxisCube where
  axes : List (String × ℕ)
  coords : List AxisCoord
  data : (String → ℕ) → Option ℚ

/-- The status flag: are its attributes as expected, is any value masked, the axes it spans, its values. -/
structure StatusFlag where
  expected : Bool
  masked : Bool
  spans : List String
  value : (String → ℕ) → ℚ

/-- The data with flagged values missing. -/
def flagData (f : StatusFlag) (data : (String → ℕ) → Option ℚ) : (String → ℕ) → Option ℚ :=
  fun i => if f.value i ≠ 0 then none else data i

/-- standardise.py:109: `merge_cube` of the slices over realization: the new dimension is the first; one slice gives no
dimension. -/
def mergeAxes (axes : List (String × ℕ)) : List (String × ℕ) :=
  axes.filter (fun a => decide (a.1 = "realization" ∧ a.2 ≠ 1)) ++ axes.filter fun a => decide (a.1 ≠ "realization")

/-- After the merge of one slice realization is no dimension coordinate. -/
def scalarRealization (axes : List (String × ℕ)) (c : AxisCoord) : AxisCoord :=
  if ("realization", 1) ∈ axes ∧ "realization" ∈ c.spans then ⟨c.coord, c.spans.filter (· ≠ "realization"), false⟩ else c

/-- standardise.py:71-110 `_rm_air_temperature_status_flag`.  The flag must span all axes but realization (numpy also takes
leading axes only). -/
def removeStatusFlag (flag : Option StatusFlag) (c : AxisCube) : Except Err AxisCube :=
  match flag with
  | none => .ok c
  | some f =>
    if !f.expected then .error .valueError
    else if f.masked then .error .valueError
    else if f.spans.filter (· ≠ "realization") ≠ (c.axes.map Prod.fst).filter (· ≠ "realization") then .error .indexError
    else .ok ⟨mergeAxes c.axes, c.coords.map (scalarRealization c.axes), flagData f c.data⟩

/-- standardise.py:125-127: an axis whose dimension coordinate has one point and no "realization" in its name. -/
def collapsible (c : AxisCube) (a : String) : Bool :=
  c.coords.any fun x => x.isDim && decide (x.spans = [a]) && decide (x.coord.points.length = 1) && !subStr "realization" x.coord.name

/-- A coordinate of a slice at the first place along an axis. -/
def collapseCoord (gone : String → Bool) (x : AxisCoord) : AxisCoord :=
  if x.spans.any gone then ⟨x.coord, x.spans.filter fun a => !gone a, false⟩ else x

/-- standardise.py:113-130 `_collapse_scalar_dimensions` (slices are at place 0). -/
def collapseScalars (c : AxisCube) : AxisCube :=
  ⟨c.axes.filter fun a => !collapsible c a.1, c.coords.map (collapseCoord (collapsible c)),
    fun i => c.data fun a => if collapsible c a then 0 else i a⟩

/-- standardise.py:132-139 `_remove_scalar_coords`: one name; more than one coordinate of the name is the same error as
none. -/
def removeCoordNamed (coords : List AxisCoord) (name : String) : List AxisCoord :=
  if (coords.filter fun x => decide (x.coord.name = name)).length = 1 then coords.filter fun x => decide (x.coord.name ≠ name)
  else coords

/-- A new value for a coordinate: a number or a list. -/
inductive NewValue where
  | number (v : ℚ)
  | list (l : List ℚ)

/-- The coordinate with other points: the bounds stay. -/
def withPoints (l : List ℚ) (x : AxisCoord) : AxisCoord :=
  ⟨⟨x.coord.name, x.coord.dtype, l, x.coord.bounds, x.coord.unit⟩, x.spans, x.isDim⟩

/-- standardise.py:164-179 for one coordinate (names are those of one coordinate at most): new points must have the shape of the
old, and `np.array([value])` of a list has two dimensions. -/
def modifyCoord (coords : List AxisCoord) (m : String × NewValue) : Except Err (List AxisCoord) :=
  match coords.find? fun x => decide (x.coord.name = m.1) with
  | none => .ok coords
  | some x =>
    if x.isDim then .error .valueError
    else match m.2 with
      | .list _ => .error .valueError
      | .number v =>
        if (timeSpec m.1).isSome then .error .valueError
        else if x.coord.points.length ≠ 1 then .error .valueError
        else .ok (coords.map fun y => if y.coord.name = m.1 then withPoints [v] y else y)

/-- standardise.py:223-239 `_discard_redundant_cell_methods`: method, coordinates, intervals and comments of each. -/
def discardMethods (l : List (String × List String × List String × List String)) :
    List (String × List String × List String × List String) :=
  l.filter fun m => decide (m ≠ ("point", ["time"], [], []))

end Improver
