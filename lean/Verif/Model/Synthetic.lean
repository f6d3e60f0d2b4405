import Verif.Model.Sorting
import Verif.Model.Standards
import Verif.Model.Rename

/-!
Model of the making of synthetic cubes: improver/synthetic_data/set_up_test_cubes.py (gridded variable, percentile and probability cubes) and improver/synthetic_data/generate_metadata.py,
with improver/synthetic_data/utilities.py.  Not modelled: bounds of the spatial coordinates, coordinate systems, data types (so not `check_mandatory_standards` either), further scalar coordinates
given by the caller, `standard_grid_metadata`, cubes for spots, grids without points.  Times are in seconds since 1970.
-/

namespace Improver

/-- A coordinate with its points, units, attributes, and whether its variable name is "threshold". -/
structure SynthDim where
  name : String
  points : List ℚ
  unit : String
  attrs : List (String × String)
  threshold : Bool
  deriving DecidableEq

/-- A scalar time coordinate. -/
structure SynthTime where
  name : String
  point : ℤ
  bounds : Option (ℤ × ℤ)
  deriving DecidableEq

/-- A synthetic cube. -/
structure SynthCube where
  name : String
  unit : String
  attrs : List (String × String)
  dims : List SynthDim
  scalars : List SynthDim
  times : List SynthTime
  data : List ℕ → ℚ

/-- improver/grids.py:25-40 `GRID_COORD_ATTRIBUTES`: names of y and x, units and default grid spacing. -/
def gridNames (grid : String) : Option (String × String × String × ℚ) :=
  if grid = "latlon" then some ("latitude", "longitude", "degrees", 10)
  else if grid = "equalarea" then some ("projection_y_coordinate", "projection_x_coordinate", "metres", 2000)
  else none

/-- iris wants the points of a dimension coordinate to ascend or to descend. -/
def strictOrder (l : List ℚ) : Bool := decide (l.Pairwise (· < ·)) || decide (l.Pairwise (· > ·))

/-- `DimCoord(points, name, units=…, attributes=…)`. -/
def dimCoord (name : String) (points : List ℚ) (unit : String) (attrs : List (String × String)) : Except Err SynthDim :=
  if strictOrder points = true then .ok ⟨name, points, unit, attrs, false⟩ else .error .valueError

/-- set_up_test_cubes.py:108-155 `_create_yx_arrays` and `_set_domain_corner`, for one of the two axes. -/
def gridPoints (n : ℕ) (spacing : ℚ) (corner : Option ℚ) : List ℚ :=
  let start := corner.getD (0 - (((n : ℚ) - 1) * spacing) / 2)
  npLinspace start (start + spacing * ((n : ℚ) - 1)) n

/-- set_up_test_cubes.py:37-105 `construct_yx_coords`. -/
def constructYX (ypoints xpoints : ℕ) (grid : String) (dx dy : Option ℚ) (corner : Option (ℚ × ℚ)) : Except Err (SynthDim × SynthDim) :=
  match gridNames grid with
  | none => .error .valueError
  | some g => do
    let y ← dimCoord g.1 (gridPoints ypoints (dy.getD g.2.2.2) (corner.map Prod.fst)) g.2.2.1 []
    let x ← dimCoord g.2.1 (gridPoints xpoints (dx.getD g.2.2.2) (corner.map Prod.snd)) g.2.2.1 []
    return (y, x)

/-- set_up_test_cubes.py:199-215. -/
def refTime : Option ℚ → Option ℚ → Except Err ℚ
  | some f, some b => if b ≠ f then .error .valueError else .ok f
  | some f, none => .ok f
  | none, some b => .ok b
  | none, none => .error .valueError

/-- set_up_test_cubes.py:224-240. -/
def synthBounds (time : ℤ) : Option (ℚ × ℚ) → Except Err (Option (ℤ × ℤ))
  | none => .ok none
  | some b =>
    if time < min (rintQ b.1) (rintQ b.2) ∨ max (rintQ b.1) (rintQ b.2) < time then .error .valueError
    else .ok (some (min (rintQ b.1) (rintQ b.2), max (rintQ b.1) (rintQ b.2)))

/-- set_up_test_cubes.py:173-266 `construct_scalar_time_coords` (with :158-170 `_create_time_point`). -/
def scalarTimes (time : ℚ) (bounds : Option (ℚ × ℚ)) (frt blend : Option ℚ) : Except Err (List SynthTime) := do
  let ref ← refTime frt blend
  if rintQ time < rintQ ref then .error .valueError
  else
    let b ← synthBounds (rintQ time) bounds
    return ⟨"time", rintQ time, b⟩ :: ((frt.map fun f => (⟨"forecast_reference_time", rintQ f, none⟩ : SynthTime)).toList ++
      (blend.map fun f => (⟨"blend_time", rintQ f, none⟩ : SynthTime)).toList ++
      [⟨"forecast_period", rintQ time - rintQ ref, b.map fun p => (p.1 - rintQ ref, p.2 - rintQ ref)⟩])

/-- set_up_test_cubes.py:269-300 `_create_dimension_coord`. -/
def leadingCoord (arr : Option (List ℚ)) (n : ℕ) (name unit : String) (attrs : List (String × String)) : Except Err SynthDim :=
  match arr with
  | some l => if l.length ≠ n then .error .valueError else dimCoord name l unit attrs
  | none => dimCoord name ((List.range n).map fun k : ℕ => (k : ℚ)) unit attrs

/-- set_up_test_cubes.py:351-361. -/
def realizationDims (shape : List ℕ) (ns : ℕ) (realizations heights : Option (List ℚ)) : Except Err (List SynthDim) :=
  if shape.length = ns + 2 ∨ (heights = none ∧ shape.length = ns + 1) then
    (leadingCoord realizations (shape.getD 0 0) "realization" "1" []).map fun d => [d]
  else .ok []

/-- set_up_test_cubes.py:368-382 (:30-34 for the attributes). -/
def levelCoord (pressure : Bool) (h : List ℚ) (n : ℕ) : Except Err SynthDim :=
  match pressure with
  | true => leadingCoord (some h) n "pressure" "Pa" [("positive", "down")]
  | false => leadingCoord (some h) n "height" "m" [("positive", "up")]

/-- set_up_test_cubes.py:363-383 (`i` dimensions come before). -/
def heightDims (shape : List ℕ) (ns i : ℕ) (heights : Option (List ℚ)) (pressure : Bool) : Except Err (List SynthDim) :=
  match heights with
  | none => .ok []
  | some h =>
    if ns + 1 ≤ shape.length then
      (levelCoord pressure h (shape.getD i 0)).map fun d => [d]
    else .ok []

/-- set_up_test_cubes.py:303-391 `_construct_dimension_coords`. -/
def constructDims (shape : List ℕ) (spatial : List SynthDim) (realizations heights : Option (List ℚ)) (pressure : Bool) : Except Err (List SynthDim) :=
  if ¬ (spatial.length ≤ shape.length ∧ shape.length ≤ spatial.length + 2) then .error .valueError
  else if realizations ≠ none ∧ heights ≠ none ∧ shape.length ≠ spatial.length + 2 then .error .valueError
  else if heights = none ∧ spatial.length + 1 < shape.length then .error .valueError
  else do
    let lead ← realizationDims shape spatial.length realizations heights
    let hs ← heightDims shape spatial.length lead.length heights pressure
    return lead ++ hs ++ spatial

/-- The further arguments of the functions that set up cubes, with their defaults where the caller gives none. -/
structure SynthOpts where
  grid : String
  dx : Option ℚ
  dy : Option ℚ
  corner : Option (ℚ × ℚ)
  heights : Option (List ℚ)
  pressure : Bool
  time : ℚ
  bounds : Option (ℚ × ℚ)
  frt : Option ℚ
  blend : Option ℚ
  attrs : List (String × String)

/-- set_up_test_cubes.py:651-652: 2017-11-10 00:00. -/
def defaultFrt (frt blend : Option ℚ) : Option ℚ := if frt = none ∧ blend = none then some 1510272000 else frt

/-- set_up_test_cubes.py:532-677 `set_up_variable_cube`, `_yx_for_grid` (:394-408) and `_variable_cube`. -/
def setUpVariable (shape : List ℕ) (data : List ℕ → ℚ) (name unit : String) (realizations : Option (List ℚ)) (o : SynthOpts) : Except Err SynthCube :=
  if shape.length < 2 then .error .indexError
  else do
    let yx ← constructYX (shape.getD (shape.length - 2) 0) (shape.getD (shape.length - 1) 0) o.grid o.dx o.dy o.corner
    let dims ← constructDims shape [yx.1, yx.2] realizations o.heights o.pressure
    let times ← scalarTimes o.time o.bounds (defaultFrt o.frt o.blend) o.blend
    return ⟨name, unit, o.attrs, dims, [], times, data⟩

/-- `cube.coord("realization").rename(…)` and the changes that follow; the coordinate, if there is one, is the first dimension. -/
def renameLead (c : SynthCube) (name unit : String) (attrs : List (String × String)) (threshold : Bool) : Except Err SynthCube :=
  match c.dims with
  | d :: rest => if d.name = "realization" then .ok ⟨c.name, c.unit, c.attrs, ⟨name, d.points, unit, attrs, threshold⟩ :: rest, c.scalars, c.times, c.data⟩ else .error .coordinateNotFound
  | [] => .error .coordinateNotFound

/-- `next(cube.slices_over(…))` over the first dimension. -/
def firstSlice (c : SynthCube) : SynthCube :=
  ⟨c.name, c.unit, c.attrs, c.dims.tail, c.scalars ++ c.dims.take 1, c.times, fun idx => c.data (0 :: idx)⟩

/-- set_up_test_cubes.py:731-732, :825-826: `len` of nothing is a TypeError. -/
def sliceIfOne (lead : Option (List ℚ)) (c : SynthCube) : Except Err SynthCube :=
  match lead with
  | none => .error .typeError
  | some l => .ok (if l.length = 1 then firstSlice c else c)

/-- set_up_test_cubes.py:693-733 `set_up_percentile_cube`. -/
def setUpPercentile (shape : List ℕ) (data : List ℕ → ℚ) (name unit : String) (percentiles : Option (List ℚ)) (o : SynthOpts) : Except Err SynthCube := do
  let c ← setUpVariable shape data name unit percentiles o
  let c ← renameLead c "percentile" "%" [] false
  sliceIfOne percentiles c

/-- set_up_test_cubes.py:804-817. -/
def probCubeName (relative diag : String) : Except Err String :=
  if relative ∈ ["above", "greater_than", "greater_than_or_equal_to"] then .ok ("probability_of_" ++ diag ++ "_above_threshold")
  else if relative ∈ ["below", "less_than", "less_than_or_equal_to"] then .ok ("probability_of_" ++ diag ++ "_below_threshold")
  else .error .valueError

/-- set_up_test_cubes.py:820. -/
def plainThreshold (diag : String) : String := String.ofList (replaceText "_in_vicinity".toList [] diag.toList)

/-- set_up_test_cubes.py:749-827 `set_up_probability_cube`. -/
def setUpProbability (shape : List ℕ) (data : List ℕ → ℚ) (diag unit relative : String) (thresholds : Option (List ℚ)) (o : SynthOpts) : Except Err SynthCube := do
  let name ← probCubeName relative diag
  let c ← setUpVariable shape data name "1" thresholds o
  let c ← renameLead c (plainThreshold diag) unit [("spp__relative_to_threshold", relative)] true
  sliceIfOne thresholds c

/-- The index in the cube before `squeeze`, of an index after it. -/
def unsqueezed : List SynthDim → List ℕ → List ℕ
  | [], _ => []
  | d :: ds, idx => if d.points.length = 1 then 0 :: unsqueezed ds idx else idx.headD 0 :: unsqueezed ds idx.tail

/-- `iris.util.squeeze`. -/
def squeezeCube (c : SynthCube) : SynthCube :=
  ⟨c.name, c.unit, c.attrs, c.dims.filter fun d => decide (d.points.length ≠ 1), c.scalars ++ c.dims.filter fun d => decide (d.points.length = 1), c.times,
    fun idx => c.data (unsqueezed c.dims idx)⟩

/-- The arguments of `generate_metadata`. -/
structure MetaArgs where
  mandatory : List (String × String)
  name : String
  unit : Option String
  period : Option ℚ
  members : ℕ
  leading : Option (List ℚ)
  cubeType : String
  relative : String
  npoints : ℕ
  grid : Option String
  dx : Option ℚ
  dy : Option ℚ
  corner : Option (List ℚ)
  heights : Option (List ℚ)
  pressure : Bool
  time : Option ℚ
  bounds : Option (ℚ × ℚ)
  frt : Option ℚ
  blend : Option ℚ
  attrs : List (String × String)

/-- generate_metadata.py:48-75 `_create_data_array`: the shape. -/
def synthShape (members : ℕ) (leading : Option (List ℚ)) (npoints : ℕ) (heights : Option (List ℚ)) : List ℕ :=
  (if 1 < (leading.map List.length).getD members then [(leading.map List.length).getD members] else []) ++ (heights.map List.length).toList ++ [npoints, npoints]

/-- generate_metadata.py:29-36 `_get_units`, when no units are given. -/
def metaUnit (canonical : String → Option String) (a : MetaArgs) : Except Err String :=
  match a.unit, canonical a.name with
  | some u, _ => .ok u
  | none, some u => .ok u
  | none, none => .error .valueError

/-- `dict.update`; the order of the keys is not modelled. -/
def updateDict (old new : List (String × String)) : List (String × String) := new ++ old.filter fun p => decide (p.1 ∉ new.map Prod.fst)

/-- generate_metadata.py:23: the default grid spacing. -/
def metaSpacing (grid : String) : ℚ := if grid = "latlon" then 1 / 50 else 2000

/-- generate_metadata.py:160-192: the further arguments passed on (2017-11-10 04:00 is the default time, also of set_up_test_cubes.py:605). -/
def metaOpts (a : MetaArgs) : SynthOpts :=
  ⟨a.grid.getD "latlon", some (a.dx.getD (metaSpacing (a.grid.getD "latlon"))), some (a.dy.getD (metaSpacing (a.grid.getD "latlon"))),
    a.corner.map fun l => (l.getD 0 0, l.getD 1 0), a.heights, a.pressure, a.time.getD 1510286400,
    match a.period with
    | some p => some (a.time.getD 1510286400 - 60 * p, a.time.getD 1510286400)
    | none => a.bounds,
    a.frt, a.blend, updateDict a.attrs a.mandatory⟩

/-- generate_metadata.py:194-211. -/
def metaCube (a : MetaArgs) (unit : String) : Except Err SynthCube :=
  if a.cubeType = "percentile" then
    setUpPercentile (synthShape a.members a.leading a.npoints a.heights) (fun _ => 0) a.name unit a.leading (metaOpts a)
  else if a.cubeType = "probability" then
    setUpProbability (synthShape a.members a.leading a.npoints a.heights) (fun _ => 0) a.name unit a.relative a.leading (metaOpts a)
  else setUpVariable (synthShape a.members a.leading a.npoints a.heights) (fun _ => 0) a.name unit a.leading (metaOpts a)

/-- generate_metadata.py:78-215 `generate_metadata`; `canonical` gives the units of standard names. -/
def generateMetadata (canonical : String → Option String) (a : MetaArgs) : Except Err SynthCube :=
  if a.cubeType ∉ ["variable", "percentile", "probability"] then .error .valueError
  else if (a.grid.map fun g => decide (g ∉ ["latlon", "equalarea"])) = some true then .error .valueError
  else if (a.corner.map fun l => decide (l.length ≠ 2)) = some true then .error .valueError
  else do
    let unit ← metaUnit canonical a
    if ¬ ∀ k ∈ ["title", "source", "institution"], k ∈ a.mandatory.map Prod.fst then .error .keyError
    else (metaCube a unit).map squeezeCube

/-- synthetic_data/utilities.py:20-53 `get_leading_dimension`: the entries present in the coordinates given. -/
def leadingOf (realizations percentiles thresholds : Option (List ℚ)) : Except Err (Option (List ℚ) × String) :=
  match realizations, percentiles, thresholds with
  | r, none, none => .ok (r, "variable")
  | none, some p, none => .ok (some p, "percentile")
  | none, none, some t => .ok (some t, "probability")
  | _, _, _ => .error .valueError

/-- synthetic_data/utilities.py:56-78 `get_height_levels`. -/
def heightsOf (heights pressures : Option (List ℚ)) : Option (List ℚ) × Bool :=
  match heights, pressures with
  | some h, _ => (some h, false)
  | none, some p => (some p, true)
  | none, none => (none, false)

end Improver
