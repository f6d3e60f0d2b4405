import Verif.Model.Rename
import Verif.Model.Amend

/-!
Model of improver/developer_tools/metadata_interpreter.py and of improver/cli/interpret_metadata.py.

A new interpreter is used for each cube.  The coordinates of a cube have different names.  The texts of errors and warnings
are not modelled: errors are told apart by kind, and warnings are left out.  Names have no characters that mean something in
regular expressions.
-/

namespace Improver

/-- A coordinate: name, variable name and threshold attribute, units, points, upper bounds, dimensions. -/
structure MiCoord extends NamedCoord where
  units : String
  points : List ℚ
  upper : Option (List ℚ)
  dims : List ℕ
deriving DecidableEq

/-- A cube: `horizontal` are the dimensions of its x and y coordinates, `standards` is whether `check_mandatory_standards`
accepts it (Model/Standards.lean). -/
structure MiCube where
  name : String
  units : String
  coords : List MiCoord
  methods : List CellMethod
  attrs : List (String × Text)
  horizontal : List ℕ
  standards : Bool

/-- What is wrong with a cube. -/
inductive MiErr where
  | units | name | threshold | varName | noRelative | relative | relativeName
  | accumulation | comment | timeBounds | nonStandardMethod | unexpectedMethods
  | percentileName | percentileUnits
  | forbidden | required | mandatory | blendModels | blendRuns | unknownCode | titleModel | unknownModel
  | spotTitle | coordsMissing | notHorizontal | points | dataTypes | realizations
deriving DecidableEq

/-- The kind of data. -/
inductive MiKind where
  | ancillary | weatherCode | windDirection | unhandled | probability | percentile | realizations
deriving DecidableEq

/-- `part in name` for strings. -/
def inName (part name : String) : Bool := hasPart part.toList name.toList

/-- metadata_interpreter.py:27-34. -/
def modelCodes : List (String × String) :=
  [("Nowcast", "nc_det"), ("Global", "gl_det"), ("MOGREPS-G", "gl_ens"), ("MOGREPS-UK", "uk_ens"), ("UKV", "uk_det")]

/-- `MODEL_NAMES[code]`. -/
def modelName (code : Text) : Option String := (modelCodes.find? fun e => decide (e.2.toList = code)).map Prod.fst

/-- metadata_interpreter.py:37-49. -/
def ancillaryNames : List String :=
  ["surface_altitude", "land_fraction", "land_binary_mask", "grid_with_halo", "topographic_zone_weights", "topography_mask",
   "silhouette_roughness", "standard_deviation_of_height_in_grid_cell", "smoothing_coefficient_x", "smoothing_coefficient_y",
   "linke_turbidity"]

/-- metadata_interpreter.py:50-60. -/
def intermediateNames : List String :=
  ["grid_neighbours", "grid_eastward_wind", "grid_northward_wind", "precipitation_advection_x_velocity",
   "precipitation_advection_y_velocity", "reliability_calibration_table", "emos_coefficient_alpha", "emos_coefficient_beta",
   "emos_coefficient_gamma", "emos_coefficient_delta"]

/-- metadata_interpreter.py:65-67. -/
def spotCoordNames : List String := ["spot_index", "latitude", "longitude", "altitude", "wmo_id"]
def unblendedTimes : List String := ["time", "forecast_period", "forecast_reference_time"]
def blendedTimes : List String := ["time", "blend_time"]

/-- metadata_interpreter.py:70-77, 79-84, 91-109. -/
def nonStandardMeans : List CellMethod :=
  ["forecast_reference_time", "model_id", "model_configuration", "realization"].map fun c => ⟨"mean", [c], [], []⟩
def nonStandardMethodNames : List String := ["point", "weighted_mean"]
def standardMethodNames : List String := ["min", "max", "minimum", "maximum", "sum"]
def accumulationNames : List String :=
  ["lwe_thickness_of_precipitation_amount", "lwe_thickness_of_sleetfall_amount", "lwe_thickness_of_snowfall_amount",
   "thickness_of_rainfall_amount"]
def forbiddenAttrs : List String :=
  ["mosg__grid_type", "mosg__grid_domain", "mosg__grid_version", "mosg__forecast_run_duration", "grid_id",
   "source_realizations", "um_version"]
def mandatoryAttrs : List String := ["title", "source", "institution"]

/-- metadata_interpreter.py:100-103 `DIAG_ATTRS`. -/
def requiredAttrs (diagnostic : Text) : List String :=
  if diagnostic = "weather_code".toList then ["weather_code", "weather_code_meaning"]
  else if diagnostic = "wind_gust".toList then ["wind_gust_diagnostic"]
  else []

/-- `cube.attributes.get(key)`. -/
def MiCube.attr (c : MiCube) (key : String) : Option Text := (c.attrs.find? fun e => decide (e.1 = key)).map Prod.snd

/-- `cube.coord(name)` when there is one. -/
def MiCube.coord (c : MiCube) (name : String) : Option MiCoord := c.coords.find? fun x => decide (x.name = name)

/-- metadata_interpreter.py:193-234 `check_threshold_coordinate_properties`. -/
def thresholdErrors (name : String) (t : MiCoord) : List MiErr :=
  (if t.varName = some "threshold" then [] else [.varName]) ++
  (match t.relative with
   | none => [.noRelative]
   | some r =>
     if r = "greater_than" ∨ r = "greater_than_or_equal_to" then (if inName "above" name then [] else [.relativeName])
     else if r = "less_than" ∨ r = "less_than_or_equal_to" then (if inName "below" name then [] else [.relativeName])
     else if r = "between_thresholds" then (if inName "between" name then [] else [.relativeName])
     else [.relative])

/-- metadata_interpreter.py:171-191: a threshold coordinate of another name is only looked at when there is none of the
expected one. -/
def thresholdNameErrors (c : MiCube) (expected : Text) : List MiErr :=
  match c.coord (String.ofList expected) with
  | some t => thresholdErrors c.name t
  | none =>
    match findThreshold (c.coords.map MiCoord.toNamedCoord) with
    | .error _ => [.threshold]
    | .ok t => .threshold :: (match c.coord t.name with
      | some t => thresholdErrors c.name t
      | none => [])

/-- metadata_interpreter.py:155-191 `check_probability_cube_metadata`: errors and diagnostic. -/
def probabilityErrors (c : MiCube) (before : Option Text) : List MiErr × Option Text :=
  let units := if c.units = "1" then [] else [MiErr.units]
  match extractDiag false c.name.toList with
  | .error _ => (units ++ [.name], before)
  | .ok d => (units ++ thresholdNameErrors c d, some d)

/-- metadata_interpreter.py:256-267: the comment on a cell method; `diagnostic` only for probabilities. -/
def commentErrors (diagnostic : Option Text) (m : CellMethod) : List MiErr :=
  match diagnostic with
  | none => []
  | some d => match m.comments with
    | [] => [MiErr.comment]
    | x :: _ => if startsWith ("of ".toList ++ d) x then [] else [.comment]

/-- metadata_interpreter.py:253-280: one cell method. -/
def methodErrors (c : MiCube) (diagnostic : Option Text) (m : CellMethod) : Except Err (List MiErr) :=
  if m.method ∈ standardMethodNames then
    if m.coords = [] then .error .indexError
    else
      if "time" ∈ m.coords then
        match c.coord "time" with
        | none => .error .coordinateNotFound
        | some t => .ok (commentErrors diagnostic m ++ if t.upper = none then [.timeBounds] else [])
      else .ok (commentErrors diagnostic m)
  else if m ∈ nonStandardMeans ∨ m.method ∈ nonStandardMethodNames then .ok [.nonStandardMethod]
  else .ok []

/-- metadata_interpreter.py:236-280 `check_cell_methods`. -/
def methodsErrors (c : MiCube) (diagnostic : Option Text) : Except Err (List MiErr) := do
  let accumulation := if (accumulationNames.any fun n => inName n c.name) &&
      !(c.methods.any fun m => decide (m.method = "sum" ∧ m.coords = ["time"])) then [MiErr.accumulation] else []
  let each ← c.methods.mapM (methodErrors c diagnostic)
  .ok (accumulation ++ each.flatten)

/-- metadata_interpreter.py:299-305: model codes with their cycles. -/
def cycleItem (item : Text) : Except Err (Text × Text) :=
  match (splitAt ':' item).dropLast with
  | [k, v] => .ok (k, v)
  | _ => .error .valueError

/-- metadata_interpreter.py:307-315: one model code; a known one needs a cycle (the last given counts). -/
def codeErrors (cycles : List (Text × Text)) (code : Text) : Except Err (List MiErr) :=
  match modelName code with
  | none => .ok [.unknownCode]
  | some _ => if code ∈ cycles.map Prod.fst then .ok [] else .error .keyError

/-- metadata_interpreter.py:287-318: a blend. -/
def blendErrors (c : MiCube) : Except Err (List MiErr) :=
  match c.attr "mosg__model_configuration", c.attr "mosg__model_run" with
  | some ids, some runs => do
    let cycles ← (splitAt '\n' runs).mapM cycleItem
    let each ← (splitAt ' ' ids).mapM (codeErrors cycles)
    .ok each.flatten
  | some _, none => .ok [.blendRuns]
  | none, some _ => .ok [.blendModels]
  | none, none => .ok [.blendModels, .blendRuns]

/-- metadata_interpreter.py:320-338: a single model. -/
def singleErrors (title : Text) (id : Option Text) : List MiErr :=
  match id with
  | none => []
  | some id =>
    (modelCodes.filterMap fun e =>
      if hasPart (e.1 ++ " Model").toList title ∧ id ≠ e.2.toList then some MiErr.titleModel else none) ++
    (match modelName id with
     | none => [.unknownModel]
     | some _ => [])

/-- metadata_interpreter.py:112, 285. -/
def isBlendTitle (title : Text) : Bool := hasPart "IMPROVER Post-Processed Multi-Model Blend".toList title

/-- metadata_interpreter.py:340-383 `check_attributes`. -/
def attributeErrors (c : MiCube) (kind : MiKind) (diagnostic : Option Text) : Except Err (List MiErr) := do
  let keys := c.attrs.map Prod.fst
  let forbidden := if keys.any fun k => decide (k ∈ forbiddenAttrs) then [MiErr.forbidden] else []
  let required := if (requiredAttrs (diagnostic.getD [])).all fun k => decide (k ∈ keys) then [] else [MiErr.required]
  if kind = .ancillary then .ok (forbidden ++ required)
  else
    let mandatory := if mandatoryAttrs.all fun k => decide (k ∈ keys) then [] else [MiErr.mandatory]
    match c.attr "title" with
    | none => .ok (forbidden ++ required ++ mandatory)
    | some title =>
      if isBlendTitle title then do
        let b ← blendErrors c
        .ok (forbidden ++ required ++ mandatory ++ b)
      else .ok (forbidden ++ required ++ mandatory ++ singleErrors title (c.attr "mosg__model_configuration"))

/-- metadata_interpreter.py:285; None for ancillaries and without title. -/
def isBlended (c : MiCube) (kind : MiKind) : Bool :=
  if kind = .ancillary then false
  else match c.attr "title" with
    | none => false
    | some title => isBlendTitle title

/-- metadata_interpreter.py:385-394 `_check_coords_present`. -/
def presentErrors (c : MiCube) (expected : List String) : List MiErr :=
  if expected.all fun n => decide (n ∈ c.coords.map fun x => x.name) then [] else [.coordsMissing]

/-- metadata_interpreter.py:396-409 `_check_coords_are_horizontal`: dimensions are compared as sets. -/
def horizontalErrors (c : MiCube) (name : String) : List MiErr :=
  match c.coord name with
  | none => []
  | some x => if x.dims.all (fun d => decide (d ∈ c.horizontal)) && c.horizontal.all (fun d => decide (d ∈ x.dims)) then []
    else [.notHorizontal]

/-- metadata_interpreter.py:418-429 `check_spot_data`. -/
def spotErrors (c : MiCube) : List MiErr :=
  if c.coords.any fun x => decide (x.name = "spot_index") then
    (match c.attr "title" with
     | none => []
     | some title => if hasPart "Spot Values".toList title then [] else [.spotTitle]) ++
    presentErrors c spotCoordNames ++ spotCoordNames.flatMap (horizontalErrors c)
  else []

/-- metadata_interpreter.py:411-416 `_check_coord_bounds`. -/
def boundErrors (c : MiCube) (name : String) : List MiErr :=
  match c.coord name with
  | none => []
  | some x => match x.upper with
    | none => []
    | some u => if x.points = u then [] else [.points]

/-- metadata_interpreter.py:540-551. -/
def realizationErrors (c : MiCube) (kind : MiKind) : List MiErr :=
  if kind = .realizations then
    match c.coord "realization" with
    | none => []
    | some r => if !(hasPart "ens".toList ((c.attr "mosg__model_configuration").getD "ens".toList)) &&
        decide (r.points.length > 1) then [.realizations] else []
  else []

/-- metadata_interpreter.py:453-467: cell methods of weather codes. -/
def categoryMethodErrors (m : CellMethod) : List MiErr :=
  if m = ⟨"mode", ["time"], ["1 hour"], []⟩ ∨ m = ⟨"mode", ["time"], ["3 hour"], []⟩ then [] else [.unexpectedMethods]

/-- metadata_interpreter.py:484-508, 510: data without the name of probabilities: kind, errors and diagnostic.  Several
percentile coordinates are a ValueError. -/
def plainErrors (c : MiCube) : Except Err (MiKind × List MiErr × Option Text) :=
  match c.coords.filter fun x => inName "percentile" x.name with
  | [] =>
    if c.coords.any fun x => decide (x.varName = some "threshold") then
      let p := probabilityErrors c (some c.name.toList)
      .ok (.probability, p.1, p.2)
    else .ok (.realizations, [], some c.name.toList)
  | [p] => .ok (.percentile, (if p.name = "percentile" then [] else [.percentileName]) ++
      (if p.units = "%" then [] else [.percentileUnits]), some c.name.toList)
  | _ => .error .valueError

/-- metadata_interpreter.py:442-510: kind, errors and diagnostic. -/
def interpretDiagnostic (c : MiCube) : Except Err (MiKind × List MiErr × Option Text) :=
  if c.name ∈ ancillaryNames then
    .ok (.ancillary, if c.methods = [] then [] else [.unexpectedMethods], some c.name.toList)
  else if c.name = "weather_code" then .ok (.weatherCode, c.methods.flatMap categoryMethodErrors, some c.name.toList)
  else if c.name = "wind_from_direction" then
    .ok (.windDirection,
      if c.methods = [] ∨ c.methods = [⟨"mean", ["realization"], [], []⟩] then [] else [.unexpectedMethods],
      some c.name.toList)
  else if c.name ∈ intermediateNames then .ok (.unhandled, [], some c.name.toList)
  else do
    let r ← if inName "probability" c.name && inName "threshold" c.name then
        .ok (.probability, (probabilityErrors c none).1, (probabilityErrors c none).2)
      else plainErrors c
    let m ← methodsErrors c (if r.1 = .probability then some (r.2.2.getD "None".toList) else none)
    .ok (r.1, r.2.1 ++ m, r.2.2)

/-- metadata_interpreter.py:512-551: the other checks. -/
def generalErrors (c : MiCube) (kind : MiKind) (diagnostic : Option Text) : Except Err (List MiErr) := do
  let attributes ← attributeErrors c kind diagnostic
  .ok (attributes ++ spotErrors c ++
    (if kind = .ancillary then [] else if isBlended c kind then presentErrors c blendedTimes
     else presentErrors c unblendedTimes) ++
    boundErrors c "time" ++ boundErrors c "forecast_period" ++
    (if c.standards then [] else [.dataTypes]) ++ realizationErrors c kind)

/-- metadata_interpreter.py:431-555 `run` of a new interpreter: the errors collected; `.error` if it is stopped by an exception
from elsewhere. -/
def interpret (c : MiCube) : Except Err (List MiErr) := do
  let r ← interpretDiagnostic c
  if r.1 = .unhandled then .ok []
  else do
    let g ← generalErrors c r.1 r.2.2
    .ok (r.2.1 ++ g)

/-- metadata_interpreter.py:307-315: name and cycle of one model as they are shown; of several cycles the last. -/
def shownModel (cycles : List (Text × Text)) (code : Text) : Except Err (Option (String × Text)) :=
  match modelName code with
  | none => .ok none
  | some n => match cycles.reverse.find? fun e => decide (e.1 = code) with
    | some e => .ok (some (n, e.2))
    | none => .error .keyError

/-- metadata_interpreter.py:297-316: the names of the models of a blend and their cycles, as they are shown. -/
def shownModels (ids runs : Text) : Except Err (List (String × Text)) := do
  let cycles ← (splitAt '\n' runs).mapM cycleItem
  let each ← (splitAt ' ' ids).mapM (shownModel cycles)
  .ok (each.filterMap id)

/-! ## The command -/

/-- What is printed for a cube: compliant or not. -/
inductive MiReport where
  | compliant (cube : String)
  | nonCompliant (cube : String)
deriving DecidableEq

/-- interpret_metadata.py:44-56: one cube.  ValueErrors are reported, other exceptions end the command. -/
def reportCube (failuresOnly : Bool) (c : MiCube) : Except Err (List MiReport) :=
  match interpret c with
  | .ok [] => .ok (if failuresOnly then [] else [.compliant c.name])
  | .ok _ => .ok [.nonCompliant c.name]
  | .error .valueError => .ok [.nonCompliant c.name]
  | .error e => .error e

/-- interpret_metadata.py:42-59: what is printed, and how the command ends. -/
def interpretCommand (failuresOnly : Bool) : List MiCube → List MiReport × Except Err Unit
  | [] => ([], .ok ())
  | c :: cs =>
    match reportCube failuresOnly c with
    | .error e => ([], .error e)
    | .ok r =>
      let rest := interpretCommand failuresOnly cs
      (r ++ rest.1, match rest.2 with
        | .error e => .error e
        | .ok () => if r = [.nonCompliant c.name] then .error .valueError else .ok ())

end Improver
