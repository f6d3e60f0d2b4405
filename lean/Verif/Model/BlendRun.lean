import Verif.Model.Blend
import Verif.Model.Amend
import Verif.Model.Standards
import Mathlib.Data.Nat.Digits.Defs

/-!
Models of improver/blending/calculate_weights_and_blend.py, improver/blending/utilities.py and of the model coordinates of
improver/blending/weighted_blend.py.
-/

namespace Improver

/-! ## Model coordinates -/

/-- weighted_blend.py:88-132 `_create_model_coordinates`: for each cube its model id and model name.  The titles are those
found on the cubes (`none`: no attribute), numbered from `i`; `seen` are the titles met before. -/
def modelCoordinates (seen : List Text) (i : ℕ) : List (Option Text) → Except Err (List (ℕ × Text))
  | [] => .ok []
  | none :: _ => .error .valueError
  | some t :: rest =>
    if t ∈ seen then .error .valueError
    else (modelCoordinates (seen ++ [t]) (i + 1) rest).map ((1000 * i, t) :: ·)

/-! ## WeightAndBlend -/

/-- calculate_weights_and_blend.py:94-112: the ways to get weights.  `dict`: a table for each blend point (its model or its
own value) and the value of the weighting coordinate, the same for all slices. -/
inductive WtsMethod where
  | linear (y0 yn : Option ℚ)
  | nonlinear (cval : Option ℚ) (inverse : Bool)
  | dict (config : ℚ → List ℚ × List ℚ) (at_ : ℚ)

/-- calculate_weights_and_blend.py:114-146 `_calculate_blending_weights`: weights for the blend points of the cube. -/
def blendWeights (m : WtsMethod) (points : List ℚ) : Except Err (List (ℚ × ℚ)) :=
  match m with
  | .linear y0 yn => do
    let y ← linearInit y0 yn
    let w ← linearWeights y.1 y.2 points.length
    .ok (points.zip w)
  | .nonlinear c inverse => do
    let c ← nonlinearInit c
    nonlinearProcess c inverse points
  | .dict config at_ => do
    let w ← chooseLinear (points.map config) at_
    .ok (points.zip w)

/-- calculate_weights_and_blend.py:176-205 `_remove_zero_weighted_slices`; there is one weight for each slice, so that the
sum over the slice is zero when the weight is. -/
def keepWeighted {α : Type} (w : List (ℚ × ℚ)) (cube : List (ℚ × α)) : List (ℚ × α) :=
  cube.filter fun s => decide (s.1 ∉ (w.filter fun x => decide (x.2 = 0)).map Prod.fst)

/-- calculate_weights_and_blend.py:207-335 `process`: the data, for slices given by their blend points and their values on
`n` grid points.  The merged cube is in order of the blend points.  Without spatial weights; percentiles and directions are
not modelled here (see `blendPercentiles`).  If no slice is left the cube is None, which has no coordinates. -/
def weightAndBlend (m : WtsMethod) (n : ℕ) (slices : List (ℚ × List (Option ℚ))) : Except Err (List (Option ℚ)) :=
  let cube := sortByCoord slices
  match cube with
  | [] => .error .valueError
  | [s] => .ok s.2
  | _ => do
    let w ← blendWeights m (cube.map Prod.fst)
    match keepWeighted w cube with
    | [] => .error .attributeError
    | [s] => .ok s.2
    | kept => (List.range n).mapM fun g =>
        weightedBlend (kept.map fun s => (s.1, s.2.getD g none)) (some (keepWeighted w w))

/-! ## Records of runs -/

/-- The decimal digits of a natural number. -/
def decimal (k : ℕ) : Text := if k = 0 then ['0'] else (Nat.digits 10 k).reverse.map Nat.digitChar

/-- Python: `f"{k / 1000:1.3f}"` for a natural number of thousandths. -/
def formatMilli (k : ℕ) : Text :=
  decimal (k / 1000) ++ ['.', Nat.digitChar (k / 100 % 10), Nat.digitChar (k / 10 % 10), Nat.digitChar (k % 10)]

/-- Python: `f"{x:1.3f}"` (blending/__init__.py:10 `WEIGHT_FORMAT`): rounded to thousandths, halves to even. -/
def formatWeight (x : ℚ) : Text :=
  if x < 0 then '-' :: formatMilli (rintQ (-x * 1000)).toNat else formatMilli (rintQ (x * 1000)).toNat

/-- The value of a decimal digit. -/
def digitVal (c : Char) : Option ℕ := if '0' ≤ c ∧ c ≤ '9' then some (c.toNat - 48) else none

/-- The number a text of digits stands for. -/
def parseNat (s : Text) : Option ℕ :=
  if s = [] then none else (s.mapM digitVal).map fun d => d.foldl (fun a x => a * 10 + x) 0

/-- Python: `float(s)`.  Texts of the form digits, point, digits are read here; how others are read is the parameter
`other`. -/
def parseFloat (other : Text → Option ℚ) (s : Text) : Option ℚ :=
  match splitAt '.' s with
  | [a, b] =>
    match parseNat a, parseNat b with
    | some x, some y => some (x + y / 10 ^ b.length)
    | _, _ => other s
  | _ => other s

/-- Python: first and last of `s.rsplit(":", 1)`. -/
def splitLast (s : Text) : Text × Text :=
  if ':' ∈ s then
    ((s.reverse.dropWhile fun c => decide (c ≠ ':')).tail.reverse, (s.reverse.takeWhile fun c => decide (c ≠ ':')).reverse)
  else (s, s)

/-- utilities.py:414-429: one record. -/
def updateLine (other : Text → Option ℚ) (weight : ℚ) (line : Text) : Except Err Text :=
  match parseFloat other (splitLast line).2 with
  | none => .error .valueError
  | some v => .ok ((splitLast line).1 ++ ':' :: formatWeight (v * weight))

/-- Python: `sorted(texts)`. -/
def sortTexts (l : List Text) : List Text := l.insertionSort fun a b => textLe a b = true

/-- utilities.py:411-430: the records of one slice. -/
def updateRecord (other : Text → Option ℚ) (weight : ℚ) (record : Text) : Except Err Text := do
  let lines ← (splitAt '\n' record).mapM (updateLine other weight)
  .ok (joinWith '\n' (sortTexts lines))

/-- utilities.py:368-433 `update_record_run_weights`, for slices given by the blend point and the record; the weight of a
slice is the one at its blend point. -/
def updateRecords (other : Text → Option ℚ) (w : List (ℚ × ℚ)) (slices : List (ℚ × Text)) : Except Err (List Text) :=
  slices.mapM fun s =>
    match w.find? fun x => decide (x.1 = s.1) with
    | none => .error .attributeError
    | some x => updateRecord other x.2 s.2

/-- utilities.py:323-365 `record_run_coord_to_attr`: the attribute, from the points of the record coordinates. -/
def recordAttribute (points : List Text) (discard : Bool) : Text :=
  let data := if discard then (((points.flatMap (splitAt '\n')).map fun p => (splitLast p).1 ++ [':']).dedup) else points
  joinWith '\n' (sortTexts data)

/-- What `store_record_run_as_coord` uses of a cube: the record attribute, the model id attribute and the cycle. -/
structure RunCube where
  record : Option Text
  modelId : Option Text
  cycle : Text

/-- utilities.py:294-320: the record of one cube. -/
def runRecord (c : RunCube) : Except Err Text :=
  match c.record with
  | some r => .ok r
  | none =>
    match c.modelId with
    | none => .error .runtimeError
    | some m => .ok (m ++ ':' :: c.cycle ++ ':' :: formatWeight 1)

/-- utilities.py:226-320 `store_record_run_as_coord`: the points of the record coordinates; `named` is whether the name of
the model id attribute is given (without one no cube is asked for it).  A plain `Exception` is a runtime error here. -/
def storeRecords (named : Bool) (cubes : List RunCube) : Except Err (List Text) :=
  if !named && cubes.any fun c => c.record.isNone then .error .valueError else cubes.mapM runRecord

/-- calculate_weights_and_blend.py:294-300, 319-320: the record attribute of a blend of slices given by blend points and
records. -/
def blendRecords (other : Text → Option ℚ) (m : WtsMethod) (slices : List (ℚ × Text)) : Except Err Text :=
  let cube := sortByCoord slices
  match cube with
  | [] => .error .valueError
  | [s] => .ok (recordAttribute [s.2] false)
  | _ => do
    let w ← blendWeights m (cube.map Prod.fst)
    match keepWeighted w cube with
    | [] => .error .attributeError
    | kept => do
      let records ← updateRecords other w kept
      .ok (recordAttribute records false)

/-! ## Metadata of a blend -/

/-- A coordinate of the merged cube: its name and whether it lies along the blend dimension. -/
structure BlendCoord where
  name : String
  onBlend : Bool

/-- time_types.py:21-27: the names of `TIME_COORDS`. -/
def timeCoordNames : List String := ["time", "forecast_reference_time", "blend_time", "forecast_period", "UTC_offset"]

/-- utilities.py:66-102 `get_coords_to_remove`; `scalar` is whether the blend coordinate is scalar. -/
def coordsToRemove (blend : String) (scalar : Bool) (coords : List BlendCoord) : List String :=
  if scalar then
    (if coords.any fun c => decide (c.name = "blend_record") then ["blend_record"] else []) ++
      if blend = "model_id" then ["model_id", "model_configuration"] else []
  else (coords.filter fun c => decide (c.name ∉ timeCoordNames) && c.onBlend).map BlendCoord.name

/-- The metadata of a blended cube.  Times are in whole seconds, those of the validity time one for each point. -/
structure BlendMeta where
  coords : List String
  models : Option Text
  time : List ℤ
  reference : List ℤ
  referenceBounded : Bool
  period : Option (List ℤ)
  blendTime : Option ℤ
  attributes : AttrDict

/-- utilities.py:162-199 `_set_blended_time_coords` with `cycle` the point of the cycle time (deprecation notes left out; a
blend time that is there already cannot be added again). -/
def setBlendedTimes (cycle : Option ℤ) (c : BlendMeta) : Except Err BlendMeta :=
  match cycle with
  | none => .error .valueError
  | some t =>
    if c.blendTime.isSome then .error .valueError
    else .ok { c with
      blendTime := some t,
      reference := [t],
      referenceBounded := false,
      period := c.period.map fun _ => c.time.map fun x => x - t }

/-- utilities.py:150-152: coordinates are removed one by one; one that is not there is an error. -/
def removeCoords : List String → List String → Except Err (List String)
  | [], coords => .ok coords
  | r :: rest, coords => if r ∈ coords then removeCoords rest (coords.erase r) else .error .coordinateNotFound

/-- utilities.py:157-159: mandatory attributes that are not there get their defaults. -/
def addMandatory (d : AttrDict) : AttrDict :=
  mandatoryDefaults.foldl (fun d kv => if (AttrDict.get d kv.1).isNone then AttrDict.set d kv.1 kv.2 else d) d

/-- utilities.py:143-148: the models that took part, from the point iris makes of the model names. -/
def setModelId (modelAttr : String) (c : BlendMeta) : Except Err BlendMeta :=
  match c.models with
  | none => .error .coordinateNotFound
  | some s => .ok { c with
      attributes := AttrDict.set c.attributes modelAttr (.text (joinWith ' ' (sortTexts (splitAt '|' s)))) }

/-- utilities.py:105-159 `update_blended_metadata`. -/
def updateBlendedMetadata (clock : Text → Text) (render : ℕ → Text) (blend : String) (toRemove : List String)
    (cycle : Option ℤ) (changes : AttrDict) (modelAttr : String) (c : BlendMeta) : Except Err BlendMeta := do
  let c ← if blend = "forecast_reference_time" ∨ blend = "model_id" then setBlendedTimes cycle c else .ok c
  let c ← if blend = "model_id" then setModelId modelAttr c else .ok c
  let coords ← removeCoords toRemove c.coords
  let r := amendAttributes clock render changes c.attributes
  let _ ← r.1
  .ok { c with coords := coords, attributes := addMandatory r.2 }

end Improver
