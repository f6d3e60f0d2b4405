import Verif.Model.CubeManip
import Verif.Model.Checker
import Verif.Model.Amend
import Verif.Model.BlendRun
import Verif.Model.TimeLag

/-! Model of `MergeCubes` and `add_coordinate_to_cube` (improver/utilities/cube_manipulation.py) and of
`MergeCubesForWeightedBlending` (improver/blending/weighted_blend.py). -/

namespace Improver

/-! ## Adding a dimension -/

/-- Data that may be masked: the values underneath and the mask. -/
structure MaskedGrid where
  dims : List String
  value : List ℕ → ℚ
  mask : List ℕ → Bool

/-- `add_coordinate_to_cube` (cube_manipulation.py:651-708) on dimensions and data: the new dimension is made the last one, then moved.
`np.broadcast_to` (lines 692-694) returns a plain array, without the mask. -/
def addCoordinate (c : MaskedGrid) (new : String) (location : ℤ) : Except Err MaskedGrid :=
  let n := c.dims.length
  if location > n ∨ location < 0 then .error .valueError
  else do
    let order ← npInsert (List.range n) location.toNat n
    let out ← DimCube.transpose ⟨c.dims ++ [new], fun i => c.value (i.take n)⟩ order
    return ⟨out.dims, out.data, fun _ => false⟩

/-! ## Merging -/

/-- A cube to be merged: name, attributes, cell methods, the point of the coordinate that tells the cubes apart with its bounds, data. -/
structure MergeIn (D : Type) where
  name : String
  attrs : AttrDict
  methods : List String
  point : ℤ
  bounds : Option (ℤ × ℤ)
  data : D

/-- A merged cube. -/
structure Merged (D : Type) where
  name : String
  attrs : AttrDict
  methods : List String
  slices : List (ℤ × Option (ℤ × ℤ) × D)

/-- `iris.util.equalise_attributes`: of each cube the attributes that all cubes have with the same value. -/
def commonAttrs (all : List AttrDict) (d : AttrDict) : AttrDict :=
  d.filter fun e => all.all fun a => decide (AttrDict.get a e.1 = some e.2)

/-- `_equalise_cell_methods` (cube_manipulation.py:161-175): the methods all cubes have (python goes through sets: the order is not that
of the model). -/
def commonMethods {D : Type} : List (MergeIn D) → Except Err (List String)
  | [] => .error .indexError
  | c :: rest => .ok (rest.foldl (fun m k => m.filter fun x => decide (x ∈ k.methods)) c.methods)

/-- `np.abs(np.diff(bounds))` of one point. -/
def boundsRange : Option (ℤ × ℤ) → ℚ
  | some b => |(b.2 : ℚ) - b.1|
  | none => 0

/-- `_check_time_bounds_ranges` (cube_manipulation.py:177-207) for one coordinate: its points with bounds. -/
def checkRanges (slices : List (Option (ℤ × ℤ))) : Except Err Unit :=
  match slices with
  | [] => .ok ()
  | [_] => .ok ()
  | s =>
    if s.any Option.isNone then .ok ()
    else
      let ranges := s.map boundsRange
      if ranges.all fun r => npIsclose r (ranges.headD 0) then .ok () else .error .valueError

/-- `CubeList.merge_cube` for cubes told apart by one scalar coordinate: the same name, attributes, cell methods, all or none with
bounds, and points all different; the result is in the order of the points. -/
def irisMerge {D : Type} (cubes : List (MergeIn D)) : Except Err (Merged D) :=
  match cubes with
  | [] => .error .valueError
  | c :: _ =>
    if ¬ cubes.all (fun k => decide (k.name = c.name ∧ k.attrs.Perm c.attrs ∧ k.methods.Perm c.methods ∧ k.bounds.isSome = c.bounds.isSome)) then
      .error .valueError
    else if ¬ (cubes.map MergeIn.point).Nodup then .error .valueError
    else .ok ⟨c.name, c.attrs, c.methods,
      (cubes.map fun k => (k.point, k.bounds, k.data)).insertionSort fun a b => a.1 ≤ b.1⟩

/-- `MergeCubes.process` (cube_manipulation.py:247-284) for a list of cubes; not slicing over realizations. -/
def mergeCubes {D : Type} (cubes : List (MergeIn D)) (check : Bool) : Except Err (Merged D) :=
  match cubes with
  | [c] => do
    if check then checkRanges [c.bounds]
    return ⟨c.name, c.attrs, c.methods, [(c.point, c.bounds, c.data)]⟩
  | cubes => do
    let methods ← commonMethods cubes
    let eq := cubes.map fun c => { c with attrs := commonAttrs (cubes.map MergeIn.attrs) c.attrs, methods := methods }
    let out ← irisMerge eq
    if check then checkRanges (out.slices.map fun s => s.2.1)
    return out

/-! ## Merging for a blend -/

/-- A cube to be blended: the model title (`none`: no such attribute), the value of the blend coordinate if it has that coordinate, validity
time with bounds, cycle, forecast period, blend time, data. -/
structure BlendIn (D : Type) where
  title : Option Text
  key : Option ℤ
  time : ℤ
  bounds : Option (ℤ × ℤ)
  frt : ℤ
  fp : ℤ
  blendTime : Option ℤ
  data : D

/-- `MergeCubesForWeightedBlending.__init__` (weighted_blend.py:68-86): the model attribute that will be used. -/
def mergeInit (isModel : Bool) (modelAttr recordAttr : Option String) : Except Err (Option String) :=
  if isModel ∧ modelAttr = none then .error .valueError
  else if ¬ isModel ∧ (modelAttr ≠ none ∧ recordAttr = none) then .ok none
  else .ok modelAttr

/-- The cubes with cycles unified (forecast_times.py:210-237). -/
def rebadgeBlend {D : Type} (cubes : List (BlendIn D)) (cycle : Option ℤ) : Except Err (List (BlendIn D)) := do
  let l ← rebadgeLatest (cubes.map fun c => (⟨c.frt, c.time, c.fp, [(0, c)]⟩ : LagCube (BlendIn D))) cycle
  return l.flatMap fun k => k.members.map fun m => { m.2 with frt := k.frt, fp := k.fp }

/-- `MergeCubesForWeightedBlending.process` (weighted_blend.py:178-218); `isModel` is whether the blend coordinate has "model" in its name,
`byPeriod` whether the weighting coordinate has "forecast_period" in it.  The result is the merged slices: value of the blend coordinate
(model id), model name, cube.  Records of runs (C184), attributes and cell methods (C234) are left out. -/
def mergeForBlending {D : Type} (isModel byPeriod : Bool) (cycle : Option ℤ) (cubes : List (BlendIn D)) :
    Except Err (List (ℤ × Option Text × BlendIn D)) := do
  let cubes ← if isModel then
      let cleared := cubes.map fun c => { c with blendTime := none }
      if byPeriod then rebadgeBlend cleared cycle else .ok cleared
    else .ok cubes
  let keyed ← if isModel then do
      let ids ← modelCoordinates [] 0 (cubes.map BlendIn.title)
      pure ((ids.zip cubes).map fun p => ((p.1.1 : ℤ), some p.1.2, p.2))
    else cubes.mapM fun c => match c.key with
      | some k => .ok (k, none, c)
      | none => .error .valueError
  if keyed.length = 0 then .error .indexError
  else if ¬ (keyed.map Prod.fst).Nodup then .error .valueError
  else if ¬ (keyed.all (fun s => s.2.2.bounds.isSome) ∨ keyed.all (fun s => s.2.2.bounds.isNone)) then .error .valueError
  else do
    let out := keyed.insertionSort fun a b => a.1 ≤ b.1
    checkRanges (out.map fun s => s.2.2.bounds)
    return out

end Improver
