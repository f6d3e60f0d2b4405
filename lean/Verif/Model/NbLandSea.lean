import Verif.Model.NbhoodMore

/-! Model of the command `nbhood-land-and-sea` (improver/cli/nbhood_land_and_sea.py): neighbourhoods over land and over sea, put together. -/

namespace Improver

/-- The options of the neighbourhood: `neighbourhood_shape` and `area_sum` (nbhood_land_and_sea.py:19-22). -/
structure NbOpts where
  circular : Bool
  sumOnly : Bool
  deriving DecidableEq

/-- `NeighbourhoodProcessing._calculate_neighbourhood` (nbhood.py:244-317) at one point, before the masking; `none` is NaN. -/
def nbValue (o : NbOpts) (h w r : ℕ) (valid : ℕ → ℕ → Bool) (f : ℕ → ℕ → ℚ) (lo hi : ℚ) (y x : ℕ) : Except Err (Option ℚ) :=
  if o.circular then
    if o.sumOnly then .ok (some (circularSum h w r false valid f y x)) else .ok (circularMean h w r false valid f lo hi y x)
  else
    if o.sumOnly then (nbhoodSum h w r valid f y x).map some else nbhoodMean h w r valid f lo hi y x

/-- The values that are not masked (nbhood.py:265-266 take their least and greatest). -/
def presentValues (h w : ℕ) (dv : ℕ → ℕ → Bool) (f : ℕ → ℕ → ℚ) : List ℚ :=
  (List.range h).flatMap (fun i => ((List.range w).filter (dv i)).map (f i))

/-- `np.nanmin`, `np.nanmax` of the data (nbhood.py:265-266).  When everything is masked they are masked, and so is the whole result. -/
def dataLow (h w : ℕ) (dv : ℕ → ℕ → Bool) (f : ℕ → ℕ → ℚ) : ℚ := (npMin (presentValues h w dv f)).toOption.getD 0
def dataHigh (h w : ℕ) (dv : ℕ → ℕ → Bool) (f : ℕ → ℕ → ℚ) : ℚ := (npMax (presentValues h w dv f)).toOption.getD 0

/-- `NeighbourhoodProcessing(...)(cube, mask)` (nbhood.py:267-272, 411-468) for one slice: the points valid are those neither masked in the data nor zero in the
mask. -/
def validFor (dv : ℕ → ℕ → Bool) (mask : ℕ → ℕ → ℤ) (i j : ℕ) : Bool := dv i j && !decide (mask i j = 0)

/-- The same with `re_mask=True` (nbhood.py:314-315): outer `none` is masked, inner `none` is NaN. -/
def nbMasked (o : NbOpts) (h w r : ℕ) (dv : ℕ → ℕ → Bool) (f : ℕ → ℕ → ℚ) (mask : ℕ → ℕ → ℤ) (y x : ℕ) : Except Err (Option (Option ℚ)) := do
  let v ← nbValue o h w r (validFor dv mask) f (dataLow h w dv f) (dataHigh h w dv f) y x
  return if validFor dv mask y x then some v else none

/-- The `mask` attribute of the first layer of the weights (nbhood_land_and_sea.py:115): an array without mask, a masked array whose mask is the
scalar `False`, or one with a mask for each point. -/
inductive MaskKind where
  | plain
  | scalar
  | full
  deriving DecidableEq

/-- The weights cube: the attribute `topographic_zones_include_seapoints`, and the layers with `none` where masked. -/
structure ZoneWeights where
  includeSea : Option String
  kind : MaskKind
  layers : List (ℕ → ℕ → Option ℚ)

/-- The mask cube: a land-sea mask (land one), or one layer for each topographic zone. -/
inductive SurfaceMask where
  | landSea (m : ℕ → ℕ → ℤ)
  | zones (includeSea : Option String) (layers : List (ℕ → ℕ → ℤ))

/-- `np.logical_not(...).astype(int)`. -/
def notMask (m : ℕ → ℕ → ℤ) (i j : ℕ) : ℤ := if m i j = 0 then 1 else 0

/-- Reading of the attribute `topographic_zones_include_seapoints` (nbhood_land_and_sea.py:93, 107). -/
def seaAttribute : Option String → Except Err Unit
  | none => .error .keyError
  | some s => if s = "True" then .error .valueError else .ok ()

/-- The land mask and the sea mask (nbhood_land_and_sea.py:88-134), and the zones with their weights. -/
structure Surfaces where
  land : ℕ → ℕ → ℤ
  sea : ℕ → ℕ → ℤ
  zones : Option (List (ℕ → ℕ → ℤ) × List (ℕ → ℕ → Option ℚ))

/-- Mask of the first layer of the weights as numbers. -/
def layerMask (l : ℕ → ℕ → Option ℚ) (i j : ℕ) : ℤ := if (l i j).isSome then 0 else 1

def surfaces (mask : SurfaceMask) (weights : Option ZoneWeights) : Except Err Surfaces :=
  match mask with
  | .zones inc layers => do
    seaAttribute inc
    match weights with
    | none => .error .typeError
    | some wt => do
      seaAttribute wt.includeSea
      match wt.kind, wt.layers with
      | _, [] => .error .indexError
      | .plain, _ :: _ => .error .attributeError
      | .scalar, _ :: _ => .error .valueError
      | .full, l :: _ => return ⟨notMask (layerMask l), layerMask l, some (layers, wt.layers)⟩
  | .landSea m =>
    match weights with
    | some _ => .error .typeError
    | none => .ok ⟨m, notMask m, none⟩

/-- Choice of the radii (nbhood_land_and_sea.py:136-146).  `float` of the texts is not modelled. -/
def landSeaRadii (radii : List ℚ) (leads : Option (List ℚ)) : Except Err Radii :=
  match leads with
  | none => match radii with
    | [] => .error .indexError
    | r :: _ => .ok (.single r)
  | some l => if radii.length ≠ l.length then .error .runtimeError else .ok (.byLeadTime radii l)

/-- `mask.data.max() > 0.0` (nbhood_land_and_sea.py:148, 169, 181). -/
def anyPoint (h w : ℕ) (m : ℕ → ℕ → ℤ) : Bool := (List.range h).any (fun i => (List.range w).any (fun j => decide (0 < m i j)))

/-- The value of one zone at a point with its weight; left out where the weight is masked. -/
def zoneEntry (o : NbOpts) (h w r : ℕ) (dv : ℕ → ℕ → Bool) (f : ℕ → ℕ → ℚ) (y x : ℕ) (z : (ℕ → ℕ → ℤ) × (ℕ → ℕ → Option ℚ)) :
    Except Err (Option (ℚ × Option ℚ)) := do
  let v ← nbValue o h w r (validFor dv z.1) f (dataLow h w dv f) (dataHigh h w dv f) y x
  return (z.2 y x).map (fun k => (k, v))

/-- `ApplyNeighbourhoodProcessingWithAMask(...)(cube, mask)` for one slice at one point (use_nbhood.py:159-269): outer `none` is masked.  Masked
weights are left out of `np.ma.average`. -/
def zonesValue (o : NbOpts) (h w r : ℕ) (dv : ℕ → ℕ → Bool) (f : ℕ → ℕ → ℚ) (zs : List (ℕ → ℕ → ℤ)) (ws : List (ℕ → ℕ → Option ℚ))
    (y x : ℕ) : Except Err (Option (Option ℚ)) := do
  if zs.length ≠ ws.length then .error .valueError
  let es ← (zs.zip ws).mapM (zoneEntry o h w r dv f y x)
  return (collapseMasks (es.filterMap id)).map some

/-- Sum of the two parts, masked points as zero and NaN kept (nbhood_land_and_sea.py:183). -/
def filledSum (a b : Option (Option ℚ)) : Option ℚ :=
  match a.getD (some 0), b.getD (some 0) with
  | some p, some q => some (p + q)
  | _, _ => none

/-- The horizontal axes of the cube and its forecast periods (hours). -/
structure NbGrid where
  xs : List ℚ
  ys : List ℚ
  fps : List ℚ

/-- The part over land (nbhood_land_and_sea.py:148-166). -/
def landPart (o : NbOpts) (h w r : ℕ) (dv : ℕ → ℕ → Bool) (f : ℕ → ℕ → ℚ) (s : Surfaces) (y x : ℕ) : Except Err (Option (Option ℚ)) :=
  match s.zones with
  | none => nbMasked o h w r dv f s.land y x
  | some (zs, ws) => zonesValue o h w r dv f zs ws y x

/-- `process` (nbhood_land_and_sea.py:86-186) for one horizontal slice, at one point: outer `none` is masked, inner `none` is NaN.  With neither land nor
sea the name `result` is never bound, which Python reports as an error of its own (here `runtimeError`). -/
def nbhoodLandSea (o : NbOpts) (g : NbGrid) (dv : ℕ → ℕ → Bool) (f : ℕ → ℕ → ℚ) (mask : SurfaceMask) (weights : Option ZoneWeights)
    (radii : List ℚ) (leads : Option (List ℚ)) (y x : ℕ) : Except Err (Option (Option ℚ)) := do
  let s ← surfaces mask weights
  let rs ← landSeaRadii radii leads
  let h := g.ys.length
  let w := g.xs.length
  if anyPoint h w s.land || anyPoint h w s.sea then
    let radius ← findRadius rs g.fps
    let r ← nbCells g.xs g.ys radius
    if anyPoint h w s.land && anyPoint h w s.sea then do
      let a ← landPart o h w r dv f s y x
      let b ← nbMasked o h w r dv f s.sea y x
      return some (filledSum a b)
    else if anyPoint h w s.land then landPart o h w r dv f s y x
    else nbMasked o h w r dv f s.sea y x
  else .error .runtimeError

end Improver
