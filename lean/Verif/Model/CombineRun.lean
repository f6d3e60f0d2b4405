import Verif.Model.Combine
import Verif.Model.WholeBlend

/-!
Model of `CubeCombiner.process` (improver/cube_combiner.py:157-449) on cubes with named dimensions.  Coordinates are compared by name
and points; data types and the renaming for products (`update_diagnostic_name`, see Model/Rename) are not modelled here.
-/

namespace Improver

/-- A cube to be combined: its data with its dimensions, its scalar coordinates, its cell methods (method, coordinate) and the name of
its threshold coordinate if it has one. -/
structure CombineIn extends PointCube (Option ℚ) where
  name : String
  scalars : List (String × SCoord ℚ)
  methods : List (String × String)
  threshold : Option String

/-- The plugin (cube_combiner.py:173-205). -/
structure Combiner where
  operation : String
  op : CombineOp
  methodCoord : Option String
  broadcast : Option String
  expandBound : Bool

/-- cube_combiner.py:173-205 `__init__`. -/
def Combiner.init (operation : String) (methodCoord broadcast : Option String) (expandBound : Bool) : Except Err Combiner := do
  let op ← CombineOp.decode operation
  .ok ⟨operation, op, methodCoord, broadcast, expandBound⟩

/-- The shape of a cube. -/
def PointCube.shape {α : Type} (c : PointCube α) : List ℕ := c.dims.map fun n => (c.points n).length

/-- numpy: the index into an array of shape `s` for an index of a larger array: trailing dimensions belong together, and a dimension
of length one is repeated. -/
def fitIndex (s idx : List ℕ) : List ℕ := List.zipWith (fun n i => if n = 1 then 0 else i) s (idx.drop (idx.length - s.length))

/-- numpy and iris: an array of shape `s` can be put together with one of shape `r` so that the result has shape `r` (iris refuses
data of another shape). -/
def fitsShape (r s : List ℕ) : Bool :=
  decide (s.length ≤ r.length) && ((r.drop (r.length - s.length)).zip s).all fun p => decide (p.2 = p.1 ∨ p.2 = 1)

/-- cube_combiner.py:362-385 for one cube: a cube without the coordinate gets a leading dimension of length one, and the order of the
first cube's dimensions; a scalar coordinate of that name is refused. -/
def broadcastOne (target : String) (dims : List String) (c : CombineIn) : Except Err CombineIn :=
  if target ∈ c.dims then .ok c
  else if target ∈ c.scalars.map Prod.fst then .error .typeError
  else do
    let k ← PointCube.reorder ⟨⟨target :: c.dims, fun idx => c.data idx.tail⟩, fun n => if n = target then [0] else c.points n⟩ dims
    .ok { c with toPointCube := k }

/-- cube_combiner.py:359-360: the name to broadcast along; the plugin keeps it. -/
def broadcastName (b : String) (first : CombineIn) : Except Err String :=
  if b = "threshold" then
    match first.threshold with
    | some t => .ok t
    | none => .error .coordinateNotFound
  else .ok b

/-- cube_combiner.py:339-387 `_setup_coords_for_broadcast`: the cubes and the name. -/
def setupBroadcast (b : String) (first : CombineIn) (cubes : List CombineIn) : Except Err (String × List CombineIn) := do
  let target ← broadcastName b first
  if target ∈ first.dims ∨ target ∈ first.scalars.map Prod.fst then
    let l ← cubes.mapM (broadcastOne target first.dims)
    .ok (target, l)
  else .error .coordinateNotFound

/-- cube_combiner.py:207-237 and 389-400: dimension coordinates compared in pairs, as far as there are any: equal, or, when
broadcasting, of the same name and one of them with one point. -/
def dimsMatch (broadcasting : Bool) (first c : PointCube (Option ℚ)) : Bool :=
  (c.dims.zip first.dims).all fun p =>
    decide (p.1 = p.2) && (decide (c.points p.1 = first.points p.2) ||
      (broadcasting && (decide ((c.points p.1).length = 1) || decide ((first.points p.2).length = 1))))

/-- cube_combiner.py:207-237 `_check_dimensions_match`. -/
def checkDims (broadcasting : Bool) (first : CombineIn) (rest : List CombineIn) : Except Err Unit :=
  if rest.all fun c => dimsMatch broadcasting first.toPointCube c.toPointCube then .ok () else .error .valueError

/-- cube_combiner.py:329-330: one further cube. -/
def combineWhole (op : CombineOp) (r : PointCube (Option ℚ)) (c : PointCube (Option ℚ)) : Except Err (PointCube (Option ℚ)) :=
  if fitsShape r.shape c.shape then .ok ⟨⟨r.dims, fun idx => op.app (r.data idx) (c.data (fitIndex c.shape idx))⟩, r.points⟩
  else .error .valueError

/-- cube_combiner.py:320-323: one further cube, by realizations: slices are taken in pairs, so that slices without partner keep their
values.  A cube whose realization is a scalar coordinate is its own only slice. -/
def combineByRealization (op : CombineOp) (r : PointCube (Option ℚ)) (c : CombineIn) : Except Err (PointCube (Option ℚ)) :=
  let p := r.dims.idxOf "realization"
  if "realization" ∈ c.dims then
    let q := c.dims.idxOf "realization"
    let slice := c.shape.eraseIdx q
    if fitsShape (r.shape.eraseIdx p) slice then
      .ok ⟨⟨r.dims, fun idx =>
        if idx.getD p 0 < (c.points "realization").length then
          op.app (r.data idx) (c.data ((fitIndex slice (idx.eraseIdx p)).insertIdx q (idx.getD p 0)))
        else r.data idx⟩, r.points⟩
    else .error .valueError
  else if "realization" ∈ c.scalars.map Prod.fst then
    if fitsShape (r.shape.eraseIdx p) c.shape then
      .ok ⟨⟨r.dims, fun idx =>
        if idx.getD p 0 < 1 then op.app (r.data idx) (c.data (fitIndex c.shape (idx.eraseIdx p))) else r.data idx⟩, r.points⟩
    else .error .valueError
  else .error .coordinateNotFound

/-- cube_combiner.py:324-327: the slices put together again: in ascending order, and without dimension if there is one only. -/
def mergeRealizations (r : PointCube (Option ℚ)) (dims : List String) : Except Err (PointCube (Option ℚ)) := do
  let m ← mergeAlong r "realization" (r.points "realization").length
  m.reorder dims

/-- cube_combiner.py:332-333. -/
def normaliseBy (n : ℕ) (r : PointCube (Option ℚ)) : PointCube (Option ℚ) := ⟨⟨r.dims, fun idx => (r.data idx).map fun v => v / n⟩, r.points⟩

/-- cube_combiner.py:312-330: the operator applied to the cubes in turn.  (A merged cube has its realization first before it is
reordered: `mergeAlong` keeps the place of the dimension, which comes to the same.) -/
def foldCubes (op : CombineOp) (broadcast : Option String) (first : CombineIn) (rest : List CombineIn) : Except Err (PointCube (Option ℚ)) :=
  if "realization" ∈ first.dims ∧ broadcast ≠ some "realization" then do
    let r ← rest.foldlM (combineByRealization op) first.toPointCube
    mergeRealizations r first.dims
  else rest.foldlM (fun r c => combineWhole op r c.toPointCube) first.toPointCube

/-- cube_combiner.py:299-337 `_combine_cube_data`. -/
def combineCubes (op : CombineOp) (broadcast : Option String) (first : CombineIn) (rest : List CombineIn) : Except Err (PointCube (Option ℚ)) := do
  let r ← foldCubes op broadcast first rest
  .ok (if op = .mean then normaliseBy (rest.length + 1) r else r)

/-- The scalar coordinate of a name. -/
def scalarOf (c : CombineIn) (n : String) : Option (SCoord ℚ) := c.scalars.lookup n

/-- cube_combiner.py:239-270 `_get_expanded_coord_names`: is this coordinate on all cubes and not the same everywhere? -/
def isExpanded (first : CombineIn) (rest : List CombineIn) (n : String) : Bool :=
  (first :: rest).all (fun c => (scalarOf c n).isSome) && rest.any fun c => decide (scalarOf c n ≠ scalarOf first n)

/-- `expand_bounds` of one coordinate, if it is to be expanded. -/
def expandScalar (first : CombineIn) (rest : List CombineIn) (p : String × SCoord ℚ) : Except Err (String × SCoord ℚ) :=
  if isExpanded first rest p.1 then (expandBounds ((first :: rest).filterMap fun c => scalarOf c p.1)).map fun s => (p.1, s) else .ok p

/-- cube_combiner.py:444-445: the scalar coordinates of the result. -/
def expandScalars (p : Combiner) (first : CombineIn) (rest : List CombineIn) : Except Err (List (String × SCoord ℚ)) :=
  if p.expandBound then first.scalars.mapM (expandScalar first rest) else .ok first.scalars

/-- cube_combiner.py:272-297 `_add_cell_method`. -/
def addCellMethod (p : Combiner) (methods : List (String × String)) : Except Err (List (String × String)) :=
  match p.methodCoord with
  | none => .ok methods
  | some c =>
    if p.operation = "max" then .ok (methods ++ [("maximum", c)])
    else if p.operation = "min" then .ok (methods ++ [("minimum", c)])
    else if p.operation = "mean" then .ok (methods ++ [("mean", c)])
    else .error .valueError

/-- The result: the data, the name (none: see Model/Rename), scalar coordinates and cell methods. -/
structure CombineOut extends PointCube (Option ℚ) where
  name : Option String
  scalars : List (String × SCoord ℚ)
  methods : List (String × String)

/-- cube_combiner.py:441-447: name, bounds and cell method. -/
def finishCombine (p : Combiner) (first : CombineIn) (rest : List CombineIn) (new : String) (r : PointCube (Option ℚ)) : Except Err CombineOut :=
  if p.op = .multiply then .ok ⟨r, none, first.scalars, first.methods⟩
  else do
    let s ← expandScalars p first rest
    let m ← addCellMethod p first.methods
    .ok ⟨r, some new, s, m⟩

/-- cube_combiner.py:430-431: the name to broadcast along and the cubes. -/
def prepareCombine (broadcast : Option String) (first : CombineIn) (cubes : List CombineIn) : Except Err (Option String × List CombineIn) :=
  match broadcast with
  | none => .ok (none, cubes)
  | some b => (setupBroadcast b first cubes).map fun x => (some x.1, x.2)

/-- cube_combiner.py:432-447: checks, data and metadata. -/
def combinePrepared (p : Combiner) (b : Option String) (cubes : List CombineIn) (new : String) : Except Err CombineOut :=
  match cubes with
  | [] => .error .indexError
  | first :: rest => do
    checkDims b.isSome first rest
    let r ← combineCubes p.op b first rest
    finishCombine p first rest new r

/-- cube_combiner.py:402-449 `process`: the result and the plugin afterwards. -/
def Combiner.process (p : Combiner) (cubes : List CombineIn) (new : String) : Except Err (CombineOut × Combiner) :=
  match cubes with
  | first :: c :: l => do
    let b ← prepareCombine p.broadcast first (first :: c :: l)
    let out ← combinePrepared p b.1 b.2 new
    .ok (out, { p with broadcast := b.1 })
  | _ => .error .valueError

end Improver
