import Verif.Model.CubeManip

/-!
Models of improver/utilities/cube_checker.py, improver/utilities/mask.py and improver/utilities/load.py.

Cubes are named dimensions with data by index (`DimCube`); coordinates are compared as whole values of any type.
-/

namespace Improver

/-! ## check_cube_coordinates -/

/-- A cube with its scalar coordinates. -/
structure ScalarCube (α : Type) where
  cube : DimCube α
  scalars : List String

/-- cube_checker.py:77-79: scalar coordinates that are dimensions of the original become leading dimensions
(`iris.util.new_axis`), the last scalar coordinate first. -/
def promoteScalars {α : Type} (names : List String) (c : ScalarCube α) : DimCube α :=
  c.scalars.reverse.foldl
    (fun d s => if s ∈ names then ⟨s :: d.dims, fun idx => d.data idx.tail⟩ else d) c.cube

/-- `np.insert(l, i, v)` for a position that is not negative. -/
def npInsert (l : List ℕ) (i v : ℕ) : Except Err (List ℕ) :=
  if l.length < i then .error .indexError else .ok (l.take i ++ v :: l.drop i)

/-- cube_checker.py:117-118. -/
def insertDims : List ℕ → List ℕ → Except Err (List ℕ)
  | [], order => .ok order
  | d :: ds, order => do
    let order ← npInsert order d d
    insertDims ds order

/-- The dimension of a name, `e` if there is none. -/
def dimOf (e : Err) (dims : List String) (n : String) : Except Err ℕ :=
  if n ∈ dims then .ok (dims.idxOf n) else .error e

/-- cube_checker.py:42-122 `check_cube_coordinates`.  An exception coordinate that is a scalar coordinate has no
dimension (IndexError); one that is not there at all is not found. -/
def checkCubeCoordinates {α : Type} (names : List String) (new : ScalarCube α) (exceptions : List String) :
    Except Err (DimCube α) := do
  let c := promoteScalars names new
  if names.length + exceptions.length ≠ c.dims.length then .error .coordinateNotFound
  else do
    let order ← names.mapM (dimOf .keyError c.dims)
    let only ← exceptions.mapM (dimOf .coordinateNotFound c.dims)
    let order ← insertDims only order
    c.transpose order

/-! ## Other checks -/

/-- cube_checker.py:125-155 `find_dimension_coordinate_mismatch` (as a list; Python goes through sets, so that the order
and repetitions are not those of the model). -/
def dimensionMismatch (first second : List String) (twoWay : Bool) : List String :=
  let a := second.filter fun n => decide (n ∉ first)
  if twoWay then a ++ first.filter fun n => decide (n ∉ second) else a

/-- cube_checker.py:158-179 `spatial_coords_match`: each cube is its x and its y coordinate. -/
def spatialMatch {X : Type} [DecidableEq X] : List (X × X) → Except Err Bool
  | [] => .error .indexError
  | ref :: rest => .ok (rest.foldl (fun m c => decide (c.1 = ref.1) && decide (c.2 = ref.2) && m) true)

/-- The time coordinates of a cube; only whether the time has bounds and equality of coordinates matter. -/
structure TimeCube (X : Type) where
  time : X
  bounded : Bool
  reference : Option X
  hasBlendTime : Bool

/-- cube_checker.py:218-223: all cubes have the same coordinate; `none` is a coordinate that is not there. -/
def sameCoord {X : Type} [DecidableEq X] (coords : List (Option X)) : Except Err Unit :=
  if coords.any Option.isNone then .error .coordinateNotFound
  else match coords with
    | [] => .ok ()
    | c :: rest => if rest.all fun x => decide (x = c) then .ok () else .error .valueError

/-- cube_checker.py:182-223 `assert_time_coords_valid`. -/
def timeCoordsValid {X : Type} [DecidableEq X] (inputs : List (TimeCube X)) (bounds : Bool) : Except Err Unit :=
  match inputs with
  | [] => .error .valueError
  | [_] => .error .valueError
  | c :: rest =>
    if (c :: rest).any fun x => decide (x.bounded ≠ bounds) then .error .valueError
    else do
      sameCoord ((c :: rest).map fun x => some x.time)
      if c.hasBlendTime then .ok () else sameCoord ((c :: rest).map TimeCube.reference)

/-! ## Masks -/

/-- A cube with a name and the sizes of its dimensions; `none` is a masked value. -/
structure MaskCube where
  name : String
  grid : DimCube (Option ℚ)
  size : String → ℕ

/-- The shape of a cube. -/
def MaskCube.shape (c : MaskCube) : List ℕ := c.grid.dims.map c.size

/-- Position of an index in row-major order. -/
def ravelIdx : List ℕ → List ℕ → ℕ
  | _ :: shape, i :: idx => i * shape.prod + ravelIdx shape idx
  | _, _ => 0

/-- Index of a position in row-major order. -/
def unravelIdx : List ℕ → ℕ → List ℕ
  | [], _ => []
  | _ :: shape, k => k / shape.prod :: unravelIdx shape (k % shape.prod)

/-- mask.py:58-60: the mask as truth values, inverted if asked for (the mask itself has no masked values). -/
def maskTruth (invert : Bool) (v : Option ℚ) : Bool := xor invert (decide (v.getD 0 ≠ 0))

/-- `np.ma.array(data, mask=mask)` for a mask of shape `ms` and data of shape `ds`: a mask of one element is repeated, one
of the same number of elements is reshaped, another raises MaskError (here a value error).  Values masked before stay
masked. -/
def npMask (ds ms : List ℕ) (data : List ℕ → Option ℚ) (mask : List ℕ → Bool) : Except Err (List ℕ → Option ℚ) :=
  if ms = ds then .ok fun i => if mask i then none else data i
  else if ms.prod = 1 then .ok fun i => if mask (ms.map fun _ => 0) then none else data i
  else if ms.prod = ds.prod then .ok fun i => if mask (unravelIdx ms (ravelIdx ds i)) then none else data i
  else .error .valueError

/-- mask.py:20-72 `apply_mask` on a list of cubes: the masked cube and the mask as it is left.  The names by which the
mask is ordered are those of the dimensions of the cube (in the code, of all its coordinates; dimensions come first and
others are not dimensions of a mask that is accepted); `threshold` is the name of the mask's threshold coordinate.  A name
that not exactly one cube has raises ConstraintMismatchError, here a value error. -/
def applyMask (threshold : Option String) (cubes : List MaskCube) (maskName : String) (invert : Bool) :
    Except Err (MaskCube × MaskCube) :=
  match cubes with
  | [a, b] =>
    if a.name = maskName ∧ b.name = maskName ∨ a.name ≠ maskName ∧ b.name ≠ maskName then .error .valueError
    else do
      let mask := if a.name = maskName then a else b
      let cube := if a.name = maskName then b else a
      let truth : DimCube Bool := ⟨mask.grid.dims, fun i => maskTruth invert (mask.grid.data i)⟩
      let m ← enforceOrdering truth threshold cube.grid.dims true
      if dimensionMismatch cube.grid.dims m.dims true ≠ [] then .error .valueError
      else do
        let data ← npMask cube.shape (m.dims.map mask.size) cube.grid.data m.data
        .ok ({ cube with grid := ⟨cube.grid.dims, data⟩ },
          { mask with grid := ⟨m.dims, fun i => some (if m.data i then 1 else 0)⟩ })
  | _ => .error .valueError

/-! ## Loading -/

/-- A cube in a file. -/
structure LoadCube (α : Type) where
  longName : Option String
  attributes : List (String × String)
  grid : DimCube α
  threshold : Option String
  xName : Option String
  yName : Option String

/-- load.py:69-83: what is done to each cube. -/
def tidyCube {α : Type} (c : LoadCube α) : Except Err (LoadCube α) := do
  let attributes := c.attributes.filter fun a => decide (a.1 ≠ "bald__isPrefixedBy")
  let g ← enforceOrdering c.grid c.threshold ["realization", "percentile", "threshold"] true
  match c.yName, c.xName with
  | some y, some x => do
    let g ← enforceOrdering g c.threshold [y, x] false
    .ok { c with attributes := attributes, grid := g }
  | _, _ => .error .coordinateNotFound

/-- load.py:20-85 `load_cubelist`: each file is the list of cubes iris reads from it; `wanted` is the constraint. -/
def loadCubelist {α : Type} (wanted : LoadCube α → Bool) (files : List (List (LoadCube α))) :
    Except Err (List (LoadCube α)) :=
  let cubes := (files.map fun f => f.filter fun c => decide (c.longName ≠ some "prefixes") && wanted c).flatten
  if cubes = [] then .error .valueError else cubes.mapM tidyCube

/-- load.py:88-121 `load_cube`; `merge` is `MergeCubes`. -/
def loadCube {α : Type} (wanted : LoadCube α → Bool) (merge : List (LoadCube α) → Except Err (LoadCube α))
    (files : List (List (LoadCube α))) : Except Err (LoadCube α) := do
  let cubes ← loadCubelist wanted files
  match cubes with
  | [c] => .ok c
  | _ => merge cubes

end Improver
