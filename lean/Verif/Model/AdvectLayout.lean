import Verif.Model.Nowcast

/-!
Model of the checks of `AdvectField` (improver/nowcasting/forecasting.py:41-84, 314-364) on cubes whose dimensions have any number and order, with `check_input_coords`
(improver/nowcasting/optical_flow.py:149-183) and `check_for_x_and_y_axes` (improver/utilities/cube_checker.py:15-38).  Velocities are in metres per second and
coordinates in metres; times, names and attributes of the result are those of `advectProcess`.  That an axis has more than one coordinate is not modelled.
-/

namespace Improver

/-- A cube: names and lengths of its dimensions, the points of its x and y coordinates if it has them, its time if it has one, and its data. -/
structure FieldCube (D : Type) where
  dims : List (String × ℕ)
  xs : Option (List ℚ)
  ys : Option (List ℚ)
  time : Option ℤ
  data : List ℕ → D

/-- cube_checker.py:15-38 and optical_flow.py:163-183. -/
def checkInputCoords {D : Type} (c : FieldCube D) (requireTime : Bool) : Except Err Unit :=
  if c.xs.isNone || c.ys.isNone then .error .invalidCube
  else if 2 < (c.dims.filter fun d => decide (1 < d.2)).length then .error .invalidCube
  else if requireTime && c.time.isNone then .error .invalidCube
  else .ok ()

/-- forecasting.py:60-84: the plugin keeps the two velocity cubes. -/
def makeAdvect (u v : FieldCube ℚ) : Except Err (FieldCube ℚ × FieldCube ℚ) := do
  checkInputCoords u false
  checkInputCoords v false
  if u.xs ≠ v.xs ∨ u.ys ≠ v.ys then .error .invalidCube else .ok (u, v)

/-- forecasting.py:140-225 on arrays: rows are the first dimension of the data and columns the second, whatever they are called; arrays of another number of dimensions
cannot be unpacked (line 176); velocities of another shape cannot be combined with the data (the kind of that error depends on the shapes and is not modelled). -/
def advectArray {D : Type} (some' : D → Option ℚ) (shape : List ℕ) (data : List ℕ → D) (uShape vShape : List ℕ) (u v : List ℕ → ℚ) (timestep : ℤ) :
    Except Err (List ℕ → Option ℚ) :=
  if timestep = 0 then .ok fun idx => some' (data idx)
  else
    match shape with
    | [rows, columns] =>
      if uShape = shape ∧ vShape = shape then
        .ok fun idx => advectField columns rows (fun j i => some' (data [j, i])) (fun j i => u [j, i]) (fun j i => v [j, i]) timestep (idx.getD 0 0) (idx.getD 1 0)
      else .error .valueError
    | _ => .error .valueError

/-- forecasting.py:334-363: the data of the result, on the dimensions of the input. -/
def advectCube (plugin : FieldCube ℚ × FieldCube ℚ) (cube : FieldCube (Option ℚ)) (timestep : ℤ) : Except Err (FieldCube (Option ℚ)) := do
  checkInputCoords cube true
  if cube.xs ≠ plugin.1.xs ∨ cube.ys ≠ plugin.1.ys then .error .invalidCube
  else do
    let dx ← firstSpacing (cube.xs.getD [])
    let dy ← firstSpacing (cube.ys.getD [])
    let out ← advectArray id (cube.dims.map Prod.snd) cube.data (plugin.1.dims.map Prod.snd) (plugin.2.dims.map Prod.snd)
      (fun idx => plugin.1.data idx / dx) (fun idx => plugin.2.data idx / dy) timestep
    return { cube with data := out, time := cube.time.map (· + timestep) }

end Improver
