import Verif.Model.Extraction

/-! Model of `ExtractLevel` as a whole (improver/utilities/cube_extraction.py:349-549).  Values are exact rationals; stratify's interpolation of one column is
a parameter; casting to 32-bit floats is not modelled. -/

namespace Improver

/-- A variable on levels: dimension coordinates with their lengths, names of the other coordinates, points and unit of the vertical coordinate; `data` takes the
indices in the order of the dimensions, `none` = masked or not finite. -/
structure LevelsCube where
  dims : List (String × ℕ)
  others : List String
  levels : List ℚ
  levelUnits : String
  units : String
  digits : Option ℤ
  data : List ℕ → Option ℚ

/-- All indices of an array. -/
def arrayIndices : List ℕ → List (List ℕ)
  | [] => [[]]
  | n :: t => (List.range n).flatMap fun i => (arrayIndices t).map fun r => i :: r

/-- The values along dimension `lev` (of length `n`) at the other indices `rest`. -/
def columnAt (lev n : ℕ) (data : List ℕ → Option ℚ) (rest : List ℕ) : List (Option ℚ) :=
  (List.range n).map fun k => data (rest.insertIdx lev k)

/-- cube_extraction.py:429-465 `_one_way_fill` on an array. -/
def fillPass (inc : ℚ) (reverse : Bool) (lev n : ℕ) (data : List ℕ → Option ℚ) (idx : List ℕ) : Option ℚ :=
  ((oneWayFill inc reverse (columnAt lev n data (idx.eraseIdx lev)))[idx.getD lev 0]?).join

/-- cube_extraction.py:407 and 421: everything finite and unmasked. -/
def nothingMissing (shape : List ℕ) (data : List ℕ → Option ℚ) : Bool := (arrayIndices shape).all fun idx => (data idx).isSome

/-- cube_extraction.py:397-427 `fill_invalid`: the data of the cube afterwards. -/
def fillLevels (inc : ℚ) (shape : List ℕ) (lev n : ℕ) (data : List ℕ → Option ℚ) : List ℕ → Option ℚ :=
  if nothingMissing shape data then data
  else if nothingMissing shape (fillPass inc true lev n data) then fillPass inc true lev n data
  else fillPass inc false lev n (fillPass inc true lev n data)

/-- cube_extraction.py:414 `np.all(np.diff(points) > 0)`. -/
def levelsAscend : List ℚ → Bool
  | [] => true
  | [_] => true
  | a :: b :: t => decide (b - a > 0) && levelsAscend (b :: t)

/-- cube_extraction.py:507-517: the vertical coordinate. -/
def levelCoordinate (c : LevelsCube) : Except Err String :=
  let names := c.dims.map Prod.fst ++ c.others
  if "height" ∈ names ∧ "pressure" ∈ names then .error .notImplemented
  else if "pressure" ∈ names then .ok "pressure"
  else if "height" ∈ names then .ok "height"
  else .error .coordinateNotFound

/-- The extracted level. -/
structure LevelOut where
  name : String
  units : String
  dims : List (String × ℕ)
  data : List ℕ → Option ℚ

/-- cube_extraction.py:534-546 with slices over realization (dimension `r`): `result_data[i] = interp_data`, by position. -/
def bySlices (interp : List (Option ℚ) → Option ℚ) (lev' n r : ℕ) (data : List ℕ → Option ℚ) : List ℕ → Option ℚ
  | [] => none
  | i :: rest => interp (columnAt lev' n (fun idx => data (idx.insertIdx r i)) rest)

/-- cube_extraction.py:467-486: the name of the result. -/
def levelName (coordinate valueText units : String) : String :=
  if coordinate = "pressure" then "pressure_of_atmosphere_at_" ++ valueText ++ units else "height_at_" ++ valueText ++ units

/-- cube_extraction.py:488-549 `ExtractLevel(positive, value).process(cube)`: the result and the data of the caller's cube afterwards.  `interp` gives the value
for a column and the points of its levels; `valueText` is the value as Python writes it.  Assigning slices of another shape is an error (numpy would repeat
dimensions of length one). -/
def extractLevel (positive : Bool) (valueText : String) (interp : List (Option ℚ) → List ℚ → Option ℚ) (c : LevelsCube) :
    Except Err (LevelOut × (List ℕ → Option ℚ)) := do
  let coordinate ← levelCoordinate c
  let names := c.dims.map Prod.fst
  if coordinate ∉ names then .error .valueError
  else
    let lev := names.idxOf coordinate
    let n := c.levels.length
    let inc := fillIncrement positive (levelsAscend c.levels) (c.digits.getD 2)
    let filled := fillLevels inc (c.dims.map Prod.snd) lev n c.data
    let out := fun d => (⟨levelName coordinate valueText c.units, c.levelUnits, c.dims.eraseIdx lev, d⟩ : LevelOut)
    if "realization" ∈ names then
      let r := names.idxOf "realization"
      let lev' := (names.eraseIdx r).idxOf coordinate
      if ((c.dims.eraseIdx lev).map Prod.snd).tail = ((c.dims.eraseIdx r).eraseIdx lev').map Prod.snd then
        return (out (bySlices (fun col => interp col c.levels) lev' n r filled), filled)
      else .error .valueError
    else return (out (fun idx => interp (columnAt lev n filled idx) c.levels), filled)

end Improver
