import Verif.Model.PrecipType
import Verif.Model.WholeBlend

/-!
Model of `ExtractValueFromTable.process` (improver/utilities/extract_from_table.py:117-188) on cubes with named dimensions.  Not modelled: masks and data
types; labels of the table are the numbers their texts stand for (two texts for one number in the rows of different columns are not told apart).
-/

namespace Improver

/-- A cube that is looked up: values (`none` is NaN) on named dimensions, its name, its unit and the names of its other coordinates. -/
structure LookupCube extends PointCube (Option ℚ) where
  name : String
  unit : String
  others : List String

/-- `table["data"]`: for every column its entries by row. -/
abbrev TableData := List (ℚ × List (ℚ × ℚ))

/-- The labels of the rows: all that occur (extract_from_table.py:120, `DataFrame.from_dict`). -/
def tableRows (t : TableData) : List ℚ := (t.flatMap fun c => c.2.map Prod.fst).dedup

/-- One entry, NaN if the column has none for the row. -/
def tableEntry (t : TableData) (c r : ℚ) : Option ℚ := (t.lookup c).bind fun rows => rows.lookup r

/-- extract_from_table.py:120-125: sorting the columns refuses two of one label. -/
def checkTable (t : TableData) : Except Err Unit := if (t.map Prod.fst).Nodup then .ok () else .error .valueError

/-- extract_from_table.py:161-169: the row cube, which must be the only one of its name, and the other one. -/
def rowAndColumn (rowName : String) (cubes : List LookupCube) : Except Err (LookupCube × LookupCube) :=
  match cubes with
  | [a, b] =>
    if a.name = rowName then (if b.name = rowName then .error .valueError else .ok (a, b))
    else if b.name = rowName then .ok (b, a) else .error .valueError
  | _ => .error .valueError

/-- extract_from_table.py:82-115 at one place. -/
def lookupAt (t : TableData) (c r : Option ℚ) : Option ℚ := (tableValue (t.map Prod.fst) (tableRows t) (tableEntry t) c r).join

/-- The number of points along every dimension. -/
def LookupCube.shape (c : LookupCube) : List ℕ := c.dims.map fun n => (c.points n).length

/-- extract_from_table.py:96-115, 179-187: an empty table has no entry to index (if there are values at all). -/
def lookupResult (newName : Option String) (t : TableData) (unit : String) (row column : LookupCube) : Except Err LookupCube :=
  if column.shape ≠ row.shape then .error .valueError
  else do
    checkTable t
    if (t = [] ∨ tableRows t = []) ∧ 0 ∉ row.shape then .error .indexError
    else .ok ⟨⟨⟨row.dims, fun idx => lookupAt t (column.data idx) (row.data idx)⟩, row.points⟩, newName.getD row.name, unit, row.others⟩

/-- extract_from_table.py:170-188: the dimensions of the row cube are put in order in place (line 171); the row cube and the result. -/
def tableOn (newName : Option String) (t : TableData) (unit : Option String) (row column : LookupCube) : Except Err (LookupCube × LookupCube) := do
  let k ← row.toPointCube.reorder (column.dims ++ column.others)
  match unit with
  | none => .error .keyError
  | some u => do
    let out ← lookupResult newName t u ⟨k, row.name, row.unit, row.others⟩ column
    .ok (⟨k, row.name, row.unit, row.others⟩, out)

/-- extract_from_table.py:129-188 `process`; `unit` is `table["metadata"]["units"]`.  The first part of the result is the caller's row cube afterwards, the
second what is returned. -/
def tableProcess (rowName : String) (newName : Option String) (t : TableData) (unit : Option String) (cubes : List LookupCube) :
    Except Err (LookupCube × LookupCube) :=
  match rowAndColumn rowName cubes with
  | .error e => .error e
  | .ok (row, column) => tableOn newName t unit row column

end Improver
