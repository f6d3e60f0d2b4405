import Verif.Model.Spot

/-!
Model of what `SpotExtraction` (improver/spotdata/spot_extraction.py) puts on the spot cube besides its values: site identifiers (90-113), coordinates that depend on the site or have one
value (115-177) and attributes (321-338).  Coordinates along the further dimensions of the diagnostic are in `buildSpotCube`.
-/

namespace Improver

/-- An auxiliary coordinate of the diagnostic: its own dimensions (name and length, in the order of its points; none for a scalar coordinate), points and bounds. -/
structure GridCoord (V : Type) where
  name : String
  dims : List (String × ℕ)
  point : List ℕ → V
  bound : Option (List ℕ → V × V)

/-- A coordinate of the sites. -/
structure SiteCoord (V : Type) where
  name : String
  points : List V
  bounds : Option (List (V × V))

/-- A coordinate of the neighbour cube: name, keys of its attributes, points. -/
structure LabelCoord where
  name : String
  attrs : List String
  points : List String
deriving DecidableEq

/-- spot_extraction.py:104-113: the identifiers and their name, if just one coordinate is marked. -/
def uniqueSiteId (coords : List LabelCoord) : Option (List String × String) :=
  match coords.filter fun c => decide ("unique_site_identifier" ∈ c.attrs) with
  | [c] => some (c.points, c.name)
  | _ => none

/-- spot_extraction.py:171-176 for a coordinate of two dimensions: `points[..., y_indices, x_indices]` goes by position, and transposing the cube (line 290) leaves the points of the
coordinate as they are.  With more dimensions the result cannot be put on the sites (build_spotdata_cube.py:176-187; an index out of range is an IndexError before). -/
def siteCoord {V : Type} (cells : List (ℕ × ℕ)) (c : GridCoord V) : Except Err (SiteCoord V) :=
  match c.dims with
  | [d, e] =>
    if ∀ p ∈ cells, p.1 < d.2 ∧ p.2 < e.2 then
      .ok ⟨c.name, cells.map fun p => c.point [p.1, p.2], c.bound.map fun b => cells.map fun p => b [p.1, p.2]⟩
    else .error .indexError
  | _ => .error .valueError

/-- spot_extraction.py:138-148. -/
def spotCoords {V : Type} (cells : List (ℕ × ℕ)) (aux : List (GridCoord V)) : Except Err (List (GridCoord V) × List (SiteCoord V)) := do
  let sited ← (aux.filter fun c => decide (1 < c.dims.length)).mapM (siteCoord cells)
  return (aux.filter fun c => decide (c.dims.length ≤ 1 ∧ (c.dims.map Prod.snd).prod = 1), sited)

/-- spot_extraction.py:321-338; the order of the keys is not modelled. -/
def spotAttributes (diagnostic neighbours : List (String × String)) (title : Option String) : Except Err (List (String × String)) :=
  match neighbours.lookup "model_grid_hash" with
  | none => .error .keyError
  | some h => .ok (("title", title.getD "unknown") :: ("model_grid_hash", h) ::
      diagnostic.filter fun p => decide (p.1 ∉ ["mosg__grid_type", "mosg__grid_version", "mosg__grid_domain"]))

/-- See `spotDescription`. -/
structure SpotDescription (V : Type) where
  scalars : List (GridCoord V)
  sited : List (SiteCoord V)
  ids : Option (List String × String)
  attrs : List (String × String)

/-- spot_extraction.py:282-338 without the values. -/
def spotDescription {V : Type} (cells : List (ℕ × ℕ)) (aux : List (GridCoord V)) (labels : List LabelCoord) (diagnostic neighbours : List (String × String)) (title : Option String) :
    Except Err (SpotDescription V) := do
  let c ← spotCoords cells aux
  let a ← spotAttributes diagnostic neighbours title
  return ⟨c.1, c.2, uniqueSiteId labels, a⟩

end Improver
