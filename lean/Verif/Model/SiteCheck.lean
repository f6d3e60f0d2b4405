import Verif.Basic
import Mathlib.Data.List.Basic

/-! Model of the checks that site data belong to the same sites: `ApplyEMOS._check_additional_field_sites`
(improver/calibration/ensemble_calibration.py:1713-1750), `ApplyDzRescaling._check_mismatched_sites` (improver/calibration/dz_rescaling.py:311-340), and the
selection of sites of the additional predictors in improver/cli/estimate_emos_coefficients_from_table.py:167-172.  The data are one value per site. -/

namespace Improver

/-- Site data: the station identifiers, if the cube has such a coordinate, and the value of each site. -/
structure SiteField (V : Type) where
  ids : Option (List String)
  values : List V

/-- `set(a).symmetric_difference(set(b))`, as a list. -/
def symmetricDifference (a b : List String) : List String := ((a.filter fun s => !b.contains s) ++ b.filter fun s => !a.contains s).dedup

/-- What the error message lists (ensemble_calibration.py:1736-1748). -/
structure SiteRefusal where
  mismatching : List String
deriving DecidableEq

/-- `c.coord("wmo_id")` (ensemble_calibration.py:1731, 1739) for a field; without the coordinate iris raises. -/
def fieldIds {V : Type} (p : SiteField V) : Except Err (List String) :=
  match p.ids with
  | none => .error .coordinateNotFound
  | some l => .ok l

/-- ensemble_calibration.py:1727-1750 `_check_additional_field_sites`: no result, or the sites listed in the `ValueError`. -/
def checkFieldSites {V : Type} (forecast : SiteField V) (fields : List (SiteField V)) : Except Err (Option SiteRefusal) :=
  match forecast.ids with
  | none => .ok none
  | some f =>
    match fields.mapM fieldIds with
    | .error e => .error e
    | .ok ids =>
      if ids.all (fun l => decide (l = f)) then .ok none
      else .ok (some ⟨(ids.flatMap fun l => symmetricDifference l f).dedup⟩)

/-- The predictors of one site in `ApplyEMOS`: the value of the forecast and those of the additional fields at the same place in their arrays
(ensemble_calibration.py:1471-1490), after the check of line 1997. -/
def sitePredictors {V : Type} (forecast : SiteField V) (fields : List (SiteField V)) (i : ℕ) : List (Option V) :=
  forecast.values[i]? :: fields.map fun p => p.values[i]?

/-- ensemble_calibration.py:1997, then the predictors. -/
def emosPredictors {V : Type} (forecast : SiteField V) (fields : List (SiteField V)) : Except Err (ℕ → List (Option V)) :=
  match checkFieldSites forecast fields with
  | .error e => .error e
  | .ok (some _) => .error .valueError
  | .ok none => .ok (sitePredictors forecast fields)

/-- dz_rescaling.py:322-340 and 441, one value per site: the check of the sites and the product; `fs` and `ds` are the sites of both cubes. -/
def rescaleSites (fs ds : List String) (forecast scaled : List ℚ) : Except Err (List ℚ) :=
  if fs.length ≠ ds.length ∨ (List.zipWith (fun a b => decide (a ≠ b)) fs ds).any id = true then .error .valueError
  else .ok (List.zipWith (· * ·) forecast scaled)

/-- `ap.extract(iris.Constraint(wmo_id=sites))` (estimate_emos_coefficients_from_table.py:169-171): the sites of the field that are asked for, in the order of
the field; a cube without the coordinate, or with none of the sites, gives no cube. -/
def extractSites {V : Type} (sites : List String) (p : SiteField V) : Option (SiteField V) :=
  match p.ids with
  | none => none
  | some l =>
    let kept := (l.zip p.values).filter fun e => sites.contains e.1
    if kept.isEmpty then none else some ⟨some (kept.map Prod.fst), kept.map Prod.snd⟩

/-- estimate_emos_coefficients_from_table.py:167-172: a `CubeList` with something else than a cube in it is refused by iris. -/
def tablePredictors {V : Type} (truthSites : List String) (fields : List (SiteField V)) : Except Err (List (SiteField V)) :=
  fields.mapM fun p =>
    match extractSites truthSites p with
    | none => .error .valueError
    | some q => .ok q

end Improver
