import Verif.Basic
import Mathlib.Algebra.Order.Group.Abs

/-!
Model of improver/utilities/compare.py: the comparison of two netCDF files.

A file is a tree of groups with attributes, dimensions and variables.  The result is the list of calls of the
reporter (with the default reporter the first one is raised as a ValueError).  Python iterates over sets, so the
order of the reports is not that of the model; whether there is a report is.  Numbers are rationals with NaN and
the infinities.  Unreadable files are not modelled.  A `crash` entry stands for an exception other than a report
(numpy compares a number with a text, or takes the truth of an array); it comes only after a report.
-/

namespace Improver

/-- A number in a file. -/
inductive NcNum where
  | fin (q : ℚ)
  | nan
  | inf (positive : Bool)
deriving DecidableEq

/-- An attribute: text, a number with its type, or an array of numbers. -/
inductive NcAttr where
  | text (s : String)
  | num (type : String) (v : NcNum)
  | arr (vs : List NcNum)
deriving DecidableEq

/-- The data of a variable with their shape: numbers, or texts (also booleans and other types without nearness). -/
inductive NcData where
  | nums (shape : List ℕ) (vs : List NcNum)
  | texts (shape : List ℕ) (vs : List String)
deriving DecidableEq

/-- A variable. -/
structure NcVar where
  dims : List String
  attrs : List (String × NcAttr)
  dtype : String
  data : NcData
deriving DecidableEq

mutual
/-- A group (the file itself is its root group). -/
inductive NcGroup where
  | mk (attrs : List (String × NcAttr)) (dims : List (String × ℕ)) (vars : List (String × NcVar)) (groups : NcGroups)

/-- The named subgroups of a group. -/
inductive NcGroups where
  | nil
  | cons (name : String) (g : NcGroup) (rest : NcGroups)
end

/-- Components of a group. -/
def NcGroup.attrs : NcGroup → List (String × NcAttr) | .mk a _ _ _ => a
/-- Components of a group. -/
def NcGroup.dims : NcGroup → List (String × ℕ) | .mk _ d _ _ => d
/-- Components of a group. -/
def NcGroup.vars : NcGroup → List (String × NcVar) | .mk _ _ v _ => v
/-- Components of a group. -/
def NcGroup.groups : NcGroup → NcGroups | .mk _ _ _ g => g

/-- The names of subgroups. -/
def NcGroups.names : NcGroups → List String
  | .nil => []
  | .cons k _ rest => k :: rest.names

/-- The subgroup of a name. -/
def NcGroups.get : NcGroups → String → Option NcGroup
  | .nil, _ => none
  | .cons k g rest, n => if n = k then some g else rest.get n

/-- A call of the reporter. -/
inductive NcReport where
  | attributes (name : String)
  | attrType (name key : String)
  | attrValue (name key : String)
  | groups (name : String)
  | dimensions (name : String)
  | dimSize (name dim : String)
  | variables (name : String)
  | type (name : String)
  | data (name : String)
  | crash (name : String)
deriving DecidableEq

/-- Options of the comparison (compare.py:31-39, 63-66): `ignored_attributes=None` is the empty list. -/
structure NcOptions where
  rtol : ℚ
  atol : ℚ
  exclude : List String
  ignored : List String

/-- `set(a) == set(b)`. -/
def sameNames (a b : List String) : Bool := a.all (fun k => b.contains k) && b.all (fun k => a.contains k)

/-- `set(a) - set(b)`. -/
def withoutNames (a b : List String) : List String := a.filter fun k => !b.contains k

/-- `a.intersection(b)`. -/
def commonNames (a b : List String) : List String := a.filter fun k => b.contains k

/-- Equality of two numbers in numpy: NaN differs from itself. -/
def NcNum.eq : NcNum → NcNum → Bool
  | .fin a, .fin b => decide (a = b)
  | .inf p, .inf q => decide (p = q)
  | _, _ => false

/-- compare.py:308-329: one attribute present on both. -/
def compareAttr (name key : String) : NcAttr → NcAttr → List NcReport
  | .text a, .text d => if a ≠ d then [.attrValue name key] else []
  | .num ta a, .num td d =>
    (if td ≠ ta then [.attrType name key] else []) ++ if a.eq d then [] else [.attrValue name key]
  | .arr a, .arr d =>
    if decide (a.length = d.length) && (List.zipWith NcNum.eq a d).all id then [] else [.attrValue name key]
  | .arr _, .text _ => [.attrType name key, .crash name]
  | .arr _, .num _ _ => [.attrType name key, .crash name]
  | _, _ => [.attrType name key, .attrValue name key]

/-- compare.py:307-329: the attribute of a name common to both. -/
def compareAttrAt (name : String) (actual desired : List (String × NcAttr)) (key : String) : List NcReport :=
  match actual.lookup key, desired.lookup key with
  | some a, some d => compareAttr name key a d
  | _, _ => []

/-- compare.py:269-329 `compare_attributes`. -/
def compareNcAttrs (opts : NcOptions) (name : String) (actual desired : List (String × NcAttr)) : List NcReport :=
  let a := withoutNames (actual.map Prod.fst) opts.ignored
  let d := withoutNames (desired.map Prod.fst) opts.ignored
  (if sameNames a d then [] else [.attributes name]) ++
    (commonNames a d).flatMap (compareAttrAt name actual desired)

/-- One element of `np.testing.assert_allclose(actual, desired, rtol, atol, equal_nan=True)`. -/
def closeNum (rtol atol : ℚ) : NcNum → NcNum → Bool
  | .fin a, .fin d => decide (|a - d| ≤ atol + rtol * |d|)
  | .nan, .nan => true
  | .inf p, .inf q => decide (p = q)
  | _, _ => false

/-- The elementwise comparison of numpy.testing: arrays of equal shape element by element; a scalar with every
element. -/
def compareElems {α β : Type} (f : α → β → Bool) (sa sd : List ℕ) (a : List α) (d : List β) : Bool :=
  if sa = sd then decide (a.length = d.length) && (List.zipWith f a d).all id
  else if sa = [] then a.all fun x => d.all fun y => f x y
  else if sd = [] then a.all fun x => d.all fun y => f x y
  else false

/-- compare.py:332-379 `compare_data`. -/
def compareData (name : String) (rtol atol : ℚ) (actual desired : NcVar) : List NcReport :=
  (if actual.dtype ≠ desired.dtype then [.type name] else []) ++
  match actual.data, desired.data with
  | .nums sa a, .nums sd d => if compareElems (closeNum rtol atol) sa sd a d then [] else [.data name]
  | .texts sa a, .texts sd d => if compareElems (fun x y => decide (x = y)) sa sd a d then [] else [.data name]
  | .texts _ _, .nums _ _ => [.data name]
  | .nums _ _, .texts _ _ => [.crash name]

/-- compare.py:198-205: the size of a dimension common to both. -/
def compareDim (name : String) (actual desired : List (String × ℕ)) (dim : String) : List NcReport :=
  match actual.lookup dim, desired.lookup dim with
  | some a, some d => if a ≠ d then [.dimSize name dim] else []
  | _, _ => []

/-- compare.py:166-205 `compare_dims`. -/
def compareDims (opts : NcOptions) (name : String) (actual desired : List (String × ℕ)) : List NcReport :=
  let a := withoutNames (actual.map Prod.fst) opts.exclude
  let d := withoutNames (desired.map Prod.fst) opts.exclude
  (if sameNames a d then [] else [.dimensions name]) ++ (commonNames a d).flatMap (compareDim name actual desired)

/-- compare.py:251-254: the variables used as dimensions of compared variables of the desired file. -/
def coordVars (desired : List (String × NcVar)) (check : List String) : List String :=
  commonNames (check.flatMap fun v => ((desired.lookup v).map NcVar.dims).getD []) check

/-- compare.py:256-266: one variable common to both; coordinates must match exactly. -/
def compareVar (opts : NcOptions) (name : String) (coords : List String) (actual desired : List (String × NcVar))
    (var : String) : List NcReport :=
  match actual.lookup var, desired.lookup var with
  | some a, some d =>
    compareNcAttrs opts (name ++ "/" ++ var) a.attrs d.attrs ++
      if coords.contains var then compareData (name ++ "/" ++ var) 0 0 a d
      else compareData (name ++ "/" ++ var) opts.rtol opts.atol a d
  | _, _ => []

/-- compare.py:208-266 `compare_vars`. -/
def compareVars (opts : NcOptions) (name : String) (actual desired : List (String × NcVar)) : List NcReport :=
  let a := withoutNames (actual.map Prod.fst) opts.exclude
  let d := withoutNames (desired.map Prod.fst) opts.exclude
  let check := commonNames a d
  (if sameNames a d then [] else [.variables name]) ++
    check.flatMap (compareVar opts name (coordVars desired check) actual desired)

mutual
/-- compare.py:92-163 `compare_datasets`. -/
def compareDatasets (opts : NcOptions) (name : String) : NcGroup → NcGroup → List NcReport
  | .mk aAttrs aDims aVars aGroups, d =>
    compareNcAttrs opts "root" aAttrs d.attrs ++
    (if sameNames aGroups.names d.groups.names then [] else [.groups name]) ++
    compareSubgroups opts d.groups aGroups ++
    compareDims opts name aDims d.dims ++
    compareVars opts name aVars d.vars

/-- compare.py:134-152: the groups common to both. -/
def compareSubgroups (opts : NcOptions) (desired : NcGroups) : NcGroups → List NcReport
  | .nil => []
  | .cons k g rest =>
    (match desired.get k with
    | some g' => compareNcAttrs opts k g.attrs g'.attrs ++ compareDatasets opts k g g'
    | none => []) ++
    compareSubgroups opts desired rest
end

end Improver
