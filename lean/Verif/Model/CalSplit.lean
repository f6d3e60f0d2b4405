import Verif.Model.ProbName

/-!
Model of the sorting of input cubes by their roles, improver/calibration/__init__.py.  Of a cube
there are its name, its attributes and whether it has a time coordinate; the data stand for
everything else.  IOError and UnboundLocalError are represented by `runtimeError`.
-/

namespace Improver

/-- An input cube. -/
structure InCube where
  name : String
  attrs : List (String × String)
  hasTime : Bool
  data : List ℤ
deriving DecidableEq

/-- calibration/__init__.py:53-56: name of the diagnostic of a cube. -/
def diagOf (c : InCube) : List Char :=
  match extractDiag true c.name.toList with
  | .ok d => d
  | .error _ => c.name.toList

/-- calibration/__init__.py:57: `grouped_cubes.setdefault(name, []).append(cube)`. -/
def addToGroup (groups : List (List Char × List InCube)) (c : InCube) :
    List (List Char × List InCube) :=
  match groups with
  | [] => [(diagOf c, [c])]
  | (k, l) :: rest =>
    if k = diagOf c then (k, l ++ [c]) :: rest else (k, l) :: addToGroup rest c

/-- calibration/__init__.py:51-57. -/
def groupCubes (cubes : List InCube) : List (List Char × List InCube) :=
  cubes.foldl addToGroup []

/-- calibration/__init__.py:82: `cube.attributes.get(truth_key) == truth_value`. -/
def isTruth (key value : String) (c : InCube) : Bool :=
  match c.attrs.find? (fun a => decide (a.1 = key)) with
  | some a => decide (a.2 = value)
  | none => false

/-- calibration/__init__.py:77-94 for the cubes of the diagnostic (merging is not modelled: lists
of cubes are returned). -/
def splitByTruth (key value : String) (mask : Option InCube) (cubes : List InCube) :
    Except Err (List InCube × List InCube × Option InCube) :=
  let truth := cubes.filter fun c => isTruth key value c
  let fc := cubes.filter fun c => !isTruth key value c
  if truth.isEmpty || fc.isEmpty then .error .runtimeError else .ok (fc, truth, mask)

/-- calibration/__init__.py:20-94 `split_forecasts_and_truth`: forecasts, truths, land-sea mask.
The truth attribute is given as key and value.  With two groups the smaller (the first of equal
ones: Python's sort is stable) must be the mask. -/
def splitForecastsTruth (key value : String) (cubes : List InCube) :
    Except Err (List InCube × List InCube × Option InCube) :=
  match groupCubes cubes with
  | [(_, l)] => splitByTruth key value none l
  | [(_, a), (_, b)] =>
    match (if a.length ≤ b.length then a else b), (if a.length ≤ b.length then b else a) with
    | [m], d => splitByTruth key value (some m) d
    | _, _ => .error .runtimeError
  | _ => .error .valueError

/-- Role of a cube in `split_forecasts_and_coeffs`. -/
inductive CoefRole where
  | coefficient | mask | static | diagnostic
deriving DecidableEq

/-- calibration/__init__.py:132-138. -/
def coefRole (maskName : Option String) (c : InCube) : CoefRole :=
  if hasPart "emos_coefficient".toList c.name.toList then .coefficient
  else if maskName ≠ none ∧ maskName ≠ some "" ∧ maskName = some c.name then .mask
  else if c.hasTime then .diagnostic
  else .static

/-- Is "probability" part of the name? -/
def namedProb (c : InCube) : Bool := hasPart "probability".toList c.name.toList

/-- calibration/__init__.py:138-157: one forecast or template after those in `groups`. -/
def addDiagnostic (groups : List InCube) (c : InCube) : Except Err (List InCube) :=
  if namedProb c && groups.any namedProb then .error .valueError
  else if groups.any (fun g => decide (g.name = c.name)) then .error .valueError
  else .ok (groups ++ [c])

/-- calibration/__init__.py:159-171: the forecast and the template.  With two cubes without
probabilities the later one is used. -/
def chooseForecast (groups : List InCube) : Except Err (InCube × Option InCube) :=
  match groups with
  | [] => .error .valueError
  | [c] => .ok (c, none)
  | [a, b] =>
    if namedProb a then
      if namedProb b then .error .runtimeError else .ok (b, some a)
    else if namedProb b then .ok (a, some b) else .ok (b, none)
  | _ => .error .runtimeError

/-- What `split_forecasts_and_coeffs` returns. -/
structure CoefSplit where
  forecast : InCube
  coefficients : Option (List InCube)
  static : Option (List InCube)
  mask : Option InCube
  template : Option InCube
deriving DecidableEq

/-- calibration/__init__.py:173-176: an empty list becomes None. -/
def noneIfEmpty (l : List InCube) : Option (List InCube) := if l.isEmpty then none else some l

/-- calibration/__init__.py:97-183 `split_forecasts_and_coeffs`; the nested lists are given
flattened. -/
def splitForecastsCoeffs (maskName : Option String) (cubes : List InCube) : Except Err CoefSplit := do
  let groups ← (cubes.filter fun c => decide (coefRole maskName c = .diagnostic)).foldlM
    addDiagnostic []
  let (fc, template) ← chooseForecast groups
  .ok {
    forecast := fc
    coefficients := noneIfEmpty (cubes.filter fun c => decide (coefRole maskName c = .coefficient))
    static := noneIfEmpty (cubes.filter fun c => decide (coefRole maskName c = .static))
    mask := (cubes.filter fun c => decide (coefRole maskName c = .mask)).getLast?
    template := template }

/-- calibration/__init__.py:186-222 `split_forecasts_and_bias_files`. -/
def splitForecastsBias (cubes : List InCube) : Except Err (InCube × Option (List InCube)) :=
  match cubes.filter fun c => !hasPart "forecast_error".toList c.name.toList with
  | [c] => .ok (c, noneIfEmpty (cubes.filter fun c => hasPart "forecast_error".toList c.name.toList))
  | _ => .error .valueError

/-- Two digits, as by the format `02` (for numbers below 100). -/
def twoDigits (n : ℕ) : List Char :=
  [Char.ofNat (48 + n / 10), Char.ofNat (48 + n % 10)]

/-- calibration/__init__.py:225-246 `validity_time_check` for a time in seconds since 1970. -/
def validityTimeCheck (time : ℤ) (times : List (List Char)) : Bool :=
  decide (twoDigits (time / 3600 % 24).toNat ++ twoDigits (time / 60 % 60).toNat ∈ times)

end Improver
