import Verif.Basic
import Mathlib.Analysis.SpecialFunctions.Complex.Arg
import Mathlib.Analysis.SpecialFunctions.Pow.Real
import Mathlib.Data.List.Sort
import Mathlib.Algebra.BigOperators.Intervals

/-!
Model of `improver/utilities/complex_conversion.py` and of `improver/wind_calculations/wind_direction.py`, `wind_gust_diagnostic.py`,
`wind_components.py` and `vertical_updraught.py`.  Angles, square roots and powers are exact reals; the rounding to 32 bits is modelled only
where a theorem names it.
-/

namespace Improver


/-! ### complex_conversion.py -/

/-- `deg_to_complex` with the default radius (complex_conversion.py:11-34). -/
noncomputable def degToComplex (d : ℝ) : ℂ := ⟨Real.cos (d * Real.pi / 180), Real.sin (d * Real.pi / 180)⟩

/-- `np.mod(x, 360)` in exact arithmetic. -/
noncomputable def mod360 (x : ℝ) : ℝ := x - 360 * ⌊x / 360⌋

/-- `complex_to_deg` (complex_conversion.py:37-66) in exact arithmetic.  `np.angle` of zero is zero. -/
noncomputable def complexToDeg (z : ℂ) : ℝ := mod360 (z.arg * 180 / Real.pi)

/-- Rounding to the nearest 32-bit float of a number between 256 and 512, where the spacing of the floats is `2^-15` (ties away from zero:
the choice does not matter here). -/
noncomputable def f32Round360 (x : ℝ) : ℝ := (⌊x * 2 ^ 15 + 1 / 2⌋ : ℝ) / 2 ^ 15

/-! ### wind_direction.py -/

/-- One slice `realization, y, x` of the input: the value of the leading coordinate (time), the number and field of each realization, the shape. -/
structure WdirSlice where
  key : ℤ
  h : ℕ
  w : ℕ
  members : List (ℤ × (ℕ → ℕ → ℝ))

/-- `np.mean(…, axis=realization)` at one point (wind_direction.py:124). -/
noncomputable def memberMean (zs : List ℂ) : ℂ := zs.sum / (zs.length : ℂ)

/-- `self.wdir_mean_complex` at a point (wind_direction.py:248, 124). -/
noncomputable def wdirMeanComplex (s : WdirSlice) (y x : ℕ) : ℂ := memberMean (s.members.map (fun m => degToComplex (m.2 y x)))

/-- `find_r_values` (wind_direction.py:146-149). -/
noncomputable def rValue (z : ℂ) : ℝ := Real.sqrt (z.re ^ 2 + z.im ^ 2)

/-- `where_low_r` (wind_direction.py:264, `r_thresh` at line 79). -/
noncomputable def lowR (s : WdirSlice) (y x : ℕ) : Prop := rValue (wdirMeanComplex s y x) < 1 / 100

/-- The lexicographic order of complex numbers used by `np.nanmin`, `np.nanmax` and `clip`. -/
def complexLexLe (a b : ℂ) : Prop := a.re < b.re ∨ (a.re = b.re ∧ a.im ≤ b.im)

/-- `clip(min, max)` of complex numbers (nbhood.py:312). -/
noncomputable def clipC (lo hi z : ℂ) : ℂ :=
  open Classical in
  let a := if complexLexLe lo z then z else lo
  if complexLexLe a hi then a else hi

/-- The sum over the square of `2r+1` by `2r+1` cells, zero beyond the edges (nbhood.py:397-399 for complex data, where the shortcuts of lines
353-382 are not taken). -/
noncomputable def boxSumC (h w r : ℕ) (f : ℕ → ℕ → ℂ) (y x : ℕ) : ℂ :=
  ∑ i ∈ Finset.Ico (y - r) (min h (y + r + 1)), ∑ j ∈ Finset.Ico (x - r) (min w (x + r + 1)), f i j

/-- The neighbourhood mean before the clip (nbhood.py:300-311); unmasked data. -/
noncomputable def boxMeanC (h w r : ℕ) (f : ℕ → ℕ → ℂ) (y x : ℕ) : ℂ := boxSumC h w r f y x / boxSumC h w r (fun _ _ => 1) y x

/-- The neighbourhood processing of one realization with `lo` and `hi` the extremes of its field (nbhood.py:265-266, 312). -/
noncomputable def nbhoodC (h w r : ℕ) (lo hi : ℂ) (f : ℕ → ℕ → ℂ) (y x : ℕ) : ℂ := clipC lo hi (boxMeanC h w r f y x)

inductive Backup where
  | firstRealization
  | neighbourhood
  deriving DecidableEq

/-- `WindDirection.__init__` (wind_direction.py:67-75). -/
def wdirInit (backup : String) : Except Err Backup :=
  if backup = "first_realization" then .ok .firstRealization
  else if backup = "neighbourhood" then .ok .neighbourhood
  else .error .valueError

/-- The smoothed mean direction (wind_direction.py:195-202).  `ext` gives the extremes of the complex field of each realization. -/
noncomputable def wdirSmoothed (s : WdirSlice) (r : ℕ) (ext : (ℕ → ℕ → ℂ) → ℂ × ℂ) (y x : ℕ) : ℝ :=
  complexToDeg (memberMean (s.members.map (fun m =>
    nbhoodC s.h s.w r (ext (fun i j => degToComplex (m.2 i j))).1 (ext (fun i j => degToComplex (m.2 i j))).2 (fun i j => degToComplex (m.2 i j)) y x)))

/-- `np.where(where_low_r, improved, mean)` (wind_direction.py:209-211). -/
noncomputable def wdirChoose (s : WdirSlice) (improved : ℕ → ℕ → ℝ) (y x : ℕ) : ℝ :=
  open Classical in if lowR s y x then improved y x else complexToDeg (wdirMeanComplex s y x)

/-- One pass of the loop of `process` (wind_direction.py:246-271) with `wind_dir_decider` (192-211).  `cells` is the number of cells in 6 km, or
`none` when neighbourhood processing refuses the grid.  `extract` of a realization that is not there gives `None`, whose `.data` raises. -/
noncomputable def wdirOne (backup : Backup) (cells : Option ℕ) (ext : (ℕ → ℕ → ℂ) → ℂ × ℂ) (s : WdirSlice) : Except Err (ℕ → ℕ → ℝ) :=
  open Classical in
  if ∃ y < s.h, ∃ x < s.w, lowR s y x then
    match backup with
    | .neighbourhood =>
      match cells with
      | none => .error .valueError
      | some r => .ok (wdirChoose s (wdirSmoothed s r ext))
    | .firstRealization =>
      match s.members.find? (fun m => m.1 == 0) with
      | none => .error .attributeError
      | some m => .ok (wdirChoose s m.2)
  else .ok (fun y x => complexToDeg (wdirMeanComplex s y x))

/-- The loop over the slices (wind_direction.py:243-271): each result is appended to the list that the object keeps. -/
noncomputable def wdirLoop (backup : Backup) (cells : Option ℕ) (ext : (ℕ → ℕ → ℂ) → ℂ × ℂ) :
    List WdirSlice → List (ℤ × (ℕ → ℕ → ℝ)) → Option Err × List (ℤ × (ℕ → ℕ → ℝ))
  | [], kept => (none, kept)
  | s :: rest, kept =>
    match wdirOne backup cells ext s with
    | .error e => (some e, kept)
    | .ok f => wdirLoop backup cells ext rest (kept ++ [(s.key, f)])

/-- `merge_cube` of the slices (wind_direction.py:274): the same leading coordinate twice raises, otherwise the slices are ordered by it. -/
def mergeSlices {α : Type} (l : List (ℤ × α)) : Except Err (List (ℤ × α)) :=
  if (l.map Prod.fst).Nodup then .ok (l.insertionSort (fun a b => a.1 ≤ b.1)) else .error .runtimeError

/-- `process` (wind_direction.py:213-283) with the list `wdir_cube_list` kept by the object.  `timeDim`: the leading coordinate is a dimension of
the input.  `check_cube_coordinates` (line 279) promotes a scalar leading coordinate and raises when there is a dimension too many.  Returns the
result and the list kept for the next call (slices already appended stay there when an exception is raised). -/
noncomputable def wdirProcess (backup : Backup) (cells : Option ℕ) (ext : (ℕ → ℕ → ℂ) → ℂ × ℂ) (kept : List (ℤ × (ℕ → ℕ → ℝ)))
    (timeDim : Bool) (slices : List WdirSlice) : Except Err (List (ℤ × (ℕ → ℕ → ℝ))) × List (ℤ × (ℕ → ℕ → ℝ)) :=
  match wdirLoop backup cells ext slices kept with
  | (some e, kept') => (.error e, kept')
  | (none, kept') =>
    match mergeSlices kept' with
    | .error e => (.error e, kept')
    | .ok merged => if !timeDim && decide (1 < merged.length) then (.error .coordinateNotFound, kept') else (.ok merged, kept')

/-! ### wind_gust_diagnostic.py -/

/-- `sub in name`. -/
def subStr (sub name : String) : Bool := decide (sub.toList <:+: name.toList)

/-- A percentile cube: names of its coordinates, points of the percentile coordinate, points and bounds of the time coordinate, and the values by
percentile, time and grid point. -/
structure GustCube where
  coords : List String
  percentiles : List ℚ
  times : Option (List ℚ)
  bounds : Option (List (ℚ × ℚ))
  data : ℕ → ℕ → ℕ → ℚ

/-- `find_percentile_coordinate` (metadata/probabilistic.py:232-248): the name. -/
def findPercentileName (coords : List String) : Except Err String :=
  match coords.filter (subStr "percentile") with
  | [] => .error .coordinateNotFound
  | [c] => .ok c
  | _ => .error .valueError

/-- `extract_percentile_data` (wind_gust_diagnostic.py:106-127): the position of the percentile and the name of the coordinate. -/
def extractPercentile (c : GustCube) (p : ℚ) : Except Err (ℕ × String) :=
  match findPercentileName c.coords with
  | .error e => .error e
  | .ok name => if p ∈ c.percentiles then .ok (c.percentiles.idxOf p, name) else .error .valueError

/-- The check of the times (wind_gust_diagnostic.py:161-176); `zip` stops at the shorter list. -/
def gustTimesOk (g w : GustCube) : Bool :=
  match g.times, w.times with
  | some tg, some tw =>
    if (List.zipWith (fun a b => decide (a = b)) tg tw).all id then true
    else match g.bounds with
      | none => false
      | some b => (List.zipWith (fun p (lu : ℚ × ℚ) => decide (lu.1 ≤ p) && decide (p ≤ lu.2)) tw b).all id
  | _, _ => false

/-- `np.maximum` of the two data arrays with broadcasting over time, and `copy(data=…)`, which wants the shape of the gust cube
(wind_gust_diagnostic.py:182-184). -/
def gustData (g w : GustCube) (ig iw ng nw : ℕ) : Except Err (ℕ → ℕ → ℚ) :=
  if ng = nw then .ok (fun t k => max (g.data ig t k) (w.data iw t k))
  else if nw = 1 then .ok (fun t k => max (g.data ig t k) (w.data iw 0 k))
  else .error .valueError

/-- `add_metadata` (wind_gust_diagnostic.py:78-83); the text of `str(self)` is not modelled. -/
def gustLabel (pg pw : ℚ) (selfText : String) : String :=
  if pg = 50 ∧ pw = 95 then "Typical gusts" else if pg = 95 ∧ pw = 100 then "Extreme gusts" else selfText

/-- `WindGustDiagnostic.process` (wind_gust_diagnostic.py:143-188): values, label and remaining coordinates. -/
def windGust (pg pw : ℚ) (selfText : String) (g w : GustCube) : Except Err ((ℕ → ℕ → ℚ) × String × List String) :=
  match extractPercentile g pg with
  | .error e => .error e
  | .ok (ig, ng) =>
    match extractPercentile w pw with
    | .error e => .error e
    | .ok (iw, nw) =>
      if ng ≠ nw then .error .valueError
      else if gustTimesOk g w = false then .error .valueError
      else match gustData g w ig iw ((g.times.getD []).length) ((w.times.getD []).length) with
        | .error e => .error e
        | .ok d => .ok (d, gustLabel pg pw selfText, g.coords.filter (fun c => decide (c ≠ ng)))

/-! ### wind_components.py -/

/-- A cube of wind directions as the caller's object: name, units and values.  The only units modelled are degrees and radians. -/
structure DirCube where
  name : String
  inDegrees : Bool
  data : ℕ → ℕ → ℝ

/-- `angle.convert_units("radians")` in place (wind_components.py:141). -/
noncomputable def dirToRadians (c : DirCube) : DirCube :=
  if c.inDegrees then { c with inDegrees := false, data := fun y x => c.data y x * Real.pi / 180 } else c

/-- Lines 141-146 of wind_components.py: the direction cube after the call. -/
noncomputable def dirAdjust (c : DirCube) (adj : ℕ → ℕ → ℝ) : DirCube :=
  let r := dirToRadians c
  { r with data := fun y x => if subStr "wind_from_direction" r.name then r.data y x + adj y x + Real.pi else r.data y x + adj y x }

/-- `resolve_wind_components` (wind_components.py:118-151): the components at each point, and the direction cube as it is left. -/
noncomputable def resolveWind (speed : ℕ → ℕ → ℝ) (c : DirCube) (adj : ℕ → ℕ → ℝ) : (ℕ → ℕ → ℝ × ℝ) × DirCube :=
  let a := dirAdjust c adj
  (fun y x => (speed y x * Real.sin (a.data y x), speed y x * Real.cos (a.data y x)), a)

/-- `ResolveWindComponents.process` (wind_components.py:153-207): names of the outputs with the components.  `matched` is the outcome of
`compare_coords`; `adj` that of `calc_true_north_offset` (a change of projection by cartopy, not modelled). -/
noncomputable def resolveProcess (speedName : String) (matched : Bool) (speed : ℕ → ℕ → ℝ) (c : DirCube) (adj : ℕ → ℕ → ℝ) :
    Except Err ((ℕ → ℕ → ℝ × ℝ) × DirCube) :=
  if subStr "wind_speed" speedName = false then .error .valueError
  else if subStr "wind" c.name = false ∨ subStr "direction" c.name = false then .error .valueError
  else if matched = false then .error .valueError
  else .ok (resolveWind speed c adj)

/-! ### vertical_updraught.py -/

/-- `_updraught_from_cape` (vertical_updraught.py:111-121). -/
noncomputable def updraughtCape (cape : ℝ) : ℝ := if cape < 10 then 0 else 0.25 * (2 * cape) ^ (0.5 : ℝ)

/-- `_updraught_increment_from_precip` (vertical_updraught.py:123-132). -/
noncomputable def updraughtPrecip (p : ℝ) : ℝ := if p < 5 then 0 else 7.33 * (p / 28.7) ^ (0.22 : ℝ)

/-- The sum (vertical_updraught.py:165-167). -/
noncomputable def updraught (cape p : ℝ) : ℝ := updraughtCape cape + updraughtPrecip p

/-- What `_parse_inputs` looks at: name, grid, time, bounds, forecast reference time, model identifier and physical
dimension of a cube. -/
structure UpCube where
  name : String
  grid : String
  time : ℤ
  bounds : Option (ℤ × ℤ)
  frt : ℤ
  model : Option String
  dim : String
  deriving DecidableEq

/-- `cubes.extract(names)` unpacked into two (vertical_updraught.py:63-68). -/
def upUnpack (cubes : List UpCube) : Except Err (UpCube × UpCube) :=
  match cubes.filter (fun c => c.name == "atmosphere_convective_available_potential_energy")
      ++ cubes.filter (fun c => c.name == "lwe_precipitation_rate_max") with
  | [a, b] => .ok (a, b)
  | _ => .error .valueError

/-- `_input_times_error` (vertical_updraught.py:90-109): true when there is an error. -/
def upTimesBad (cape precip : UpCube) : Bool :=
  if cape.bounds.isSome then true
  else if cape.frt ≠ precip.frt then true
  else match precip.bounds with
    | none => true
    | some b => decide (cape.time ≠ b.1)

/-- `_parse_inputs` (vertical_updraught.py:51-88); units convert to the wanted ones when the physical dimension is the right one (lines 77-78).  `idAttr`: a model identifier attribute was asked for. -/
def upParse (idAttr : Bool) (cubes : List UpCube) : Except Err (UpCube × UpCube) :=
  match upUnpack cubes with
  | .error e => .error e
  | .ok (cape, precip) =>
    if 2 < cubes.length then .error .valueError
    else if cubes.any (fun c => decide (c.grid ≠ cape.grid)) then .error .valueError
    else if upTimesBad cape precip then .error .valueError
    else if cape.dim ≠ "J kg-1" ∨ precip.dim ≠ "mm h-1" then .error .valueError
    else if idAttr then
      match cape.model, precip.model with
      | some a, some b => if a ≠ b then .error .valueError else .ok (cape, precip)
      | _, _ => .error .keyError
    else .ok (cape, precip)

end Improver
