import Verif.Model.Psychro

/-!
Model of improver/psychrometric_calculations/hail_size.py, improver/psychrometric_calculations/cloud_top_temperature.py
and improver/psychrometric_calculations/cloud_condensation_level.py.

Floating point arithmetic is replaced by the reals; masked values and NaN are `none`; cube metadata, coordinate
ordering and unit conversion are not modelled.
-/

namespace Improver

/-! ## Hail size -/

/-- `np.around(x, decimals=0)`: to the nearest whole number, halves to even. -/
noncomputable def rintR (x : ℝ) : ℤ :=
  open Classical in
  if x - ⌊x⌋ < 1 / 2 then ⌊x⌋
  else if 1 / 2 < x - ⌊x⌋ then ⌊x⌋ + 1
  else if ⌊x⌋ % 2 = 0 then ⌊x⌋ else ⌊x⌋ + 1

/-- `HailSize.nomogram_values` (hail_size.py:94-148). -/
def hailNomogram : List (List ℤ) := [
  [0, 0, 0, 2, 2, 5, 5, 5, 5, 5],
  [0, 0, 0, 2, 5, 5, 5, 5, 10, 10],
  [0, 0, 2, 2, 5, 5, 10, 10, 15, 15],
  [0, 0, 2, 2, 5, 10, 15, 15, 20, 20],
  [0, 0, 2, 2, 10, 15, 20, 20, 20, 20],
  [0, 2, 2, 5, 15, 20, 20, 20, 25, 25],
  [0, 2, 5, 10, 20, 20, 25, 25, 30, 30],
  [2, 2, 10, 15, 20, 25, 30, 30, 35, 35],
  [2, 5, 10, 20, 25, 30, 35, 35, 40, 40],
  [2, 5, 15, 20, 30, 35, 40, 40, 45, 45],
  [2, 5, 15, 20, 30, 40, 40, 40, 45, 50],
  [2, 10, 20, 25, 35, 40, 45, 45, 50, 50],
  [5, 10, 20, 25, 40, 40, 45, 50, 55, 55],
  [5, 15, 20, 30, 40, 45, 50, 55, 60, 60],
  [5, 15, 25, 30, 40, 45, 55, 60, 60, 65],
  [5, 15, 25, 35, 40, 50, 55, 60, 65, 75],
  [10, 15, 25, 35, 45, 50, 60, 65, 70, 80],
  [10, 15, 25, 40, 45, 55, 60, 70, 80, 85],
  [10, 15, 30, 40, 45, 55, 65, 75, 85, 90],
  [10, 20, 30, 40, 50, 60, 70, 80, 90, 100],
  [10, 20, 30, 40, 50, 60, 70, 80, 95, 105],
  [10, 20, 35, 45, 50, 60, 75, 85, 100, 110],
  [10, 20, 35, 45, 50, 60, 75, 90, 105, 115],
  [15, 25, 35, 45, 50, 65, 80, 100, 110, 120],
  [15, 25, 35, 45, 55, 65, 80, 100, 110, 120],
  [15, 25, 35, 50, 55, 65, 80, 100, 110, 120]]

/-- The keys of `HailSize.updated_nomogram` (hail_size.py:167-174). -/
def hailHeights : List ℤ := [3350, 3550, 3750, 3950, 4150, 4400]

/-- `hail_groups` (hail_size.py:175). -/
def hailGroups : List ℤ := [5, 10, 20, 25, 50, 75, 100, 125]

/-- The values of `HailSize.updated_nomogram` (hail_size.py:167-174). -/
def hailUpdated : List (List ℤ) := [
  [0, 5, 10, 15, 25, 50, 65, 75],
  [0, 0, 5, 10, 20, 20, 25, 30],
  [0, 0, 0, 5, 10, 15, 15, 15],
  [0, 0, 0, 0, 5, 10, 10, 10],
  [0, 0, 0, 0, 0, 0, 5, 5],
  [0, 0, 0, 0, 0, 0, 0, 0]]

/-- A table entry; outside the table (an IndexError) 0, proved not to be reached. -/
def tableAt (t : List (List ℤ)) (i j : ℕ) : ℤ := (t.getD i []).getD j 0

/-- Row and column of the nomogram (hail_size.py:316-332): `none` is a masked value, filled with 0. -/
noncomputable def hailCell (vertical horizontal : Option ℝ) : ℕ × ℕ :=
  match vertical, horizontal with
  | some v, some h =>
    let vr := rintR (v * 2)
    let hr := rintR (h / 5) - 1
    if vr ≥ 0 ∧ hr ≥ 0 then ((min vr 25).toNat, (min hr 9).toNat) else (0, 0)
  | _, _ => (0, 0)

/-- `bisect_right` on a sorted list: how many entries are at most `x`. -/
noncomputable def bisectRight (l : List ℤ) (x : ℝ) : ℕ :=
  open Classical in (l.filter fun k : ℤ => decide ((k : ℝ) ≤ x)).length

/-- A Python row index, negative ones counting from the end. -/
def pyRow (len : ℕ) (i : ℤ) : ℕ := if i < 0 then (len + i).toNat else i.toNat

/-- `updated_hail_size` (hail_size.py:344-367) at one point. -/
noncomputable def updatedHail (size : ℤ) (wetBulb : ℝ) : ℤ :=
  tableAt hailUpdated (pyRow 6 ((bisectRight hailHeights wetBulb : ℤ) - 1)) (bisectRight hailGroups size)

/-- `get_hail_size` (hail_size.py:289-342) at one point, in mm; a NaN or masked wet bulb zero height compares false. -/
noncomputable def hailSizeMm (vertical horizontal wetBulb : Option ℝ) : ℤ :=
  let cell := hailCell vertical horizontal
  let size := tableAt hailNomogram cell.1 cell.2
  match wetBulb with
  | some w => open Classical in if w ≥ 3300 then updatedHail size w else size
  | none => size

/-- `hail_size_data` (hail_size.py:369-433) at one point, in m: `p268` is the pressure of the 268.15 K level, missing if
there is none.  Points whose condensation level is colder than 268.15 K are masked. -/
noncomputable def hailSize (solve : (ℝ → ℝ) → ℝ → ℝ) (cclT cclP : ℝ) (p268 wetBulbZero : Option ℝ) : ℝ :=
  let q := saturatedHumidity cclT cclP
  let masked (x : ℝ) : Option ℝ := open Classical in if cclT < 268.15 then none else some x
  let horizontal := p268.bind fun p => masked (dryTemperature 268.15 p cclP - 268.15)
  let vertical := p268.bind fun p => masked ((adjustLatent solve (dryTemperature cclT cclP p) q p).1 - 268.15)
  (hailSizeMm vertical horizontal wetBulbZero : ℝ) / 1000

/-! ## Cloud top temperature -/

/-- Temperature of the parcel at pressure `p` (cloud_top_temperature.py:71-78). -/
noncomputable def parcelT (solve : (ℝ → ℝ) → ℝ → ℝ) (cclT cclP p : ℝ) : ℝ :=
  (adjustLatent solve (dryTemperature cclT cclP p) (saturatedHumidity cclT cclP) p).1

open Classical in
/-- The loop of `_calculate_cct` (cloud_top_temperature.py:66-93) over the pressure levels, on `n` points: `live` are the
points not yet masked, `cct` the cloud top temperature so far.  A level is its pressure and its temperatures. -/
noncomputable def cctLoop (n : ℕ) (parcel : ℕ → ℝ → ℝ) (cclP : ℕ → ℝ) :
    List (ℝ × (ℕ → ℝ)) → (ℕ → Bool) → (ℕ → ℝ) → ℕ → ℝ
  | [], _, cct => cct
  | (p, env) :: rest, live, cct =>
    let live' := fun i => live i && !(decide (parcel i p < env i) && decide (p < cclP i))
    let cct' := fun i => if live' i then parcel i p else cct i
    if (List.range n).all (fun i => !live' i) then cct' else cctLoop n parcel cclP rest live' cct'

open Classical in
/-- `_calculate_cct` (cloud_top_temperature.py:50-96): `none` where masked for being within 4 K of the cloud base. -/
noncomputable def cloudTop (n : ℕ) (solve : (ℝ → ℝ) → ℝ → ℝ) (cclT cclP : ℕ → ℝ) (levels : List (ℝ × (ℕ → ℝ))) (i : ℕ) :
    Option ℝ :=
  let cct := cctLoop n (fun i p => parcelT solve (cclT i) (cclP i) p) cclP levels (fun _ => true) cclT i
  if cclT i - cct < 4 then none else some cct

/-! ## Cloud condensation level -/

/-- `_iterate_to_ccl` (cloud_condensation_level.py:116-138) at one point, the root finder being a parameter: pressure and
temperature. -/
noncomputable def condensationLevel (solve : (ℝ → ℝ) → ℝ → ℝ) (t p q : ℝ) : ℝ × ℝ :=
  let p2 := solve (fun p2 => q - saturatedHumidity (dryTemperature t p p2) p2) p
  (p2, dryTemperature t p p2)

end Improver
