import Verif.Model.LapseRun
import Verif.Props.LapseRate
import Verif.Props.CubeManip
import Verif.Props.ReliabilityRun

/-! ### C231: the command temp-lapse-rate -/

namespace Improver

/-- What the lapse rate of a point is: within the limits; the dry adiabatic lapse rate (clipped) at sea or where the land neighbours
of similar height have no spread of height or temperature; otherwise the clipped slope of the line fitted best to them. -/
def Spec.IsLapse (c : LapseCfg) (h w : ℕ) (temp orog : ℕ → ℕ → ℚ) (land : ℕ → ℕ → Bool) (y x : ℕ) (v : ℚ) : Prop :=
  c.minRate ≤ v ∧ v ≤ c.maxRate ∧
  (land y x = false → v = npClip (-98 / 10000) c.minRate c.maxRate) ∧
  (land y x = true →
    let nb := Spec.lapseNeighbours h w c.radius.toNat c.maxHeightDiff temp orog land y x
    ((Spec.variance (nb.map (·.1)) ≤ (1 / 10 ^ 8) ^ 2 ∨ Spec.variance (nb.map (·.2)) ≤ (1 / 10 ^ 8) ^ 2) →
      v = npClip (-98 / 10000) c.minRate c.maxRate) ∧
    ((1 / 10 ^ 8) ^ 2 < Spec.variance (nb.map (·.1)) → (1 / 10 ^ 8) ^ 2 < Spec.variance (nb.map (·.2)) →
      ∃ g k, v = npClip g c.minRate c.maxRate ∧ ∀ a b, Spec.sse nb g k ≤ Spec.sse nb a b))

/-- A value in the unit `u` of the field `c`. -/
def Spec.inUnit (c : UnitGrid) (v : ℚ) : ℚ := v * c.unit.scale + c.unit.offset

/-- The horizontal field of a cube with the other dimensions at the indices `a`. -/
def Spec.horizontal {α : Type} (c : DimCube α) (y x : String) (a : String → ℕ) (i j : ℕ) : α :=
  c.data (c.dims.map fun d => if d = y then i else if d = x then j else a d)

/-- Inputs the command can use: quantities of the right kind, orography and mask on the grid of the temperature. -/
structure Spec.LapseInputs (t : UnitGrid) (y x : String) (o : UnitGrid) (m : DimCube Bool × (String → ℕ)) : Prop where
  temperature : t.unit.dimension = "temperature"
  height : o.unit.dimension = "length"
  names : y ≠ x ∧ y ≠ "realization" ∧ x ≠ "realization" ∧ y ≠ "threshold" ∧ x ≠ "threshold"
  orog : y ∈ o.grid.dims ∧ x ∈ o.grid.dims
  mask : y ∈ m.1.dims ∧ x ∈ m.1.dims
  orogSize : o.size y = t.size y ∧ o.size x = t.size x
  maskSize : m.2 y = t.size y ∧ m.2 x = t.size x

theorem lapseField_spec (c : LapseCfg) (hc : lapseInit c = .ok c) (h w : ℕ) (temp orog : ℕ → ℕ → ℚ) (land : ℕ → ℕ → Bool) :
    ∃ s, lapseField c h w temp orog land = .ok s ∧
      ∀ i < h, ∀ j < w, Spec.IsLapse c h w temp orog land i j ((s.getD i []).getD j 0) := by
  have htot : ∃ s, lapseField c h w temp orog land = .ok s := by
    unfold lapseField
    apply mapM_total
    intro i hi
    apply mapM_total
    intro j hj
    obtain ⟨v, hv, _⟩ := C79_value c hc h w temp orog land i j (List.mem_range.1 hi) (List.mem_range.1 hj)
    exact ⟨v, hv⟩
  obtain ⟨s, hs⟩ := htot
  refine ⟨s, hs, ?_⟩
  intro i hi j hj
  unfold lapseField at hs
  obtain ⟨_, h1⟩ := mapM_range_get hs
  obtain ⟨row, e1, h2⟩ := h1 i hi
  obtain ⟨_, h3⟩ := mapM_range_get h2
  obtain ⟨v, e2, h4⟩ := h3 j hj
  have e : (s.getD i []).getD j 0 = v := by
    rw [List.getD_eq_getElem?_getD, List.getD_eq_getElem?_getD, e1]
    simp only [Option.getD_some, e2]
  rw [e]
  obtain ⟨v', hv', p1, p2⟩ := C79_value c hc h w temp orog land i j hi hj
  have : v' = v := by rw [h4] at hv'; exact (Except.ok.inj hv').symm
  subst this
  exact ⟨(C79_range c hc h w temp orog land i j v' h4).1, (C79_range c hc h w temp orog land i j v' h4).2, p1, p2⟩

theorem convert_ok (c : UnitGrid) (u : StdUnit) (h : c.unit.dimension = u.dimension) (hs : u.scale = 1) (ho : u.offset = 0) :
    c.convert u = .ok ⟨⟨c.grid.dims, fun i => Spec.inUnit c (c.grid.data i)⟩, c.size, u⟩ := by
  unfold UnitGrid.convert
  rw [if_neg (by simpa using h)]
  congr 3
  funext i
  unfold convertUnit Spec.inUnit
  rw [hs, ho]
  ring

theorem filterMap_not_threshold (l : List String) (h : ∀ d ∈ l, d ≠ "threshold") :
    l.filterMap (fun n => if n = "threshold" then (none : Option String) else some n) = l := by
  induction l with
  | nil => rfl
  | cons d l ih =>
    rw [List.filterMap_cons, if_neg (h d (by simp))]
    dsimp only
    rw [ih fun e he => h e (by simp [he])]

theorem lapseInit_ok {c : LapseCfg} (hc : lapseInit c = .ok c) : c.minRate ≤ c.maxRate ∧ 0 ≤ c.radius ∧ 0 ≤ c.maxHeightDiff :=
  (C79_config c).1.1 hc

theorem tempLapse_open (c : LapseCfg) (hc : lapseInit c = .ok c) (t : UnitGrid) (y x : String) (o : UnitGrid)
    (m : DimCube Bool × (String → ℕ)) : tempLapseRate c false t y x (some o) (some m) = lapseProcess c t y x o m.1 m.2 := by
  obtain ⟨h1, h2, h3⟩ := lapseInit_ok hc
  unfold tempLapseRate
  rw [if_neg (by simp), if_neg (by exact not_lt.2 h1), if_neg (not_lt.2 h3), if_neg (not_lt.2 h2)]

/-- C231.  For a temperature with a realization dimension, wherever it stands, and rows before columns: the result has the dimensions
of the temperature in the same order, and at every realization and point the lapse rate computed from that realization alone. -/
theorem C231_realizations (c : LapseCfg) (hc : lapseInit c = .ok c) (t : UnitGrid) (y x : String) (o : UnitGrid)
    (m : DimCube Bool × (String → ℕ)) (hin : Spec.LapseInputs t y x o m) (hnd : t.grid.dims.Nodup)
    (hr : "realization" ∈ t.grid.dims) (hrest : t.grid.dims.filter (fun d => decide (d ≠ "realization")) = [y, x]) :
    ∃ out, tempLapseRate c false t y x (some o) (some m) = .ok out ∧ out.unit = kelvinPerMetre ∧ out.grid.dims = t.grid.dims ∧
      out.size = t.size ∧
      ∀ a : String → ℕ, a "realization" < t.size "realization" → a y < t.size y → a x < t.size x →
        Spec.IsLapse c (t.size y) (t.size x) (fun i j => Spec.inUnit t (Spec.horizontal t.grid y x a i j))
          (fun i j => Spec.inUnit o (Spec.horizontal o.grid y x (fun _ => 0) i j)) (Spec.horizontal m.1 y x fun _ => 0)
          (a y) (a x) (out.grid.data (t.grid.dims.map a)) := by
  obtain ⟨hxy, hyr, hxr, hyt, hxt⟩ := hin.names
  rw [tempLapse_open c hc]
  unfold lapseProcess
  simp only [bind, Except.bind, pure, Except.pure, hc, convert_ok t kelvin hin.temperature rfl rfl,
    convert_ok o metre hin.height rfl rfl]
  have ho : firstField (⟨o.grid.dims, fun i => Spec.inUnit o (o.grid.data i)⟩ : DimCube ℚ) y x
      = .ok fun i j => Spec.inUnit o (Spec.horizontal o.grid y x (fun _ => 0) i j) := by
    unfold firstField; rw [if_pos hin.orog]; rfl
  have hm : firstField m.1 y x = .ok (Spec.horizontal m.1 y x fun _ => 0) := by
    unfold firstField; rw [if_pos hin.mask]; rfl
  rw [ho, hm]
  dsimp only
  rw [if_neg (not_not.2 ⟨hin.orogSize.1.trans hin.maskSize.1.symm, hin.orogSize.2.trans hin.maskSize.2.symm⟩), if_pos hr]
  have hco : coordsToReorder t.grid.dims none ["realization"] = ["realization"] := by
    unfold coordsToReorder
    simp [hr]
  obtain ⟨g, hg, hgd, hgv⟩ := C51_ordering (⟨t.grid.dims, fun i => Spec.inUnit t (t.grid.data i)⟩ : DimCube ℚ) hnd none ["realization"]
    (by rw [hco]; simp) true
  dsimp only at hgd hgv
  rw [hg]
  dsimp only
  have hgd' : g.dims = ["realization", y, x] := by
    rw [hgd, if_pos rfl, hco, List.cons_append, List.nil_append]
    congr 1
    rw [← hrest]
    apply List.filter_congr
    intro d _
    simp
  rw [hgd']
  dsimp only
  rw [if_neg (not_not.2 ⟨hin.maskSize.1.symm, hin.maskSize.2.symm⟩)]
  have htot : ∃ s, ((List.range (t.size "realization")).mapM fun r => lapseField c (t.size y) (t.size x) (fun i j => g.data [r, i, j])
      (fun i j => Spec.inUnit o (Spec.horizontal o.grid y x (fun _ => 0) i j)) (Spec.horizontal m.1 y x fun _ => 0)) = .ok s := by
    apply mapM_total
    intro r _
    obtain ⟨s, hs, _⟩ := lapseField_spec c hc (t.size y) (t.size x) (fun i j => g.data [r, i, j])
      (fun i j => Spec.inUnit o (Spec.horizontal o.grid y x (fun _ => 0) i j)) (Spec.horizontal m.1 y x fun _ => 0)
    exact ⟨s, hs⟩
  obtain ⟨s, hs⟩ := htot
  rw [hs]
  dsimp only
  have hall : ∀ d, d ∈ t.grid.dims ↔ d = "realization" ∨ d = y ∨ d = x := by
    intro d
    constructor
    · intro hd
      by_cases e : d = "realization"
      · exact Or.inl e
      · have : d ∈ t.grid.dims.filter (fun d => decide (d ≠ "realization")) := List.mem_filter.2 ⟨hd, by simpa using e⟩
        rw [hrest] at this
        simpa using Or.inr this
    · rintro (e | e | e)
      · rw [e]; exact hr
      · have : d ∈ t.grid.dims.filter (fun d => decide (d ≠ "realization")) := by rw [hrest]; simp [e]
        exact (List.mem_filter.1 this).1
      · have : d ∈ t.grid.dims.filter (fun d => decide (d ≠ "realization")) := by rw [hrest]; simp [e]
        exact (List.mem_filter.1 this).1
  have hco2 : coordsToReorder ["realization", y, x] none t.grid.dims = t.grid.dims := by
    unfold coordsToReorder
    have e1 : t.grid.dims.filterMap (fun n => if n = "threshold" then none else some n) = t.grid.dims := by
      apply filterMap_not_threshold
      intro d hd
      rcases (hall d).1 hd with e | e | e <;> simp [e, hyt, hxt]
    rw [e1, List.filter_eq_self]
    intro d hd
    have := (hall d).1 hd
    simpa using this
  obtain ⟨out, hout, hod, hov⟩ := C51_ordering (⟨["realization", y, x], stackAt s⟩ : DimCube ℚ)
    (by simp [hxy, Ne.symm hyr, Ne.symm hxr]) none t.grid.dims (by rw [hco2]; exact hnd) true
  rw [hout]
  dsimp only at hod hov ⊢
  have hod' : out.dims = t.grid.dims := by
    rw [hod, if_pos rfl, hco2]
    have : ["realization", y, x].filter (fun n => decide (n ∉ t.grid.dims)) = [] := by
      rw [List.filter_eq_nil_iff]
      intro d hd
      have : d ∈ t.grid.dims := (hall d).2 (by simpa using hd)
      simpa using this
    rw [this, List.append_nil]
  refine ⟨_, rfl, rfl, hod', rfl, ?_⟩
  intro a har hay hax
  have hv := hov a
  rw [hod'] at hv
  rw [hv]
  simp only [List.map_cons, List.map_nil]
  obtain ⟨_, h1⟩ := mapM_range_get hs
  obtain ⟨fld, e1, h2⟩ := h1 _ har
  obtain ⟨s', hs', h3⟩ := lapseField_spec c hc (t.size y) (t.size x) (fun i j => g.data [a "realization", i, j])
      (fun i j => Spec.inUnit o (Spec.horizontal o.grid y x (fun _ => 0) i j)) (Spec.horizontal m.1 y x fun _ => 0)
  have : s' = fld := by rw [h2] at hs'; exact (Except.ok.inj hs').symm
  subst this
  have e : stackAt s [a "realization", a y, a x] = (s'.getD (a y) []).getD (a x) 0 := by
    show ((s.getD (a "realization") []).getD (a y) []).getD (a x) 0 = _
    rw [List.getD_eq_getElem?_getD (l := s), e1]
    rfl
  rw [e]
  have hT : (fun i j => g.data [a "realization", i, j]) = fun i j => Spec.inUnit t (Spec.horizontal t.grid y x a i j) := by
    funext i j
    have := hgv (fun d => if d = y then i else if d = x then j else a d)
    rw [hgd'] at this
    simp only [List.map_cons, List.map_nil, if_neg (Ne.symm hyr), if_neg (Ne.symm hxr), if_true, if_neg (Ne.symm hxy)] at this
    rw [this]
    rfl
  rw [← hT]
  exact h3 _ hay _ hax

/-- C231.  Without realizations, rows before columns and more than one row and column, the result is the field of lapse rates. -/
theorem C231_single (c : LapseCfg) (hc : lapseInit c = .ok c) (t : UnitGrid) (y x : String) (o : UnitGrid)
    (m : DimCube Bool × (String → ℕ)) (hin : Spec.LapseInputs t y x o m) (hd : t.grid.dims = [y, x])
    (h1 : t.size y ≠ 1) (h2 : t.size x ≠ 1) :
    ∃ out, tempLapseRate c false t y x (some o) (some m) = .ok out ∧ out.unit = kelvinPerMetre ∧ out.grid.dims = t.grid.dims ∧
      out.size = t.size ∧
      ∀ i < t.size y, ∀ j < t.size x,
        Spec.IsLapse c (t.size y) (t.size x) (fun i j => Spec.inUnit t (t.grid.data [i, j]))
          (fun i j => Spec.inUnit o (Spec.horizontal o.grid y x (fun _ => 0) i j)) (Spec.horizontal m.1 y x fun _ => 0)
          i j (out.grid.data [i, j]) := by
  obtain ⟨hxy, hyr, hxr, hyt, hxt⟩ := hin.names
  rw [tempLapse_open c hc]
  unfold lapseProcess
  simp only [bind, Except.bind, pure, Except.pure, hc, convert_ok t kelvin hin.temperature rfl rfl,
    convert_ok o metre hin.height rfl rfl]
  have ho : firstField (⟨o.grid.dims, fun i => Spec.inUnit o (o.grid.data i)⟩ : DimCube ℚ) y x
      = .ok fun i j => Spec.inUnit o (Spec.horizontal o.grid y x (fun _ => 0) i j) := by
    unfold firstField; rw [if_pos hin.orog]; rfl
  have hm : firstField m.1 y x = .ok (Spec.horizontal m.1 y x fun _ => 0) := by
    unfold firstField; rw [if_pos hin.mask]; rfl
  rw [ho, hm]
  dsimp only
  rw [if_neg (not_not.2 ⟨hin.orogSize.1.trans hin.maskSize.1.symm, hin.orogSize.2.trans hin.maskSize.2.symm⟩),
    if_neg (by rw [hd]; simp [Ne.symm hyr, Ne.symm hxr]), hd]
  dsimp only
  rw [if_neg (not_not.2 ⟨hin.maskSize.1.symm, hin.maskSize.2.symm⟩)]
  obtain ⟨s, hs, hv⟩ := lapseField_spec c hc (t.size y) (t.size x) (fun i j => Spec.inUnit t (t.grid.data [i, j]))
      (fun i j => Spec.inUnit o (Spec.horizontal o.grid y x (fun _ => 0) i j)) (Spec.horizontal m.1 y x fun _ => 0)
  rw [hs]
  dsimp only
  rw [if_neg (by rintro (e | e); exacts [h1 e, h2 e])]
  exact ⟨_, rfl, rfl, rfl, rfl, hv⟩

/-- C231.  What the command refuses, and what it gives for `dry_adiabatic`. -/
theorem C231_options (c : LapseCfg) (t : UnitGrid) (y x : String) (o : Option UnitGrid) (m : Option (DimCube Bool × (String → ℕ))) :
    (∃ out, tempLapseRate c true t y x o m = .ok out ∧ out.grid.dims = t.grid.dims ∧ out.size = t.size ∧ out.unit = kelvinPerMetre ∧
      ∀ i, out.grid.data i = -98 / 10000) ∧
    ((c.maxRate < c.minRate ∨ c.maxHeightDiff < 0 ∨ c.radius < 0) → tempLapseRate c false t y x o m = .error .valueError) ∧
    (lapseInit c = .ok c → (o = none ∨ m = none) → tempLapseRate c false t y x o m = .error .runtimeError) := by
  refine ⟨⟨_, rfl, rfl, rfl, rfl, fun _ => rfl⟩, ?_, ?_⟩
  · intro h
    unfold tempLapseRate
    rw [if_neg (by simp)]
    by_cases h1 : c.minRate > c.maxRate
    · rw [if_pos h1]
    · rw [if_neg h1]
      by_cases h2 : c.maxHeightDiff < 0
      · rw [if_pos h2]
      · rw [if_neg h2, if_pos]
        rcases h with h | h | h
        · exact absurd h h1
        · exact absurd h h2
        · exact h
  · intro hc h
    obtain ⟨h1, h2, h3⟩ := lapseInit_ok hc
    unfold tempLapseRate
    rw [if_neg (by simp), if_neg (by exact not_lt.2 h1), if_neg (not_lt.2 h3), if_neg (not_lt.2 h2)]
    rcases h with rfl | rfl
    · rfl
    · cases o <;> rfl

/-- C231 (limits).  One row or one column is refused when there is no realization dimension; with a realization dimension of length one
the same temperatures are accepted. -/
theorem C231_thin_refuted (c : LapseCfg) (hc : lapseInit c = .ok c) (t : UnitGrid) (y x : String) (o : UnitGrid)
    (m : DimCube Bool × (String → ℕ)) (hin : Spec.LapseInputs t y x o m) (hd : t.grid.dims = [y, x])
    (h1 : t.size y = 1 ∨ t.size x = 1) :
    tempLapseRate c false t y x (some o) (some m) = .error .valueError ∧
    ∃ out, tempLapseRate c false ⟨⟨["realization", y, x], fun i => t.grid.data i.tail⟩, fun d => if d = "realization" then 1 else t.size d,
      t.unit⟩ y x (some o) (some m) = .ok out := by
  obtain ⟨hxy, hyr, hxr, hyt, hxt⟩ := hin.names
  constructor
  · rw [tempLapse_open c hc]
    unfold lapseProcess
    simp only [bind, Except.bind, pure, Except.pure, hc, convert_ok t kelvin hin.temperature rfl rfl,
      convert_ok o metre hin.height rfl rfl]
    have ho : firstField (⟨o.grid.dims, fun i => Spec.inUnit o (o.grid.data i)⟩ : DimCube ℚ) y x
        = .ok fun i j => Spec.inUnit o (Spec.horizontal o.grid y x (fun _ => 0) i j) := by
      unfold firstField; rw [if_pos hin.orog]; rfl
    have hm : firstField m.1 y x = .ok (Spec.horizontal m.1 y x fun _ => 0) := by
      unfold firstField; rw [if_pos hin.mask]; rfl
    rw [ho, hm]
    dsimp only
    rw [if_neg (not_not.2 ⟨hin.orogSize.1.trans hin.maskSize.1.symm, hin.orogSize.2.trans hin.maskSize.2.symm⟩),
      if_neg (by rw [hd]; simp [Ne.symm hyr, Ne.symm hxr]), hd]
    dsimp only
    rw [if_neg (not_not.2 ⟨hin.maskSize.1.symm, hin.maskSize.2.symm⟩)]
    obtain ⟨s, hs, hv⟩ := lapseField_spec c hc (t.size y) (t.size x) (fun i j => Spec.inUnit t (t.grid.data [i, j]))
        (fun i j => Spec.inUnit o (Spec.horizontal o.grid y x (fun _ => 0) i j)) (Spec.horizontal m.1 y x fun _ => 0)
    rw [hs]
    dsimp only
    rw [if_pos h1]
  · obtain ⟨out, h, _⟩ := C231_realizations c hc ⟨⟨["realization", y, x], fun i => t.grid.data i.tail⟩,
      fun d => if d = "realization" then 1 else t.size d, t.unit⟩ y x o m
      ⟨hin.temperature, hin.height, hin.names, hin.orog, hin.mask,
        by simpa only [if_neg hyr, if_neg hxr] using hin.orogSize, by simpa only [if_neg hyr, if_neg hxr] using hin.maskSize⟩
      (by simp [hxy, Ne.symm hyr, Ne.symm hxr]) (by simp) (by simp [hyr, hxr])
    exact ⟨out, h⟩

/-- A field of 2 x 2 points in Celsius with its dimensions in the order given. -/
def Spec.lapseExample (dims : List String) (f : ℕ → ℕ → ℚ) : UnitGrid :=
  ⟨⟨dims, fun i => match i with | [a, b] => f a b | _ => 0⟩, fun _ => 2, ⟨"temperature", 1, 27315 / 100⟩⟩

/-- C231 (limits).  A temperature whose columns come before its rows, on a square grid, is combined with the orography and the mask
as if rows came first: the result is another lapse rate than for the same temperatures with rows first. -/
theorem C231_order_refuted :
    ∃ (t t' : UnitGrid) (o : UnitGrid) (m : DimCube Bool × (String → ℕ)) (r r' : UnitGrid),
      t.grid.dims = ["y", "x"] ∧ t'.grid.dims = ["x", "y"] ∧ (∀ i j, t'.grid.data [j, i] = t.grid.data [i, j]) ∧
      t'.size = t.size ∧ t'.unit = t.unit ∧ Spec.LapseInputs t "y" "x" o m ∧ Spec.LapseInputs t' "y" "x" o m ∧
      tempLapseRate { radius := 1 } false t "y" "x" (some o) (some m) = .ok r ∧
      tempLapseRate { radius := 1 } false t' "y" "x" (some o) (some m) = .ok r' ∧
      r.grid.data [1, 0] ≠ r'.grid.data [0, 1] := by
  let o : UnitGrid := ⟨⟨["y", "x"], fun i => match i with | [a, b] => (10 * a + 3 * b : ℚ) | _ => 0⟩, fun _ => 2, metre⟩
  let m : DimCube Bool × (String → ℕ) := (⟨["y", "x"], fun _ => true⟩, fun _ => 2)
  let t := Spec.lapseExample ["y", "x"] fun a b => 10 - (10 * a + 3 * b : ℚ) / 200
  let t' := Spec.lapseExample ["x", "y"] fun b a => 10 - (10 * a + 3 * b : ℚ) / 200
  have e1 : ((tempLapseRate { radius := 1 } false t "y" "x" (some o) (some m)).toOption.map fun r => r.grid.data [1, 0])
      = some (-5 / 1000) := by decide +kernel
  have e2 : ((tempLapseRate { radius := 1 } false t' "y" "x" (some o) (some m)).toOption.map fun r => decide (r.grid.data [0, 1] = -5 / 1000))
      = some false := by decide +kernel
  cases h1 : tempLapseRate { radius := 1 } false t "y" "x" (some o) (some m) with
  | error e => rw [h1] at e1; exact absurd e1 (by simp [Except.toOption])
  | ok r =>
    cases h2 : tempLapseRate { radius := 1 } false t' "y" "x" (some o) (some m) with
    | error e => rw [h2] at e2; exact absurd e2 (by simp [Except.toOption])
    | ok r' =>
      rw [h1] at e1
      rw [h2] at e2
      simp only [Except.toOption, Option.map_some, Option.some.injEq, decide_eq_false_iff_not] at e1 e2
      refine ⟨t, t', o, m, r, r', rfl, rfl, fun i j => rfl, rfl, rfl, ?_, ?_, h1, h2, ?_⟩
      · exact ⟨rfl, rfl, by decide +kernel, by decide +kernel, by decide +kernel, ⟨rfl, rfl⟩, ⟨rfl, rfl⟩⟩
      · exact ⟨rfl, rfl, by decide +kernel, by decide +kernel, by decide +kernel, ⟨rfl, rfl⟩, ⟨rfl, rfl⟩⟩
      · rw [e1]; exact Ne.symm e2

/-- Concrete case: two realizations as the last dimension, in Celsius; the second has half the slope of the first, one point is sea. -/
example :
    let t : UnitGrid := ⟨⟨["y", "x", "realization"], fun i => match i with
      | [a, b, r] => 10 - (10 * a + 3 * b : ℚ) / (200 * (r + 1)) | _ => 0⟩, fun _ => 2, ⟨"temperature", 1, 27315 / 100⟩⟩
    let o : UnitGrid := ⟨⟨["y", "x"], fun i => match i with | [a, b] => (10 * a + 3 * b : ℚ) | _ => 0⟩, fun _ => 2, metre⟩
    let m : DimCube Bool × (String → ℕ) := (⟨["y", "x"], fun i => decide (i ≠ [0, 0])⟩, fun _ => 2)
    t.grid.dims.filter (fun d => decide (d ≠ "realization")) = ["y", "x"] ∧
    ((tempLapseRate { radius := 1 } false t "y" "x" (some o) (some m)).toOption.map fun r =>
      (r.grid.dims, r.grid.data [1, 1, 0], r.grid.data [1, 1, 1], r.grid.data [0, 0, 0])) =
      some (["y", "x", "realization"], -5 / 1000, -25 / 10000, -98 / 10000) := by decide +kernel

end Improver
