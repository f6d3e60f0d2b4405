import Verif.Model.LevelRun
import Verif.Props.FillLevels
import Mathlib.Data.List.InsertIdx
import Mathlib.Data.List.Forall2

/-! C249: extraction of a level. -/

namespace Improver

namespace Spec

/-- The indices `idx` are inArray an array of this shape. -/
def inArray (idx shape : List ℕ) : Prop := List.Forall₂ (· < ·) idx shape

/-- The values of a cube along its vertical dimension, the `lev`-th, at the other indices `rest`. -/
def columnOf (c : LevelsCube) (lev : ℕ) (rest : List ℕ) : List (Option ℚ) := (List.range c.levels.length).map fun k => c.data (rest.take lev ++ k :: rest.drop lev)

/-- The cube is as iris makes them: dimensions have different names and the vertical one has its levels. -/
def wellMade (c : LevelsCube) (coordinate : String) (lev : ℕ) : Prop :=
  (c.dims.map Prod.fst).Nodup ∧ c.dims[lev]? = some (coordinate, c.levels.length)

end Spec

open Spec

theorem mem_arrayIndices (shape idx : List ℕ) : idx ∈ arrayIndices shape ↔ inArray idx shape := by
  unfold inArray
  induction shape generalizing idx with
  | nil => simp [arrayIndices]
  | cons n t ih =>
    simp only [arrayIndices, List.mem_flatMap, List.mem_range, List.mem_map]
    constructor
    · rintro ⟨i, hi, r, hr, rfl⟩
      exact List.Forall₂.cons hi ((ih r).1 hr)
    · intro h
      cases h with
      | cons hi hr => exact ⟨_, hi, _, (ih _).2 hr, rfl⟩

theorem insertIdx_eq_take {α : Type} (l : List α) (i : ℕ) (a : α) (h : i ≤ l.length) : l.insertIdx i a = l.take i ++ a :: l.drop i := by
  induction l generalizing i with
  | nil =>
    have : i = 0 := by simpa using h
    subst this
    rfl
  | cons b t ih =>
    cases i with
    | zero => rfl
    | succ i => simp [List.insertIdx_succ_cons, ih i (by simpa using h)]

theorem inArray_insert {rest shape : List ℕ} {lev n k : ℕ} (h : inArray rest (shape.eraseIdx lev)) (hl : shape[lev]? = some n) (hk : k < n) :
    inArray (rest.insertIdx lev k) shape := by
  unfold inArray at *
  induction lev generalizing rest shape with
  | zero =>
    cases shape with
    | nil => exact nomatch hl
    | cons a t =>
      simp only [List.getElem?_cons_zero, Option.some.injEq] at hl
      subst hl
      exact List.Forall₂.cons hk h
  | succ lev ih =>
    cases shape with
    | nil => exact nomatch hl
    | cons a t =>
      rw [List.eraseIdx_cons_succ] at h
      rw [List.getElem?_cons_succ] at hl
      cases h with
      | cons ha hr => exact List.Forall₂.cons ha (ih hr hl)

theorem columnAt_length (lev n : ℕ) (data : List ℕ → Option ℚ) (rest : List ℕ) : (columnAt lev n data rest).length = n := by
  simp [columnAt]

theorem oneWayFill_length (inc : ℚ) (b : Bool) (col : List (Option ℚ)) : (oneWayFill inc b col).length = col.length := by
  unfold oneWayFill
  cases b <;> simp [fillFrom_length]

theorem fillFrom_complete (inc : ℚ) (last : Option ℚ) (col : List (Option ℚ)) (h : col.all Option.isSome = true) : fillFrom inc last col = col := by
  induction col generalizing last with
  | nil => rfl
  | cons x t ih =>
    cases x with
    | none => simp at h
    | some v =>
      simp only [List.all_cons, Option.isSome_some, Bool.true_and] at h
      simp [fillFrom, ih _ h]

theorem oneWayFill_complete (inc : ℚ) (b : Bool) (col : List (Option ℚ)) (h : col.all Option.isSome = true) : oneWayFill inc b col = col := by
  unfold oneWayFill
  cases b
  · simp [fillFrom_complete _ _ _ h]
  · rw [if_pos rfl, fillFrom_complete _ _ _ (by rw [List.all_reverse]; exact h), List.reverse_reverse]

theorem columnAt_pass (inc : ℚ) (b : Bool) (lev n : ℕ) (data : List ℕ → Option ℚ) (rest : List ℕ) (h : lev ≤ rest.length) :
    columnAt lev n (fillPass inc b lev n data) rest = oneWayFill inc b (columnAt lev n data rest) := by
  have hlen := (oneWayFill_length inc b (columnAt lev n data rest)).trans (columnAt_length lev n data rest)
  apply List.ext_getElem
  · rw [columnAt_length, hlen]
  · intro k h1 h2
    rw [columnAt_length] at h1
    simp only [columnAt, List.getElem_map, List.getElem_range]
    unfold fillPass
    rw [List.eraseIdx_insertIdx_self]
    have : (rest.insertIdx lev k).getD lev 0 = k := by
      rw [List.getD_eq_getElem?_getD, List.getElem?_insertIdx_self, if_pos h]
      rfl
    rw [this]
    show ((oneWayFill inc b (columnAt lev n data rest))[k]?).join = _
    rw [List.getElem?_eq_getElem h2]
    rfl

theorem complete_column {shape : List ℕ} {data : List ℕ → Option ℚ} (h : nothingMissing shape data = true) {lev n : ℕ} (hl : shape[lev]? = some n)
    {rest : List ℕ} (hr : inArray rest (shape.eraseIdx lev)) : (columnAt lev n data rest).all Option.isSome = true := by
  unfold nothingMissing at h
  rw [List.all_eq_true] at h ⊢
  intro x hx
  simp only [columnAt, List.mem_map, List.mem_range] at hx
  obtain ⟨k, hk, rfl⟩ := hx
  exact h _ ((mem_arrayIndices _ _).2 (inArray_insert hr hl hk))

/-- The columns of the filled array are the filled columns. -/
theorem fillLevels_column (inc : ℚ) (shape : List ℕ) (lev n : ℕ) (data : List ℕ → Option ℚ) (hl : shape[lev]? = some n) (rest : List ℕ)
    (hr : inArray rest (shape.eraseIdx lev)) : columnAt lev n (fillLevels inc shape lev n data) rest = fillColumn inc (columnAt lev n data rest) := by
  have hlen : lev ≤ rest.length := by
    have h1 := hr.length_eq
    have h2 : lev < shape.length := by
      by_contra hc
      rw [List.getElem?_eq_none (by omega)] at hl
      exact nomatch hl
    rw [List.length_eraseIdx, if_pos h2] at h1
    omega
  unfold fillLevels fillColumn
  by_cases h1 : nothingMissing shape data = true
  · rw [if_pos h1]
    have hc := complete_column h1 hl hr
    simp only [oneWayFill_complete _ _ _ hc, if_pos hc]
  · rw [if_neg h1]
    by_cases h2 : nothingMissing shape (fillPass inc true lev n data) = true
    · rw [if_pos h2]
      have hc := complete_column h2 hl hr
      rw [columnAt_pass _ _ _ _ _ _ hlen] at hc ⊢
      simp only [if_pos hc]
    · rw [if_neg h2, columnAt_pass _ _ _ _ _ _ hlen, columnAt_pass _ _ _ _ _ _ hlen]
      by_cases h3 : (oneWayFill inc true (columnAt lev n data rest)).all Option.isSome = true
      · simp only [if_pos h3, oneWayFill_complete _ _ _ h3]
      · simp only [if_neg h3]

/-- What a column is after filling: values stay; a missing one is the next above less a step for each level between, or, if there is none above, the last below plus
a step for each level between; a column without values stays missing. -/
def Spec.filledWith (step : ℚ) (col f : List (Option ℚ)) : Prop :=
  f.length = col.length ∧ ∀ i, i < col.length →
    (∀ v, col[i]? = some (some v) → f[i]? = some (some v)) ∧
    (∀ j v, i < j → col[j]? = some (some v) → (∀ k, i ≤ k → k < j → col[k]? = some none) → f[i]? = some (some (v - ((j : ℚ) - i) * step))) ∧
    (∀ j v, j < i → col[j]? = some (some v) → (∀ k, j < k → k < col.length → col[k]? = some none) → f[i]? = some (some (v + ((i : ℚ) - j) * step))) ∧
    ((∀ k, k < col.length → col[k]? = some none) → f[i]? = some none)

/-- The step: up the column if the variable grows with the coordinate and this ascends, or neither; down otherwise. -/
def Spec.fillStep (positive : Bool) (levels : List ℚ) (digits : ℤ) (step : ℚ) : Prop :=
  ((positive = true ↔ levels.Pairwise (· < ·)) → step = 1 / 10 ^ digits) ∧ (¬ (positive = true ↔ levels.Pairwise (· < ·)) → step = -(1 / 10 ^ digits))

theorem levelsAscend_iff (l : List ℚ) : levelsAscend l = true ↔ l.Pairwise (· < ·) := by
  rw [← List.isChain_iff_pairwise]
  induction l with
  | nil => simp [levelsAscend]
  | cons a t ih =>
    cases t with
    | nil => simp [levelsAscend]
    | cons b u =>
      simp only [levelsAscend, Bool.and_eq_true, decide_eq_true_eq, ih, List.isChain_cons_cons, gt_iff_lt, sub_pos]

theorem fillIncrement_step (positive : Bool) (levels : List ℚ) (digits : ℤ) : fillStep positive levels digits (fillIncrement positive (levelsAscend levels) digits) := by
  obtain ⟨h1, h2⟩ := C175_increment positive (levelsAscend levels) digits
  have e : positive = levelsAscend levels ↔ (positive = true ↔ levels.Pairwise (· < ·)) := by
    rw [← levelsAscend_iff]
    exact Bool.eq_iff_iff
  exact ⟨fun h => h1 (e.2 h), fun h => h2 fun h' => h (e.1 h')⟩

theorem fillColumn_filledWith (inc : ℚ) (col : List (Option ℚ)) : filledWith inc col (fillColumn inc col) := by
  refine ⟨?_, fun i hi => C175_values inc col i hi⟩
  unfold fillColumn
  simp only
  split <;> simp [oneWayFill_length]

/-- The unique outcome. -/
theorem filledWith_unique {inc : ℚ} {col f g : List (Option ℚ)} (hf : filledWith inc col f) (hg : filledWith inc col g) : f = g := by
  apply List.ext_getElem?
  intro i
  by_cases hi : i < col.length
  · obtain ⟨a1, a2, a3, a4⟩ := hf.2 i hi
    obtain ⟨b1, b2, b3, b4⟩ := hg.2 i hi
    cases hc : col[i] with
    | some v =>
      have : col[i]? = some (some v) := by rw [List.getElem?_eq_getElem hi, hc]
      rw [a1 v this, b1 v this]
    | none =>
      have hnone : col[i]? = some none := by rw [List.getElem?_eq_getElem hi, hc]
      have hsome : ∀ k (hk : k < col.length), col[k]? ≠ some none → ∃ v, col[k]? = some (some v) := by
        intro k hk hne
        rw [List.getElem?_eq_getElem hk] at hne ⊢
        cases hv : col[k] with
        | none => rw [hv] at hne; exact absurd rfl hne
        | some v => exact ⟨v, rfl⟩
      by_cases hup : ∃ j, i < j ∧ j < col.length ∧ col[j]? ≠ some none
      · classical
        let j := Nat.find hup
        obtain ⟨h1, h2, h3⟩ := Nat.find_spec hup
        obtain ⟨v, hv⟩ := hsome j h2 h3
        have hbetween : ∀ k, i ≤ k → k < j → col[k]? = some none := by
          intro k hk hkj
          rcases Nat.eq_or_lt_of_le hk with rfl | hlt
          · exact hnone
          · have := Nat.find_min hup hkj
            by_contra hne
            exact this ⟨hlt, by omega, hne⟩
        rw [a2 j v h1 hv hbetween, b2 j v h1 hv hbetween]
      · have hup' : ∀ k, i < k → k < col.length → col[k]? = some none := by
          intro k h1 h2
          by_contra hne
          exact hup ⟨k, h1, h2, hne⟩
        by_cases hdown : ∃ d, d ≤ i ∧ col[i - d]? ≠ some none
        · classical
          let d := Nat.find hdown
          obtain ⟨h1, h3⟩ := Nat.find_spec hdown
          have hd0 : 0 < d := by
            rcases Nat.eq_zero_or_pos d with h0 | h0
            · exfalso
              apply h3
              have : Nat.find hdown = 0 := h0
              rw [this, Nat.sub_zero]
              exact hnone
            · exact h0
          obtain ⟨v, hv⟩ := hsome (i - d) (by omega) h3
          have hafter : ∀ k, i - d < k → k < col.length → col[k]? = some none := by
            intro k h4 h5
            by_cases hki : i < k
            · exact hup' k hki h5
            · have := Nat.find_min hdown (m := i - k) (by show i - k < d; omega)
              by_contra hne
              exact this ⟨by omega, by rw [show i - (i - k) = k by omega]; exact hne⟩
          have hlt : i - d < i := by
            have : d ≤ i := h1
            omega
          rw [a3 (i - d) v hlt hv hafter, b3 (i - d) v hlt hv hafter]
        · have hall : ∀ k, k < col.length → col[k]? = some none := by
            intro k hk
            by_cases hki : i < k
            · exact hup' k hki hk
            · by_contra hne
              exact hdown ⟨i - k, by omega, by rw [show i - (i - k) = k by omega]; exact hne⟩
          rw [a4 hall, b4 hall]
  · rw [List.getElem?_eq_none (by rw [hf.1]; omega), List.getElem?_eq_none (by rw [hg.1]; omega)]

/-- The vertical coordinate as the code takes it. -/
theorem levelCoordinate_ok (c : LevelsCube) (s : String) : levelCoordinate c = .ok s ↔
    (s = "pressure" ∧ "pressure" ∈ c.dims.map Prod.fst ++ c.others ∧ "height" ∉ c.dims.map Prod.fst ++ c.others) ∨
    (s = "height" ∧ "height" ∈ c.dims.map Prod.fst ++ c.others ∧ "pressure" ∉ c.dims.map Prod.fst ++ c.others) := by
  unfold levelCoordinate
  simp only
  generalize c.dims.map Prod.fst ++ c.others = names
  by_cases hp : "pressure" ∈ names
  · by_cases hh : "height" ∈ names
    · rw [if_pos ⟨hh, hp⟩]
      simp [hp, hh]
    · rw [if_neg fun h => hh h.1, if_pos hp]
      simp only [Except.ok.injEq, hp, hh, not_false_eq_true, and_true, false_and, and_false, or_false]
      exact eq_comm
  · rw [if_neg fun h => hp h.2, if_neg hp]
    by_cases hh : "height" ∈ names
    · rw [if_pos hh]
      simp only [Except.ok.injEq, hp, hh, not_false_eq_true, and_true, false_and, and_false, false_or]
      exact eq_comm
    · rw [if_neg hh]
      simp [hp, hh]

/-- The number of the vertical dimension. -/
theorem wellMade_index {c : LevelsCube} {s : String} {lev : ℕ} (h : wellMade c s lev) :
    s ∈ c.dims.map Prod.fst ∧ (c.dims.map Prod.fst).idxOf s = lev ∧ (c.dims.map Prod.snd)[lev]? = some c.levels.length := by
  obtain ⟨hn, hl⟩ := h
  have hlt : lev < c.dims.length := by
    by_contra hc
    rw [List.getElem?_eq_none (by omega)] at hl
    exact nomatch hl
  rw [List.getElem?_eq_getElem hlt, Option.some.injEq] at hl
  have hs : (c.dims.map Prod.fst)[lev]'(by simpa using hlt) = s := by rw [List.getElem_map, hl]
  refine ⟨hs ▸ List.getElem_mem _, ?_, ?_⟩
  · rw [← hs]
    exact hn.idxOf_getElem lev _
  · rw [List.getElem?_map, List.getElem?_eq_getElem hlt, hl]
    rfl

/-- Slices by realization put the columns where they belong when realization is the first of the other dimensions. -/
theorem slices_leading {c : LevelsCube} {s : String} {lev : ℕ} (h : wellMade c s lev) (hs : s ≠ "realization")
    (hr : ((c.dims.eraseIdx lev).map Prod.fst).head? = some "realization") :
    let names := c.dims.map Prod.fst
    let r := names.idxOf "realization"
    let lev' := (names.eraseIdx r).idxOf s
    ((c.dims.eraseIdx lev).map Prod.snd).tail = ((c.dims.eraseIdx r).eraseIdx lev').map Prod.snd ∧
    ∀ (data : List ℕ → Option ℚ) (interp : List (Option ℚ) → Option ℚ) (n i : ℕ) (rest : List ℕ),
      bySlices interp lev' n r data (i :: rest) = interp (columnAt lev n data (i :: rest)) := by
  obtain ⟨-, hidx, -⟩ := wellMade_index h
  obtain ⟨hn, hl⟩ := h
  intro names r lev'
  cases lev with
  | zero =>
    cases hd : c.dims with
    | nil => rw [hd] at hl; exact nomatch hl
    | cons a t =>
      rw [hd] at hl hr hn
      simp only [List.getElem?_cons_zero, Option.some.injEq] at hl
      simp only [List.eraseIdx_cons_zero] at hr
      cases t with
      | nil => exact nomatch hr
      | cons b u =>
        simp only [List.map_cons, List.head?_cons, Option.some.injEq] at hr
        have ha : a.1 = s := by rw [hl]
        have er : r = 1 := by
          show (c.dims.map Prod.fst).idxOf "realization" = 1
          rw [hd, List.map_cons, List.map_cons, List.idxOf_cons_ne _ (by rw [ha]; exact hs), hr, List.idxOf_cons_self]
        have el : lev' = 0 := by
          show (names.eraseIdx r).idxOf s = 0
          rw [er]
          show ((c.dims.map Prod.fst).eraseIdx 1).idxOf s = 0
          rw [hd, List.map_cons, List.map_cons, List.eraseIdx_cons_succ, List.eraseIdx_cons_zero, ha, List.idxOf_cons_self]
        rw [er, el]
        refine ⟨rfl, fun data interp n i rest => ?_⟩
        rfl
  | succ l =>
    cases hd : c.dims with
    | nil => rw [hd] at hl; exact nomatch hl
    | cons a t =>
      rw [hd] at hl hr hn hidx
      rw [List.getElem?_cons_succ] at hl
      rw [List.eraseIdx_cons_succ, List.map_cons, List.head?_cons, Option.some.injEq] at hr
      have er : r = 0 := by
        show (c.dims.map Prod.fst).idxOf "realization" = 0
        rw [hd, List.map_cons, hr, List.idxOf_cons_self]
      have el : lev' = l := by
        show (names.eraseIdx r).idxOf s = l
        rw [er]
        show ((c.dims.map Prod.fst).eraseIdx 0).idxOf s = l
        rw [hd, List.map_cons, List.eraseIdx_cons_zero]
        rw [List.map_cons, List.idxOf_cons_ne _ (by rw [hr]; exact fun e => hs e.symm)] at hidx
        exact Nat.succ.inj hidx
      rw [er, el]
      refine ⟨?_, fun data interp n i rest => ?_⟩
      · rw [List.eraseIdx_cons_succ, List.eraseIdx_cons_zero, List.map_cons, List.tail_cons]
      · rfl

theorem columnAt_columnOf (c : LevelsCube) (lev : ℕ) (rest : List ℕ) (h : lev ≤ rest.length) :
    columnAt lev c.levels.length c.data rest = columnOf c lev rest := by
  unfold columnAt columnOf
  exact List.map_congr_left fun k _ => by rw [insertIdx_eq_take _ _ _ h]

/-- C249.  From a cube with one vertical coordinate, pressure or height, that is a dimension, and with realization, if it is a dimension, first among the others, a
level is extracted: at each point the value is what the interpolation gives for the column of that point, filled, and the levels; the other dimensions stay in
their order, the unit is that of the coordinate and the name tells the coordinate, the value and the unit of the variable. -/
theorem C249_values (positive : Bool) (valueText : String) (interp : List (Option ℚ) → List ℚ → Option ℚ) (c : LevelsCube) (s : String) (lev : ℕ)
    (hs : s = "pressure" ∧ "height" ∉ c.dims.map Prod.fst ++ c.others ∨ s = "height" ∧ "pressure" ∉ c.dims.map Prod.fst ++ c.others)
    (hc : wellMade c s lev) (hr : "realization" ∈ c.dims.map Prod.fst → ((c.dims.eraseIdx lev).map Prod.fst).head? = some "realization") :
    ∃ o after step, extractLevel positive valueText interp c = .ok (o, after) ∧ fillStep positive c.levels (c.digits.getD 2) step ∧
      o.dims = c.dims.eraseIdx lev ∧ o.units = c.levelUnits ∧
      o.name = (if s = "pressure" then "pressure_of_atmosphere_at_" else "height_at_") ++ valueText ++ c.units ∧
      ∀ idx, inArray idx (o.dims.map Prod.snd) → ∀ f, filledWith step (columnOf c lev idx) f → o.data idx = interp f c.levels := by
  obtain ⟨hmem, hidx, hlen⟩ := wellMade_index hc
  have hcoord : levelCoordinate c = .ok s := by
    rw [levelCoordinate_ok]
    rcases hs with ⟨rfl, h⟩ | ⟨rfl, h⟩
    · exact Or.inl ⟨rfl, List.mem_append_left _ hmem, h⟩
    · exact Or.inr ⟨rfl, List.mem_append_left _ hmem, h⟩
  have hsr : s ≠ "realization" := by
    rcases hs with ⟨rfl, -⟩ | ⟨rfl, -⟩ <;> decide
  have hname : levelName s valueText c.units = (if s = "pressure" then "pressure_of_atmosphere_at_" else "height_at_") ++ valueText ++ c.units := by
    unfold levelName
    by_cases h : s = "pressure"
    · rw [if_pos h, if_pos h]
    · rw [if_neg h, if_neg h]
  have hshape : ∀ idx, inArray idx ((c.dims.eraseIdx lev).map Prod.snd) → inArray idx ((c.dims.map Prod.snd).eraseIdx lev) := by
    intro idx h
    rw [List.eraseIdx_map] at *
    exact h
  have hle : ∀ idx, inArray idx ((c.dims.map Prod.snd).eraseIdx lev) → lev ≤ idx.length := by
    intro idx h
    have h1 := h.length_eq
    have h2 : lev < (c.dims.map Prod.snd).length := by
      by_contra hcon
      rw [List.getElem?_eq_none (by omega)] at hlen
      exact nomatch hlen
    rw [List.length_eraseIdx, if_pos h2] at h1
    omega
  have hval : ∀ idx, inArray idx ((c.dims.eraseIdx lev).map Prod.snd) → ∀ f, filledWith (fillIncrement positive (levelsAscend c.levels) (c.digits.getD 2)) (columnOf c lev idx) f →
      columnAt lev c.levels.length (fillLevels (fillIncrement positive (levelsAscend c.levels) (c.digits.getD 2)) (c.dims.map Prod.snd) lev c.levels.length c.data) idx = f := by
    intro idx h f hf
    have h' := hshape idx h
    rw [fillLevels_column _ _ _ _ _ hlen _ h', columnAt_columnOf _ _ _ (hle idx h')]
    exact filledWith_unique (fillColumn_filledWith _ _) hf
  unfold extractLevel
  rw [hcoord]
  simp only [bind, Except.bind, pure, Except.pure]
  rw [if_neg (not_not.2 hmem), hidx]
  by_cases hreal : "realization" ∈ c.dims.map Prod.fst
  · obtain ⟨e1, e2⟩ := slices_leading hc hsr (hr hreal)
    rw [if_pos hreal, if_pos e1]
    refine ⟨_, _, _, rfl, fillIncrement_step _ _ _, rfl, rfl, hname, fun idx hw f hf => ?_⟩
    cases hd : idx with
    | nil =>
      exfalso
      rw [hd] at hw
      have := hr hreal
      generalize c.dims.eraseIdx lev = l at hw this
      cases l with
      | nil => exact nomatch this
      | cons a t => exact nomatch hw
    | cons i rest =>
      simp only
      rw [e2, ← hd, hval idx hw f hf]
  · rw [if_neg hreal]
    refine ⟨_, _, _, rfl, fillIncrement_step _ _ _, rfl, rfl, hname, fun idx hw f hf => ?_⟩
    simp only
    rw [hval idx hw f hf]

/-- C249.  What is refused: no vertical coordinate, both, or one that is not a dimension. -/
theorem C249_refused (positive : Bool) (valueText : String) (interp : List (Option ℚ) → List ℚ → Option ℚ) (c : LevelsCube) :
    ("pressure" ∈ c.dims.map Prod.fst ++ c.others → "height" ∈ c.dims.map Prod.fst ++ c.others → extractLevel positive valueText interp c = .error .notImplemented) ∧
    ("pressure" ∉ c.dims.map Prod.fst ++ c.others → "height" ∉ c.dims.map Prod.fst ++ c.others → extractLevel positive valueText interp c = .error .coordinateNotFound) ∧
    (∀ s, s = "pressure" ∨ s = "height" → s ∈ c.others → "pressure" ∉ c.dims.map Prod.fst → "height" ∉ c.dims.map Prod.fst →
      ∃ e, extractLevel positive valueText interp c = .error e) := by
  have hl : levelCoordinate c = (if "height" ∈ c.dims.map Prod.fst ++ c.others ∧ "pressure" ∈ c.dims.map Prod.fst ++ c.others then .error .notImplemented
      else if "pressure" ∈ c.dims.map Prod.fst ++ c.others then .ok "pressure"
      else if "height" ∈ c.dims.map Prod.fst ++ c.others then .ok "height"
      else .error .coordinateNotFound) := rfl
  refine ⟨fun h1 h2 => ?_, fun h1 h2 => ?_, fun s hs hm h1 h2 => ?_⟩
  · unfold extractLevel
    rw [hl, if_pos ⟨h2, h1⟩]
    rfl
  · unfold extractLevel
    rw [hl, if_neg fun h => h1 h.2, if_neg h1, if_neg h2]
    rfl
  · unfold extractLevel
    cases he : levelCoordinate c with
    | error e => exact ⟨e, rfl⟩
    | ok u =>
      have hu : u ∉ c.dims.map Prod.fst := by
        rcases (levelCoordinate_ok c u).1 he with ⟨rfl, -⟩ | ⟨rfl, -⟩
        · exact h1
        · exact h2
      simp only [bind, Except.bind]
      rw [if_pos hu]
      exact ⟨_, rfl⟩

/-- C249.  The value of a point depends on its own column only. -/
theorem C249_own_column (positive : Bool) (valueText : String) (interp : List (Option ℚ) → List ℚ → Option ℚ) (c : LevelsCube) (s : String) (lev : ℕ)
    (hs : s = "pressure" ∧ "height" ∉ c.dims.map Prod.fst ++ c.others ∨ s = "height" ∧ "pressure" ∉ c.dims.map Prod.fst ++ c.others)
    (hc : wellMade c s lev) (hr : "realization" ∈ c.dims.map Prod.fst → ((c.dims.eraseIdx lev).map Prod.fst).head? = some "realization")
    (other : List ℕ → Option ℚ) (idx : List ℕ) (hi : inArray idx ((c.dims.eraseIdx lev).map Prod.snd)) (o o' : LevelOut) (after after' : List ℕ → Option ℚ)
    (h : extractLevel positive valueText interp c = .ok (o, after)) (h' : extractLevel positive valueText interp { c with data := other } = .ok (o', after'))
    (hsame : columnOf { c with data := other } lev idx = columnOf c lev idx) : o'.data idx = o.data idx := by
  obtain ⟨o1, a1, s1, e1, f1, d1, -, -, v1⟩ := C249_values positive valueText interp c s lev hs hc hr
  obtain ⟨o2, a2, s2, e2, f2, d2, -, -, v2⟩ := C249_values positive valueText interp { c with data := other } s lev hs hc hr
  rw [h] at e1
  rw [h'] at e2
  injection e1 with e1
  injection e2 with e2
  injection e1 with e1
  injection e2 with e2
  subst e1 e2
  have hst : s2 = s1 := by
    by_cases hp : positive = true ↔ c.levels.Pairwise (· < ·)
    · rw [f1.1 hp, f2.1 hp]
    · rw [f1.2 hp, f2.2 hp]
  subst hst
  rw [v1 idx (by rw [d1]; exact hi) _ (fillColumn_filledWith _ _), v2 idx (by rw [d2]; exact hi) _ (fillColumn_filledWith _ _), hsame]

/-- A cube with realization before the levels. -/
def sampleLevels : LevelsCube :=
  ⟨[("realization", 2), ("pressure", 3), ("x", 2)], ["time"], [3, 2, 1], "Pa", "K", none, fun i =>
    if i = [0, 2, 1] then none else some (i.getD 0 0 * 100 + i.getD 1 0 * 10 + i.getD 2 0)⟩

example : wellMade sampleLevels "pressure" 1 := ⟨by decide +kernel, rfl⟩
example : (extractLevel true "5.0" (fun col _ => col.getD 2 none) sampleLevels).toOption.map (fun p => (p.1.name, p.1.dims, [[0, 0], [0, 1], [1, 0], [1, 1]].map p.1.data)) =
    some ("pressure_of_atmosphere_at_5.0K", [("realization", 2), ("x", 2)], [some 20, some (11 - 1 / 100), some 120, some 121]) := by decide +kernel

/-- Finding: the missing values of the caller's cube are filled. -/
theorem C249_input_filled_refuted : ∃ (c : LevelsCube) (interp : List (Option ℚ) → List ℚ → Option ℚ) (idx : List ℕ), inArray idx (c.dims.map Prod.snd) ∧
    c.data idx = none ∧ (extractLevel true "5.0" interp c).toOption.map (fun p => p.2 idx) = some (some (11 - 1 / 100)) :=
  ⟨sampleLevels, fun col _ => col.getD 2 none, [0, 2, 1], by
    simp only [inArray, sampleLevels, List.map]
    exact .cons (by decide) (.cons (by decide) (.cons (by decide) .nil)), by decide +kernel, by decide +kernel⟩

/-- Finding: with realization after other dimensions of the same length, values are put at other points without an error. -/
theorem C249_realization_order_refuted : ∃ (c : LevelsCube) (interp : List (Option ℚ) → List ℚ → Option ℚ) (idx : List ℕ), wellMade c "pressure" 0 ∧
    inArray idx ((c.dims.eraseIdx 0).map Prod.snd) ∧
    ∃ o, (extractLevel true "5.0" interp c).toOption.map (fun p => p.1.data idx) = some o ∧ o ≠ interp (columnOf c 0 idx) c.levels :=
  ⟨⟨[("pressure", 1), ("x", 2), ("realization", 2)], [], [3], "Pa", "K", none, fun i => some (i.getD 1 0 * 10 + i.getD 2 0)⟩, fun col _ => col.getD 0 none, [0, 1],
    ⟨by decide +kernel, rfl⟩, .cons (by decide) (.cons (by decide) .nil), some 10, by decide +kernel, by decide +kernel⟩

end Improver
