import Verif.Model.Extraction
import Mathlib.Data.List.Basic
import Mathlib.Data.List.Forall2
import Mathlib.Data.List.Nodup
import Mathlib.Tactic.Linarith
import Mathlib.Tactic.Positivity
import Mathlib.Tactic.FieldSimp

/-! Properties of the extraction of parts of a cube (C174). -/

namespace Improver

/-! ### Ranges -/

/-- C174: of a range given in either order, with no negative end, every point is kept, ends included; nothing is kept
that lies beyond an end by more than a ten-millionth of it. -/
theorem C174_range {a b : ℚ} (ha : 0 ≤ a) (hb : 0 ≤ b) (p : ℚ) :
    (min a b ≤ p → p ≤ max a b → (sortedConstraint a b).holds p = true) ∧
    ((sortedConstraint a b).holds p = true →
      min a b - 1 / 10000000 * min a b ≤ p ∧ p ≤ max a b + 1 / 10000000 * max a b) := by
  have h1 : 0 ≤ min a b := le_min ha hb
  have h2 : 0 ≤ max a b := le_trans ha (le_max_left _ _)
  unfold sortedConstraint XTest.holds
  dsimp only
  rw [decide_eq_true_eq]
  constructor
  · intro h h'
    constructor <;> nlinarith
  · rintro ⟨h, h'⟩
    constructor <;> nlinarith

/-- C174 finding: a negative end is moved inwards, not outwards: a negative lower end or a negative upper end is not in
its own range. -/
theorem C174_range_negative_refuted {lo hi : ℚ} (h : lo ≤ hi) :
    (lo < 0 → (sortedConstraint lo hi).holds lo = false) ∧ (hi < 0 → (sortedConstraint lo hi).holds hi = false) := by
  unfold sortedConstraint XTest.holds
  dsimp only
  rw [min_eq_left h, max_eq_right h]
  constructor
  · intro h0
    rw [decide_eq_false_iff_not]
    rintro ⟨h1, _⟩
    nlinarith
  · intro h0
    rw [decide_eq_false_iff_not]
    rintro ⟨_, h1⟩
    nlinarith

example : (sortedConstraint 10 (-5)).holds (-5) = false ∧ (sortedConstraint 10 5).holds 5 = true := by
  constructor <;> decide +kernel

/-! ### Extraction -/

/-- The indices address a cell of the grid with these coordinates. -/
inductive Spec.Located : List XAxis → List ℕ → List ℚ → Prop
  | nil : Spec.Located [] [] []
  | cons {a : XAxis} {axes i idx p pts} : a.points[i]? = some p → Spec.Located axes idx pts →
      Spec.Located (a :: axes) (i :: idx) (p :: pts)

/-- The cube has the value in a cell with these coordinates. -/
def Spec.cell {V : Type} (c : XCube V) (pts : List ℚ) (v : V) : Prop :=
  ∃ idx, Spec.Located c.axes idx pts ∧ c.data idx = v

/-- A point of the axis in the unit the constraints are in. -/
def Spec.inUnits (us : List (String × ℚ)) (a : XAxis) (p : ℚ) : ℚ :=
  match us.find? fun u => decide (u.1 = a.name) with
  | none => p
  | some u => p * a.scale / u.2

/-- Every coordinate passes all constraints on its axis. -/
def Spec.allPass (tests : List (String × XTest)) (us : List (String × ℚ)) (axes : List XAxis) (pts : List ℚ) : Prop :=
  List.Forall₂ (fun a p => ∀ t ∈ tests, t.1 = a.name → t.2.holds (Spec.inUnits us a p) = true) axes pts

theorem select_located (axes : List XAxis) (ls : List (List ℕ)) (hl : List.Forall₂ (fun (a : XAxis) l => ∀ i ∈ l, i < a.points.length) axes ls)
    (idx : List ℕ) (pts : List ℚ) :
    Spec.Located (List.zipWith XAxis.select axes ls) idx pts →
      Spec.Located axes (List.zipWith (fun (l : List ℕ) i => l.getD i 0) ls idx) pts ∧
      List.Forall₂ (fun i (l : List ℕ) => i ∈ l) (List.zipWith (fun (l : List ℕ) i => l.getD i 0) ls idx) ls := by
  induction hl generalizing idx pts with
  | nil => intro h; cases h; exact ⟨.nil, .nil⟩
  | @cons a l axes' ls' hal htl ih =>
    intro h
    rw [List.zipWith_cons_cons] at h
    cases h with
    | cons hp hrest =>
      rename_i i idx' p pts'
      obtain ⟨h1, h2⟩ := ih _ _ hrest
      unfold XAxis.select at hp
      rw [List.getElem?_map] at hp
      cases hi : l[i]? with
      | none => rw [hi] at hp; exact nomatch hp
      | some j =>
        rw [hi] at hp
        have hj := List.mem_of_getElem? hi
        have hd : l.getD i 0 = j := by rw [List.getD_eq_getElem?_getD, hi]; rfl
        rw [List.zipWith_cons_cons, hd]
        refine ⟨.cons ?_ h1, .cons hj h2⟩
        rw [Option.map_some, Option.some.injEq] at hp
        rw [← hp, List.getD_eq_getElem?_getD, List.getElem?_eq_getElem (hal j hj)]
        rfl

theorem located_select (axes : List XAxis) (ls : List (List ℕ)) (idx : List ℕ) (pts : List ℚ)
    (h : Spec.Located axes idx pts) (hm : List.Forall₂ (fun i (l : List ℕ) => i ∈ l) idx ls) :
    ∃ idx', Spec.Located (List.zipWith XAxis.select axes ls) idx' pts ∧
      List.zipWith (fun (l : List ℕ) i => l.getD i 0) ls idx' = idx := by
  induction h generalizing ls with
  | nil => cases hm; exact ⟨[], .nil, rfl⟩
  | cons hp _ ih =>
    rename_i a axes' i idx' p pts' _
    cases hm with
    | cons hi hrest =>
      rename_i l ls'
      obtain ⟨idx'', h1, h2⟩ := ih _ hrest
      obtain ⟨j, hj, hji⟩ := List.getElem_of_mem hi
      refine ⟨j :: idx'', ?_, ?_⟩
      · rw [List.zipWith_cons_cons]
        refine .cons ?_ h1
        unfold XAxis.select
        rw [List.getElem?_map, List.getElem?_eq_getElem hj, hji, Option.map_some, List.getD_eq_getElem?_getD, hp]
        rfl
      · rw [List.zipWith_cons_cons, h2, List.getD_eq_getElem?_getD, List.getElem?_eq_getElem hj, hji]
        rfl

theorem select_cell {V : Type} (c : XCube V) (ls : List (List ℕ))
    (hl : List.Forall₂ (fun (a : XAxis) l => ∀ i ∈ l, i < a.points.length) c.axes ls) (pts : List ℚ) (v : V) :
    Spec.cell (c.select ls) pts v ↔
      ∃ idx, Spec.Located c.axes idx pts ∧ List.Forall₂ (fun i (l : List ℕ) => i ∈ l) idx ls ∧ c.data idx = v := by
  constructor
  · rintro ⟨idx, h, hv⟩
    obtain ⟨h1, h2⟩ := select_located c.axes ls hl idx pts h
    exact ⟨_, h1, h2, hv⟩
  · rintro ⟨idx, h, hm, hv⟩
    obtain ⟨idx', h1, h2⟩ := located_select c.axes ls idx pts h hm
    refine ⟨idx', h1, ?_⟩
    change c.data (List.zipWith (fun (l : List ℕ) i => l.getD i 0) ls idx') = v
    rw [h2, hv]

/-- Dimensions do not matter for where cells are. -/
theorem located_points {axes axes' : List XAxis} (h : List.Forall₂ (fun a b : XAxis => b.points = a.points) axes axes')
    (idx : List ℕ) (pts : List ℚ) : Spec.Located axes idx pts ↔ Spec.Located axes' idx pts := by
  induction h generalizing idx pts with
  | nil => exact Iff.rfl
  | cons hab _ ih =>
    constructor
    · intro h
      cases h with
      | cons hp hr => exact .cons (by rw [hab]; exact hp) ((ih _ _).1 hr)
    · intro h
      cases h with
      | cons hp hr => exact .cons (by rw [← hab]; exact hp) ((ih _ _).2 hr)

theorem keptIndices_mem (tests : List (String × XTest)) (a : XAxis) (i : ℕ) :
    i ∈ keptIndices tests a ↔ ∃ p, a.points[i]? = some p ∧ ∀ t ∈ tests, t.1 = a.name → t.2.holds p = true := by
  unfold keptIndices
  rw [List.mem_filter, List.mem_range, List.all_eq_true]
  constructor
  · rintro ⟨hi, h⟩
    refine ⟨_, List.getElem?_eq_getElem hi, fun t ht e => ?_⟩
    have := h t ht
    rw [Bool.or_eq_true, decide_eq_true_eq, List.getD_eq_getElem?_getD, List.getElem?_eq_getElem hi] at this
    exact this.resolve_left (fun hne => hne e)
  · rintro ⟨p, hp, h⟩
    have hi : i < a.points.length := by
      by_contra hc
      rw [List.getElem?_eq_none (by omega)] at hp
      exact nomatch hp
    refine ⟨hi, fun t ht => ?_⟩
    rw [Bool.or_eq_true, decide_eq_true_eq, List.getD_eq_getElem?_getD, hp]
    by_cases e : t.1 = a.name
    · exact .inr (h t ht e)
    · exact .inl e

theorem keptIndices_range (tests : List (String × XTest)) (a : XAxis) : ∀ i ∈ keptIndices tests a, i < a.points.length := by
  intro i hi
  unfold keptIndices at hi
  exact List.mem_range.1 (List.mem_filter.1 hi).1

theorem convert_name (k : String) (u : ℚ) (a : XAxis) : (a.convert k u).name = a.name := by
  unfold XAxis.convert
  split <;> rfl

theorem convert_length (k : String) (u : ℚ) (a : XAxis) : (a.convert k u).points.length = a.points.length := by
  unfold XAxis.convert
  split
  · exact List.length_map _
  · rfl

theorem reduce_points (tests : List (String × XTest)) (a : XAxis) : (a.reduce tests).points = a.points := by
  unfold XAxis.reduce
  split <;> rfl

theorem convertAxis_select {V : Type} (c : XCube V) (k : String) (u : ℚ) (ls : List (List ℕ)) :
    convertAxis (c.select ls) k u = (convertAxis c k u).select ls := by
  unfold convertAxis XCube.select
  dsimp only
  congr 1
  rw [List.map_zipWith, List.zipWith_map_left]
  congr 1
  funext a l
  unfold XAxis.select XAxis.convert
  by_cases h : a.name = k
  · rw [if_pos h, if_pos h]
    dsimp only
    congr 1
    rw [List.map_map]
    refine List.map_congr_left fun i _ => ?_
    simp only [Function.comp, List.getD_eq_getElem?_getD, List.getElem?_map]
    cases a.points[i]? <;> simp
  · rw [if_neg h, if_neg h]

/-- The axes that stop being dimensions. -/
def Spec.flagged {V : Type} (tests : List (String × XTest)) (r : XCube V) : XCube V :=
  { r with axes := r.axes.map (XAxis.reduce tests) }

theorem convertAxis_flagged {V : Type} (c : XCube V) (k : String) (u : ℚ) (tests : List (String × XTest)) :
    convertAxis (Spec.flagged tests c) k u = Spec.flagged tests (convertAxis c k u) := by
  unfold convertAxis Spec.flagged
  dsimp only
  congr 1
  rw [List.map_map, List.map_map]
  refine List.map_congr_left fun a _ => ?_
  simp only [Function.comp]
  have e : (a.convert k u).reduce tests = if tests.any (fun t => decide (t.1 = a.name)) = true ∧ a.points.length = 1 then
      { a.convert k u with isDim := false } else a.convert k u := by
    unfold XAxis.reduce
    rw [convert_name, convert_length]
    split
    · dsimp only; rw [convert_name]
    · rfl
  rw [e]
  unfold XAxis.reduce
  by_cases h2 : (tests.any fun t => decide (t.1 = a.name)) = true ∧ a.points.length = 1
  · rw [if_pos h2, if_pos h2]
    unfold XAxis.convert
    dsimp only
    split <;> rfl
  · rw [if_neg h2, if_neg h2]

theorem fromUnits_select {V : Type} (olds : List (String × ℚ)) (c : XCube V) (ls : List (List ℕ)) (tests : List (String × XTest)) :
    fromUnits olds (Spec.flagged tests (c.select ls)) = Spec.flagged tests ((fromUnits olds c).select ls) := by
  unfold fromUnits
  induction olds generalizing c with
  | nil => rfl
  | cons o olds ih => rw [List.foldl_cons, List.foldl_cons, convertAxis_flagged, convertAxis_select, ih]

theorem convertAxis_comm {V : Type} (c : XCube V) {k l : String} (h : k ≠ l) (u w : ℚ) :
    convertAxis (convertAxis c k u) l w = convertAxis (convertAxis c l w) k u := by
  unfold convertAxis
  dsimp only
  congr 1
  rw [List.map_map, List.map_map]
  refine List.map_congr_left fun a _ => ?_
  simp only [Function.comp]
  unfold XAxis.convert
  by_cases h1 : a.name = k
  · have h2 : a.name ≠ l := fun e => h (h1.symm.trans e)
    simp only [if_pos h1, if_neg h2]
  · by_cases h2 : a.name = l
    · simp only [if_neg h1, if_pos h2]
    · simp only [if_neg h1, if_neg h2]

theorem fromUnits_comm {V : Type} (olds : List (String × ℚ)) (c : XCube V) {k : String} (h : ∀ o ∈ olds, o.1 ≠ k) (u : ℚ) :
    fromUnits olds (convertAxis c k u) = convertAxis (fromUnits olds c) k u := by
  unfold fromUnits
  induction olds generalizing c with
  | nil => rfl
  | cons o olds ih =>
    rw [List.foldl_cons, List.foldl_cons, convertAxis_comm c (h o List.mem_cons_self).symm,
      ih _ fun o' ho' => h o' (List.mem_cons_of_mem _ ho')]

theorem toUnits_keys {V : Type} {us : List (String × ℚ)} {c c1 : XCube V} {olds : List (String × ℚ)}
    (h : toUnits us c = .ok (c1, olds)) : olds.map Prod.fst = us.map Prod.fst := by
  induction us generalizing c olds with
  | nil => cases h; rfl
  | cons u us ih =>
    rw [toUnits] at h
    simp only [bind, Except.bind] at h
    cases ha : axisUnit c u.1 with
    | error e => rw [ha] at h; exact nomatch h
    | ok old =>
      rw [ha] at h
      dsimp only at h
      cases hr : toUnits us (convertAxis c u.1 u.2) with
      | error e => rw [hr] at h; exact nomatch h
      | ok r =>
        rw [hr] at h
        injection h with h
        injection h with h1 h2
        rw [← h2, List.map_cons, List.map_cons, ih (c := convertAxis c u.1 u.2) (olds := r.2) (by rw [hr, ← h1])]

theorem convert_back {V : Type} (c : XCube V) (k : String) {u old : ℚ} (hu : u ≠ 0) (hn : (c.axes.map (·.name)).Nodup)
    (hs : ∀ a ∈ c.axes, a.scale ≠ 0) (ho : axisUnit c k = .ok old) :
    convertAxis (convertAxis c k u) k old = c := by
  unfold axisUnit at ho
  cases hf : c.axes.find? fun a => decide (a.name = k) with
  | none => rw [hf] at ho; exact nomatch ho
  | some b =>
    rw [hf] at ho
    injection ho with ho
    have hb := List.mem_of_find?_eq_some hf
    have hbk : b.name = k := by simpa using List.find?_some hf
    unfold convertAxis
    obtain ⟨axes, data⟩ := c
    dsimp only at hn hs hb ⊢
    congr 1
    rw [List.map_map]
    conv_rhs => rw [← List.map_id axes]
    refine List.map_congr_left fun a ha => ?_
    simp only [Function.comp, id]
    unfold XAxis.convert
    by_cases h : a.name = k
    · have hab : a = b := List.inj_on_of_nodup_map hn ha hb (h.trans hbk.symm)
      rw [if_pos h, if_pos (by exact h)]
      dsimp only
      have hsa := hs a ha
      rw [← ho, ← hab, List.map_map]
      have : a.points.map ((fun p => p * u / a.scale) ∘ fun p => p * a.scale / u) = a.points := by
        conv_rhs => rw [← List.map_id a.points]
        refine List.map_congr_left fun p _ => ?_
        simp only [Function.comp, id]
        field_simp
      rw [this]
    · rw [if_neg h, if_neg h]

theorem convertAxis_names {V : Type} (c : XCube V) (k : String) (u : ℚ) :
    (convertAxis c k u).axes.map (·.name) = c.axes.map (·.name) := by
  unfold convertAxis
  rw [List.map_map]
  exact List.map_congr_left fun a _ => convert_name k u a

theorem convertAxis_scales {V : Type} (c : XCube V) (k : String) {u : ℚ} (hu : u ≠ 0) (hs : ∀ a ∈ c.axes, a.scale ≠ 0) :
    ∀ a ∈ (convertAxis c k u).axes, a.scale ≠ 0 := by
  intro a ha
  unfold convertAxis at ha
  obtain ⟨b, hb, rfl⟩ := List.mem_map.1 ha
  unfold XAxis.convert
  split
  · exact hu
  · exact hs b hb

/-- Changing units and back restores the cube. -/
theorem units_back {V : Type} {us : List (String × ℚ)} {c c1 : XCube V} {olds : List (String × ℚ)}
    (h : toUnits us c = .ok (c1, olds)) (hk : (us.map Prod.fst).Nodup) (hu : ∀ u ∈ us, u.2 ≠ 0)
    (hn : (c.axes.map (·.name)).Nodup) (hs : ∀ a ∈ c.axes, a.scale ≠ 0) : fromUnits olds c1 = c := by
  induction us generalizing c olds with
  | nil => cases h; rfl
  | cons u us ih =>
    rw [toUnits] at h
    simp only [bind, Except.bind] at h
    cases ha : axisUnit c u.1 with
    | error e => rw [ha] at h; exact nomatch h
    | ok old =>
      rw [ha] at h
      dsimp only at h
      cases hr : toUnits us (convertAxis c u.1 u.2) with
      | error e => rw [hr] at h; exact nomatch h
      | ok r =>
        rw [hr] at h
        injection h with h
        injection h with h1 h2
        have hr' : toUnits us (convertAxis c u.1 u.2) = .ok (c1, r.2) := by rw [hr, ← h1]
        rw [List.map_cons, List.nodup_cons] at hk
        have hu1 := hu u List.mem_cons_self
        have := ih hr' hk.2 (fun w hw => hu w (List.mem_cons_of_mem _ hw)) (by rw [convertAxis_names]; exact hn)
          (convertAxis_scales c _ hu1 hs)
        rw [← h2]
        change fromUnits r.2 (convertAxis c1 u.1 old) = c
        rw [fromUnits_comm _ _ ?_, this, convert_back c u.1 hu1 hn hs ha]
        intro o ho e
        have : u.1 ∈ r.2.map Prod.fst := e ▸ List.mem_map_of_mem ho
        rw [toUnits_keys hr'] at this
        exact hk.1 this

/-- An axis in the units of the constraints. -/
def Spec.axisIn (us : List (String × ℚ)) (a : XAxis) : XAxis :=
  match us.find? fun u => decide (u.1 = a.name) with
  | none => a
  | some u => { a with points := a.points.map fun p => p * a.scale / u.2, scale := u.2 }

theorem toUnits_axes {V : Type} {us : List (String × ℚ)} {c c1 : XCube V} {olds : List (String × ℚ)}
    (h : toUnits us c = .ok (c1, olds)) (hk : (us.map Prod.fst).Nodup) :
    c1.axes = c.axes.map (Spec.axisIn us) ∧ c1.data = c.data := by
  induction us generalizing c olds with
  | nil => cases h; exact ⟨(List.map_id _).symm, rfl⟩
  | cons u us ih =>
    rw [toUnits] at h
    simp only [bind, Except.bind] at h
    cases ha : axisUnit c u.1 with
    | error e => rw [ha] at h; exact nomatch h
    | ok old =>
      rw [ha] at h
      dsimp only at h
      cases hr : toUnits us (convertAxis c u.1 u.2) with
      | error e => rw [hr] at h; exact nomatch h
      | ok r =>
        rw [hr] at h
        injection h with h
        injection h with h1 h2
        have hr' : toUnits us (convertAxis c u.1 u.2) = .ok (c1, r.2) := by rw [hr, ← h1]
        rw [List.map_cons, List.nodup_cons] at hk
        obtain ⟨e1, e2⟩ := ih hr' hk.2
        refine ⟨?_, e2⟩
        rw [e1]
        unfold convertAxis
        dsimp only
        rw [List.map_map]
        refine List.map_congr_left fun a _ => ?_
        simp only [Function.comp]
        unfold Spec.axisIn XAxis.convert
        by_cases hak : a.name = u.1
        · rw [if_pos hak]
          dsimp only
          have hnone : us.find? (fun w => decide (w.1 = a.name)) = none := by
            rw [List.find?_eq_none]
            intro w hw he
            rw [decide_eq_true_eq] at he
            exact hk.1 (by rw [← hak, ← he]; exact List.mem_map_of_mem hw)
          rw [hnone, List.find?_cons_of_pos (by simpa using hak.symm)]
        · rw [if_neg hak, List.find?_cons_of_neg (by simpa using fun e => hak e.symm)]

theorem irisExtract_some {V : Type} {tests : List (String × XTest)} {c r : XCube V} (h : irisExtract tests c = some r) :
    r = Spec.flagged tests (c.select (c.axes.map (keptIndices tests))) := by
  unfold irisExtract at h
  split at h
  · exact nomatch h
  · split at h
    · exact nomatch h
    · injection h with h
      exact h.symm

theorem flagged_cell {V : Type} (tests : List (String × XTest)) (r : XCube V) (pts : List ℚ) (v : V) :
    Spec.cell (Spec.flagged tests r) pts v ↔ Spec.cell r pts v := by
  unfold Spec.cell Spec.flagged
  dsimp only
  refine exists_congr fun idx => and_congr_left fun _ => (located_points ?_ idx pts).symm
  rw [List.forall₂_map_right_iff, List.forall₂_same]
  exact fun a _ => reduce_points tests a

theorem located_length {axes : List XAxis} {idx : List ℕ} {pts : List ℚ} (h : Spec.Located axes idx pts) :
    idx.length = axes.length ∧ pts.length = axes.length := by
  induction h with
  | nil => exact ⟨rfl, rfl⟩
  | cons _ _ ih => simp [ih.1, ih.2]

theorem kept_iff (tests : List (String × XTest)) (us : List (String × ℚ)) {axes : List XAxis} {idx : List ℕ} {pts : List ℚ}
    (h : Spec.Located axes idx pts) :
    List.Forall₂ (fun i (l : List ℕ) => i ∈ l) idx ((axes.map (Spec.axisIn us)).map (keptIndices tests)) ↔
      Spec.allPass tests us axes pts := by
  unfold Spec.allPass
  induction h with
  | nil => simp
  | @cons a axes i idx p pts hp _ ih =>
    rw [List.map_cons, List.map_cons, List.forall₂_cons, List.forall₂_cons, ih, keptIndices_mem]
    refine and_congr_left fun _ => ?_
    unfold Spec.axisIn Spec.inUnits
    cases us.find? fun u => decide (u.1 = a.name) with
    | none =>
      dsimp only
      constructor
      · rintro ⟨q, hq, hall⟩
        rw [hp, Option.some.injEq] at hq
        exact hq ▸ hall
      · exact fun hall => ⟨p, hp, hall⟩
    | some u =>
      dsimp only
      constructor
      · rintro ⟨q, hq, hall⟩
        rw [List.getElem?_map, hp, Option.map_some, Option.some.injEq] at hq
        exact hq ▸ hall
      · exact fun hall => ⟨_, by rw [List.getElem?_map, hp, Option.map_some], hall⟩

/-- C174: the extracted cube has exactly the cells of the input whose coordinates, in the units of the constraints, pass
them all, with the same coordinates (in the original units) and values; and the input cube is left as it was. -/
theorem C174_cells {V : Type} (intersect : XCube V → ℚ × ℚ → Except Err (XCube V)) {c c' r : XCube V}
    {tests : List (String × XTest)} {us : Option (List (String × ℚ))}
    (h : applyExtraction intersect c tests us true none = .ok (some r, c'))
    (hk : ((us.getD []).map Prod.fst).Nodup) (hu : ∀ u ∈ us.getD [], u.2 ≠ 0)
    (hn : (c.axes.map (·.name)).Nodup) (hs : ∀ a ∈ c.axes, a.scale ≠ 0) :
    c' = c ∧ ∀ pts v, Spec.cell r pts v ↔
      ∃ idx, Spec.Located c.axes idx pts ∧ Spec.allPass tests (us.getD []) c.axes pts ∧ c.data idx = v := by
  have key : c' = c ∧ r = Spec.flagged tests (c.select ((c.axes.map (Spec.axisIn (us.getD []))).map (keptIndices tests))) := by
    unfold applyExtraction at h
    cases us with
    | none =>
      simp only [bind, Except.bind] at h
      injection h with h
      injection h with h1 h2
      refine ⟨h2.symm, ?_⟩
      rw [irisExtract_some h1]
      have : c.axes.map (Spec.axisIn []) = c.axes := List.map_id _
      rw [Option.getD_none, this]
    | some us =>
      simp only [bind, Except.bind] at h
      cases hr : toUnits us c with
      | error e => rw [hr] at h; exact nomatch h
      | ok conv =>
        rw [hr] at h
        dsimp only at h
        rw [if_pos trivial] at h
        injection h with h
        injection h with h1 h2
        have hr' : toUnits us c = .ok (conv.1, conv.2) := hr
        have hback := units_back hr' hk hu hn hs
        obtain ⟨ea, ed⟩ := toUnits_axes hr' hk
        refine ⟨by rw [← h2, hback], ?_⟩
        cases ho : irisExtract tests conv.1 with
        | none => rw [ho] at h1; exact nomatch h1
        | some out =>
          rw [ho, Option.map_some, Option.some.injEq] at h1
          rw [← h1, irisExtract_some ho, fromUnits_select, hback, ea]
          rfl
  obtain ⟨h1, h2⟩ := key
  refine ⟨h1, fun pts v => ?_⟩
  rw [h2, flagged_cell, select_cell]
  · constructor
    · rintro ⟨idx, hl, hm, hv⟩
      exact ⟨idx, hl, (kept_iff tests _ hl).1 hm, hv⟩
    · rintro ⟨idx, hl, hm, hv⟩
      exact ⟨idx, hl, (kept_iff tests _ hl).2 hm, hv⟩
  · rw [List.forall₂_map_right_iff, List.forall₂_map_right_iff, List.forall₂_same]
    intro a _ i hi
    have := keptIndices_range tests _ i hi
    unfold Spec.axisIn at this
    split at this
    · exact this
    · simpa using this

/-- C174: nothing is extracted exactly when a constrained coordinate is missing or has no point that passes. -/
theorem C174_none {V : Type} (tests : List (String × XTest)) (c : XCube V) :
    irisExtract tests c = none ↔ (∃ t ∈ tests, ∀ a ∈ c.axes, a.name ≠ t.1) ∨
      ∃ a ∈ c.axes, (∃ t ∈ tests, t.1 = a.name) ∧ ∀ p ∈ a.points, ∃ t ∈ tests, t.1 = a.name ∧ t.2.holds p = false := by
  have hkept : ∀ a : XAxis, keptIndices tests a = [] ↔
      ∀ p ∈ a.points, ∃ t ∈ tests, t.1 = a.name ∧ t.2.holds p = false := by
    intro a
    rw [List.eq_nil_iff_forall_not_mem]
    constructor
    · intro h p hp
      obtain ⟨i, hi, e⟩ := List.getElem_of_mem hp
      have := h i
      rw [keptIndices_mem] at this
      push Not at this
      obtain ⟨t, ht, hte, hf⟩ := this p (by rw [List.getElem?_eq_getElem hi, e])
      exact ⟨t, ht, hte, by simpa using hf⟩
    · intro h i hi
      obtain ⟨p, hp, hall⟩ := (keptIndices_mem tests a i).1 hi
      obtain ⟨t, ht, hte, hf⟩ := h p (List.mem_of_getElem? hp)
      rw [hall t ht hte] at hf
      exact nomatch hf
  unfold irisExtract
  by_cases h1 : (tests.any fun t => !(c.axes.any fun a => decide (a.name = t.1))) = true
  · rw [if_pos h1]
    refine ⟨fun _ => .inl ?_, fun _ => rfl⟩
    obtain ⟨t, ht, hh⟩ := List.any_eq_true.1 h1
    refine ⟨t, ht, fun a ha e => ?_⟩
    rw [Bool.not_eq_true', List.any_eq_false] at hh
    exact hh a ha (by simpa using e)
  · rw [if_neg h1]
    have h1' : ¬ ∃ t ∈ tests, ∀ a ∈ c.axes, a.name ≠ t.1 := by
      rintro ⟨t, ht, hh⟩
      refine h1 (List.any_eq_true.2 ⟨t, ht, ?_⟩)
      rw [Bool.not_eq_true', List.any_eq_false]
      intro a ha e
      exact hh a ha (by simpa using e)
    by_cases h2 : (c.axes.any fun a => tests.any (fun t => decide (t.1 = a.name)) && decide (keptIndices tests a = [])) = true
    · rw [if_pos h2]
      refine ⟨fun _ => .inr ?_, fun _ => rfl⟩
      obtain ⟨a, ha, hh⟩ := List.any_eq_true.1 h2
      rw [Bool.and_eq_true, decide_eq_true_eq, List.any_eq_true] at hh
      obtain ⟨⟨t, ht, hte⟩, hk⟩ := hh
      exact ⟨a, ha, ⟨t, ht, by simpa using hte⟩, (hkept a).1 hk⟩
    · rw [if_neg h2]
      refine ⟨fun h => (nomatch h), fun h => absurd ?_ h2⟩
      obtain ⟨a, ha, ⟨t, ht, hte⟩, hk⟩ := h.resolve_left h1'
      refine List.any_eq_true.2 ⟨a, ha, ?_⟩
      rw [Bool.and_eq_true, decide_eq_true_eq, List.any_eq_true]
      exact ⟨⟨t, ht, by simpa using hte⟩, (hkept a).2 hk⟩

/-! ### Steps -/

theorem stepIndices_get {n : ℕ} {k : ℤ} {l : List ℕ} (hk : 0 < k) (h : stepIndices n k = .ok l) (i : ℕ) :
    l[i]? = if i * k.toNat < n then some (i * k.toNat) else none := by
  unfold stepIndices at h
  rw [if_neg hk.ne', if_pos hk] at h
  injection h with h
  subst h
  have hk' : 0 < k.toNat := by omega
  generalize k.toNat = m at hk'
  induction n generalizing i with
  | zero => simp
  | succ n ih =>
    rw [List.range_succ, List.filter_append]
    have hlen : ((List.range n).filter fun i => decide (i % m = 0)).length = (n + m - 1) / m := by
      -- the length is the number of positions found
      have h1 := ih ((n + m - 1) / m)
      have hd := Nat.div_add_mod (n + m - 1) m
      have hm := Nat.mod_lt (n + m - 1) hk'
      have hge : n ≤ (n + m - 1) / m * m := by rw [Nat.mul_comm]; omega
      rw [if_neg (by omega), List.getElem?_eq_none_iff] at h1
      by_contra hne
      have hlt : ((List.range n).filter fun i => decide (i % m = 0)).length < (n + m - 1) / m := by omega
      have h2 := ih (((List.range n).filter fun i => decide (i % m = 0)).length)
      rw [List.getElem?_eq_none le_rfl] at h2
      have hlt' : ((List.range n).filter fun i => decide (i % m = 0)).length * m < n := by
        have : ((List.range n).filter fun i => decide (i % m = 0)).length * m ≤ ((n + m - 1) / m - 1) * m :=
          Nat.mul_le_mul_right _ (by omega)
        have h3 : ((n + m - 1) / m - 1) * m = (n + m - 1) / m * m - m := by rw [Nat.sub_mul, Nat.one_mul]
        have h4 : (n + m - 1) / m * m ≤ n + m - 1 := Nat.div_mul_le_self _ _
        have h5 : 0 < n := by
          rcases Nat.eq_zero_or_pos n with rfl | h
          · rw [Nat.zero_add, Nat.div_eq_of_lt (by omega)] at hlt; omega
          · exact h
        omega
      rw [if_pos hlt'] at h2
      exact nomatch h2
    by_cases hmod : n % m = 0
    · rw [List.filter_cons_of_pos (by simpa using hmod), List.filter_nil]
      have hq : (n + m - 1) / m = n / m := by
        have hd := Nat.div_add_mod n m
        rw [hmod, Nat.add_zero] at hd
        conv_lhs => rw [← hd]
        rw [show m * (n / m) + m - 1 = m - 1 + m * (n / m) by omega, Nat.add_mul_div_left _ _ hk', Nat.div_eq_of_lt (by omega), Nat.zero_add]
      have hnm : n / m * m = n := Nat.div_mul_cancel (Nat.dvd_of_mod_eq_zero hmod)
      rcases Nat.lt_trichotomy i (n / m) with hi | hi | hi
      · rw [List.getElem?_append_left (by rw [hlen, hq]; exact hi), ih i]
        have : i * m < n := by rw [← hnm]; exact Nat.mul_lt_mul_of_pos_right hi hk'
        rw [if_pos this, if_pos (by omega)]
      · rw [List.getElem?_append_right (by rw [hlen, hq, hi]), hlen, hq, hi, Nat.sub_self, hnm, if_pos (by omega)]
        rfl
      · rw [List.getElem?_eq_none (by rw [List.length_append, hlen, hq, List.length_singleton]; omega)]
        have : n / m * m + m ≤ i * m := by rw [← Nat.succ_mul]; exact Nat.mul_le_mul_right _ hi
        rw [if_neg (by omega)]
    · rw [List.filter_cons_of_neg (by simpa using hmod), List.filter_nil, List.append_nil, ih i]
      by_cases h1 : i * m < n
      · rw [if_pos h1, if_pos (by omega)]
      · rw [if_neg h1, if_neg]
        intro h2
        have : i * m = n := by omega
        exact hmod (by rw [← this, Nat.mul_mod_left])

/-- The step asked for on the axis. -/
def Spec.stepOf (thinning : List (String × ℤ)) (a : XAxis) : ℕ :=
  match thinning.find? fun t => decide (t.1 = a.name) && a.isDim with
  | none => 1
  | some t => t.2.toNat

theorem thinAxis_get {thinning : List (String × ℤ)} (hp : ∀ t ∈ thinning, 0 < t.2) {a : XAxis} {l : List ℕ}
    (h : thinAxis thinning a = .ok l) (i : ℕ) :
    l[i]? = if i * Spec.stepOf thinning a < a.points.length then some (i * Spec.stepOf thinning a) else none := by
  unfold thinAxis at h
  unfold Spec.stepOf
  cases hf : thinning.find? fun t => decide (t.1 = a.name) && a.isDim with
  | none =>
    rw [hf] at h
    injection h with h
    rw [← h]
    dsimp only
    rw [Nat.mul_one]
    by_cases hi : i < a.points.length
    · rw [if_pos hi, List.getElem?_range hi]
    · rw [if_neg hi, List.getElem?_eq_none (by rw [List.length_range]; omega)]
  | some t =>
    rw [hf] at h
    exact stepIndices_get (hp t (List.mem_of_find?_eq_some hf)) h i

theorem exMapM_forall₂ {α β : Type} {f : α → Except Err β} {l : List α} {r : List β} (h : l.mapM f = .ok r) :
    List.Forall₂ (fun a b => f a = .ok b) l r := by
  induction l generalizing r with
  | nil => cases h; exact .nil
  | cons a l ih =>
    rw [List.mapM_cons] at h
    simp only [bind, Except.bind, pure, Except.pure] at h
    cases ha : f a with
    | error e => rw [ha] at h; exact nomatch h
    | ok b =>
      rw [ha] at h
      dsimp only at h
      cases hl : l.mapM f with
      | error e => rw [hl] at h; exact nomatch h
      | ok bs =>
        rw [hl] at h
        injection h with h
        subst h
        exact .cons ha (ih hl)

/-- C174: thinning keeps the first and then every n-th point of the named dimensions and all of the others, with the
values of the cells kept. -/
theorem C174_thin {V : Type} {thinning : List (String × ℤ)} (hp : ∀ t ∈ thinning, 0 < t.2) {c r : XCube V}
    (h : thinCube thinning c = .ok r) :
    List.Forall₂ (fun a b => b.name = a.name ∧ b.isDim = a.isDim ∧ b.scale = a.scale ∧
      ∀ i, b.points[i]? = a.points[i * Spec.stepOf thinning a]?) c.axes r.axes ∧
    ∀ idx pts, Spec.Located r.axes idx pts →
      r.data idx = c.data (List.zipWith (fun a i => i * Spec.stepOf thinning a) c.axes idx) := by
  unfold thinCube at h
  split at h
  · exact nomatch h
  · rename_i hcond
    clear hcond
    simp only [bind, Except.bind] at h
    cases hm : c.axes.mapM (thinAxis thinning) with
    | error e => rw [hm] at h; exact nomatch h
    | ok ls =>
      rw [hm] at h
      injection h with h
      subst h
      have hF := exMapM_forall₂ hm
      clear hm
      obtain ⟨axes, data⟩ := c
      dsimp only at hF ⊢
      have hpt : ∀ (a : XAxis) (l : List ℕ), thinAxis thinning a = .ok l →
          ∀ i, (a.select l).points[i]? = a.points[i * Spec.stepOf thinning a]? := by
        intro a l hal i
        unfold XAxis.select
        dsimp only
        rw [List.getElem?_map, thinAxis_get hp hal i]
        by_cases hi : i * Spec.stepOf thinning a < a.points.length
        · rw [if_pos hi, Option.map_some, List.getD_eq_getElem?_getD, List.getElem?_eq_getElem hi]
          rfl
        · rw [if_neg hi, Option.map_none, List.getElem?_eq_none (by omega)]
      constructor
      · unfold XCube.select
        dsimp only
        induction hF with
        | nil => exact .nil
        | cons hal _ ih =>
          rw [List.zipWith_cons_cons]
          exact .cons ⟨rfl, rfl, rfl, hpt _ _ hal⟩ ih
      · intro idx pts hl
        unfold XCube.select at hl ⊢
        dsimp only at hl ⊢
        congr 1
        induction hF generalizing idx pts with
        | nil => rfl
        | @cons a l axes ls hal _ ih =>
          rw [List.zipWith_cons_cons] at hl
          cases hl with
          | @cons _ _ i idx' p pts' hpi hrest =>
            rw [List.zipWith_cons_cons, List.zipWith_cons_cons, ih _ _ hrest]
            congr 1
            rw [List.getD_eq_getElem?_getD, thinAxis_get hp hal i]
            rw [hpt _ _ hal i] at hpi
            have hi : i * Spec.stepOf thinning a < a.points.length := by
              by_contra hc
              rw [List.getElem?_eq_none (by omega)] at hpi
              exact nomatch hpi
            rw [if_pos hi]
            rfl

/-- C174: steps on anything but a dimension, and steps of nothing, are refused. -/
theorem C174_thin_error {V : Type} (thinning : List (String × ℤ)) (c : XCube V) :
    (∃ e, thinCube thinning c = .error e) ↔
      (∃ t ∈ thinning, ∀ a ∈ c.axes, a.name = t.1 → a.isDim = false) ∨
      ∃ a ∈ c.axes, ∃ t, thinning.find? (fun t => decide (t.1 = a.name) && a.isDim) = some t ∧ t.2 = 0 := by
  unfold thinCube
  by_cases h1 : (thinning.any fun t => !(c.axes.any fun a => decide (a.name = t.1) && a.isDim)) = true
  · rw [if_pos h1]
    refine ⟨fun _ => .inl ?_, fun _ => ⟨_, rfl⟩⟩
    obtain ⟨t, ht, hh⟩ := List.any_eq_true.1 h1
    rw [Bool.not_eq_true', List.any_eq_false] at hh
    refine ⟨t, ht, fun a ha e => ?_⟩
    have := hh a ha
    rw [Bool.and_eq_true, decide_eq_true_eq] at this
    cases hd : a.isDim with
    | false => rfl
    | true => exact absurd ⟨e, hd⟩ this
  · rw [if_neg h1]
    have h1' : ¬ ∃ t ∈ thinning, ∀ a ∈ c.axes, a.name = t.1 → a.isDim = false := by
      rintro ⟨t, ht, hh⟩
      refine h1 (List.any_eq_true.2 ⟨t, ht, ?_⟩)
      rw [Bool.not_eq_true', List.any_eq_false]
      intro a ha e
      rw [Bool.and_eq_true, decide_eq_true_eq] at e
      rw [hh a ha e.1] at e
      exact nomatch e.2
    rw [or_iff_right h1']
    have key : ∀ axes : List XAxis, (∃ e, axes.mapM (thinAxis thinning) = .error e) ↔
        ∃ a ∈ axes, ∃ t, thinning.find? (fun t => decide (t.1 = a.name) && a.isDim) = some t ∧ t.2 = 0 := by
      intro axes
      induction axes with
      | nil =>
        refine ⟨?_, ?_⟩
        · rintro ⟨e, h⟩; exact nomatch h
        · rintro ⟨a, ha, _⟩; exact nomatch ha
      | cons a axes ih =>
        have ha : (∃ e, thinAxis thinning a = .error e) ↔
            ∃ t, thinning.find? (fun t => decide (t.1 = a.name) && a.isDim) = some t ∧ t.2 = 0 := by
          unfold thinAxis stepIndices
          cases thinning.find? (fun t => decide (t.1 = a.name) && a.isDim) with
          | none => exact ⟨fun ⟨e, h⟩ => (nomatch h), fun ⟨t, h, _⟩ => (nomatch h)⟩
          | some t =>
            dsimp only
            by_cases h0 : t.2 = 0
            · rw [if_pos h0]
              exact ⟨fun _ => ⟨t, rfl, h0⟩, fun _ => ⟨_, rfl⟩⟩
            · rw [if_neg h0]
              refine ⟨fun ⟨e, h⟩ => ?_, fun ⟨t', h, h'⟩ => ?_⟩
              · split at h <;> exact nomatch h
              · rw [Option.some.injEq] at h
                exact absurd (h ▸ h') h0
        rw [List.mapM_cons]
        simp only [bind, Except.bind, pure, Except.pure, List.mem_cons, exists_eq_or_imp]
        rw [← ha, ← ih]
        cases hx : thinAxis thinning a with
        | error e => exact ⟨fun _ => .inl ⟨e, rfl⟩, fun _ => ⟨e, rfl⟩⟩
        | ok l =>
          dsimp only
          cases hy : axes.mapM (thinAxis thinning) with
          | error e => exact ⟨fun _ => .inr ⟨e, rfl⟩, fun _ => ⟨e, rfl⟩⟩
          | ok ls =>
            refine ⟨fun ⟨e, h⟩ => (nomatch h), ?_⟩
            rintro (⟨e, h⟩ | ⟨e, h⟩) <;> exact nomatch h
    rw [← key]
    simp only [bind, Except.bind]
    cases hy : c.axes.mapM (thinAxis thinning) with
    | error e => exact ⟨fun _ => ⟨e, rfl⟩, fun _ => ⟨e, rfl⟩⟩
    | ok ls => exact ⟨fun ⟨e, h⟩ => (nomatch h), fun ⟨e, h⟩ => (nomatch h)⟩

/-- C174 finding: a range with a step that keeps exactly one point raises an error, because the axis is no longer a
dimension when it comes to be thinned. -/
theorem C174_one_point_refuted {V : Type} {tests : List (String × XTest)} {thinning : List (String × ℤ)} {c r : XCube V}
    (h : irisExtract tests c = some r) (hn : (c.axes.map (·.name)).Nodup) {a : XAxis} (ha : a ∈ c.axes)
    (hone : (keptIndices tests a).length = 1) {t : String × XTest} (ht : t ∈ tests) (hta : t.1 = a.name)
    {s : String × ℤ} (hs : s ∈ thinning) (hsa : s.1 = a.name) : ∃ e, thinCube thinning r = .error e := by
  rw [C174_thin_error]
  refine .inl ⟨s, hs, fun b hb hbs => ?_⟩
  rw [irisExtract_some h] at hb
  unfold Spec.flagged XCube.select at hb
  dsimp only at hb
  rw [List.zipWith_map_right, List.zipWith_self, List.map_map, List.mem_map] at hb
  obtain ⟨d, hd, rfl⟩ := hb
  simp only [Function.comp] at hbs ⊢
  have hname : ((d.select (keptIndices tests d)).reduce tests).name = d.name := by
    unfold XAxis.reduce
    split <;> rfl
  rw [hname, hsa] at hbs
  have hda : d = a := List.inj_on_of_nodup_map hn hd ha hbs
  subst hda
  unfold XAxis.reduce
  rw [if_pos]
  refine ⟨List.any_eq_true.2 ⟨t, ht, decide_eq_true hta⟩, ?_⟩
  unfold XAxis.select
  rw [List.length_map, hone]

/-! ### The plugin -/

/-- C174: without steps, units and longitude range the plugin gives the extracted cube; if nothing can be extracted it
raises an error, or gives the input when told to ignore failures. -/
theorem C174_process {V : Type} (rd : Readers) (factor : String → ℚ) (intersect : XCube V → ℚ × ℚ → Except Err (XCube V))
    (c : XCube V) (constraints : List String) (useOriginal ignoreFailure : Bool) {p : Constraints}
    (hp : parseConstraints rd constraints none = .ok (p, false)) (hl : p.longitude = none) (ht : p.thinning = []) :
    extractProcess rd factor intersect c constraints none useOriginal ignoreFailure =
      match irisExtract (p.simple ++ p.ranges) c with
      | some r => .ok r
      | none => if ignoreFailure then .ok c else .error .valueError := by
  unfold extractProcess extractSubcube applyExtraction
  rw [hp]
  simp only [bind, Except.bind, hl, ht, if_true]
  cases irisExtract (p.simple ++ p.ranges) c <;> rfl

/-- C174 finding: with a step, a constraint that cannot be matched raises AttributeError even when failures are to be
ignored. -/
theorem C174_ignore_refuted {V : Type} (rd : Readers) (factor : String → ℚ) (intersect : XCube V → ℚ × ℚ → Except Err (XCube V))
    (c : XCube V) (constraints : List String) (useOriginal ignoreFailure : Bool) {p : Constraints}
    (hp : parseConstraints rd constraints none = .ok (p, false)) (ht : p.thinning ≠ [])
    (hnone : irisExtract (p.simple ++ p.ranges) c = none) :
    extractProcess rd factor intersect c constraints none useOriginal ignoreFailure = .error .attributeError := by
  unfold extractProcess extractSubcube applyExtraction
  rw [hp]
  simp only [bind, Except.bind, hnone, Bool.false_eq_true, if_false]
  cases p.longitude with
  | none =>
    dsimp only
    rw [if_neg ht]
  | some l => rfl

/-! ### Reading constraints -/

/-- No blanks at either end. -/
def Spec.trimmed (s : List Char) : Prop := s.head? ≠ some ' ' ∧ s.getLast? ≠ some ' '

theorem stripBlanks_trimmed {s : List Char} (h : Spec.trimmed s) : stripBlanks s = s := by
  unfold stripBlanks
  have key : ∀ l : List Char, l.head? ≠ some ' ' → l.dropWhile (fun c => decide (c = ' ')) = l := by
    intro l hl
    cases l with
    | nil => rfl
    | cons c l =>
      rw [List.dropWhile_cons_of_neg]
      intro hc
      rw [decide_eq_true_eq] at hc
      exact hl (by rw [hc]; rfl)
  rw [key s h.1, key s.reverse (by rw [List.head?_reverse]; exact h.2), List.reverse_reverse]

theorem splitEq_append {k : List Char} (h : '=' ∉ k) (v : List Char) : splitEq (k ++ '=' :: v) = some (k, v) := by
  induction k with
  | nil => rw [List.nil_append, splitEq, if_pos rfl]
  | cons c k ih =>
    rw [List.mem_cons, not_or] at h
    rw [List.cons_append, splitEq, if_neg (fun e => h.1 e.symm), ih h.2]
    rfl

theorem splitColon_append {w : List Char} (h : ':' ∉ w) (rest : List Char) :
    splitColon (w ++ ':' :: rest) = w :: splitColon rest := by
  induction w with
  | nil => rw [List.nil_append, splitColon, if_pos rfl]
  | cons c w ih =>
    rw [List.mem_cons, not_or] at h
    rw [List.cons_append, splitColon, if_neg (fun e => h.1 e.symm), ih h.2]

theorem splitColon_word {w : List Char} (h : ':' ∉ w) : splitColon w = [w] := by
  induction w with
  | nil => rfl
  | cons c w ih =>
    rw [List.mem_cons, not_or] at h
    rw [splitColon, if_neg (fun e => h.1 e.symm), ih h.2]

/-- A word without brackets and colons. -/
def Spec.plainWord (w : String) : Prop := ':' ∉ w.toList ∧ '[' ∉ w.toList ∧ ']' ∉ w.toList

theorem plain_filter {w : String} (h : Spec.plainWord w) :
    (w.toList.filter fun c => decide (c ≠ '[' ∧ c ≠ ']')) = w.toList := by
  rw [List.filter_eq_self]
  intro c hc
  rw [decide_eq_true_eq]
  exact ⟨fun e => h.2.1 (e ▸ hc), fun e => h.2.2 (e ▸ hc)⟩

/-- C174: a constraint written key=[low:high:step] is read as the range with its step. -/
theorem C174_read_range (rd : Readers) {key lo hi step : String} (hk : '=' ∉ key.toList) (hkt : Spec.trimmed key.toList)
    (hlo : Spec.plainWord lo) (hhi : Spec.plainWord hi) (hst : Spec.plainWord step) (hkey : key ≠ "longitude")
    {a b : ℚ} {k : ℤ} (ha : rd.float lo = some a) (hb : rd.float hi = some b) (hs : rd.int step = some k)
    (hne : step ≠ "") (acc : Constraints) :
    readPair rd (key ++ "=[" ++ lo ++ ":" ++ hi ++ ":" ++ step ++ "]") none acc = .ok
      { acc with ranges := acc.ranges ++ [(key, sortedConstraint a b)], thinning := keySet acc.thinning key k } := by
  have e : (key ++ "=[" ++ lo ++ ":" ++ hi ++ ":" ++ step ++ "]").toList =
      key.toList ++ '=' :: ('[' :: (lo.toList ++ ':' :: (hi.toList ++ ':' :: (step.toList ++ [']'])))) := by
    simp [String.toList_append]
  unfold readPair
  rw [e, splitEq_append hk]
  dsimp only
  have hvt : Spec.trimmed ('[' :: (lo.toList ++ ':' :: (hi.toList ++ ':' :: (step.toList ++ [']'])))) := by
    refine ⟨by simp, ?_⟩
    have : ('[' :: (lo.toList ++ ':' :: (hi.toList ++ ':' :: (step.toList ++ [']'])))) =
        ('[' :: (lo.toList ++ ':' :: (hi.toList ++ ':' :: step.toList))) ++ [']'] := by simp
    rw [this, List.getLast?_concat]
    decide
  rw [stripBlanks_trimmed hkt, stripBlanks_trimmed hvt, String.ofList_toList]
  unfold readConstraint
  rw [String.toList_ofList, if_pos (by simp)]
  have hf : ('[' :: (lo.toList ++ ':' :: (hi.toList ++ ':' :: (step.toList ++ [']'])))).filter (fun c => decide (c ≠ '[' ∧ c ≠ ']')) =
      lo.toList ++ ':' :: (hi.toList ++ ':' :: step.toList) := by
    rw [List.filter_cons_of_neg (by decide), List.filter_append, plain_filter hlo, List.filter_cons_of_pos (by decide),
      List.filter_append, plain_filter hhi, List.filter_cons_of_pos (by decide), List.filter_append, plain_filter hst,
      List.filter_cons_of_neg (by decide), List.filter_nil, List.append_nil]
  rw [hf, splitColon_append hlo.1, splitColon_append hhi.1, splitColon_word hst.1]
  dsimp only
  rw [String.ofList_toList, String.ofList_toList, ha, hb]
  dsimp only
  rw [if_neg hkey]
  have hsne : step.toList ≠ [] := fun h => hne (String.toList_inj.1 (by rw [h]; rfl))
  rw [if_neg hsne, String.ofList_toList, hs]

/-- C174: of several simple constraints on one coordinate the last one counts; of several ranges all do. -/
theorem C174_read_repeated (rd : Readers) (key v w : String) (acc acc' acc'' : Constraints) (hv : ':' ∉ v.toList)
    (hw : ':' ∉ w.toList) (h1 : readConstraint rd key v acc = .ok acc') (h2 : readConstraint rd key w acc' = .ok acc'') :
    readConstraint rd key w acc = .ok acc'' := by
  have hks : ∀ (d : List (String × XTest)) (x y : XTest), keySet (keySet d key x) key y = keySet d key y := by
    intro d x y
    unfold keySet
    rw [List.filter_append, List.filter_filter]
    simp
  unfold readConstraint at h1 h2 ⊢
  rw [if_neg hv] at h1
  rw [if_neg hw] at h2 ⊢
  cases hlv : rd.literal v with
  | none =>
    rw [hlv] at h1
    injection h1 with h1
    subst h1
    cases hlw : rd.literal w with
    | none => rw [hlw] at h2; dsimp only at h2 ⊢; rw [hks] at h2; exact h2
    | some ws => rw [hlw] at h2; dsimp only at h2 ⊢; rw [hks] at h2; exact h2
  | some vs =>
    rw [hlv] at h1
    injection h1 with h1
    subst h1
    cases hlw : rd.literal w with
    | none => rw [hlw] at h2; dsimp only at h2 ⊢; rw [hks] at h2; exact h2
    | some ws => rw [hlw] at h2; dsimp only at h2 ⊢; rw [hks] at h2; exact h2

/-! ### Example -/

/-- A cube of four latitudes and three levels. -/
def exXCube : XCube ℕ :=
  ⟨[⟨"latitude", [10, 20, 30, 40], true, 1⟩, ⟨"height", [5, 10, 50], true, 1⟩], fun idx => idx.foldl (fun s i => 10 * s + i) 0⟩

/-- Readers that know a few numbers. -/
def exReaders : Readers :=
  ⟨fun s => if s = "10" then some 10 else if s = "30" then some 30 else if s = "15" then some 15 else none,
   fun s => if s = "2" then some 2 else none,
   fun s => if s = "0.01" then some [1 / 100] else none⟩

example : (extractSubcube exReaders (fun _ => 1000) (fun c _ => .ok c) exXCube ["latitude=[10:30:2]", " height = 0.01"]
    (some ["None", "km"]) true).toOption.map (fun x => (x.1.map fun r => (r.axes.map (·.points), r.data [1, 0]), x.2.axes)) =
    some (some ([[10, 30], [10]], 21), exXCube.axes) := by decide +kernel

example : ∃ e, (extractSubcube exReaders (fun _ => 1000) (fun c _ => .ok c) exXCube ["latitude=[10:15:2]"] none true).toOption = e ∧
    e.isNone = true := ⟨_, rfl, by decide +kernel⟩

end Improver
