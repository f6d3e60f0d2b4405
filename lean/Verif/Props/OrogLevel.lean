import Verif.Model.OrogLevel
import Mathlib.Tactic.Linarith
import Mathlib.Tactic.NormNum
import Mathlib.Tactic.FieldSimp

/-! C287: the level used by the orographic enhancement command. -/

namespace Improver

namespace Spec

/-- A height `v`, in the unit of the wanted height `h`, is taken for it: at most 0.1 away, widened by a ten millionth for rounding. -/
def takenFor (h v : ℚ) : Prop := (1 - 1 / 10000000) * (h - 1 / 10) ≤ v ∧ v ≤ (1 + 1 / 10000000) * (h + 1 / 10)

/-- Level `i` is the only level of a variable that is taken for the wanted height. -/
def onlyLevel {V K : Type} (h unit : ℚ) (c : LevelledInput V K) (i : ℕ) : Prop :=
  ∃ l, c.heights = some l ∧ i < l.length ∧ ∀ j, j < l.length → (takenFor h (l.getD j 0 * c.scale / unit) ↔ j = i)

/-- The height of level `i` in the variable's own unit. -/
def levelHeight {V K : Type} (c : LevelledInput V K) (i : ℕ) : ℚ := (c.heights.getD []).getD i 0

/-- Level `i` of one variable and level `j` of another one are at the same place. -/
def samePlace {V K : Type} (a : LevelledInput V K) (i : ℕ) (b : LevelledInput V K) (j : ℕ) : Prop :=
  levelHeight a i = levelHeight b j ∧ a.scale = b.scale ∧ a.others = b.others

end Spec

open Spec

theorem takenFor_iff (h v : ℚ) : (sortedConstraint (h - 1 / 10) (h + 1 / 10)).holds v = true ↔ takenFor h v := by
  unfold sortedConstraint XTest.holds takenFor
  rw [min_eq_left (by linarith), max_eq_right (by linarith)]
  simp only [decide_eq_true_eq]

theorem extract_isSome {V K : Type} {h unit : ℚ} {c r : LevelledInput V K} (he : extractAndCheck h unit c = .ok r) :
    ∃ l, c.heights = some l ∧ r.heights = some (((List.range l.length).filter fun i =>
        (sortedConstraint (h - 1 / 10) (h + 1 / 10)).holds (l.getD i 0 * c.scale / unit)).map fun i => l.getD i 0) ∧
      r.scale = c.scale ∧ r.others = c.others ∧
      r.planes 0 = c.planes (((List.range l.length).filter fun i =>
        (sortedConstraint (h - 1 / 10) (h + 1 / 10)).holds (l.getD i 0 * c.scale / unit)).getD 0 0) := by
  unfold extractAndCheck at he
  cases hc : c.heights with
  | none => rw [hc] at he; exact nomatch he
  | some l =>
    rw [hc] at he
    dsimp only at he
    by_cases hk : ((List.range l.length).filter fun i => (sortedConstraint (h - 1 / 10) (h + 1 / 10)).holds (l.getD i 0 * c.scale / unit)) = []
    · rw [if_pos hk] at he
      exact nomatch he
    · rw [if_neg hk] at he
      cases he
      exact ⟨l, rfl, rfl, rfl, rfl, rfl⟩

theorem filter_only {n i : ℕ} {p : ℕ → Bool} (hi : i < n) (h : ∀ j, j < n → (p j = true ↔ j = i)) : (List.range n).filter p = [i] := by
  have h1 : (List.range n).filter p = (List.range n).filter (fun j => decide (j = i)) := by
    apply List.filter_congr
    intro j hj
    rw [Bool.eq_iff_iff, decide_eq_true_eq]
    exact h j (List.mem_range.1 hj)
  rw [h1]
  clear h h1
  induction n with
  | zero => omega
  | succ m ih =>
    rw [List.range_succ, List.filter_append]
    by_cases hm : i = m
    · subst hm
      have : (List.range i).filter (fun j => decide (j = i)) = [] := by
        rw [List.filter_eq_nil_iff]
        intro j hj
        have := List.mem_range.1 hj
        simp only [decide_eq_true_eq]
        omega
      rw [this]
      simp
    · rw [ih (by omega)]
      have : ¬ m = i := fun e => hm e.symm
      simp [this]

/-- What the extraction gives for a variable with exactly one level taken for the height. -/
theorem extract_only {V K : Type} {h unit : ℚ} {c : LevelledInput V K} {i : ℕ} (ho : onlyLevel h unit c i) :
    extractAndCheck h unit c = .ok ⟨some [levelHeight c i], c.scale, c.others, fun k => c.planes ([i].getD k 0)⟩ := by
  obtain ⟨l, hl, hi, hj⟩ := ho
  have hf := filter_only (p := fun i => (sortedConstraint (h - 1 / 10) (h + 1 / 10)).holds (l.getD i 0 * c.scale / unit)) hi
    (fun j hjl => (takenFor_iff h _).trans (hj j hjl))
  unfold extractAndCheck levelHeight
  rw [hl]
  dsimp only
  rw [hf, if_neg (by simp)]
  rfl

/-- If the extraction leaves a single level, it is the only one taken for the height. -/
theorem only_of_length {V K : Type} {h unit : ℚ} {c r : LevelledInput V K} (he : extractAndCheck h unit c = .ok r)
    (h1 : r.heights.map List.length = some 1) : ∃ i, onlyLevel h unit c i := by
  obtain ⟨l, hl, hr, -⟩ := extract_isSome he
  rw [hr] at h1
  simp only [Option.map_some, List.length_map, Option.some.injEq] at h1
  obtain ⟨i, hi⟩ := List.length_eq_one_iff.1 h1
  have hm : ∀ j, j ∈ [i] ↔ j < l.length ∧ takenFor h (l.getD j 0 * c.scale / unit) := by
    intro j
    rw [← hi, List.mem_filter, List.mem_range, takenFor_iff]
  refine ⟨i, l, hl, ((hm i).1 (by simp)).1, ?_⟩
  intro j hj
  constructor
  · intro ht
    have := (hm j).2 ⟨hj, ht⟩
    simpa using this
  · rintro rfl
    exact ((hm j).1 (by simp)).2

/-- C287: the command goes on to the calculation exactly when every variable has exactly one level taken for the wanted height, the same one in the same unit for
all, on the same grid and times; the fields used are those of these levels. -/
theorem C287_level {V K : Type} [DecidableEq K] (h unit : ℚ) (t rh p speed dir : LevelledInput V K) (out : V × V × V × V × V) :
    enhancementInputs h unit t rh p speed dir = .ok out ↔
      ∃ i j k m n, onlyLevel h unit t i ∧ onlyLevel h unit rh j ∧ onlyLevel h unit p k ∧ onlyLevel h unit speed m ∧ onlyLevel h unit dir n ∧
        samePlace t i rh j ∧ samePlace t i p k ∧ samePlace t i speed m ∧ samePlace t i dir n ∧
        out = (t.planes i, rh.planes j, p.planes k, speed.planes m, dir.planes n) := by
  constructor
  · intro hr
    unfold enhancementInputs at hr
    simp only [bind, Except.bind] at hr
    cases h1 : extractAndCheck h unit t with
    | error e => rw [h1] at hr; exact nomatch hr
    | ok t' =>
    cases h2 : extractAndCheck h unit rh with
    | error e => rw [h1, h2] at hr; exact nomatch hr
    | ok rh' =>
    cases h3 : extractAndCheck h unit p with
    | error e => rw [h1, h2, h3] at hr; exact nomatch hr
    | ok p' =>
    cases h4 : extractAndCheck h unit speed with
    | error e => rw [h1, h2, h3, h4] at hr; exact nomatch hr
    | ok s' =>
    cases h5 : extractAndCheck h unit dir with
    | error e => rw [h1, h2, h3, h4, h5] at hr; exact nomatch hr
    | ok d' =>
    rw [h1, h2, h3, h4, h5] at hr
    dsimp only at hr
    by_cases c1 : ¬ sameCoords s' d' = true
    · rw [if_pos c1] at hr; exact nomatch hr
    rw [if_neg c1] at hr
    by_cases c2 : ¬ (sameCoords t' p' && (sameCoords t' rh' && sameCoords t' s')) = true
    · rw [if_pos c2] at hr; exact nomatch hr
    rw [if_neg c2] at hr
    by_cases c3 : t'.heights.map List.length ≠ some 1
    · rw [if_pos c3] at hr; exact nomatch hr
    rw [if_neg c3] at hr
    rw [not_not] at c1 c2 c3
    rw [Bool.and_eq_true, Bool.and_eq_true] at c2
    obtain ⟨ctp, ctr, cts⟩ := c2
    have un : ∀ a b : LevelledInput V K, sameCoords a b = true → a.heights = b.heights ∧ a.scale = b.scale ∧ a.others = b.others := by
      intro a b hab
      unfold sameCoords at hab
      simpa using hab
    obtain ⟨ep, sp, op⟩ := un _ _ ctp
    obtain ⟨er, sr, or'⟩ := un _ _ ctr
    obtain ⟨es, ss, os⟩ := un _ _ cts
    obtain ⟨ed, sd, od⟩ := un _ _ c1
    obtain ⟨i, hi⟩ := only_of_length h1 c3
    obtain ⟨j, hj⟩ := only_of_length h2 (er ▸ c3)
    obtain ⟨k, hk⟩ := only_of_length h3 (ep ▸ c3)
    obtain ⟨m, hm⟩ := only_of_length h4 (es ▸ c3)
    obtain ⟨n, hn⟩ := only_of_length h5 (ed ▸ es ▸ c3)
    rw [extract_only hi] at h1
    rw [extract_only hj] at h2
    rw [extract_only hk] at h3
    rw [extract_only hm] at h4
    rw [extract_only hn] at h5
    cases h1; cases h2; cases h3; cases h4; cases h5
    cases hr
    simp only [Option.some.injEq, List.cons.injEq, and_true] at ep er es ed
    exact ⟨i, j, k, m, n, hi, hj, hk, hm, hn, ⟨er, sr, or'⟩, ⟨ep, sp, op⟩, ⟨es, ss, os⟩, ⟨es.trans ed, ss.trans sd, os.trans od⟩, rfl⟩
  · rintro ⟨i, j, k, m, n, hi, hj, hk, hm, hn, pj, pk, pm, pn, rfl⟩
    unfold enhancementInputs
    simp only [bind, Except.bind]
    rw [extract_only hi, extract_only hj, extract_only hk, extract_only hm, extract_only hn]
    dsimp only
    have mk : ∀ (a b : LevelledInput V K) (x y : ℕ), samePlace a x b y →
        sameCoords (⟨some [levelHeight a x], a.scale, a.others, fun k => a.planes ([x].getD k 0)⟩ : LevelledInput V K)
          ⟨some [levelHeight b y], b.scale, b.others, fun k => b.planes ([y].getD k 0)⟩ = true := by
      intro a b x y hab
      unfold sameCoords
      simp [hab.1, hab.2.1, hab.2.2]
    have e1 := mk speed dir m n ⟨pm.1.symm.trans pn.1, pm.2.1.symm.trans pn.2.1, pm.2.2.symm.trans pn.2.2⟩
    rw [if_neg (by rw [e1]; simp), if_neg (by rw [mk _ _ _ _ pj, mk _ _ _ _ pk, mk _ _ _ _ pm]; simp), if_neg (by simp)]
    rfl

/-- C287: what "taken for" means for heights from 0.1 to a million: at most 0.1 units away, to a tenth of a unit more. -/
theorem C287_tolerance (h v : ℚ) (h0 : 1 / 10 ≤ h) :
    (|v - h| ≤ 1 / 10 → takenFor h v) ∧ (takenFor h v → |v - h| ≤ 1 / 10 + (h + 1 / 10) / 10000000) := by
  unfold takenFor
  constructor
  · intro ha
    rw [abs_le] at ha
    constructor <;> nlinarith [ha.1, ha.2]
  · rintro ⟨a, b⟩
    rw [abs_le]
    constructor <;> nlinarith

/-- Finding: the tolerance is 0.1 of the unit in which the height is given.  Asked for 1 km, the command takes fields at 950 m for it (left), and refuses
fields on levels at 1000 m and 1050 m (right). -/
theorem C287_unit_refuted {V K : Type} [DecidableEq K] (o : K) (f : ℕ → V) :
    enhancementInputs 1 1000 (⟨some [950], 1, o, f⟩ : LevelledInput V K) ⟨some [950], 1, o, f⟩ ⟨some [950], 1, o, f⟩ ⟨some [950], 1, o, f⟩ ⟨some [950], 1, o, f⟩ =
        .ok (f 0, f 0, f 0, f 0, f 0) ∧
      ∀ out, enhancementInputs 1 1000 (⟨some [1000, 1050], 1, o, f⟩ : LevelledInput V K) ⟨some [1000, 1050], 1, o, f⟩ ⟨some [1000, 1050], 1, o, f⟩
        ⟨some [1000, 1050], 1, o, f⟩ ⟨some [1000, 1050], 1, o, f⟩ ≠ .ok out := by
  constructor
  · have ho : onlyLevel 1 1000 (⟨some [950], 1, o, f⟩ : LevelledInput V K) 0 := by
      refine ⟨[950], rfl, by simp, ?_⟩
      intro j hj
      have : j = 0 := by simp at hj; omega
      subst this
      unfold takenFor
      simp only [List.getD_cons_zero, iff_true]
      norm_num
    exact (C287_level 1 1000 _ _ _ _ _ _).2 ⟨0, 0, 0, 0, 0, ho, ho, ho, ho, ho, ⟨rfl, rfl, rfl⟩, ⟨rfl, rfl, rfl⟩, ⟨rfl, rfl, rfl⟩, ⟨rfl, rfl, rfl⟩, rfl⟩
  · intro out hr
    obtain ⟨i, -, -, -, -, ho, -⟩ := (C287_level 1 1000 _ _ _ _ _ _).1 hr
    obtain ⟨l, hl, -, hj⟩ := ho
    cases hl
    have e0 := (hj 0 (by simp)).1 (by unfold takenFor; simp only [List.getD_cons_zero]; norm_num)
    have e1 := (hj 1 (by simp)).1 (by unfold takenFor; simp only [List.getD_cons_zero, List.getD_cons_succ]; norm_num)
    omega

/-- In metres the level at 1000 m is used among levels at 500 m, 1000 m and 1500 m. -/
example {V K : Type} [DecidableEq K] (o : K) (f : ℕ → V) :
    enhancementInputs 1000 1 (⟨some [500, 1000, 1500], 1, o, f⟩ : LevelledInput V K) ⟨some [500, 1000, 1500], 1, o, f⟩ ⟨some [1000], 1, o, f⟩ ⟨some [1000, 500], 1, o, f⟩
      ⟨some [500, 1000], 1, o, f⟩ = .ok (f 1, f 1, f 0, f 0, f 1) := by
  have mk : ∀ (l : List ℚ) (i : ℕ), i < l.length → (∀ j, j < l.length → (takenFor 1000 (l.getD j 0 * 1 / 1) ↔ j = i)) →
      onlyLevel 1000 1 (⟨some l, 1, o, f⟩ : LevelledInput V K) i := fun l i hi hj => ⟨l, rfl, hi, hj⟩
  have a : onlyLevel 1000 1 (⟨some [500, 1000, 1500], 1, o, f⟩ : LevelledInput V K) 1 := mk _ _ (by simp) (by
    intro j hj
    have : j = 0 ∨ j = 1 ∨ j = 2 := by simp at hj; omega
    unfold takenFor
    rcases this with rfl | rfl | rfl <;> norm_num)
  have b : onlyLevel 1000 1 (⟨some [1000], 1, o, f⟩ : LevelledInput V K) 0 := mk _ _ (by simp) (by
    intro j hj
    have : j = 0 := by simp at hj; omega
    unfold takenFor
    subst this
    norm_num)
  have c : onlyLevel 1000 1 (⟨some [1000, 500], 1, o, f⟩ : LevelledInput V K) 0 := mk _ _ (by simp) (by
    intro j hj
    have : j = 0 ∨ j = 1 := by simp at hj; omega
    unfold takenFor
    rcases this with rfl | rfl <;> norm_num)
  have d : onlyLevel 1000 1 (⟨some [500, 1000], 1, o, f⟩ : LevelledInput V K) 1 := mk _ _ (by simp) (by
    intro j hj
    have : j = 0 ∨ j = 1 := by simp at hj; omega
    unfold takenFor
    rcases this with rfl | rfl <;> norm_num)
  exact (C287_level 1000 1 _ _ _ _ _ _).2 ⟨1, 1, 0, 0, 1, a, a, b, c, d, ⟨rfl, rfl, rfl⟩, ⟨rfl, rfl, rfl⟩, ⟨rfl, rfl, rfl⟩, ⟨rfl, rfl, rfl⟩, rfl⟩

end Improver
