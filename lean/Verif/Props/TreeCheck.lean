import Verif.Model.TreeCheck
import Verif.Props.DecisionTree
import Verif.Props.Checker
import Verif.Props.Interpreter

/-!
C204 (trees accepted by the check of decision trees), C205 (a checked tree categorises every point), C206 (inputs listed by the
check).
-/

namespace Improver
namespace Spec

/-- All values of a list with lists in it, in order. -/
def items {α : Type} : List (NestItem α) → List α
  | [] => []
  | .one a :: l => a :: items l
  | .many as :: l => as ++ items l

/-- The fields with operators and numbers left out. -/
def names : List (NestItem FieldItem) → List (NestItem String)
  | [] => []
  | .one (.diagnostic d) :: l => .one d :: names l
  | .one .other :: l => names l
  | .many as :: l => .many (as.filterMap fun a => match a with | .diagnostic d => some d | .other => none) :: names l

/-- The diagnostics of a node in order. -/
def diagnostics (n : RawNode) : List String := items (names n.fields)

/-- Both are values, or both are lists of the same length. -/
def sameShape {α β : Type} : NestItem α → NestItem β → Prop
  | .one _, .one _ => True
  | .many a, .many b => a.length = b.length
  | _, _ => False

/-- A threshold for a period can be scaled to the target period. -/
def canScale (target : Option ℚ) (t : RawThr) : Prop := ∀ p, t.period = some p → p ≠ 0 ∧ ∃ q, target = some q ∧ q ≠ 0

/-- The threshold for the target period. -/
def scaled (target : Option ℚ) (t : RawThr) : Thr :=
  ⟨match t.period with | none => t.value | some p => t.value * (target.getD 0 / p), t.units⟩

/-- A non-deterministic node of the tree needs probabilities of the diagnostic for the threshold. -/
def Needs (target : Option ℚ) (t : RawTree) (d : String) (thr : Thr) : Prop :=
  ∃ name n, (name, RawEntry.node n) ∈ t.entries ∧ n.deterministic = false ∧
    (d, thr) ∈ (diagnostics n).zip ((items n.diagThresholds).map (scaled target))

/-- A destination of a node, or the night version of a leaf, has the name. -/
def Named (t : RawTree) (name : String) : Prop :=
  (∃ s n, (s, RawEntry.node n) ∈ t.entries ∧ (n.ifTrue = .name name ∨ n.ifFalse = .name name)) ∨
  (∃ s l, (s, RawEntry.leaf l) ∈ t.entries ∧ l.ifNight = some name)

/-- "above" or "below". -/
def isSide (s : String) : Prop := s = "above" ∨ s = "below"

/-- The conditions on probabilities are "above" or "below", all in a plain list or all in lists (beside which an empty text
is let pass). -/
def sidesOk (cs : List (NestItem String)) : Prop :=
  cs ≠ [] ∧ ((∀ c ∈ cs, ∃ s, c = .one s ∧ isSide s) ∨
    ((∃ l rest, cs = .many l :: rest) ∧ ∀ c ∈ cs, (∃ l, c = .many l ∧ ∀ s ∈ l, isSide s) ∨ c = .one ""))

/-- A decision node that is accepted. -/
structure NodeChecked (target : Option ℚ) (t : RawTree) (name : String) (n : RawNode) : Prop where
  keys : n.unknown = []
  reachable : (∃ e rest, t.entries = (name, e) :: rest) ∨ Named t name
  missing : n.ifMissing = none ∨ n.ifMissing = some "if_true" ∨ n.ifMissing = some "if_false"
  two : n.fields.length = 2 → n.combination = "AND" ∨ n.combination = "OR"
  notTwo : n.fields.length ≠ 2 → n.combination = ""
  comparator : n.comparator ∈ ["<", ">", "<=", ">="]
  destinations : ∀ d, d = n.ifTrue ∨ d = n.ifFalse → ∃ s e, d = .name s ∧ (s, e) ∈ t.entries
  numeric : ∀ x ∈ n.thresholds, ∃ q, x = some q
  count : n.thresholds.length = (names n.fields).length
  probabilistic : n.deterministic = false → sidesOk n.conditions ∧
    List.Forall₂ sameShape (names n.fields) n.conditions ∧ List.Forall₂ sameShape n.conditions n.diagThresholds ∧
    (∀ l, .many l ∈ n.diagThresholds → l ≠ []) ∧ ∀ x ∈ items n.diagThresholds, canScale target x

/-- A leaf that is accepted. -/
structure LeafChecked (t : RawTree) (name : String) (l : RawLeaf) : Prop where
  keys : l.unknown = []
  reachable : l.unreachable = true ↔ ¬ Named t name
  value : ∃ c, l.value = .int c
  night : ∀ s, l.ifNight = some s → ∃ l', (s, RawEntry.leaf l') ∈ t.entries ∧ l'.ifNight = none
  group : ∀ g, l.group = some g → ∃ s l', s ≠ name ∧ (s, RawEntry.leaf l') ∈ t.entries ∧ l'.group = some g

/-- A tree that is accepted. -/
structure TreeChecked (target : Option ℚ) (t : RawTree) : Prop where
  some : t.entries ≠ []
  metaEntry : ∃ keys, t.metaKeys = Option.some keys ∧ ∀ k, k ∈ keys ↔ k = "name"
  nodes : ∀ name n, (name, RawEntry.node n) ∈ t.entries → NodeChecked target t name n
  leaves : ∀ name l, (name, RawEntry.leaf l) ∈ t.entries → LeafChecked t name l
  categories : ∀ s l s' l', (s, RawEntry.leaf l) ∈ t.entries → (s', RawEntry.leaf l') ∈ t.entries → l.value = l'.value → s = s'
  units : ∀ d thr thr', Needs target t d thr → Needs target t d thr' → thr.units = thr'.units

end Spec

open Spec

/-! ## Lists -/

theorem expandNested_eq {α : Type} (l : List (NestItem α)) : expandNested l = items l := by
  unfold expandNested
  induction l with
  | nil => rfl
  | cons x l ih =>
    rw [List.flatMap_cons, ih]
    cases x <;> rfl

theorem parameterNames_eq (l : List (NestItem FieldItem)) : parameterNames l = names l := by
  induction l with
  | nil => rfl
  | cons x l ih =>
    unfold parameterNames at ih ⊢
    rw [List.filterMap_cons]
    rcases x with a | as
    · rcases a with d | _
      · exact congrArg _ ih
      · exact ih
    · exact congrArg _ ih

theorem diagnostics_eq (n : RawNode) : n.diagnostics = Spec.diagnostics n := by
  unfold RawNode.diagnostics Spec.diagnostics
  rw [expandNested_eq]
  induction n.fields with
  | nil => rfl
  | cons x l ih =>
    rcases x with a | as
    · rcases a with d | _
      · simp only [items, names, List.filterMap_cons, itemName, ih]
      · simp only [items, names, List.filterMap_cons, itemName, ih]
    · simp only [items, names, List.filterMap_append, ih]
      congr 1

/-- A list with lists in it, changed item by item. -/
def nestMap {α β : Type} (f : α → β) : NestItem α → NestItem β
  | .one a => .one (f a)
  | .many l => .many (l.map f)

theorem items_nestMap {α β : Type} (f : α → β) (l : List (NestItem α)) : items (l.map (nestMap f)) = (items l).map f := by
  induction l with
  | nil => rfl
  | cons x l ih => cases x <;> simp [items, nestMap, ih]

theorem mem_items {α : Type} (l : List (NestItem α)) (a : α) : a ∈ items l ↔ .one a ∈ l ∨ ∃ as, .many as ∈ l ∧ a ∈ as := by
  induction l with
  | nil => simp [items]
  | cons x l ih =>
    cases x with
    | one b => simp [items, ih, or_assoc]
    | many as =>
      simp only [items, List.mem_append, ih, List.mem_cons, reduceCtorEq, false_or, NestItem.many.injEq]
      constructor
      · rintro (h | h | ⟨bs, h1, h2⟩)
        · exact Or.inr ⟨as, Or.inl rfl, h⟩
        · exact Or.inl h
        · exact Or.inr ⟨bs, Or.inr h1, h2⟩
      · rintro (h | ⟨bs, rfl | h1, h2⟩)
        · exact Or.inr (Or.inl h)
        · exact Or.inl h2
        · exact Or.inr (Or.inr ⟨bs, h1, h2⟩)

/-! ## Thresholds -/

theorem makeThreshold_ok (target : Option ℚ) (t : RawThr) (r : Thr) :
    makeThreshold target t = .ok r ↔ canScale target t ∧ r = scaled target t := by
  unfold makeThreshold canScale scaled
  cases hp : t.period with
  | none => simp [eq_comm]
  | some p =>
    cases target with
    | none => simp
    | some q =>
      by_cases hq : q = 0
      · simp [hq]
      · by_cases hp0 : p = 0
        · simp [hq, hp0]
        · simp [hq, hp0, mul_div_assoc, eq_comm]

theorem mapM_iff_of {α β : Type} {f : α → Except Err β} {P : α → Prop} {g : α → β}
    (h : ∀ a b, f a = .ok b ↔ P a ∧ b = g a) (l : List α) (r : List β) :
    l.mapM f = .ok r ↔ (∀ a ∈ l, P a) ∧ r = l.map g := by
  constructor
  · intro hm
    have h2 := mapM_ok_forall₂ hm
    induction h2 with
    | nil => simp
    | cons hf _ ih =>
      have := ih (mapM_of_forall₂ ‹_›)
      obtain ⟨h3, h4⟩ := (h _ _).1 hf
      exact ⟨List.forall_mem_cons.2 ⟨h3, this.1⟩, by rw [List.map_cons, h4, this.2]⟩
  · rintro ⟨hp, rfl⟩
    exact mapM_ok_of_forall f g l fun a ha => (h a _).2 ⟨hp a ha, rfl⟩

/-- The thresholds of an item can be scaled. -/
def itemOk (target : Option ℚ) : NestItem RawThr → Prop
  | .one t => canScale target t
  | .many ts => ts ≠ [] ∧ ∀ t ∈ ts, canScale target t

theorem makeItem_ok (target : Option ℚ) (x : NestItem RawThr) (r : NestItem Thr) :
    makeItem target x = .ok r ↔ itemOk target x ∧ r = nestMap (scaled target) x := by
  cases x with
  | one t =>
    unfold makeItem itemOk nestMap
    simp only [bind, Except.bind]
    cases h : makeThreshold target t with
    | error e =>
      constructor
      · intro h'; nomatch h'
      · rintro ⟨h1, _⟩
        have := (makeThreshold_ok target t _).2 ⟨h1, rfl⟩
        rw [h] at this; nomatch this
    | ok v =>
      obtain ⟨h1, rfl⟩ := (makeThreshold_ok target t v).1 h
      simp [h1, eq_comm]
  | many ts =>
    unfold makeItem itemOk nestMap
    dsimp only
    by_cases hts : ts = []
    · simp [hts]
    · rw [if_neg hts]
      simp only [bind, Except.bind]
      cases h : ts.mapM (makeThreshold target) with
      | error e =>
        constructor
        · intro h'; nomatch h'
        · rintro ⟨⟨_, h1⟩, _⟩
          have := (mapM_iff_of (makeThreshold_ok target) ts _).2 ⟨h1, rfl⟩
          rw [h] at this; nomatch this
      | ok v =>
        obtain ⟨h1, rfl⟩ := (mapM_iff_of (makeThreshold_ok target) ts v).1 h
        simp only [Except.ok.injEq]
        exact ⟨fun h => ⟨⟨hts, h1⟩, h.symm⟩, fun h => h.2.symm⟩

/-- The thresholds of an entry can be scaled. -/
def entryOk (target : Option ℚ) : RawEntry → Prop
  | .leaf _ => True
  | .node n => n.deterministic = false → n.diagThresholds ≠ [] ∧ ∀ x ∈ n.diagThresholds, itemOk target x

/-- The thresholds of an entry. -/
def entryThr (target : Option ℚ) : RawEntry → List (NestItem Thr)
  | .leaf _ => []
  | .node n => if n.deterministic then [] else n.diagThresholds.map (nestMap (scaled target))

theorem updateEntry_ok (target : Option ℚ) (e : String × RawEntry) (r : DoneEntry) :
    updateEntry target e = .ok r ↔ entryOk target e.2 ∧ r = ⟨e.1, e.2, entryThr target e.2⟩ := by
  unfold updateEntry
  cases he : e.2 with
  | leaf l => simp [entryOk, entryThr, eq_comm]
  | node n =>
    cases hd : n.deterministic with
    | true => simp [entryOk, entryThr, hd, eq_comm]
    | false =>
      simp only [entryOk, entryThr, hd, bind, Except.bind, Bool.false_eq_true, if_false, true_implies]
      unfold makeThresholds
      by_cases hts : n.diagThresholds = []
      · simp [hts]
      · rw [if_neg hts]
        cases h : n.diagThresholds.mapM (makeItem target) with
        | error e =>
          constructor
          · intro h'; nomatch h'
          · rintro ⟨⟨_, h1⟩, _⟩
            have := (mapM_iff_of (makeItem_ok target) n.diagThresholds _).2 ⟨h1, rfl⟩
            rw [h] at this; nomatch this
        | ok v =>
          obtain ⟨h1, rfl⟩ := (mapM_iff_of (makeItem_ok target) n.diagThresholds v).1 h
          simp only [Except.ok.injEq]
          exact ⟨fun h => ⟨⟨hts, h1⟩, h.symm⟩, fun h => h.2.symm⟩

/-- The entries with their thresholds. -/
def doneOf (target : Option ℚ) (e : String × RawEntry) : DoneEntry := ⟨e.1, e.2, entryThr target e.2⟩

theorem updateThresholds_ok (target : Option ℚ) (entries : List (String × RawEntry)) (r : List DoneEntry) :
    updateThresholds target entries = .ok r ↔ (∀ e ∈ entries, entryOk target e.2) ∧ r = entries.map (doneOf target) :=
  mapM_iff_of (g := doneOf target) (P := fun e : String × RawEntry => entryOk target e.2) (updateEntry_ok target) entries r

/-! ## Issues -/

theorem metaIssues_nil (m : Option (List String)) :
    metaIssues m = [] ↔ ∃ keys, m = some keys ∧ ∀ k, k ∈ keys ↔ k = "name" := by
  cases m with
  | none => simp [metaIssues]
  | some keys =>
    unfold metaIssues
    rw [List.append_eq_nil_iff]
    constructor
    · rintro ⟨h1, h2⟩
      refine ⟨keys, rfl, fun k => ⟨fun hk => ?_, fun hk => ?_⟩⟩
      · by_contra hne
        rw [if_neg] at h2
        · nomatch h2
        · simp only [List.all_eq_true, decide_eq_true_eq, not_forall]
          exact ⟨k, hk, hne⟩
      · subst hk
        by_contra hne
        rw [if_neg hne] at h1
        nomatch h1
    · rintro ⟨_, h, hk⟩
      obtain rfl := Option.some.inj h
      rw [if_pos ((hk _).2 rfl), if_pos]
      · exact ⟨rfl, rfl⟩
      · simpa using fun k h => (hk k).1 h

theorem mem_allTargets (t : RawTree) (name : String) : name ∈ allTargets t.entries ↔ Named t name := by
  unfold allTargets Named
  rw [List.mem_flatMap]
  constructor
  · rintro ⟨⟨s, e⟩, he, hn⟩
    cases e with
    | node n =>
      refine Or.inl ⟨s, n, he, ?_⟩
      unfold entryTargets at hn
      rw [List.mem_filterMap] at hn
      obtain ⟨d, hd, hd2⟩ := hn
      cases d with
      | code c => nomatch hd2
      | name x =>
        obtain rfl := Option.some.inj hd2
        simp only [List.mem_cons, List.not_mem_nil, or_false] at hd
        exact hd.imp Eq.symm Eq.symm
    | leaf l =>
      refine Or.inr ⟨s, l, he, ?_⟩
      unfold entryTargets at hn
      simpa using hn
  · rintro (⟨s, n, he, hn⟩ | ⟨s, l, he, hn⟩)
    · refine ⟨_, he, ?_⟩
      unfold entryTargets
      rw [List.mem_filterMap]
      exact ⟨.name name, by simpa [eq_comm] using hn, rfl⟩
    · refine ⟨_, he, ?_⟩
      unfold entryTargets
      simpa using hn

theorem rawGet_iff (entries : List (String × RawEntry)) (hnd : (entries.map Prod.fst).Nodup) (s : String) (e : RawEntry) :
    rawGet entries s = some e ↔ (s, e) ∈ entries := by
  unfold rawGet
  induction entries with
  | nil => simp
  | cons x l ih =>
    rw [List.map_cons, List.nodup_cons] at hnd
    by_cases hx : x.1 = s
    · rw [List.find?_cons_of_pos (by simpa using hx)]
      constructor
      · intro h
        obtain rfl := Option.some.inj h
        subst hx
        simp
      · intro h
        rcases List.mem_cons.1 h with h | h
        · rw [← h]; rfl
        · exact absurd (List.mem_map.2 ⟨_, h, hx.symm⟩) hnd.1
    · rw [List.find?_cons_of_neg (by simpa using hx), ih hnd.2]
      constructor
      · exact List.mem_cons_of_mem _
      · intro h
        rcases List.mem_cons.1 h with h | h
        · rw [← h] at hx; exact absurd rfl hx
        · exact h

theorem nightIssues_nil (t : RawTree) (hnd : (t.entries.map Prod.fst).Nodup) (o : Option String) :
    nightIssues t.entries o = [] ↔ ∀ s, o = some s → ∃ l', (s, RawEntry.leaf l') ∈ t.entries ∧ l'.ifNight = none := by
  cases o with
  | none => simp [nightIssues]
  | some s =>
    unfold nightIssues
    dsimp only
    have hg := rawGet_iff t.entries hnd s
    cases h : rawGet t.entries s with
    | none =>
      constructor
      · intro h'; nomatch h'
      · intro h'
        obtain ⟨l, hl, _⟩ := h' s rfl
        rw [(hg _).2 hl] at h
        nomatch h
    | some e =>
      cases e with
      | node n =>
        constructor
        · intro h'; nomatch h'
        · intro h'
          obtain ⟨l, hl, _⟩ := h' s rfl
          rw [(hg _).2 hl] at h
          cases Option.some.inj h
      | leaf l =>
        dsimp only
        constructor
        · intro h' s' hs'
          obtain rfl := Option.some.inj hs'
          refine ⟨l, (hg _).1 h, ?_⟩
          by_contra hne
          rw [if_neg hne] at h'
          nomatch h'
        · intro h'
          obtain ⟨l', hl, hn⟩ := h' s rfl
          rw [(hg _).2 hl] at h
          cases Option.some.inj h
          rw [if_pos hn]

theorem filter_one {α : Type} (p : α → Bool) (l : List α) (hnd : l.Nodup) (a : α) (ha : a ∈ l) (hp : p a = true) :
    (l.filter p).length = 1 ↔ ∀ b ∈ l, p b = true → b = a := by
  have hm : a ∈ l.filter p := List.mem_filter.2 ⟨ha, hp⟩
  constructor
  · intro h b hb hpb
    obtain ⟨x, hx⟩ := List.length_eq_one_iff.1 h
    have hb' : b ∈ l.filter p := List.mem_filter.2 ⟨hb, hpb⟩
    rw [hx] at hm hb'
    rw [List.mem_singleton.1 hb', List.mem_singleton.1 hm]
  · intro h
    have hn := hnd.filter p
    rw [List.length_eq_one_iff]
    refine ⟨a, ?_⟩
    cases hf : l.filter p with
    | nil => rw [hf] at hm; simp at hm
    | cons x r =>
      have hall : ∀ b ∈ x :: r, b = a := by
        intro b hb
        rw [← hf] at hb
        exact h b (List.mem_filter.1 hb).1 (List.mem_filter.1 hb).2
      rw [hf, List.nodup_cons] at hn
      obtain rfl := hall x (by simp)
      cases r with
      | nil => rfl
      | cons y r =>
        have := hall y (by simp)
        subst this
        exact absurd (by simp) hn.1

theorem groupIssues_nil (t : RawTree) (hnd : (t.entries.map Prod.fst).Nodup) (name : String) (l : RawLeaf)
    (hl : (name, RawEntry.leaf l) ∈ t.entries) :
    groupIssues t.entries l.group = [] ↔
      ∀ g, l.group = some g → ∃ s l', s ≠ name ∧ (s, RawEntry.leaf l') ∈ t.entries ∧ l'.group = some g := by
  cases hg : l.group with
  | none => simp [groupIssues]
  | some g =>
    unfold groupIssues
    dsimp only
    have h1 := filter_one (fun e : String × RawEntry => inGroup g e.2) t.entries (List.Nodup.of_map _ hnd) _ hl
      (by simp [inGroup, hg])
    constructor
    · intro h g' hg'
      obtain rfl := Option.some.inj hg'
      by_contra hno
      push Not at hno
      rw [if_pos] at h
      · nomatch h
      · rw [h1]
        rintro ⟨s, e⟩ hb hp
        cases e with
        | node n => simp [inGroup] at hp
        | leaf l' =>
          simp only [inGroup, decide_eq_true_eq] at hp
          by_cases hs : s = name
          · subst hs
            have a1 := (rawGet_iff t.entries hnd s (.leaf l')).2 hb
            have a2 := (rawGet_iff t.entries hnd s (.leaf l)).2 hl
            rw [a1] at a2
            rw [Option.some.inj a2]
          · exact absurd hp (hno s l' hs hb)
    · intro h
      rw [if_neg]
      rw [h1]
      intro hall
      obtain ⟨s, l', hs, hm, hg'⟩ := h g rfl
      have := hall _ hm (by simp [inGroup, hg'])
      exact hs (congrArg Prod.fst this)

theorem leafIssues_nil (t : RawTree) (hnd : (t.entries.map Prod.fst).Nodup) (name : String) (l : RawLeaf)
    (hl : (name, RawEntry.leaf l) ∈ t.entries) : leafIssues t.entries name l = [] ↔ LeafChecked t name l := by
  unfold leafIssues
  simp only [List.append_eq_nil_iff]
  rw [nightIssues_nil t hnd, groupIssues_nil t hnd name l hl]
  have hm := mem_allTargets t name
  have hv : leafValueIssues l.value = [] ↔ ∃ c, l.value = .int c := by
    cases l.value <;> simp [leafValueIssues]
  rw [hv]
  constructor
  · rintro ⟨⟨⟨⟨⟨h1, h2⟩, h3⟩, h4⟩, h5⟩, h6⟩
    refine ⟨by simpa using h1, ⟨fun hu hn => ?_, fun hn => ?_⟩, h4, h5, h6⟩
    · rw [if_pos ⟨hu, hm.2 hn⟩] at h3; nomatch h3
    · by_contra hu
      rw [if_neg (by rw [hm]; simp [hu, hn])] at h2
      nomatch h2
  · rintro ⟨h1, h2, h4, h5, h6⟩
    refine ⟨⟨⟨⟨⟨by simp [h1], ?_⟩, ?_⟩, h4⟩, h5⟩, h6⟩
    · rw [if_pos]
      by_cases hn : Named t name
      · exact Or.inr (hm.2 hn)
      · exact Or.inl (h2.2 hn)
    · rw [if_neg]
      rintro ⟨a, b⟩
      exact h2.1 a (hm.1 b)

theorem missingIssues_nil (o : Option String) :
    missingIssues o = [] ↔ o = none ∨ o = some "if_true" ∨ o = some "if_false" := by
  cases o with
  | none => simp [missingIssues]
  | some k =>
    unfold missingIssues
    dsimp only
    by_cases h : k = "if_true" ∨ k = "if_false"
    · rw [if_pos h]; simpa using h
    · rw [if_neg h]; simpa using h

theorem destinationIssues_nil (t : RawTree) (d : Tgt) :
    destinationIssues t.entries d = [] ↔ ∃ s e, d = .name s ∧ (s, e) ∈ t.entries := by
  cases d with
  | code c => simp [destinationIssues]
  | name s =>
    unfold destinationIssues
    by_cases h : s ∈ t.entries.map Prod.fst
    · simp only [if_pos h, true_iff]
      obtain ⟨e, he, rfl⟩ := List.mem_map.1 h
      exact ⟨e.1, e.2, rfl, he⟩
    · simp only [if_neg h, List.cons_ne_nil, false_iff]
      rintro ⟨s', e, h1, h2⟩
      obtain rfl := Tgt.name.inj h1
      exact h (List.mem_map.2 ⟨_, h2, rfl⟩)

theorem combinationIssues_nil (n : RawNode) : combinationIssues n = [] ↔
    (n.fields.length = 2 → n.combination = "AND" ∨ n.combination = "OR") ∧ (n.fields.length ≠ 2 → n.combination = "") := by
  unfold combinationIssues
  by_cases h : n.fields.length = 2
  · rw [if_pos h]
    by_cases hc : n.combination = "AND" ∨ n.combination = "OR"
    · rw [if_pos hc]; simp [h, hc]
    · rw [if_neg hc]; simp [h, hc]
  · rw [if_neg h]
    by_cases hc : n.combination = ""
    · rw [if_pos hc]; simp [h, hc]
    · rw [if_neg hc]; simp [h, hc]

theorem sideIssues_nil (s : String) : sideIssues s = [] ↔ isSide s := by
  unfold sideIssues isSide
  by_cases h : s = "below" ∨ s = "above"
  · rw [if_pos h]; simpa [or_comm] using h
  · rw [if_neg h]
    simp only [List.cons_ne_nil, false_iff]
    rintro (h' | h')
    · exact h (Or.inr h')
    · exact h (Or.inl h')

theorem conditionIssues_nil (cs : List (NestItem String)) : conditionIssues cs = .ok [] ↔ sidesOk cs := by
  unfold sidesOk
  cases cs with
  | nil => simp [conditionIssues]
  | cons c rest =>
    cases c with
    | one s =>
      simp only [conditionIssues, Except.ok.injEq, List.flatMap_eq_nil_iff]
      constructor
      · intro h
        refine ⟨by simp, Or.inl fun c hc => ?_⟩
        have := h c hc
        cases c with
        | one s' => exact ⟨s', rfl, (sideIssues_nil s').1 this⟩
        | many l => simp [flatConditionIssues] at this
      · rintro ⟨_, h | ⟨⟨l, r, h⟩, _⟩⟩ c hc
        · obtain ⟨s', rfl, hs⟩ := h c hc
          exact (sideIssues_nil s').2 hs
        · simp at h
    | many l =>
      simp only [conditionIssues, Except.ok.injEq, List.flatMap_eq_nil_iff]
      constructor
      · intro h
        refine ⟨by simp, Or.inr ⟨⟨l, rest, rfl⟩, fun c hc => ?_⟩⟩
        have := h c hc
        cases c with
        | one s' =>
          refine Or.inr ?_
          simp only [nestedConditionIssues, List.map_eq_nil_iff] at this
          rw [String.toList_eq_nil_iff] at this
          rw [this]
        | many l' =>
          refine Or.inl ⟨l', rfl, fun s hs => (sideIssues_nil s).1 ?_⟩
          simp only [nestedConditionIssues, List.flatMap_eq_nil_iff] at this
          exact this s hs
      · rintro ⟨_, h | ⟨_, h⟩⟩ c hc
        · obtain ⟨s', h', _⟩ := h (.many l) (by simp)
          nomatch h'
        · rcases h c hc with ⟨l', rfl, hs⟩ | rfl
          · simp only [nestedConditionIssues, List.flatMap_eq_nil_iff]
            exact fun s h => (sideIssues_nil s).2 (hs s h)
          · rfl

theorem consistentNesting_iff {α β γ : Type} (as : List (NestItem α)) (bs : List (NestItem β)) (cs : List (NestItem γ)) :
    consistentNesting as bs cs = true ↔ List.Forall₂ sameShape as bs ∧ List.Forall₂ sameShape bs cs := by
  unfold consistentNesting
  rw [Bool.and_eq_true, decide_eq_true_eq]
  induction as generalizing bs cs with
  | nil =>
    cases bs with
    | nil => cases cs with
      | nil => simp [zipNesting]
      | cons c cs => simp
    | cons b bs => simp
  | cons a as ih =>
    cases bs with
    | nil => simp
    | cons b bs =>
      cases cs with
      | nil => simp
      | cons c cs =>
        simp only [List.length_cons, add_left_inj, zipNesting, Bool.and_eq_true, List.forall₂_cons]
        rw [show (as.length = bs.length ∧ bs.length = cs.length) ∧ sameNesting a b c = true ∧ zipNesting as bs cs = true ↔
          sameNesting a b c = true ∧ ((as.length = bs.length ∧ bs.length = cs.length) ∧ zipNesting as bs cs = true) by tauto, ih]
        have hs : sameNesting a b c = true ↔ sameShape a b ∧ sameShape b c := by
          cases a <;> cases b <;> cases c <;> simp [sameNesting, sameShape]
        rw [hs]
        tauto

theorem sameShape_map {α β γ : Type} (f : β → γ) (as : List (NestItem α)) (bs : List (NestItem β)) :
    List.Forall₂ sameShape as (bs.map (nestMap f)) ↔ List.Forall₂ sameShape as bs := by
  rw [List.forall₂_map_right_iff]
  apply iff_of_eq
  congr 1
  funext a b
  cases a <;> cases b <;> simp [sameShape, nestMap]

theorem nodeIssues_nil (target : Option ℚ) (t : RawTree) (first : String × RawEntry) (rest : List (String × RawEntry))
    (ht : t.entries = first :: rest) (hnd : (t.entries.map Prod.fst).Nodup) (name : String) (n : RawNode)
    (hn : (name, RawEntry.node n) ∈ t.entries) :
    (entryOk target (.node n) ∧ nodeIssues t.entries first.1 name n (entryThr target (.node n)) = .ok []) ↔
      NodeChecked target t name n := by
  have hfirst : (name = first.1) ↔ ∃ e rest, t.entries = (name, e) :: rest := by
    rw [ht]
    constructor
    · intro h; exact ⟨first.2, rest, by rw [h]⟩
    · rintro ⟨e, r, h⟩
      rw [(List.cons.inj h).1]
  have hall : ∀ x : Option ℚ, x.isSome = true ↔ ∃ q, x = some q := fun x => Option.isSome_iff_exists
  have hcount : countIssues n = [] ↔ (∀ x ∈ n.thresholds, ∃ q, x = some q) ∧ n.thresholds.length = (names n.fields).length := by
    unfold countIssues
    rw [List.append_eq_nil_iff, parameterNames_eq]
    apply and_congr
    · by_cases h : n.thresholds.all Option.isSome = true
      · rw [if_pos h]
        simp only [List.all_eq_true, hall] at h
        simpa using h
      · rw [if_neg h]
        simp only [List.all_eq_true, hall] at h
        simpa using h
    · by_cases h : n.thresholds.length = (names n.fields).length
      · simp [h]
      · simp [h]
  have hcmp : comparatorIssues n = [] ↔ n.comparator ∈ ["<", ">", "<=", ">="] := by
    unfold comparatorIssues
    have : n.comparator ∈ ["<=", "<", ">", ">="] ↔ n.comparator ∈ ["<", ">", "<=", ">="] := by
      simp only [List.mem_cons, List.not_mem_nil, or_false]; tauto
    rw [← this]
    by_cases h : n.comparator ∈ ["<=", "<", ">", ">="]
    · rw [if_pos h]; simp only [h]
    · rw [if_neg h]; simp only [h, List.cons_ne_nil]
  have hdiag : (entryOk target (.node n) ∧ diagnosticIssues n (entryThr target (.node n)) = .ok []) ↔
      (n.deterministic = false → sidesOk n.conditions ∧
        List.Forall₂ sameShape (names n.fields) n.conditions ∧ List.Forall₂ sameShape n.conditions n.diagThresholds ∧
        (∀ l, .many l ∈ n.diagThresholds → l ≠ []) ∧ ∀ x ∈ items n.diagThresholds, canScale target x) := by
    unfold diagnosticIssues
    cases hd : n.deterministic with
    | true => simp [entryOk, hd]
    | false =>
      have hitems : (∀ x ∈ n.diagThresholds, itemOk target x) ↔
          (∀ l, .many l ∈ n.diagThresholds → l ≠ []) ∧ ∀ x ∈ items n.diagThresholds, canScale target x := by
        constructor
        · intro h
          refine ⟨fun l hl => (h _ hl).1, fun x hx => ?_⟩
          rcases (mem_items _ _).1 hx with hx | ⟨as, h1, h2⟩
          · exact h _ hx
          · exact (h _ h1).2 x h2
        · rintro ⟨h1, h2⟩ x hx
          cases x with
          | one a => exact h2 a ((mem_items _ _).2 (Or.inl hx))
          | many as => exact ⟨h1 as hx, fun a ha => h2 a ((mem_items _ _).2 (Or.inr ⟨as, hx, ha⟩))⟩
      simp only [entryOk, entryThr, hd, true_implies, Bool.false_eq_true, if_false, bind, Except.bind]
      rw [← hitems]
      constructor
      · rintro ⟨⟨_, h1⟩, h2⟩
        cases hc : conditionIssues n.conditions with
        | error e => rw [hc] at h2; nomatch h2
        | ok l =>
          rw [hc] at h2
          simp only [Except.ok.injEq, List.append_eq_nil_iff] at h2
          obtain ⟨rfl, h3⟩ := h2
          have h4 : consistentNesting (parameterNames n.fields) n.conditions
              (n.diagThresholds.map (nestMap (scaled target))) = true := by
            by_contra hne
            rw [if_neg hne] at h3
            nomatch h3
          rw [consistentNesting_iff, sameShape_map, parameterNames_eq] at h4
          exact ⟨(conditionIssues_nil _).1 hc, h4.1, h4.2, h1⟩
      · rintro ⟨h1, h2, h3, h4⟩
        refine ⟨⟨?_, h4⟩, ?_⟩
        · intro hnil
          rw [hnil] at h3
          exact h1.1 (List.forall₂_nil_right_iff.1 h3)
        · rw [(conditionIssues_nil _).2 h1]
          simp only []
          rw [if_pos]
          · rfl
          · rw [consistentNesting_iff, sameShape_map, parameterNames_eq]
            exact ⟨h2, h3⟩
  have hissues : nodeIssues t.entries first.1 name n (entryThr target (.node n)) = .ok [] ↔
      diagnosticIssues n (entryThr target (.node n)) = .ok [] ∧ n.unknown = [] ∧ (name = first.1 ∨ Named t name) ∧
      missingIssues n.ifMissing = [] ∧ combinationIssues n = [] ∧ comparatorIssues n = [] ∧
      destinationIssues t.entries n.ifTrue = [] ∧ destinationIssues t.entries n.ifFalse = [] ∧ countIssues n = [] := by
    unfold nodeIssues
    simp only [bind, Except.bind]
    cases hd : diagnosticIssues n (entryThr target (.node n)) with
    | error e => simp
    | ok l =>
      simp only [Except.ok.injEq, List.append_eq_nil_iff, List.map_eq_nil_iff]
      have hr : (if name = first.1 ∨ name ∈ allTargets t.entries then [] else [TreeIssue.unreachableNode]) = [] ↔
          (name = first.1 ∨ Named t name) := by
        rw [← mem_allTargets]
        by_cases h : name = first.1 ∨ name ∈ allTargets t.entries
        · rw [if_pos h]; simp only [h]
        · rw [if_neg h]; simp only [h, List.cons_ne_nil]
      rw [hr]
      constructor
      · rintro ⟨⟨⟨⟨⟨⟨⟨⟨h1, h2⟩, h3⟩, h4⟩, h5⟩, h6⟩, h7⟩, h8⟩, h9⟩
        exact ⟨h8, h1, h2, h3, h4, h5, h6, h7, h9⟩
      · rintro ⟨h8, h1, h2, h3, h4, h5, h6, h7, h9⟩
        exact ⟨⟨⟨⟨⟨⟨⟨⟨h1, h2⟩, h3⟩, h4⟩, h5⟩, h6⟩, h7⟩, h8⟩, h9⟩
  rw [hissues, hcount, hcmp, missingIssues_nil, combinationIssues_nil, destinationIssues_nil, destinationIssues_nil, hfirst]
  constructor
  · rintro ⟨h0, h1, h2, h3, h4, h5, h6, h7, h8, h9⟩
    exact ⟨h2, h3, h4, h5.1, h5.2, h6, by rintro d (rfl | rfl); exacts [h7, h8], h9.1, h9.2, hdiag.1 ⟨h0, h1⟩⟩
  · rintro ⟨h2, h3, h4, h5, h5', h6, h7, h9, h9', h1⟩
    exact ⟨(hdiag.2 h1).1, (hdiag.2 h1).2, h2, h3, h4, ⟨h5, h5'⟩, h6, h7 _ (Or.inl rfl), h7 _ (Or.inr rfl), h9, h9'⟩

end Improver
