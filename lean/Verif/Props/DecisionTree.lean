import Verif.Model.DecisionTree
import Mathlib.Data.List.Nodup
import Mathlib.Data.List.Perm.Subperm

/-! Properties C43 (categories are those found by walking the decision tree), C44 (optional nodes with missing data), C45 (day and
night codes) and C46 (diagnostic expressions). -/

namespace Improver

/-! ### C43: walking the tree -/

/-- Specification: does a comparison hold? -/
def Spec.cmp (comparator : String) (v thr : ℚ) : Prop :=
  (comparator = "<" ∧ v < thr) ∨ (comparator = ">" ∧ thr < v) ∨ (comparator = "<=" ∧ v ≤ thr) ∨ (comparator = ">=" ∧ thr ≤ v)

/-- Specification: the test of a decision node is passed: all conditions hold for "AND", some condition holds for "OR", and the
condition holds for a single condition. -/
def Spec.passes (n : DNode) : Prop :=
  if n.combination = "OR" then ∃ c ∈ n.conds, Spec.cmp n.comparator (evalExpr c.1) c.2
  else ∀ c ∈ n.conds, Spec.cmp n.comparator (evalExpr c.1) c.2

/-- Specification: following the tree from a destination leads to a category. -/
inductive Spec.Reaches (q : DTree) : Tgt → ℤ → Prop
  | code (c : ℤ) : Spec.Reaches q (.code c) c
  | leaf (s : String) (c : ℤ) (nt fl) : q.get s = some (.leaf c nt fl) → Spec.Reaches q (.name s) c
  | yes (s : String) (n : DNode) (fl) (c : ℤ) : q.get s = some (.node n fl) → Spec.passes n → Spec.Reaches q n.ifTrue c →
      Spec.Reaches q (.name s) c
  | no (s : String) (n : DNode) (fl) (c : ℤ) : q.get s = some (.node n fl) → ¬ Spec.passes n → Spec.Reaches q n.ifFalse c →
      Spec.Reaches q (.name s) c

/-- Specification: a decision node as `check_tree` wants it: a known comparator, at least one condition, a known combination
when there are several, and two different destinations. -/
structure Spec.NodeOk (n : DNode) : Prop where
  cmp : n.comparator ∈ ["<", ">", "<=", ">="]
  conds : n.conds ≠ []
  comb : n.combination = "AND" ∨ n.combination = "OR" ∨ (n.combination = "" ∧ n.conds.length = 1)
  branches : n.ifTrue ≠ n.ifFalse

/-- Specification: all decision nodes are well-formed. -/
def Spec.TreeOk (q : DTree) : Prop := ∀ s n fl, q.get s = some (.node n fl) → Spec.NodeOk n

/-! #### One node -/

theorem compare_spec {cmp : String} (h : cmp ∈ ["<", ">", "<=", ">="]) (v thr : ℚ) :
    ∃ b, compareToThreshold v cmp thr = .ok b ∧ (b = true ↔ Spec.cmp cmp v thr) := by
  simp only [List.mem_cons, List.not_mem_nil, or_false] at h
  rcases h with rfl | rfl | rfl | rfl
  · exact ⟨decide (v < thr), by simp [compareToThreshold], by simp [Spec.cmp]⟩
  · exact ⟨decide (v > thr), by simp [compareToThreshold], by simp [Spec.cmp]⟩
  · exact ⟨decide (v ≤ thr), by simp [compareToThreshold], by simp [Spec.cmp]⟩
  · exact ⟨decide (v ≥ thr), by simp [compareToThreshold], by simp [Spec.cmp]⟩

theorem invertComparator_spec {cmp : String} (h : cmp ∈ ["<", ">", "<=", ">="]) :
    ∃ c, invertComparator cmp = .ok c ∧ c ∈ ["<", ">", "<=", ">="] ∧ ∀ v thr, Spec.cmp c v thr ↔ ¬ Spec.cmp cmp v thr := by
  simp only [List.mem_cons, List.not_mem_nil, or_false] at h
  rcases h with rfl | rfl | rfl | rfl
  · exact ⟨">=", by simp [invertComparator], by simp, fun v t => by simp [Spec.cmp]⟩
  · exact ⟨"<=", by simp [invertComparator], by simp, fun v t => by simp [Spec.cmp]⟩
  · exact ⟨">", by simp [invertComparator], by simp, fun v t => by simp [Spec.cmp]⟩
  · exact ⟨"<", by simp [invertComparator], by simp, fun v t => by simp [Spec.cmp]⟩

/-- Specification of a chain's truth. -/
def Spec.chainHolds (c : DChain) : Prop :=
  if c.combination = "OR" then ∃ x ∈ c.conds, Spec.cmp c.comparator (evalExpr x.1) x.2
  else ∀ x ∈ c.conds, Spec.cmp c.comparator (evalExpr x.1) x.2

theorem evalCondsLoop_and {cmp : String} (h : cmp ∈ ["<", ">", "<=", ">="]) (l : List (DTExpr × ℚ)) (r : Bool) :
    ∃ b, evalCondsLoop cmp "AND" r l = .ok b ∧ (b = true ↔ r = true ∧ ∀ x ∈ l, Spec.cmp cmp (evalExpr x.1) x.2) := by
  induction l generalizing r with
  | nil => exact ⟨r, rfl, by simp⟩
  | cons c l ih =>
    obtain ⟨b, hb, hb'⟩ := compare_spec h (evalExpr c.1) c.2
    obtain ⟨b2, h2, h2'⟩ := ih (r && b)
    refine ⟨b2, ?_, ?_⟩
    · simp only [evalCondsLoop, bind, Except.bind, hb, combineTruth, if_true]
      exact h2
    · rw [h2']; simp [hb', and_assoc]

theorem evalCondsLoop_or {cmp : String} (h : cmp ∈ ["<", ">", "<=", ">="]) (l : List (DTExpr × ℚ)) (r : Bool) :
    ∃ b, evalCondsLoop cmp "OR" r l = .ok b ∧ (b = true ↔ r = true ∨ ∃ x ∈ l, Spec.cmp cmp (evalExpr x.1) x.2) := by
  induction l generalizing r with
  | nil => exact ⟨r, rfl, by simp⟩
  | cons c l ih =>
    obtain ⟨b, hb, hb'⟩ := compare_spec h (evalExpr c.1) c.2
    obtain ⟨b2, h2, h2'⟩ := ih (r || b)
    refine ⟨b2, ?_, ?_⟩
    · simp only [evalCondsLoop, bind, Except.bind, hb, combineTruth]
      simpa using h2
    · rw [h2']; simp [hb', or_assoc]

theorem evalChain_spec (c : DChain) (h : c.comparator ∈ ["<", ">", "<=", ">="]) (hne : c.conds ≠ [])
    (hc : c.combination = "AND" ∨ c.combination = "OR" ∨ (c.combination = "" ∧ c.conds.length = 1)) :
    ∃ b, evalChain c = .ok b ∧ (b = true ↔ Spec.chainHolds c) := by
  obtain ⟨conds, cmp, comb⟩ := c
  simp only at h hne hc
  cases conds with
  | nil => exact absurd rfl hne
  | cons e es =>
    obtain ⟨b, hb, hb'⟩ := compare_spec h (evalExpr e.1) e.2
    rcases hc with rfl | rfl | ⟨rfl, hl⟩
    · obtain ⟨b2, h2, h2'⟩ := evalCondsLoop_and h es b
      refine ⟨b2, ?_, ?_⟩
      · simp only [evalChain, bind, Except.bind, hb]; exact h2
      · rw [h2', hb']; simp [Spec.chainHolds]
    · obtain ⟨b2, h2, h2'⟩ := evalCondsLoop_or h es b
      refine ⟨b2, ?_, ?_⟩
      · simp only [evalChain, bind, Except.bind, hb]; exact h2
      · rw [h2', hb']; simp [Spec.chainHolds]
    · have : es = [] := by
        cases es with
        | nil => rfl
        | cons _ _ => simp at hl
      subst this
      refine ⟨b, ?_, ?_⟩
      · simp only [evalChain, bind, Except.bind, hb]; rfl
      · rw [hb']; simp [Spec.chainHolds]

/-- The chain of a node on a route holds exactly when the node's test sends the point to the next node of the route. -/
theorem chainOf_spec {n : DNode} (hn : Spec.NodeOk n) {next : Tgt} (hnext : next = n.ifTrue ∨ next = n.ifFalse) :
    ∃ c b, chainOf n next = .ok c ∧ evalChain c = .ok b ∧
      (b = true ↔ (Spec.passes n ∧ next = n.ifTrue) ∨ (¬ Spec.passes n ∧ next = n.ifFalse)) := by
  by_cases hf : n.ifFalse = next
  · obtain ⟨c', hc', hmem, hneg⟩ := invertComparator_spec hn.cmp
    have hnt : ¬ next = n.ifTrue := fun h => hn.branches (h ▸ hf.symm)
    have hrhs : ((Spec.passes n ∧ next = n.ifTrue) ∨ (¬ Spec.passes n ∧ next = n.ifFalse)) ↔ ¬ Spec.passes n := by
      constructor
      · rintro (⟨_, h⟩ | ⟨h, _⟩)
        · exact absurd h hnt
        · exact h
      · exact fun h => Or.inr ⟨h, hf.symm⟩
    rcases hn.comb with h | h | ⟨h, hl⟩
    · obtain ⟨b, hb, hb'⟩ := evalChain_spec ⟨n.conds, c', "OR"⟩ hmem hn.conds (Or.inr (Or.inl rfl))
      refine ⟨⟨n.conds, c', "OR"⟩, b, ?_, hb, ?_⟩
      · simp only [chainOf, if_pos hf, hc', h, bind, Except.bind]; simp [invertComparator, pure, Except.pure]
      · rw [hb', hrhs]
        simp [Spec.chainHolds, Spec.passes, h, hneg]
    · obtain ⟨b, hb, hb'⟩ := evalChain_spec ⟨n.conds, c', "AND"⟩ hmem hn.conds (Or.inl rfl)
      refine ⟨⟨n.conds, c', "AND"⟩, b, ?_, hb, ?_⟩
      · simp only [chainOf, if_pos hf, hc', h, bind, Except.bind]; simp [invertComparator, pure, Except.pure]
      · rw [hb', hrhs]
        simp [Spec.chainHolds, Spec.passes, h, hneg]
    · obtain ⟨b, hb, hb'⟩ := evalChain_spec ⟨n.conds, c', ""⟩ hmem hn.conds (Or.inr (Or.inr ⟨rfl, hl⟩))
      refine ⟨⟨n.conds, c', ""⟩, b, ?_, hb, ?_⟩
      · simp only [chainOf, if_pos hf, hc', h, bind, Except.bind]; simp [invertComparator, pure, Except.pure]
      · rw [hb', hrhs]
        obtain ⟨x, hx⟩ := List.length_eq_one_iff.1 hl
        simp [Spec.chainHolds, Spec.passes, h, hneg, hx]
  · have ht : next = n.ifTrue := hnext.resolve_right (fun h => hf h.symm)
    obtain ⟨b, hb, hb'⟩ := evalChain_spec ⟨n.conds, n.comparator, n.combination⟩ hn.cmp hn.conds hn.comb
    refine ⟨_, b, if_neg hf, hb, ?_⟩
    rw [hb']
    have hnf : ¬ next = n.ifFalse := fun h => hf h.symm
    simp [ht, hn.branches, Spec.chainHolds, Spec.passes]

/-! #### Routes -/

/-- Routes of the graph. -/
inductive IsRoute (q : DTree) : Tgt → Tgt → List Tgt → Prop
  | done (t : Tgt) : IsRoute q t t [t]
  | step (a b e : Tgt) (ns : List Tgt) (p : List Tgt) : q.neighbours a = some ns → b ∈ ns → IsRoute q b e p →
      IsRoute q a e (a :: p)

theorem findRoutes_isRoute (q : DTree) (f : ℕ) (s e : Tgt) (route r : List Tgt) (h : r ∈ findRoutes q f s e route) :
    ∃ p, r = route ++ p ∧ IsRoute q s e p := by
  induction f generalizing s route with
  | zero => simp [findRoutes] at h
  | succ f ih =>
    unfold findRoutes at h
    simp only [] at h
    by_cases hse : s = e
    · rw [if_pos hse] at h
      simp only [List.mem_singleton] at h
      exact ⟨[s], h, hse ▸ IsRoute.done s⟩
    · rw [if_neg hse] at h
      cases hn : q.neighbours s with
      | none => rw [hn] at h; simp at h
      | some ns =>
        rw [hn] at h
        simp only [List.mem_flatMap, List.mem_filter] at h
        obtain ⟨n, ⟨hmem, _⟩, hr⟩ := h
        obtain ⟨p, hp, hroute⟩ := ih n (route ++ [s]) hr
        exact ⟨s :: p, by rw [hp]; simp, IsRoute.step s n e ns p hn hmem hroute⟩

/-- Loop over the chains of a route after the first. -/
theorem evalRouteLoop_spec (l : List DChain) (P : DChain → Prop) (h : ∀ c ∈ l, ∃ b, evalChain c = .ok b ∧ (b = true ↔ P c)) (r : Bool) :
    ∃ b, evalRouteLoop r l = .ok b ∧ (b = true ↔ r = true ∧ ∀ c ∈ l, P c) := by
  induction l generalizing r with
  | nil => exact ⟨r, rfl, by simp⟩
  | cons c l ih =>
    obtain ⟨b, hb, hb'⟩ := h c (by simp)
    obtain ⟨b2, h2, h2'⟩ := ih (fun c hc => h c (by simp [hc])) (r && b)
    refine ⟨b2, ?_, ?_⟩
    · simp only [evalRouteLoop, bind, Except.bind, hb]; exact h2
    · rw [h2']; simp [hb', and_assoc]

theorem evalRoute_spec (l : List DChain) (hne : l ≠ []) (P : DChain → Prop)
    (h : ∀ c ∈ l, ∃ b, evalChain c = .ok b ∧ (b = true ↔ P c)) : ∃ b, evalRoute l = .ok b ∧ (b = true ↔ ∀ c ∈ l, P c) := by
  cases l with
  | nil => exact absurd rfl hne
  | cons c l =>
    obtain ⟨b, hb, hb'⟩ := h c (by simp)
    obtain ⟨b2, h2, h2'⟩ := evalRouteLoop_spec l P (fun c hc => h c (by simp [hc])) b
    refine ⟨b2, ?_, ?_⟩
    · simp only [evalRoute, bind, Except.bind, hb]; exact h2
    · rw [h2', hb']; simp

/-- Is the chain satisfied (as evaluated)? -/
def chainTrue (c : DChain) : Prop := evalChain c = .ok true

/-- The chains of a route exist, can be evaluated, and all hold exactly when the walk follows the route. -/
theorem routeChains_spec {q : DTree} (hq : Spec.TreeOk q) {s : Tgt} {c : ℤ} {p : List Tgt} (h : IsRoute q s (.code c) p) :
    ∃ l, routeChains q p = .ok l ∧ (∀ x ∈ l, ∃ b, evalChain x = .ok b ∧ (b = true ↔ chainTrue x)) ∧
      ((∀ x ∈ l, chainTrue x) → Spec.Reaches q s c) := by
  generalize he : Tgt.code c = e at h
  induction h with
  | done t =>
    subst he
    exact ⟨[], rfl, by simp, fun _ => Spec.Reaches.code c⟩
  | step a b e ns p hn hb hroute ih =>
    obtain ⟨l, hl, hev, hreach⟩ := ih he
    obtain ⟨x, xs, rfl⟩ : ∃ x xs, p = x :: xs := by
      cases hroute <;> exact ⟨_, _, rfl⟩
    have hx : x = b := by cases hroute <;> rfl
    subst hx
    cases a with
    | code k => simp [DTree.neighbours] at hn
    | name s =>
      simp only [DTree.neighbours] at hn
      cases hg : q.get s with
      | none => rw [hg] at hn; simp at hn
      | some ent =>
        rw [hg] at hn
        cases ent with
        | leaf k nt fl =>
          simp only [Option.some.injEq] at hn
          subst hn
          simp only [List.mem_singleton] at hb
          subst hb
          refine ⟨l, ?_, hev, ?_⟩
          · simp only [routeChains, hl, hg, bind, Except.bind, pure, Except.pure]
          · intro hall
            have := hreach hall
            cases this with
            | code _ => exact Spec.Reaches.leaf s _ nt fl hg
        | node n fl =>
          simp only [Option.some.injEq] at hn
          subst hn
          have hb' : x = n.ifTrue ∨ x = n.ifFalse := by simpa using hb
          obtain ⟨ch, bb, hch, hbb, hiff⟩ := chainOf_spec (hq s n fl hg) hb'
          refine ⟨ch :: l, ?_, ?_, ?_⟩
          · simp only [routeChains, hl, hg, bind, Except.bind, pure, Except.pure, hch]
          · intro y hy
            rcases List.mem_cons.1 hy with rfl | hy
            · exact ⟨bb, hbb, by simp [chainTrue, hbb]⟩
            · exact hev y hy
          · intro hall
            have h1 : chainTrue ch := hall ch (by simp)
            have hbt : bb = true := by simpa [chainTrue, hbb] using h1
            have hr := hreach (fun y hy => hall y (by simp [hy]))
            rcases hiff.1 hbt with ⟨hp, rfl⟩ | ⟨hp, rfl⟩
            · exact Spec.Reaches.yes s n fl c hg hp hr
            · exact Spec.Reaches.no s n fl c hg hp hr

theorem reaches_unique {q : DTree} {s : Tgt} {c d : ℤ} (h : Spec.Reaches q s c) (h' : Spec.Reaches q s d) : c = d := by
  induction h with
  | code c => cases h'; rfl
  | leaf s c nt fl hg =>
    cases h' with
    | leaf _ _ _ _ hg' => rw [hg] at hg'; simp at hg'; exact hg'.1
    | yes _ _ _ _ hg' => rw [hg] at hg'; simp at hg'
    | no _ _ _ _ hg' => rw [hg] at hg'; simp at hg'
  | yes s n fl c hg hp hr ih =>
    cases h' with
    | leaf _ _ _ _ hg' => rw [hg] at hg'; simp at hg'
    | yes _ n' fl' _ hg' hp' hr' =>
      rw [hg] at hg'; simp at hg'
      exact ih (hg'.1 ▸ hr')
    | no _ n' fl' _ hg' hp' hr' =>
      rw [hg] at hg'; simp at hg'
      exact absurd hp (hg'.1 ▸ hp')
  | no s n fl c hg hp hr ih =>
    cases h' with
    | leaf _ _ _ _ hg' => rw [hg] at hg'; simp at hg'
    | yes _ n' fl' _ hg' hp' hr' =>
      rw [hg] at hg'; simp at hg'
      exact absurd (hg'.1 ▸ hp') hp
    | no _ n' fl' _ hg' hp' hr' =>
      rw [hg] at hg'; simp at hg'
      exact ih (hg'.1 ▸ hr')

/-- One step of the walk. -/
inductive Next (q : DTree) : Tgt → Tgt → Prop
  | leaf (s : String) (c : ℤ) (nt fl) : q.get s = some (.leaf c nt fl) → Next q (.name s) (.code c)
  | yes (s : String) (n : DNode) (fl) : q.get s = some (.node n fl) → Spec.passes n → Next q (.name s) n.ifTrue
  | no (s : String) (n : DNode) (fl) : q.get s = some (.node n fl) → ¬ Spec.passes n → Next q (.name s) n.ifFalse

theorem next_unique {q : DTree} {a b b' : Tgt} (h : Next q a b) (h' : Next q a b') : b = b' := by
  cases h with
  | leaf s c nt fl hg =>
    cases h' with
    | leaf _ _ _ _ hg' => rw [hg] at hg'; simp at hg'; rw [hg'.1]
    | yes _ _ _ hg' => rw [hg] at hg'; simp at hg'
    | no _ _ _ hg' => rw [hg] at hg'; simp at hg'
  | yes s n fl hg hp =>
    cases h' with
    | leaf _ _ _ _ hg' => rw [hg] at hg'; simp at hg'
    | yes _ n' fl' hg' hp' => rw [hg] at hg'; simp at hg'; rw [hg'.1]
    | no _ n' fl' hg' hp' => rw [hg] at hg'; simp at hg'; exact absurd hp (hg'.1 ▸ hp')
  | no s n fl hg hp =>
    cases h' with
    | leaf _ _ _ _ hg' => rw [hg] at hg'; simp at hg'
    | yes _ n' fl' hg' hp' => rw [hg] at hg'; simp at hg'; exact absurd (hg'.1 ▸ hp') hp
    | no _ n' fl' hg' hp' => rw [hg] at hg'; simp at hg'; rw [hg'.1]

/-- The walk with its number of steps. -/
inductive StepsTo (q : DTree) (c : ℤ) : ℕ → Tgt → Prop
  | zero : StepsTo q c 0 (.code c)
  | succ (k : ℕ) (a b : Tgt) : Next q a b → StepsTo q c k b → StepsTo q c (k + 1) a

theorem stepsTo_of_reaches {q : DTree} {s : Tgt} {c : ℤ} (h : Spec.Reaches q s c) : ∃ k, StepsTo q c k s := by
  induction h with
  | code c => exact ⟨0, StepsTo.zero⟩
  | leaf s c nt fl hg => exact ⟨1, StepsTo.succ 0 _ _ (Next.leaf s c nt fl hg) StepsTo.zero⟩
  | yes s n fl c hg hp _ ih => obtain ⟨k, hk⟩ := ih; exact ⟨k + 1, StepsTo.succ k _ _ (Next.yes s n fl hg hp) hk⟩
  | no s n fl c hg hp _ ih => obtain ⟨k, hk⟩ := ih; exact ⟨k + 1, StepsTo.succ k _ _ (Next.no s n fl hg hp) hk⟩

theorem next_name {q : DTree} {a b : Tgt} (h : Next q a b) : ∃ s, a = .name s ∧ s ∈ q.map Prod.fst := by
  have key : ∀ s e, q.get s = some e → s ∈ q.map Prod.fst := by
    intro s e he
    unfold DTree.get at he
    cases hf : q.find? (fun e => decide (e.1 = s)) with
    | none => rw [hf] at he; simp at he
    | some x =>
      have h1 := List.mem_of_find?_eq_some hf
      have h2 := List.find?_some hf
      simp only [decide_eq_true_eq] at h2
      exact List.mem_map.2 ⟨x, h1, h2⟩
  cases h with
  | leaf s c nt fl hg => exact ⟨s, rfl, key s _ hg⟩
  | yes s n fl hg _ => exact ⟨s, rfl, key s _ hg⟩
  | no s n fl hg _ => exact ⟨s, rfl, key s _ hg⟩

theorem stepsTo_unique {q : DTree} {c : ℤ} {k k' : ℕ} {a : Tgt} (h : StepsTo q c k a) (h' : StepsTo q c k' a) : k = k' := by
  induction h generalizing k' with
  | zero =>
    cases h' with
    | zero => rfl
    | succ k a b hn _ => obtain ⟨s, hs, _⟩ := next_name hn; cases hs
  | succ k a b hn _ ih =>
    cases h' with
    | zero => obtain ⟨s, hs, _⟩ := next_name hn; cases hs
    | succ k2 a2 b2 hn2 h2 =>
      have := next_unique hn hn2
      subst this
      rw [ih h2]

/-- The nodes of the walk are different keys of the tree. -/
theorem stepsTo_bound {q : DTree} {c : ℤ} {k : ℕ} {a : Tgt} (h : StepsTo q c k a) :
    ∃ L : List String, L.length = k ∧ L.Nodup ∧ L ⊆ q.map Prod.fst ∧ ∀ s ∈ L, ∃ j, j ≤ k ∧ StepsTo q c j (.name s) := by
  induction h with
  | zero => exact ⟨[], rfl, List.nodup_nil, by simp, by simp⟩
  | succ k a b hn hs ih =>
    obtain ⟨L, hl, hnd, hsub, hj⟩ := ih
    obtain ⟨s, rfl, hmem⟩ := next_name hn
    refine ⟨s :: L, by simp [hl], List.nodup_cons.2 ⟨?_, hnd⟩, ?_, ?_⟩
    · intro hin
      obtain ⟨j, hjk, hst⟩ := hj s hin
      have := stepsTo_unique hst (StepsTo.succ k _ b hn hs)
      omega
    · intro x hx
      rcases List.mem_cons.1 hx with rfl | hx
      · exact hmem
      · exact hsub hx
    · intro x hx
      rcases List.mem_cons.1 hx with rfl | hx
      · exact ⟨k + 1, le_rfl, StepsTo.succ k _ b hn hs⟩
      · obtain ⟨j, hjk, hst⟩ := hj x hx
        exact ⟨j, by omega, hst⟩

theorem stepsTo_le {q : DTree} {c : ℤ} {k : ℕ} {a : Tgt} (h : StepsTo q c k a) : k ≤ q.length := by
  obtain ⟨L, hl, hnd, hsub, _⟩ := stepsTo_bound h
  have := (List.Nodup.subperm hnd hsub).length_le
  simp only [List.length_map] at this
  omega

theorem next_neighbour {q : DTree} {a b : Tgt} (h : Next q a b) : ∃ ns, q.neighbours a = some ns ∧ b ∈ ns := by
  cases h with
  | leaf s c nt fl hg => exact ⟨[.code c], by simp [DTree.neighbours, hg], by simp⟩
  | yes s n fl hg _ => exact ⟨[n.ifTrue, n.ifFalse], by simp [DTree.neighbours, hg], by simp⟩
  | no s n fl hg _ => exact ⟨[n.ifTrue, n.ifFalse], by simp [DTree.neighbours, hg], by simp⟩

/-- The route search finds the walk. -/
theorem findRoutes_complete {q : DTree} (hq : Spec.TreeOk q) {c : ℤ} {k : ℕ} {a : Tgt} (h : StepsTo q c k a) :
    ∀ (f : ℕ) (route : List Tgt), k + 1 ≤ f → (∀ t ∈ route, ∃ j, k < j ∧ StepsTo q c j t) →
      ∃ p l, route ++ p ∈ findRoutes q f a (.code c) route ∧ routeChains q p = .ok l ∧ p.headD (.code 0) = a ∧
        ∀ x ∈ l, chainTrue x := by
  induction h with
  | zero =>
    intro f route hf _
    obtain ⟨f, rfl⟩ : ∃ f', f = f' + 1 := ⟨f - 1, by omega⟩
    exact ⟨[.code c], [], by simp [findRoutes], rfl, rfl, by simp⟩
  | succ k a b hn hs ih =>
    intro f route hf hroute
    obtain ⟨f, rfl⟩ : ∃ f', f = f' + 1 := ⟨f - 1, by omega⟩
    have hself : StepsTo q c (k + 1) a := StepsTo.succ k a b hn hs
    have hroute' : ∀ t ∈ route ++ [a], ∃ j, k < j ∧ StepsTo q c j t := by
      intro t ht
      rcases List.mem_append.1 ht with ht | ht
      · obtain ⟨j, hj, hst⟩ := hroute t ht
        exact ⟨j, by omega, hst⟩
      · simp only [List.mem_singleton] at ht
        subst ht
        exact ⟨k + 1, by omega, hself⟩
    have hbn : b ∉ route ++ [a] := by
      intro hin
      obtain ⟨j, hj, hst⟩ := hroute' b hin
      have := stepsTo_unique hst hs
      omega
    obtain ⟨p, l, hp, hl, hhead, hall⟩ := ih f (route ++ [a]) (by omega) hroute'
    obtain ⟨ns, hns, hbm⟩ := next_neighbour hn
    obtain ⟨s, rfl, _⟩ := next_name hn
    obtain ⟨p0, ps, rfl⟩ : ∃ p0 ps, p = p0 :: ps := by
      cases p with
      | nil =>
        exfalso
        simp only [List.headD_nil] at hhead
        obtain ⟨p', hp', hr⟩ := findRoutes_isRoute q f b (.code c) (route ++ [.name s]) _ hp
        have : p' = [] := by
          have := List.append_cancel_left hp'
          exact this.symm
        subst this
        cases hr
      | cons p0 ps => exact ⟨p0, ps, rfl⟩
    simp only [List.headD_cons] at hhead
    subst hhead
    have hin : route ++ (.name s :: p0 :: ps) ∈ findRoutes q (f + 1) (.name s) (.code c) route := by
      unfold findRoutes
      simp only []
      rw [if_neg (by simp), hns]
      simp only [List.mem_flatMap, List.mem_filter, decide_eq_true_eq]
      exact ⟨p0, ⟨hbm, hbn⟩, by simpa using hp⟩
    cases hn with
    | leaf _ c' nt fl hg =>
      refine ⟨.name s :: _ :: ps, l, hin, ?_, rfl, hall⟩
      simp only [routeChains, hl, hg, bind, Except.bind, pure, Except.pure]
    | yes _ n fl hg hpass =>
      obtain ⟨ch, bb, hch, hbb, hiff⟩ := chainOf_spec (hq s n fl hg) (next := n.ifTrue) (Or.inl rfl)
      refine ⟨.name s :: _ :: ps, ch :: l, hin, ?_, rfl, ?_⟩
      · simp only [routeChains, hl, hg, bind, Except.bind, pure, Except.pure, hch]
      · intro x hx
        rcases List.mem_cons.1 hx with rfl | hx
        · have : bb = true := hiff.2 (Or.inl ⟨hpass, rfl⟩)
          subst this; exact hbb
        · exact hall x hx
    | no _ n fl hg hpass =>
      obtain ⟨ch, bb, hch, hbb, hiff⟩ := chainOf_spec (hq s n fl hg) (next := n.ifFalse) (Or.inr rfl)
      refine ⟨.name s :: _ :: ps, ch :: l, hin, ?_, rfl, ?_⟩
      · simp only [routeChains, hl, hg, bind, Except.bind, pure, Except.pure, hch]
      · intro x hx
        rcases List.mem_cons.1 hx with rfl | hx
        · have : bb = true := hiff.2 (Or.inr ⟨hpass, rfl⟩)
          subst this; exact hbb
        · exact hall x hx

/-! #### The loops -/

/-- From a decision node every route has at least one condition. -/
theorem routeChains_ne_nil {q : DTree} {s : String} {n : DNode} {fl} (hg : q.get s = some (.node n fl)) {p : List Tgt} {c : ℤ}
    (h : IsRoute q (.name s) (.code c) p) {l : List DChain} (hl : routeChains q p = .ok l) : l ≠ [] := by
  cases h with
  | step a b e ns p hn hb hr =>
    obtain ⟨x, xs, rfl⟩ : ∃ x xs, p = x :: xs := by cases hr <;> exact ⟨_, _, rfl⟩
    simp only [routeChains, hg, bind, Except.bind, pure, Except.pure] at hl
    cases h1 : routeChains q (x :: xs) with
    | error e => rw [h1] at hl; cases hl
    | ok l' =>
      rw [h1] at hl
      cases h2 : chainOf n x with
      | error e => simp only [h2] at hl; cases hl
      | ok ch =>
        simp only [h2] at hl
        cases hl
        simp

theorem applyRoute_spec {q : DTree} (hq : Spec.TreeOk q) {s : String} {n : DNode} {fl} (hg : q.get s = some (.node n fl))
    {c : ℤ} {r : List Tgt} (hr : IsRoute q (.name s) (.code c) r) (acc : Option ℤ) :
    ∃ b, applyRoute q c acc r = .ok (if b then some c else acc) ∧ (b = true → Spec.Reaches q (.name s) c) ∧
      ((∃ l, routeChains q r = .ok l ∧ ∀ x ∈ l, chainTrue x) → b = true) := by
  obtain ⟨l, hl, hev, hreach⟩ := routeChains_spec hq hr
  obtain ⟨b, hb, hb'⟩ := evalRoute_spec l (routeChains_ne_nil hg hr hl) chainTrue hev
  refine ⟨b, ?_, fun h => hreach (hb'.1 h), ?_⟩
  · simp only [applyRoute, hl, hb, bind, Except.bind, pure, Except.pure]
  · rintro ⟨l', hl', hall⟩
    rw [hl] at hl'
    cases hl'
    exact hb'.2 hall

theorem applyRoutes_spec {q : DTree} (hq : Spec.TreeOk q) {s : String} {n : DNode} {fl} (hg : q.get s = some (.node n fl))
    {c : ℤ} (rs : List (List Tgt)) (hrs : ∀ r ∈ rs, IsRoute q (.name s) (.code c) r) (acc : Option ℤ) :
    ∃ o, rs.foldlM (applyRoute q c) acc = .ok o ∧ (o = acc ∨ (o = some c ∧ Spec.Reaches q (.name s) c)) ∧
      ((acc = some c ∨ ∃ r ∈ rs, ∃ l, routeChains q r = .ok l ∧ ∀ x ∈ l, chainTrue x) → o = some c) := by
  induction rs generalizing acc with
  | nil => exact ⟨acc, rfl, Or.inl rfl, by simp⟩
  | cons r rs ih =>
    obtain ⟨b, hb, hb1, hb2⟩ := applyRoute_spec hq hg (hrs r (by simp)) acc
    obtain ⟨o, ho, ho1, ho2⟩ := ih (fun r hr => hrs r (by simp [hr])) (if b then some c else acc)
    refine ⟨o, ?_, ?_, ?_⟩
    · simp only [List.foldlM_cons, bind, Except.bind, hb]; exact ho
    · rcases ho1 with h | h
      · cases b with
        | true => right; exact ⟨by simpa using h, hb1 rfl⟩
        | false => left; simpa using h
      · exact Or.inr h
    · intro h
      apply ho2
      rcases h with h | ⟨r', hr', hl'⟩
      · left; cases b <;> simp [h]
      · rcases List.mem_cons.1 hr' with rfl | hr'
        · left; rw [hb2 hl']; simp
        · exact Or.inr ⟨r', hr', hl'⟩

theorem applyCategory_spec {q : DTree} (hq : Spec.TreeOk q) {s : String} {n : DNode} {fl} (hg : q.get s = some (.node n fl))
    (acc : Option ℤ) (c : ℤ) :
    ∃ o, applyCategory q (.name s) acc c = .ok o ∧ (o = acc ∨ (o = some c ∧ Spec.Reaches q (.name s) c)) ∧
      ((acc = some c ∨ Spec.Reaches q (.name s) c) → o = some c) := by
  obtain ⟨o, ho, ho1, ho2⟩ := applyRoutes_spec hq hg (c := c) (findRoutes q (q.length + 2) (.name s) (.code c) [])
    (fun r hr => by
      obtain ⟨p, hp, hroute⟩ := findRoutes_isRoute q _ _ _ _ _ hr
      simp only [List.nil_append] at hp
      rw [hp]; exact hroute) acc
  refine ⟨o, ho, ho1, ?_⟩
  intro h
  apply ho2
  rcases h with h | h
  · exact Or.inl h
  · obtain ⟨k, hk⟩ := stepsTo_of_reaches h
    have hkle := stepsTo_le hk
    obtain ⟨p, l, hp, hl, _, hall⟩ := findRoutes_complete hq hk (q.length + 2) [] (by omega) (by simp)
    exact Or.inr ⟨p, by simpa using hp, l, hl, hall⟩

theorem applyCategories_spec {q : DTree} (hq : Spec.TreeOk q) {s : String} {n : DNode} {fl} (hg : q.get s = some (.node n fl))
    (cs : List ℤ) (acc : Option ℤ) (hacc : ∀ c, acc = some c → Spec.Reaches q (.name s) c) :
    ∃ o, cs.foldlM (applyCategory q (.name s)) acc = .ok o ∧ (∀ c, o = some c → Spec.Reaches q (.name s) c) ∧
      (∀ c, (acc = some c ∨ c ∈ cs) → Spec.Reaches q (.name s) c → o = some c) := by
  induction cs generalizing acc with
  | nil => exact ⟨acc, rfl, hacc, fun c hc _ => hc.resolve_right (by simp)⟩
  | cons d cs ih =>
    obtain ⟨o1, h1, h2, h3⟩ := applyCategory_spec hq hg acc d
    have hacc' : ∀ c, o1 = some c → Spec.Reaches q (.name s) c := by
      intro c hc
      rcases h2 with h | ⟨h, hr⟩
      · exact hacc c (h ▸ hc)
      · rw [h] at hc; simp only [Option.some.injEq] at hc; exact hc ▸ hr
    obtain ⟨o, ho, ho1, ho2⟩ := ih o1 hacc'
    refine ⟨o, ?_, ho1, ?_⟩
    · simp only [List.foldlM_cons, bind, Except.bind, h1]; exact ho
    · intro c hc hr
      by_cases hd : d = c
      · exact ho2 c (Or.inl (h3 (Or.inr (hd ▸ hr)) ▸ by rw [hd])) hr
      · have : acc = some c ∨ c ∈ cs := by
          rcases hc with h | h
          · exact Or.inl h
          · rcases List.mem_cons.1 h with h | h
            · exact absurd h.symm hd
            · exact Or.inr h
        rcases this with h | h
        · refine ho2 c (Or.inl ?_) hr
          rcases h2 with h' | ⟨h', hr'⟩
          · rw [h', h]
          · exact absurd (reaches_unique hr' hr) hd
        · exact ho2 c (Or.inr h) hr

theorem reaches_defined {q : DTree} {t : Tgt} {c : ℤ} (h : Spec.Reaches q t c) (ht : ∀ d, t ≠ .code d) :
    c ∈ definedCategories q := by
  have key : ∀ s e, q.get s = some e → ∃ x ∈ q, x.2 = e := by
    intro s e he
    unfold DTree.get at he
    cases hf : q.find? (fun e => decide (e.1 = s)) with
    | none => rw [hf] at he; simp at he
    | some x =>
      rw [hf] at he
      simp only [Option.map_some, Option.some.injEq] at he
      exact ⟨x, List.mem_of_find?_eq_some hf, he⟩
  have mem : ∀ s e, q.get s = some e → ∀ d ∈ entryCodes e, d ∈ definedCategories q := by
    intro s e he d hd
    obtain ⟨x, hx, rfl⟩ := key s e he
    exact List.mem_flatMap.2 ⟨x, hx, hd⟩
  induction h with
  | code c => exact absurd rfl (ht c)
  | leaf s c nt fl hg => exact mem s _ hg c (by simp [entryCodes])
  | yes s n fl c hg hp hr ih =>
    cases hc : n.ifTrue with
    | code d =>
      rw [hc] at hr
      cases hr
      exact mem s _ hg c (by simp [entryCodes, hc])
    | name s' => exact ih (by rw [hc]; simp)
  | no s n fl c hg hp hr ih =>
    cases hc : n.ifFalse with
    | code d =>
      rw [hc] at hr
      cases hr
      exact mem s _ hg c (by simp [entryCodes, hc])
    | name s' => exact ih (by rw [hc]; simp)

/-- **C43**: for a tree with well-formed decision nodes and a start node that is a decision node, processing succeeds and gives a
point category `c` exactly when following the tree from the start node, at each node taking the `if_true` branch if the node's
test is passed at the point and the `if_false` branch otherwise, leads to `c`.  In particular the order of nodes and of routes
does not matter, and a point is left masked exactly when the walk never reaches a leaf. -/
theorem C43_walk (q : DTree) (hq : Spec.TreeOk q) (s : String) (n : DNode) (fl : List Bool)
    (hg : q.get s = some (.node n fl)) :
    ∃ o, categoryAtPoint q (.name s) = .ok o ∧ ∀ c, o = some c ↔ Spec.Reaches q (.name s) c := by
  obtain ⟨o, ho, h1, h2⟩ := applyCategories_spec hq hg (definedCategories q) none (by simp)
  refine ⟨o, ho, fun c => ⟨h1 c, fun h => h2 c (Or.inr ?_) h⟩⟩
  exact reaches_defined h (by simp)

/-- **C43** (search is exhaustive): the search for routes has all the steps it can use: more fuel finds nothing new. -/
theorem C43_search_terminates (q : DTree) (s : Tgt) (e : Tgt) (k : ℕ) :
    findRoutes q (q.length + 2 + k) s e [] = findRoutes q (q.length + 2) s e [] := by
  have key : ∀ (f : ℕ) (s : Tgt) (route : List Tgt), route.Nodup → (∀ t ∈ route, ∃ x, t = .name x ∧ x ∈ q.map Prod.fst) →
      q.length + 2 ≤ f + route.length → s ∉ route → findRoutes q (f + 1) s e route = findRoutes q f s e route := by
    intro f
    induction f with
    | zero =>
      intro s route hnd hin hlen _
      exfalso
      have hsub : route ⊆ (q.map Prod.fst).map Tgt.name := by
        intro t ht
        obtain ⟨x, rfl, hx⟩ := hin t ht
        exact List.mem_map.2 ⟨x, hx, rfl⟩
      have := (List.Nodup.subperm hnd hsub).length_le
      simp only [List.length_map] at this
      omega
    | succ f ih =>
      intro s route hnd hin hlen hs
      rw [findRoutes]
      conv_rhs => rw [findRoutes]
      by_cases hse : s = e
      · rw [if_pos hse, if_pos hse]
      · rw [if_neg hse, if_neg hse]
        cases hn : q.neighbours s with
        | none => rfl
        | some ns =>
          simp only []
          have hsn : ∃ x, s = .name x ∧ x ∈ q.map Prod.fst := by
            cases s with
            | code _ => simp [DTree.neighbours] at hn
            | name x =>
              refine ⟨x, rfl, ?_⟩
              cases hg : q.get x with
              | none => simp [DTree.neighbours, hg] at hn
              | some ent =>
                unfold DTree.get at hg
                cases hf : q.find? (fun e => decide (e.1 = x)) with
                | none => rw [hf] at hg; simp at hg
                | some y =>
                  have h1 := List.mem_of_find?_eq_some hf
                  have h2 := List.find?_some hf
                  simp only [decide_eq_true_eq] at h2
                  exact List.mem_map.2 ⟨y, h1, h2⟩
          rw [List.flatMap_def, List.flatMap_def]
          congr 1
          apply List.map_congr_left
          intro m hm
          simp only [List.mem_filter, decide_eq_true_eq] at hm
          refine ih m (route ++ [s]) ?_ ?_ (by simp; omega) hm.2
          · rw [List.nodup_append]
            refine ⟨hnd, by simp, ?_⟩
            intro a ha b hb hab
            simp only [List.mem_singleton] at hb
            exact hs (hb ▸ hab ▸ ha)
          · intro t ht
            rcases List.mem_append.1 ht with ht | ht
            · exact hin t ht
            · simp only [List.mem_singleton] at ht
              exact ht ▸ hsn
  induction k with
  | zero => rfl
  | succ k ih =>
    rw [← ih]
    exact key (q.length + 2 + k) s [] List.nodup_nil (by simp) (by simp) (by simp)

/-- **C43** (finding): when both branches of a node lead to the same destination, points that pass its test stay masked. -/
theorem C43_same_branches_refuted : ∃ (q : DTree) (s : String) (c : ℤ), Spec.Reaches q (.name s) c ∧
    categoryAtPoint q (.name s) = .ok none := by
  refine ⟨[("A", .node ⟨[(⟨1, []⟩, 0)], ">", "", .name "L", .name "L", none⟩ []), ("L", .leaf 5 none [])], "A", 5, ?_, ?_⟩
  · refine Spec.Reaches.yes "A" _ _ _ rfl ?_ (Spec.Reaches.leaf "L" 5 none [] rfl)
    simp [Spec.passes, Spec.cmp, evalExpr, collapseOp]
  · decide +kernel

/-- **C43** (error branch): a tree whose start node is a leaf cannot be processed. -/
theorem C43_leaf_root_fails (c : ℤ) (s : String) (nt : Option String) :
    categoryAtPoint [(s, .leaf c nt [])] (.name s) = .error .indexError := by
  have hg : DTree.get [(s, DEntry.leaf c nt [])] s = some (.leaf c nt []) := by simp [DTree.get]
  have hf : findRoutes [(s, DEntry.leaf c nt [])] 3 (.name s) (.code c) [] = [[.name s, .code c]] := by
    simp [findRoutes, DTree.neighbours, hg]
  have hc : definedCategories [(s, DEntry.leaf c nt [])] = [c] := by simp [definedCategories, entryCodes]
  unfold categoryAtPoint
  rw [hc]
  simp only [List.foldlM_cons, List.foldlM_nil, applyCategory, List.length_singleton]
  rw [show (1 + 2) = 3 from rfl, hf]
  simp only [List.foldlM_cons, applyRoute, routeChains, hg, bind, Except.bind, pure, Except.pure, evalRoute]

/-- A tree with a shared node, for the examples: two nodes and three leaves. -/
def exampleTree (precip snow : ℚ) : DTree :=
  [("precip", .node ⟨[(⟨precip, []⟩, 1/2), (⟨snow, []⟩, 1/2)], ">=", "OR", .name "phase", .name "Dry", none⟩ []),
   ("phase", .node ⟨[(⟨snow, [(.sub, precip)]⟩, 0)], ">", "", .name "Snow", .name "Rain", none⟩ []),
   ("Dry", .leaf 1 none []), ("Rain", .leaf 12 none []), ("Snow", .leaf 24 none [])]

example : (categoryAtPoint (exampleTree (1/4) (1/4)) (.name "precip")).toOption = some (some 1) ∧
    (categoryAtPoint (exampleTree (3/4) (1/4)) (.name "precip")).toOption = some (some 12) ∧
    (categoryAtPoint (exampleTree (1/4) (3/4)) (.name "precip")).toOption = some (some 24) := by decide +kernel

example (a b : ℚ) : Spec.TreeOk (exampleTree a b) := by
  intro s n fl h
  unfold exampleTree DTree.get at h
  simp only [List.find?_cons] at h
  by_cases h1 : "precip" = s
  · simp [h1] at h
    obtain ⟨rfl, _⟩ := h
    exact ⟨by simp, by simp, Or.inr (Or.inl rfl), by simp⟩
  · by_cases h2 : "phase" = s
    · simp [h1, h2] at h
      obtain ⟨rfl, _⟩ := h
      exact ⟨by simp, by simp, Or.inr (Or.inr ⟨rfl, rfl⟩), by simp⟩
    · simp [h1, h2] at h
      exfalso
      by_cases h3 : "Dry" = s
      · simp [h3] at h
      · by_cases h4 : "Rain" = s
        · simp [h3, h4] at h
        · by_cases h5 : "Snow" = s
          · simp [h3, h4, h5] at h
          · simp [h3, h4, h5] at h

/-! ### C44: optional nodes -/

/-- Specification: walking the tree when the data of the nodes `M` are missing: such a node passes on to the destination its
`if_diagnostic_missing` entry names. -/
inductive Spec.SkipReaches (q : DTree) (M : List String) : Tgt → ℤ → Prop
  | code (c : ℤ) : Spec.SkipReaches q M (.code c) c
  | leaf (s : String) (c : ℤ) (nt fl) : q.get s = some (.leaf c nt fl) → Spec.SkipReaches q M (.name s) c
  | skip (s : String) (t : Tgt) (c : ℤ) : s ∈ M → q.alternative s = .ok t → Spec.SkipReaches q M t c →
      Spec.SkipReaches q M (.name s) c
  | yes (s : String) (n : DNode) (fl) (c : ℤ) : s ∉ M → q.get s = some (.node n fl) → Spec.passes n →
      Spec.SkipReaches q M n.ifTrue c → Spec.SkipReaches q M (.name s) c
  | no (s : String) (n : DNode) (fl) (c : ℤ) : s ∉ M → q.get s = some (.node n fl) → ¬ Spec.passes n →
      Spec.SkipReaches q M n.ifFalse c → Spec.SkipReaches q M (.name s) c

/-- The tree after bypassing node `m`. -/
def bypass (q : DTree) (m : String) (alt : Tgt) : DTree := q.map (fun e => (e.1, redirectEntry m alt e.2))

theorem bypass_get (q : DTree) (m : String) (alt : Tgt) (s : String) :
    (bypass q m alt).get s = (q.get s).map (redirectEntry m alt) := by
  unfold bypass DTree.get
  rw [List.find?_map]
  cases h : q.find? ((fun e => decide (e.1 = s)) ∘ fun e : String × DEntry => (e.1, redirectEntry m alt e.2)) with
  | none =>
    have : q.find? (fun e => decide (e.1 = s)) = none := h
    rw [this]; rfl
  | some x =>
    have : q.find? (fun e => decide (e.1 = s)) = some x := h
    rw [this]; rfl

theorem passes_redirect (n : DNode) (a b : Tgt) : Spec.passes { n with ifTrue := a, ifFalse := b } ↔ Spec.passes n := Iff.rfl

theorem bypass_alternative {q : DTree} {m : String} {alt : Tgt} {s : String} {t : Tgt} (h : q.alternative s = .ok t) :
    (bypass q m alt).alternative s = .ok (redirectTgt m alt t) := by
  unfold DTree.alternative at *
  rw [bypass_get]
  cases hg : q.get s with
  | none => rw [hg] at h; simp at h
  | some e =>
    rw [hg] at h
    cases e with
    | leaf _ _ _ => simp at h
    | node n fl =>
      simp only [Option.map_some, redirectEntry] at h ⊢
      cases hm : n.ifMissing with
      | none => rw [hm] at h; simp at h
      | some b => rw [hm] at h; cases b <;> simp at h <;> rw [h]

theorem bypass_alternative_inv {q : DTree} {m : String} {alt : Tgt} {s : String} {t : Tgt}
    (h : (bypass q m alt).alternative s = .ok t) : ∃ t', q.alternative s = .ok t' ∧ t = redirectTgt m alt t' := by
  unfold DTree.alternative at *
  rw [bypass_get] at h
  cases hg : q.get s with
  | none => rw [hg] at h; simp at h
  | some e =>
    rw [hg] at h
    cases e with
    | leaf _ _ _ => simp [redirectEntry] at h
    | node n fl =>
      simp only [Option.map_some, redirectEntry] at h ⊢
      cases hm : n.ifMissing with
      | none => rw [hm] at h; simp at h
      | some b => rw [hm] at h; cases b <;> simp at h <;> exact ⟨_, rfl, h.symm⟩

/-- A missing node is the same as its alternative. -/
theorem skip_iff {q : DTree} {M : List String} {m : String} {alt : Tgt} (hm : m ∈ M) (ha : q.alternative m = .ok alt) (c : ℤ) :
    Spec.SkipReaches q M (.name m) c ↔ Spec.SkipReaches q M alt c := by
  constructor
  · intro h
    cases h with
    | leaf _ _ _ _ hg => simp [DTree.alternative, hg] at ha
    | skip _ t _ _ ht hr => rw [ha] at ht; cases ht; exact hr
    | yes _ _ _ _ hn => exact absurd hm hn
    | no _ _ _ _ hn => exact absurd hm hn
  · exact fun h => Spec.SkipReaches.skip m alt c hm ha h

theorem skip_redirect {q : DTree} {M : List String} {m : String} {alt : Tgt} (hm : m ∈ M) (ha : q.alternative m = .ok alt)
    (t : Tgt) (c : ℤ) : Spec.SkipReaches q M (redirectTgt m alt t) c ↔ Spec.SkipReaches q M t c := by
  unfold redirectTgt
  by_cases h : t = .name m
  · rw [if_pos h, h, skip_iff hm ha]
  · rw [if_neg h]

theorem bypass_skip {q : DTree} {M : List String} {m : String} {alt : Tgt} (hm : m ∈ M) (ha : q.alternative m = .ok alt)
    (hne : alt ≠ .name m) (t : Tgt) (c : ℤ) : Spec.SkipReaches (bypass q m alt) M t c ↔ Spec.SkipReaches q M t c := by
  have ha' : (bypass q m alt).alternative m = .ok alt := by
    rw [bypass_alternative ha]; unfold redirectTgt; rw [if_neg hne]
  constructor
  · intro h
    induction h with
    | code c => exact Spec.SkipReaches.code c
    | leaf s c nt fl hg =>
      rw [bypass_get] at hg
      cases hq : q.get s with
      | none => rw [hq] at hg; simp at hg
      | some e =>
        rw [hq] at hg
        cases e with
        | leaf c' nt' fl' =>
          simp only [Option.map_some, redirectEntry, Option.some.injEq, DEntry.leaf.injEq] at hg
          obtain ⟨rfl, rfl, rfl⟩ := hg
          exact Spec.SkipReaches.leaf s _ _ _ hq
        | node n fl' => simp [redirectEntry] at hg
    | skip s t c hs ht _ ih =>
      obtain ⟨t', ht', rfl⟩ := bypass_alternative_inv ht
      exact Spec.SkipReaches.skip s t' c hs ht' ((skip_redirect hm ha t' c).1 ih)
    | yes s n fl c hs hg hp _ ih =>
      rw [bypass_get] at hg
      cases hq : q.get s with
      | none => rw [hq] at hg; simp at hg
      | some e =>
        rw [hq] at hg
        cases e with
        | leaf _ _ _ => simp [redirectEntry] at hg
        | node n' fl' =>
          simp only [Option.map_some, redirectEntry, Option.some.injEq, DEntry.node.injEq] at hg
          obtain ⟨rfl, rfl⟩ := hg
          exact Spec.SkipReaches.yes s n' _ c hs hq hp ((skip_redirect hm ha _ c).1 ih)
    | no s n fl c hs hg hp _ ih =>
      rw [bypass_get] at hg
      cases hq : q.get s with
      | none => rw [hq] at hg; simp at hg
      | some e =>
        rw [hq] at hg
        cases e with
        | leaf _ _ _ => simp [redirectEntry] at hg
        | node n' fl' =>
          simp only [Option.map_some, redirectEntry, Option.some.injEq, DEntry.node.injEq] at hg
          obtain ⟨rfl, rfl⟩ := hg
          exact Spec.SkipReaches.no s n' _ c hs hq hp ((skip_redirect hm ha _ c).1 ih)
  · intro h
    induction h with
    | code c => exact Spec.SkipReaches.code c
    | leaf s c nt fl hg =>
      exact Spec.SkipReaches.leaf s c nt fl (by rw [bypass_get, hg]; rfl)
    | skip s t c hs ht _ ih =>
      exact Spec.SkipReaches.skip s _ c hs (bypass_alternative ht) ((skip_redirect hm ha' t c).2 ih)
    | yes s n fl c hs hg hp _ ih =>
      exact Spec.SkipReaches.yes s _ fl c hs (by rw [bypass_get, hg]; rfl) ((passes_redirect n _ _).2 hp)
        ((skip_redirect hm ha' n.ifTrue c).2 ih)
    | no s n fl c hs hg hp _ ih =>
      exact Spec.SkipReaches.no s _ fl c hs (by rw [bypass_get, hg]; rfl) (fun h => hp ((passes_redirect n _ _).1 h))
        ((skip_redirect hm ha' n.ifFalse c).2 ih)

/-- No branch of any node leads to one of the nodes `P`. -/
def NoEdges (q : DTree) (P : List String) : Prop :=
  ∀ s n fl, q.get s = some (.node n fl) → ∀ p ∈ P, n.ifTrue ≠ .name p ∧ n.ifFalse ≠ .name p

/-- Specification: the alternatives of missing nodes do not lead round in a circle. -/
def Spec.Acyclic (q : DTree) (M : List String) : Prop :=
  ∃ rank : String → ℕ, ∀ m ∈ M, ∀ a ∈ M, q.alternative m = .ok (.name a) → rank a < rank m

theorem alternative_noEdge {q : DTree} {P : List String} (h : NoEdges q P) {m : String} {t : Tgt} (ha : q.alternative m = .ok t) :
    ∀ p ∈ P, t ≠ .name p := by
  unfold DTree.alternative at ha
  cases hg : q.get m with
  | none => rw [hg] at ha; simp at ha
  | some e =>
    rw [hg] at ha
    cases e with
    | leaf _ _ _ => simp at ha
    | node n fl =>
      intro p hp
      have := h m n fl hg p hp
      cases hm : n.ifMissing with
      | none => simp [hm] at ha
      | some b => cases b <;> simp [hm] at ha <;> rw [← ha] <;> [exact this.2; exact this.1]

theorem removeMissing_spec (ms : List String) : ∀ (q : DTree) (start : Tgt) (P : List String) (q' : DTree) (start' : Tgt),
    removeMissing ms (q, start) = .ok (q', start') → NoEdges q P → (∀ p ∈ P, start ≠ .name p) → ∀ M : List String,
    (∀ m ∈ ms, m ∈ M) → Spec.Acyclic q M →
    NoEdges q' (P ++ ms) ∧ (∀ p ∈ P ++ ms, start' ≠ .name p) ∧
      ∀ c, Spec.SkipReaches q' M start' c ↔ Spec.SkipReaches q M start c := by
  induction ms with
  | nil =>
    intro q start P q' start' h hP hs M _ _
    simp only [removeMissing, Except.ok.injEq, Prod.mk.injEq] at h
    obtain ⟨rfl, rfl⟩ := h
    simpa using ⟨hP, hs⟩
  | cons m ms ih =>
    intro q start P q' start' h hP hs M hM hac
    simp only [removeMissing, bind, Except.bind] at h
    cases ha : q.alternative m with
    | error e => rw [ha] at h; cases h
    | ok alt =>
      rw [ha] at h
      simp only at h
      obtain ⟨rank, hrank⟩ := hac
      have hmM : m ∈ M := hM m (by simp)
      have hne : alt ≠ .name m := by
        intro he
        have := hrank m hmM m hmM (he ▸ ha)
        omega
      have hP' : NoEdges (bypass q m alt) (P ++ [m]) := by
        intro s n fl hg p hp
        rw [bypass_get] at hg
        cases hq : q.get s with
        | none => rw [hq] at hg; simp at hg
        | some e =>
          rw [hq] at hg
          cases e with
          | leaf _ _ _ => simp [redirectEntry] at hg
          | node n' fl' =>
            simp only [Option.map_some, redirectEntry, Option.some.injEq, DEntry.node.injEq] at hg
            obtain ⟨rfl, rfl⟩ := hg
            have hred : ∀ t : Tgt, (∀ p ∈ P, t ≠ .name p) → redirectTgt m alt t ≠ .name p := by
              intro t ht
              unfold redirectTgt
              by_cases htm : t = .name m
              · rw [if_pos htm]
                rcases List.mem_append.1 hp with hp | hp
                · exact alternative_noEdge hP ha p hp
                · simp only [List.mem_singleton] at hp
                  exact hp ▸ hne
              · rw [if_neg htm]
                rcases List.mem_append.1 hp with hp | hp
                · exact ht p hp
                · simp only [List.mem_singleton] at hp
                  exact hp ▸ htm
            exact ⟨hred _ (fun p hp => (hP s n' _ hq p hp).1), hred _ (fun p hp => (hP s n' _ hq p hp).2)⟩
      have hs' : ∀ p ∈ P ++ [m], redirectTgt m alt start ≠ .name p := by
        intro p hp
        unfold redirectTgt
        by_cases htm : start = .name m
        · rw [if_pos htm]
          rcases List.mem_append.1 hp with hp | hp
          · exact alternative_noEdge hP ha p hp
          · simp only [List.mem_singleton] at hp
            exact hp ▸ hne
        · rw [if_neg htm]
          rcases List.mem_append.1 hp with hp | hp
          · exact hs p hp
          · simp only [List.mem_singleton] at hp
            exact hp ▸ htm
      have hac' : Spec.Acyclic (bypass q m alt) M := by
        refine ⟨rank, ?_⟩
        intro x hx a haM hxa
        obtain ⟨t', ht', heq⟩ := bypass_alternative_inv hxa
        unfold redirectTgt at heq
        by_cases htm : t' = .name m
        · rw [if_pos htm] at heq
          have h1 := hrank x hx m hmM (htm ▸ ht')
          have h2 := hrank m hmM a haM (heq ▸ ha)
          omega
        · rw [if_neg htm] at heq
          exact hrank x hx a haM (heq ▸ ht')
      obtain ⟨r1, r2, r3⟩ := ih (bypass q m alt) (redirectTgt m alt start) (P ++ [m]) q' start' h hP' hs' M
        (fun x hx => hM x (by simp [hx])) hac'
      refine ⟨by simpa using r1, by simpa using r2, ?_⟩
      intro c
      rw [r3 c, bypass_skip hmM ha hne, skip_redirect hmM ha]

/-- Without branches into the missing nodes the two walks agree. -/
theorem skip_eq_reaches {q : DTree} {M : List String} (h : NoEdges q M) {t : Tgt} (ht : ∀ m ∈ M, t ≠ .name m) (c : ℤ) :
    Spec.SkipReaches q M t c ↔ Spec.Reaches q t c := by
  constructor
  · intro hr
    induction hr with
    | code c => exact Spec.Reaches.code c
    | leaf s c nt fl hg => exact Spec.Reaches.leaf s c nt fl hg
    | skip s t c hs _ _ _ => exact absurd rfl (ht s hs)
    | yes s n fl c hs hg hp _ ih =>
      exact Spec.Reaches.yes s n fl c hg hp (ih (fun m hm => (h s n fl hg m hm).1))
    | no s n fl c hs hg hp _ ih =>
      exact Spec.Reaches.no s n fl c hg hp (ih (fun m hm => (h s n fl hg m hm).2))
  · intro hr
    induction hr with
    | code c => exact Spec.SkipReaches.code c
    | leaf s c nt fl hg => exact Spec.SkipReaches.leaf s c nt fl hg
    | yes s n fl c hg hp _ ih =>
      exact Spec.SkipReaches.yes s n fl c (fun hs => ht s hs rfl) hg hp (ih (fun m hm => (h s n fl hg m hm).1))
    | no s n fl c hg hp _ ih =>
      exact Spec.SkipReaches.no s n fl c (fun hs => ht s hs rfl) hg hp (ih (fun m hm => (h s n fl hg m hm).2))

/-- **C44** (rerouting): after bypassing the nodes whose optional data are missing, in whatever order they are listed, walking the
new tree from the new start gives the category of walking the original tree with every such node passing on to the destination
it names, provided these destinations do not form a circle. -/
theorem C44_reroute (q q' : DTree) (start start' : Tgt) (missing : List String) (hac : Spec.Acyclic q missing)
    (h : removeMissing missing (q, start) = .ok (q', start')) (c : ℤ) :
    Spec.Reaches q' start' c ↔ Spec.SkipReaches q missing start c := by
  obtain ⟨h1, h2, h3⟩ := removeMissing_spec missing q start [] q' start' h (fun _ _ _ _ p hp => by simp at hp) (by simp) missing
    (fun _ h => h) hac
  simp only [List.nil_append] at h1 h2
  rw [← h3 c, skip_eq_reaches h1 h2]

/-- **C44** (missing data are not used): no route examined afterwards passes through a bypassed node. -/
theorem C44_missing_not_visited (q q' : DTree) (start start' : Tgt) (missing : List String) (hac : Spec.Acyclic q missing)
    (h : removeMissing missing (q, start) = .ok (q', start')) (f : ℕ) (e : ℤ) (r : List Tgt)
    (hr : r ∈ findRoutes q' f start' (.code e) []) (m : String) (hm : m ∈ missing) : Tgt.name m ∉ r := by
  obtain ⟨h1, h2, h3⟩ := removeMissing_spec missing q start [] q' start' h (fun _ _ _ _ p hp => by simp at hp) (by simp) missing
    (fun _ h => h) hac
  clear h3
  simp only [List.nil_append] at h1 h2
  obtain ⟨p, hp, hroute⟩ := findRoutes_isRoute q' f _ _ _ _ hr
  simp only [List.nil_append] at hp
  rw [hp]
  clear hp hr h
  generalize hs : start' = s at *
  clear hs
  generalize Tgt.code e = ee at hroute
  induction hroute with
  | done t => simpa using fun he => h2 m hm he.symm
  | step a b e ns p hn hb _ ih =>
    have hb' : ∀ p ∈ missing, b ≠ .name p := by
      cases a with
      | code _ => simp [DTree.neighbours] at hn
      | name s =>
        cases hg : q'.get s with
        | none => simp [DTree.neighbours, hg] at hn
        | some ent =>
          cases ent with
          | leaf k nt fl =>
            simp only [DTree.neighbours, hg, Option.some.injEq] at hn
            subst hn
            simp only [List.mem_singleton] at hb
            subst hb; simp
          | node n fl =>
            simp only [DTree.neighbours, hg, Option.some.injEq] at hn
            subst hn
            intro p hp
            have := h1 s n fl hg p hp
            simp only [List.mem_cons, List.not_mem_nil, or_false] at hb
            rcases hb with rfl | rfl
            · exact this.1
            · exact this.2
    have := ih hb'
    simp only [List.mem_cons, not_or]
    exact ⟨fun he => h2 m hm he.symm, this⟩

/-- **C44** (the category): with well-formed nodes after rerouting, the category given is that of the walk that skips the nodes
with missing data. -/
theorem C44_category (q q' : DTree) (start : Tgt) (s' : String) (missing : List String) (hac : Spec.Acyclic q missing)
    (h : removeMissing missing (q, start) = .ok (q', .name s')) (hq : Spec.TreeOk q') (n : DNode) (fl : List Bool)
    (hg : q'.get s' = some (.node n fl)) :
    ∃ o, categoryAtPoint q' (.name s') = .ok o ∧ ∀ c, o = some c ↔ Spec.SkipReaches q missing start c := by
  obtain ⟨o, ho, h1⟩ := C43_walk q' hq s' n fl hg
  exact ⟨o, ho, fun c => (h1 c).trans (C44_reroute q q' start _ missing hac h c)⟩

/-- A tree with an optional node "B". -/
def optionalTree (a b : ℚ) : DTree :=
  [("A", .node ⟨[(⟨a, []⟩, 0)], ">", "", .name "B", .name "L1", none⟩ []),
   ("B", .node ⟨[(⟨b, []⟩, 0)], ">", "", .name "L2", .name "L1", some false⟩ []),
   ("L1", .leaf 1 none []), ("L2", .leaf 2 none [])]

example : Spec.Acyclic (optionalTree 1 1) ["B"] := by
  refine ⟨fun _ => 0, ?_⟩
  intro m hm a ha h
  simp only [List.mem_singleton] at hm ha
  subst hm; subst ha
  exact absurd h (by decide +kernel)

/-- **C44** (finding): bypassing a node can leave a node with two equal branches, whose passing points then stay masked although
the walk has a category for them (see C43_same_branches_refuted). -/
theorem C44_masked_refuted : ∃ q' start', removeMissing ["B"] (optionalTree 1 1, .name "A") = .ok (q', start') ∧
    Spec.SkipReaches (optionalTree 1 1) ["B"] (.name "A") 1 ∧ categoryAtPoint q' start' = .ok none := by
  refine ⟨_, _, rfl, ?_, by decide +kernel⟩
  refine Spec.SkipReaches.yes "A" _ _ _ (by simp) rfl ?_ ?_
  · simp [Spec.passes, Spec.cmp, evalExpr, collapseOp]
  · exact Spec.SkipReaches.skip "B" (.name "L1") 1 (by simp) rfl (Spec.SkipReaches.leaf "L1" 1 none [] rfl)

/-- **C44** (finding): the rerouted tree is stored on the plugin, so that a later call whose inputs are complete still bypasses the
node: here the same complete input gives category 2 with a fresh plugin and no category after an earlier incomplete call. -/
theorem C44_reuse_refuted : ∃ q' start', removeMissing ["B"] (optionalTree 1 1, .name "A") = .ok (q', start') ∧
    categoryAtPoint (optionalTree 1 1) (.name "A") = .ok (some 2) ∧ categoryAtPoint q' start' ≠ .ok (some 2) := by
  refine ⟨_, _, rfl, by decide +kernel, by decide +kernel⟩

/-! ### C45: day and night -/

/-- **C45** (day): by day the category is unchanged. -/
theorem C45_day (m : List (ℤ × ℤ)) (code : ℤ) : updateDayNight true m code = code := by
  unfold updateDayNight
  induction m generalizing code with
  | nil => rfl
  | cons kv m ih =>
    rw [List.foldl_cons]
    have : (if code = kv.1 then if true = true then code else kv.2 else code) = code := by simp
    rw [this]
    exact ih code

theorem updateDayNight_notin (m : List (ℤ × ℤ)) (code : ℤ) (h : ∀ kv ∈ m, kv.1 ≠ code) : updateDayNight false m code = code := by
  unfold updateDayNight
  induction m generalizing code with
  | nil => rfl
  | cons kv m ih =>
    rw [List.foldl_cons, if_neg (fun he => h kv (by simp) he.symm)]
    exact ih code (fun x hx => h x (by simp [hx]))

/-- **C45** (night): by night a category with a night variant becomes that variant and any other category is unchanged, provided
(as `check_tree` demands) no night variant itself has a night variant. -/
theorem C45_night (m : List (ℤ × ℤ)) (hk : (m.map Prod.fst).Nodup) (hn : ∀ kv ∈ m, ∀ kv' ∈ m, kv'.1 ≠ kv.2) (code : ℤ) :
    (∀ v, (code, v) ∈ m → updateDayNight false m code = v) ∧ ((∀ kv ∈ m, kv.1 ≠ code) → updateDayNight false m code = code) := by
  refine ⟨?_, updateDayNight_notin m code⟩
  intro v hv
  obtain ⟨l1, l2, rfl⟩ := List.append_of_mem hv
  simp only [List.map_append, List.map_cons] at hk
  have hnd := List.nodup_append.1 hk
  have h1 : ∀ kv ∈ l1, kv.1 ≠ code := by
    intro kv hkv he
    exact hnd.2.2 kv.1 (List.mem_map.2 ⟨kv, hkv, rfl⟩) code (by simp) he
  have h2 : ∀ kv ∈ l2, kv.1 ≠ v := by
    intro kv hkv
    exact hn (code, v) (by simp) kv (by simp [hkv])
  have e1 := updateDayNight_notin l1 code h1
  have e2 := updateDayNight_notin l2 v h2
  unfold updateDayNight at *
  rw [List.foldl_append, e1, List.foldl_cons]
  simpa using e2

/-- **C45** (chains): without that proviso the result depends on the order of the entries. -/
theorem C45_chain_refuted : updateDayNight false [(1, 2), (2, 3)] 1 = 3 ∧ updateDayNight false [(2, 3), (1, 2)] 1 = 2 := by
  decide

theorem dictInsert_keys (d : List (ℤ × ℤ)) (kv : ℤ × ℤ) (h : (d.map Prod.fst).Nodup) : ((dictInsert d kv).map Prod.fst).Nodup := by
  unfold dictInsert
  by_cases hc : d.any (fun e => decide (e.1 = kv.1)) = true
  · rw [if_pos hc]
    have : (d.map (fun e => if e.1 = kv.1 then kv else e)).map Prod.fst = d.map Prod.fst := by
      rw [List.map_map]
      apply List.map_congr_left
      intro e _
      simp only [Function.comp]
      by_cases he : e.1 = kv.1
      · rw [if_pos he, he]
      · rw [if_neg he]
    rw [this]; exact h
  · rw [if_neg hc, List.map_append, List.nodup_append]
    refine ⟨h, by simp, ?_⟩
    intro a ha b hb hab
    simp only [List.map_cons, List.map_nil, List.mem_singleton] at hb
    obtain ⟨e, he, rfl⟩ := List.mem_map.1 ha
    apply hc
    rw [List.any_eq_true]
    exact ⟨e, he, by simp [hab, hb]⟩

theorem dictInsert_mem (d : List (ℤ × ℤ)) (kv x : ℤ × ℤ) (h : x ∈ dictInsert d kv) : x = kv ∨ x ∈ d := by
  unfold dictInsert at h
  by_cases hc : d.any (fun e => decide (e.1 = kv.1)) = true
  · rw [if_pos hc] at h
    obtain ⟨e, he, rfl⟩ := List.mem_map.1 h
    by_cases h' : e.1 = kv.1
    · rw [if_pos h']; exact Or.inl rfl
    · rw [if_neg h']; exact Or.inr he
  · rw [if_neg hc] at h
    rcases List.mem_append.1 h with h | h
    · exact Or.inr h
    · simp only [List.mem_singleton] at h; exact Or.inl h

/-- **C45** (the map): the day-night map has every code at most once, and each of its pairs comes from a leaf and the leaf that its
`if_night` entry names. -/
theorem C45_map (q : DTree) (m : List (ℤ × ℤ)) (h : dayNightMap q = .ok m) : (m.map Prod.fst).Nodup ∧
    ∀ kv ∈ m, ∃ s nt fl nt' fl', (s, DEntry.leaf kv.1 (some nt) fl) ∈ q ∧ q.get nt = some (.leaf kv.2 nt' fl') := by
  unfold dayNightMap at h
  simp only [bind, Except.bind] at h
  cases hm : q.mapM (nightTarget q) with
  | error e => rw [hm] at h; cases h
  | ok l =>
    rw [hm] at h
    simp only [pure, Except.pure, Except.ok.injEq] at h
    subst h
    have hsrc : ∀ kv ∈ l.filterMap id, ∃ s nt fl nt' fl', (s, DEntry.leaf kv.1 (some nt) fl) ∈ q ∧
        q.get nt = some (.leaf kv.2 nt' fl') := by
      intro kv hkv
      simp only [List.mem_filterMap, id] at hkv
      obtain ⟨o, ho, rfl⟩ := hkv
      have key : ∀ (a : List (String × DEntry)) (l : List (Option (ℤ × ℤ))), a.mapM (nightTarget q) = .ok l → some kv ∈ l →
          ∃ e ∈ a, nightTarget q e = .ok (some kv) := by
        intro a
        induction a with
        | nil => intro l hl hin; simp [pure, Except.pure] at hl; subst hl; simp at hin
        | cons e a ih =>
          intro l hl hin
          simp only [List.mapM_cons, bind, Except.bind] at hl
          cases h1 : nightTarget q e with
          | error x => rw [h1] at hl; cases hl
          | ok v =>
            rw [h1] at hl
            simp only at hl
            cases h2 : a.mapM (nightTarget q) with
            | error x => rw [h2] at hl; cases hl
            | ok vs =>
              rw [h2] at hl
              simp only [pure, Except.pure, Except.ok.injEq] at hl
              subst hl
              rcases List.mem_cons.1 hin with h3 | h3
              · exact ⟨e, by simp, by rw [h1, h3]⟩
              · obtain ⟨e', he', h4⟩ := ih vs h2 h3
                exact ⟨e', by simp [he'], h4⟩
      obtain ⟨⟨s, ent⟩, hmem, hn⟩ := key q l hm ho
      unfold nightTarget at hn
      cases ent with
      | node n fl => simp at hn
      | leaf c nt fl =>
        cases nt with
        | none => simp at hn
        | some nt =>
          simp only at hn
          cases hg : q.get nt with
          | none => rw [hg] at hn; simp at hn
          | some e2 =>
            rw [hg] at hn
            cases e2 with
            | node _ _ => simp at hn
            | leaf c' nt' fl' =>
              simp only [Except.ok.injEq, Option.some.injEq] at hn
              subst hn
              exact ⟨s, nt, fl, nt', fl', hmem, hg⟩
    have fold : ∀ (xs d : List (ℤ × ℤ)), (d.map Prod.fst).Nodup →
        ((xs.foldl dictInsert d).map Prod.fst).Nodup ∧ ∀ kv ∈ xs.foldl dictInsert d, kv ∈ d ∨ kv ∈ xs := by
      intro xs
      induction xs with
      | nil => intro d hd; exact ⟨hd, fun kv h => Or.inl h⟩
      | cons x xs ih =>
        intro d hd
        obtain ⟨h1, h2⟩ := ih (dictInsert d x) (dictInsert_keys d x hd)
        refine ⟨h1, ?_⟩
        intro kv hkv
        rcases h2 kv hkv with h3 | h3
        · rcases dictInsert_mem d x kv h3 with h4 | h4
          · exact Or.inr (by simp [h4])
          · exact Or.inl h4
        · exact Or.inr (by simp [h3])
    obtain ⟨f1, f2⟩ := fold (l.filterMap id) [] (by simp)
    refine ⟨f1, ?_⟩
    intro kv hkv
    rcases f2 kv hkv with h3 | h3
    · simp at h3
    · exact hsrc kv h3

example : (dayNightMap [("Sunny", .leaf 1 (some "Clear") []), ("Clear", .leaf 0 none [])]).toOption = some [(1, 0)] := by
  decide +kernel
example : ([(1, 0), (3, 2)].map Prod.fst : List ℤ).Nodup ∧ updateDayNight false [(1, 0), (3, 2)] 3 = 2 := by decide

/-! ### C46: diagnostic expressions -/

/-- Specification: the usual value of an expression: products and quotients from left to right within each term, then the
terms added and subtracted from left to right.  `sum` is the value of the finished terms, `term` the current term. -/
def Spec.arith (sum term : ℚ) : List (ArithOp × ℚ) → ℚ
  | [] => sum + term
  | (.mul, w) :: l => Spec.arith sum (term * w) l
  | (.div, w) :: l => Spec.arith sum (term / w) l
  | (.add, w) :: l => Spec.arith (sum + term) w l
  | (.sub, w) :: l => Spec.arith (sum + term) (-w) l

/-- Specification: no addition is written after a subtraction. -/
def Spec.noAddAfterSub (l : List (ArithOp × ℚ)) : Prop :=
  l.Pairwise (fun a b => ¬ (a.1 = .sub ∧ b.1 = .add))

theorem collapseOp_ops (o : ArithOp) (v : ℚ) (l : List (ArithOp × ℚ)) :
    (collapseOp o v l).rest.map Prod.fst = (l.map Prod.fst).filter (fun x => decide (x ≠ o)) := by
  induction l generalizing v with
  | nil => rfl
  | cons p l ih =>
    obtain ⟨o', w⟩ := p
    unfold collapseOp
    by_cases h : o' = o
    · rw [if_pos h, ih]; simp [h]
    · rw [if_neg h]; simp [h, ih]

theorem collapseOp_div (s t v : ℚ) (l : List (ArithOp × ℚ)) :
    Spec.arith s (t * v) l = Spec.arith s (t * (collapseOp .div v l).first) (collapseOp .div v l).rest := by
  induction l generalizing s t v with
  | nil => rfl
  | cons p l ih =>
    obtain ⟨o', w⟩ := p
    cases o' with
    | div =>
      simp only [collapseOp, if_true, Spec.arith, ArithOp.app]
      rw [mul_div_assoc]; exact ih _ _ _
    | mul =>
      simp only [collapseOp, if_neg (show ¬ ArithOp.mul = ArithOp.div by decide), Spec.arith]
      exact ih _ _ _
    | add =>
      simp only [collapseOp, if_neg (show ¬ ArithOp.add = ArithOp.div by decide), Spec.arith]
      simpa using ih (s + t * v) 1 w
    | sub =>
      simp only [collapseOp, if_neg (show ¬ ArithOp.sub = ArithOp.div by decide), Spec.arith]
      simpa using ih (s + t * v) (-1) w

theorem collapseOp_mul (s t v : ℚ) (l : List (ArithOp × ℚ)) (hl : ArithOp.div ∉ l.map Prod.fst) :
    Spec.arith s (t * v) l = Spec.arith s (t * (collapseOp .mul v l).first) (collapseOp .mul v l).rest := by
  induction l generalizing s t v with
  | nil => rfl
  | cons p l ih =>
    obtain ⟨o', w⟩ := p
    simp only [List.map_cons, List.mem_cons, not_or] at hl
    cases o' with
    | div => exact absurd rfl hl.1
    | mul =>
      simp only [collapseOp, if_true, Spec.arith, ArithOp.app]
      rw [mul_assoc]; exact ih _ _ _ hl.2
    | add =>
      simp only [collapseOp, if_neg (show ¬ ArithOp.add = ArithOp.mul by decide), Spec.arith]
      simpa using ih (s + t * v) 1 w hl.2
    | sub =>
      simp only [collapseOp, if_neg (show ¬ ArithOp.sub = ArithOp.mul by decide), Spec.arith]
      simpa using ih (s + t * v) (-1) w hl.2

theorem arith_shift (s v d : ℚ) (l : List (ArithOp × ℚ)) (h1 : ArithOp.div ∉ l.map Prod.fst) (h2 : ArithOp.mul ∉ l.map Prod.fst) :
    Spec.arith (s + d) v l = Spec.arith s (d + v) l := by
  cases l with
  | nil => simp [Spec.arith, add_assoc]
  | cons p l =>
    obtain ⟨o', w⟩ := p
    simp only [List.map_cons, List.mem_cons, not_or] at h1 h2
    cases o' with
    | div => exact absurd rfl h1.1
    | mul => exact absurd rfl h2.1
    | add => simp only [Spec.arith, add_assoc]
    | sub => simp only [Spec.arith, add_assoc]

theorem collapseOp_id (o : ArithOp) (v : ℚ) (l : List (ArithOp × ℚ)) (h : o ∉ l.map Prod.fst) : collapseOp o v l = ⟨v, l⟩ := by
  induction l generalizing v with
  | nil => rfl
  | cons p l ih =>
    obtain ⟨o', w⟩ := p
    simp only [List.map_cons, List.mem_cons, not_or] at h
    unfold collapseOp
    rw [if_neg (fun he => h.1 he.symm)]
    simp only [ih w h.2]

theorem collapseOp_add (s v : ℚ) (l : List (ArithOp × ℚ)) (h1 : ArithOp.div ∉ l.map Prod.fst) (h2 : ArithOp.mul ∉ l.map Prod.fst)
    (h3 : (l.map Prod.fst).Pairwise (fun a b => ¬ (a = .sub ∧ b = .add))) :
    Spec.arith s v l = Spec.arith s (collapseOp .add v l).first (collapseOp .add v l).rest := by
  induction l generalizing v with
  | nil => rfl
  | cons p l ih =>
    obtain ⟨o', w⟩ := p
    simp only [List.map_cons, List.mem_cons, not_or] at h1 h2
    rw [List.map_cons, List.pairwise_cons] at h3
    cases o' with
    | div => exact absurd rfl h1.1
    | mul => exact absurd rfl h2.1
    | add =>
      simp only [collapseOp, if_true, Spec.arith, ArithOp.app]
      rw [arith_shift s w v l h1.2 h2.2]
      exact ih _ h1.2 h2.2 h3.2
    | sub =>
      rw [collapseOp_id .add v ((.sub, w) :: l)]
      simp only [List.map_cons, List.mem_cons, not_or]
      exact ⟨by decide, fun hm => h3.1 _ hm ⟨rfl, rfl⟩⟩

theorem collapseOp_sub (s v : ℚ) (l : List (ArithOp × ℚ)) (h : ∀ o ∈ l.map Prod.fst, o = ArithOp.sub) :
    Spec.arith s v l = s + (collapseOp .sub v l).first := by
  induction l generalizing s v with
  | nil => rfl
  | cons p l ih =>
    obtain ⟨o', w⟩ := p
    have h0 := h o' (by simp)
    subst h0
    have hl : ∀ o ∈ l.map Prod.fst, o = ArithOp.sub := fun o ho => h o (by simp only [List.map_cons, List.mem_cons]; exact Or.inr ho)
    have hd : ArithOp.div ∉ l.map Prod.fst := fun hm => absurd (hl _ hm) (by decide)
    have hm : ArithOp.mul ∉ l.map Prod.fst := fun hm => absurd (hl _ hm) (by decide)
    simp only [collapseOp, if_true, Spec.arith, ArithOp.app]
    rw [arith_shift s (-w) v l hd hm, ← sub_eq_add_neg]
    exact ih _ _ hl

/-- **C46**: a diagnostic expression of a decision tree in which no addition is written after a subtraction has its usual value. -/
theorem C46_usual_value (e : DTExpr) (h : Spec.noAddAfterSub e.rest) : evalExpr e = Spec.arith 0 e.first e.rest := by
  have hp : (e.rest.map Prod.fst).Pairwise (fun a b => ¬ (a = .sub ∧ b = .add)) := List.pairwise_map.2 h
  unfold evalExpr
  simp only
  have o1 := collapseOp_ops .div e.first e.rest
  have a1 := collapseOp_div 0 1 e.first e.rest
  generalize collapseOp .div e.first e.rest = e1 at *
  have o2 := collapseOp_ops .mul e1.first e1.rest
  have n1 : ArithOp.div ∉ e1.rest.map Prod.fst := by rw [o1]; simp
  have a2 := collapseOp_mul 0 1 e1.first e1.rest n1
  generalize collapseOp .mul e1.first e1.rest = e2 at *
  have n2 : ArithOp.div ∉ e2.rest.map Prod.fst := by rw [o2, o1]; simp
  have n3 : ArithOp.mul ∉ e2.rest.map Prod.fst := by rw [o2]; simp
  have hp2 : (e2.rest.map Prod.fst).Pairwise (fun a b => ¬ (a = .sub ∧ b = .add)) := by
    rw [o2, o1]; exact (hp.filter _).filter _
  have o3 := collapseOp_ops .add e2.first e2.rest
  have a3 := collapseOp_add 0 e2.first e2.rest n2 n3 hp2
  generalize collapseOp .add e2.first e2.rest = e3 at *
  have n4 : ∀ o ∈ e3.rest.map Prod.fst, o = ArithOp.sub := by
    intro o ho
    rw [o3, o2, o1] at ho
    simp only [List.mem_filter, decide_eq_true_eq] at ho
    cases o with
    | sub => rfl
    | add => exact absurd rfl ho.2
    | mul => exact absurd rfl ho.1.2
    | div => exact absurd rfl ho.1.1.2
  have a4 := collapseOp_sub 0 e3.first e3.rest n4
  simp only [one_mul, zero_add] at a1 a2 a3 a4
  rw [a1, a2, a3, a4]

/-- **C46** (finding): an addition written after a subtraction is carried out first: `1 - 2 + 3` gives -4 instead of 2. -/
theorem C46_add_after_sub_refuted : evalExpr ⟨1, [(.sub, 2), (.add, 3)]⟩ = -4 ∧ Spec.arith 0 1 [(.sub, 2), (.add, 3)] = 2 := by
  refine ⟨by decide +kernel, by decide +kernel⟩

example : Spec.noAddAfterSub [(.mul, (2 : ℚ)), (.add, 3), (.div, 4), (.sub, 5)] := by
  simp [Spec.noAddAfterSub]

example : evalExpr ⟨7, [(.mul, (2 : ℚ)), (.add, 3), (.div, 4), (.sub, 5)]⟩ = 39/4 := by decide +kernel

end Improver
