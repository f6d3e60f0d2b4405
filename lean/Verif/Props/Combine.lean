import Verif.Model.Combine
import Verif.Props.CubeManip
import Mathlib.Algebra.BigOperators.Group.List.Basic
import Mathlib.Algebra.Order.BigOperators.Group.List
import Mathlib.Tactic.FieldSimp
import Mathlib.Tactic.Ring
import Mathlib.Tactic.Linarith

/-! C49: combining cubes. -/

namespace Improver

theorem foldl_masked (f : ℚ → ℚ → ℚ) (vals : List ℚ) (a : ℚ) :
    (vals.map some).foldl (maskedUfunc f) (some a) = some (vals.foldl f a) := by
  induction vals generalizing a with
  | nil => rfl
  | cons b l ih => exact ih (f a b)

theorem foldl_masked_none (f : ℚ → ℚ → ℚ) (vals : List (Option ℚ)) : vals.foldl (maskedUfunc f) none = none := by
  induction vals with
  | nil => rfl
  | cons b l ih => exact ih

theorem foldl_masked_any (f : ℚ → ℚ → ℚ) (vals : List (Option ℚ)) (a : Option ℚ) (h : none ∈ a :: vals) :
    vals.foldl (maskedUfunc f) a = none := by
  induction vals generalizing a with
  | nil =>
    rw [List.mem_singleton] at h
    exact h.symm
  | cons b l ih =>
    rw [List.foldl_cons]
    rcases List.mem_cons.1 h with h | h
    · subst h
      exact foldl_masked_none f l
    · rcases List.mem_cons.1 h with h | h
      · subst h
        have : maskedUfunc f a none = none := by cases a <;> rfl
        rw [this]
        exact foldl_masked_none f l
      · exact ih _ (by simp [h])

/-- **C49** (masks): for every operation except `masked_add` the result is masked exactly where some input is. -/
theorem C49_masked (op : CombineOp) (hop : op ≠ .maskedAdd) (vals : List (Option ℚ)) (h2 : 2 ≤ vals.length) :
    combinePoint op vals = .ok none ↔ none ∈ vals := by
  match vals, h2 with
  | a :: b :: l, _ =>
    unfold combinePoint combineData
    simp only [Except.ok.injEq]
    constructor
    · intro h
      by_contra hn
      have hall : ∃ vs : List ℚ, (a :: b :: l) = vs.map some := by
        refine ⟨(a :: b :: l).filterMap id, ?_⟩
        have : ∀ l : List (Option ℚ), none ∉ l → l = (l.filterMap id).map some := by
          intro l
          induction l with
          | nil => simp
          | cons x l ih =>
            intro hx
            simp only [List.mem_cons, not_or] at hx
            cases x with
            | none => exact absurd rfl hx.1
            | some v => exact congrArg (some v :: ·) (ih hx.2)
        exact this _ hn
      obtain ⟨vs, hvs⟩ := hall
      match vs, hvs with
      | v :: vs, hvs =>
        simp only [List.map_cons, List.cons.injEq] at hvs
        obtain ⟨h1, h3⟩ := hvs
        rw [h1, h3] at h
        cases op <;> first | exact absurd rfl hop | (simp only [CombineOp.app, foldl_masked] at h; simp at h)
    · intro h
      cases op <;> first | exact absurd rfl hop | (simp only [CombineOp.app]; rw [foldl_masked_any _ _ _ h]; rfl)

/-- Specification of the unmasked result of each operation. -/
def Spec.combined (op : CombineOp) (a b : ℚ) (l : List ℚ) (r : ℚ) : Prop :=
  match op with
  | .add => r = (a :: b :: l).sum
  | .subtract => r = a - (b :: l).sum
  | .multiply => r = (a :: b :: l).prod
  | .max => r ∈ a :: b :: l ∧ ∀ v ∈ a :: b :: l, v ≤ r
  | .min => r ∈ a :: b :: l ∧ ∀ v ∈ a :: b :: l, r ≤ v
  | .mean => r * (a :: b :: l).length = (a :: b :: l).sum
  | .maskedAdd => r = (a :: b :: l).sum

theorem foldl_add_eq (l : List ℚ) (a : ℚ) : l.foldl (· + ·) a = a + l.sum := by
  induction l generalizing a with
  | nil => simp
  | cons b l ih => rw [List.foldl_cons, ih, List.sum_cons, add_assoc]

theorem foldl_sub_eq (l : List ℚ) (a : ℚ) : l.foldl (· - ·) a = a - l.sum := by
  induction l generalizing a with
  | nil => simp
  | cons b l ih => rw [List.foldl_cons, ih, List.sum_cons]; ring

theorem foldl_mul_eq (l : List ℚ) (a : ℚ) : l.foldl (· * ·) a = a * l.prod := by
  induction l generalizing a with
  | nil => simp
  | cons b l ih => rw [List.foldl_cons, ih, List.prod_cons, mul_assoc]

theorem foldl_maskedAdd (l : List (Option ℚ)) (a : Option ℚ) :
    l.foldl addMasked a = if ∀ x ∈ a :: l, x = none then none else some (((a :: l).map (fun x => x.getD 0)).sum) := by
  induction l generalizing a with
  | nil => cases a <;> simp
  | cons b l ih =>
    rw [List.foldl_cons, ih]
    cases a with
    | none =>
      cases b with
      | none => simp [addMasked]
      | some y => simp [addMasked]
    | some x =>
      cases b with
      | none => simp [addMasked]
      | some y => simp [addMasked, add_assoc]

/-- **C49** (values): where no input is masked, the result is the sum, the first minus the others, the product, the maximum, the
minimum or the mean of the inputs. -/
theorem C49_values (op : CombineOp) (a b : ℚ) (l : List ℚ) :
    ∃ r, combinePoint op ((a :: b :: l).map some) = .ok (some r) ∧ Spec.combined op a b l r := by
  simp only [List.map_cons, combinePoint, combineData]
  cases op with
  | add =>
    refine ⟨_, ?_, rfl⟩
    have := foldl_masked (· + ·) (b :: l) a
    simp only [List.map_cons] at this
    simp only [CombineOp.app, this, foldl_add_eq]
    simp
  | subtract =>
    refine ⟨_, ?_, rfl⟩
    have := foldl_masked (· - ·) (b :: l) a
    simp only [List.map_cons] at this
    simp only [CombineOp.app, this, foldl_sub_eq]
    simp
  | multiply =>
    refine ⟨_, ?_, rfl⟩
    have := foldl_masked (· * ·) (b :: l) a
    simp only [List.map_cons] at this
    simp only [CombineOp.app, this, foldl_mul_eq]
    simp
  | max =>
    have := foldl_masked Max.max (b :: l) a
    simp only [List.map_cons] at this
    refine ⟨_, by simp only [CombineOp.app, this]; rfl, ?_⟩
    exact foldMax_spec a (b :: l)
  | min =>
    have := foldl_masked Min.min (b :: l) a
    simp only [List.map_cons] at this
    refine ⟨_, by simp only [CombineOp.app, this]; rfl, ?_⟩
    exact foldMin_spec a (b :: l)
  | mean =>
    have := foldl_masked (· + ·) (b :: l) a
    simp only [List.map_cons] at this
    refine ⟨(a :: b :: l).sum / ((l.length + 1 + 1 : ℕ) : ℚ), ?_, ?_⟩
    · simp only [CombineOp.app, this, foldl_add_eq, if_true]
      simp
    · unfold Spec.combined
      simp only [List.length_cons]
      have : ((l.length + 1 + 1 : ℕ) : ℚ) ≠ 0 := by positivity
      field_simp
  | maskedAdd =>
    refine ⟨_, ?_, rfl⟩
    simp only [CombineOp.app]
    rw [if_neg (by decide), foldl_maskedAdd, if_neg (by simp)]
    simp [Function.comp_def]

/-- Specification: the operations by name. -/
def Spec.operationNames : List (String × CombineOp) :=
  [("+", .add), ("add", .add), ("-", .subtract), ("subtract", .subtract), ("*", .multiply), ("multiply", .multiply),
    ("max", .max), ("min", .min), ("mean", .mean), ("masked_add", .maskedAdd)]

/-- **C49** (names): each operation is obtained under its names, and any other name is refused. -/
theorem C49_names (name : String) : (∀ op, (name, op) ∈ Spec.operationNames → ∀ a b l,
      ∃ r, combineNamed name ((a :: b :: l).map some) = .ok (some r) ∧ Spec.combined op a b l r) ∧
    ((∀ op, (name, op) ∉ Spec.operationNames) → ∀ vals, ∃ e, combineNamed name vals = .error e) := by
  constructor
  · intro op h a b l
    have hd : CombineOp.decode name = .ok op := by
      simp only [Spec.operationNames, List.mem_cons, Prod.mk.injEq, List.not_mem_nil, or_false] at h
      rcases h with h | h | h | h | h | h | h | h | h | h <;> (rw [h.1, h.2]; decide)
    unfold combineNamed
    rw [hd]
    exact C49_values op a b l
  · intro h vals
    have hd : ∃ e, CombineOp.decode name = .error e := by
      simp only [Spec.operationNames, List.mem_cons, Prod.mk.injEq, List.not_mem_nil, or_false, not_or, not_and] at h
      unfold CombineOp.decode
      have hn : ∀ (op : CombineOp) (s : String), (name = s → ¬ op = op) → name ≠ s := fun op s h e => h e rfl
      have e1 := hn _ _ (h .add).1
      have e2 := hn _ _ (h .add).2.1
      have e3 := hn _ _ (h .subtract).2.2.1
      have e4 := hn _ _ (h .subtract).2.2.2.1
      have e5 := hn _ _ (h .multiply).2.2.2.2.1
      have e6 := hn _ _ (h .multiply).2.2.2.2.2.1
      have e7 := hn _ _ (h .max).2.2.2.2.2.2.1
      have e8 := hn _ _ (h .min).2.2.2.2.2.2.2.1
      have e9 := hn _ _ (h .mean).2.2.2.2.2.2.2.2.1
      have e10 := hn _ _ (h .maskedAdd).2.2.2.2.2.2.2.2.2
      simp [e1, e2, e3, e4, e5, e6, e7, e8, e9, e10]
    obtain ⟨e, hd⟩ := hd
    unfold combineNamed
    rw [hd]
    exact ⟨e, rfl⟩

/-- **C49** (masked addition): `masked_add` gives the sum of the unmasked inputs, masked only where all are masked. -/
theorem C49_masked_add (vals : List (Option ℚ)) (h2 : 2 ≤ vals.length) :
    combinePoint .maskedAdd vals = .ok (if ∀ x ∈ vals, x = none then none else some ((vals.filterMap id).sum)) := by
  match vals, h2 with
  | a :: b :: l, _ =>
    unfold combinePoint combineData
    simp only [CombineOp.app]
    rw [if_neg (by decide), foldl_maskedAdd]
    have : ∀ l : List (Option ℚ), (l.map (fun x => x.getD 0)).sum = (l.filterMap id).sum := by
      intro l
      induction l with
      | nil => rfl
      | cons x l ih => cases x <;> simp [ih]
    rw [this]

/-- **C49** (too few): fewer than two cubes are refused. -/
theorem C49_too_few (op : CombineOp) (vals : List (Option ℚ)) : (∃ e, combinePoint op vals = .error e) ↔ vals.length < 2 := by
  match vals with
  | [] => simp [combinePoint]
  | [a] => simp [combinePoint]
  | a :: b :: l => simp [combinePoint]

theorem maskedUfunc_comm (f : ℚ → ℚ → ℚ) (hf : ∀ a b, f a b = f b a) (a b : Option ℚ) : maskedUfunc f a b = maskedUfunc f b a := by
  cases a <;> cases b <;> simp [maskedUfunc, hf]

theorem maskedUfunc_assoc (f : ℚ → ℚ → ℚ) (hf : ∀ a b c, f (f a b) c = f a (f b c)) (a b c : Option ℚ) :
    maskedUfunc f (maskedUfunc f a b) c = maskedUfunc f a (maskedUfunc f b c) := by
  cases a <;> cases b <;> cases c <;> simp [maskedUfunc, hf]

theorem maskedAdd_comm (a b : Option ℚ) : addMasked a b = addMasked b a := by
  cases a <;> cases b <;> simp [addMasked, add_comm]

theorem maskedAdd_assoc (a b c : Option ℚ) : addMasked (addMasked a b) c = addMasked a (addMasked b c) := by
  cases a <;> cases b <;> cases c <;> simp [addMasked, add_assoc]

theorem foldl_perm_comm {β : Type} (f : β → β → β) (hc : ∀ a b, f a b = f b a) (ha : ∀ a b c, f (f a b) c = f a (f b c))
    (a a' : β) (l l' : List β) (hp : (a :: l).Perm (a' :: l')) : l.foldl f a = l'.foldl f a' := by
  have hrc : ∀ (x y z : β), f (f x y) z = f (f x z) y := by
    intro x y z
    rw [ha, ha, hc y z]
  have hcons : ∀ (l : List β) (x y : β), l.foldl f (f x y) = f x (l.foldl f y) := by
    intro l
    induction l with
    | nil => intro x y; rfl
    | cons b l ih => intro x y; rw [List.foldl_cons, List.foldl_cons, ha, ih]
  -- compare through folds started at a common extra element
  have key : ∀ x : β, f x (l.foldl f a) = f x (l'.foldl f a') := by
    intro x
    rw [← hcons, ← hcons]
    have h1 : (a :: l).foldl f x = (a' :: l').foldl f x := by
      haveI : RightCommutative f := ⟨hrc⟩
      exact hp.foldl_eq x
    exact h1
  by_cases hl : l = []
  · subst hl
    have := List.perm_singleton.1 hp.symm
    simp only [List.cons.injEq] at this
    rw [this.1, this.2]
  · have hl' : l' ≠ [] := by
      intro h
      subst h
      have := List.perm_singleton.1 hp
      simp at this
      exact hl this.2
    haveI : RightCommutative f := ⟨hrc⟩
    -- a' is a or occurs in l
    by_cases haa : a = a'
    · subst haa
      exact (hp.cons_inv).foldl_eq a
    · have hmem : a' ∈ l := by
        have : a' ∈ a :: l := hp.mem_iff.2 (by simp)
        rcases List.mem_cons.1 this with h | h
        · exact absurd h.symm haa
        · exact h
      obtain ⟨l1, l2, rfl⟩ := List.append_of_mem hmem
      have h1 : (l1 ++ a' :: l2).Perm (a' :: (l1 ++ l2)) := List.perm_middle
      rw [h1.foldl_eq a, List.foldl_cons, hc a a']
      have h2 : (a :: (l1 ++ l2)).Perm l' := by
        have h3 : (a :: a' :: (l1 ++ l2)).Perm (a' :: l') := (h1.symm.cons a).trans hp
        exact ((List.Perm.swap a a' _).trans h3).cons_inv
      have := List.Perm.foldl_eq (f := f) h2 a'
      rw [List.foldl_cons] at this
      exact this

/-- **C49** (order): except for subtraction the order of the cubes does not matter. -/
theorem C49_order (op : CombineOp) (hop : op ≠ .subtract) (vals vals' : List (Option ℚ)) (hp : vals.Perm vals') :
    combinePoint op vals = combinePoint op vals' := by
  have hlen := hp.length_eq
  match vals, vals', hp, hlen with
  | [], [], _, _ => rfl
  | [a], [b], _, _ => rfl
  | a :: b :: l, a' :: b' :: l', hp, hlen =>
    unfold combinePoint combineData
    have hcomm : ∀ x y, op.app x y = op.app y x := by
      intro x y
      cases op with
      | add => exact maskedUfunc_comm _ add_comm x y
      | subtract => exact absurd rfl hop
      | multiply => exact maskedUfunc_comm _ mul_comm x y
      | max => exact maskedUfunc_comm _ max_comm x y
      | min => exact maskedUfunc_comm _ min_comm x y
      | mean => exact maskedUfunc_comm _ add_comm x y
      | maskedAdd => exact maskedAdd_comm x y
    have hassoc : ∀ x y z, op.app (op.app x y) z = op.app x (op.app y z) := by
      intro x y z
      cases op with
      | add => exact maskedUfunc_assoc _ add_assoc x y z
      | subtract => exact absurd rfl hop
      | multiply => exact maskedUfunc_assoc _ mul_assoc x y z
      | max => exact maskedUfunc_assoc _ max_assoc x y z
      | min => exact maskedUfunc_assoc _ min_assoc x y z
      | mean => exact maskedUfunc_assoc _ add_assoc x y z
      | maskedAdd => exact maskedAdd_assoc x y z
    simp only [foldl_perm_comm op.app hcomm hassoc a a' (b :: l) (b' :: l') hp]
    simp only [List.length_cons] at hlen
    have : l.length = l'.length := by omega
    simp only [List.length_cons, this]

/-- **C49** (mean): the mean lies between the smallest and the largest input. -/
theorem C49_mean_between (a b : ℚ) (l : List ℚ) (lo hi : ℚ) (h : ∀ v ∈ a :: b :: l, lo ≤ v ∧ v ≤ hi) :
    ∃ r, combinePoint .mean ((a :: b :: l).map some) = .ok (some r) ∧ lo ≤ r ∧ r ≤ hi := by
  obtain ⟨r, hr, hs⟩ := C49_values .mean a b l
  refine ⟨r, hr, ?_⟩
  unfold Spec.combined at hs
  simp only at hs
  have h1 : ∀ l : List ℚ, (∀ v ∈ l, lo ≤ v ∧ v ≤ hi) → lo * l.length ≤ l.sum ∧ l.sum ≤ hi * l.length := by
    intro l
    induction l with
    | nil => simp
    | cons x l ih =>
      intro hx
      have := ih (fun v hv => hx v (by simp [hv]))
      have hxx := hx x (by simp)
      simp only [List.length_cons, List.sum_cons]
      push_cast
      constructor <;> nlinarith
  have := h1 _ h
  rw [← hs] at this
  have hpos : (0 : ℚ) < (a :: b :: l).length := by simp only [List.length_cons]; positivity
  exact ⟨le_of_mul_le_mul_right this.1 hpos, le_of_mul_le_mul_right this.2 hpos⟩

/-- **C49** (dimensions): among cubes with equally many dimensions, exactly those with equal dimension coordinates are accepted. -/
theorem C49_dimensions_partial {C : Type} [DecidableEq C] (ref : List C) (cs : List (List C)) (hl : ∀ c ∈ cs, c.length = ref.length) :
    checkDimensions (ref :: cs) = .ok () ↔ ∀ c ∈ cs, c = ref := by
  unfold checkDimensions
  simp only
  have hz : ∀ c : List C, c.length = ref.length → ((c.zip ref).all (fun p => decide (p.1 = p.2)) = true ↔ c = ref) := by
    intro c hc
    rw [List.all_eq_true]
    constructor
    · intro h
      apply List.ext_getElem hc
      intro i h1 h2
      have : (c[i], ref[i]) ∈ c.zip ref := by
        rw [List.mem_iff_getElem]
        exact ⟨i, by simp; omega, by simp⟩
      simpa using h _ this
    · intro h p hp
      subst h
      obtain ⟨i, hi, rfl⟩ := List.mem_iff_getElem.1 hp
      simp
  constructor
  · intro h c hc
    by_cases ha : cs.all (fun c => (c.zip ref).all (fun p => decide (p.1 = p.2)))
    · exact (hz c (hl c hc)).1 (List.all_eq_true.1 ha c hc)
    · rw [if_neg ha] at h; cases h
  · intro h
    rw [if_pos]
    rw [List.all_eq_true]
    intro c hc
    exact (hz c (hl c hc)).2 (h c hc)

/-- **C49** (finding): cubes with *different numbers* of dimensions are not refused: a cube whose dimensions are only the leading ones
of the first cube passes the check, and numpy then pairs its `y` values with the `x` axis of the first. -/
theorem C49_fewer_dimensions_refuted (dims : List String) (k : ℕ) : checkDimensions [dims, dims.take k] = .ok () ∧
    ∃ (a : ℕ → ℕ → ℚ) (b : ℕ → ℚ) (y x : ℕ), broadcastAdd a b y x ≠ a y x + b y := by
  refine ⟨?_, fun _ _ => 0, fun i => i, 0, 1, by norm_num [broadcastAdd]⟩
  unfold checkDimensions
  simp only
  rw [if_pos]
  simp only [List.all_cons, List.all_nil, Bool.and_true, List.all_eq_true, decide_eq_true_eq]
  intro p hp
  obtain ⟨i, hi, rfl⟩ := List.mem_iff_getElem.1 hp
  simp

/-- **C49** (finding): a plugin without `new_name` keeps the name of the first cube of its first call, so that later results of
other diagnostics are misnamed. -/
theorem C49_name_reuse_refuted (n1 n2 : String) (h : n1 ≠ n2) :
    (combineName (combineName none n1).2 n2).1 ≠ (combineName none n2).1 := h

/-- **C49** (minimum realizations): with `minimum_realizations = k` the call succeeds only with at least `k` (and one) realizations
that are complete in time, and passes on exactly these. -/
theorem C49_minimum_realizations {D : Type} (k : ℤ) (slices out : List (ℤ × ℤ × D)) (h : combineRealizations (some k) slices = .ok out) :
    1 ≤ k ∧ (∀ s, s ∈ out ↔ s ∈ slices ∧ Spec.CompleteRealization slices s.1) ∧
      k ≤ ((out.map (fun s => s.1)).dedup.length : ℕ) := by
  unfold combineRealizations at h
  simp only [bind, Except.bind] at h
  by_cases hk : k < 1
  · rw [if_pos hk] at h; cases h
  · rw [if_neg hk] at h
    cases hf : filterRealizations slices with
    | error e => rw [hf] at h; cases h
    | ok o =>
      rw [hf] at h
      simp only at h
      by_cases hc : (((o.map (fun s => s.1)).dedup.length : ℕ) : ℤ) < k
      · rw [if_pos hc] at h; cases h
      · rw [if_neg hc] at h
        cases h
        exact ⟨by omega, C52_complete_realizations slices out hf, by omega⟩

/-- **C49** (time window): `MaxInTimeWindow` accepts exactly inputs that all have time bounds of one and the same length. -/
theorem C49_time_window (bounds : List (Option (ℚ × ℚ))) :
    checkTimeWindow bounds = .ok () ↔ ∃ bs : List (ℚ × ℚ), bounds = bs.map some ∧ ∀ a ∈ bs, ∀ b ∈ bs, a.2 - a.1 = b.2 - b.1 := by
  have hall : ∀ l : List (Option (ℚ × ℚ)), l.all Option.isSome = true → l = (l.filterMap id).map some := by
    intro l
    induction l with
    | nil => simp
    | cons x l ih =>
      intro hx
      simp only [List.all_cons, Bool.and_eq_true] at hx
      cases x with
      | none => simp at hx
      | some v => exact congrArg (some v :: ·) (ih hx.2)
  have hfm : ∀ bs : List (ℚ × ℚ), (bs.map some).filterMap (fun b => b.map (fun p => p.2 - p.1)) = bs.map (fun p => p.2 - p.1) := by
    intro bs
    induction bs with
    | nil => rfl
    | cons b bs ih => simp only [List.map_cons, List.filterMap_cons, Option.map_some, ih]
  have hded : ∀ l : List ℚ, l.dedup.length ≤ 1 ↔ ∀ a ∈ l, ∀ b ∈ l, a = b := by
    intro l
    constructor
    · intro h a ha b hb
      rw [← List.mem_dedup] at ha hb
      generalize l.dedup = d at *
      match d, h, ha, hb with
      | [x], _, ha, hb => rw [List.mem_singleton] at ha hb; rw [ha, hb]
    · intro h
      by_contra hc
      have hn := List.nodup_dedup l
      have hmem : ∀ x, x ∈ l.dedup → x ∈ l := fun x hx => List.mem_dedup.1 hx
      generalize l.dedup = d at *
      match d, hc, hn, hmem with
      | [], hc, _, _ => simp at hc
      | [x], hc, _, _ => simp at hc
      | x :: y :: d, _, hn, hmem =>
        have := h x (hmem x (by simp)) y (hmem y (by simp))
        simp [this] at hn
  unfold checkTimeWindow
  by_cases h1 : bounds.all Option.isSome = true
  · rw [if_neg (not_not.2 h1)]
    have hb := hall bounds h1
    constructor
    · intro h
      refine ⟨bounds.filterMap id, hb, ?_⟩
      by_cases h2 : (bounds.filterMap (fun b => b.map (fun p => p.2 - p.1))).dedup.length > 1
      · rw [if_pos h2] at h; cases h
      · rw [hb, hfm] at h2
        have := (hded _).1 (not_lt.1 h2)
        intro a ha b hb
        exact this _ (List.mem_map.2 ⟨a, ha, rfl⟩) _ (List.mem_map.2 ⟨b, hb, rfl⟩)
    · rintro ⟨bs, rfl, h⟩
      rw [if_neg]
      rw [hfm, not_lt, hded]
      intro a ha b hb
      obtain ⟨x, hx, rfl⟩ := List.mem_map.1 ha
      obtain ⟨y, hy, rfl⟩ := List.mem_map.1 hb
      exact h x hx y hy
  · rw [if_pos h1]
    constructor
    · intro h; cases h
    · rintro ⟨bs, rfl, _⟩
      exact absurd (by simp) h1

example : combinePoint .mean [some 1, some 2, some 6] = .ok (some 3) := by decide +kernel
example : combinePoint .maskedAdd [some 1, none, some 6] = .ok (some 7) := by decide +kernel
example : combinePoint .add [some 1, none, some 6] = .ok none := by decide +kernel
example : checkDimensions [["y", "x"], ["y", "x"]] = .ok () := by decide +kernel

end Improver
