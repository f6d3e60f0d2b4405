import Verif.Model.Amend
import Mathlib.Data.List.Basic
import Mathlib.Data.List.Infix

/-! Properties of the amendment of attributes (C176). -/

namespace Improver

/-- No curly brackets. -/
def Spec.braceless (s : Text) : Prop := '{' ∉ s ∧ '}' ∉ s

theorem braceless_cons {c : Char} {s : Text} (h : Spec.braceless (c :: s)) :
    c ≠ '{' ∧ c ≠ '}' ∧ Spec.braceless s := by
  obtain ⟨h1, h2⟩ := h
  rw [List.mem_cons, not_or] at h1 h2
  exact ⟨fun e => h1.1 e.symm, fun e => h2.1 e.symm, h1.2, h2.2⟩

theorem format_lit {clock : Option (Text → Text)} {args : List Text} {c : Char} {s : Text} (h1 : c ≠ '{') (h2 : c ≠ '}') :
    formatText clock args none (c :: s) = (formatText clock args none s).map (c :: ·) := by
  rw [formatText.eq_def]
  split <;> simp_all

theorem format_lits {clock : Option (Text → Text)} {args : List Text} {a s : Text} (h : Spec.braceless a) :
    formatText clock args none (a ++ s) = (formatText clock args none s).map (a ++ ·) := by
  induction a with
  | nil =>
    rw [List.nil_append]
    cases formatText clock args none s <;> rfl
  | cons c a ih =>
    obtain ⟨h1, h2, h3⟩ := braceless_cons h
    rw [List.cons_append, format_lit h1 h2, ih h3]
    cases formatText clock args none s <;> rfl

theorem format_braceless {clock : Option (Text → Text)} {args : List Text} {a : Text} (h : Spec.braceless a) :
    formatText clock args none a = .ok a := by
  have := format_lits (clock := clock) (args := args) (s := []) h
  rw [List.append_nil] at this
  rw [this, formatText]
  simp [Except.map]

theorem format_field {clock : Option (Text → Text)} {args : List Text} {f a s : Text} (h : Spec.braceless a) :
    formatText clock args (some f) (a ++ s) = formatText clock args (some (a.reverse ++ f)) s := by
  induction a generalizing f with
  | nil => rfl
  | cons c a ih =>
    obtain ⟨h1, h2, h3⟩ := braceless_cons h
    have : formatText clock args (some f) (c :: (a ++ s)) = formatText clock args (some (c :: f)) (a ++ s) := by
      conv_lhs => rw [formatText.eq_def]
      split <;> simp_all
    rw [List.cons_append, this, ih h3, List.reverse_cons, List.append_assoc]
    rfl

theorem format_open {clock : Option (Text → Text)} {args : List Text} {s : Text} (h : s.head? ≠ some '{') :
    formatText clock args none ('{' :: s) = formatText clock args (some []) s := by
  conv_lhs => rw [formatText.eq_def]
  split <;> simp_all
  rename_i h1 h2 h3
  exact absurd h3.1.symm h1

/-- `a{}b`. -/
theorem format_insert {clock : Option (Text → Text)} {x : Text} {a b : Text} (ha : Spec.braceless a)
    (hb : Spec.braceless b) : formatText clock [x] none (a ++ '{' :: '}' :: b) = .ok (a ++ x ++ b) := by
  rw [format_lits ha, format_open (by simp)]
  have : formatText clock [x] (some []) ('}' :: b) = (formatText clock [] none b).map (x ++ ·) := by
    rw [formatText]
  rw [this, format_braceless hb]
  simp [Except.map]

theorem format_now {clock : Text → Text} {spec : Text} (h : Spec.braceless spec) :
    formatText (some clock) [] none ("{now:".toList ++ spec ++ ['}']) = .ok (clock spec) := by
  have hn : Spec.braceless ("now:".toList ++ spec) := by
    obtain ⟨h1, h2⟩ := h
    constructor <;> simp [h1, h2]
  have e : "{now:".toList ++ spec ++ ['}'] = '{' :: ("now:".toList ++ spec ++ ['}']) := rfl
  rw [e, format_open (by simp), format_field hn]
  have hne : ∃ f fs, ("now:".toList ++ spec).reverse ++ [] = f :: fs := by
    rw [List.append_nil]
    cases hr : ("now:".toList ++ spec).reverse with
    | nil => simp at hr
    | cons f fs => exact ⟨f, fs, rfl⟩
  obtain ⟨f, fs, hf⟩ := hne
  rw [hf]
  have e' : afterPrefix "now:".toList (f :: fs).reverse = some spec := by
    rw [← hf, List.append_nil, List.reverse_reverse]
    simp [afterPrefix]
  rw [formatText.eq_def]
  split <;> simp_all [formatText, Except.map]
  rename_i h1 h2 h3 h4
  exact h1 _ _ h3.symm h4.1.symm

/-! ### The current time -/

theorem afterPrefix_some {p s r : Text} : afterPrefix p s = some r ↔ s = p ++ r := by
  induction p generalizing s with
  | nil => simp [afterPrefix, eq_comm]
  | cons c p ih =>
    cases s with
    | nil => simp [afterPrefix]
    | cons d s =>
      rw [afterPrefix]
      by_cases h : c = d
      · subst h; rw [if_pos rfl, ih]; simp
      · rw [if_neg h]
        constructor
        · intro e; exact nomatch e
        · intro e
          simp only [List.cons_append, List.cons.injEq] at e
          exact absurd e.1.symm h

theorem startsWith_iff {p s : Text} : startsWith p s = true ↔ p <+: s := by
  unfold startsWith
  rw [Option.isSome_iff_exists]
  constructor
  · rintro ⟨r, h⟩
    exact ⟨r, (afterPrefix_some.1 h).symm⟩
  · rintro ⟨r, h⟩
    exact ⟨r, afterPrefix_some.2 h.symm⟩

theorem contains_iff {p s : Text} (hp : p ≠ []) : containsText p s = true ↔ p <:+: s := by
  induction s with
  | nil => simp [containsText, hp]
  | cons c s ih =>
    rw [containsText, Bool.or_eq_true, startsWith_iff, ih, List.infix_cons_iff]

theorem lastFrom_some {p s r : Text} (h : lastFrom p s = some r) : p <+: r ∧ r <:+ s := by
  induction s with
  | nil => exact nomatch h
  | cons c s ih =>
    rw [lastFrom] at h
    cases hl : lastFrom p s with
    | some r' =>
      rw [hl, Option.some_or, Option.some.injEq] at h
      subst h
      exact ⟨(ih hl).1, (ih hl).2.trans (List.suffix_cons c s)⟩
    | none =>
      rw [hl, Option.none_or] at h
      by_cases hs : startsWith p (c :: s) = true
      · rw [if_pos hs, Option.some.injEq] at h
        subst h
        exact ⟨startsWith_iff.1 hs, List.suffix_refl _⟩
      · rw [if_neg hs] at h; exact nomatch h

theorem lastFrom_none {p s : Text} (h : ¬ p <:+: s) : lastFrom p s = none := by
  cases hl : lastFrom p s with
  | none => rfl
  | some r =>
    obtain ⟨h1, h2⟩ := lastFrom_some hl
    exact absurd (h1.isInfix.trans h2.isInfix) h

theorem upToBrace_prefix (s : Text) : upToBrace s <+: s := by
  unfold upToBrace
  have := List.dropWhile_suffix (fun c => decide (c ≠ '}')) (l := s.reverse)
  rw [← List.reverse_suffix, List.reverse_reverse]
  exact this

/-- Without `{now:` nothing is filled in. -/
theorem fillNow_none {clock : Text → Text} {value : Text} (h : ¬ "{now:".toList <:+: value) :
    fillNow clock value = .ok value := by
  unfold fillNow nowGroup
  rw [lastFrom_none fun h' => h (h'.trans (upToBrace_prefix value).isInfix)]

theorem upToBrace_eq {a b : Text} (hb : '}' ∉ b) : upToBrace (a ++ '}' :: b) = a ++ ['}'] := by
  unfold upToBrace
  rw [List.reverse_append, List.reverse_cons, List.append_assoc,
    List.dropWhile_append_of_pos (by
      intro c hc
      rw [List.mem_reverse] at hc
      exact decide_eq_true fun e => hb (e ▸ hc))]
  simp

theorem lastFrom_skip {p a s r : Text} (h : lastFrom p s = some r) : lastFrom p (a ++ s) = some r := by
  induction a with
  | nil => exact h
  | cons c a ih => rw [List.cons_append, lastFrom, ih, Option.some_or]

theorem lastFrom_here {c : Char} {p s : Text} (hs : c ∉ s) (h : startsWith (c :: p) (c :: s) = true) :
    lastFrom (c :: p) (c :: s) = some (c :: s) := by
  rw [lastFrom, if_pos h, lastFrom_none, Option.none_or]
  intro hi
  exact hs (hi.subset (List.mem_cons_self))

theorem afterBrace_eq {a b : Text} (hb : '}' ∉ b) : afterBrace (a ++ '}' :: b) = b := by
  unfold afterBrace
  rw [List.reverse_append, List.reverse_cons, List.append_assoc,
    List.takeWhile_append_of_pos (by
      intro c hc
      rw [List.mem_reverse] at hc
      exact decide_eq_true fun e => hb (e ▸ hc))]
  simp

theorem subLine_now {now a spec b : Text} (ha : '{' ∉ a) (hb : '}' ∉ b) :
    subLine now (a ++ "{now:".toList ++ spec ++ '}' :: b) = a ++ now ++ b := by
  induction a with
  | nil =>
    have e : ([] : Text) ++ "{now:".toList ++ spec ++ '}' :: b = '{' :: ("now:".toList ++ spec ++ '}' :: b) := rfl
    rw [e, subLine]
    have h1 : afterPrefix "{now:".toList ('{' :: ("now:".toList ++ spec ++ '}' :: b)) = some (spec ++ '}' :: b) := by
      rw [afterPrefix_some]; simp
    rw [h1]
    dsimp only
    rw [if_pos (by simp), afterBrace_eq hb]
    rfl
  | cons c a ih =>
    rw [List.mem_cons, not_or] at ha
    have e : c :: a ++ "{now:".toList ++ spec ++ '}' :: b = c :: (a ++ "{now:".toList ++ spec ++ '}' :: b) := rfl
    rw [e, subLine]
    have h1 : afterPrefix "{now:".toList (c :: (a ++ "{now:".toList ++ spec ++ '}' :: b)) = none := by
      cases h : afterPrefix "{now:".toList (c :: (a ++ "{now:".toList ++ spec ++ '}' :: b)) with
      | none => rfl
      | some r =>
        rw [afterPrefix_some] at h
        simp only [String.toList] at h
        have := (List.cons.injEq .. ▸ h : c = '{' ∧ _).1
        exact absurd this.symm ha.1
    rw [h1]
    dsimp only
    rw [ih ha.2]
    rfl

theorem splitAt_ne_nil (sep : Char) (s : Text) : splitAt sep s ≠ [] := by
  induction s with
  | nil => simp [splitAt]
  | cons c s ih =>
    rw [splitAt]
    by_cases h : c = sep
    · rw [if_pos h]; simp
    · rw [if_neg h]
      cases hs : splitAt sep s with
      | nil => simp
      | cons w r => simp

theorem splitAt_none {sep : Char} {s : Text} (h : sep ∉ s) : splitAt sep s = [s] := by
  induction s with
  | nil => rfl
  | cons c s ih =>
    rw [List.mem_cons, not_or] at h
    rw [splitAt, if_neg fun e => h.1 e.symm, ih h.2]

theorem splitAt_append {sep : Char} {s t : Text} (h : sep ∉ s) :
    splitAt sep (s ++ sep :: t) = s :: splitAt sep t := by
  induction s with
  | nil => rw [List.nil_append, splitAt, if_pos rfl]
  | cons c s ih =>
    rw [List.mem_cons, not_or] at h
    rw [List.cons_append, splitAt, if_neg fun e => h.1 e.symm, ih h.2]

theorem join_splitAt (sep : Char) (s : Text) : joinWith sep (splitAt sep s) = s := by
  induction s with
  | nil => rfl
  | cons c s ih =>
    rw [splitAt]
    by_cases h : c = sep
    · rw [if_pos h]
      cases hs : splitAt sep s with
      | nil => exact absurd hs (splitAt_ne_nil sep s)
      | cons w r =>
        rw [joinWith, ← hs, ih, h]
        · rfl
        · simp
    · rw [if_neg h]
      cases hs : splitAt sep s with
      | nil => exact absurd hs (splitAt_ne_nil sep s)
      | cons w r =>
        dsimp only
        rw [hs] at ih
        cases r with
        | nil => simp only [joinWith] at ih ⊢; rw [ih]
        | cons w' r' =>
          rw [joinWith] at ih ⊢
          · rw [List.cons_append, ih]
          · simp
          · simp

/-! ### Dictionaries -/

theorem set_get (d : AttrDict) (k : String) (v : AttrVal) (k' : String) :
    AttrDict.get (AttrDict.set d k v) k' = if k' = k then some v else AttrDict.get d k' := by
  induction d with
  | nil =>
    unfold AttrDict.set AttrDict.get
    by_cases h : k' = k
    · subst h; simp
    · rw [if_neg h, List.find?_cons_of_neg]
      simpa using fun e => h e.symm
  | cons e d ih =>
    unfold AttrDict.set
    by_cases he : e.1 = k
    · rw [if_pos he]
      unfold AttrDict.get
      by_cases h : k' = k
      · subst h; rw [if_pos rfl, List.find?_cons_of_pos] <;> simp
      · rw [if_neg h, List.find?_cons_of_neg, List.find?_cons_of_neg]
        · simpa [he] using fun e => h e.symm
        · simpa using fun e => h e.symm
    · rw [if_neg he]
      by_cases h : e.1 = k'
      · unfold AttrDict.get
        rw [List.find?_cons_of_pos (by simpa using h), List.find?_cons_of_pos (by simpa using h),
          if_neg fun e' => he (h.trans e')]
      · unfold AttrDict.get at ih ⊢
        rw [List.find?_cons_of_neg (by simpa using h), List.find?_cons_of_neg (by simpa using h)]
        exact ih

theorem pop_get (d : AttrDict) (k k' : String) :
    AttrDict.get (AttrDict.pop d k) k' = if k' = k then none else AttrDict.get d k' := by
  unfold AttrDict.get AttrDict.pop
  rw [List.find?_filter]
  by_cases h : k' = k
  · subst h
    rw [if_pos rfl, List.find?_eq_none.2]
    · rfl
    · intro x _
      by_cases hx : x.1 = k' <;> simp [hx]
  · rw [if_neg h]
    congr 2
    funext x
    by_cases hx : x.1 = k'
    · have : x.1 ≠ k := fun e => h (hx.symm.trans e)
      simp [hx, h]
    · simp [hx]

/-! ### The amendment of attributes -/

/-- What a change asks for, as documented: a text without fields is the new value, "remove" removes the attribute, "{}"
stands for the old value (nothing, if there is none), and "{now:...}" for the time in the format given. -/
inductive Spec.Change (clock : Text → Text) (render : ℕ → Text) (old : Option AttrVal) : AttrVal → Option AttrVal → Prop
  | plain {s} : ¬ "{now:".toList <:+: s → ¬ "{}".toList <:+: s → s ≠ "remove".toList →
      Spec.Change clock render old (.text s) (some (.text s))
  | remove : Spec.Change clock render old (.text "remove".toList) none
  | insert {a b} : Spec.braceless a → Spec.braceless b →
      Spec.Change clock render old (.text (a ++ "{}".toList ++ b))
        (some (.text (a ++ (match old with | none => [] | some (.text s) => s | some (.other n) => render n) ++ b)))
  | now {a spec b} : Spec.braceless a → Spec.braceless spec → Spec.braceless b → '\n' ∉ a ++ spec ++ b →
      Spec.braceless (clock spec) → a ++ clock spec ++ b ≠ "remove".toList →
      Spec.Change clock render old (.text (a ++ "{now:".toList ++ spec ++ "}".toList ++ b)) (some (.text (a ++ clock spec ++ b)))

theorem not_infix_braceless {c : Char} {p s : Text} (h : c ∉ s) : ¬ (c :: p) <:+: s :=
  fun hi => h (hi.subset List.mem_cons_self)

theorem braceless_append {a b : Text} (ha : Spec.braceless a) (hb : Spec.braceless b) : Spec.braceless (a ++ b) :=
  ⟨by simp [ha.1, hb.1], by simp [ha.2, hb.2]⟩

theorem fillNow_now {clock : Text → Text} {a spec b : Text} (ha : Spec.braceless a) (hs : Spec.braceless spec)
    (hb : Spec.braceless b) (hn : '\n' ∉ a ++ spec ++ b) :
    fillNow clock (a ++ "{now:".toList ++ spec ++ "}".toList ++ b) = .ok (a ++ clock spec ++ b) := by
  have e : a ++ "{now:".toList ++ spec ++ "}".toList ++ b = (a ++ "{now:".toList ++ spec) ++ '}' :: b := by simp
  have hg : nowGroup (a ++ "{now:".toList ++ spec ++ "}".toList ++ b) = some ("{now:".toList ++ spec ++ ['}']) := by
    unfold nowGroup
    rw [e, upToBrace_eq hb.2, List.append_assoc, List.append_assoc]
    apply lastFrom_skip
    have e2 : "{now:".toList ++ (spec ++ ['}']) = '{' :: ("now:".toList ++ (spec ++ ['}'])) := rfl
    have e3 : "{now:".toList = '{' :: "now:".toList := rfl
    have h4 : startsWith ('{' :: "now:".toList) ('{' :: ("now:".toList ++ (spec ++ ['}']))) = true := by
      rw [startsWith_iff, ← List.cons_append]
      exact List.prefix_append _ _
    rw [List.append_assoc, e2]
    conv_lhs => rw [e3]
    exact lastFrom_here (by simp [hs.1]) h4
  unfold fillNow
  rw [hg]
  dsimp only
  rw [format_now hs]
  change Except.ok _ = _
  congr 1
  unfold subNow
  dsimp only
  rw [splitAt_none, List.map_singleton]
  · rw [joinWith, e, subLine_now ha.1 hb.2]
  · simp only [List.mem_append, not_or] at hn ⊢
    refine ⟨⟨⟨⟨hn.1.1, by decide⟩, hn.1.2⟩, by decide⟩, hn.2⟩

theorem amendValue_change {clock : Text → Text} {render : ℕ → Text} {old : Option AttrVal} {c : AttrVal}
    {new : Option AttrVal} (h : Spec.Change clock render old c new) : amendValue clock render old c = .ok new := by
  cases h with
  | @plain s h1 h2 h3 =>
    unfold amendValue
    dsimp only
    rw [fillNow_none h1]
    simp only [bind, Except.bind]
    rw [if_neg h3, if_neg]
    rw [contains_iff (by simp)]
    exact h2
  | remove =>
    unfold amendValue
    dsimp only
    rw [fillNow_none (not_infix_braceless (by decide))]
    simp only [bind, Except.bind]
    rw [if_pos trivial]
  | @insert a b ha hb =>
    unfold amendValue
    dsimp only
    rw [fillNow_none]
    · simp only [bind, Except.bind]
      rw [if_neg, if_pos]
      · have e : a ++ "{}".toList ++ b = a ++ '{' :: '}' :: b := by simp
        rw [e, format_insert ha hb]
        cases old with
        | none => rfl
        | some v => cases v <;> rfl
      · rw [contains_iff (by simp)]
        exact ⟨a, b, rfl⟩
      · intro e
        have : '{' ∈ "remove".toList := by rw [← e]; simp
        exact absurd this (by decide)
    · intro hi
      have hc : ':' ∉ ([] : Text) := by simp
      obtain ⟨x, y, hxy⟩ := hi
      have e : a ++ "{}".toList ++ b = a ++ '{' :: '}' :: b := by simp
      have e2 : x ++ "{now:".toList ++ y = x ++ '{' :: ("now:".toList ++ y) := by simp
      rw [e, e2] at hxy
      have key : ∀ {x a : Text} {u v : Text}, '{' ∉ a → '{' ∉ v → x ++ '{' :: u = a ++ '{' :: v → u = v := by
        intro x
        induction x with
        | nil =>
          intro a u v ha hv h
          cases a with
          | nil => simpa using h
          | cons c a =>
            simp only [List.nil_append, List.cons_append, List.cons.injEq] at h
            exact absurd (h.1 ▸ List.mem_cons_self) ha
        | cons c x ih =>
          intro a u v ha hv h
          cases a with
          | nil =>
            simp only [List.nil_append, List.cons_append, List.cons.injEq] at h
            exact absurd (h.2 ▸ by simp) hv
          | cons d a =>
            simp only [List.cons_append, List.cons.injEq] at h
            exact ih (fun hm => ha (List.mem_cons_of_mem _ hm)) hv h.2
      have := key ha.1 (by simp [hb.1]) hxy
      simp at this
  | @now a spec b ha hs hb hn hc hr =>
    unfold amendValue
    dsimp only
    rw [fillNow_now ha hs hb hn]
    simp only [bind, Except.bind]
    rw [if_neg hr, if_neg]
    rw [contains_iff (by simp)]
    exact not_infix_braceless (braceless_append (braceless_append ha hc) hb).1

/-- C176: changes of the documented kinds are made, each to its own attribute, and all other attributes stay as they
are. -/
theorem C176_amend {clock : Text → Text} {render : ℕ → Text} {changes d : AttrDict} {want : String → Option AttrVal}
    (hk : (changes.map Prod.fst).Nodup)
    (hw : ∀ e ∈ changes, Spec.Change clock render (AttrDict.get d e.1) e.2 (want e.1)) :
    (amendAttributes clock render changes d).1 = .ok () ∧
    ∀ k, AttrDict.get (amendAttributes clock render changes d).2 k =
      if k ∈ changes.map Prod.fst then want k else AttrDict.get d k := by
  induction changes generalizing d with
  | nil => exact ⟨rfl, fun k => rfl⟩
  | cons e changes ih =>
    rw [List.map_cons, List.nodup_cons] at hk
    have h1 := amendValue_change (hw e List.mem_cons_self)
    have step : ∀ d' : AttrDict, (∀ k, AttrDict.get d' k = if k = e.1 then want e.1 else AttrDict.get d k) →
        amendAttributes clock render (e :: changes) d = amendAttributes clock render changes d' →
        (amendAttributes clock render (e :: changes) d).1 = .ok () ∧
        ∀ k, AttrDict.get (amendAttributes clock render (e :: changes) d).2 k =
          if k ∈ (e :: changes).map Prod.fst then want k else AttrDict.get d k := by
      intro d' hd' heq
      have hw' : ∀ x ∈ changes, Spec.Change clock render (AttrDict.get d' x.1) x.2 (want x.1) := by
        intro x hx
        have hne : x.1 ≠ e.1 := fun h => hk.1 (h ▸ List.mem_map_of_mem hx)
        rw [hd', if_neg hne]
        exact hw x (List.mem_cons_of_mem _ hx)
      obtain ⟨i1, i2⟩ := ih hk.2 hw'
      rw [heq]
      refine ⟨i1, fun k => ?_⟩
      rw [i2, hd', List.map_cons]
      by_cases hke : k = e.1
      · subst hke
        rw [if_neg hk.1, if_pos rfl, if_pos List.mem_cons_self]
      · rw [if_neg hke]
        by_cases hm : k ∈ changes.map Prod.fst
        · rw [if_pos hm, if_pos (List.mem_cons_of_mem _ hm)]
        · rw [if_neg hm, if_neg fun h => ?_]
          rw [List.mem_cons] at h
          exact h.elim hke hm
    cases hv : want e.1 with
    | none =>
      rw [hv] at h1
      refine step (AttrDict.pop d e.1) (fun k => ?_) ?_
      · rw [pop_get, hv]
      · rw [amendAttributes, h1]
    | some v =>
      rw [hv] at h1
      refine step (AttrDict.set d e.1 v) (fun k => ?_) ?_
      · rw [set_get, hv]
      · rw [amendAttributes, h1]

/-- A clock and a way to write other objects, for examples. -/
def exClock : Text → Text := fun s => if s = "%Y".toList then "2017".toList else "06".toList

example : (amendAttributes exClock (fun _ => "3".toList)
      [("title", .text "Blend of {}".toList), ("history", .text "made {now:%Y}".toList), ("source", .text "remove".toList),
        ("um_version", .text "v{}".toList), ("comment", .text "{name}".toList)]
      [("source", .text "IMPROVER".toList), ("title", .text "UKV".toList), ("um_version", .other 3)]) =
    (.ok (), [("title", .text "Blend of UKV".toList), ("um_version", .text "v3".toList), ("history", .text "made 2017".toList),
      ("comment", .text "{name}".toList)]) := by decide +kernel

/-- C176 finding: a change with two "{}" fails, and so does one with a time followed by "{}"; changes made before it
stay.  A change that is not a text fails. -/
theorem C176_errors_refuted (render : ℕ → Text) :
    amendAttributes exClock render [("a", .text "x".toList), ("b", .text "{} and {}".toList)] [] =
      (.error .indexError, [("a", .text "x".toList)]) ∧
    amendAttributes exClock render [("b", .text "{now:%Y}: {}".toList)] [] = (.error .indexError, []) ∧
    (∀ n, amendAttributes exClock render [("b", .other n)] [] = (.error .typeError, [])) := by
  exact ⟨rfl, rfl, fun n => rfl⟩

/-- C176 finding: of two times on a line only the last is formatted, and everything from the start of the first is
replaced by it. -/
theorem C176_two_times_refuted (render : ℕ → Text) (old : Option AttrVal) :
    amendValue exClock render old (.text "from {now:%Y} month {now:%m}.".toList) = .ok (some (.text "from 06.".toList)) := by
  rfl

/-! ### Copying attributes -/

theorem update_get (l : AttrDict) (d : AttrDict) (k : String) (hl : ∀ e ∈ l, ∀ e' ∈ l, e.1 = e'.1 → e.2 = e'.2) :
    AttrDict.get (AttrDict.update d l) k = if k ∈ l.map Prod.fst then AttrDict.get l k else AttrDict.get d k := by
  induction l generalizing d with
  | nil => rfl
  | cons e l ih =>
    have hl' : ∀ x ∈ l, ∀ y ∈ l, x.1 = y.1 → x.2 = y.2 :=
      fun x hx y hy => hl x (List.mem_cons_of_mem _ hx) y (List.mem_cons_of_mem _ hy)
    have e1 : AttrDict.update d (e :: l) = AttrDict.update (AttrDict.set d e.1 e.2) l := rfl
    rw [e1, ih _ hl', List.map_cons]
    by_cases hm : k ∈ l.map Prod.fst
    · rw [if_pos hm, if_pos (List.mem_cons_of_mem _ hm)]
      unfold AttrDict.get
      by_cases hke : e.1 = k
      · rw [List.find?_cons_of_pos (by simpa using hke)]
        cases hf : l.find? fun e => decide (e.1 = k) with
        | none =>
          obtain ⟨x, hx, hxk⟩ := List.mem_map.1 hm
          have := List.find?_eq_none.1 hf x hx
          exact absurd hxk (by simpa using this)
        | some x =>
          have hx := List.mem_of_find?_eq_some hf
          have hxk : x.1 = k := by simpa using List.find?_some hf
          rw [Option.map_some, Option.map_some,
            hl x (List.mem_cons_of_mem _ hx) e List.mem_cons_self (hxk.trans hke.symm)]
      · rw [List.find?_cons_of_neg (by simpa using hke)]
    · rw [if_neg hm, set_get]
      by_cases hke : k = e.1
      · rw [if_pos hke, if_pos (by rw [hke]; exact List.mem_cons_self)]
        unfold AttrDict.get
        rw [List.find?_cons_of_pos (by simpa using hke.symm)]
        rfl
      · rw [if_neg hke, if_neg]
        rw [List.mem_cons]
        rintro (h | h)
        · exact hke h
        · exact hm h

theorem set_keys (d : AttrDict) (k : String) (v : AttrVal) (hd : (d.map Prod.fst).Nodup) :
    ((AttrDict.set d k v).map Prod.fst).Nodup ∧ ∀ x, x ∈ (AttrDict.set d k v).map Prod.fst ↔ x = k ∨ x ∈ d.map Prod.fst := by
  induction d with
  | nil => simp [AttrDict.set]
  | cons e d ih =>
    rw [List.map_cons, List.nodup_cons] at hd
    unfold AttrDict.set
    by_cases he : e.1 = k
    · rw [if_pos he, List.map_cons, List.map_cons]
      dsimp only
      rw [he] at hd
      refine ⟨List.nodup_cons.2 hd, fun x => ?_⟩
      rw [he]
      simp
    · rw [if_neg he, List.map_cons, List.map_cons]
      obtain ⟨i1, i2⟩ := ih hd.2
      refine ⟨List.nodup_cons.2 ⟨?_, i1⟩, fun x => ?_⟩
      · rw [i2]
        rintro (h | h)
        · exact he h
        · exact hd.1 h
      · rw [List.mem_cons, i2, List.mem_cons]
        tauto

theorem update_keys (l d : AttrDict) (hd : (d.map Prod.fst).Nodup) :
    ((AttrDict.update d l).map Prod.fst).Nodup ∧
      ∀ x, x ∈ (AttrDict.update d l).map Prod.fst ↔ x ∈ l.map Prod.fst ∨ x ∈ d.map Prod.fst := by
  induction l generalizing d with
  | nil => exact ⟨hd, fun x => by simp [AttrDict.update]⟩
  | cons e l ih =>
    have e1 : AttrDict.update d (e :: l) = AttrDict.update (AttrDict.set d e.1 e.2) l := rfl
    obtain ⟨s1, s2⟩ := set_keys d e.1 e.2 hd
    obtain ⟨i1, i2⟩ := ih _ s1
    rw [e1]
    refine ⟨i1, fun x => ?_⟩
    rw [i2, s2, List.map_cons, List.mem_cons]
    tauto

theorem mapM_attrs {template : AttrDict} {names : List String} {l : AttrDict}
    (h : (names.mapM fun k => (AttrDict.get template k).map fun v => (k, v)) = some l) :
    l.map Prod.fst = names ∧ ∀ e ∈ l, AttrDict.get template e.1 = some e.2 := by
  induction names generalizing l with
  | nil =>
    rw [List.mapM_nil] at h
    cases h
    exact ⟨rfl, by simp⟩
  | cons n names ih =>
    rw [List.mapM_cons] at h
    cases hg : AttrDict.get template n with
    | none => rw [hg] at h; exact nomatch h
    | some v =>
      rw [hg] at h
      simp only [Option.map_some, Option.bind_eq_bind, Option.bind_some] at h
      cases hm : (names.mapM fun k => (AttrDict.get template k).map fun v => (k, v)) with
      | none => rw [hm] at h; exact nomatch h
      | some l' =>
        rw [hm] at h
        simp only [Option.bind_some, Option.pure_def, Option.some.injEq] at h
        obtain ⟨i1, i2⟩ := ih hm
        subst h
        refine ⟨by rw [List.map_cons, i1], fun e he => ?_⟩
        rw [List.mem_cons] at he
        rcases he with rfl | he
        · exact hg
        · exact i2 e he

theorem mapM_attrs_ok {template : AttrDict} {names : List String}
    (h : ∀ k ∈ names, AttrDict.get template k ≠ none) :
    ∃ l, (names.mapM fun k => (AttrDict.get template k).map fun v => (k, v)) = some l := by
  induction names with
  | nil => exact ⟨[], rfl⟩
  | cons n names ih =>
    obtain ⟨l, hl⟩ := ih fun k hk => h k (List.mem_cons_of_mem _ hk)
    cases hg : AttrDict.get template n with
    | none => exact absurd hg (h n List.mem_cons_self)
    | some v =>
      refine ⟨(n, v) :: l, ?_⟩
      rw [List.mapM_cons, hg, hl]
      rfl

/-- C176: attributes copied from a template, where they are texts without fields, are those of the template; the others
stay. -/
theorem C176_copy {clock : Text → Text} {render : ℕ → Text} {names : List String} {template d : AttrDict}
    (h : ∀ k ∈ names, ∃ s, AttrDict.get template k = some (.text s) ∧ ¬ "{now:".toList <:+: s ∧ ¬ "{}".toList <:+: s ∧
      s ≠ "remove".toList) :
    (copyAttributes clock render names template d).1 = .ok () ∧
    ∀ k, AttrDict.get (copyAttributes clock render names template d).2 k =
      if k ∈ names then AttrDict.get template k else AttrDict.get d k := by
  obtain ⟨l, hl⟩ := mapM_attrs_ok (template := template) (names := names) fun k hk => by
    obtain ⟨s, hs, _⟩ := h k hk
    rw [hs]
    exact Option.some_ne_none _
  obtain ⟨l1, l2⟩ := mapM_attrs hl
  have hcons : ∀ e ∈ l, ∀ e' ∈ l, e.1 = e'.1 → e.2 = e'.2 := by
    intro e he e' he' hk
    have h1 := l2 e he
    rw [hk, l2 e' he'] at h1
    exact (Option.some.inj h1).symm
  obtain ⟨u1, u2⟩ := update_keys l [] (by simp)
  have hget : ∀ k ∈ names, AttrDict.get (AttrDict.update [] l) k = AttrDict.get template k := by
    intro k hk
    rw [update_get l [] k hcons, if_pos (by rw [l1]; exact hk)]
    have hm : k ∈ l.map Prod.fst := by rw [l1]; exact hk
    unfold AttrDict.get
    cases hf : l.find? fun e => decide (e.1 = k) with
    | none =>
      obtain ⟨x, hx, hxk⟩ := List.mem_map.1 hm
      exact absurd hxk (by simpa using List.find?_eq_none.1 hf x hx)
    | some x =>
      have hxk : x.1 = k := by simpa using List.find?_some hf
      have := l2 x (List.mem_of_find?_eq_some hf)
      rw [hxk] at this
      exact this.symm
  have hmem : ∀ e ∈ AttrDict.update [] l, AttrDict.get (AttrDict.update [] l) e.1 = some e.2 := by
    intro e he
    unfold AttrDict.get
    have : ∀ (m : AttrDict), (m.map Prod.fst).Nodup → e ∈ m → (m.find? fun x => decide (x.1 = e.1)) = some e := by
      intro m
      induction m with
      | nil => intro _ h; exact nomatch h
      | cons x m ih =>
        intro hn hx
        rw [List.map_cons, List.nodup_cons] at hn
        rw [List.mem_cons] at hx
        rcases hx with rfl | hx
        · exact List.find?_cons_of_pos (by simp)
        · rw [List.find?_cons_of_neg, ih hn.2 hx]
          have : x.1 ≠ e.1 := fun h => hn.1 (h ▸ List.mem_map_of_mem hx)
          simpa using this
    rw [this _ u1 he]
    rfl
  have key := C176_amend (clock := clock) (render := render) (changes := AttrDict.update [] l) (d := d)
    (want := AttrDict.get template) u1 (by
      intro e he
      have hk : e.1 ∈ names := by
        rw [← l1]
        have := (u2 e.1).1 (List.mem_map_of_mem he)
        simpa using this
      have h1 := hmem e he
      rw [hget e.1 hk] at h1
      obtain ⟨s, hs, a, b, c⟩ := h e.1 hk
      rw [hs, Option.some.injEq] at h1
      rw [hs, ← h1]
      exact .plain a b c)
  unfold copyAttributes
  rw [hl]
  dsimp only
  refine ⟨key.1, fun k => ?_⟩
  rw [key.2]
  have : k ∈ (AttrDict.update [] l).map Prod.fst ↔ k ∈ names := by
    rw [u2, l1]; simp
  by_cases hk : k ∈ names
  · rw [if_pos (this.2 hk), if_pos hk]
  · rw [if_neg fun h => hk (this.1 h), if_neg hk]

/-- C176 finding: a template's value that reads "remove" removes the attribute instead, one with "{}" is mixed with the old
value, and one that is not a text cannot be copied. -/
theorem C176_copy_refuted (clock : Text → Text) (render : ℕ → Text) (n : ℕ) :
    copyAttributes clock render ["a"] [("a", .text "remove".toList)] [("a", .text "x".toList)] = (.ok (), []) ∧
    copyAttributes clock render ["a"] [("a", .text "{}".toList)] [("a", .text "x".toList)] =
      (.ok (), [("a", .text "x".toList)]) ∧
    copyAttributes clock render ["a"] [("a", .other n)] [] = (.error .typeError, []) :=
  ⟨rfl, rfl, rfl⟩

example : (copyAttributes exClock (fun _ => []) ["title", "source"] [("source", .text "MOGREPS".toList), ("title", .text "UK".toList)]
      [("title", .text "x".toList), ("history", .text "h".toList)]).2 =
    [("title", .text "UK".toList), ("history", .text "h".toList), ("source", .text "MOGREPS".toList)] := by decide +kernel

/-- C176: an attribute that is not on the template is an error, and nothing is copied. -/
theorem C176_copy_missing (clock : Text → Text) (render : ℕ → Text) {names : List String} {template : AttrDict} (d : AttrDict)
    {k : String} (hk : k ∈ names) (hm : AttrDict.get template k = none) :
    copyAttributes clock render names template d = (.error .keyError, d) := by
  unfold copyAttributes
  have hnone : (names.mapM fun k => (AttrDict.get template k).map fun v => (k, v)) = none := by
    induction names with
    | nil => simp at hk
    | cons n names ih =>
      rw [List.mapM_cons]
      rcases List.mem_cons.1 hk with rfl | hk
      · rw [hm]; rfl
      · rw [ih hk]
        cases (AttrDict.get template n).map fun v => (n, v) <;> rfl
  rw [hnone]

example : copyAttributes exClock (fun _ => []) ["title", "source"] [("title", .text "UK".toList)] [] =
    (.error .keyError, []) := by decide +kernel

/-- A text with its braces doubled. -/
def doubleBraces (s : Text) : Text := s.flatMap fun c => if c = '{' ∨ c = '}' then [c, c] else [c]

/-- C176: doubled braces in a change with a "{}" stand for braces: any text can be put around the old value in this way. -/
theorem C176_braces (clock : Option (Text → Text)) (s old : Text) :
    formatText clock [old] none (doubleBraces s ++ "{}".toList) = .ok (s ++ old) := by
  induction s with
  | nil =>
    show formatText clock [old] none ['{', '}'] = _
    simp [formatText, Except.map]
  | cons c s ih =>
    by_cases h1 : c = '{'
    · subst h1
      show formatText clock [old] none ('{' :: '{' :: (doubleBraces s ++ "{}".toList)) = _
      rw [formatText, ih]; rfl
    · by_cases h2 : c = '}'
      · subst h2
        show formatText clock [old] none ('}' :: '}' :: (doubleBraces s ++ "{}".toList)) = _
        rw [formatText, ih]; rfl
      · have e : doubleBraces (c :: s) ++ "{}".toList = c :: (doubleBraces s ++ "{}".toList) := by
          simp [doubleBraces, h1, h2]
        rw [e, formatText, ih]
        · rfl
        all_goals simp [h1, h2]

/-- C176: the history becomes the entry, after the earlier history if entries are appended and there is one; other
attributes stay. -/
theorem C176_history {stamp value : Text} {append : Bool} {d r : AttrDict}
    (h : setHistory stamp value append d = .ok r) (k : String) :
    AttrDict.get r k =
      if k = "history" then
        match append, AttrDict.get d "history" with
        | true, some (.text old) => some (.text (old ++ "; ".toList ++ stamp ++ ": ".toList ++ value))
        | _, _ => some (.text (stamp ++ ": ".toList ++ value))
      else AttrDict.get d k := by
  unfold setHistory at h
  dsimp only at h
  cases append with
  | false =>
    cases h
    rw [set_get]
  | true =>
    cases hg : AttrDict.get d "history" with
    | none =>
      rw [hg] at h
      cases h
      rw [set_get]
    | some v =>
      rw [hg] at h
      cases v with
      | text old =>
        cases h
        rw [set_get]
        simp [List.append_assoc]
      | other n => exact nomatch h

example : (setHistory "T".toList "b".toList true [("history", .text "a".toList)]).toOption =
    some [("history", .text "a; T: b".toList)] := by decide +kernel

end Improver
