import Verif.Props.Amend
import Mathlib.Data.List.Sort
import Mathlib.Data.List.Dedup

/-! Properties of the attributes of new cubes (C177) and of nested inputs (C178). -/

namespace Improver

/-! ### Lists of models -/

/-- Order of texts by code points. -/
def Spec.textBefore (a b : Text) : Prop := List.Lex (fun x y : Char => x.toNat < y.toNat) a b

theorem textLe_before {a b : Text} : textLe a b = true ↔ a = b ∨ Spec.textBefore a b := by
  unfold Spec.textBefore
  induction a generalizing b with
  | nil =>
    cases b with
    | nil => simp [textLe]
    | cons c b => simp [textLe]
  | cons x a ih =>
    cases b with
    | nil => simp [textLe]
    | cons y b =>
      rw [textLe, List.lex_cons_iff_aux]
      by_cases h : x.toNat < y.toNat
      · simp [h]
      · rw [if_neg h]
        by_cases he : x.toNat = y.toNat
        · have hxy : x = y := Char.toNat_inj.1 he
          subst hxy
          simp [ih]
        · have hxy : x ≠ y := fun e => he (e ▸ rfl)
          simp [h, he, hxy]
where
  List.lex_cons_iff_aux {x y : Char} {a b : Text} : List.Lex (fun x y : Char => x.toNat < y.toNat) (x :: a) (y :: b) ↔
      x.toNat < y.toNat ∨ (x = y ∧ List.Lex (fun x y : Char => x.toNat < y.toNat) a b) := by
    constructor
    · intro h
      cases h with
      | rel h => exact Or.inl h
      | cons h => exact Or.inr ⟨rfl, h⟩
    · rintro (h | ⟨rfl, h⟩)
      · exact .rel h
      · exact .cons h

theorem textLe_total (a b : Text) : textLe a b = true ∨ textLe b a = true := by
  induction a generalizing b with
  | nil => exact Or.inl rfl
  | cons x a ih =>
    cases b with
    | nil => exact Or.inr rfl
    | cons y b =>
      rw [textLe, textLe]
      rcases Nat.lt_trichotomy x.toNat y.toNat with h | h | h
      · exact Or.inl (by rw [if_pos h])
      · rw [if_neg (by omega), if_pos h, if_neg (by omega), if_pos h.symm]
        exact ih b
      · exact Or.inr (by rw [if_pos h])

theorem textLe_trans (a b c : Text) (h1 : textLe a b = true) (h2 : textLe b c = true) : textLe a c = true := by
  induction a generalizing b c with
  | nil => rfl
  | cons x a ih =>
    cases b with
    | nil => exact nomatch h1
    | cons y b =>
      cases c with
      | nil => exact nomatch h2
      | cons z c =>
        rw [textLe] at h1 h2 ⊢
        by_cases hxy : x.toNat < y.toNat
        · by_cases hyz : y.toNat < z.toNat
          · rw [if_pos (by omega)]
          · rw [if_neg hyz] at h2
            by_cases e : y.toNat = z.toNat
            · rw [if_pos (by omega)]
            · rw [if_neg e] at h2; exact nomatch h2
        · rw [if_neg hxy] at h1
          by_cases e1 : x.toNat = y.toNat
          · rw [if_pos e1] at h1
            by_cases hyz : y.toNat < z.toNat
            · rw [if_pos (by omega)]
            · rw [if_neg hyz] at h2
              by_cases e2 : y.toNat = z.toNat
              · rw [if_pos e2] at h2
                rw [if_neg (by omega), if_pos (by omega)]
                exact ih b c h1 h2
              · rw [if_neg e2] at h2; exact nomatch h2
          · rw [if_neg e1] at h1; exact nomatch h1

instance : Std.Total (fun a b : Text => textLe a b = true) := ⟨textLe_total⟩
instance : IsTrans Text (fun a b : Text => textLe a b = true) := ⟨textLe_trans⟩

theorem splitAt_mem {sep : Char} {s w : Text} (h : w ∈ splitAt sep s) : sep ∉ w := by
  induction s generalizing w with
  | nil =>
    rw [splitAt, List.mem_singleton] at h
    subst h
    simp
  | cons c s ih =>
    rw [splitAt] at h
    by_cases hc : c = sep
    · rw [if_pos hc, List.mem_cons] at h
      rcases h with rfl | h
      · simp
      · exact ih h
    · rw [if_neg hc] at h
      cases hs : splitAt sep s with
      | nil => exact absurd hs (splitAt_ne_nil sep s)
      | cons v r =>
        rw [hs] at h ih
        dsimp only at h
        rw [List.mem_cons] at h
        rcases h with rfl | h
        · rw [List.mem_cons, not_or]
          exact ⟨fun e => hc e.symm, ih List.mem_cons_self⟩
        · exact ih (List.mem_cons_of_mem _ h)

theorem splitAt_join {sep : Char} {l : List Text} (hl : l ≠ []) (h : ∀ w ∈ l, sep ∉ w) :
    splitAt sep (joinWith sep l) = l := by
  induction l with
  | nil => exact absurd rfl hl
  | cons w l ih =>
    cases l with
    | nil => rw [joinWith, splitAt_none (h w List.mem_cons_self)]
    | cons v l =>
      rw [joinWith, splitAt_append (h w List.mem_cons_self), ih (by simp) fun x hx => h x (List.mem_cons_of_mem _ hx)]
      simp

/-- The words of a text, separated by single blanks. -/
inductive Spec.Words : Text → List Text → Prop
  | one {w} : ' ' ∉ w → Spec.Words w [w]
  | more {w s l} : ' ' ∉ w → Spec.Words s l → Spec.Words (w ++ ' ' :: s) (w :: l)

theorem words_split (s : Text) : Spec.Words s (splitAt ' ' s) := by
  induction s with
  | nil => exact .one (by simp)
  | cons c s ih =>
    rw [splitAt]
    by_cases hc : c = ' '
    · rw [if_pos hc, hc]
      exact .more (w := []) (by simp) ih
    · rw [if_neg hc]
      cases hs : splitAt ' ' s with
      | nil => exact absurd hs (splitAt_ne_nil ' ' s)
      | cons v r =>
        rw [hs] at ih
        dsimp only
        cases ih with
        | one h => exact .one (by rw [List.mem_cons, not_or]; exact ⟨fun e => hc e.symm, h⟩)
        | more h h' =>
          rw [← List.cons_append]
          exact .more (by rw [List.mem_cons, not_or]; exact ⟨fun e => hc e.symm, h⟩) h'

theorem words_unique {s : Text} {l : List Text} (h : Spec.Words s l) : splitAt ' ' s = l := by
  induction h with
  | one h => exact splitAt_none h
  | more h _ ih => rw [splitAt_append h, ih]

theorem idsOf_mapM {cubes : List AttrDict} {attr : String} {ids : List Text}
    (h : List.Forall₂ (fun c s => AttrDict.get c attr = some (.text s)) cubes ids) :
    cubes.mapM (modelWords attr) = .ok (ids.map (splitAt ' ')) := by
  induction h with
  | nil => rfl
  | cons h _ ih =>
    rw [List.mapM_cons, modelWords, h]
    simp only [bind, Except.bind, pure, Except.pure]
    rw [ih]
    rfl

/-- C177: the model attribute of a combination of cubes has every model of every cube once, and nothing else, in
alphabetical order. -/
theorem C177_models {cubes : List AttrDict} {attr : String} {ids : List Text} (hne : cubes ≠ [])
    (h : List.Forall₂ (fun c s => AttrDict.get c attr = some (.text s)) cubes ids) :
    ∃ r ws, updateModelId cubes attr = .ok r ∧ Spec.Words r ws ∧ ws.Pairwise Spec.textBefore ∧
      ∀ w, w ∈ ws ↔ ∃ s ∈ ids, ∃ l, Spec.Words s l ∧ w ∈ l := by
  have hids : ids ≠ [] := by
    rintro rfl
    cases h
    exact hne rfl
  set ws := ((ids.map (splitAt ' ')).flatten.dedup).insertionSort fun a b => textLe a b = true with hws
  have hmem : ∀ w, w ∈ ws ↔ ∃ s ∈ ids, w ∈ splitAt ' ' s := by
    intro w
    rw [hws, List.mem_insertionSort, List.mem_dedup, List.mem_flatten]
    simp
  have hne' : ws ≠ [] := by
    obtain ⟨s, ids', rfl⟩ := List.exists_cons_of_ne_nil hids
    obtain ⟨w, l, hw⟩ := List.exists_cons_of_ne_nil (splitAt_ne_nil ' ' s)
    intro e
    have : w ∈ ws := (hmem w).2 ⟨s, List.mem_cons_self, by rw [hw]; exact List.mem_cons_self⟩
    rw [e] at this
    exact nomatch this
  have hsp : splitAt ' ' (joinWith ' ' ws) = ws := splitAt_join hne' fun w hw => by
    obtain ⟨s, _, hs⟩ := (hmem w).1 hw
    exact splitAt_mem hs
  refine ⟨joinWith ' ' ws, ws, ?_, ?_, ?_, fun w => ?_⟩
  · unfold updateModelId
    rw [if_neg, idsOf_mapM h]
    · rfl
    · rw [List.any_eq_true]
      rintro ⟨c, hc, hn⟩
      obtain ⟨s, _, hs⟩ := (List.forall₂_iff_get.1 h |> fun hh => by
        obtain ⟨i, hi, rfl⟩ := List.getElem_of_mem hc
        exact ⟨ids[i]'(hh.1 ▸ hi), trivial, hh.2 i hi (hh.1 ▸ hi)⟩ : ∃ s : Text, True ∧ AttrDict.get c attr = some (.text s))
      rw [hs] at hn
      exact nomatch hn
  · have := words_split (joinWith ' ' ws)
    rwa [hsp] at this
  · have hsorted : ws.Pairwise fun a b => textLe a b = true := List.pairwise_insertionSort _ _
    have hnd : ws.Nodup := (List.perm_insertionSort _ _).nodup_iff.2 (List.nodup_dedup _)
    refine (hsorted.and hnd).imp ?_
    rintro a b ⟨h1, h2⟩
    exact (textLe_before.1 h1).resolve_left h2
  · rw [hmem]
    constructor
    · rintro ⟨s, hs, hw⟩
      exact ⟨s, hs, _, words_split s, hw⟩
    · rintro ⟨s, hs, l, hl, hw⟩
      exact ⟨s, hs, by rw [words_unique hl]; exact hw⟩

/-- C177: without the attribute on every cube there is an error. -/
theorem C177_models_missing {cubes : List AttrDict} {attr : String} {c : AttrDict} (hc : c ∈ cubes)
    (h : AttrDict.get c attr = none) : updateModelId cubes attr = .error .attributeError := by
  unfold updateModelId
  rw [if_pos]
  rw [List.any_eq_true]
  exact ⟨c, hc, by rw [h]; rfl⟩

example : (updateModelId [[("m", .text "uk_ens nc_det".toList)], [("m", .text "uk_det uk_ens".toList)]] "m").toOption =
    some "nc_det uk_det uk_ens".toList := by decide +kernel

/-! ### Mandatory attributes -/

theorem commonValue_iff {cubes : List AttrDict} {attr : String} {v : AttrVal} :
    commonValue cubes attr = some v ↔ cubes ≠ [] ∧ ∀ c ∈ cubes, AttrDict.get c attr = some v := by
  unfold commonValue
  have hmem : ∀ o, o ∈ (cubes.map fun c => AttrDict.get c attr).dedup ↔ ∃ c ∈ cubes, AttrDict.get c attr = o := by
    intro o
    rw [List.mem_dedup, List.mem_map]
  have hnd := List.nodup_dedup (cubes.map fun c => AttrDict.get c attr)
  revert hmem hnd
  generalize (cubes.map fun c => AttrDict.get c attr).dedup = l
  intro hmem hnd
  constructor
  · intro h
    match l, h with
    | [some w], h =>
      have hw : w = v := by simpa using h
      subst hw
      obtain ⟨c, hc, _⟩ := (hmem (some w)).1 List.mem_cons_self
      refine ⟨List.ne_nil_of_mem hc, fun c hc => ?_⟩
      have := (hmem _).2 ⟨c, hc, rfl⟩
      rw [List.mem_singleton] at this
      exact this
  · rintro ⟨hne, h⟩
    obtain ⟨c, cs, rfl⟩ := List.exists_cons_of_ne_nil hne
    have h1 : some v ∈ l := (hmem _).2 ⟨c, List.mem_cons_self, h c List.mem_cons_self⟩
    have h2 : ∀ o ∈ l, o = some v := by
      intro o ho
      obtain ⟨c', hc', e⟩ := (hmem o).1 ho
      rw [← e, h c' hc']
    match l, h1, h2, hnd with
    | [o], h1, h2, _ => rw [h2 o List.mem_cons_self]
    | o :: o' :: l, _, h2, hnd =>
      rw [h2 o List.mem_cons_self, h2 o' (List.mem_cons_of_mem _ List.mem_cons_self)] at hnd
      simp at hnd

theorem gather_ok {cubes : List AttrDict} {required names : List String} {d r : AttrDict}
    (h : gatherAttributes cubes required names d = .ok r) (k : String) :
    (k ∈ names → k ∈ required → ∃ v, commonValue cubes k = some v) ∧
    AttrDict.get r k = if k ∈ names then (commonValue cubes k).or (AttrDict.get d k) else AttrDict.get d k := by
  induction names generalizing d with
  | nil =>
    cases h
    exact ⟨fun h => (nomatch h), rfl⟩
  | cons a names ih =>
    rw [gatherAttributes] at h
    cases hc : commonValue cubes a with
    | some v =>
      rw [hc] at h
      obtain ⟨i1, i2⟩ := ih h
      constructor
      · intro hk hr
        rw [List.mem_cons] at hk
        rcases hk with rfl | hk
        · exact ⟨v, hc⟩
        · exact i1 hk hr
      · rw [i2, set_get]
        by_cases hka : k = a
        · subst hka
          rw [if_pos rfl, if_pos List.mem_cons_self, hc]
          by_cases hm : k ∈ names <;> simp [hm]
        · rw [if_neg hka]
          by_cases hm : k ∈ names
          · rw [if_pos hm, if_pos (List.mem_cons_of_mem _ hm)]
          · rw [if_neg hm, if_neg]
            rw [List.mem_cons]
            rintro (h | h)
            · exact hka h
            · exact hm h
    | none =>
      rw [hc] at h
      dsimp only at h
      by_cases hr : a ∈ required
      · rw [if_pos hr] at h; exact nomatch h
      · rw [if_neg hr] at h
        obtain ⟨i1, i2⟩ := ih h
        constructor
        · intro hk hr'
          rw [List.mem_cons] at hk
          rcases hk with rfl | hk
          · exact absurd hr' hr
          · exact i1 hk hr'
        · rw [i2]
          by_cases hka : k = a
          · subst hka
            rw [if_pos List.mem_cons_self, hc]
            by_cases hm : k ∈ names <;> simp [hm]
          · by_cases hm : k ∈ names
            · rw [if_pos hm, if_pos (List.mem_cons_of_mem _ hm)]
            · rw [if_neg hm, if_neg]
              rw [List.mem_cons]
              rintro (h | h)
              · exact hka h
              · exact hm h

theorem gather_fails {cubes : List AttrDict} {required names : List String} {d : AttrDict} :
    (∃ r, gatherAttributes cubes required names d = .ok r) ↔ ∀ a ∈ names, a ∈ required → commonValue cubes a ≠ none := by
  induction names generalizing d with
  | nil => simp [gatherAttributes]
  | cons a names ih =>
    rw [gatherAttributes]
    cases hc : commonValue cubes a with
    | some v =>
      dsimp only
      rw [ih]
      constructor
      · intro h x hx hr
        rw [List.mem_cons] at hx
        rcases hx with rfl | hx
        · rw [hc]; exact Option.some_ne_none _
        · exact h x hx hr
      · intro h x hx
        exact h x (List.mem_cons_of_mem _ hx)
    | none =>
      dsimp only
      by_cases hr : a ∈ required
      · rw [if_pos hr]
        constructor
        · rintro ⟨r, h⟩; exact nomatch h
        · intro h; exact absurd hc (h a List.mem_cons_self hr)
      · rw [if_neg hr, ih]
        constructor
        · intro h x hx hr'
          rw [List.mem_cons] at hx
          rcases hx with rfl | hx
          · exact absurd hr' hr
          · exact h x hx hr'
        · intro h x hx
          exact h x (List.mem_cons_of_mem _ hx)

/-- All cubes (and at least one) have the value. -/
def Spec.shared (cubes : List AttrDict) (attr : String) (v : AttrVal) : Prop :=
  cubes ≠ [] ∧ ∀ c ∈ cubes, AttrDict.get c attr = some v

/-- The documented defaults. -/
def Spec.default (attr : String) : Option AttrVal :=
  if attr = "title" ∨ attr = "institution" then some (.text "unknown".toList)
  else if attr = "source" then some (.text "IMPROVER".toList)
  else none

/-- The model attribute asked for. -/
def Spec.wanted (modelId : Option String) (k : String) : Prop := modelId = some k ∧ k ≠ ""

theorem default_get (k : String) : AttrDict.get mandatoryDefaults k = Spec.default k := by
  unfold AttrDict.get mandatoryDefaults Spec.default
  by_cases h1 : k = "title"
  · subst h1; decide
  by_cases h2 : k = "source"
  · subst h2; decide
  by_cases h3 : k = "institution"
  · subst h3; decide
  rw [if_neg (by rintro (h | h); exact h1 h; exact h3 h), if_neg h2, List.find?_eq_none.2]
  · rfl
  · intro x hx
    simp only [List.mem_cons, List.not_mem_nil, or_false] at hx
    rcases hx with rfl | rfl | rfl <;> simp [eq_comm, h1, h2, h3]

/-- C177: mandatory attributes of a new cube: each of title, source and institution is what all cubes share, or its default
if they share none; the model attribute asked for is what they share, and it is an error if they share none.  There is no
other attribute. -/
theorem C177_mandatory (cubes : List AttrDict) (modelId : Option String) :
    (∀ r, generateMandatory cubes modelId = .ok r → ∀ k,
      (k ∈ ["title", "source", "institution"] ∨ Spec.wanted modelId k → ∀ v, Spec.shared cubes k v → AttrDict.get r k = some v) ∧
      (k ∈ ["title", "source", "institution"] → (∀ v, ¬ Spec.shared cubes k v) → AttrDict.get r k = Spec.default k) ∧
      (k ∉ ["title", "source", "institution"] → ¬ Spec.wanted modelId k → AttrDict.get r k = none)) ∧
    ((∃ r, generateMandatory cubes modelId = .ok r) ↔ ∀ k, Spec.wanted modelId k → ∃ v, Spec.shared cubes k v) := by
  have hs : ∀ k v, Spec.shared cubes k v ↔ commonValue cubes k = some v := fun k v => commonValue_iff.symm
  have hn : mandatoryDefaults.map Prod.fst = ["title", "source", "institution"] := rfl
  set required : List String := match modelId with
    | none => []
    | some m => if m = "" then [] else [m] with hreq
  have hr : ∀ k, k ∈ required ↔ Spec.wanted modelId k := by
    intro k
    rw [hreq]
    unfold Spec.wanted
    cases modelId with
    | none => simp
    | some m =>
      by_cases hm : m = ""
      · subst hm
        simp only [if_pos, List.not_mem_nil, false_iff, Option.some.injEq]
        rintro ⟨rfl, h⟩
        exact h rfl
      · simp only [if_neg hm, List.mem_singleton, Option.some.injEq]
        constructor
        · rintro rfl; exact ⟨rfl, hm⟩
        · rintro ⟨rfl, _⟩; rfl
  have hg : generateMandatory cubes modelId =
      gatherAttributes cubes required (["title", "source", "institution"] ++ required) mandatoryDefaults := rfl
  rw [hg]
  constructor
  · intro r h k
    obtain ⟨g1, g2⟩ := gather_ok h k
    rw [default_get] at g2
    refine ⟨fun hk v hv => ?_, fun hk hv => ?_, fun hk hw => ?_⟩
    · rw [g2, if_pos, (hs k v).1 hv]
      · rfl
      · rw [List.mem_append, hr]; exact hk
    · rw [g2, if_pos (List.mem_append_left _ hk)]
      cases hc : commonValue cubes k with
      | none => rfl
      | some v => exact absurd ((hs k v).2 hc) (hv v)
    · rw [g2, if_neg]
      · unfold Spec.default
        simp only [List.mem_cons, List.not_mem_nil, or_false, not_or] at hk
        rw [if_neg (by rintro (h | h); exact hk.1 h; exact hk.2.2 h), if_neg hk.2.1]
      · rw [List.mem_append, hr]
        rintro (h | h)
        · exact hk h
        · exact hw h
  · rw [gather_fails]
    constructor
    · intro h k hk
      have := h k (List.mem_append_right _ ((hr k).2 hk)) ((hr k).2 hk)
      cases hc : commonValue cubes k with
      | none => exact absurd hc this
      | some v => exact ⟨v, (hs k v).2 hc⟩
    · intro h a _ ha
      obtain ⟨v, hv⟩ := h a ((hr a).1 ha)
      rw [(hs a v).1 hv]
      exact Option.some_ne_none _

example : (generateMandatory [[("title", .text "A".toList), ("m", .text "uk".toList)],
      [("title", .text "B".toList), ("source", .text "S".toList), ("m", .text "uk".toList)]] (some "m")).toOption =
    some [("title", .text "unknown".toList), ("source", .text "IMPROVER".toList), ("institution", .text "unknown".toList),
      ("m", .text "uk".toList)] := by decide +kernel

/-- C177: the model attribute of cubes is the value all of them have; otherwise there is an error. -/
theorem C177_model_id (cubes : List AttrDict) (attr : String) (v : AttrVal) :
    modelIdOf cubes attr = .ok v ↔ Spec.shared cubes attr v := by
  have hs : Spec.shared cubes attr v ↔ commonValue cubes attr = some v := commonValue_iff.symm
  unfold modelIdOf
  by_cases hm : (cubes.any fun c => (AttrDict.get c attr).isNone) = true
  · rw [if_pos hm]
    constructor
    · intro h; exact nomatch h
    · rintro ⟨_, h⟩
      rw [List.any_eq_true] at hm
      obtain ⟨c, hc, hn⟩ := hm
      rw [h c hc] at hn
      exact nomatch hn
  · rw [if_neg hm, hs]
    unfold commonValue
    generalize (cubes.map fun c => AttrDict.get c attr).dedup = l
    match l with
    | [] => simp
    | [none] => simp
    | [some w] => simp
    | _ :: _ :: _ => simp

/-- C177: a new cube has the mandatory attributes given and the optional ones, which win; without all three mandatory
attributes there is an error. -/
theorem C177_new_cube (mandatory : AttrDict) (optional : AttrDict)
    (ho : ∀ e ∈ optional, ∀ e' ∈ optional, e.1 = e'.1 → e.2 = e'.2) :
    (∀ r, (newCubeAttributes mandatory (some optional)).1 = .ok r → ∀ k,
      AttrDict.get r k = if k ∈ optional.map Prod.fst then AttrDict.get optional k else AttrDict.get mandatory k) ∧
    ((∃ r, (newCubeAttributes mandatory (some optional)).1 = .ok r) ↔
      ∀ k ∈ ["title", "source", "institution"], k ∈ optional.map Prod.fst ∨ AttrDict.get mandatory k ≠ none) := by
  have hn : mandatoryDefaults.map Prod.fst = ["title", "source", "institution"] := rfl
  have hu := fun k => update_get optional mandatory k ho
  have hopt : ∀ k ∈ optional.map Prod.fst, AttrDict.get optional k ≠ none := by
    intro k hk h
    unfold AttrDict.get at h
    rw [Option.map_eq_none_iff, List.find?_eq_none] at h
    obtain ⟨x, hx, rfl⟩ := List.mem_map.1 hk
    exact absurd (h x hx) (by simp)
  unfold newCubeAttributes
  dsimp only
  rw [hn]
  by_cases hm : ((["title", "source", "institution"] : List String).any fun a =>
      (AttrDict.get (AttrDict.update mandatory optional) a).isNone) = true
  · rw [if_pos hm]
    refine ⟨fun r h => (nomatch h), ?_⟩
    constructor
    · rintro ⟨r, h⟩; exact nomatch h
    · intro h
      rw [List.any_eq_true] at hm
      obtain ⟨a, ha, hna⟩ := hm
      rw [Option.isNone_iff_eq_none, hu] at hna
      by_cases hk : a ∈ optional.map Prod.fst
      · rw [if_pos hk] at hna
        exact absurd hna (hopt a hk)
      · rw [if_neg hk] at hna
        exact absurd hna ((h a ha).resolve_left hk)
  · rw [if_neg hm]
    constructor
    · intro r h k
      cases h
      exact hu k
    · refine ⟨fun _ k hk => ?_, fun _ => ⟨_, rfl⟩⟩
      by_contra hcon
      rw [not_or] at hcon
      apply hm
      rw [List.any_eq_true]
      refine ⟨k, hk, ?_⟩
      rw [hu, if_neg hcon.1, Option.isNone_iff_eq_none]
      exact not_not.1 hcon.2

/-- C177 finding: the caller's dictionary of mandatory attributes is changed: it takes on the optional attributes. -/
theorem C177_argument_refuted :
    newCubeAttributes mandatoryDefaults (some [("title", .text "mine".toList), ("x", .other 0)]) =
      (.ok [("title", .text "mine".toList), ("source", .text "IMPROVER".toList), ("institution", .text "unknown".toList),
        ("x", .other 0)],
      [("title", .text "mine".toList), ("source", .text "IMPROVER".toList), ("institution", .text "unknown".toList),
        ("x", .other 0)]) := by decide +kernel

/-! ### Nested inputs -/

/-- The leaf at the end of a path of positions. -/
inductive Spec.LeafAt {α : Type} : Nest α → List ℕ → α → Prop
  | leaf {a} : Spec.LeafAt (.leaf a) [] a
  | node {l i x p a} : l[i]? = some x → Spec.LeafAt x p a → Spec.LeafAt (.node l) (i :: p) a

/-- Paths in reading order. -/
def Spec.pathBefore (p q : List ℕ) : Prop := List.Lex (· < ·) p q

theorem flatten_leaf {α : Type} (a : α) : (Nest.leaf a).flatten = [a] := by rw [Nest.flatten]

theorem flatten_node {α : Type} (l : List (Nest α)) : (Nest.node l).flatten = l.flatMap Nest.flatten := by
  rw [Nest.flatten]
  simp [List.flatMap_subtype]

theorem flatten_paths {α : Type} (n : ℕ) : ∀ t : Nest α, sizeOf t ≤ n →
    ∃ ps : List (List ℕ), List.Forall₂ (Spec.LeafAt t) ps t.flatten ∧ ps.Pairwise Spec.pathBefore ∧
      ∀ p a, Spec.LeafAt t p a → p ∈ ps := by
  induction n with
  | zero => intro t ht; cases t <;> simp at ht
  | succ n ihn =>
    intro t ht
    cases t with
    | leaf a =>
      rw [flatten_leaf]
      refine ⟨[[]], .cons .leaf .nil, by simp, ?_⟩
      intro p b h
      cases h
      exact List.mem_cons_self
    | node l =>
      rw [flatten_node]
      have hsz : ∀ x ∈ l, sizeOf x ≤ n := by
        intro x hx
        have := List.sizeOf_lt_of_mem hx
        simp only [Nest.node.sizeOf_spec] at ht
        omega
      clear ht
      -- paths below position k on
      have key : ∀ (m : List (Nest α)) (k : ℕ), (∀ x ∈ m, sizeOf x ≤ n) → (∀ i, m[i]? = l[k + i]?) →
          ∃ ps : List (List ℕ), List.Forall₂ (Spec.LeafAt (.node l)) ps (m.flatMap Nest.flatten) ∧
            ps.Pairwise Spec.pathBefore ∧ (∀ p ∈ ps, ∃ i q, k ≤ i ∧ p = i :: q) ∧
            ∀ i p a, k ≤ i → Spec.LeafAt (.node l) (i :: p) a → (i :: p) ∈ ps := by
        intro m
        induction m with
        | nil =>
          intro k _ hm
          refine ⟨[], .nil, .nil, by simp, ?_⟩
          intro i p a hi h
          cases h with
          | node hx _ =>
            have := hm (i - k)
            rw [show k + (i - k) = i by omega, hx] at this
            exact nomatch this
        | cons x m ih =>
          intro k hsz hm
          obtain ⟨qs, q1, q2, q3⟩ := ihn x (hsz x List.mem_cons_self)
          obtain ⟨ps, p1, p2, p3, p4⟩ := ih (k + 1) (fun y hy => hsz y (List.mem_cons_of_mem _ hy)) fun i => by
            have := hm (i + 1)
            rw [List.getElem?_cons_succ] at this
            rw [this, show k + (i + 1) = k + 1 + i by omega]
          have hx : l[k]? = some x := by
            have := hm 0
            rw [List.getElem?_cons_zero, Nat.add_zero] at this
            exact this.symm
          refine ⟨qs.map (k :: ·) ++ ps, ?_, ?_, ?_, ?_⟩
          · rw [List.flatMap_cons]
            refine List.rel_append ?_ p1
            rw [List.forall₂_map_left_iff]
            exact q1.imp fun p a h => .node hx h
          · rw [List.pairwise_append]
            refine ⟨?_, p2, ?_⟩
            · rw [List.pairwise_map]
              exact q2.imp fun h => .cons h
            · intro p hp q hq
              obtain ⟨p', _, rfl⟩ := List.mem_map.1 hp
              obtain ⟨i, q', hi, rfl⟩ := p3 q hq
              exact .rel (by omega)
          · intro p hp
            rw [List.mem_append] at hp
            rcases hp with hp | hp
            · obtain ⟨p', _, rfl⟩ := List.mem_map.1 hp
              exact ⟨k, p', le_refl _, rfl⟩
            · obtain ⟨i, q', hi, rfl⟩ := p3 p hp
              exact ⟨i, q', by omega, rfl⟩
          · intro i p a hi h
            rw [List.mem_append]
            by_cases hik : i = k
            · subst hik
              left
              cases h with
              | node hx' h' =>
                rw [hx, Option.some.injEq] at hx'
                subst hx'
                exact List.mem_map.2 ⟨p, q3 p a h', rfl⟩
            · exact Or.inr (p4 i p a (by omega) h)
      obtain ⟨ps, p1, p2, _, p4⟩ := key l 0 hsz fun i => by rw [Nat.zero_add]
      refine ⟨ps, p1, p2, fun p a h => ?_⟩
      cases h with
      | node hx h' => exact p4 _ _ a (Nat.zero_le _) (.node hx h')

/-- C178: flattening gives the leaves of a collection nested to any depth, each once and in reading order. -/
theorem C178_flatten {α : Type} (t : Nest α) :
    ∃ ps : List (List ℕ), List.Forall₂ (Spec.LeafAt t) ps t.flatten ∧ ps.Pairwise Spec.pathBefore ∧
      ∀ p a, Spec.LeafAt t p a → p ∈ ps := flatten_paths _ t (le_refl _)

/-- C178: the arguments are accepted exactly when they hold, at any depth, at least one cube and nothing but cubes; the list
is then all of them in order. -/
theorem C178_cubelist {α : Type} (isCube : α → Bool) (args : List (Nest α)) (r : List α) :
    asCubelist isCube args = .ok r ↔
      r = (Nest.node args).flatten ∧ (∃ p a, Spec.LeafAt (.node args) p a) ∧
        ∀ p a, Spec.LeafAt (.node args) p a → isCube a = true := by
  obtain ⟨ps, h1, _, h3⟩ := C178_flatten (Nest.node args)
  have hmem : ∀ a, a ∈ (Nest.node args).flatten ↔ ∃ p, Spec.LeafAt (.node args) p a := by
    intro a
    constructor
    · intro ha
      obtain ⟨i, hi, rfl⟩ := List.getElem_of_mem ha
      have hh := List.forall₂_iff_get.1 h1
      exact ⟨ps[i]'(hh.1 ▸ hi), hh.2 i (hh.1 ▸ hi) hi⟩
    · rintro ⟨p, hp⟩
      obtain ⟨i, hi, rfl⟩ := List.getElem_of_mem (h3 p a hp)
      have hh := List.forall₂_iff_get.1 h1
      have h2 := hh.2 i hi (hh.1 ▸ hi)
      have : ∀ {t : Nest α} {p : List ℕ} {a b : α}, Spec.LeafAt t p a → Spec.LeafAt t p b → a = b := by
        intro t p a b ha
        induction ha with
        | leaf => intro hb; cases hb; rfl
        | node hx _ ih =>
          intro hb
          cases hb with
          | node hy hb =>
            rw [hx, Option.some.injEq] at hy
            subst hy
            exact ih hb
      rw [this hp h2]
      exact List.getElem_mem _
  unfold asCubelist
  dsimp only
  by_cases hbad : ((Nest.node args).flatten.any fun c => !isCube c) = true
  · rw [if_pos hbad]
    constructor
    · intro h; exact nomatch h
    · rintro ⟨_, _, h⟩
      rw [List.any_eq_true] at hbad
      obtain ⟨a, ha, hn⟩ := hbad
      obtain ⟨p, hp⟩ := (hmem a).1 ha
      rw [h p a hp] at hn
      exact nomatch hn
  · rw [if_neg hbad]
    have hall : ∀ p a, Spec.LeafAt (.node args) p a → isCube a = true := by
      intro p a hp
      by_contra hc
      exact hbad (List.any_eq_true.2 ⟨a, (hmem a).2 ⟨p, hp⟩, by simpa using hc⟩)
    by_cases hlen : (Nest.node args).flatten.length = 0
    · rw [if_pos hlen]
      constructor
      · intro h; exact nomatch h
      · rintro ⟨_, ⟨p, a, hp⟩, _⟩
        have := (hmem a).2 ⟨p, hp⟩
        rw [List.length_eq_zero_iff] at hlen
        rw [hlen] at this
        exact nomatch this
    · rw [if_neg hlen]
      constructor
      · intro h
        cases h
        refine ⟨rfl, ?_, hall⟩
        obtain ⟨a, ha⟩ := List.exists_mem_of_length_pos (Nat.pos_of_ne_zero hlen)
        obtain ⟨p, hp⟩ := (hmem a).1 ha
        exact ⟨p, a, hp⟩
      · rintro ⟨rfl, _, _⟩
        rfl

/-- C178: a single cube, however deeply nested, is returned as it is; several are merged into one, and it is an error if
they do not merge. -/
theorem C178_cube {α : Type} (isCube : α → Bool) (merge : List α → Option α) (args : List (Nest α)) (cubes : List α)
    (h : asCubelist isCube args = .ok cubes) :
    (∀ c, cubes = [c] → asCube isCube merge args = .ok c) ∧
    (cubes.length ≠ 1 → ∀ c, asCube isCube merge args = .ok c ↔ merge cubes = some c) ∧
    (cubes.length ≠ 1 → merge cubes = none → asCube isCube merge args = .error .valueError) := by
  unfold asCube
  rw [h]
  simp only [bind, Except.bind]
  refine ⟨?_, ?_, ?_⟩
  · rintro c rfl
    rfl
  · intro hl c
    match cubes, hl with
    | [], _ => cases hm : merge [] <;> simp
    | [x], hl => exact absurd rfl hl
    | x :: y :: l, _ => cases hm : merge (x :: y :: l) <;> simp
  · intro hl hm
    match cubes, hl, hm with
    | [], _, hm => simp [hm]
    | [x], hl, _ => exact absurd rfl hl
    | x :: y :: l, _, hm => simp [hm]

example : asCubelist (fun n : ℕ => decide (n < 10)) [.leaf 1, .node [.node [.leaf 2, .node []], .leaf 3]] =
    .ok [1, 2, 3] := by
  rw [C178_cubelist]
  refine ⟨by simp [flatten_node, flatten_leaf], ⟨[0], 1, .node rfl .leaf⟩, ?_⟩
  intro p a h
  have : a ∈ [1, 2, 3] := by
    cases h with
    | node hx h =>
      rename_i i x p
      rcases i with _ | _ | i
      · cases hx; cases h; simp
      · cases hx
        cases h with
        | node hx h =>
          rename_i i x p
          rcases i with _ | _ | i
          · cases hx
            cases h with
            | node hx h =>
              rename_i i x p
              rcases i with _ | _ | i
              · cases hx; cases h; simp
              · cases hx; cases h with | node hx _ => simp at hx
              · simp at hx
          · cases hx; cases h; simp
          · simp at hx
      · simp at hx
  simp only [List.mem_cons, List.not_mem_nil, or_false] at this
  rcases this with rfl | rfl | rfl <;> decide

end Improver
