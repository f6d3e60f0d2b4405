import Verif.Model.SiteCheck
import Verif.Props.CombineRun

/-! C284: site data are combined only for the same sites. -/

namespace Improver
namespace Spec

/-- `v` is the value of the site with identifier `s`. -/
def valueOfSite {V : Type} (p : SiteField V) (s : String) (v : V) : Prop := ∃ l, p.ids = some l ∧ ∃ i : ℕ, l[i]? = some s ∧ p.values[i]? = some v

/-- The cube has one value per site, and no site twice. -/
def properSites {V : Type} (p : SiteField V) : Prop := ∃ l, p.ids = some l ∧ l.Nodup ∧ p.values.length = l.length

/-- `s` is a site of the forecast or of the field, but not of both. -/
def onlyInOne {V : Type} (forecast p : SiteField V) (s : String) : Prop :=
  ∃ f l, forecast.ids = some f ∧ p.ids = some l ∧ ((s ∈ f ∧ s ∉ l) ∨ (s ∈ l ∧ s ∉ f))

end Spec

open Spec

theorem mem_symmetricDifference (a b : List String) (s : String) : s ∈ symmetricDifference a b ↔ (s ∈ a ∧ s ∉ b) ∨ (s ∈ b ∧ s ∉ a) := by
  unfold symmetricDifference
  rw [List.mem_dedup, List.mem_append, List.mem_filter, List.mem_filter]
  simp

theorem fieldIds_ok {V : Type} (p : SiteField V) (l : List String) : fieldIds p = .ok l ↔ p.ids = some l := by
  unfold fieldIds
  cases p.ids with
  | none => exact ⟨fun h => (nomatch h), fun h => (nomatch h)⟩
  | some k => exact ⟨fun h => by injection h with h; rw [h], fun h => by injection h with h; rw [h]⟩

theorem idsOf_forall {V : Type} (fields : List (SiteField V)) (ids : List (List String)) (h : fields.mapM fieldIds = .ok ids) :
    List.Forall₂ (fun p l => p.ids = some l) fields ids :=
  (mapM_iff_forall₂ fieldIds _ (fun p l => fieldIds_ok p l) fields ids).1 h

/-- **C284** (same sites): with a forecast that has station identifiers, predictors are used exactly when every additional field has the same identifiers in the same order. -/
theorem C284_same {V : Type} (forecast : SiteField V) (fields : List (SiteField V)) (f : List String) (hf : forecast.ids = some f) :
    (∃ g, emosPredictors forecast fields = .ok g) ↔ ∀ p ∈ fields, p.ids = some f := by
  unfold emosPredictors checkFieldSites
  rw [hf]
  simp only []
  cases h : fields.mapM fieldIds with
  | error e =>
    simp only []
    constructor
    · rintro ⟨g, hg⟩; exact nomatch hg
    · intro hp
      exfalso
      have : fields.mapM fieldIds = .ok (fields.map fun _ => f) := by
        rw [mapM_iff_forall₂ fieldIds _ (fun p l => fieldIds_ok p l)]
        clear h
        induction fields with
        | nil => exact .nil
        | cons p l ih => exact .cons (hp p (by simp)) (ih fun q hq => hp q (List.mem_cons_of_mem _ hq))
      rw [this] at h; exact nomatch h
  | ok ids =>
    have hF := idsOf_forall fields ids h
    clear h
    have key : (ids.all (fun l => decide (l = f)) = true) ↔ ∀ p ∈ fields, p.ids = some f := by
      induction hF with
      | nil => simp
      | @cons p l ps ls e _ ih =>
        rw [List.all_cons, Bool.and_eq_true, ih, decide_eq_true_eq]
        constructor
        · rintro ⟨h1, h2⟩ q hq
          rcases List.mem_cons.1 hq with rfl | hq
          · rw [e, h1]
          · exact h2 q hq
        · intro hq
          refine ⟨?_, fun q h => hq q (List.mem_cons_of_mem _ h)⟩
          have := hq p (by simp)
          rw [e] at this; exact Option.some.inj this
    simp only []
    by_cases ha : ids.all (fun l => decide (l = f)) = true
    · rw [if_pos ha]
      exact ⟨fun _ => key.1 ha, fun _ => ⟨_, rfl⟩⟩
    · rw [if_neg ha]
      exact ⟨fun ⟨g, hg⟩ => (nomatch hg), fun hp => absurd (key.2 hp) ha⟩

theorem value_at_site {V : Type} (p : SiteField V) (l : List String) (hp : p.ids = some l) (hn : l.Nodup) (hl : p.values.length = l.length) (i : ℕ) (s : String)
    (hs : l[i]? = some s) (v : V) : p.values[i]? = some v ↔ valueOfSite p s v := by
  constructor
  · exact fun h => ⟨l, hp, i, hs, h⟩
  · rintro ⟨l', e, j, hj, hv⟩
    rw [hp] at e; injection e with e; subst e
    obtain ⟨hi1, hi2⟩ := List.getElem?_eq_some_iff.1 hs
    obtain ⟨hj1, hj2⟩ := List.getElem?_eq_some_iff.1 hj
    have : i = j := (List.Nodup.getElem_inj_iff hn).1 (hi2.trans hj2.symm)
    rw [this]; exact hv

/-- **C284** (pairing): the predictors used for a site are the values of that site, in the forecast and in every additional field. -/
theorem C284_pairing {V : Type} (forecast : SiteField V) (fields : List (SiteField V)) (hf : properSites forecast) (hp : ∀ p ∈ fields, properSites p)
    (g : ℕ → List (Option V)) (h : emosPredictors forecast fields = .ok g) (f : List String) (hif : forecast.ids = some f) (i : ℕ) (s : String) (hs : f[i]? = some s) :
    List.Forall₂ (fun p o => ∃ v, o = some v ∧ valueOfSite p s v) (forecast :: fields) (g i) := by
  have hsame := (C284_same forecast fields f hif).1 ⟨g, h⟩
  have hg : g = sitePredictors forecast fields := by
    unfold emosPredictors at h
    cases hc : checkFieldSites forecast fields with
    | error e => rw [hc] at h; exact nomatch h
    | ok o =>
      cases o with
      | some r => rw [hc] at h; exact nomatch h
      | none => rw [hc] at h; injection h with h; exact h.symm
  rw [hg]
  unfold sitePredictors
  have one : ∀ p : SiteField V, properSites p → p.ids = some f → ∃ v, p.values[i]? = some v ∧ valueOfSite p s v := by
    rintro p ⟨l, hl, hn, hlen⟩ hpf
    rw [hl] at hpf; injection hpf with hpf; subst hpf
    have hi : i < p.values.length := by rw [hlen]; exact (List.getElem?_eq_some_iff.1 hs).1
    exact ⟨p.values[i], List.getElem?_eq_getElem hi, (value_at_site p l hl hn hlen i s hs _).1 (List.getElem?_eq_getElem hi)⟩
  refine .cons (one forecast hf hif) ?_
  clear h hg
  induction fields with
  | nil => exact .nil
  | cons p ps ih =>
    exact .cons (one p (hp p (by simp)) (hsame p (by simp)))
      (ih (fun q hq => hp q (List.mem_cons_of_mem _ hq)) fun q hq => hsame q (List.mem_cons_of_mem _ hq))

/-- **C284** (message): the sites named in a refusal are those that only the forecast or only one of the fields has. -/
theorem C284_message {V : Type} (forecast : SiteField V) (fields : List (SiteField V)) (r : SiteRefusal) (h : checkFieldSites forecast fields = .ok (some r)) (s : String) :
    s ∈ r.mismatching ↔ ∃ p ∈ fields, onlyInOne forecast p s := by
  unfold checkFieldSites at h
  cases hf : forecast.ids with
  | none => rw [hf] at h; exact nomatch h
  | some f =>
    rw [hf] at h
    simp only [] at h
    cases hm : fields.mapM fieldIds with
    | error e => rw [hm] at h; exact nomatch h
    | ok ids =>
      rw [hm] at h
      simp only [] at h
      by_cases ha : ids.all (fun l => decide (l = f)) = true
      · rw [if_pos ha] at h; exact nomatch h
      · rw [if_neg ha] at h
        injection h with h; injection h with h
        rw [← h, List.mem_dedup, List.mem_flatMap]
        have hF := idsOf_forall fields ids hm
        clear hm h ha
        induction hF with
        | nil => simp
        | @cons p l ps ls e _ ih =>
          have e1 : s ∈ symmetricDifference l f ↔ onlyInOne forecast p s := by
            rw [mem_symmetricDifference]
            constructor
            · rintro (h | h)
              · exact ⟨f, l, hf, e, Or.inr h⟩
              · exact ⟨f, l, hf, e, Or.inl h⟩
            · rintro ⟨f', l', hf', e', h⟩
              rw [hf] at hf'; injection hf' with hf'; subst hf'
              rw [e] at e'; injection e' with e'; subst e'
              exact h.symm
          constructor
          · rintro ⟨k, hk, hs⟩
            rcases List.mem_cons.1 hk with rfl | hk
            · exact ⟨p, by simp, e1.1 hs⟩
            · obtain ⟨q, hq, ho⟩ := ih.1 ⟨k, hk, hs⟩
              exact ⟨q, List.mem_cons_of_mem _ hq, ho⟩
          · rintro ⟨q, hq, ho⟩
            rcases List.mem_cons.1 hq with rfl | hq
            · exact ⟨l, by simp, e1.2 ho⟩
            · obtain ⟨k, hk, hs⟩ := ih.2 ⟨q, hq, ho⟩
              exact ⟨k, List.mem_cons_of_mem _ hk, hs⟩

/-- **C284** (no identifiers): a forecast without station identifiers is never refused. -/
theorem C284_unchecked {V : Type} (forecast : SiteField V) (fields : List (SiteField V)) (h : forecast.ids = none) :
    emosPredictors forecast fields = .ok (sitePredictors forecast fields) := by
  unfold emosPredictors checkFieldSites
  rw [h]

theorem zipWith_ne_any (fs ds : List String) (h : fs.length = ds.length) : (List.zipWith (fun a b => decide (a ≠ b)) fs ds).any id = false ↔ fs = ds := by
  induction fs generalizing ds with
  | nil =>
    cases ds with
    | nil => simp
    | cons d ds => simp at h
  | cons a fs ih =>
    cases ds with
    | nil => simp at h
    | cons d ds =>
      rw [List.zipWith_cons_cons, List.any_cons, Bool.or_eq_false_iff, ih ds (by simpa using h)]
      simp

/-- **C284** (dz rescaling): the forecast is rescaled exactly when both cubes have the same sites in the same order, and each site's value is multiplied by the scaled
difference in altitude of that site. -/
theorem C284_rescale (fs ds : List String) (forecast scaled : List ℚ) :
    (fs ≠ ds → rescaleSites fs ds forecast scaled = .error .valueError) ∧
    (fs = ds → ∃ r, rescaleSites fs ds forecast scaled = .ok r ∧
      ∀ (i : ℕ) a b, forecast[i]? = some a → scaled[i]? = some b → r[i]? = some (a * b)) := by
  unfold rescaleSites
  constructor
  · intro hne
    rw [if_pos]
    by_cases hl : fs.length = ds.length
    · right
      cases hb : (List.zipWith (fun a b => decide (a ≠ b)) fs ds).any id with
      | true => rfl
      | false => exact absurd ((zipWith_ne_any fs ds hl).1 hb) hne
    · exact Or.inl hl
  · intro e
    have hb := (zipWith_ne_any fs ds (congrArg List.length e)).2 e
    rw [if_neg (by rw [hb]; simp [e])]
    refine ⟨_, rfl, fun i a b ha hb => ?_⟩
    rw [List.getElem?_zipWith, ha, hb]

theorem kept_place {V : Type} (P : String → Bool) (l : List String) (vs : List V) (s : String) (v : V) :
    (∃ i : ℕ, (((l.zip vs).filter fun e => P e.1).map Prod.fst)[i]? = some s ∧ (((l.zip vs).filter fun e => P e.1).map Prod.snd)[i]? = some v) ↔
      P s = true ∧ ∃ i : ℕ, l[i]? = some s ∧ vs[i]? = some v := by
  have one : ∀ k : List (String × V), (∃ i : ℕ, (k.map Prod.fst)[i]? = some s ∧ (k.map Prod.snd)[i]? = some v) ↔ (s, v) ∈ k := by
    intro k
    constructor
    · rintro ⟨i, h1, h2⟩
      rw [List.getElem?_map] at h1 h2
      cases hk : k[i]? with
      | none => rw [hk] at h1; exact nomatch h1
      | some e =>
        rw [hk] at h1 h2
        have e1 : e.1 = s := Option.some.inj h1
        have e2 : e.2 = v := Option.some.inj h2
        have : e = (s, v) := Prod.ext e1 e2
        rw [← this]; exact List.mem_of_getElem? hk
    · intro h
      obtain ⟨i, hi⟩ := List.getElem?_of_mem h
      exact ⟨i, by rw [List.getElem?_map, hi]; rfl, by rw [List.getElem?_map, hi]; rfl⟩
  rw [one, List.mem_filter]
  constructor
  · rintro ⟨h1, h2⟩
    obtain ⟨i, hi⟩ := List.getElem?_of_mem h1
    rw [List.getElem?_zip_eq_some] at hi
    exact ⟨h2, i, hi.1, hi.2⟩
  · rintro ⟨h1, i, h2, h3⟩
    exact ⟨List.mem_of_getElem? (List.getElem?_zip_eq_some.2 ⟨h2, h3⟩ : (l.zip vs)[i]? = some (s, v)), h1⟩

/-- **C284** (estimation from a table): of each additional predictor the values of the sites of the truths are kept, with their sites, and no others; a predictor with none of
them is refused. -/
theorem C284_extract {V : Type} (sites : List String) (p : SiteField V) :
    (∀ q, extractSites sites p = some q → ∀ s v, valueOfSite q s v ↔ s ∈ sites ∧ valueOfSite p s v) ∧
    (extractSites sites p = none ↔ ∀ s v, valueOfSite p s v → s ∉ sites) := by
  unfold extractSites
  cases hp : p.ids with
  | none =>
    refine ⟨fun q h => (nomatch h), ⟨fun _ s v => ?_, fun _ => rfl⟩⟩
    rintro ⟨l, e, _⟩
    rw [hp] at e; exact nomatch e
  | some l =>
    simp only []
    have pl : ∀ s v, valueOfSite p s v ↔ ∃ i : ℕ, l[i]? = some s ∧ p.values[i]? = some v := by
      intro s v
      constructor
      · rintro ⟨l', e, h⟩; rw [hp] at e; injection e with e; subst e; exact h
      · exact fun h => ⟨l, hp, h⟩
    have kp := kept_place (fun s => sites.contains s) l p.values
    constructor
    · intro q h s v
      by_cases he : ((l.zip p.values).filter fun e => sites.contains e.1).isEmpty = true
      · rw [if_pos he] at h; exact nomatch h
      · rw [if_neg he] at h
        injection h with h
        rw [← h, pl]
        constructor
        · rintro ⟨l', e, hi⟩
          injection e with e
          rw [← e] at hi
          obtain ⟨h1, h2⟩ := (kp s v).1 hi
          exact ⟨List.contains_iff_mem.1 h1, h2⟩
        · rintro ⟨h1, h2⟩
          exact ⟨_, rfl, (kp s v).2 ⟨List.contains_iff_mem.2 h1, h2⟩⟩
    · constructor
      · intro h s v hv hs
        by_cases he : ((l.zip p.values).filter fun e => sites.contains e.1).isEmpty = true
        · obtain ⟨i, h1, _⟩ := (kp s v).2 ⟨List.contains_iff_mem.2 hs, (pl s v).1 hv⟩
          rw [List.isEmpty_iff.1 he] at h1; simp at h1
        · rw [if_neg he] at h; exact nomatch h
      · intro h
        rw [if_pos]
        rw [List.isEmpty_iff, List.filter_eq_nil_iff]
        rintro ⟨s, v⟩ hm hc
        obtain ⟨i, hi⟩ := List.getElem?_of_mem hm
        rw [List.getElem?_zip_eq_some] at hi
        exact h s v ((pl s v).2 ⟨i, hi.1, hi.2⟩) (List.contains_iff_mem.1 hc)

/-- **C284** (estimation, same order): a predictor that lists the sites of the truths in their order is used with exactly these sites. -/
theorem C284_aligned {V : Type} (sites : List String) (p q : SiteField V) (l : List String) (hp : p.ids = some l) (hl : p.values.length = l.length)
    (ho : l.filter (fun s => sites.contains s) = sites) (h : extractSites sites p = some q) : q.ids = some sites := by
  unfold extractSites at h
  rw [hp] at h
  simp only [] at h
  by_cases he : ((l.zip p.values).filter fun e => sites.contains e.1).isEmpty = true
  · rw [if_pos he] at h; exact nomatch h
  · rw [if_neg he] at h
    injection h with h
    rw [← h]
    have : ((l.zip p.values).filter fun e => sites.contains e.1).map Prod.fst = l.filter fun s => sites.contains s := by
      have e : (fun e : String × V => sites.contains e.1) = (fun s => sites.contains s) ∘ Prod.fst := rfl
      rw [e, ← List.filter_map, List.map_fst_zip (by omega)]
    simp only []
    rw [this, ho]

/-- **C284** (estimation, all predictors): every predictor is reduced to the sites of the truths and none is dropped; when one of them has none of these sites the
estimation is refused. -/
theorem C284_table_predictors {V : Type} (sites : List String) (fields : List (SiteField V)) :
    ((∃ p ∈ fields, ∀ s v, valueOfSite p s v → s ∉ sites) → tablePredictors sites fields = .error .valueError) ∧
    (∀ out, tablePredictors sites fields = .ok out → List.Forall₂ (fun p q => ∀ s v, valueOfSite q s v ↔ s ∈ sites ∧ valueOfSite p s v) fields out) := by
  have step : ∀ (p : SiteField V) (rest : List (SiteField V)), tablePredictors sites (p :: rest) =
      match extractSites sites p with
      | none => .error .valueError
      | some q => match tablePredictors sites rest with
        | .error e => .error e
        | .ok out => .ok (q :: out) := by
    intro p rest
    have e : tablePredictors sites (p :: rest) = (match extractSites sites p with | none => .error .valueError | some q => .ok q : Except Err (SiteField V)).bind
        fun q => (tablePredictors sites rest).bind fun out => .ok (q :: out) := by
      unfold tablePredictors
      rw [List.mapM_cons]
      rfl
    rw [e]
    cases extractSites sites p with
    | none => rfl
    | some q => cases tablePredictors sites rest <;> rfl
  constructor
  · rintro ⟨p, hp, hn⟩
    induction fields with
    | nil => exact absurd hp (by simp)
    | cons a rest ih =>
      rw [step]
      cases he : extractSites sites a with
      | none => rfl
      | some q =>
        dsimp only
        rcases List.mem_cons.1 hp with rfl | hp
        · rw [(C284_extract sites p).2.2 hn] at he; exact nomatch he
        · rw [ih hp]
  · induction fields with
    | nil => intro out h; injection h with h; rw [← h]; exact .nil
    | cons a rest ih =>
      intro out h
      rw [step] at h
      cases he : extractSites sites a with
      | none => rw [he] at h; exact nomatch h
      | some q =>
        rw [he] at h
        dsimp only at h
        cases hr : tablePredictors sites rest with
        | error e => rw [hr] at h; exact nomatch h
        | ok out' =>
          rw [hr] at h
          injection h with h
          rw [← h]
          exact .cons ((C284_extract sites a).1 q he) (ih out' hr)

/-- **C284** (estimation, another order): the predictors taken for estimation from a table need not have the sites in the order of the truths, and nothing checks that they do. -/
theorem C284_order_refuted : ¬ ∀ (sites : List String) (fields out : List (SiteField ℚ)), (∀ p ∈ fields, properSites p ∧ ∀ s ∈ sites, ∃ v, valueOfSite p s v) →
    tablePredictors sites fields = .ok out → ∀ q ∈ out, q.ids = some sites := by
  intro h
  have hv : (tablePredictors (V := ℚ) ["A", "B"] [⟨some ["B", "A"], [1, 2]⟩]) = .ok [⟨some ["B", "A"], [1, 2]⟩] := rfl
  have := h ["A", "B"] [⟨some ["B", "A"], [1, 2]⟩] _ (by
    intro p hp
    rw [List.mem_singleton] at hp
    subst hp
    refine ⟨⟨_, rfl, by decide, rfl⟩, fun s hs => ?_⟩
    rcases List.mem_cons.1 hs with rfl | hs
    · exact ⟨2, _, rfl, 1, rfl, rfl⟩
    · rw [List.mem_singleton] at hs; subst hs
      exact ⟨1, _, rfl, 0, rfl, rfl⟩) hv ⟨some ["B", "A"], [1, 2]⟩ (by simp)
  have := Option.some.inj this
  revert this
  decide

/-- **C284** (empty message): a refusal need not name any site: the same sites in another order are refused with an empty list. -/
theorem C284_message_refuted : ¬ ∀ (forecast : SiteField ℚ) (fields : List (SiteField ℚ)) (r : SiteRefusal), checkFieldSites forecast fields = .ok (some r) → r.mismatching ≠ [] := by
  intro h
  have hv : checkFieldSites (V := ℚ) ⟨some ["A", "B"], [1, 2]⟩ [⟨some ["B", "A"], [2, 1]⟩] = .ok (some ⟨[]⟩) := rfl
  exact h _ _ _ hv rfl

example : (emosPredictors (V := ℚ) ⟨some ["A", "B"], [1, 2]⟩ [⟨some ["A", "B"], [5, 6]⟩]).toOption.map (fun g => g 1) = some [some 2, some 6] := by decide +kernel
example : checkFieldSites (V := ℚ) ⟨some ["A", "B"], [1, 2]⟩ [⟨some ["A", "C"], [5, 6]⟩] = .ok (some ⟨["C", "B"]⟩) := rfl
example : rescaleSites ["A", "B"] ["A", "B"] [10, 20] [2, 3] = .ok [20, 60] := by decide +kernel
example : (extractSites (V := ℚ) ["A", "C"] ⟨some ["C", "B", "A"], [1, 2, 3]⟩).map (fun q => (q.ids, q.values)) = some (some ["C", "A"], [1, 3]) := by decide +kernel

end Improver
