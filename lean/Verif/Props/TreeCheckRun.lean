import Verif.Props.TreeCheck

/-!
C204, C206: the whole check of a decision tree.
-/

namespace Improver

open Spec

theorem leafValues_nodup (entries : List (String × RawEntry)) (hnd : (entries.map Prod.fst).Nodup) :
    (leafValues entries).Nodup ↔ ∀ s l s' l', (s, RawEntry.leaf l) ∈ entries → (s', RawEntry.leaf l') ∈ entries →
      l.value = l'.value → s = s' := by
  unfold leafValues
  have hmem : ∀ (es : List (String × RawEntry)) v, v ∈ es.filterMap (fun e => leafValue e.2) ↔ ∃ s l, (s, RawEntry.leaf l) ∈ es ∧ l.value = v := by
    intro es v
    rw [List.mem_filterMap]
    constructor
    · rintro ⟨⟨s, e⟩, he, hv⟩
      cases e with
      | node n => nomatch hv
      | leaf l => exact ⟨s, l, he, Option.some.inj hv⟩
    · rintro ⟨s, l, he, rfl⟩
      exact ⟨_, he, rfl⟩
  induction entries with
  | nil => simp
  | cons x es ih =>
    rw [List.map_cons, List.nodup_cons] at hnd
    obtain ⟨s, e⟩ := x
    rw [List.filterMap_cons]
    cases e with
    | node n =>
      dsimp only [leafValue]
      refine (ih hnd.2).trans ?_
      simp
    | leaf l =>
      show (l.value :: es.filterMap fun e => leafValue e.2).Nodup ↔ _
      rw [List.nodup_cons, hmem]
      refine (and_congr Iff.rfl (ih hnd.2)).trans ?_
      constructor
      · rintro ⟨h1, h2⟩ a la b lb ha hb hv
        rcases List.mem_cons.1 ha with ha | ha
        · rcases List.mem_cons.1 hb with hb | hb
          · exact (congrArg Prod.fst ha).trans (congrArg Prod.fst hb).symm
          · cases ha
            exact absurd ⟨b, lb, hb, hv.symm⟩ h1
        · rcases List.mem_cons.1 hb with hb | hb
          · cases hb
            exact absurd ⟨a, la, ha, hv⟩ h1
          · exact h2 a la b lb ha hb hv
      · intro h
        refine ⟨?_, fun a la b lb ha hb hv => h a la b lb (List.mem_cons_of_mem _ ha) (List.mem_cons_of_mem _ hb) hv⟩
        rintro ⟨b, lb, hb, hv⟩
        have := h b lb s l (List.mem_cons_of_mem _ hb) (by simp) hv
        subst this
        exact hnd.1 (List.mem_map.2 ⟨_, hb, rfl⟩)

/-! ## Inputs -/

theorem mem_needs_some (target : Option ℚ) (t : RawTree) (d : String) (thr : Thr) :
    (d, some thr) ∈ (t.entries.map (doneOf target)).flatMap entryNeeds ↔ Needs target t d thr := by
  unfold Needs
  rw [List.mem_flatMap]
  constructor
  · rintro ⟨x, hx, hm⟩
    obtain ⟨⟨s, e⟩, he, rfl⟩ := List.mem_map.1 hx
    cases e with
    | leaf l => simp [doneOf, entryNeeds] at hm
    | node n =>
      cases hd : n.deterministic with
      | true => simp [doneOf, entryNeeds, hd] at hm
      | false =>
        refine ⟨s, n, he, hd, ?_⟩
        simp only [doneOf, entryNeeds, hd, Bool.false_eq_true, if_false, List.mem_map, Prod.mk.injEq, Option.some.injEq] at hm
        obtain ⟨p, hp, h1, h2⟩ := hm
        simp only [entryThr, hd, Bool.false_eq_true, if_false, expandNested_eq, items_nestMap, diagnostics_eq] at hp
        rw [← h1, ← h2]
        exact hp
  · rintro ⟨s, n, he, hd, hm⟩
    refine ⟨_, List.mem_map.2 ⟨_, he, rfl⟩, ?_⟩
    simp only [doneOf, entryNeeds, hd, Bool.false_eq_true, if_false, List.mem_map, Prod.mk.injEq, Option.some.injEq]
    refine ⟨(d, thr), ?_, rfl, rfl⟩
    simp only [entryThr, hd, Bool.false_eq_true, if_false, expandNested_eq, items_nestMap, diagnostics_eq]
    exact hm

/-- A deterministic node of the tree needs the diagnostic. -/
def Spec.NeedsPlain (t : RawTree) (d : String) : Prop :=
  ∃ name n, (name, RawEntry.node n) ∈ t.entries ∧ n.deterministic = true ∧ d ∈ Spec.diagnostics n

theorem mem_needs_none (target : Option ℚ) (t : RawTree) (d : String) :
    (d, none) ∈ (t.entries.map (doneOf target)).flatMap entryNeeds ↔ NeedsPlain t d := by
  unfold NeedsPlain
  rw [List.mem_flatMap]
  constructor
  · rintro ⟨x, hx, hm⟩
    obtain ⟨⟨s, e⟩, he, rfl⟩ := List.mem_map.1 hx
    cases e with
    | leaf l => simp [doneOf, entryNeeds] at hm
    | node n =>
      cases hd : n.deterministic with
      | false => simp [doneOf, entryNeeds, hd] at hm
      | true =>
        refine ⟨s, n, he, hd, ?_⟩
        simpa [doneOf, entryNeeds, hd, diagnostics_eq] using hm
  · rintro ⟨s, n, he, hd, hm⟩
    refine ⟨_, List.mem_map.2 ⟨_, he, rfl⟩, ?_⟩
    simpa [doneOf, entryNeeds, hd, diagnostics_eq] using hm

theorem mem_thresholdsOf (needs : List (String × Option Thr)) (d : String) (thr : Thr) :
    thr ∈ thresholdsOf needs d ↔ (d, some thr) ∈ needs := by
  unfold thresholdsOf
  rw [List.mem_filterMap]
  constructor
  · rintro ⟨⟨a, b⟩, hx, h⟩
    dsimp only at h
    by_cases ha : a = d
    · rw [if_pos ha] at h
      rw [← ha, ← h]
      exact hx
    · rw [if_neg ha] at h; nomatch h
  · intro h
    exact ⟨_, h, by simp⟩

theorem sortedOnce_spec {α : Type} [LinearOrder α] (l : List α) :
    (sortedOnce l).Pairwise (· < ·) ∧ ∀ a, a ∈ sortedOnce l ↔ a ∈ l := by
  unfold sortedOnce
  constructor
  · have h1 := List.pairwise_insertionSort (· ≤ ·) l.dedup
    have h2 : (l.dedup.insertionSort (· ≤ ·)).Nodup := (List.perm_insertionSort _ _).nodup_iff.2 l.nodup_dedup
    exact (h1.and h2).imp fun h => lt_of_le_of_ne h.1 h.2
  · intro a
    rw [(List.perm_insertionSort _ _).mem_iff, List.mem_dedup]

/-- The line for a diagnostic is right: sorted thresholds in the same units. -/
theorem requirementLine_ok (needs : List (String × Option Thr)) (d : String) (r : String × String × List ℚ) :
    requirementLine needs d = .ok r ↔ r.1 = d ∧ (∃ thr, (d, some thr) ∈ needs) ∧
      (∀ thr, (d, some thr) ∈ needs → thr.units = r.2.1) ∧ r.2.2 = sortedOnce ((thresholdsOf needs d).map Thr.value) := by
  unfold requirementLine
  simp only [← mem_thresholdsOf needs d]
  cases ht : thresholdsOf needs d with
  | nil => simp
  | cons x xs =>
    simp only [List.map_cons]
    by_cases hall : (xs.map Thr.units).all (fun y => decide (y = x.units)) = true
    · rw [if_pos hall]
      simp only [List.all_eq_true, List.mem_map, decide_eq_true_eq] at hall
      constructor
      · intro h
        obtain rfl := Except.ok.inj h
        refine ⟨rfl, ⟨x, by simp⟩, fun y hy => ?_, rfl⟩
        rcases List.mem_cons.1 hy with rfl | hy
        · rfl
        · exact hall _ ⟨y, hy, rfl⟩
      · rintro ⟨h1, _, h3, h4⟩
        obtain ⟨a, b, c⟩ := r
        simp only at h1 h3 h4
        rw [h1, ← h3 x (by simp), h4]
    · rw [if_neg hall]
      simp only [List.all_eq_true, List.mem_map, decide_eq_true_eq] at hall
      simp only [reduceCtorEq, false_iff]
      rintro ⟨_, _, h3, _⟩
      apply hall
      rintro u ⟨y, hy, rfl⟩
      rw [h3 y (List.mem_cons_of_mem _ hy), h3 x (by simp)]

theorem interrogate_ok_iff (target : Option ℚ) (t : RawTree) :
    (∃ r, interrogate (t.entries.map (doneOf target)) = .ok r) ↔
      ∀ d thr thr', Needs target t d thr → Needs target t d thr' → thr.units = thr'.units := by
  unfold interrogate
  simp only [bind, Except.bind]
  simp only [← mem_needs_some]
  generalize (t.entries.map (doneOf target)).flatMap entryNeeds = needs
  constructor
  · rintro ⟨r, h⟩ d thr thr' h1 h2
    cases hm : (sortedOnce ((needs.filter fun x => x.2.isSome).map Prod.fst)).mapM (requirementLine needs) with
    | error e => rw [hm] at h; nomatch h
    | ok lines =>
      have hd : d ∈ sortedOnce ((needs.filter fun x => x.2.isSome).map Prod.fst) := by
        rw [(sortedOnce_spec _).2]
        exact List.mem_map.2 ⟨_, List.mem_filter.2 ⟨h1, rfl⟩, rfl⟩
      have hf := mapM_ok_forall₂ hm
      obtain ⟨i, hi, hie⟩ := List.mem_iff_getElem.1 hd
      have hi' : i < lines.length := by rw [← hf.length_eq]; exact hi
      have hr := (List.forall₂_iff_get.1 hf).2 i hi hi'
      simp only [List.get_eq_getElem, hie] at hr
      obtain ⟨_, _, h3, _⟩ := (requirementLine_ok needs d _).1 hr
      rw [h3 _ h1, h3 _ h2]
  · intro h
    have : ∀ d ∈ sortedOnce ((needs.filter fun x => x.2.isSome).map Prod.fst), ∃ r, requirementLine needs d = .ok r := by
      intro d hd
      rw [(sortedOnce_spec _).2] at hd
      obtain ⟨⟨a, b⟩, hx, rfl⟩ := List.mem_map.1 hd
      obtain ⟨hx, hb⟩ := List.mem_filter.1 hx
      obtain ⟨thr, rfl⟩ := Option.isSome_iff_exists.1 hb
      exact ⟨(a, thr.units, _), (requirementLine_ok needs a _).2
        ⟨rfl, ⟨thr, hx⟩, fun thr' h' => h a thr' thr h' hx, rfl⟩⟩
    obtain ⟨lines, hl⟩ : ∃ lines, (sortedOnce ((needs.filter fun x => x.2.isSome).map Prod.fst)).mapM (requirementLine needs) =
        .ok lines := by
      revert this
      generalize sortedOnce ((needs.filter fun x => x.2.isSome).map Prod.fst) = ds
      induction ds with
      | nil => intro _; exact ⟨[], rfl⟩
      | cons d ds ih =>
        intro hds
        obtain ⟨r, hr⟩ := hds d (by simp)
        obtain ⟨ls, hls⟩ := ih fun x hx => hds x (List.mem_cons_of_mem _ hx)
        refine ⟨r :: ls, ?_⟩
        rw [List.mapM_cons, hr, hls]
        rfl
    rw [hl]
    exact ⟨_, rfl⟩

/-! ## The check -/

theorem checkTree_inputs (target : Option ℚ) (t : RawTree) (det : List String) (prob : List (String × String × List ℚ)) :
    checkTree target t = .ok (.inputs det prob) ↔ ∃ first rest, t.entries = first :: rest ∧
      (∀ e ∈ t.entries, entryOk target e.2) ∧
      (∀ e ∈ t.entries, entryIssues t.entries first.1 (doneOf target e) = .ok []) ∧
      metaIssues t.metaKeys = [] ∧ duplicateIssues t.entries = [] ∧
      interrogate (t.entries.map (doneOf target)) = .ok (det, prob) := by
  unfold checkTree
  cases ht : t.entries with
  | nil => simp
  | cons first rest =>
    simp only [bind, Except.bind]
    constructor
    · intro h
      cases hu : updateThresholds target (first :: rest) with
      | error e => rw [hu] at h; nomatch h
      | ok done =>
        obtain ⟨hok, rfl⟩ := (updateThresholds_ok target _ _).1 hu
        rw [hu] at h
        dsimp only at h
        cases hm : ((first :: rest).map (doneOf target)).mapM (entryIssues (first :: rest) first.1) with
        | error e => rw [hm] at h; nomatch h
        | ok each =>
          rw [hm] at h
          dsimp only at h
          by_cases hi : metaIssues t.metaKeys ++ duplicateIssues (first :: rest) ++ each.flatten = []
          · rw [if_pos hi] at h
            simp only [List.append_eq_nil_iff] at hi
            obtain ⟨⟨h1, h2⟩, h3⟩ := hi
            cases hr : interrogate ((first :: rest).map (doneOf target)) with
            | error e => rw [hr] at h; nomatch h
            | ok r =>
              rw [hr] at h
              dsimp only at h
              have hinj := Except.ok.inj h
              injection hinj with ha hb
              refine ⟨first, rest, rfl, hok, ?_, h1, h2, by rw [← ha, ← hb]⟩
              have := (mapM_flatten_nil (entryIssues (first :: rest) first.1) ((first :: rest).map (doneOf target))).1
                (by rw [hm]; exact congrArg Except.ok h3)
              intro e he
              exact this _ (List.mem_map.2 ⟨e, he, rfl⟩)
          · rw [if_neg hi] at h
            nomatch Except.ok.inj h
    · rintro ⟨f, r, h0, hok, hiss, h1, h2, hr⟩
      cases h0
      rw [(updateThresholds_ok target _ _).2 ⟨hok, rfl⟩]
      dsimp only
      have hm := (mapM_flatten_nil (entryIssues (first :: rest) first.1) ((first :: rest).map (doneOf target))).2 (by
        intro d hd
        obtain ⟨e, he, rfl⟩ := List.mem_map.1 hd
        exact hiss e he)
      cases hmm : ((first :: rest).map (doneOf target)).mapM (entryIssues (first :: rest) first.1) with
      | error e => rw [hmm] at hm; nomatch hm
      | ok each =>
        rw [hmm] at hm
        have hfl : each.flatten = [] := Except.ok.inj hm
        dsimp only
        rw [h1, h2, hfl, if_pos (by rfl), hr]

/-- **C204**: for a tree whose entries have different names, the check finds no issue (and lists the inputs needed) exactly if
the tree is as `Spec.TreeChecked` says. -/
theorem C204_accepted (target : Option ℚ) (t : RawTree) (hnd : (t.entries.map Prod.fst).Nodup) :
    (∃ det prob, checkTree target t = .ok (.inputs det prob)) ↔ TreeChecked target t := by
  have hdup : duplicateIssues t.entries = [] ↔ (leafValues t.entries).Nodup := by
    unfold duplicateIssues
    by_cases h : (leafValues t.entries).Nodup
    · rw [if_pos h]; simp [h]
    · rw [if_neg h]; simp [h]
  constructor
  · rintro ⟨det, prob, h⟩
    obtain ⟨first, rest, ht, hok, hiss, h1, h2, hr⟩ := (checkTree_inputs target t det prob).1 h
    refine ⟨by rw [ht]; simp, (metaIssues_nil _).1 h1, fun name n hn => ?_, fun name l hl => ?_,
      (leafValues_nodup _ hnd).1 (hdup.1 h2), (interrogate_ok_iff target t).1 ⟨_, hr⟩⟩
    · exact (nodeIssues_nil target t first rest ht hnd name n hn).1 ⟨hok _ hn, hiss _ hn⟩
    · exact (leafIssues_nil t hnd name l hl).1 (Except.ok.inj (hiss _ hl))
  · rintro ⟨h0, h1, h2, h3, h4, h5⟩
    obtain ⟨r, hr⟩ := (interrogate_ok_iff target t).2 h5
    obtain ⟨first, rest, ht⟩ := List.exists_cons_of_ne_nil h0
    have hnode : ∀ name n, (name, RawEntry.node n) ∈ t.entries → _ := fun name n hn =>
      (nodeIssues_nil target t first rest ht hnd name n hn).2 (h2 name n hn)
    refine ⟨r.1, r.2, (checkTree_inputs target t r.1 r.2).2 ⟨first, rest, ht, ?_, ?_, (metaIssues_nil _).2 h1,
      hdup.2 ((leafValues_nodup _ hnd).2 h4), hr⟩⟩
    · rintro ⟨name, e⟩ he
      cases e with
      | leaf l => trivial
      | node n => exact (hnode name n he).1
    · rintro ⟨name, e⟩ he
      cases e with
      | leaf l => exact congrArg Except.ok ((leafIssues_nil t hnd name l he).2 (h3 name l he))
      | node n => exact (hnode name n he).2

/-- **C206**: the inputs listed for an accepted tree are the deterministic diagnostics in alphabetical order, and for each
diagnostic needed as probabilities, in alphabetical order and once, the units and the thresholds in ascending order, which are
all thresholds for which a node needs it. -/
theorem C206_listed (target : Option ℚ) (t : RawTree) (det : List String) (prob : List (String × String × List ℚ))
    (h : checkTree target t = .ok (.inputs det prob)) :
    (det.Pairwise (· ≤ ·) ∧ ∀ d, d ∈ det ↔ NeedsPlain t d) ∧
    (prob.map Prod.fst).Pairwise (· < ·) ∧
    (∀ d, d ∈ prob.map Prod.fst ↔ ∃ thr, Needs target t d thr) ∧
    ∀ d u vs, (d, u, vs) ∈ prob → vs.Pairwise (· < ·) ∧
      ∀ v u', (v ∈ vs ∧ u' = u) ↔ Needs target t d ⟨v, u'⟩ := by
  obtain ⟨first, rest, ht, hok, hiss, h1, h2, hr⟩ := (checkTree_inputs target t det prob).1 h
  unfold interrogate at hr
  simp only [bind, Except.bind] at hr
  simp only [← mem_needs_none target, ← mem_needs_some]
  revert hr
  generalize (t.entries.map (doneOf target)).flatMap entryNeeds = needs
  intro hr
  cases hm : (sortedOnce ((needs.filter fun x => x.2.isSome).map Prod.fst)).mapM (requirementLine needs) with
  | error e => rw [hm] at hr; nomatch hr
  | ok lines =>
    rw [hm] at hr
    have hinj := Except.ok.inj hr
    obtain ⟨rfl, rfl⟩ := Prod.mk.inj hinj
    have hf := mapM_ok_forall₂ hm
    have hfst : lines.map Prod.fst = sortedOnce ((needs.filter fun x => x.2.isSome).map Prod.fst) := by
      clear hm hr hinj h
      revert hf
      generalize sortedOnce ((needs.filter fun x => x.2.isSome).map Prod.fst) = ds
      intro hf
      induction hf with
      | nil => rfl
      | cons hd _ ih => rw [List.map_cons, ((requirementLine_ok needs _ _).1 hd).1]; exact congrArg _ ih
    refine ⟨⟨List.pairwise_insertionSort _ _, fun d => ?_⟩, ?_, fun d => ?_, fun d u vs hmem => ?_⟩
    · rw [(List.perm_insertionSort _ _).mem_iff, List.mem_map]
      constructor
      · rintro ⟨⟨a, b⟩, hx, rfl⟩
        obtain ⟨hx, hb⟩ := List.mem_filter.1 hx
        rw [Option.isNone_iff_eq_none] at hb
        rw [← hb]; exact hx
      · intro hd
        exact ⟨_, List.mem_filter.2 ⟨hd, rfl⟩, rfl⟩
    · rw [hfst]; exact (sortedOnce_spec _).1
    · rw [hfst, (sortedOnce_spec _).2, List.mem_map]
      constructor
      · rintro ⟨⟨a, b⟩, hx, rfl⟩
        obtain ⟨hx, hb⟩ := List.mem_filter.1 hx
        obtain ⟨thr, hthr⟩ := Option.isSome_iff_exists.1 hb
        exact ⟨thr, by rw [← hthr]; exact hx⟩
      · rintro ⟨thr, hx⟩
        exact ⟨_, List.mem_filter.2 ⟨hx, rfl⟩, rfl⟩
    · obtain ⟨i, hi, hie⟩ := List.mem_iff_getElem.1 hmem
      have hi' : i < (sortedOnce ((needs.filter fun x => x.2.isSome).map Prod.fst)).length := by rw [hf.length_eq]; exact hi
      have hline := (List.forall₂_iff_get.1 hf).2 i hi' hi
      simp only [List.get_eq_getElem, hie] at hline
      obtain ⟨a1, a2, a3, a4⟩ := (requirementLine_ok needs _ _).1 hline
      simp only at a1 a3 a4
      rw [← a1] at a2 a3 a4
      rw [a4]
      refine ⟨(sortedOnce_spec _).1, fun v u' => ?_⟩
      rw [(sortedOnce_spec _).2, List.mem_map]
      constructor
      · rintro ⟨⟨thr, hthr, rfl⟩, rfl⟩
        rw [mem_thresholdsOf] at hthr
        rw [← a3 _ hthr]
        exact hthr
      · intro hn
        exact ⟨⟨_, (mem_thresholdsOf _ _ _).2 hn, rfl⟩, a3 _ hn⟩

end Improver
