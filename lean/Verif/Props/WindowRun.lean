import Verif.Model.WindowRun
import Verif.Props.CombineRun
import Verif.Props.Checker

/-! C263: the maximum over a time window. -/

namespace Improver

/-- The diagnostic named in the cell methods: for probabilities that of the threshold. -/
def Spec.windowDiagnostic (c : CombineIn) : Option String :=
  if "probability_of".toList <+: c.name.toList then c.threshold else some c.name

/-- The inputs describe periods of `d` seconds. -/
def Spec.windowPeriods (d : ℚ) (cubes : List CombineIn) : Prop :=
  ∀ c ∈ cubes, ∃ s lo, c.scalars.lookup "time" = some s ∧ s.bounds = some (lo, lo + d)

/-- Scalar coordinates that differ have bounds on all cubes or on none. -/
def Spec.windowScalars (cubes : List CombineIn) : Prop :=
  ∀ n, Spec.Differs cubes n → (∀ c ∈ cubes, ∀ s, c.scalars.lookup n = some s → s.bounds ≠ none) ∨ ∀ c ∈ cubes, ∀ s, c.scalars.lookup n = some s → s.bounds = none

theorem forall₂_lookup {b : Bool} {cubes : List CombineIn} {l m : List (String × SCoord ℚ)} (h : List.Forall₂ (Spec.ScalarOut b cubes) l m) (n : String)
    (s : SCoord ℚ) (hs : l.lookup n = some s) : ∃ q, m.lookup n = some q ∧ Spec.ScalarOut b cubes (n, s) (n, q) := by
  induction h with
  | nil => exact nomatch hs
  | @cons x y l m hxy _ ih =>
    obtain ⟨x1, x2⟩ := x
    obtain ⟨y1, y2⟩ := y
    have he : y1 = x1 := hxy.1
    subst he
    by_cases hn : n = y1
    · subst hn
      rw [List.lookup_cons_self] at hs
      injection hs with hs
      subst hs
      exact ⟨y2, List.lookup_cons_self, hxy⟩
    · have hb : (n == y1) = false := beq_eq_false_iff_ne.2 hn
      simp only [List.lookup, hb] at hs ⊢
      exact ih hs

theorem expanded_exists (coords : List (SCoord ℚ)) (hne : coords ≠ []) (h : (∀ s ∈ coords, s.bounds ≠ none) ∨ ∀ s ∈ coords, s.bounds = none) :
    ∃ s, Spec.Expanded coords s := by
  have key : ∃ vals, boundVals coords = .ok vals ∧ vals ≠ [] := by
    unfold boundVals
    obtain ⟨c, l, rfl⟩ : ∃ c l, coords = c :: l := by
      cases coords with
      | nil => exact absurd rfl hne
      | cons c l => exact ⟨c, l, rfl⟩
    rcases h with h | h
    · rw [if_neg]
      · refine ⟨_, rfl, ?_⟩
        have := h c (by simp)
        rw [List.flatMap_cons]
        unfold SCoord.ends
        cases hb : c.bounds with
        | none => exact absurd hb this
        | some b => simp
      · intro hc
        obtain ⟨s, hs, hs'⟩ := List.any_eq_true.1 hc
        exact h s hs (Option.isNone_iff_eq_none.1 hs')
    · rw [if_pos, if_neg]
      · exact ⟨_, rfl, by simp⟩
      · rw [not_not, List.all_eq_true]
        intro s hs
        rw [h s hs]
        rfl
      · rw [List.any_eq_true]
        exact ⟨c, by simp, by rw [h c (by simp)]; rfl⟩
  obtain ⟨vals, hv, hvne⟩ := key
  obtain ⟨lo, hi, h1, -⟩ := expand_of_vals coords vals hv hvne
  exact ⟨_, (expandBounds_iff coords hne _).1 h1⟩

theorem scalars_exist (cubes : List CombineIn) (hne : cubes ≠ []) (h : Spec.windowScalars cubes) (l : List (String × SCoord ℚ)) :
    ∃ m, List.Forall₂ (Spec.ScalarOut true cubes) l m := by
  induction l with
  | nil => exact ⟨[], .nil⟩
  | cons x l ih =>
    obtain ⟨m, hm⟩ := ih
    by_cases hd : Spec.Differs cubes x.1
    · have hne' : (cubes.filterMap fun c => c.scalars.lookup x.1) ≠ [] := by
        obtain ⟨c, l', rfl⟩ : ∃ c l', cubes = c :: l' := by
          cases cubes with
          | nil => exact absurd rfl hne
          | cons c l' => exact ⟨c, l', rfl⟩
        obtain ⟨s, hs⟩ := hd.1 c (by simp)
        rw [List.filterMap_cons, hs]
        simp
      obtain ⟨s, hs⟩ := expanded_exists _ hne' (by
        rcases h x.1 hd with h | h
        · left
          intro s hs
          obtain ⟨c, hc, hcs⟩ := List.mem_filterMap.1 hs
          exact h c hc s hcs
        · right
          intro s hs
          obtain ⟨c, hc, hcs⟩ := List.mem_filterMap.1 hs
          exact h c hc s hcs)
      exact ⟨(x.1, s) :: m, .cons ⟨rfl, Or.inl ⟨rfl, hd, hs⟩⟩ hm⟩
    · exact ⟨(x.1, x.2) :: m, .cons ⟨rfl, Or.inr ⟨Or.inr hd, rfl⟩⟩ hm⟩

theorem boundsInHours_all (d : ℚ) (cubes : List CombineIn) (h : Spec.windowPeriods d cubes) :
    ∃ bs : List (ℚ × ℚ), cubes.mapM boundsInHours = .ok (bs.map some) ∧ bs.length = cubes.length ∧ ∀ b ∈ bs, b.2 - b.1 = d / 3600 := by
  induction cubes with
  | nil => exact ⟨[], rfl, rfl, by simp⟩
  | cons c cubes ih =>
    obtain ⟨bs, h1, h2, h3⟩ := ih fun c hc => h c (by simp [hc])
    obtain ⟨s, lo, hs, hb⟩ := h c (by simp)
    have hc : boundsInHours c = .ok (some (lo / 3600, (lo + d) / 3600)) := by
      unfold boundsInHours scalarOf
      rw [hs]
      simp only
      rw [hb]
      rfl
    refine ⟨(lo / 3600, (lo + d) / 3600) :: bs, ?_, by simp [h2], ?_⟩
    · rw [List.mapM_cons, hc, h1]
      rfl
    · intro b hb
      rcases List.mem_cons.1 hb with rfl | hb
      · show (lo + d) / 3600 - lo / 3600 = d / 3600
        ring
      · exact h3 b hb

theorem thePeriod_same (bs : List (ℚ × ℚ)) (d : ℚ) (hne : bs ≠ []) (h : ∀ b ∈ bs, b.2 - b.1 = d) : thePeriod (bs.map some) = .ok d := by
  have hl : (bs.map some).filterMap (fun b => b.map fun p : ℚ × ℚ => p.2 - p.1) = List.replicate bs.length d := by
    clear hne
    induction bs with
    | nil => rfl
    | cons b bs ih =>
      rw [List.map_cons, List.filterMap_cons]
      simp only [Option.map_some]
      rw [h b (by simp), ih fun b hb => h b (by simp [hb])]
      rfl
  unfold thePeriod
  rw [hl, List.replicate_dedup (by simpa using hne)]

/-- C263.  Periods of one length are combined to the maximum: at every place the largest of the values there (masked if one is), with the coordinates and name of the
first cube, a time that covers all periods, and cell methods for the sum over the period and the maximum, in place of any such before. -/
theorem C263_result (first : CombineIn) (cs : List CombineIn) (d : ℚ) (g : String) (hcs : cs ≠ []) (hn : first.dims.Nodup) (hth : "threshold" ∉ first.dims)
    (hc : ∀ c ∈ cs, Spec.Combinable none first c) (hasc : Spec.RealizationsAscend none first) (hd : Spec.windowPeriods d (first :: cs))
    (hd0 : 0 ≤ d) (hg : Spec.windowDiagnostic first = some g) (hsc : Spec.windowScalars (first :: cs)) :
    ∃ out, maxWindow (first :: cs) = .ok out ∧ out.dims = first.dims ∧ (∀ e ∈ first.dims, out.points e = first.points e) ∧ out.name = first.name ∧
      (∀ a, Spec.Inside first.toPointCube first.dims a →
        ((∃ c ∈ first :: cs, Spec.placeValue c.toDimCube a = none) → Spec.placeValue out.toDimCube a = none) ∧
        ∀ vals : List ℚ, (first :: cs).map (fun c => Spec.placeValue c.toDimCube a) = vals.map some →
          ∃ v ∈ vals, Spec.placeValue out.toDimCube a = some v ∧ ∀ w ∈ vals, w ≤ v) ∧
      (∃ s lo hi, out.scalars.lookup "time" = some s ∧ s.bounds = some (lo, hi) ∧
        Spec.IsHull ((first :: cs).flatMap fun c => match c.scalars.lookup "time" with | some ⟨_, some b⟩ => [b.1, b.2] | _ => []) lo hi) ∧
      out.methods = ((first.methods.filter fun m => decide (m ≠ ("sum", "time") ∧ m ≠ ("maximum", "time"))).map fun m => (m.1, m.2, none)) ++
        [("sum", "time", some ("of " ++ g ++ " over " ++ toString (rintQ (d / 3600)) ++ (if rintQ (d / 3600) = 1 then " hour" else " hours") ++ " within time window")),
         ("maximum", "time", some ("of " ++ g))] := by
  obtain ⟨bs, hb1, hb2, hb3⟩ := boundsInHours_all d _ hd
  have hbne : bs ≠ [] := by
    intro h
    rw [h] at hb2
    simp at hb2
  obtain ⟨r, r2, r3, r4, r5⟩ := C253_result ⟨"max", .max, none, none, true⟩ first cs first.name none hcs hn hth (Or.inl ⟨rfl, rfl⟩) hc hasc
  obtain ⟨m, hm⟩ := scalars_exist (first :: cs) (by simp) hsc first.scalars
  have hrun := (r5 ⟨r, some first.name, m, first.methods⟩ ⟨"max", .max, none, none, true⟩).2 ⟨rfl, by
    unfold Spec.CombineMeta
    rw [if_neg (by decide)]
    exact ⟨rfl, hm, Or.inl ⟨rfl, rfl⟩⟩, rfl⟩
  have hcheck : checkTimeWindow (bs.map some) = .ok () :=
    (C49_time_window _).2 ⟨bs, rfl, fun a ha b hb => by rw [hb3 a ha, hb3 b hb]⟩
  have hdiag : diagnosticOf first.name first.threshold = .ok g := by
    unfold diagnosticOf
    unfold Spec.windowDiagnostic at hg
    by_cases hp : "probability_of".toList <+: first.name.toList
    · rw [if_pos hp] at hg
      rw [if_pos (List.isPrefixOf_iff_prefix.2 hp), hg]
    · rw [if_neg hp] at hg
      rw [if_neg (fun h => hp (List.isPrefixOf_iff_prefix.1 h))]
      injection hg with hg
      rw [hg]
  have hper := thePeriod_same bs (d / 3600) hbne hb3
  have hmeth : windowMethods g (d / 3600) first.methods =
      ((first.methods.filter fun m => decide (m ≠ ("sum", "time") ∧ m ≠ ("maximum", "time"))).map fun m => (m.1, m.2, none)) ++
        [("sum", "time", some ("of " ++ g ++ " over " ++ toString (rintQ (d / 3600)) ++ (if rintQ (d / 3600) = 1 then " hour" else " hours") ++ " within time window")),
         ("maximum", "time", some ("of " ++ g))] := by
    unfold windowMethods sumComment
    congr 2
    apply List.filter_congr
    intro x _
    obtain ⟨x1, x2⟩ := x
    apply decide_eq_decide.2
    simp only [List.mem_cons, List.not_mem_nil, or_false, ne_eq, Prod.mk.injEq]
    by_cases h1 : x1 = "sum" <;> by_cases h2 : x1 = "maximum" <;> by_cases h3 : x2 = "time" <;> simp [h1, h2, h3]
  refine ⟨⟨r, first.name, m, windowMethods g (d / 3600) first.methods⟩, ?_, r2, r3, rfl, ?_, ?_, hmeth⟩
  · unfold maxWindow
    rw [hb1]
    simp only [bind, Except.bind]
    rw [hcheck]
    simp only
    unfold CombinePlugin.process CombinePlugin.resolve
    simp only [bind, Except.bind, Option.getD_none]
    rw [hrun]
    simp only
    unfold correctMetadata
    simp only [List.head?_cons, Option.bind_some, Option.getD_some, bind, Except.bind]
    rw [hdiag]
    simp only
    rw [hper]
  · intro a ha
    have hv := r4 a ha
    have hlen : 2 ≤ ((first :: cs).map fun c => Spec.placeValue c.toDimCube a).length := by
      cases cs with
      | nil => exact absurd rfl hcs
      | cons c l => simp
    constructor
    · rintro ⟨c, hc, hcv⟩
      have := (C49_masked .max (by decide) _ hlen).2 (List.mem_map.2 ⟨c, hc, hcv⟩)
      rw [hv] at this
      injection this
    · intro vals hvals
      rw [hvals] at hv hlen
      match vals, hlen with
      | a' :: b' :: l, _ =>
        obtain ⟨v, h1, h2⟩ := C49_values .max a' b' l
        rw [h1] at hv
        injection hv with hv
        exact ⟨v, h2.1, hv.symm, h2.2⟩
  · obtain ⟨s, lo, hs, hb⟩ := hd first (by simp)
    obtain ⟨q, hq1, -, hq⟩ := forall₂_lookup hm "time" s hs
    simp only at hq
    have hends : ((first :: cs).flatMap fun c => match c.scalars.lookup "time" with | some ⟨_, some b⟩ => [b.1, b.2] | _ => []) =
        (((first :: cs).filterMap fun c => c.scalars.lookup "time").flatMap fun c : SCoord ℚ => (c.bounds.map fun b => [b.1, b.2]).getD []) := by
      clear hq hm hq1 hs hb hcs hc hd r4 r5 hb1 hb2 hrun hsc
      generalize first :: cs = l
      induction l with
      | nil => rfl
      | cons c l ih =>
        rw [List.flatMap_cons, List.filterMap_cons, ih]
        cases c.scalars.lookup "time" with
        | none => rfl
        | some s =>
          obtain ⟨p, _ | b⟩ := s <;> rfl
    rcases hq with ⟨-, -, lo', hi', e, h | h⟩ | ⟨h, e⟩
    · refine ⟨q, lo', hi', hq1, by rw [e], ?_⟩
      rw [hends]
      exact h.2
    · exfalso
      have := h.1 s (List.mem_filterMap.2 ⟨first, by simp, hs⟩)
      rw [hb] at this
      exact nomatch this
    · refine ⟨q, lo, lo + d, hq1, by rw [e]; exact hb, ?_⟩
      have hnd : ¬ Spec.Differs (first :: cs) "time" := by
        rcases h with h | h
        · exact nomatch h
        · exact h
      have hall : ∀ c ∈ first :: cs, c.scalars.lookup "time" = some s := by
        intro c hc'
        by_contra hne
        apply hnd
        refine ⟨fun k hk => ?_, c, hc', first, by simp, fun e => hne (e.trans hs)⟩
        obtain ⟨s', _, h', _⟩ := hd k hk
        exact ⟨s', h'⟩
      have hval : ∀ c ∈ first :: cs, (match c.scalars.lookup "time" with | some ⟨_, some b⟩ => [b.1, b.2] | _ => []) = [lo, lo + d] := by
        intro c hc'
        rw [hall c hc']
        obtain ⟨p, b⟩ := s
        simp only at hb
        rw [hb]
      refine ⟨?_, ?_, ?_⟩
      · exact List.mem_flatMap.2 ⟨first, by simp, by rw [hval first (by simp)]; simp⟩
      · exact List.mem_flatMap.2 ⟨first, by simp, by rw [hval first (by simp)]; simp⟩
      · intro v hv
        obtain ⟨c, hc', hv⟩ := List.mem_flatMap.1 hv
        rw [hval c hc'] at hv
        simp only [List.mem_cons, List.not_mem_nil, or_false] at hv
        rcases hv with rfl | rfl
        · exact ⟨le_refl _, by linarith⟩
        · exact ⟨by linarith, le_refl _⟩

/-- C263.  Only two or more inputs that all have a time with bounds, all of one length, are accepted. -/
theorem C263_refused (cubes : List CombineIn) (out : WindowOut) (h : maxWindow cubes = .ok out) : 2 ≤ cubes.length ∧ ∃ d, Spec.windowPeriods d cubes := by
  unfold maxWindow at h
  cases hb : cubes.mapM boundsInHours with
  | error e => rw [hb] at h; exact nomatch h
  | ok bounds =>
  rw [hb] at h
  simp only [bind, Except.bind] at h
  cases hc : checkTimeWindow bounds with
  | error e => rw [hc] at h; exact nomatch h
  | ok u =>
  rw [hc] at h
  simp only at h
  constructor
  · by_contra hl
    have hl : cubes.length < 2 := by omega
    unfold CombinePlugin.process at h
    match cubes, hl with
    | [], _ => exact nomatch h
    | [c], _ => exact nomatch h
  · obtain ⟨bs, rfl, hsame⟩ := (C49_time_window bounds).1 hc
    have h2 := mapM_ok_forall₂ hb
    rw [List.forall₂_map_right_iff] at h2
    cases bs with
    | nil =>
      cases h2
      exact ⟨0, fun c hc => nomatch hc⟩
    | cons b0 bs =>
      refine ⟨3600 * (b0.2 - b0.1), fun c hcm => ?_⟩
      obtain ⟨b, hbm, hcb⟩ : ∃ b ∈ b0 :: bs, boundsInHours c = .ok (some b) := by
        obtain ⟨i, hi, rfl⟩ := List.getElem_of_mem hcm
        have hi' : i < (b0 :: bs).length := h2.length_eq ▸ hi
        exact ⟨(b0 :: bs)[i], List.getElem_mem _, (List.forall₂_iff_get.1 h2).2 i hi hi'⟩
      unfold boundsInHours scalarOf at hcb
      cases hs : c.scalars.lookup "time" with
      | none => rw [hs] at hcb; exact nomatch hcb
      | some s =>
        rw [hs] at hcb
        simp only at hcb
        injection hcb with hcb
        cases hsb : s.bounds with
        | none => rw [hsb] at hcb; exact nomatch hcb
        | some p =>
          rw [hsb] at hcb
          injection hcb with hcb
          refine ⟨s, p.1, rfl, ?_⟩
          have := hsame b hbm b0 (by simp)
          rw [hsb, ← this, ← hcb]
          simp only
          congr 1
          ext
          · rfl
          · simp only
            ring

/-- C263.  The cell methods do not accumulate: taken again on results, sum and maximum over time are there once each. -/
theorem C263_methods_again (g g' : String) (d d' : ℚ) (methods : List (String × String)) :
    windowMethods g' d' ((windowMethods g d methods).map fun m => (m.1, m.2.1)) = windowMethods g' d' methods := by
  unfold windowMethods
  congr 1
  congr 1
  rw [List.map_append, List.filter_append, List.map_map]
  have : (List.map (fun m : CommentedMethod => (m.1, m.2.1)) [("sum", "time", some (sumComment g d)), ("maximum", "time", some ("of " ++ g))]).filter
      (fun m : String × String => decide (¬ (m.1 ∈ ["sum", "maximum"] ∧ m.2 = "time"))) = [] := by
    simp
  rw [this, List.append_nil]
  have e : (List.map ((fun m : CommentedMethod => (m.1, m.2.1)) ∘ fun m : String × String => (m.1, m.2, none))
      (methods.filter fun m => decide (¬ (m.1 ∈ ["sum", "maximum"] ∧ m.2 = "time")))) =
      (methods.filter fun m => decide (¬ (m.1 ∈ ["sum", "maximum"] ∧ m.2 = "time"))) := by
    conv_rhs => rw [← List.map_id (methods.filter _)]
    rfl
  rw [e, List.filter_filter]
  simp

/-- Finding: a `Combine` plugin made without a name keeps the name of the first cube it was given: any later result gets that name. -/
theorem C263_combine_reuse_refuted (p p' p'' : CombinePlugin) (first : CombineIn) (l cubes : List CombineIn) (out out' : CombineOut) (hp : p.newName = none)
    (hop : p.combiner.op ≠ .multiply) (h : p.process (first :: l) = .ok (out, p')) (h' : p'.process cubes = .ok (out', p'')) : out'.name = some first.name := by
  have hname : ∀ (c : Combiner) (cubes : List CombineIn) (new : String) (o : CombineOut) (c' : Combiner), c.op ≠ .multiply → c.process cubes new = .ok (o, c') →
      o.name = some new ∧ c'.op = c.op := by
    intro c cubes new o c' hop h
    unfold Combiner.process at h
    split at h
    · rename_i f k l
      cases h1 : prepareCombine c.broadcast f (f :: k :: l) with
      | error e => rw [h1] at h; exact nomatch h
      | ok b =>
        rw [h1] at h
        simp only [bind, Except.bind] at h
        cases h2 : combinePrepared c b.1 b.2 new with
        | error e => rw [h2] at h; exact nomatch h
        | ok o' =>
          rw [h2] at h
          injection h with h
          injection h with ha hb
          subst ha hb
          refine ⟨?_, rfl⟩
          unfold combinePrepared at h2
          split at h2
          · exact nomatch h2
          · rename_i f' r' hb'
            cases h3 : checkDims b.1.isSome f' r' with
            | error e => rw [h3] at h2; exact nomatch h2
            | ok u =>
              rw [h3] at h2
              simp only [bind, Except.bind] at h2
              cases h4 : combineCubes c.op b.1 f' r' with
              | error e => rw [h4] at h2; exact nomatch h2
              | ok r =>
                rw [h4] at h2
                simp only at h2
                have := ((finish_iff _ _ _ _ _ _).1 h2).2
                unfold Spec.CombineMeta at this
                rw [if_neg hop] at this
                exact this.1
    · exact nomatch h
  unfold CombinePlugin.process CombinePlugin.resolve at h
  rw [hp] at h
  simp only [bind, Except.bind, Option.getD_none] at h
  cases h1 : p.combiner.process (first :: l) first.name with
  | error e => rw [h1] at h; exact nomatch h
  | ok r =>
    rw [h1] at h
    injection h with h
    injection h with _ hp'
    subst hp'
    have hop' : r.2.op ≠ .multiply := by
      rw [(hname p.combiner _ _ r.1 r.2 hop h1).2]
      exact hop
    unfold CombinePlugin.process at h'
    cases h2 : CombinePlugin.resolve ⟨some first.name, r.2⟩ cubes with
    | error e => rw [h2] at h'; exact nomatch h'
    | ok n =>
      rw [h2] at h'
      simp only [bind, Except.bind] at h'
      cases h3 : r.2.process cubes n with
      | error e => rw [h3] at h'; exact nomatch h'
      | ok r' =>
        rw [h3] at h'
        injection h' with h'
        injection h' with ho _
        subst ho
        rw [(hname r.2 _ _ r'.1 r'.2 hop' h3).1]
        unfold CombinePlugin.resolve at h2
        cases cubes with
        | nil => exact nomatch h2
        | cons c l =>
          injection h2 with h2
          rw [← h2]
          rfl

/-- Two accumulations over three hours. -/
def exWindow (k : ℕ) : CombineIn :=
  ⟨⟨⟨["x"], fun i => some (if i.getD 0 0 = k then 5 else 2)⟩, fun _ => [0, 1]⟩, "rain_amount",
    [("time", ⟨10800 * (k + 1), some (10800 * k, 10800 * (k + 1))⟩)], [("sum", "time"), ("mean", "realization")], none⟩

example : ((maxWindow [exWindow 0, exWindow 1]).toOption.map fun o => (o.name, o.data [0], o.data [1])) = some ("rain_amount", some 5, some 5) := by
  decide +kernel

example : ((maxWindow [exWindow 0, exWindow 1]).toOption.map fun o => o.scalars.map fun s => (s.1, s.2.point, s.2.bounds)) =
    some [("time", 21600, some (0, 21600))] := by decide +kernel

example : ((maxWindow [exWindow 0, exWindow 1]).toOption.map fun o => o.methods) = some [("mean", "realization", none),
    ("sum", "time", some "of rain_amount over 3 hours within time window"), ("maximum", "time", some "of rain_amount")] := by decide +kernel

example : Spec.windowPeriods 10800 [exWindow 0, exWindow 1] ∧ Spec.windowDiagnostic (exWindow 0) = some "rain_amount" ∧ Spec.Combinable none (exWindow 0) (exWindow 1) ∧
    Spec.windowScalars [exWindow 0, exWindow 1] := by
  refine ⟨?_, ?_, ⟨Or.inl rfl, fun _ _ => rfl⟩, ?_⟩
  · intro c hc
    simp only [List.mem_cons, List.not_mem_nil, or_false] at hc
    rcases hc with rfl | rfl
    · exact ⟨_, 0, rfl, by simp [exWindow]⟩
    · exact ⟨_, 10800, rfl, by norm_num [exWindow]⟩
  · unfold Spec.windowDiagnostic
    rw [if_neg (by decide +kernel)]
    rfl
  · intro n _
    left
    intro c hc s hs
    have : ∃ k, c = exWindow k := by
      simp only [List.mem_cons, List.not_mem_nil, or_false] at hc
      rcases hc with rfl | rfl
      · exact ⟨0, rfl⟩
      · exact ⟨1, rfl⟩
    obtain ⟨k, rfl⟩ := this
    unfold exWindow at hs
    simp only [List.lookup] at hs
    split at hs
    · injection hs with hs
      rw [← hs]
      simp
    · exact nomatch hs

end Improver
