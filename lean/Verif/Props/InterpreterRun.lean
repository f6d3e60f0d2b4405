import Verif.Props.Interpreter
import Verif.Props.ProbName
import Verif.Props.Attributes

/-!
C201 (files accepted by the metadata interpreter), C202 (models and cycles shown for a blend), C203 (the command).
-/

namespace Improver

open Spec

theorem categoryMethods_nil (l : List CellMethod) : l.flatMap categoryMethodErrors = [] ↔
    ∀ m ∈ l, m.method = "mode" ∧ m.coords = ["time"] ∧ m.comments = [] ∧
      (m.intervals = ["1 hour"] ∨ m.intervals = ["3 hour"]) := by
  rw [List.flatMap_eq_nil_iff]
  refine forall₂_congr fun m _ => ?_
  unfold categoryMethodErrors
  cases m with
  | mk me co iv cm =>
    simp only [CellMethod.mk.injEq]
    constructor
    · intro h
      by_cases hc : (me = "mode" ∧ co = ["time"] ∧ iv = ["1 hour"] ∧ cm = []) ∨
          (me = "mode" ∧ co = ["time"] ∧ iv = ["3 hour"] ∧ cm = [])
      · rcases hc with ⟨a, b, i, d⟩ | ⟨a, b, i, d⟩
        · exact ⟨a, b, d, Or.inl i⟩
        · exact ⟨a, b, d, Or.inr i⟩
      · rw [if_neg hc] at h
        simp at h
    · rintro ⟨a, b, d, i | i⟩
      · rw [if_pos (Or.inl ⟨a, b, i, d⟩)]
      · rw [if_pos (Or.inr ⟨a, b, i, d⟩)]

theorem percentile_filter (c : MiCube) : (c.coords.filter fun x => inName "percentile" x.name) = [] ↔
    ∀ x ∈ c.coords, ¬ isPart "percentile" x.name := by
  rw [List.filter_eq_nil_iff]; simp only [inName_iff]

theorem probabilityErrors_diag (c : MiCube) (b : Option Text) (h : (probabilityErrors c b).1 = []) :
    ∃ d, extractDiag false c.name.toList = .ok d ∧ (probabilityErrors c b).2 = some d := by
  unfold probabilityErrors at h ⊢
  cases hd : extractDiag false c.name.toList with
  | error e => rw [hd] at h; simp at h
  | ok d => exact ⟨d, rfl, rfl⟩

theorem probNamed_iff (c : MiCube) : (inName "probability" c.name && inName "threshold" c.name) = true ↔ probabilityNamed c := by
  rw [Bool.and_eq_true, inName_iff, inName_iff]; rfl

theorem special_names : (∀ n ∈ intermediateNames, n ∉ ancillaryNames ∧ n ≠ "weather_code" ∧ n ≠ "wind_from_direction") ∧
    "weather_code" ∉ ancillaryNames ∧ "wind_from_direction" ∉ ancillaryNames ∧
    "wind_from_direction" ≠ "weather_code" := by decide +kernel

/-- The part of the check for data with ordinary names. -/
theorem interpretDiagnostic_ordinary (c : MiCube) (h : ordinary c) : interpretDiagnostic c = (do
    let r ← if inName "probability" c.name && inName "threshold" c.name then
        .ok (MiKind.probability, (probabilityErrors c none).1, (probabilityErrors c none).2)
      else plainErrors c
    let m ← methodsErrors c (if r.1 = .probability then some (r.2.2.getD "None".toList) else none)
    .ok (r.1, r.2.1 ++ m, r.2.2)) := by
  obtain ⟨h1, h2, h3, h4⟩ := h
  unfold interpretDiagnostic
  rw [if_neg h1, if_neg h3, if_neg h4, if_neg h2]

theorem ordinary_of_kind (c : MiCube) (hnd : (c.coords.map fun x => x.name).Nodup) (ho : ordinary c) (k : MiKind)
    (o : Option Text) (h : interpretDiagnostic c = .ok (k, [], o)) : ∃ d, o = some d ∧ kindOk c d k := by
  rw [interpretDiagnostic_ordinary c ho] at h
  simp only [bind, Except.bind] at h
  by_cases hn : (inName "probability" c.name && inName "threshold" c.name) = true
  · rw [if_pos hn] at h
    rw [if_pos trivial] at h
    cases hm : methodsErrors c (some ((probabilityErrors c none).2.getD "None".toList)) with
    | error e => rw [hm] at h; nomatch h
    | ok m =>
      rw [hm] at h
      simp only [Except.ok.injEq, Prod.mk.injEq, List.append_eq_nil_iff] at h
      obtain ⟨rfl, ⟨h1, rfl⟩, h2⟩ := h
      obtain ⟨d, hd, hd2⟩ := probabilityErrors_diag c none h1
      rw [hd2] at hm h2
      refine ⟨d, h2.symm, ho, Or.inl ((probNamed_iff c).1 hn), ?_⟩
      obtain ⟨p1, p2, p3⟩ := (probabilityErrors_nil c hnd none d).1 ⟨h1, hd⟩
      exact ⟨p1, p2, p3, (methodsErrors_nil c hnd _).1 hm⟩
  · rw [if_neg hn] at h
    have hnn : ¬ probabilityNamed c := fun h' => hn ((probNamed_iff c).2 h')
    unfold plainErrors at h
    cases hp : (c.coords.filter fun x => inName "percentile" x.name) with
    | nil =>
      rw [hp] at h
      have hp' := (percentile_filter c).1 hp
      dsimp only at h
      by_cases ht : (c.coords.any fun x => decide (x.varName = some "threshold")) = true
      · rw [if_pos ht] at h
        dsimp only at h
        rw [if_pos rfl] at h
        cases hm : methodsErrors c (some ((probabilityErrors c (some c.name.toList)).2.getD "None".toList)) with
        | error e => rw [hm] at h; nomatch h
        | ok m =>
          rw [hm] at h
          simp only [Except.ok.injEq, Prod.mk.injEq, List.append_eq_nil_iff] at h
          obtain ⟨rfl, ⟨h1, rfl⟩, h2⟩ := h
          obtain ⟨d, hd, hd2⟩ := probabilityErrors_diag c _ h1
          rw [hd2] at hm h2
          rw [List.any_eq_true] at ht
          simp only [decide_eq_true_eq] at ht
          refine ⟨d, h2.symm, ho, Or.inr ⟨hp', ht⟩, ?_⟩
          obtain ⟨p1, p2, p3⟩ := (probabilityErrors_nil c hnd _ d).1 ⟨h1, hd⟩
          exact ⟨p1, p2, p3, (methodsErrors_nil c hnd _).1 hm⟩
      · rw [if_neg ht] at h
        dsimp only at h
        rw [if_neg (by decide)] at h
        cases hm : methodsErrors c none with
        | error e => rw [hm] at h; nomatch h
        | ok m =>
          rw [hm] at h
          simp only [Except.ok.injEq, Prod.mk.injEq, List.nil_append] at h
          obtain ⟨rfl, rfl, rfl⟩ := h
          refine ⟨_, rfl, ho, hnn, rfl, fun x hx => ⟨hp' x hx, fun hv => ht ?_⟩, (methodsErrors_nil c hnd _).1 hm⟩
          rw [List.any_eq_true]
          exact ⟨x, hx, by simpa using hv⟩
    | cons p rest =>
      cases rest with
      | cons q r => rw [hp] at h; nomatch h
      | nil =>
        rw [hp] at h
        dsimp only at h
        rw [if_neg (by decide)] at h
        cases hm : methodsErrors c none with
        | error e => rw [hm] at h; nomatch h
        | ok m =>
          rw [hm] at h
          simp only [Except.ok.injEq, Prod.mk.injEq, List.append_eq_nil_iff] at h
          obtain ⟨rfl, ⟨⟨h1, h2⟩, rfl⟩, rfl⟩ := h
          have hpm : p ∈ c.coords.filter fun x => inName "percentile" x.name := by rw [hp]; simp
          refine ⟨_, rfl, ho, hnn, rfl, ⟨p, (List.mem_filter.1 hpm).1, ?_, ?_, ?_⟩, (methodsErrors_nil c hnd _).1 hm⟩
          · by_contra hne
            rw [if_neg hne] at h1
            simp at h1
          · by_contra hne
            rw [if_neg hne] at h2
            simp at h2
          · intro q hq hw
            have : q ∈ c.coords.filter fun x => inName "percentile" x.name :=
              List.mem_filter.2 ⟨hq, (inName_iff _ _).2 hw⟩
            rw [hp] at this
            simpa using this

theorem kind_of_ordinary (c : MiCube) (hnd : (c.coords.map fun x => x.name).Nodup) (k : MiKind) (d : Text)
    (h : kindOk c d k) : interpretDiagnostic c = .ok (k, [], some d) := by
  obtain ⟨s1, s2, s3, s4⟩ := special_names
  cases k with
  | ancillary =>
    obtain ⟨h1, h2, h3⟩ := h
    unfold interpretDiagnostic
    rw [if_pos h1, h3, h2]; rfl
  | weatherCode =>
    obtain ⟨h1, h2, h3⟩ := h
    unfold interpretDiagnostic
    rw [if_neg (by rw [h1]; exact s2), if_pos h1, (categoryMethods_nil _).2 h3, h2]
  | windDirection =>
    obtain ⟨h1, h2, h3⟩ := h
    unfold interpretDiagnostic
    rw [if_neg (by rw [h1]; exact s3), if_neg (by rw [h1]; exact s4), if_pos h1, if_pos h3, h2]
  | unhandled => exact h.elim
  | probability =>
    obtain ⟨ho, hk, hu, hd, ht, hm⟩ := h
    rw [interpretDiagnostic_ordinary c ho]
    have key : ∀ b, (probabilityErrors c b).1 = [] ∧ (probabilityErrors c b).2 = some d := by
      intro b
      have := ((probabilityErrors_nil c hnd b d).2 ⟨hu, hd, ht⟩).1
      obtain ⟨d', h1, h2⟩ := probabilityErrors_diag c b this
      rw [hd] at h1
      cases h1
      exact ⟨this, h2⟩
    have hm' := (methodsErrors_nil c hnd _).2 hm
    simp only [bind, Except.bind]
    by_cases hn : (inName "probability" c.name && inName "threshold" c.name) = true
    · rw [if_pos hn]
      rw [if_pos trivial, (key none).1, (key none).2, Option.getD_some, hm']
      rfl
    · rw [if_neg hn]
      rcases hk with hk | ⟨hp, x, hx, hv⟩
      · exact absurd ((probNamed_iff c).2 hk) hn
      · unfold plainErrors
        rw [(percentile_filter c).2 hp]
        dsimp only
        rw [if_pos (by rw [List.any_eq_true]; exact ⟨x, hx, by simpa using hv⟩)]
        dsimp only
        rw [if_pos rfl, (key _).1, (key _).2, Option.getD_some, hm']
        rfl
  | percentile =>
    obtain ⟨ho, hn, hd, ⟨p, hp, hpn, hpu, hq⟩, hm⟩ := h
    rw [interpretDiagnostic_ordinary c ho]
    have hm' := (methodsErrors_nil c hnd _).2 hm
    have hf : (c.coords.filter fun x => inName "percentile" x.name) = [p] := by
      have hall : ∀ q ∈ c.coords.filter fun x => inName "percentile" x.name, q = p := fun q hq' =>
        hq q (List.mem_filter.1 hq').1 ((inName_iff _ _).1 (List.mem_filter.1 hq').2)
      have hpm : p ∈ c.coords.filter fun x => inName "percentile" x.name :=
        List.mem_filter.2 ⟨hp, by rw [inName_iff, hpn]; exact List.infix_refl _⟩
      have hnd' : (c.coords.filter fun x => inName "percentile" x.name).Nodup := (List.Nodup.of_map _ hnd).filter _
      generalize c.coords.filter (fun x => inName "percentile" x.name) = l at hall hpm hnd'
      cases l with
      | nil => simp at hpm
      | cons a l =>
        have ha := hall a (by simp)
        subst ha
        cases l with
        | nil => rfl
        | cons b l =>
          have hb := hall b (by simp)
          subst hb
          simp at hnd'
    simp only [bind, Except.bind]
    rw [if_neg (fun h => hn ((probNamed_iff c).1 h))]
    unfold plainErrors
    rw [hf]
    dsimp only
    rw [if_neg (by decide), hm', if_pos hpn, if_pos hpu, hd]
    rfl
  | realizations =>
    obtain ⟨ho, hn, hd, hx, hm⟩ := h
    rw [interpretDiagnostic_ordinary c ho]
    have hm' := (methodsErrors_nil c hnd _).2 hm
    simp only [bind, Except.bind]
    rw [if_neg (fun h => hn ((probNamed_iff c).1 h))]
    unfold plainErrors
    rw [(percentile_filter c).2 fun x hx' => (hx x hx').1]
    dsimp only
    rw [if_neg (by
      rw [List.any_eq_true]
      rintro ⟨x, hx', hv⟩
      exact (hx x hx').2 (by simpa using hv))]
    dsimp only
    rw [if_neg (by decide), hm', hd]
    rfl

/-- C201: the metadata of a cube are accepted exactly when they are those of one kind of data, or the cube is one of the
intermediate ones which are not looked at. -/
theorem C201_accepted (c : MiCube) (hnd : (c.coords.map fun x => x.name).Nodup) :
    interpret c = .ok [] ↔ c.name ∈ intermediateNames ∨ ∃ k d, kindOk c d k ∧ generalOk c d k := by
  obtain ⟨s1, s2, s3, s4⟩ := special_names
  constructor
  · intro h
    unfold interpret at h
    simp only [bind, Except.bind] at h
    cases hi : interpretDiagnostic c with
    | error e => rw [hi] at h; nomatch h
    | ok r =>
      obtain ⟨k, es, o⟩ := r
      rw [hi] at h
      dsimp only at h
      by_cases hint : c.name ∈ intermediateNames
      · exact Or.inl hint
      right
      by_cases hk : k = .unhandled
      · exfalso
        subst hk
        -- only intermediate cubes are not handled
        by_cases ho : ordinary c
        · rw [interpretDiagnostic_ordinary c ho] at hi
          simp only [bind, Except.bind] at hi
          by_cases hn : (inName "probability" c.name && inName "threshold" c.name) = true
          · rw [if_pos hn] at hi
            split at hi
            · nomatch hi
            · cases hi
          · rw [if_neg hn] at hi
            unfold plainErrors at hi
            split at hi
            · nomatch hi
            · rename_i r hr
              split at hi
              · nomatch hi
              · simp only [Except.ok.injEq, Prod.mk.injEq] at hi
                obtain ⟨h1, -, -⟩ := hi
                split at hr
                · split at hr
                  · cases hr; nomatch h1
                  · cases hr; nomatch h1
                · cases hr; nomatch h1
                · nomatch hr
        · unfold interpretDiagnostic at hi
          unfold ordinary at ho
          by_cases h1 : c.name ∈ ancillaryNames
          · rw [if_pos h1] at hi; cases hi
          · rw [if_neg h1] at hi
            by_cases h2 : c.name = "weather_code"
            · rw [if_pos h2] at hi; cases hi
            · rw [if_neg h2] at hi
              by_cases h3 : c.name = "wind_from_direction"
              · rw [if_pos h3] at hi; cases hi
              · exact ho ⟨h1, hint, h2, h3⟩
      · rw [if_neg hk] at h
        have hes : ∀ {g}, generalErrors c k o = .ok g → es = [] ∧ g = [] := by
          intro g hg
          rw [hg] at h
          simp only [Except.ok.injEq, List.append_eq_nil_iff] at h
          exact h
        cases hg : generalErrors c k o with
        | error e => rw [hg] at h; nomatch h
        | ok g =>
          obtain ⟨rfl, rfl⟩ := hes hg
          have hkind : ∃ d, o = some d ∧ kindOk c d k := by
            by_cases ho : ordinary c
            · exact ordinary_of_kind c hnd ho k o hi
            · unfold interpretDiagnostic at hi
              by_cases h1 : c.name ∈ ancillaryNames
              · rw [if_pos h1] at hi
                simp only [Except.ok.injEq, Prod.mk.injEq] at hi
                obtain ⟨rfl, h2, rfl⟩ := hi
                refine ⟨_, rfl, h1, rfl, ?_⟩
                by_contra hne
                rw [if_neg hne] at h2
                simp at h2
              · rw [if_neg h1] at hi
                by_cases h2 : c.name = "weather_code"
                · rw [if_pos h2] at hi
                  simp only [Except.ok.injEq, Prod.mk.injEq] at hi
                  obtain ⟨rfl, h3, rfl⟩ := hi
                  exact ⟨_, rfl, h2, rfl, (categoryMethods_nil _).1 h3⟩
                · rw [if_neg h2] at hi
                  by_cases h3 : c.name = "wind_from_direction"
                  · rw [if_pos h3] at hi
                    simp only [Except.ok.injEq, Prod.mk.injEq] at hi
                    obtain ⟨rfl, h4, rfl⟩ := hi
                    refine ⟨_, rfl, h3, rfl, ?_⟩
                    by_contra hne
                    rw [if_neg hne] at h4
                    simp at h4
                  · exact absurd ⟨h1, hint, h2, h3⟩ ho
          obtain ⟨d, rfl, hkd⟩ := hkind
          exact ⟨k, d, hkd, (generalErrors_nil c hnd d k).1 hg⟩
  · rintro (h | ⟨k, d, hk, hg⟩)
    · obtain ⟨a, b, e⟩ := s1 _ h
      unfold interpret interpretDiagnostic
      rw [if_neg a, if_neg b, if_neg e, if_pos h]
      rfl
    · have hne : k ≠ .unhandled := by rintro rfl; exact hk.elim
      unfold interpret
      rw [kind_of_ordinary c hnd k d hk]
      simp only [bind, Except.bind]
      rw [if_neg hne, (generalErrors_nil c hnd d k).2 hg]
      rfl

/-! ## Examples of accepted cubes -/

/-- A time coordinate, or another one without variable name. -/
def miCoord (name : String) (points : List ℚ) (upper : Option (List ℚ)) : MiCoord :=
  ⟨⟨name, none, none⟩, "seconds", points, upper, []⟩

/-- The coordinates and attributes that a forecast of a single model has. -/
def miTimes : List MiCoord :=
  [miCoord "time" [7200] (some [7200]), miCoord "forecast_period" [3600] (some [3600]), miCoord "forecast_reference_time" [3600] none]

def miAttrs : List (String × Text) :=
  [("title", "UKV Model Forecast on UK 2 km Standard Grid".toList), ("source", "IMPROVER".toList),
   ("institution", "Met Office".toList), ("mosg__model_configuration", "uk_det".toList)]

/-- Probabilities of a maximum in an hour, with the threshold attribute and comment given. -/
def miProbability (name threshold relative comment : String) : MiCube :=
  ⟨name, "1", ⟨⟨threshold, some "threshold", some relative⟩, "m s-1", [1, 2], none, [0]⟩ :: miTimes,
    [⟨"maximum", ["time"], [], [comment.toList]⟩], miAttrs, [1, 2], true⟩

/-- non-vacuity: probabilities of a maximum are accepted; with the wrong comparison they are not. -/
example : (interpret (miProbability "probability_of_wind_speed_above_threshold" "wind_speed" "greater_than" "of wind_speed")).toOption
    = some [] := by decide +kernel

example : (interpret (miProbability "probability_of_wind_speed_above_threshold" "wind_speed" "less_than" "of wind_speed")).toOption
    = some [.relativeName] := by decide +kernel

/-- C201, what does not hold: probabilities below a threshold are accepted although the threshold coordinate says that they
are above it, if the name of the diagnostic holds the word. -/
theorem C201_comparison_refuted :
    (interpret (miProbability "probability_of_height_above_sea_level_below_threshold" "height_above_sea_level" "greater_than"
      "of height_above_sea_level")).toOption = some [] := by decide +kernel

/-- C201, what does not hold: the comment on a cell method need only begin with the name of the diagnostic. -/
theorem C201_comment_refuted :
    (interpret (miProbability "probability_of_wind_speed_above_threshold" "wind_speed" "greater_than"
      "of wind_speed_of_gust")).toOption = some [] := by decide +kernel

/-! ## C202 -/

/-- The line for a model: code, cycle, weight. -/
def runLine (r : Text × Text × Text) : Text := r.1 ++ ':' :: (r.2.1 ++ ':' :: r.2.2)

theorem splitAt_runLine (r : Text × Text × Text) (h : ':' ∉ r.1 ∧ ':' ∉ r.2.1 ∧ ':' ∉ r.2.2) :
    splitAt ':' (runLine r) = [r.1, r.2.1, r.2.2] := by
  unfold runLine
  rw [splitAt_append h.1, splitAt_append h.2.1, splitAt_none h.2.2]

theorem cycles_of_lines (recs : List (Text × Text × Text)) (h : ∀ r ∈ recs, ':' ∉ r.1 ∧ ':' ∉ r.2.1 ∧ ':' ∉ r.2.2) :
    (recs.map runLine).mapM cycleItem = .ok (recs.map fun r => (r.1, r.2.1)) := by
  induction recs with
  | nil => rfl
  | cons r recs ih =>
    rw [List.map_cons, List.mapM_cons, (cycleItem_ok (runLine r) r.1 r.2.1).2 ⟨r.2.2, splitAt_runLine r (h r (by simp))⟩,
      ih fun x hx => h x (List.mem_cons_of_mem _ hx)]
    rfl

theorem modelName_mem (code : Text) (n : String) (h : modelName code = some n) : ∃ e ∈ models, e.1.toList = code ∧ e.2 = n := by
  unfold modelName at h
  rw [Option.map_eq_some_iff] at h
  obtain ⟨e, he, rfl⟩ := h
  have hm : models = modelCodes.map fun e => (e.2, e.1) := rfl
  exact ⟨(e.2, e.1), by rw [hm]; exact List.mem_map.2 ⟨e, List.mem_of_find?_eq_some he, rfl⟩,
    by simpa using List.find?_some he, rfl⟩

/-- C202: a blend of known models, each with a line in the record of runs, is shown with the names of all its models in order,
each with the cycle in the last line for the model. -/
theorem C202_shown (codes : List Text) (recs : List (Text × Text × Text)) (hc : codes ≠ []) (hr : recs ≠ [])
    (hsep : ∀ r ∈ recs, ':' ∉ r.1 ∧ ':' ∉ r.2.1 ∧ ':' ∉ r.2.2) (hnl : ∀ r ∈ recs, '\n' ∉ runLine r)
    (hsp : ∀ code ∈ codes, ' ' ∉ code) (hknown : ∀ code ∈ codes, ∃ e ∈ models, e.1.toList = code)
    (hrec : ∀ code ∈ codes, code ∈ recs.map Prod.fst) :
    ∃ shown, shownModels (joinWith ' ' codes) (joinWith '\n' (recs.map runLine)) = .ok shown ∧
      List.Forall₂ (fun code s => (∃ e ∈ models, e.1.toList = code ∧ e.2 = s.1) ∧
        ∃ before after w, recs = before ++ (code, s.2, w) :: after ∧ code ∉ after.map Prod.fst) codes shown := by
  have h1 : splitAt '\n' (joinWith '\n' (recs.map runLine)) = recs.map runLine :=
    splitAt_join (by simpa using hr) (by simpa only [List.forall_mem_map] using hnl)
  have h2 : splitAt ' ' (joinWith ' ' codes) = codes := splitAt_join hc hsp
  unfold shownModels
  rw [h1, h2, cycles_of_lines recs hsep]
  simp only [bind, Except.bind]
  have key : ∀ cs : List Text, (∀ code ∈ cs, ∃ e ∈ models, e.1.toList = code) → (∀ code ∈ cs, code ∈ recs.map Prod.fst) →
      ∃ shown : List (String × Text), cs.mapM (shownModel (recs.map fun r => (r.1, r.2.1))) = .ok (shown.map some) ∧
      List.Forall₂ (fun code s => (∃ e ∈ models, e.1.toList = code ∧ e.2 = s.1) ∧
        ∃ before after w, recs = before ++ (code, s.2, w) :: after ∧ code ∉ after.map Prod.fst) cs shown := by
    intro cs
    induction cs with
    | nil => intro _ _; exact ⟨[], rfl, List.Forall₂.nil⟩
    | cons code cs ih =>
      intro hk hm
      obtain ⟨shown, hs1, hs2⟩ := ih (fun x hx => hk x (List.mem_cons_of_mem _ hx)) fun x hx => hm x (List.mem_cons_of_mem _ hx)
      obtain ⟨n, hn⟩ := (modelName_some code).2 (hk code (by simp))
      have hcm := hm code (by simp)
      cases hf : ((recs.map fun r => (r.1, r.2.1)).reverse.find? fun e => decide (e.1 = code)) with
      | none =>
        exfalso
        rw [List.find?_eq_none] at hf
        obtain ⟨r, hr, rfl⟩ := List.mem_map.1 hcm
        have := hf (r.1, r.2.1) (by rw [List.mem_reverse]; exact List.mem_map.2 ⟨r, hr, rfl⟩)
        simp at this
      | some e =>
        refine ⟨(n, e.2) :: shown, ?_, List.Forall₂.cons ⟨modelName_mem code n hn, ?_⟩ hs2⟩
        · rw [List.mapM_cons, hs1]
          unfold shownModel
          rw [hn]
          dsimp only
          rw [hf]
          rfl
        · rw [List.find?_eq_some_iff_append] at hf
          obtain ⟨hec, as, bs, hab, hno⟩ := hf
          have hrev := congrArg List.reverse hab
          rw [List.reverse_reverse, List.reverse_append, List.reverse_cons, List.append_assoc, List.singleton_append] at hrev
          obtain ⟨b, a', hsplit, hb, ha'⟩ := List.map_eq_append_iff.1 hrev
          obtain ⟨x, a, rfl, hx, ha⟩ := List.map_eq_cons_iff.1 ha'
          refine ⟨b, a, x.2.2, ?_, ?_⟩
          · rw [hsplit]
            have hxe : x.1 = e.1 ∧ x.2.1 = e.2 := by rw [← hx]; exact ⟨rfl, rfl⟩
            have he : e.1 = code := by simpa using hec
            obtain ⟨x1, x2, x3⟩ := x
            simp only at hxe
            rw [hxe.1, hxe.2, he]
          · intro hmem
            obtain ⟨y, hy, hyc⟩ := List.mem_map.1 hmem
            have : (y.1, y.2.1) ∈ as := by
              rw [← List.mem_reverse, ← ha]
              exact List.mem_map.2 ⟨y, hy, rfl⟩
            have := hno _ this
            simp [hyc] at this
  obtain ⟨shown, hs1, hs2⟩ := key codes hknown hrec
  refine ⟨shown, ?_, hs2⟩
  rw [hs1]
  simp

/-- C202, what does not hold: of several cycles of a model only one is shown. -/
theorem C202_cycles_refuted :
    (shownModels "uk_ens uk_det".toList
      "uk_det:20240101T0300Z:0.500\nuk_ens:20240101T0000Z:0.250\nuk_ens:20240101T0100Z:0.250".toList).toOption =
    some [("MOGREPS-UK", "20240101T0100Z".toList), ("UKV", "20240101T0300Z".toList)] := by decide +kernel

/-! ## C203 -/

/-- A blend whose record of runs lacks one of its models. -/
def miUnrecorded : MiCube :=
  ⟨"air_temperature", "K", miTimes, [],
    [("title", "IMPROVER Post-Processed Multi-Model Blend on UK 2 km Standard Grid".toList), ("source", "IMPROVER".toList),
     ("institution", "Met Office".toList), ("mosg__model_configuration", "uk_det uk_ens".toList),
     ("mosg__model_run", "uk_det:20240101T0300Z:1.000".toList)], [0, 1], true⟩

/-- C203: if the check of no cube is stopped by something else than its metadata, the command prints a report on each cube in
order (with failures only, on those that are not accepted), and fails exactly if a cube is not accepted. -/
theorem C203_command (failuresOnly : Bool) (cubes : List MiCube)
    (h : ∀ c ∈ cubes, ∀ e, interpret c = .error e → e = .valueError) :
    (interpretCommand failuresOnly cubes).1 = cubes.flatMap (fun c =>
      if interpret c = .ok [] then (if failuresOnly then [] else [.compliant c.name]) else [.nonCompliant c.name]) ∧
    ((∃ c ∈ cubes, interpret c ≠ .ok []) → (interpretCommand failuresOnly cubes).2 = .error .valueError) ∧
    ((∀ c ∈ cubes, interpret c = .ok []) → (interpretCommand failuresOnly cubes).2 = .ok ()) := by
  induction cubes with
  | nil => simp [interpretCommand]
  | cons c cs ih =>
    obtain ⟨i1, i2, i3⟩ := ih fun x hx => h x (List.mem_cons_of_mem _ hx)
    have hrest : (interpretCommand failuresOnly cs).2 = .error .valueError ∨ (interpretCommand failuresOnly cs).2 = .ok () := by
      by_cases hall : ∀ c ∈ cs, interpret c = .ok []
      · exact Or.inr (i3 hall)
      · push Not at hall
        exact Or.inl (i2 hall)
    have hrep : reportCube failuresOnly c = .ok (if interpret c = .ok [] then
        (if failuresOnly then [] else [.compliant c.name]) else [.nonCompliant c.name]) := by
      unfold reportCube
      cases hi : interpret c with
      | error e =>
        obtain rfl := h c (by simp) e hi
        simp
      | ok es =>
        cases es with
        | nil => simp
        | cons a l => simp
    have hne : ∀ n : String, (if failuresOnly = true then [] else [MiReport.compliant n]) ≠ [.nonCompliant n] := by
      intro n; cases failuresOnly <;> simp
    have hcmd : interpretCommand failuresOnly (c :: cs) =
        ((if interpret c = .ok [] then (if failuresOnly then [] else [.compliant c.name]) else [.nonCompliant c.name]) ++
          (interpretCommand failuresOnly cs).1, match (interpretCommand failuresOnly cs).2 with
            | .error e => .error e
            | .ok () => if interpret c = .ok [] then .ok () else .error .valueError) := by
      rw [interpretCommand, hrep]
      dsimp only
      congr 1
      rcases hrest with hr | hr
      · rw [hr]
      · rw [hr]
        dsimp only
        by_cases hi : interpret c = .ok []
        · simp only [if_pos hi]; rw [if_neg (hne _)]
        · simp only [if_neg hi]; rfl
    rw [hcmd]
    refine ⟨by rw [List.flatMap_cons, i1], ?_, ?_⟩
    · intro hex
      rcases hrest with hr | hr
      · simp only [hr]
      · simp only [hr]
        rw [if_neg]
        rintro hi
        obtain ⟨x, hx, hxe⟩ := hex
        rcases List.mem_cons.1 hx with rfl | hx
        · exact hxe hi
        · have := i2 ⟨x, hx, hxe⟩
          rw [hr] at this
          nomatch this
    · intro hall
      simp only [i3 fun x hx => hall x (List.mem_cons_of_mem _ hx)]
      rw [if_pos (hall c (by simp))]

/-- C203, what does not hold: a blend without a cycle for one of its models ends the command with a KeyError, and files after
it are not looked at. -/
theorem C203_stops_refuted (failuresOnly : Bool) (cubes : List MiCube) :
    interpretCommand failuresOnly (miUnrecorded :: cubes) = ([], .error .keyError) := by
  have h : interpret miUnrecorded = .error .keyError := by
    have : (match interpret miUnrecorded with | .error e => some e | .ok _ => none) = some Err.keyError := by decide +kernel
    cases hi : interpret miUnrecorded with
    | ok x => rw [hi] at this; nomatch this
    | error e => rw [hi] at this; cases this; rfl
  rw [interpretCommand]
  unfold reportCube
  rw [h]

/-- non-vacuity of the hypothesis of C203_command -/
example : ∀ c ∈ [miProbability "probability_of_wind_speed_above_threshold" "wind_speed" "less_than" "of wind_speed"],
    ∀ e, interpret c = .error e → e = .valueError := by
  intro c hc e he
  obtain rfl : c = _ := by simpa using hc
  have : (match interpret (miProbability "probability_of_wind_speed_above_threshold" "wind_speed" "less_than" "of wind_speed")
    with | .error _ => false | .ok _ => true) = true := by decide +kernel
  rw [he] at this
  nomatch this

/-- C201 (special names): ancillaries and intermediate files are these; the latter are accepted as they are. -/
theorem C201_names (n : String) :
    (n ∈ ancillaryNames ↔ n = "surface_altitude" ∨ n = "land_fraction" ∨ n = "land_binary_mask" ∨ n = "grid_with_halo" ∨
      n = "topographic_zone_weights" ∨ n = "topography_mask" ∨ n = "silhouette_roughness" ∨
      n = "standard_deviation_of_height_in_grid_cell" ∨ n = "smoothing_coefficient_x" ∨ n = "smoothing_coefficient_y" ∨
      n = "linke_turbidity") ∧
    (n ∈ intermediateNames ↔ n = "grid_neighbours" ∨ n = "grid_eastward_wind" ∨ n = "grid_northward_wind" ∨
      n = "precipitation_advection_x_velocity" ∨ n = "precipitation_advection_y_velocity" ∨
      n = "reliability_calibration_table" ∨ n = "emos_coefficient_alpha" ∨ n = "emos_coefficient_beta" ∨
      n = "emos_coefficient_gamma" ∨ n = "emos_coefficient_delta") := by
  constructor
  · unfold ancillaryNames
    simp only [List.mem_cons, List.not_mem_nil, or_false]
  · unfold intermediateNames
    simp only [List.mem_cons, List.not_mem_nil, or_false]

end Improver
