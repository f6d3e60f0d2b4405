import Verif.Model.Rename
import Verif.Props.ProbName

/-!
C198 (renaming of diagnostics), C199 (cell methods of renamed diagnostics), C200 (record of the vicinity).
-/

namespace Improver

open Spec

/-! ## Replacement of text -/

theorem replaceGo_nil (old new : List Char) (k : ℕ) : replaceGo old new k [] = [] := by
  cases k <;> simp [replaceGo]

theorem replaceGo_skip (old new x s : List Char) : replaceGo old new x.length (x ++ s) = replaceGo old new 0 s := by
  induction x with
  | nil => rfl
  | cons c x ih => simpa [replaceGo] using ih

theorem replaceGo_append (old new p s : List Char) (h : ∀ i < p.length, ¬ old <+: p.drop i ++ s) :
    replaceGo old new 0 (p ++ s) = p ++ replaceGo old new 0 s := by
  induction p with
  | nil => rfl
  | cons c p ih =>
    have h0 := h 0 (by simp)
    have hn : ¬ (old.isPrefixOf (c :: (p ++ s)) = true) := by
      rw [List.isPrefixOf_iff_prefix]; simpa using h0
    have := ih fun i hi => by simpa using h (i + 1) (by simpa using hi)
    show replaceGo old new 0 (c :: (p ++ s)) = _
    conv_lhs => unfold replaceGo
    rw [if_neg hn, this]
    rfl

theorem replaceGo_found (old new s : List Char) (h : old ≠ []) :
    replaceGo old new 0 (old ++ s) = new ++ replaceGo old new 0 s := by
  obtain ⟨c, o, rfl⟩ := List.exists_cons_of_ne_nil h
  show replaceGo (c :: o) new 0 (c :: (o ++ s)) = _
  have hp : (c :: o).isPrefixOf (c :: (o ++ s)) = true := by
    rw [List.isPrefixOf_iff_prefix]; exact ⟨s, rfl⟩
  conv_lhs => unfold replaceGo
  rw [if_pos hp]
  congr 1
  simpa using replaceGo_skip (c :: o) new o s

theorem replaceGo_none (old new s : List Char) (ho : old ≠ []) (h : ¬ old <:+: s) : replaceGo old new 0 s = s := by
  have := replaceGo_append old new s [] (by
    intro i _ hp
    rw [List.append_nil] at hp
    exact h (hp.isInfix.trans (List.drop_suffix i s).isInfix))
  simpa [replaceGo_nil] using this

theorem replaceText_once (old new p s : List Char) (ho : old ≠ [])
    (hone : ∀ a b, p ++ old ++ s = a ++ old ++ b → a = p) : replaceText old new (p ++ old ++ s) = p ++ new ++ s := by
  unfold replaceText
  rw [if_neg ho, List.append_assoc, replaceGo_append, replaceGo_found _ _ _ ho, replaceGo_none _ _ _ ho, List.append_assoc]
  · rintro ⟨a, b, hab⟩
    have := hone (p ++ old ++ a) b (by rw [← hab]; simp)
    rw [List.append_assoc] at this
    have : old ++ a = [] := by simpa using this
    exact ho (List.append_eq_nil_iff.1 this).1
  · rintro i hi ⟨b, hb⟩
    have := hone (p.take i) b (by
      rw [List.append_assoc (p.take i), hb, ← List.append_assoc (p.take i), List.take_append_drop, List.append_assoc])
    have hl := congrArg List.length this
    rw [List.length_take] at hl
    omega

/-- A word is not found in `d ++ T` beginning within `d`, if it is not in `d` and does not lie across the join. -/
theorem not_prefix_of_join (w d T : List Char) (hd : ¬ w <:+: d)
    (hj : ∀ j ∈ List.range (w.length + 1), j ≠ 0 → ¬ w.drop j <+: T ∨ w.drop j = []) :
    ∀ i < d.length, ¬ w <+: d.drop i ++ T := by
  intro i hi hp
  obtain ⟨b, hb⟩ := hp
  have hx : d.drop i <:+: d := (List.drop_suffix i d).isInfix
  rcases List.append_eq_append_iff.1 hb with ⟨a, h1, h2⟩ | ⟨c, h1, h2⟩
  · -- the word ends within d
    exact hd (List.IsInfix.trans ⟨[], a, by simpa using h1.symm⟩ hx)
  · -- w = d.drop i ++ c, T = c ++ b
    have hdrop : w.drop (d.drop i).length = c := by rw [h1, List.drop_left]
    have hpos : (d.drop i).length ≠ 0 := by rw [List.length_drop]; omega
    have hle : (d.drop i).length ≤ w.length := by rw [h1, List.length_append]; omega
    rcases hj _ (List.mem_range.2 (by omega)) hpos with h | h
    · exact h (by rw [hdrop, h2]; exact List.prefix_append c b)
    · rw [hdrop] at h
      subst h
      rw [List.append_nil] at h1
      exact hd (h1 ▸ hx)

/-- Joins of the vicinity words with the ends of names. -/
theorem vicinity_joins : ∀ v ∈ ([[], "_in_vicinity".toList, "_in_variable_vicinity".toList] : List (List Char)),
    ∀ w ∈ ["_in_vicinity".toList, "_in_variable_vicinity".toList],
      ∀ j ∈ List.range (w.length + 1), j ≠ 0 → ¬ w.drop j <+: v ∨ w.drop j = [] := by
  decide +kernel

theorem stripVicinity_name (d : List Char) (v : Vicinity) (h1 : ¬ "_in_vicinity".toList <:+: d)
    (h2 : ¬ "_in_variable_vicinity".toList <:+: d) : stripVicinity (d ++ v.text) = d := by
  have hv : v.text ∈ ([[], "_in_vicinity".toList, "_in_variable_vicinity".toList] : List (List Char)) := by
    cases v <;> decide +kernel
  have hne1 : ("_in_vicinity".toList : List Char) ≠ [] := by decide +kernel
  have hne2 : ("_in_variable_vicinity".toList : List Char) ≠ [] := by decide +kernel
  unfold stripVicinity
  have hA : replaceText "_in_variable_vicinity".toList [] (d ++ v.text) =
      d ++ (if v.text = "_in_variable_vicinity".toList then [] else v.text) := by
    unfold replaceText
    have hj := vicinity_joins v.text hv "_in_variable_vicinity".toList (List.mem_cons_of_mem _ List.mem_cons_self)
    rw [if_neg hne2, replaceGo_append _ _ _ _ (not_prefix_of_join _ _ _ h2 hj)]
    congr 1
    cases v <;> decide +kernel
  have hw : (if v.text = "_in_variable_vicinity".toList then [] else v.text) ∈
      ([[], "_in_vicinity".toList, "_in_variable_vicinity".toList] : List (List Char)) := by
    split
    · simp
    · exact hv
  have hB : replaceGo "_in_vicinity".toList [] 0 (if v.text = "_in_variable_vicinity".toList then [] else v.text) = [] := by
    cases v <;> decide +kernel
  rw [hA]
  generalize (if v.text = "_in_variable_vicinity".toList then [] else v.text) = T at hw hB ⊢
  have hj := vicinity_joins T hw "_in_vicinity".toList List.mem_cons_self
  generalize "_in_vicinity".toList = W at h1 hne1 hB hj ⊢
  unfold replaceText
  rw [if_neg hne1, replaceGo_append _ _ _ _ (not_prefix_of_join _ _ _ h1 hj), hB, List.append_nil]

/-! ## C198 -/

/-- C198: a cube of probabilities is renamed to the probabilities of the new diagnostic, of the same kind of threshold; its
threshold coordinate has the name that is found from the name of the cube, and remains the threshold coordinate; the other
coordinates stay as they are. -/
theorem C198_renamed (source result : DiagMeta) (d d' : List Char) (v v' : Vicinity) (t : Thresh)
    (hprob : isProbability (source.coords.map RnCoord.seen) = true) (hname : source.name = probName d v t) (hd : plainName d)
    (hne : d ++ v.text ≠ [])
    (hone : ∀ a b, source.name = a ++ (d ++ v.text) ++ b → a = "probability_of_".toList)
    (hd' : plainName d') (h1 : ¬ "_in_vicinity".toList <:+: d') (h2 : ¬ "_in_variable_vicinity".toList <:+: d')
    (pre post : List RnCoord) (c : RnCoord) (hc : result.coords = pre ++ c :: post) (hthr : c.varName = some "threshold")
    (hothers : ∀ x ∈ pre ++ post, x.varName ≠ some "threshold" ∧ x.name ≠ d') :
    ∃ r, updateDiagnosticName source (d' ++ v'.text) result = .ok r ∧ r.name = probName d' v' t ∧
      extractDiag false r.name = .ok d' ∧ extractDiag true r.name = .ok (d' ++ v'.text) ∧
      r.coords = pre ++ { c with name := d' } :: post := by
  have hbase := stripVicinity_name d' v' h1 h2
  have hext := (C137_round_trip d v t hd).2
  have hpre : ∀ x ∈ pre, x.varName ≠ some "threshold" ∧ x.name ≠ d' := fun x hx =>
    hothers x (List.mem_append.2 (Or.inl hx))
  have hpost : ∀ x ∈ post, x.varName ≠ some "threshold" ∧ x.name ≠ d' := fun x hx =>
    hothers x (List.mem_append.2 (Or.inr hx))
  have hmap : result.coords.map (renameCoord d') = pre ++ ⟨d', none, c.point, c.units, c.comment⟩ :: post := by
    rw [hc, List.map_append, List.map_cons]
    have e : ∀ l : List RnCoord, (∀ x ∈ l, x.varName ≠ some "threshold" ∧ x.name ≠ d') → l.map (renameCoord d') = l := by
      intro l hl
      refine (List.map_congr_left fun x hx => ?_).trans (List.map_id l)
      rw [renameCoord, if_neg (hl x hx).1]; rfl
    rw [e pre hpre, e post hpost, renameCoord, if_pos hthr]
  have hmark : (pre ++ (⟨d', none, c.point, c.units, c.comment⟩ : RnCoord) :: post).map (markThreshold d') =
      pre ++ { c with name := d' } :: post := by
    rw [List.map_append, List.map_cons]
    have e : ∀ l : List RnCoord, (∀ x ∈ l, x.varName ≠ some "threshold" ∧ x.name ≠ d') → l.map (markThreshold d') = l := by
      intro l hl
      refine (List.map_congr_left fun x hx => ?_).trans (List.map_id l)
      rw [markThreshold, if_neg (hl x hx).2]; rfl
    rw [e pre hpre, e post hpost, markThreshold, if_pos rfl]
    cases c
    simp only at hthr
    rw [hthr]
  have hf1 : (result.coords.filter fun c => decide (c.varName = some "threshold")) = [c] := by
    rw [hc, List.filter_append, List.filter_cons, if_pos (by simpa using hthr)]
    rw [List.filter_eq_nil_iff.2 fun x hx => by simpa using (hpre x hx).1,
      List.filter_eq_nil_iff.2 fun x hx => by simpa using (hpost x hx).1]
    rfl
  have hf2 : ((result.coords.map (renameCoord d')).filter fun c => decide (c.name = d')).length = 1 := by
    rw [hmap, List.filter_append, List.filter_cons, if_pos (by simp),
      List.filter_eq_nil_iff.2 fun x hx => by simpa using (hpre x hx).2,
      List.filter_eq_nil_iff.2 fun x hx => by simpa using (hpost x hx).2]
    rfl
  have hren : renameThreshold d' result.coords = .ok (pre ++ { c with name := d' } :: post) := by
    unfold renameThreshold
    rw [if_pos (by rw [hf1]; rfl), if_pos hf2, hmap, hmark]
  have hrep : replaceText (d ++ v.text) (d' ++ v'.text) source.name = probName d' v' t := by
    have hs : source.name = "probability_of_".toList ++ (d ++ v.text) ++ t.text := by
      rw [hname]; unfold probName; simp only [List.append_assoc]
    rw [hs] at hone ⊢
    rw [replaceText_once _ _ _ _ hne hone]
    unfold probName
    simp only [List.append_assoc]
  refine ⟨⟨probName d' v' t, pre ++ { c with name := d' } :: post, methodsOfResult source result d'⟩, ?_, rfl,
    (C137_round_trip d' v' t hd').1, (C137_round_trip d' v' t hd').2, rfl⟩
  unfold updateDiagnosticName
  rw [if_pos hprob, hbase, hname, hext]
  simp only [bind, Except.bind, hren]
  rw [← hname, hrep]

/-- C198: other cubes take the new name as it is given, and their coordinates stay as they are. -/
theorem C198_not_probability (source result : DiagMeta) (new : List Char)
    (h : isProbability (source.coords.map RnCoord.seen) = false) :
    ∃ r, updateDiagnosticName source new result = .ok r ∧ r.name = new ∧ r.coords = result.coords := by
  refine ⟨⟨new, result.coords, methodsOfResult source result (stripVicinity new)⟩, ?_, rfl, rfl⟩
  unfold updateDiagnosticName
  rw [if_neg (by simp [h])]

/-- A threshold coordinate. -/
def thresholdCoord (name : String) (var : Option String) : RnCoord := ⟨name.toList, var, none, "m", none⟩

/-- C198, what does not hold: the name of the diagnostic is replaced wherever it is found in the name of the cube, also in
the words around it. -/
theorem C198_everywhere_refuted :
    (updateDiagnosticName ⟨"probability_of_ability_above_threshold".toList, [thresholdCoord "ability" (some "threshold")], []⟩
      "skill".toList ⟨"probability_of_ability_above_threshold".toList, [thresholdCoord "ability" (some "threshold")], []⟩).toOption.map
        DiagMeta.name = some "probskill_of_skill_above_threshold".toList := by decide +kernel

/-- C198, what does not hold: a cube whose threshold coordinate is known by its name alone counts as one of probabilities,
but cannot be renamed. -/
theorem C198_named_threshold_refuted :
    isProbability ([thresholdCoord "threshold" none].map RnCoord.seen) = true ∧
    (updateDiagnosticName ⟨"probability_of_rain_above_threshold".toList, [thresholdCoord "threshold" none], []⟩
      "snow".toList ⟨"probability_of_rain_above_threshold".toList, [thresholdCoord "threshold" none], []⟩).toOption = none := by
  decide +kernel

/-- non-vacuity: a rate in the vicinity is renamed to one without. -/
example : (updateDiagnosticName
      ⟨"probability_of_rainfall_rate_in_vicinity_above_threshold".toList, [thresholdCoord "rainfall_rate" (some "threshold")], []⟩
      "lwe_snowfall_rate_in_variable_vicinity".toList
      ⟨"x".toList, [thresholdCoord "time" none, thresholdCoord "rainfall_rate" (some "threshold")], []⟩).toOption =
    some ⟨"probability_of_lwe_snowfall_rate_in_variable_vicinity_above_threshold".toList,
      [thresholdCoord "time" none, thresholdCoord "lwe_snowfall_rate" (some "threshold")], []⟩ := by decide +kernel

/-- The places of a text in another can be looked at one by one. -/
theorem once_of_places (part whole p : List Char) (hp : p <+: whole)
    (h : ∀ i ∈ List.range (whole.length + 1), i ≠ p.length → ¬ part <+: whole.drop i) :
    ∀ a b, whole = a ++ part ++ b → a = p := by
  intro a b hab
  by_contra hne
  have ha : a <+: whole := ⟨part ++ b, by rw [hab, List.append_assoc]⟩
  have hl : a.length ≠ p.length := fun hl => hne (by
    rw [List.prefix_iff_eq_take.1 ha, List.prefix_iff_eq_take.1 hp, hl])
  refine h a.length (List.mem_range.2 (Nat.lt_succ_of_le ha.length_le)) hl ⟨b, ?_⟩
  rw [hab, List.append_assoc, List.drop_left]

/-- non-vacuity of the hypothesis on the place of the name -/
example : ∀ a b, probName "rainfall_rate".toList .fixed .above = a ++ ("rainfall_rate".toList ++ Vicinity.fixed.text) ++ b →
    a = "probability_of_".toList :=
  once_of_places _ _ _ (by decide +kernel) (by decide +kernel)

/-! ## C199 -/

/-- C199: the cell methods of a thresholded and then renamed diagnostic are those of the diagnostic, each with the new
name of the threshold coordinate as its comment. -/
theorem C199_through (methods : List CellMethod) (d d' : List Char) (v : Vicinity) (t : Thresh) (hd : plainName d) :
    updateMethods (methodsForProbability d methods) (probName d v t) d' = methodsForProbability d' methods ∧
    methodsForDiagnostic (updateMethods (methodsForProbability d methods) (probName d v t) d') =
      methodsForDiagnostic methods := by
  have hs : methodSubject (probName d v t) = d := by
    unfold methodSubject; rw [(C137_round_trip d v t hd).1]
  have h : updateMethods (methodsForProbability d methods) (probName d v t) d' = methodsForProbability d' methods := by
    unfold updateMethods methodsForProbability
    rw [hs, List.map_map]
    refine List.map_congr_left fun m _ => ?_
    have hp : hasPart d ("of ".toList ++ d) = true := (hasPart_iff _ _).2 (List.suffix_append _ _).isInfix
    simp only [Function.comp, updateMethod]
    rw [if_pos hp]
  refine ⟨h, ?_⟩
  rw [h]
  unfold methodsForDiagnostic methodsForProbability
  rw [List.map_map]
  rfl

/-- C199: a diagnostic without comments on its cell methods has them back after thresholding and the way back. -/
theorem C199_round_trip (methods : List CellMethod) (d : List Char) (h : ∀ m ∈ methods, m.comments = []) :
    methodsForDiagnostic (methodsForProbability d methods) = methods := by
  unfold methodsForDiagnostic methodsForProbability
  rw [List.map_map]
  refine (List.map_congr_left fun m hm => ?_).trans (List.map_id methods)
  have := h m hm
  cases m
  simp only [Function.comp, id] at *
  rw [this]

/-- C199: renaming keeps number and order of the cell methods and all but their comments; a comment is changed where it is
the only one and holds the old name, and then names the new diagnostic. -/
theorem C199_kept (methods : List CellMethod) (original new : List Char) :
    (updateMethods methods original new).map (fun m => (m.method, m.coords, m.intervals)) =
      methods.map (fun m => (m.method, m.coords, m.intervals)) ∧
    ∀ (i : ℕ) (m : CellMethod), methods[i]? = some m → ∃ m', (updateMethods methods original new)[i]? = some m' ∧
      ((∃ c, m.comments = [c] ∧ methodSubject original <:+: c ∧ m'.comments = ["of ".toList ++ new]) ∨
       ((∀ c, m.comments = [c] → ¬ methodSubject original <:+: c) ∧ m' = m)) := by
  constructor
  · unfold updateMethods
    rw [List.map_map]
    refine List.map_congr_left fun m _ => ?_
    simp only [Function.comp]
    unfold updateMethod
    split
    · split <;> rfl
    · rfl
  · intro i m hm
    refine ⟨updateMethod (methodSubject original) new m, by unfold updateMethods; rw [List.getElem?_map, hm]; rfl, ?_⟩
    unfold updateMethod
    split
    · rename_i c hc
      by_cases hp : hasPart (methodSubject original) c = true
      · rw [if_pos hp]
        exact Or.inl ⟨c, hc, (hasPart_iff _ _).1 hp, rfl⟩
      · rw [if_neg hp]
        refine Or.inr ⟨fun c' hc' hi => hp ?_, rfl⟩
        rw [hc] at hc'
        obtain rfl : c = c' := by simpa using hc'
        exact (hasPart_iff _ _).2 hi
    · rename_i hn
      exact Or.inr ⟨fun c hc => absurd hc (hn c), rfl⟩

/-- C199: for a diagnostic that is not a probability, the comments replaced are those that hold its whole name. -/
theorem C199_whole_name (m : CellMethod) (c original new : List Char) (hm : m.comments = [c])
    (hp : ¬ "probability_of_".toList <+: original) :
    (original <:+: c → (updateMethods [m] original new) = [⟨m.method, m.coords, m.intervals, ["of ".toList ++ new]⟩]) ∧
    (¬ original <:+: c → (updateMethods [m] original new) = [m]) := by
  have hs : methodSubject original = original := by
    unfold methodSubject extractDiag probRegex
    rw [if_neg (by rw [List.isPrefixOf_iff_prefix]; exact hp)]
  unfold updateMethods updateMethod
  rw [hs]
  simp only [List.map_cons, List.map_nil, hm]
  constructor
  · intro h
    rw [if_pos ((hasPart_iff _ _).2 h)]
  · intro h
    rw [if_neg (fun hh => h ((hasPart_iff _ _).1 hh))]

/-- The conditions of C199_whole_name can be met. -/
example : updateMethods [⟨"maximum", ["time"], [], ["of rainfall_rate".toList]⟩] "rainfall_rate".toList "snowfall_rate".toList =
    [⟨"maximum", ["time"], [], ["of snowfall_rate".toList]⟩] := by decide +kernel

/-- C199: the renamed cube has the cell methods of the source, updated; without any on the source those of the result stay. -/
theorem C199_of_cube (source result r : DiagMeta) (new : List Char) (h : updateDiagnosticName source new result = .ok r) :
    (source.methods = [] → r.methods = result.methods) ∧
    (source.methods ≠ [] → r.methods = updateMethods source.methods source.name (stripVicinity new)) := by
  have key : r.methods = methodsOfResult source result (stripVicinity new) := by
    unfold updateDiagnosticName at h
    by_cases hp : isProbability (source.coords.map RnCoord.seen) = true
    · rw [if_pos hp] at h
      simp only [bind, Except.bind] at h
      cases he : extractDiag true source.name with
      | error e => rw [he] at h; nomatch h
      | ok d =>
        rw [he] at h
        cases hc : renameThreshold (stripVicinity new) result.coords with
        | error e => simp only [hc] at h; nomatch h
        | ok cs =>
          simp only [hc] at h
          cases h
          rfl
    · rw [if_neg hp] at h
      cases h
      rfl
  unfold methodsOfResult at key
  constructor
  · intro hs
    rw [key, if_pos hs]
  · intro hs
    rw [key, if_neg hs]

/-- C199, what does not hold: a comment on another variable, whose name holds that of the diagnostic, is overwritten. -/
theorem C199_part_of_name_refuted :
    updateMethods [⟨"maximum", ["time"], [], ["of rainfall_rate_in_cloud".toList]⟩] "rainfall_rate".toList "snowfall_rate".toList =
      [⟨"maximum", ["time"], [], ["of snowfall_rate".toList]⟩] := by decide +kernel

/-- C199, what does not hold: cell methods with several comments keep the old name. -/
theorem C199_several_refuted :
    updateMethods [⟨"mean", ["x", "y"], [], ["of rainfall_rate".toList, "of rainfall_rate".toList]⟩] "rainfall_rate".toList
      "snowfall_rate".toList = [⟨"mean", ["x", "y"], [], ["of rainfall_rate".toList, "of rainfall_rate".toList]⟩] := by
  decide +kernel

/-! ## C200 -/

/-- C200: a radius added for the first time is recorded last, in metres or, for a number of grid points, in units of 1, which
the comment then says; the comment also says if it is for a maximum. -/
theorem C200_comment (radius : ℚ) (gridPoints isMax : Bool) (coords : List RnCoord)
    (hnone : ∀ c ∈ coords, c.name ≠ "radius_of_vicinity".toList) :
    ∃ c, addVicinity radius gridPoints isMax coords = .ok (coords ++ [c]) ∧ c.name = "radius_of_vicinity".toList ∧
      c.point = some radius ∧ c.varName = none ∧
      (gridPoints = false → isMax = false → c.units = "m" ∧ c.comment = none) ∧
      (gridPoints = false → isMax = true → c.units = "m" ∧ c.comment = some "Maximum") ∧
      (gridPoints = true → isMax = false → c.units = "1" ∧
        c.comment = some "Units of 1 indicate radius of vicinity is defined in grid points rather than physical distance") ∧
      (gridPoints = true → isMax = true → c.units = "1" ∧ c.comment =
        some "Maximum; Units of 1 indicate radius of vicinity is defined in grid points rather than physical distance") := by
  have h1 : vicinityComment true false =
      some "Units of 1 indicate radius of vicinity is defined in grid points rather than physical distance" := rfl
  have h2 : vicinityComment true true =
      some "Maximum; Units of 1 indicate radius of vicinity is defined in grid points rather than physical distance" := by
    decide +kernel
  unfold addVicinity
  revert hnone
  generalize "radius_of_vicinity".toList = w
  intro hnone
  have hany : ∀ u cm, (coords.any fun c => decide (c.name = w ∧ c.varName = none ∧ c.units = u ∧ c.comment = cm)) = false := by
    intro u cm
    rw [List.any_eq_false]
    intro x hx
    simp [hnone x hx]
  refine ⟨⟨w, none, some radius, if gridPoints then "1" else "m", vicinityComment gridPoints isMax⟩, ?_, rfl, rfl, rfl, ?_⟩
  · simp only [hany]
    rfl
  · cases gridPoints <;> cases isMax
    · exact ⟨fun _ _ => ⟨rfl, rfl⟩, nofun, nofun, nofun⟩
    · exact ⟨nofun, fun _ _ => ⟨rfl, rfl⟩, nofun, nofun⟩
    · exact ⟨nofun, nofun, fun _ _ => ⟨rfl, h1⟩, nofun⟩
    · exact ⟨nofun, nofun, nofun, fun _ _ => ⟨rfl, h2⟩⟩

/-- C200_comment has cases: the threshold coordinate stays where it is. -/
example : (addVicinity 3 true true [⟨"rainfall_rate".toList, some "threshold", none, "m s-1", none⟩]).toOption.map
    (fun l => l.map fun c => (c.units, c.point)) = some [("m s-1", none), ("1", some 3)] := by decide +kernel

/-- C200: after the record of a vicinity the cube has one coordinate for its radius, in metres, with the value given, marked
as the maximum exactly when there was none before; the other coordinates, name and cell methods stay. -/
theorem C200_recorded (cube : DiagMeta) (radius : ℚ) (hr : radius ≠ 0)
    (h1 : (cube.coords.filter fun c => decide (c.name = "radius_of_vicinity".toList)).length ≤ 1) :
    ∃ r, updateVicinity [] radius cube = .ok r ∧ r.name = cube.name ∧ r.methods = cube.methods ∧
      (r.coords.filter fun c => decide (c.name ≠ "radius_of_vicinity".toList)) =
        (cube.coords.filter fun c => decide (c.name ≠ "radius_of_vicinity".toList)) ∧
      ∃ c, (r.coords.filter fun c => decide (c.name = "radius_of_vicinity".toList)) = [c] ∧ c.point = some radius ∧
        c.units = "m" ∧ (c.comment = some "Maximum" ↔ ∀ x ∈ cube.coords, x.name ≠ "radius_of_vicinity".toList) ∧
        (c.comment = none ↔ ∃ x ∈ cube.coords, x.name = "radius_of_vicinity".toList) := by
  generalize hw : "radius_of_vicinity".toList = w at h1 ⊢
  set m := cube.coords.filter fun c => decide (c.name = w) with hm
  set o := cube.coords.filter fun c => decide (c.name ≠ w) with ho
  have hany : (o.any fun c => decide (c.name = w ∧ c.varName = none ∧ c.units = (if false = true then "1" else "m") ∧
      c.comment = vicinityComment false (decide (m = [])))) = false := by
    rw [List.any_eq_false]
    intro x hx
    have : x.name ≠ w := by simpa using (List.mem_filter.1 hx).2
    simp [this]
  have hoo : o.filter (fun c => decide (c.name ≠ w)) = o := by
    rw [ho, List.filter_filter]; simp
  have hon : o.filter (fun c => decide (c.name = w)) = [] := by
    rw [List.filter_eq_nil_iff]
    intro x hx
    have : x.name ≠ w := by simpa using (List.mem_filter.1 hx).2
    simpa using this
  set new : RnCoord := ⟨w, none, some radius, "m", vicinityComment false (decide (m = []))⟩ with hnew
  have hadd : addVicinity radius false (decide (m = [])) o = .ok (o ++ [new]) := by
    unfold addVicinity
    rw [hw]
    show (if (o.any fun c => decide (c.name = w ∧ c.varName = none ∧ c.units = (if false = true then "1" else "m") ∧
      c.comment = vicinityComment false (decide (m = [])))) = true then _ else _) = _
    rw [if_neg (by rw [hany]; simp)]
    rfl
  have hmn : m = [] ↔ ∀ x ∈ cube.coords, x.name ≠ w := by
    rw [hm, List.filter_eq_nil_iff]; simp
  refine ⟨⟨cube.name, o ++ [new], cube.methods⟩, ?_, rfl, rfl, ?_, new, ?_, rfl, rfl, ?_, ?_⟩
  · unfold updateVicinity
    rw [hw]
    simp only [bind, Except.bind]
    rw [if_pos trivial, if_neg hr, if_neg (Nat.not_lt.2 h1)]
    rw [hadd]
  · show (o ++ [new]).filter _ = o
    rw [List.filter_append, hoo]; simp [new]
  · show (o ++ [new]).filter _ = [new]
    rw [List.filter_append, hon]; simp [new]
  · rw [← hmn]
    by_cases hmm : m = [] <;> simp [new, hmm, vicinityComment]
  · have : (∃ x ∈ cube.coords, x.name = w) ↔ m ≠ [] := by
      rw [ne_eq, hmn]; push Not; rfl
    rw [this]
    by_cases hmm : m = [] <;> simp [new, hmm, vicinityComment]

/-- C200: the name given is set first. -/
theorem C200_with_name (cube r : DiagMeta) (new : List Char) (radius : ℚ) (hn : new ≠ [])
    (h : updateDiagnosticName cube new cube = .ok r) : updateVicinity new radius cube = updateVicinity [] radius r := by
  unfold updateVicinity
  simp only [bind, Except.bind]
  rw [if_neg hn, h, if_pos trivial]

/-- C200: a radius of 0 is not recorded. -/
theorem C200_zero (cube : DiagMeta) : updateVicinity [] 0 cube = .ok cube := by
  unfold updateVicinity
  simp only [bind, Except.bind]
  rw [if_pos trivial]
  simp

/-- non-vacuity: a blend of different radii has lost the coordinate, and is marked. -/
example : (updateVicinity [] 10000 ⟨"x".toList, [thresholdCoord "time" none], []⟩).toOption.map DiagMeta.coords =
    some [thresholdCoord "time" none, ⟨"radius_of_vicinity".toList, none, some 10000, "m", some "Maximum"⟩] := by
  decide +kernel

end Improver
