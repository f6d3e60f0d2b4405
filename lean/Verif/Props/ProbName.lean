import Verif.Model.ProbName
import Mathlib.Data.List.Infix
import Mathlib.Tactic.FinCases

/-!
C137 (names of probability cubes), C138 (threshold and percentile coordinates).
-/

namespace Improver
namespace Spec

/-- A diagnostic name which can be told from the words around it: it holds no threshold word and
does not end with a vicinity word. -/
def plainName (d : List Char) : Prop :=
  (∀ w ∈ ["_above_threshold", "_below_threshold", "_between_thresholds"], ¬ w.toList <:+: d) ∧
  ¬ "_in_vicinity".toList <:+ d ∧ ¬ "_in_variable_vicinity".toList <:+ d

/-- The vicinity part of a name. -/
inductive Vicinity where
  | no | fixed | variable

/-- The text for it. -/
def Vicinity.text : Vicinity → List Char
  | .no => []
  | .fixed => "_in_vicinity".toList
  | .variable => "_in_variable_vicinity".toList

/-- The threshold part of a name. -/
inductive Thresh where
  | above | below | between | absent

/-- The text for it. -/
def Thresh.text : Thresh → List Char
  | .above => "_above_threshold".toList
  | .below => "_below_threshold".toList
  | .between => "_between_thresholds".toList
  | .absent => []

/-- Name of the cube of probabilities of `d`. -/
def probName (d : List Char) (v : Vicinity) (t : Thresh) : List Char :=
  "probability_of_".toList ++ d ++ v.text ++ t.text

end Spec

open Spec

theorem matchThresh_some (s t : List Char) (h : matchThresh s = some t) :
    t <+: s ∧ (t ∈ threshWords ∨ (t = [] ∧ s = [])) := by
  unfold matchThresh at h
  cases hf : threshWords.find? (fun w => w.isPrefixOf s) with
  | some w =>
    rw [hf] at h
    obtain rfl : w = t := by simpa using h
    have hpf := @List.find?_some _ (fun w => w.isPrefixOf s) w threshWords hf
    exact ⟨List.isPrefixOf_iff_prefix.1 hpf, Or.inl (List.mem_of_find?_eq_some hf)⟩
  | none =>
    rw [hf] at h
    simp only at h
    by_cases hs : s = []
    · rw [if_pos hs] at h
      obtain rfl : [] = t := by simpa using h
      exact ⟨by simp, Or.inr ⟨rfl, hs⟩⟩
    · rw [if_neg hs] at h; nomatch h

theorem matchTail_some (s : List Char) (v : Option (List Char)) (t : List Char)
    (h : matchTail s = some (v, t)) :
    (v = none ∨ ∃ w ∈ vicinityWords, v = some w) ∧ (v.getD [] ++ t) <+: s ∧
      (t ∈ threshWords ∨ (t = [] ∧ s = v.getD [])) := by
  unfold matchTail at h
  cases hf : vicinityWords.findSome? (fun v =>
      if v.isPrefixOf s then (matchThresh (s.drop v.length)).map fun t => (some v, t) else none) with
  | some r =>
    rw [hf] at h
    simp only [Option.some.injEq] at h
    subst h
    obtain ⟨w, hw, hw'⟩ := List.exists_of_findSome?_eq_some hf
    by_cases hp : w.isPrefixOf s = true
    · rw [if_pos hp] at hw'
      simp only [Option.map_eq_some_iff, Prod.mk.injEq] at hw'
      obtain ⟨t', ht', rfl, rfl⟩ := hw'
      obtain ⟨h1, h2⟩ := matchThresh_some _ _ ht'
      obtain ⟨q, hq⟩ := List.isPrefixOf_iff_prefix.1 hp
      rw [← hq, List.drop_left] at h1 h2
      refine ⟨Or.inr ⟨w, hw, rfl⟩, ?_, ?_⟩
      · rw [← hq]
        simpa using h1
      · rcases h2 with h2 | ⟨h2, h3⟩
        · exact Or.inl h2
        · right
          refine ⟨h2, ?_⟩
          rw [← hq, h3]
          simp
    · rw [if_neg hp] at hw'; nomatch hw'
  | none =>
    rw [hf] at h
    simp only [Option.map_eq_some_iff, Prod.mk.injEq] at h
    obtain ⟨t', ht', rfl, rfl⟩ := h
    obtain ⟨h1, h2⟩ := matchThresh_some _ _ ht'
    exact ⟨Or.inl rfl, by simpa using h1, by simpa using h2⟩

/-- The twelve ends of a name. -/
def nameTails : List (List Char) :=
  [[], "_in_vicinity".toList, "_in_variable_vicinity".toList].flatMap fun v =>
    ["_above_threshold".toList, "_below_threshold".toList, "_between_thresholds".toList, []].map
      fun t => v ++ t

theorem overlap_words : ∀ v ∈ [] :: vicinityWords, ∀ w ∈ threshWords, ∀ T ∈ nameTails,
    ∀ j ∈ List.range (v ++ w).length, j ≠ 0 → ((v ++ w).drop j).isPrefixOf T = true →
      ∃ u ∈ vicinityWords, u.isSuffixOf ((v ++ w).take j) = true := by
  decide +kernel

theorem overlap_ends : ∀ v ∈ [] :: vicinityWords, ∀ T ∈ nameTails,
    ∀ j ∈ List.range (v.length + 1), j ≠ 0 → v.drop j = T →
      ∃ u ∈ vicinityWords, u.isSuffixOf (v.take j) = true := by
  decide +kernel

theorem plain_no_vicinity {d : List Char} (h : plainName d) :
    ∀ u ∈ vicinityWords, ¬ u <:+ d := by
  intro u hu
  simp only [vicinityWords, List.mem_cons, List.not_mem_nil, or_false] at hu
  rcases hu with rfl | rfl
  · exact h.2.1
  · exact h.2.2

theorem plain_no_thresh {d : List Char} (h : plainName d) :
    ∀ w ∈ threshWords, ¬ w <:+: d := by
  intro w hw
  simp only [threshWords, List.mem_cons, List.not_mem_nil, or_false] at hw
  rcases hw with rfl | rfl | rfl
  · exact h.1 _ (by simp)
  · exact h.1 _ (by simp)
  · exact h.1 _ (by simp)

theorem matchTail_none (d T : List Char) (hd : plainName d) (hne : d ≠ []) (hT : T ∈ nameTails) :
    matchTail (d ++ T) = none := by
  by_contra hcon
  obtain ⟨⟨v, t⟩, h⟩ := Option.ne_none_iff_exists'.1 hcon
  obtain ⟨h1, h2, h3⟩ := matchTail_some _ _ _ h
  have hj0 : d.length ≠ 0 := by simpa using hne
  set v' := v.getD [] with hv'
  have hvm : v' ∈ [] :: vicinityWords := by
    rcases h1 with rfl | ⟨w, hw, rfl⟩
    · simp [hv']
    · exact List.mem_cons_of_mem _ hw
  have hno := plain_no_vicinity hd
  rcases h3 with h3 | ⟨rfl, h3⟩
  · rcases Nat.lt_or_ge d.length (v' ++ t).length with hlt | hge
    · have htake : (v' ++ t).take d.length = d := by
        obtain ⟨q, hq⟩ := h2
        have := congrArg (List.take d.length) hq
        rw [List.take_append_of_le_length hlt.le] at this
        simpa using this
      have hdrop : (v' ++ t).drop d.length <+: T := by
        obtain ⟨q, hq⟩ := h2
        have := congrArg (List.drop d.length) hq
        rw [List.drop_append_of_le_length hlt.le] at this
        exact ⟨q, by simpa using this⟩
      obtain ⟨u, hu, hu'⟩ := overlap_words v' hvm t h3 T hT d.length (List.mem_range.2 hlt) hj0
        (List.isPrefixOf_iff_prefix.2 hdrop)
      rw [htake] at hu'
      exact hno u hu (List.isSuffixOf_iff_suffix.1 hu')
    · have hp : v' ++ t <+: d := List.prefix_of_prefix_length_le h2 (List.prefix_append d T) hge
      have : t <:+: d := List.IsInfix.trans (List.suffix_append v' t).isInfix hp.isInfix
      exact plain_no_thresh hd t h3 this
  · have hle : d.length ≤ v'.length := by rw [← h3]; simp
    have htake : v'.take d.length = d := by rw [← h3]; simp
    have hdrop : v'.drop d.length = T := by rw [← h3]; simp
    obtain ⟨u, hu, hu'⟩ := overlap_ends v' hvm T hT d.length
      (List.mem_range.2 (by omega)) hj0 hdrop
    rw [htake] at hu'
    exact hno u hu (List.isSuffixOf_iff_suffix.1 hu')

theorem plain_tail {c : Char} {d : List Char} (h : plainName (c :: d)) : plainName d := by
  have hs : d <:+ c :: d := List.suffix_cons c d
  exact ⟨fun w hw hi => h.1 w hw (hi.trans hs.isInfix), fun hi => h.2.1 (hi.trans hs),
    fun hi => h.2.2 (hi.trans hs)⟩

theorem matchDiag_plain (d T acc : List Char) (r : Option (List Char) × List Char)
    (hd : plainName d) (hT : T ∈ nameTails) (hr : matchTail T = some r) :
    matchDiag acc (d ++ T) = some (acc.reverse ++ d, r) := by
  induction d generalizing acc with
  | nil =>
    unfold matchDiag
    simp [hr]
  | cons c rest ih =>
    have hn := matchTail_none (c :: rest) T hd (by simp) hT
    unfold matchDiag
    rw [hn]
    simp only [List.cons_append]
    rw [ih (c :: acc) (plain_tail hd)]
    simp

/-- The group of the regular expression for a vicinity. -/
def Spec.Vicinity.group : Vicinity → Option (List Char)
  | .no => none
  | v => some v.text

theorem group_text (v : Vicinity) : v.group.getD [] = v.text := by
  cases v <;> rfl

theorem tail_mem (v : Vicinity) (t : Thresh) : v.text ++ t.text ∈ nameTails := by
  cases v <;> cases t <;> decide +kernel

theorem tail_match (v : Vicinity) (t : Thresh) :
    matchTail (v.text ++ t.text) =
      some (v.group, t.text) := by
  cases v <;> cases t <;> decide +kernel

theorem probRegex_name (d : List Char) (v : Vicinity) (t : Thresh) (hd : plainName d) :
    probRegex (probName d v t) =
      some (d, v.group, t.text) := by
  unfold probRegex probName
  have hp : probPrefix = "probability_of_".toList := rfl
  have hpre : probPrefix <+: probPrefix ++ d ++ v.text ++ t.text :=
    ⟨d ++ (v.text ++ t.text), by simp only [List.append_assoc]⟩
  rw [← hp, if_pos (List.isPrefixOf_iff_prefix.2 hpre)]
  have : (probPrefix ++ d ++ v.text ++ t.text).drop probPrefix.length =
      d ++ (v.text ++ t.text) := by
    rw [List.append_assoc, List.append_assoc, List.drop_left]
  rw [this, matchDiag_plain d _ [] _ hd (tail_mem v t) (tail_match v t)]
  simp

theorem extractDiag_of (b : Bool) (name d t : List Char) (v : Option (List Char))
    (h : probRegex name = some (d, v, t)) :
    extractDiag b name = .ok (if b then d ++ v.getD [] else d) := by
  unfold extractDiag
  rw [h]
  cases v <;> cases b <;> simp

/-- C137: from the name of a probability cube the name of its threshold coordinate is found, and
the name of the diagnostic, which includes the vicinity. -/
theorem C137_round_trip (d : List Char) (v : Vicinity) (t : Thresh) (hd : plainName d) :
    extractDiag false (probName d v t) = .ok d ∧
    extractDiag true (probName d v t) = .ok (d ++ v.text) := by
  have h := probRegex_name d v t hd
  generalize probName d v t = name at h ⊢
  refine ⟨extractDiag_of false name d _ _ h, ?_⟩
  have h2 := extractDiag_of true name d _ _ h
  rw [h2, group_text]
  rfl

/-- C137: two cubes of the same name are for the same diagnostic: the name determines it. -/
theorem C137_injective (d d' : List Char) (v v' : Vicinity) (t t' : Thresh) (hd : plainName d)
    (hd' : plainName d') (h : probName d v t = probName d' v' t') :
    d = d' ∧ v = v' ∧ t = t' := by
  have h1 := probRegex_name d v t hd
  rw [h, probRegex_name d' v' t' hd'] at h1
  simp only [Option.some.injEq, Prod.mk.injEq] at h1
  obtain ⟨a, b, c⟩ := h1
  refine ⟨a.symm, ?_, ?_⟩
  · cases v <;> cases v' <;> first | rfl | (exfalso; revert b; decide +kernel)
  · cases t <;> cases t' <;> first | rfl | (exfalso; revert c; decide +kernel)

/-- C137: the vicinity name of any probability name is that of the same diagnostic and thresholds
in the vicinity; naming again changes nothing. -/
theorem C137_vicinity (d : List Char) (v : Vicinity) (t : Thresh) (hd : plainName d) :
    vicinityName (probName d v t) = .ok (probName d .fixed t) := by
  unfold vicinityName
  rw [probRegex_name d v t hd]
  rfl

/-- C137: a name which does not begin as the names of probabilities do is refused, any other is
accepted. -/
theorem C137_accepted (b : Bool) (name : List Char) :
    (("probability_of_".toList <+: name) → ∃ d, extractDiag b name = .ok d) ∧
    (¬ ("probability_of_".toList <+: name) → extractDiag b name = .error .valueError ∧
      vicinityName name = .error .attributeError) := by
  have hp : probPrefix = "probability_of_".toList := rfl
  rw [← hp]
  constructor
  · intro h
    have key : ∀ (s acc : List Char), ∃ r, matchDiag acc s = some r := by
      intro s
      induction s with
      | nil =>
        intro acc
        refine ⟨(acc.reverse, none, []), ?_⟩
        unfold matchDiag
        have : matchTail [] = some (none, []) := by decide +kernel
        rw [this]
      | cons c rest ih =>
        intro acc
        unfold matchDiag
        cases matchTail (c :: rest) with
        | some r => exact ⟨_, rfl⟩
        | none => exact ih (c :: acc)
    obtain ⟨⟨d, v, t⟩, hr⟩ := key (name.drop probPrefix.length) []
    unfold extractDiag probRegex
    rw [if_pos (List.isPrefixOf_iff_prefix.2 h), hr]
    cases v
    · exact ⟨_, rfl⟩
    · exact ⟨_, rfl⟩
  · intro h
    have hn : probRegex name = none := by
      unfold probRegex
      rw [if_neg (fun hh => h (List.isPrefixOf_iff_prefix.1 hh))]
    unfold extractDiag vicinityName
    rw [hn]
    exact ⟨rfl, rfl⟩

/-- C137, refuted for other names: what follows a threshold word is ignored, so that different
names give the same diagnostic, and is lost from the vicinity name. -/
theorem C137_trailing_refuted :
    vicinityName "probability_of_rain_above_threshold_in_layer".toList =
      .ok "probability_of_rain_in_vicinity_above_threshold".toList := by decide +kernel

/-- non-vacuity -/
example : plainName "lwe_precipitation_rate".toList ∧
    probName "lwe_precipitation_rate".toList .fixed .above =
      "probability_of_lwe_precipitation_rate_in_vicinity_above_threshold".toList := by
  constructor
  · refine ⟨?_, ?_, ?_⟩ <;> decide +kernel
  · decide +kernel

/-! ### Coordinates -/

/-- C138: a cube is taken as a probability cube exactly when it has one coordinate named threshold
or one with that variable name. -/
theorem C138_probability (coords : List NamedCoord) :
    isProbability coords = true ↔
      (coords.filter (fun c => decide (c.name = "threshold"))).length = 1 ∨
      ∃ c ∈ coords, c.varName = some "threshold" := by
  unfold isProbability findThreshold
  have hfind : (∃ c ∈ coords, c.varName = some "threshold") ↔
      ∃ c, coords.find? (fun c => decide (c.varName = some "threshold")) = some c := by
    rw [← Option.isSome_iff_exists, List.find?_isSome]
    simp
  rw [hfind]
  generalize coords.filter (fun c => decide (c.name = "threshold")) = l
  rcases l with _ | ⟨a, _ | ⟨b, t⟩⟩ <;>
    cases coords.find? (fun c => decide (c.varName = some "threshold")) <;> simp

/-- C138: when it is not one, asking for its threshold coordinate or its sense raises CoordinateNotFoundError. -/
theorem C138_not_found (coords : List NamedCoord) (h : isProbability coords = false) :
    findThreshold coords = .error .coordinateNotFound ∧
    aboveOrBelow coords = .error .coordinateNotFound := by
  have key : findThreshold coords = .error .coordinateNotFound := by
    unfold isProbability at h
    cases hf : findThreshold coords with
    | ok c => rw [hf] at h; cases h
    | error e =>
      unfold findThreshold at hf
      generalize coords.filter (fun c => decide (c.name = "threshold")) = l at hf
      rcases l with _ | ⟨a, _ | ⟨b, t⟩⟩ <;>
        cases hq : coords.find? (fun c => decide (c.varName = some "threshold")) <;> rw [hq] at hf <;> cases hf <;> rfl
  refine ⟨key, ?_⟩
  unfold aboveOrBelow
  rw [key]

example : isProbability [⟨"time", none, none⟩] = false := by decide +kernel

/-- C138: of the threshold coordinate found, the one named threshold is preferred. -/
theorem C138_threshold (coords : List NamedCoord) (c : NamedCoord)
    (h : findThreshold coords = .ok c) :
    c ∈ coords ∧ ((c.name = "threshold" ∧ ∀ a ∈ coords, a.name = "threshold" → a = c) ∨
      c.varName = some "threshold") := by
  unfold findThreshold at h
  rcases hf : coords.filter (fun c => decide (c.name = "threshold")) with _ | ⟨a, _ | ⟨b, t⟩⟩
  · rw [hf] at h
    simp only at h
    cases hg : coords.find? (fun c => decide (c.varName = some "threshold")) with
    | none => rw [hg] at h; nomatch h
    | some x =>
      rw [hg] at h
      obtain rfl : x = c := by simpa using h
      exact ⟨List.mem_of_find?_eq_some hg, Or.inr (by simpa using List.find?_some hg)⟩
  · rw [hf] at h
    obtain rfl : a = c := by simpa using h
    have hm : a ∈ coords.filter (fun c => decide (c.name = "threshold")) := by rw [hf]; simp
    rw [List.mem_filter] at hm
    refine ⟨hm.1, Or.inl ⟨by simpa using hm.2, ?_⟩⟩
    intro x hx hn
    have : x ∈ coords.filter (fun c => decide (c.name = "threshold")) :=
      List.mem_filter.2 ⟨hx, by simpa using hn⟩
    rw [hf] at this
    simpa using this
  · rw [hf] at h
    simp only at h
    cases hg : coords.find? (fun c => decide (c.varName = some "threshold")) with
    | none => rw [hg] at h; nomatch h
    | some x =>
      rw [hg] at h
      obtain rfl : x = c := by simpa using h
      exact ⟨List.mem_of_find?_eq_some hg, Or.inr (by simpa using List.find?_some hg)⟩

/-- C138: the sense of the thresholds. -/
theorem C138_sense (coords : List NamedCoord) (c : NamedCoord)
    (h : findThreshold coords = .ok c) :
    (aboveOrBelow coords = .ok (some "above") ↔
      c.relative ∈ [some "above", some "greater_than", some "greater_than_or_equal_to"]) ∧
    (aboveOrBelow coords = .ok (some "below") ↔
      c.relative ∈ [some "below", some "less_than", some "less_than_or_equal_to"]) := by
  unfold aboveOrBelow
  rw [h]
  simp only [List.mem_cons, List.not_mem_nil, or_false]
  by_cases h1 : c.relative = some "above" ∨ c.relative = some "greater_than" ∨
      c.relative = some "greater_than_or_equal_to"
  · rw [if_pos h1]
    refine ⟨⟨fun _ => h1, fun _ => rfl⟩, ⟨fun h => absurd h (by decide), ?_⟩⟩
    intro h2
    rcases h1 with h1 | h1 | h1 <;> rw [h1] at h2 <;> revert h2 <;> decide
  · rw [if_neg h1]
    by_cases h2 : c.relative = some "below" ∨ c.relative = some "less_than" ∨
      c.relative = some "less_than_or_equal_to"
    · rw [if_pos h2]
      exact ⟨⟨fun h => absurd h (by decide), fun h => absurd h h1⟩, ⟨fun _ => h2, fun _ => rfl⟩⟩
    · rw [if_neg h2]
      exact ⟨⟨fun h => by simp at h, fun h => absurd h h1⟩, ⟨fun h => by simp at h, fun h => absurd h h2⟩⟩

/-- C138: the percentile coordinate is the only one whose name holds "percentile"; a cube with
several is not taken as a percentile cube. -/
theorem C138_percentile (coords : List NamedCoord) (hnd : coords.Nodup) (c : NamedCoord) :
    findPercentile coords = .ok c ↔
      ∀ a, (a ∈ coords ∧ "percentile".toList <:+: a.name.toList) ↔ a = c := by
  unfold findPercentile
  have hm : ∀ a, a ∈ percentileCoords coords ↔
      (a ∈ coords ∧ "percentile".toList <:+: a.name.toList) := by
    intro a
    unfold percentileCoords
    generalize "percentile".toList = pw
    rw [List.mem_filter, hasPart_iff]
  have hn : (percentileCoords coords).Nodup := hnd.filter _
  simp only [← hm]
  generalize percentileCoords coords = l at hn
  rcases l with _ | ⟨a, _ | ⟨b, t⟩⟩
  · simp
  · simp only [Except.ok.injEq, List.mem_singleton]
    constructor
    · rintro rfl; simp
    · intro h; exact (h a).1 rfl
  · constructor
    · intro h; nomatch h
    · intro h
      have h1 := (h a).1 (by simp)
      have h2 := (h b).1 (by simp)
      rw [h1, h2] at hn
      simp at hn

/-- non-vacuity -/
example : findThreshold [⟨"time", none, none⟩, ⟨"rain", some "threshold", some "greater_than"⟩] =
      .ok ⟨"rain", some "threshold", some "greater_than"⟩ ∧
    findPercentile [⟨"time", none, none⟩, ⟨"percentile", none, none⟩] =
      .ok ⟨"percentile", none, none⟩ ∧
    isPercentile [⟨"percentile", none, none⟩, ⟨"my_percentile_of", none, none⟩] = false := by
  decide +kernel

end Improver
