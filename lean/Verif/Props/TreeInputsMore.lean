import Verif.Props.TreeInputs
import Verif.Props.TreePoints

/-!
C207 (continued: the probabilities a test uses), C208 (inputs of a decision tree are for one time and period), C209 (reference
times of the result of a decision tree).
-/

namespace Improver
namespace Spec

/-- All the times, and all the bounds of times, of inputs. -/
def allTimes (cubes : List TreeCube) : List ℤ := cubes.flatMap fun c => c.time.points
/-- The bounds of the times of inputs. -/
def allBounds (cubes : List TreeCube) : List (ℤ × ℤ) := cubes.flatMap fun c => c.time.bounds.getD []

/-- The latest of the times that all inputs have. -/
def Latest (times : List (Option ℤ)) (t : ℤ) : Prop := some t ∈ times ∧ ∀ x ∈ times, ∃ s, x = some s ∧ s ≤ t

end Spec

open Spec

/-! ## The probabilities of a test -/

/-- **C207** (what a test uses): if one part of the inputs has the diagnostic, and one of its thresholds alone is close to the
one asked for, then a test uses the probabilities at this threshold. -/
theorem C207_test_uses (used : List TreeSlice) (named : Bool) (expected d : String) (v p : ℚ) (c : TreeCube) (tc : TiThreshold)
    (ps : List ℚ) (hmem : ⟨c, ps⟩ ∈ used) (honly : ∀ s ∈ used, s.cube.name = d → s.cube = c ∧ ∀ q, q ∈ s.kept → close v q → q = p)
    (hnd : ∀ s ∈ used, s.kept.Nodup) (hd : c.name = d) (htc : c.threshold = some tc)
    (hname : tc.name = if named then "threshold" else expected) (hp : p ∈ ps) (hclose : close v p) :
    lookUp used named expected d v = .ok ⟨c, [p]⟩ := by
  unfold lookUp
  have hall : ∀ x ∈ used.filterMap (matchPart (if named then "threshold" else expected) d v), x = ⟨c, [p]⟩ := by
    intro x hx
    obtain ⟨s, hs, hm⟩ := List.mem_filterMap.1 hx
    unfold matchPart at hm
    by_cases hc : s.cube.name = d ∧ s.cube.threshold.map TiThreshold.name = some (if named then "threshold" else expected)
    · rw [if_pos hc] at hm
      obtain ⟨h1, h2⟩ := honly s hs hc.1
      unfold keptPart at hm
      by_cases he : s.kept.filter (closeThreshold v) = []
      · rw [if_pos he] at hm; nomatch hm
      · rw [if_neg he] at hm
        obtain rfl := Option.some.inj hm
        rw [h1]
        congr 1
        have hmemf : ∀ q ∈ s.kept.filter (closeThreshold v), q = p := by
          intro q hq
          rw [List.mem_filter, closeThreshold_iff] at hq
          exact h2 q hq.1 hq.2
        have hnd' : (s.kept.filter (closeThreshold v)).Nodup := (hnd s hs).filter _
        cases hl : s.kept.filter (closeThreshold v) with
        | nil => exact absurd hl he
        | cons a l =>
          rw [hl] at hmemf hnd'
          cases l with
          | nil => rw [hmemf a (by simp)]
          | cons b l =>
            have h1 := hmemf a (by simp)
            have h2 := hmemf b (by simp)
            rw [h1, h2] at hnd'
            simp at hnd'
    · rw [if_neg hc] at hm; nomatch hm
  have hne : ∃ x, x ∈ used.filterMap (matchPart (if named then "threshold" else expected) d v) := by
    refine ⟨⟨c, ps.filter (closeThreshold v)⟩, List.mem_filterMap.2 ⟨_, hmem, ?_⟩⟩
    unfold matchPart
    rw [if_pos ⟨hd, by rw [htc]; simpa using hname⟩]
    unfold keptPart
    rw [if_neg]
    intro he
    have : p ∈ ps.filter (closeThreshold v) := by
      rw [List.mem_filter, closeThreshold_iff]; exact ⟨hp, hclose⟩
    rw [he] at this
    nomatch this
  cases hl : used.filterMap (matchPart (if named then "threshold" else expected) d v) with
  | nil => rw [hl] at hne; simp at hne
  | cons x l =>
    rw [hl] at hall
    show Except.ok x = _
    rw [hall x (by simp)]

/-- A cube of probabilities of temperature at 273.15 K and 275.15 K. -/
def tiWarm : TreeCube :=
  ⟨"probability_of_air_temperature_above_threshold", some ⟨"air_temperature", "K", [5463 / 20, 5503 / 20], some "above"⟩,
    ⟨[3600], none⟩, some 0, none⟩

/-- A cube of probabilities of rain. -/
def tiRain : TreeCube :=
  ⟨"probability_of_rain_above_threshold", some ⟨"rain", "m", [1, 2], some "above"⟩, ⟨[3600], none⟩, some 0, none⟩

/-- A cube of probabilities of snow whose threshold coordinate has the old name. -/
def tiSnow : TreeCube :=
  ⟨"probability_of_snow_above_threshold", some ⟨"threshold", "m", [1, 2], some "above"⟩, ⟨[3600], none⟩, some 0, none⟩

/-- The conditions of C207_test_uses can be met. -/
example : lookUp [⟨tiRain, [1]⟩, ⟨tiWarm, [5463 / 20, 5503 / 20]⟩] false "rain" "probability_of_rain_above_threshold" 1 =
    .ok ⟨tiRain, [1]⟩ := by
  refine C207_test_uses _ _ _ _ 1 1 tiRain ⟨"rain", "m", [1, 2], some "above"⟩ [1] (by simp) ?_ ?_ rfl rfl rfl (by simp) (by decide +kernel)
  · intro s hs hn
    simp only [List.mem_cons, List.not_mem_nil, or_false] at hs
    rcases hs with rfl | rfl
    · exact ⟨rfl, fun q hq _ => by simpa using hq⟩
    · exact absurd hn (by decide)
  · intro s hs
    simp only [List.mem_cons, List.not_mem_nil, or_false] at hs
    rcases hs with rfl | rfl <;> decide +kernel

/-- **C207 refuted** (one threshold per test): temperatures of 273.15 K and 275.15 K are within 1 % of one another, so a test at
273.15 K is given the probabilities at both. -/
theorem C207_one_threshold_refuted :
    ∃ used d v c, lookUp used false "air_temperature" d v = .ok ⟨c, [5463 / 20, 5503 / 20]⟩ ∧ v = 5463 / 20 ∧
      c.points = [5463 / 20, 5503 / 20] :=
  ⟨[⟨tiWarm, [5463 / 20, 5503 / 20]⟩], "probability_of_air_temperature_above_threshold", 5463 / 20, tiWarm,
    by decide +kernel, rfl, rfl⟩

/-- A node with one test at a threshold of 1 m. -/
def tiNode (d yes no : String) (missing : Option String) : RawNode :=
  ⟨[.one (.diagnostic d)], [.one "above"], [.one ⟨1, "m", none⟩], [some (1 / 2)], ">=", "", .name yes, .name no, missing, false, []⟩

/-- A tree with a test of rain and one of snow, which may be missing. -/
def tiTree : RawTree :=
  ⟨some ["name"], [("Rain", .node (tiNode "probability_of_rain_above_threshold" "Wet" "Snow" none)),
    ("Snow", .node (tiNode "probability_of_snow_above_threshold" "White" "Dry" (some "if_false"))),
    ("Wet", .leaf (plainLeaf 12)), ("White", .leaf (plainLeaf 24)), ("Dry", .leaf (plainLeaf 1))]⟩

/-- No conversion is needed in the examples. -/
def tiConv (a b : String) (v : ℚ) : Option ℚ := if a = b then some v else none

/-- The inputs of the example are accepted, the part at 1 m is taken, and the other node is bypassed: C207_taken has cases. -/
example : (prepareInputs tiConv none (tiTree.entries.map (doneOf none)) [tiRain, tiWarm]).toOption =
    some ([⟨tiRain, [1]⟩], ["Snow"], false) := by decide +kernel

/-- Inputs without a diagnostic that must be there are refused. -/
example : (prepareInputs tiConv none (tiTree.entries.map (doneOf none)) [tiSnow, tiWarm]).toOption = none := by decide +kernel

/-- **C207 refuted** (each test finds its input): the inputs are accepted, but since one of them has a threshold coordinate of
the old name, the test of the other one, at the first node of the tree, finds no probabilities. -/
theorem C207_mixed_names_refuted :
    ∃ used optional, prepareInputs tiConv none (tiTree.entries.map (doneOf none)) [tiRain, tiSnow] = .ok (used, optional, true) ∧
      ⟨tiRain, [1]⟩ ∈ used ∧
      lookUp used true "rain" "probability_of_rain_above_threshold" 1 = .error .indexError :=
  ⟨[⟨tiRain, [1]⟩, ⟨tiSnow, [1]⟩], [], by decide +kernel, by decide +kernel, by decide +kernel⟩

/-! ## One time -/

theorem dedup_single_iff (l : List ℤ) : l.dedup.length = 1 ↔ ∃ t, t ∈ l ∧ ∀ x ∈ l, x = t := by
  rw [List.length_eq_one_iff]
  constructor
  · rintro ⟨t, h⟩
    have : ∀ x, x ∈ l ↔ x = t := fun x => by rw [← List.mem_dedup, h]; simp
    exact ⟨t, (this t).2 rfl, fun x hx => (this x).1 hx⟩
  · rintro ⟨t, ht, h⟩
    refine ⟨t, ?_⟩
    have hnd := List.nodup_dedup l
    have hm : ∀ x ∈ l.dedup, x = t := fun x hx => h x (List.mem_dedup.1 hx)
    have ht' := List.mem_dedup.2 ht
    cases hl : l.dedup with
    | nil => rw [hl] at ht'; nomatch ht'
    | cons a l' =>
      rw [hl] at hm hnd
      cases l' with
      | nil => rw [hm a (by simp)]
      | cons b l' =>
        have h1 := hm a (by simp)
        have h2 := hm b (by simp)
        rw [h1, h2] at hnd
        simp at hnd

/-- **C208** (acceptance): inputs are accepted exactly if they have validity times and these are all the same, the bounds of all
that have bounds are the same, and the length of the period is the one asked for, if there is a period and one is asked for. -/
theorem C208_accepted (target : Option ℤ) (cubes : List TreeCube) :
    (∃ tpl, coincidence target cubes = .ok tpl) ↔
      (∃ t, t ∈ allTimes cubes ∧ ∀ x ∈ allTimes cubes, x = t) ∧
      (∀ a ∈ allBounds cubes, ∀ b ∈ allBounds cubes, a = b) ∧
      (∀ p, target = some p → p ≠ 0 → ∀ b ∈ allBounds cubes, b.2 - b.1 = p) := by
  rw [← dedup_single_iff]
  unfold coincidence
  cases cubes with
  | nil => simp [allTimes]
  | cons first rest =>
    dsimp only
    rw [show ((first :: rest).flatMap fun c => c.time.points) = allTimes (first :: rest) from rfl,
      show ((first :: rest).flatMap fun c => c.time.bounds.getD []) = allBounds (first :: rest) from rfl]
    generalize allTimes (first :: rest) = ts
    generalize allBounds (first :: rest) = bs
    by_cases ht : ts.dedup.length = 1
    · rw [if_neg (not_not.2 ht)]
      cases bs with
      | nil => simp [ht]
      | cons b bs =>
        dsimp only
        have hall : (bs.all fun x => decide (x = b)) = true ↔ ∀ x ∈ b :: bs, ∀ y ∈ b :: bs, x = y := by
          rw [List.all_eq_true]
          simp only [decide_eq_true_eq]
          constructor
          · intro h
            have h' : ∀ x ∈ b :: bs, x = b := fun x hx => (List.mem_cons.1 hx).elim id (h x)
            intro x hx y hy
            rw [h' x hx, h' y hy]
          · intro h x hx
            exact h x (List.mem_cons_of_mem _ hx) b (by simp)
        by_cases hb : (bs.all fun x => decide (x = b)) = false
        · rw [if_pos hb]
          constructor
          · rintro ⟨_, h⟩; nomatch h
          · rintro ⟨_, h, _⟩
            rw [hall.2 h] at hb
            nomatch hb
        · rw [if_neg hb]
          have hb' := hall.1 (by simpa using hb)
          cases target with
          | none => exact ⟨fun _ => ⟨ht, hb', fun p hp => by nomatch hp⟩, fun _ => ⟨_, rfl⟩⟩
          | some p =>
            dsimp only
            by_cases hp : p ≠ 0 ∧ b.2 - b.1 ≠ p
            · rw [if_pos hp]
              constructor
              · rintro ⟨_, h⟩; nomatch h
              · rintro ⟨_, _, h⟩
                exact absurd (h p rfl hp.1 b (by simp)) hp.2
            · rw [if_neg hp]
              refine ⟨fun _ => ⟨ht, hb', fun q hq hq0 x hx => ?_⟩, fun _ => ⟨_, rfl⟩⟩
              obtain rfl := Option.some.inj hq
              rw [hb' x hx b (by simp)]
              by_contra hne
              exact hp ⟨hq0, hne⟩
    · rw [if_pos ht]
      constructor
      · rintro ⟨_, h⟩; nomatch h
      · rintro ⟨h, _⟩; exact absurd h ht

theorem template_of (cubes : List TreeCube) (init : TreeCube) :
    let tpl := cubes.foldl (fun t c => if c.time.bounds.isSome then c else t) init
    (tpl = init ∧ ∀ c ∈ cubes, c.time.bounds = none) ∨
      ∃ pre post, cubes = pre ++ tpl :: post ∧ tpl.time.bounds ≠ none ∧ ∀ c ∈ post, c.time.bounds = none := by
  induction cubes generalizing init with
  | nil => exact Or.inl ⟨rfl, by simp⟩
  | cons a cubes ih =>
    intro tpl
    rcases ih (if a.time.bounds.isSome then a else init) with ⟨h1, h2⟩ | ⟨pre, post, h1, h2, h3⟩
    · by_cases ha : a.time.bounds.isSome
      · rw [if_pos ha] at h1
        have e : tpl = a := by
          show List.foldl _ (if a.time.bounds.isSome then a else init) cubes = a
          rw [if_pos ha]; exact h1
        refine Or.inr ⟨[], cubes, by rw [e]; rfl, ?_, h2⟩
        rw [e]
        intro hn
        rw [hn] at ha
        nomatch ha
      · rw [if_neg ha] at h1
        have e : tpl = init := by
          show List.foldl _ (if a.time.bounds.isSome then a else init) cubes = init
          rw [if_neg ha]; exact h1
        refine Or.inl ⟨e, fun c hc => ?_⟩
        rcases List.mem_cons.1 hc with rfl | hc
        · simpa using ha
        · exact h2 c hc
    · exact Or.inr ⟨a :: pre, post, by rw [List.cons_append]; exact congrArg (a :: ·) h1, h2, h3⟩

/-- **C208** (template): the times of the result are those of the last input with time bounds, or of the first input if there
are no bounds. -/
theorem C208_template (target : Option ℤ) (cubes : List TreeCube) (tpl : TreeCube) (h : coincidence target cubes = .ok tpl) :
    ((∃ rest, cubes = tpl :: rest) ∧ ∀ c ∈ cubes, c.time.bounds = none) ∨
      ∃ pre post, cubes = pre ++ tpl :: post ∧ tpl.time.bounds ≠ none ∧ ∀ c ∈ post, c.time.bounds = none := by
  cases cubes with
  | nil => nomatch h
  | cons first rest =>
    have htpl : tpl = (first :: rest).foldl (fun t c => if c.time.bounds.isSome then c else t) first := by
      unfold coincidence at h
      dsimp only at h
      split at h
      · nomatch h
      · split at h
        · exact (Except.ok.inj h).symm
        · split at h
          · nomatch h
          · split at h
            · exact (Except.ok.inj h).symm
            · split at h
              · nomatch h
              · exact (Except.ok.inj h).symm
    rcases template_of (first :: rest) first with ⟨h1, h2⟩ | h2
    · exact Or.inl ⟨⟨rest, by rw [htpl, h1]⟩, h2⟩
    · rw [← htpl] at h2
      exact Or.inr h2

/-- C208: inputs for a period of an hour are accepted with one for a time, and not if three hours are asked for. -/
example :
    (coincidence (some 3600) [tiRain, { tiSnow with time := ⟨[3600], some [(0, 3600)]⟩ }]).toOption.map TreeCube.name =
      some "probability_of_snow_above_threshold" ∧
    (coincidence (some 10800) [tiRain, { tiSnow with time := ⟨[3600], some [(0, 3600)]⟩ }]).toOption = none ∧
    (coincidence none [tiRain, { tiSnow with time := ⟨[7200], none⟩ }]).toOption = none := by decide +kernel

/-! ## Reference times -/

theorem foldl_max_spec (xs : List ℤ) (x : ℤ) : xs.foldl max x ∈ x :: xs ∧ ∀ y ∈ x :: xs, y ≤ xs.foldl max x := by
  induction xs generalizing x with
  | nil => simp
  | cons a xs ih =>
    obtain ⟨h1, h2⟩ := ih (max x a)
    have hle := h2 _ (List.mem_cons_self ..)
    refine ⟨?_, fun y hy => ?_⟩
    · rcases List.mem_cons.1 h1 with h | h
      · show xs.foldl max (max x a) ∈ _
        rw [h]
        rcases max_choice x a with h | h <;> rw [h] <;> simp
      · exact List.mem_cons_of_mem _ (List.mem_cons_of_mem _ h)
    · rcases List.mem_cons.1 hy with rfl | hy
      · exact (le_max_left _ _).trans hle
      · rcases List.mem_cons.1 hy with rfl | hy
        · exact (le_max_right _ _).trans hle
        · exact h2 y (List.mem_cons_of_mem _ hy)

theorem latestTime_some (times : List (Option ℤ)) (t : ℤ) : latestTime times = .ok (some t) ↔ Latest times t := by
  unfold latestTime
  by_cases hn : times.any Option.isNone = true
  · rw [if_pos hn]
    obtain ⟨x, hx, hx'⟩ := List.any_eq_true.1 hn
    constructor
    · intro h; nomatch h
    · rintro ⟨_, h⟩
      obtain ⟨s, rfl, _⟩ := h x hx
      nomatch hx'
  · rw [if_neg hn]
    have hall : times = (times.filterMap id).map some := by
      clear t
      induction times with
      | nil => rfl
      | cons a times ih =>
        rw [List.any_cons, Bool.or_eq_true, not_or] at hn
        cases a with
        | none => exact absurd rfl hn.1
        | some a => simpa using ih hn.2
    have hmem : ∀ a, some a ∈ times ↔ a ∈ times.filterMap id := fun a => by simp
    cases hl : times.filterMap id with
    | nil =>
      rw [hl] at hall
      constructor
      · intro h; nomatch h
      · rintro ⟨h, _⟩
        rw [hall] at h
        nomatch h
    | cons x xs =>
      obtain ⟨h1, h2⟩ := foldl_max_spec xs x
      simp only [Except.ok.injEq, Option.some.injEq]
      have hL : Latest times (xs.foldl max x) := by
        refine ⟨(hmem _).2 (by rw [hl]; exact h1), fun y hy => ?_⟩
        rw [hall] at hy
        obtain ⟨s, hs, rfl⟩ := List.mem_map.1 hy
        exact ⟨s, rfl, h2 s (by rw [← hl]; exact hs)⟩
      constructor
      · rintro rfl; exact hL
      · rintro ⟨g1, g2⟩
        obtain ⟨s, e, hs⟩ := g2 _ hL.1
        obtain ⟨s', e', hs'⟩ := hL.2 _ g1
        cases e; cases e'
        exact le_antisymm hs hs'

theorem latestTime_none (times : List (Option ℤ)) (h : none ∈ times) : latestTime times = .ok none := by
  unfold latestTime
  rw [if_pos (List.any_eq_true.2 ⟨none, h, rfl⟩)]

/-- The forecast period of times since a reference time. -/
def periodSince (t : TCoord) (r : ℤ) : TCoord :=
  ⟨t.points.map fun x => x - r, t.bounds.map fun b => b.map fun p => (p.1 - r, p.2 - r)⟩

theorem forecastPeriod_single (t : TCoord) (r : ℤ) : calculateForecastPeriod t [r] = .ok (periodSince t r) := by
  unfold calculateForecastPeriod npSub1 periodSince
  obtain ⟨ps, bs⟩ := t
  by_cases hl : ps.length = [r].length
  · obtain ⟨x, rfl⟩ := List.length_eq_one_iff.1 hl
    cases bs <;> simp [bind, Except.bind, pure, Except.pure, npSubBounds]
  · rw [if_neg hl]
    cases bs <;> simp [bind, Except.bind, pure, Except.pure, npSubBounds]

/-- **C209** (one kind of reference time): if all inputs have a forecast reference time and one of them no blend time, then the
forecast reference time of the result is the latest one of the inputs, its forecast period is the time since then, and its
validity time and other coordinates are kept. -/
theorem C209_latest (t : TCoord) (old : List ℤ) (b : Option (List ℤ)) (fp : TCoord) (cubes : List TreeCube) (r : ℤ)
    (hf : Latest (cubes.map TreeCube.frt) r) (hb : none ∈ cubes.map TreeCube.blendTime) (hold : b = none ∨ b = some [r]) :
    setReference ⟨some t, some old, b, some fp⟩ cubes = .ok ⟨some t, some [r], b, some (periodSince t r)⟩ := by
  unfold setReference
  rw [(latestTime_some _ r).2 hf, latestTime_none _ hb]
  simp only [bind, Except.bind]
  rw [show (none : Option ℤ).or (some r) = some r from rfl]
  dsimp only
  rcases hold with rfl | rfl <;>
    simp [forecastPeriodCoord, forecastPeriod_single]

/-- **C209** (blend time): if all inputs have a blend time, then the blend time of the result is the latest one of the inputs,
and so is the forecast reference time if all inputs have one: it is the latest one of the inputs only if the two kinds agree. -/
theorem C209_blend_time (t : TCoord) (old oldb : List ℤ) (fp : TCoord) (cubes : List TreeCube) (r s : ℤ)
    (hb : Latest (cubes.map TreeCube.blendTime) r) (hf : Latest (cubes.map TreeCube.frt) s) :
    setReference ⟨some t, some old, some oldb, some fp⟩ cubes = .ok ⟨some t, some [r], some [r], some (periodSince t r)⟩ := by
  unfold setReference
  rw [(latestTime_some _ r).2 hb, (latestTime_some _ s).2 hf]
  simp only [bind, Except.bind]
  rw [show (some r : Option ℤ).or (some s) = some r from rfl]
  simp [forecastPeriodCoord, forecastPeriod_single]

/-- **C209** (blend time alone): the same if no forecast reference time is there. -/
theorem C209_blend_time_alone (t : TCoord) (oldb : List ℤ) (fp : TCoord) (cubes : List TreeCube) (r : ℤ)
    (hb : Latest (cubes.map TreeCube.blendTime) r) (hf : none ∈ cubes.map TreeCube.frt) :
    setReference ⟨some t, none, some oldb, some fp⟩ cubes = .ok ⟨some t, none, some [r], some (periodSince t r)⟩ := by
  unfold setReference
  rw [(latestTime_some _ r).2 hb, latestTime_none _ hf]
  simp only [bind, Except.bind]
  rw [show (some r : Option ℤ).or none = some r from rfl]
  simp [forecastPeriodCoord, forecastPeriod_single]

/-- **C209** (refusal): without a kind of reference time that all inputs have there is no result. -/
theorem C209_refused (m : TimeMeta) (cubes : List TreeCube) (hb : none ∈ cubes.map TreeCube.blendTime)
    (hf : none ∈ cubes.map TreeCube.frt) : setReference m cubes = .error .coordinateNotFound := by
  unfold setReference
  rw [latestTime_none _ hb, latestTime_none _ hf]
  rfl

/-- **C209 refuted** (the forecast reference time is the latest of the inputs): with inputs whose forecast reference times are 0
and whose blend time is 3600 it becomes 3600, and the forecast period with it. -/
theorem C209_reference_time_refuted :
    ∃ cubes : List TreeCube, Latest (cubes.map TreeCube.frt) 0 ∧ ∃ m new,
      setReference m cubes = .ok new ∧ new.frt = some [3600] := by
  refine ⟨[{ tiRain with blendTime := some 3600 }, { tiSnow with blendTime := some 3600 }],
    ⟨by decide, by simp [tiRain, tiSnow]⟩, ⟨some ⟨[7200], none⟩, some [0], some [3600], some ⟨[7200], none⟩⟩,
    ⟨some ⟨[7200], none⟩, some [3600], some [3600], some (periodSince ⟨[7200], none⟩ 3600)⟩, ?_, ?_⟩
  · exact C209_blend_time _ _ _ _ _ 3600 0 ⟨by decide, by simp⟩ ⟨by decide, by simp [tiRain, tiSnow]⟩
  · rfl

/-- C209_latest has cases: the later of two reference times. -/
example : setReference ⟨some ⟨[7200], some [(3600, 7200)]⟩, some [0], none, some ⟨[7200], none⟩⟩
    [tiRain, { tiSnow with frt := some 1800 }] =
      .ok ⟨some ⟨[7200], some [(3600, 7200)]⟩, some [1800], none, some ⟨[5400], some [(1800, 5400)]⟩⟩ :=
  C209_latest _ _ _ _ _ 1800 ⟨by decide, by simp [tiRain, tiSnow]⟩ (by decide) (Or.inl rfl)

/-- **C209** (refusal): the template of the result must have a forecast period, and each kind of reference time that all inputs have. -/
theorem C209_template_refused (m : TimeMeta) (cubes : List TreeCube) (r : ℤ) (hf : Latest (cubes.map TreeCube.frt) r)
    (h : m.fp = none ∨ m.frt = none ∨ ((∃ s, Latest (cubes.map TreeCube.blendTime) s) ∧ m.blendTime = none)) :
    setReference m cubes = .error .coordinateNotFound := by
  unfold setReference
  rw [(latestTime_some _ r).2 hf]
  by_cases hb : none ∈ cubes.map TreeCube.blendTime
  · rw [latestTime_none _ hb]
    simp only [bind, Except.bind]
    rw [show (none : Option ℤ).or (some r) = some r from rfl]
    dsimp only
    rcases h with h | h | ⟨⟨s, hs⟩, -⟩
    · rw [if_pos h]
    · by_cases hp : m.fp = none
      · rw [if_pos hp]
      · rw [if_neg hp, if_pos (Or.inl ⟨rfl, h⟩)]
    · have e := (latestTime_some _ s).2 hs
      rw [latestTime_none _ hb] at e
      exact nomatch e
  · cases he : latestTime (cubes.map TreeCube.blendTime) with
    | error e =>
      exfalso
      unfold latestTime at he
      have hne : cubes.map TreeCube.blendTime ≠ [] := by
        intro hnil
        rw [List.map_eq_nil_iff] at hnil
        subst hnil
        simp [Latest] at hf
      rw [if_neg (by simpa using hb)] at he
      cases hfm : (cubes.map TreeCube.blendTime).filterMap id with
      | nil =>
        obtain ⟨x, l, hx⟩ := List.exists_cons_of_ne_nil hne
        rw [hx] at hfm hb
        cases x with
        | none => simp at hb
        | some v => simp at hfm
      | cons x l => rw [hfm] at he; exact nomatch he
    | ok o =>
      cases o with
      | none =>
        simp only [bind, Except.bind]
        rw [show (none : Option ℤ).or (some r) = some r from rfl]
        dsimp only
        by_cases hp : m.fp = none
        · rw [if_pos hp]
        · rw [if_neg hp]
          rcases h with h | h | ⟨⟨s, hs⟩, -⟩
          · exact absurd h hp
          · rw [if_pos (Or.inl ⟨rfl, h⟩)]
          · have e := (latestTime_some _ s).2 hs
            rw [he] at e
            exact nomatch e
      | some s =>
        simp only [bind, Except.bind]
        rw [show (some s : Option ℤ).or (some r) = some s from rfl]
        dsimp only
        by_cases hp : m.fp = none
        · rw [if_pos hp]
        · rw [if_neg hp]
          rcases h with h | h | ⟨-, h⟩
          · exact absurd h hp
          · rw [if_pos (Or.inl ⟨rfl, h⟩)]
          · rw [if_pos (Or.inr ⟨rfl, h⟩)]

/-- C209_template_refused has cases. -/
example : setReference ⟨some ⟨[7200], none⟩, some [0], none, none⟩ [tiRain, tiSnow] = .error .coordinateNotFound :=
  C209_template_refused _ _ 0 ⟨by decide, by simp [tiRain, tiSnow]⟩ (Or.inl rfl)

/-- **C207** (the threshold a test uses afterwards): it is the one asked for, in the units of the input. -/
theorem C207_threshold_left (conv : String → String → ℚ → Option ℚ) (cubes : List TreeCube) (key : String) (n : RawNode) (s s' : TiState)
    (d side : String) (thr thr' : Thr) (h : takeThreshold conv cubes key n s d thr side = .ok (s', thr')) :
    ((∀ c ∈ cubes, c.name ≠ d) ∧ thr' = thr) ∨
      ∃ c ∈ cubes, c.name = d ∧ ∃ tc, c.threshold = some tc ∧ thr'.units = tc.units ∧ conv thr.units tc.units thr.value = some thr'.value := by
  unfold takeThreshold at h
  cases hf : cubes.filter fun c => decide (c.name = d) with
  | nil =>
    rw [hf] at h
    left
    simp only [Except.ok.injEq, Prod.mk.injEq] at h
    refine ⟨?_, h.2.symm⟩
    simpa using List.filter_eq_nil_iff.1 hf
  | cons c more =>
    rw [hf] at h
    right
    have hc : c ∈ cubes.filter fun c => decide (c.name = d) := by rw [hf]; simp
    obtain ⟨hc1, hc2⟩ := List.mem_filter.1 hc
    refine ⟨c, hc1, by simpa using hc2, ?_⟩
    dsimp only at h
    cases ht : c.threshold with
    | none => rw [ht] at h; exact nomatch h
    | some tc =>
      rw [ht] at h
      dsimp only at h
      refine ⟨tc, rfl, ?_⟩
      cases hv : conv thr.units tc.units thr.value with
      | none => rw [hv] at h; exact nomatch h
      | some v =>
        rw [hv] at h
        dsimp only at h
        cases hm : (c :: more).filterMap (partAtThreshold tc.name v side) with
        | nil =>
          rw [hm] at h
          simp only [Except.ok.injEq, Prod.mk.injEq] at h
          rw [← h.2]
          exact ⟨rfl, rfl⟩
        | cons x xs =>
          rw [hm] at h
          simp only [Except.ok.injEq, Prod.mk.injEq] at h
          rw [← h.2]
          exact ⟨rfl, rfl⟩

end Improver
