import Verif.Model.GenMeta
import Verif.Props.Synthetic

/-! C293: the command that makes a cube from descriptions. -/

namespace Improver

namespace Spec

/-- What the options and the JSON ask for, but for the first dimension: the JSON goes before the options. -/
structure Request (parse : String → Except Err ℚ) (o : MetaOptions) (j : MetaJson) (a : MetaArgs) : Prop where
  mandatory : a.mandatory = o.mandatory
  name : j.name = some a.name ∨ j.name = none ∧ a.name = o.name
  unit : (j.unit ≠ none ∧ a.unit = j.unit) ∨ (j.unit = none ∧ a.unit = o.unit)
  relative : j.relative = some a.relative ∨ j.relative = none ∧ a.relative = "greater_than"
  attrs : j.attrs = some a.attrs ∨ j.attrs = none ∧ a.attrs = []
  numbers : a.period = o.period ∧ a.members = o.members ∧ a.npoints = o.npoints
  grid : a.grid = some o.grid ∧ a.dx = o.dx ∧ a.dy = o.dy ∧ a.corner = o.corner
  time : (∃ s t, j.time = some s ∧ parse s = .ok t ∧ a.time = some t) ∨ j.time = none ∧ a.time = none
  frt : (∃ s t, j.frt = some s ∧ parse s = .ok t ∧ a.frt = some t) ∨ j.frt = none ∧ a.frt = none
  bounds : (∃ r s t u, j.bounds = some (r, s) ∧ parse r = .ok t ∧ parse s = .ok u ∧ a.bounds = some (t, u)) ∨ j.bounds = none ∧ a.bounds = none
  blend : a.blend = none
  levels : (∃ l, (j.coords.getD []).lookup "heights" = some l ∧ a.heights = some l ∧ a.pressure = false) ∨
    (∃ l, (j.coords.getD []).lookup "heights" = none ∧ (j.coords.getD []).lookup "pressures" = some l ∧ a.heights = some l ∧ a.pressure = true) ∨
    ((j.coords.getD []).lookup "heights" = none ∧ (j.coords.getD []).lookup "pressures" = none ∧ a.heights = none ∧ a.pressure = false)

/-- The first dimension the JSON asks for. -/
inductive Leading : MetaJson → Option (List ℚ) → String → Prop
  | members (j) (hr : (j.coords.getD []).lookup "realizations" = none) (hp : (j.coords.getD []).lookup "percentiles" = none)
      (ht : (j.coords.getD []).lookup "thresholds" = none) : Leading j none "variable"
  | realizations (j) (l) (hr : (j.coords.getD []).lookup "realizations" = some l) (hp : (j.coords.getD []).lookup "percentiles" = none)
      (ht : (j.coords.getD []).lookup "thresholds" = none) : Leading j (some l) "variable"
  | percentiles (j) (l) (hr : (j.coords.getD []).lookup "realizations" = none) (hp : (j.coords.getD []).lookup "percentiles" = some l)
      (ht : (j.coords.getD []).lookup "thresholds" = none) : Leading j (some l) "percentile"
  | thresholds (j) (l) (hr : (j.coords.getD []).lookup "realizations" = none) (hp : (j.coords.getD []).lookup "percentiles" = none)
      (ht : (j.coords.getD []).lookup "thresholds" = some l) : Leading j (some l) "probability"

end Spec

/-- C293 (no JSON): the same as with an empty JSON. -/
theorem C293_no_json (canonical : String → Option String) (parse : String → Except Err ℚ) (o : MetaOptions) :
    metaCommand canonical parse o none = metaCommand canonical parse o (some {}) := rfl

theorem jsonLeading_of {j : MetaJson} {l : Option (List ℚ)} {k : String} (h : Spec.Leading j l k) : jsonLeading j.coords = .ok (l, k) := by
  unfold jsonLeading
  cases hc : j.coords with
  | none =>
    cases h with
    | members hr hp ht => rfl
    | realizations l hr => rw [hc] at hr; exact nomatch hr
    | percentiles l hr hp => rw [hc] at hp; exact nomatch hp
    | thresholds l hr hp ht => rw [hc] at ht; exact nomatch ht
  | some c =>
    cases h with
    | members hr hp ht => rw [hc] at hr hp ht; simp only [Option.getD_some] at hr hp ht; simp only [hr, hp, ht]; rfl
    | realizations l hr hp ht => rw [hc] at hr hp ht; simp only [Option.getD_some] at hr hp ht; simp only [hr, hp, ht]; rfl
    | percentiles l hr hp ht => rw [hc] at hr hp ht; simp only [Option.getD_some] at hr hp ht; simp only [hr, hp, ht]; rfl
    | thresholds l hr hp ht => rw [hc] at hr hp ht; simp only [Option.getD_some] at hr hp ht; simp only [hr, hp, ht]; rfl

theorem readTime_of {parse : String → Except Err ℚ} {s : Option String} {t : Option ℚ}
    (h : (∃ s' t', s = some s' ∧ parse s' = .ok t' ∧ t = some t') ∨ s = none ∧ t = none) : readTime parse s = .ok t := by
  rcases h with ⟨s', t', rfl, hp, rfl⟩ | ⟨rfl, rfl⟩
  · simp only [readTime, hp, Except.map]
  · rfl

theorem readBounds_of {parse : String → Except Err ℚ} {s : Option (String × String)} {t : Option (ℚ × ℚ)}
    (h : (∃ r s' t' u, s = some (r, s') ∧ parse r = .ok t' ∧ parse s' = .ok u ∧ t = some (t', u)) ∨ s = none ∧ t = none) : readBounds parse s = .ok t := by
  rcases h with ⟨r, s', t', u, rfl, hp, hq, rfl⟩ | ⟨rfl, rfl⟩
  · unfold readBounds; simp only [hp, hq, bind, Except.bind, pure, Except.pure]
  · rfl

theorem jsonHeights_of {j : MetaJson} {l : Option (List ℚ)} {p : Bool}
    (h : (∃ h, (j.coords.getD []).lookup "heights" = some h ∧ l = some h ∧ p = false) ∨
      (∃ h, (j.coords.getD []).lookup "heights" = none ∧ (j.coords.getD []).lookup "pressures" = some h ∧ l = some h ∧ p = true) ∨
      ((j.coords.getD []).lookup "heights" = none ∧ (j.coords.getD []).lookup "pressures" = none ∧ l = none ∧ p = false)) :
    jsonHeights j.coords = (l, p) := by
  unfold jsonHeights
  cases hc : j.coords with
  | none =>
    rw [hc] at h
    rcases h with ⟨_, e, _⟩ | ⟨_, _, e, _⟩ | ⟨_, _, rfl, rfl⟩
    · exact nomatch e
    · exact nomatch e
    · rfl
  | some c =>
    rw [hc] at h
    simp only [Option.getD_some] at h
    rcases h with ⟨_, e, rfl, rfl⟩ | ⟨_, e, e', rfl, rfl⟩ | ⟨e, e', rfl, rfl⟩
    · simp only [e]; rfl
    · simp only [e, e']; rfl
    · simp only [e, e']; rfl

/-- C293 (request): the cube is that of `generate_metadata` for what options and JSON ask for. -/
theorem C293_request (canonical : String → Option String) (parse : String → Except Err ℚ) (o : MetaOptions) (j : MetaJson) (a : MetaArgs) (h : Spec.Request parse o j a)
    (hl : Spec.Leading j a.leading a.cubeType) : metaCommand canonical parse o (some j) = generateMetadata canonical a := by
  have e1 := jsonLeading_of hl
  have e2 := readTime_of h.time
  have e3 := readTime_of h.frt
  have e4 := readBounds_of h.bounds
  have e5 := jsonHeights_of h.levels
  have en : j.name.getD o.name = a.name := by rcases h.name with e | ⟨e, e'⟩ <;> simp [e, *]
  have eu : j.unit.or o.unit = a.unit := by
    rcases h.unit with ⟨hn, e⟩ | ⟨e, e'⟩
    · rw [e]; cases hj : j.unit with
      | none => exact absurd hj hn
      | some u => rfl
    · rw [e, e']; rfl
  have er : j.relative.getD "greater_than" = a.relative := by rcases h.relative with e | ⟨e, e'⟩ <;> simp [e, *]
  have ea : j.attrs.getD [] = a.attrs := by rcases h.attrs with e | ⟨e, e'⟩ <;> simp [e, *]
  unfold metaCommand
  simp only [e1, e2, e3, e4, e5, en, eu, er, ea, bind, Except.bind]
  obtain ⟨n1, n2, n3⟩ := h.numbers
  obtain ⟨g1, g2, g3, g4⟩ := h.grid
  rw [← n1, ← n2, ← n3, ← g1, ← g2, ← g3, ← g4, ← h.mandatory, ← h.blend]

/-- C293 (members): without realizations, percentiles or thresholds, the first dimension counts the members asked for. -/
theorem C293_members (canonical : String → Option String) (parse : String → Except Err ℚ) (o : MetaOptions) (j : MetaJson) (a : MetaArgs) (h : Spec.Request parse o j a)
    (hl : Spec.Leading j none "variable") (h1 : a.leading = none) (h2 : a.cubeType = "variable") (time frt : ℤ) (period : Option ℕ) (hs : Spec.Sound a time frt period) (u : String)
    (hu : Spec.Units canonical a u) (hm : 2 ≤ o.members) :
    ∃ c, metaCommand canonical parse o (some j) = .ok c ∧ c.name = a.name ∧ c.unit = u ∧
      Spec.Made a time frt period ⟨"realization", (List.range o.members).map fun k : ℕ => (k : ℚ), "1", [], false⟩ c := by
  rw [C293_request canonical parse o j a h (by rw [h1, h2]; exact hl)]
  refine C268_variable canonical a time frt period hs u hu h2 _ (by simpa using hm) ?_ (.inr ⟨h1, by rw [h.numbers.2.1]⟩)
  left
  rw [List.pairwise_map]
  exact List.pairwise_lt_range.imp (fun {i j} hij => by exact_mod_cast hij)

/-- C293 (realizations). -/
theorem C293_realizations (canonical : String → Option String) (parse : String → Except Err ℚ) (o : MetaOptions) (j : MetaJson) (a : MetaArgs) (h : Spec.Request parse o j a)
    (l : List ℚ) (hl : Spec.Leading j (some l) "variable") (h1 : a.leading = some l) (h2 : a.cubeType = "variable") (time frt : ℤ) (period : Option ℕ)
    (hs : Spec.Sound a time frt period) (u : String) (hu : Spec.Units canonical a u) (hn : 2 ≤ l.length) (ho : Spec.Ordered l) :
    ∃ c, metaCommand canonical parse o (some j) = .ok c ∧ c.name = a.name ∧ c.unit = u ∧ Spec.Made a time frt period ⟨"realization", l, "1", [], false⟩ c := by
  rw [C293_request canonical parse o j a h (by rw [h1, h2]; exact hl)]
  exact C268_variable canonical a time frt period hs u hu h2 l hn ho (.inl h1)

/-- C293 (percentiles). -/
theorem C293_percentiles (canonical : String → Option String) (parse : String → Except Err ℚ) (o : MetaOptions) (j : MetaJson) (a : MetaArgs) (h : Spec.Request parse o j a)
    (l : List ℚ) (hl : Spec.Leading j (some l) "percentile") (h1 : a.leading = some l) (h2 : a.cubeType = "percentile") (time frt : ℤ) (period : Option ℕ)
    (hs : Spec.Sound a time frt period) (u : String) (hu : Spec.Units canonical a u) (hn : 2 ≤ l.length) (ho : Spec.Ordered l) :
    ∃ c, metaCommand canonical parse o (some j) = .ok c ∧ c.name = a.name ∧ c.unit = u ∧ Spec.Made a time frt period ⟨"percentile", l, "%", [], false⟩ c := by
  rw [C293_request canonical parse o j a h (by rw [h1, h2]; exact hl)]
  exact C268_percentile canonical a time frt period hs u hu h2 l hn ho h1

/-- C293 (thresholds). -/
theorem C293_thresholds (canonical : String → Option String) (parse : String → Except Err ℚ) (o : MetaOptions) (j : MetaJson) (a : MetaArgs) (h : Spec.Request parse o j a)
    (l : List ℚ) (hl : Spec.Leading j (some l) "probability") (h1 : a.leading = some l) (h2 : a.cubeType = "probability") (time frt : ℤ) (period : Option ℕ)
    (hs : Spec.Sound a time frt period) (u : String) (hu : Spec.Units canonical a u) (hn : 2 ≤ l.length) (ho : Spec.Ordered l) (thr : String) (hthr : Spec.ThresholdName a.name thr)
    (side : String) (hside : side = "above" ∧ a.relative ∈ ["above", "greater_than", "greater_than_or_equal_to"] ∨ side = "below" ∧ a.relative ∈ ["below", "less_than", "less_than_or_equal_to"]) :
    ∃ c, metaCommand canonical parse o (some j) = .ok c ∧ c.name = "probability_of_" ++ a.name ++ "_" ++ side ++ "_threshold" ∧ c.unit = "1" ∧
      Spec.Made a time frt period ⟨thr, l, u, [("spp__relative_to_threshold", a.relative)], true⟩ c := by
  rw [C293_request canonical parse o j a h (by rw [h1, h2]; exact hl)]
  exact C268_probability canonical a time frt period hs u hu h2 l hn ho h1 thr hthr side hside

/-- C293 (two kinds): two of realizations, percentiles and thresholds are refused, whatever else is asked for. -/
theorem C293_two_kinds (canonical : String → Option String) (parse : String → Except Err ℚ) (o : MetaOptions) (j : MetaJson) (c : List (String × List ℚ)) (hc : j.coords = some c)
    (k1 k2 : String) (hk : (k1, k2) ∈ [("realizations", "percentiles"), ("realizations", "thresholds"), ("percentiles", "thresholds")]) (h1 : c.lookup k1 ≠ none)
    (h2 : c.lookup k2 ≠ none) : metaCommand canonical parse o (some j) = .error .valueError := by
  have e : jsonLeading j.coords = .error .valueError := by
    rw [hc]
    unfold jsonLeading
    simp only [List.mem_cons, Prod.mk.injEq, List.not_mem_nil, or_false] at hk
    dsimp only
    rcases hk with ⟨rfl, rfl⟩ | ⟨rfl, rfl⟩ | ⟨rfl, rfl⟩ <;>
      cases hr : c.lookup "realizations" <;> cases hp : c.lookup "percentiles" <;> cases ht : c.lookup "thresholds" <;> first | rfl | exact absurd hr h1 | exact absurd hp h1 | exact absurd hp h2 | exact absurd ht h2
  unfold metaCommand
  simp only [e, bind, Except.bind]

/-- C293 (times): a time, reference time or bound that cannot be read is refused, whatever else is asked for. -/
theorem C293_times (canonical : String → Option String) (parse : String → Except Err ℚ) (o : MetaOptions) (j : MetaJson) (s : String) (e : Err) (hs : parse s = .error e)
    (hj : j.time = some s ∨ j.frt = some s ∨ ∃ r, j.bounds = some (s, r) ∨ j.bounds = some (r, s)) : ∃ e', metaCommand canonical parse o (some j) = .error e' := by
  unfold metaCommand
  simp only [bind, Except.bind]
  cases jsonLeading j.coords with
  | error e1 => exact ⟨_, rfl⟩
  | ok lead =>
    dsimp only
    cases ht : readTime parse j.time with
    | error e1 => exact ⟨_, rfl⟩
    | ok t =>
      dsimp only
      cases hf : readTime parse j.frt with
      | error e1 => exact ⟨_, rfl⟩
      | ok f =>
        dsimp only
        cases hb : readBounds parse j.bounds with
        | error e1 => exact ⟨_, rfl⟩
        | ok b =>
          exfalso
          rcases hj with h | h | ⟨r, h | h⟩
          · rw [h] at ht; simp only [readTime, hs, Except.map] at ht; exact nomatch ht
          · rw [h] at hf; simp only [readTime, hs, Except.map] at hf; exact nomatch hf
          · rw [h] at hb; simp only [readBounds, hs, bind, Except.bind] at hb; exact nomatch hb
          · rw [h] at hb
            cases hr : parse r with
            | error _ => simp only [readBounds, hr, bind, Except.bind] at hb; exact nomatch hb
            | ok _ => simp only [readBounds, hr, hs, bind, Except.bind] at hb; exact nomatch hb

/-- C293 (period): a time period goes before the bounds in the JSON. -/
theorem C293_period (canonical : String → Option String) (parse : String → Except Err ℚ) (o : MetaOptions) (p : ℚ) (hp : o.period = some p) (j : MetaJson) (r s : String) (t u : ℚ)
    (hr : parse r = .ok t) (hs : parse s = .ok u) :
    metaCommand canonical parse o (some { j with bounds := some (r, s) }) = metaCommand canonical parse o (some { j with bounds := none }) := by
  unfold metaCommand readBounds
  simp only [hr, hs, hp, bind, Except.bind, pure, Except.pure]
  rfl

/-- C293 (finding): the documented key "height_levels" of the coordinates is not read: the levels given under it are lost without word. -/
theorem C293_height_levels_refuted (canonical : String → Option String) (parse : String → Except Err ℚ) (o : MetaOptions) (j : MetaJson) (l : List ℚ) (c : List (String × List ℚ)) :
    metaCommand canonical parse o (some { j with coords := some (("height_levels", l) :: c) }) = metaCommand canonical parse o (some { j with coords := some c }) := rfl

/-- C293 (defaults): with the mandatory attributes alone the cube is of pressure at mean sea level, in its canonical units, for 8 realizations on 71 by 71 points of a grid of a fiftieth of a
degree about the origin, at 04:00 from 00:00 on 10 November 2017. -/
theorem C293_defaults (canonical : String → Option String) (parse : String → Except Err ℚ) (m : List (String × String))
    (hm : "title" ∈ m.map Prod.fst ∧ "source" ∈ m.map Prod.fst ∧ "institution" ∈ m.map Prod.fst) (u : String) (hu : canonical "air_pressure_at_sea_level" = some u) :
    ∃ c, metaCommand canonical parse { mandatory := m } none = .ok c ∧ c.name = "air_pressure_at_sea_level" ∧ c.unit = u ∧
      c.dims = [⟨"realization", [0, 1, 2, 3, 4, 5, 6, 7], "1", [], false⟩, ⟨"latitude", Spec.uniform (-7 / 10) (1 / 50) 71, "degrees", [], false⟩,
        ⟨"longitude", Spec.uniform (-7 / 10) (1 / 50) 71, "degrees", [], false⟩] ∧
      c.times = [⟨"time", 1510286400, none⟩, ⟨"forecast_reference_time", 1510272000, none⟩, ⟨"forecast_period", 14400, none⟩] ∧ ∀ k, c.attrs.lookup k = m.lookup k := by
  rw [C293_no_json]
  obtain ⟨c, hc, hn, hcu, ⟨y, x, g, hg, hd⟩, -, -, ht, ha⟩ := C293_members canonical parse { mandatory := m } {}
    ⟨m, "air_pressure_at_sea_level", none, none, 8, none, "variable", "greater_than", 71, some "latlon", none, none, none, none, false, none, none, none, none, []⟩
    ⟨rfl, .inr ⟨rfl, rfl⟩, .inr ⟨rfl, rfl⟩, .inr ⟨rfl, rfl⟩, .inr ⟨rfl, rfl⟩, ⟨rfl, rfl, rfl⟩, ⟨rfl, rfl, rfl, rfl⟩, .inr ⟨rfl, rfl⟩, .inr ⟨rfl, rfl⟩, .inr ⟨rfl, rfl⟩, rfl,
      .inr (.inr ⟨rfl, rfl, rfl, rfl⟩)⟩ (.members _ rfl rfl rfl) rfl rfl 1510286400 1510272000 none
    ⟨.inr (.inl rfl), .inl rfl, hm, by norm_num, nofun, nofun, nofun, .inr ⟨rfl, rfl⟩, .inr ⟨rfl, rfl⟩, rfl, rfl, rfl, by norm_num⟩ u (.inr ⟨rfl, hu⟩) (by norm_num)
  refine ⟨c, hc, hn, hcu, ?_, ?_, ?_⟩
  · rcases hg with ⟨-, rfl, rfl, rfl⟩ | ⟨e, -⟩
    · rw [hd]
      have e8 : ((List.range 8).map fun k : ℕ => (k : ℚ)) = [0, 1, 2, 3, 4, 5, 6, 7] := by decide +kernel
      have ea : Spec.axis none (1 / 50) 71 = Spec.uniform (-7 / 10) (1 / 50) 71 := by
        unfold Spec.axis
        norm_num
      show (⟨"realization", (List.range 8).map fun k : ℕ => (k : ℚ), "1", [], false⟩ : SynthDim) :: [⟨"latitude", Spec.axis none (1 / 50) 71, "degrees", [], false⟩,
        ⟨"longitude", Spec.axis none (1 / 50) 71, "degrees", [], false⟩] = _
      rw [e8, ea]
    · exact absurd (show ("latlon" : String) = "equalarea" from e) (by decide)
  · rw [ht]
    norm_num
  · intro k
    rw [ha k]
    cases m.lookup k <;> rfl

/-! A case: hourly rain on three pressure levels with two percentiles. -/

def exMetaOptions : MetaOptions := { mandatory := [("title", "t"), ("source", "s"), ("institution", "i")], period := some 60, npoints := 3 }

def exMetaJson : MetaJson :=
  { name := some "rain", unit := some "mm", time := some "20171110T0400Z", coords := some [("percentiles", [20, 80]), ("pressures", [1000, 850, 500])] }

def exMetaArgs : MetaArgs :=
  ⟨[("title", "t"), ("source", "s"), ("institution", "i")], "rain", some "mm", some 60, 8, some [20, 80], "percentile", "greater_than", 3, some "latlon", none, none, none,
    some [1000, 850, 500], true, some 1510286400, none, none, none, []⟩

theorem exMeta_request : Spec.Request (fun s => if s = "20171110T0400Z" then .ok 1510286400 else .error .valueError) exMetaOptions exMetaJson exMetaArgs where
  mandatory := rfl
  name := .inl rfl
  unit := .inl ⟨nofun, rfl⟩
  relative := .inr ⟨rfl, rfl⟩
  attrs := .inr ⟨rfl, rfl⟩
  numbers := ⟨rfl, rfl, rfl⟩
  grid := ⟨rfl, rfl, rfl, rfl⟩
  time := .inl ⟨_, _, rfl, if_pos rfl, rfl⟩
  frt := .inr ⟨rfl, rfl⟩
  bounds := .inr ⟨rfl, rfl⟩
  blend := rfl
  levels := .inr (.inl ⟨_, by decide +kernel, by decide +kernel, rfl, rfl⟩)

theorem exMeta_sound : Spec.Sound exMetaArgs 1510286400 1510272000 (some 60) where
  grid := .inr (.inl rfl)
  corner := .inl rfl
  attrs := by decide +kernel
  npoints := by decide
  dx := nofun
  dy := nofun
  levels := fun h e => by cases e; exact ⟨by decide, .inr (by decide +kernel)⟩
  time := .inl (by norm_num [exMetaArgs])
  frt := .inr ⟨rfl, rfl⟩
  blend := rfl
  bounds := rfl
  period := by norm_num [exMetaArgs]
  order := by norm_num

example : ∃ c, metaCommand (fun _ => none) (fun s => if s = "20171110T0400Z" then .ok 1510286400 else .error .valueError) exMetaOptions (some exMetaJson) = .ok c ∧ c.name = "rain" ∧
    c.unit = "mm" ∧ Spec.Made exMetaArgs 1510286400 1510272000 (some 60) ⟨"percentile", [20, 80], "%", [], false⟩ c :=
  C293_percentiles _ _ _ _ _ exMeta_request [20, 80] (.percentiles _ _ (by decide +kernel) (by decide +kernel) (by decide +kernel)) rfl rfl _ _ _ exMeta_sound "mm" (.inl rfl) (by decide)
    (.inl (by decide +kernel))

end Improver
