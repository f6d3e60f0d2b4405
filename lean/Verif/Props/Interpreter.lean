import Verif.Model.Interpreter
import Verif.Lemmas.ListAux
import Verif.Props.Amend

/-!
C201 (files accepted by the metadata interpreter), C202 (models and cycles shown for a blend), C203 (the command).
-/

namespace Improver
namespace Spec

/-- `part` is found in `whole`. -/
def isPart (part whole : String) : Prop := part.toList <:+: whole.toList

/-- The attributes of a cube by name. -/
def hasAttr (c : MiCube) (key : String) (value : Text) : Prop := c.attr key = some value

/-- A threshold coordinate that says how probabilities compare with thresholds, as the name of the cube does. -/
def thresholdOk (name : String) (t : MiCoord) : Prop :=
  t.varName = some "threshold" ∧ ∃ r, t.relative = some r ∧
    ((r ∈ ["greater_than", "greater_than_or_equal_to"] ∧ isPart "above" name) ∨
     (r ∈ ["less_than", "less_than_or_equal_to"] ∧ isPart "below" name) ∨
     (r = "between_thresholds" ∧ isPart "between" name))

/-- Cell methods: accumulations are sums over time; minima, maxima and sums are over something, say what they are of if the
data are probabilities, and have time bounds if they are over time; no other method is one of those that are not allowed. -/
def methodsOk (c : MiCube) (diagnostic : Option Text) : Prop :=
  ((∃ n ∈ ["lwe_thickness_of_precipitation_amount", "lwe_thickness_of_sleetfall_amount",
      "lwe_thickness_of_snowfall_amount", "thickness_of_rainfall_amount"], isPart n c.name) →
    ∃ m ∈ c.methods, m.method = "sum" ∧ m.coords = ["time"]) ∧
  ∀ m ∈ c.methods,
    (m.method ∈ ["min", "max", "minimum", "maximum", "sum"] → m.coords ≠ [] ∧
      (∀ d, diagnostic = some d → ∃ x rest, m.comments = x :: rest ∧ "of ".toList ++ d <+: x) ∧
      ("time" ∈ m.coords → ∃ t ∈ c.coords, t.name = "time" ∧ t.upper ≠ none)) ∧
    (m.method ∉ ["point", "weighted_mean"]) ∧
    ¬ (m.method = "mean" ∧ m.intervals = [] ∧ m.comments = [] ∧
      ∃ x ∈ ["forecast_reference_time", "model_id", "model_configuration", "realization"], m.coords = [x])

/-- Neither an ancillary nor one of the names with rules of their own. -/
def ordinary (c : MiCube) : Prop :=
  c.name ∉ ancillaryNames ∧ c.name ∉ intermediateNames ∧ c.name ≠ "weather_code" ∧ c.name ≠ "wind_from_direction"

/-- Named as probabilities are. -/
def probabilityNamed (c : MiCube) : Prop := isPart "probability" c.name ∧ isPart "threshold" c.name

/-- What each kind of data is, and what it needs; `d` is the diagnostic. -/
def kindOk (c : MiCube) (d : Text) : MiKind → Prop
  | .ancillary => c.name ∈ ancillaryNames ∧ d = c.name.toList ∧ c.methods = []
  | .weatherCode => c.name = "weather_code" ∧ d = c.name.toList ∧ ∀ m ∈ c.methods, m.method = "mode" ∧ m.coords = ["time"] ∧
      m.comments = [] ∧ (m.intervals = ["1 hour"] ∨ m.intervals = ["3 hour"])
  | .windDirection => c.name = "wind_from_direction" ∧ d = c.name.toList ∧
      (c.methods = [] ∨ c.methods = [⟨"mean", ["realization"], [], []⟩])
  | .unhandled => False
  | .probability => ordinary c ∧
      (probabilityNamed c ∨ (∀ x ∈ c.coords, ¬ isPart "percentile" x.name) ∧ ∃ x ∈ c.coords, x.varName = some "threshold") ∧
      c.units = "1" ∧ extractDiag false c.name.toList = .ok d ∧
      (∃ t ∈ c.coords, t.name = String.ofList d ∧ thresholdOk c.name t) ∧ methodsOk c (some d)
  | .percentile => ordinary c ∧ ¬ probabilityNamed c ∧ d = c.name.toList ∧
      (∃ p ∈ c.coords, p.name = "percentile" ∧ p.units = "%" ∧ ∀ q ∈ c.coords, isPart "percentile" q.name → q = p) ∧
      methodsOk c none
  | .realizations => ordinary c ∧ ¬ probabilityNamed c ∧ d = c.name.toList ∧
      (∀ x ∈ c.coords, ¬ isPart "percentile" x.name ∧ x.varName ≠ some "threshold") ∧ methodsOk c none

/-- The model codes and their names. -/
def models : List (String × String) :=
  [("nc_det", "Nowcast"), ("gl_det", "Global"), ("gl_ens", "MOGREPS-G"), ("uk_ens", "MOGREPS-UK"), ("uk_det", "UKV")]

/-- The title of a blend. -/
def blendTitle (title : Text) : Prop := "IMPROVER Post-Processed Multi-Model Blend".toList <:+: title

/-- A blend: it says from which models it is and from which cycle of each, one in each line, with a third part (the weight). -/
def blendOk (c : MiCube) : Prop :=
  ∃ ids runs, hasAttr c "mosg__model_configuration" ids ∧ hasAttr c "mosg__model_run" runs ∧
    (∀ line ∈ splitAt '\n' runs, ∃ k v w, splitAt ':' line = [k, v, w]) ∧
    ∀ code ∈ splitAt ' ' ids, (∃ e ∈ models, e.1.toList = code) ∧
      ∃ line ∈ splitAt '\n' runs, ∃ v w, splitAt ':' line = [code, v, w]

/-- A single model: known, and the one in the title. -/
def singleOk (c : MiCube) (title : Text) : Prop :=
  ∀ id, hasAttr c "mosg__model_configuration" id →
    (∃ e ∈ models, e.1.toList = id) ∧ ∀ e ∈ models, (e.2 ++ " Model").toList <:+: title → id = e.1.toList

/-- Attributes, coordinates and types. -/
def generalOk (c : MiCube) (d : Text) (k : MiKind) : Prop :=
  (∀ e ∈ c.attrs, e.1 ∉ ["mosg__grid_type", "mosg__grid_domain", "mosg__grid_version", "mosg__forecast_run_duration", "grid_id",
    "source_realizations", "um_version"]) ∧
  (d = "weather_code".toList → ∀ a ∈ ["weather_code", "weather_code_meaning"], ∃ v, (a, v) ∈ c.attrs) ∧
  (d = "wind_gust".toList → ∃ v, ("wind_gust_diagnostic", v) ∈ c.attrs) ∧
  (k ≠ .ancillary → ∃ title, hasAttr c "title" title ∧ (∃ v, ("source", v) ∈ c.attrs) ∧ (∃ v, ("institution", v) ∈ c.attrs) ∧
    (blendTitle title → blendOk c ∧ ∀ n ∈ ["time", "blend_time"], ∃ x ∈ c.coords, x.name = n) ∧
    (¬ blendTitle title → singleOk c title ∧
      ∀ n ∈ ["time", "forecast_period", "forecast_reference_time"], ∃ x ∈ c.coords, x.name = n)) ∧
  ((∃ x ∈ c.coords, x.name = "spot_index") →
    (∀ title, hasAttr c "title" title → "Spot Values".toList <:+: title) ∧
    ∀ n ∈ ["spot_index", "latitude", "longitude", "altitude", "wmo_id"], ∃ x ∈ c.coords, x.name = n ∧
      ∀ i, i ∈ x.dims ↔ i ∈ c.horizontal) ∧
  (∀ x ∈ c.coords, x.name = "time" ∨ x.name = "forecast_period" → x.upper = none ∨ x.upper = some x.points) ∧
  c.standards = true ∧
  (k = .realizations → ∀ x ∈ c.coords, x.name = "realization" → 1 < x.points.length →
    ∀ id, hasAttr c "mosg__model_configuration" id → "ens".toList <:+: id)

end Spec

open Spec

theorem inName_iff (p w : String) : inName p w = true ↔ isPart p w := by
  unfold inName isPart; exact hasPart_iff _ _

theorem miCoord_iff (c : MiCube) (hnd : (c.coords.map fun x => x.name).Nodup) (n : String) (x : MiCoord) :
    c.coord n = some x ↔ x ∈ c.coords ∧ x.name = n := by
  unfold MiCube.coord
  constructor
  · intro h
    exact ⟨List.mem_of_find?_eq_some h, by simpa using List.find?_some h⟩
  · rintro ⟨hx, hn⟩
    have key : ∀ l : List MiCoord, (l.map fun x => x.name).Nodup → x ∈ l →
        (l.find? fun y => decide (y.name = n)) = some x := by
      intro l hl hx
      induction l with
      | nil => simp at hx
      | cons y l ih =>
        rw [List.map_cons, List.nodup_cons] at hl
        by_cases hy : y.name = n
        · rw [List.find?_cons_of_pos (by simpa using hy)]
          rcases List.mem_cons.1 hx with rfl | h
          · rfl
          · exact absurd (List.mem_map.2 ⟨x, h, hn.trans hy.symm⟩) hl.1
        · rw [List.find?_cons_of_neg (by simpa using hy)]
          rcases List.mem_cons.1 hx with rfl | h
          · exact absurd hn hy
          · exact ih hl.2 h
    exact key _ hnd hx

theorem miCoord_none (c : MiCube) (n : String) : c.coord n = none ↔ ∀ x ∈ c.coords, x.name ≠ n := by
  unfold MiCube.coord; rw [List.find?_eq_none]; simp

theorem miAttr_none (c : MiCube) (k : String) : c.attr k = none ↔ ∀ e ∈ c.attrs, e.1 ≠ k := by
  unfold MiCube.attr; rw [Option.map_eq_none_iff, List.find?_eq_none]; simp

theorem mem_attr_keys (c : MiCube) (k : String) : k ∈ c.attrs.map Prod.fst ↔ ∃ v, (k, v) ∈ c.attrs := by
  rw [List.mem_map]
  constructor
  · rintro ⟨e, he, rfl⟩; exact ⟨e.2, he⟩
  · rintro ⟨v, h⟩; exact ⟨_, h, rfl⟩

theorem attr_some_of_key (c : MiCube) (k : String) : (∃ v, (k, v) ∈ c.attrs) ↔ ∃ v, c.attr k = some v := by
  rw [← mem_attr_keys]
  constructor
  · intro h
    cases ha : c.attr k with
    | some v => exact ⟨v, rfl⟩
    | none =>
      obtain ⟨e, he, hk⟩ := List.mem_map.1 h
      exact absurd hk ((miAttr_none c k).1 ha e he)
  · rintro ⟨v, h⟩
    by_contra hn
    have : c.attr k = none := (miAttr_none c k).2 fun e he hk => hn (List.mem_map.2 ⟨e, he, hk⟩)
    rw [this] at h; nomatch h

theorem thresholdErrors_nil (name : String) (t : MiCoord) : thresholdErrors name t = [] ↔ thresholdOk name t := by
  unfold thresholdErrors thresholdOk
  rw [List.append_eq_nil_iff]
  refine and_congr (by split <;> simp_all) ?_
  cases t.relative with
  | none => simp
  | some r =>
    simp only [Option.some.injEq, exists_eq_left']
    rw [← inName_iff, ← inName_iff, ← inName_iff]
    simp only [List.mem_cons, List.not_mem_nil, or_false]
    by_cases h1 : r = "greater_than" ∨ r = "greater_than_or_equal_to"
    · rw [if_pos h1]
      rcases h1 with rfl | rfl <;> simp
    · rw [if_neg h1]
      by_cases h2 : r = "less_than" ∨ r = "less_than_or_equal_to"
      · rw [if_pos h2]
        rcases h2 with rfl | rfl <;> simp
      · rw [if_neg h2]
        by_cases h3 : r = "between_thresholds"
        · rw [if_pos h3]; subst h3; simp
        · rw [if_neg h3]; simp [h1, h2, h3]

theorem thresholdNameErrors_nil (c : MiCube) (hnd : (c.coords.map fun x => x.name).Nodup) (d : Text) :
    thresholdNameErrors c d = [] ↔ ∃ t ∈ c.coords, t.name = String.ofList d ∧ thresholdOk c.name t := by
  unfold thresholdNameErrors
  cases h : c.coord (String.ofList d) with
  | some t =>
    obtain ⟨h1, h2⟩ := (miCoord_iff c hnd _ t).1 h
    show thresholdErrors c.name t = [] ↔ _
    rw [thresholdErrors_nil]
    constructor
    · intro ht; exact ⟨t, h1, h2, ht⟩
    · rintro ⟨t', h1', h2', ht⟩
      have := (miCoord_iff c hnd _ t').2 ⟨h1', h2'⟩
      rw [h] at this
      cases this
      exact ht
  | none =>
    have hn := (miCoord_none c _).1 h
    constructor
    · intro h'
      exfalso
      revert h'
      dsimp only
      split <;> simp
    · rintro ⟨t, h1, h2, _⟩
      exact absurd h2 (hn t h1)

theorem probabilityErrors_nil (c : MiCube) (hnd : (c.coords.map fun x => x.name).Nodup) (b : Option Text) (d : Text) :
    (probabilityErrors c b).1 = [] ∧ extractDiag false c.name.toList = .ok d ↔
      c.units = "1" ∧ extractDiag false c.name.toList = .ok d ∧
        ∃ t ∈ c.coords, t.name = String.ofList d ∧ thresholdOk c.name t := by
  unfold probabilityErrors
  cases h : extractDiag false c.name.toList with
  | error e => simp
  | ok d' =>
    simp only [Except.ok.injEq]
    constructor
    · rintro ⟨h1, rfl⟩
      rw [List.append_eq_nil_iff, thresholdNameErrors_nil c hnd] at h1
      refine ⟨?_, rfl, h1.2⟩
      by_contra hu
      rw [if_neg hu] at h1
      simp at h1
    · rintro ⟨h1, rfl, h2⟩
      rw [if_pos h1]
      exact ⟨by rw [List.nil_append, thresholdNameErrors_nil c hnd]; exact h2, rfl⟩

theorem commentErrors_nil (diagnostic : Option Text) (m : CellMethod) : commentErrors diagnostic m = [] ↔
    ∀ d, diagnostic = some d → ∃ x rest, m.comments = x :: rest ∧ "of ".toList ++ d <+: x := by
  unfold commentErrors
  cases diagnostic with
  | none => simp
  | some d =>
    cases hm : m.comments with
    | nil => simp
    | cons x rest =>
      simp only [Option.some.injEq, forall_eq', List.cons.injEq]
      constructor
      · intro h
        refine ⟨x, rest, ⟨rfl, rfl⟩, ?_⟩
        by_contra hn
        rw [if_neg (fun h => hn (startsWith_iff.1 h))] at h
        simp at h
      · rintro ⟨x', rest', ⟨rfl, rfl⟩, h⟩
        rw [if_pos (startsWith_iff.2 h)]

/-- What the specification asks of one cell method. -/
theorem methodErrors_nil (c : MiCube) (hnd : (c.coords.map fun x => x.name).Nodup) (diagnostic : Option Text) (m : CellMethod) :
    methodErrors c diagnostic m = .ok [] ↔
    (m.method ∈ ["min", "max", "minimum", "maximum", "sum"] → m.coords ≠ [] ∧
      (∀ d, diagnostic = some d → ∃ x rest, m.comments = x :: rest ∧ "of ".toList ++ d <+: x) ∧
      ("time" ∈ m.coords → ∃ t ∈ c.coords, t.name = "time" ∧ t.upper ≠ none)) ∧
    (m.method ∉ ["point", "weighted_mean"]) ∧
    ¬ (m.method = "mean" ∧ m.intervals = [] ∧ m.comments = [] ∧
      ∃ x ∈ ["forecast_reference_time", "model_id", "model_configuration", "realization"], m.coords = [x]) := by
  have hmeans : m ∈ nonStandardMeans ↔ (m.method = "mean" ∧ m.intervals = [] ∧ m.comments = [] ∧
      ∃ x ∈ ["forecast_reference_time", "model_id", "model_configuration", "realization"], m.coords = [x]) := by
    unfold nonStandardMeans
    rw [List.mem_map]
    constructor
    · rintro ⟨x, hx, rfl⟩; exact ⟨rfl, rfl, rfl, x, hx, rfl⟩
    · rintro ⟨h1, h2, h3, x, hx, h4⟩
      refine ⟨x, hx, ?_⟩
      cases m
      simp only at h1 h2 h3 h4
      rw [h1, h2, h3, h4]
  rw [← hmeans]
  unfold methodErrors
  show (if m.method ∈ ["min", "max", "minimum", "maximum", "sum"] then _ else _) = _ ↔ _
  by_cases hs : m.method ∈ ["min", "max", "minimum", "maximum", "sum"]
  · rw [if_pos hs]
    have hnp : m.method ∉ ["point", "weighted_mean"] := by
      intro h
      simp only [List.mem_cons, List.not_mem_nil, or_false] at hs h
      rcases hs with h1 | h1 | h1 | h1 | h1 <;> rcases h with h2 | h2 <;> rw [h1] at h2 <;> revert h2 <;> decide
    have hnm : m ∉ nonStandardMeans := by
      rw [hmeans]
      rintro ⟨h, _⟩
      rw [h] at hs
      revert hs
      decide
    simp only [hs, hnp, hnm, not_false_eq_true, and_true, forall_true_left]
    by_cases hc : m.coords = []
    · rw [if_pos hc]; simp [hc]
    · rw [if_neg hc]
      simp only [hc, ne_eq, not_false_eq_true, true_and]
      rw [← commentErrors_nil]
      by_cases ht : "time" ∈ m.coords
      · rw [if_pos ht]
        simp only [ht, forall_true_left]
        cases hx : c.coord "time" with
        | none =>
          have := (miCoord_none c "time").1 hx
          constructor
          · intro h; nomatch h
          · rintro ⟨_, t, h1, h2, _⟩; exact absurd h2 (this t h1)
        | some t =>
          obtain ⟨h1, h2⟩ := (miCoord_iff c hnd _ t).1 hx
          simp only [Except.ok.injEq, List.append_eq_nil_iff]
          refine and_congr Iff.rfl ?_
          constructor
          · intro h
            refine ⟨t, h1, h2, ?_⟩
            intro hu
            rw [if_pos hu] at h
            simp at h
          · rintro ⟨t', h1', h2', hu⟩
            have := (miCoord_iff c hnd _ t').2 ⟨h1', h2'⟩
            rw [hx] at this
            cases this
            rw [if_neg hu]
      · rw [if_neg ht]
        simp [ht]
  · rw [if_neg hs]
    simp only [hs, false_imp_iff, true_and]
    by_cases hn : m ∈ nonStandardMeans ∨ m.method ∈ nonStandardMethodNames
    · rw [if_pos hn]
      constructor
      · intro h; simp at h
      · rintro ⟨h1, h2⟩
        rcases hn with h | h
        · exact absurd h h2
        · exact absurd h h1
    · rw [if_neg hn]
      simp only [true_iff]
      exact ⟨fun h => hn (Or.inr h), fun h => hn (Or.inl h)⟩

/-- A list of checks finds nothing exactly when each check finds nothing. -/
theorem mapM_flatten_nil {α β : Type} (f : α → Except Err (List β)) (l : List α) :
    (l.mapM f).map List.flatten = .ok [] ↔ ∀ a ∈ l, f a = .ok [] := by
  induction l with
  | nil => simp [pure, Except.pure, Except.map]
  | cons a l ih =>
    rw [List.mapM_cons]
    simp only [bind, Except.bind, pure, Except.pure, List.forall_mem_cons]
    rw [← ih]
    cases f a with
    | error e => simp [Except.map]
    | ok x =>
      cases l.mapM f with
      | error e => simp [Except.map]
      | ok y => simp [Except.map, List.append_eq_nil_iff]

theorem methodsErrors_nil (c : MiCube) (hnd : (c.coords.map fun x => x.name).Nodup) (diagnostic : Option Text) :
    methodsErrors c diagnostic = .ok [] ↔ methodsOk c diagnostic := by
  unfold methodsErrors methodsOk
  simp only [← methodErrors_nil c hnd]
  rw [← mapM_flatten_nil]
  simp only [bind, Except.bind]
  have hacc : (if (accumulationNames.any fun n => inName n c.name) &&
      !(c.methods.any fun m => decide (m.method = "sum" ∧ m.coords = ["time"])) then [MiErr.accumulation] else []) = [] ↔
      ((∃ n ∈ ["lwe_thickness_of_precipitation_amount", "lwe_thickness_of_sleetfall_amount",
        "lwe_thickness_of_snowfall_amount", "thickness_of_rainfall_amount"], isPart n c.name) →
        ∃ m ∈ c.methods, m.method = "sum" ∧ m.coords = ["time"]) := by
    have h1 : (accumulationNames.any fun n => inName n c.name) = true ↔
        ∃ n ∈ ["lwe_thickness_of_precipitation_amount", "lwe_thickness_of_sleetfall_amount",
        "lwe_thickness_of_snowfall_amount", "thickness_of_rainfall_amount"], isPart n c.name := by
      rw [List.any_eq_true]
      simp only [inName_iff]
      rfl
    have h2 : (c.methods.any fun m => decide (m.method = "sum" ∧ m.coords = ["time"])) = true ↔
        ∃ m ∈ c.methods, m.method = "sum" ∧ m.coords = ["time"] := by
      rw [List.any_eq_true]; simp only [decide_eq_true_eq]
    rw [← h1, ← h2]
    cases (accumulationNames.any fun n => inName n c.name) <;>
      cases (c.methods.any fun m => decide (m.method = "sum" ∧ m.coords = ["time"])) <;> simp
  rw [← hacc]
  cases c.methods.mapM (methodErrors c diagnostic) with
  | error e => simp [Except.map]
  | ok x => simp only [Except.map, Except.ok.injEq, List.append_eq_nil_iff]

/-! ## Attributes -/

theorem modelName_some (code : Text) : (∃ n, modelName code = some n) ↔ ∃ e ∈ models, e.1.toList = code := by
  have : (∃ n, modelName code = some n) ↔ ∃ e ∈ modelCodes, e.2.toList = code := by
    unfold modelName
    constructor
    · rintro ⟨n, h⟩
      rw [Option.map_eq_some_iff] at h
      obtain ⟨e, he, _⟩ := h
      exact ⟨e, List.mem_of_find?_eq_some he, by simpa using List.find?_some he⟩
    · rintro ⟨e, he, hc⟩
      cases hf : modelCodes.find? fun e => decide (e.2.toList = code) with
      | some x => exact ⟨x.1, rfl⟩
      | none =>
        rw [List.find?_eq_none] at hf
        exact absurd hc (by simpa using hf e he)
  rw [this]
  have hm : models = modelCodes.map fun e => (e.2, e.1) := rfl
  rw [hm]
  simp only [List.mem_map]
  constructor
  · rintro ⟨e, he, hc⟩; exact ⟨_, ⟨e, he, rfl⟩, hc⟩
  · rintro ⟨_, ⟨e, he, rfl⟩, hc⟩; exact ⟨e, he, hc⟩

theorem cycleItem_ok (item k v : Text) : cycleItem item = .ok (k, v) ↔ ∃ w, splitAt ':' item = [k, v, w] := by
  unfold cycleItem
  constructor
  · intro h
    match hs : splitAt ':' item with
    | [] => rw [hs] at h; nomatch h
    | [a] => rw [hs] at h; nomatch h
    | [a, b] => rw [hs] at h; nomatch h
    | [a, b, w] =>
      rw [hs] at h
      simp only [List.dropLast, Except.ok.injEq, Prod.mk.injEq] at h
      exact ⟨w, by rw [h.1, h.2]⟩
    | a :: b :: x :: y :: r => rw [hs] at h; nomatch h
  · rintro ⟨w, h⟩
    rw [h]
    rfl

theorem codeErrors_nil (cycles : List (Text × Text)) (code : Text) :
    codeErrors cycles code = .ok [] ↔ (∃ e ∈ models, e.1.toList = code) ∧ code ∈ cycles.map Prod.fst := by
  rw [← modelName_some]
  unfold codeErrors
  cases modelName code with
  | none => simp
  | some n =>
    by_cases h : code ∈ cycles.map Prod.fst
    · simp only [if_pos h, h]; simp
    · simp only [if_neg h, h]; simp

theorem blendErrors_nil (c : MiCube) : blendErrors c = .ok [] ↔ blendOk c := by
  unfold blendErrors blendOk hasAttr
  cases h1 : c.attr "mosg__model_configuration" with
  | none => cases h2 : c.attr "mosg__model_run" <;> simp
  | some ids =>
    cases h2 : c.attr "mosg__model_run" with
    | none => simp
    | some runs =>
      simp only [Option.some.injEq, exists_and_left, exists_eq_left', bind, Except.bind]
      cases hc : (splitAt '\n' runs).mapM cycleItem with
      | error e =>
        simp only [reduceCtorEq, false_iff]
        rintro ⟨hl, _⟩
        obtain ⟨ys, hys⟩ := (show ∃ ys, (splitAt '\n' runs).mapM cycleItem = .ok ys from by
          clear hc
          generalize splitAt '\n' runs = l at hl
          induction l with
          | nil => exact ⟨[], rfl⟩
          | cons a l ih =>
            obtain ⟨k, v, w, ha⟩ := hl a (by simp)
            obtain ⟨ys, hys⟩ := ih fun x hx => hl x (List.mem_cons_of_mem _ hx)
            refine ⟨(k, v) :: ys, ?_⟩
            rw [List.mapM_cons, (cycleItem_ok a k v).2 ⟨w, ha⟩, hys]
            rfl)
        rw [hc] at hys
        nomatch hys
      | ok cycles =>
        dsimp only
        have hmem : ∀ (l : List Text) (ys : List (Text × Text)), l.mapM cycleItem = .ok ys →
            (∀ line ∈ l, ∃ k v w, splitAt ':' line = [k, v, w]) ∧
            ∀ code, code ∈ ys.map Prod.fst ↔ ∃ line ∈ l, ∃ v w, splitAt ':' line = [code, v, w] := by
          intro l
          induction l with
          | nil =>
            intro ys h
            cases h
            simp
          | cons a l ih =>
            intro ys h
            rw [List.mapM_cons] at h
            simp only [bind, Except.bind, pure, Except.pure] at h
            cases ha : cycleItem a with
            | error e => rw [ha] at h; nomatch h
            | ok p =>
              rw [ha] at h
              cases hl : l.mapM cycleItem with
              | error e => rw [hl] at h; nomatch h
              | ok zs =>
                rw [hl] at h
                simp only [Except.ok.injEq] at h
                subst h
                obtain ⟨i1, i2⟩ := ih zs hl
                obtain ⟨w, hw⟩ := (cycleItem_ok a p.1 p.2).1 ha
                constructor
                · intro line hline
                  rcases List.mem_cons.1 hline with rfl | h
                  · exact ⟨_, _, _, hw⟩
                  · exact i1 line h
                · intro code
                  rw [List.map_cons, List.mem_cons, i2]
                  constructor
                  · rintro (rfl | ⟨line, h, r⟩)
                    · exact ⟨a, by simp, p.2, w, hw⟩
                    · exact ⟨line, List.mem_cons_of_mem _ h, r⟩
                  · rintro ⟨line, h, v, w', hv⟩
                    rcases List.mem_cons.1 h with rfl | h
                    · rw [hw] at hv
                      left
                      simp only [List.cons.injEq] at hv
                      exact hv.1.symm
                    · exact Or.inr ⟨line, h, v, w', hv⟩
        obtain ⟨m1, m2⟩ := hmem _ _ hc
        have : ((splitAt ' ' ids).mapM (codeErrors cycles)).map List.flatten = .ok [] ↔
            ∀ code ∈ splitAt ' ' ids, (∃ e ∈ models, e.1.toList = code) ∧
              ∃ line ∈ splitAt '\n' runs, ∃ v w, splitAt ':' line = [code, v, w] := by
          rw [mapM_flatten_nil]
          refine forall₂_congr fun code _ => ?_
          rw [codeErrors_nil, m2]
        rw [← this]
        constructor
        · intro h
          refine ⟨m1, ?_⟩
          cases hx : (splitAt ' ' ids).mapM (codeErrors cycles) with
          | error e => rw [hx] at h; nomatch h
          | ok x => rw [hx] at h; exact h
        · rintro ⟨_, h⟩
          cases hx : (splitAt ' ' ids).mapM (codeErrors cycles) with
          | error e => rw [hx] at h; nomatch h
          | ok x => rw [hx] at h; exact h

theorem singleErrors_nil (c : MiCube) (title : Text) :
    singleErrors title (c.attr "mosg__model_configuration") = [] ↔ singleOk c title := by
  unfold singleErrors singleOk hasAttr
  cases c.attr "mosg__model_configuration" with
  | none => simp
  | some id =>
    simp only [Option.some.injEq, forall_eq', List.append_eq_nil_iff]
    rw [← modelName_some, and_comm]
    refine and_congr ?_ ?_
    · cases modelName id <;> simp
    · rw [List.filterMap_eq_nil_iff]
      have hm : models = modelCodes.map fun e => (e.2, e.1) := rfl
      rw [hm]
      simp only [List.forall_mem_map]
      refine forall₂_congr fun e _ => ?_
      rw [← hasPart_iff]
      generalize (e.1 ++ " Model").toList = w
      by_cases h1 : hasPart w title = true
      · by_cases h2 : id = e.2.toList
        · simp [h2]
        · rw [if_pos ⟨h1, h2⟩]; simp [h1, h2]
      · rw [if_neg (fun h => h1 h.1)]; simp [h1]

theorem isBlendTitle_iff (title : Text) : isBlendTitle title = true ↔ blendTitle title := hasPart_iff _ _

theorem presentErrors_nil (c : MiCube) (l : List String) :
    presentErrors c l = [] ↔ ∀ n ∈ l, ∃ x ∈ c.coords, x.name = n := by
  unfold presentErrors
  have : (l.all fun n => decide (n ∈ c.coords.map fun x => x.name)) = true ↔ ∀ n ∈ l, ∃ x ∈ c.coords, x.name = n := by
    rw [List.all_eq_true]; simp only [decide_eq_true_eq, List.mem_map]
  rw [← this]
  split <;> simp_all

theorem forbidden_nil (c : MiCube) :
    (if (c.attrs.map Prod.fst).any fun k => decide (k ∈ forbiddenAttrs) then [MiErr.forbidden] else []) = [] ↔
    ∀ e ∈ c.attrs, e.1 ∉ ["mosg__grid_type", "mosg__grid_domain", "mosg__grid_version", "mosg__forecast_run_duration", "grid_id",
      "source_realizations", "um_version"] := by
  have : ((c.attrs.map Prod.fst).any fun k => decide (k ∈ forbiddenAttrs)) = true ↔ ¬ ∀ e ∈ c.attrs,
      e.1 ∉ ["mosg__grid_type", "mosg__grid_domain", "mosg__grid_version", "mosg__forecast_run_duration", "grid_id",
        "source_realizations", "um_version"] := by
    rw [List.any_eq_true]
    simp only [decide_eq_true_eq, List.mem_map, not_forall, not_not]
    constructor
    · rintro ⟨_, ⟨e, he, rfl⟩, h⟩; exact ⟨e, he, h⟩
    · rintro ⟨e, he, h⟩; exact ⟨_, ⟨e, he, rfl⟩, h⟩
  by_cases h : ((c.attrs.map Prod.fst).any fun k => decide (k ∈ forbiddenAttrs)) = true
  · rw [if_pos h]
    simp only [reduceCtorEq, false_iff]
    exact this.1 h
  · rw [if_neg h]
    simp only [true_iff]
    by_contra hn
    exact h (this.2 hn)

theorem keys_nil (c : MiCube) (l : List String) (e : MiErr) :
    (if l.all fun k => decide (k ∈ c.attrs.map Prod.fst) then [] else [e]) = [] ↔ ∀ k ∈ l, ∃ v, (k, v) ∈ c.attrs := by
  have : (l.all fun k => decide (k ∈ c.attrs.map Prod.fst)) = true ↔ ∀ k ∈ l, ∃ v, (k, v) ∈ c.attrs := by
    rw [List.all_eq_true]; simp only [decide_eq_true_eq, mem_attr_keys]
  rw [← this]
  split <;> simp_all

theorem required_iff (c : MiCube) (d : Text) : (∀ k ∈ requiredAttrs d, ∃ v, (k, v) ∈ c.attrs) ↔
    (d = "weather_code".toList → ∀ a ∈ ["weather_code", "weather_code_meaning"], ∃ v, (a, v) ∈ c.attrs) ∧
    (d = "wind_gust".toList → ∃ v, ("wind_gust_diagnostic", v) ∈ c.attrs) := by
  unfold requiredAttrs
  by_cases h1 : d = "weather_code".toList
  · rw [if_pos h1]
    have : d ≠ "wind_gust".toList := by rw [h1]; decide +kernel
    simp only [this, false_imp_iff, and_true]
    exact ⟨fun h _ => h, fun h => h h1⟩
  · rw [if_neg h1]
    by_cases h2 : d = "wind_gust".toList
    · rw [if_pos h2]
      simp only [h1, false_imp_iff, true_and, List.forall_mem_singleton]
      exact ⟨fun h _ => h, fun h => h h2⟩
    · rw [if_neg h2]
      simp only [h1, h2, false_imp_iff, and_self, List.not_mem_nil, forall_const]

/-- The title, and what depends on it: models, and the times that are there. -/
def titleOk (c : MiCube) : Prop :=
  ∃ title, hasAttr c "title" title ∧ (∃ v, ("source", v) ∈ c.attrs) ∧ (∃ v, ("institution", v) ∈ c.attrs) ∧
    (blendTitle title → blendOk c) ∧ (¬ blendTitle title → singleOk c title)

theorem attributeErrors_nil (c : MiCube) (k : MiKind) (d : Text) : attributeErrors c k (some d) = .ok [] ↔
    (∀ e ∈ c.attrs, e.1 ∉ ["mosg__grid_type", "mosg__grid_domain", "mosg__grid_version", "mosg__forecast_run_duration", "grid_id",
      "source_realizations", "um_version"]) ∧
    (d = "weather_code".toList → ∀ a ∈ ["weather_code", "weather_code_meaning"], ∃ v, (a, v) ∈ c.attrs) ∧
    (d = "wind_gust".toList → ∃ v, ("wind_gust_diagnostic", v) ∈ c.attrs) ∧ (k ≠ .ancillary → titleOk c) := by
  rw [← forbidden_nil]
  have hreq := required_iff c d
  rw [← keys_nil c (requiredAttrs d) .required] at hreq
  rw [← and_assoc (a := _ → _), ← hreq]
  unfold attributeErrors
  simp only [Option.getD_some]
  generalize (if (c.attrs.map Prod.fst).any fun k => decide (k ∈ forbiddenAttrs) then [MiErr.forbidden] else []) = F
  generalize (if (requiredAttrs d).all fun k => decide (k ∈ c.attrs.map Prod.fst) then [] else [MiErr.required]) = R
  by_cases hk : k = .ancillary
  · rw [if_pos hk]
    simp [hk, List.append_eq_nil_iff]
  · rw [if_neg hk]
    have hmand := keys_nil c mandatoryAttrs .mandatory
    generalize (if mandatoryAttrs.all fun k => decide (k ∈ c.attrs.map Prod.fst) then [] else [MiErr.mandatory]) = M at hmand ⊢
    have hM : M = [] ↔ (∃ v, ("title", v) ∈ c.attrs) ∧ (∃ v, ("source", v) ∈ c.attrs) ∧ ∃ v, ("institution", v) ∈ c.attrs := by
      rw [hmand]; unfold mandatoryAttrs; simp only [List.forall_mem_cons, List.not_mem_nil, forall_const, and_true,
        false_imp_iff, implies_true]
    have htitle : (∃ v, ("title", v) ∈ c.attrs) ↔ ∃ v, c.attr "title" = some v := attr_some_of_key c "title"
    simp only [hk, ne_eq, not_false_eq_true, forall_true_left]
    unfold titleOk hasAttr
    cases ht : c.attr "title" with
    | none =>
      have hn : M ≠ [] := by
        rw [ne_eq, hM, htitle, ht]; simp
      simp [List.append_eq_nil_iff, hn]
    | some title =>
      have hM' : M = [] ↔ (∃ v, ("source", v) ∈ c.attrs) ∧ ∃ v, ("institution", v) ∈ c.attrs := by
        rw [hM, htitle, ht]; simp
      simp only [Option.some.injEq, exists_eq_left']
      rw [← and_assoc (a := ∃ v, ("source", v) ∈ c.attrs), ← hM']
      by_cases hb : isBlendTitle title = true
      · rw [if_pos hb]
        have hb' := (isBlendTitle_iff title).1 hb
        simp only [hb', not_true_eq_false, false_imp_iff, and_true, forall_true_left]
        rw [← blendErrors_nil]
        simp only [bind, Except.bind]
        cases blendErrors c with
        | error e => simp
        | ok b => simp [List.append_eq_nil_iff, and_assoc]
      · rw [if_neg hb]
        have hb' : ¬ blendTitle title := fun h => hb ((isBlendTitle_iff title).2 h)
        simp only [hb', not_false_eq_true, false_imp_iff, true_and, forall_true_left]
        rw [← singleErrors_nil]
        simp [List.append_eq_nil_iff, and_assoc]

/-! ## Coordinates -/

theorem horizontalErrors_nil (c : MiCube) (hnd : (c.coords.map fun x => x.name).Nodup) (n : String) :
    horizontalErrors c n = [] ↔ ∀ x ∈ c.coords, x.name = n → ∀ i, i ∈ x.dims ↔ i ∈ c.horizontal := by
  unfold horizontalErrors
  cases h : c.coord n with
  | none =>
    have := (miCoord_none c n).1 h
    simp only [true_iff]
    intro x hx hn
    exact absurd hn (this x hx)
  | some x =>
    obtain ⟨h1, h2⟩ := (miCoord_iff c hnd n x).1 h
    have key : (x.dims.all (fun d => decide (d ∈ c.horizontal)) && c.horizontal.all (fun d => decide (d ∈ x.dims))) = true ↔
        ∀ i, i ∈ x.dims ↔ i ∈ c.horizontal := by
      rw [Bool.and_eq_true, List.all_eq_true, List.all_eq_true]
      simp only [decide_eq_true_eq]
      exact ⟨fun h i => ⟨h.1 i, h.2 i⟩, fun h => ⟨fun i => (h i).1, fun i => (h i).2⟩⟩
    have hx : (∀ x ∈ c.coords, x.name = n → ∀ i, i ∈ x.dims ↔ i ∈ c.horizontal) ↔ ∀ i, i ∈ x.dims ↔ i ∈ c.horizontal := by
      constructor
      · intro h'; exact h' x h1 h2
      · intro h' y hy hyn
        have := (miCoord_iff c hnd n y).2 ⟨hy, hyn⟩
        rw [h] at this
        cases this
        exact h'
    rw [hx, ← key]
    dsimp only
    split <;> simp_all

theorem spotErrors_nil (c : MiCube) (hnd : (c.coords.map fun x => x.name).Nodup) : spotErrors c = [] ↔
    ((∃ x ∈ c.coords, x.name = "spot_index") →
      (∀ title, hasAttr c "title" title → "Spot Values".toList <:+: title) ∧
      ∀ n ∈ ["spot_index", "latitude", "longitude", "altitude", "wmo_id"], ∃ x ∈ c.coords, x.name = n ∧
        ∀ i, i ∈ x.dims ↔ i ∈ c.horizontal) := by
  unfold spotErrors
  have hs : (c.coords.any fun x => decide (x.name = "spot_index")) = true ↔ ∃ x ∈ c.coords, x.name = "spot_index" := by
    rw [List.any_eq_true]; simp only [decide_eq_true_eq]
  rw [← hs]
  by_cases h : (c.coords.any fun x => decide (x.name = "spot_index")) = true
  · rw [if_pos h]
    simp only [h, forall_true_left, List.append_eq_nil_iff, and_assoc]
    refine and_congr ?_ ?_
    · unfold hasAttr
      cases c.attr "title" with
      | none => simp
      | some t =>
        simp only [Option.some.injEq, forall_eq']
        rw [← hasPart_iff]
        split <;> simp_all
    · rw [presentErrors_nil, List.flatMap_eq_nil_iff]
      simp only [horizontalErrors_nil c hnd]
      constructor
      · rintro ⟨h1, h2⟩ n hn
        obtain ⟨x, hx, hxn⟩ := h1 n hn
        exact ⟨x, hx, hxn, h2 n hn x hx hxn⟩
      · intro h'
        refine ⟨fun n hn => ?_, fun n hn y hy hyn => ?_⟩
        · obtain ⟨x, hx, hxn, _⟩ := h' n hn
          exact ⟨x, hx, hxn⟩
        · obtain ⟨x, hx, hxn, hd⟩ := h' n hn
          have e1 := (miCoord_iff c hnd n x).2 ⟨hx, hxn⟩
          have e2 := (miCoord_iff c hnd n y).2 ⟨hy, hyn⟩
          rw [e1] at e2
          cases e2
          exact hd
  · rw [if_neg h]
    simp [h]

theorem boundErrors_nil (c : MiCube) (hnd : (c.coords.map fun x => x.name).Nodup) (n : String) :
    boundErrors c n = [] ↔ ∀ x ∈ c.coords, x.name = n → x.upper = none ∨ x.upper = some x.points := by
  unfold boundErrors
  cases h : c.coord n with
  | none =>
    have := (miCoord_none c n).1 h
    simp only [true_iff]
    intro x hx hn
    exact absurd hn (this x hx)
  | some x =>
    obtain ⟨h1, h2⟩ := (miCoord_iff c hnd n x).1 h
    have hx : (∀ x ∈ c.coords, x.name = n → x.upper = none ∨ x.upper = some x.points) ↔
        (x.upper = none ∨ x.upper = some x.points) := by
      constructor
      · intro h'; exact h' x h1 h2
      · intro h' y hy hyn
        have := (miCoord_iff c hnd n y).2 ⟨hy, hyn⟩
        rw [h] at this
        cases this
        exact h'
    rw [hx]
    dsimp only
    cases x.upper with
    | none => simp
    | some u =>
      simp only [reduceCtorEq, Option.some.injEq, false_or]
      rw [eq_comm (a := u)]
      split <;> simp_all

theorem realizationErrors_nil (c : MiCube) (hnd : (c.coords.map fun x => x.name).Nodup) (k : MiKind) :
    realizationErrors c k = [] ↔
    (k = .realizations → ∀ x ∈ c.coords, x.name = "realization" → 1 < x.points.length →
      ∀ id, hasAttr c "mosg__model_configuration" id → "ens".toList <:+: id) := by
  unfold realizationErrors
  by_cases hk : k = .realizations
  · rw [if_pos hk]
    simp only [hk, forall_true_left]
    cases h : c.coord "realization" with
    | none =>
      have := (miCoord_none c _).1 h
      simp only [true_iff]
      intro x hx hn
      exact absurd hn (this x hx)
    | some x =>
      obtain ⟨h1, h2⟩ := (miCoord_iff c hnd _ x).1 h
      have hx : (∀ x ∈ c.coords, x.name = "realization" → 1 < x.points.length →
          ∀ id, hasAttr c "mosg__model_configuration" id → "ens".toList <:+: id) ↔
          (1 < x.points.length → ∀ id, hasAttr c "mosg__model_configuration" id → "ens".toList <:+: id) := by
        constructor
        · intro h'; exact h' x h1 h2
        · intro h' y hy hyn
          have := (miCoord_iff c hnd _ y).2 ⟨hy, hyn⟩
          rw [h] at this
          cases this
          exact h'
      rw [hx]
      unfold hasAttr
      dsimp only
      have hens : hasPart "ens".toList "ens".toList = true := by decide +kernel
      by_cases hl : 1 < x.points.length
      · cases ha : c.attr "mosg__model_configuration" with
        | none =>
          rw [Option.getD_none, hens]; simp
        | some id =>
          simp only [hl, Option.getD_some, Option.some.injEq, forall_eq', forall_true_left]
          rw [← hasPart_iff]
          cases hasPart "ens".toList id <;> simp [hl]
      · have : ¬ (x.points.length > 1) := hl
        simp [this]
  · rw [if_neg hk]
    simp [hk]

theorem generalErrors_nil (c : MiCube) (hnd : (c.coords.map fun x => x.name).Nodup) (d : Text) (k : MiKind) :
    generalErrors c k (some d) = .ok [] ↔ generalOk c d k := by
  have hrest : ∀ A : List MiErr, A ++ spotErrors c ++
      (if k = .ancillary then [] else if isBlended c k then presentErrors c blendedTimes else presentErrors c unblendedTimes) ++
      boundErrors c "time" ++ boundErrors c "forecast_period" ++ (if c.standards then [] else [.dataTypes]) ++
      realizationErrors c k = [] ↔ A = [] ∧ spotErrors c = [] ∧
      (k ≠ .ancillary → (if isBlended c k then presentErrors c blendedTimes else presentErrors c unblendedTimes) = []) ∧
      boundErrors c "time" = [] ∧ boundErrors c "forecast_period" = [] ∧ c.standards = true ∧ realizationErrors c k = [] := by
    intro A
    simp only [List.append_eq_nil_iff, and_assoc]
    refine and_congr Iff.rfl (and_congr Iff.rfl (and_congr ?_ (and_congr Iff.rfl (and_congr Iff.rfl (and_congr ?_ Iff.rfl)))))
    · by_cases hk : k = .ancillary
      · simp [hk]
      · simp [hk]
    · cases c.standards <;> simp
  have hgen : generalErrors c k (some d) = .ok [] ↔ attributeErrors c k (some d) = .ok [] ∧ spotErrors c = [] ∧
      (k ≠ .ancillary → (if isBlended c k then presentErrors c blendedTimes else presentErrors c unblendedTimes) = []) ∧
      boundErrors c "time" = [] ∧ boundErrors c "forecast_period" = [] ∧ c.standards = true ∧ realizationErrors c k = [] := by
    unfold generalErrors
    simp only [bind, Except.bind]
    cases attributeErrors c k (some d) with
    | error e => simp
    | ok a => simp only [Except.ok.injEq]; exact hrest a
  rw [hgen, attributeErrors_nil, spotErrors_nil c hnd, boundErrors_nil c hnd, boundErrors_nil c hnd, realizationErrors_nil c hnd]
  have hbounds : (∀ x ∈ c.coords, x.name = "time" → x.upper = none ∨ x.upper = some x.points) ∧
      (∀ x ∈ c.coords, x.name = "forecast_period" → x.upper = none ∨ x.upper = some x.points) ↔
      ∀ x ∈ c.coords, x.name = "time" ∨ x.name = "forecast_period" → x.upper = none ∨ x.upper = some x.points :=
    ⟨fun h x hx hn => hn.elim (h.1 x hx) (h.2 x hx), fun h => ⟨fun x hx hn => h x hx (Or.inl hn), fun x hx hn => h x hx (Or.inr hn)⟩⟩
  have htimes : (k ≠ .ancillary → titleOk c) ∧
      (k ≠ .ancillary → (if isBlended c k then presentErrors c blendedTimes else presentErrors c unblendedTimes) = []) ↔
      (k ≠ .ancillary → ∃ title, hasAttr c "title" title ∧ (∃ v, ("source", v) ∈ c.attrs) ∧
        (∃ v, ("institution", v) ∈ c.attrs) ∧
        (blendTitle title → blendOk c ∧ ∀ n ∈ ["time", "blend_time"], ∃ x ∈ c.coords, x.name = n) ∧
        (¬ blendTitle title → singleOk c title ∧
          ∀ n ∈ ["time", "forecast_period", "forecast_reference_time"], ∃ x ∈ c.coords, x.name = n)) := by
    by_cases hk : k = .ancillary
    · simp [hk]
    · simp only [hk, ne_eq, not_false_eq_true, forall_true_left]
      unfold titleOk isBlended hasAttr
      rw [if_neg hk]
      cases c.attr "title" with
      | none => simp
      | some title =>
        simp only [Option.some.injEq, exists_eq_left']
        by_cases hb : isBlendTitle title = true
        · have hb' := (isBlendTitle_iff title).1 hb
          rw [if_pos hb, presentErrors_nil]
          simp only [hb', not_true_eq_false, false_imp_iff, and_true, forall_true_left, and_assoc]
          rfl
        · have hb' : ¬ blendTitle title := fun h => hb ((isBlendTitle_iff title).2 h)
          rw [if_neg hb, presentErrors_nil]
          simp only [hb', not_false_eq_true, false_imp_iff, true_and, forall_true_left, and_assoc]
          rfl
  unfold generalOk
  rw [← htimes, ← hbounds]
  constructor
  · rintro ⟨⟨a, b, g, e⟩, sp, t, b1, b2, st, re⟩
    exact ⟨a, b, g, ⟨e, t⟩, sp, ⟨b1, b2⟩, st, re⟩
  · rintro ⟨a, b, g, ⟨e, t⟩, sp, ⟨b1, b2⟩, st, re⟩
    exact ⟨⟨a, b, g, e⟩, sp, t, b1, b2, st, re⟩

end Improver
