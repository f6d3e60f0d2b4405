import Verif.Model.BlendRun
import Verif.Props.Attributes

/-! Properties of the metadata of blended cubes (C185). -/

namespace Improver

theorem addMandatory_get (d : AttrDict) (k : String) :
    AttrDict.get (addMandatory d) k = (AttrDict.get d k).or (Spec.default k) := by
  have key : ∀ (l : AttrDict) (d : AttrDict), AttrDict.get
      (l.foldl (fun d kv => if (AttrDict.get d kv.1).isNone then AttrDict.set d kv.1 kv.2 else d) d) k =
      (AttrDict.get d k).or (AttrDict.get l k) := by
    intro l
    induction l with
    | nil => intro d; simp [AttrDict.get]
    | cons e l ih =>
      intro d
      rw [List.foldl_cons, ih]
      have hcons : AttrDict.get (e :: l) k = if e.1 = k then some e.2 else AttrDict.get l k := by
        unfold AttrDict.get
        by_cases h : e.1 = k
        · rw [if_pos h, List.find?_cons_of_pos (by simpa using h)]; rfl
        · rw [if_neg h, List.find?_cons_of_neg (by simpa using h)]
      rw [hcons]
      by_cases hn : (AttrDict.get d e.1).isNone = true
      · rw [if_pos hn, set_get]
        rw [Option.isNone_iff_eq_none] at hn
        by_cases h : e.1 = k
        · rw [if_pos h.symm, if_pos h, ← h, hn]; rfl
        · rw [if_neg fun e => h e.symm, if_neg h]
      · rw [if_neg hn]
        by_cases h : e.1 = k
        · rw [h] at hn
          cases hd : AttrDict.get d k with
          | none => rw [hd] at hn; exact absurd rfl hn
          | some v => rfl
        · rw [if_neg h]
  unfold addMandatory
  rw [key, default_get]

theorem removeCoords_spec (toRemove coords : List String) (hr : toRemove.Nodup) (hc : coords.Nodup)
    (hs : ∀ n ∈ toRemove, n ∈ coords) :
    removeCoords toRemove coords = .ok (coords.filter fun n => decide (n ∉ toRemove)) := by
  induction toRemove generalizing coords with
  | nil =>
    unfold removeCoords
    rw [List.filter_eq_self.2 (by simp)]
  | cons r rest ih =>
    unfold removeCoords
    rw [if_pos (hs r (List.mem_cons_self ..))]
    rw [List.nodup_cons] at hr
    rw [ih (coords.erase r) hr.2 (hc.erase r) (by
      intro n hn
      rw [hc.mem_erase_iff]
      exact ⟨fun e => hr.1 (e ▸ hn), hs n (List.mem_cons_of_mem _ hn)⟩)]
    rw [hc.erase_eq_filter, List.filter_filter]
    congr 1
    apply List.filter_congr
    intro n _
    simp only [List.mem_cons, not_or, Bool.decide_and, bne_iff_ne, ne_eq]
    by_cases h1 : n = r <;> by_cases h2 : n ∈ rest <;> simp [h1, h2]

/-- The cube has the coordinates of a cube merged over the blend coordinate: different names, and the blend coordinate lies
along the blend dimension if it is not scalar; cubes merged over models have both model coordinates. -/
structure Spec.merged (blend : String) (scalar : Bool) (coords : List BlendCoord) : Prop where
  names : (coords.map BlendCoord.name).Nodup
  models : blend = "model_id" → ∀ n ∈ ["model_id", "model_configuration"],
    ∃ c ∈ coords, c.name = n ∧ (scalar = false → c.onBlend = true)
  record : scalar = false → ∀ c ∈ coords, c.name = "blend_record" → c.onBlend = true

/-- C185: what is removed after a blend over models or cycles are the model coordinates (blend over models), the record of
runs, and all coordinates along the blend dimension but times; everything else stays. -/
theorem C185_coords (blend : String) (scalar : Bool) (coords : List BlendCoord) (h : Spec.merged blend scalar coords) :
    ∃ rest, removeCoords (coordsToRemove blend scalar coords) (coords.map BlendCoord.name) = .ok rest ∧
      (∀ n, n ∈ rest ↔ ∃ c ∈ coords, c.name = n ∧
        ¬ (n = "blend_record" ∨ blend = "model_id" ∧ (n = "model_id" ∨ n = "model_configuration") ∨
          scalar = false ∧ c.onBlend = true ∧
            n ∉ ["time", "forecast_reference_time", "blend_time", "forecast_period", "UTC_offset"])) := by
  have hinj : ∀ c ∈ coords, ∀ d ∈ coords, c.name = d.name → c = d :=
    fun c hc d hd e => List.inj_on_of_nodup_map h.names hc hd e
  have hmem : ∀ n, n ∈ coordsToRemove blend scalar coords ↔ ∃ c ∈ coords, c.name = n ∧
      (n = "blend_record" ∨ blend = "model_id" ∧ (n = "model_id" ∨ n = "model_configuration") ∨
          scalar = false ∧ c.onBlend = true ∧ n ∉ timeCoordNames) := by
    intro n
    unfold coordsToRemove
    cases scalar with
    | true =>
      rw [if_pos rfl, List.mem_append]
      constructor
      · rintro (hn | hn)
        · by_cases ha : (coords.any fun c => decide (c.name = "blend_record")) = true
          · rw [if_pos ha, List.mem_singleton] at hn
            obtain ⟨c, hc, hcn⟩ := List.any_eq_true.1 ha
            rw [decide_eq_true_eq] at hcn
            exact ⟨c, hc, hcn.trans hn.symm, Or.inl hn⟩
          · rw [if_neg ha] at hn; exact absurd hn List.not_mem_nil
        · by_cases hb : blend = "model_id"
          · rw [if_pos hb] at hn
            obtain ⟨c, hc, hcn, _⟩ := h.models hb n hn
            refine ⟨c, hc, hcn, Or.inr (Or.inl ⟨hb, ?_⟩)⟩
            simpa using hn
          · rw [if_neg hb] at hn; exact absurd hn List.not_mem_nil
      · rintro ⟨c, hc, hcn, hn | ⟨hb, hn⟩ | ⟨hn, _⟩⟩
        · refine Or.inl ?_
          rw [if_pos (List.any_eq_true.2 ⟨c, hc, by rw [decide_eq_true_eq, hcn, hn]⟩)]
          exact List.mem_singleton.2 hn
        · refine Or.inr ?_
          rw [if_pos hb]
          simpa using hn
        · exact nomatch hn
    | false =>
      rw [if_neg (by simp), List.mem_map]
      constructor
      · rintro ⟨c, hc, hcn⟩
        rw [List.mem_filter, Bool.and_eq_true, decide_eq_true_eq] at hc
        exact ⟨c, hc.1, hcn, Or.inr (Or.inr ⟨rfl, hc.2.2, hcn ▸ hc.2.1⟩)⟩
      · rintro ⟨c, hc, hcn, hn⟩
        refine ⟨c, ?_, hcn⟩
        rw [List.mem_filter, Bool.and_eq_true, decide_eq_true_eq]
        refine ⟨hc, ?_⟩
        rw [hcn]
        rcases hn with hn | ⟨hb, hn⟩ | ⟨_, h1, h2⟩
        · exact ⟨by rw [hn]; decide, h.record rfl c hc (hcn.trans hn)⟩
        · obtain ⟨d, hd, hdn, hdb⟩ := h.models hb n (by simpa using hn)
          have : c = d := hinj c hc d hd (hcn.trans hdn.symm)
          refine ⟨?_, this ▸ hdb rfl⟩
          rcases hn with rfl | rfl <;> decide
        · exact ⟨h2, h1⟩
  have hnd : (coordsToRemove blend scalar coords).Nodup := by
    unfold coordsToRemove
    cases scalar with
    | true =>
      rw [if_pos rfl]
      by_cases ha : (coords.any fun c => decide (c.name = "blend_record")) = true <;> by_cases hb : blend = "model_id" <;>
        simp only [ha, hb, if_true, if_false] <;> decide
    | false =>
      rw [if_neg (by simp)]
      exact h.names.sublist (List.Sublist.map _ List.filter_sublist)
  refine ⟨_, removeCoords_spec _ _ hnd h.names ?_, ?_⟩
  · intro n hn
    obtain ⟨c, hc, hcn, _⟩ := (hmem n).1 hn
    exact List.mem_map.2 ⟨c, hc, hcn⟩
  · intro n
    rw [List.mem_filter, decide_eq_true_eq, hmem]
    constructor
    · rintro ⟨hn, hnot⟩
      obtain ⟨c, hc, hcn⟩ := List.mem_map.1 hn
      exact ⟨c, hc, hcn, fun hh => hnot ⟨c, hc, hcn, hh⟩⟩
    · rintro ⟨c, hc, hcn, hnot⟩
      refine ⟨List.mem_map.2 ⟨c, hc, hcn⟩, ?_⟩
      rintro ⟨d, hd, hdn, hh⟩
      have : d = c := hinj d hd c hc (hdn.trans hcn.symm)
      subst this
      exact hnot hh

/-- A merged cube of two models. -/
def exMerged : List BlendCoord :=
  [⟨"model_id", true⟩, ⟨"y", false⟩, ⟨"x", false⟩, ⟨"model_configuration", true⟩, ⟨"time", false⟩, ⟨"forecast_period", true⟩,
    ⟨"blend_record", true⟩, ⟨"height", false⟩]

example : Spec.merged "model_id" false exMerged := by
  constructor
  · decide
  · intro _ n hn
    simp only [List.mem_cons, List.not_mem_nil, or_false] at hn
    rcases hn with rfl | rfl
    · exact ⟨⟨"model_id", true⟩, by simp [exMerged], rfl, fun _ => rfl⟩
    · exact ⟨⟨"model_configuration", true⟩, by simp [exMerged], rfl, fun _ => rfl⟩
  · intro _ c hc hn
    simp only [exMerged, List.mem_cons, List.not_mem_nil, or_false] at hc
    rcases hc with rfl | rfl | rfl | rfl | rfl | rfl | rfl | rfl <;> first | rfl | exact absurd hn (by decide)

example : removeCoords (coordsToRemove "model_id" false exMerged) (exMerged.map BlendCoord.name) =
    .ok ["y", "x", "time", "forecast_period", "height"] := by decide +kernel

/-- C185 finding: blending over a coordinate that is neither a model nor a time removes the coordinate if there are several
inputs and keeps it if there is one. -/
theorem C185_one_input_refuted :
    coordsToRemove "realization" false [⟨"realization", true⟩, ⟨"time", false⟩] = ["realization"] ∧
    coordsToRemove "realization" true [⟨"realization", false⟩, ⟨"time", false⟩] = [] := by decide

/-- C185: a blend over models or cycles has the cycle time as its reference time (one point, no bounds) and as its blend
time, the lead time counts from there, and the validity time and other coordinates stay; a mandatory attribute gets its
default if it is not there, a blend over models has the names of the models that took part in alphabetical order, and other
attributes are those after the changes asked for. -/
theorem C185_metadata (clock : Text → Text) (render : ℕ → Text) (blend : String)
    (hb : blend = "forecast_reference_time" ∨ blend = "model_id") (toRemove : List String) (t : ℤ) (changes : AttrDict)
    (modelAttr : String) (c : BlendMeta) (hbt : c.blendTime = none) (hr : toRemove.Nodup) (hc : c.coords.Nodup)
    (hs : ∀ n ∈ toRemove, n ∈ c.coords) (names : List Text) (hn : names ≠ []) (hbar : ∀ n ∈ names, '|' ∉ n)
    (hm : blend = "model_id" → c.models = some (joinWith '|' names)) :
    ∃ sorted : List Text, sorted.Perm names ∧ sorted.Pairwise (fun a b => a = b ∨ Spec.textBefore a b) ∧
      ∀ a, amendAttributes clock render changes (if blend = "model_id" then
          AttrDict.set c.attributes modelAttr (.text (joinWith ' ' sorted)) else c.attributes) = (.ok (), a) →
      ∃ r, updateBlendedMetadata clock render blend toRemove (some t) changes modelAttr c = .ok r ∧
        r.reference = [t] ∧ r.referenceBounded = false ∧ r.blendTime = some t ∧ r.time = c.time ∧
        r.period = c.period.map (fun _ => c.time.map fun x => x - t) ∧
        r.coords = c.coords.filter (fun n => decide (n ∉ toRemove)) ∧
        ∀ k, AttrDict.get r.attributes k = (AttrDict.get a k).or (Spec.default k) := by
  refine ⟨sortTexts names, List.perm_insertionSort _ _, ?_, ?_⟩
  · exact (List.pairwise_insertionSort (fun a b : Text => textLe a b = true) names).imp fun h => textLe_before.1 h
  · intro a ha
    unfold updateBlendedMetadata
    rw [if_pos hb]
    unfold setBlendedTimes
    dsimp only
    rw [hbt]
    simp only [bind, Except.bind, Option.isSome_none, Bool.false_eq_true, if_false]
    by_cases hbm : blend = "model_id"
    · rw [if_pos hbm] at ha
      rw [if_pos hbm]
      unfold setModelId
      dsimp only
      rw [hm hbm]
      dsimp only
      rw [splitAt_join hn hbar, removeCoords_spec _ _ hr hc hs, ha]
      exact ⟨_, rfl, rfl, rfl, rfl, rfl, rfl, rfl, addMandatory_get a⟩
    · rw [if_neg hbm] at ha
      rw [if_neg hbm]
      rw [removeCoords_spec _ _ hr hc hs, ha]
      exact ⟨_, rfl, rfl, rfl, rfl, rfl, rfl, rfl, addMandatory_get a⟩

/-- Two models, merged and blended. -/
def exBlended : Except Err BlendMeta :=
  updateBlendedMetadata (fun _ => []) (fun _ => []) "model_id" ["model_id", "model_configuration"] (some 3600)
    [("title", .text "Blend".toList)] "mosg__model_configuration"
    ⟨["model_id", "model_configuration", "x"], some "uk_ens|uk_det".toList, [7200], [0, 3600], true, some [0], none, []⟩

example : (exBlended.toOption.map fun r => (r.coords, r.reference, r.period)) = some (["x"], [3600], some [3600]) ∧
    (exBlended.toOption.map fun r => r.attributes) = some [("mosg__model_configuration", .text "uk_det uk_ens".toList),
      ("title", .text "Blend".toList), ("source", .text "IMPROVER".toList), ("institution", .text "unknown".toList)] := by
  decide +kernel

/-- C185: a blend over models or cycles without cycle time is an error. -/
theorem C185_no_cycle (clock : Text → Text) (render : ℕ → Text) (blend : String)
    (hb : blend = "forecast_reference_time" ∨ blend = "model_id") (toRemove : List String) (changes : AttrDict)
    (modelAttr : String) (c : BlendMeta) :
    updateBlendedMetadata clock render blend toRemove none changes modelAttr c = .error .valueError := by
  unfold updateBlendedMetadata
  rw [if_pos hb]
  rfl

/-- C185 finding: cubes that have a blend time (the result of a blend) cannot be blended over cycles, since the blend time
is not removed first (it is for a blend over models). -/
theorem C185_blend_time_refuted (clock : Text → Text) (render : ℕ → Text) (toRemove : List String) (t : ℤ)
    (changes : AttrDict) (modelAttr : String) (c : BlendMeta) (h : c.blendTime ≠ none) :
    updateBlendedMetadata clock render "forecast_reference_time" toRemove (some t) changes modelAttr c = .error .valueError := by
  unfold updateBlendedMetadata
  rw [if_pos (Or.inl rfl)]
  unfold setBlendedTimes
  dsimp only
  rw [if_pos (Option.isSome_iff_ne_none.2 h)]
  rfl

end Improver
