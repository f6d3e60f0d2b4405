import Verif.Model.NightMask
import Verif.Props.VicinityRun
import Verif.Props.CombineRun
import Verif.Props.ThresholdRun

/-! C273: setting values to zero by night. -/

namespace Improver
namespace Spec

/-- A cube as iris makes them: dimensions differ, time is not a spatial dimension, and a scalar time has one point. -/
structure NightReady (c : NightCube) : Prop where
  nodup : c.dims.Nodup
  space : "time" ∉ c.space
  times : (c.points "time").Nodup
  scalar : "time" ∉ c.dims → (c.points "time").length = 1

/-- The spatial dimensions come last, with time (if there are several) just before them. -/
def nightOrder (c : NightCube) (lead : List String) : Prop :=
  c.dims = lead ++ "time" :: c.space ∨ c.dims = lead ++ c.space ∧ (c.points "time").length = 1

/-- The moment of a place: its time, or the middle of its period when there is one time with bounds. -/
def momentOf (c : NightCube) (a : String → ℕ) (t : ℚ) : Prop :=
  (c.bounds = none ∧ (c.points "time")[if "time" ∈ c.dims then a "time" else 0]? = some t) ∨
    ∃ lo hi, c.bounds = some [(lo, hi)] ∧ (c.points "time").length = 1 ∧ t = (lo + hi) / 2

end Spec

theorem fitIndex_trailing (points : String → List ℚ) (lead dims : List String) (a : String → ℕ) (ha : ∀ n ∈ dims, a n < (points n).length) :
    fitIndex (dims.map fun n => (points n).length) ((lead ++ dims).map a) = dims.map a := by
  unfold fitIndex
  have : ((lead ++ dims).map a).drop (((lead ++ dims).map a).length - (dims.map fun n => (points n).length).length) = dims.map a := by
    rw [List.length_map, List.length_append, List.length_map, Nat.add_sub_cancel, List.map_append,
      show lead.length = (lead.map a).length by rw [List.length_map], List.drop_left]
  rw [this, List.zipWith_map]
  clear this
  induction dims with
  | nil => rfl
  | cons x l ih =>
    rw [List.zipWith_cons_cons, List.map_cons, ih (fun n hn => ha n (List.mem_cons_of_mem _ hn))]
    congr 1
    by_cases h1 : (points x).length = 1
    · rw [if_pos h1]
      have := ha x (List.mem_cons_self ..)
      omega
    · rw [if_neg h1]

theorem fitsShape_trailing (len len' : String → ℕ) (lead dims : List String) (h : ∀ n ∈ dims, len' n = len n) :
    fitsShape ((lead ++ dims).map len) (dims.map len') = true := by
  unfold fitsShape
  have : ((lead ++ dims).map len).drop (((lead ++ dims).map len).length - (dims.map len').length) = dims.map len := by
    rw [List.length_map, List.length_append, List.length_map, Nat.add_sub_cancel, List.map_append,
      show lead.length = (lead.map len).length by rw [List.length_map], List.drop_left]
  rw [this]
  simp only [List.length_map, List.length_append, Nat.le_add_left, decide_true, Bool.true_and, List.all_eq_true, decide_eq_true_eq]
  intro p hp
  obtain ⟨i, hi, rfl⟩ := List.mem_iff_getElem.1 hp
  simp only [List.length_zip, List.length_map, min_self] at hi
  simp only [List.getElem_zip, List.getElem_map]
  exact Or.inl (h _ (List.getElem_mem hi))

/-- The mask at a place. -/
theorem dayMask_at (day : ℚ → List ℕ → Bool) (c : NightCube) (h : Spec.NightReady c) (hs : (c.points "time").Pairwise (· ≤ ·)) (lead : List String)
    (ho : Spec.nightOrder c lead) (a : String → ℕ) (ha : Spec.Inside c.toPointCube c.dims a) (t : ℚ) (ht : Spec.momentOf c a t) :
    fitsShape c.toPointCube.shape (dayMask day c).shape = true ∧
      (dayMask day c).data (fitIndex (dayMask day c).shape (c.dims.map a)) = day t (c.space.map a) := by
  have hsort : npSort (c.points "time") = c.points "time" := npSort_of_sorted hs
  by_cases hm : "time" ∈ c.dims ∧ (c.points "time").length ≠ 1
  · have hd : c.dims = lead ++ "time" :: c.space := by
      rcases ho with ho | ho
      · exact ho
      · exact absurd ho.2 hm.2
    have hp : ∀ n, (if n = "time" then npSort (c.points n) else c.points n) = c.points n := by
      intro n
      by_cases hn : n = "time"
      · rw [if_pos hn, hn, hsort]
      · rw [if_neg hn]
    have hshape : (dayMask day c).shape = ("time" :: c.space).map fun n => (c.points n).length := by
      unfold dayMask PointCube.shape
      rw [if_pos hm]
      simp only [hp]
    have hin : ∀ n ∈ "time" :: c.space, a n < (c.points n).length := fun n hn => ha n (by rw [hd]; exact List.mem_append_right _ hn)
    have hfit := fitIndex_trailing c.points lead ("time" :: c.space) a hin
    rw [← hd] at hfit
    constructor
    · rw [hshape]
      unfold PointCube.shape
      rw [hd]
      exact fitsShape_trailing _ _ lead ("time" :: c.space) (fun _ _ => rfl)
    · rw [hshape, hfit]
      unfold dayMask
      rw [if_pos hm]
      simp only [List.map_cons, List.getD_cons_zero, List.drop_one, List.tail_cons]
      congr 1
      have hidx : (argsort (c.points "time")).getD (a "time") 0 = a "time" := by
        apply argsort_index h.times (ha _ hm.1)
        rw [hsort]
      rw [hidx]
      unfold nightTime
      rcases ht with ⟨hb, ht⟩ | ⟨lo, hi, hb, h1, -⟩
      · rw [if_pos hm.1] at ht
        rw [hb]
        simp only
        rw [List.getD_eq_getElem?_getD, ht]
        rfl
      · exact absurd h1 hm.2
  · have h1 : (c.points "time").length = 1 := by
      by_cases hd : "time" ∈ c.dims
      · by_contra hc; exact hm ⟨hd, hc⟩
      · exact h.scalar hd
    obtain ⟨lead', hd⟩ : ∃ lead', c.dims = lead' ++ c.space := by
      rcases ho with ho | ho
      · exact ⟨lead ++ ["time"], by rw [ho, List.append_assoc]; rfl⟩
      · exact ⟨lead, ho.1⟩
    have hshape : (dayMask day c).shape = c.space.map fun n => (c.points n).length := by
      unfold dayMask PointCube.shape
      rw [if_neg hm]
    have hin : ∀ n ∈ c.space, a n < (c.points n).length := fun n hn => ha n (by rw [hd]; exact List.mem_append_right _ hn)
    have hfit := fitIndex_trailing c.points lead' c.space a hin
    rw [← hd] at hfit
    constructor
    · rw [hshape]
      unfold PointCube.shape
      rw [hd]
      exact fitsShape_trailing _ _ lead' c.space (fun _ _ => rfl)
    · rw [hshape, hfit]
      unfold dayMask
      rw [if_neg hm]
      simp only
      congr 1
      unfold nightTime
      rcases ht with ⟨hb, ht⟩ | ⟨lo, hi, hb, -, rfl⟩
      · rw [hb]
        simp only
        have h0 : (if "time" ∈ c.dims then a "time" else 0) = 0 := by
          by_cases hd : "time" ∈ c.dims
          · rw [if_pos hd]
            have := ha _ hd
            rw [h1] at this
            omega
          · rw [if_neg hd]
        rw [h0] at ht
        rw [List.getD_eq_getElem?_getD, ht]
        rfl
      · rw [hb]
        simp only [List.getD_cons_zero]
        ring

/-- **C273 (values).** With the spatial dimensions last (time, if there are several, just before them, ascending), every value stays where it is day at its own
time and place and is 0 where it is night; coordinates are kept. -/
theorem C273_values_partial (day : ℚ → List ℕ → Bool) (c : NightCube) (h : Spec.NightReady c) (hs : (c.points "time").Pairwise (· ≤ ·)) (lead : List String)
    (ho : Spec.nightOrder c lead) (hp : c.isProb = true → "above_threshold".toList <:+: c.name) (out : PointCube MVal)
    (hout : applyNightMask day c = .ok out) :
    out.dims = c.dims ∧ out.points = c.points ∧ ∀ (a : String → ℕ) (t : ℚ), Spec.Inside c.toPointCube c.dims a → Spec.momentOf c a t →
      (Spec.placeValue out.toDimCube a).val = if day t (c.space.map a) = true then (Spec.placeValue c.toDimCube a).val else 0 := by
  unfold applyNightMask at hout
  rw [if_neg (by
    rintro ⟨h1, h2⟩
    have := (hasPart_iff _ _).2 (hp h1)
    rw [h2] at this
    exact nomatch this)] at hout
  unfold maskNight at hout
  by_cases hf : fitsShape c.toPointCube.shape (dayMask day c).shape = true
  · rw [if_pos hf] at hout
    have he := (Except.ok.inj hout).symm
    subst he
    refine ⟨rfl, rfl, ?_⟩
    intro a t ha ht
    have := (dayMask_at day c h hs lead ho a ha t ht).2
    show (if (dayMask day c).data (fitIndex (dayMask day c).shape (c.dims.map a)) = true then _ else _) = _
    rw [this]
    rfl
  · rw [if_neg hf] at hout; exact nomatch hout

/-- **C273 (accepted).** Such a cube is accepted, unless it holds probabilities of not being above a threshold; those are always refused. -/
theorem C273_accepted (day : ℚ → List ℕ → Bool) (c : NightCube) :
    (c.isProb = true ∧ ¬ "above_threshold".toList <:+: c.name → applyNightMask day c = .error .valueError) ∧
    ((c.isProb = true → "above_threshold".toList <:+: c.name) → Spec.NightReady c → (c.points "time").Pairwise (· ≤ ·) → ∀ lead, Spec.nightOrder c lead →
      ∀ (a : String → ℕ) (t : ℚ), Spec.Inside c.toPointCube c.dims a → Spec.momentOf c a t → ∃ out, applyNightMask day c = .ok out) := by
  constructor
  · rintro ⟨h1, h2⟩
    unfold applyNightMask
    rw [if_pos ⟨h1, by
      cases hh : hasPart "above_threshold".toList c.name with
      | false => rfl
      | true => exact absurd ((hasPart_iff _ _).1 hh) h2⟩]
  · intro hp h hs lead ho a t ha ht
    unfold applyNightMask
    rw [if_neg (by
      rintro ⟨h1, h2⟩
      have := (hasPart_iff _ _).2 (hp h1)
      rw [h2] at this
      exact nomatch this)]
    unfold maskNight
    rw [if_pos (dayMask_at day c h hs lead ho a ha t ht).1]
    exact ⟨_, rfl⟩

/-- **C273, finding (order of dimensions).** The mask is fitted by position: for a cube of time, realization, y, x with as many members as times, the time of
the mask is taken from the number of the member: at the first time (night) the second member keeps its value because the second time is day. -/
theorem C273_order_refuted : ∃ (c : NightCube) (day : ℚ → List ℕ → Bool) (out : PointCube MVal), Spec.NightReady c ∧
    c.dims = ["time", "realization", "y", "x"] ∧ c.space = ["y", "x"] ∧ c.bounds = none ∧ c.points "time" = [0, 1] ∧ (∀ idx, c.data idx = ⟨5, false⟩) ∧
    (∀ t s, day t s = decide (t = 1)) ∧ applyNightMask day c = .ok out ∧ out.data [0, 1, 0, 0] = ⟨5, false⟩ ∧ out.data [1, 0, 0, 0] = ⟨0, false⟩ := by
  let c : NightCube := ⟨⟨⟨["time", "realization", "y", "x"], fun _ => ⟨5, false⟩⟩, fun n => if n = "time" ∨ n = "realization" then [0, 1] else [0]⟩,
    "cloud".toList, false, ["y", "x"], none⟩
  have hrun : ((applyNightMask (fun t _ => decide (t = 1)) c).toOption.map fun o => (o.data [0, 1, 0, 0], o.data [1, 0, 0, 0])) =
      some (⟨5, false⟩, ⟨0, false⟩) := by decide +kernel
  obtain ⟨out, h1, h2⟩ := result_of_map hrun
  simp only [Prod.mk.injEq] at h2
  exact ⟨c, _, out, ⟨by decide +kernel, by decide +kernel, by decide +kernel, fun hn => absurd (by decide +kernel) hn⟩, rfl, rfl, rfl, by decide +kernel,
    fun _ => rfl, fun _ _ => rfl, h1, h2.1, h2.2⟩

/-- **C273, finding (masked data).** The mask of the data is dropped: a masked value comes out by day as the number underneath, unmasked. -/
theorem C273_masked_refuted : ∃ (c : NightCube) (day : ℚ → List ℕ → Bool) (out : PointCube MVal), Spec.NightReady c ∧ Spec.nightOrder c [] ∧
    c.data [0, 0] = ⟨9999, true⟩ ∧ applyNightMask day c = .ok out ∧ out.data [0, 0] = ⟨9999, false⟩ := by
  let c : NightCube := ⟨⟨⟨["y", "x"], fun _ => ⟨9999, true⟩⟩, fun _ => [0]⟩, "cloud".toList, false, ["y", "x"], none⟩
  have hrun : ((applyNightMask (fun _ _ => true) c).toOption.map fun o => o.data [0, 0]) = some ⟨9999, false⟩ := by decide +kernel
  obtain ⟨out, h1, h2⟩ := result_of_map hrun
  exact ⟨c, _, out, ⟨by decide +kernel, by decide +kernel, by decide +kernel, fun _ => by decide +kernel⟩, Or.inr ⟨rfl, by decide +kernel⟩, rfl, h1, h2⟩

/-- **C273, finding (periods).** With bounds, every time is masked by the middle of the first period. -/
theorem C273_periods_refuted : ∃ (c : NightCube) (day : ℚ → List ℕ → Bool) (out : PointCube MVal), Spec.NightReady c ∧ Spec.nightOrder c [] ∧
    c.dims = ["time", "y", "x"] ∧ c.points "time" = [10, 20] ∧ c.bounds = some [(0, 10), (10, 20)] ∧ (∀ t s, day t s = decide (10 ≤ t)) ∧
    (∀ idx, c.data idx = ⟨5, false⟩) ∧ applyNightMask day c = .ok out ∧ out.data [1, 0, 0] = ⟨0, false⟩ := by
  let c : NightCube := ⟨⟨⟨["time", "y", "x"], fun _ => ⟨5, false⟩⟩, fun n => if n = "time" then [10, 20] else [0]⟩, "cloud".toList, false, ["y", "x"],
    some [(0, 10), (10, 20)]⟩
  have hrun : ((applyNightMask (fun t _ => decide (10 ≤ t)) c).toOption.map fun o => o.data [1, 0, 0]) = some ⟨0, false⟩ := by decide +kernel
  obtain ⟨out, h1, h2⟩ := result_of_map hrun
  exact ⟨c, _, out, ⟨by decide +kernel, by decide +kernel, by decide +kernel, fun hn => absurd (by decide +kernel) hn⟩, Or.inl rfl, rfl, by decide +kernel,
    rfl, fun _ _ => rfl, fun _ => rfl, h1, h2⟩

namespace Spec

/-- Two members, two times, one row of two points: day at the second time, and always at the second point. -/
def nightExample : NightCube := ⟨⟨⟨["realization", "time", "y", "x"], fun idx => ⟨1 + 10 * idx.getD 0 0 + 2 * idx.getD 3 0, false⟩⟩,
  fun n => if n = "y" then [0] else [0, 1]⟩, "probability_of_cloud_above_threshold".toList, true, ["y", "x"], none⟩

end Spec

example : Spec.NightReady Spec.nightExample ∧ Spec.nightOrder Spec.nightExample ["realization"] ∧
    Spec.momentOf Spec.nightExample (fun _ => 0) 0 ∧ ∃ out, applyNightMask (fun t s => decide (t = 1 ∨ s = [0, 1])) Spec.nightExample = .ok out ∧
      out.data [1, 0, 0, 0] = ⟨0, false⟩ ∧ out.data [1, 1, 0, 0] = ⟨11, false⟩ ∧ out.data [1, 0, 0, 1] = ⟨13, false⟩ := by
  refine ⟨⟨by decide +kernel, by decide +kernel, by decide +kernel, fun hn => absurd (by decide +kernel) hn⟩, Or.inl rfl, Or.inl ⟨rfl, by decide +kernel⟩, ?_⟩
  have hrun : ((applyNightMask (fun t s => decide (t = 1 ∨ s = [0, 1])) Spec.nightExample).toOption.map fun o =>
      (o.data [1, 0, 0, 0], o.data [1, 1, 0, 0], o.data [1, 0, 0, 1])) = some (⟨0, false⟩, ⟨11, false⟩, ⟨13, false⟩) := by decide +kernel
  obtain ⟨out, h1, h2⟩ := result_of_map hrun
  simp only [Prod.mk.injEq] at h2
  exact ⟨out, h1, h2.1, h2.2.1, h2.2.2⟩

end Improver
