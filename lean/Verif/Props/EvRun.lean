import Verif.Model.EvRun
import Verif.Props.ExpectedValue
import Verif.Props.ECC
import Verif.Props.WholeBlend
import Verif.Props.LevelRun
import Verif.Props.Integration
import Verif.Props.Checker
import Verif.Props.ThresholdRun
import Verif.Props.ReliabilityRun

/-! C267: `ExpectedValue` on cubes with named dimensions. -/

namespace Improver

open Spec

namespace Spec

/-- The area under straight lines between points of a distribution: each step of probability at the middle of its interval. -/
def midpointSum : List (ℚ × ℚ) → ℚ
  | (t, p) :: (t', p') :: rest => (p' - p) * ((t + t') / 2) + midpointSum ((t', p') :: rest)
  | _ => 0

/-- Probabilities of being below, from those given. -/
def asBelow (above : Bool) (p : ℚ) : ℚ := if above then 1 - p else p

/-- The distribution at one place: probability 0 just below the first threshold, the probabilities at the thresholds, 1 just above the last. -/
def distribution (eps : ℚ) (above : Bool) (ts ps : List ℚ) : List (ℚ × ℚ) :=
  (ts.headD 0 - margin eps (ts.headD 0), 0) :: (ts.zip (ps.map (asBelow above)) ++ [(ts.getLastD 0 + margin eps (ts.getLastD 0), 1)])

/-- The values along `d` at a place. -/
def valuesAlong (c : EvCube) (d : String) (a : String → ℕ) : List ℚ := (List.range (c.points d).length).map fun k => placeValue c.toDimCube (along a d k)

/-- Probabilities that rise from 0 or more to 1 or less. -/
def Cumulative (ps : List ℚ) : Prop := ps.Pairwise (· ≤ ·) ∧ ∀ p ∈ ps, 0 ≤ p ∧ p ≤ 1

end Spec

theorem midpoint_zip : ∀ (ts ps : List ℚ), ts.length = ps.length → (List.zipWith (· * ·) (npDiff ps) (midpoints ts)).sum = Spec.midpointSum (ts.zip ps)
  | [], [], _ => rfl
  | [t], [p], _ => by simp [npDiff, Spec.midpointSum]
  | t :: t' :: ts, p :: p' :: ps, h => by
    rw [npDiff_cons_cons, midpoints_cons_cons, List.zipWith_cons_cons, List.sum_cons, midpoint_zip (t' :: ts) (p' :: ps) (by simpa using h)]
    show _ = (p' - p) * ((t + t') / 2) + Spec.midpointSum ((t', p') :: ts.zip ps)
    rw [List.zip_cons_cons]
    ring
  | [], _ :: _, h => by simp at h
  | [_], [], h => by simp at h
  | [_], _ :: _ :: _, h => by simp at h
  | _ :: _ :: _, [], h => by simp at h
  | _ :: _ :: _, [_], h => by simp at h

theorem along_place {c : EvCube} (hn : c.dims.Nodup) {d : String} (hd : d ∈ c.dims) (a : String → ℕ) :
    c.along d ((c.dims.erase d).map a) = Spec.valuesAlong c d a := by
  unfold EvCube.along Spec.valuesAlong Spec.placeValue
  apply List.map_congr_left
  intro k _
  rw [insertIdx_named hn hd]

/-- One place. -/
theorem integrate_place (eps : ℚ) (above : Bool) (ts ps : List ℚ) (hne : ts ≠ []) (hts : ts.Pairwise (· < ·)) (hl : ps.length = ts.length)
    (hps : Spec.Cumulative (ps.map (Spec.asBelow above))) :
    integrateOverThresholds eps above ts ps = .ok (Spec.midpointSum (Spec.distribution eps above ts ps)) := by
  cases hr : integrateOverThresholds eps above ts ps with
  | error e =>
    exfalso
    unfold integrateOverThresholds at hr
    simp only at hr
    have hb : (if above = true then ps.map (fun p => 1 - p) else ps) = ps.map (Spec.asBelow above) := by
      cases above
      · exact (List.map_id'' (fun _ => rfl) ps).symm
      · rfl
    rw [hb] at hr
    have h1 : ¬ ((npDiff ts).any fun d => decide (d ≤ 0)) = true := by
      rw [List.any_eq_true]
      rintro ⟨d, hd, hd'⟩
      have := List.all_eq_true.1 ((npDiff_pos_iff ts).2 hts) d hd
      exact absurd (decide_eq_true_iff.1 hd') (not_le.2 (decide_eq_true_iff.1 this))
    rw [if_neg h1] at hr
    have h2 : ∃ t, expandThresholds eps ts = .ok t := by
      unfold expandThresholds
      cases ts with
      | nil => exact absurd rfl hne
      | cons x l => rw [List.getLast?_eq_some_getLast (by simp)]; exact ⟨_, rfl⟩
    obtain ⟨t, ht⟩ := h2
    rw [ht] at hr
    have h3 : ¬ ((npDiff (0 :: (ps.map (Spec.asBelow above) ++ [1]))).any fun d => decide (d < 0)) = true := by
      rw [List.any_eq_true]
      rintro ⟨d, hd, hd'⟩
      have hp : (0 :: (ps.map (Spec.asBelow above) ++ [1])).Pairwise (· ≤ ·) := by
        rw [List.pairwise_cons, List.pairwise_append]
        refine ⟨fun b hb => ?_, hps.1, List.pairwise_singleton _ _, fun u hu v hv => ?_⟩
        · rcases List.mem_append.1 hb with hb | hb
          · exact (hps.2 b hb).1
          · rw [List.mem_singleton.1 hb]; norm_num
        · rw [List.mem_singleton.1 hv]; exact (hps.2 u hu).2
      have := npDiff_nonneg hp d hd
      exact absurd (decide_eq_true_iff.1 hd') (not_lt.2 this)
    simp only [bind, Except.bind] at hr
    rw [if_neg h3] at hr
    exact nomatch hr
  | ok v =>
    obtain ⟨_, _, _, hv⟩ := integrate_ok hr
    rw [hv]
    have hb : Spec.below above ps = ps.map (Spec.asBelow above) := rfl
    rw [hb, midpoint_zip _ _ (by simp [hl])]
    unfold Spec.distribution
    congr 1
    rw [List.zip_cons_cons, List.zip_append (by simp [hl])]
    have e1 : ts.headD 0 = ts.head hne := by cases ts with | nil => exact absurd rfl hne | cons x l => rfl
    have e2 : ts.getLastD 0 = ts.getLast hne := by
      rw [List.getLastD_eq_getLast?, List.getLast?_eq_some_getLast hne]; rfl
    rw [e1, e2]
    rfl

/-- Indices inside the array are those of a place. -/
theorem place_of_index {l : List String} (hn : l.Nodup) {len : String → ℕ} {idx : List ℕ} (h : Spec.inArray idx (l.map len)) :
    ∃ a : String → ℕ, idx = l.map a ∧ ∀ e ∈ l, a e < len e := by
  unfold Spec.inArray at h
  induction l generalizing idx with
  | nil => cases h; exact ⟨fun _ => 0, rfl, by simp⟩
  | cons x l ih =>
    rw [List.map_cons] at h
    cases h with
    | @cons i _ r _ hi hr =>
      obtain ⟨hx, hl⟩ := List.nodup_cons.1 hn
      obtain ⟨a, ha, hlt⟩ := ih hl hr
      refine ⟨Spec.along a x i, ?_, ?_⟩
      · rw [List.map_cons, ha]
        congr 1
        · exact (if_pos rfl).symm
        · apply List.map_congr_left
          intro e he
          exact (if_neg (fun h : e = x => hx (h ▸ he))).symm
      · intro e he
        unfold Spec.along
        by_cases hex : e = x
        · rw [if_pos hex, hex]; exact hi
        · rw [if_neg hex]
          exact hlt e ((List.mem_cons.1 he).resolve_left hex)

theorem index_of_place {l : List String} {len : String → ℕ} {a : String → ℕ} (h : ∀ e ∈ l, a e < len e) : Spec.inArray (l.map a) (l.map len) := by
  unfold Spec.inArray
  rw [List.forall₂_map_left_iff, List.forall₂_map_right_iff, List.forall₂_same]
  exact h

/-- **C267 (probabilities).** Thresholds ascending and probabilities of being below that rise with them, at every place: the expected value at each place is the sum of the steps of probability,
each at the middle of its interval, from 0 just below the first threshold to 1 just above the last; the threshold dimension goes. -/
theorem C267_probability (eps : ℚ) (c : EvCube) (t : String) (above : Bool) (hk : c.kind = .probability t above) (hn : c.dims.Nodup) (ht : t ∈ c.dims)
    (hne : c.points t ≠ []) (hts : (c.points t).Pairwise (· < ·))
    (hps : ∀ a, Spec.Inside c.toPointCube (c.dims.erase t) a → Spec.Cumulative ((Spec.valuesAlong c t a).map (Spec.asBelow above))) :
    ∃ o, expectedValue eps c = .ok o ∧ o.dims = c.dims.erase t ∧ o.points = c.points ∧
      ∀ a, Spec.Inside c.toPointCube (c.dims.erase t) a →
        Spec.placeValue o.toDimCube a = Spec.midpointSum (Spec.distribution eps above (c.points t) (Spec.valuesAlong c t a)) := by
  have hval : ∀ a, Spec.Inside c.toPointCube (c.dims.erase t) a →
      integrateOverThresholds eps above (c.points t) (c.along t ((c.dims.erase t).map a)) =
        .ok (Spec.midpointSum (Spec.distribution eps above (c.points t) (Spec.valuesAlong c t a))) := by
    intro a ha
    rw [along_place hn ht]
    exact integrate_place eps above _ _ hne hts (by simp [Spec.valuesAlong]) (hps a ha)
  obtain ⟨l, hl⟩ := mapM_total (fun idx => integrateOverThresholds eps above (c.points t) (c.along t idx))
    (arrayIndices ((c.dims.erase t).map fun n => (c.points n).length)) (by
      intro idx hidx
      obtain ⟨a, rfl, ha⟩ := place_of_index (hn.erase t) ((mem_arrayIndices _ _).1 hidx)
      exact ⟨_, hval a ha⟩)
  refine ⟨⟨⟨c.dims.erase t, fun idx => (integrateOverThresholds eps above (c.points t) (c.along t idx)).toOption.getD 0⟩, c.points⟩, ?_, rfl, rfl, ?_⟩
  · unfold expectedValue EvCube.integrate
    rw [hk]
    simp only [bind, Except.bind, pure, Except.pure]
    rw [if_neg (not_not.2 ht), hl]
  · intro a ha
    show (integrateOverThresholds eps above (c.points t) (c.along t ((c.dims.erase t).map a))).toOption.getD 0 = _
    rw [hval a ha]
    rfl

/-- **C267 (refusals).** Whatever is returned for probabilities: the thresholds ascend and are a dimension, and at every place the probabilities of being below rise and lie between 0 and 1. -/
theorem C267_probability_only (eps : ℚ) (c : EvCube) (t : String) (above : Bool) (hk : c.kind = .probability t above) (hn : c.dims.Nodup)
    (hin : ∃ a, Spec.Inside c.toPointCube (c.dims.erase t) a) {o : PointCube ℚ} (ho : expectedValue eps c = .ok o) :
    t ∈ c.dims ∧ (c.points t).Pairwise (· < ·) ∧
      ∀ a, Spec.Inside c.toPointCube (c.dims.erase t) a → Spec.Cumulative ((Spec.valuesAlong c t a).map (Spec.asBelow above)) := by
  unfold expectedValue EvCube.integrate at ho
  rw [hk] at ho
  simp only [bind, Except.bind, pure, Except.pure] at ho
  by_cases ht : t ∈ c.dims
  · rw [if_neg (not_not.2 ht)] at ho
    cases hl : (arrayIndices ((c.dims.erase t).map fun n => (c.points n).length)).mapM
        (fun idx => integrateOverThresholds eps above (c.points t) (c.along t idx)) with
    | error e => rw [hl] at ho; exact nomatch ho
    | ok l =>
      have hall : ∀ a, Spec.Inside c.toPointCube (c.dims.erase t) a → ∃ v, integrateOverThresholds eps above (c.points t) (Spec.valuesAlong c t a) = .ok v := by
        intro a ha
        have hm : (c.dims.erase t).map a ∈ arrayIndices ((c.dims.erase t).map fun n => (c.points n).length) :=
          (mem_arrayIndices _ _).2 (index_of_place (len := fun n => (c.points n).length) ha)
        obtain ⟨v, hv⟩ := mapM_each hl _ hm
        rw [along_place hn ht] at hv
        exact ⟨v, hv⟩
      obtain ⟨a0, ha0⟩ := hin
      obtain ⟨v0, hv0⟩ := hall a0 ha0
      refine ⟨ht, (integrate_ok hv0).2.1, fun a ha => ?_⟩
      obtain ⟨v, hv⟩ := hall a ha
      obtain ⟨_, _, hd, _⟩ := integrate_ok hv
      have hb : Spec.below above (Spec.valuesAlong c t a) = (Spec.valuesAlong c t a).map (Spec.asBelow above) := rfl
      rw [hb] at hd
      have hp := npDiff_all_nonneg.1 (List.all_eq_true.2 fun d h => decide_eq_true (hd d h))
      rw [List.pairwise_cons, List.pairwise_append] at hp
      exact ⟨hp.2.1, fun p hpm => ⟨hp.1 p (List.mem_append_left _ hpm), hp.2.2.2 p hpm 1 (by simp)⟩⟩
  · rw [if_pos ht] at ho; exact nomatch ho

theorem meanOver_ok {c : EvCube} (hn : c.dims.Nodup) {d : String} (hd : d ∈ c.dims) :
    ∃ o, c.meanOver d = .ok o ∧ o.dims = c.dims.erase d ∧ o.points = c.points ∧
      ∀ a, Spec.placeValue o.toDimCube a = (Spec.valuesAlong c d a).sum / ((c.points d).length : ℕ) := by
  refine ⟨⟨⟨c.dims.erase d, fun idx => (c.along d idx).sum / ((c.points d).length : ℕ)⟩, c.points⟩, if_pos hd, rfl, rfl, fun a => ?_⟩
  show (c.along d ((c.dims.erase d).map a)).sum / _ = _
  rw [along_place hn hd]

/-- **C267 (realizations).** A cube that is neither probabilities nor percentiles: the mean over the realization dimension; with a single, scalar, realization the data as they are; with none an error. -/
theorem C267_realizations (eps : ℚ) (c : EvCube) (hk : c.kind = .plain) (hn : c.dims.Nodup) :
    ("realization" ∈ c.dims → ∃ o, expectedValue eps c = .ok o ∧ o.dims = c.dims.erase "realization" ∧ o.points = c.points ∧
      ∀ a, Spec.placeValue o.toDimCube a = (Spec.valuesAlong c "realization" a).sum / ((c.points "realization").length : ℕ)) ∧
    ("realization" ∉ c.dims → "realization" ∈ c.scalars → expectedValue eps c = .ok c.toPointCube) ∧
    ("realization" ∉ c.dims → "realization" ∉ c.scalars → expectedValue eps c = .error .coordinateNotFound) := by
  have he : expectedValue eps c = c.meanOver "realization" := by unfold expectedValue; rw [hk]
  rw [he]
  exact ⟨fun h => meanOver_ok hn h, fun h h' => (if_neg h).trans (if_pos h'), fun h h' => (if_neg h).trans (if_neg h')⟩

/-- **C267 (percentiles).** Percentiles that divide 0 to 100 into equal parts, in a cube without realizations: the mean over the percentile dimension. -/
theorem C267_percentile (eps : ℚ) (c : EvCube) (p : String) (hk : c.kind = .percentile p) (hn : c.dims.Nodup) (hp : p ∈ c.dims) (n : ℕ)
    (hpts : c.points p = (List.range n).map fun k : ℕ => 100 * ((k : ℚ) + 1) / ((n : ℚ) + 1))
    (hr : "realization" ∉ c.dims) (hr' : "realization" ∉ c.scalars) :
    ∃ o, expectedValue eps c = .ok o ∧ o.dims = c.dims.erase p ∧ o.points = c.points ∧
      ∀ a, Spec.placeValue o.toDimCube a = (Spec.valuesAlong c p a).sum / (n : ℕ) := by
  obtain ⟨o, ho, h1, h2, h3⟩ := meanOver_ok hn hp
  refine ⟨o, ?_, h1, h2, fun a => ?_⟩
  · unfold expectedValue
    rw [hk]
    have hf : decide ("realization" ∈ c.dims ∨ "realization" ∈ c.scalars) = false := decide_eq_false (fun h => h.elim hr hr')
    have hc : c.points p = chooseSetOfPercentiles n := by rw [hpts, C12_percentiles_equally_partition]
    simp only
    rw [hf, hc, C12_rebadge_accepts n [] none (by simp)]
    exact ho
  · rw [h3, hpts, List.length_map, List.length_range]

/-- **C267 (refusals, percentiles).** With a realization coordinate beside the percentiles nothing is returned; and whatever is returned for ascending percentiles between 0 and 100: any two of
the gaps that the percentiles leave between 0 and 100 are alike, to within the closeness of numpy's isclose. -/
theorem C267_percentile_only (eps : ℚ) (c : EvCube) (p : String) (hk : c.kind = .percentile p) {o : PointCube ℚ} (ho : expectedValue eps c = .ok o) :
    "realization" ∉ c.dims ∧ "realization" ∉ c.scalars ∧
      ((c.points p).Pairwise (· < ·) → (∀ x ∈ c.points p, 0 < x ∧ x < 100) →
        ∀ u v w z, [u, v] <:+: 0 :: (c.points p ++ [100]) → [w, z] <:+: 0 :: (c.points p ++ [100]) →
          |(v - u) - (z - w)| ≤ 1/100000000 + 1/100000 * (v - u)) := by
  unfold expectedValue at ho
  rw [hk] at ho
  simp only [bind, Except.bind] at ho
  cases hr : (rebadgePercentiles (α := Unit) ⟨c.points p, [], decide ("realization" ∈ c.dims ∨ "realization" ∈ c.scalars)⟩ none).1 with
  | error e => rw [hr] at ho; exact nomatch ho
  | ok q =>
    by_cases hd : "realization" ∈ c.dims ∨ "realization" ∈ c.scalars
    · exfalso
      rw [decide_eq_true hd] at hr
      unfold rebadgePercentiles at hr
      simp only at hr
      generalize npMax (npDiff (npSort (npUnique (c.points p ++ [0, 100])))) = x1 at hr
      generalize npMin (npDiff (npSort (npUnique (c.points p ++ [0, 100])))) = x2 at hr
      cases x1 with
      | error e => exact nomatch hr
      | ok mx =>
        cases x2 with
        | error e => exact nomatch hr
        | ok mn =>
          simp only at hr
          split_ifs at hr <;> first | exact nomatch hr | (rename_i hx; exact absurd rfl hx)
    · rw [decide_eq_false hd] at hr
      exact ⟨fun h => hd (.inl h), fun h => hd (.inr h), fun h1 h2 u v w z h3 h4 => C12_rebadge_rejects_uneven _ _ _ _ h1 h2 hr u v w z h3 h4⟩

/-- Probabilities of exceeding 0, 1 and 3 at two places. -/
def sampleEv : EvCube :=
  ⟨⟨⟨["height", "x"], fun idx => ([[1, 1/2, 0], [3/4, 3/4, 1/4]].getD (idx.getD 1 0) []).getD (idx.getD 0 0) 0⟩, fun n => if n = "height" then [0, 1, 3] else [0, 1]⟩,
    .probability "height" true, []⟩

/-- Beside C267_probability: the sample meets the hypotheses, and (with the margin 0) its expected values are 5/4 and 7/4. -/
example : (∀ a, Spec.Inside sampleEv.toPointCube (sampleEv.dims.erase "height") a → Spec.Cumulative ((Spec.valuesAlong sampleEv "height" a).map (Spec.asBelow true))) ∧
    (expectedValue 0 sampleEv).toOption.map (fun o => (o.dims, o.data [0], o.data [1])) = some (["x"], 5/4, 7/4) := by
  refine ⟨?_, by decide +kernel⟩
  intro a ha
  have hx : a "x" < 2 := ha "x" (by decide)
  have hv : Spec.valuesAlong sampleEv "height" a = [1, 1/2, 0] ∨ Spec.valuesAlong sampleEv "height" a = [3/4, 3/4, 1/4] := by
    have h : ∀ k, Spec.placeValue sampleEv.toDimCube (Spec.along a "height" k) = ([[1, 1/2, 0], [3/4, 3/4, 1/4]].getD (a "x") [] : List ℚ).getD k 0 := fun k => rfl
    unfold Spec.valuesAlong
    simp only [h]
    have hj : a "x" = 0 ∨ a "x" = 1 := by omega
    rcases hj with hj | hj <;> rw [hj]
    · left; decide +kernel
    · right; decide +kernel
  rcases hv with h | h <;> rw [h] <;> refine ⟨by decide +kernel, by decide +kernel⟩

/-- Beside C267_percentile and C267_realizations: quartiles give their mean, and so do three members. -/
example : (expectedValue 0 ⟨⟨⟨["percentile"], fun idx => [2, 5, 11].getD (idx.getD 0 0) 0⟩, fun _ => [25, 50, 75]⟩, .percentile "percentile", []⟩).toOption.map (fun o => (o.dims, o.data [])) = some ([], 6) ∧
    (expectedValue 0 ⟨⟨⟨["percentile"], fun idx => [2, 5, 11].getD (idx.getD 0 0) 0⟩, fun _ => [10, 50, 90]⟩, .percentile "percentile", []⟩).toOption.map (fun o => (o.dims, o.data [])) = none ∧
    (expectedValue 0 ⟨⟨⟨["percentile"], fun idx => [2, 5, 11].getD (idx.getD 0 0) 0⟩, fun _ => [25, 50, 75]⟩, .percentile "percentile", ["realization"]⟩).toOption.map (fun o => (o.dims, o.data [])) = none ∧
    (expectedValue 0 ⟨⟨⟨["realization", "x"], fun idx => [2, 5, 11].getD (idx.getD 0 0) 0 + idx.getD 1 0⟩, fun _ => [0, 1, 2]⟩, .plain, []⟩).toOption.map (fun o => (o.dims, o.data [1])) = some (["x"], 7) := by
  decide +kernel

end Improver
