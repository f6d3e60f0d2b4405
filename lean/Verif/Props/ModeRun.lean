import Verif.Model.ModeRun
import Mathlib.Data.List.Dedup
import Mathlib.Data.List.Perm.Basic
import Mathlib.Data.List.Perm.Lattice

/-! C285: times, forecast period and models of the most common weather code of a period. -/

namespace Improver
namespace Spec

/-- `v` is the greatest of the values of `f` on `l`. -/
def latest (l : List ModeInput) (f : ModeInput → ℤ) (v : ℤ) : Prop := (∃ c ∈ l, f c = v) ∧ ∀ c ∈ l, f c ≤ v

/-- `v` is the least of the values of `f` on `l`. -/
def earliest (l : List ModeInput) (f : ModeInput → ℤ) (v : ℤ) : Prop := (∃ c ∈ l, f c = v) ∧ ∀ c ∈ l, v ≤ f c

/-- All inputs are for periods of `p` seconds, no two for the same time. -/
def periodsOf (l : List ModeInput) (p : ℤ) : Prop := l ≠ [] ∧ (l.map ModeInput.point).Nodup ∧ ∀ c ∈ l, c.stop - c.start = p

end Spec

open Spec

theorem mode_min_le (l : List ℤ) (a : ℤ) : l.foldl min a ≤ a ∧ (∀ b ∈ l, l.foldl min a ≤ b) ∧ (l.foldl min a = a ∨ l.foldl min a ∈ l) := by
  induction l generalizing a with
  | nil => simp
  | cons x l ih =>
    obtain ⟨h1, h2, h3⟩ := ih (min a x)
    rw [List.foldl_cons]
    refine ⟨h1.trans (min_le_left _ _), fun b hb => ?_, ?_⟩
    · rcases List.mem_cons.1 hb with rfl | hb
      · exact h1.trans (min_le_right _ _)
      · exact h2 b hb
    · rcases h3 with h3 | h3
      · rcases min_choice a x with h | h
        · exact Or.inl (h3.trans h)
        · exact Or.inr (by rw [h3, h]; simp)
      · exact Or.inr (List.mem_cons_of_mem _ h3)

theorem mode_max_ge (l : List ℤ) (a : ℤ) : a ≤ l.foldl max a ∧ (∀ b ∈ l, b ≤ l.foldl max a) ∧ (l.foldl max a = a ∨ l.foldl max a ∈ l) := by
  induction l generalizing a with
  | nil => simp
  | cons x l ih =>
    obtain ⟨h1, h2, h3⟩ := ih (max a x)
    rw [List.foldl_cons]
    refine ⟨(le_max_left _ _).trans h1, fun b hb => ?_, ?_⟩
    · rcases List.mem_cons.1 hb with rfl | hb
      · exact (le_max_right _ _).trans h1
      · exact h2 b hb
    · rcases h3 with h3 | h3
      · rcases max_choice a x with h | h
        · exact Or.inl (h3.trans h)
        · exact Or.inr (by rw [h3, h]; simp)
      · exact Or.inr (List.mem_cons_of_mem _ h3)

theorem leastOf_spec (l : List ℤ) (hl : l ≠ []) : leastOf l ∈ l ∧ ∀ b ∈ l, leastOf l ≤ b := by
  unfold leastOf
  obtain ⟨_, h2, h3⟩ := mode_min_le l (l.headD 0)
  refine ⟨?_, h2⟩
  rcases h3 with h3 | h3
  · rw [h3]
    cases l with
    | nil => exact absurd rfl hl
    | cons a l => simp
  · exact h3

theorem greatestOf_spec (l : List ℤ) (hl : l ≠ []) : greatestOf l ∈ l ∧ ∀ b ∈ l, b ≤ greatestOf l := by
  unfold greatestOf
  obtain ⟨_, h2, h3⟩ := mode_max_ge l (l.headD 0)
  refine ⟨?_, h2⟩
  rcases h3 with h3 | h3
  · rw [h3]
    cases l with
    | nil => exact absurd rfl hl
    | cons a l => simp
  · exact h3

theorem dedup_single (l : List ℤ) (p : ℤ) : l.dedup = [p] ↔ l ≠ [] ∧ ∀ v ∈ l, v = p := by
  constructor
  · intro h
    have hm : ∀ v, v ∈ l ↔ v = p := fun v => by rw [← List.mem_dedup, h, List.mem_singleton]
    exact ⟨fun e => by rw [e] at h; exact (nomatch h), fun v hv => (hm v).1 hv⟩
  · rintro ⟨h1, h2⟩
    have hm : ∀ v, v ∈ l.dedup → v = p := fun v hv => h2 v (List.mem_dedup.1 hv)
    have hn := List.nodup_dedup l
    have hne : l.dedup ≠ [] := by
      obtain ⟨a, ha⟩ := List.exists_mem_of_ne_nil l h1
      exact List.ne_nil_of_mem (List.mem_dedup.2 ha)
    generalize l.dedup = d at hm hn hne
    match d, hne with
    | [a], _ => rw [hm a (by simp)]
    | a :: b :: d, _ =>
      exfalso
      have e1 := hm a (by simp)
      have e2 := hm b (by simp)
      rw [e1, e2] at hn
      exact (List.nodup_cons.1 hn).1 (by simp)

theorem commonLength_ok (l : List ModeInput) (p : ℤ) : commonLength l = .ok p ↔ l ≠ [] ∧ ∀ c ∈ l, c.stop - c.start = p := by
  have key : commonLength l = .ok p ↔ (l.map fun c => c.stop - c.start).dedup = [p] := by
    unfold commonLength
    generalize (l.map fun c => c.stop - c.start).dedup = d
    match d with
    | [] => exact ⟨fun h => (nomatch h), fun h => (nomatch h)⟩
    | [a] => exact ⟨fun h => by injection h with h; rw [h], fun h => by injection h with h; rw [h]⟩
    | a :: b :: d => exact ⟨fun h => (nomatch h), fun h => by injection h with _ h; exact nomatch h⟩
  rw [key, dedup_single]
  constructor
  · rintro ⟨h1, h2⟩
    exact ⟨fun e => h1 (by rw [e]; rfl), fun c hc => h2 _ (List.mem_map.2 ⟨c, hc, rfl⟩)⟩
  · rintro ⟨h1, h2⟩
    refine ⟨fun e => h1 (List.map_eq_nil_iff.1 e), fun v hv => ?_⟩
    obtain ⟨c, hc, rfl⟩ := List.mem_map.1 hv
    exact h2 c hc

theorem commonLength_error (l : List ModeInput) : commonLength l = .error .valueError ∨ ∃ p, commonLength l = .ok p := by
  unfold commonLength
  generalize (l.map fun c => c.stop - c.start).dedup = d
  match d with
  | [] => exact Or.inl rfl
  | [a] => exact Or.inr ⟨a, rfl⟩
  | a :: b :: d => exact Or.inl rfl

theorem collapse_spec (l : List ModeInput) (hl : l ≠ []) (ho : ∀ c ∈ l, c.start ≤ c.stop) :
    earliest l ModeInput.start (collapseTimes l).1 ∧ latest l ModeInput.stop (collapseTimes l).2.1 ∧ latest l ModeInput.cycle (collapseTimes l).2.2 := by
  have hs : l.map ModeInput.start ++ l.map ModeInput.stop ≠ [] := fun e => hl (List.map_eq_nil_iff.1 (List.append_eq_nil_iff.1 e).1)
  have hc : l.map ModeInput.cycle ≠ [] := fun e => hl (List.map_eq_nil_iff.1 e)
  obtain ⟨m1, m2⟩ := leastOf_spec _ hs
  obtain ⟨g1, g2⟩ := greatestOf_spec _ hs
  obtain ⟨c1, c2⟩ := greatestOf_spec _ hc
  have hstart : ∀ c ∈ l, c.start ∈ l.map ModeInput.start ++ l.map ModeInput.stop := fun c h => List.mem_append_left _ (List.mem_map.2 ⟨c, h, rfl⟩)
  have hstop : ∀ c ∈ l, c.stop ∈ l.map ModeInput.start ++ l.map ModeInput.stop := fun c h => List.mem_append_right _ (List.mem_map.2 ⟨c, h, rfl⟩)
  have first : earliest l ModeInput.start (leastOf (l.map ModeInput.start ++ l.map ModeInput.stop)) := by
    refine ⟨?_, fun c h => m2 _ (hstart c h)⟩
    rcases List.mem_append.1 m1 with h | h
    · obtain ⟨c, h1, h2⟩ := List.mem_map.1 h; exact ⟨c, h1, h2⟩
    · obtain ⟨c, h1, h2⟩ := List.mem_map.1 h
      exact ⟨c, h1, le_antisymm (by rw [← h2]; exact ho c h1) (m2 _ (hstart c h1))⟩
  have last : latest l ModeInput.stop (greatestOf (l.map ModeInput.start ++ l.map ModeInput.stop)) := by
    refine ⟨?_, fun c h => g2 _ (hstop c h)⟩
    rcases List.mem_append.1 g1 with h | h
    · obtain ⟨c, h1, h2⟩ := List.mem_map.1 h
      exact ⟨c, h1, le_antisymm (g2 _ (hstop c h1)) (by rw [← h2]; exact ho c h1)⟩
    · obtain ⟨c, h1, h2⟩ := List.mem_map.1 h; exact ⟨c, h1, h2⟩
  have run : latest l ModeInput.cycle
      (if (l.map ModeInput.cycle).dedup.length = 1 then (l.map ModeInput.cycle).headD 0 else greatestOf (l.map ModeInput.cycle)) := by
    have big : latest l ModeInput.cycle (greatestOf (l.map ModeInput.cycle)) := by
      obtain ⟨c, h1, h2⟩ := List.mem_map.1 c1
      exact ⟨⟨c, h1, h2⟩, fun d hd => c2 _ (List.mem_map.2 ⟨d, hd, rfl⟩)⟩
    by_cases h1 : (l.map ModeInput.cycle).dedup.length = 1
    · rw [if_pos h1]
      obtain ⟨p, hp⟩ := List.length_eq_one_iff.1 h1
      obtain ⟨_, hall⟩ := (dedup_single _ _).1 hp
      have e : (l.map ModeInput.cycle).headD 0 = greatestOf (l.map ModeInput.cycle) := by
        rw [hall _ c1]
        apply hall
        cases hk : l.map ModeInput.cycle with
        | nil => exact absurd hk hc
        | cons a k => simp
      rw [e]; exact big
    · rw [if_neg h1]; exact big
  match l, hl with
  | [c], _ => exact ⟨⟨⟨c, by simp, rfl⟩, by simp [collapseTimes]⟩, ⟨⟨c, by simp, rfl⟩, by simp [collapseTimes]⟩, ⟨⟨c, by simp, rfl⟩, by simp [collapseTimes]⟩⟩
  | a :: b :: k, _ => exact ⟨first, last, run⟩

theorem mergeTimes_ok (l m : List ModeInput) (h : mergeTimes l = .ok m) : (l.map ModeInput.point).Nodup ∧ m.Perm l := by
  unfold mergeTimes at h
  by_cases hn : (l.map ModeInput.point).Nodup
  · rw [if_pos hn] at h
    injection h with h
    exact ⟨hn, h ▸ List.perm_insertionSort _ l⟩
  · rw [if_neg hn] at h; exact nomatch h

theorem periodsOf_perm (l m : List ModeInput) (p : ℤ) (h : m.Perm l) : periodsOf l p → periodsOf m p := by
  rintro ⟨h1, h2, h3⟩
  refine ⟨fun e => h1 ?_, (h.map _).nodup_iff.2 h2, fun c hc => h3 c (h.mem_iff.1 hc)⟩
  rw [e] at h; exact h.nil_eq.symm

/-- **C285** (accepted): the inputs are accepted exactly when there are some, for different times and for periods of one length; otherwise a ValueError is raised. -/
theorem C285_accepted (inputs : List ModeInput) :
    ((∃ r, modeMeta inputs = .ok r) ↔ ∃ p, periodsOf inputs p) ∧ ∀ e, modeMeta inputs = .error e → e = .valueError := by
  unfold modeMeta
  cases hm : mergeTimes inputs with
  | error e =>
    have hn : ¬ (inputs.map ModeInput.point).Nodup ∧ e = .valueError := by
      unfold mergeTimes at hm
      by_cases hn : (inputs.map ModeInput.point).Nodup
      · rw [if_pos hn] at hm; exact nomatch hm
      · rw [if_neg hn] at hm; injection hm with hm; exact ⟨hn, hm.symm⟩
    exact ⟨⟨fun ⟨r, hr⟩ => (nomatch hr), fun ⟨p, hp⟩ => absurd hp.2.1 hn.1⟩, fun e' he => by injection he with he; rw [← he]; exact hn.2⟩
  | ok m =>
    obtain ⟨hn, hp⟩ := mergeTimes_ok _ _ hm
    simp only []
    rcases commonLength_error m with hc | ⟨p, hc⟩
    · rw [hc]
      refine ⟨⟨fun ⟨r, hr⟩ => (nomatch hr), fun ⟨p, hpp⟩ => ?_⟩, fun e' he => by injection he with he; exact he.symm⟩
      obtain ⟨h1, _, h3⟩ := periodsOf_perm _ _ _ hp hpp
      rw [(commonLength_ok m p).2 ⟨h1, h3⟩] at hc; exact nomatch hc
    · rw [hc]
      refine ⟨⟨fun _ => ⟨p, ?_⟩, fun _ => ⟨_, rfl⟩⟩, fun e' he => (nomatch he)⟩
      obtain ⟨h1, h3⟩ := (commonLength_ok m p).1 hc
      exact periodsOf_perm _ _ _ hp.symm ⟨h1, (hp.map _).nodup_iff.2 hn, h3⟩

/-- **C285** (times): the result is for the time from the earliest start to the latest end of the inputs, its time is the end, its reference time is the latest of the inputs', its
forecast period runs from the reference time to the end (bounds: from the start to the end), and it names each model of the inputs once, in order. -/
theorem C285_times (inputs : List ModeInput) (ho : ∀ c ∈ inputs, c.start ≤ c.stop) (r : ModeMeta) (h : modeMeta inputs = .ok r) :
    earliest inputs ModeInput.start r.start ∧ latest inputs ModeInput.stop r.stop ∧ r.point = r.stop ∧ latest inputs ModeInput.cycle r.cycle ∧
      r.period = r.point - r.cycle ∧ r.periodStart = r.start - r.cycle ∧ r.periodStop = r.stop - r.cycle ∧
      r.models.Nodup ∧ r.models.Pairwise (· ≤ ·) ∧ ∀ m, m ∈ r.models ↔ ∃ c ∈ inputs, m ∈ c.models := by
  unfold modeMeta at h
  cases hm : mergeTimes inputs with
  | error e => rw [hm] at h; exact nomatch h
  | ok m =>
    rw [hm] at h
    obtain ⟨hn, hp⟩ := mergeTimes_ok _ _ hm
    simp only [] at h
    rcases commonLength_error m with hc | ⟨p, hc⟩
    · rw [hc] at h; exact nomatch h
    · rw [hc] at h
      obtain ⟨h1, _⟩ := (commonLength_ok m p).1 hc
      obtain ⟨s1, s2, s3⟩ := collapse_spec m h1 fun c hc => ho c (hp.mem_iff.1 hc)
      have he : ∀ f v, earliest m f v → earliest inputs f v := fun f v ⟨⟨c, a, b⟩, d⟩ => ⟨⟨c, hp.mem_iff.1 a, b⟩, fun c hc => d c (hp.mem_iff.2 hc)⟩
      have hl : ∀ f v, latest m f v → latest inputs f v := fun f v ⟨⟨c, a, b⟩, d⟩ => ⟨⟨c, hp.mem_iff.1 a, b⟩, fun c hc => d c (hp.mem_iff.2 hc)⟩
      injection h with h
      haveI : Std.Total (fun a b : String => a ≤ b) := ⟨le_total⟩
      haveI : IsTrans String (fun a b => a ≤ b) := ⟨fun _ _ _ => le_trans⟩
      rw [← h]
      refine ⟨he _ _ s1, hl _ _ s2, rfl, hl _ _ s3, rfl, rfl, rfl, ?_, ?_, fun w => ?_⟩
      · exact (List.perm_insertionSort _ _).nodup_iff.2 (List.nodup_dedup _)
      · exact List.pairwise_insertionSort _ _
      · unfold contributingModels
        rw [(List.perm_insertionSort _ _).mem_iff, List.mem_dedup, List.mem_flatMap]

/-- **C285** (order): the order of the inputs does not matter. -/
theorem C285_order (l l' : List ModeInput) (h : l.Perm l') : modeMeta l = modeMeta l' := by
  have hmodels : contributingModels l = contributingModels l' := by
    haveI : Std.Total (fun a b : String => a ≤ b) := ⟨le_total⟩
    haveI : IsTrans String (fun a b => a ≤ b) := ⟨fun _ _ _ => le_trans⟩
    unfold contributingModels
    apply List.Perm.eq_of_pairwise (le := fun a b : String => a ≤ b) (fun a b _ _ h1 h2 => le_antisymm h1 h2) (List.pairwise_insertionSort _ _)
      (List.pairwise_insertionSort _ _)
    exact (List.perm_insertionSort _ _).trans ((List.Perm.dedup (h.flatMap_right _)).trans (List.perm_insertionSort _ _).symm)
  have hmerge : mergeTimes l = mergeTimes l' := by
    unfold mergeTimes
    by_cases hn : (l.map ModeInput.point).Nodup
    · have hn' := (h.map ModeInput.point).nodup_iff.1 hn
      rw [if_pos hn, if_pos hn']
      congr 1
      haveI : Std.Total (fun a b : ModeInput => a.point ≤ b.point) := ⟨fun a b => le_total a.point b.point⟩
      haveI : IsTrans ModeInput (fun a b => a.point ≤ b.point) := ⟨fun _ _ _ h1 h2 => le_trans h1 h2⟩
      apply List.Perm.eq_of_pairwise (le := fun a b : ModeInput => a.point ≤ b.point) _ (List.pairwise_insertionSort _ _) (List.pairwise_insertionSort _ _)
      · exact (List.perm_insertionSort _ _).trans (h.trans (List.perm_insertionSort _ _).symm)
      · intro a b ha hb h1 h2
        have ha' := (List.perm_insertionSort _ _).mem_iff.1 ha
        have hb' := h.symm.mem_iff.1 ((List.perm_insertionSort _ _).mem_iff.1 hb)
        exact List.inj_on_of_nodup_map hn ha' hb' (le_antisymm h1 h2)
    · have hn' : ¬ (l'.map ModeInput.point).Nodup := fun e => hn ((h.map ModeInput.point).nodup_iff.2 e)
      rw [if_neg hn, if_neg hn']
  unfold modeMeta
  rw [hmerge, hmodels]

/-- **C285** (interval): the cell method names the length of the inputs' periods when that is a whole number of hours. -/
theorem C285_interval (inputs : List ModeInput) (r : ModeMeta) (h : modeMeta inputs = .ok r) (n : ℤ) (c : ModeInput) (hc : c ∈ inputs) (hn : c.stop - c.start = n * 3600) :
    r.hours = n := by
  unfold modeMeta at h
  cases hm : mergeTimes inputs with
  | error e => rw [hm] at h; exact nomatch h
  | ok m =>
    rw [hm] at h
    obtain ⟨_, hp⟩ := mergeTimes_ok _ _ hm
    simp only [] at h
    rcases commonLength_error m with hl | ⟨p, hl⟩
    · rw [hl] at h; exact nomatch h
    · rw [hl] at h
      obtain ⟨_, h3⟩ := (commonLength_ok m p).1 hl
      have e := h3 c (hp.mem_iff.2 hc)
      injection h with h
      rw [← h]
      change p.tdiv 3600 = n
      rw [← e, hn]
      exact Int.mul_tdiv_cancel n (by norm_num)

def hourly (a : ℤ) (cycle : ℤ) (models : List String) : ModeInput := ⟨a, a + 3600, a + 3600, cycle, models⟩

/-- **C285** (half hours): with periods of half an hour the interval of the cell method is "0 hour". -/
theorem C285_interval_refuted : ¬ ∀ (inputs : List ModeInput) (r : ModeMeta) (c : ModeInput), modeMeta inputs = .ok r → c ∈ inputs → c.stop - c.start = r.hours * 3600 := by
  intro h
  have hv : modeMeta [⟨0, 1800, 1800, 0, ["uk_ens"]⟩] = .ok ⟨0, 1800, 1800, 0, 0, 1800, 1800, 0, ["uk_ens"]⟩ := by decide +kernel
  have := h _ _ _ hv (List.mem_singleton.2 rfl)
  norm_num at this

/-- **C285** (gaps): that the inputs leave no gap is not checked: the result can be for a time of which the inputs cover a part only. -/
theorem C285_gaps_refuted : ¬ ∀ (inputs : List ModeInput) (r : ModeMeta) (t : ℤ), modeMeta inputs = .ok r → r.start ≤ t → t ≤ r.stop → ∃ c ∈ inputs, c.start ≤ t ∧ t ≤ c.stop := by
  intro h
  have hv : modeMeta [hourly 0 0 [], hourly 36000 0 []] = .ok ⟨0, 39600, 39600, 0, 0, 39600, 39600, 1, []⟩ := by decide +kernel
  obtain ⟨c, hc, h1, h2⟩ := h _ _ 20000 hv (by norm_num) (by norm_num)
  rcases List.mem_cons.1 hc with rfl | hc
  · exact absurd h2 (by decide)
  · rw [List.mem_singleton] at hc; subst hc
    exact absurd h1 (by decide)

example : modeMeta [hourly 7200 3600 ["uk_det"], hourly 3600 0 ["uk_ens", "uk_det"]] = .ok ⟨3600, 10800, 10800, 3600, 0, 7200, 7200, 1, ["uk_det", "uk_ens"]⟩ := by decide +kernel
example : modeMeta [hourly 7200 3600 [], hourly 7200 0 []] = .error .valueError := by decide +kernel
example : modeMeta [hourly 7200 3600 [], ⟨0, 7200, 7200, 0, []⟩] = .error .valueError := by decide +kernel
example : periodsOf [hourly 7200 3600 ["uk_det"], hourly 3600 0 ["uk_ens", "uk_det"]] 3600 := ⟨by decide, by decide, by decide⟩

end Improver
