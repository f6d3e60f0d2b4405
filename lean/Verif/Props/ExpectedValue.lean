import Verif.Model.ExpectedValue
import Verif.Lemmas.Sorting

/-! Property theorems C19: expected value from probabilities. -/

namespace Improver

theorem npDiff_cons_cons (a b : ℚ) (l : List ℚ) : npDiff (a :: b :: l) = (b - a) :: npDiff (b :: l) := rfl

theorem midpoints_cons_cons (a b : ℚ) (l : List ℚ) :
    midpoints (a :: b :: l) = (a + 1/2 * (b - a)) :: midpoints (b :: l) := by
  cases l <;> simp [midpoints, npDiff]

/-- Midpoints stay strictly within the ends of the list. -/
theorem midpoints_range : ∀ (t : List ℚ) (a : ℚ), (a :: t).Pairwise (· < ·) →
    ∀ m ∈ midpoints (a :: t), a < m ∧ ∀ h : (a :: t) ≠ [], m < (a :: t).getLast h
  | [], a, _ => by simp [midpoints, npDiff]
  | b :: t, a, hp => by
    intro m hm
    rw [midpoints_cons_cons] at hm
    have hab : a < b := (List.pairwise_cons.1 hp).1 b (by simp)
    have htl := (List.pairwise_cons.1 hp).2
    have hbl : ∀ h : (b :: t) ≠ [], b ≤ (b :: t).getLast h := by
      intro h
      rcases List.mem_cons.1 (List.getLast_mem h) with he | he
      · exact he.ge
      · exact ((List.pairwise_cons.1 htl).1 _ he).le
    rcases List.mem_cons.1 hm with rfl | hm
    · refine ⟨by linarith, fun h => ?_⟩
      rw [List.getLast_cons (by simp)]
      have := hbl (by simp)
      linarith
    · have ih := midpoints_range t b htl m hm
      refine ⟨by linarith [ih.1], fun h => ?_⟩
      rw [List.getLast_cons (by simp)]
      exact ih.2 (by simp)

theorem midpoints_sorted : ∀ (t : List ℚ), t.Pairwise (· < ·) → (midpoints t).Pairwise (· ≤ ·)
  | [], _ => by simp [midpoints]
  | [_], _ => by simp [midpoints, npDiff]
  | a :: b :: t, hp => by
    have htl := (List.pairwise_cons.1 hp).2
    have hab : a < b := (List.pairwise_cons.1 hp).1 b (by simp)
    rw [midpoints_cons_cons, List.pairwise_cons]
    refine ⟨?_, midpoints_sorted (b :: t) htl⟩
    intro m hm
    have := (midpoints_range t b htl m hm).1
    linarith

theorem midpoints_length (t : List ℚ) : (midpoints t).length = t.length - 1 := by
  have : (npDiff t).length = t.length - 1 := by
    induction t with
    | nil => rfl
    | cons a l ih => cases l with
      | nil => rfl
      | cons b l => simp only [npDiff, List.length_cons] at ih ⊢; omega
  simp [midpoints, this]

theorem npDiff_sum (a : ℚ) : ∀ (l : List ℚ), (npDiff (a :: l)).sum = (a :: l).getLast (by simp) - a
  | [] => by simp [npDiff]
  | b :: l => by
    rw [npDiff_cons_cons, List.sum_cons, npDiff_sum b l, List.getLast_cons_cons]
    ring

theorem weighted_sum_bounds (lo hi : ℚ) : ∀ (w m : List ℚ), w.length = m.length → (∀ x ∈ w, 0 ≤ x) →
    (∀ x ∈ m, lo ≤ x ∧ x ≤ hi) →
    lo * w.sum ≤ (List.zipWith (· * ·) w m).sum ∧ (List.zipWith (· * ·) w m).sum ≤ hi * w.sum
  | [], m, _, _, _ => by simp
  | a :: w, [], h, _, _ => by simp at h
  | a :: w, b :: m, h, hw, hm => by
    have ih := weighted_sum_bounds lo hi w m (by simpa using h) (fun x hx => hw x (by simp [hx]))
      (fun x hx => hm x (by simp [hx]))
    have ha := hw a (by simp)
    have hb := hm b (by simp)
    simp only [List.zipWith_cons_cons, List.sum_cons]
    constructor <;> nlinarith [ih.1, ih.2, hb.1, hb.2]

/-- Abel summation: raising the cumulative probabilities lowers the integral. -/
theorem abel_mono : ∀ (m : List ℚ) (c c' : List ℚ) (c0 c0' m0 : ℚ), m.length + 1 = c.length →
    (m0 :: m).Pairwise (· ≤ ·) → List.Forall₂ (· ≤ ·) c' c →
    (c.getLast?.getD c0 = c'.getLast?.getD c0') →
    (List.zipWith (· * ·) (npDiff (c0 :: c)) (m0 :: m)).sum + (c0 - c0') * m0 ≤
      (List.zipWith (· * ·) (npDiff (c0' :: c')) (m0 :: m)).sum := by
  intro m
  induction m with
  | nil =>
    intro c c' c0 c0' m0 hl _ hcc hlast
    cases hcc with
    | nil => simp at hl
    | cons h t =>
      rename_i a b l1 l2
      cases t with
      | nil =>
        simp at hlast
        subst hlast
        simp [npDiff]
        nlinarith
      | cons h2 t2 => simp at hl
  | cons m1 m ih =>
    intro c c' c0 c0' m0 hl hm hcc hlast
    cases hcc with
    | nil => simp at hl
    | cons h t =>
      rename_i a b l1 l2
      have hl2 : 0 < l2.length := by simp at hl; omega
      have hlast' : l2.getLast?.getD b = l1.getLast?.getD a := by
        cases l2 with
        | nil => simp at hl2
        | cons x l2 =>
          cases l1 with
          | nil => have := t.length_eq; simp at this
          | cons y l1 => simpa [List.getLast?_cons] using hlast
      have hih := ih l2 l1 b a m1 (by simp at hl ⊢; omega) (List.pairwise_cons.1 hm).2 t hlast'
      have h01 : m0 ≤ m1 := (List.pairwise_cons.1 hm).1 m1 (by simp)
      simp only [npDiff_cons_cons, List.zipWith_cons_cons, List.sum_cons]
      nlinarith

theorem any_le_false {l : List ℚ} (h : ¬ (npDiff l).any (fun d => decide (d ≤ 0)) = true) : l.Pairwise (· < ·) := by
  induction l with
  | nil => simp
  | cons a l ih =>
    cases l with
    | nil => simp
    | cons b l =>
      simp only [npDiff_cons_cons, List.any_cons, Bool.or_eq_true, decide_eq_true_eq, not_or, not_le] at h
      have ih := ih h.2
      rw [List.pairwise_cons]
      refine ⟨?_, ih⟩
      intro c hc
      rcases List.mem_cons.1 hc with rfl | hc
      · linarith [h.1]
      · have := (List.pairwise_cons.1 ih).1 c hc
        linarith [h.1]

/-- The probabilities of not exceeding. -/
def Spec.below (above : Bool) (probs : List ℚ) : List ℚ :=
  probs.map (fun p => if above then 1 - p else p)

/-- Width of the extension beyond an end threshold. -/
def Spec.margin (eps t : ℚ) : ℚ := max eps |t * eps|

theorem integrate_ok {eps : ℚ} {above : Bool} {ts probs : List ℚ} {v : ℚ}
    (h : integrateOverThresholds eps above ts probs = .ok v) :
    ∃ (hne : ts ≠ []), ts.Pairwise (· < ·) ∧
      (∀ d ∈ npDiff (0 :: (Spec.below above probs ++ [1])), 0 ≤ d) ∧
      v = (List.zipWith (· * ·) (npDiff (0 :: (Spec.below above probs ++ [1])))
        (midpoints ((ts.head hne - Spec.margin eps (ts.head hne)) ::
          (ts ++ [ts.getLast hne + Spec.margin eps (ts.getLast hne)])))).sum := by
  have hb : (if above then probs.map (fun p => 1 - p) else probs) = Spec.below above probs := by
    cases above <;> simp [Spec.below]
  unfold integrateOverThresholds at h
  simp only [hb] at h
  by_cases h1 : (npDiff ts).any (fun d => decide (d ≤ 0)) = true
  · rw [if_pos h1] at h; cases h
  rw [if_neg h1] at h
  by_cases h2 : (npDiff (0 :: (Spec.below above probs ++ [1]))).any (fun d => decide (d < 0)) = true
  · simp only [if_pos h2, bind, Except.bind] at h
    split at h <;> cases h
  simp only [if_neg h2] at h
  have hs := any_le_false h1
  cases ts with
  | nil => simp [expandThresholds, bind, Except.bind] at h
  | cons a ts =>
    have he : expandThresholds eps (a :: ts) = .ok ((a - max eps |a * eps|) ::
        ((a :: ts) ++ [(a :: ts).getLast (by simp) + max eps |(a :: ts).getLast (by simp) * eps|])) := by
      simp [expandThresholds, List.getLast?_eq_some_getLast]
    simp only [he, bind, Except.bind] at h
    injection h with h
    refine ⟨by simp, hs, ?_, h.symm⟩
    intro d hd
    by_contra hc
    push Not at hc
    exact h2 (List.any_eq_true.2 ⟨d, hd, by simpa using hc⟩)

theorem expanded_sorted {eps : ℚ} (he : 0 < eps) {ts : List ℚ} (hne : ts ≠ []) (hs : ts.Pairwise (· < ·)) :
    ((ts.head hne - Spec.margin eps (ts.head hne)) ::
      (ts ++ [ts.getLast hne + Spec.margin eps (ts.getLast hne)])).Pairwise (· < ·) := by
  have hm : ∀ t, 0 < Spec.margin eps t := fun t => lt_of_lt_of_le he (le_max_left _ _)
  have hhead : ∀ x ∈ ts, ts.head hne ≤ x := by
    cases ts with
    | nil => exact absurd rfl hne
    | cons a l =>
      intro x hx
      rcases List.mem_cons.1 hx with rfl | hx
      · exact le_rfl
      · exact ((List.pairwise_cons.1 hs).1 x hx).le
  have hlast : ∀ x ∈ ts, x ≤ ts.getLast hne := by
    intro x hx
    obtain ⟨i, hi, rfl⟩ := List.getElem_of_mem hx
    rw [List.getLast_eq_getElem]
    rcases Nat.lt_or_ge i (ts.length - 1) with h | h
    · exact (List.pairwise_iff_getElem.1 hs i _ _ _ h).le
    · apply le_of_eq; congr 1; omega
  rw [List.pairwise_cons, List.pairwise_append]
  refine ⟨?_, hs, by simp, ?_⟩
  · intro x hx
    rcases List.mem_append.1 hx with hx | hx
    · linarith [hhead x hx, hm (ts.head hne)]
    · rw [List.mem_singleton] at hx
      rw [hx]
      linarith [hhead _ (List.getLast_mem hne), hm (ts.head hne), hm (ts.getLast hne)]
  · intro a ha b hb
    rw [List.mem_singleton] at hb
    rw [hb]
    linarith [hlast a ha, hm (ts.getLast hne)]

/-- **C19.** The expected value lies between the lowest and the highest threshold, each extended by one
epsilon. -/
theorem C19_within_thresholds (eps : ℚ) (he : 0 < eps) (above : Bool) (ts probs : List ℚ) (v : ℚ)
    (hl : probs.length = ts.length) (h : integrateOverThresholds eps above ts probs = .ok v) :
    ∃ hne : ts ≠ [], ts.head hne - Spec.margin eps (ts.head hne) ≤ v ∧
      v ≤ ts.getLast hne + Spec.margin eps (ts.getLast hne) := by
  obtain ⟨hne, hs, hpdf, rfl⟩ := integrate_ok h
  refine ⟨hne, ?_⟩
  have hexp := expanded_sorted he hne hs
  have hmid := midpoints_range _ _ hexp
  have hsum := npDiff_sum 0 (Spec.below above probs ++ [1])
  have hlast : (0 :: (Spec.below above probs ++ [1])).getLast (by simp) = 1 := by
    rw [List.getLast_cons (by simp), List.getLast_append_singleton]
  rw [hlast, sub_zero] at hsum
  have hlen : (npDiff (0 :: (Spec.below above probs ++ [1]))).length = (midpoints
      ((ts.head hne - Spec.margin eps (ts.head hne)) ::
        (ts ++ [ts.getLast hne + Spec.margin eps (ts.getLast hne)]))).length := by
    have h2 : (midpoints (0 :: (Spec.below above probs ++ [1]))).length
        = (0 :: (Spec.below above probs ++ [1])).length - 1 := midpoints_length _
    have h3 : ∀ t : List ℚ, (npDiff t).length = t.length - 1 := by
      intro t
      induction t with
      | nil => rfl
      | cons a l ih => cases l with
        | nil => rfl
        | cons b l => simp only [npDiff, List.length_cons] at ih ⊢; omega
    rw [h3, midpoints_length]
    simp [Spec.below, hl]
  have := weighted_sum_bounds (ts.head hne - Spec.margin eps (ts.head hne))
    (ts.getLast hne + Spec.margin eps (ts.getLast hne)) _ _ hlen hpdf (fun m hm => by
      have := hmid m hm
      refine ⟨this.1.le, ?_⟩
      have h2 := this.2 (by simp)
      rw [List.getLast_cons (by simp), List.getLast_append_singleton] at h2
      exact h2.le)
  rw [hsum, mul_one, mul_one] at this
  exact this

/-- **C19.** The value is a weighted mean of class mid-points with the class probabilities as weights: they are
non-negative and sum to one. -/
theorem C19_weights_are_probabilities (eps : ℚ) (above : Bool) (ts probs : List ℚ) (v : ℚ)
    (h : integrateOverThresholds eps above ts probs = .ok v) :
    ∃ w m : List ℚ, v = (List.zipWith (· * ·) w m).sum ∧ (∀ x ∈ w, 0 ≤ x) ∧ w.sum = 1 ∧
      w.length = probs.length + 1 := by
  obtain ⟨hne, hs, hpdf, rfl⟩ := integrate_ok h
  refine ⟨_, _, rfl, hpdf, ?_, ?_⟩
  · rw [npDiff_sum, List.getLast_cons (by simp), List.getLast_append_singleton]; ring
  · have h3 : ∀ t : List ℚ, (npDiff t).length = t.length - 1 := by
      intro t
      induction t with
      | nil => rfl
      | cons a l ih => cases l with
        | nil => rfl
        | cons b l => simp only [npDiff, List.length_cons] at ih ⊢; omega
    rw [h3]; simp [Spec.below]

/-- **C19.** Larger exceedance probabilities (equivalently smaller probabilities of not exceeding) never give a
smaller expected value. -/
theorem C19_monotone (eps : ℚ) (he : 0 < eps) (above : Bool) (ts probs probs' : List ℚ) (v v' : ℚ)
    (hl : probs.length = ts.length) (hle : List.Forall₂ (fun p p' => if above then p ≤ p' else p' ≤ p) probs probs')
    (h : integrateOverThresholds eps above ts probs = .ok v)
    (h' : integrateOverThresholds eps above ts probs' = .ok v') : v ≤ v' := by
  obtain ⟨hne, hs, -, rfl⟩ := integrate_ok h
  obtain ⟨-, -, -, rfl⟩ := integrate_ok h'
  have hexp := expanded_sorted he hne hs
  have hms := midpoints_sorted _ hexp
  have hml := midpoints_length ((ts.head hne - Spec.margin eps (ts.head hne)) ::
        (ts ++ [ts.getLast hne + Spec.margin eps (ts.getLast hne)]))
  generalize midpoints ((ts.head hne - Spec.margin eps (ts.head hne)) ::
        (ts ++ [ts.getLast hne + Spec.margin eps (ts.getLast hne)])) = M at hms hml
  cases M with
  | nil => simp at hml
  | cons m0 m =>
    have hcc : List.Forall₂ (· ≤ ·) (Spec.below above probs' ++ [1]) (Spec.below above probs ++ [1]) := by
      apply List.rel_append
      · unfold Spec.below
        clear h hl
        induction hle with
        | nil => exact .nil
        | cons hh _ ih =>
          refine .cons ?_ ih
          cases above <;> simp at hh ⊢ <;> linarith
      · exact .cons le_rfl .nil
    have := abel_mono m (Spec.below above probs ++ [1]) (Spec.below above probs' ++ [1]) 0 0 m0
      (by simp [Spec.below] at hml ⊢; omega) hms hcc (by simp)
    simpa using this

/-- **C19.** Thresholds that are not strictly increasing, or a CDF that decreases or leaves [0, 1], are
rejected. -/
theorem C19_rejects (eps : ℚ) (above : Bool) (ts probs : List ℚ)
    (h : ¬ ts.Pairwise (· < ·) ∨ ¬ (0 :: (Spec.below above probs ++ [1])).Pairwise (· ≤ ·)) :
    ∃ e, integrateOverThresholds eps above ts probs = .error e := by
  cases hr : integrateOverThresholds eps above ts probs with
  | error e => exact ⟨e, rfl⟩
  | ok v =>
    exfalso
    obtain ⟨hne, hs, hpdf, -⟩ := integrate_ok hr
    rcases h with h | h
    · exact h hs
    · apply h
      generalize (0 :: (Spec.below above probs ++ [1])) = l at hpdf
      clear hr h hs
      induction l with
      | nil => simp
      | cons a l ih =>
        cases l with
        | nil => simp
        | cons b l =>
          rw [npDiff_cons_cons] at hpdf
          have ih := ih (fun d hd => hpdf d (by simp [hd]))
          have hab := hpdf (b - a) (by simp)
          rw [List.pairwise_cons]
          refine ⟨?_, ih⟩
          intro c hc
          rcases List.mem_cons.1 hc with rfl | hc
          · linarith
          · linarith [(List.pairwise_cons.1 ih).1 c hc]

example : (integrateOverThresholds (1/8) true [0, 2] [1/2, 1/4]).toOption
    = some (1/2 * (-1/16) + 1/4 * 1 + 1/4 * (2 + 1/8)) := by decide +kernel

end Improver
