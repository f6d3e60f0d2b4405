import Verif.Model.LapseRate
import Verif.Props.Nbhood
import Mathlib.Data.List.GetD

/-! C76-C77: integration along a coordinate and the least-squares line. -/

namespace Improver

/-! ### Specification -/

/-- Area of one trapezium of the positive part of a profile. -/
def Spec.trapezium (a b : ℚ × ℚ) : ℚ := |b.1 - a.1| * (max a.2 0 + max b.2 0) / 2

/-- `a` comes before `b` in the direction of integration. -/
def Spec.before (positive : Bool) (a b : ℚ) : Prop := if positive then a < b else b < a

/-- The segment from `a` to `b` (in the direction of integration) lies between the start and end points. -/
def Spec.withinLimits (positive : Bool) (start stop : Option ℚ) (a b : ℚ) : Prop :=
  if positive then (∀ s, start = some s → s ≤ a) ∧ (∀ e, stop = some e → b ≤ e)
  else (∀ s, start = some s → a ≤ s) ∧ (∀ e, stop = some e → e ≤ b)

instance (positive : Bool) (start stop : Option ℚ) (a b : ℚ) : Decidable (Spec.withinLimits positive start stop a b) := by
  unfold Spec.withinLimits
  cases start <;> cases stop <;> simp <;> infer_instance

/-- The consecutive pairs of levels, in the direction of integration, lying between the start and end points. -/
def Spec.usedSegments (positive : Bool) (start stop : Option ℚ) (d : List (ℚ × ℚ)) : List ((ℚ × ℚ) × (ℚ × ℚ)) :=
  (d.zip d.tail).filter (fun p => decide (Spec.withinLimits positive start stop p.1.1 p.2.1))

/-! ### Proofs -/

theorem halfData_eq (s v : ℚ) : halfData s v = s * max v 0 / 2 := by
  unfold halfData
  split
  · rw [max_eq_left (by linarith)]; ring
  · rw [max_eq_right (by linarith)]; ring

theorem truthy_of {s : Option ℚ} (h : s ≠ some 0) : truthy s = s := by
  cases s with
  | none => rfl
  | some v =>
    have : v ≠ 0 := fun e => h (by rw [e])
    simp [truthy, this]

theorem npDiff_pos_iff : ∀ (l : List ℚ), (npDiff l).all (fun d => decide (0 < d)) = true ↔ l.Pairwise (· < ·)
  | [] => by simp [npDiff]
  | [a] => by simp [npDiff]
  | a :: b :: l => by
    have ih := npDiff_pos_iff (b :: l)
    rw [npDiff, List.all_cons, Bool.and_eq_true, ih]
    constructor
    · rintro ⟨h1, h2⟩
      have h1 : a < b := by simpa using h1
      rw [List.pairwise_cons] at h2 ⊢
      refine ⟨?_, List.pairwise_cons.2 h2⟩
      intro c hc
      rcases List.mem_cons.1 hc with rfl | hc
      · exact h1
      · exact lt_trans h1 (h2.1 c hc)
    · intro h
      rw [List.pairwise_cons] at h
      exact ⟨by simpa using h.1 b (by simp), h.2⟩

/-- Two orderings of the same levels in the same strict direction are the same list. -/
theorem strict_perm_unique (positive : Bool) {d e : List (ℚ × ℚ)} (h : d.Perm e)
    (hd : d.Pairwise (fun a b => Spec.before positive a.1 b.1))
    (he : e.Pairwise (fun a b => Spec.before positive a.1 b.1)) : d = e := by
  refine List.Perm.eq_of_pairwise ?_ hd he h
  intro a b _ _ h1 h2
  unfold Spec.before at h1 h2
  cases positive <;> simp at h1 h2 <;> linarith

theorem insertionSort_strict {l : List (ℚ × ℚ)} (asc : Bool)
    (hl : l.Pairwise (fun a b => a.1 ≠ b.1)) :
    (l.insertionSort (fun a b => if asc then a.1 ≤ b.1 else b.1 ≤ a.1)).Pairwise
      (fun a b => Spec.before asc a.1 b.1) := by
  have : Std.Total (fun a b : ℚ × ℚ => if asc then a.1 ≤ b.1 else b.1 ≤ a.1) :=
    ⟨fun a b => by cases asc <;> simp [le_total]⟩
  have : IsTrans (ℚ × ℚ) (fun a b : ℚ × ℚ => if asc then a.1 ≤ b.1 else b.1 ≤ a.1) :=
    ⟨fun a b c h1 h2 => by
      cases asc
      · simp at *; linarith
      · simp at *; linarith⟩
  have h1 := List.pairwise_insertionSort (fun a b : ℚ × ℚ => if asc then a.1 ≤ b.1 else b.1 ≤ a.1) l
  have h2 : (l.insertionSort (fun a b => if asc then a.1 ≤ b.1 else b.1 ≤ a.1)).Pairwise (fun a b => a.1 ≠ b.1) :=
    ((List.perm_insertionSort _ l).pairwise_iff (fun h e => h e.symm)).2 hl
  refine (h1.and h2).imp ?_
  intro a b ⟨ha, hb⟩
  unfold Spec.before
  cases asc
  · simp at *; exact lt_of_le_of_ne ha (fun e => hb e.symm)
  · simp at *; exact lt_of_le_of_ne ha hb

/-- The ordering step puts the levels of a monotonic coordinate in the direction of integration. -/
theorem integOrder_dir (positive : Bool) (levels : List (ℚ × ℚ))
    (hm : levels.Pairwise (fun a b => a.1 < b.1) ∨ levels.Pairwise (fun a b => b.1 < a.1)) :
    (integOrder positive levels).Perm levels ∧
      (integOrder positive levels).Pairwise (fun a b => Spec.before positive a.1 b.1) := by
  have hinc : (npDiff (levels.map (·.1))).all (fun d => decide (0 < d)) = true ↔
      levels.Pairwise (fun a b => a.1 < b.1) := by rw [npDiff_pos_iff, List.pairwise_map]
  have hne : levels.Pairwise (fun a b => a.1 ≠ b.1) := by
    rcases hm with h | h
    · exact h.imp (fun h => ne_of_lt h)
    · exact h.imp (fun h => ne_of_gt h)
  unfold integOrder
  by_cases hp : levels.Pairwise (fun a b => a.1 < b.1)
  · have hi := hinc.2 hp
    cases positive
    · simp only [hi, Bool.not_false, Bool.and_true, if_true, Bool.not_true, Bool.and_false,
        Bool.false_eq_true, if_false]
      refine ⟨List.perm_insertionSort _ _, ?_⟩
      have := insertionSort_strict false hne
      simpa using this
    · simp only [hi, Bool.not_true, Bool.and_false, Bool.false_and, Bool.false_eq_true, if_false]
      exact ⟨List.Perm.refl _, hp.imp (fun h => by simpa [Spec.before] using h)⟩
  · have hi : (npDiff (levels.map (·.1))).all (fun d => decide (0 < d)) = false := by
      rw [← Bool.not_eq_true, hinc]; exact hp
    have hd := hm.resolve_left hp
    cases positive
    · simp only [hi, Bool.not_false, Bool.false_and, Bool.and_false, Bool.false_eq_true, if_false]
      exact ⟨List.Perm.refl _, hd.imp (fun h => by simpa [Spec.before] using h)⟩
    · simp only [hi, Bool.not_true, Bool.not_false, Bool.and_true, Bool.and_false, Bool.false_eq_true, if_false, if_true]
      refine ⟨List.perm_insertionSort _ _, ?_⟩
      have := insertionSort_strict true hne
      simpa using this

theorem zip_dropLast {α β : Type} : ∀ (l : List α) (m : List β), m.length < l.length → l.dropLast.zip m = l.zip m
  | [], _, _ => by simp
  | [a], [], _ => by simp
  | [a], b :: m, h => by simp at h
  | a :: b :: l, [], _ => by simp
  | a :: b :: l, c :: m, h => by
    rw [List.dropLast_cons_of_ne_nil (by simp), List.zip_cons_cons, List.zip_cons_cons,
      zip_dropLast (b :: l) m (by simpa using h)]

/-- Segments as (earlier, later) pairs in the direction of integration. -/
theorem integSegments_eq (positive : Bool) (d : List (ℚ × ℚ)) :
    integSegments positive d = (d.zip d.tail).map (fun p => if positive then (p.2, p.1) else (p.1, p.2)) := by
  cases d with
  | nil => cases positive <;> simp [integSegments]
  | cons a d =>
    have hz : (a :: d).dropLast.zip d = (a :: d).zip d := zip_dropLast _ _ (by simp)
    cases positive
    · simp only [integSegments, Bool.false_eq_true, if_false, List.tail_cons]
      rw [hz]; simp
    · simp only [integSegments, if_true, List.tail_cons]
      rw [← List.zip_swap, hz]; rfl

theorem integSkip_iff (positive : Bool) {start stop : Option ℚ} (h1 : start ≠ some 0) (h2 : stop ≠ some 0)
    (a b : ℚ) : integSkip positive start stop (if positive then b else a) (if positive then a else b) = false ↔
      Spec.withinLimits positive start stop a b := by
  unfold integSkip Spec.withinLimits
  rw [truthy_of h1, truthy_of h2]
  cases start <;> cases stop <;> cases positive <;> simp

theorem integLoop_spec (positive : Bool) {start stop : Option ℚ} (h1 : start ≠ some 0) (h2 : stop ≠ some 0) :
    ∀ (segs : List ((ℚ × ℚ) × (ℚ × ℚ))) (acc : ℚ), segs.Pairwise (fun _ _ => True) →
      (∀ p ∈ segs, Spec.before positive p.1.1 p.2.1) →
      let used := segs.filter (fun p => decide (Spec.withinLimits positive start stop p.1.1 p.2.1))
      let out := integLoop positive start stop acc (segs.map (fun p => if positive then (p.2, p.1) else (p.1, p.2)))
      out.length = used.length ∧
      ∀ (i : ℕ) (a b : ℚ × ℚ), used[i]? = some (a, b) → ∃ o, out[i]? = some o ∧ o.point = b.1 ∧
        o.bounds = (min a.1 b.1, max a.1 b.1) ∧
        o.value = acc + ((used.take (i + 1)).map (fun p => Spec.trapezium p.1 p.2)).sum
  | [], acc, _, _ => by simp [integLoop]
  | (a, b) :: segs, acc, _, hb => by
    have hb' : ∀ p ∈ segs, Spec.before positive p.1.1 p.2.1 := fun p hp => hb p (by simp [hp])
    have hab := hb (a, b) (by simp)
    have hsk := integSkip_iff positive h1 h2 a.1 b.1
    intro used out
    by_cases hw : Spec.withinLimits positive start stop a.1 b.1
    · have hs := hsk.2 hw
      have hused : used = (a, b) :: segs.filter (fun p => decide (Spec.withinLimits positive start stop p.1.1 p.2.1)) := by
        show List.filter _ _ = _
        rw [List.filter_cons_of_pos (by simpa using hw)]
      have htot : acc + (halfData |(if positive then (b, a) else (a, b)).1.1 - (if positive then (b, a) else (a, b)).2.1|
          (if positive then (b, a) else (a, b)).1.2
          + halfData |(if positive then (b, a) else (a, b)).1.1 - (if positive then (b, a) else (a, b)).2.1|
            (if positive then (b, a) else (a, b)).2.2)
          = acc + Spec.trapezium a b := by
        rw [halfData_eq, halfData_eq]
        unfold Spec.trapezium
        cases positive
        · simp only [Bool.false_eq_true, if_false]
          rw [abs_sub_comm b.1 a.1]; ring
        · simp only [if_true]; ring
      have ih := integLoop_spec positive h1 h2 segs (acc + Spec.trapezium a b)
        (List.pairwise_of_forall (fun _ _ => trivial)) hb'
      have hout : out = ⟨b.1, (min a.1 b.1, max a.1 b.1), acc + Spec.trapezium a b⟩ ::
          integLoop positive start stop (acc + Spec.trapezium a b)
            (segs.map (fun p => if positive then (p.2, p.1) else (p.1, p.2))) := by
        show integLoop positive start stop acc (List.map _ ((a, b) :: segs)) = _
        rw [List.map_cons, integLoop]
        have hs' : integSkip positive start stop (if positive then (b, a) else (a, b)).1.1
            (if positive then (b, a) else (a, b)).2.1 = false := by
          rw [← hs]; cases positive <;> rfl
        rw [if_neg (by rw [hs']; simp)]
        simp only
        rw [htot]
        congr 1
        unfold Spec.before at hab
        cases positive
        · simp at hab; simp [min_eq_right hab.le, max_eq_left hab.le]
        · simp at hab; simp [min_eq_left hab.le, max_eq_right hab.le]
      rw [hused, hout]
      refine ⟨by simp [ih.1], ?_⟩
      intro i a' b' hi
      cases i with
      | zero =>
        simp only [List.getElem?_cons_zero, Option.some.injEq, Prod.mk.injEq] at hi
        obtain ⟨rfl, rfl⟩ := hi
        exact ⟨_, List.getElem?_cons_zero, rfl, rfl, by simp⟩
      | succ i =>
        rw [List.getElem?_cons_succ] at hi
        obtain ⟨o, ho, hp, hbd, hv⟩ := ih.2 i a' b' hi
        refine ⟨o, by rw [List.getElem?_cons_succ]; exact ho, hp, hbd, ?_⟩
        rw [hv, List.take_succ_cons, List.map_cons, List.sum_cons]; ring
    · have hs : integSkip positive start stop (if positive then b.1 else a.1) (if positive then a.1 else b.1) = true := by
        rw [← Bool.not_eq_false, hsk]; exact hw
      have ih := integLoop_spec positive h1 h2 segs acc (List.pairwise_of_forall (fun _ _ => trivial)) hb'
      have hused : used = segs.filter (fun p => decide (Spec.withinLimits positive start stop p.1.1 p.2.1)) := by
        show List.filter _ _ = _
        rw [List.filter_cons_of_neg (by simpa using hw)]
      have hout : out = integLoop positive start stop acc
          (segs.map (fun p => if positive then (p.2, p.1) else (p.1, p.2))) := by
        show integLoop positive start stop acc (List.map _ ((a, b) :: segs)) = _
        rw [List.map_cons, integLoop, if_pos]
        refine Eq.trans ?_ hs
        cases positive <;> rfl
      rw [hused, hout]
      exact ih

theorem consecutive_before (positive : Bool) : ∀ (d : List (ℚ × ℚ)),
    d.Pairwise (fun a b => Spec.before positive a.1 b.1) → ∀ p ∈ d.zip d.tail, Spec.before positive p.1.1 p.2.1
  | [], _, p, hp => by simp at hp
  | [a], _, p, hp => by simp at hp
  | a :: b :: d, h, p, hp => by
    rw [List.pairwise_cons] at h
    rw [List.tail_cons, List.zip_cons_cons, List.mem_cons] at hp
    rcases hp with rfl | hp
    · exact h.1 b (by simp)
    · exact consecutive_before positive (b :: d) h.2 p hp

/-- C76.  Integrating a profile given on a monotonic coordinate, in either stored order: with `d` the levels in the direction of
integration and start and end points that are not zero, the result has one level for each consecutive pair of levels lying
between the start and the end; its point is the far end of the pair, its bounds the pair, and its value the total area, under
the positive part of the profile, of all the pairs up to and including this one. -/
theorem C76_value_partial (positive : Bool) (start stop : Option ℚ) (levels d : List (ℚ × ℚ)) (out : List IntegOut)
    (hm : levels.Pairwise (fun a b => a.1 < b.1) ∨ levels.Pairwise (fun a b => b.1 < a.1))
    (hperm : d.Perm levels) (hd : d.Pairwise (fun a b => Spec.before positive a.1 b.1))
    (h1 : start ≠ some 0) (h2 : stop ≠ some 0) (h : integrate positive start stop levels = .ok out) :
    out.length = (Spec.usedSegments positive start stop d).length ∧
    ∀ (i : ℕ) (a b : ℚ × ℚ), (Spec.usedSegments positive start stop d)[i]? = some (a, b) →
      ∃ o, out[i]? = some o ∧ o.point = b.1 ∧ o.bounds = (min a.1 b.1, max a.1 b.1) ∧
        o.value = (((Spec.usedSegments positive start stop d).take (i + 1)).map
          (fun p => Spec.trapezium p.1 p.2)).sum := by
  obtain ⟨hp, hdir⟩ := integOrder_dir positive levels hm
  have heq : integOrder positive levels = d := strict_perm_unique positive (hp.trans hperm.symm) hdir hd
  unfold integrate at h
  rw [heq, integSegments_eq] at h
  have hl := integLoop_spec positive h1 h2 (d.zip d.tail) 0 (List.pairwise_of_forall (fun _ _ => trivial))
    (consecutive_before positive d hd)
  by_cases he : integLoop positive start stop 0
      ((d.zip d.tail).map (fun p => if positive then (p.2, p.1) else (p.1, p.2))) = []
  · rw [if_pos he] at h; exact nomatch h
  · rw [if_neg he] at h
    injection h with h
    rw [← h]
    refine ⟨hl.1, fun i a b hi => ?_⟩
    obtain ⟨o, ho⟩ := hl.2 i a b hi
    exact ⟨o, ho.1, ho.2.1, ho.2.2.1, by rw [ho.2.2.2, zero_add]; rfl⟩

/-- C76.  Integration is refused exactly when no pair of consecutive levels lies between the start and the end. -/
theorem C76_refused_partial (positive : Bool) (start stop : Option ℚ) (levels d : List (ℚ × ℚ))
    (hm : levels.Pairwise (fun a b => a.1 < b.1) ∨ levels.Pairwise (fun a b => b.1 < a.1))
    (hperm : d.Perm levels) (hd : d.Pairwise (fun a b => Spec.before positive a.1 b.1))
    (h1 : start ≠ some 0) (h2 : stop ≠ some 0) :
    integrate positive start stop levels = .error .valueError ↔ Spec.usedSegments positive start stop d = [] := by
  obtain ⟨hp, hdir⟩ := integOrder_dir positive levels hm
  have heq : integOrder positive levels = d := strict_perm_unique positive (hp.trans hperm.symm) hdir hd
  unfold integrate
  rw [heq, integSegments_eq]
  have hl := (integLoop_spec positive h1 h2 (d.zip d.tail) 0 (List.pairwise_of_forall (fun _ _ => trivial))
    (consecutive_before positive d hd)).1
  simp only at hl ⊢
  rw [← List.length_eq_zero_iff (l := Spec.usedSegments positive start stop d)]
  unfold Spec.usedSegments
  rw [← hl, List.length_eq_zero_iff]
  split
  · rename_i h; simp [h]
  · rename_i h; simp [h]

theorem trapezium_nonneg (a b : ℚ × ℚ) : 0 ≤ Spec.trapezium a b := by
  unfold Spec.trapezium
  have h1 := le_max_right a.2 0
  have h2 := le_max_right b.2 0
  have := mul_nonneg (abs_nonneg (b.1 - a.1)) (add_nonneg h1 h2)
  linarith

theorem integLoop_mono (positive : Bool) (start stop : Option ℚ) : ∀ (segs : List ((ℚ × ℚ) × (ℚ × ℚ))) (acc : ℚ),
    (∀ o ∈ integLoop positive start stop acc segs, acc ≤ o.value) ∧
    (integLoop positive start stop acc segs).Pairwise (fun o p => o.value ≤ p.value)
  | [], acc => by simp [integLoop]
  | (u, l) :: segs, acc => by
    rw [integLoop]
    split
    · exact integLoop_mono positive start stop segs acc
    · have hh : ∀ s v : ℚ, 0 ≤ s → 0 ≤ halfData s v := by
        intro s v hs
        rw [halfData_eq]
        have := mul_nonneg hs (le_max_right v 0)
        linarith
      have h1 := hh |u.1 - l.1| u.2 (abs_nonneg _)
      have h2 := hh |u.1 - l.1| l.2 (abs_nonneg _)
      obtain ⟨ih1, ih2⟩ := integLoop_mono positive start stop segs
        (acc + (halfData |u.1 - l.1| u.2 + halfData |u.1 - l.1| l.2))
      constructor
      · intro o ho
        rcases List.mem_cons.1 ho with rfl | ho
        · simp only; linarith
        · have := ih1 o ho; linarith
      · exact List.pairwise_cons.2 ⟨fun o ho => ih1 o ho, ih2⟩

/-- C76.  For every input, order and pair of limits, the integral is nonnegative and never decreases along the direction of
integration. -/
theorem C76_monotone (positive : Bool) (start stop : Option ℚ) (levels : List (ℚ × ℚ)) (out : List IntegOut)
    (h : integrate positive start stop levels = .ok out) :
    (∀ o ∈ out, 0 ≤ o.value) ∧ out.Pairwise (fun o p => o.value ≤ p.value) := by
  unfold integrate at h
  simp only at h
  split at h
  · exact nomatch h
  · injection h with h
    rw [← h]
    exact integLoop_mono positive start stop _ 0

theorem used_none (positive : Bool) (d : List (ℚ × ℚ)) : Spec.usedSegments positive none none d = d.zip d.tail := by
  unfold Spec.usedSegments
  rw [List.filter_eq_self]
  intro p _
  cases positive <;> simp [Spec.withinLimits]

theorem trap_reverse_sum (d : List (ℚ × ℚ)) :
    ((d.reverse.zip d.reverse.tail).map (fun p => Spec.trapezium p.1 p.2)).sum
      = ((d.zip d.tail).map (fun p => Spec.trapezium p.1 p.2)).sum := by
  have hsym : ∀ a b, Spec.trapezium a b = Spec.trapezium b a := by
    intro a b; unfold Spec.trapezium; rw [abs_sub_comm]; ring
  have happ : ∀ (l : List (ℚ × ℚ)) (a : ℚ × ℚ), ((l ++ [a]).zip (l ++ [a]).tail).map (fun p => Spec.trapezium p.1 p.2)
      = (l.zip l.tail).map (fun p => Spec.trapezium p.1 p.2) ++
        (match l.getLast? with | some z => [Spec.trapezium z a] | none => []) := by
    intro l a
    induction l with
    | nil => simp
    | cons b l ih =>
      cases l with
      | nil => simp
      | cons c l => simpa using ih
  induction d with
  | nil => simp
  | cons a d ih =>
    rw [List.reverse_cons, happ, List.sum_append, ih]
    cases d with
    | nil => simp
    | cons b d => simp [hsym a b]; ring

/-- C76.  Without limits, the total is the same in either direction. -/
theorem C76_total (levels : List (ℚ × ℚ)) (up down : List IntegOut)
    (hm : levels.Pairwise (fun a b => a.1 < b.1) ∨ levels.Pairwise (fun a b => b.1 < a.1))
    (hu : integrate true none none levels = .ok up) (hd : integrate false none none levels = .ok down) :
    up.getLast?.map (·.value) = down.getLast?.map (·.value) ∧
    up.getLast?.map (·.value) = some ((levels.zip levels.tail).map (fun p => Spec.trapezium p.1 p.2)).sum := by
  have key : ∀ (positive : Bool) (d : List (ℚ × ℚ)) (out : List IntegOut), d.Perm levels →
      d.Pairwise (fun a b => Spec.before positive a.1 b.1) → integrate positive none none levels = .ok out →
      out.getLast?.map (·.value) = some ((d.zip d.tail).map (fun p => Spec.trapezium p.1 p.2)).sum := by
    intro positive d out hp hdir h
    obtain ⟨hlen, hval⟩ := C76_value_partial positive none none levels d out hm hp hdir (by simp) (by simp) h
    have hne : out ≠ [] := by
      intro e; unfold integrate at h; simp only at h; split at h
      · exact nomatch h
      · rename_i hn; injection h with h; exact hn (h.trans e)
    have hpos : 0 < out.length := List.length_pos_iff.2 hne
    have hlt : out.length - 1 < (Spec.usedSegments positive none none d).length := by omega
    obtain ⟨o, ho, _, _, hv⟩ := hval (out.length - 1) _ _ (List.getElem?_eq_getElem hlt)
    rw [List.getLast?_eq_getElem?, ho, Option.map_some, hv, Nat.sub_add_cancel hpos, hlen, List.take_length, used_none]
  have hrev : levels.Pairwise (fun a b => a.1 < b.1) ∨ levels.Pairwise (fun a b => b.1 < a.1) := hm
  rcases hm with hm | hm
  · have h1 := key true levels up (List.Perm.refl _) (hm.imp fun h => by simpa [Spec.before] using h) hu
    have h2 := key false levels.reverse down (List.reverse_perm _)
      (List.pairwise_reverse.2 (hm.imp fun h => by simpa [Spec.before] using h)) hd
    rw [trap_reverse_sum] at h2
    exact ⟨h1.trans h2.symm, h1⟩
  · have h2 := key false levels down (List.Perm.refl _) (hm.imp fun h => by simpa [Spec.before] using h) hd
    have h1 := key true levels.reverse up (List.reverse_perm _)
      (List.pairwise_reverse.2 (hm.imp fun h => by simpa [Spec.before] using h)) hu
    rw [trap_reverse_sum] at h1
    exact ⟨h1.trans h2.symm, h1⟩

/-- C76, finding.  A start point of zero is ignored: `if start_point:` is false for `0.0`.  Integrating upwards from 0, a
profile that begins at -10 wrongly contributes its part below 0. -/
theorem C76_zero_refuted : ∃ (levels : List (ℚ × ℚ)) (out : List IntegOut),
    levels.Pairwise (fun a b => a.1 < b.1) ∧ integrate true (some 0) none levels = .ok out ∧
    ∃ o ∈ out, o.bounds.1 < 0 :=
  ⟨[(-10, 1), (0, 1), (10, 1)], [⟨0, (-10, 0), 10⟩, ⟨10, (0, 10), 20⟩], by decide +kernel, by decide +kernel,
    ⟨0, (-10, 0), 10⟩, by simp, by norm_num⟩

/-- Concrete case: an increasing column, with a negative value, integrated downwards from 30 to 5. -/
example : integrate false (some 30) (some 5) [(5, -3), (10, 2), (20, 4), (40, 1)]
    = .ok [⟨10, (10, 20), 30⟩, ⟨5, (5, 10), 35⟩] := by decide +kernel

example : [((40 : ℚ), (1 : ℚ)), (20, 4), (10, 2), (5, -3)].Perm [(5, -3), (10, 2), (20, 4), (40, 1)] ∧
    [((40 : ℚ), (1 : ℚ)), (20, 4), (10, 2), (5, -3)].Pairwise (fun a b => Spec.before false a.1 b.1) := by
  constructor
  · exact (List.reverse_perm [((5 : ℚ), (-3 : ℚ)), (10, 2), (20, 4), (40, 1)])
  · simp [Spec.before]; norm_num

/-! ### C77: least squares -/

/-- Sum of squared differences between the line `a x + b` and the points. -/
def Spec.sse (pts : List (ℚ × ℚ)) (a b : ℚ) : ℚ := (pts.map (fun p => (p.2 - (a * p.1 + b)) * (p.2 - (a * p.1 + b)))).sum

theorem sum_map_lin {α : Type} (l : List α) (f g : α → ℚ) (a b : ℚ) :
    (l.map (fun p => a * f p + b * g p)).sum = a * (l.map f).sum + b * (l.map g).sum := by
  induction l with
  | nil => simp
  | cons x l ih => simp only [List.map_cons, List.sum_cons, ih]; ring

theorem sum_dev_zero (l : List (ℚ × ℚ)) (f : ℚ × ℚ → ℚ) : (l.map (fun p => f p - meanQ (l.map f))).sum = 0 := by
  have h : ∀ (m : List (ℚ × ℚ)) (c : ℚ), (m.map (fun p => f p - c)).sum = (m.map f).sum - m.length * c := by
    intro m c
    induction m with
    | nil => simp
    | cons x m ih => simp only [List.map_cons, List.sum_cons, ih, List.length_cons]; push_cast; ring
  rw [h]
  unfold meanQ
  rw [List.length_map]
  cases l with
  | nil => simp
  | cons x l =>
    have : ((x :: l).length : ℚ) ≠ 0 := by simp; positivity
    field_simp; ring

theorem sum_sq_nonneg {α : Type} (l : List α) (f : α → ℚ) : 0 ≤ (l.map (fun p => f p * f p)).sum := by
  apply List.sum_nonneg
  intro q hq
  obtain ⟨p, _, rfl⟩ := List.mem_map.1 hq
  exact mul_self_nonneg _

theorem sum_sq_zero {α : Type} : ∀ (l : List α) (f : α → ℚ), (l.map (fun p => f p * f p)).sum = 0 → ∀ p ∈ l, f p = 0
  | [], _, _, p, hp => by simp at hp
  | a :: l, f, h, p, hp => by
    rw [List.map_cons, List.sum_cons] at h
    have h1 := mul_self_nonneg (f a)
    have h2 := sum_sq_nonneg l f
    rcases List.mem_cons.1 hp with rfl | hp
    · exact mul_self_eq_zero.1 (by linarith)
    · exact sum_sq_zero l f (by linarith) p hp

/-- Excess of any line over the fitted one is a sum of squares. -/
theorem sse_excess (l : List (ℚ × ℚ)) (g : ℚ)
    (hg : (l.map (fun p => (p.1 - meanQ (l.map (·.1))) * (p.2 - meanQ (l.map (·.2))))).sum
      = g * (l.map (fun p => (p.1 - meanQ (l.map (·.1))) * (p.1 - meanQ (l.map (·.1))))).sum) (a b : ℚ) :
    Spec.sse l a b = Spec.sse l g (meanQ (l.map (·.2)) - g * meanQ (l.map (·.1)))
      + (l.map (fun p => ((a - g) * p.1 + (b - (meanQ (l.map (·.2)) - g * meanQ (l.map (·.1)))))
        * ((a - g) * p.1 + (b - (meanQ (l.map (·.2)) - g * meanQ (l.map (·.1))))))).sum := by
  set xm := meanQ (l.map (·.1)) with hxm
  set ym := meanQ (l.map (·.2)) with hym
  have hx : (l.map (fun p => p.1 - xm)).sum = 0 := sum_dev_zero l (·.1)
  have hy : (l.map (fun p => p.2 - ym)).sum = 0 := sum_dev_zero l (·.2)
  -- residuals
  have hr : (l.map (fun p => p.2 - (g * p.1 + (ym - g * xm)))).sum = 0 := by
    have := sum_map_lin l (fun p => p.2 - ym) (fun p => p.1 - xm) 1 (-g)
    rw [hx, hy] at this
    rw [← (show (1 : ℚ) * 0 + -g * 0 = 0 by ring), ← this]
    congr 1; apply List.map_congr_left; intro p _; ring
  have hrx : (l.map (fun p => (p.1 - xm) * (p.2 - (g * p.1 + (ym - g * xm))))).sum = 0 := by
    have := sum_map_lin l (fun p => (p.1 - xm) * (p.2 - ym)) (fun p => (p.1 - xm) * (p.1 - xm)) 1 (-g)
    rw [hg] at this
    rw [show (1 : ℚ) * (g * (l.map (fun p => (p.1 - xm) * (p.1 - xm))).sum)
      + -g * (l.map (fun p => (p.1 - xm) * (p.1 - xm))).sum = 0 by ring] at this
    rw [← this]
    congr 1; apply List.map_congr_left; intro p _; ring
  set c := ym - g * xm with hc
  unfold Spec.sse
  have e1 : (l.map (fun p => (p.2 - (a * p.1 + b)) * (p.2 - (a * p.1 + b)))).sum
      = (l.map (fun p => 1 * ((p.2 - (g * p.1 + c)) * (p.2 - (g * p.1 + c))
          + ((a - g) * p.1 + (b - c)) * ((a - g) * p.1 + (b - c)))
        + (-2) * ((a - g) * ((p.1 - xm) * (p.2 - (g * p.1 + c))) + ((a - g) * xm + (b - c)) * (p.2 - (g * p.1 + c))))).sum := by
    congr 1; apply List.map_congr_left; intro p _; ring
  rw [e1, sum_map_lin, sum_map_lin, hr, hrx]
  have := sum_map_lin l (fun p => (p.2 - (g * p.1 + c)) * (p.2 - (g * p.1 + c)))
    (fun p => ((a - g) * p.1 + (b - c)) * ((a - g) * p.1 + (b - c))) 1 1
  simp only [one_mul] at this ⊢
  rw [this]; ring

/-- Positions finite in both inputs. -/
def Spec.bothFinite (pts : List (Option ℚ × Option ℚ)) (l : List (ℚ × ℚ)) : Prop :=
  (pts.filter (fun p => p.1.isSome && p.2.isSome)) = l.map (fun p => (some p.1, some p.2))

theorem bothFinite_finitePairs : ∀ pts : List (Option ℚ × Option ℚ), Spec.bothFinite pts (finitePairs pts)
  | [] => rfl
  | (none, y) :: pts => by
    have := bothFinite_finitePairs pts
    unfold Spec.bothFinite finitePairs at *; simpa using this
  | (some x, none) :: pts => by
    have := bothFinite_finitePairs pts
    unfold Spec.bothFinite finitePairs at *; simpa using this
  | (some x, some y) :: pts => by
    have := bothFinite_finitePairs pts
    unfold Spec.bothFinite finitePairs at *; simpa using this

theorem bothFinite_eq {pts : List (Option ℚ × Option ℚ)} {l : List (ℚ × ℚ)} (h : Spec.bothFinite pts l) :
    finitePairs pts = l := by
  have h2 := bothFinite_finitePairs pts
  unfold Spec.bothFinite at h h2
  rw [h] at h2
  have hinj : Function.Injective (fun p : ℚ × ℚ => ((some p.1, some p.2) : Option ℚ × Option ℚ)) := by
    intro p q h; simp at h; exact Prod.ext h.1 h.2
  exact (List.map_injective_iff.2 hinj h2).symm

/-- C77.  The fitted gradient and intercept make the sum of squared differences over the finite points the least
possible, and are the only ones that do. -/
theorem C77_least_squares (pts : List (Option ℚ × Option ℚ)) (l : List (ℚ × ℚ)) (hl : Spec.bothFinite pts l) (g c : ℚ)
    (h : linearFit pts = .ok (some (g, c))) (a b : ℚ) :
    Spec.sse l g c ≤ Spec.sse l a b ∧ (Spec.sse l a b = Spec.sse l g c → a = g ∧ b = c) := by
  have hl := bothFinite_eq hl
  unfold linearFit at h
  simp only at h
  split at h
  · exact nomatch h
  · split at h
    · injection h with h; exact nomatch h
    · rename_i hv
      injection h with h; injection h with h
      rw [hl] at h hv
      obtain ⟨hg, hc⟩ := Prod.mk.inj h
      have hg' : (l.map (fun p => (p.1 - meanQ (l.map (·.1))) * (p.2 - meanQ (l.map (·.2))))).sum
        = g * (l.map (fun p => (p.1 - meanQ (l.map (·.1))) * (p.1 - meanQ (l.map (·.1))))).sum := by
        rw [← hg, div_mul_cancel₀ _ hv]
      rw [hg] at hc
      have hex := sse_excess l g hg' a b
      rw [hc] at hex
      have hnn := sum_sq_nonneg l (fun p => (a - g) * p.1 + (b - c))
      refine ⟨by linarith, fun he => ?_⟩
      have hz : ∀ p ∈ l, (a - g) * p.1 + (b - c) = 0 := sum_sq_zero l (fun p => (a - g) * p.1 + (b - c)) (by linarith)
      have hag : a - g = 0 := by
        by_contra hne
        apply hv
        have hx : ∀ p ∈ l, p.1 = -(b - c) / (a - g) := by
          intro p hp
          have := hz p hp
          field_simp; linarith
        have hall : ∀ p ∈ l, p.1 - meanQ (l.map (·.1)) = 0 := by
          have hd := sum_dev_zero l (·.1)
          intro p hp
          have hcst : l.map (fun q => q.1 - meanQ (l.map (·.1))) = l.map (fun _ => p.1 - meanQ (l.map (·.1))) := by
            apply List.map_congr_left; intro q hq; rw [hx q hq, hx p hp]
          rw [hcst, List.map_const', List.sum_replicate, nsmul_eq_mul] at hd
          have hlen : (l.length : ℚ) ≠ 0 := by
            have := List.length_pos_of_mem hp
            positivity
          exact (mul_eq_zero.1 hd).resolve_left hlen
        have : l.map (fun p => (p.1 - meanQ (l.map (·.1))) * (p.1 - meanQ (l.map (·.1)))) = l.map (fun _ => (0 : ℚ)) := by
          apply List.map_congr_left; intro p hp; rw [hall p hp]; ring
        rw [this]; simp
      have hag' : a = g := by linarith
      refine ⟨hag', ?_⟩
      cases hcases : l with
      | nil => rw [hcases] at hv; simp at hv
      | cons p l' =>
        have := hz p (by rw [hcases]; simp)
        rw [hag] at this
        linarith

/-- C77.  The fit is refused exactly when NaNs are at different positions in the two inputs; otherwise the result is NaN exactly
when all the finite abscissae are equal (or there is none). -/
theorem C77_outcome (pts : List (Option ℚ × Option ℚ)) (l : List (ℚ × ℚ)) (hl : Spec.bothFinite pts l) :
    (linearFit pts = .error .valueError ↔ ∃ p ∈ pts, p.1.isSome ≠ p.2.isSome) ∧
    (linearFit pts = .ok none ↔ (∀ p ∈ pts, p.1.isSome = p.2.isSome) ∧ ∀ p ∈ l, ∀ q ∈ l, p.1 = q.1) := by
  have hl := bothFinite_eq hl
  have hall : pts.all (fun p => p.1.isNone == p.2.isNone) = true ↔ ∀ p ∈ pts, p.1.isSome = p.2.isSome := by
    rw [List.all_eq_true]
    refine forall₂_congr fun p _ => ?_
    obtain ⟨x, y⟩ := p
    cases x <;> cases y <;> simp
  have hvar : (l.map (fun p => (p.1 - meanQ (l.map (·.1))) * (p.1 - meanQ (l.map (·.1))))).sum = 0 ↔
      ∀ p ∈ l, ∀ q ∈ l, p.1 = q.1 := by
    constructor
    · intro h p hp q hq
      have h1 := sum_sq_zero l (fun p => p.1 - meanQ (l.map (·.1))) h p hp
      have h2 := sum_sq_zero l (fun p => p.1 - meanQ (l.map (·.1))) h q hq
      linarith
    · intro h
      cases hc : l with
      | nil => simp
      | cons a l' =>
        rw [← hc]
        have ha : a ∈ l := by rw [hc]; simp
        have hz : ∀ p ∈ l, p.1 - meanQ (l.map (·.1)) = 0 := by
          have hd := sum_dev_zero l (·.1)
          intro p hp
          have hcst : l.map (fun q => q.1 - meanQ (l.map (·.1))) = l.map (fun _ => p.1 - meanQ (l.map (·.1))) := by
            apply List.map_congr_left; intro q hq; rw [h q hq p hp]
          rw [hcst, List.map_const', List.sum_replicate, nsmul_eq_mul] at hd
          have hlen : (l.length : ℚ) ≠ 0 := by
            have := List.length_pos_of_mem hp
            positivity
          exact (mul_eq_zero.1 hd).resolve_left hlen
        have : l.map (fun p => (p.1 - meanQ (l.map (·.1))) * (p.1 - meanQ (l.map (·.1)))) = l.map (fun _ => (0 : ℚ)) := by
          apply List.map_congr_left; intro p hp; rw [hz p hp]; ring
        rw [this]; simp
  unfold linearFit
  simp only [hl]
  by_cases ha : ∀ p ∈ pts, p.1.isSome = p.2.isSome
  · have h1 := hall.2 ha
    simp only [h1, Bool.not_true, Bool.false_eq_true, if_false]
    by_cases hv : (l.map (fun p => (p.1 - meanQ (l.map (·.1))) * (p.1 - meanQ (l.map (·.1))))).sum = 0
    · rw [if_pos hv]
      refine ⟨⟨fun h => (nomatch h), fun ⟨p, hp, hne⟩ => absurd (ha p hp) hne⟩, ⟨fun _ => ⟨ha, hvar.1 hv⟩, fun _ => rfl⟩⟩
    · rw [if_neg hv]
      refine ⟨⟨fun h => (nomatch h), fun ⟨p, hp, hne⟩ => absurd (ha p hp) hne⟩, ⟨fun h => ?_, fun h => absurd (hvar.2 h.2) hv⟩⟩
      injection h with h; exact nomatch h
  · have h1 : pts.all (fun p => p.1.isNone == p.2.isNone) = false := by rw [← Bool.not_eq_true, hall]; exact ha
    simp only [h1, Bool.not_false, if_true]
    refine ⟨⟨fun _ => ?_, fun _ => trivial⟩, ⟨fun h => (nomatch h), fun h => absurd h.1 ha⟩⟩
    push Not at ha
    exact ha

/-- C77.  Points on a straight line are fitted exactly. -/
theorem C77_exact (pts : List (Option ℚ × Option ℚ)) (l : List (ℚ × ℚ)) (hl : Spec.bothFinite pts l) (g c a b : ℚ)
    (h : linearFit pts = .ok (some (g, c))) (hline : ∀ p ∈ l, p.2 = a * p.1 + b) : g = a ∧ c = b := by
  obtain ⟨h1, h2⟩ := C77_least_squares pts l hl g c h a b
  have hz : Spec.sse l a b = 0 := by
    unfold Spec.sse
    have : l.map (fun p => (p.2 - (a * p.1 + b)) * (p.2 - (a * p.1 + b))) = l.map (fun _ => (0 : ℚ)) := by
      apply List.map_congr_left; intro p hp; rw [hline p hp]; ring
    rw [this]; simp
  have hnn : 0 ≤ Spec.sse l g c := sum_sq_nonneg l (fun p => p.2 - (g * p.1 + c))
  obtain ⟨e1, e2⟩ := h2 (by linarith)
  exact ⟨e1.symm, e2.symm⟩

/-- Concrete case with a NaN. -/
example : linearFit [(some 0, some 1), (none, none), (some 1, some 2), (some 2, some 2)] = .ok (some (1 / 2, 7 / 6)) ∧
    Spec.bothFinite [(some 0, some 1), (none, none), (some 1, some 2), (some 2, some 2)] [(0, 1), (1, 2), (2, 2)] := by
  constructor
  · decide +kernel
  · unfold Spec.bothFinite; simp

end Improver
