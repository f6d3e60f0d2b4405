import Verif.Model.FlowCommand
import Verif.Props.SteeringFlow

/-! C277: velocities of `nowcast-optical-flow` from a list of rate cubes. -/

namespace Improver

namespace Spec

/-- The rate of a cube in mm/h without the orographic enhancement of the nearest time, 0 where the cube is masked. -/
def ClearRate (oe : List (ℤ × (ℕ → ℕ → ℚ))) (c : NowcastCube) (d : ℕ → ℕ → ℚ) : Prop :=
  ∃ s, nearestSlice oe c.time s ∧ ∀ y x, d y x = match c.data y x with
    | none => 0
    | some q => oeSub (1 / 32) (s.2 y x) (q * c.scale)

end Spec

theorem oeSub_scale {k : ℚ} (hk : 0 < k) (t e p : ℚ) : Spec.oeSub (t / k) (e / k) p * k = Spec.oeSub t e (p * k) := by
  unfold Spec.oeSub
  have h1 : p < t / k ↔ p * k < t := lt_div_iff₀ hk
  by_cases h : p < t / k
  · rw [if_pos h, if_pos (h1.1 h)]
  · rw [if_neg h, if_neg (fun q => h (h1.2 q)), max_mul_of_nonneg _ _ hk.le, sub_mul, div_mul_cancel₀ _ hk.ne', div_mul_cancel₀ _ hk.ne']

theorem withoutEnhancement_ok {oe : List (ℤ × (ℕ → ℕ → ℚ))} {c d : NowcastCube} (hk : 0 < c.scale) (h : withoutEnhancement oe c = .ok d) :
    d.name = c.name ∧ d.xs = c.xs ∧ d.ys = c.ys ∧ d.time = c.time ∧ d.period = c.period ∧ Spec.ClearRate oe c (flowData d.scale d.data) := by
  unfold withoutEnhancement at h
  simp only [bind, Except.bind] at h
  cases hf : oeField "subtract" (1 / 32 / c.scale) (oe.map fun p => (p.1, fun y x => p.2 y x / c.scale)) c.time c.data with
  | error e => rw [hf] at h; exact nomatch h
  | ok g =>
  rw [hf] at h
  injection h with h
  subst h
  refine ⟨rfl, rfl, rfl, rfl, rfl, ?_⟩
  obtain ⟨s, hs, hg⟩ := oeField_spec _ _ _ _ _ _ (Or.inr rfl) hf
  obtain ⟨h1, h2, h3⟩ := hs
  obtain ⟨p, hp, rfl⟩ := List.mem_map.1 h1
  refine ⟨p, ⟨hp, fun q hq => h2 (q.1, fun y x => q.2 y x / c.scale) (List.mem_map.2 ⟨q, hq, rfl⟩), h3⟩, fun y x => ?_⟩
  unfold flowData
  dsimp only
  rw [hg]
  rw [if_neg (by decide)]
  cases c.data y x with
  | none => rfl
  | some q => exact oeSub_scale hk _ _ _

theorem pairFlow_ok {sat : ℚ → ℚ} {a b : NowcastCube} {f : (ℕ → ℕ → ℚ) × (ℕ → ℕ → ℚ)} (h : pairFlow sat a b = .ok f) :
    a.name = b.name ∧ a.xs = b.xs ∧ a.ys = b.ys ∧ ∃ s, gridSpacing a.xs = .ok s ∧ opticalFlow sat "box" 14 100 30
      ⟨a.ys.length, a.xs.length, s / 1000, a.time, b.time, a.period, b.period, flowData a.scale a.data, flowData b.scale b.data⟩ = .ok f := by
  unfold pairFlow at h
  simp only [bind, Except.bind] at h
  cases hc : flowCompatible a b with
  | error e => rw [hc] at h; exact nomatch h
  | ok r =>
  rw [hc] at h
  cases hs : gridSpacing a.xs with
  | error e => rw [hs] at h; exact nomatch h
  | ok s =>
  rw [hs] at h
  unfold flowCompatible at hc
  by_cases h1 : a.name ≠ b.name
  · rw [if_pos h1] at hc; exact nomatch hc
  rw [if_neg h1] at hc
  by_cases h2 : a.xs ≠ b.xs ∨ a.ys ≠ b.ys
  · rw [if_pos h2] at hc; exact nomatch hc
  rw [not_or, not_not, not_not] at h2
  exact ⟨not_not.1 h1, h2.1, h2.2, s, rfl, h⟩

/-- The steps of the command. -/
theorem flowCommand_parts {sat : ℚ → ℚ} {oe : List (ℤ × (ℕ → ℕ → ℚ))} {cubes : List NowcastCube} {u v : ℕ → ℕ → ℚ} {t : ℤ}
    (h : flowCommand sat oe cubes = .ok (u, v, t)) :
    ∃ plain flows, (cubes.insertionSort fun a b => a.time ≤ b.time).mapM (withoutEnhancement oe) = .ok plain ∧
      ((plain.zip plain.tail).mapM fun p => pairFlow sat p.1 p.2) = .ok flows ∧ flows ≠ [] ∧ (plain.tail.map fun c => c.time).Nodup ∧
      u = meanField (flows.map Prod.fst) ∧ v = meanField (flows.map Prod.snd) ∧ ∃ l, plain.getLast? = some l ∧ t = l.time := by
  unfold flowCommand at h
  simp only [bind, Except.bind] at h
  cases h1 : (cubes.insertionSort fun a b => a.time ≤ b.time).mapM (withoutEnhancement oe) with
  | error e => rw [h1] at h; exact nomatch h
  | ok plain =>
  rw [h1] at h
  dsimp only at h
  cases h2 : ((plain.zip plain.tail).mapM fun p => pairFlow sat p.1 p.2) with
  | error e => rw [h2] at h; exact nomatch h
  | ok flows =>
  rw [h2] at h
  dsimp only at h
  cases h3 : plain.getLast? with
  | none => rw [h3] at h; exact nomatch h
  | some l =>
  rw [h3] at h
  dsimp only at h
  by_cases h4 : flows = []
  · rw [if_pos h4] at h; exact nomatch h
  rw [if_neg h4] at h
  by_cases h5 : (plain.tail.map fun c => c.time).Nodup
  · rw [if_neg (not_not.2 h5)] at h
    injection h with h
    simp only [Prod.mk.injEq] at h
    exact ⟨plain, flows, rfl, h2, h4, h5, h.1.symm, h.2.1.symm, l, h3, h.2.2.symm⟩
  · rw [if_pos h5] at h; exact nomatch h

theorem timeSort_pairwise (cubes : List NowcastCube) :
    (cubes.insertionSort fun a b => a.time ≤ b.time).Pairwise fun a b => a.time ≤ b.time := by
  haveI : Std.Total (fun a b : NowcastCube => a.time ≤ b.time) := ⟨fun a b => le_total a.time b.time⟩
  haveI : IsTrans NowcastCube (fun a b : NowcastCube => a.time ≤ b.time) := ⟨fun _ _ _ => le_trans⟩
  exact List.pairwise_insertionSort _ _

theorem getElem?_zip_tail {α : Type} {l : List α} {k : ℕ} {a b : α} (ha : l[k]? = some a) (hb : l[k + 1]? = some b) :
    (l.zip l.tail)[k]? = some (a, b) := by
  rw [List.getElem?_zip_eq_some]
  refine ⟨ha, ?_⟩
  rw [List.getElem?_tail]
  exact hb

/-- C277.  Velocities are returned for the latest time; they are the means over the pairs of consecutive cubes in order of time of the velocities that
optical flow finds between the rates in mm/h without orographic enhancement, with a smoothing radius of 14 km, 100 iterations and boxes of 30 points.  The
cubes have one name and one grid, and only the two earliest may have the same time. -/
theorem C277_result {sat : ℚ → ℚ} {oe : List (ℤ × (ℕ → ℕ → ℚ))} {cubes : List NowcastCube} {u v : ℕ → ℕ → ℚ} {t : ℤ}
    (hk : ∀ c ∈ cubes, 0 < c.scale) (h : flowCommand sat oe cubes = .ok (u, v, t)) :
    ∃ (sorted : List NowcastCube) (flows : List ((ℕ → ℕ → ℚ) × (ℕ → ℕ → ℚ))), sorted.Perm cubes ∧
      sorted.Pairwise (fun a b => a.time ≤ b.time) ∧ sorted.tail.Pairwise (fun a b => a.time < b.time) ∧
      2 ≤ cubes.length ∧ flows.length + 1 = cubes.length ∧
      (∀ y x, u y x = (flows.map fun f => f.1 y x).sum / flows.length) ∧ (∀ y x, v y x = (flows.map fun f => f.2 y x).sum / flows.length) ∧
      (∃ c ∈ cubes, c.time = t) ∧ (∀ c ∈ cubes, c.time ≤ t) ∧
      ∀ (k : ℕ) (a b : NowcastCube), sorted[k]? = some a → sorted[k + 1]? = some b → a.name = b.name ∧ a.xs = b.xs ∧ a.ys = b.ys ∧
        ∃ f spacing d1 d2, flows[k]? = some f ∧ gridSpacing a.xs = .ok spacing ∧ Spec.ClearRate oe a d1 ∧ Spec.ClearRate oe b d2 ∧
          opticalFlow sat "box" 14 100 30 ⟨a.ys.length, a.xs.length, spacing / 1000, a.time, b.time, a.period, b.period, d1, d2⟩ = .ok f := by
  obtain ⟨plain, flows, h1, h2, h3, h4, rfl, rfl, l, h5, rfl⟩ := flowCommand_parts h
  have hperm := List.perm_insertionSort (fun a b : NowcastCube => a.time ≤ b.time) cubes
  have hsort := timeSort_pairwise cubes
  revert h1 hperm hsort
  generalize (cubes.insertionSort fun a b => a.time ≤ b.time) = sorted
  intro h1 hperm hsort
  have hk' : ∀ c ∈ sorted, 0 < c.scale := fun c hc => hk c (hperm.mem_iff.1 hc)
  obtain ⟨l1, g1⟩ := mapM_index _ _ _ h1
  obtain ⟨l2, g2⟩ := mapM_index _ _ _ h2
  have each : ∀ (k : ℕ) (a : NowcastCube), sorted[k]? = some a → ∃ d, plain[k]? = some d ∧ withoutEnhancement oe a = .ok d := by
    intro k a ha
    have hlt : k < sorted.length := (List.getElem?_eq_some_iff.1 ha).1
    have hd : plain[k]? = some (plain[k]'(by omega)) := List.getElem?_eq_getElem _
    obtain ⟨a', e1, e2⟩ := g1 k _ hd
    rw [ha] at e1
    injection e1 with e1
    subst e1
    exact ⟨_, hd, e2⟩
  have htimes : plain.map (fun c => c.time) = sorted.map fun c => c.time := by
    apply List.ext_getElem?
    intro k
    rw [List.getElem?_map, List.getElem?_map]
    cases ha : sorted[k]? with
    | none => rw [List.getElem?_eq_none_iff] at ha; rw [List.getElem?_eq_none_iff.2 (by omega)]
    | some a =>
      obtain ⟨d, e1, e2⟩ := each k a ha
      rw [e1]
      simp only [Option.map_some]
      rw [(withoutEnhancement_ok (hk' a (List.mem_of_getElem? ha)) e2).2.2.2.1]
  rw [List.length_zip, List.length_tail] at l2
  have hne : 0 < flows.length := List.length_pos_of_ne_nil h3
  have hlen : sorted.length = cubes.length := hperm.length_eq
  have hlast : ∃ c ∈ sorted, c.time = l.time ∧ sorted.getLast? = some c := by
    have e : sorted ≠ [] := by intro e; rw [e] at l1; simp only [List.length_nil] at l1; omega
    refine ⟨sorted.getLast e, List.getLast_mem e, ?_, List.getLast?_eq_getLast_of_ne_nil e⟩
    have := congrArg List.getLast? htimes
    rw [List.getLast?_map, List.getLast?_map, h5, List.getLast?_eq_getLast_of_ne_nil e] at this
    simpa using this.symm
  obtain ⟨c, hc, hct, hcl⟩ := hlast
  refine ⟨sorted, flows, hperm, hsort, ?_, by omega, by omega, ?_, ?_, ⟨c, hperm.mem_iff.1 hc, hct⟩, ?_, ?_⟩
  · have h6 : (sorted.tail.map fun c => c.time).Nodup := by rw [List.map_tail, ← htimes, ← List.map_tail]; exact h4
    have h7 : sorted.tail.Pairwise fun a b => a.time ≤ b.time := hsort.sublist (List.tail_sublist _)
    rw [List.Nodup, List.pairwise_map] at h6
    exact (h6.and h7).imp fun hx => lt_of_le_of_ne hx.2 hx.1
  · intro y x; unfold meanField; simp only [List.map_map, List.length_map, Function.comp_def]
  · intro y x; unfold meanField; simp only [List.map_map, List.length_map, Function.comp_def]
  · intro d hd
    rw [← hct]
    obtain ⟨pre, rfl⟩ : ∃ pre, sorted = pre ++ [c] := by
      have e : sorted ≠ [] := List.ne_nil_of_mem hc
      refine ⟨sorted.dropLast, ?_⟩
      rw [List.getLast?_eq_getLast_of_ne_nil e] at hcl
      injection hcl with hcl
      rw [← hcl, List.dropLast_concat_getLast]
    rcases List.mem_append.1 (hperm.mem_iff.2 hd) with hd | hd
    · exact (List.pairwise_append.1 hsort).2.2 d hd c (List.mem_singleton.2 rfl)
    · rw [List.mem_singleton.1 hd]
  · intro k a b ha hb
    obtain ⟨a', ea, wa⟩ := each k a ha
    obtain ⟨b', eb, wb⟩ := each (k + 1) b hb
    have hz := getElem?_zip_tail ea eb
    have hlt : k + 1 < sorted.length := (List.getElem?_eq_some_iff.1 hb).1
    have hf : flows[k]? = some (flows[k]'(by omega)) := List.getElem?_eq_getElem _
    obtain ⟨p, e1, e2⟩ := g2 k _ hf
    rw [hz] at e1
    injection e1 with e1
    subst e1
    obtain ⟨p1, p2, p3, s, p4, p5⟩ := pairFlow_ok e2
    obtain ⟨a1, a2, a3, a4, a5, a6⟩ := withoutEnhancement_ok (hk' a (List.mem_of_getElem? ha)) wa
    obtain ⟨b1, b2, b3, b4, b5, b6⟩ := withoutEnhancement_ok (hk' b (List.mem_of_getElem? hb)) wb
    dsimp only at p1 p2 p3 p4 p5
    rw [a2] at p4
    rw [a2, a3, a4, a5, b4, b5] at p5
    exact ⟨by rw [← a1, p1, b1], by rw [← a2, p2, b2], by rw [← a3, p3, b3], _, s, _, _, hf, p4, a6, b6, p5⟩

/-- C277.  The order in which the cubes are given does not matter if their times differ. -/
theorem C277_order {sat : ℚ → ℚ} {oe : List (ℤ × (ℕ → ℕ → ℚ))} {cubes others : List NowcastCube} (hp : cubes.Perm others)
    (hd : (cubes.map fun c => c.time).Nodup) : flowCommand sat oe cubes = flowCommand sat oe others := by
  have e : (cubes.insertionSort fun a b => a.time ≤ b.time) = others.insertionSort fun a b => a.time ≤ b.time := by
    refine List.Perm.eq_of_pairwise (le := fun a b => a.time ≤ b.time) ?_ (timeSort_pairwise _) (timeSort_pairwise _)
      ((List.perm_insertionSort _ _).trans (hp.trans (List.perm_insertionSort _ _).symm))
    intro a b ha hb h1 h2
    exact List.inj_on_of_nodup_map hd ((List.perm_insertionSort _ _).mem_iff.1 ha) (hp.mem_iff.2 ((List.perm_insertionSort _ _).mem_iff.1 hb))
      (le_antisymm h1 h2)
  unfold flowCommand
  rw [e]

theorem same_along {α β : Type} (f : α → β) {l : List α} (h : ∀ (k : ℕ) (a b : α), l[k]? = some a → l[k + 1]? = some b → f a = f b) :
    ∀ a ∈ l, ∀ b ∈ l, f a = f b := by
  have key : ∀ (k : ℕ) (a b : α), l[0]? = some a → l[k]? = some b → f a = f b := by
    intro k
    induction k with
    | zero => intro a b ha hb; rw [ha] at hb; cases hb; rfl
    | succ k ih =>
      intro a b ha hb
      have hlt : k + 1 < l.length := (List.getElem?_eq_some_iff.1 hb).1
      have hm : l[k]? = some (l[k]'(by omega)) := List.getElem?_eq_getElem _
      exact (ih a _ ha hm).trans (h k _ b hm hb)
  intro a ha b hb
  have h0 : l[0]? = some (l[0]'(List.length_pos_of_mem ha)) := List.getElem?_eq_getElem _
  obtain ⟨i, hi⟩ := List.getElem?_of_mem ha
  obtain ⟨j, hj⟩ := List.getElem?_of_mem hb
  rw [← key i _ a h0 hi, ← key j _ b h0 hj]

/-- C277.  Nothing is returned for fewer than two cubes, for cubes of several names or grids, for a cube without orographic enhancement within half an
hour, or if three cubes have the same time. -/
theorem C277_refused {sat : ℚ → ℚ} {oe : List (ℤ × (ℕ → ℕ → ℚ))} {cubes : List NowcastCube} (hk : ∀ c ∈ cubes, 0 < c.scale)
    (h : cubes.length < 2 ∨ (∃ a ∈ cubes, ∃ b ∈ cubes, a.name ≠ b.name ∨ a.xs ≠ b.xs ∨ a.ys ≠ b.ys) ∨
      (∃ c ∈ cubes, ∀ s ∈ oe, 1800 < |c.time - s.1|) ∨ ∃ t, 3 ≤ (cubes.filter fun c => decide (c.time = t)).length) :
    ∀ out, flowCommand sat oe cubes ≠ .ok out := by
  rintro ⟨u, v, t⟩ hout
  obtain ⟨sorted, flows, h1, h2, h3, h4, h5, -, -, -, -, h6⟩ := C277_result hk hout
  rcases h with h | ⟨a, ha, b, hb, h⟩ | ⟨c, hc, h⟩ | ⟨t', h⟩
  · omega
  · have ha' := h1.mem_iff.2 ha
    have hb' := h1.mem_iff.2 hb
    rcases h with h | h | h
    · exact h (same_along (fun c => c.name) (fun k a b e1 e2 => (h6 k a b e1 e2).1) a ha' b hb')
    · exact h (same_along (fun c => c.xs) (fun k a b e1 e2 => (h6 k a b e1 e2).2.1) a ha' b hb')
    · exact h (same_along (fun c => c.ys) (fun k a b e1 e2 => (h6 k a b e1 e2).2.2.1) a ha' b hb')
  · obtain ⟨k, hk⟩ := List.getElem?_of_mem (h1.mem_iff.2 hc)
    have hl : sorted.length = cubes.length := h1.length_eq
    have hlt : k < sorted.length := (List.getElem?_eq_some_iff.1 hk).1
    have hcr : ∃ d, Spec.ClearRate oe c d := by
      by_cases e : k + 1 < sorted.length
      · have hb : sorted[k + 1]? = some (sorted[k + 1]'e) := List.getElem?_eq_getElem _
        obtain ⟨-, -, -, f, sp, d1, d2, -, -, g1, -⟩ := h6 k c _ hk hb
        exact ⟨d1, g1⟩
      · obtain ⟨j, rfl⟩ : ∃ j, k = j + 1 := ⟨k - 1, by omega⟩
        have ha : sorted[j]? = some (sorted[j]'(by omega)) := List.getElem?_eq_getElem _
        obtain ⟨-, -, -, f, sp, d1, d2, -, -, -, g1, -⟩ := h6 j _ c ha hk
        exact ⟨d2, g1⟩
    obtain ⟨d, s, ⟨hs, -, hs'⟩, -⟩ := hcr
    exact absurd (h s hs) (not_lt.2 hs')
  · have e : (sorted.filter fun c => decide (c.time = t')).length = (cubes.filter fun c => decide (c.time = t')).length :=
      (h1.filter _).length_eq
    rw [← e] at h
    have : ((sorted.tail).filter fun c => decide (c.time = t')).length ≤ 1 := by
      generalize sorted.tail = l at h3
      induction h3 with
      | nil => simp
      | @cons a l hall _ ih =>
        by_cases ea : a.time = t'
        · rw [List.filter_cons_of_pos (by simpa using ea), List.filter_eq_nil_iff.2 fun c hc => by
            have := hall c hc
            simp only [decide_eq_true_eq]
            omega]
          simp
        · rw [List.filter_cons_of_neg (by simpa using ea)]; exact ih
    cases sorted with
    | nil => simp at h
    | cons a l =>
      rw [List.tail_cons] at this
      have h7 : ((a :: l).filter fun c => decide (c.time = t')).length ≤ (l.filter fun c => decide (c.time = t')).length + 1 := by
        rw [List.filter_cons]
        split <;> simp
      omega

theorem mean_bound {l : List ℚ} {B : ℚ} (h : ∀ q ∈ l, |q| ≤ B) (hB : 0 ≤ B) : |l.sum / l.length| ≤ B := by
  have hs : |l.sum| ≤ B * l.length := by
    induction l with
    | nil => simp
    | cons a l ih =>
      have h1 := ih fun q hq => h q (List.mem_cons_of_mem _ hq)
      have h2 := h a List.mem_cons_self
      rw [List.sum_cons, List.length_cons]
      push_cast
      calc |a + l.sum| ≤ |a| + |l.sum| := abs_add_le _ _
        _ ≤ B * (l.length + 1) := by linarith
  rw [abs_div, Nat.abs_cast]
  by_cases e : (l.length : ℚ) = 0
  · rw [e, div_zero]; exact hB
  · have : (0 : ℚ) < l.length := lt_of_le_of_ne (Nat.cast_nonneg _) (Ne.symm e)
    rw [div_le_iff₀ this]
    exact hs

/-- C277.  With times at least `m` seconds apart the velocities are at most a third of the number of rows of boxes, in grid lengths, per `m` seconds. -/
theorem C277_bound {sat : ℚ → ℚ} {oe : List (ℤ × (ℕ → ℕ → ℚ))} {cubes : List NowcastCube} {u v : ℕ → ℕ → ℚ} {t m : ℤ} {spacing : ℚ} {xs ys : List ℚ}
    (hk : ∀ c ∈ cubes, 0 < c.scale) (h : flowCommand sat oe cubes = .ok (u, v, t)) (hm : 0 < m)
    (happart : cubes.Pairwise fun a b => m ≤ |a.time - b.time|) (hgrid : ∀ c ∈ cubes, c.xs = xs ∧ c.ys = ys) (hx : xs ≠ []) (hy : ys ≠ [])
    (hsp : gridSpacing xs = .ok spacing) (hpos : 0 < spacing) (y x : ℕ) :
    |u y x| ≤ (boxCount ys.length 30 : ℚ) / 3 * spacing / m ∧ |v y x| ≤ (boxCount ys.length 30 : ℚ) / 3 * spacing / m := by
  obtain ⟨sorted, flows, h1, h2, h3, h4, h5, hu, hv, -, -, h6⟩ := C277_result hk h
  have hm' : (0 : ℚ) < m := by exact_mod_cast hm
  have hap : sorted.Pairwise fun a b => m ≤ |a.time - b.time| := (h1.pairwise_iff (fun {a b} e => by rw [abs_sub_comm]; exact e)).2 happart
  have hl : sorted.length = cubes.length := h1.length_eq
  have hB : (0 : ℚ) ≤ (boxCount ys.length 30 : ℚ) / 3 * spacing / m := by positivity
  have each : ∀ f ∈ flows, |f.1 y x| ≤ (boxCount ys.length 30 : ℚ) / 3 * spacing / m ∧ |f.2 y x| ≤ (boxCount ys.length 30 : ℚ) / 3 * spacing / m := by
    intro f hf
    obtain ⟨k, hkf⟩ := List.getElem?_of_mem hf
    have hlt : k < flows.length := (List.getElem?_eq_some_iff.1 hkf).1
    have ha : sorted[k]? = some (sorted[k]'(by omega)) := List.getElem?_eq_getElem _
    have hb : sorted[k + 1]? = some (sorted[k + 1]'(by omega)) := List.getElem?_eq_getElem _
    obtain ⟨-, -, -, f', sp, d1, d2, e1, e2, -, -, e3⟩ := h6 k _ _ ha hb
    rw [hkf] at e1
    injection e1 with e1
    subst e1
    have hg := hgrid _ (h1.mem_iff.1 (List.mem_of_getElem? ha))
    rw [hg.1, hsp] at e2
    injection e2 with e2
    subst e2
    rw [hg.1, hg.2] at e3
    have ht : m ≤ sorted[k + 1].time - sorted[k].time := by
      have q1 := List.pairwise_iff_getElem.1 hap k (k + 1) (by omega) (by omega) (by omega)
      have q2 := List.pairwise_iff_getElem.1 h2 k (k + 1) (by omega) (by omega) (by omega)
      rw [abs_sub_comm, abs_of_nonneg (by omega)] at q1
      exact q1
    obtain ⟨-, dt, r, p1, p2, p3, p4, -, -, p5⟩ := C99_checks _ _ _ _ _ _ _ e3
    dsimp only at p2 p5
    have hdt : m ≤ dt := by
      rcases p2 with p2 | p2
      · omega
      · omega
    have hdt' : (m : ℚ) ≤ dt := by exact_mod_cast hdt
    rcases p5 with ⟨rfl, -⟩ | rfl
    · simp only [abs_zero]; exact ⟨hB, hB⟩
    · have hbd := C98_displacement_bound sat ys.length xs.length 30 100 (List.length_pos_of_ne_nil hy) (List.length_pos_of_ne_nil hx) (by decide)
      have aux : ∀ q : ℚ, |q| ≤ (boxCount ys.length 30 : ℚ) / 3 → |q * (1000 * (spacing / 1000)) / dt| ≤ (boxCount ys.length 30 : ℚ) / 3 * spacing / m := by
        intro q hq
        have e : 1000 * (spacing / 1000) = spacing := by ring
        rw [e, abs_div, abs_mul, abs_of_pos hpos, abs_of_pos (lt_of_lt_of_le hm' hdt')]
        exact div_le_div₀ (by positivity) (mul_le_mul_of_nonneg_right hq hpos.le) hm' hdt'
      unfold processDimensionless
      exact ⟨aux _ (hbd _ _ _ _ _ y x).1, aux _ (hbd _ _ _ _ _ y x).2⟩
  constructor
  · rw [hu]
    have := mean_bound (l := flows.map fun f => f.1 y x) (fun q hq => by
      obtain ⟨f, hf, rfl⟩ := List.mem_map.1 hq
      exact (each f hf).1) hB
    rwa [List.length_map] at this
  · rw [hv]
    have := mean_bound (l := flows.map fun f => f.2 y x) (fun q hq => by
      obtain ⟨f, hf, rfl⟩ := List.mem_map.1 hq
      exact (each f hf).2) hB
    rwa [List.length_map] at this

theorem opticalFlow_dry {sat : ℚ → ℚ} {m : String} {rk : ℚ} {n bs : ℕ} {i : FlowInput} {uv : (ℕ → ℕ → ℚ) × (ℕ → ℕ → ℚ)}
    (hz : (∀ y x, i.data1 y x = 0) ∨ ∀ y x, i.data2 y x = 0) (h : opticalFlow sat m rk n bs i = .ok uv) : uv = (fun _ _ => 0, fun _ _ => 0) := by
  have hall : ∀ f : ℕ → ℕ → ℚ, (∀ y x, f y x = 0) → allZero i.h i.w f = true := by
    intro f hf
    unfold allZero
    simp only [hf, List.all_eq_true]
    intro _ _ _ _
    decide +kernel
  have h0 : (allZero i.h i.w i.data1 || allZero i.h i.w i.data2) = true := by
    rw [Bool.or_eq_true]
    exact hz.imp (hall _) (hall _)
  unfold opticalFlow at h
  by_cases hn : n < 20
  · rw [if_pos hn] at h; exact nomatch h
  rw [if_neg hn] at h
  simp only [bind, Except.bind, pure, Except.pure] at h
  cases ht : advectionTime i.time1 i.time2 i.fp1 i.fp2 with
  | error e => rw [ht] at h; exact nomatch h
  | ok dt =>
  rw [ht] at h
  dsimp only at h
  cases hr : smoothingRadius rk dt i.gridKm with
  | error e => rw [hr] at h; exact nomatch h
  | ok r =>
  rw [hr] at h
  dsimp only at h
  by_cases hb : (bs : ℤ) < r
  · rw [if_pos hb] at h; exact nomatch h
  rw [if_neg hb, if_pos h0] at h
  injection h with h
  exact h.symm

/-- There is no rain in the cube. -/
def Spec.Dry (c : NowcastCube) : Prop := ∀ y x, c.data y x = none ∨ c.data y x = some 0

theorem clearRate_dry {oe : List (ℤ × (ℕ → ℕ → ℚ))} {c : NowcastCube} {d : ℕ → ℕ → ℚ} (h : Spec.ClearRate oe c d) (hd : Spec.Dry c) (y x : ℕ) : d y x = 0 := by
  obtain ⟨s, -, h⟩ := h
  rw [h]
  rcases hd y x with e | e
  · rw [e]
  · rw [e]
    dsimp only
    unfold Spec.oeSub
    rw [zero_mul, if_pos (by norm_num)]

/-- C277.  If of any two cubes one is dry the velocities are 0. -/
theorem C277_dry {sat : ℚ → ℚ} {oe : List (ℤ × (ℕ → ℕ → ℚ))} {cubes : List NowcastCube} {u v : ℕ → ℕ → ℚ} {t : ℤ}
    (hk : ∀ c ∈ cubes, 0 < c.scale) (h : flowCommand sat oe cubes = .ok (u, v, t)) (hd : cubes.Pairwise fun a b => Spec.Dry a ∨ Spec.Dry b) (y x : ℕ) :
    u y x = 0 ∧ v y x = 0 := by
  obtain ⟨sorted, flows, h1, h2, h3, h4, h5, hu, hv, -, -, h6⟩ := C277_result hk h
  have hap : sorted.Pairwise fun a b => Spec.Dry a ∨ Spec.Dry b := (h1.pairwise_iff (fun {a b} e => e.symm)).2 hd
  have hl : sorted.length = cubes.length := h1.length_eq
  have each : ∀ f ∈ flows, f.1 y x = 0 ∧ f.2 y x = 0 := by
    intro f hf
    obtain ⟨k, hkf⟩ := List.getElem?_of_mem hf
    have hlt : k < flows.length := (List.getElem?_eq_some_iff.1 hkf).1
    have ha : sorted[k]? = some (sorted[k]'(by omega)) := List.getElem?_eq_getElem _
    have hb : sorted[k + 1]? = some (sorted[k + 1]'(by omega)) := List.getElem?_eq_getElem _
    obtain ⟨-, -, -, f', sp, d1, d2, e1, e2, g1, g2, e3⟩ := h6 k _ _ ha hb
    rw [hkf] at e1
    injection e1 with e1
    subst e1
    have q1 := List.pairwise_iff_getElem.1 hap k (k + 1) (by omega) (by omega) (by omega)
    rw [opticalFlow_dry (q1.imp (clearRate_dry g1) (clearRate_dry g2)) e3]
    exact ⟨rfl, rfl⟩
  have zero : ∀ g : (ℕ → ℕ → ℚ) × (ℕ → ℕ → ℚ) → ℚ, (∀ f ∈ flows, g f = 0) → (flows.map g).sum = 0 := by
    intro g hg
    apply List.sum_eq_zero
    intro q hq
    obtain ⟨f, hf, rfl⟩ := List.mem_map.1 hq
    exact hg f hf
  rw [hu, hv, zero _ fun f hf => (each f hf).1, zero _ fun f hf => (each f hf).2, zero_div]
  exact ⟨rfl, rfl⟩

/-- C277, **finding**.  A dry earliest cube counts in the mean: with `n` more cubes after the second the velocities are `n / (n + 1)` of those
without the dry cube (a half with three cubes). -/
theorem C277_dry_first {sat : ℚ → ℚ} {oe : List (ℤ × (ℕ → ℕ → ℚ))} {a b c : NowcastCube} {rest : List NowcastCube} {u v : ℕ → ℕ → ℚ} {t : ℤ}
    (hk : ∀ d ∈ a :: b :: c :: rest, 0 < d.scale) (hs : (a :: b :: c :: rest).Pairwise fun a b => a.time < b.time) (hd : Spec.Dry a)
    (h : flowCommand sat oe (a :: b :: c :: rest) = .ok (u, v, t)) :
    ∃ u' v', flowCommand sat oe (b :: c :: rest) = .ok (u', v', t) ∧
      ∀ y x, u y x = u' y x * ((rest.length + 1) / (rest.length + 2)) ∧ v y x = v' y x * ((rest.length + 1) / (rest.length + 2)) := by
  have sortEq : ∀ l : List NowcastCube, l.Pairwise (fun a b => a.time < b.time) → (l.insertionSort fun a b => a.time ≤ b.time) = l :=
    fun l hl => List.Pairwise.insertionSort_eq (hl.imp fun h => le_of_lt h)
  obtain ⟨plain, flows, h1, h2, h3, h4, rfl, rfl, l, h5, rfl⟩ := flowCommand_parts h
  rw [sortEq _ hs] at h1
  obtain ⟨l1, -⟩ := mapM_index _ _ _ h1
  simp only [List.mapM_cons, bind, Except.bind, pure, Except.pure] at h1
  cases ha : withoutEnhancement oe a with
  | error e => rw [ha] at h1; exact nomatch h1
  | ok a' =>
  cases hb : withoutEnhancement oe b with
  | error e => rw [ha, hb] at h1; exact nomatch h1
  | ok b' =>
  cases hc : withoutEnhancement oe c with
  | error e => rw [ha, hb, hc] at h1; exact nomatch h1
  | ok c' =>
  cases hr : rest.mapM (withoutEnhancement oe) with
  | error e => rw [ha, hb, hc, hr] at h1; exact nomatch h1
  | ok rest' =>
  rw [ha, hb, hc, hr] at h1
  injection h1 with h1
  subst h1
  simp only [List.length_cons] at l1
  obtain ⟨l2, -⟩ := mapM_index _ _ _ h2
  simp only [List.tail_cons, List.zip_cons_cons, List.mapM_cons, bind, Except.bind, pure, Except.pure] at h2
  cases hf : pairFlow sat a' b' with
  | error e => rw [hf] at h2; exact nomatch h2
  | ok f =>
  cases hg : pairFlow sat b' c' with
  | error e => rw [hf, hg] at h2; exact nomatch h2
  | ok g =>
  cases hm : ((c' :: rest').zip rest').mapM (fun p => pairFlow sat p.1 p.2) with
  | error e => rw [hf, hg, hm] at h2; exact nomatch h2
  | ok fs =>
  rw [hf, hg, hm] at h2
  injection h2 with h2
  subst h2
  have hz : f = (fun _ _ => 0, fun _ _ => 0) := by
    obtain ⟨-, -, -, s, -, e⟩ := pairFlow_ok hf
    have := (withoutEnhancement_ok (hk a List.mem_cons_self) ha).2.2.2.2.2
    exact opticalFlow_dry (Or.inl fun y x => clearRate_dry this hd y x) e
  subst hz
  have hlen : fs.length = rest.length := by
    simp only [List.tail_cons, List.zip_cons_cons, List.length_cons, List.length_zip] at l2
    omega
  refine ⟨meanField ((g :: fs).map Prod.fst), meanField ((g :: fs).map Prod.snd), ?_, ?_⟩
  · unfold flowCommand
    rw [sortEq (b :: c :: rest) (List.Pairwise.tail hs)]
    simp only [List.mapM_cons, bind, Except.bind, pure, Except.pure, hb, hc, hr, List.tail_cons, List.zip_cons_cons, hg, hm]
    have e5 : (b' :: c' :: rest').getLast? = some l := by rw [List.getLast?_cons_cons] at h5; exact h5
    rw [e5]
    dsimp only
    rw [if_neg (by simp)]
    rw [List.tail_cons, List.map_cons] at h4
    exact if_neg (not_not.2 (List.nodup_cons.1 h4).2)
  · intro y x
    unfold meanField
    simp only [List.map_cons, List.map_map, List.sum_cons, List.length_cons, List.length_map, hlen, zero_add]
    have n1 : ((rest.length : ℚ) + 1) ≠ 0 := by positivity
    have n2 : ((rest.length : ℚ) + 2) ≠ 0 := by positivity
    push_cast
    have e : (rest.length : ℚ) + 1 + 1 = rest.length + 2 := by ring
    rw [e]
    constructor <;> field_simp

/-- The command on fields 300 seconds apart, given latest first. -/
def exFlow : Except Err ((ℕ → ℕ → ℚ) × (ℕ → ℕ → ℚ) × ℤ) :=
  flowCommand (fun x => x) [(0, fun _ _ => 1 / 8)] [exRadar 600 fun y x => 1 + y + 2 * x, exRadar 0 fun _ _ => 0, exRadar 300 fun y x => 1 + y + x]

/-- The hypotheses of C277_result, C277_bound and C277_dry_first hold of a run. -/
example : ∃ out, exFlow = .ok out ∧ (∃ a b c : NowcastCube, Spec.Dry a ∧ [a, b, c].Pairwise (fun a b => a.time < b.time) ∧
    flowCommand (fun x => x) [(0, fun _ _ => 1 / 8)] [a, b, c] = .ok out) := by
  have h : exFlow.toOption.isSome = true := by decide +kernel
  cases hr : exFlow with
  | error e => rw [hr] at h; exact nomatch h
  | ok p =>
    refine ⟨p, rfl, exRadar 0 fun _ _ => 0, exRadar 300 fun y x => 1 + y + x, exRadar 600 fun y x => 1 + y + 2 * x, fun _ _ => Or.inr rfl, ?_, ?_⟩
    · simp [exRadar]
    · rw [← hr]
      exact (C277_order (List.Perm.trans (List.perm_append_comm (l₁ := [exRadar 600 fun y x => 1 + y + 2 * x])
        (l₂ := [exRadar 0 fun _ _ => 0, exRadar 300 fun y x => 1 + y + x])) (List.Perm.refl _)) (by simp [exRadar])).symm

end Improver
