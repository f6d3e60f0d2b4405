import Verif.Props.CalUtil

/-!
C126: matching of historic forecasts and truths by validity time; C127: reference times,
consistency and amount of data.
-/

namespace Improver
namespace Spec

/-- The forecast at position `i` is the one that is kept for its validity time: it has data, there
is a truth for the same time (and period), and no earlier forecast with data has this time. -/
def kept {α β : Type} (fcs : List (FcSlice α)) (truths : List (TruthSlice β)) (f : FcSlice α) :
    Prop :=
  ∃ i, fcs[i]? = some f ∧ f.allNan = false ∧ (∃ t ∈ truths, t.cell = f.cell) ∧
    ∀ (j : ℕ) g, j < i → fcs[j]? = some g → g.allNan = false → g.cell ≠ f.cell

/-- Forecasts and truths are both instantaneous, or both for periods. -/
def sameKind {α β : Type} (fcs : List (FcSlice α)) (truths : List (TruthSlice β)) : Prop :=
  ((∀ f ∈ fcs, f.cell.bound = none) ∧ ∀ t ∈ truths, t.cell.bound = none) ∨
  ((∀ f ∈ fcs, f.cell.bound ≠ none) ∧ ∀ t ∈ truths, t.cell.bound ≠ none)

end Spec

open Spec

theorem cellTest_same (f t : TimeCell)
    (h : (f.bound = none ∧ t.bound = none) ∨ (f.bound ≠ none ∧ t.bound ≠ none)) :
    cellTest f t = .ok (decide (t = f)) := by
  obtain ⟨p, b⟩ := f
  obtain ⟨q, c⟩ := t
  unfold cellTest
  match b, c, h with
  | none, none, _ => simp
  | some b, some c, _ =>
    simp only [TimeCell.mk.injEq, Option.some.injEq, Except.ok.injEq, Prod.ext_iff]
    by_cases h1 : p = q <;> by_cases h2 : b.1 = c.1 <;> by_cases h3 : b.2 = c.2 <;>
      simp [h1, h2, h3, eq_comm]
    all_goals first | (intro h; exact absurd h.symm h1) | (intro h; exact absurd h.symm h2) |
      (intro h; exact absurd h.symm h3) | skip
  | none, some c, h => simp at h
  | some b, none, h => simp at h

theorem extractTruth_same {β : Type} (f : TimeCell) (truths : List (TruthSlice β))
    (h : ∀ t ∈ truths, (f.bound = none ∧ t.cell.bound = none) ∨
      (f.bound ≠ none ∧ t.cell.bound ≠ none)) :
    extractTruth f truths = .ok (truths.filter fun t => t.cell = f) := by
  induction truths with
  | nil => rfl
  | cons t rest ih =>
    unfold extractTruth
    rw [ih fun t ht => h t (List.mem_cons_of_mem _ ht),
      cellTest_same f t.cell (h t (List.mem_cons_self ..))]
    simp only [bind, Except.bind, List.filter_cons]

/-- With distinct times at most one truth has a given cell. -/
theorem filter_cell {β : Type} (f : TimeCell) (truths : List (TruthSlice β))
    (hd : (truths.map (·.cell.point)).Nodup) :
    (truths.filter fun t => t.cell = f) = [] ∨
      ∃ t ∈ truths, t.cell = f ∧ (truths.filter fun t => t.cell = f) = [t] := by
  induction truths with
  | nil => left; rfl
  | cons t rest ih =>
    simp only [List.map_cons, List.nodup_cons] at hd
    by_cases h : t.cell = f
    · right
      refine ⟨t, List.mem_cons_self .., h, ?_⟩
      rw [List.filter_cons, if_pos (by simpa using h)]
      congr 1
      rw [List.filter_eq_nil_iff]
      intro s hs hcon
      apply hd.1
      rw [List.mem_map]
      refine ⟨s, hs, ?_⟩
      have : s.cell = f := by simpa using hcon
      rw [this, h]
    · rw [List.filter_cons, if_neg (by simpa using h)]
      rcases ih hd.2 with h' | ⟨s, hs, h1, h2⟩
      · left; exact h'
      · right; exact ⟨s, List.mem_cons_of_mem _ hs, h1, h2⟩

/-- The pairs found by the loop. -/
theorem matchLoop_spec {α β : Type} (truths : List (TruthSlice β))
    (hd : (truths.map (·.cell.point)).Nodup) (fcs : List (FcSlice α)) (times : List TimeCell)
    (hk : sameKind fcs truths) :
    ∃ m, matchLoop truths fcs times = .ok m ∧
      (∀ p ∈ m, ∃ t ∈ truths, p.2 = [t] ∧ t.cell = p.1.cell) ∧
      (m.map fun p => p.1.cell).Nodup ∧ (∀ p ∈ m, p.1.cell ∉ times) ∧
      (∀ f, f ∈ m.map (·.1) ↔ f.cell ∉ times ∧ kept fcs truths f) := by
  induction fcs generalizing times with
  | nil =>
    exact ⟨[], rfl, by simp, by simp, by simp, by simp [kept]⟩
  | cons f rest ih =>
    have hk' : sameKind rest truths := by
      rcases hk with ⟨h1, h2⟩ | ⟨h1, h2⟩
      · exact Or.inl ⟨fun g hg => h1 g (List.mem_cons_of_mem _ hg), h2⟩
      · exact Or.inr ⟨fun g hg => h1 g (List.mem_cons_of_mem _ hg), h2⟩
    have hb : ∀ t ∈ truths, (f.cell.bound = none ∧ t.cell.bound = none) ∨
        (f.cell.bound ≠ none ∧ t.cell.bound ≠ none) := by
      intro t ht
      rcases hk with ⟨h1, h2⟩ | ⟨h1, h2⟩
      · exact Or.inl ⟨h1 f (List.mem_cons_self ..), h2 t ht⟩
      · exact Or.inr ⟨h1 f (List.mem_cons_self ..), h2 t ht⟩
    -- `kept` of a list with one more forecast in front
    have hkept : ∀ g, kept (f :: rest) truths g ↔
        (g = f ∧ f.allNan = false ∧ ∃ t ∈ truths, t.cell = f.cell) ∨
        ((f.allNan = false → f.cell ≠ g.cell) ∧ kept rest truths g) := by
      intro g
      constructor
      · rintro ⟨i, h1, h2, h3, h4⟩
        cases i with
        | zero =>
          simp only [List.getElem?_cons_zero, Option.some.injEq] at h1
          subst h1
          exact Or.inl ⟨rfl, h2, h3⟩
        | succ i =>
          refine Or.inr ⟨fun hn => h4 0 f (Nat.succ_pos _) rfl hn, i, by simpa using h1, h2, h3, ?_⟩
          intro j g' hj hg'
          exact h4 (j + 1) g' (Nat.succ_lt_succ hj) (by simpa using hg')
      · rintro (⟨rfl, h2, h3⟩ | ⟨h1, i, h2, h3, h4, h5⟩)
        · exact ⟨0, rfl, h2, h3, fun j g' hj => absurd hj (Nat.not_lt_zero _)⟩
        · refine ⟨i + 1, by simpa using h2, h3, h4, ?_⟩
          intro j g' hj hg' hn
          cases j with
          | zero =>
            simp only [List.getElem?_cons_zero, Option.some.injEq] at hg'
            subst hg'
            exact h1 hn
          | succ j => exact h5 j g' (Nat.lt_of_succ_lt_succ hj) (by simpa using hg') hn
    unfold matchLoop
    rw [extractTruth_same f.cell truths hb]
    rcases filter_cell f.cell truths hd with h | ⟨t, ht, htc, h⟩
    · rw [h]
      simp only [bind, Except.bind]
      obtain ⟨m, h1, h2, h3, h4, h5⟩ := ih times hk'
      refine ⟨m, h1, h2, h3, h4, fun g => ?_⟩
      rw [h5 g, hkept g]
      have hno : ¬ ∃ t ∈ truths, t.cell = f.cell := by
        rintro ⟨t, ht, htc⟩
        have := List.filter_eq_nil_iff.1 h t ht
        simp [htc] at this
      constructor
      · rintro ⟨a, b⟩
        refine ⟨a, Or.inr ⟨fun _ hc => ?_, b⟩⟩
        obtain ⟨_, _, _, hx, _⟩ := b
        rw [← hc] at hx
        exact hno hx
      · rintro ⟨a, b | b⟩
        · exact absurd b.2.2 hno
        · exact ⟨a, b.2⟩
    · rw [h]
      simp only [bind, Except.bind, htc]
      by_cases hc : f.allNan = false ∧ f.cell ∉ times
      · rw [if_pos hc]
        obtain ⟨m, h1, h2, h3, h4, h5⟩ := ih (times ++ [f.cell]) hk'
        rw [h1]
        refine ⟨(f, [t]) :: m, rfl, ?_, ?_, ?_, ?_⟩
        · intro p hp
          rcases List.mem_cons.1 hp with rfl | hp
          · exact ⟨t, ht, rfl, htc⟩
          · exact h2 p hp
        · simp only [List.map_cons, List.nodup_cons]
          refine ⟨?_, h3⟩
          intro hcon
          obtain ⟨p, hp, e⟩ := List.mem_map.1 hcon
          exact h4 p hp (by rw [e]; simp)
        · intro p hp
          rcases List.mem_cons.1 hp with rfl | hp
          · exact hc.2
          · intro hcon
            exact h4 p hp (List.mem_append_left _ hcon)
        · intro g
          rw [hkept g]
          simp only [List.map_cons, List.mem_cons, h5 g, List.mem_append, List.mem_singleton,
            not_or]
          constructor
          · rintro (rfl | ⟨⟨a, b⟩, c⟩)
            · exact ⟨hc.2, Or.inl ⟨rfl, hc.1, t, ht, htc⟩⟩
            · exact ⟨a, Or.inr ⟨fun _ e => b.1 e.symm, c⟩⟩
          · rintro ⟨a, ⟨b, _⟩ | ⟨b, c⟩⟩
            · exact Or.inl b
            · exact Or.inr ⟨⟨a, by simpa using fun e => b hc.1 e.symm⟩, c⟩
      · rw [if_neg hc]
        obtain ⟨m, h1, h2, h3, h4, h5⟩ := ih times hk'
        refine ⟨m, h1, h2, h3, h4, fun g => ?_⟩
        rw [h5 g, hkept g]
        constructor
        · rintro ⟨a, b⟩
          refine ⟨a, Or.inr ⟨fun hn e => hc ⟨hn, ?_⟩, b⟩⟩
          rw [e]; exact a
        · rintro ⟨a, ⟨rfl, b, _⟩ | ⟨b, c⟩⟩
          · exact absurd ⟨b, a⟩ hc
          · exact ⟨a, c⟩

theorem mergeByTime_perm {γ : Type} (time : γ → ℤ) (l : List γ) :
    (mergeByTime time l).Perm l := List.perm_insertionSort _ _

theorem mergeByTime_sorted {γ : Type} (time : γ → ℤ) (l : List γ) (hd : (l.map time).Nodup) :
    (mergeByTime time l).Pairwise fun a b => time a < time b := by
  unfold mergeByTime
  haveI : Std.Total fun a b : γ => time a ≤ time b := ⟨fun a b => le_total _ _⟩
  haveI : IsTrans γ fun a b : γ => time a ≤ time b := ⟨fun a b c => le_trans⟩
  have h1 := List.pairwise_insertionSort (fun a b : γ => time a ≤ time b) l
  have h2 : ((l.insertionSort fun a b => time a ≤ time b).map time).Nodup :=
    ((List.perm_insertionSort (fun a b : γ => time a ≤ time b) l).map time).nodup_iff.2 hd
  rw [List.Nodup, List.pairwise_map] at h2
  exact (h1.and h2).imp fun ⟨a, b⟩ => lt_of_le_of_ne a b

/-- Two lists sorted strictly by time with the same times are paired by position. -/
theorem times_eq_of_perm (a b : List ℤ) (ha : a.Pairwise (· < ·)) (hb : b.Pairwise (· < ·))
    (h : ∀ x, x ∈ a ↔ x ∈ b) : a = b := by
  have hp : a.Perm b := (List.perm_ext_iff_of_nodup (ha.imp fun h => h.ne) (hb.imp fun h => h.ne)).2 h
  exact hp.eq_of_pairwise (fun _ _ _ _ h1 h2 => absurd (h1.trans h2) (lt_irrefl _)) ha hb

/-- C126: for instantaneous forecasts and truths, or forecasts and truths of periods, the result
consists, in order of time, of the first forecast with data for each time (and period) for which
there is a truth, with the truth of the same time at the same position; and there is an error
exactly when there is no such forecast. -/
theorem C126_matched {α β : Type} (fcs : List (FcSlice α)) (truths : List (TruthSlice β))
    (hd : (truths.map (·.cell.point)).Nodup) (hk : sameKind fcs truths) :
    ((∃ f, kept fcs truths f) → ∃ fs ts, filterNonMatching fcs truths = .ok (fs, ts) ∧
      fs.Pairwise (fun a b => a.cell.point < b.cell.point) ∧
      (∀ f, f ∈ fs ↔ kept fcs truths f) ∧
      (∀ t ∈ ts, t ∈ truths) ∧
      ts.map (·.cell) = fs.map (·.cell)) ∧
    ((¬ ∃ f, kept fcs truths f) → filterNonMatching fcs truths = .error .valueError) := by
  obtain ⟨m, h1, h2, h3, h4, h5⟩ := matchLoop_spec truths hd fcs [] hk
  unfold filterNonMatching
  simp only [h1, bind, Except.bind]
  simp only [List.not_mem_nil, not_false_eq_true, true_and] at h5
  constructor
  · rintro ⟨f, hf⟩
    have hne : m.isEmpty = false := by
      cases m with
      | nil => exact absurd ((h5 f).2 hf) (by simp)
      | cons _ _ => rfl
    -- the truths
    let tt : List (TruthSlice β) := m.map (fun p => p.2) |>.flatten
    have hsing : ∀ ts ∈ m.map (fun p : FcSlice α × List (TruthSlice β) => p.2), ts.length = 1 := by
      intro ts hts
      obtain ⟨p, hp, rfl⟩ := List.mem_map.1 hts
      obtain ⟨t, _, e, _⟩ := h2 p hp
      rw [e]; rfl
    have hcells : ∀ m' : List (FcSlice α × List (TruthSlice β)),
        (∀ p ∈ m', ∃ t ∈ truths, p.2 = [t] ∧ t.cell = p.1.cell) →
        ((m'.map fun p => p.2).flatten).map (fun t => t.cell) = m'.map fun p => p.1.cell := by
      intro m' hm'
      induction m' with
      | nil => rfl
      | cons p q ih =>
        obtain ⟨t, _, e, ec⟩ := hm' p (List.mem_cons_self ..)
        simp only [List.map_cons, List.flatten_cons, e, List.cons_append, List.nil_append,
          List.map_cons, ec]
        rw [ih fun p hp => hm' p (List.mem_cons_of_mem _ hp)]
    have htt : tt.map (fun t => t.cell) = m.map fun p => p.1.cell := hcells m h2
    -- distinct points
    have hmem : ∀ t ∈ tt, t ∈ truths := by
      intro t ht
      obtain ⟨ts, hts, htt'⟩ := List.mem_flatten.1 ht
      obtain ⟨p, hp, rfl⟩ := List.mem_map.1 hts
      obtain ⟨t', ht', e, _⟩ := h2 p hp
      rw [e, List.mem_singleton] at htt'
      exact htt' ▸ ht'
    have hinj : ∀ t ∈ truths, ∀ s ∈ truths, t.cell.point = s.cell.point → t = s :=
      fun t ht s hs e => List.inj_on_of_nodup_map hd ht hs e
    have hpts : (m.map fun p => p.1.cell.point).Nodup := by
      have e : (m.map fun p => p.1.cell.point) = (m.map fun p => p.1.cell).map (·.point) := by
        simp [List.map_map, Function.comp_def]
      rw [e]
      refine List.Nodup.map_on ?_ h3
      intro x hx y hy hxy
      obtain ⟨p, hp, rfl⟩ := List.mem_map.1 hx
      obtain ⟨q, hq, rfl⟩ := List.mem_map.1 hy
      obtain ⟨t, ht, _, et⟩ := h2 p hp
      obtain ⟨s, hs, _, es⟩ := h2 q hq
      rw [← et, ← es] at hxy ⊢
      rw [hinj t ht s hs hxy]
    have hptsT : (tt.map fun t => t.cell.point).Nodup := by
      have e : (tt.map fun t => t.cell.point) = (tt.map fun t => t.cell).map (·.point) := by
        simp [List.map_map, Function.comp_def]
      rw [e, htt, List.map_map]
      exact hpts
    have hptsF : ((m.map fun p => p.1).map fun f : FcSlice α => f.cell.point).Nodup := by
      rw [List.map_map]; exact hpts
    have hmt : mergeTruths (m.map fun p => p.2) = .ok (mergeByTime (fun t => t.cell.point) tt) := by
      unfold mergeTruths
      have hall : ((m.map fun p => p.2).all fun ts => ts.length == 1) = true := by
        rw [List.all_eq_true]
        intro ts hts
        simp [hsing ts hts]
      split
      · rename_i ts heq
        have hl := hsing ts (by rw [heq]; simp)
        obtain ⟨t, rfl⟩ := List.length_eq_one_iff.1 hl
        simp [tt, heq, mergeByTime]
      · rw [if_pos hall]
    refine ⟨mergeByTime (fun f => f.cell.point) (m.map fun p => p.1),
      mergeByTime (fun t => t.cell.point) tt, ?_, mergeByTime_sorted _ _ hptsF, ?_, ?_, ?_⟩
    · rw [hne, hmt]; rfl
    · intro g
      rw [(mergeByTime_perm _ _).mem_iff]
      exact h5 g
    · intro t ht
      exact hmem t ((mergeByTime_perm _ _).mem_iff.1 ht)
    · -- same cells: same points in order, and points determine cells
      have sF := mergeByTime_sorted (fun f : FcSlice α => f.cell.point) _ hptsF
      have sT := mergeByTime_sorted (fun t : TruthSlice β => t.cell.point) _ hptsT
      have pF := (mergeByTime_perm (fun f : FcSlice α => f.cell.point) (m.map fun p => p.1)).map
        (fun f => f.cell)
      have pT := (mergeByTime_perm (fun t : TruthSlice β => t.cell.point) tt).map (fun t => t.cell)
      rw [htt] at pT
      rw [List.map_map] at pF
      have hperm := pT.trans pF.symm
      refine hperm.eq_of_pairwise (le := fun a b => a.point < b.point) ?_ ?_ ?_
      · intro _ _ _ _ h1 h2; exact absurd (h1.trans h2) (lt_irrefl _)
      · rw [List.pairwise_map]; exact sT
      · rw [List.pairwise_map]; exact sF
  · intro hno
    have : m = [] := by
      cases m with
      | nil => rfl
      | cons p q => exact absurd ⟨p.1, (h5 p.1).1 (by simp)⟩ hno
    rw [this]; rfl

/-- C126: every time occurs once in the result: the number of pairs is the number of different
validity times of forecasts with data for which there is a truth. -/
theorem C126_paired {α β : Type} (fcs : List (FcSlice α)) (truths : List (TruthSlice β))
    (hd : (truths.map (·.cell.point)).Nodup) (hk : sameKind fcs truths)
    (fs : List (FcSlice α)) (ts : List (TruthSlice β))
    (h : filterNonMatching fcs truths = .ok (fs, ts)) :
    fs.length = ts.length ∧ ∀ i (h1 : i < fs.length) (h2 : i < ts.length),
      fs[i].cell = ts[i].cell ∧ ts[i] ∈ truths ∧ fs[i].allNan = false := by
  obtain ⟨hA, hB⟩ := C126_matched fcs truths hd hk
  by_cases hex : ∃ f, kept fcs truths f
  · obtain ⟨fs', ts', e, _, h1, h2, h3⟩ := hA hex
    rw [e] at h
    obtain ⟨rfl, rfl⟩ : fs' = fs ∧ ts' = ts := by simpa using h
    have hl : ts'.length = fs'.length := by simpa using congrArg List.length h3
    refine ⟨hl.symm, fun i hi hi' => ⟨?_, h2 _ (List.getElem_mem _), ?_⟩⟩
    · have := List.getElem_of_eq h3 (i := i) (by simpa using hi')
      simpa using this.symm
    · exact ((h1 fs'[i]).1 (List.getElem_mem _)).choose_spec.2.1
  · rw [hB hex] at h
    nomatch h

/-- Non-vacuity: three forecasts of which the second repeats a time and the last has no truth;
the truths come in another order. -/
example : (filterNonMatching
    [⟨⟨20, none⟩, false, "a"⟩, ⟨⟨20, none⟩, false, "b"⟩, ⟨⟨10, none⟩, false, "c"⟩,
      ⟨⟨30, none⟩, false, "d"⟩]
    [⟨⟨20, none⟩, 2⟩, ⟨⟨10, none⟩, 1⟩, ⟨⟨40, none⟩, 4⟩]).map
      (fun r => (r.1.map (·.data), r.2.map (·.data))) = .ok (["c", "a"], [1, 2]) := by
  decide +kernel

/-- Finding: an instantaneous forecast is matched with every period of the truths that contains
its time, ends included: one forecast time is returned with two truths. -/
theorem C126_contained_refuted : (filterNonMatching
    [⟨⟨10, none⟩, false, "a"⟩]
    [⟨⟨5, some (0, 10)⟩, 1⟩, ⟨⟨15, some (10, 20)⟩, 2⟩]).map
      (fun r => (r.1.map (·.data), r.2.map (·.data))) = .ok (["a"], [1, 2]) := by
  decide +kernel

/-- Finding: a forecast for a period fails (instead of being skipped) when the truths are
instantaneous and one of them is at its time point. -/
theorem C126_unbounded_truth_refuted {α β : Type} (t : ℤ) (b : ℤ × ℤ) (n : Bool) (a : α) (v : β) :
    filterNonMatching [(⟨⟨t, some b⟩, n, a⟩ : FcSlice α)] [(⟨⟨t, none⟩, v⟩ : TruthSlice β)] =
      .error .typeError := by
  simp [filterNonMatching, matchLoop, extractTruth, cellTest, bind, Except.bind]

/-! ### C127 -/

theorem foldl_min_isLeast (a : ℤ) (l : List ℤ) : IsLeast {v | v ∈ a :: l} (l.foldl min a) := by
  induction l generalizing a with
  | nil => simp [IsLeast, mem_lowerBounds]
  | cons b t ih =>
    obtain ⟨h1, h2⟩ := ih (min a b)
    simp only [List.foldl_cons]
    constructor
    · rcases List.mem_cons.1 h1 with h | h
      · rw [h]
        rcases min_choice a b with h' | h' <;> rw [h'] <;> simp
      · exact List.mem_cons_of_mem _ (List.mem_cons_of_mem _ h)
    · intro v hv
      rcases List.mem_cons.1 hv with rfl | hv
      · exact (h2 (List.mem_cons_self ..)).trans (min_le_left _ _)
      · rcases List.mem_cons.1 hv with rfl | hv
        · exact (h2 (List.mem_cons_self ..)).trans (min_le_right _ _)
        · exact h2 (List.mem_cons_of_mem _ hv)

theorem foldl_max_isGreatest (a : ℤ) (l : List ℤ) :
    IsGreatest {v | v ∈ a :: l} (l.foldl max a) := by
  induction l generalizing a with
  | nil => simp [IsGreatest, mem_upperBounds]
  | cons b t ih =>
    obtain ⟨h1, h2⟩ := ih (max a b)
    simp only [List.foldl_cons]
    constructor
    · rcases List.mem_cons.1 h1 with h | h
      · rw [h]
        rcases max_choice a b with h' | h' <;> rw [h'] <;> simp
      · exact List.mem_cons_of_mem _ (List.mem_cons_of_mem _ h)
    · intro v hv
      rcases List.mem_cons.1 hv with rfl | hv
      · exact (le_max_left _ _).trans (h2 (List.mem_cons_self ..))
      · rcases List.mem_cons.1 hv with rfl | hv
        · exact (le_max_right _ _).trans (h2 (List.mem_cons_self ..))
        · exact h2 (List.mem_cons_of_mem _ hv)

/-- C127: the unified forecast reference time is the latest one, with bounds from the earliest to
the latest of all times and existing bounds. -/
theorem C127_unified_frt (points : List ℤ) (hne : points ≠ []) (bounds : Option (List (ℤ × ℤ))) :
    ∃ p lo hi, unifiedFrt points bounds = .ok (p, lo, hi) ∧ IsGreatest {t | t ∈ points} p ∧
      IsLeast {t | t ∈ points ∨ ∃ bs, bounds = some bs ∧ ∃ b ∈ bs, t = b.1 ∨ t = b.2} lo ∧
      IsGreatest {t | t ∈ points ∨ ∃ bs, bounds = some bs ∧ ∃ b ∈ bs, t = b.1 ∨ t = b.2} hi := by
  obtain ⟨p, ps, rfl⟩ := List.exists_cons_of_ne_nil hne
  have hmin := foldl_min_isLeast p ps
  have hmax := foldl_max_isGreatest p ps
  cases bounds with
  | none =>
    refine ⟨_, _, _, rfl, hmax, ?_, ?_⟩
    · simpa using hmin
    · simpa using hmax
  | some bs =>
    have hv : ∀ t, t ∈ (bs.flatMap fun b => [b.1, b.2]) ↔ ∃ b ∈ bs, t = b.1 ∨ t = b.2 := by
      intro t; simp [List.mem_flatMap]
    have h1 := foldl_min_isLeast (ps.foldl min p) (bs.flatMap fun b => [b.1, b.2])
    have h2 := foldl_max_isGreatest (ps.foldl max p) (bs.flatMap fun b => [b.1, b.2])
    refine ⟨_, _, _, rfl, hmax, ⟨?_, ?_⟩, ⟨?_, ?_⟩⟩
    · rcases List.mem_cons.1 h1.1 with h | h
      · left
        show _ ∈ p :: ps
        rw [h]; exact hmin.1
      · right; exact ⟨bs, rfl, (hv _).1 h⟩
    · rintro t (ht | ⟨bs', e, ht⟩)
      · exact (h1.2 (List.mem_cons_self ..)).trans (hmin.2 ht)
      · obtain rfl := Option.some.inj e
        exact h1.2 (List.mem_cons_of_mem _ ((hv t).2 ht))
    · rcases List.mem_cons.1 h2.1 with h | h
      · left
        show _ ∈ p :: ps
        rw [h]; exact hmax.1
      · right; exact ⟨bs, rfl, (hv _).1 h⟩
    · rintro t (ht | ⟨bs', e, ht⟩)
      · exact (hmax.2 ht).trans (h2.2 (List.mem_cons_self ..))
      · obtain rfl := Option.some.inj e
        exact h2.2 (List.mem_cons_of_mem _ ((hv t).2 ht))

example : unifiedFrt [30, 10, 20] (some [(25, 30), (5, 10), (15, 35)]) = .ok (30, 5, 35) := by
  decide

/-- C127: forecasts are consistent exactly when all reference times have the same hour of the day
and there is one forecast period. -/
theorem C127_consistent (frt : List ℤ) (hne : frt ≠ []) (n : ℕ) :
    checkConsistency frt n = .ok () ↔
      (∀ t ∈ frt, ∀ s ∈ frt, hourOfDay t = hourOfDay s) ∧ n = 1 := by
  have hlen : (frtHours frt).length = 1 ↔ ∀ t ∈ frt, ∀ s ∈ frt, hourOfDay t = hourOfDay s := by
    rw [List.length_eq_one_iff]
    constructor
    · rintro ⟨h, e⟩ t ht s hs
      have h1 := (mem_frtHours frt (hourOfDay t)).2 ⟨t, ht, rfl⟩
      have h2 := (mem_frtHours frt (hourOfDay s)).2 ⟨s, hs, rfl⟩
      rw [e, List.mem_singleton] at h1 h2
      rw [h1, h2]
    · intro h
      obtain ⟨t, rest, rfl⟩ := List.exists_cons_of_ne_nil hne
      refine ⟨hourOfDay t, ?_⟩
      have hnd : (frtHours (t :: rest)).Nodup := List.nodup_dedup _
      have hmem : ∀ x, x ∈ frtHours (t :: rest) ↔ x ∈ [hourOfDay t] := by
        intro x
        rw [mem_frtHours, List.mem_singleton]
        constructor
        · rintro ⟨s, hs, rfl⟩; exact h s hs t (List.mem_cons_self ..)
        · rintro rfl; exact ⟨t, List.mem_cons_self .., rfl⟩
      exact List.perm_singleton.1
        ((List.perm_ext_iff_of_nodup hnd (List.nodup_singleton _)).2 hmem)
  unfold checkConsistency
  by_cases h1 : (frtHours frt).length = 1
  · by_cases h2 : n = 1
    · simp [h1, h2, ← hlen]
    · simp [h1, h2]
  · simp [h1, ← hlen]

example : checkConsistency [3 * 3600, 27 * 3600 + 1800] 1 = .ok () := by decide

/-- C127: training at sites point by point is refused exactly when at some site the proportion of
forecast-truth pairs of which both are missing exceeds the allowed one. -/
theorem C127_sufficient_sites (allowed : ℚ) (sites : List (List NanPair)) :
    checkSufficiency true true allowed sites = .ok () ↔
      ∀ s ∈ sites, ((s.countP fun p => p.1 ∧ p.2 : ℕ) : ℚ) / s.length ≤ allowed := by
  unfold checkSufficiency
  simp only [Bool.true_eq_false, if_false, if_true]
  by_cases h : sites.any (fun s => decide (allowed < nanProportion s)) = true
  · rw [if_pos h]
    simp only [reduceCtorEq, false_iff, not_forall, not_le]
    obtain ⟨s, hs, hlt⟩ := List.any_eq_true.1 h
    refine ⟨s, hs, ?_⟩
    have := of_decide_eq_true hlt
    unfold nanProportion nanIndex at this
    simpa using this
  · rw [if_neg h]
    simp only [true_iff]
    intro s hs
    by_contra hcon
    apply h
    rw [List.any_eq_true]
    refine ⟨s, hs, ?_⟩
    rw [decide_eq_true_eq]
    unfold nanProportion nanIndex
    simpa using hcon

/-- C127: for all sites together. -/
theorem C127_sufficient_all (allowed : ℚ) (sites : List (List NanPair)) :
    checkSufficiency true false allowed sites = .ok () ↔
      ((sites.flatten.countP fun p => p.1 ∧ p.2 : ℕ) : ℚ) / sites.flatten.length ≤ allowed := by
  unfold checkSufficiency
  simp only [Bool.true_eq_false, if_false, Bool.false_eq_true]
  have e : nanProportion sites.flatten =
      ((sites.flatten.countP fun p => p.1 ∧ p.2 : ℕ) : ℚ) / sites.flatten.length := by
    unfold nanProportion nanIndex
    simp
  rw [e]
  by_cases h : ((sites.flatten.countP fun p => p.1 ∧ p.2 : ℕ) : ℚ) / sites.flatten.length ≤ allowed
  · rw [if_neg (not_lt.2 h)]; exact iff_of_true rfl h
  · rw [if_pos (not_le.1 h)]; exact iff_of_false (fun hc => nomatch hc) h

example : checkSufficiency true true (1/2) [[(true, true), (false, false)],
    [(true, true), (true, true), (true, false)]] = .error .valueError := by decide +kernel

/-- Finding: pairs in which only the forecast or only the truth is missing do not count as missing
pairs, so training without a single complete pair is accepted when nothing may be missing. -/
theorem C127_one_missing_refuted (pbp : Bool) (allowed : ℚ) (h : 0 ≤ allowed)
    (sites : List (List NanPair)) (hone : ∀ s ∈ sites, ∀ p ∈ s, p = (false, true)) :
    checkSufficiency true pbp allowed sites = .ok () := by
  cases pbp with
  | true =>
    rw [C127_sufficient_sites]
    intro s hs
    rw [List.countP_eq_zero.2]
    · simpa using h
    · intro p hp; simp [hone s hs p hp]
  | false =>
    rw [C127_sufficient_all, List.countP_eq_zero.2]
    · simpa using h
    · intro p hp
      obtain ⟨s, hs, hps⟩ := List.mem_flatten.1 hp
      simp [hone s hs p hps]

/-- C127: gridded training data are never checked. -/
theorem C127_gridded_unchecked (pbp : Bool) (allowed : ℚ) (sites : List (List NanPair)) :
    checkSufficiency false pbp allowed sites = .ok () := by
  simp [checkSufficiency]

end Improver
