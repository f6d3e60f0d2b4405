import Verif.Model.CalSplit
import Verif.Props.ProbName
import Mathlib.Data.List.Infix
import Mathlib.Data.List.Nodup

/-!
C139 (telling forecasts, truths and mask apart), C140 (telling forecast, coefficients, mask and
template apart), C141 (telling forecast and biases apart; times to calibrate).
-/

namespace Improver
namespace Spec

/-- Cube `c` bears the attribute `key` with `value`. -/
def bears (key value : String) (c : InCube) : Prop :=
  (c.attrs.find? (fun a => decide (a.1 = key))).map (·.2) = some value

instance (key value : String) (c : InCube) : Decidable (bears key value c) := by
  unfold bears; infer_instance

/-- `s` occurs in the name of `c`. -/
def named (s : String) (c : InCube) : Prop := s.toList <:+: c.name.toList

end Spec

open Spec

theorem isTruth_iff (key value : String) (c : InCube) :
    isTruth key value c = true ↔ bears key value c := by
  unfold isTruth bears
  cases c.attrs.find? (fun a => decide (a.1 = key)) <;> simp

theorem named_iff (s : String) (c : InCube) :
    hasPart s.toList c.name.toList = true ↔ named s c := hasPart_iff _ _

/-! ### Groups -/

/-- The groups are the classes of cubes of the same diagnostic, in order of first occurrence. -/
theorem addToGroup_keys (g : List (List Char × List InCube)) (c : InCube) :
    (addToGroup g c).map (·.1) =
      if diagOf c ∈ g.map (·.1) then g.map (·.1) else g.map (·.1) ++ [diagOf c] := by
  induction g with
  | nil => simp [addToGroup]
  | cons p rest ih =>
    obtain ⟨k, l⟩ := p
    unfold addToGroup
    by_cases h : k = diagOf c
    · simp [h]
    · rw [if_neg h]
      have h' : diagOf c ≠ k := fun e => h e.symm
      simp only [List.map_cons, ih, List.mem_cons, h', false_or]
      by_cases h2 : diagOf c ∈ rest.map (·.1) <;> simp [h2]

theorem addToGroup_mem (g : List (List Char × List InCube)) (c : InCube)
    (hn : (g.map (·.1)).Nodup) (cubes : List InCube)
    (hg : ∀ p ∈ g, p.2 = cubes.filter fun x => decide (diagOf x = p.1))
    (hk : ∀ x ∈ cubes, diagOf x ∈ g.map (·.1)) :
    ∀ p ∈ addToGroup g c, p.2 = (cubes ++ [c]).filter fun x => decide (diagOf x = p.1) := by
  induction g with
  | nil =>
    intro p hp
    simp only [addToGroup, List.mem_singleton] at hp
    subst hp
    have : cubes = [] := by
      apply List.eq_nil_iff_forall_not_mem.2
      intro x hx
      simpa using hk x hx
    simp [this]
  | cons q rest ih =>
    obtain ⟨k, l⟩ := q
    intro p hp
    unfold addToGroup at hp
    simp only [List.map_cons, List.nodup_cons] at hn
    have hq := hg (k, l) (by simp)
    simp only at hq
    have other : ∀ p ∈ rest, p.1 ≠ k := fun p hp e => hn.1 (e ▸ List.mem_map_of_mem hp)
    by_cases h : k = diagOf c
    · rw [if_pos h] at hp
      rcases List.mem_cons.1 hp with rfl | hp
      · simp only [List.filter_append, ← hq]
        simp [h]
      · have := other p hp
        rw [hg p (List.mem_cons_of_mem _ hp), List.filter_append]
        have hne : ¬ diagOf c = p.1 := fun e => this (by rw [← e, ← h])
        simp [hne]
    · rw [if_neg h] at hp
      rcases List.mem_cons.1 hp with rfl | hp
      · simp only [List.filter_append, ← hq]
        have : ¬ diagOf c = k := fun e => h e.symm
        simp [this]
      · -- the rest, with the cubes of other groups
        have aux : ∀ (g : List (List Char × List InCube)), (g.map (·.1)).Nodup →
            (∀ p ∈ g, p.2 = cubes.filter fun x => decide (diagOf x = p.1)) →
            (diagOf c ∉ g.map (·.1) → cubes.filter (fun x => decide (diagOf x = diagOf c)) = []) →
            ∀ p ∈ addToGroup g c, p.2 = (cubes ++ [c]).filter fun x => decide (diagOf x = p.1) := by
          intro g
          induction g with
          | nil =>
            intro _ _ hz p hp
            simp only [addToGroup, List.mem_singleton] at hp
            subst hp
            rw [List.filter_append, hz (by simp)]
            simp
          | cons q' r' ih' =>
            obtain ⟨k', l'⟩ := q'
            intro hn' hg' hz p hp
            simp only [List.map_cons, List.nodup_cons] at hn'
            have hq' := hg' (k', l') (by simp)
            simp only at hq'
            unfold addToGroup at hp
            by_cases h' : k' = diagOf c
            · rw [if_pos h'] at hp
              rcases List.mem_cons.1 hp with rfl | hp
              · simp only [List.filter_append, ← hq']
                simp [h']
              · have hne : ¬ diagOf c = p.1 := fun e =>
                  hn'.1 (by rw [h', e]; exact List.mem_map_of_mem hp)
                rw [hg' p (List.mem_cons_of_mem _ hp), List.filter_append]
                simp [hne]
            · rw [if_neg h'] at hp
              rcases List.mem_cons.1 hp with rfl | hp
              · simp only [List.filter_append, ← hq']
                have : ¬ diagOf c = k' := fun e => h' e.symm
                simp [this]
              · refine ih' hn'.2 (fun p hp => hg' p (List.mem_cons_of_mem _ hp)) ?_ p hp
                intro hni
                apply hz
                simp only [List.map_cons, List.mem_cons, not_or]
                exact ⟨fun e => h' e.symm, hni⟩
        refine aux rest hn.2 (fun p hp => hg p (List.mem_cons_of_mem _ hp)) ?_ p hp
        intro hni
        apply List.eq_nil_iff_forall_not_mem.2
        intro x hx
        rw [List.mem_filter, decide_eq_true_eq] at hx
        have := hk x hx.1
        rw [hx.2] at this
        simp only [List.map_cons, List.mem_cons] at this
        rcases this with e | e
        · exact h e.symm
        · exact hni e

theorem groupCubes_spec (cubes : List InCube) :
    ((groupCubes cubes).map (·.1)).Nodup ∧
    (∀ k, k ∈ (groupCubes cubes).map (·.1) ↔ ∃ c ∈ cubes, diagOf c = k) ∧
    (∀ p ∈ groupCubes cubes, p.2 = cubes.filter fun x => decide (diagOf x = p.1)) := by
  unfold groupCubes
  induction cubes using List.reverseRecOn with
  | nil => simp
  | append_singleton l c ih =>
    obtain ⟨h1, h2, h3⟩ := ih
    rw [List.foldl_append]
    simp only [List.foldl_cons, List.foldl_nil]
    refine ⟨?_, ?_, ?_⟩
    · rw [addToGroup_keys]
      by_cases h : diagOf c ∈ (l.foldl addToGroup []).map (·.1)
      · rw [if_pos h]; exact h1
      · rw [if_neg h, List.nodup_append]
        refine ⟨h1, by simp, ?_⟩
        intro a ha b hb
        rw [List.mem_singleton] at hb
        rintro rfl
        exact h (hb ▸ ha)
    · intro k
      rw [addToGroup_keys]
      have : (∃ x ∈ l ++ [c], diagOf x = k) ↔ (∃ x ∈ l, diagOf x = k) ∨ diagOf c = k := by
        simp only [List.mem_append, List.mem_singleton, or_and_right, exists_or, exists_eq_left]
      rw [this, ← h2 k]
      by_cases h : diagOf c ∈ (l.foldl addToGroup []).map (·.1)
      · rw [if_pos h]
        constructor
        · exact Or.inl
        · rintro (h' | rfl)
          · exact h'
          · exact h
      · rw [if_neg h, List.mem_append, List.mem_singleton]
        constructor
        · rintro (h' | rfl)
          · exact Or.inl h'
          · exact Or.inr rfl
        · rintro (h' | rfl)
          · exact Or.inl h'
          · exact Or.inr rfl
    · exact addToGroup_mem _ c h1 l h3 (fun x hx => (h2 _).2 ⟨x, hx, rfl⟩)

/-- C139: the diagnostic of a cube of probabilities is found from its name (C137); that of any other
cube is its name. -/
theorem C139_diagnostic (c : InCube) :
    (∀ d v t, plainName d → c.name.toList = probName d v t → diagOf c = d ++ v.text) ∧
    (¬ "probability_of_".toList <+: c.name.toList → diagOf c = c.name.toList) := by
  constructor
  · intro d v t hd hn
    unfold diagOf
    rw [hn, (C137_round_trip d v t hd).2]
  · intro h
    unfold diagOf
    rw [((C137_accepted true c.name.toList).2 h).1]

/-- C139: the inputs are accepted, and told apart in this way, exactly when they are forecasts and
truths of one diagnostic, at least one of each, in any order, and at most one further cube, which
is the mask. -/
theorem C139_split (key value : String) (cubes fc truth : List InCube) (mask : Option InCube) :
    splitForecastsTruth key value cubes = .ok (fc, truth, mask) ↔
      ∃ D, fc = cubes.filter (fun c => decide (diagOf c = D ∧ ¬ bears key value c)) ∧
        truth = cubes.filter (fun c => decide (diagOf c = D ∧ bears key value c)) ∧
        fc ≠ [] ∧ truth ≠ [] ∧
        (cubes.filter fun c => decide (diagOf c ≠ D)) = mask.toList := by
  obtain ⟨h1, h2, h3⟩ := groupCubes_spec cubes
  have e1 : ∀ D, (cubes.filter fun c => decide (diagOf c = D)).filter
      (fun c => !isTruth key value c) =
      cubes.filter (fun c => decide (diagOf c = D ∧ ¬ bears key value c)) := by
    intro D
    rw [List.filter_filter]
    apply List.filter_congr
    intro c _
    have := isTruth_iff key value c
    cases h : isTruth key value c <;> rw [h] at this <;> simp_all
  have e2 : ∀ D, (cubes.filter fun c => decide (diagOf c = D)).filter
      (fun c => isTruth key value c) =
      cubes.filter (fun c => decide (diagOf c = D ∧ bears key value c)) := by
    intro D
    rw [List.filter_filter]
    apply List.filter_congr
    intro c _
    have := isTruth_iff key value c
    cases h : isTruth key value c <;> rw [h] at this <;> simp_all
  have split : ∀ (m : Option InCube) (l : List InCube),
      splitByTruth key value m l = .ok (fc, truth, mask) ↔
        m = mask ∧ fc = l.filter (fun c => !isTruth key value c) ∧
          truth = l.filter (fun c => isTruth key value c) ∧ fc ≠ [] ∧ truth ≠ [] := by
    intro m l
    unfold splitByTruth
    simp only
    by_cases he : ((l.filter fun c => isTruth key value c).isEmpty ||
        (l.filter fun c => !isTruth key value c).isEmpty) = true
    · rw [if_pos he]
      constructor
      · intro h; nomatch h
      · rintro ⟨-, e1, e2, n1, n2⟩
        rw [Bool.or_eq_true, List.isEmpty_iff, List.isEmpty_iff] at he
        rcases he with he | he
        · exact absurd (e2.trans he) n2
        · exact absurd (e1.trans he) n1
    · rw [if_neg he]
      simp only [Except.ok.injEq, Prod.mk.injEq]
      rw [Bool.or_eq_true, List.isEmpty_iff, List.isEmpty_iff, not_or] at he
      constructor
      · rintro ⟨rfl, rfl, rfl⟩
        exact ⟨rfl, rfl, rfl, he.2, he.1⟩
      · rintro ⟨rfl, rfl, rfl, -, -⟩
        exact ⟨rfl, rfl, rfl⟩
  -- a diagnostic with forecasts and truths is one of the groups, and has two cubes
  have two : ∀ D, cubes.filter (fun c => decide (diagOf c = D ∧ ¬ bears key value c)) ≠ [] →
      cubes.filter (fun c => decide (diagOf c = D ∧ bears key value c)) ≠ [] →
      D ∈ (groupCubes cubes).map (·.1) ∧
        2 ≤ (cubes.filter fun c => decide (diagOf c = D)).length := by
    intro D n1 n2
    obtain ⟨x, hx⟩ := List.exists_mem_of_ne_nil _ n1
    obtain ⟨y, hy⟩ := List.exists_mem_of_ne_nil _ n2
    rw [List.mem_filter, decide_eq_true_eq] at hx hy
    refine ⟨(h2 D).2 ⟨x, hx.1, hx.2.1⟩, ?_⟩
    have hxm : x ∈ cubes.filter fun c => decide (diagOf c = D) :=
      List.mem_filter.2 ⟨hx.1, by simpa using hx.2.1⟩
    have hym : y ∈ cubes.filter fun c => decide (diagOf c = D) :=
      List.mem_filter.2 ⟨hy.1, by simpa using hy.2.1⟩
    have hne : x ≠ y := by
      rintro rfl
      exact hx.2.2 hy.2.2
    rcases hl : cubes.filter fun c => decide (diagOf c = D) with _ | ⟨a, _ | ⟨b, t⟩⟩
    · rw [hl] at hxm; simp at hxm
    · rw [hl, List.mem_singleton] at hxm hym
      exact absurd (hxm.trans hym.symm) hne
    · simp
  unfold splitForecastsTruth
  rcases hg : groupCubes cubes with _ | ⟨⟨k1, a⟩, _ | ⟨⟨k2, b⟩, _ | ⟨⟨k3, c3⟩, rest⟩⟩⟩
  · simp only
    constructor
    · intro h; nomatch h
    · rintro ⟨D, rfl, rfl, n1, n2, -⟩
      have := (two D n1 n2).1
      rw [hg] at this
      simp at this
  · simp only
    rw [split]
    have ha := h3 (k1, a) (by rw [hg]; simp)
    simp only at ha
    rw [hg] at h2
    simp only [List.map_cons, List.map_nil, List.mem_singleton] at h2
    have hall : ∀ c ∈ cubes, diagOf c = k1 := fun c hc => (h2 _).2 ⟨c, hc, rfl⟩
    have hnil : (cubes.filter fun c => decide (diagOf c ≠ k1)) = [] := by
      apply List.filter_eq_nil_iff.2
      intro c hc
      simp [hall c hc]
    rw [ha, e1, e2]
    constructor
    · rintro ⟨rfl, rfl, rfl, n1, n2⟩
      exact ⟨k1, rfl, rfl, n1, n2, by rw [hnil]; rfl⟩
    · rintro ⟨D, rfl, rfl, n1, n2, hm⟩
      have hD := (two D n1 n2).1
      rw [hg] at hD
      simp only [List.map_cons, List.map_nil, List.mem_singleton] at hD
      subst hD
      refine ⟨?_, rfl, rfl, n1, n2⟩
      rw [hnil] at hm
      cases mask with
      | none => rfl
      | some m => simp at hm
  · simp only
    have ha := h3 (k1, a) (by rw [hg]; simp)
    have hb := h3 (k2, b) (by rw [hg]; simp)
    simp only at ha hb
    rw [hg] at h2 h1
    simp only [List.map_cons, List.map_nil, List.mem_cons, List.not_mem_nil, or_false,
      List.nodup_cons, not_false_eq_true, List.nodup_nil, and_true] at h2 h1
    have hother1 : (cubes.filter fun c => decide (diagOf c ≠ k1)) = b := by
      rw [hb]
      apply List.filter_congr
      intro c hc
      rcases (h2 (diagOf c)).2 ⟨c, hc, rfl⟩ with e | e
      · rw [e]; simp [h1]
      · rw [e]
        have : k2 ≠ k1 := fun h => h1 h.symm
        simp [this]
    have hother2 : (cubes.filter fun c => decide (diagOf c ≠ k2)) = a := by
      rw [ha]
      apply List.filter_congr
      intro c hc
      rcases (h2 (diagOf c)).2 ⟨c, hc, rfl⟩ with e | e
      · rw [e]; simp [h1]
      · rw [e]
        have : k2 ≠ k1 := fun h => h1 h.symm
        simp [this]
    constructor
    · intro h
      by_cases hle : a.length ≤ b.length
      · simp only [if_pos hle] at h
        rcases a with _ | ⟨m, _ | ⟨m2, t⟩⟩
        · nomatch h
        · simp only at h
          rw [split, hb, e1, e2] at h
          obtain ⟨rfl, rfl, rfl, n1, n2⟩ := h
          exact ⟨k2, rfl, rfl, n1, n2, by rw [hother2]; rfl⟩
        · nomatch h
      · simp only [if_neg hle] at h
        rcases b with _ | ⟨m, _ | ⟨m2, t⟩⟩
        · nomatch h
        · simp only at h
          rw [split, ha, e1, e2] at h
          obtain ⟨rfl, rfl, rfl, n1, n2⟩ := h
          exact ⟨k1, rfl, rfl, n1, n2, by rw [hother1]; rfl⟩
        · nomatch h
    · rintro ⟨D, rfl, rfl, n1, n2, hm⟩
      obtain ⟨hD, hlen⟩ := two D n1 n2
      rw [hg] at hD
      simp only [List.map_cons, List.map_nil, List.mem_cons, List.not_mem_nil, or_false] at hD
      rcases hD with rfl | rfl
      · rw [hother1] at hm
        have hbne : b ≠ [] := by
          obtain ⟨c, hc, hk⟩ := (h2 k2).1 (Or.inr rfl)
          rw [hb]
          exact List.ne_nil_of_mem (List.mem_filter.2 ⟨hc, by simpa using hk⟩)
        cases mask with
        | none => exact absurd hm hbne
        | some m =>
          rw [← ha] at hlen
          have hle : ¬ a.length ≤ b.length := by rw [hm]; simp; omega
          rw [if_neg hle, if_neg hle]
          simp only [hm, Option.toList_some]
          rw [split, ha, e1, e2]
          exact ⟨rfl, rfl, rfl, n1, n2⟩
      · rw [hother2] at hm
        have hane : a ≠ [] := by
          obtain ⟨c, hc, hk⟩ := (h2 k1).1 (Or.inl rfl)
          rw [ha]
          exact List.ne_nil_of_mem (List.mem_filter.2 ⟨hc, by simpa using hk⟩)
        cases mask with
        | none => exact absurd hm hane
        | some m =>
          rw [← hb] at hlen
          have hle : a.length ≤ b.length := by rw [hm]; simp; omega
          rw [if_pos hle, if_pos hle]
          simp only [hm, Option.toList_some]
          rw [split, hb, e1, e2]
          exact ⟨rfl, rfl, rfl, n1, n2⟩
  · simp only
    constructor
    · intro h; nomatch h
    · rintro ⟨D, -, -, -, -, hm⟩
      exfalso
      rw [hg] at h1 h2
      simp only [List.map_cons, List.nodup_cons, List.mem_cons, not_or] at h1 h2
      obtain ⟨⟨h12, h13, -⟩, ⟨h23, -⟩, -⟩ := h1
      have key : ∀ k k', k ≠ k' → k ≠ D → k' ≠ D → (∃ c ∈ cubes, diagOf c = k) →
          (∃ c ∈ cubes, diagOf c = k') → False := by
        rintro k k' hkk hk hk' ⟨c, hc, rfl⟩ ⟨c', hc', rfl⟩
        have m1 : c ∈ mask.toList := by
          rw [← hm]; exact List.mem_filter.2 ⟨hc, by simpa using hk⟩
        have m2 : c' ∈ mask.toList := by
          rw [← hm]; exact List.mem_filter.2 ⟨hc', by simpa using hk'⟩
        rw [Option.mem_toList] at m1 m2
        rw [m1] at m2
        exact hkk (congrArg diagOf (by simpa using m2))
      have g1 := (h2 k1).1 (by simp)
      have g2 := (h2 k2).1 (by simp)
      have g3 := (h2 k3).1 (by simp)
      by_cases hD1 : k1 = D
      · exact key k2 k3 h23 (fun e => h12 (hD1.trans e.symm)) (fun e => h13 (hD1.trans e.symm)) g2 g3
      · by_cases hD2 : k2 = D
        · exact key k1 k3 h13 hD1 (fun e => h23 (hD2.trans e.symm)) g1 g3
        · exact key k1 k2 h12 hD1 hD2 g1 g2

/-- non-vacuity: a forecast, a mask, a truth. -/
example : splitForecastsTruth "type" "truth"
    [⟨"rain", [("type", "forecast")], true, [1]⟩, ⟨"land_mask", [], false, [2]⟩,
      ⟨"rain", [("type", "truth")], true, [3]⟩] =
    .ok ([⟨"rain", [("type", "forecast")], true, [1]⟩], [⟨"rain", [("type", "truth")], true, [3]⟩],
      some ⟨"land_mask", [], false, [2]⟩) := by decide +kernel

/-! ### Forecast and coefficients -/

theorem foldlM_addDiagnostic (l : List InCube) (acc : List InCube)
    (hn : (acc.map (·.name)).Nodup) (hp : (acc.filter fun c => namedProb c).length ≤ 1)
    (r : List InCube) :
    l.foldlM addDiagnostic acc = .ok r ↔
      r = acc ++ l ∧ ((acc ++ l).map (·.name)).Nodup ∧
        ((acc ++ l).filter fun c => namedProb c).length ≤ 1 := by
  induction l generalizing acc with
  | nil =>
    simp only [List.foldlM_nil, pure, Except.pure, Except.ok.injEq, List.append_nil]
    constructor
    · rintro rfl; exact ⟨rfl, hn, hp⟩
    · rintro ⟨rfl, -, -⟩; rfl
  | cons c t ih =>
    simp only [List.foldlM_cons, bind, Except.bind]
    have hassoc : acc ++ c :: t = (acc ++ [c]) ++ t := by simp
    unfold addDiagnostic
    by_cases h1 : (namedProb c && acc.any namedProb) = true
    · rw [if_pos h1]
      constructor
      · intro h; nomatch h
      · rintro ⟨-, -, h⟩
        exfalso
        rw [Bool.and_eq_true, List.any_eq_true] at h1
        obtain ⟨hc, x, hx, hxp⟩ := h1
        rw [hassoc, List.filter_append, List.filter_append, List.length_append,
          List.length_append] at h
        have hpos : 0 < (acc.filter fun c => namedProb c).length :=
          List.length_pos_of_mem (List.mem_filter.2 ⟨hx, hxp⟩)
        have hone : ([c].filter fun c => namedProb c).length = 1 := by simp [hc]
        omega
    · rw [if_neg h1]
      by_cases h2 : acc.any (fun g => decide (g.name = c.name)) = true
      · rw [if_pos h2]
        constructor
        · intro h; nomatch h
        · rintro ⟨-, h, -⟩
          exfalso
          rw [List.any_eq_true] at h2
          obtain ⟨x, hx, hxn⟩ := h2
          rw [decide_eq_true_eq] at hxn
          rw [List.map_append, List.map_cons, List.nodup_append] at h
          exact h.2.2 x.name (List.mem_map_of_mem hx) c.name (by simp) hxn
      · rw [if_neg h2]
        simp only
        have hn' : ((acc ++ [c]).map (·.name)).Nodup := by
          rw [List.map_append, List.nodup_append]
          refine ⟨hn, by simp, ?_⟩
          intro a ha b hb
          simp only [List.map_cons, List.map_nil, List.mem_singleton] at hb
          subst hb
          rintro rfl
          obtain ⟨x, hx, hxn⟩ := List.mem_map.1 ha
          exact h2 (List.any_eq_true.2 ⟨x, hx, by simpa using hxn⟩)
        have hp' : ((acc ++ [c]).filter fun c => namedProb c).length ≤ 1 := by
          rw [List.filter_append, List.length_append]
          by_cases hc : namedProb c = true
          · have hnone : (acc.filter fun c => namedProb c) = [] := by
              apply List.filter_eq_nil_iff.2
              intro x hx hxp
              exact h1 (by rw [Bool.and_eq_true]; exact ⟨hc, List.any_eq_true.2 ⟨x, hx, hxp⟩⟩)
            rw [hnone]
            simp [hc]
          · simp only [List.filter_cons, hc, if_false, List.filter_nil, List.length_nil]
            simpa using hp
        have := ih (acc ++ [c]) hn' hp'
        rw [hassoc]
        exact this

namespace Spec

/-- A coefficient of the EMOS method. -/
def coefficientCube (c : InCube) : Prop := named "emos_coefficient" c

/-- The mask: the cube with the name given, if one is given. -/
def maskCube (maskName : Option String) (c : InCube) : Prop :=
  ¬ coefficientCube c ∧ c.name ≠ "" ∧ maskName = some c.name

/-- A forecast or a template: it has a time. -/
def timedCube (maskName : Option String) (c : InCube) : Prop :=
  ¬ coefficientCube c ∧ ¬ maskCube maskName c ∧ c.hasTime = true

/-- A further predictor: it has no time. -/
def timelessCube (maskName : Option String) (c : InCube) : Prop :=
  ¬ coefficientCube c ∧ ¬ maskCube maskName c ∧ c.hasTime = false

end Spec

theorem coefRole_iff (maskName : Option String) (c : InCube) :
    (coefRole maskName c = .coefficient ↔ coefficientCube c) ∧
    (coefRole maskName c = .mask ↔ maskCube maskName c) ∧
    (coefRole maskName c = .diagnostic ↔ timedCube maskName c) ∧
    (coefRole maskName c = .static ↔ timelessCube maskName c) := by
  have h1 := named_iff "emos_coefficient" c
  have h2 : (maskName ≠ none ∧ maskName ≠ some "" ∧ maskName = some c.name) ↔
      (c.name ≠ "" ∧ maskName = some c.name) := by
    constructor
    · rintro ⟨-, h, h'⟩
      exact ⟨fun e => h (by rw [h', e]), h'⟩
    · rintro ⟨h, h'⟩
      exact ⟨by simp [h'], by rw [h']; simpa using h, h'⟩
  unfold coefRole timedCube timelessCube maskCube coefficientCube
  rw [← h1]
  simp only [h2]
  generalize hasPart "emos_coefficient".toList c.name.toList = q at *
  by_cases g1 : q = true
  · rw [if_pos g1]; simp [g1]
  · rw [if_neg g1]
    by_cases g2 : c.name ≠ "" ∧ maskName = some c.name
    · rw [if_pos g2]
      simp only [g1, g2, ne_eq, not_true, reduceCtorEq, not_false_eq_true, true_and, and_self,
        false_and]
    · rw [if_neg g2]
      cases hh : c.hasTime <;> simp [g1, g2, hh]

theorem filter_role (maskName : Option String) (cubes : List InCube) (r : CoefRole)
    (P : InCube → Prop) [DecidablePred P] (h : ∀ c, coefRole maskName c = r ↔ P c) :
    (cubes.filter fun c => decide (coefRole maskName c = r)) = cubes.filter fun c => decide (P c) := by
  apply List.filter_congr
  intro c _
  simp [h c]

open Classical in
/-- C140: the parts that are returned are the cubes of each kind; a kind without cubes gives None;
the last mask is used. -/
theorem C140_parts (maskName : Option String) (cubes : List InCube) (r : CoefSplit)
    (h : splitForecastsCoeffs maskName cubes = .ok r) :
    r.coefficients.getD [] = cubes.filter (fun c => decide (coefficientCube c)) ∧
    r.coefficients ≠ some [] ∧
    r.static.getD [] = cubes.filter (fun c => decide (timelessCube maskName c)) ∧
    r.static ≠ some [] ∧
    r.mask = (cubes.filter (fun c => decide (maskCube maskName c))).getLast? ∧
    (∀ c, c ∈ cubes → timedCube maskName c → ¬ named "probability" c →
      (∀ c' ∈ cubes, timedCube maskName c' → ¬ named "probability" c' → c' = c) → r.forecast = c) ∧
    (∀ c, r.template = some c ↔ c ∈ cubes ∧ timedCube maskName c ∧ named "probability" c ∧
      ∃ c' ∈ cubes, timedCube maskName c' ∧ ¬ named "probability" c') := by
  have hrole := coefRole_iff maskName
  have fe : ∀ l, (noneIfEmpty l).getD [] = l ∧ noneIfEmpty l ≠ some [] := by
    intro l
    unfold noneIfEmpty
    cases l <;> simp
  unfold splitForecastsCoeffs at h
  simp only [bind, Except.bind] at h
  rw [filter_role maskName cubes .diagnostic (timedCube maskName) (fun c => (hrole c).2.2.1),
    filter_role maskName cubes .coefficient coefficientCube (fun c => (hrole c).1),
    filter_role maskName cubes .static (timelessCube maskName) (fun c => (hrole c).2.2.2),
    filter_role maskName cubes .mask (maskCube maskName) (fun c => (hrole c).2.1)] at h
  have hmem : ∀ c, c ∈ cubes.filter (fun c => decide (timedCube maskName c)) ↔
      c ∈ cubes ∧ timedCube maskName c := by
    intro c; rw [List.mem_filter, decide_eq_true_eq]
  generalize cubes.filter (fun c => decide (timedCube maskName c)) = diag at h hmem
  have hp : ∀ c, namedProb c = true ↔ named "probability" c := fun c => named_iff "probability" c
  cases hf : diag.foldlM addDiagnostic [] with
  | error e => rw [hf] at h; nomatch h
  | ok groups =>
    rw [hf] at h
    simp only at h
    rw [foldlM_addDiagnostic diag [] (by simp) (by simp)] at hf
    obtain ⟨hgr, hnd, hone⟩ := hf
    rw [List.nil_append] at hgr
    rw [hgr] at h
    simp only [List.nil_append] at h hnd hone
    cases hc : chooseForecast diag with
    | error e => rw [hc] at h; nomatch h
    | ok q =>
      rw [hc] at h
      obtain ⟨fc, tpl⟩ := q
      simp only [Except.ok.injEq] at h
      subst h
      simp only
      refine ⟨(fe _).1, (fe _).2, (fe _).1, (fe _).2, trivial, ?_, ?_⟩
      · intro c hcm ht hnp huniq
        have hcd : c ∈ diag := (hmem c).2 ⟨hcm, ht⟩
        have hu : ∀ x ∈ diag, namedProb x = false → x = c := by
          intro x hx hxp
          obtain ⟨a, b⟩ := (hmem x).1 hx
          exact huniq x a b (fun hcon => by rw [(hp x).2 hcon] at hxp; nomatch hxp)
        have hcp : namedProb c = false := by
          cases hv : namedProb c
          · rfl
          · exact absurd ((hp c).1 hv) hnp
        unfold chooseForecast at hc
        rcases diag with _ | ⟨a, _ | ⟨b, _ | ⟨d, t⟩⟩⟩
        · nomatch hc
        · simp only [Except.ok.injEq, Prod.mk.injEq] at hc
          rw [← hc.1]
          exact (List.mem_singleton.1 hcd).symm
        · simp only at hc
          cases ha : namedProb a <;> cases hb : namedProb b <;> rw [ha, hb] at hc <;>
            simp at hc
          · rw [← hc.1]; exact hu b (by simp) hb
          · rw [← hc.1]; exact hu a (by simp) ha
          · rw [← hc.1]; exact hu b (by simp) hb
        · nomatch hc
      · intro c
        have hex : (c ∈ cubes ∧ timedCube maskName c ∧ named "probability" c ∧
            ∃ c' ∈ cubes, timedCube maskName c' ∧ ¬ named "probability" c') ↔
            (c ∈ diag ∧ namedProb c = true ∧ ∃ c' ∈ diag, namedProb c' = false) := by
          have hf : ∀ x, namedProb x = false ↔ ¬ named "probability" x := by
            intro x; rw [← hp x]; simp
          simp only [hmem, hp, hf]
          constructor
          · rintro ⟨a, b, d, x, y, z, w⟩; exact ⟨⟨a, b⟩, d, x, ⟨y, z⟩, w⟩
          · rintro ⟨⟨a, b⟩, d, x, ⟨y, z⟩, w⟩; exact ⟨a, b, d, x, y, z, w⟩
        rw [hex]
        unfold chooseForecast at hc
        rcases diag with _ | ⟨a, _ | ⟨b, _ | ⟨d, t⟩⟩⟩
        · nomatch hc
        · simp only [Except.ok.injEq, Prod.mk.injEq] at hc
          rw [← hc.2]
          simp only [reduceCtorEq, List.mem_singleton, false_iff]
          rintro ⟨rfl, h1, x, rfl, h2⟩
          rw [h1] at h2; nomatch h2
        · simp only at hc
          cases ha : namedProb a <;> cases hb : namedProb b <;> rw [ha, hb] at hc <;>
            simp at hc
          · rw [← hc.2]
            simp only [reduceCtorEq, List.mem_cons, List.not_mem_nil, or_false, false_iff]
            rintro ⟨rfl | rfl, h1, -⟩
            · rw [ha] at h1; nomatch h1
            · rw [hb] at h1; nomatch h1
          · rw [← hc.2]
            simp only [Option.some.injEq, List.mem_cons, List.not_mem_nil, or_false]
            constructor
            · rintro rfl; exact ⟨Or.inr rfl, hb, a, Or.inl rfl, ha⟩
            · rintro ⟨rfl | rfl, h1, -⟩
              · rw [ha] at h1; nomatch h1
              · rfl
          · rw [← hc.2]
            simp only [Option.some.injEq, List.mem_cons, List.not_mem_nil, or_false]
            constructor
            · rintro rfl; exact ⟨Or.inl rfl, ha, b, Or.inr rfl, hb⟩
            · rintro ⟨rfl | rfl, h1, -⟩
              · rfl
              · rw [hb] at h1; nomatch h1
        · nomatch hc

open Classical in
/-- C140: accepted exactly when there are one or two cubes with time that are neither coefficients
nor the mask, of different names and at most one of probabilities. -/
theorem C140_accepted (maskName : Option String) (cubes : List InCube) :
    (∃ r, splitForecastsCoeffs maskName cubes = .ok r) ↔
      let timed := cubes.filter (fun c => decide (timedCube maskName c))
      (timed.length = 1 ∨ timed.length = 2) ∧ (timed.map (·.name)).Nodup ∧
        (timed.filter (fun c => decide (named "probability" c))).length ≤ 1 := by
  have hrole := coefRole_iff maskName
  unfold splitForecastsCoeffs
  simp only [bind, Except.bind]
  rw [filter_role maskName cubes .diagnostic (timedCube maskName) (fun c => (hrole c).2.2.1)]
  generalize cubes.filter (fun c => decide (timedCube maskName c)) = diag
  have hp : (diag.filter (fun c => decide (named "probability" c))) =
      diag.filter (fun c => namedProb c) := by
    apply List.filter_congr
    intro c _
    have := named_iff "probability" c
    unfold namedProb
    cases hh : hasPart "probability".toList c.name.toList <;> rw [hh] at this <;> simp_all
  rw [hp]
  cases hf : diag.foldlM addDiagnostic [] with
  | error e =>
    constructor
    · rintro ⟨r, hr⟩; nomatch hr
    · rintro ⟨-, h1, h2⟩
      have := (foldlM_addDiagnostic diag [] (by simp) (by simp) diag).2 ⟨by simp, by simpa using h1,
        by simpa using h2⟩
      rw [hf] at this
      nomatch this
  | ok groups =>
    rw [foldlM_addDiagnostic diag [] (by simp) (by simp)] at hf
    obtain ⟨hgr, hnd, hone⟩ := hf
    rw [List.nil_append] at hgr
    rw [hgr]
    simp only [List.nil_append] at hnd hone ⊢
    rcases diag with _ | ⟨a, _ | ⟨b, _ | ⟨d, t⟩⟩⟩
    · simp [chooseForecast]
    · simp only [chooseForecast, List.length_singleton, true_or, true_and]
      exact ⟨fun _ => ⟨hnd, hone⟩, fun _ => ⟨_, rfl⟩⟩
    · have : ∃ q, chooseForecast [a, b] = .ok q := by
        unfold chooseForecast
        rcases ha : namedProb a <;> rcases hb : namedProb b <;> simp only [ha, hb, if_true, if_false, Bool.false_eq_true]
        · exact ⟨_, rfl⟩
        · exact ⟨_, rfl⟩
        · exact ⟨_, rfl⟩
        · simp [ha, hb] at hone
      obtain ⟨q, hq⟩ := this
      rw [hq]
      simp only [List.length_cons, List.length_nil]
      exact ⟨fun _ => ⟨Or.inr trivial, hnd, hone⟩, fun _ => ⟨_, rfl⟩⟩
    · simp [chooseForecast]

/-- C140, refuted in general: of two forecasts without probabilities the first is ignored without
an error, so that the result depends on the order. -/
theorem C140_two_forecasts_refuted :
    ∃ a b : InCube, a ≠ b ∧
      (splitForecastsCoeffs none [a, b]).map (·.forecast) = .ok b ∧
      (splitForecastsCoeffs none [b, a]).map (·.forecast) = .ok a := by
  refine ⟨⟨"temperature", [], true, [1]⟩, ⟨"wind", [], true, [2]⟩, by decide, ?_, ?_⟩ <;>
    decide +kernel

/-- non-vacuity -/
example : splitForecastsCoeffs (some "land")
    [⟨"emos_coefficient_alpha", [], true, [1]⟩, ⟨"temperature", [], true, [2]⟩,
      ⟨"land", [], false, [3]⟩, ⟨"altitude", [], false, [4]⟩,
      ⟨"probability_of_temperature_above_threshold", [], true, [5]⟩] =
    .ok ⟨⟨"temperature", [], true, [2]⟩, some [⟨"emos_coefficient_alpha", [], true, [1]⟩],
      some [⟨"altitude", [], false, [4]⟩], some ⟨"land", [], false, [3]⟩,
      some ⟨"probability_of_temperature_above_threshold", [], true, [5]⟩⟩ := by decide +kernel

/-! ### Forecast and biases -/

open Classical in
/-- C141: accepted exactly when one cube is not a forecast error: it is the forecast, the others, in
order, are the biases, None if there are none. -/
theorem C141_split (cubes : List InCube) (fc : InCube) (bs : Option (List InCube)) :
    splitForecastsBias cubes = .ok (fc, bs) ↔
      cubes.filter (fun c => decide (¬ named "forecast_error" c)) = [fc] ∧
      bs.getD [] = cubes.filter (fun c => decide (named "forecast_error" c)) ∧ bs ≠ some [] := by
  have e1 : cubes.filter (fun c => decide (named "forecast_error" c)) =
      cubes.filter (fun c => hasPart "forecast_error".toList c.name.toList) := by
    apply List.filter_congr
    intro c _
    have := named_iff "forecast_error" c
    cases hh : hasPart "forecast_error".toList c.name.toList <;> rw [hh] at this <;> simp_all
  have e2 : cubes.filter (fun c => decide (¬ named "forecast_error" c)) =
      cubes.filter (fun c => !hasPart "forecast_error".toList c.name.toList) := by
    apply List.filter_congr
    intro c _
    have := named_iff "forecast_error" c
    cases hh : hasPart "forecast_error".toList c.name.toList <;> rw [hh] at this <;> simp_all
  rw [e1, e2]
  unfold splitForecastsBias
  generalize cubes.filter (fun c => hasPart "forecast_error".toList c.name.toList) = l
  generalize cubes.filter (fun c => !hasPart "forecast_error".toList c.name.toList) = m
  have ne : ∀ o : Option (List InCube), noneIfEmpty l = o ↔ o.getD [] = l ∧ o ≠ some [] := by
    intro o
    unfold noneIfEmpty
    rcases l with _ | ⟨x, t⟩
    · rcases o with _ | o <;> simp
    · rcases o with _ | o
      · simp
      · simp only [List.isEmpty_cons, Bool.false_eq_true, if_false, Option.some.injEq,
          Option.getD_some, ne_eq]
        constructor
        · rintro rfl; simp
        · rintro ⟨rfl, -⟩; rfl
  rcases m with _ | ⟨a, _ | ⟨b, t⟩⟩
  · simp
  · simp only [Except.ok.injEq, Prod.mk.injEq, List.cons.injEq, and_true, ne]
  · simp

namespace Spec

/-- The digits `a b : c d` of a clock time. -/
def clock (h m : ℕ) : List Char :=
  [Nat.digitChar (h / 10), Nat.digitChar (h % 10), Nat.digitChar (m / 10), Nat.digitChar (m % 10)]

end Spec

/-- C141: a forecast is calibrated exactly when the clock time of its validity is among the times
given. -/
theorem C141_validity (day : ℤ) (h m s : ℕ) (hh : h < 24) (hm : m < 60) (hs : s < 60)
    (times : List (List Char)) :
    validityTimeCheck (day * 86400 + h * 3600 + m * 60 + s) times = true ↔ clock h m ∈ times := by
  unfold validityTimeCheck
  rw [decide_eq_true_eq]
  have e1 : (day * 86400 + h * 3600 + m * 60 + s) / 3600 % 24 = (h : ℤ) := by omega
  have e2 : (day * 86400 + h * 3600 + m * 60 + s) / 60 % 60 = (m : ℤ) := by omega
  rw [e1, e2]
  simp only [Int.toNat_natCast]
  have key : ∀ n < 60, twoDigits n = [Nat.digitChar (n / 10), Nat.digitChar (n % 10)] := by
    decide
  rw [key h (by omega), key m hm]
  rfl

/-- non-vacuity -/
example : clock 6 5 = "0605".toList ∧ validityTimeCheck (86400 + 6 * 3600 + 5 * 60) ["0605".toList] = true := by
  decide +kernel

end Improver
