import Verif.Model.TimeLag

/-! Properties C25 and C39: time-lagged ensembles and unification of cycle times. -/

namespace Improver
variable {D : Type}

theorem renumber_append (k : ℤ) (a b : List (ℤ × D)) :
    renumber k (a ++ b) = renumber k a ++ renumber (k + a.length) b := by
  induction a generalizing k with
  | nil => simp [renumber]
  | cons m ms ih =>
    simp only [List.cons_append, renumber, ih, List.length_cons]
    congr 3
    push_cast; ring

theorem renumberAll_flatten (k : ℤ) (cs : List (LagCube D)) :
    ((renumberAll k cs).map (fun c => c.members)).flatten = renumber k (cs.map (fun c => c.members)).flatten := by
  induction cs generalizing k with
  | nil => rfl
  | cons c cs ih =>
    simp only [renumberAll, List.map_cons, List.flatten_cons, ih, renumber_append]

theorem renumber_snd (k : ℤ) (a : List (ℤ × D)) : (renumber k a).map Prod.snd = a.map Prod.snd := by
  induction a generalizing k with
  | nil => rfl
  | cons m ms ih => simp [renumber, ih]

theorem renumber_fst (k : ℤ) (a : List (ℤ × D)) :
    (renumber k a).map Prod.fst = (List.range a.length).map (fun i : ℕ => k + (i : ℤ)) := by
  induction a generalizing k with
  | nil => rfl
  | cons m ms ih =>
    rw [renumber, List.map_cons, ih, List.length_cons, List.range_succ_eq_map, List.map_cons, List.map_map]
    simp only [Nat.cast_zero, add_zero]
    congr 1
    apply List.map_congr_left
    intro i _
    simp only [Function.comp]
    push_cast; ring

theorem renumber_length (k : ℤ) (a : List (ℤ × D)) : (renumber k a).length = a.length := by
  have := congrArg List.length (renumber_fst k a)
  simpa using this

theorem renumber_sorted (k : ℤ) (a : List (ℤ × D)) : (renumber k a).Pairwise (fun x y => x.1 < y.1) := by
  have h : ((renumber k a).map Prod.fst).Pairwise (· < ·) := by
    rw [renumber_fst, List.pairwise_map]
    exact List.pairwise_lt_range.imp (fun h => by omega)
  exact List.pairwise_map.1 h

theorem dedup_lt_iff {α : Type} [DecidableEq α] (l : List α) : l.dedup.length < l.length ↔ ¬ l.Nodup := by
  constructor
  · intro h hn
    rw [List.dedup_eq_self.2 hn] at h
    exact lt_irrefl _ h
  · intro h
    rcases lt_or_eq_of_le (List.dedup_sublist l).length_le with h1 | h1
    · exact h1
    · exact absurd (List.dedup_eq_self.1 ((List.dedup_sublist l).eq_of_length h1)) h

theorem mergeMembers_nodup {ms : List (ℤ × D)} (h : (ms.map Prod.fst).Nodup) :
    mergeMembers ms = .ok (ms.insertionSort (fun a b => a.1 ≤ b.1)) := by
  unfold mergeMembers
  rw [if_neg]
  have : ¬ (ms.map Prod.fst).dedup.length < (ms.map Prod.fst).length := by
    rw [dedup_lt_iff]; exact not_not.2 h
  simpa using this

/-- The members of all input cubes, in the order of the cubes. -/
def Spec.allMembers (cubes : List (LagCube D)) : List (ℤ × D) := (cubes.map (fun c => c.members)).flatten

theorem allMembers_unify (cubes : List (LagCube D)) (t : ℤ) :
    Spec.allMembers (unifyCycletime cubes t) = Spec.allMembers cubes := by
  unfold Spec.allMembers unifyCycletime
  rw [List.map_map]; rfl

theorem rebadge_members {cubes cs : List (LagCube D)} {t : Option ℤ} (h : rebadgeLatest cubes t = .ok cs) :
    Spec.allMembers cs = Spec.allMembers cubes ∧ cs.length = cubes.length := by
  unfold rebadgeLatest at h
  by_cases h1 : t = none ∧ cubes.length = 1
  · rw [if_pos h1] at h; injection h with h; rw [h]; exact ⟨rfl, rfl⟩
  · rw [if_neg h1] at h
    cases t with
    | some t => injection h with h; rw [← h]; exact ⟨allMembers_unify _ _, by simp [unifyCycletime]⟩
    | none =>
      simp only [] at h
      cases hf : findLatestCycletime cubes with
      | error e => rw [hf] at h; cases h
      | ok t =>
        rw [hf] at h
        injection h with h; rw [← h]; exact ⟨allMembers_unify _ _, by simp [unifyCycletime]⟩

theorem flatten_fst (cs : List (LagCube D)) :
    (cs.map (fun c => c.members.map Prod.fst)).flatten = (Spec.allMembers cs).map Prod.fst := by
  unfold Spec.allMembers
  rw [List.map_flatten, List.map_map]; rfl

/-- A list that is already strictly ascending in realization is unchanged by sorting. -/
theorem sort_of_lt {ms : List (ℤ × D)} (h : ms.Pairwise (fun a b => a.1 < b.1)) :
    ms.insertionSort (fun a b => a.1 ≤ b.1) = ms :=
  List.Pairwise.insertionSort_eq (h.imp le_of_lt)

/-- **C25** (numbers clash): if any realization number occurs twice among the inputs, all members are renumbered
0, 1, 2, … in the order of the input cubes, and every member is kept with its data. -/
theorem C25_clash_renumbers (cubes : List (LagCube D)) (hne : cubes ≠ [])
    (hd : ¬ ((Spec.allMembers cubes).map Prod.fst).Nodup) :
    ∃ out, timeLagged cubes = .ok out ∧
      out.map Prod.fst = (List.range (Spec.allMembers cubes).length).map (fun i : ℕ => (i : ℤ)) ∧
      out.map Prod.snd = (Spec.allMembers cubes).map Prod.snd := by
  have hres : timeLagged cubes = .ok (renumber 0 (Spec.allMembers cubes)) := by
    unfold timeLagged
    have hok : ∃ cs, rebadgeLatest cubes none = .ok cs := by
      unfold rebadgeLatest
      by_cases h1 : (none : Option ℤ) = none ∧ cubes.length = 1
      · rw [if_pos h1]; exact ⟨_, rfl⟩
      · rw [if_neg h1]
        cases cubes with
        | nil => exact absurd rfl hne
        | cons c cs => exact ⟨_, rfl⟩
    obtain ⟨cs, hcs⟩ := hok
    obtain ⟨hm, hl⟩ := rebadge_members hcs
    rw [hcs]
    simp only [flatten_fst, hm]
    rw [if_pos ((dedup_lt_iff _).2 hd)]
    have hfl : ((renumberAll 0 cs).map (fun c => c.members)).flatten = renumber 0 (Spec.allMembers cubes) := by
      rw [renumberAll_flatten, ← hm]; rfl
    have hsorted := renumber_sorted 0 (Spec.allMembers cubes)
    have hnd : ((renumber 0 (Spec.allMembers cubes)).map Prod.fst).Nodup :=
      (List.pairwise_map.2 hsorted).imp (fun h => ne_of_lt h)
    rcases hr : renumberAll 0 cs with _ | ⟨c, _ | ⟨c', cs'⟩⟩
    · rw [hr] at hfl
      simp only []
      rw [hfl, mergeMembers_nodup hnd, sort_of_lt hsorted]
    · rw [hr] at hfl
      simp only []
      have : c.members = renumber 0 (Spec.allMembers cubes) := by simpa using hfl
      rw [this]
    · rw [hr] at hfl
      simp only []
      rw [hfl, mergeMembers_nodup hnd, sort_of_lt hsorted]
  refine ⟨_, hres, ?_, renumber_snd _ _⟩
  rw [renumber_fst]
  apply List.map_congr_left
  intro i _
  omega

/-- **C25** (numbers already distinct): every member keeps its realization number and data. -/
theorem C25_distinct_unchanged (cubes : List (LagCube D)) (hne : cubes ≠ [])
    (hd : ((Spec.allMembers cubes).map Prod.fst).Nodup) :
    ∃ out, timeLagged cubes = .ok out ∧ out.Perm (Spec.allMembers cubes) := by
  unfold timeLagged
  have hok : ∃ cs, rebadgeLatest cubes none = .ok cs := by
    unfold rebadgeLatest
    by_cases h1 : (none : Option ℤ) = none ∧ cubes.length = 1
    · rw [if_pos h1]; exact ⟨_, rfl⟩
    · rw [if_neg h1]
      cases cubes with
      | nil => exact absurd rfl hne
      | cons c cs => exact ⟨_, rfl⟩
  obtain ⟨cs, hcs⟩ := hok
  obtain ⟨hm, hl⟩ := rebadge_members hcs
  rw [hcs]
  simp only [flatten_fst, hm]
  rw [if_neg (fun h => (dedup_lt_iff _).1 h hd)]
  have hfl : (cs.map (fun c => c.members)).flatten = Spec.allMembers cubes := hm
  rcases cs with _ | ⟨c, _ | ⟨c', cs'⟩⟩
  · simp only []
    rw [hfl, mergeMembers_nodup hd]
    exact ⟨_, rfl, List.perm_insertionSort _ _⟩
  · refine ⟨_, rfl, ?_⟩
    have : c.members = Spec.allMembers cubes := by simpa using hfl
    rw [this]
  · simp only []
    rw [hfl, mergeMembers_nodup hd]
    exact ⟨_, rfl, List.perm_insertionSort _ _⟩

/-- **C25.** For any non-empty list of cubes a lagged ensemble exists, its realization numbers are pairwise distinct, and
its members' data are exactly the input members, each once. -/
theorem C25_lagged (cubes : List (LagCube D)) (hne : cubes ≠ []) :
    ∃ out, timeLagged cubes = .ok out ∧ (out.map Prod.fst).Nodup ∧
      (out.map Prod.snd).Perm ((Spec.allMembers cubes).map Prod.snd) := by
  by_cases hd : ((Spec.allMembers cubes).map Prod.fst).Nodup
  · obtain ⟨out, h1, h2⟩ := C25_distinct_unchanged cubes hne hd
    exact ⟨out, h1, (h2.map _).nodup_iff.2 hd, h2.map _⟩
  · obtain ⟨out, h1, h2, h3⟩ := C25_clash_renumbers cubes hne hd
    refine ⟨out, h1, ?_, h3 ▸ List.Perm.refl _⟩
    rw [h2]
    exact List.nodup_range.map (fun a b h => by simpa using h)

example : (timeLagged [⟨0, 100, 100, [(0, "a"), (1, "b")]⟩, ⟨50, 100, 50, [(0, "c"), (5, "d")]⟩]).toOption
    = some [(0, "a"), (1, "b"), (2, "c"), (3, "d")] := by decide +kernel
example : (timeLagged [⟨0, 100, 100, [(7, "a"), (1, "b")]⟩, ⟨50, 100, 50, [(0, "c"), (5, "d")]⟩]).toOption
    = some [(0, "c"), (1, "b"), (5, "d"), (7, "a")] := by decide +kernel

/-! ### C39 -/

theorem latest_fold (cs : List (LagCube D)) (a : ℤ) :
    a ≤ cs.foldl (fun frt x => if x.frt > frt then x.frt else frt) a ∧
    (∀ c ∈ cs, c.frt ≤ cs.foldl (fun frt x => if x.frt > frt then x.frt else frt) a) ∧
    (cs.foldl (fun frt x => if x.frt > frt then x.frt else frt) a = a ∨
      ∃ c ∈ cs, c.frt = cs.foldl (fun frt x => if x.frt > frt then x.frt else frt) a) := by
  induction cs generalizing a with
  | nil => simp
  | cons c cs ih =>
    simp only [List.foldl_cons]
    by_cases h : c.frt > a
    · rw [if_pos h]
      obtain ⟨h1, h2, h3⟩ := ih c.frt
      refine ⟨by omega, ?_, ?_⟩
      · intro x hx
        rcases List.mem_cons.1 hx with rfl | hx
        · exact h1
        · exact h2 x hx
      · rcases h3 with h3 | ⟨x, hx, h3⟩
        · exact .inr ⟨c, List.mem_cons_self .., h3.symm⟩
        · exact .inr ⟨x, List.mem_cons_of_mem _ hx, h3⟩
    · rw [if_neg h]
      obtain ⟨h1, h2, h3⟩ := ih a
      refine ⟨h1, ?_, ?_⟩
      · intro x hx
        rcases List.mem_cons.1 hx with rfl | hx
        · omega
        · exact h2 x hx
      · rcases h3 with h3 | ⟨x, hx, h3⟩
        · exact .inl h3
        · exact .inr ⟨x, List.mem_cons_of_mem _ hx, h3⟩

/-- **C39.** Rebadging two or more cubes without a given cycle time gives every cube the latest of their cycle times,
with forecast period equal to validity time minus cycle time; validity times and members are untouched. -/
theorem C39_latest_cycle (cubes out : List (LagCube D)) (hn : 2 ≤ cubes.length)
    (h : rebadgeLatest cubes none = .ok out) :
    ∃ t, (∃ c ∈ cubes, c.frt = t) ∧ (∀ c ∈ cubes, c.frt ≤ t) ∧
      out = cubes.map (fun c => ⟨t, c.time, c.time - t, c.members⟩) := by
  unfold rebadgeLatest at h
  rw [if_neg (by rintro ⟨_, h⟩; omega)] at h
  cases cubes with
  | nil => simp at hn
  | cons c cs =>
    simp only [findLatestCycletime] at h
    injection h with h
    obtain ⟨h1, h2, h3⟩ := latest_fold (c :: cs) c.frt
    refine ⟨_, ?_, h2, h.symm⟩
    rcases h3 with h3 | h3
    · exact ⟨c, List.mem_cons_self .., h3.symm⟩
    · exact h3

/-- **C39.** With a given cycle time every cube gets exactly that cycle time. -/
theorem C39_given_cycle (cubes : List (LagCube D)) (t : ℤ) :
    rebadgeLatest cubes (some t) = .ok (cubes.map (fun c => ⟨t, c.time, c.time - t, c.members⟩)) := by
  unfold rebadgeLatest
  rw [if_neg (by simp)]
  rfl

/-- **C39.** Rebadging is idempotent. -/
theorem C39_idempotent (cubes out : List (LagCube D)) (hn : 2 ≤ cubes.length)
    (h : rebadgeLatest cubes none = .ok out) : rebadgeLatest out none = .ok out := by
  obtain ⟨t, ⟨c, hc, hct⟩, _, rfl⟩ := C39_latest_cycle cubes out hn h
  have hn' : 2 ≤ (cubes.map (fun c => (⟨t, c.time, c.time - t, c.members⟩ : LagCube D))).length := by simpa using hn
  cases hr : rebadgeLatest (cubes.map (fun c => (⟨t, c.time, c.time - t, c.members⟩ : LagCube D))) none with
  | error e =>
    exfalso
    unfold rebadgeLatest at hr
    rw [if_neg (by rintro ⟨_, h⟩; omega)] at hr
    cases cubes with
    | nil => simp at hn
    | cons c cs => simp [findLatestCycletime] at hr
  | ok o =>
    obtain ⟨t', ⟨c', hc', hct'⟩, _, rfl⟩ := C39_latest_cycle _ _ hn' hr
    obtain ⟨c'', _, rfl⟩ := List.mem_map.1 hc'
    have : t = t' := hct'
    subst this
    simp [List.map_map, Function.comp_def]

example : (match rebadgeLatest [⟨0, 100, 100, [(0, "a")]⟩, ⟨50, 100, 50, [(0, "c")]⟩] none with
    | .ok l => l.map (fun c => (c.frt, c.fp)) | .error _ => []) = [(50, 50), (50, 50)] := by decide +kernel

end Improver
