import Verif.Model.LaggedRun
import Verif.Props.TimeLag
import Mathlib.Data.List.Perm.Basic
import Mathlib.Data.List.Perm.Lattice

/-! C289: the command that makes a time-lagged ensemble. -/

namespace Improver

variable {D : Type}

/-- All members of the ensembles, in the order of the cubes. -/
def Spec.lagMembers (cubes : List (LagInput D)) : List (ℤ × D) := cubes.flatMap (fun c => c.members)

/-- All realization numbers of the ensembles are different. -/
def Spec.lagDistinct (cubes : List (LagInput D)) : Prop := ((Spec.lagMembers cubes).map Prod.fst).Nodup

/-- The ensembles are valid at the same time, and over the same period if they have bounds. -/
def Spec.sameTimes (cubes : List (LagInput D)) : Prop :=
  ∀ a ∈ cubes, ∀ b ∈ cubes, a.time = b.time ∧ a.timeBounds = b.timeBounds

/-- `t` is the latest of the cycles. -/
def Spec.latestCycle (cubes : List (LagInput D)) (t : ℤ) : Prop :=
  (∃ c ∈ cubes, c.frt = t) ∧ ∀ c ∈ cubes, c.frt ≤ t

theorem allMembers_lag (cubes : List (LagInput D)) :
    Spec.allMembers (cubes.map LagInput.toLagCube) = Spec.lagMembers cubes := by
  unfold Spec.allMembers Spec.lagMembers
  rw [List.map_map, List.flatMap_def]
  rfl

theorem sameValidity_iff (a b : LagInput D) :
    sameValidity a b = true ↔ a.time = b.time ∧ a.timeBounds = b.timeBounds := by
  unfold sameValidity
  rw [Bool.and_eq_true, beq_iff_eq, beq_iff_eq]

theorem sameTimes_iff (first : LagInput D) (rest : List (LagInput D)) :
    (first :: rest).all (fun c => sameValidity c first) = true ↔ Spec.sameTimes (first :: rest) := by
  rw [List.all_eq_true]
  constructor
  · intro h a ha b hb
    have h1 := (sameValidity_iff _ _).1 (h a ha)
    have h2 := (sameValidity_iff _ _).1 (h b hb)
    exact ⟨h1.1.trans h2.1.symm, h1.2.trans h2.2.symm⟩
  · intro h a ha
    exact (sameValidity_iff _ _).2 (h a ha first List.mem_cons_self)

theorem latest_lag (first : LagInput D) (rest : List (LagInput D)) :
    ∃ t, findLatestCycletime ((first :: rest).map LagInput.toLagCube) = .ok t ∧
      Spec.latestCycle (first :: rest) t := by
  obtain ⟨h1, h2, h3⟩ := latest_fold ((first :: rest).map LagInput.toLagCube) first.frt
  refine ⟨_, rfl, ?_, ?_⟩
  · rcases h3 with h3 | ⟨c, hc, h3⟩
    · exact ⟨first, List.mem_cons_self, h3.symm⟩
    · obtain ⟨d, hd, rfl⟩ := List.mem_map.1 hc
      exact ⟨d, hd, h3⟩
  · intro c hc
    exact h2 c.toLagCube (List.mem_map_of_mem hc)

theorem latestCycle_unique {cubes : List (LagInput D)} {s t : ℤ} (hs : Spec.latestCycle cubes s)
    (ht : Spec.latestCycle cubes t) : s = t := by
  obtain ⟨⟨c, hc, rfl⟩, h1⟩ := hs
  obtain ⟨⟨d, hd, rfl⟩, h2⟩ := ht
  have := h1 d hd
  have := h2 c hc
  omega

/-- What the command does with two or more ensembles of one validity time. -/
theorem laggedRun_eq (first second : LagInput D) (rest : List (LagInput D))
    (hs : Spec.sameTimes (first :: second :: rest)) :
    ∃ t ms, Spec.latestCycle (first :: second :: rest) t ∧
      timeLagged ((first :: second :: rest).map LagInput.toLagCube) = .ok ms ∧
      laggedRun (first :: second :: rest) = .ok ⟨⟨t, first.time, first.time - t, ms⟩, first.timeBounds,
        first.timeBounds.map (fun b => (b.1 - t, b.2 - t))⟩ := by
  obtain ⟨t, h1, h2⟩ := latest_lag first (second :: rest)
  obtain ⟨ms, h3, _⟩ := C25_lagged ((first :: second :: rest).map LagInput.toLagCube) (by simp)
  refine ⟨t, ms, h2, h3, ?_⟩
  unfold laggedRun
  dsimp only
  rw [if_pos ((sameTimes_iff _ _).2 hs), h1]
  dsimp only
  rw [h3]
  rfl

/-- **C289.** A single ensemble is returned as it is, its cycle, forecast period and realization numbers included. -/
theorem C289_single (c : LagInput D) : laggedRun [c] = .ok c := rfl

/-- **C289.** No ensembles are an error. -/
theorem C289_none : laggedRun ([] : List (LagInput D)) = .error .indexError := rfl

/-- **C289.** There is a result exactly when all ensembles are valid at the same time, and over the same period; any
other non-empty list is refused. -/
theorem C289_accepted (cubes : List (LagInput D)) (hne : cubes ≠ []) :
    ((∃ out, laggedRun cubes = .ok out) ↔ Spec.sameTimes cubes) ∧
      (¬ Spec.sameTimes cubes → laggedRun cubes = .error .valueError) := by
  rcases cubes with _ | ⟨first, _ | ⟨second, rest⟩⟩
  · exact absurd rfl hne
  · have hst : Spec.sameTimes [first] := by
      intro a ha b hb
      rw [List.mem_singleton.1 ha, List.mem_singleton.1 hb]
      exact ⟨rfl, rfl⟩
    exact ⟨⟨fun _ => hst, fun _ => ⟨first, rfl⟩⟩, fun h => absurd hst h⟩
  · have hbad : ¬ Spec.sameTimes (first :: second :: rest) →
        laggedRun (first :: second :: rest) = .error .valueError := by
      intro h
      unfold laggedRun
      exact if_neg (fun h' => h ((sameTimes_iff _ _).1 h'))
    refine ⟨⟨?_, ?_⟩, hbad⟩
    · rintro ⟨out, h⟩
      by_contra hs
      rw [hbad hs] at h
      nomatch h
    · intro hs
      obtain ⟨t, ms, _, _, h⟩ := laggedRun_eq first second rest hs
      exact ⟨_, h⟩

/-- **C289.** The result of two or more ensembles has the latest of their cycles, their validity time and period, and
the forecast period (and its bounds) from that cycle to that time. -/
theorem C289_times (cubes : List (LagInput D)) (out : LagInput D) (hn : 2 ≤ cubes.length)
    (h : laggedRun cubes = .ok out) :
    ((∃ c ∈ cubes, c.frt = out.frt) ∧ ∀ c ∈ cubes, c.frt ≤ out.frt) ∧
      (∀ c ∈ cubes, out.time = c.time ∧ out.timeBounds = c.timeBounds) ∧
      out.fp = out.time - out.frt ∧
      out.fpBounds = out.timeBounds.map (fun b => (b.1 - out.frt, b.2 - out.frt)) := by
  rcases cubes with _ | ⟨first, _ | ⟨second, rest⟩⟩
  · simp at hn
  · simp at hn
  · have hs := (C289_accepted _ (by simp)).1.1 ⟨out, h⟩
    obtain ⟨t, ms, h1, _, h2⟩ := laggedRun_eq first second rest hs
    rw [h2] at h
    injection h with h
    subst h
    exact ⟨h1, fun c hc => hs first List.mem_cons_self c hc, rfl, rfl⟩

/-- **C289.** If the forecast period of every ensemble is the time from its own cycle, then that of the result is the
shortest of them. -/
theorem C289_shortest (cubes : List (LagInput D)) (out : LagInput D) (hn : 2 ≤ cubes.length)
    (h : laggedRun cubes = .ok out) (hfp : ∀ c ∈ cubes, c.fp = c.time - c.frt) :
    (∃ c ∈ cubes, out.fp = c.fp) ∧ ∀ c ∈ cubes, out.fp ≤ c.fp := by
  obtain ⟨⟨⟨c, hc, hct⟩, hmax⟩, htime, hf, _⟩ := C289_times cubes out hn h
  refine ⟨⟨c, hc, ?_⟩, ?_⟩
  · rw [hf, hfp c hc, (htime c hc).1, hct]
  · intro d hd
    have h1 := hmax d hd
    have h2 := (htime d hd).1
    rw [hf, hfp d hd]
    omega

theorem laggedRun_members (cubes : List (LagInput D)) (out : LagInput D) (hn : 2 ≤ cubes.length)
    (h : laggedRun cubes = .ok out) : timeLagged (cubes.map LagInput.toLagCube) = .ok out.members := by
  rcases cubes with _ | ⟨first, _ | ⟨second, rest⟩⟩
  · simp at hn
  · simp at hn
  · have hs := (C289_accepted _ (by simp)).1.1 ⟨out, h⟩
    obtain ⟨t, ms, _, h1, h2⟩ := laggedRun_eq first second rest hs
    rw [h2] at h
    injection h with h
    subst h
    exact h1

theorem timeLagged_distinct (cubes : List (LagInput D)) (hn : 2 ≤ cubes.length) (hd : Spec.lagDistinct cubes) :
    timeLagged (cubes.map LagInput.toLagCube) =
      .ok ((Spec.lagMembers cubes).insertionSort (fun a b => a.1 ≤ b.1)) := by
  rcases cubes with _ | ⟨first, _ | ⟨second, rest⟩⟩
  · simp at hn
  · simp at hn
  · unfold timeLagged
    obtain ⟨cs, hcs⟩ : ∃ cs, rebadgeLatest ((first :: second :: rest).map LagInput.toLagCube) none = .ok cs := by
      unfold rebadgeLatest
      rw [if_neg (by simp)]
      exact ⟨_, rfl⟩
    obtain ⟨hm, hl⟩ := rebadge_members hcs
    rw [hcs]
    simp only [flatten_fst, hm]
    rw [allMembers_lag] at hm ⊢
    rw [if_neg (fun h => (dedup_lt_iff _).1 h hd)]
    have hfl : (cs.map (fun c => c.members)).flatten = Spec.lagMembers (first :: second :: rest) := hm
    rcases cs with _ | ⟨c, _ | ⟨c', cs'⟩⟩
    · simp at hl
    · simp at hl
    · dsimp only
      rw [hfl]
      exact mergeMembers_nodup hd

theorem lag_sorted (ms : List (ℤ × D)) :
    (ms.insertionSort (fun a b => a.1 ≤ b.1)).Pairwise (fun a b => a.1 ≤ b.1) := by
  haveI : Std.Total (fun a b : ℤ × D => a.1 ≤ b.1) := ⟨fun a b => le_total a.1 b.1⟩
  haveI : IsTrans (ℤ × D) (fun a b => a.1 ≤ b.1) := ⟨fun a b c h1 h2 => le_trans h1 h2⟩
  exact List.pairwise_insertionSort _ _

theorem lag_perm (ms : List (ℤ × D)) : (ms.insertionSort (fun a b => a.1 ≤ b.1)).Perm ms :=
  List.perm_insertionSort _ _

theorem strictly_of_nodup {ms : List (ℤ × D)} (h : ms.Pairwise (fun a b => a.1 ≤ b.1))
    (hd : (ms.map Prod.fst).Nodup) : ms.Pairwise (fun a b => a.1 < b.1) := by
  have h2 : ms.Pairwise (fun a b => a.1 ≠ b.1) := List.pairwise_map.1 hd
  exact h.imp₂ (fun a b h1 h2 => lt_of_le_of_ne h1 h2) h2

/-- **C289** (all numbers different): the members of the result are those of the ensembles, each with its own number and
data, in ascending order of the numbers. -/
theorem C289_distinct (cubes : List (LagInput D)) (out : LagInput D) (hn : 2 ≤ cubes.length)
    (h : laggedRun cubes = .ok out) (hd : Spec.lagDistinct cubes) :
    out.members.Perm (Spec.lagMembers cubes) ∧ out.members.Pairwise (fun a b => a.1 < b.1) := by
  have h1 := laggedRun_members cubes out hn h
  rw [timeLagged_distinct cubes hn hd] at h1
  injection h1 with h1
  rw [← h1]
  refine ⟨lag_perm _, strictly_of_nodup (lag_sorted _) ?_⟩
  exact ((lag_perm _).map Prod.fst).nodup_iff.2 hd

/-- **C289** (some number twice): the members are all those of the ensembles in the order of the cubes, numbered
0, 1, 2, … -/
theorem C289_clash (cubes : List (LagInput D)) (out : LagInput D) (hn : 2 ≤ cubes.length)
    (h : laggedRun cubes = .ok out) (hd : ¬ Spec.lagDistinct cubes) :
    out.members.map Prod.snd = (Spec.lagMembers cubes).map Prod.snd ∧
      out.members.map Prod.fst = (List.range (Spec.lagMembers cubes).length).map (fun i : ℕ => (i : ℤ)) := by
  have h1 := laggedRun_members cubes out hn h
  have hne : cubes.map LagInput.toLagCube ≠ [] := by
    intro h0
    rw [List.map_eq_nil_iff] at h0
    rw [h0] at hn
    simp at hn
  obtain ⟨ms, h2, h3, h4⟩ := C25_clash_renumbers (cubes.map LagInput.toLagCube) hne
    (by rw [allMembers_lag]; exact hd)
  rw [h1] at h2
  injection h2 with h2
  rw [allMembers_lag] at h3 h4
  rw [h2]
  exact ⟨h4, h3⟩

theorem lagMembers_perm {cubes cubes' : List (LagInput D)} (hp : cubes.Perm cubes') :
    (Spec.lagMembers cubes).Perm (Spec.lagMembers cubes') := hp.flatMap_right _

theorem sorted_lag_eq {a b : List (ℤ × D)} (hp : a.Perm b) (hd : (b.map Prod.fst).Nodup) :
    a.insertionSort (fun x y => x.1 ≤ y.1) = b.insertionSort (fun x y => x.1 ≤ y.1) := by
  have hda : (a.map Prod.fst).Nodup := (hp.map Prod.fst).nodup_iff.2 hd
  have hperm : (a.insertionSort (fun x y => x.1 ≤ y.1)).Perm (b.insertionSort (fun x y => x.1 ≤ y.1)) :=
    ((lag_perm a).trans hp).trans (lag_perm b).symm
  apply List.Perm.eq_of_pairwise (le := fun x y : ℤ × D => x.1 ≤ y.1) _ (lag_sorted a) (lag_sorted b) hperm
  intro x y hx hy h1 h2
  have hx' : x ∈ b := ((lag_perm a).trans hp).mem_iff.1 hx
  have hy' : y ∈ b := (lag_perm b).mem_iff.1 hy
  exact List.inj_on_of_nodup_map hd hx' hy' (le_antisymm h1 h2)

/-- **C289.** The order of ensembles whose numbers are all different does not matter. -/
theorem C289_order (cubes cubes' : List (LagInput D)) (hp : cubes.Perm cubes') (hd : Spec.lagDistinct cubes') :
    laggedRun cubes = laggedRun cubes' := by
  have hd1 : Spec.lagDistinct cubes := ((lagMembers_perm hp).map Prod.fst).nodup_iff.2 hd
  have hlen := hp.length_eq
  by_cases hn : 2 ≤ cubes.length
  · have hn' : 2 ≤ cubes'.length := hlen ▸ hn
    have hne : cubes ≠ [] := by rintro rfl; simp at hn
    have hne' : cubes' ≠ [] := by rintro rfl; simp at hn'
    have hss : Spec.sameTimes cubes ↔ Spec.sameTimes cubes' := by
      unfold Spec.sameTimes
      constructor
      · intro h a ha b hb
        exact h a (hp.mem_iff.2 ha) b (hp.mem_iff.2 hb)
      · intro h a ha b hb
        exact h a (hp.mem_iff.1 ha) b (hp.mem_iff.1 hb)
    by_cases hs : Spec.sameTimes cubes
    · obtain ⟨o, ho⟩ := (C289_accepted cubes hne).1.2 hs
      obtain ⟨o', ho'⟩ := (C289_accepted cubes' hne').1.2 (hss.1 hs)
      obtain ⟨a1, a2, a3, a4⟩ := C289_times cubes o hn ho
      obtain ⟨b1, b2, b3, b4⟩ := C289_times cubes' o' hn' ho'
      have hfrt : o.frt = o'.frt := by
        refine latestCycle_unique (cubes := cubes) a1 ⟨?_, ?_⟩
        · obtain ⟨c, hc, h⟩ := b1.1
          exact ⟨c, hp.mem_iff.2 hc, h⟩
        · intro c hc
          exact b1.2 c (hp.mem_iff.1 hc)
      obtain ⟨c, hc⟩ := List.exists_mem_of_ne_nil _ hne
      have htime : o.time = o'.time := (a2 c hc).1.trans (b2 c (hp.mem_iff.1 hc)).1.symm
      have hbnd : o.timeBounds = o'.timeBounds := (a2 c hc).2.trans (b2 c (hp.mem_iff.1 hc)).2.symm
      have hmem : o.members = o'.members := by
        have h1 := laggedRun_members cubes o hn ho
        have h2 := laggedRun_members cubes' o' hn' ho'
        rw [timeLagged_distinct cubes hn hd1] at h1
        rw [timeLagged_distinct cubes' hn' hd] at h2
        injection h1 with h1
        injection h2 with h2
        rw [← h1, ← h2]
        exact sorted_lag_eq (lagMembers_perm hp) hd
      rw [ho, ho']
      congr 1
      rw [hfrt, htime] at a3
      rw [hfrt, hbnd] at a4
      rcases o with ⟨⟨f, t, p, m⟩, tb, fb⟩
      rcases o' with ⟨⟨f', t', p', m'⟩, tb', fb'⟩
      dsimp only at *
      subst hfrt htime hbnd hmem
      rw [a3, b3, a4, b4]
    · rw [(C289_accepted cubes hne).2 hs, (C289_accepted cubes' hne').2 (fun h => hs (hss.2 h))]
  · rcases cubes with _ | ⟨c, _ | ⟨d, r⟩⟩
    · rw [List.nil_perm.1 hp]
    · rw [List.singleton_perm.1 hp]
    · simp at hn

/-- **C289** (a claim that does not hold): where a number occurs twice, the order of the ensembles decides which member
gets which number. -/
theorem C289_order_refuted : ¬ ∀ (cubes cubes' : List (LagInput String)), cubes.Perm cubes' →
    laggedRun cubes = laggedRun cubes' := by
  intro h
  have h1 := h [⟨⟨0, 100, 100, [(0, "a")]⟩, none, none⟩, ⟨⟨50, 100, 50, [(0, "b")]⟩, none, none⟩]
    [⟨⟨50, 100, 50, [(0, "b")]⟩, none, none⟩, ⟨⟨0, 100, 100, [(0, "a")]⟩, none, none⟩] (List.Perm.swap ..)
  have h2 := congrArg (fun r => r.toOption.map (fun o : LagInput String => o.members)) h1
  revert h2
  decide +kernel

/-- **C289.** Ensembles whose numbers are all different can be lagged in steps: adding more ensembles to a result
gives what adding them all at once gives. -/
theorem C289_stepwise (early late : List (LagInput D)) (mid : LagInput D) (he : early ≠ []) (hl : late ≠ [])
    (h : laggedRun early = .ok mid) (hd : Spec.lagDistinct (early ++ late)) :
    laggedRun (mid :: late) = laggedRun (early ++ late) := by
  by_cases hn : 2 ≤ early.length
  · obtain ⟨a1, a2, _, _⟩ := C289_times early mid hn h
    have hmm : Spec.lagMembers (early ++ late) = Spec.lagMembers early ++ Spec.lagMembers late := by
      unfold Spec.lagMembers; rw [List.flatMap_append]
    have hde : Spec.lagDistinct early := by
      unfold Spec.lagDistinct at hd ⊢
      rw [hmm, List.map_append] at hd
      exact (List.nodup_append.1 hd).1
    have hperm : (Spec.lagMembers (mid :: late)).Perm (Spec.lagMembers (early ++ late)) := by
      rw [hmm]
      have : Spec.lagMembers (mid :: late) = mid.members ++ Spec.lagMembers late := by
        unfold Spec.lagMembers; rw [List.flatMap_cons]
      rw [this]
      exact (C289_distinct early mid hn h hde).1.append_right _
    have hdm : Spec.lagDistinct (mid :: late) := (hperm.map Prod.fst).nodup_iff.2 hd
    have hn1 : 2 ≤ (mid :: late).length := by
      have := List.length_pos_iff.2 hl
      rw [List.length_cons]; omega
    have hn2 : 2 ≤ (early ++ late).length := by rw [List.length_append]; omega
    have hne2 : early ++ late ≠ [] := by simp [he]
    obtain ⟨c, hc⟩ := List.exists_mem_of_ne_nil _ he
    have hse := (C289_accepted early he).1.1 ⟨mid, h⟩
    have hss : Spec.sameTimes (mid :: late) ↔ Spec.sameTimes (early ++ late) := by
      have hmc := a2 c hc
      constructor
      · intro hs a ha b hb
        have key : ∀ x ∈ early ++ late, x.time = mid.time ∧ x.timeBounds = mid.timeBounds := by
          intro x hx
          rcases List.mem_append.1 hx with hx | hx
          · exact ⟨(a2 x hx).1.symm, (a2 x hx).2.symm⟩
          · exact hs x (List.mem_cons_of_mem _ hx) mid List.mem_cons_self
        exact ⟨(key a ha).1.trans (key b hb).1.symm, (key a ha).2.trans (key b hb).2.symm⟩
      · intro hs a ha b hb
        have key : ∀ x ∈ mid :: late, x.time = c.time ∧ x.timeBounds = c.timeBounds := by
          intro x hx
          rcases List.mem_cons.1 hx with rfl | hx
          · exact hmc
          · exact hs x (List.mem_append_right _ hx) c (List.mem_append_left _ hc)
        exact ⟨(key a ha).1.trans (key b hb).1.symm, (key a ha).2.trans (key b hb).2.symm⟩
    by_cases hs : Spec.sameTimes (mid :: late)
    · obtain ⟨o, ho⟩ := (C289_accepted (mid :: late) (by simp)).1.2 hs
      obtain ⟨o', ho'⟩ := (C289_accepted (early ++ late) hne2).1.2 (hss.1 hs)
      obtain ⟨p1, p2, p3, p4⟩ := C289_times _ o hn1 ho
      obtain ⟨q1, q2, q3, q4⟩ := C289_times _ o' hn2 ho'
      have hfrt : o.frt = o'.frt := by
        refine latestCycle_unique (cubes := mid :: late) p1 ⟨?_, ?_⟩
        · obtain ⟨x, hx, hxe⟩ := q1.1
          rcases List.mem_append.1 hx with hx' | hx'
          · refine ⟨mid, List.mem_cons_self, le_antisymm ?_ (hxe ▸ a1.2 x hx')⟩
            obtain ⟨y, hy, hye⟩ := a1.1
            rw [← hye]
            exact q1.2 y (List.mem_append_left _ hy)
          · exact ⟨x, List.mem_cons_of_mem _ hx', hxe⟩
        · intro x hx
          rcases List.mem_cons.1 hx with rfl | hx
          · obtain ⟨y, hy, hye⟩ := a1.1
            rw [← hye]
            exact q1.2 y (List.mem_append_left _ hy)
          · exact q1.2 x (List.mem_append_right _ hx)
      have hm1 := p2 mid List.mem_cons_self
      have hm2 := q2 c (List.mem_append_left _ hc)
      have htime : o.time = o'.time := hm1.1.trans ((a2 c hc).1.trans hm2.1.symm)
      have hbnd : o.timeBounds = o'.timeBounds := hm1.2.trans ((a2 c hc).2.trans hm2.2.symm)
      have hmem : o.members = o'.members := by
        have h1 := laggedRun_members _ o hn1 ho
        have h2 := laggedRun_members _ o' hn2 ho'
        rw [timeLagged_distinct _ hn1 hdm] at h1
        rw [timeLagged_distinct _ hn2 hd] at h2
        injection h1 with h1
        injection h2 with h2
        rw [← h1, ← h2]
        exact sorted_lag_eq hperm hd
      rw [ho, ho']
      congr 1
      rw [hfrt, htime] at p3
      rw [hfrt, hbnd] at p4
      rcases o with ⟨⟨f, t, p, m⟩, tb, fb⟩
      rcases o' with ⟨⟨f', t', p', m'⟩, tb', fb'⟩
      dsimp only at *
      subst hfrt htime hbnd hmem
      rw [p3, q3, p4, q4]
    · rw [(C289_accepted _ (by simp)).2 hs, (C289_accepted _ hne2).2 (fun h => hs (hss.2 h))]
  · rcases early with _ | ⟨c, _ | ⟨d, r⟩⟩
    · exact absurd rfl he
    · have h' : Except.ok c = (Except.ok mid : Except Err (LagInput D)) := h
      injection h' with h'
      rw [h']
      rfl
    · simp at hn

/-- **C289** (a claim that does not hold): with numbers that occur twice, lagging in steps does not give what lagging at
once gives. -/
theorem C289_stepwise_refuted : ¬ ∀ (early late : List (LagInput String)) (mid : LagInput String),
    early ≠ [] → late ≠ [] → laggedRun early = .ok mid →
    laggedRun (mid :: late) = laggedRun (early ++ late) := by
  intro h
  obtain ⟨mid, hmid⟩ := (C289_accepted [(⟨⟨0, 100, 100, [(0, "a")]⟩, none, none⟩ : LagInput String),
    ⟨⟨50, 100, 50, [(0, "b")]⟩, none, none⟩] (by simp)).1.2 (by unfold Spec.sameTimes; decide +kernel)
  have hm := laggedRun_members _ mid (by simp) hmid
  have hmm : mid.members = [(0, "a"), (1, "b")] := by
    have h3 := congrArg Except.toOption hm
    have h4 : (timeLagged ([(⟨⟨0, 100, 100, [(0, "a")]⟩, none, none⟩ : LagInput String),
      ⟨⟨50, 100, 50, [(0, "b")]⟩, none, none⟩].map LagInput.toLagCube)).toOption = some [(0, "a"), (1, "b")] := by
      decide +kernel
    rw [h4] at h3
    exact (Option.some.inj h3).symm
  obtain ⟨h5, h6, _, _⟩ := C289_times _ mid (by simp) hmid
  have h1 := h _ [⟨⟨60, 100, 40, [(5, "c")]⟩, none, none⟩] mid (by simp) (by simp) hmid
  have h7 := h6 _ List.mem_cons_self
  have hst : Spec.sameTimes [mid, ⟨⟨60, 100, 40, [(5, "c")]⟩, none, none⟩] := by
    have e1 : mid.time = 100 := h7.1
    have e2 : mid.timeBounds = none := h7.2
    intro a ha b hb
    have key : ∀ x ∈ [mid, (⟨⟨60, 100, 40, [(5, "c")]⟩, none, none⟩ : LagInput String)],
        x.time = 100 ∧ x.timeBounds = none := by
      intro x hx
      rcases List.mem_cons.1 hx with rfl | hx
      · exact ⟨e1, e2⟩
      · rw [List.mem_singleton.1 hx]; exact ⟨rfl, rfl⟩
    exact ⟨(key a ha).1.trans (key b hb).1.symm, (key a ha).2.trans (key b hb).2.symm⟩
  obtain ⟨o, ho⟩ := (C289_accepted _ (by simp)).1.2 hst
  have hd : Spec.lagDistinct [mid, (⟨⟨60, 100, 40, [(5, "c")]⟩, none, none⟩ : LagInput String)] := by
    have e : Spec.lagMembers [mid, (⟨⟨60, 100, 40, [(5, "c")]⟩, none, none⟩ : LagInput String)] =
        mid.members ++ [(5, "c")] := rfl
    unfold Spec.lagDistinct
    rw [e, hmm]
    decide +kernel
  have h8 := (C289_distinct _ o (by simp) ho hd).1
  have e : Spec.lagMembers [mid, (⟨⟨60, 100, 40, [(5, "c")]⟩, none, none⟩ : LagInput String)] =
      [(0, "a"), (1, "b"), (5, "c")] := by
    have e : Spec.lagMembers [mid, (⟨⟨60, 100, 40, [(5, "c")]⟩, none, none⟩ : LagInput String)] =
        mid.members ++ [(5, "c")] := rfl
    rw [e, hmm]
    rfl
  rw [e] at h8
  rw [ho] at h1
  have h9 := (C289_clash _ o (by simp) h1.symm (by unfold Spec.lagDistinct; decide +kernel)).2
  have h10 : (5 : ℤ) ∈ o.members.map Prod.fst :=
    List.mem_map_of_mem (f := Prod.fst) (h8.mem_iff.2 (by decide : ((5 : ℤ), "c") ∈ _))
  rw [h9] at h10
  revert h10
  decide +kernel

/-! Hypotheses are met: three ensembles of different sizes, cycles and numbers; one whose period differs. -/
def lagExample : List (LagInput String) :=
  [⟨⟨0, 7200, 7200, [(4, "a"), (1, "b")]⟩, some (3600, 7200), some (3600, 7200)⟩,
   ⟨⟨1800, 7200, 5400, [(3, "c")]⟩, some (3600, 7200), some (1800, 5400)⟩,
   ⟨⟨900, 7200, 6300, [(0, "d"), (2, "e")]⟩, some (3600, 7200), some (2700, 6300)⟩]

example : (laggedRun lagExample).toOption.map (fun o => (o.frt, o.time, o.fp, o.fpBounds)) =
    some (1800, 7200, 5400, some (1800, 5400)) := by decide +kernel
example : (laggedRun lagExample).toOption.map (fun o => o.members) =
    some [(0, "d"), (1, "b"), (2, "e"), (3, "c"), (4, "a")] := by decide +kernel
example : Spec.lagDistinct lagExample := by unfold Spec.lagDistinct; decide +kernel
example : ∀ c ∈ lagExample, c.fp = c.time - c.frt := by decide +kernel
example : (laggedRun [(⟨⟨0, 7200, 7200, [(0, "a")]⟩, some (3600, 7200), none⟩ : LagInput String),
    ⟨⟨0, 7200, 7200, [(1, "b")]⟩, some (0, 7200), none⟩]).toOption.isSome = false := by decide +kernel

end Improver
