import Verif.Model.AdjRun
import Verif.Props.Times
import Verif.Props.Merge
import Verif.Props.RefRun

/-! Theorems about the `blend-adjacent-points` command (C238). -/

namespace Improver

/-- The weighted mean does not depend on the order of the (value, weight) pairs. -/
theorem maAverage_reorder {α : Type} {l l' : List α} (h : l.Perm l') (f : α → Option ℚ) (g : α → ℚ) :
    maAverage (l.map f) (l.map g) = maAverage (l'.map f) (l'.map g) := by
  unfold maAverage
  rw [zip_map_map, zip_map_map]
  have e1 : ((l.map fun a => (f a, g a)).map numTerm).sum = ((l'.map fun a => (f a, g a)).map numTerm).sum :=
    ((h.map _).map _).sum_eq
  have e2 : ((l.map fun a => (f a, g a)).map denTerm).sum = ((l'.map fun a => (f a, g a)).map denTerm).sum :=
    ((h.map _).map _).sum_eq
  rw [e1, e2]

/-- Weight of a point in a triangle of half-width `width` about `central`. -/
def Spec.triangleWeight (central width p : ℚ) : ℚ := max 0 (1 - |p - central| / width)

/-- The blend of slices at different points with normalised triangular weights. -/
theorem slices_blend (slices : List (ℤ × Option (ℤ × ℤ) × List (Option ℚ))) (hnd : (slices.map Prod.fst).Nodup) (i : ℕ)
    (central width : ℚ) (hw : 0 < width) (hc : ∃ s ∈ slices, (s.1 : ℚ) = central) (weights : List ℚ)
    (ht : triangularWeights (slices.map fun s => (s.1 : ℚ)) central width = .ok weights) :
    weightedBlend (slices.map fun k => ((k.1 : ℚ), (k.2.2[i]?).join)) (some ((slices.map fun s => (s.1 : ℚ)).zip weights)) =
      .ok (maAverage (slices.map fun k => (k.2.2[i]?).join) (slices.map fun k => Spec.triangleWeight central width k.1)) := by
  classical
  set pts := slices.map fun s => (s.1 : ℚ) with hpts
  let x : ℚ → Option ℚ := fun p => (slices.find? fun s => decide ((s.1 : ℚ) = p)).bind fun s => (s.2.2[i]?).join
  have hx : ∀ k ∈ slices, x k.1 = (k.2.2[i]?).join := by
    intro k hk
    have hf : slices.find? (fun s => decide ((s.1 : ℚ) = (k.1 : ℚ))) = some k := by
      have hsome : (slices.find? (fun s => decide ((s.1 : ℚ) = (k.1 : ℚ)))).isSome = true := by
        rw [List.find?_isSome]
        exact ⟨k, hk, by simp⟩
      obtain ⟨s, hs⟩ := Option.isSome_iff_exists.1 hsome
      have h1 := List.mem_of_find?_eq_some hs
      have h2 := List.find?_some hs
      simp only [decide_eq_true_eq, Int.cast_inj] at h2
      rw [hs, List.inj_on_of_nodup_map hnd h1 hk h2]
    show ((slices.find? fun s => decide ((s.1 : ℚ) = (k.1 : ℚ))).bind fun s => (s.2.2[i]?).join) = _
    rw [hf]; rfl
  have hdata : (slices.map fun k => ((k.1 : ℚ), (k.2.2[i]?).join)) = pts.map fun p => (p, x p) := by
    rw [hpts, List.map_map]
    apply List.map_congr_left
    intro k hk
    simp only [Function.comp, hx k hk]
  have hvals : (slices.map fun k => (k.2.2[i]?).join) = pts.map x := by
    rw [hpts, List.map_map]
    apply List.map_congr_left
    intro k hk
    simp only [Function.comp, hx k hk]
  have hcm : central ∈ pts := by
    obtain ⟨s, hs, hse⟩ := hc
    exact List.mem_map.2 ⟨s, hs, hse⟩
  have h75 := C75_triangular pts x central width hw hcm
  unfold adjacentBlend at h75
  have hfst : (pts.map (fun p => (p, x p))).map Prod.fst = pts := by
    rw [List.map_map]; exact List.map_id' pts |>.symm ▸ by simp
  rw [if_neg, hfst, ht] at h75
  · simp only [bind, Except.bind] at h75
    rw [hdata, hvals, h75]
    congr 2
    rw [hpts, List.map_map]
    rfl
  · intro hall
    have := List.all_eq_true.1 hall (central, x central) (List.mem_map.2 ⟨central, hcm, rfl⟩)
    simp at this

/-- C238.  What the blend of one cube is: it succeeds exactly if the coordinate is a dimension other than "threshold", the units and the width
are given, the units are of the same kind as those of the coordinate, the width is positive and the central point is one of the points; the
result has the point and bounds of the central slice and, at every grid point, the mean of the unmasked values weighted by the triangle. -/
theorem C238_plugin (unit : StdUnit) (isDim : Bool) (cube : Merged (List (Option ℚ))) (o : AdjOptions) (n : ℕ)
    (hnd : (cube.slices.map Prod.fst).Nodup) (hlen : ∀ s ∈ cube.slices, s.2.2.length = n) (out : AdjOut) :
    adjacentProcess unit isDim cube o = .ok out ↔
      o.coordinate ≠ "threshold".toList ∧ isDim = true ∧ ∃ u w, o.units = some u ∧ o.width = some w ∧ u.dimension = unit.dimension ∧
        0 < convertUnit u unit w ∧ ∃ s ∈ cube.slices, (s.1 : ℚ) = convertUnit u unit o.central ∧
          out = ⟨cube.name, cube.attrs, cube.methods, s.1, s.2.1, (List.range n).map fun i =>
            maAverage (cube.slices.map fun k => (k.2.2[i]?).join)
              (cube.slices.map fun k => Spec.triangleWeight (convertUnit u unit o.central) (convertUnit u unit w) k.1)⟩ := by
  unfold adjacentProcess
  by_cases hthr : o.coordinate = "threshold".toList
  · rw [if_pos hthr]
    exact ⟨fun h => (nomatch h), fun h => absurd hthr h.1⟩
  rw [if_neg hthr]
  unfold findCentral convertParam
  cases hu : o.units with
  | none =>
    simp only [bind, Except.bind]
    exact ⟨fun h => (nomatch h), fun ⟨_, _, u, _, h, _⟩ => (nomatch h)⟩
  | some u =>
    by_cases hdim : u.dimension = unit.dimension
    swap
    · dsimp only
      rw [if_pos hdim]
      simp only [bind, Except.bind]
      refine ⟨fun h => (nomatch h), fun ⟨_, _, u', _, h, _, h2, _⟩ => ?_⟩
      rw [Option.some.injEq] at h
      subst h
      exact absurd h2 hdim
    dsimp only
    rw [if_neg (not_not.2 hdim)]
    simp only [bind, Except.bind]
    cases hf : cube.slices.find? fun s => decide ((s.1 : ℚ) = convertUnit u unit o.central) with
    | none =>
      refine ⟨fun h => (nomatch h), fun ⟨_, _, u', w, h, _, _, _, s, hs, hse, _⟩ => ?_⟩
      rw [Option.some.injEq] at h
      subst h
      have := List.find?_eq_none.1 hf s hs
      simp [hse] at this
    | some s =>
      have hs := List.mem_of_find?_eq_some hf
      have hse : (s.1 : ℚ) = convertUnit u unit o.central := by simpa using List.find?_some hf
      have huniq : ∀ t ∈ cube.slices, (t.1 : ℚ) = convertUnit u unit o.central → t = s := by
        intro t ht hte
        refine List.inj_on_of_nodup_map hnd ht hs ?_
        exact_mod_cast hte.trans hse.symm
      dsimp only
      cases hw : o.width with
      | none => exact ⟨fun h => (nomatch h), fun ⟨_, _, _, _, _, h, _⟩ => (nomatch h)⟩
      | some w =>
        dsimp only
        rw [if_neg (not_not.2 hdim)]
        dsimp only
        by_cases hpos : 0 < convertUnit u unit w
        swap
        · obtain ⟨e, he⟩ := C21_triangular_bad_width (cube.slices.map fun s => (s.1 : ℚ)) (convertUnit u unit o.central)
            (convertUnit u unit w) (not_lt.1 hpos)
          rw [he]
          refine ⟨fun h => (nomatch h), fun ⟨_, _, u', w', h, h', _, h2, _⟩ => ?_⟩
          rw [Option.some.injEq] at h h'
          subst h h'
          exact absurd h2 hpos
        have hin : ∃ q ∈ (cube.slices.map fun s => (s.1 : ℚ)), |q - convertUnit u unit o.central| < convertUnit u unit w :=
          ⟨_, List.mem_map.2 ⟨s, hs, rfl⟩, by rw [hse]; simpa using hpos⟩
        have ht := (C21_triangular _ (convertUnit u unit o.central) _ hpos _).2 ⟨hin, rfl⟩
        cases htri : triangularWeights (cube.slices.map fun s => (s.1 : ℚ)) (convertUnit u unit o.central) (convertUnit u unit w) with
        | error e => rw [htri] at ht; exact nomatch ht
        | ok weights =>
          dsimp only
          cases isDim with
          | false => exact ⟨fun h => (nomatch h), fun h => (nomatch h.2.1)⟩
          | true =>
            rw [if_neg (by simp)]
            have hm : (List.range s.2.2.length).mapM (fun i : ℕ =>
                weightedBlend (cube.slices.map fun k => ((k.1 : ℚ), (k.2.2[i]?).join))
                  (some ((cube.slices.map fun s => (s.1 : ℚ)).zip weights))) =
                .ok ((List.range n).map fun i => maAverage (cube.slices.map fun k => (k.2.2[i]?).join)
                  (cube.slices.map fun k => Spec.triangleWeight (convertUnit u unit o.central) (convertUnit u unit w) k.1)) := by
              rw [hlen s hs]
              have heq : (fun i : ℕ => weightedBlend (cube.slices.map fun k => ((k.1 : ℚ), (k.2.2[i]?).join))
                  (some ((cube.slices.map fun s => (s.1 : ℚ)).zip weights))) =
                fun i : ℕ => .ok (maAverage (cube.slices.map fun k => (k.2.2[i]?).join)
                  (cube.slices.map fun k => Spec.triangleWeight (convertUnit u unit o.central) (convertUnit u unit w) k.1)) :=
                funext fun i => slices_blend cube.slices hnd i _ _ hpos ⟨s, hs, hse⟩ weights htri
              rw [heq]
              exact List.mapM_pure (m := Except Err)
            rw [hm]
            simp only [pure, Except.pure]
            constructor
            · intro h
              exact ⟨hthr, trivial, u, w, rfl, rfl, hdim, hpos, s, hs, hse, (Except.ok.inj h).symm⟩
            · rintro ⟨_, _, u', w', h, h', _, _, t, ht', hte, rfl⟩
              rw [Option.some.injEq] at h h'
              subst h h'
              rw [huniq t ht' hte]

/-- The name of the coordinate is one the command blends over. -/
def Spec.blendable (o : AdjOptions) : Prop :=
  ¬ "time".toList <:+: o.coordinate ∧ o.coordinate ≠ "threshold".toList ∧ (o.byPeriod = true → o.coordinate = "forecast_period".toList)

/-- Units and width are given and usable for a coordinate with the unit `unit`. -/
def Spec.usableWidth (unit : StdUnit) (o : AdjOptions) (u : StdUnit) (w : ℚ) : Prop :=
  o.units = some u ∧ o.width = some w ∧ u.dimension = unit.dimension ∧ 0 < convertUnit u unit w

/-- What the blend of the cubes about the cube `c` at the central point is. -/
structure Spec.AdjBlend (unit : StdUnit) (o : AdjOptions) (u : StdUnit) (w : ℚ) (cubes : List (MergeIn (List (Option ℚ))))
    (c : MergeIn (List (Option ℚ))) (out : AdjOut) : Prop where
  name : out.name = c.name
  point : out.point = c.point
  bounds : out.bounds = c.bounds
  attrs : ∀ e, e ∈ out.attrs ↔ ∀ k ∈ cubes, e ∈ k.attrs
  methods : ∀ m, m ∈ out.methods ↔ ∀ k ∈ cubes, m ∈ k.methods
  length : out.values.length = c.data.length
  values : ∀ i, i < c.data.length → out.values[i]? = some (maAverage (cubes.map fun k => (k.data[i]?).join)
    (cubes.map fun k => Spec.triangleWeight (convertUnit u unit o.central) (convertUnit u unit w) k.point))

/-- C238.  The command on several cubes: what it gives, and that it gives it for all cubes that can be merged, have data of one shape and
include the central point, with usable units and width. -/
theorem C238_several (unit : StdUnit) (o : AdjOptions) (cubes : List (MergeIn (List (Option ℚ)))) (h2 : 2 ≤ cubes.length)
    (hattr : ∀ c ∈ cubes, (c.attrs.map Prod.fst).Nodup) :
    (∀ out, adjacentCommand unit (.several cubes) o = .ok out →
      Spec.blendable o ∧ Spec.Mergeable cubes ∧ (∀ c ∈ cubes, ∀ k ∈ cubes, c.data.length = k.data.length) ∧
      ∃ u w, Spec.usableWidth unit o u w ∧ ∃ c ∈ cubes, (c.point : ℚ) = convertUnit u unit o.central ∧ Spec.AdjBlend unit o u w cubes c out) ∧
    (Spec.blendable o → Spec.Mergeable cubes → (∀ c ∈ cubes, ∀ k ∈ cubes, c.data.length = k.data.length) →
      (o.byPeriod = true → Spec.sameRanges ((cubes.insertionSort fun a b => a.point ≤ b.point).map MergeIn.bounds)) →
      ∀ u w, Spec.usableWidth unit o u w → (∃ c ∈ cubes, (c.point : ℚ) = convertUnit u unit o.central) →
      ∃ out, adjacentCommand unit (.several cubes) o = .ok out) := by
  obtain ⟨hm1, hm2, hm3, hm4⟩ := C234_merged cubes h2 o.byPeriod hattr
  have hfrom : ∀ m : Merged (List (Option ℚ)), mergeCubes cubes o.byPeriod = .ok m →
      ((m.slices.all (fun s => decide (s.2.2.length = ((m.slices.head?.map fun s => s.2.2.length).getD 0)))) = true ↔
        ∀ c ∈ cubes, ∀ k ∈ cubes, c.data.length = k.data.length) := by
    intro m hm
    obtain ⟨_, _, _, hperm, _⟩ := hm1 m hm
    have hmem : ∀ s, s ∈ m.slices ↔ ∃ c ∈ cubes, s = (c.point, c.bounds, c.data) := by
      intro s
      rw [hperm.mem_iff, List.mem_map]
      constructor <;> rintro ⟨c, hc, h⟩ <;> exact ⟨c, hc, h.symm⟩
    rw [List.all_eq_true]
    cases hs : m.slices with
    | nil =>
      have : m.slices.length = cubes.length := by rw [hperm.length_eq, List.length_map]
      rw [hs] at this
      simp at this
      omega
    | cons s rest =>
      rw [hs] at hmem
      simp only [List.head?_cons, Option.map_some, Option.getD_some, decide_eq_true_eq]
      constructor
      · intro h c hc k hk
        exact (of_decide_eq_true (h _ ((hmem _).2 ⟨c, hc, rfl⟩))).trans (of_decide_eq_true (h _ ((hmem _).2 ⟨k, hk, rfl⟩))).symm
      · intro h t ht
        obtain ⟨c, hc, rfl⟩ := (hmem t).1 ht
        obtain ⟨k, hk, hke⟩ := (hmem s).1 (by simp)
        rw [hke]
        exact decide_eq_true (h c hc k hk)
  have hdim : decide (cubes.length ≠ 1) = true := by
    rw [decide_eq_true_eq]; omega
  constructor
  · intro out h
    unfold adjacentCommand at h
    by_cases ht : hasPart "time".toList o.coordinate = true
    · rw [if_pos ht] at h; exact nomatch h
    rw [if_neg ht] at h
    by_cases hb : o.byPeriod = true ∧ o.coordinate ≠ "forecast_period".toList
    · rw [if_pos hb] at h; exact nomatch h
    rw [if_neg hb] at h
    simp only [bind, Except.bind] at h
    cases hm : mergeCubes cubes o.byPeriod with
    | error e => rw [hm] at h; exact nomatch h
    | ok m =>
      rw [hm] at h
      dsimp only at h
      by_cases hl : (m.slices.all (fun s => decide (s.2.2.length = ((m.slices.head?.map fun s => s.2.2.length).getD 0)))) = true
      swap
      · rw [if_pos hl] at h; exact nomatch h
      rw [if_neg (not_not.2 hl), hdim] at h
      have hlen := (hfrom m hm).1 hl
      obtain ⟨hmerge, _, hname, hperm, hsorted, hattrs, hmeth⟩ := hm1 m hm
      have hnd : (m.slices.map Prod.fst).Nodup := by
        rw [List.Nodup, List.pairwise_map]
        exact hsorted.imp fun h => ne_of_lt h
      obtain ⟨c0, hc0⟩ : ∃ c, c ∈ cubes := List.exists_mem_of_length_pos (by omega)
      have hlen' : ∀ s ∈ m.slices, s.2.2.length = c0.data.length := by
        intro s hs
        obtain ⟨c, hc, rfl⟩ := List.mem_map.1 (hperm.mem_iff.1 hs)
        exact hlen c hc c0 hc0
      obtain ⟨hthr, _, u, w, hu, hw, hdimu, hpos, s, hs, hse, rfl⟩ := (C238_plugin unit true m o _ hnd hlen' out).1 h
      obtain ⟨c, hc, rfl⟩ := List.mem_map.1 (hperm.mem_iff.1 hs)
      refine ⟨⟨fun hi => ht ((hasPart_iff _ _).2 hi), hthr, fun hp => ?_⟩, hmerge, hlen, u, w, ⟨hu, hw, hdimu, hpos⟩, c, hc, hse, ?_⟩
      · by_contra hne
        exact hb ⟨hp, hne⟩
      · refine ⟨hname c hc, rfl, rfl, hattrs, hmeth, ?_, ?_⟩
        · simp [hlen c hc c0 hc0]
        · intro i hi
          rw [hlen c hc c0 hc0] at hi
          dsimp only
          rw [List.getElem?_map, List.getElem?_range hi, Option.map_some, maAverage_reorder hperm, List.map_map, List.map_map]
          rfl
  · rintro ⟨ht, hthr, hp⟩ hmerge hlen hranges u w ⟨hu, hw, hdimu, hpos⟩ ⟨c, hc, hce⟩
    unfold adjacentCommand
    rw [if_neg (fun h => ht ((hasPart_iff _ _).1 h)), if_neg (fun h => h.2 (hp h.1))]
    simp only [bind, Except.bind]
    have hex : ∃ m, mergeCubes cubes o.byPeriod = .ok m := by
      cases hb : o.byPeriod with
      | false =>
        rw [hb] at hm2
        exact hm2 hmerge rfl
      | true =>
        rw [hb] at hm3
        exact (hm3 hmerge rfl).2 (hranges hb)
    obtain ⟨m, hm⟩ := hex
    obtain ⟨_, _, hname, hperm, hsorted, hattrs, hmeth⟩ := hm1 m hm
    have hnd : (m.slices.map Prod.fst).Nodup := by
      rw [List.Nodup, List.pairwise_map]
      exact hsorted.imp fun h => ne_of_lt h
    have hlen' : ∀ s ∈ m.slices, s.2.2.length = c.data.length := by
      intro s hs
      obtain ⟨k, hk, rfl⟩ := List.mem_map.1 (hperm.mem_iff.1 hs)
      exact hlen k hk c hc
    rw [hm]
    dsimp only
    rw [if_neg (not_not.2 ((hfrom m hm).2 hlen)), hdim]
    exact ⟨_, (C238_plugin unit true m o _ hnd hlen' _).2 ⟨hthr, rfl, u, w, hu, hw, hdimu, hpos, _,
      hperm.mem_iff.2 (List.mem_map.2 ⟨c, hc, rfl⟩), hce, rfl⟩⟩

/-- C238.  One cube with the coordinate as a dimension is blended as it is; if blending by forecast period the lengths of its bounds must agree. -/
theorem C238_one (unit : StdUnit) (o : AdjOptions) (cube : Merged (List (Option ℚ))) (isDim : Bool)
    (hb : (∀ s ∈ cube.slices, s.2.1.isSome = true) ∨ ∀ s ∈ cube.slices, s.2.1.isNone = true) (out : AdjOut) :
    adjacentCommand unit (.one cube isDim) o = .ok out ↔
      Spec.blendable o ∧ (o.byPeriod = true → Spec.sameRanges (cube.slices.map fun s => s.2.1)) ∧
        adjacentProcess unit isDim cube o = .ok out := by
  have hb' : (∀ b ∈ cube.slices.map fun s => s.2.1, b.isSome = true) ∨ ∀ b ∈ cube.slices.map fun s => s.2.1, b.isNone = true := by
    rcases hb with h | h
    · left; intro b hb; obtain ⟨s, hs, rfl⟩ := List.mem_map.1 hb; exact h s hs
    · right; intro b hb; obtain ⟨s, hs, rfl⟩ := List.mem_map.1 hb; exact h s hs
  have hr := checkRanges_iff _ hb'
  have hthr : ∀ out, adjacentProcess unit isDim cube o = .ok out → o.coordinate ≠ "threshold".toList := by
    intro out h he
    unfold adjacentProcess at h
    rw [if_pos he] at h
    exact nomatch h
  unfold adjacentCommand
  by_cases ht : hasPart "time".toList o.coordinate = true
  · rw [if_pos ht]
    exact ⟨fun h => (nomatch h), fun h => absurd ((hasPart_iff _ _).1 ht) h.1.1⟩
  rw [if_neg ht]
  by_cases hp : o.byPeriod = true ∧ o.coordinate ≠ "forecast_period".toList
  · rw [if_pos hp]
    exact ⟨fun h => (nomatch h), fun h => absurd (h.1.2.2 hp.1) hp.2⟩
  rw [if_neg hp]
  have hname : ∀ out, adjacentProcess unit isDim cube o = .ok out → Spec.blendable o := fun out h =>
    ⟨fun hi => ht ((hasPart_iff _ _).2 hi), hthr out h, fun h1 => by by_contra h2; exact hp ⟨h1, h2⟩⟩
  simp only [bind, Except.bind]
  cases hby : o.byPeriod with
  | false =>
    simp only [Bool.false_eq_true, if_false, false_imp_iff, true_and]
    exact ⟨fun h => ⟨hname out h, h⟩, fun h => h.2⟩
  | true =>
    simp only [if_true, true_imp_iff]
    cases hc : checkRanges (cube.slices.map fun s => s.2.1) with
    | error e =>
      refine ⟨fun h => (nomatch h), fun h => ?_⟩
      have := hr.2 h.2.1
      rw [hc] at this
      exact nomatch this
    | ok v =>
      exact ⟨fun h => ⟨hname out h, hr.1 hc, h⟩, fun h => h.2.2⟩

/-- C238.  One cube without the dimension (a single file with one slice) is refused. -/
theorem C238_scalar (unit : StdUnit) (o : AdjOptions) (c : MergeIn (List (Option ℚ))) (out : AdjOut) :
    adjacentCommand unit (.several [c]) o ≠ .ok out := by
  intro h
  unfold adjacentCommand at h
  by_cases ht : hasPart "time".toList o.coordinate = true
  · rw [if_pos ht] at h; exact nomatch h
  rw [if_neg ht] at h
  by_cases hp : o.byPeriod = true ∧ o.coordinate ≠ "forecast_period".toList
  · rw [if_pos hp] at h; exact nomatch h
  rw [if_neg hp] at h
  dsimp only at h
  rw [C234_single] at h
  simp only [bind, Except.bind] at h
  rw [if_neg (by simp)] at h
  have := (C238_plugin unit _ _ o c.data.length (by simp) (by simp) out).1 h
  exact absurd this.2.1 (by simp)

/-- C238.  For units with the same zero the weights depend only on distances as physical quantities: a value at the distance `d` from the
central point has the weight one minus `d` over the width, and no weight beyond it. -/
theorem C238_physical (unit u : StdUnit) (hs : 0 < unit.scale) (hu : 0 < u.scale) (ho : u.offset = unit.offset) (central w p : ℚ) (hw : 0 < w) :
    0 < convertUnit u unit w ∧
    Spec.triangleWeight (convertUnit u unit central) (convertUnit u unit w) p =
      max 0 (1 - |p * unit.scale - central * u.scale| / (w * u.scale)) := by
  have hpos : 0 < convertUnit u unit w := by
    unfold convertUnit
    rw [ho, add_sub_cancel_right]
    positivity
  refine ⟨hpos, ?_⟩
  unfold Spec.triangleWeight convertUnit
  rw [ho, add_sub_cancel_right, add_sub_cancel_right]
  congr 2
  have e : p - central * u.scale / unit.scale = (p * unit.scale - central * u.scale) / unit.scale := by field_simp
  rw [e, abs_div, abs_of_pos hs]
  have hwne : w * u.scale ≠ 0 := by positivity
  field_simp

/-- C238 (limits).  The width is converted like an absolute value: a half-width of 2 degrees Celsius about 7 degrees is 275.15 kelvin for a
coordinate in kelvin, so that a value 10 degrees away counts nearly as much as the central one, while with the same
numbers in kelvin it has no weight. -/
theorem C238_width_refuted :
    ∃ (celsius kelvin : StdUnit) (cubes : List (MergeIn (List (Option ℚ)))) (central : ℚ),
      celsius.scale = kelvin.scale ∧ convertUnit celsius kelvin central = 280 ∧
      ((adjacentCommand kelvin (.several cubes) ⟨"surface_temperature".toList, 280, some kelvin, some 2, false⟩).toOption.map AdjOut.values)
        = some [some 0] ∧
      ∃ v, 9 / 10 < v ∧
        ((adjacentCommand kelvin (.several cubes) ⟨"surface_temperature".toList, central, some celsius, some 2, false⟩).toOption.map
          AdjOut.values) = some [some v] := by
  refine ⟨⟨"temperature", 1, 27315 / 100⟩, ⟨"temperature", 1, 0⟩,
    [⟨"p", [], [], 280, none, [some 0]⟩, ⟨"p", [], [], 290, none, [some 2]⟩], 685 / 100, rfl, by decide +kernel, by decide +kernel,
    10606 / 10806, by norm_num, by decide +kernel⟩

/-- Concrete case: half-hourly forecasts (in seconds) blended about 1 hour with a half-width of 1 hour, given out of order and with a masked
value; the point two hours away has no weight. -/
example :
    let c : ℤ → List (Option ℚ) → MergeIn (List (Option ℚ)) := fun p v => ⟨"rain", [("title", .text ['t'])], ["max"], p, some (p - 1800, p), v⟩
    let o := (adjacentCommand ⟨"time", 1, 0⟩ (.several [c 5400 [some 30, some 9], c 3600 [some 20, some 5], c 10800 [some 1000, some 7],
      c 1800 [some 10, none]]) ⟨"forecast_period".toList, 1, some ⟨"time", 3600, 0⟩, some 1, true⟩).toOption
    o.map AdjOut.values = some [some 20, some (19 / 3)] ∧ o.map (fun o => (o.point, o.bounds)) = some (3600, some (1800, 3600)) := by
  intro c o
  refine ⟨?_, ?_⟩ <;> decide +kernel

end Improver
