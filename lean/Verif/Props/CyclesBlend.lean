import Verif.Model.CyclesBlend
import Verif.Props.BlendRun
import Verif.Props.ReliabilityRun
import Verif.Props.RfRun

/-! C278: `blend-cycles-and-realizations`. -/

namespace Improver

/-- `m` is the mean of the values in `l` that are not masked (`none`), masked if there is none. -/
def Spec.MeanOf (l : List (Option ℚ)) (m : Option ℚ) : Prop :=
  match m with
  | none => ∀ v ∈ l, v = none
  | some q => (l.filter Option.isSome) ≠ [] ∧ q * (l.filter Option.isSome).length = (l.map fun v => v.getD 0).sum

theorem filterMap_id_length (l : List (Option ℚ)) : (l.filterMap id).length = (l.filter Option.isSome).length := by
  induction l with
  | nil => rfl
  | cons a l ih => cases a with
    | none => rw [List.filterMap_cons_none rfl, List.filter_cons_of_neg (by simp), ih]
    | some q => rw [List.filterMap_cons_some (f := id) (b := q) rfl, List.filter_cons_of_pos (by simp), List.length_cons, List.length_cons, ih]

theorem filterMap_id_sum (l : List (Option ℚ)) : (l.filterMap id).sum = (l.map fun v => v.getD 0).sum := by
  induction l with
  | nil => rfl
  | cons a l ih => cases a with
    | none => rw [List.filterMap_cons_none rfl, List.map_cons, List.sum_cons, ih]; simp
    | some q => rw [List.filterMap_cons_some (f := id) (b := q) rfl, List.map_cons, List.sum_cons, List.sum_cons, ih]; rfl

theorem meanNotMasked_mean (l : List (Option ℚ)) : Spec.MeanOf l (meanNotMasked l) := by
  unfold meanNotMasked
  dsimp only
  by_cases h : (l.filterMap id).length = 0
  · rw [if_pos h]
    unfold Spec.MeanOf
    intro v hv
    cases v with
    | none => rfl
    | some q =>
      have := List.mem_filterMap.2 ⟨some q, hv, (rfl : id (some q) = some q)⟩
      rw [List.length_eq_zero_iff.1 h] at this
      exact nomatch this
  · rw [if_neg h]
    unfold Spec.MeanOf
    have e := filterMap_id_length l
    refine ⟨fun e' => ?_, ?_⟩
    · rw [e', List.length_nil] at e; exact h e
    · have hne : ((l.filterMap id).length : ℚ) ≠ 0 := by exact_mod_cast h
      rw [← e, ← filterMap_id_sum, div_mul_cancel₀ _ hne]

theorem MeanOf_unique {l : List (Option ℚ)} {a b : Option ℚ} (ha : Spec.MeanOf l a) (hb : Spec.MeanOf l b) : a = b := by
  have none_some : ∀ q, Spec.MeanOf l none → Spec.MeanOf l (some q) → False := by
    intro q h1 h2
    unfold Spec.MeanOf at h1 h2
    apply h2.1
    rw [List.filter_eq_nil_iff]
    intro v hv
    rw [h1 v hv]
    simp
  cases a with
  | none => cases b with
    | none => rfl
    | some q => exact (none_some q ha hb).elim
  | some p => cases b with
    | none => exact (none_some p hb ha).elim
    | some q =>
      unfold Spec.MeanOf at ha hb
      have : ((l.filter Option.isSome).length : ℚ) ≠ 0 := by
        exact_mod_cast fun e => ha.1 (List.length_eq_zero_iff.1 e)
      congr 1
      exact mul_right_cancel₀ this (ha.2.trans hb.2.symm)

theorem equal_weights (pts : List ℚ) (h : 2 ≤ pts.length) :
    blendWeights (.linear (some (1 / 2)) (some (1 / 2))) pts = .ok (pts.map fun p => (p, 1 / (pts.length : ℚ))) := by
  have hn : (pts.length : ℚ) ≠ 0 := by
    have : (0 : ℚ) < pts.length := by exact_mod_cast (by omega : 0 < pts.length)
    exact this.ne'
  have hl : (List.range pts.length).map (fun tval : ℕ => ((1 / 2 - 1 / 2 : ℚ) / ((pts.length : ℚ) - 1)) * (tval : ℚ) + 1 / 2) =
      List.replicate pts.length (1 / 2) := by
    rw [List.eq_replicate_iff]
    refine ⟨by simp, fun b hb => ?_⟩
    obtain ⟨k, -, rfl⟩ := List.mem_map.1 hb
    norm_num
  have hmin : npMin (List.replicate pts.length (1 / 2 : ℚ)) = .ok (1 / 2) := by
    obtain ⟨k, hk⟩ : ∃ k, pts.length = k + 1 := ⟨pts.length - 1, by omega⟩
    rw [hk]
    clear hl hn hk h
    rw [List.replicate_succ]
    show Except.ok _ = _
    congr 1
    induction k with
    | zero => rfl
    | succ k ih => rw [List.replicate_succ, List.foldl_cons, min_self, ih]
  unfold blendWeights linearInit linearWeights
  dsimp only
  simp only [bind, Except.bind]
  rw [if_neg (by norm_num)]
  dsimp only
  rw [if_neg (by omega), hl]
  unfold normaliseWeights
  rw [hmin]
  dsimp only
  rw [if_neg (by norm_num), if_neg (by rw [List.sum_replicate]; simpa using hn)]
  dsimp only
  congr 1
  rw [List.map_replicate, List.sum_replicate]
  have e : (1 / 2 : ℚ) / (pts.length • (1 / 2)) = 1 / pts.length := by
    rw [nsmul_eq_mul]
    field_simp
  rw [e]
  generalize (1 / (pts.length : ℚ)) = w
  clear hl hn hmin e h
  induction pts with
  | nil => rfl
  | cons a l ih => rw [List.length_cons, List.replicate_succ, List.zip_cons_cons, ih, List.map_cons]

theorem blendAt_equal (pts : List ℚ) (w : ℚ) (hw : w ≠ 0) (v : ℚ → Option ℚ) : Spec.MeanOf (pts.map v) (Spec.blendAt pts (fun _ => w) v) := by
  have e1 : (pts.map v).filter Option.isSome = (pts.filter fun p => (v p).isSome).map v := by rw [List.filter_map]; rfl
  have e2 : ((pts.map v).map fun q => q.getD 0).sum = ((pts.filter fun p => (v p).isSome).map fun p => (v p).getD 0).sum := by
    induction pts with
    | nil => rfl
    | cons p l ih =>
      have := ih (by rw [List.filter_map]; rfl)
      cases hv : v p with
      | none => rw [List.filter_cons_of_neg (by simp [hv]), ← this]; simp [hv]
      | some q => rw [List.filter_cons_of_pos (by simp [hv]), List.map_cons, List.map_cons, List.sum_cons, this]; simp [hv]
  unfold Spec.blendAt
  dsimp only
  revert e1 e2
  generalize (pts.filter fun p => (v p).isSome) = known
  intro e1 e2
  have s1 : (known.map fun _ : ℚ => w).sum = known.length * w := by rw [List.map_const', List.sum_replicate, nsmul_eq_mul]
  have s2 : (known.map fun p => w * (v p).getD 0).sum = w * (known.map fun p => (v p).getD 0).sum := by
    clear e1 e2 s1
    induction known with
    | nil => simp
    | cons a l ih => rw [List.map_cons, List.map_cons, List.sum_cons, List.sum_cons, ih, mul_add]
  rw [s1, s2]
  by_cases h0 : known = []
  · subst h0
    rw [if_pos (by simp)]
    unfold Spec.MeanOf
    intro q hq
    cases q with
    | none => rfl
    | some q =>
      have : some q ∈ (pts.map v).filter Option.isSome := List.mem_filter.2 ⟨hq, rfl⟩
      rw [e1] at this
      exact nomatch this
  · have hn : (known.length : ℚ) ≠ 0 := by exact_mod_cast fun e => h0 (List.length_eq_zero_iff.1 e)
    rw [if_neg (mul_ne_zero hn hw)]
    unfold Spec.MeanOf
    rw [e1, e2]
    refine ⟨fun e => h0 (List.map_eq_nil_iff.1 e), ?_⟩
    rw [List.length_map]
    field_simp

theorem cycleMean_ok {n : ℕ} {c : CycleCube} {fs : List (List (Option ℚ))} (h : c.members = some fs) :
    cycleMean n c = .ok (c.cycle, (List.range n).map fun g => meanNotMasked (fs.map fun m => m.getD g none)) := by
  unfold cycleMean
  rw [h]

/-- The mean field of a cycle. -/
def cycleField (n : ℕ) (c : CycleCube) : List (Option ℚ) :=
  (List.range n).map fun g => meanNotMasked ((c.members.getD []).map fun m => m.getD g none)

theorem cycles_mapM {n : ℕ} {cubes : List CycleCube} (hm : ∀ c ∈ cubes, ∃ fs, c.members = some fs) :
    cubes.mapM (cycleMean n) = .ok (cubes.map fun c => (c.cycle, cycleField n c)) := by
  induction cubes with
  | nil => rfl
  | cons c l ih =>
    obtain ⟨fs, hf⟩ := hm c List.mem_cons_self
    rw [List.mapM_cons, cycleMean_ok hf, ih fun d hd => hm d (List.mem_cons_of_mem _ hd)]
    simp only [bind, Except.bind, pure, Except.pure, List.map_cons, cycleField, hf, Option.getD_some]

theorem cycleField_mean {n g : ℕ} (hg : g < n) {c : CycleCube} {fs : List (List (Option ℚ))} (h : c.members = some fs) :
    Spec.MeanOf (fs.map fun m => m.getD g none) ((cycleField n c).getD g none) := by
  have : (cycleField n c).getD g none = meanNotMasked (fs.map fun m => m.getD g none) := by
    unfold cycleField
    rw [List.getD_eq_getElem?_getD, List.getElem?_map, List.getElem?_range hg, h]
    rfl
  rw [this]
  exact meanNotMasked_mean _

/-- C278.  From forecasts of different cycles the command gives, at every grid point, the mean of the cycles' means over their realizations, each mean being
taken over what is not masked: all cycles count alike, whatever their numbers of realizations. -/
theorem C278_result (n : ℕ) (cubes : List CycleCube) (hne : cubes ≠ []) (hd : (cubes.map fun c => c.cycle).Nodup)
    (hm : ∀ c ∈ cubes, ∃ fs, c.members = some fs) :
    ∃ r, blendCycles n cubes = .ok r ∧ r.length = n ∧ ∀ g < n, ∃ (v : Option ℚ) (ms : List (Option ℚ)), r[g]? = some v ∧ Spec.MeanOf ms v ∧
      List.Forall₂ (fun c m => ∃ fs, c.members = some fs ∧ Spec.MeanOf (fs.map fun f => f.getD g none) m) cubes ms := by
  have means : ∀ g < n, List.Forall₂ (fun c m => ∃ fs, c.members = some fs ∧ Spec.MeanOf (fs.map fun f => f.getD g none) m) cubes
      (cubes.map fun c => (cycleField n c).getD g none) := by
    intro g hg
    rw [List.forall₂_map_right_iff, List.forall₂_same]
    intro c hc
    obtain ⟨fs, hf⟩ := hm c hc
    exact ⟨fs, hf, cycleField_mean hg hf⟩
  have hlen : ∀ c, (cycleField n c).length = n := by intro c; simp [cycleField]
  unfold blendCycles
  rw [cycles_mapM hm]
  simp only [bind, Except.bind]
  rcases Nat.lt_or_ge cubes.length 2 with h1 | h2
  · obtain ⟨c, rfl⟩ : ∃ c, cubes = [c] := by
      rw [← List.length_eq_one_iff]
      have := List.length_pos_of_ne_nil hne
      omega
    refine ⟨cycleField n c, rfl, hlen c, fun g hg => ⟨(cycleField n c).getD g none, _, ?_, ?_, means g hg⟩⟩
    · rw [List.getD_eq_getElem _ _ (by rw [hlen]; exact hg)]; exact List.getElem?_eq_getElem _
    · rw [List.map_cons, List.map_nil]
      cases (cycleField n c).getD g none with
      | none => intro v hv; exact List.mem_singleton.1 hv
      | some q => exact ⟨by simp, by simp⟩
  · let pts := cubes.map fun c => c.cycle
    let x : ℚ → List (Option ℚ) := fun p => ((cubes.map fun c => (c.cycle, cycleField n c)).lookup p).getD []
    have hx : ∀ c ∈ cubes, x c.cycle = cycleField n c := by
      intro c hc
      show ((cubes.map fun c => (c.cycle, cycleField n c)).lookup c.cycle).getD [] = _
      rw [lookup_of_nodup (l := cubes.map fun c => (c.cycle, cycleField n c)) (k := c.cycle) (v := cycleField n c) (by rw [List.map_map]; exact hd)
        (List.mem_map.2 ⟨c, hc, rfl⟩)]
      rfl
    have hpl : 2 ≤ pts.length := by rw [List.length_map]; exact h2
    have hperm : (pts.insertionSort (· ≤ ·)).Perm pts := List.perm_insertionSort _ _
    have hslices : (cubes.map fun c => (c.cycle, cycleField n c)) = pts.map fun p => (p, x p) := by
      rw [List.map_map]
      exact List.map_congr_left fun c hc => by rw [Function.comp_apply, hx c hc]
    obtain ⟨u, hu, -, -, r, hr, hrl, hrg⟩ := C183_blend (.linear (some (1 / 2)) (some (1 / 2))) n pts hd hpl x (by
        intro p hp
        obtain ⟨c, hc, rfl⟩ := List.mem_map.1 hp
        rw [hx c hc, hlen]) _ (List.Perm.of_eq hslices) _ (equal_weights _ (by rw [hperm.length_eq]; exact hpl))
    refine ⟨r, hr, hrl, fun g hg => ⟨_, _, hrg g hg, ?_, means g hg⟩⟩
    have hu' : ∀ p ∈ pts, u p = 1 / ((pts.insertionSort (· ≤ ·)).length : ℚ) := by
      intro p hp
      have := (List.map_inj_left.1 hu) p (hperm.mem_iff.2 hp)
      exact (Prod.mk.inj this).2.symm
    have hb : Spec.blendAt pts u (fun p => (x p).getD g none) =
        Spec.blendAt pts (fun _ => 1 / ((pts.insertionSort (· ≤ ·)).length : ℚ)) fun p => (x p).getD g none := by
      unfold Spec.blendAt
      dsimp only
      have k1 : ∀ f : ℚ → ℚ, ((pts.filter fun p => ((x p).getD g none).isSome).map fun p => u p * f p) =
          (pts.filter fun p => ((x p).getD g none).isSome).map fun p => 1 / ((pts.insertionSort (· ≤ ·)).length : ℚ) * f p := by
        intro f
        exact List.map_congr_left fun p hp => by rw [hu' p (List.mem_of_mem_filter hp)]
      have k2 : (pts.filter fun p => ((x p).getD g none).isSome).map u =
          (pts.filter fun p => ((x p).getD g none).isSome).map fun _ => 1 / ((pts.insertionSort (· ≤ ·)).length : ℚ) :=
        List.map_congr_left fun p hp => by rw [hu' p (List.mem_of_mem_filter hp)]
      rw [k1, k2]
    rw [hb]
    have hv : (cubes.map fun c => (cycleField n c).getD g none) = pts.map fun p => (x p).getD g none := by
      rw [List.map_map]
      exact List.map_congr_left fun c hc => by rw [Function.comp_apply, hx c hc]
    rw [hv]
    refine blendAt_equal _ _ ?_ _
    have : (0 : ℚ) < (pts.insertionSort (· ≤ ·)).length := by
      rw [hperm.length_eq]
      exact_mod_cast (by omega : 0 < pts.length)
    positivity

/-- C278.  The order of the cycles does not matter. -/
theorem C278_order (n : ℕ) (cubes others : List CycleCube) (hp : cubes.Perm others) (hne : cubes ≠ []) (hd : (cubes.map fun c => c.cycle).Nodup)
    (hm : ∀ c ∈ cubes, ∃ fs, c.members = some fs) : blendCycles n cubes = blendCycles n others := by
  have e : sortByCoord (cubes.map fun c => (c.cycle, cycleField n c)) = sortByCoord (others.map fun c => (c.cycle, cycleField n c)) := by
    unfold sortByCoord
    haveI : Std.Total (fun a b : ℚ × List (Option ℚ) => a.1 ≤ b.1) := ⟨fun a b => le_total a.1 b.1⟩
    haveI : IsTrans (ℚ × List (Option ℚ)) (fun a b => a.1 ≤ b.1) := ⟨fun _ _ _ => le_trans⟩
    refine List.Perm.eq_of_pairwise (le := fun a b => a.1 ≤ b.1) ?_ (List.pairwise_insertionSort _ _) (List.pairwise_insertionSort _ _)
      ((List.perm_insertionSort _ _).trans ((hp.map _).trans (List.perm_insertionSort _ _).symm))
    intro a b ha hb h1 h2
    have ha' := (List.perm_insertionSort _ _).mem_iff.1 ha
    have hb' := (hp.map fun c => (c.cycle, cycleField n c)).mem_iff.2 ((List.perm_insertionSort _ _).mem_iff.1 hb)
    exact List.inj_on_of_nodup_map (f := Prod.fst) (by rw [List.map_map]; exact hd) ha' hb' (le_antisymm h1 h2)
  unfold blendCycles
  rw [cycles_mapM hm, cycles_mapM fun c hc => hm c (hp.mem_iff.2 hc)]
  simp only [bind, Except.bind]
  unfold weightAndBlend
  rw [e]

/-- C278.  A forecast without realizations is refused, and so is no forecast. -/
theorem C278_refused (n : ℕ) (cubes : List CycleCube) (h : cubes = [] ∨ ∃ c ∈ cubes, c.members = none) : ∀ r, blendCycles n cubes ≠ .ok r := by
  intro r hr
  rcases h with rfl | ⟨c, hc, h⟩
  · exact nomatch hr
  · unfold blendCycles at hr
    simp only [bind, Except.bind] at hr
    cases hs : cubes.mapM (cycleMean n) with
    | error e => rw [hs] at hr; exact nomatch hr
    | ok slices =>
      obtain ⟨s, hs'⟩ := mapM_each hs c hc
      unfold cycleMean at hs'
      rw [h] at hs'
      exact nomatch hs'

theorem MeanOf_between {l : List (Option ℚ)} {q lo hi : ℚ} (h : Spec.MeanOf l (some q)) (hl : ∀ v, some v ∈ l → lo ≤ v ∧ v ≤ hi) : lo ≤ q ∧ q ≤ hi := by
  unfold Spec.MeanOf at h
  obtain ⟨h1, h2⟩ := h
  have key : lo * (l.filter Option.isSome).length ≤ (l.map fun v => v.getD 0).sum ∧
      (l.map fun v => v.getD 0).sum ≤ hi * (l.filter Option.isSome).length := by
    clear h1 h2
    induction l with
    | nil => simp
    | cons a l ih =>
      have h3 := ih fun v hv => hl v (List.mem_cons_of_mem _ hv)
      cases a with
      | none => rw [List.filter_cons_of_neg (by simp), List.map_cons, List.sum_cons]; simpa using h3
      | some v =>
        have h4 := hl v List.mem_cons_self
        rw [List.filter_cons_of_pos (by simp), List.map_cons, List.sum_cons, List.length_cons]
        push_cast
        simp only [Option.getD_some]
        constructor <;> linarith [h3.1, h3.2, h4.1, h4.2]
  have hpos : (0 : ℚ) < (l.filter Option.isSome).length := by exact_mod_cast List.length_pos_of_ne_nil h1
  rw [← h2] at key
  exact ⟨le_of_mul_le_mul_right key.1 hpos, le_of_mul_le_mul_right key.2 hpos⟩

/-- C278.  At every grid point the result is within the range of all realizations of all cycles there, and it is masked only if all of them are. -/
theorem C278_between (n : ℕ) (cubes : List CycleCube) (hne : cubes ≠ []) (hd : (cubes.map fun c => c.cycle).Nodup)
    (hm : ∀ c ∈ cubes, ∃ fs, c.members = some fs) (g : ℕ) (hg : g < n) (lo hi : ℚ)
    (hr : ∀ c ∈ cubes, ∀ fs, c.members = some fs → ∀ f ∈ fs, ∀ v, f.getD g none = some v → lo ≤ v ∧ v ≤ hi) :
    ∃ r v, blendCycles n cubes = .ok r ∧ r[g]? = some v ∧ (∀ q, v = some q → lo ≤ q ∧ q ≤ hi) ∧
      (v = none ↔ ∀ c ∈ cubes, ∀ fs, c.members = some fs → ∀ f ∈ fs, f.getD g none = none) := by
  obtain ⟨r, h1, -, h2⟩ := C278_result n cubes hne hd hm
  obtain ⟨v, ms, h3, h4, h5⟩ := h2 g hg
  refine ⟨r, v, h1, h3, ?_, ?_⟩
  · rintro q rfl
    refine MeanOf_between h4 fun w hw => ?_
    obtain ⟨c, hc, fs, hf, hmean⟩ := forall₂_right h5 _ hw
    refine MeanOf_between hmean fun z hz => ?_
    obtain ⟨f, hf', e⟩ := List.mem_map.1 hz
    exact hr c hc fs hf f hf' z e
  · have none_iff : ∀ (l : List (Option ℚ)) (m : Option ℚ), Spec.MeanOf l m → (m = none ↔ ∀ w ∈ l, w = none) := by
      intro l m h
      constructor
      · rintro rfl; exact h
      · intro hall
        cases m with
        | none => rfl
        | some q =>
          refine absurd ?_ h.1
          rw [List.filter_eq_nil_iff]
          intro w hw
          rw [hall w hw]
          simp
    rw [none_iff _ _ h4]
    constructor
    · intro hall c hc fs hf f hf'
      obtain ⟨m, hm', fs', e1, e2⟩ := forall₂_leftmem h5 _ hc
      rw [hf] at e1
      injection e1 with e1
      subst e1
      exact (none_iff _ _ e2).1 (hall m hm') _ (List.mem_map.2 ⟨f, hf', rfl⟩)
    · intro hall m hm'
      obtain ⟨c, hc, fs, hf, e2⟩ := forall₂_right h5 _ hm'
      refine (none_iff _ _ e2).2 fun w hw => ?_
      obtain ⟨f, hf', e⟩ := List.mem_map.1 hw
      exact e ▸ hall c hc fs hf f hf'

/-- **Finding.** The blend is not equally weighted over the realizations: with one realization of 0 in a cycle and three of 4 in another the result is 2, while
the mean over all realizations is 3. -/
theorem C278_members_refuted : ∃ (a b : CycleCube), a.cycle ≠ b.cycle ∧ a.members = some [[some 0]] ∧ b.members = some [[some 4], [some 4], [some 4]] ∧
    blendCycles 1 [a, b] = .ok [some 2] ∧ Spec.MeanOf [some 0, some 4, some 4, some 4] (some 3) := by
  refine ⟨⟨0, some [[some 0]]⟩, ⟨1, some [[some 4], [some 4], [some 4]]⟩, by decide +kernel, rfl, rfl, by decide +kernel, ?_⟩
  unfold Spec.MeanOf
  decide +kernel

/-- The hypotheses of C278_result hold of three cycles with masked values and different numbers of realizations. -/
example : let cubes : List CycleCube := [⟨6, some [[some 1, none], [some 3, some 5]]⟩, ⟨0, some [[some 8, none]]⟩, ⟨3, some [[none, none]]⟩]
    cubes ≠ [] ∧ (cubes.map fun c => c.cycle).Nodup ∧ (∀ c ∈ cubes, ∃ fs, c.members = some fs) ∧ blendCycles 2 cubes = .ok [some 5, some 5] := by
  intro cubes
  refine ⟨by decide +kernel, by decide +kernel, ?_, by decide +kernel⟩
  intro c hc
  simp only [cubes, List.mem_cons, List.not_mem_nil, or_false] at hc
  rcases hc with rfl | rfl | rfl <;> exact ⟨_, rfl⟩

end Improver
