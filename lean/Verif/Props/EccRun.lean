import Verif.Model.EccRun
import Verif.Props.ECC
import Verif.Props.Interp
import Verif.Props.ProbPerc
import Verif.Props.NbhoodPerc
import Verif.Props.Checker

/-! Properties of `EnsembleReordering.process` with masks and of the commands `generate-realizations` and `generate-percentiles`. -/

namespace Improver

/-! ### C217: reordering, with masks -/

theorem isMasked_iff {masks : List (List Bool)} : isMasked masks = true ↔ ∃ m ∈ masks, true ∈ m := by
  unfold isMasked
  simp [List.any_eq_true]

/-- C217.  Which masks are accepted: a raw ensemble without masked values goes with anything; otherwise both must have masked values, and every
grid point must be masked in all percentiles and members or in none. -/
theorem C217_masks_accepted (post raw : List (List Bool)) (hlen : post.length = raw.length) (hne : ∀ m ∈ post, m ≠ []) :
    checkEccMasks post raw = .ok () ↔
      (∀ m ∈ raw, true ∉ m) ∨
      ((∃ m ∈ post, true ∈ m) ∧ ∀ e ∈ post.zip raw, ∃ c, (∀ b ∈ e.1, b = c) ∧ ∀ b ∈ e.2, b = c) := by
  unfold checkEccMasks
  by_cases hr : isMasked raw = true
  · have hr' := isMasked_iff.1 hr
    have hnr : ¬ ∀ m ∈ raw, true ∉ m := fun h => by obtain ⟨m, hm, ht⟩ := hr'; exact h m hm ht
    by_cases hp : isMasked post = true
    · rw [hp, hr]
      simp only [Bool.and_self, if_true]
      have hp' := isMasked_iff.1 hp
      constructor
      · intro h
        right
        refine ⟨hp', ?_⟩
        by_cases h1 : post.any (fun m => m.tail.any (fun b => b != firstFlag m)) = true
        · rw [if_pos h1] at h; nomatch h
        · rw [if_neg h1] at h
          by_cases h2 : (post.zip raw).any (fun e => e.2.any (fun b => b != firstFlag e.1)) = true
          · rw [if_pos h2] at h; nomatch h
          · simp only [List.any_eq_true, not_exists, not_and, bne_iff_ne, ne_eq, not_not] at h1 h2
            intro e he
            refine ⟨firstFlag e.1, ?_, fun b hb => h2 e he b hb⟩
            intro b hb
            have hm := (List.of_mem_zip he).1
            obtain ⟨a, t, hat⟩ := List.exists_cons_of_ne_nil (hne _ hm)
            have h1e := h1 e.1 hm
            rw [hat] at hb h1e ⊢
            rcases List.mem_cons.1 hb with rfl | hb
            · rfl
            · exact h1e b hb
      · rintro (h | ⟨-, h⟩)
        · exact absurd h hnr
        · have h1 : ¬ (post.any (fun m => m.tail.any (fun b => b != firstFlag m)) = true) := by
            simp only [List.any_eq_true, not_exists, not_and, bne_iff_ne, ne_eq, not_not]
            intro m hm b hb
            obtain ⟨i, hi, rfl⟩ := List.getElem_of_mem hm
            have hz : (post[i], raw[i]'(by omega)) ∈ post.zip raw := by
              refine List.mem_iff_getElem.2 ⟨i, by rw [List.length_zip]; omega, ?_⟩
              rw [List.getElem_zip]
            obtain ⟨c, hc, -⟩ := h _ hz
            obtain ⟨a, t, hat⟩ := List.exists_cons_of_ne_nil (hne _ hm)
            simp only [] at hc
            rw [hat] at hb hc ⊢
            rw [hc b (List.mem_cons_of_mem _ hb)]
            exact (hc a (List.mem_cons_self ..)).symm
          have h2 : ¬ ((post.zip raw).any (fun e => e.2.any (fun b => b != firstFlag e.1)) = true) := by
            simp only [List.any_eq_true, not_exists, not_and, bne_iff_ne, ne_eq, not_not]
            intro e he b hb
            obtain ⟨c, hc, hd⟩ := h e he
            obtain ⟨a, t, hat⟩ := List.exists_cons_of_ne_nil (hne _ (List.of_mem_zip he).1)
            rw [hd b hb, hat]
            rw [hat] at hc
            exact (hc a (List.mem_cons_self ..)).symm
          rw [if_neg h1, if_neg h2]
    · have hp0 : isMasked post = false := by simpa using hp
      rw [hp0, hr]
      simp only [Bool.false_and, Bool.false_eq_true, if_false, if_true]
      refine ⟨fun h => (nomatch h), ?_⟩
      rintro (h | ⟨h, -⟩)
      · exact absurd h hnr
      · exact absurd (isMasked_iff.2 h) hp
  · have hr0 : isMasked raw = false := by simpa using hr
    rw [hr0]
    simp only [Bool.and_false, Bool.false_eq_true, if_false, true_iff]
    left
    intro m hm ht
    exact hr (isMasked_iff.2 ⟨m, hm, ht⟩)

theorem rankEccCells_ok {ro : Bool} {rnd raw cal : List ℚ} {mask : List Bool} (h1 : rnd.length = raw.length) (h2 : cal.length = raw.length)
    (h3 : mask.length = raw.length) :
    ∃ out, rankEccPoint ro rnd raw cal = .ok out ∧ out.length = raw.length ∧
      rankEccCells ro rnd raw cal mask =
        .ok ((out.zip (((eccRanking ro rnd raw).map (fun k => mask.getD k false)).zip mask)).map (fun e => eccCell e.1 e.2.1 e.2.2)) := by
  obtain ⟨out, ho, hp⟩ := C09_reorder_is_permutation ro rnd raw cal h1 h2
  refine ⟨out, ho, by rw [hp.length_eq, h2], ?_⟩
  unfold rankEccCells
  rw [ho]; rfl

/-- A grid point masked in every percentile or in none. -/
theorem rankEccCells_uniform {ro : Bool} {rnd raw cal : List ℚ} {c : Bool} (h1 : rnd.length = raw.length)
    (h2 : cal.length = raw.length) :
    ∃ out, rankEccPoint ro rnd raw cal = .ok out ∧ out.Perm cal ∧
      rankEccCells ro rnd raw cal (List.replicate raw.length c) =
        .ok (if c then List.replicate raw.length .masked else out.map .val) := by
  obtain ⟨out, ho, hl, hc⟩ := rankEccCells_ok (mask := List.replicate raw.length c) (ro := ro) h1 h2 (by simp)
  obtain ⟨out', ho', hp⟩ := C09_reorder_is_permutation ro rnd raw cal h1 h2
  rw [ho] at ho'
  injection ho' with e
  subst e
  refine ⟨out, ho, hp, ?_⟩
  rw [hc]
  congr 1
  have hrk := (eccRanking_perm ro rnd raw h1)
  have hmem : ∀ k ∈ eccRanking ro rnd raw, k < raw.length := fun k hk => List.mem_range.1 (hrk.mem_iff.1 hk)
  have hsrc : (eccRanking ro rnd raw).map (fun k => (List.replicate raw.length c).getD k false) = List.replicate raw.length c := by
    rw [List.eq_replicate_iff]
    refine ⟨by rw [List.length_map, hrk.length_eq, List.length_range], ?_⟩
    intro b hb
    obtain ⟨k, hk, rfl⟩ := List.mem_map.1 hb
    rw [List.getD_eq_getElem _ _ (by simpa using hmem k hk), List.getElem_replicate]
  rw [hsrc]
  cases c with
  | true =>
    rw [if_pos rfl, List.eq_replicate_iff]
    refine ⟨by simp [hl], ?_⟩
    intro b hb
    obtain ⟨e, he, rfl⟩ := List.mem_map.1 hb
    have h2 := (List.of_mem_zip (List.of_mem_zip he).2).2
    rw [(List.mem_replicate.1 h2).2]
    rfl
  | false =>
    rw [if_neg (by decide)]
    apply List.ext_getElem
    · simp [hl]
    · intro i h1 h2
      simp [eccCell]

theorem headD_getElem {α : Type} (l : List α) (h : 0 < l.length) (d : α) : l.headD d = l[0] := by
  cases l with
  | nil => exact absurd h (lt_irrefl 0)
  | cons a t => rfl

/-- What makes a percentile forecast and a raw ensemble fit together: every grid point has one value for each of the percentiles, which divide
the range evenly; every grid point is masked in all percentiles or in none (`flags`); every member has one value for each grid
point, and the members have different numbers. -/
structure Spec.EccFit (post : PctCube) (raw : RawCube) (flags : List Bool) : Prop where
  points : post.points = chooseSetOfPercentiles post.points.length
  some_points : 0 < post.points.length
  rows : ∀ r ∈ post.rows, r.length = post.points.length
  masks : post.masks = flags.map (fun c => List.replicate post.points.length c)
  flags_len : flags.length = post.rows.length
  members : raw.members ≠ []
  numbers : (raw.members.map (·.1)).Nodup
  grid : ∀ m ∈ raw.members, m.2.length = post.rows.length

theorem rebadgeRows_ok (n : ℕ) (rows : List (List Cell)) (numbers : Option (List ℚ)) (hn : ∀ l, numbers = some l → l.length = n) :
    rebadgeRows (chooseSetOfPercentiles n) rows numbers = .ok ⟨numbers.getD ((List.range n).map (fun k : ℕ => (k : ℚ))), rows⟩ := by
  unfold rebadgeRows
  rw [C12_rebadge_accepts n ([] : List Unit) numbers hn]
  rfl

/-- C217.  A percentile forecast and a raw ensemble that fit together are always reordered.  There are as many realizations as percentiles.  With as
many members they have the numbers of the members, otherwise numbers from that of the first member on.  A grid point masked
in the forecast is masked in every realization; at the others the realizations have exactly the values of the percentiles, and when these
ascend, realization `k` is not above realization `l` wherever member `k` (counting round the members) is below member `l`. -/
theorem C217_reordered (rnd : ℕ → ℕ → ℚ) (post : PctCube) (raw : RawCube) (flags : List Bool) (hfit : Spec.EccFit post raw flags)
    (hmask : checkEccMasks post.masks raw.masks = .ok ()) :
    ∃ out, ensembleReorder false rnd post raw = .ok out ∧
      out.numbers.length = post.points.length ∧
      (post.points.length = raw.members.length → out.numbers = raw.members.map (fun m => (m.1 : ℚ))) ∧
      (post.points.length ≠ raw.members.length → ∀ k < post.points.length,
        out.numbers.getD k 0 = ((raw.members.headD (0, [])).1 : ℚ) + k) ∧
      out.rows.length = post.rows.length ∧
      ∀ p (hp : p < post.rows.length), ∃ vals : List ℚ, vals.Perm (post.rows[p]) ∧
        out.rows.getD p [] = (if flags.getD p false then List.replicate post.points.length .masked else vals.map .val) ∧
        ((post.rows[p]).Pairwise (· ≤ ·) → ∀ k l, k < post.points.length → l < post.points.length →
          ((raw.members.getD (k % raw.members.length) (0, [])).2.getD p 0 <
            (raw.members.getD (l % raw.members.length) (0, [])).2.getD p 0) → vals.getD k 0 ≤ vals.getD l 0) := by
  obtain ⟨members, hrec, hlen, heq, hall⟩ := C11_recycle post.points.length raw.members hfit.some_points hfit.members hfit.numbers
  have hml : 0 < raw.members.length := List.length_pos_iff.2 hfit.members
  have hgrid : ¬ (members.any (fun m => decide (m.2.length ≠ post.rows.length)) = true) := by
    simp only [List.any_eq_true, decide_eq_true_eq, not_exists, not_and, not_not]
    intro m hm
    obtain ⟨k, hk, rfl⟩ := List.getElem_of_mem hm
    rw [(hall k hk (Nat.mod_lt _ hml) hml).1]
    exact hfit.grid _ (List.getElem_mem _)
  have hraw : ∀ (p k : ℕ), k < post.points.length →
      (members.map (fun m => m.2.getD p 0)).getD k 0 = (raw.members.getD (k % raw.members.length) (0, [])).2.getD p 0 := by
    intro p k hk
    have hk' : k < members.length := by omega
    have hm := Nat.mod_lt k hml
    rw [List.getD_eq_getElem _ _ (by simpa using hk'), List.getElem_map, (hall k hk' hm hml).1, List.getD_eq_getElem _ _ hm]
  have hzl : (post.rows.zip post.masks).zipIdx.length = post.rows.length := by
    rw [List.length_zipIdx, List.length_zip, hfit.masks, List.length_map, hfit.flags_len, Nat.min_self]
  have hpoint : ∀ p (hp : p < post.rows.length), ∃ out, rankEccPoint false ((List.range post.points.length).map (rnd p))
        (members.map (fun m => m.2.getD p 0)) (post.rows[p]) = .ok out ∧ out.Perm (post.rows[p]) ∧
      reorderAt false rnd members post.points.length ((post.rows.zip post.masks).zipIdx[p]'(by omega)) =
        .ok (if flags.getD p false then List.replicate post.points.length .masked else out.map .val) := by
    intro p hp
    have hpf : p < flags.length := by rw [hfit.flags_len]; exact hp
    have h1 : ((List.range post.points.length).map (rnd p)).length = (members.map (fun m => m.2.getD p 0)).length := by simp [hlen]
    have h2 : (post.rows[p]).length = (members.map (fun m => m.2.getD p 0)).length := by
      rw [hfit.rows _ (List.getElem_mem _), List.length_map, hlen]
    obtain ⟨out, ho, hperm, hc⟩ := rankEccCells_uniform (ro := false) (c := flags[p]) h1 h2
    refine ⟨out, ho, hperm, ?_⟩
    have hidx : (post.rows.zip post.masks).zipIdx[p]'(by omega) = ((post.rows[p], List.replicate post.points.length flags[p]), p) := by
      rw [List.getElem_zipIdx]
      have hm2 : p < post.masks.length := by rw [hfit.masks, List.length_map]; exact hpf
      have hme : post.masks[p] = List.replicate post.points.length flags[p] := by
        have : post.masks.getD p [] = List.replicate post.points.length flags[p] := by
          rw [hfit.masks, List.getD_eq_getElem _ _ (by simpa using hpf), List.getElem_map]
        rwa [List.getD_eq_getElem _ _ hm2] at this
      rw [List.getElem_zip, hme]
      simp
    rw [hidx]
    unfold reorderAt
    rw [List.length_map, hlen] at hc
    rw [hc, List.getD_eq_getElem _ _ hpf]
  choose! outs ho hperm hcell using hpoint
  have hrows : (post.rows.zip post.masks).zipIdx.mapM (reorderAt false rnd members post.points.length) =
      .ok ((List.range post.rows.length).map (fun p => if flags.getD p false then List.replicate post.points.length .masked else (outs p).map .val)) := by
    have key : ∀ (l : List ((List ℚ × List Bool) × ℕ)) (g : ℕ → List Cell),
        (∀ p (hp : p < l.length), reorderAt false rnd members post.points.length l[p] = .ok (g p)) →
        l.mapM (reorderAt false rnd members post.points.length) = .ok ((List.range l.length).map g) := by
      intro l
      induction l with
      | nil => intro g _; rfl
      | cons a l ih =>
        intro g hg
        have h0 : reorderAt false rnd members post.points.length a = .ok (g 0) := hg 0 (by simp)
        rw [List.mapM_cons, h0, ih (fun p => g (p + 1)) (fun p hp => hg (p + 1) (by simpa using hp))]
        simp only [bind, Except.bind, pure, Except.pure, List.length_cons, List.range_succ_eq_map, List.map_cons, List.map_map]
        rfl
    rw [key _ _ (fun p hp => hcell p (by rw [hzl] at hp; exact hp)), hzl]
  refine ⟨⟨members.map (fun m => (m.1 : ℚ)), (List.range post.rows.length).map
    (fun p => if flags.getD p false then List.replicate post.points.length .masked else (outs p).map .val)⟩, ?_, ?_, ?_, ?_, ?_, ?_⟩
  · unfold ensembleReorder
    rw [hmask, hrec]
    simp only [bind, Except.bind, pure, Except.pure]
    rw [if_neg hgrid, hrows]
    simp only []
    rw [hfit.points, rebadgeRows_ok _ _ _ (by intro l hl; injection hl with hl; rw [← hl, List.length_map, hlen])]
    rw [← hfit.points]
    rfl
  · simp [hlen]
  · intro he
    rw [heq he]
  · intro hne k hk
    have hk' : k < members.length := by omega
    simp only []
    rw [List.getD_eq_getElem _ _ (by simpa using hk'), List.getElem_map,
      (hall k hk' (Nat.mod_lt _ hml) hml).2 hne]
    have := headD_getElem raw.members hml (0, [])
    rw [this]
    push_cast
    rfl
  · simp
  · intro p hp
    refine ⟨outs p, hperm p hp, ?_, ?_⟩
    · rw [List.getD_eq_getElem _ _ (by simpa using hp), List.getElem_map, List.getElem_range]
    · intro hasc k l hk hl hlt
      have h2 : (post.rows[p]).length = (members.map (fun m => m.2.getD p 0)).length := by
        rw [hfit.rows _ (List.getElem_mem _), List.length_map, hlen]
      refine C10_rank_order_transferred _ _ _ _ h2 hasc (ho p hp) k l (by simpa [hlen] using hk) (by simpa [hlen] using hl) (Or.inl ?_)
      rw [hraw p k hk, hraw p l hl]
      exact hlt

/-- C217 (finding): a mask that differs between percentiles (as `mask_percentiles` makes it) is accepted with an unmasked raw ensemble, and then the
mask stays where it was while the values move: a realization without mask is NaN and the largest value is lost. -/
theorem C217_varying_mask_refuted :
    ensembleReorder false (fun _ _ => 0) ⟨chooseSetOfPercentiles 2, [[1, 2]], [[false, true]]⟩ ⟨[(0, [9]), (1, [3])], [[false, false]]⟩ =
      .ok ⟨[0, 1], [[.nan, .masked]]⟩ := by decide +kernel

example : ensembleReorder false (fun _ _ => 0) ⟨chooseSetOfPercentiles 3, [[1, 2, 5], [4, 6, 8]], [[false, false, false], [true, true, true]]⟩
    ⟨[(4, [9, 1]), (5, [3, 1])], [[false, false], [true, true]]⟩ =
      .ok ⟨[4, 5, 6], [[.val 2, .val 1, .val 5], [.masked, .masked, .masked]]⟩ := by decide +kernel

/-! ### C218: generate-realizations -/

theorem spreadMask_eq (masks : List (List Bool)) (n : ℕ) : spreadMask masks n = (masks.map firstFlag).map (fun c => List.replicate n c) := by
  unfold spreadMask
  by_cases h : isMasked masks = true
  · rw [if_pos h, List.map_map]; rfl
  · rw [if_neg h, List.map_map]
    apply List.map_congr_left
    intro m hm
    have : firstFlag m = false := by
      cases m with
      | nil => rfl
      | cons a t =>
        cases a with
        | false => rfl
        | true => exact absurd (isMasked_iff.2 ⟨_, hm, List.mem_cons_self ..⟩) h
    simp [this]

theorem choose_set_asc (n : ℕ) : (chooseSetOfPercentiles n).Pairwise (· ≤ ·) :=
  (C12_percentiles_increasing_symmetric n).2.1.imp (fun h => le_of_lt h)

/-- An input whose values ascend: percentile values ascending at each grid point, or ascending thresholds. -/
def Spec.ascending : EccInput → Prop
  | .percentiles c => ∀ r ∈ c.rows, r.Pairwise (· ≤ ·)
  | .probabilities _ ts _ _ => ts.Pairwise (· ≤ ·)
  | _ => False

/-- The mask flags of the first percentile or threshold at each grid point. -/
def Spec.inputFlags : EccInput → List Bool
  | .percentiles c => c.masks.map firstFlag
  | .probabilities _ _ _ masks => masks.map firstFlag
  | _ => []

/-- The number of grid points. -/
def Spec.inputSize : EccInput → ℕ
  | .percentiles c => c.rows.length
  | .probabilities _ _ rows _ => rows.length
  | _ => 0

theorem eccToPercentiles_spec {warn : Bool} {lo up : ℚ} (hlh : lo ≤ up) {n : ℕ} {cube : EccInput} {p : PctCube} (hasc : Spec.ascending cube)
    (h : eccToPercentiles warn (some (lo, up)) n cube = .ok p) :
    p.points = chooseSetOfPercentiles n ∧ p.rows.length = Spec.inputSize cube ∧
      p.masks = (Spec.inputFlags cube).map (fun c => List.replicate n c) ∧
      ∀ r ∈ p.rows, r.length = n ∧ r.Pairwise (· ≤ ·) ∧ (warn = false → ∀ v ∈ r, lo ≤ v ∧ v ≤ up) := by
  have hcl : (chooseSetOfPercentiles n).length = n := (C12_percentiles_increasing_symmetric n).1
  cases cube with
  | realizations a b => exact hasc.elim
  | other => exact hasc.elim
  | percentiles c =>
    unfold eccToPercentiles at h
    simp only [bind, Except.bind, pure, Except.pure] at h
    cases hr : resamplePercentiles warn (some (lo, up)) c.points c.rows (chooseSetOfPercentiles n) with
    | error e => rw [hr] at h; nomatch h
    | ok rows =>
      rw [hr] at h
      injection h with h
      obtain ⟨hl, hall⟩ := C13_resampled_ordered_and_bounded warn lo up hlh c.points c.rows _ rows hasc hr
      subst h
      refine ⟨rfl, hl, spreadMask_eq _ _, ?_⟩
      intro r hrm
      obtain ⟨h1, h2, -, h4⟩ := hall r hrm
      rw [hcl] at h1
      refine ⟨h1, ?_, h4⟩
      rw [List.pairwise_iff_getElem]
      intro i j hi hj hij
      have := h2 i j (by omega) (by omega) (List.pairwise_iff_getElem.1 (choose_set_asc n) i j (by omega) (by omega) hij)
      rwa [List.getD_eq_getElem _ _ hi, List.getD_eq_getElem _ _ hj] at this
  | probabilities above ts rows masks =>
    unfold eccToPercentiles at h
    cases above with
    | none => nomatch h
    | some a =>
      simp only [bind, Except.bind, pure, Except.pure] at h
      cases hr : rows.mapM (fun p => probsToPercentiles warn (some (lo, up)) a ts p (chooseSetOfPercentiles n)) with
      | error e => rw [hr] at h; nomatch h
      | ok out =>
        rw [hr] at h
        injection h with h
        have hF := mapM_ok_forall _ _ _ hr
        subst h
        refine ⟨rfl, hF.length_eq.symm, spreadMask_eq _ _, ?_⟩
        intro r hrm
        obtain ⟨i, hi', rfl⟩ := List.getElem_of_mem hrm
        have hi : i < out.length := hi'
        have hrow := (List.forall₂_iff_get.1 hF).2 i (by rw [hF.length_eq]; exact hi) hi
        obtain ⟨h1, h2, -, h4⟩ := C14_percentiles_ordered_and_bounded warn a lo up hlh ts _ _ _ hasc (choose_set_asc n) hrow
        exact ⟨by rw [← hcl]; exact h1, h2, h4⟩

/-- C218.  A cube with realizations is returned as it is; a cube that is neither percentiles nor probabilities is refused; so is a request that gives neither the
number of realizations nor a raw ensemble. -/
theorem C218_choice (warn : Bool) (bounds : Option (ℚ × ℚ)) (rnd : ℕ → ℕ → ℚ) (raw : Option RawCube) (count : Option ℕ) :
    (∀ numbers rows, generateRealizations warn bounds rnd (.realizations numbers rows) raw count = .ok .unchanged) ∧
    generateRealizations warn bounds rnd .other raw count = .error .valueError ∧
    (∀ c, generateRealizations warn bounds rnd (.percentiles c) none none = .error .valueError) ∧
    (∀ a ts rows masks, generateRealizations warn bounds rnd (.probabilities a ts rows masks) none none = .error .valueError) ∧
    (∀ ts rows masks n, generateRealizations warn bounds rnd (.probabilities none ts rows masks) raw (some n) = .error .notImplemented) :=
  ⟨fun _ _ => rfl, rfl, fun _ => rfl, fun _ _ _ _ => rfl, fun _ _ _ _ => rfl⟩

theorem generate_eq {warn : Bool} {bounds : Option (ℚ × ℚ)} {rnd : ℕ → ℕ → ℚ} {cube : EccInput} (hc : Spec.ascending cube) (raw : Option RawCube)
    (count : Option ℕ) : generateRealizations warn bounds rnd cube raw count = (do
      let n ← realizationCount count raw
      let p ← eccToPercentiles warn bounds n cube
      match raw with
      | some r => do
        let out ← ensembleReorder false rnd p r
        return .made out
      | none => do
        let out ← rebadgeRows p.points ((p.rows.zip p.masks).map (fun e => (e.1.zip e.2).map (fun c => eccCell c.1 false c.2))) none
        return .made out) := by
  cases cube with
  | realizations a b => exact hc.elim
  | other => exact hc.elim
  | percentiles c => rfl
  | probabilities a b c d => rfl

/-- C218.  Without raw ensemble: realizations numbered from zero.  Every grid point masked in the input (by the first percentile or threshold) is masked
in all; at the others the values ascend with the number of the realization and lie within the bounds of the diagnostic (unless
`ignore_ecc_bounds_exceedance` allows others). -/
theorem C218_without_raw (warn : Bool) (lo up : ℚ) (hlh : lo ≤ up) (rnd : ℕ → ℕ → ℚ) (cube : EccInput) (n : ℕ) (p : PctCube)
    (hasc : Spec.ascending cube) (hflags : (Spec.inputFlags cube).length = Spec.inputSize cube)
    (hp : eccToPercentiles warn (some (lo, up)) n cube = .ok p) :
    ∃ out, generateRealizations warn (some (lo, up)) rnd cube none (some n) = .ok (.made out) ∧
      out.numbers = (List.range n).map (fun k : ℕ => (k : ℚ)) ∧ out.rows.length = Spec.inputSize cube ∧
      ∀ i (hi : i < out.rows.length),
        ((Spec.inputFlags cube).getD i false = true ∧ out.rows[i] = List.replicate n .masked) ∨
        ((Spec.inputFlags cube).getD i false = false ∧ ∃ vals : List ℚ, out.rows[i] = vals.map .val ∧ vals.length = n ∧
          vals.Pairwise (· ≤ ·) ∧ (warn = false → ∀ v ∈ vals, lo ≤ v ∧ v ≤ up)) := by
  obtain ⟨h1, h2, h3, h4⟩ := eccToPercentiles_spec hlh hasc hp
  refine ⟨⟨(List.range n).map (fun k : ℕ => (k : ℚ)), (p.rows.zip p.masks).map (fun e => (e.1.zip e.2).map (fun c => eccCell c.1 false c.2))⟩,
    ?_, ?_⟩
  · rw [generate_eq hasc]
    simp only [realizationCount, bind, Except.bind, pure, Except.pure]
    rw [hp]
    simp only []
    rw [h1, rebadgeRows_ok n _ none (fun l hl => by cases hl)]
    rfl
  · refine ⟨rfl, ?_, ?_⟩
    · simp [h3, h2, hflags]
    · intro i hi
      have hil : i < p.rows.length := by simp [h3, h2, hflags] at hi; omega
      have hif : i < (Spec.inputFlags cube).length := by rw [hflags, ← h2]; exact hil
      have hmi : i < p.masks.length := by rw [h3, List.length_map]; exact hif
      have hm : p.masks[i] = List.replicate n (Spec.inputFlags cube)[i] := by
        have : p.masks.getD i [] = List.replicate n (Spec.inputFlags cube)[i] := by
          rw [h3, List.getD_eq_getElem _ _ (by simpa using hif), List.getElem_map]
        rwa [List.getD_eq_getElem _ _ hmi] at this
      obtain ⟨r1, r2, r3⟩ := h4 _ (List.getElem_mem hil)
      rw [List.getD_eq_getElem _ _ hif]
      have hrow : ((p.rows.zip p.masks).map (fun e => (e.1.zip e.2).map (fun c => eccCell c.1 false c.2)))[i] =
          (p.rows[i].zip (List.replicate n (Spec.inputFlags cube)[i])).map (fun c => eccCell c.1 false c.2) := by
        rw [List.getElem_map, List.getElem_zip, hm]
      simp only [] at hrow ⊢
      rw [hrow]
      cases (Spec.inputFlags cube)[i] with
      | true =>
        left
        refine ⟨rfl, ?_⟩
        rw [List.eq_replicate_iff]
        refine ⟨by simp [r1], ?_⟩
        intro b hb
        obtain ⟨e, he, rfl⟩ := List.mem_map.1 hb
        rw [(List.mem_replicate.1 (List.of_mem_zip he).2).2]
        rfl
      | false =>
        right
        refine ⟨rfl, p.rows[i], ?_, r1, r2, r3⟩
        apply List.ext_getElem
        · simp [r1]
        · intro j h1 h2
          simp [eccCell]

/-- C218.  With a raw ensemble the number of realizations is the number asked for, otherwise that of the members; their values are those of that many
evenly spaced percentiles of the input, within the bounds of the diagnostic, in the order of the members (see `C217_reordered`). -/
theorem C218_with_raw (warn : Bool) (lo up : ℚ) (hlh : lo ≤ up) (rnd : ℕ → ℕ → ℚ) (cube : EccInput) (raw : RawCube) (count : Option ℕ) (p : PctCube)
    (hasc : Spec.ascending cube) (hflags : (Spec.inputFlags cube).length = Spec.inputSize cube)
    (hn : 0 < count.getD raw.members.length)
    (hp : eccToPercentiles warn (some (lo, up)) (count.getD raw.members.length) cube = .ok p)
    (hraw : raw.members ≠ []) (hnum : (raw.members.map (·.1)).Nodup) (hgrid : ∀ m ∈ raw.members, m.2.length = Spec.inputSize cube)
    (hmask : checkEccMasks p.masks raw.masks = .ok ()) :
    p.points = chooseSetOfPercentiles (count.getD raw.members.length) ∧ p.rows.length = Spec.inputSize cube ∧
    ∃ out, generateRealizations warn (some (lo, up)) rnd cube (some raw) count = .ok (.made out) ∧
      ensembleReorder false rnd p raw = .ok out ∧
      out.numbers.length = count.getD raw.members.length ∧ out.rows.length = Spec.inputSize cube ∧
      ∀ i (hi : i < p.rows.length), ∃ vals : List ℚ, vals.Perm (p.rows[i]) ∧
        out.rows.getD i [] = (if (Spec.inputFlags cube).getD i false then List.replicate (count.getD raw.members.length) .masked else vals.map .val) ∧
        (warn = false → ∀ v ∈ vals, lo ≤ v ∧ v ≤ up) ∧
        (∀ k l, k < count.getD raw.members.length → l < count.getD raw.members.length →
          ((raw.members.getD (k % raw.members.length) (0, [])).2.getD i 0 <
            (raw.members.getD (l % raw.members.length) (0, [])).2.getD i 0) → vals.getD k 0 ≤ vals.getD l 0) := by
  obtain ⟨h1, h2, h3, h4⟩ := eccToPercentiles_spec hlh hasc hp
  set n := count.getD raw.members.length with hnd
  have hpl : p.points.length = n := by rw [h1]; exact (C12_percentiles_increasing_symmetric n).1
  have hfit : Spec.EccFit p raw (Spec.inputFlags cube) :=
    ⟨by rw [hpl, h1], by rw [hpl]; exact hn, fun r hr => by rw [hpl]; exact (h4 r hr).1, by rw [hpl, h3], by rw [hflags, h2], hraw, hnum,
      fun m hm => by rw [hgrid m hm, h2]⟩
  obtain ⟨out, ho, hl, -, -, hrl, hpt⟩ := C217_reordered rnd p raw _ hfit hmask
  refine ⟨h1, h2, out, ?_, ho, by rw [hl, hpl], by rw [hrl, h2], ?_⟩
  · rw [generate_eq hasc]
    have hcnt : realizationCount count (some raw) = .ok n := by
      unfold realizationCount
      cases count <;> rfl
    simp only [bind, Except.bind, pure, Except.pure, hcnt]
    rw [hp]
    simp only []
    rw [ho]
  · intro i hi
    obtain ⟨vals, hperm, hc, hord⟩ := hpt i hi
    obtain ⟨-, r2, r3⟩ := h4 _ (List.getElem_mem hi)
    rw [hpl] at hc hord
    exact ⟨vals, hperm, hc, fun hw v hv => r3 hw v (hperm.mem_iff.1 hv), hord r2⟩

/-- C218.  A percentile forecast with ascending percentiles between 0 and 100 and ascending values within the bounds can always be resampled. -/
theorem C218_valid_percentiles (warn : Bool) (lo up : ℚ) (hlh : lo ≤ up) (c : PctCube) (n : ℕ) (hp : c.points.Pairwise (· ≤ ·))
    (hpr : ∀ q ∈ c.points, 0 ≤ q ∧ q ≤ 100)
    (hrow : ∀ r ∈ c.rows, r.length = c.points.length ∧ r.Pairwise (· ≤ ·) ∧ ∀ x ∈ r, lo ≤ x ∧ x ≤ up) :
    ∃ p, eccToPercentiles warn (some (lo, up)) n (.percentiles c) = .ok p := by
  have hreq : ∀ q ∈ chooseSetOfPercentiles n, 0 ≤ q ∧ q ≤ 100 := fun q hq => by
    have := (C12_percentiles_increasing_symmetric n).2.2.1 q hq
    exact ⟨le_of_lt this.1, le_of_lt this.2⟩
  obtain ⟨out, ho⟩ := C13_valid_input_succeeds warn lo up hlh c.points c.rows _ hp hpr hrow hreq
  unfold eccToPercentiles
  simp only [bind, Except.bind, pure, Except.pure]
  rw [ho]
  exact ⟨_, rfl⟩

example : generateRealizations false (some (0, 100)) (fun _ _ => 0) (.percentiles ⟨[25, 50, 75], [[1, 2, 3], [4, 5, 6]],
    [[false, false, false], [true, true, true]]⟩) (some ⟨[(0, [7, 1]), (1, [2, 1]), (2, [5, 1])], [[false, false, false], [true, true, true]]⟩) none
    = .ok (.made ⟨[0, 1, 2], [[.val 3, .val 1, .val 2], [.masked, .masked, .masked]]⟩) := by decide +kernel
example : generateRealizations false (some (0, 100)) (fun _ _ => 0) (.probabilities (some true) [10, 20, 30] [[3 / 4, 1 / 2, 1 / 4]]
    [[false, false, false]]) none (some 3) = .ok (.made ⟨[0, 1, 2], [[.val 10, .val 20, .val 30]]⟩) := by decide +kernel

/-! ### C219: generate-percentiles -/

/-- C219.  Probabilities: the percentiles asked for, or else as many evenly spaced ones as there are thresholds, whatever coordinates were named; at
each grid point the values ascend and lie within the bounds of the diagnostic, and with masking a value is masked where the percentile is
not below the largest cumulated probability of the thresholds, otherwise nowhere. -/
theorem C219_probabilities (o : GenPctOpts) (lo up : ℚ) (hb : o.bounds = some (lo, up)) (hlh : lo ≤ up) (above : Bool) (ts : List ℚ)
    (rows : List (List ℚ)) (res : PctResult) (hts : ts.Pairwise (· ≤ ·)) (hps : (o.percentiles.getD []).Pairwise (· ≤ ·))
    (h : generatePercentiles o (.probabilities (some above) ts rows) = .ok res) :
    res.points = (match o.percentiles with | some ps => ps | none => chooseSetOfPercentiles ts.length) ∧
    List.Forall₂ (fun probs row => ∃ vals : List ℚ, vals.length = res.points.length ∧ vals.Pairwise (· ≤ ·) ∧
      (o.warn = false → ∀ v ∈ vals, lo ≤ v ∧ v ≤ up) ∧ row.length = vals.length ∧
      ∀ k, k < vals.length → row.getD k none = (if o.maskPercentiles = true ∧
        (if above then 1 - probs.getD (probs.length - 1) 0 else probs.getD (probs.length - 1) 0) ≤ res.points.getD k 0 / 100
        then none else some (vals.getD k 0))) rows res.rows := by
  have hasc : (o.percentiles.getD (chooseSetOfPercentiles ts.length)).Pairwise (· ≤ ·) := by
    cases hc : o.percentiles with
    | none => exact (C12_percentiles_increasing_symmetric ts.length).2.1.imp le_of_lt
    | some ps => rw [hc] at hps; exact hps
  unfold generatePercentiles at h
  simp only [bind, Except.bind, pure, Except.pure] at h
  cases hm : rows.mapM (probPoint o above ts (o.percentiles.getD (chooseSetOfPercentiles ts.length))) with
  | error e => rw [hm] at h; exact nomatch h
  | ok out =>
    rw [hm] at h
    injection h with h
    subst h
    refine ⟨by cases o.percentiles <;> rfl, ?_⟩
    refine (mapM_ok_forall₂ hm).imp ?_
    intro probs row hr
    unfold probPoint at hr
    simp only [bind, Except.bind, pure, Except.pure] at hr
    cases hv : probsToPercentiles o.warn o.bounds above ts probs (o.percentiles.getD (chooseSetOfPercentiles ts.length)) with
    | error e => rw [hv] at hr; exact nomatch hr
    | ok vals =>
      rw [hv] at hr
      injection hr with hr
      rw [hb] at hv
      obtain ⟨h1, h2, -, h4⟩ := C14_percentiles_ordered_and_bounded _ _ lo up hlh ts probs _ vals hts hasc hv
      refine ⟨vals, h1, h2, h4, ?_, ?_⟩
      · rw [← hr]
        cases o.maskPercentiles
        · simp
        · simp [maskPercentiles, h1]
      · intro k hk
        rw [← hr]
        cases o.maskPercentiles
        · simp [List.getD_eq_getElem, hk]
        · simp only [if_true, true_and]
          have hk' : k < (o.percentiles.getD (chooseSetOfPercentiles ts.length)).length := by omega
          unfold maskPercentiles
          simp only []
          rw [List.getD_eq_getElem _ _ (by simp [h1]; omega), List.getElem_zipWith, List.getD_eq_getElem _ _ hk,
            List.getD_eq_getElem (o.percentiles.getD (chooseSetOfPercentiles ts.length)) 0 hk']

/-- C219.  Probabilities of any other relation than being above or below the thresholds are refused. -/
theorem C219_relation_refused (o : GenPctOpts) (ts : List ℚ) (rows : List (List ℚ)) :
    generatePercentiles o (.probabilities none ts rows) = .error .notImplemented := rfl

/-- C219.  A threshold outside the bounds of the diagnostic is refused unless a warning was asked for. -/
theorem C219_bounds_refused (o : GenPctOpts) (lo up : ℚ) (hb : o.bounds = some (lo, up)) (hw : o.warn = false) (above : Bool) (ts : List ℚ)
    (rows : List (List ℚ)) (hr : rows ≠ []) (ht : ∃ t ∈ ts, t < lo ∨ up < t) :
    generatePercentiles o (.probabilities (some above) ts rows) = .error .valueError := by
  obtain ⟨r, rs, rfl⟩ := List.exists_cons_of_ne_nil hr
  have he := C14_out_of_bounds_rejected above lo up ts r (o.percentiles.getD (chooseSetOfPercentiles ts.length)) ht
  unfold generatePercentiles
  simp only [bind, Except.bind, pure, Except.pure, List.mapM_cons]
  unfold probPoint
  simp only [bind, Except.bind, pure, Except.pure, hw, hb, he]

/-- C219.  With coordinates to collapse, all of them in the cube: at each point the percentiles asked for (default: the fifteen) of the values along
them, which ascend with the percentile and stay within the range of the values. -/
theorem C219_collapse (o : GenPctOpts) (coords cs : List String) (rows : List (List ℚ)) (hn : coords.Nodup) (ho : o.coordinates = some cs) (hne : cs ≠ [])
    (hin : ∀ c ∈ cs, c ∈ coords) :
    generatePercentiles o (.field coords rows) = .ok ⟨o.percentiles.getD defaultPercentiles,
      rows.map (fun values => (o.percentiles.getD defaultPercentiles).map (fun p => some (npPercentile values p)))⟩ ∧
    ∀ values ∈ rows, values ≠ [] → ∀ p q : ℚ, 0 ≤ p → p ≤ q → q ≤ 100 →
      npPercentile values p ≤ npPercentile values q ∧ ∀ lo up : ℚ, (∀ v ∈ values, lo ≤ v ∧ v ≤ up) → lo ≤ npPercentile values p ∧ npPercentile values p ≤ up := by
  constructor
  · unfold generatePercentiles
    simp only [ho, Option.getD_some, ne_eq, hne, not_false_eq_true, if_true, bind, Except.bind, pure, Except.pure]
    have hm : rows.mapM (collapsePoint coords cs (o.percentiles.getD defaultPercentiles))
        = .ok (rows.map (fun values => (o.percentiles.getD defaultPercentiles).map (fun p => some (npPercentile values p)))) := by
      apply mapM_ok_of_forall
      intro v _
      unfold collapsePoint
      simp only [bind, Except.bind, pure, Except.pure, (C88_accepted coords cs hn v _).1 hin, List.map_map]
      rfl
    rw [hm]
  · intro values _ hv p q h0 hpq h1
    exact ⟨npPercentile_mono _ hv h0 hpq h1, fun lo up hb => npPercentile_mem_range _ hv p h0 (le_trans hpq h1) hb⟩

/-- C219.  If no percentiles are asked for, collapsing gives these fifteen. -/
theorem C219_default (o : GenPctOpts) (coords cs : List String) (rows : List (List ℚ)) (hn : coords.Nodup) (ho : o.coordinates = some cs) (hne : cs ≠ [])
    (hin : ∀ c ∈ cs, c ∈ coords) (hp : o.percentiles = none) :
    ∃ out, generatePercentiles o (.field coords rows) = .ok ⟨[0, 5, 10, 20, 25, 30, 40, 50, 60, 70, 75, 80, 90, 95, 100], out⟩ := by
  rw [(C219_collapse o coords cs rows hn ho hne hin).1, hp]
  exact ⟨_, rfl⟩

/-- C219.  A coordinate to collapse which the cube does not have is refused. -/
theorem C219_collapse_refused (o : GenPctOpts) (coords cs : List String) (rows : List (List ℚ)) (hn : coords.Nodup) (ho : o.coordinates = some cs)
    (hr : rows ≠ []) (hin : ∃ c ∈ cs, c ∉ coords) :
    generatePercentiles o (.field coords rows) = .error .coordinateNotFound := by
  obtain ⟨r, rs, rfl⟩ := List.exists_cons_of_ne_nil hr
  have hne : cs ≠ [] := by rintro rfl; simp at hin
  unfold generatePercentiles
  simp only [ho, Option.getD_some, ne_eq, hne, not_false_eq_true, if_true, bind, Except.bind, pure, Except.pure, List.mapM_cons]
  unfold collapsePoint
  simp only [bind, Except.bind, pure, Except.pure, (C88_accepted coords cs hn r _).2 hin]

/-- C219 (and a finding).  Without coordinates the realizations at each point are sorted and called evenly spaced percentiles of their number: **the percentiles
asked for are ignored**, without any warning. -/
theorem C219_rebadge (o : GenPctOpts) (coords : List String) (rows : List (List ℚ)) (ho : o.coordinates.getD [] = []) (hr : "realization" ∈ coords)
    (n : ℕ) (hn : 0 < n) (hne : rows ≠ []) (hlen : ∀ r ∈ rows, r.length = n) :
    ∃ res, generatePercentiles o (.field coords rows) = .ok res ∧ res.points.length = n ∧
      (∀ k, k < n → res.points.getD k 0 = if o.optimalCrps then 100 * ((k : ℚ) + 1 / 2) / n else 100 * ((k : ℚ) + 1) / ((n : ℚ) + 1)) ∧
      List.Forall₂ (fun values row => ∃ sorted : List ℚ, sorted.Perm values ∧ sorted.Pairwise (· ≤ ·) ∧ row = sorted.map some) rows res.rows ∧
      ∀ asked, generatePercentiles { o with percentiles := asked } (.field coords rows) = .ok res := by
  refine ⟨⟨(rebadgeRealizations o.optimalCrps (rows.headD [])).1, rows.map (fun r => (rebadgeRealizations o.optimalCrps r).2.map some)⟩, ?_, ?_, ?_, ?_, ?_⟩
  · unfold generatePercentiles
    simp [ho, hr]
  · obtain ⟨r, rs, rfl⟩ := List.exists_cons_of_ne_nil hne
    simp only [List.headD_cons]
    rw [(C18_values_sorted_and_preserved _ _).2.2]
    exact hlen r (by simp)
  · obtain ⟨r, rs, rfl⟩ := List.exists_cons_of_ne_nil hne
    have hl : r.length = n := hlen r (by simp)
    intro k hk
    simp only [List.headD_cons, rebadgeRealizations, hl]
    cases o.optimalCrps <;> simp [List.getD_eq_getElem, hk]
  · rw [List.forall₂_map_right_iff, List.forall₂_same]
    intro v _
    exact ⟨_, (C18_values_sorted_and_preserved _ _).1, (C18_values_sorted_and_preserved _ _).2.1, rfl⟩
  · intro asked
    unfold generatePercentiles
    simp [ho, hr]

/-- C219.  Without coordinates to collapse and without realizations the command fails. -/
theorem C219_nothing_to_do (o : GenPctOpts) (coords : List String) (rows : List (List ℚ)) (ho : o.coordinates.getD [] = []) (hr : "realization" ∉ coords) :
    generatePercentiles o (.field coords rows) = .error .coordinateNotFound := by
  unfold generatePercentiles
  simp [ho, hr]

example : generatePercentiles ⟨some ["time"], some [25, 50], false, some (0, 10), true, false⟩ (.probabilities (some true) [2, 4] [[3 / 4, 1 / 2]])
    = .ok ⟨[25, 50], [[some 2, none]]⟩ := by decide +kernel
example : generatePercentiles ⟨some ["realization"], some [0, 50], false, none, false, false⟩ (.field ["realization", "time"] [[3, 1, 2], [5, 5, 8]])
    = .ok ⟨[0, 50], [[some 1, some 2], [some 5, some 5]]⟩ := by decide +kernel
example : generatePercentiles ⟨none, some [10], false, none, false, false⟩ (.field ["realization", "time"] [[3, 1, 2]])
    = .ok ⟨[25, 50, 75], [[some 1, some 2, some 3]]⟩ := by decide +kernel

end Improver
