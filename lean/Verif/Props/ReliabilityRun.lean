import Verif.Model.ReliabilityRun
import Verif.Props.ReliabilityTables
import Verif.Props.ReliabilityManip
import Verif.Props.ReliabilityApply
import Verif.Props.CalMatch
import Verif.Lemmas.ListAux

/-! Properties of reliability calibration as a whole: from historic forecasts and truths to calibrated probabilities. -/

namespace Improver

/-! ### The tables made from samples -/

/-- The table of some samples as bins. -/
def tableOf (bins : List (ℚ × ℚ)) (samples : List RelSample) : List RelBin :=
  stateBins bins ⟨(List.range bins.length).map (Spec.tableEntry bins samples), false⟩

theorem tableOf_eq (bins : List (ℚ × ℚ)) (samples : List RelSample) :
    tableOf bins samples = (List.range bins.length).map (fun b =>
      ⟨(Spec.tableEntry bins samples b).obs, (Spec.tableEntry bins samples b).psum, (Spec.tableEntry bins samples b).fc,
        (bins.getD b (0, 0)).1, (bins.getD b (0, 0)).2⟩) := by
  unfold tableOf stateBins
  apply List.ext_getElem
  · simp
  · intro i h1 h2
    have hi : i < bins.length := by simpa using h2
    simp [List.getElem?_eq_getElem hi]

/-- What a bin of a table of samples in [0, 1] satisfies by itself. -/
structure GoodBin (b : RelBin) : Prop where
  nonneg : 0 ≤ b.fc
  low : b.lo * b.fc ≤ b.psum
  high : b.psum ≤ b.fc
  lo0 : 0 ≤ b.lo
  obs : 0 ≤ b.obs ∧ b.obs ≤ b.fc

/-- What two bins of the table satisfy. -/
def belowBin (a b : RelBin) : Prop := a.lo ≤ b.lo ∧ a.psum ≤ b.lo * a.fc ∧ (0 < a.fc → a.psum < b.lo * a.fc)

theorem sum_le_of {α : Type} (l : List α) (f g : α → ℚ) (h : ∀ a ∈ l, f a ≤ g a) : (l.map f).sum ≤ (l.map g).sum :=
  List.sum_le_sum h

theorem sum_lt_of {α : Type} (l : List α) (f g : α → ℚ) (h : ∀ a ∈ l, f a < g a) (hne : l ≠ []) : (l.map f).sum < (l.map g).sum := by
  induction l with
  | nil => exact absurd rfl hne
  | cons a l ih =>
    simp only [List.map_cons, List.sum_cons]
    have h1 := h a (by simp)
    by_cases hl : l = []
    · subst hl; simpa using h1
    · have := ih (fun x hx => h x (List.mem_cons_of_mem _ hx)) hl
      linarith

theorem tableOf_good {up down : ℚ → ℚ} {bins : List (ℚ × ℚ)} (hb : Spec.Bins up down bins) {samples : List RelSample}
    (hs : ∀ s ∈ samples, ∀ v, s.forecast = some v → v ≤ 1) :
    (∀ b ∈ tableOf bins samples, GoodBin b) ∧ (tableOf bins samples).Pairwise belowBin := by
  have hcnt : ∀ b s, s ∈ samples.filter (Spec.counted bins b) → ∃ v, s.forecast = some v ∧ v ≤ 1 ∧
      (binEdges bins).getD b 0 ≤ v ∧ v < (binEdges bins).getD (b + 1) 0 := by
    intro b s hm
    obtain ⟨hm, hc⟩ := List.mem_filter.1 hm
    unfold Spec.counted at hc
    cases hf : s.forecast with
    | none => rw [hf] at hc; simp at hc
    | some v =>
      rw [hf] at hc
      simp only [Bool.and_eq_true, decide_eq_true_eq] at hc
      exact ⟨v, rfl, hs s hm v hf, hc.2.1, hc.2.2⟩
  have hconst : ∀ (c : ℚ) (l : List RelSample), (l.map (fun _ => c)).sum = c * (l.length : ℚ) := by
    intro c l
    rw [List.map_const', List.sum_replicate, nsmul_eq_mul, mul_comm]
  rw [tableOf_eq]
  constructor
  · intro x hx
    obtain ⟨b, hbm, rfl⟩ := List.mem_map.1 hx
    have hbl : b < bins.length := List.mem_range.1 hbm
    have he : (bins.getD b (0, 0)).1 = (binEdges bins).getD b 0 := by
      rw [edges_getD _ _ hbl, List.getD_eq_getElem _ _ hbl]
    have h0 : 0 ≤ (binEdges bins).getD b 0 := by
      have h0 := edges_mono hb 0 b (by omega) (by omega)
      rw [edges_getD _ _ (by omega : 0 < bins.length)] at h0
      have hfirst := hb.first
      cases bins with
      | nil => simp at hbl
      | cons a l =>
        simp only [List.headD_cons] at hfirst
        simp only [List.getElem_cons_zero] at h0
        rwa [hfirst] at h0
    refine ⟨?_, ?_, ?_, ?_, C32_obs_le bins samples b⟩
    · simp [Spec.tableEntry]
    · simp only [he, Spec.tableEntry]
      rw [← hconst]
      refine sum_le_of _ _ _ ?_
      intro s hm
      obtain ⟨v, e, -, h1, -⟩ := hcnt b s hm
      rw [e]; exact h1
    · simp only [Spec.tableEntry]
      have := hconst 1 (samples.filter (Spec.counted bins b))
      rw [one_mul] at this
      rw [← this]
      refine sum_le_of _ _ _ ?_
      intro s hm
      obtain ⟨v, e, h1, -, -⟩ := hcnt b s hm
      rw [e]; exact h1
    · simp only [he]; exact h0
  · rw [List.pairwise_map]
    have hr : (List.range bins.length).Pairwise (· < ·) := List.pairwise_lt_range
    refine hr.imp_of_mem ?_
    intro a b ha hbm hab
    have hal : a < bins.length := List.mem_range.1 ha
    have hbl : b < bins.length := List.mem_range.1 hbm
    have he : (bins.getD b (0, 0)).1 = (binEdges bins).getD b 0 := by
      rw [edges_getD _ _ hbl, List.getD_eq_getElem _ _ hbl]
    have he' : (bins.getD a (0, 0)).1 = (binEdges bins).getD a 0 := by
      rw [edges_getD _ _ hal, List.getD_eq_getElem _ _ hal]
    have hm1 := edges_mono hb (a + 1) b (by omega) (by omega)
    have hm2 := edges_mono hb a b (by omega) (by omega)
    have hlt : ∀ s ∈ samples.filter (Spec.counted bins a), s.forecast.getD 0 < (binEdges bins).getD b 0 := by
      intro s hm
      obtain ⟨v, e, -, -, h1⟩ := hcnt a s hm
      rw [e]; exact lt_of_lt_of_le h1 hm1
    refine ⟨by simp only [he, he']; exact hm2, ?_, ?_⟩
    · simp only [he, Spec.tableEntry]
      rw [← hconst]
      exact sum_le_of _ _ _ (fun s hm => (hlt s hm).le)
    · simp only [he, Spec.tableEntry]
      intro hpos
      rw [← hconst]
      refine sum_lt_of _ _ _ hlt ?_
      intro h
      rw [h] at hpos
      simp at hpos

/-- Pooled bins have ascending mean probabilities in [0, 1]. -/
theorem pooled_means {l out : List RelBin} (h : Spec.PooledFrom l out) (hg : ∀ b ∈ l, GoodBin b) (hp : l.Pairwise belowBin)
    (hpos : ∀ b ∈ out, 0 < b.fc) :
    (out.map (fun b => b.psum / b.fc)).Pairwise (· < ·) ∧ ∀ b ∈ out, 0 ≤ b.psum / b.fc ∧ b.psum / b.fc ≤ 1 := by
  obtain ⟨gs, hne, rfl, rfl⟩ := h
  have hmem : ∀ g ∈ gs, ∀ b ∈ g, GoodBin b := fun g hgm b hb => hg b (List.mem_flatten.2 ⟨g, hgm, hb⟩)
  obtain ⟨hin, hbt⟩ := List.pairwise_flatten.1 hp
  have hsmul : ∀ (c : ℚ) (g : List RelBin), (g.map (fun b => c * b.fc)).sum = c * (g.map RelBin.fc).sum := by
    intro c g
    induction g with
    | nil => simp
    | cons a g ih => simp only [List.map_cons, List.sum_cons, ih]; ring
  constructor
  · rw [List.map_map, List.pairwise_map]
    refine hbt.imp_of_mem ?_
    intro g h hgm hhm hgh
    have hpg : 0 < (Spec.pool g).fc := hpos _ (List.mem_map.2 ⟨g, hgm, rfl⟩)
    have hph : 0 < (Spec.pool h).fc := hpos _ (List.mem_map.2 ⟨h, hhm, rfl⟩)
    obtain ⟨b0, rest, rfl⟩ := List.exists_cons_of_ne_nil (hne h hhm)
    have h1 : (Spec.pool g).psum < b0.lo * (Spec.pool g).fc := by
      simp only [Spec.pool] at hpg ⊢
      rw [← hsmul]
      have hex : ∃ a ∈ g, 0 < a.fc := by
        by_contra hno
        push Not at hno
        have : (g.map RelBin.fc).sum ≤ (g.map (fun _ => (0 : ℚ))).sum := sum_le_of _ _ _ hno
        simp at this
        linarith
      obtain ⟨a, ha, hapos⟩ := hex
      refine List.sum_lt_sum _ _ (fun x hx => (hgh x hx b0 (by simp)).2.1) ⟨a, ha, (hgh a ha b0 (by simp)).2.2 hapos⟩
    have h2 : b0.lo * (Spec.pool (b0 :: rest)).fc ≤ (Spec.pool (b0 :: rest)).psum := by
      simp only [Spec.pool]
      rw [← hsmul]
      refine sum_le_of _ _ _ ?_
      intro x hx
      have hgx := hmem _ hhm x hx
      have hlo : b0.lo ≤ x.lo := by
        rcases List.mem_cons.1 hx with rfl | hx
        · exact le_rfl
        · exact ((List.pairwise_cons.1 (hin _ hhm)).1 x hx).1
      exact le_trans (mul_le_mul_of_nonneg_right hlo hgx.nonneg) hgx.low
    show (Spec.pool g).psum / (Spec.pool g).fc < (Spec.pool (b0 :: rest)).psum / (Spec.pool (b0 :: rest)).fc
    have h3 : (Spec.pool g).psum / (Spec.pool g).fc < b0.lo := by rw [div_lt_iff₀ hpg]; exact h1
    have h4 : b0.lo ≤ (Spec.pool (b0 :: rest)).psum / (Spec.pool (b0 :: rest)).fc := by rw [le_div_iff₀ hph]; exact h2
    exact lt_of_lt_of_le h3 h4
  · intro b hb
    obtain ⟨g, hgm, rfl⟩ := List.mem_map.1 hb
    have hpg : 0 < (Spec.pool g).fc := hpos _ (List.mem_map.2 ⟨g, hgm, rfl⟩)
    constructor
    · refine div_nonneg ?_ hpg.le
      simp only [Spec.pool]
      refine List.sum_nonneg ?_
      intro x hx
      obtain ⟨y, hy, rfl⟩ := List.mem_map.1 hx
      have := hmem g hgm y hy
      exact le_trans (mul_nonneg this.lo0 this.nonneg) this.low
    · rw [div_le_one hpg]
      simp only [Spec.pool]
      exact sum_le_of _ _ _ (fun x hx => (hmem g hgm x hx).high)

/-- The calibration with a manipulated table of samples. -/
theorem manipulated_calibration {up down : ℚ → ℚ} {bins : List (ℚ × ℚ)} (hb : Spec.Bins up down bins) {samples : List RelSample}
    (hs : ∀ s ∈ samples, ∀ v, s.forecast = some v → v ≤ 1) {m m' : ℚ} (hm : manipulateInit m' = .ok m) {v w : ℚ} (h : v ≤ w) :
    calibrateValue (enforceTable m (tableOf bins samples)) v ≤ calibrateValue (enforceTable m (tableOf bins samples)) w := by
  obtain ⟨hg, hp⟩ := tableOf_good hb hs
  obtain ⟨h1, ⟨pooled, hpool, hfix⟩, h3, -⟩ := C31_manipulated m m' hm (tableOf bins samples)
  have hm1 : 1 ≤ m := by
    unfold manipulateInit at hm
    by_cases h : m' < 1
    · rw [if_pos h] at hm; cases hm
    · rw [if_neg h] at hm; injection hm with hm; rw [← hm]; exact not_lt.1 h
  rcases h3 with h3 | h3
  · have hfixmem : ∀ (f : ℚ × ℚ × ℚ × ℚ → ℚ), (enforceTable m (tableOf bins samples)).map (fun b => f (Spec.fixed b)) =
        pooled.map (fun b => f (Spec.fixed b)) := by
      intro f
      have := congrArg (List.map f) hfix
      rwa [List.map_map, List.map_map] at this
    have hfc : (enforceTable m (tableOf bins samples)).map RelBin.fc = pooled.map RelBin.fc := hfixmem (fun q => q.2.1)
    have hmean : (enforceTable m (tableOf bins samples)).map (fun b => b.psum / b.fc) = pooled.map (fun b => b.psum / b.fc) :=
      hfixmem (fun q => q.1 / q.2.1)
    have hpos : ∀ b ∈ pooled, 0 < b.fc := by
      intro b hbm
      have : b.fc ∈ (enforceTable m (tableOf bins samples)).map RelBin.fc := by rw [hfc]; exact List.mem_map_of_mem hbm
      obtain ⟨c, hc, hce⟩ := List.mem_map.1 this
      have := h3 c hc
      rw [← hce]; linarith
    obtain ⟨ha, hr⟩ := pooled_means hpool hg hp hpos
    refine C33_monotone _ (by rw [hmean]; exact ha) ?_ h1 h
    intro b hbm
    have : b.psum / b.fc ∈ pooled.map (fun b => b.psum / b.fc) := by
      rw [← hmean]; exact List.mem_map.2 ⟨b, hbm, rfl⟩
    obtain ⟨c, hc, hce⟩ := List.mem_map.1 this
    rw [← hce]
    exact hr c hc
  · rw [C33_unchanged _ (by omega), C33_unchanged _ (by omega)]
    exact h

/-! ### The construction as a whole -/

theorem matchLoop_nonempty {α β : Type} (truths : List (TruthSlice β)) (fcs : List (FcSlice α)) (times : List TimeCell)
    (m : List (FcSlice α × List (TruthSlice β))) (h : matchLoop truths fcs times = .ok m) : ∀ p ∈ m, p.2 ≠ [] := by
  induction fcs generalizing times m with
  | nil =>
    simp only [matchLoop, Except.ok.injEq] at h
    subst h
    simp
  | cons f rest ih =>
    unfold matchLoop at h
    simp only [bind, Except.bind] at h
    cases hx : extractTruth f.cell truths with
    | error e => rw [hx] at h; exact nomatch h
    | ok ts =>
      rw [hx] at h
      simp only [] at h
      cases ts with
      | nil => exact ih times m h
      | cons t0 more =>
        simp only [] at h
        by_cases hc : f.allNan = false ∧ t0.cell ∉ times
        · rw [if_pos hc] at h
          cases hr : matchLoop truths rest (times ++ [t0.cell]) with
          | error e => rw [hr] at h; exact nomatch h
          | ok r =>
            rw [hr] at h
            simp only [Except.ok.injEq] at h
            subst h
            intro p hp
            rcases List.mem_cons.1 hp with rfl | hp
            · simp
            · exact ih _ r hr p hp
        · rw [if_neg hc] at h
          exact ih times m h

theorem filterNonMatching_ne {α β : Type} {fcs : List (FcSlice α)} {truths : List (TruthSlice β)} {m : List (FcSlice α) × List (TruthSlice β)}
    (h : filterNonMatching fcs truths = .ok m) : m.1 ≠ [] ∧ m.2 ≠ [] := by
  unfold filterNonMatching at h
  simp only [bind, Except.bind] at h
  cases hl : matchLoop truths fcs [] with
  | error e => rw [hl] at h; exact nomatch h
  | ok l =>
    rw [hl] at h
    simp only [] at h
    have hne2 := matchLoop_nonempty truths fcs [] l hl
    by_cases he : l.isEmpty = true
    · rw [if_pos he] at h; exact nomatch h
    · rw [if_neg he] at h
      have hne : l ≠ [] := by simpa using he
      cases hm : mergeTruths (l.map (·.2)) with
      | error e => rw [hm] at h; exact nomatch h
      | ok ts =>
        rw [hm] at h
        simp only [Except.ok.injEq] at h
        subst h
        constructor
        · intro hn
          have := (mergeByTime_perm (fun f : FcSlice α => f.cell.point) (l.map (·.1))).length_eq
          simp only at hn
          rw [hn] at this
          simp at this
          exact hne (List.length_eq_zero_iff.1 this.symm)
        · simp only
          obtain ⟨p, rest, rfl⟩ := List.exists_cons_of_ne_nil hne
          have hp := hne2 p (by simp)
          unfold mergeTruths at hm
          cases rest with
          | nil =>
            simp only [List.map_cons, List.map_nil, Except.ok.injEq] at hm
            rw [← hm]; exact hp
          | cons q rest =>
            simp only [List.map_cons] at hm
            split_ifs at hm
            injection hm with hm
            rw [← hm]
            intro hn
            have := (mergeByTime_perm (fun t : TruthSlice β => t.cell.point) (p.2 :: q.2 :: rest.map (·.2)).flatten).length_eq
            rw [hn] at this
            simp at this
            exact hp (List.length_eq_zero_iff.1 (by omega))

theorem relSamples_ne {fs : List (FcSlice RelFc)} {ts : List (TruthSlice RelTruth)} (h1 : fs ≠ []) (h2 : ts ≠ []) (k i : ℕ) : relSamples fs ts k i ≠ [] := by
  unfold relSamples
  cases fs with
  | nil => exact absurd rfl h1
  | cons f fs =>
    cases ts with
    | nil => exact absurd rfl h2
    | cons t ts => simp

/-- A sample is masked only if its slice is. -/
theorem relSamples_mask (fs : List (FcSlice RelFc)) (ts : List (TruthSlice RelTruth)) (k i : ℕ) :
    ∀ s ∈ relSamples fs ts k i, s.masked = true → s.sliceMasked = true := by
  intro s hs hm
  unfold relSamples at hs
  rw [List.mem_iff_getElem] at hs
  obtain ⟨j, hj, rfl⟩ := hs
  simp only [List.getElem_zipWith] at hm ⊢
  generalize ((ts[j]'(by simp at hj; omega)).data.getD k []) = row at hm ⊢
  unfold sliceHasMask
  by_cases hi : i < row.length
  · rw [List.getD_eq_getElem _ _ hi] at hm
    exact List.any_eq_true.2 ⟨_, List.getElem_mem hi, hm⟩
  · rw [List.getD_eq_default _ _ (by omega)] at hm
    exact absurd hm (by simp)

/-- The forecasts of the samples are those of the matched forecasts. -/
theorem relSamples_forecast {P : ℚ → Prop} {fs : List (FcSlice RelFc)} {ts : List (TruthSlice RelTruth)} {k i : ℕ}
    (h : ∀ f ∈ fs, ∀ row ∈ f.data.field, ∀ x ∈ row, ∀ v, x = some v → P v) :
    ∀ s ∈ relSamples fs ts k i, ∀ v, s.forecast = some v → P v := by
  intro s hs v hv
  unfold relSamples at hs
  rw [List.mem_iff_getElem] at hs
  obtain ⟨j, hj, rfl⟩ := hs
  simp only [List.getElem_zipWith] at hv
  have hf : fs[j]'(by simp at hj; omega) ∈ fs := List.getElem_mem _
  generalize fs[j]'(by simp at hj; omega) = f at hv hf
  by_cases hk : k < f.data.field.length
  · rw [List.getD_eq_getElem _ _ hk] at hv
    by_cases hi : i < (f.data.field[k]).length
    · rw [List.getD_eq_getElem _ _ hi] at hv
      exact h f hf _ (List.getElem_mem hk) _ (List.getElem_mem hi) v hv
    · rw [List.getD_eq_default _ _ (by omega)] at hv
      exact nomatch hv
  · have e : f.data.field.getD k [] = [] := List.getD_eq_default _ _ (by omega)
    rw [e, List.getD_nil] at hv
    exact nomatch hv

theorem matchLoop_sub {α β : Type} (truths : List (TruthSlice β)) (fcs : List (FcSlice α)) (times : List TimeCell)
    (m : List (FcSlice α × List (TruthSlice β))) (h : matchLoop truths fcs times = .ok m) : ∀ p ∈ m, p.1 ∈ fcs := by
  induction fcs generalizing times m with
  | nil =>
    simp only [matchLoop, Except.ok.injEq] at h
    subst h
    simp
  | cons f rest ih =>
    unfold matchLoop at h
    simp only [bind, Except.bind] at h
    cases hx : extractTruth f.cell truths with
    | error e => rw [hx] at h; exact nomatch h
    | ok ts =>
      rw [hx] at h
      simp only [] at h
      cases ts with
      | nil => exact fun p hp => List.mem_cons_of_mem _ (ih times m h p hp)
      | cons t0 more =>
        simp only [] at h
        by_cases hc : f.allNan = false ∧ t0.cell ∉ times
        · rw [if_pos hc] at h
          cases hr : matchLoop truths rest (times ++ [t0.cell]) with
          | error e => rw [hr] at h; exact nomatch h
          | ok r =>
            rw [hr] at h
            simp only [Except.ok.injEq] at h
            subst h
            intro p hp
            rcases List.mem_cons.1 hp with rfl | hp
            · simp
            · exact List.mem_cons_of_mem _ (ih _ r hr p hp)
        · rw [if_neg hc] at h
          exact fun p hp => List.mem_cons_of_mem _ (ih times m h p hp)

theorem filterNonMatching_sub {α β : Type} {fcs : List (FcSlice α)} {truths : List (TruthSlice β)} {m : List (FcSlice α) × List (TruthSlice β)}
    (h : filterNonMatching fcs truths = .ok m) : ∀ f ∈ m.1, f ∈ fcs := by
  unfold filterNonMatching at h
  simp only [bind, Except.bind] at h
  cases hl : matchLoop truths fcs [] with
  | error e => rw [hl] at h; exact nomatch h
  | ok l =>
    rw [hl] at h
    simp only [] at h
    by_cases he : l.isEmpty = true
    · rw [if_pos he] at h; exact nomatch h
    · rw [if_neg he] at h
      cases hm : mergeTruths (l.map (·.2)) with
      | error e => rw [hm] at h; exact nomatch h
      | ok ts =>
        rw [hm] at h
        simp only [Except.ok.injEq] at h
        subst h
        intro f hf
        rw [(mergeByTime_perm _ _).mem_iff] at hf
        obtain ⟨p, hp, rfl⟩ := List.mem_map.1 hf
        exact matchLoop_sub truths fcs [] l hl p hp

theorem distinctPoints_one {l : List ℤ} (h : l ≠ []) : distinctPoints l = 1 ↔ ∀ a ∈ l, ∀ b ∈ l, a = b := by
  unfold distinctPoints
  obtain ⟨x, r, rfl⟩ := List.exists_cons_of_ne_nil h
  by_cases hc : (x :: r).all (fun p => decide (p = (x :: r).headD 0)) = true
  · rw [if_pos hc]
    have hc' : ∀ p ∈ x :: r, p = x := fun p hp => of_decide_eq_true (List.all_eq_true.1 hc p hp)
    simp only [true_iff]
    intro a ha b hb
    rw [hc' a ha, hc' b hb]
  · rw [if_neg hc]
    constructor
    · intro hlen a ha b hb
      have : r = [] := by simpa using hlen
      subst this
      simp only [List.mem_singleton] at ha hb
      rw [ha, hb]
    · intro hall
      exact absurd (List.all_eq_true.2 (fun p hp => decide_eq_true (hall p hp x (by simp)))) hc

theorem constructRun_iff (up down : ℚ → ℚ) (n : ℕ) (lower upper aggregate : Bool) (npts : ℕ) (fth tth : List ℚ)
    (fcs : List (FcSlice RelFc)) (truths : List (TruthSlice RelTruth)) (c : RelCube) :
    constructRun up down n lower upper aggregate npts fth tth fcs truths = .ok c ↔
      ∃ bins m frt tables, defineBins up down n lower upper = .ok bins ∧ filterNonMatching fcs truths = .ok m ∧ fth = tth ∧
        checkConsistency (m.1.map (·.data.frt)) (distinctPoints (m.1.map (·.data.period))) = .ok () ∧
        unifiedFrt (m.1.map (·.data.frt)) none = .ok frt ∧
        (List.range fth.length).mapM (thresholdTables aggregate (binEdges bins) npts m.1 m.2) = .ok tables ∧ c = ⟨fth, bins, frt, tables⟩ := by
  unfold constructRun
  simp only [bind, Except.bind]
  cases h1 : defineBins up down n lower upper with
  | error e => simp
  | ok bins =>
    cases h2 : filterNonMatching fcs truths with
    | error e => simp
    | ok m =>
      simp only []
      by_cases h3 : fth = tth
      · rw [if_neg (not_not.2 h3)]
        cases h4 : checkConsistency (m.1.map (·.data.frt)) (distinctPoints (m.1.map (·.data.period))) with
        | error e =>
          simp only [reduceCtorEq, false_iff]
          rintro ⟨_, m', _, _, -, hm, -, hc, -⟩
          injection hm with hm
          subst hm
          rw [h4] at hc
          exact nomatch hc
        | ok u =>
          cases h5 : unifiedFrt (m.1.map (·.data.frt)) none with
          | error e =>
            simp only [reduceCtorEq, false_iff]
            rintro ⟨_, m', _, _, -, hm, -, -, hc, -⟩
            injection hm with hm
            subst hm
            rw [h5] at hc
            exact nomatch hc
          | ok frt =>
            simp only []
            cases h6 : (List.range fth.length).mapM (thresholdTables aggregate (binEdges bins) npts m.1 m.2) with
            | error e =>
              simp only [reduceCtorEq, false_iff]
              rintro ⟨b', m', _, _, hb, hm, -, -, -, hc, -⟩
              injection hm with hm
              injection hb with hb
              subst hm
              subst hb
              rw [h6] at hc
              exact nomatch hc
            | ok tables =>
              simp only [Except.ok.injEq]
              constructor
              · rintro rfl
                exact ⟨bins, m, frt, tables, rfl, rfl, h3, h4, h5, h6, rfl⟩
              · rintro ⟨b', m', f', t', rfl, rfl, -, -, hf, ht, hc⟩
                rw [h5] at hf
                injection hf with hf
                rw [h6] at ht
                injection ht with ht
                subst hf
                subst ht
                exact hc.symm
      · rw [if_pos h3]
        simp only [reduceCtorEq, false_iff]
        rintro ⟨_, _, _, _, -, -, h, -⟩
        exact h3 h

/-- The state of a point always exists. -/
theorem constructTable_total (edges : List ℚ) {l : List RelSample} (h : l ≠ []) : ∃ st, constructTable edges l = .ok st := by
  cases l with
  | nil => exact absurd rfl h
  | cons s l => exact ⟨_, rfl⟩

theorem mapM_total {α β : Type} (f : α → Except Err β) (l : List α) (h : ∀ a ∈ l, ∃ b, f a = .ok b) : ∃ out, l.mapM f = .ok out := by
  induction l with
  | nil => exact ⟨[], rfl⟩
  | cons a l ih =>
    obtain ⟨b, hb⟩ := h a (by simp)
    obtain ⟨o, ho⟩ := ih (fun x hx => h x (List.mem_cons_of_mem _ hx))
    refine ⟨b :: o, ?_⟩
    rw [List.mapM_cons, hb]
    simp only [bind, Except.bind]
    rw [ho]
    rfl

/-! ### C228 -/

/-- **C228.** The construction succeeds exactly if the bins are possible, some forecast has a truth, both have the same thresholds, and the matched forecasts are
all of one hour of the day and of one forecast period. -/
theorem C228_accepted (up down : ℚ → ℚ) (n : ℕ) (lower upper aggregate : Bool) (npts : ℕ) (fth tth : List ℚ)
    (fcs : List (FcSlice RelFc)) (truths : List (TruthSlice RelTruth)) :
    (∃ c, constructRun up down n lower upper aggregate npts fth tth fcs truths = .ok c) ↔
      (∃ bins, defineBins up down n lower upper = .ok bins) ∧ fth = tth ∧
      ∃ fs ts, filterNonMatching fcs truths = .ok (fs, ts) ∧ (∀ a ∈ fs, ∀ b ∈ fs, Spec.hourOfDay a.data.frt = Spec.hourOfDay b.data.frt) ∧
        ∀ a ∈ fs, ∀ b ∈ fs, a.data.period = b.data.period := by
  have hcons : ∀ fs : List (FcSlice RelFc), fs ≠ [] →
      (checkConsistency (fs.map (·.data.frt)) (distinctPoints (fs.map (·.data.period))) = .ok () ↔
        (∀ a ∈ fs, ∀ b ∈ fs, Spec.hourOfDay a.data.frt = Spec.hourOfDay b.data.frt) ∧ ∀ a ∈ fs, ∀ b ∈ fs, a.data.period = b.data.period) := by
    intro fs hne
    rw [C127_consistent _ (by simpa using hne), distinctPoints_one (by simpa using hne)]
    simp only [List.mem_map, forall_exists_index, and_imp, forall_apply_eq_imp_iff₂]
  constructor
  · rintro ⟨c, h⟩
    obtain ⟨bins, m, frt, tables, h1, h2, h3, h4, -⟩ := (constructRun_iff ..).1 h
    exact ⟨⟨bins, h1⟩, h3, m.1, m.2, h2, (hcons _ (filterNonMatching_ne h2).1).1 h4⟩
  · rintro ⟨⟨bins, h1⟩, h3, fs, ts, h2, h4⟩
    have hne := filterNonMatching_ne h2
    have hfrt : ∃ frt, unifiedFrt (fs.map (·.data.frt)) none = .ok frt := by
      cases fs with
      | nil => exact absurd rfl hne.1
      | cons f fs => exact ⟨_, rfl⟩
    obtain ⟨frt, hfrt⟩ := hfrt
    obtain ⟨tables, ht⟩ := mapM_total (thresholdTables aggregate (binEdges bins) npts fs ts) (List.range fth.length) (by
      intro k _
      obtain ⟨pts, hp⟩ := mapM_total (fun i => constructTable (binEdges bins) (relSamples fs ts k i)) (List.range npts)
        (fun i _ => constructTable_total _ (relSamples_ne hne.1 hne.2 k i))
      refine ⟨if aggregate then [sumStates pts] else pts, ?_⟩
      unfold thresholdTables
      rw [hp]
      rfl)
    exact ⟨_, (constructRun_iff ..).2 ⟨bins, (fs, ts), frt, tables, h1, h2, h3, (hcons fs hne.1).2 h4, hfrt, ht, rfl⟩⟩

theorem foldl_addTables {n : ℕ} (l : List RelState) (f : RelState → ℕ → RelEntry) (hl : ∀ s ∈ l, s.data = (List.range n).map (f s)) (g : ℕ → RelEntry) :
    l.foldl (fun acc t => addTables acc t.data) ((List.range n).map g) =
      (List.range n).map (fun b => l.foldl (fun e s => RelEntry.add e (f s b)) (g b)) := by
  induction l generalizing g with
  | nil => rfl
  | cons s l ih =>
    rw [List.foldl_cons, hl s (by simp), addTables_map, ih (fun x hx => hl x (List.mem_cons_of_mem _ hx))]
    rfl

theorem tableEntry_flatMap (bins : List (ℚ × ℚ)) (b : ℕ) (l : List ℕ) (samples : ℕ → List RelSample) (init : List RelSample) :
    l.foldl (fun e i => RelEntry.add e (Spec.tableEntry bins (samples i) b)) (Spec.tableEntry bins init b) =
      Spec.tableEntry bins (init ++ l.flatMap samples) b := by
  induction l generalizing init with
  | nil => simp
  | cons i l ih =>
    rw [List.foldl_cons, ← tableEntry_append, ih, List.flatMap_cons, List.append_assoc]

/-- The sum over the points is the table of all samples of the points that are not masked. -/
theorem sumStates_table {bins : List (ℚ × ℚ)} {pts : List ℕ} {samples : ℕ → List RelSample} {f : ℕ → RelState}
    (h : ∀ i ∈ pts, (f i).data = (List.range bins.length).map (Spec.tableEntry bins (samples i)))
    (hm : (sumStates (pts.map f)).masked = false) :
    (sumStates (pts.map f)).data =
      (List.range bins.length).map (Spec.tableEntry bins ((pts.filter (fun i => !(f i).masked)).flatMap samples)) := by
  have hfil : (pts.map f).filter (fun s => !s.masked) = (pts.filter (fun i => !(f i).masked)).map f := by
    rw [List.filter_map]; rfl
  have hP : ∀ i ∈ pts.filter (fun i => !(f i).masked), (f i).data = (List.range bins.length).map (Spec.tableEntry bins (samples i)) :=
    fun i hi => h i (List.mem_filter.1 hi).1
  unfold sumStates at hm ⊢
  rw [hfil] at hm ⊢
  generalize pts.filter (fun i => !(f i).masked) = P at hm hP ⊢
  cases P with
  | nil => simp at hm
  | cons i P =>
    simp only [List.map_cons]
    have key : ∀ (P : List ℕ), (∀ i ∈ P, (f i).data = (List.range bins.length).map (Spec.tableEntry bins (samples i))) →
        ∀ init, (P.map f).foldl (fun acc t => addTables acc t.data) ((List.range bins.length).map (Spec.tableEntry bins init)) =
          (List.range bins.length).map (Spec.tableEntry bins (init ++ P.flatMap samples)) := by
      intro P
      induction P with
      | nil => intro _ init; simp
      | cons j P ih =>
        intro hP init
        rw [List.map_cons, List.foldl_cons, hP j (by simp), addTables_map]
        have : (fun b => RelEntry.add (Spec.tableEntry bins init b) (Spec.tableEntry bins (samples j) b)) =
            Spec.tableEntry bins (init ++ samples j) := by
          funext b; rw [tableEntry_append]
        rw [this, ih (fun x hx => hP x (List.mem_cons_of_mem _ hx)), List.flatMap_cons, List.append_assoc]
    rw [hP i (by simp), key P (fun x hx => hP x (List.mem_cons_of_mem _ hx)), List.flatMap_cons]

/-- A point without masked samples is not masked; a point that is not masked has a sample that is not masked. -/
theorem constructTable_mask {edges : List ℚ} {l : List RelSample} {st : RelState} (h : constructTable edges l = .ok st)
    (hs : ∀ s ∈ l, s.masked = true → s.sliceMasked = true) :
    ((∀ s ∈ l, s.masked = false) → st.masked = false) ∧ (st.masked = false → ∃ s ∈ l, s.masked = false) := by
  cases l with
  | nil => exact nomatch h
  | cons s rest =>
    simp only [constructTable, Except.ok.injEq] at h
    have key1 : ∀ (rest : List RelSample) (st : RelState), st.masked = false → (rest.foldl (addSample edges) st).masked = false := by
      intro rest
      induction rest with
      | nil => intro st h; exact h
      | cons a rest ih =>
        intro st h
        rw [List.foldl_cons]
        apply ih
        unfold addSample
        split_ifs <;> simp [h]
    have key2 : ∀ (rest : List RelSample) (st : RelState), (∀ s ∈ rest, s.sliceMasked = true ∧ s.masked = true) → st.masked = true →
        (rest.foldl (addSample edges) st).masked = true := by
      intro rest
      induction rest with
      | nil => intro st _ h; exact h
      | cons a rest ih =>
        intro st ha h
        rw [List.foldl_cons]
        apply ih _ (fun x hx => ha x (List.mem_cons_of_mem _ hx))
        unfold addSample
        rw [if_pos (ha a (by simp)).1]
        simp [h, (ha a (by simp)).2]
    rw [← h]
    constructor
    · intro hf
      exact key1 _ _ (hf s (by simp))
    · intro hm
      by_contra hno
      push Not at hno
      have hall : ∀ x ∈ s :: rest, x.masked = true := fun x hx => by simpa using hno x hx
      rw [key2 rest _ (fun x hx => ⟨hs x (List.mem_cons_of_mem _ hx) (hall x (List.mem_cons_of_mem _ hx)), hall x (List.mem_cons_of_mem _ hx)⟩)
        (hall s (by simp))] at hm
      exact nomatch hm

theorem mapM_eq_map {α β : Type} {f : α → Except Err β} {g : α → β} {l : List α} {out : List β} (h : l.mapM f = .ok out)
    (hg : ∀ a ∈ l, ∀ b, f a = .ok b → g a = b) : out = l.map g := by
  induction l generalizing out with
  | nil =>
    simp only [List.mapM_nil, pure, Except.pure, Except.ok.injEq] at h
    rw [← h]; rfl
  | cons a l ih =>
    rw [List.mapM_cons] at h
    simp only [bind, Except.bind] at h
    cases ha : f a with
    | error e => rw [ha] at h; exact nomatch h
    | ok b =>
      rw [ha] at h
      simp only [] at h
      cases hl : l.mapM f with
      | error e => rw [hl] at h; exact nomatch h
      | ok o =>
        rw [hl] at h
        simp only [pure, Except.pure, Except.ok.injEq] at h
        rw [← h, ih hl (fun x hx => hg x (List.mem_cons_of_mem _ hx)), List.map_cons, hg a (by simp) b ha]

theorem mapM_each {α β : Type} {f : α → Except Err β} {l : List α} {out : List β} (h : l.mapM f = .ok out) : ∀ a ∈ l, ∃ b, f a = .ok b := by
  have hf := mapM_ok_forall f l out h
  clear h
  induction hf with
  | nil => intro a ha; exact absurd ha (by simp)
  | cons hd _ ih =>
    intro a ha
    rcases List.mem_cons.1 ha with rfl | ha
    · exact ⟨_, hd⟩
    · exact ih a ha

theorem mapM_range_get {β : Type} {f : ℕ → Except Err β} {n : ℕ} {out : List β} (h : (List.range n).mapM f = .ok out) :
    out.length = n ∧ ∀ k < n, ∃ b, out[k]? = some b ∧ f k = .ok b := by
  have hf := mapM_ok_forall f _ out h
  have hl : out.length = n := by rw [← hf.length_eq, List.length_range]
  refine ⟨hl, ?_⟩
  intro k hk
  have hk' : k < out.length := by omega
  refine ⟨out[k], List.getElem?_eq_getElem hk', ?_⟩
  have := (List.forall₂_iff_get.1 hf).2 k (by simpa using hk) hk'
  simpa using this

/-- What the tables of one threshold are. -/
theorem thresholdTables_spec {up down : ℚ → ℚ} {bins : List (ℚ × ℚ)} (hb : Spec.Bins up down bins) (hne : bins ≠ []) {aggregate : Bool} {npts : ℕ}
    {fs : List (FcSlice RelFc)} {ts : List (TruthSlice RelTruth)} {k : ℕ} {out : List RelState}
    (h : thresholdTables aggregate (binEdges bins) npts fs ts k = .ok out) :
    ∃ f : ℕ → RelState, (out = if aggregate then [sumStates ((List.range npts).map f)] else (List.range npts).map f) ∧
      ∀ i ∈ List.range npts, (f i).data = (List.range bins.length).map (Spec.tableEntry bins (relSamples fs ts k i)) ∧
        ((∀ s ∈ relSamples fs ts k i, s.masked = false) → (f i).masked = false) ∧
        ((f i).masked = false → ∃ s ∈ relSamples fs ts k i, s.masked = false) := by
  unfold thresholdTables at h
  simp only [bind, Except.bind] at h
  cases hp : (List.range npts).mapM (fun i => constructTable (binEdges bins) (relSamples fs ts k i)) with
  | error e => rw [hp] at h; exact nomatch h
  | ok pts =>
    rw [hp] at h
    simp only [Except.ok.injEq] at h
    refine ⟨fun i => (constructTable (binEdges bins) (relSamples fs ts k i)).toOption.getD ⟨[], true⟩, ?_, ?_⟩
    · rw [← h]
      have := mapM_eq_map (g := fun i => (constructTable (binEdges bins) (relSamples fs ts k i)).toOption.getD ⟨[], true⟩) hp
        (fun a _ b hb => by simp only [hb]; rfl)
      rw [this]
    · intro i hi
      obtain ⟨st, hst⟩ := mapM_each hp i hi
      simp only [hst]
      exact ⟨C32_table up down bins hb hne _ (relSamples_mask fs ts k i) st hst, constructTable_mask hst (relSamples_mask fs ts k i)⟩

/-- A sensible float just above `single_value_tolerance`, and not too many bins. -/
structure FloatsOk (up : ℚ → ℚ) (n : ℕ) : Prop where
  up : svTol < up svTol ∧ up svTol < 2 * svTol
  bins : n ≤ 500000

/-- **C228** (counts, aggregated): there is one table for each threshold.  Unless it is masked it counts all samples of some points: every point at which no
truth is masked is counted, and none at which all truths are masked. -/
theorem C228_counts (up down : ℚ → ℚ) (n : ℕ) (hfl : FloatsOk up n) (lower upper : Bool) (npts : ℕ) (fth tth : List ℚ)
    (fcs : List (FcSlice RelFc)) (truths : List (TruthSlice RelTruth)) (c : RelCube)
    (h : constructRun up down n lower upper true npts fth tth fcs truths = .ok c) :
    ∃ fs ts, filterNonMatching fcs truths = .ok (fs, ts) ∧ defineBins up down n lower upper = .ok c.bins ∧ c.bins.length = n ∧
      c.thresholds = fth ∧ c.tables.length = fth.length ∧
      ∀ k < fth.length, ∃ s, c.tables[k]? = some [s] ∧ (s.masked = false →
        ∃ P : List ℕ, P.Sublist (List.range npts) ∧
          s.data = (List.range n).map (Spec.tableEntry c.bins (P.flatMap (relSamples fs ts k))) ∧
          (∀ i < npts, (∀ x ∈ relSamples fs ts k i, x.masked = false) → i ∈ P) ∧
          ∀ i ∈ P, ∃ x ∈ relSamples fs ts k i, x.masked = false) := by
  obtain ⟨bins, m, frt, tables, h1, h2, -, -, -, h6, rfl⟩ := (constructRun_iff ..).1 h
  obtain ⟨hlen, hb⟩ := C32_bins up down hfl.up n hfl.bins lower upper bins h1
  obtain ⟨hl, hk⟩ := mapM_range_get h6
  refine ⟨m.1, m.2, h2, h1, hlen, rfl, hl, ?_⟩
  intro k hkl
  obtain ⟨out, e, ho⟩ := hk k hkl
  have hne : bins ≠ [] := by
    rintro rfl
    have := hb.last
    simp at this
  obtain ⟨f, ho, hf⟩ := thresholdTables_spec hb hne ho
  rw [if_pos rfl] at ho
  refine ⟨_, by rw [e, ho], ?_⟩
  intro hm
  refine ⟨(List.range npts).filter (fun i => !(f i).masked), List.filter_sublist, ?_, ?_, ?_⟩
  · rw [sumStates_table (fun i hi => (hf i hi).1) hm, hlen]
  · intro i hi hx
    rw [List.mem_filter]
    exact ⟨List.mem_range.2 hi, by simpa using (hf i (List.mem_range.2 hi)).2.1 hx⟩
  · intro i hi
    obtain ⟨hi, hx⟩ := List.mem_filter.1 hi
    exact (hf i hi).2.2 (by simpa using hx)

/-- The samples are not masked if the truths are not. -/
theorem relSamples_free {fs : List (FcSlice RelFc)} {ts : List (TruthSlice RelTruth)} (h : ∀ t ∈ ts, ∀ row ∈ t.data, ∀ x ∈ row, x.2 = false) (k i : ℕ) :
    ∀ s ∈ relSamples fs ts k i, s.masked = false := by
  intro s hs
  unfold relSamples at hs
  rw [List.mem_iff_getElem] at hs
  obtain ⟨j, hj, rfl⟩ := hs
  simp only [List.getElem_zipWith]
  have hf : ts[j]'(by simp at hj; omega) ∈ ts := List.getElem_mem _
  generalize ts[j]'(by simp at hj; omega) = t at hf
  by_cases hk : k < t.data.length
  · rw [List.getD_eq_getElem _ _ hk]
    by_cases hi : i < (t.data[k]).length
    · rw [List.getD_eq_getElem _ _ hi]
      exact h t hf _ (List.getElem_mem hk) _ (List.getElem_mem hi)
    · rw [List.getD_eq_default _ _ (by omega)]
  · have e : t.data.getD k [] = [] := List.getD_eq_default _ _ (by omega)
    rw [e, List.getD_nil]

/-- **C228** (no masks): with unmasked truths the table of a threshold counts every pair of a matched forecast and its truth at every point, each probability
in [0, 1] once: the observation count of a bin is the number of its pairs with truth one, its probability sum the sum of its forecasts, its forecast count the
number of its pairs; together they are all the pairs whose forecast is in [0, 1] (or above by at most the tolerance). -/
theorem C228_all_pairs (up down : ℚ → ℚ) (n : ℕ) (hfl : FloatsOk up n) (lower upper : Bool) (npts : ℕ) (hn : 0 < npts) (fth tth : List ℚ)
    (fcs : List (FcSlice RelFc)) (truths : List (TruthSlice RelTruth)) (c : RelCube)
    (h : constructRun up down n lower upper true npts fth tth fcs truths = .ok c)
    (fs : List (FcSlice RelFc)) (ts : List (TruthSlice RelTruth)) (hm : filterNonMatching fcs truths = .ok (fs, ts))
    (hfree : ∀ t ∈ ts, ∀ row ∈ t.data, ∀ x ∈ row, x.2 = false) (k : ℕ) (hk : k < fth.length) :
    let pairs := (List.range npts).flatMap (relSamples fs ts k)
    c.tables[k]? = some [⟨(List.range n).map (Spec.tableEntry c.bins pairs), false⟩] ∧
    ((List.range n).map (fun b => (Spec.tableEntry c.bins pairs b).fc)).sum =
      ((pairs.filter (fun s => match s.forecast with | none => false | some x => decide (0 ≤ x ∧ x < 1 + svTol))).length : ℚ) := by
  obtain ⟨bins, m, frt, tables, h1, h2, -, -, -, h6, rfl⟩ := (constructRun_iff ..).1 h
  obtain ⟨hlen, hb⟩ := C32_bins up down hfl.up n hfl.bins lower upper bins h1
  rw [hm] at h2
  injection h2 with h2
  subst h2
  obtain ⟨hl, hk'⟩ := mapM_range_get h6
  obtain ⟨out, e, ho⟩ := hk' k hk
  have hne : bins ≠ [] := by
    rintro rfl
    have := hb.last
    simp at this
  obtain ⟨f, ho, hf⟩ := thresholdTables_spec hb hne ho
  rw [if_pos rfl] at ho
  have hun : ∀ i ∈ List.range npts, (f i).masked = false := fun i hi => (hf i hi).2.1 (relSamples_free hfree k i)
  have hfil : (List.range npts).filter (fun i => !(f i).masked) = List.range npts := by
    rw [List.filter_eq_self]
    intro i hi
    simp [hun i hi]
  have hms : (sumStates ((List.range npts).map f)).masked = false := by
    unfold sumStates
    rw [List.filter_map]
    have : (List.range npts).filter ((fun s => !s.masked) ∘ f) = List.range npts := hfil
    rw [this]
    cases npts with
    | zero => omega
    | succ m => rw [List.range_succ_eq_map]; rfl
  have hdata := sumStates_table (fun i hi => (hf i hi).1) hms
  rw [hfil, hlen] at hdata
  intro pairs
  constructor
  · simp only []
    rw [e, ho]
    congr 2
    rw [← hdata, ← hms]
  · have := C32_total up down bins hb hne pairs
    rw [hlen] at this
    rw [this]
    congr 2
    apply List.filter_congr
    intro s hs
    obtain ⟨i, -, hs⟩ := List.mem_flatMap.1 hs
    rw [relSamples_free hfree k i s hs]
    rfl

/-- **C228** (point by point): without aggregation there is one table for each threshold and point, of that point's pairs only. -/
theorem C228_pointwise (up down : ℚ → ℚ) (n : ℕ) (hfl : FloatsOk up n) (lower upper : Bool) (npts : ℕ) (fth tth : List ℚ)
    (fcs : List (FcSlice RelFc)) (truths : List (TruthSlice RelTruth)) (c : RelCube)
    (h : constructRun up down n lower upper false npts fth tth fcs truths = .ok c) :
    ∃ fs ts, filterNonMatching fcs truths = .ok (fs, ts) ∧ c.bins.length = n ∧ c.thresholds = fth ∧ c.tables.length = fth.length ∧
      ∀ k < fth.length, ∃ l, c.tables[k]? = some l ∧ l.length = npts ∧ ∀ i < npts, ∃ s, l[i]? = some s ∧
        s.data = (List.range n).map (Spec.tableEntry c.bins (relSamples fs ts k i)) ∧
        ((∀ x ∈ relSamples fs ts k i, x.masked = false) → s.masked = false) ∧
        (s.masked = false → ∃ x ∈ relSamples fs ts k i, x.masked = false) := by
  obtain ⟨bins, m, frt, tables, h1, h2, -, -, -, h6, rfl⟩ := (constructRun_iff ..).1 h
  obtain ⟨hlen, hb⟩ := C32_bins up down hfl.up n hfl.bins lower upper bins h1
  obtain ⟨hl, hk⟩ := mapM_range_get h6
  refine ⟨m.1, m.2, h2, hlen, rfl, hl, ?_⟩
  intro k hkl
  obtain ⟨out, e, ho⟩ := hk k hkl
  have hne : bins ≠ [] := by
    rintro rfl
    have := hb.last
    simp at this
  obtain ⟨f, ho, hf⟩ := thresholdTables_spec hb hne ho
  rw [if_neg (by simp)] at ho
  refine ⟨_, by rw [e], by rw [ho]; simp, ?_⟩
  intro i hi
  have := hf i (List.mem_range.2 hi)
  refine ⟨f i, ?_, by rw [this.1, hlen], this.2⟩
  rw [ho, List.getElem?_map, List.getElem?_range hi]
  rfl

/-! ### Sorting keeps the order of two lists -/

theorem orderedInsert_le {a b : ℚ} {l r : List ℚ} (hab : a ≤ b) (h : List.Forall₂ (· ≤ ·) l r) (hl : l.Pairwise (· ≤ ·)) (hr : r.Pairwise (· ≤ ·)) :
    List.Forall₂ (· ≤ ·) (l.orderedInsert (· ≤ ·) a) (r.orderedInsert (· ≤ ·) b) := by
  induction h generalizing a b with
  | nil => exact List.Forall₂.cons hab List.Forall₂.nil
  | @cons x y l r hxy htl ih =>
    rw [List.pairwise_cons] at hl hr
    have hrest : ∀ {c d : ℚ}, c ≤ d → List.Forall₂ (· ≤ ·) (l.orderedInsert (· ≤ ·) c) (r.orderedInsert (· ≤ ·) d) := fun hcd => ih hcd hl.2 hr.2
    have hcons : ∀ (c : ℚ) (l : List ℚ), (∀ z ∈ l, c ≤ z) → l.orderedInsert (· ≤ ·) c = c :: l := by
      intro c l hz
      cases l with
      | nil => rfl
      | cons z l => rw [List.orderedInsert_cons, if_pos (hz z (by simp))]
    rw [List.orderedInsert_cons, List.orderedInsert_cons]
    by_cases h1 : a ≤ x
    · rw [if_pos h1]
      by_cases h2 : b ≤ y
      · rw [if_pos h2]
        exact List.Forall₂.cons hab (List.Forall₂.cons hxy htl)
      · rw [if_neg h2]
        refine List.Forall₂.cons (h1.trans hxy) ?_
        rw [← hcons x l hl.1]
        exact hrest (hxy.trans (not_le.1 h2).le)
    · rw [if_neg h1]
      by_cases h2 : b ≤ y
      · rw [if_pos h2]
        refine List.Forall₂.cons ((not_le.1 h1).le.trans hab) ?_
        rw [← hcons y r hr.1]
        exact hrest (hab.trans h2)
      · rw [if_neg h2]
        exact List.Forall₂.cons hxy (hrest hab)

theorem npSort_le {l r : List ℚ} (h : List.Forall₂ (· ≤ ·) l r) : List.Forall₂ (· ≤ ·) (npSort l) (npSort r) := by
  induction h with
  | nil => exact List.Forall₂.nil
  | @cons x y l r hxy htl ih => exact orderedInsert_le hxy ih (npSort_sorted l) (npSort_sorted r)

/-- A column put in the order of the thresholds. -/
def orderColumn (above : Bool) (c : List ℚ) : List ℚ := if above then (npSort c).reverse else npSort c

theorem orderColumn_le {above : Bool} {l r : List ℚ} (h : List.Forall₂ (· ≤ ·) l r) : List.Forall₂ (· ≤ ·) (orderColumn above l) (orderColumn above r) := by
  unfold orderColumn
  cases above with
  | true => simpa using npSort_le h
  | false => simpa using npSort_le h

theorem orderColumn_of_ordered {above : Bool} {c : List ℚ} (h : Spec.thresholdOrdered above c) : orderColumn above c = c := by
  unfold orderColumn Spec.thresholdOrdered at *
  cases above with
  | false => exact npSort_of_sorted (by simpa using h)
  | true =>
    simp only [if_true] at h ⊢
    have hs : (c.reverse).Pairwise (· ≤ ·) := by rw [List.pairwise_reverse]; exact h
    have : npSort c = c.reverse := by
      rw [← npSort_of_sorted hs]
      exact List.Perm.eq_of_pairwise (fun a b _ _ => le_antisymm) (npSort_sorted _) (npSort_sorted _)
        ((npSort_perm c).trans ((List.reverse_perm c).symm.trans (npSort_perm _).symm))
    rw [this, List.reverse_reverse]

theorem alreadyOrdered_iff (above : Bool) (cols : List (List ℚ)) : alreadyOrdered above cols = true ↔ ∀ c ∈ cols, Spec.thresholdOrdered above c := by
  unfold alreadyOrdered Spec.thresholdOrdered
  cases above with
  | true =>
    simp only [if_true, List.all_eq_true (l := cols)]
    exact forall₂_congr (fun c _ => npDiff_all_nonpos)
  | false =>
    simp only [Bool.false_eq_true, if_false, List.all_eq_true (l := cols)]
    exact forall₂_congr (fun c _ => npDiff_all_nonneg)

theorem ensureMonotone_eq_map (above : Bool) (cols : List (List ℚ)) : ensureMonotone above cols = cols.map (orderColumn above) := by
  have h : ensureMonotone above cols = if alreadyOrdered above cols then cols else cols.map (orderColumn above) := by
    unfold ensureMonotone alreadyOrdered orderColumn
    cases above <;> simp
  rw [h]
  by_cases ha : alreadyOrdered above cols = true
  · rw [if_pos ha]
    rw [alreadyOrdered_iff] at ha
    conv_lhs => rw [← List.map_id cols]
    exact List.map_congr_left (fun c hc => (orderColumn_of_ordered (ha c hc)).symm)
  · rw [if_neg ha]

theorem matchTable_iff (tables : List RelTab) (t : ℚ) (b : List RelBin) :
    matchTable tables t = .ok b ↔ ∃ r, tables.filter (fun r => decide (r.threshold = t)) = [r] ∧ r.bins = b := by
  unfold matchTable
  cases hf : tables.filter (fun r => decide (r.threshold = t)) with
  | nil => simp
  | cons r rest =>
    cases rest with
    | nil => simp
    | cons r' rest => simp

theorem calibrateRun_iff (above : Option Bool) (ts : List ℚ) (tables : List RelTab) (cols : List (List ℚ)) (r : List (List ℚ) × List RelWarning) :
    calibrateRun above ts tables cols = .ok r ↔ ∃ a tabs, above = some a ∧ ts.mapM (matchTable tables) = .ok tabs ∧ 2 ≤ ts.length ∧
      r = (cols.map (fun c => orderColumn a (List.zipWith calibrateValue tabs c)),
        calibrationWarnings a ts tabs (cols.map (fun c => List.zipWith calibrateValue tabs c))) := by
  unfold calibrateRun
  simp only [bind, Except.bind]
  cases ht : ts.mapM (matchTable tables) with
  | error e => simp
  | ok tabs =>
    have hl : tabs.length = ts.length := ((mapM_ok_forall _ _ _ ht).length_eq).symm
    simp only []
    cases above with
    | none => simp
    | some a =>
      simp only []
      unfold applyCalibration
      by_cases h1 : tabs.length ≤ 1
      · rw [if_pos h1]
        simp only [reduceCtorEq, false_iff]
        rintro ⟨_, _, -, -, h2, -⟩
        omega
      · rw [if_neg h1]
        simp only [Except.ok.injEq, ensureMonotone_eq_map, List.map_map]
        constructor
        · rintro rfl
          exact ⟨a, tabs, rfl, rfl, by omega, rfl⟩
        · rintro ⟨a', tabs', e1, rfl, -, e⟩
          injection e1 with e1
          subst e1
          exact e.symm

/-! ### C229 -/

theorem forall₂_source {α β : Type} {R : α → β → Prop} {l : List α} {m : List β} (h : List.Forall₂ R l m) : ∀ b ∈ m, ∃ a ∈ l, R a b := by
  induction h with
  | nil => simp
  | cons h _ ih =>
    intro b hb
    rcases List.mem_cons.1 hb with rfl | hb
    · exact ⟨_, by simp, h⟩
    · obtain ⟨a, ha, hr⟩ := ih b hb
      exact ⟨a, List.mem_cons_of_mem _ ha, hr⟩

/-- Every manipulated table comes from samples. -/
theorem manipulateRun_tables {up down : ℚ → ℚ} {n : ℕ} (hfl : FloatsOk up n) {lower upper aggregate : Bool} {npts : ℕ} {fth tth : List ℚ}
    {fcs : List (FcSlice RelFc)} {truths : List (TruthSlice RelTruth)} {c : RelCube}
    (h : constructRun up down n lower upper aggregate npts fth tth fcs truths = .ok c)
    (hp : ∀ f ∈ fcs, ∀ row ∈ f.data.field, ∀ x ∈ row, ∀ v, x = some v → v ≤ 1)
    (hun : ∀ l ∈ c.tables, ∀ s ∈ l, s.masked = false)
    {minimum : ℚ} {pbp : Bool} {coords : List (ℚ × ℚ)} {tabs : List RelTab} (hm : manipulateRun minimum pbp coords c = .ok tabs) :
    manipulateInit minimum = .ok minimum ∧ Spec.Bins up down c.bins ∧ ∀ t ∈ tabs, ∃ samples : List RelSample,
      t.bins = enforceTable minimum (tableOf c.bins samples) ∧ ∀ s ∈ samples, ∀ v, s.forecast = some v → v ≤ 1 := by
  have hinit : manipulateInit minimum = .ok minimum := by
    unfold manipulateRun at hm
    simp only [bind, Except.bind] at hm
    unfold manipulateInit at hm ⊢
    by_cases hlt : minimum < 1
    · rw [if_pos hlt] at hm; exact nomatch hm
    · rw [if_neg hlt]
  have hstate : Spec.Bins up down c.bins ∧ ∀ l ∈ c.tables, ∀ s ∈ l, ∃ samples : List RelSample,
      s.data = (List.range c.bins.length).map (Spec.tableEntry c.bins samples) ∧ ∀ x ∈ samples, ∀ v, x.forecast = some v → v ≤ 1 := by
    obtain ⟨bins, m, frt, tables, h1, h2, -, -, -, h6, rfl⟩ := (constructRun_iff ..).1 h
    obtain ⟨hlen, hb⟩ := C32_bins up down hfl.up n hfl.bins lower upper bins h1
    have hne : bins ≠ [] := by
      rintro rfl
      have := hb.last
      simp at this
    refine ⟨hb, ?_⟩
    intro l hl s hs
    have hps : ∀ k i, ∀ x ∈ relSamples m.1 m.2 k i, ∀ v, x.forecast = some v → v ≤ 1 :=
      fun k i => relSamples_forecast (P := fun v => v ≤ 1) (fun f hf => hp f (filterNonMatching_sub h2 f hf))
    obtain ⟨hl1, hk⟩ := mapM_range_get h6
    obtain ⟨k, hkl, rfl⟩ := List.mem_iff_getElem.1 hl
    obtain ⟨out, e, ho⟩ := hk k (by simp only [] at hkl; omega)
    rw [List.getElem?_eq_getElem hkl] at e
    injection e with e
    obtain ⟨f, ho, hf⟩ := thresholdTables_spec hb hne ho
    have hus := hun _ hl s hs
    simp only [] at hs hus
    rw [e, ho] at hs
    cases aggregate with
    | false =>
      simp only [Bool.false_eq_true, if_false, List.mem_map] at hs
      obtain ⟨i, hi, rfl⟩ := hs
      exact ⟨_, (hf i hi).1, hps k i⟩
    | true =>
      simp only [if_true, List.mem_singleton] at hs
      subst hs
      refine ⟨_, sumStates_table (fun i hi => (hf i hi).1) hus, ?_⟩
      intro x hx
      obtain ⟨i, -, hx⟩ := List.mem_flatMap.1 hx
      exact hps k i x hx
  refine ⟨hinit, hstate.1, ?_⟩
  have hbins : ∀ l ∈ c.tables, ∀ s ∈ l, ∃ samples : List RelSample, stateBins c.bins s = tableOf c.bins samples ∧
      ∀ x ∈ samples, ∀ v, x.forecast = some v → v ≤ 1 := by
    intro l hl s hs
    obtain ⟨samples, e, hv⟩ := hstate.2 l hl s hs
    refine ⟨samples, ?_, hv⟩
    unfold tableOf stateBins
    rw [e]
  unfold manipulateRun at hm
  rw [hinit] at hm
  simp only [bind, Except.bind] at hm
  cases hmm : (c.thresholds.zip c.tables).mapM (manipulateThreshold minimum pbp coords c.bins) with
  | error e => rw [hmm] at hm; exact nomatch hm
  | ok tt =>
    rw [hmm] at hm
    simp only [Except.ok.injEq] at hm
    intro t ht
    rw [← hm] at ht
    obtain ⟨l, hl, ht⟩ := List.mem_flatten.1 ht
    obtain ⟨p, hpm, hpl⟩ := forall₂_source (mapM_ok_forall _ _ _ hmm) l hl
    have hp2 : p.2 ∈ c.tables := (List.of_mem_zip hpm).2
    unfold manipulateThreshold at hpl
    cases pbp with
    | true =>
      simp only [if_true, Except.ok.injEq] at hpl
      rw [← hpl] at ht
      obtain ⟨j, hj, rfl⟩ := List.mem_iff_getElem.1 ht
      simp only [List.getElem_zipWith]
      obtain ⟨samples, e, hv⟩ := hbins p.2 hp2 (p.2[j]'(by simp at hj; omega)) (List.getElem_mem _)
      exact ⟨samples, by rw [e], hv⟩
    | false =>
      simp only [Bool.false_eq_true, if_false] at hpl
      cases hs : p.2 with
      | nil => rw [hs] at hpl; exact nomatch hpl
      | cons s rest =>
        cases rest with
        | cons s' rest => rw [hs] at hpl; exact nomatch hpl
        | nil =>
          rw [hs] at hpl
          simp only [Except.ok.injEq] at hpl
          rw [← hpl, List.mem_singleton] at ht
          subst ht
          obtain ⟨samples, e, hv⟩ := hbins p.2 hp2 s (by rw [hs]; simp)
          exact ⟨samples, by simp only [e], hv⟩

theorem zipWith_calibrate_le {tabs : List (List RelBin)} (hm : ∀ t ∈ tabs, ∀ v w, v ≤ w → calibrateValue t v ≤ calibrateValue t w)
    {l r : List ℚ} (h : List.Forall₂ (· ≤ ·) l r) : List.Forall₂ (· ≤ ·) (List.zipWith calibrateValue tabs l) (List.zipWith calibrateValue tabs r) := by
  induction h generalizing tabs with
  | nil => simp
  | cons hd _ ih =>
    cases tabs with
    | nil => simp
    | cons t tabs =>
      simp only [List.zipWith_cons_cons]
      exact List.Forall₂.cons (hm t (by simp) _ _ hd) (ih (fun t ht => hm t (List.mem_cons_of_mem _ ht)))

theorem matched_mem {ts : List ℚ} {tables : List RelTab} {tabs : List (List RelBin)} (h : ts.mapM (matchTable tables) = .ok tabs) :
    ∀ b ∈ tabs, ∃ r ∈ tables, r.bins = b := by
  intro b hb
  obtain ⟨t, -, ht⟩ := forall₂_source (mapM_ok_forall _ _ _ h) b hb
  obtain ⟨r, hr, e⟩ := (matchTable_iff ..).1 ht
  refine ⟨r, ?_, e⟩
  have : r ∈ tables.filter (fun r => decide (r.threshold = t)) := by rw [hr]; simp
  exact (List.mem_filter.1 this).1

theorem calibrateRun_le {above : Option Bool} {ts : List ℚ} {tables : List RelTab}
    (hm : ∀ r ∈ tables, ∀ v w, v ≤ w → calibrateValue r.bins v ≤ calibrateValue r.bins w) {cols cols' : List (List ℚ)}
    (hle : List.Forall₂ (List.Forall₂ (· ≤ ·)) cols cols') {r r' : List (List ℚ) × List RelWarning}
    (h : calibrateRun above ts tables cols = .ok r) (h' : calibrateRun above ts tables cols' = .ok r') :
    List.Forall₂ (List.Forall₂ (· ≤ ·)) r.1 r'.1 := by
  obtain ⟨a, tabs, e1, e2, -, rfl⟩ := (calibrateRun_iff ..).1 h
  obtain ⟨a', tabs', e1', e2', -, rfl⟩ := (calibrateRun_iff ..).1 h'
  rw [e1] at e1'
  rw [e2] at e2'
  injection e1' with e1'
  injection e2' with e2'
  subst e1' e2'
  simp only [List.forall₂_map_left_iff, List.forall₂_map_right_iff]
  refine hle.imp ?_
  intro c c' hc
  apply orderColumn_le
  apply zipWith_calibrate_le _ hc
  intro t ht
  obtain ⟨r, hr, e⟩ := matched_mem e2 t ht
  rw [← e]
  exact hm r hr

theorem applyRelRun_le {pbp : Bool} {above : Option Bool} {ts : List ℚ} {tables : List RelTab} {coords : List (ℚ × ℚ)}
    (hm : ∀ r ∈ tables, ∀ v w, v ≤ w → calibrateValue r.bins v ≤ calibrateValue r.bins w) {cols cols' : List (List ℚ)}
    (hle : List.Forall₂ (List.Forall₂ (· ≤ ·)) cols cols') {r r' : List (List ℚ) × List RelWarning}
    (h : applyRelRun pbp above ts tables coords cols = .ok r) (h' : applyRelRun pbp above ts tables coords cols' = .ok r') :
    List.Forall₂ (List.Forall₂ (· ≤ ·)) r.1 r'.1 := by
  unfold applyRelRun at h h'
  cases pbp with
  | false => exact calibrateRun_le hm hle (by simpa using h) (by simpa using h')
  | true =>
    simp only [if_true, bind, Except.bind] at h h'
    cases hp : (coords.zip cols).mapM (calibratePoint above ts tables) with
    | error e => rw [hp] at h; exact nomatch h
    | ok pts =>
      cases hp' : (coords.zip cols').mapM (calibratePoint above ts tables) with
      | error e => rw [hp'] at h'; exact nomatch h'
      | ok pts' =>
        rw [hp] at h
        rw [hp'] at h'
        simp only [Except.ok.injEq] at h h'
        subst h h'
        simp only [List.forall₂_map_left_iff, List.forall₂_map_right_iff]
        have hf := mapM_ok_forall _ _ _ hp
        have hf' := mapM_ok_forall _ _ _ hp'
        clear hp hp'
        induction hle generalizing coords pts pts' with
        | nil =>
          simp only [List.zip_nil_right, List.forall₂_nil_left_iff] at hf hf'
          subst hf hf'
          exact List.Forall₂.nil
        | @cons c c' cols cols' hc _ ih =>
          cases coords with
          | nil =>
            simp only [List.zip_nil_left, List.forall₂_nil_left_iff] at hf hf'
            subst hf hf'
            exact List.Forall₂.nil
          | cons x coords =>
            rw [List.zip_cons_cons] at hf hf'
            cases hf with
            | cons h1 ht =>
              cases hf' with
              | cons h1' ht' =>
                refine List.Forall₂.cons ?_ (ih _ _ ht ht')
                unfold calibratePoint at h1 h1'
                simp only [bind, Except.bind] at h1 h1'
                cases hr : calibrateRun above ts (tables.filter (fun t => decide (t.site = some x))) [c] with
                | error e => rw [hr] at h1; exact nomatch h1
                | ok q =>
                  cases hr' : calibrateRun above ts (tables.filter (fun t => decide (t.site = some x))) [c'] with
                  | error e => rw [hr'] at h1'; exact nomatch h1'
                  | ok q' =>
                    rw [hr] at h1
                    rw [hr'] at h1'
                    simp only [Except.ok.injEq] at h1 h1'
                    subst h1 h1'
                    have := calibrateRun_le (fun r hr => hm r (List.mem_filter.1 hr).1)
                      (List.Forall₂.cons hc List.Forall₂.nil) hr hr'
                    revert this
                    generalize q.1 = A
                    generalize q'.1 = B
                    intro this
                    cases this with
                    | nil => exact List.Forall₂.nil
                    | cons hd _ => exact hd

/-- **C229** (end to end): tables constructed from any historic forecasts with probabilities at most one and any truths, then manipulated with any minimum
count, never reverse forecasts: if at every threshold and point one forecast gives at least the probability of another, so does the calibrated one. -/
theorem C229_monotone (up down : ℚ → ℚ) (n : ℕ) (hfl : FloatsOk up n) (lower upper aggregate : Bool) (npts : ℕ) (fth tth : List ℚ)
    (fcs : List (FcSlice RelFc)) (truths : List (TruthSlice RelTruth)) (c : RelCube)
    (h : constructRun up down n lower upper aggregate npts fth tth fcs truths = .ok c)
    (hp : ∀ f ∈ fcs, ∀ row ∈ f.data.field, ∀ x ∈ row, ∀ v, x = some v → v ≤ 1)
    (hun : ∀ l ∈ c.tables, ∀ s ∈ l, s.masked = false)
    (minimum : ℚ) (pbp : Bool) (coords : List (ℚ × ℚ)) (tabs : List RelTab) (hm : manipulateRun minimum pbp coords c = .ok tabs)
    (pbp' : Bool) (above : Option Bool) (ts : List ℚ) (coords' : List (ℚ × ℚ)) (cols cols' : List (List ℚ))
    (hle : List.Forall₂ (List.Forall₂ (· ≤ ·)) cols cols') (r r' : List (List ℚ) × List RelWarning)
    (hr : applyRelRun pbp' above ts tabs coords' cols = .ok r) (hr' : applyRelRun pbp' above ts tabs coords' cols' = .ok r') :
    List.Forall₂ (List.Forall₂ (· ≤ ·)) r.1 r'.1 := by
  obtain ⟨hinit, hb, ht⟩ := manipulateRun_tables hfl h hp hun hm
  refine applyRelRun_le ?_ hle hr hr'
  intro t htm v w hvw
  obtain ⟨samples, e, hs⟩ := ht t htm
  rw [e]
  exact manipulated_calibration hb hs hinit hvw

theorem calibrateRun_range {above : Option Bool} {ts : List ℚ} {tables : List RelTab} {cols : List (List ℚ)} {r : List (List ℚ) × List RelWarning}
    (h : calibrateRun above ts tables cols = .ok r) (hc : ∀ c ∈ cols, ∀ v ∈ c, 0 ≤ v ∧ v ≤ 1) : ∀ c ∈ r.1, ∀ v ∈ c, 0 ≤ v ∧ v ≤ 1 := by
  obtain ⟨a, tabs, e1, e2, -, rfl⟩ := (calibrateRun_iff ..).1 h
  intro c hcm v hv
  obtain ⟨c0, hc0, rfl⟩ := List.mem_map.1 hcm
  have hv' : v ∈ List.zipWith calibrateValue tabs c0 := by
    unfold orderColumn at hv
    cases a with
    | true => simp only [if_true, List.mem_reverse] at hv; exact (npSort_perm _).mem_iff.1 hv
    | false => exact (npSort_perm _).mem_iff.1 (by simpa using hv)
  obtain ⟨j, hj, rfl⟩ := List.mem_iff_getElem.1 hv'
  rw [List.getElem_zipWith]
  simp only [List.length_zipWith] at hj
  by_cases h2 : 2 ≤ (tabs[j]'(by omega)).length
  · exact C33_range _ h2 _
  · rw [C33_unchanged _ (by omega)]
    exact hc _ hc0 _ (List.getElem_mem _)

/-- **C229** (range): probabilities stay in [0, 1], whatever the tables. -/
theorem C229_range (pbp : Bool) (above : Option Bool) (ts : List ℚ) (tables : List RelTab) (coords : List (ℚ × ℚ)) (cols : List (List ℚ))
    (r : List (List ℚ) × List RelWarning) (h : applyRelRun pbp above ts tables coords cols = .ok r)
    (hc : ∀ c ∈ cols, ∀ v ∈ c, 0 ≤ v ∧ v ≤ 1) : ∀ c ∈ r.1, ∀ v ∈ c, 0 ≤ v ∧ v ≤ 1 := by
  unfold applyRelRun at h
  cases pbp with
  | false => exact calibrateRun_range (by simpa using h) hc
  | true =>
    simp only [if_true, bind, Except.bind] at h
    cases hp : (coords.zip cols).mapM (calibratePoint above ts tables) with
    | error e => rw [hp] at h; exact nomatch h
    | ok pts =>
      rw [hp] at h
      simp only [Except.ok.injEq] at h
      subst h
      intro c hcm
      obtain ⟨q, hq, rfl⟩ := List.mem_map.1 hcm
      obtain ⟨p, hpm, hpq⟩ := forall₂_source (mapM_ok_forall _ _ _ hp) q hq
      unfold calibratePoint at hpq
      simp only [bind, Except.bind] at hpq
      cases hr : calibrateRun above ts (tables.filter (fun t => decide (t.site = some p.1))) [p.2] with
      | error e => rw [hr] at hpq; exact nomatch hpq
      | ok q' =>
        rw [hr] at hpq
        simp only [Except.ok.injEq] at hpq
        subst hpq
        have := calibrateRun_range hr (fun c hcm => by
          rw [List.mem_singleton] at hcm
          subst hcm
          exact hc _ (List.of_mem_zip hpm).2)
        simp only []
        cases hq1 : q'.1 with
        | nil => simp
        | cons x l => exact this x (by rw [hq1]; simp)

/-! ### C230 -/

theorem matchTable_ok (tables : List RelTab) (t : ℚ) :
    (∃ b, matchTable tables t = .ok b) ↔ (tables.filter (fun r => decide (r.threshold = t))).length = 1 := by
  rw [List.length_eq_one_iff]
  constructor
  · rintro ⟨b, h⟩
    obtain ⟨r, hr, -⟩ := (matchTable_iff ..).1 h
    exact ⟨r, hr⟩
  · rintro ⟨r, hr⟩
    exact ⟨r.bins, (matchTable_iff ..).2 ⟨r, hr, rfl⟩⟩

theorem calibrateRun_ok (above : Option Bool) (ts : List ℚ) (tables : List RelTab) (cols : List (List ℚ)) :
    (∃ r, calibrateRun above ts tables cols = .ok r) ↔
      above ≠ none ∧ 2 ≤ ts.length ∧ ∀ t ∈ ts, (tables.filter (fun r => decide (r.threshold = t))).length = 1 := by
  constructor
  · rintro ⟨r, h⟩
    obtain ⟨a, tabs, e1, e2, e3, -⟩ := (calibrateRun_iff ..).1 h
    refine ⟨by rw [e1]; simp, e3, ?_⟩
    intro t ht
    exact (matchTable_ok ..).1 (mapM_each e2 t ht)
  · rintro ⟨h1, h2, h3⟩
    obtain ⟨a, ha⟩ := Option.ne_none_iff_exists'.1 h1
    obtain ⟨tabs, ht⟩ := mapM_total (matchTable tables) ts (fun t ht => (matchTable_ok ..).2 (h3 t ht))
    exact ⟨_, (calibrateRun_iff ..).2 ⟨a, tabs, ha, ht, h2, rfl⟩⟩

/-- **C230** (accepted): the forecast is calibrated exactly if the direction of its thresholds is known, it has at least two thresholds, and there is exactly
one table for each threshold (at each point, if point by point). -/
theorem C230_accepted (pbp : Bool) (above : Option Bool) (ts : List ℚ) (tables : List RelTab) (coords : List (ℚ × ℚ)) (cols : List (List ℚ))
    (hc : coords.length = cols.length) (hne : cols ≠ []) :
    (∃ r, applyRelRun pbp above ts tables coords cols = .ok r) ↔ above ≠ none ∧ 2 ≤ ts.length ∧
      if pbp then ∀ x ∈ coords, ∀ t ∈ ts, (tables.filter (fun r => decide (r.site = some x) && decide (r.threshold = t))).length = 1
      else ∀ t ∈ ts, (tables.filter (fun r => decide (r.threshold = t))).length = 1 := by
  unfold applyRelRun
  cases pbp with
  | false => simpa using calibrateRun_ok above ts tables cols
  | true =>
    simp only [if_true]
    have hpt : ∀ p : (ℚ × ℚ) × List ℚ, (∃ r, calibratePoint above ts tables p = .ok r) ↔
        above ≠ none ∧ 2 ≤ ts.length ∧ ∀ t ∈ ts, (tables.filter (fun r => decide (r.site = some p.1) && decide (r.threshold = t))).length = 1 := by
      intro p
      have := calibrateRun_ok above ts (tables.filter (fun t => decide (t.site = some p.1))) [p.2]
      simp only [List.filter_filter] at this
      have hcomm : ∀ t, tables.filter (fun r => decide (r.threshold = t) && decide (r.site = some p.1)) =
          tables.filter (fun r => decide (r.site = some p.1) && decide (r.threshold = t)) := by
        intro t; apply List.filter_congr; intro r _; exact Bool.and_comm _ _
      simp only [hcomm] at this
      rw [← this]
      unfold calibratePoint
      simp only [bind, Except.bind]
      cases hr : calibrateRun above ts (tables.filter (fun t => decide (t.site = some p.1))) [p.2] with
      | error e => simp
      | ok q => simp
    constructor
    · rintro ⟨r, h⟩
      simp only [bind, Except.bind] at h
      cases hp : (coords.zip cols).mapM (calibratePoint above ts tables) with
      | error e => rw [hp] at h; exact nomatch h
      | ok pts =>
        have hall := fun p hpm => (hpt p).1 (mapM_each hp p hpm)
        have hx : ∀ i (hi : i < coords.length), (coords[i], cols[i]'(by omega)) ∈ coords.zip cols := by
          intro i hi
          have hlz : i < (coords.zip cols).length := by simp; omega
          have := List.getElem_mem (l := coords.zip cols) hlz
          rwa [List.getElem_zip] at this
        have h0 : 0 < coords.length := by rw [hc]; exact List.length_pos_iff.2 hne
        refine ⟨(hall _ (hx 0 h0)).1, (hall _ (hx 0 h0)).2.1, ?_⟩
        intro x hxm t ht
        obtain ⟨i, hi, rfl⟩ := List.mem_iff_getElem.1 hxm
        exact (hall _ (hx i hi)).2.2 t ht
    · rintro ⟨h1, h2, h3⟩
      obtain ⟨pts, hp⟩ := mapM_total (calibratePoint above ts tables) (coords.zip cols)
        (fun p hpm => (hpt p).2 ⟨h1, h2, h3 p.1 (List.of_mem_zip hpm).1⟩)
      refine ⟨(pts.map Prod.fst, (pts.map Prod.snd).flatten), ?_⟩
      simp only [bind, Except.bind]
      rw [hp]

/-- **C230** (result): every calibrated column has the probabilities calibrated with the tables of the thresholds (and the point), in the order of the
thresholds; nothing else of the forecast or the tables enters. -/
theorem C230_result (pbp a : Bool) (ts : List ℚ) (tables : List RelTab) (coords : List (ℚ × ℚ)) (cols : List (List ℚ))
    (hc : coords.length = cols.length) (r : List (List ℚ) × List RelWarning)
    (h : applyRelRun pbp (some a) ts tables coords cols = .ok r) : r.1.length = cols.length ∧
    ∀ i (hi : i < cols.length) (ho : i < r.1.length) (tabs : List RelTab),
      List.Forall₂ (fun t tab => tab ∈ tables ∧ tab.threshold = t ∧ (pbp = true → tab.site = some (coords[i]'(by omega)))) ts tabs →
      Spec.thresholdOrdered a r.1[i] ∧ r.1[i].Perm (List.zipWith (fun tab v => calibrateValue tab.bins v) tabs cols[i]) := by
  have hord : ∀ c : List ℚ, Spec.thresholdOrdered a (orderColumn a c) ∧ (orderColumn a c).Perm c := by
    intro c
    obtain ⟨h0, h1, h2⟩ := ensureMonotone_spec a [c] 0 (by simp)
    simp only [ensureMonotone_eq_map, List.map_cons, List.map_nil, List.getElem_cons_zero] at h1 h2
    exact ⟨h1, h2⟩
  have huniq : ∀ (tables : List RelTab) (ts : List ℚ) (bs : List (List RelBin)) (tabs : List RelTab), ts.mapM (matchTable tables) = .ok bs →
      List.Forall₂ (fun t tab => tab ∈ tables ∧ tab.threshold = t) ts tabs → bs = tabs.map RelTab.bins := by
    intro tables ts bs tabs hb ht
    have hf := mapM_ok_forall _ _ _ hb
    clear hb
    induction ht generalizing bs with
    | nil =>
      simp only [List.forall₂_nil_left_iff] at hf
      subst hf; rfl
    | cons hd _ ih =>
      cases hf with
      | cons h1 h2 =>
        rw [List.map_cons, ih _ h2]
        obtain ⟨q, hq, e⟩ := (matchTable_iff ..).1 h1
        congr 1
        rw [← e]
        have : _ ∈ tables.filter (fun r => decide (r.threshold = _)) := List.mem_filter.2 ⟨hd.1, decide_eq_true hd.2⟩
        rw [hq, List.mem_singleton] at this
        rw [this]
  unfold applyRelRun at h
  cases pbp with
  | false =>
    simp only [Bool.false_eq_true, if_false] at h
    obtain ⟨a', bs, e1, e2, -, rfl⟩ := (calibrateRun_iff ..).1 h
    injection e1 with e1
    subst e1
    refine ⟨by simp, ?_⟩
    intro i hi ho tabs ht
    have := huniq tables ts bs tabs e2 (ht.imp (fun _ _ h => ⟨h.1, h.2.1⟩))
    subst this
    simp only [List.getElem_map]
    refine ⟨(hord _).1, (hord _).2.trans ?_⟩
    rw [List.zipWith_map_left]
  | true =>
    simp only [if_true, bind, Except.bind] at h
    cases hp : (coords.zip cols).mapM (calibratePoint (some a) ts tables) with
    | error e => rw [hp] at h; exact nomatch h
    | ok pts =>
      rw [hp] at h
      simp only [Except.ok.injEq] at h
      subst h
      have hf := mapM_ok_forall _ _ _ hp
      have hl := hf.length_eq
      simp only [List.length_zip] at hl
      refine ⟨by simp; omega, ?_⟩
      intro i hi ho tabs ht
      have hi' := (List.forall₂_iff_get.1 hf).2 i (by simp; omega) (by omega)
      simp only [List.get_eq_getElem, List.getElem_zip] at hi'
      unfold calibratePoint at hi'
      simp only [bind, Except.bind] at hi'
      cases hr : calibrateRun (some a) ts (tables.filter (fun t => decide (t.site = some (coords[i]'(by omega))))) [cols[i]] with
      | error e => rw [hr] at hi'; exact nomatch hi'
      | ok q =>
        rw [hr] at hi'
        simp only [Except.ok.injEq] at hi'
        obtain ⟨a', bs, e1, e2, -, rfl⟩ := (calibrateRun_iff ..).1 hr
        injection e1 with e1
        subst e1
        have := huniq _ ts bs tabs e2 (ht.imp (fun _ _ h => ⟨List.mem_filter.2 ⟨h.1, decide_eq_true (h.2.2 rfl)⟩, h.2.1⟩))
        subst this
        simp only [List.getElem_map, ← hi', List.map_cons, List.headD_cons]
        refine ⟨(hord _).1, (hord _).2.trans ?_⟩
        rw [List.zipWith_map_left]

/-- **C230** (warnings): with one table for all points, thresholds are reported as uncalibrated exactly if their table has fewer than two bins, and the
reordering is reported exactly if some calibrated column was out of order. -/
theorem C230_warnings (a : Bool) (ts : List ℚ) (tables : List RelTab) (coords : List (ℚ × ℚ)) (cols : List (List ℚ)) (r : List (List ℚ) × List RelWarning)
    (h : applyRelRun false (some a) ts tables coords cols = .ok r) (tabs : List RelTab)
    (ht : List.Forall₂ (fun t tab => tab ∈ tables ∧ tab.threshold = t) ts tabs) :
    (RelWarning.reordered ∈ r.2 ↔ ∃ c ∈ cols, ¬ Spec.thresholdOrdered a (List.zipWith (fun tab v => calibrateValue tab.bins v) tabs c)) ∧
    (∀ l, RelWarning.uncalibrated l ∈ r.2 → l = (tabs.filter (fun tab => decide (tab.bins.length < 2))).map RelTab.threshold ∧ l ≠ []) ∧
    ((∃ tab ∈ tabs, tab.bins.length < 2) → ∃ l, RelWarning.uncalibrated l ∈ r.2) := by
  unfold applyRelRun at h
  simp only [Bool.false_eq_true, if_false] at h
  obtain ⟨a', bs, e1, e2, -, rfl⟩ := (calibrateRun_iff ..).1 h
  injection e1 with e1
  subst e1
  have hbs : bs = tabs.map RelTab.bins ∧ ts = tabs.map RelTab.threshold := by
    have hf := mapM_ok_forall _ _ _ e2
    clear e2 h
    induction ht generalizing bs with
    | nil =>
      simp only [List.forall₂_nil_left_iff] at hf
      subst hf; exact ⟨rfl, rfl⟩
    | cons hd _ ih =>
      cases hf with
      | cons h1 h2 =>
        have := ih _ h2
        rw [List.map_cons, List.map_cons, ← this.1, ← this.2]
        obtain ⟨q, hq, e⟩ := (matchTable_iff ..).1 h1
        have hm : _ ∈ tables.filter (fun r => decide (r.threshold = _)) := List.mem_filter.2 ⟨hd.1, decide_eq_true hd.2⟩
        rw [hq, List.mem_singleton] at hm
        exact ⟨by rw [← e, hm], by rw [hd.2]⟩
  obtain ⟨rfl, rfl⟩ := hbs
  have hfil : (((tabs.map RelTab.threshold).zip (tabs.map RelTab.bins)).filter (fun p => (reliabilityProbabilities p.2).isNone)).map Prod.fst =
      (tabs.filter (fun tab => decide (tab.bins.length < 2))).map RelTab.threshold := by
    clear e2 h ht
    induction tabs with
    | nil => rfl
    | cons t tabs ih =>
      simp only [List.map_cons, List.zip_cons_cons, List.filter_cons]
      by_cases h2 : t.bins.length < 2
      · have : (reliabilityProbabilities t.bins).isNone = true := by unfold reliabilityProbabilities; rw [if_pos h2]; rfl
        rw [this, decide_eq_true h2, if_pos rfl, if_pos rfl, List.map_cons, List.map_cons, ih]
      · have : (reliabilityProbabilities t.bins).isNone = false := by unfold reliabilityProbabilities; rw [if_neg h2]; rfl
        rw [this, decide_eq_false h2, if_neg (by simp), if_neg (by simp), ih]
  unfold calibrationWarnings
  simp only []
  rw [hfil]
  have hcal : alreadyOrdered a (cols.map (fun c => List.zipWith calibrateValue (tabs.map RelTab.bins) c)) = true ↔
      ∀ c ∈ cols, Spec.thresholdOrdered a (List.zipWith (fun tab v => calibrateValue tab.bins v) tabs c) := by
    rw [alreadyOrdered_iff]
    simp only [List.mem_map, forall_exists_index, and_imp, forall_apply_eq_imp_iff₂, List.zipWith_map_left]
  refine ⟨?_, ?_, ?_⟩
  · have hnot : ∀ l : List ℚ, RelWarning.reordered ∉ uncalibratedWarning l := by
      intro l
      cases l <;> simp [uncalibratedWarning]
    rw [List.mem_append, or_iff_left (hnot _)]
    by_cases ha : alreadyOrdered a (cols.map (fun c => List.zipWith calibrateValue (tabs.map RelTab.bins) c)) = true
    · rw [if_pos ha]
      simp only [List.not_mem_nil, false_iff]
      rintro ⟨c, hc, hn⟩
      exact hn (hcal.1 ha c hc)
    · rw [if_neg ha]
      simp only [List.mem_singleton, true_iff]
      by_contra hno
      push Not at hno
      exact ha (hcal.2 hno)
  · intro l hl
    rw [List.mem_append] at hl
    rcases hl with hl | hl
    · split_ifs at hl <;> simp at hl
    · generalize (tabs.filter (fun tab => decide (tab.bins.length < 2))).map RelTab.threshold = m at hl ⊢
      cases m with
      | nil => simp [uncalibratedWarning] at hl
      | cons x m =>
        simp only [uncalibratedWarning, List.mem_singleton, RelWarning.uncalibrated.injEq] at hl
        rw [hl]
        simp
  · rintro ⟨tab, htm, hlt⟩
    have hne : (tabs.filter (fun tab => decide (tab.bins.length < 2))).map RelTab.threshold ≠ [] := by
      intro h0
      rw [List.map_eq_nil_iff, List.filter_eq_nil_iff] at h0
      exact h0 tab htm (decide_eq_true hlt)
    generalize (tabs.filter (fun tab => decide (tab.bins.length < 2))).map RelTab.threshold = m at hne ⊢
    cases m with
    | nil => exact absurd rfl hne
    | cons x m => exact ⟨x :: m, List.mem_append_right _ (by simp [uncalibratedWarning])⟩

/-- **C230** (same tables): with the same tables at every point, calibrating point by point gives what calibrating all points together gives. -/
theorem C230_same_tables (a : Bool) (ts : List ℚ) (tables tables' : List RelTab) (coords : List (ℚ × ℚ)) (cols : List (List ℚ))
    (hc : coords.length = cols.length) (r r' : List (List ℚ) × List RelWarning)
    (h : applyRelRun false (some a) ts tables coords cols = .ok r) (h' : applyRelRun true (some a) ts tables' coords cols = .ok r')
    (hs : ∀ x ∈ coords, ∀ t ∈ tables, ∃ t' ∈ tables', t'.site = some x ∧ t'.threshold = t.threshold ∧ t'.bins = t.bins) : r.1 = r'.1 := by
  have hc' : coords.length = cols.length := hc
  obtain ⟨h1, h2⟩ := C230_result false a ts tables coords cols hc r h
  obtain ⟨h1', h2'⟩ := C230_result true a ts tables' coords cols hc r' h'
  have hsel : ∃ tabs : List RelTab, List.Forall₂ (fun t tab => tab ∈ tables ∧ tab.threshold = t) ts tabs := by
    unfold applyRelRun at h
    simp only [Bool.false_eq_true, if_false] at h
    obtain ⟨a', bs, -, e2, -⟩ := (calibrateRun_iff ..).1 h
    have hf := mapM_ok_forall _ _ _ e2
    clear h h' h2 h2' e2
    induction hf with
    | nil => exact ⟨[], List.Forall₂.nil⟩
    | @cons t b _ _ hd _ ih =>
      obtain ⟨tabs, ht⟩ := ih
      obtain ⟨q, hq, -⟩ := (matchTable_iff ..).1 hd
      have : q ∈ tables.filter (fun r => decide (r.threshold = t)) := by rw [hq]; simp
      obtain ⟨hm, he⟩ := List.mem_filter.1 this
      exact ⟨q :: tabs, List.Forall₂.cons ⟨hm, of_decide_eq_true he⟩ ht⟩
  obtain ⟨tabs, ht⟩ := hsel
  apply List.ext_getElem (by omega)
  intro i hi hi'
  have hx : coords[i]'(by omega) ∈ coords := List.getElem_mem _
  obtain ⟨tabs', ht', hbins⟩ : ∃ tabs' : List RelTab,
      List.Forall₂ (fun t tab => tab ∈ tables' ∧ tab.threshold = t ∧ (true = true → tab.site = some (coords[i]'(by omega)))) ts tabs' ∧
        tabs'.map RelTab.bins = tabs.map RelTab.bins := by
    clear h h' h2 h2'
    induction ht with
    | nil => exact ⟨[], List.Forall₂.nil, rfl⟩
    | cons hd _ ih =>
      obtain ⟨tabs', ht', hb⟩ := ih
      obtain ⟨q, hq, e1, e2, e3⟩ := hs _ hx _ hd.1
      exact ⟨q :: tabs', List.Forall₂.cons ⟨hq, by rw [e2, hd.2], fun _ => e1⟩ ht', by rw [List.map_cons, List.map_cons, e3, hb]⟩
  obtain ⟨o1, p1⟩ := h2 i (by omega) hi tabs (ht.imp (fun _ _ h => ⟨h.1, h.2, fun h => (nomatch h)⟩))
  obtain ⟨o2, p2⟩ := h2' i (by omega) hi' tabs' ht'
  have hz : ∀ (l : List RelTab) (c : List ℚ), List.zipWith (fun tab v => calibrateValue tab.bins v) l c = List.zipWith calibrateValue (l.map RelTab.bins) c := by
    intro l c; rw [List.zipWith_map_left]
  rw [hz] at p1 p2
  rw [hbins] at p2
  have hp := p1.trans p2.symm
  unfold Spec.thresholdOrdered at o1 o2
  cases a with
  | true => exact List.Perm.eq_of_pairwise (fun x y _ _ h1 h2 => le_antisymm h2 h1) (by simpa using o1) (by simpa using o2) hp
  | false => exact List.Perm.eq_of_pairwise (fun x y _ _ => le_antisymm) (by simpa using o1) (by simpa using o2) hp

theorem sublist_pair {α : Type} (l : List α) (i j : ℕ) (hij : i < j) (hj : j < l.length) : [l[i], l[j]].Sublist l := by
  have h1 : [l[i], l[j]] = [⟨i, by omega⟩, ⟨j, hj⟩].map (fun q : Fin l.length => l[q]) := rfl
  rw [h1]
  refine List.map_getElem_sublist ?_
  simpa using hij

/-- **C230** (finding): if two points have the same coordinates, the tables made point by point cannot be applied, although every point has its own. -/
theorem C230_same_location_refuted (minimum : ℚ) (coords : List (ℚ × ℚ)) (c : RelCube) (tabs : List RelTab)
    (hm : manipulateRun minimum true coords c = .ok tabs) (hdup : ¬ coords.Nodup) (hlen : ∀ l ∈ c.tables, l.length = coords.length)
    (above : Option Bool) (cols : List (List ℚ)) (hc : coords.length = cols.length) (t : ℚ) (ts : List ℚ) (ht : t ∈ ts)
    (hts : t ∈ c.thresholds) (htl : c.thresholds.length = c.tables.length) :
    ¬ ∃ r, applyRelRun true above ts tabs coords cols = .ok r := by
  intro hex
  have hne : cols ≠ [] := by
    rintro rfl
    have : coords = [] := List.length_eq_zero_iff.1 hc
    subst this
    exact hdup List.nodup_nil
  obtain ⟨-, -, hall⟩ := (C230_accepted true above ts tabs coords cols hc hne).1 hex
  simp only [if_true] at hall
  rw [List.nodup_iff_injective_getElem] at hdup
  simp only [Function.Injective, not_forall] at hdup
  obtain ⟨i, j, heq, hij⟩ := hdup
  have h1 := hall coords[i] (List.getElem_mem _) t ht
  unfold manipulateRun at hm
  simp only [bind, Except.bind] at hm
  cases hi : manipulateInit minimum with
  | error e => rw [hi] at hm; exact nomatch hm
  | ok m =>
    rw [hi] at hm
    simp only [] at hm
    cases hmm : (c.thresholds.zip c.tables).mapM (manipulateThreshold m true coords c.bins) with
    | error e => rw [hmm] at hm; exact nomatch hm
    | ok tt =>
      rw [hmm] at hm
      simp only [Except.ok.injEq] at hm
      obtain ⟨k, hk, hkt⟩ := List.mem_iff_getElem.1 hts
      have hf := mapM_ok_forall _ _ _ hmm
      have hl := hf.length_eq
      have hkz : k < (c.thresholds.zip c.tables).length := by simp; omega
      have hkk := (List.forall₂_iff_get.1 hf).2 k hkz (by omega)
      simp only [List.get_eq_getElem, List.getElem_zip, manipulateThreshold, if_true, Except.ok.injEq] at hkk
      have hsub : (tt[k]'(by omega)).Sublist tabs := by
        rw [← hm]
        exact List.sublist_flatten_of_mem (List.getElem_mem _)
      have hlk := hlen c.tables[k] (List.getElem_mem _)
      have hidx : ∀ q : Fin coords.length, q.val < (tt[k]'(by omega)).length := by
        intro q
        rw [← hkk, List.length_zipWith, hlk]
        have := q.2
        omega
      have hpair : ∀ a b : Fin coords.length, a.val < b.val → coords[a] = coords[b] → coords[a] = coords[i] → False := by
        intro a b hab he hei
        have hs2 : [(tt[k]'(by omega))[a.val]'(hidx a), (tt[k]'(by omega))[b.val]'(hidx b)].Sublist tabs := by
          refine List.Sublist.trans ?_ hsub
          exact sublist_pair _ _ _ hab (hidx b)
        have hflt := hs2.filter (fun r => decide (r.site = some coords[i]) && decide (r.threshold = t))
        have e1 : ∀ q : Fin coords.length, coords[q] = coords[i] →
            (decide (((tt[k]'(by omega))[q.val]'(hidx q)).site = some coords[i]) && decide (((tt[k]'(by omega))[q.val]'(hidx q)).threshold = t)) = true := by
          intro q hq
          simp only [← hkk, List.getElem_zipWith, hkt, decide_true, Bool.and_true, decide_eq_true_eq, Option.some.injEq]
          exact hq
        rw [List.filter_cons, if_pos (e1 a hei), List.filter_cons, if_pos (e1 b (he ▸ hei))] at hflt
        have := hflt.length_le
        rw [h1] at this
        simp at this
      rcases lt_trichotomy i.val j.val with hlt | hlt | hlt
      · exact hpair i j hlt heq rfl
      · exact hij (Fin.ext hlt)
      · exact hpair j i hlt heq.symm heq.symm

/-! Concrete cases. -/

namespace RelRunExample

/-- Two forecasts at two thresholds and three points. -/
def fcs : List (FcSlice RelFc) :=
  [⟨⟨100, none⟩, false, ⟨0, 3600, [[some (1/4), some (3/4), none], [some 0, some (1/2), some 1]]⟩⟩,
   ⟨⟨200, none⟩, false, ⟨86400, 3600, [[some 1, some (3/4), some (1/4)], [some (1/4), some (1/4), some (3/4)]]⟩⟩]

def truths : List (TruthSlice RelTruth) :=
  [⟨⟨100, none⟩, [[(0, false), (1, false), (1, false)], [(0, false), (0, false), (1, false)]]⟩,
   ⟨⟨200, none⟩, [[(1, false), (1, false), (0, false)], [(0, false), (1, false), (0, false)]]⟩]

def up (x : ℚ) : ℚ := x + 1/10000000
def down (x : ℚ) : ℚ := x - 1/10000000

/-- The run of the example. -/
def tables : Except Err RelCube := constructRun up down 2 false false true 3 [1, 2] [1, 2] fcs truths

example : FloatsOk up 2 := ⟨by unfold up svTol; norm_num, by norm_num⟩

example : tables.toOption.map (fun c => c.tables) =
    some [[⟨[⟨0, 1/2, 2⟩, ⟨3, 5/2, 3⟩], false⟩], [⟨[⟨1, 1/2, 3⟩, ⟨1, 9/4, 3⟩], false⟩]] := by decide +kernel

example : (constructRun up down 2 false false true 3 [1, 2] [1, 3] fcs truths).toOption.isNone = true := by decide +kernel

/-- The manipulated tables and a calibrated forecast. -/
example : (tables.bind (fun c => manipulateRun 2 false [] c)).toOption.map (fun l => l.map (fun t => t.bins.map (fun b => (b.obs, b.fc)))) =
    some [[(0, 2), (3, 3)], [(1, 3), (1, 3)]] := by decide +kernel

example : (((tables.bind (fun c => manipulateRun 2 false [] c)).bind
    (fun l => applyRelRun false (some true) [1, 2] l [] [[1/4, 1/8], [3/4, 1/2]])).toOption.map Prod.fst).isSome = true := by decide +kernel

example : ((constructRun up down 2 false false false 3 [1, 2] [1, 2] fcs truths).toOption.map (fun c => c.tables.map List.length)) = some [3, 3] := by
  decide +kernel

/-- Two points in the same place. -/
example : ((constructRun up down 2 false false false 3 [1, 2] [1, 2] fcs truths).bind (fun c => manipulateRun 2 true [(0, 0), (1, 0), (0, 0)] c)).toOption.map
    (fun l => (applyRelRun true (some true) [1, 2] l [(0, 0), (1, 0), (0, 0)] [[1/2, 1/4], [1/2, 1/4], [1/2, 1/4]]).toOption.isSome) = some false := by
  decide +kernel

/-- Three points in different places. -/
example : ((constructRun up down 2 false false false 3 [1, 2] [1, 2] fcs truths).bind (fun c => manipulateRun 1 true [(0, 0), (1, 0), (2, 0)] c)).toOption.map
    (fun l => (applyRelRun true (some true) [1, 2] l [(0, 0), (1, 0), (2, 0)] [[1/2, 1/4], [1/2, 1/4], [1/2, 1/4]]).toOption.isSome) = some true := by
  decide +kernel

example : (applyRelRun false (some true) [1, 2] [⟨1, none, [⟨0, 0, 1, 0, 1⟩]⟩, ⟨2, none, [⟨0, 1/4, 1, 0, 1/2⟩, ⟨1, 3/4, 1, 1/2, 1⟩]⟩] [] [[1/2, 3/4]]).toOption =
    some ([[1, 1/2]], [.reordered, .uncalibrated [1]]) := by decide +kernel

end RelRunExample

end Improver
