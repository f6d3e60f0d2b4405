import Verif.Props.NbhoodMore
import Verif.Lemmas.NpInterp
import Verif.Lemmas.Sorting
import Verif.Props.ReliabilityApply

/-! C87-C90: percentiles (neighbourhoods and collapsed coordinates), several masks, radii and options. -/

namespace Improver

/-! ### Percentiles of a list -/

/-- The positions `0, 1, …, n-1`. -/
def positions (n : ℕ) : List ℚ := (List.range n).map (fun (i : ℕ) => (i : ℚ))

theorem positions_getD {n i : ℕ} (hi : i < n) : (positions n).getD i 0 = i := by
  have h : i < (positions n).length := by simpa [positions] using hi
  rw [List.getD_eq_getElem _ _ h]
  simp [positions]

theorem positions_length (n : ℕ) : (positions n).length = n := by simp [positions]

theorem positions_sorted (n : ℕ) : (positions n).Pairwise (· ≤ ·) := by
  unfold positions
  rw [List.pairwise_map]
  refine List.Pairwise.imp ?_ (List.pairwise_lt_range (n := n))
  intro i j hij
  exact_mod_cast hij.le

/-- The percentile reads the ordered values, joined by straight lines, at a position proportional to the percentage. -/
theorem npPercentile_interp (l : List ℚ) (hl : l ≠ []) (p : ℚ) (h0 : 0 ≤ p) (h1 : p ≤ 100) :
    npPercentile l p = npInterp (positions l.length) (npSort l) (p / 100 * ((l.length : ℚ) - 1)) := by
  have hn : 0 < l.length := List.length_pos_of_ne_nil hl
  have hn1 : (1 : ℚ) ≤ l.length := by exact_mod_cast hn
  set pos := p / 100 * ((l.length : ℚ) - 1) with hpos
  have hp0 : 0 ≤ pos := mul_nonneg (by positivity) (by linarith)
  have hp1 : pos ≤ (l.length : ℚ) - 1 := by
    have : p / 100 ≤ 1 := by rw [div_le_one (by norm_num)]; exact h1
    nlinarith
  obtain ⟨k, hk⟩ : ∃ k : ℕ, ⌊pos⌋ = (k : ℤ) := ⟨⌊pos⌋.toNat, by have := Int.floor_nonneg.2 hp0; omega⟩
  have hk1 : (k : ℚ) ≤ pos := by have := Int.floor_le pos; rw [hk] at this; exact_mod_cast this
  have hk2 : pos < (k : ℚ) + 1 := by have := Int.lt_floor_add_one pos; rw [hk] at this; exact_mod_cast this
  have hkn : k < l.length := by
    have : (k : ℚ) < l.length := by linarith
    exact_mod_cast this
  have hc : cntLe (positions l.length) pos = k + 1 := by
    refine cntLe_unique (by rw [positions_length]; omega) ?_ ?_
    · intro i hi
      rw [positions_getD (by omega)]
      have : (i : ℚ) ≤ k := by exact_mod_cast Nat.lt_succ_iff.1 hi
      linarith
    · intro hlt
      rw [positions_length] at hlt
      rw [positions_getD hlt]
      push_cast; exact hk2
  rw [npInterp_eq (positions_sorted _) (by rw [positions_length]; exact hn), hc, if_neg (by omega), positions_length]
  unfold npPercentile
  simp only []
  rw [← hpos, hk]
  simp only [Int.toNat_natCast, Nat.add_sub_cancel]
  by_cases hlast : k + 1 = l.length
  · rw [if_pos hlast]
    have e : min (k + 1) (l.length - 1) = k := by omega
    have e2 : l.length - 1 = k := by omega
    rw [e, e2]; ring
  · rw [if_neg hlast]
    have e : min (k + 1) (l.length - 1) = k + 1 := by omega
    rw [e, positions_getD hkn, positions_getD (by omega)]
    push_cast
    ring

theorem npPercentile_mem_range (l : List ℚ) (hl : l ≠ []) (p : ℚ) (h0 : 0 ≤ p) (h1 : p ≤ 100) {lo hi : ℚ}
    (hb : ∀ v ∈ l, lo ≤ v ∧ v ≤ hi) : lo ≤ npPercentile l p ∧ npPercentile l p ≤ hi := by
  have hn : 0 < l.length := List.length_pos_of_ne_nil hl
  rw [npPercentile_interp l hl p h0 h1]
  have hlen : (npSort l).length = (positions l.length).length := by rw [npSort_length, positions_length]
  obtain ⟨a, b⟩ := npInterp_range (positions_sorted l.length) (by rw [positions_length]; exact hn) hlen (npSort_sorted l)
    (p / 100 * ((l.length : ℚ) - 1))
  have hm : ∀ i, i < (npSort l).length → lo ≤ (npSort l).getD i 0 ∧ (npSort l).getD i 0 ≤ hi := by
    intro i hi'
    rw [List.getD_eq_getElem _ _ hi']
    exact hb _ ((npSort_perm l).mem_iff.1 (List.getElem_mem hi'))
  rw [npSort_length] at hm b
  exact ⟨le_trans (hm 0 hn).1 a, le_trans b (hm _ (by omega)).2⟩

theorem npPercentile_mono (l : List ℚ) (hl : l ≠ []) {p q : ℚ} (h0 : 0 ≤ p) (hpq : p ≤ q) (h1 : q ≤ 100) :
    npPercentile l p ≤ npPercentile l q := by
  have hn : 0 < l.length := List.length_pos_of_ne_nil hl
  have hn1 : (1 : ℚ) ≤ l.length := by exact_mod_cast hn
  rw [npPercentile_interp l hl p h0 (le_trans hpq h1), npPercentile_interp l hl q (le_trans h0 hpq) h1]
  refine npInterp_mono (positions_sorted _) (by rw [positions_length]; exact hn)
    (by rw [npSort_length, positions_length]) (npSort_sorted l) ?_
  exact mul_le_mul_of_nonneg_right (by linarith) (by linarith)

/-- C87, C88.  Percentiles are the ordered values at equal steps of percentage from 0 to 100, joined by straight lines. -/
theorem C87_order_statistics (l s : List ℚ) (hp : s.Perm l) (hs : s.Pairwise (· ≤ ·)) (k : ℕ) (hk : k + 1 < s.length) (t : ℚ)
    (h0 : 0 ≤ t) (h1 : t ≤ 1) :
    npPercentile l (100 * ((k + t) / ((s.length : ℚ) - 1))) = s.getD k 0 + t * (s.getD (k + 1) 0 - s.getD k 0) := by
  have hlen : l.length = s.length := hp.length_eq.symm
  have hsort : npSort l = s :=
    List.Perm.eq_of_pairwise (le := (· ≤ ·)) (fun a b _ _ hab hba => le_antisymm hab hba) (npSort_sorted l) hs
      ((npSort_perm l).trans hp.symm)
  have hne : l ≠ [] := by intro h; rw [h] at hlen; simp at hlen; omega
  have hs1 : (0 : ℚ) < (s.length : ℚ) - 1 := by
    have : ((k : ℚ) + 1) < s.length := by exact_mod_cast hk
    have hk0 : (0 : ℚ) ≤ k := by positivity
    linarith
  have hks : (k : ℚ) + t ≤ (s.length : ℚ) - 1 := by
    have : (k : ℚ) + 1 + 1 ≤ s.length := by exact_mod_cast hk
    linarith
  have hk0 : (0 : ℚ) ≤ k := by positivity
  have hpos : 100 * ((k + t) / ((s.length : ℚ) - 1)) / 100 * ((l.length : ℚ) - 1) = k + t := by
    rw [hlen]; field_simp
  rw [npPercentile_interp l hne, hpos, hsort, hlen]
  · have hstrict : ∀ i j, i < j → j < (positions s.length).length →
        (positions s.length).getD i 0 < (positions s.length).getD j 0 := by
      intro i j hij hj
      rw [positions_length] at hj
      rw [positions_getD (by omega), positions_getD hj]
      exact_mod_cast hij
    rw [npInterp_segment hstrict (k := k) (by rw [positions_length]; exact hk)]
    · unfold Spec.relLine
      rw [positions_getD (by omega), positions_getD hk]
      push_cast
      have : (k : ℚ) + 1 - k = 1 := by ring
      rw [this]; ring
    · rw [positions_getD (by omega)]; linarith
    · rw [positions_getD hk]; push_cast; linarith
  · positivity
  · rw [mul_comm, ← le_div_iff₀ (by norm_num : (0 : ℚ) < 100), div_self (by norm_num), div_le_one hs1]
    exact hks

/-- C87, C88.  The percentiles do not depend on the order of the values. -/
theorem C87_perm (l l' : List ℚ) (h : l.Perm l') (p : ℚ) : npPercentile l p = npPercentile l' p := by
  unfold npPercentile
  have : npSort l = npSort l' :=
    List.Perm.eq_of_pairwise (le := (· ≤ ·)) (fun a b _ _ hab hba => le_antisymm hab hba) (npSort_sorted l)
      (npSort_sorted l') ((npSort_perm l).trans (h.trans (npSort_perm l').symm))
  rw [this, h.length_eq]

example : npPercentile [4, 1, 3] 75 = 7 / 2 := by decide +kernel

/-! ### C87: neighbourhood percentiles -/

theorem padMean1_range {n r : ℕ} (hn : 0 < n) (hr : 0 < r) {g : ℕ → ℚ} {lo hi : ℚ}
    (hb : ∀ i, i < n → lo ≤ g i ∧ g i ≤ hi) (a : ℕ) : lo ≤ padMean1 n r g a ∧ padMean1 n r g a ≤ hi := by
  have hl : 0 < min r n := lt_min hr hn
  have hlq : (0 : ℚ) < ((min r n : ℕ) : ℚ) := by exact_mod_cast hl
  have key : ∀ F : ℕ → ℚ, (∀ i, i < min r n → lo ≤ F i ∧ F i ≤ hi) →
      lo ≤ (∑ i ∈ Finset.range (min r n), F i) / ((min r n : ℕ) : ℚ) ∧
      (∑ i ∈ Finset.range (min r n), F i) / ((min r n : ℕ) : ℚ) ≤ hi := by
    intro F hF
    constructor
    · rw [le_div_iff₀ hlq]
      have := Finset.card_nsmul_le_sum (Finset.range (min r n)) F lo (fun i hi' => (hF i (Finset.mem_range.1 hi')).1)
      rw [Finset.card_range, nsmul_eq_mul] at this
      linarith
    · rw [div_le_iff₀ hlq]
      have := Finset.sum_le_card_nsmul (Finset.range (min r n)) F hi (fun i hi' => (hF i (Finset.mem_range.1 hi')).2)
      rw [Finset.card_range, nsmul_eq_mul] at this
      linarith
  unfold padMean1
  simp only []
  split_ifs with h1 h2
  · exact key _ (fun i hi' => hb i (by omega))
  · exact hb _ (by omega)
  · exact key _ (fun i hi' => hb _ (by omega))

theorem padMean2_range {h w r : ℕ} (hh : 0 < h) (hw : 0 < w) (hr : 0 < r) {f : ℕ → ℕ → ℚ} {lo hi : ℚ}
    (hb : ∀ i j, i < h → j < w → lo ≤ f i j ∧ f i j ≤ hi) (a b : ℕ) :
    lo ≤ padMean2 h w r f a b ∧ padMean2 h w r f a b ≤ hi := by
  unfold padMean2
  exact padMean1_range hw hr (fun j hj => padMean1_range hh hr (fun i hi' => hb i j hi' hj) a) b

theorem nbWindow_ne (h w r : ℕ) (hr : 0 < r) (f : ℕ → ℕ → ℚ) (y x : ℕ) : nbWindow h w r f y x ≠ [] := by
  have hk : 0 < circularKernel r false r r := by
    rw [circularKernel_eq r hr]; unfold Spec.circleWeight; simp
  apply List.ne_nil_of_mem (a := padMean2 h w r f (y + r) (x + r))
  unfold nbWindow
  rw [List.mem_flatMap]
  refine ⟨r, by rw [List.mem_range]; omega, ?_⟩
  rw [List.mem_map]
  exact ⟨r, List.mem_filter.2 ⟨by rw [List.mem_range]; omega, by simpa using hk⟩, rfl⟩

/-- C87.  Neighbourhood percentiles: one value per percentile, within the range of the data at every point (also at the edges, where the
grid is padded with means), not decreasing with the percentile. -/
theorem C87_range (h w r : ℕ) (hr : 0 < r) (f : ℕ → ℕ → ℚ) (lo hi : ℚ)
    (hb : ∀ i j, i < h → j < w → lo ≤ f i j ∧ f i j ≤ hi) (ps : List ℚ) (hps : ∀ p ∈ ps, 0 ≤ p ∧ p ≤ 100)
    (y x : ℕ) (hy : y < h) (hx : x < w) :
    ∃ out, nbPercentiles false h w r f ps y x = .ok out ∧ out.length = ps.length ∧ (∀ v ∈ out, lo ≤ v ∧ v ≤ hi) ∧
      (ps.Pairwise (· ≤ ·) → out.Pairwise (· ≤ ·)) := by
  refine ⟨_, rfl, by simp, ?_, ?_⟩
  · intro v hv
    obtain ⟨p, hp, rfl⟩ := List.mem_map.1 hv
    refine npPercentile_mem_range _ (nbWindow_ne h w r hr f y x) p (hps p hp).1 (hps p hp).2 ?_
    intro v hv
    unfold nbWindow at hv
    obtain ⟨a, _, hv⟩ := List.mem_flatMap.1 hv
    obtain ⟨b, _, rfl⟩ := List.mem_map.1 hv
    exact padMean2_range (by omega) (by omega) hr hb _ _
  · intro hasc
    rw [List.pairwise_map]
    refine List.Pairwise.imp_of_mem ?_ hasc
    intro p q hp hq hpq
    exact npPercentile_mono _ (nbWindow_ne h w r hr f y x) (hps p hp).1 hpq (hps q hq).2

/-- Values of the grid within `r` cells of the point, in a straight line. -/
def Spec.discValues (h w r : ℕ) (f : ℕ → ℕ → ℚ) (y x : ℕ) : List ℚ :=
  (List.range h).flatMap (fun (i : ℕ) => ((List.range w).filter
    (fun (j : ℕ) => decide (((i : ℤ) - y) ^ 2 + ((j : ℤ) - x) ^ 2 ≤ (r : ℤ) ^ 2))).map (fun j => f i j))

theorem map_filter_flatMap {α β : Type} (l : List α) (p : α → Bool) (g : α → β) :
    (l.filter p).map g = l.flatMap (fun a => if p a then [g a] else []) := by
  induction l with
  | nil => rfl
  | cons a l ih =>
    rw [List.flatMap_cons, ← ih, List.filter_cons]
    cases p a <;> simp

theorem kernel_disc (r : ℕ) (hr : 0 < r) (a b : ℕ) :
    decide (0 < circularKernel r false a b) = decide (((a : ℤ) - r) ^ 2 + ((b : ℤ) - r) ^ 2 ≤ (r : ℤ) ^ 2) := by
  rw [circularKernel_eq r hr]
  unfold Spec.circleWeight
  simp only [Bool.false_eq_true, if_false]
  by_cases hc : ((a : ℤ) - r) ^ 2 + ((b : ℤ) - r) ^ 2 ≤ (r : ℤ) ^ 2
  · simp [hc]
  · simp [hc]

theorem padMean2_inside {h w r : ℕ} {f : ℕ → ℕ → ℚ} {a b : ℕ} (ha : r ≤ a) (ha' : a < r + h) (hb : r ≤ b) (hb' : b < r + w) :
    padMean2 h w r f a b = f (a - r) (b - r) := by
  unfold padMean2 padMean1
  simp only []
  rw [if_neg (by omega), if_pos hb', if_neg (by omega), if_pos ha']

theorem disc_outside {r : ℕ} {d e : ℤ} (hd : ¬ (-(r : ℤ) ≤ d ∧ d ≤ r)) : ¬ (d ^ 2 + e ^ 2 ≤ (r : ℤ) ^ 2) := by
  intro h
  have h2 : d ^ 2 ≤ (r : ℤ) ^ 2 := by nlinarith [sq_nonneg e]
  have := abs_le_of_sq_le_sq' h2 (by positivity)
  exact hd this

/-- C87.  At points at least `r` cells from the edges the percentiles are those of the grid values within the radius. -/
theorem C87_interior (h w r : ℕ) (hr : 0 < r) (f : ℕ → ℕ → ℚ) (ps : List ℚ) (y x : ℕ)
    (hy : r ≤ y ∧ y + r < h) (hx : r ≤ x ∧ x + r < w) :
    nbPercentiles false h w r f ps y x = .ok (ps.map (npPercentile (Spec.discValues h w r f y x))) := by
  have hw : nbWindow h w r f y x = Spec.discValues h w r f y x := by
    unfold nbWindow Spec.discValues
    -- one row
    have hrow : ∀ a, a < 2 * r + 1 → ((List.range (2 * r + 1)).filter
        (fun b => decide (0 < circularKernel r false a b))).map (fun b => padMean2 h w r f (y + a) (x + b))
        = ((List.range w).filter (fun (j : ℕ) => decide ((((y + a - r : ℕ) : ℤ) - y) ^ 2 + ((j : ℤ) - x) ^ 2 ≤ (r : ℤ) ^ 2))).map
          (fun j => f (y + a - r) j) := by
      intro a ha
      rw [map_filter_flatMap, map_filter_flatMap]
      have e1 : (List.range (2 * r + 1)).flatMap (fun b => if decide (0 < circularKernel r false a b) = true then
            [padMean2 h w r f (y + a) (x + b)] else [])
          = (List.range (2 * r + 1)).flatMap (fun b => if r ≤ x + b ∧ x + b < w + r then
            (fun (j : ℕ) => if decide ((((y + a - r : ℕ) : ℤ) - y) ^ 2 + ((j : ℤ) - x) ^ 2 ≤ (r : ℤ) ^ 2) = true then
              [f (y + a - r) j] else []) (x + b - r) else []) := by
        apply List.flatMap_congr
        intro b hb
        rw [List.mem_range] at hb
        rw [if_pos (by omega : r ≤ x + b ∧ x + b < w + r), kernel_disc r hr]
        beta_reduce
        have c1 : (((y + a - r : ℕ) : ℤ) - y) = (a : ℤ) - r := by omega
        have c2 : (((x + b - r : ℕ) : ℤ) - x) = (b : ℤ) - r := by omega
        rw [c1, c2, padMean2_inside (by omega) (by omega) (by omega) (by omega)]
      rw [e1, window_flatMap w r x (fun (j : ℕ) => if decide ((((y + a - r : ℕ) : ℤ) - y) ^ 2 + ((j : ℤ) - x) ^ 2 ≤ (r : ℤ) ^ 2) = true
        then [f (y + a - r) j] else [])]
      apply List.flatMap_congr
      intro j hj
      by_cases hn : Spec.near r x j
      · rw [if_pos hn]
      · rw [if_neg hn, if_neg]
        rw [near_iff] at hn
        simp only [decide_eq_true_eq]
        rw [add_comm]
        exact disc_outside (by omega)
    have e2 : (List.range (2 * r + 1)).flatMap (fun a => ((List.range (2 * r + 1)).filter
        (fun b => decide (0 < circularKernel r false a b))).map (fun b => padMean2 h w r f (y + a) (x + b)))
        = (List.range (2 * r + 1)).flatMap (fun a => if r ≤ y + a ∧ y + a < h + r then
          (fun i : ℕ => ((List.range w).filter (fun (j : ℕ) => decide (((i : ℤ) - y) ^ 2 + ((j : ℤ) - x) ^ 2 ≤ (r : ℤ) ^ 2))).map
          (fun j => f i j)) (y + a - r) else []) := by
      apply List.flatMap_congr
      intro a ha
      rw [List.mem_range] at ha
      rw [if_pos (by omega : r ≤ y + a ∧ y + a < h + r), hrow a ha]
    rw [e2, window_flatMap h r y (fun i : ℕ => ((List.range w).filter (fun (j : ℕ) => decide
      (((i : ℤ) - y) ^ 2 + ((j : ℤ) - x) ^ 2 ≤ (r : ℤ) ^ 2))).map (fun j => f i j))]
    apply List.flatMap_congr
    intro i hi
    by_cases hn : Spec.near r y i
    · rw [if_pos hn]
    · rw [if_neg hn]
      rw [near_iff] at hn
      symm
      rw [List.map_eq_nil_iff, List.filter_eq_nil_iff]
      intro j _
      simp only [decide_eq_true_eq]
      exact disc_outside (by omega)
  unfold nbPercentiles
  rw [hw]
  rfl

/-- C87.  Masked input is refused. -/
theorem C87_masked (h w r : ℕ) (f : ℕ → ℕ → ℚ) (ps : List ℚ) (y x : ℕ) :
    nbPercentiles true h w r f ps y x = .error .notImplemented := rfl

example : nbPercentiles false 3 3 1 (fun i j => (3 * i + j : ℚ)) [0, 50, 100] 1 1 = .ok [1, 4, 7] := by decide +kernel
example : nbPercentiles false 3 3 1 (fun i j => (3 * i + j : ℚ)) [0, 100] 0 0 = .ok [0, 3] := by decide +kernel

/-! ### C88: percentiles over collapsed coordinates -/

theorem count_sum (coords collapse : List String) (hn : coords.Nodup) :
    (coords.map (fun c => (collapse.filter (fun t => decide (t = c))).length)).sum
      = (collapse.filter (fun t => decide (t ∈ coords))).length := by
  induction coords with
  | nil => simp
  | cons c cs ih =>
    obtain ⟨h1, h2⟩ := List.nodup_cons.1 hn
    rw [List.map_cons, List.sum_cons, ih h2]
    clear ih hn
    induction collapse with
    | nil => rfl
    | cons t ts ih =>
      simp only [List.filter_cons]
      simp only [List.mem_cons, Bool.decide_or] at ih ⊢
      by_cases ht : t = c
      · subst ht
        simp [h1]
        omega
      · by_cases hm : t ∈ cs
        · simp [ht, hm]; omega
        · simp [ht, hm]; exact ih

/-- C88.  Percentiles over collapsed coordinates: given exactly when all coordinates asked for are on the cube (whose names are
distinct), otherwise refused; each value is that percentile of the values along the coordinates. -/
theorem C88_accepted (coords collapse : List String) (hn : coords.Nodup) (values ps : List ℚ) :
    ((∀ c ∈ collapse, c ∈ coords) → percentileConvert coords collapse values ps = .ok (ps.map (npPercentile values))) ∧
    ((∃ c ∈ collapse, c ∉ coords) → percentileConvert coords collapse values ps = .error .coordinateNotFound) := by
  unfold percentileConvert
  simp only []
  rw [count_sum coords collapse hn]
  constructor
  · intro h
    rw [if_pos]
    rw [List.filter_eq_self.2]
    intro c hc; simpa using h c hc
  · rintro ⟨c, hc, hnc⟩
    rw [if_neg]
    intro heq
    have := List.length_filter_eq_length_iff.1 heq c hc
    simp at this
    exact hnc this

/-- C88.  The percentiles lie within the range of the values, do not decrease, and do not depend on the order of the members. -/
theorem C88_values (values values' ps : List ℚ) (hv : values ≠ []) (hperm : values.Perm values') (lo hi : ℚ)
    (hb : ∀ v ∈ values, lo ≤ v ∧ v ≤ hi) (hps : ∀ p ∈ ps, 0 ≤ p ∧ p ≤ 100) (hasc : ps.Pairwise (· ≤ ·)) :
    (∀ v ∈ ps.map (npPercentile values), lo ≤ v ∧ v ≤ hi) ∧ (ps.map (npPercentile values)).Pairwise (· ≤ ·) ∧
    ps.map (npPercentile values) = ps.map (npPercentile values') := by
  refine ⟨?_, ?_, ?_⟩
  · intro v hv'
    obtain ⟨p, hp, rfl⟩ := List.mem_map.1 hv'
    exact npPercentile_mem_range _ hv p (hps p hp).1 (hps p hp).2 hb
  · rw [List.pairwise_map]
    refine List.Pairwise.imp_of_mem ?_ hasc
    intro p q hp hq hpq
    exact npPercentile_mono _ hv (hps p hp).1 hpq (hps q hq).2
  · apply List.map_congr_left
    intro p _
    exact C87_perm _ _ hperm p

example : percentileConvert ["realization", "time"] ["realization"] [3, 1, 2] [0, 25, 100] = .ok [1, 3 / 2, 3] := by decide +kernel
example : percentileConvert ["time"] ["realization"] [3, 1, 2] [50] = .error .coordinateNotFound := by decide +kernel

/-! ### C89: several masks -/

/-- C89.  With slices that agree in their masks, using the previous result again never changes the outcome: every slice gets the result
computed from it. -/
theorem C89_reuse_partial {R : Type} (compute : MSlice → R) (m : List (List Bool)) (slices : List MSlice)
    (hm : ∀ s ∈ slices, s.mask = m) : withMasksLoop compute slices none = slices.map compute := by
  have key : ∀ (slices : List MSlice), (∀ s ∈ slices, s.mask = m) → ∀ p : MSlice, p.mask = m →
      withMasksLoop compute slices (some (p, compute p)) = slices.map compute := by
    intro slices
    induction slices with
    | nil => intro _ p _; rfl
    | cons s rest ih =>
      intro h p hp
      have hs := h s (List.mem_cons_self ..)
      have hr := fun t ht => h t (List.mem_cons_of_mem _ ht)
      simp only [withMasksLoop]
      by_cases he : p.data = s.data
      · rw [if_pos he, ih hr p hp]
        have : p = s := by cases p; cases s; simp_all
        rw [this]; rfl
      · rw [if_neg he, ih hr s hs]; rfl
  cases slices with
  | nil => rfl
  | cons s rest =>
    simp only [withMasksLoop]
    rw [key rest (fun t ht => hm t (List.mem_cons_of_mem _ ht)) s (hm s (List.mem_cons_self ..))]
    rfl

/-- C89, finding.  Slices with equal underlying data and different masks: the second gets the result of the first. -/
theorem C89_mask_refuted : ∃ (s t : MSlice) (compute : MSlice → List (List Bool)), s ≠ t ∧
    withMasksLoop compute [s, t] none ≠ [s, t].map compute :=
  ⟨⟨[[1, 2]], [[false, true]]⟩, ⟨[[1, 2]], [[false, false]]⟩, fun s => s.mask, by decide, by decide⟩

/-- C89.  The masks are combined with the weights of those that have a value: the weighted mean of these, none when they have no
weight. -/
theorem C89_collapse (l : List (ℚ × Option ℚ)) :
    let v := l.filterMap (fun e => e.2.map (fun x => (e.1, x)))
    (collapseMasks l = none ↔ (v.map (·.1)).sum = 0) ∧
    (∀ out, collapseMasks l = some out → out * (v.map (·.1)).sum = (v.map (fun e => e.1 * e.2)).sum) := by
  unfold collapseMasks
  simp only []
  set v := l.filterMap (fun e => e.2.map (fun x => (e.1, x))) with hv
  by_cases h0 : (v.map (·.1)).sum = 0
  · simp [h0]
  · simp only [if_neg h0]
    refine ⟨by simp [h0], ?_⟩
    intro out hout
    injection hout with hout
    rw [← hout]; field_simp

theorem collapse_bounds (l : List (ℚ × ℚ)) (lo hi : ℚ) (hw : ∀ e ∈ l, 0 ≤ e.1) (hb : ∀ e ∈ l, lo ≤ e.2 ∧ e.2 ≤ hi) :
    lo * (l.map (·.1)).sum ≤ (l.map (fun e => e.1 * e.2)).sum ∧ (l.map (fun e => e.1 * e.2)).sum ≤ hi * (l.map (·.1)).sum ∧
    0 ≤ (l.map (·.1)).sum := by
  induction l with
  | nil => simp
  | cons e l ih =>
    obtain ⟨h1, h2, h3⟩ := ih (fun x hx => hw x (List.mem_cons_of_mem _ hx)) (fun x hx => hb x (List.mem_cons_of_mem _ hx))
    have a := hw e (List.mem_cons_self ..)
    obtain ⟨b, c⟩ := hb e (List.mem_cons_self ..)
    simp only [List.map_cons, List.sum_cons]
    refine ⟨by nlinarith, by nlinarith, by linarith⟩

/-- C89.  With weights that are not negative, the combined neighbourhood value is within the range of the data. -/
theorem C89_range (h w r : ℕ) (f : ℕ → ℕ → ℚ) (lo hi : ℚ) (hlh : lo ≤ hi)
    (masks : List ((ℕ → ℕ → Bool) × (ℕ → ℕ → ℚ))) (y x : ℕ) (hy : y < h) (hx : x < w)
    (hw : ∀ m ∈ masks, 0 ≤ m.2 y x) :
    ∃ out, maskedNbhood h w r f lo hi masks y x = .ok out ∧ ∀ v, out = some v → lo ≤ v ∧ v ≤ hi := by
  have hm : ∀ masks : List ((ℕ → ℕ → Bool) × (ℕ → ℕ → ℚ)), (∀ m ∈ masks, 0 ≤ m.2 y x) →
      ∃ vals : List (ℚ × Option ℚ), masks.mapM (fun m => do
        let v ← nbhoodMean h w r m.1 f lo hi y x
        return (m.2 y x, v)) = Except.ok (ε := Err) vals ∧
      ∀ e ∈ vals, 0 ≤ e.1 ∧ ∀ u, e.2 = some u → lo ≤ u ∧ u ≤ hi := by
    intro masks
    induction masks with
    | nil => intro _; exact ⟨[], rfl, by simp⟩
    | cons m ms ih =>
      intro hw
      obtain ⟨vals, h1, h2⟩ := ih (fun t ht => hw t (List.mem_cons_of_mem _ ht))
      obtain ⟨o, ho, _, hr⟩ := C27_mean_in_range h w r m.1 f lo hi hlh y x hy hx
      refine ⟨(m.2 y x, o) :: vals, ?_, ?_⟩
      · rw [List.mapM_cons, h1, ho]; rfl
      · intro e he
        rcases List.mem_cons.1 he with rfl | he
        · exact ⟨hw m (List.mem_cons_self ..), hr⟩
        · exact h2 e he
  obtain ⟨vals, h1, h2⟩ := hm masks hw
  refine ⟨collapseMasks vals, ?_, ?_⟩
  · unfold maskedNbhood; rw [h1]; rfl
  · intro v hv
    unfold collapseMasks at hv
    simp only [] at hv
    set l := vals.filterMap (fun e => e.2.map (fun x => (e.1, x))) with hl
    have hmem : ∀ e ∈ l, 0 ≤ e.1 ∧ lo ≤ e.2 ∧ e.2 ≤ hi := by
      intro e he
      obtain ⟨q, hq, hqe⟩ := List.mem_filterMap.1 he
      obtain ⟨a, b⟩ := h2 q hq
      cases hq2 : q.2 with
      | none => rw [hq2] at hqe; cases hqe
      | some u =>
        rw [hq2] at hqe
        simp only [Option.map_some, Option.some.injEq] at hqe
        rw [← hqe]; exact ⟨a, b u hq2⟩
    obtain ⟨b1, b2, b3⟩ := collapse_bounds l lo hi (fun e he => (hmem e he).1) (fun e he => (hmem e he).2)
    by_cases h0 : (l.map (·.1)).sum = 0
    · rw [if_pos h0] at hv; cases hv
    · rw [if_neg h0] at hv
      injection hv with hv
      have hpos := lt_of_le_of_ne b3 (Ne.symm h0)
      rw [← hv]
      exact ⟨(le_div_iff₀ hpos).2 b1, (div_le_iff₀ hpos).2 b2⟩

example : collapseMasks [(1 / 2, some 4), (1 / 4, none), (1 / 4, some 1)] = some 3 := by decide +kernel
example : maskedNbhood 2 2 1 (fun i j => (2 * i + j : ℚ)) 0 3 [(fun i _ => i == 0, fun _ _ => 1 / 2), (fun i _ => i == 1, fun _ _ => 1 / 2)]
    0 0 = .ok (some (3 / 2)) := by decide +kernel

/-! ### C90: radii and options -/

/-- C90.  Radii are accepted when there is one and no lead times, or as many as lead times. -/
theorem C90_radii (radii : List ℚ) (lead : Option (List ℚ)) :
    (∃ r, radiusByLeadTime radii lead = .ok r) ↔
      (lead = none ∧ radii.length = 1) ∨ ∃ l, lead = some l ∧ radii.length = l.length := by
  unfold radiusByLeadTime
  cases lead with
  | none =>
    match radii with
    | [] => simp
    | [r] => simp
    | _ :: _ :: _ => simp
  | some l =>
    simp only
    by_cases h : radii.length = l.length
    · simp [h]
    · simp [h]

/-- C90.  At one forecast period the radius is that of the lead time, linear between neighbouring lead times and level beyond the
first and last. -/
theorem C90_interpolated (radii leads : List ℚ) (hs : ∀ i j, i < j → j < leads.length → leads.getD i 0 < leads.getD j 0) (hne : leads ≠ []) (fp : ℚ) :
    ∃ v, findRadius (.byLeadTime radii leads) [fp] = .ok v ∧
      (fp ≤ leads.getD 0 0 → v = radii.getD 0 0) ∧
      (leads.getD (leads.length - 1) 0 ≤ fp → v = radii.getD (leads.length - 1) 0) ∧
      ∀ k, k + 1 < leads.length → leads.getD k 0 ≤ fp → fp ≤ leads.getD (k + 1) 0 →
        v = radii.getD k 0 + (radii.getD (k + 1) 0 - radii.getD k 0) *
          ((fp - leads.getD k 0) / (leads.getD (k + 1) 0 - leads.getD k 0)) := by
  have hn : 0 < leads.length := List.length_pos_of_ne_nil hne
  have hs' : leads.Pairwise (· ≤ ·) := pairwise_of_getD (fun i j a b => (hs i j a b).le)
  refine ⟨npInterp leads radii fp, ?_, ?_, ?_, ?_⟩
  · unfold findRadius; simp only []; rw [if_neg hne]
  · intro h
    rcases lt_or_eq_of_le h with h | h
    · rw [npInterp_eq hs' hn, if_pos (cntLe_unique (by omega) (fun i hi => by omega) (fun _ => h))]
    · rw [h]
      exact npInterp_at hs' hn (fun h' => hs _ _ (by omega) h')
  · intro h
    rw [npInterp_eq hs' hn]
    have : cntLe leads fp = leads.length :=
      cntLe_unique le_rfl (fun i hi => le_trans (getD_mono hs' (by omega) (by omega)) h) (fun h => by omega)
    rw [if_neg (by omega), if_pos this]
  · intro k hk h0 h1
    rw [npInterp_segment hs hk h0 h1]
    unfold Spec.relLine
    ring

/-- C90, finding.  With lead times, a cube with several forecast periods is always refused. -/
theorem C90_several_periods_refuted (radii leads : List ℚ) (a b : ℚ) (rest : List ℚ) :
    ∃ e, findRadius (.byLeadTime radii leads) (a :: b :: rest) = .error e := by
  unfold findRadius
  by_cases h : leads = []
  · exact ⟨_, by simp [h]; rfl⟩
  · exact ⟨_, by simp [h]; rfl⟩

/-- C90.  Options: percentiles cannot be weighted or complex, circles cannot be complex; the method is square or circular, and only
circles can be weighted. -/
theorem C90_options (output shape : String) (complex weighted : Bool) :
    (metaNbCheck output shape complex weighted = .ok () ↔
      ¬ (output = "percentiles" ∧ (weighted = true ∨ complex = true)) ∧ ¬ (shape = "circular" ∧ complex = true)) ∧
    (nbMethodCheck shape weighted = .ok () ↔ shape = "circular" ∨ (shape = "square" ∧ weighted = false)) := by
  constructor
  · unfold metaNbCheck
    by_cases h1 : output = "percentiles" <;> by_cases h2 : shape = "circular" <;> cases complex <;> cases weighted <;>
      simp [h1, h2]
  · unfold nbMethodCheck
    by_cases h1 : shape = "square"
    · subst h1; cases weighted <;> simp
    · by_cases h2 : shape = "circular"
      · subst h2; cases weighted <;> simp
      · cases weighted <;> simp [h1, h2]

example : findRadius (.byLeadTime [1000, 3000] [0, 6]) [3] = .ok 2000 := by decide +kernel

end Improver
