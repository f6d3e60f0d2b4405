import Verif.Lemmas.Interp

/-! Property theorems C13–C15, C37. -/

namespace Improver

/-! ### C15 -/

/-- **C15.** The single-pass scan, which carries the bracketing index and slope from one requested point to the
next, gives at every requested point the value obtained for that point alone; for ordered and unordered
requests and any abscissae. -/
theorem C15_scan_is_pointwise (xs xp fp out : List ℚ) (h : fastInterpRowY xs xp fp = .ok out) :
    out.length = xs.length ∧
    ∀ k (hk : k < xs.length), fastInterpRowY [xs[k]] xp fp = .ok [out.getD k 0] := by
  unfold fastInterpRowY at h
  split_ifs at h with hl
  injection h with h
  rw [scanLoop_eq] at h
  subst h
  refine ⟨by simp, ?_⟩
  intro k hk
  unfold fastInterpRowY
  rw [if_neg hl, scanLoop_eq]
  simp [hk]

/-- **C15.** Both fast routines compute the same interpolation. -/
theorem C15_same_x_same_y_agree (xs xp fp : List ℚ) :
    fastInterpRowY xs xp fp = fastInterpRowX xs xp fp := by
  unfold fastInterpRowY fastInterpRowX
  rw [scanLoop_eq]
  by_cases h : xp.length = fp.length
  · simp [h]
  · rw [if_pos h, if_pos (fun h' => h h'.symm)]

/-- Abscissae increase by at least the step guard. -/
def Spec.Separated (xp : List ℚ) : Prop := xp.Pairwise (fun a b => a + 1/1000000000000000 ≤ b)

theorem Spec.Separated.lt {xp : List ℚ} (h : Spec.Separated xp) {i j : ℕ} (hij : i < j) (hj : j < xp.length) :
    xp.getD i 0 + interpEps ≤ xp.getD j 0 := by
  rw [List.getD_eq_getElem _ _ hj, List.getD_eq_getElem _ _ (by omega)]
  exact List.pairwise_iff_getElem.1 h i j _ _ hij

theorem tw_le_spec (xp : List ℚ) (x : ℚ) :
    (∀ i, i < (xp.takeWhile (fun a => decide (a ≤ x))).length → xp.getD i 0 ≤ x) ∧
    ((xp.takeWhile (fun a => decide (a ≤ x))).length < xp.length →
      x < xp.getD (xp.takeWhile (fun a => decide (a ≤ x))).length 0) ∧
    (xp.takeWhile (fun a => decide (a ≤ x))).length ≤ xp.length := by
  obtain ⟨h1, h2, h3⟩ := takeWhile_length_spec (fun a => decide (a ≤ x)) xp 0
  refine ⟨fun i hi => of_decide_eq_true (h1 i hi), fun h => ?_, h3⟩
  rw [List.getD_eq_getElem _ _ h]
  exact not_le.1 (of_decide_eq_false (h2 h))

/-- **C15.** The fast interpolation agrees with the slow reference (`np.interp`) at every point, when the
abscissae increase by at least 1e-15. -/
theorem C15_fast_agrees_with_slow (xp fp xs : List ℚ) (hl : xp.length = fp.length) (hn : xp ≠ [])
    (hs : Spec.Separated xp) :
    fastInterpRowX xs xp fp = .ok (xs.map (npInterp xp fp)) := by
  unfold fastInterpRowX
  rw [if_neg (by simpa using hl.symm)]
  congr 1
  apply List.map_congr_left
  intro x _
  have hn' : 0 < xp.length := List.length_pos_iff.2 hn
  have hp := interpEps_pos
  unfold npInterp
  simp only []
  by_cases hlast : xp.getD (xp.length - 1) 0 < x
  · rw [if_pos hlast]
    have : searchsortedLeft xp x = xp.length := by
      apply ss_unique le_rfl
      · intro i hi
        rcases Nat.lt_or_ge i (xp.length - 1) with h | h
        · have := hs.lt h (by omega); linarith
        · have : i = xp.length - 1 := by omega
          rw [this]; exact hlast
      · intro h; omega
    rw [fastInterpX_last (by omega) this, hl]
  rw [if_neg hlast]
  push Not at hlast
  by_cases hfirst : x < xp.getD 0 0
  · rw [if_pos hfirst]
    exact fastInterpX_zero (ss_unique (Nat.zero_le _) (by intro i hi; omega) (fun _ => hfirst.le))
  rw [if_neg hfirst]
  push Not at hfirst
  obtain ⟨t1, t2, t3⟩ := tw_le_spec xp x
  set m := (xp.takeWhile (fun a => decide (a ≤ x))).length with hm
  have hm0 : 0 < m := by
    by_contra h0
    have h0 : m = 0 := by omega
    have := t2 (by omega)
    rw [h0] at this
    linarith
  have hjx := t1 (m - 1) (by omega)
  have at_j : xp.getD (m - 1) 0 = x → fastInterpX xp fp x = fp.getD (m - 1) 0 := by
    intro he
    rw [← he]
    apply fastInterpX_at (by omega)
    · intro i hi
      have := hs.lt hi (by omega); linarith
    · intro h0
      have := hs.lt (i := m - 1 - 1) (j := m - 1) (by omega) (by omega); linarith
  by_cases hj : m - 1 = xp.length - 1
  · rw [if_pos hj]
    rw [hj] at hjx
    apply at_j
    rw [hj]; linarith
  rw [if_neg hj]
  by_cases he : xp.getD (m - 1) 0 = x
  · rw [if_pos he]; exact at_j he
  rw [if_neg he]
  have hlt : xp.getD (m - 1) 0 < x := lt_of_le_of_ne hjx he
  have hmn : m < xp.length := by omega
  have hss : searchsortedLeft xp x = m := by
    apply ss_unique t3
    · intro i hi
      rcases Nat.lt_or_ge i (m - 1) with h | h
      · have := hs.lt h (by omega); linarith
      · have : i = m - 1 := by omega
        rw [this]; exact hlt
    · intro _; exact (t2 hmn).le
  have hsep := hs.lt (i := m - 1) (j := m) (by omega) hmn
  unfold fastInterpX
  simp only [hss]
  rw [if_neg (by omega), if_neg (by omega), if_pos (by linarith)]
  have hm1 : m - 1 + 1 = m := by omega
  rw [hm1]
  ring

/-- **C15 (finding).** With tied abscissae (a percentile list containing 0 or a flat part of a CDF) the fast and
the slow implementation differ, so results depend on whether numba is installed. -/
theorem C15_fast_slow_differ_on_ties :
    fastInterpX [0, 1/2, 1/2, 1] [10, 20, 30, 40] (1/2) = 20 ∧
    npInterp [0, 1/2, 1/2, 1] [10, 20, 30, 40] (1/2) = 30 := by decide +kernel

example : Spec.Separated [0, 1/4, 1/2, 1] := by unfold Spec.Separated; simp; norm_num
example : (fastInterpRowY [1/8, 1/4, 3/4, 9] [0, 1/4, 1/2, 1] [0, 10, 20, 40]).toOption = some [5, 10, 30, 40] := by
  decide +kernel
example : (fastInterpRowY [3/4, 1/8, 9] [0, 1/4, 1/2, 1] [0, 10, 20, 40]).toOption = some [30, 5, 40] := by
  decide +kernel

/-! ### C13 -/

theorem hasDescent_false : ∀ {l : List ℚ}, hasDescent l = false → l.Pairwise (· ≤ ·)
  | [], _ => by simp
  | [_], _ => by simp
  | a :: b :: l, h => by
    unfold hasDescent at h
    simp only [npDiff, List.any_cons, Bool.or_eq_false_iff, decide_eq_false_iff_not, not_lt, sub_nonneg] at h
    have ih := hasDescent_false (l := b :: l) h.2
    rw [List.pairwise_cons]
    refine ⟨?_, ih⟩
    intro c hc
    rcases List.mem_cons.1 hc with rfl | hc
    · exact h.1
    · exact h.1.trans ((List.pairwise_cons.1 ih).1 c hc)

theorem hasDescent_of_sorted : ∀ {l : List ℚ}, l.Pairwise (· ≤ ·) → hasDescent l = false
  | [], _ => rfl
  | [_], _ => rfl
  | a :: b :: l, h => by
    have ih := hasDescent_of_sorted (List.pairwise_cons.1 h).2
    have hab := (List.pairwise_cons.1 h).1 b (by simp)
    unfold hasDescent at ih ⊢
    simp only [npDiff, List.any_cons, Bool.or_eq_false_iff, decide_eq_false_iff_not, not_lt, sub_nonneg]
    exact ⟨hab, ih⟩

theorem foldl_max_mem (a : ℚ) (l : List ℚ) : l.foldl max a ∈ a :: l := by
  induction l generalizing a with
  | nil => simp
  | cons b l ih =>
    simp only [List.foldl_cons]
    rcases max_choice a b with h | h <;> rw [h]
    · rcases List.mem_cons.1 (ih a) with h' | h'
      · rw [h']; simp
      · exact List.mem_cons_of_mem _ (List.mem_cons_of_mem _ h')
    · exact List.mem_cons_of_mem _ (ih b)

theorem foldl_min_mem (a : ℚ) (l : List ℚ) : l.foldl min a ∈ a :: l := by
  induction l generalizing a with
  | nil => simp
  | cons b l ih =>
    simp only [List.foldl_cons]
    rcases min_choice a b with h | h <;> rw [h]
    · rcases List.mem_cons.1 (ih a) with h' | h'
      · rw [h']; simp
      · exact List.mem_cons_of_mem _ (List.mem_cons_of_mem _ h')
    · exact List.mem_cons_of_mem _ (ih b)

theorem npMax_spec {l : List ℚ} {m : ℚ} (h : npMax l = .ok m) : m ∈ l ∧ ∀ x ∈ l, x ≤ m := by
  cases l with
  | nil => cases h
  | cons a l =>
    injection h with h
    subst h
    refine ⟨foldl_max_mem a l, ?_⟩
    intro x hx
    rcases List.mem_cons.1 hx with rfl | hx
    · exact (foldl_le_max _ l).1
    · exact (foldl_le_max _ l).2 x hx

theorem npMin_spec {l : List ℚ} {m : ℚ} (h : npMin l = .ok m) : m ∈ l ∧ ∀ x ∈ l, m ≤ x := by
  cases l with
  | nil => cases h
  | cons a l =>
    injection h with h
    subst h
    refine ⟨foldl_min_mem a l, ?_⟩
    intro x hx
    rcases List.mem_cons.1 hx with rfl | hx
    · exact (foldl_min_le _ l).1
    · exact (foldl_min_le _ l).2 x hx

theorem sorted_with_ends {lo hi : ℚ} {r : List ℚ} (hr : r.Pairwise (· ≤ ·)) (h1 : ∀ x ∈ r, lo ≤ x)
    (h2 : ∀ x ∈ r, x ≤ hi) (h3 : lo ≤ hi) : (lo :: (r ++ [hi])).Pairwise (· ≤ ·) := by
  rw [List.pairwise_cons, List.pairwise_append]
  refine ⟨?_, hr, by simp, ?_⟩
  · intro x hx
    rcases List.mem_append.1 hx with hx | hx
    · exact h1 x hx
    · rw [List.mem_singleton] at hx; subst hx; exact h3
  · intro a ha b hb
    rw [List.mem_singleton] at hb; subst hb; exact h2 a ha

theorem widen_spec {lo hi lo' hi' : ℚ} {vals : List ℚ} (h : widenBounds lo hi vals = .ok (lo', hi')) :
    lo' ≤ lo ∧ hi ≤ hi' ∧ (∀ x ∈ vals, lo' ≤ x ∧ x ≤ hi') ∧ lo' ∈ lo :: vals ∧ hi' ∈ hi :: vals := by
  unfold widenBounds at h
  cases hmx : npMax vals with
  | error e => simp [hmx, bind, Except.bind] at h
  | ok mx =>
    cases hmn : npMin vals with
    | error e => simp [hmx, hmn, bind, Except.bind] at h
    | ok mn =>
      simp only [hmx, hmn, bind, Except.bind, pure, Except.pure] at h
      injection h with h
      injection h with h1 h2
      obtain ⟨m1, m2⟩ := npMax_spec hmx
      obtain ⟨n1, n2⟩ := npMin_spec hmn
      subst h1; subst h2
      refine ⟨?_, ?_, ?_, ?_, ?_⟩
      · split_ifs with g <;> linarith
      · split_ifs with g <;> linarith
      · intro x hx
        have := m2 x hx
        have := n2 x hx
        constructor <;> split_ifs with g <;> linarith
      · split_ifs
        · exact List.mem_cons_of_mem _ n1
        · simp
      · split_ifs
        · exact List.mem_cons_of_mem _ m1
        · simp

/-- What the bound insertion guarantees. -/
theorem addBounds_ok {warn : Bool} {pcts xp : List ℚ} {rows fps : List (List ℚ)} {lo hi : ℚ} (hlh : lo ≤ hi)
    (h : addBoundsToPercentiles warn pcts rows (lo, hi) = .ok (xp, fps))
    (hw : warn = true → ∀ r ∈ rows, r.Pairwise (· ≤ ·)) :
    xp = 0 :: (pcts ++ [100]) ∧ xp.Pairwise (· ≤ ·) ∧
    ∃ lo' hi', fps = rows.map (fun r => lo' :: (r ++ [hi'])) ∧ (∀ f ∈ fps, f.Pairwise (· ≤ ·)) ∧
      (warn = false → lo' = lo ∧ hi' = hi) ∧ lo' ∈ lo :: rows.flatten ∧ hi' ∈ hi :: rows.flatten := by
  unfold addBoundsToPercentiles at h
  simp only [] at h
  by_cases hp : hasDescent (0 :: (pcts ++ [100])) = true
  · exfalso
    revert h
    simp only [hp, if_true, bind, Except.bind]
    intro h
    split at h <;> cases h
  by_cases hd : (rows.map (fun r => lo :: (r ++ [hi]))).any hasDescent = true
  · rw [if_pos hd] at h
    cases warn with
    | false => cases h
    | true =>
      simp only [if_true] at h
      cases hwb : widenBounds lo hi (rows.map (fun r => lo :: (r ++ [hi]))).flatten with
      | error e => simp [hwb, bind, Except.bind] at h
      | ok b =>
        obtain ⟨lo', hi'⟩ := b
        simp only [hwb, bind, Except.bind, pure, Except.pure] at h
        rw [if_neg hp] at h
        injection h with h
        injection h with hx hf
        obtain ⟨w1, w2, w3, w4, w5⟩ := widen_spec hwb
        subst hx; subst hf
        have hall : ∀ r ∈ rows, ∀ x ∈ r, lo' ≤ x ∧ x ≤ hi' := by
          intro r hr x hx
          apply w3
          rw [List.mem_flatten]
          exact ⟨_, List.mem_map.2 ⟨r, hr, rfl⟩, by simp [hx]⟩
        refine ⟨rfl, hasDescent_false (Bool.eq_false_iff.2 hp), lo', hi', rfl, ?_, by simp, ?_, ?_⟩
        · intro f hf
          obtain ⟨r, hr, rfl⟩ := List.mem_map.1 hf
          exact sorted_with_ends (hw rfl r hr) (fun x hx => (hall r hr x hx).1)
            (fun x hx => (hall r hr x hx).2) (by linarith)
        · rcases List.mem_cons.1 w4 with h | h
          · simp [h]
          · rw [List.mem_flatten] at h
            obtain ⟨l, hl, hm⟩ := h
            obtain ⟨r, hr, rfl⟩ := List.mem_map.1 hl
            rcases List.mem_cons.1 hm with h | h
            · simp [h]
            · rcases List.mem_append.1 h with h | h
              · exact List.mem_cons_of_mem _ (List.mem_flatten.2 ⟨r, hr, h⟩)
              · rw [List.mem_singleton] at h
                have : lo' = lo := by linarith
                simp [this]
        · rcases List.mem_cons.1 w5 with h | h
          · simp [h]
          · rw [List.mem_flatten] at h
            obtain ⟨l, hl, hm⟩ := h
            obtain ⟨r, hr, rfl⟩ := List.mem_map.1 hl
            rcases List.mem_cons.1 hm with h | h
            · have : hi' = hi := by linarith
              simp [this]
            · rcases List.mem_append.1 h with h | h
              · exact List.mem_cons_of_mem _ (List.mem_flatten.2 ⟨r, hr, h⟩)
              · rw [List.mem_singleton] at h; simp [h]
  · rw [if_neg hd] at h
    simp only [bind, Except.bind, pure, Except.pure] at h
    rw [if_neg hp] at h
    injection h with h
    injection h with hx hf
    subst hx; subst hf
    refine ⟨rfl, hasDescent_false (Bool.eq_false_iff.2 hp), lo, hi, rfl, ?_, by simp, by simp, by simp⟩
    intro f hf
    apply hasDescent_false
    have := List.any_eq_false.1 (Bool.eq_false_iff.2 hd) f hf
    simpa using this

/-- One requested row: length, order, range. -/
theorem fastInterpRowX_props {xp fp xs out : List ℚ} (hn : 0 < xp.length) (hf : fp.Pairwise (· ≤ ·))
    (h : fastInterpRowX xs xp fp = .ok out) :
    out = xs.map (fastInterpX xp fp) ∧ fp.length = xp.length ∧
    (∀ i j (hi : i < xs.length) (hj : j < xs.length), xs[i] ≤ xs[j] → out.getD i 0 ≤ out.getD j 0) ∧
    (∀ v ∈ out, fp.getD 0 0 ≤ v ∧ v ≤ fp.getD (fp.length - 1) 0) := by
  unfold fastInterpRowX at h
  split_ifs at h with hl
  push Not at hl
  injection h with h
  subst h
  refine ⟨rfl, hl, ?_, ?_⟩
  · intro i j hi hj hij
    rw [List.getD_eq_getElem _ _ (by simpa using hi), List.getD_eq_getElem _ _ (by simpa using hj)]
    simp only [List.getElem_map]
    exact fastInterpX_mono hl hn hf hij
  · intro v hv
    obtain ⟨x, -, rfl⟩ := List.mem_map.1 hv
    exact fastInterpX_range hl hn hf x

/-- **C13.** Whenever resampling succeeds on ascending percentile values, every grid point's result is
non-decreasing in the requested percentile and stays inside the distribution's bounds — exactly the given bounds
unless `ecc_bounds_warning` is set, and then the bounds expanded at most to the forecast values. -/
theorem C13_resampled_ordered_and_bounded (warn : Bool) (lo hi : ℚ) (hlh : lo ≤ hi) (pcts : List ℚ)
    (rows : List (List ℚ)) (requested : List ℚ) (out : List (List ℚ))
    (hasc : ∀ r ∈ rows, r.Pairwise (· ≤ ·))
    (h : resamplePercentiles warn (some (lo, hi)) pcts rows requested = .ok out) :
    out.length = rows.length ∧ ∀ o ∈ out, o.length = requested.length ∧
      (∀ i j (hi : i < requested.length) (hj : j < requested.length), requested[i] ≤ requested[j] →
        o.getD i 0 ≤ o.getD j 0) ∧
      (∀ v ∈ o, (∃ l ∈ lo :: rows.flatten, l ≤ v) ∧ (∃ u ∈ hi :: rows.flatten, v ≤ u)) ∧
      (warn = false → ∀ v ∈ o, lo ≤ v ∧ v ≤ hi) := by
  unfold resamplePercentiles at h
  split_ifs at h with hr
  cases hb : addBoundsToPercentiles warn pcts rows (lo, hi) with
  | error e => simp only [hb, bind, Except.bind] at h; cases h
  | ok b =>
    obtain ⟨xp, fps⟩ := b
    simp only [hb, bind, Except.bind] at h
    obtain ⟨hx, -, lo', hi', hf, hs, hw, hlo, hhi⟩ := addBounds_ok hlh hb (fun _ => hasc)
    have hF := mapM_ok_forall _ _ _ h
    have hlen : fps.length = rows.length := by rw [hf]; simp
    refine ⟨by rw [← hF.length_eq, hlen], ?_⟩
    intro o ho
    obtain ⟨k, hk, rfl⟩ := List.getElem_of_mem ho
    have hk' : k < fps.length := by rw [hF.length_eq]; exact hk
    have hrow : fastInterpRowX requested xp fps[k] = .ok out[k] := (List.forall₂_iff_get.1 hF).2 k hk' hk
    have hsk := hs _ (List.getElem_mem hk')
    obtain ⟨e1, e2, e3, e4⟩ := fastInterpRowX_props (by rw [hx]; simp) hsk hrow
    have hends : (fps[k]).getD 0 0 = lo' ∧ (fps[k]).getD ((fps[k]).length - 1) 0 = hi' := by
      subst hf
      simp
    rw [hends.1, hends.2] at e4
    refine ⟨by rw [e1]; simp, e3, fun v hv => ⟨⟨lo', hlo, (e4 v hv).1⟩, ⟨hi', hhi, (e4 v hv).2⟩⟩, ?_⟩
    intro hwf v hv
    obtain ⟨rfl, rfl⟩ := hw hwf
    exact e4 v hv

/-- **C13.** Without bounds (`skip_ecc_bounds`): ordered, and inside the range of the grid point's own
values. -/
theorem C13_resampled_no_bounds (warn : Bool) (pcts : List ℚ) (hp : pcts ≠ [])
    (rows : List (List ℚ)) (requested : List ℚ) (out : List (List ℚ))
    (hasc : ∀ r ∈ rows, r.Pairwise (· ≤ ·))
    (h : resamplePercentiles warn none pcts rows requested = .ok out) :
    List.Forall₂ (fun r o => o.length = requested.length ∧
      (∀ i j (hi : i < requested.length) (hj : j < requested.length), requested[i] ≤ requested[j] →
        o.getD i 0 ≤ o.getD j 0) ∧
      (∀ v ∈ o, (∃ l ∈ r, l ≤ v) ∧ (∃ u ∈ r, v ≤ u))) rows out := by
  unfold resamplePercentiles at h
  split_ifs at h with hr
  simp only [bind, Except.bind] at h
  have hF := mapM_ok_forall _ _ _ h
  rw [List.forall₂_iff_get] at hF ⊢
  refine ⟨hF.1, ?_⟩
  intro k hk hk'
  have hpl : 0 < pcts.length := List.length_pos_iff.2 hp
  obtain ⟨e1, e2, e3, e4⟩ := fastInterpRowX_props hpl (hasc _ (List.get_mem _ _)) (hF.2 k hk hk')
  refine ⟨by rw [e1]; simp, e3, fun v hv => ?_⟩
  have h0 : 0 < (rows.get ⟨k, hk⟩).length := by omega
  have hb := e4 v hv
  rw [List.getD_eq_getElem _ _ h0, List.getD_eq_getElem _ _ (by omega)] at hb
  exact ⟨⟨_, List.getElem_mem _, hb.1⟩, ⟨_, List.getElem_mem _, hb.2⟩⟩

/-- **C13.** Resampling at a percentile `p > 0` that is already present (with percentiles separated by at
least 1e-15) returns the forecast value there unchanged, at every grid point, with or without bounds. -/
theorem C13_existing_percentile_kept (warn : Bool) (bounds : Option (ℚ × ℚ)) (pcts : List ℚ)
    (rows : List (List ℚ)) (out : List (List ℚ)) (k : ℕ) (hk : k < pcts.length)
    (hsep : Spec.Separated pcts) (hpos : ∀ p ∈ pcts, 1/1000000000000000 ≤ p)
    (hlen : ∀ r ∈ rows, r.length = pcts.length)
    (h : resamplePercentiles warn bounds pcts rows [pcts[k]] = .ok out) :
    out = rows.map (fun r => [r.getD k 0]) := by
  unfold resamplePercentiles at h
  split_ifs at h with hr
  cases bounds with
  | none =>
    simp only [bind, Except.bind] at h
    have key : rows.mapM (fun fp => fastInterpRowX [pcts[k]] pcts fp) = .ok (rows.map (fun r => [r.getD k 0])) := by
      apply mapM_ok_of_forall
      intro r hrm
      unfold fastInterpRowX
      rw [if_neg (by simpa using hlen r hrm)]
      have he : pcts[k] = pcts.getD k 0 := (List.getD_eq_getElem _ _ hk).symm
      rw [List.map_singleton, he, fastInterpX_at hk]
      · intro i hi
        have := hsep.lt hi hk
        have := interpEps_pos
        linarith
      · intro h0
        have := hsep.lt (i := k - 1) (j := k) (by omega) hk
        linarith
    rw [key] at h
    injection h with h; exact h.symm
  | some b =>
    obtain ⟨lo, hi⟩ := b
    cases hb : addBoundsToPercentiles warn pcts rows (lo, hi) with
    | error e => simp only [hb, bind, Except.bind] at h; cases h
    | ok b =>
      obtain ⟨xp, fps⟩ := b
      simp only [hb, bind, Except.bind] at h
      obtain ⟨hx, lo', hi', hf⟩ : xp = 0 :: (pcts ++ [100]) ∧
          ∃ lo' hi', fps = rows.map (fun r => lo' :: (r ++ [hi'])) := by
        unfold addBoundsToPercentiles at hb
        simp only [bind, Except.bind, pure, Except.pure] at hb
        split at hb
        · cases hb
        · split_ifs at hb
          injection hb with hb
          injection hb with h1 h2
          exact ⟨h1.symm, _, _, h2.symm⟩
      subst hx; subst hf
      have key : (rows.map (fun r => lo' :: (r ++ [hi']))).mapM
          (fun fp => fastInterpRowX [pcts[k]] (0 :: (pcts ++ [100])) fp) = .ok (rows.map (fun r => [r.getD k 0])) := by
        have : rows.map (fun r => [r.getD k 0])
            = (rows.map (fun r => lo' :: (r ++ [hi']))).map (fun f => [f.getD (k + 1) 0]) := by
          rw [List.map_map]
          apply List.map_congr_left
          intro r hrm
          have hkr : k < r.length := by rw [hlen r hrm]; exact hk
          simp [List.getElem?_append_left hkr]
        rw [this]
        apply mapM_ok_of_forall
        intro f hfm
        obtain ⟨r, hrm, rfl⟩ := List.mem_map.1 hfm
        unfold fastInterpRowX
        rw [if_neg (by simpa using hlen r hrm)]
        have he : pcts[k] = (0 :: (pcts ++ [100])).getD (k + 1) 0 := by
          simp [List.getElem?_append_left hk, List.getElem?_eq_getElem hk]
        have hg : ∀ i, i < pcts.length → (0 :: (pcts ++ [100])).getD (i + 1) 0 = pcts.getD i 0 := by
          intro i hi
          simp [List.getElem?_append_left hi]
        have hp0 : interpEps ≤ pcts.getD k 0 := by
          rw [List.getD_eq_getElem _ _ hk]; exact hpos _ (List.getElem_mem _)
        have hpe := interpEps_pos
        rw [List.map_singleton, he, fastInterpX_at (by simp; omega)]
        · intro i hi
          rw [hg k hk]
          cases i with
          | zero => simp only [List.getD_cons_zero]; linarith
          | succ i =>
            rw [hg i (by omega)]
            have := hsep.lt (i := i) (j := k) (by omega) hk
            linarith
        · intro h0
          rw [hg k hk, Nat.add_sub_cancel]
          cases k with
          | zero => simp only [List.getD_cons_zero]; linarith
          | succ k =>
            rw [hg k (by omega)]
            have := hsep.lt (i := k) (j := k + 1) (by omega) hk
            linarith
      rw [key] at h
      injection h with h; exact h.symm

/-- **C13 (finding).** The 0th percentile is the exception: a forecast that has a 0th percentile value of 5 is
resampled at percentile 0 to the distribution's lower bound instead. -/
theorem C13_zeroth_percentile_refuted :
    (resamplePercentiles false (some (-100, 100)) [0, 50] [[5, 7]] [0]).toOption = some [[-100]] ∧
    (resamplePercentiles false (some (-100, 100)) [0, 50] [[5, 7]] [50]).toOption = some [[7]] := by
  decide +kernel

/-- **C13.** Valid input never fails: percentiles ascending in [0, 100], values ascending and within bounds. -/
theorem C13_valid_input_succeeds (warn : Bool) (lo hi : ℚ) (hlh : lo ≤ hi) (pcts : List ℚ)
    (rows : List (List ℚ)) (requested : List ℚ) (hp : pcts.Pairwise (· ≤ ·)) (hpr : ∀ p ∈ pcts, 0 ≤ p ∧ p ≤ 100)
    (hrow : ∀ r ∈ rows, r.length = pcts.length ∧ r.Pairwise (· ≤ ·) ∧ ∀ x ∈ r, lo ≤ x ∧ x ≤ hi)
    (hreq : ∀ p ∈ requested, 0 ≤ p ∧ p ≤ 100) :
    ∃ out, resamplePercentiles warn (some (lo, hi)) pcts rows requested = .ok out := by
  have h1 : ¬ (requested.any (fun p => decide (p < 0) || decide (p > 100)) = true) := by
    rw [List.any_eq_true]
    rintro ⟨p, hp, hc⟩
    simp only [Bool.or_eq_true, decide_eq_true_eq] at hc
    have := hreq p hp
    rcases hc with hc | hc <;> linarith
  have h2 : ¬ ((rows.map (fun r => lo :: (r ++ [hi]))).any hasDescent = true) := by
    rw [List.any_eq_true]
    rintro ⟨f, hf, hc⟩
    obtain ⟨r, hr, rfl⟩ := List.mem_map.1 hf
    obtain ⟨-, hs, hb⟩ := hrow r hr
    rw [hasDescent_of_sorted (sorted_with_ends hs (fun x hx => (hb x hx).1) (fun x hx => (hb x hx).2) hlh)] at hc
    cases hc
  have h3 : ¬ (hasDescent (0 :: (pcts ++ [100])) = true) := by
    rw [hasDescent_of_sorted (sorted_with_ends hp (fun x hx => (hpr x hx).1) (fun x hx => (hpr x hx).2)
      (by norm_num))]
    simp
  unfold resamplePercentiles addBoundsToPercentiles
  rw [if_neg h1]
  simp only [if_neg h2, bind, Except.bind, if_neg h3, pure, Except.pure]
  refine ⟨_, mapM_ok_of_forall _ (fun fp => requested.map (fastInterpX (0 :: (pcts ++ [100])) fp)) _ ?_⟩
  intro f hf
  obtain ⟨r, hr, rfl⟩ := List.mem_map.1 hf
  unfold fastInterpRowX
  rw [if_neg (by simp [(hrow r hr).1])]

example : (resamplePercentiles false (some (0, 40)) [20, 60] [[10, 20], [0, 40]] [10, 20, 40, 80]).toOption
    = some [[5, 10, 15, 30], [0, 0, 20, 40]] := by decide +kernel
example : (resamplePercentiles true (some (0, 40)) [20, 60] [[10, 50]] [0, 100]).toOption = some [[0, 50]] := by
  decide +kernel

end Improver
