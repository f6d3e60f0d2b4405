import Verif.Model.Interp
import Verif.Lemmas.Sorting
import Verif.Lemmas.ListAux

namespace Improver

/-! ### searchsorted -/

theorem takeWhile_length_spec {α : Type} (p : α → Bool) (l : List α) (d : α) :
    (∀ i, i < (l.takeWhile p).length → p (l.getD i d) = true) ∧
    (∀ h : (l.takeWhile p).length < l.length, p (l[(l.takeWhile p).length]) = false) ∧
    (l.takeWhile p).length ≤ l.length := by
  induction l with
  | nil => simp
  | cons a l ih =>
    by_cases h : p a = true
    · simp only [List.takeWhile_cons, h, if_true, List.length_cons]
      refine ⟨?_, ?_, by have := ih.2.2; omega⟩
      · intro i hi
        cases i with
        | zero => simpa using h
        | succ i => simpa using ih.1 i (by omega)
      · intro hl
        simpa using ih.2.1 (by omega)
    · simp only [Bool.not_eq_true] at h
      simp [List.takeWhile_cons, h]

theorem ss_lt {xp : List ℚ} {x : ℚ} {i : ℕ} (h : i < searchsortedLeft xp x) : xp.getD i 0 < x := by
  simpa using (takeWhile_length_spec (fun a => decide (a < x)) xp 0).1 i h

theorem ss_ge {xp : List ℚ} {x : ℚ} (h : searchsortedLeft xp x < xp.length) :
    x ≤ xp.getD (searchsortedLeft xp x) 0 := by
  have := (takeWhile_length_spec (fun a => decide (a < x)) xp 0).2.1 h
  rw [List.getD_eq_getElem _ _ h]
  exact not_lt.1 (of_decide_eq_false this)

theorem ss_le (xp : List ℚ) (x : ℚ) : searchsortedLeft xp x ≤ xp.length :=
  (takeWhile_length_spec (fun a => decide (a < x)) xp 0).2.2

theorem ss_mono (xp : List ℚ) {x y : ℚ} (h : x ≤ y) : searchsortedLeft xp x ≤ searchsortedLeft xp y := by
  by_contra hc
  push Not at hc
  have h1 := ss_lt hc
  have h2 := ss_ge (xp := xp) (x := y) (lt_of_lt_of_le hc (ss_le _ _))
  linarith

/-- Characterisation: the only index with all earlier values below `x` and the value there not below. -/
theorem ss_unique {xp : List ℚ} {x : ℚ} {k : ℕ} (hk : k ≤ xp.length) (h1 : ∀ i, i < k → xp.getD i 0 < x)
    (h2 : k < xp.length → x ≤ xp.getD k 0) : searchsortedLeft xp x = k := by
  rcases lt_trichotomy (searchsortedLeft xp x) k with h | h | h
  · have := ss_ge (xp := xp) (x := x) (by omega)
    have := h1 _ h
    linarith
  · exact h
  · have := ss_lt h
    have := h2 (lt_of_lt_of_le h (ss_le _ _))
    linarith

/-! ### monotone values -/

theorem getD_mono {fp : List ℚ} (h : fp.Pairwise (· ≤ ·)) {i j : ℕ} (hij : i ≤ j) (hj : j < fp.length) :
    fp.getD i 0 ≤ fp.getD j 0 := by
  rcases hij.eq_or_lt with rfl | hlt
  · exact le_rfl
  · rw [List.getD_eq_getElem _ _ hj, List.getD_eq_getElem _ _ (by omega)]
    exact List.pairwise_iff_getElem.1 h i j _ _ hlt

theorem interpEps_pos : 0 < interpEps := by unfold interpEps; norm_num

/-- The interpolated value lies between the two ordinates of its bracket. -/
theorem fastInterpX_bracket {xp fp : List ℚ} (hl : fp.length = xp.length) (hf : fp.Pairwise (· ≤ ·)) {x : ℚ}
    (h0 : searchsortedLeft xp x ≠ 0) (hn : searchsortedLeft xp x ≠ xp.length) :
    fp.getD (searchsortedLeft xp x - 1) 0 ≤ fastInterpX xp fp x ∧
    fastInterpX xp fp x ≤ fp.getD (searchsortedLeft xp x) 0 := by
  have hlt : searchsortedLeft xp x < xp.length := lt_of_le_of_ne (ss_le _ _) hn
  have h1 := ss_lt (xp := xp) (x := x) (i := searchsortedLeft xp x - 1) (by omega)
  have h2 := ss_ge hlt
  have h3 := getD_mono hf (i := searchsortedLeft xp x - 1) (j := searchsortedLeft xp x) (by omega) (by omega)
  unfold fastInterpX
  simp only [h0, hn, if_false]
  split_ifs with hg
  · have hd : 0 < xp.getD (searchsortedLeft xp x) 0 - xp.getD (searchsortedLeft xp x - 1) 0 := by linarith
    have t0 : 0 ≤ (x - xp.getD (searchsortedLeft xp x - 1) 0) /
        (xp.getD (searchsortedLeft xp x) 0 - xp.getD (searchsortedLeft xp x - 1) 0) :=
      div_nonneg (by linarith) hd.le
    have t1 : (x - xp.getD (searchsortedLeft xp x - 1) 0) /
        (xp.getD (searchsortedLeft xp x) 0 - xp.getD (searchsortedLeft xp x - 1) 0) ≤ 1 :=
      (div_le_one hd).2 (by linarith)
    constructor <;> nlinarith
  · exact ⟨le_rfl, h3⟩

theorem fastInterpX_zero {xp fp : List ℚ} {x : ℚ} (h : searchsortedLeft xp x = 0) :
    fastInterpX xp fp x = fp.getD 0 0 := by unfold fastInterpX; simp [h]

theorem fastInterpX_last {xp fp : List ℚ} {x : ℚ} (h0 : searchsortedLeft xp x ≠ 0)
    (h : searchsortedLeft xp x = xp.length) : fastInterpX xp fp x = fp.getD (fp.length - 1) 0 := by
  unfold fastInterpX
  simp only []
  rw [if_neg h0, if_pos h]

/-- The fast interpolation is monotone in the abscissa. -/
theorem fastInterpX_mono {xp fp : List ℚ} (hl : fp.length = xp.length) (hn : 0 < xp.length)
    (hf : fp.Pairwise (· ≤ ·)) {x y : ℚ} (hxy : x ≤ y) : fastInterpX xp fp x ≤ fastInterpX xp fp y := by
  have hm := ss_mono xp hxy
  have hyl := ss_le xp y
  by_cases hx0 : searchsortedLeft xp x = 0
  · rw [fastInterpX_zero hx0]
    by_cases hy0 : searchsortedLeft xp y = 0
    · rw [fastInterpX_zero hy0]
    by_cases hyn : searchsortedLeft xp y = xp.length
    · rw [fastInterpX_last hy0 hyn]; exact getD_mono hf (by omega) (by omega)
    · exact (getD_mono hf (by omega) (by omega)).trans (fastInterpX_bracket hl hf hy0 hyn).1
  have hy0 : searchsortedLeft xp y ≠ 0 := by omega
  by_cases hxn : searchsortedLeft xp x = xp.length
  · rw [fastInterpX_last hx0 hxn, fastInterpX_last hy0 (by omega)]
  by_cases hyn : searchsortedLeft xp y = xp.length
  · rw [fastInterpX_last hy0 hyn]
    exact (fastInterpX_bracket hl hf hx0 hxn).2.trans (getD_mono hf (by omega) (by omega))
  rcases hm.eq_or_lt with he | hlt
  · have hlt : searchsortedLeft xp x < xp.length := by omega
    have h1 := ss_lt (xp := xp) (x := x) (i := searchsortedLeft xp x - 1) (by omega)
    have h2 := ss_ge hlt
    have h3 := getD_mono hf (i := searchsortedLeft xp x - 1) (j := searchsortedLeft xp x) (by omega) (by omega)
    unfold fastInterpX
    simp only [← he, hx0, hxn, if_false]
    split_ifs with hg
    · have hd : 0 < xp.getD (searchsortedLeft xp x) 0 - xp.getD (searchsortedLeft xp x - 1) 0 := by linarith
      have : (x - xp.getD (searchsortedLeft xp x - 1) 0) /
          (xp.getD (searchsortedLeft xp x) 0 - xp.getD (searchsortedLeft xp x - 1) 0) ≤
          (y - xp.getD (searchsortedLeft xp x - 1) 0) /
          (xp.getD (searchsortedLeft xp x) 0 - xp.getD (searchsortedLeft xp x - 1) 0) :=
        div_le_div_of_nonneg_right (by linarith) hd.le
      nlinarith
    · exact le_rfl
  · exact ((fastInterpX_bracket hl hf hx0 hxn).2.trans (getD_mono hf (by omega) (by omega))).trans
      (fastInterpX_bracket hl hf hy0 hyn).1

/-- Range of the interpolated values. -/
theorem fastInterpX_range {xp fp : List ℚ} (hl : fp.length = xp.length) (hn : 0 < xp.length)
    (hf : fp.Pairwise (· ≤ ·)) (x : ℚ) :
    fp.getD 0 0 ≤ fastInterpX xp fp x ∧ fastInterpX xp fp x ≤ fp.getD (fp.length - 1) 0 := by
  have hxl := ss_le xp x
  by_cases hx0 : searchsortedLeft xp x = 0
  · rw [fastInterpX_zero hx0]; exact ⟨le_rfl, getD_mono hf (by omega) (by omega)⟩
  by_cases hxn : searchsortedLeft xp x = xp.length
  · rw [fastInterpX_last hx0 hxn]; exact ⟨getD_mono hf (by omega) (by omega), le_rfl⟩
  have hb := fastInterpX_bracket hl hf hx0 hxn
  exact ⟨(getD_mono hf (by omega) (by omega)).trans hb.1, hb.2.trans (getD_mono hf (by omega) (by omega))⟩

/-- At an abscissa that is the first of its value and at least `interpEps` beyond its predecessor, the
interpolation returns the ordinate. -/
theorem fastInterpX_at {xp fp : List ℚ} {k : ℕ} (hk : k < xp.length)
    (h1 : ∀ i, i < k → xp.getD i 0 < xp.getD k 0)
    (h2 : 0 < k → interpEps ≤ xp.getD k 0 - xp.getD (k - 1) 0) :
    fastInterpX xp fp (xp.getD k 0) = fp.getD k 0 := by
  have hs : searchsortedLeft xp (xp.getD k 0) = k := ss_unique hk.le h1 (fun _ => le_rfl)
  unfold fastInterpX
  simp only [hs]
  split_ifs with h0 hn hg
  · rw [h0]
  · omega
  · have := h2 (by omega)
    have hp := interpEps_pos
    rw [div_self (by linarith)]; ring
  · exact absurd (h2 (by omega)) hg

/-! ### the stateful scan -/

theorem drop_takeWhile_all {α : Type} (p : α → Bool) (l : List α) (d : α) (k : ℕ) (hk : k ≤ l.length)
    (h : ∀ i, i < k → p (l.getD i d) = true) :
    (l.takeWhile p).length = k + ((l.drop k).takeWhile p).length := by
  induction k generalizing l with
  | zero => simp
  | succ k ih =>
    cases l with
    | nil => simp at hk
    | cons a l =>
      have ha : p a = true := by simpa using h 0 (by omega)
      simp only [List.takeWhile_cons, ha, if_true, List.length_cons, List.drop_succ_cons]
      rw [ih l (by simpa using hk) (fun i hi => by simpa using h (i + 1) (by omega))]
      omega

/-- Continuing the search from an index all of whose predecessors are below `x` finds the same index. -/
theorem scanAdvance_eq {xp : List ℚ} {x : ℚ} {k : ℕ} (hk : k ≤ xp.length) (h : ∀ i, i < k → xp.getD i 0 < x) :
    scanAdvance xp x k = searchsortedLeft xp x := by
  unfold scanAdvance searchsortedLeft
  rw [drop_takeWhile_all (fun a => decide (a < x)) xp 0 k hk (fun i hi => by simpa using h i hi)]

/-- Value of the bracket formula equals the stateless interpolation. -/
theorem scanBracket_value {xp fp : List ℚ} {x : ℚ} (h0 : searchsortedLeft xp x ≠ 0)
    (hn : searchsortedLeft xp x ≠ xp.length) :
    (scanBracket xp fp (searchsortedLeft xp x)).intercept
      + (x - (scanBracket xp fp (searchsortedLeft xp x)).xLower) * (scanBracket xp fp (searchsortedLeft xp x)).slope
      = fastInterpX xp fp x := by
  unfold fastInterpX scanBracket
  simp only [h0, hn, if_false]
  by_cases hg : xp.getD (searchsortedLeft xp x) 0 - xp.getD (searchsortedLeft xp x - 1) 0 < interpEps
  · rw [if_pos hg, if_neg (not_le.2 hg)]; ring
  · rw [if_neg hg, if_pos (not_lt.1 hg)]; ring

/-- Loop invariant of the ordered scan. -/
def ScanInv (xp fp : List ℚ) (s : ScanState) : Prop :=
  s.ind ≤ xp.length ∧ (s.ind ≠ 0 → s.ind ≠ xp.length → s = scanBracket xp fp s.ind)

theorem scanLoop_ordered (xp fp : List ℚ) (xs : List ℚ) (s : ScanState)
    (hinv : ScanInv xp fp s) (hbelow : ∀ x ∈ xs, ∀ i, i < s.ind → xp.getD i 0 < x)
    (hs : xs.Pairwise (· ≤ ·)) : scanLoop true xp fp s xs = xs.map (fastInterpX xp fp) := by
  induction xs generalizing s with
  | nil => rfl
  | cons x xs ih =>
    rw [List.pairwise_cons] at hs
    have hadv : scanAdvance xp x s.ind = searchsortedLeft xp x :=
      scanAdvance_eq hinv.1 (hbelow x (by simp))
    have key : (scanStep true xp fp s x).2 = fastInterpX xp fp x ∧
        (scanStep true xp fp s x).1.ind = searchsortedLeft xp x ∧ ScanInv xp fp (scanStep true xp fp s x).1 := by
      unfold scanStep
      simp only [if_true, hadv, Bool.true_and, Bool.not_true, Bool.or_false, decide_eq_true_eq]
      by_cases h0 : searchsortedLeft xp x = 0
      · simp only [h0, if_true]
        refine ⟨(fastInterpX_zero h0).symm, trivial, ?_⟩
        exact ⟨by simp, fun h => absurd rfl h⟩
      by_cases hn : searchsortedLeft xp x = xp.length
      · rw [if_neg h0, if_pos hn]
        refine ⟨(fastInterpX_last h0 hn).symm, rfl, ?_⟩
        exact ⟨by simp [hn], fun _ h => absurd hn h⟩
      rw [if_neg h0, if_neg hn]
      by_cases hr : searchsortedLeft xp x = s.ind
      · have hb : s = scanBracket xp fp s.ind := hinv.2 (by omega) (by omega)
        have hv := scanBracket_value (fp := fp) h0 hn
        rw [hr, ← hb] at hv
        rw [hr]
        simp only [ne_eq, not_true, if_false]
        exact ⟨hv, trivial, hinv⟩
      · simp only [ne_eq, hr, not_false_eq_true, if_true]
        refine ⟨scanBracket_value h0 hn, rfl, ?_⟩
        exact ⟨ss_le _ _, fun _ _ => rfl⟩
    obtain ⟨hv, hi, hI⟩ := key
    simp only [scanLoop, List.map_cons, hv]
    congr 1
    apply ih _ hI _ hs.2
    intro y hy i hi'
    rw [hi] at hi'
    exact lt_of_lt_of_le (ss_lt hi') (hs.1 y hy)

theorem scanLoop_unordered (xp fp : List ℚ) (xs : List ℚ) (s : ScanState) :
    scanLoop false xp fp s xs = xs.map (fastInterpX xp fp) := by
  induction xs generalizing s with
  | nil => rfl
  | cons x xs ih =>
    have hv : (scanStep false xp fp s x).2 = fastInterpX xp fp x := by
      unfold scanStep
      simp only [Bool.false_eq_true, if_false, Bool.false_and, Bool.not_false, Bool.or_true, if_true]
      by_cases h0 : searchsortedLeft xp x = 0
      · simp only [h0, if_true]; exact (fastInterpX_zero h0).symm
      by_cases hn : searchsortedLeft xp x = xp.length
      · rw [if_neg h0, if_pos hn]; exact (fastInterpX_last h0 hn).symm
      rw [if_neg h0, if_neg hn]
      exact scanBracket_value h0 hn
    simp only [scanLoop, List.map_cons, hv, ih]

theorem xOrdered_iff : ∀ (l : List ℚ), xOrdered l = true → l.Pairwise (· ≤ ·)
  | [], _ => by simp
  | [_], _ => by simp
  | a :: b :: l, h => by
    unfold xOrdered at h
    split_ifs at h with hab
    push Not at hab
    have ih := xOrdered_iff (b :: l) h
    rw [List.pairwise_cons]
    refine ⟨?_, ih⟩
    intro c hc
    rcases List.mem_cons.1 hc with rfl | hc
    · exact hab
    · exact hab.trans ((List.pairwise_cons.1 ih).1 c hc)

theorem scanLoop_eq (xp fp xs : List ℚ) :
    scanLoop (xOrdered xs) xp fp ⟨0, 0, 0, 0⟩ xs = xs.map (fastInterpX xp fp) := by
  cases h : xOrdered xs
  · exact scanLoop_unordered _ _ _ _
  · exact scanLoop_ordered _ _ _ _ ⟨by simp, fun h => absurd rfl h⟩ (by simp) (xOrdered_iff _ h)

end Improver
