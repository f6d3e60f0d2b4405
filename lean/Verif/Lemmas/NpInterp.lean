import Verif.Props.Interp

/-! Facts about the model of `np.interp`. -/

namespace Improver

/-- Number of abscissae not above `x`. -/
def cntLe (xp : List ℚ) (x : ℚ) : ℕ := (xp.takeWhile (fun a => decide (a ≤ x))).length

theorem cntLe_le_val {xp : List ℚ} {x : ℚ} {i : ℕ} (h : i < cntLe xp x) : xp.getD i 0 ≤ x :=
  (tw_le_spec xp x).1 i h

theorem cntLe_lt_val {xp : List ℚ} {x : ℚ} (h : cntLe xp x < xp.length) : x < xp.getD (cntLe xp x) 0 :=
  (tw_le_spec xp x).2.1 h

theorem cntLe_le (xp : List ℚ) (x : ℚ) : cntLe xp x ≤ xp.length := (tw_le_spec xp x).2.2

theorem cntLe_mono (xp : List ℚ) {x y : ℚ} (h : x ≤ y) : cntLe xp x ≤ cntLe xp y := by
  by_contra hc
  push Not at hc
  have h1 := cntLe_le_val hc
  have h2 := cntLe_lt_val (xp := xp) (x := y) (lt_of_lt_of_le hc (cntLe_le _ _))
  linarith

theorem cntLe_unique {xp : List ℚ} {x : ℚ} {k : ℕ} (hk : k ≤ xp.length) (h1 : ∀ i, i < k → xp.getD i 0 ≤ x)
    (h2 : k < xp.length → x < xp.getD k 0) : cntLe xp x = k := by
  rcases lt_trichotomy (cntLe xp x) k with h | h | h
  · have := cntLe_lt_val (xp := xp) (x := x) (by omega)
    have := h1 _ h
    linarith
  · exact h
  · have := cntLe_le_val h
    have := h2 (lt_of_lt_of_le h (cntLe_le _ _))
    linarith

/-- Closed form of `np.interp` on ascending abscissae. -/
theorem npInterp_eq {xp fp : List ℚ} (hs : xp.Pairwise (· ≤ ·)) (hn : 0 < xp.length) (x : ℚ) :
    npInterp xp fp x =
      if cntLe xp x = 0 then fp.getD 0 0
      else if cntLe xp x = xp.length then fp.getD (xp.length - 1) 0
      else (fp.getD (cntLe xp x) 0 - fp.getD (cntLe xp x - 1) 0)
          / (xp.getD (cntLe xp x) 0 - xp.getD (cntLe xp x - 1) 0) * (x - xp.getD (cntLe xp x - 1) 0)
          + fp.getD (cntLe xp x - 1) 0 := by
  unfold npInterp
  simp only []
  have hfold : (xp.takeWhile (fun a => decide (a ≤ x))).length = cntLe xp x := rfl
  simp only [hfold]
  by_cases hl : xp.getD (xp.length - 1) 0 < x
  · rw [if_pos hl]
    have : cntLe xp x = xp.length :=
      cntLe_unique le_rfl (fun i hi => le_trans (getD_mono hs (by omega) (by omega)) hl.le) (fun h => by omega)
    rw [if_neg (by omega), if_pos this]
  · rw [if_neg hl]
    by_cases h0 : x < xp.getD 0 0
    · rw [if_pos h0]
      have : cntLe xp x = 0 := cntLe_unique (by omega) (fun i hi => by omega) (fun _ => h0)
      rw [if_pos this]
    · rw [if_neg h0]
      have hpos : cntLe xp x ≠ 0 := by
        intro h
        have := cntLe_lt_val (xp := xp) (x := x) (by omega)
        rw [h] at this
        exact h0 this
      rw [if_neg hpos]
      by_cases hj : cntLe xp x = xp.length
      · rw [if_pos (by omega), if_pos hj, hj]
      · have := cntLe_le xp x
        rw [if_neg (by omega), if_neg hj]
        have e : cntLe xp x - 1 + 1 = cntLe xp x := by omega
        rw [e]
        by_cases hx : xp.getD (cntLe xp x - 1) 0 = x
        · rw [if_pos hx, hx]; simp
        · rw [if_neg hx]

theorem npInterp_bracket {xp fp : List ℚ} (hs : xp.Pairwise (· ≤ ·)) (hl : fp.length = xp.length)
    (hf : fp.Pairwise (· ≤ ·)) {x : ℚ} (h0 : cntLe xp x ≠ 0) (hn : cntLe xp x ≠ xp.length) :
    fp.getD (cntLe xp x - 1) 0 ≤ npInterp xp fp x ∧ npInterp xp fp x ≤ fp.getD (cntLe xp x) 0 := by
  have hle := cntLe_le xp x
  have hlt : cntLe xp x < xp.length := by omega
  rw [npInterp_eq hs (by omega), if_neg h0, if_neg hn]
  have h1 := cntLe_le_val (xp := xp) (x := x) (i := cntLe xp x - 1) (by omega)
  have h2 := cntLe_lt_val hlt
  have hfm := getD_mono hf (i := cntLe xp x - 1) (j := cntLe xp x) (by omega) (by omega)
  set a := fp.getD (cntLe xp x - 1) 0
  set b := fp.getD (cntLe xp x) 0
  set p := xp.getD (cntLe xp x - 1) 0
  set q := xp.getD (cntLe xp x) 0
  have hqp : 0 < q - p := by linarith
  have ht0 : 0 ≤ (x - p) / (q - p) := div_nonneg (by linarith) hqp.le
  have ht1 : (x - p) / (q - p) ≤ 1 := (div_le_one hqp).2 (by linarith)
  have e : (b - a) / (q - p) * (x - p) + a = (b - a) * ((x - p) / (q - p)) + a := by ring
  rw [e]
  have hba : 0 ≤ b - a := by linarith
  constructor
  · have := mul_nonneg hba ht0; linarith
  · have := mul_le_mul_of_nonneg_left ht1 hba; linarith

theorem npInterp_range {xp fp : List ℚ} (hs : xp.Pairwise (· ≤ ·)) (hn : 0 < xp.length)
    (hl : fp.length = xp.length) (hf : fp.Pairwise (· ≤ ·)) (x : ℚ) :
    fp.getD 0 0 ≤ npInterp xp fp x ∧ npInterp xp fp x ≤ fp.getD (fp.length - 1) 0 := by
  have hle := cntLe_le xp x
  by_cases h0 : cntLe xp x = 0
  · rw [npInterp_eq hs hn, if_pos h0]
    exact ⟨le_rfl, getD_mono hf (by omega) (by omega)⟩
  · by_cases h1 : cntLe xp x = xp.length
    · rw [npInterp_eq hs hn, if_neg h0, if_pos h1, hl]
      exact ⟨getD_mono hf (by omega) (by omega), le_rfl⟩
    · obtain ⟨h2, h3⟩ := npInterp_bracket hs hl hf h0 h1
      exact ⟨le_trans (getD_mono hf (by omega) (by omega)) h2, le_trans h3 (getD_mono hf (by omega) (by omega))⟩

theorem npInterp_mono {xp fp : List ℚ} (hs : xp.Pairwise (· ≤ ·)) (hn : 0 < xp.length)
    (hl : fp.length = xp.length) (hf : fp.Pairwise (· ≤ ·)) {x y : ℚ} (hxy : x ≤ y) :
    npInterp xp fp x ≤ npInterp xp fp y := by
  have hm := cntLe_mono xp hxy
  have hly := cntLe_le xp y
  by_cases h0 : cntLe xp x = 0
  · have : npInterp xp fp x = fp.getD 0 0 := by rw [npInterp_eq hs hn, if_pos h0]
    rw [this]; exact (npInterp_range hs hn hl hf y).1
  by_cases h1 : cntLe xp y = xp.length
  · have : npInterp xp fp y = fp.getD (fp.length - 1) 0 := by
      rw [npInterp_eq hs hn, if_neg (by omega), if_pos h1, hl]
    rw [this]; exact (npInterp_range hs hn hl hf x).2
  have hx1 : cntLe xp x ≠ xp.length := by omega
  have hy0 : cntLe xp y ≠ 0 := by omega
  rcases hm.eq_or_lt with he | hlt
  · rw [npInterp_eq hs hn, npInterp_eq hs hn, if_neg h0, if_neg hx1, if_neg hy0, if_neg h1, he]
    have hg1 := cntLe_le_val (xp := xp) (x := y) (i := cntLe xp y - 1) (by omega)
    have hg2 := cntLe_lt_val (xp := xp) (x := y) (by omega)
    have hfm := getD_mono hf (i := cntLe xp y - 1) (j := cntLe xp y) (by omega) (by omega)
    have hsl : 0 ≤ (fp.getD (cntLe xp y) 0 - fp.getD (cntLe xp y - 1) 0)
        / (xp.getD (cntLe xp y) 0 - xp.getD (cntLe xp y - 1) 0) := div_nonneg (by linarith) (by linarith)
    have := mul_le_mul_of_nonneg_left (sub_le_sub_right hxy (xp.getD (cntLe xp y - 1) 0)) hsl
    linarith
  · have a := (npInterp_bracket hs hl hf h0 hx1).2
    have b := (npInterp_bracket hs hl hf hy0 h1).1
    exact le_trans a (le_trans (getD_mono hf (by omega) (by omega)) b)

/-- At an abscissa the result is the ordinate of the last equal abscissa. -/
theorem npInterp_at {xp fp : List ℚ} (hs : xp.Pairwise (· ≤ ·)) {k : ℕ} (hk : k < xp.length)
    (hlast : k + 1 < xp.length → xp.getD k 0 < xp.getD (k + 1) 0) :
    npInterp xp fp (xp.getD k 0) = fp.getD k 0 := by
  have hc : cntLe xp (xp.getD k 0) = k + 1 :=
    cntLe_unique (by omega) (fun i hi => getD_mono hs (by omega) hk) hlast
  rw [npInterp_eq hs (by omega), hc, if_neg (by omega)]
  by_cases h : k + 1 = xp.length
  · rw [if_pos h, ← h]; simp
  · rw [if_neg h]; simp

end Improver
