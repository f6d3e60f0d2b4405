import Verif.Model.NbhoodMore
import Verif.Props.Nbhood
import Verif.Props.Spatial
import Verif.Props.LapseRate
import Mathlib.Data.Int.Interval

/-! C86: circular neighbourhoods. -/

namespace Improver

/-! ### Specification -/

/-- Index of an axis of length `n` nearest to the integer `z`. -/
def Spec.clamp (n : ℕ) (z : ℤ) : ℕ := (max 0 (min z ((n : ℤ) - 1))).toNat

/-- Weights of a circular neighbourhood of `r` cells at the offset `(dy, dx)`: one inside the circle, or falling off from the centre to
the edge. -/
def Spec.circleWeight (weighted : Bool) (r : ℕ) (dy dx : ℤ) : ℚ :=
  if weighted then max 0 (1 - ((dy : ℚ) ^ 2 + (dx : ℚ) ^ 2) / (r : ℚ) ^ 2)
  else if dy ^ 2 + dx ^ 2 ≤ (r : ℤ) ^ 2 then 1 else 0

/-- Weighted sum over the offsets within `r` cells in each direction, the edge of the grid being repeated outwards. -/
def Spec.circleSum (h w r : ℕ) (weighted : Bool) (f : ℕ → ℕ → ℚ) (y x : ℕ) : ℚ :=
  ∑ dy ∈ Finset.Icc (-(r : ℤ)) r, ∑ dx ∈ Finset.Icc (-(r : ℤ)) r,
    Spec.circleWeight weighted r dy dx * f (Spec.clamp h (y + dy)) (Spec.clamp w (x + dx))

theorem sum_range_Icc (r : ℕ) (g : ℤ → ℚ) :
    ∑ a ∈ Finset.range (2 * r + 1), g ((a : ℤ) - r) = ∑ d ∈ Finset.Icc (-(r : ℤ)) r, g d := by
  apply Finset.sum_bij (fun (a : ℕ) _ => (a : ℤ) - r)
  · intro a ha
    rw [Finset.mem_range] at ha
    rw [Finset.mem_Icc]; omega
  · intro a _ b _ hab
    have : (a : ℤ) - r = (b : ℤ) - r := hab
    omega
  · intro d hd
    rw [Finset.mem_Icc] at hd
    refine ⟨(d + r).toNat, ?_, ?_⟩
    · rw [Finset.mem_range]; omega
    · change ((d + r).toNat : ℤ) - r = d
      omega
  · intro a _; rfl

theorem nearIdx_clamp {n r c a : ℕ} (hn : 0 < n) : nearIdx n r c a = Spec.clamp n ((c : ℤ) + ((a : ℤ) - r)) := by
  unfold nearIdx Spec.clamp
  omega

theorem circularKernel_eq (r : ℕ) (hr : 0 < r) (weighted : Bool) (a b : ℕ) :
    circularKernel r weighted a b = Spec.circleWeight weighted r ((a : ℤ) - r) ((b : ℤ) - r) := by
  have hrq : (0 : ℚ) < (r : ℚ) := by exact_mod_cast hr
  unfold circularKernel Spec.circleWeight
  cases weighted
  · simp only [Bool.false_eq_true, if_false]
    have : (((a : ℚ) - r) ^ 2 + ((b : ℚ) - r) ^ 2 > (r : ℚ) * r) ↔
        ¬ (((a : ℤ) - r) ^ 2 + ((b : ℤ) - r) ^ 2 ≤ (r : ℤ) ^ 2) := by
      rw [not_le, gt_iff_lt]
      have h2 : ((r : ℚ) * r) = (((r : ℤ) ^ 2 : ℤ) : ℚ) := by push_cast; ring
      have h3 : ((a : ℚ) - r) ^ 2 + ((b : ℚ) - r) ^ 2 = ((((a : ℤ) - r) ^ 2 + ((b : ℤ) - r) ^ 2 : ℤ) : ℚ) := by
        push_cast; ring
      rw [h2, h3, Int.cast_lt]
    by_cases hc : ((a : ℤ) - r) ^ 2 + ((b : ℤ) - r) ^ 2 ≤ (r : ℤ) ^ 2
    · rw [if_pos hc, if_neg (fun h => this.1 h hc)]
    · rw [if_neg hc, if_pos (this.2 hc)]
  · simp only [if_true]
    have e : ((r : ℚ) * r - (((a : ℚ) - r) ^ 2 + ((b : ℚ) - r) ^ 2)) / ((r : ℚ) * r)
        = 1 - (((((a : ℤ) - r : ℤ) : ℚ)) ^ 2 + ((((b : ℤ) - r : ℤ) : ℚ)) ^ 2) / (r : ℚ) ^ 2 := by
      push_cast
      field_simp
    rw [e]
    by_cases hc : 1 - (((((a : ℤ) - r : ℤ) : ℚ)) ^ 2 + ((((b : ℤ) - r : ℤ) : ℚ)) ^ 2) / (r : ℚ) ^ 2 < 0
    · rw [if_pos hc, max_eq_left hc.le]
    · rw [if_neg hc, max_eq_right (not_lt.1 hc)]

theorem correlate_eq (h w r : ℕ) (hh : 0 < h) (hw : 0 < w) (hr : 0 < r) (weighted : Bool) (f : ℕ → ℕ → ℚ) (y x : ℕ) :
    correlateNearest h w r (circularKernel r weighted) f y x = Spec.circleSum h w r weighted f y x := by
  unfold correlateNearest Spec.circleSum
  rw [← sum_range_Icc r (fun dy => ∑ dx ∈ Finset.Icc (-(r : ℤ)) r,
    Spec.circleWeight weighted r dy dx * f (Spec.clamp h (y + dy)) (Spec.clamp w (x + dx)))]
  apply Finset.sum_congr rfl
  intro a _
  rw [← sum_range_Icc r (fun dx => Spec.circleWeight weighted r ((a : ℤ) - r) dx *
    f (Spec.clamp h (y + ((a : ℤ) - r))) (Spec.clamp w (x + dx)))]
  apply Finset.sum_congr rfl
  intro b _
  rw [circularKernel_eq r hr, nearIdx_clamp hh, nearIdx_clamp hw]

/-! ### The shortcut -/

theorem head_mem {l : List ℕ} (h : l ≠ []) : l.headD 0 ∈ l := by
  cases l with
  | nil => exact absurd rfl h
  | cons a l => simp

/-- Rows and columns of the box bounds. -/
theorem extremeBox_rows {h w r : ℕ} {f : ℕ → ℕ → ℚ} {e : ℚ} (hne : nonextremeRows h w f e ≠ []) {i j : ℕ} (hi : i < h)
    (hj : j < w) :
    ((i < (extremeBox h w r f e).y0 + r ∧ 0 < (extremeBox h w r f e).y0) ∨
      ((extremeBox h w r f e).y1 ≤ i + r ∧ (extremeBox h w r f e).y1 < h) ∨
      (j < (extremeBox h w r f e).x0 + r ∧ 0 < (extremeBox h w r f e).x0) ∨
      ((extremeBox h w r f e).x1 ≤ j + r ∧ (extremeBox h w r f e).x1 < w)) → f i j = e := by
  intro hcase
  by_contra hv
  have hrow : i ∈ nonextremeRows h w f e := mem_nonextremeRows.2 ⟨hi, j, hj, hv⟩
  have hcol : j ∈ nonextremeCols h w f e := mem_nonextremeCols.2 ⟨hj, i, hi, hv⟩
  have a1 := sorted_head_le (rows_sorted h w f e) hrow
  have a2 := sorted_le_last (rows_sorted h w f e) hrow
  have b1 := sorted_head_le (cols_sorted h w f e) hcol
  have b2 := sorted_le_last (cols_sorted h w f e) hcol
  unfold extremeBox at hcase
  simp only [] at hcase
  rw [if_neg hne] at hcase
  simp only at hcase
  omega

theorem nearIdx_trim {n r c a y0 y1 : ℕ} (h0 : y0 ≤ c) (h1 : c < y1) (hn : y1 ≤ n) (ha : a < 2 * r + 1) :
    nearIdx (y1 - y0) r (c - y0) a + y0 < n ∧ nearIdx n r c a < n ∧
    (nearIdx (y1 - y0) r (c - y0) a + y0 = nearIdx n r c a ∨
      (nearIdx (y1 - y0) r (c - y0) a + y0 < y0 + r ∧ nearIdx n r c a < y0 + r ∧ 0 < y0) ∨
      (y1 ≤ nearIdx (y1 - y0) r (c - y0) a + y0 + r ∧ y1 ≤ nearIdx n r c a + r ∧ y1 < n)) := by
  unfold nearIdx
  omega

/-- Inside the box, the value read in the trimmed grid is the value read in the whole grid. -/
theorem trimmed_read {h w r : ℕ} {f : ℕ → ℕ → ℚ} {e : ℚ} {y x : ℕ} {a c : ℕ} (ha : a < 2 * r + 1) (hc : c < 2 * r + 1)
    (hin : (extremeBox h w r f e).y0 ≤ y ∧ y < (extremeBox h w r f e).y1 ∧
      (extremeBox h w r f e).x0 ≤ x ∧ x < (extremeBox h w r f e).x1) :
    f (nearIdx ((extremeBox h w r f e).y1 - (extremeBox h w r f e).y0) r (y - (extremeBox h w r f e).y0) a
        + (extremeBox h w r f e).y0)
      (nearIdx ((extremeBox h w r f e).x1 - (extremeBox h w r f e).x0) r (x - (extremeBox h w r f e).x0) c
        + (extremeBox h w r f e).x0)
      = f (nearIdx h r y a) (nearIdx w r x c) := by
  obtain ⟨hle1, hle2⟩ := @extremeBox_le h w r f e
  have hne : nonextremeRows h w f e ≠ [] := by
    intro hn
    unfold extremeBox at hin
    simp only [hn, if_true] at hin
    omega
  have key := fun {i j} => @extremeBox_rows h w r f e hne i j
  set b := extremeBox h w r f e with hb
  obtain ⟨h1, h2, h3, h4⟩ := hin
  obtain ⟨r1, r2, r3⟩ := nearIdx_trim (r := r) h1 h2 hle1 ha
  obtain ⟨c1, c2, c3⟩ := nearIdx_trim (r := r) h3 h4 hle2 hc
  rcases r3 with r3 | ⟨r3, r4, r5⟩ | ⟨r3, r4, r5⟩
  · rcases c3 with c3 | ⟨c3, c4, c5⟩ | ⟨c3, c4, c5⟩
    · rw [r3, c3]
    · rw [key r1 c1 (.inr (.inr (.inl ⟨c3, c5⟩))), key r2 c2 (.inr (.inr (.inl ⟨c4, c5⟩)))]
    · rw [key r1 c1 (.inr (.inr (.inr ⟨c3, c5⟩))), key r2 c2 (.inr (.inr (.inr ⟨c4, c5⟩)))]
  · rw [key r1 c1 (.inl ⟨r3, r5⟩), key r2 c2 (.inl ⟨r4, r5⟩)]
  · rw [key r1 c1 (.inr (.inl ⟨r3, r5⟩)), key r2 c2 (.inr (.inl ⟨r4, r5⟩))]

/-- The circular sum with a chosen shortcut is the sum over the whole grid. -/
theorem circular_shortcut (h w r : ℕ) (k f : ℕ → ℕ → ℚ) (e : ℚ) (fill : ℕ → ℕ → ℚ) (y x : ℕ) (hy : y < h) (hx : x < w)
    (hfill : (∀ i j, i < h → j < w → Spec.near r y i → Spec.near r x j → f i j = e) →
      fill y x = correlateNearest h w r k f y x) :
    let b := extremeBox h w r f e
    (if b.size = 0 then fill y x
     else if b.y0 ≤ y ∧ y < b.y1 ∧ b.x0 ≤ x ∧ x < b.x1 then
      correlateNearest (b.y1 - b.y0) (b.x1 - b.x0) r k (fun i j => f (i + b.y0) (j + b.x0)) (y - b.y0) (x - b.x0)
     else fill y x) = correlateNearest h w r k f y x := by
  intro b
  by_cases hin : b.y0 ≤ y ∧ y < b.y1 ∧ b.x0 ≤ x ∧ x < b.x1
  · have hs : ¬ b.size = 0 := by
      unfold Box.size
      have h1 : 0 < b.y1 - b.y0 := by omega
      have h2 : 0 < b.x1 - b.x0 := by omega
      exact (Nat.mul_pos h1 h2).ne'
    rw [if_neg hs, if_pos hin]
    unfold correlateNearest
    apply Finset.sum_congr rfl
    intro a ha
    apply Finset.sum_congr rfl
    intro c hc
    congr 1
    exact trimmed_read (Finset.mem_range.1 ha) (Finset.mem_range.1 hc) hin
  · have hf := hfill (fun i j hi hj h1 h2 => by
      by_contra hne
      exact hin (mem_extremeBox hi hj hne hy hx h1 h2))
    by_cases hs : b.size = 0
    · rw [if_pos hs, hf]
    · rw [if_neg hs, if_neg hin, hf]

theorem nearIdx_near {n r c a : ℕ} (hc : c < n) (ha : a < 2 * r + 1) : nearIdx n r c a < n ∧ Spec.near r c (nearIdx n r c a) := by
  unfold nearIdx
  simp only [near_iff]
  omega

theorem correlate_const (h w r : ℕ) (k f g : ℕ → ℕ → ℚ) (y x : ℕ) (hy : y < h) (hx : x < w)
    (hz : ∀ i j, i < h → j < w → Spec.near r y i → Spec.near r x j → f i j = g i j) :
    correlateNearest h w r k f y x = correlateNearest h w r k g y x := by
  unfold correlateNearest
  apply Finset.sum_congr rfl
  intro a ha
  apply Finset.sum_congr rfl
  intro c hc
  obtain ⟨a1, a2⟩ := nearIdx_near hy (Finset.mem_range.1 ha)
  obtain ⟨b1, b2⟩ := nearIdx_near hx (Finset.mem_range.1 hc)
  rw [hz _ _ a1 b1 a2 b2]

theorem no_circular_shortcut (h w r : ℕ) (k f : ℕ → ℕ → ℚ) (y x : ℕ) (hy : y < h) (hx : x < w) :
    (if h * w = 0 then (0 : ℚ)
     else if 0 ≤ y ∧ y < h ∧ 0 ≤ x ∧ x < w then
      correlateNearest (h - 0) (w - 0) r k (fun i j => f (i + 0) (j + 0)) (y - 0) (x - 0)
     else 0) = correlateNearest h w r k f y x := by
  rw [if_neg (Nat.mul_pos (by omega) (by omega)).ne', if_pos ⟨by omega, hy, by omega, hx⟩]
  simp

/-- Whatever shortcut is chosen, the sum is that over the whole grid, if the array of default sums is right where the data
is one throughout the window. -/
theorem circular_exact (h w r : ℕ) (k f : ℕ → ℕ → ℚ) (m : Option (ℕ → ℕ → ℚ)) (y x : ℕ) (hy : y < h) (hx : x < w)
    (hm : ∀ g, m = some g → (∀ i j, i < h → j < w → Spec.near r y i → Spec.near r x j → f i j = 1) →
      g y x = correlateNearest h w r k f y x) :
    doCircularSum h w r k f m y x = correlateNearest h w r k f y x := by
  have hzero : (∀ i j, i < h → j < w → Spec.near r y i → Spec.near r x j → f i j = 0) →
      (0 : ℚ) = correlateNearest h w r k f y x := by
    intro hz
    rw [correlate_const h w r k f (fun _ _ => 0) y x hy hx hz]
    unfold correlateNearest
    simp
  have key0 := circular_shortcut h w r k f 0 (fun _ _ => 0) y x hy hx hzero
  unfold doCircularSum findShortcut
  simp only []
  by_cases hs0 : (extremeBox h w r f 0).size < h * w
  · have e1 : shortcutStep h w r f ⟨h * w, 0, fun _ _ => 0, ⟨0, h, 0, w⟩⟩ 0 (fun _ _ => 0)
        = ⟨(extremeBox h w r f 0).size, 0, fun _ _ => 0, extremeBox h w r f 0⟩ := by
      unfold shortcutStep; simp only []; rw [if_pos hs0]
    rw [e1]
    cases m with
    | none => exact key0
    | some g =>
      simp only []
      have key1 := circular_shortcut h w r k f 1 g y x hy hx (hm g rfl)
      by_cases hs1 : (extremeBox h w r f 1).size < (extremeBox h w r f 0).size
      · have e2 : shortcutStep h w r f ⟨(extremeBox h w r f 0).size, 0, fun _ _ => 0, extremeBox h w r f 0⟩ 1 g
            = ⟨(extremeBox h w r f 1).size, 1, g, extremeBox h w r f 1⟩ := by
          unfold shortcutStep; simp only []; rw [if_pos hs1]
        rw [e2]; exact key1
      · have e2 : shortcutStep h w r f ⟨(extremeBox h w r f 0).size, 0, fun _ _ => 0, extremeBox h w r f 0⟩ 1 g
            = ⟨(extremeBox h w r f 0).size, 0, fun _ _ => 0, extremeBox h w r f 0⟩ := by
          unfold shortcutStep; simp only []; rw [if_neg hs1]
        rw [e2]; exact key0
  · have e1 : shortcutStep h w r f ⟨h * w, 0, fun _ _ => 0, ⟨0, h, 0, w⟩⟩ 0 (fun _ _ => 0)
        = ⟨h * w, 0, fun _ _ => 0, ⟨0, h, 0, w⟩⟩ := by
      unfold shortcutStep; simp only []; rw [if_neg hs0]
    rw [e1]
    have keyn := no_circular_shortcut h w r k f y x hy hx
    cases m with
    | none => exact keyn
    | some g =>
      simp only []
      have key1 := circular_shortcut h w r k f 1 g y x hy hx (hm g rfl)
      by_cases hs1 : (extremeBox h w r f 1).size < h * w
      · have e2 : shortcutStep h w r f ⟨h * w, 0, fun _ _ => 0, ⟨0, h, 0, w⟩⟩ 1 g
            = ⟨(extremeBox h w r f 1).size, 1, g, extremeBox h w r f 1⟩ := by
          unfold shortcutStep; simp only []; rw [if_pos hs1]
        rw [e2]; exact key1
      · have e2 : shortcutStep h w r f ⟨h * w, 0, fun _ _ => 0, ⟨0, h, 0, w⟩⟩ 1 g
            = ⟨h * w, 0, fun _ _ => 0, ⟨0, h, 0, w⟩⟩ := by
          unfold shortcutStep; simp only []; rw [if_neg hs1]
        rw [e2]; exact keyn

/-! ### C86 -/

/-- C86.  Circular neighbourhood sums are the weighted sums of the valid values over the circle (edges repeated outwards), whatever the
data: the shortcut over zeros never changes the answer. -/
theorem C86_sum (h w r : ℕ) (hr : 0 < r) (weighted : Bool) (valid : ℕ → ℕ → Bool) (f : ℕ → ℕ → ℚ) (y x : ℕ)
    (hy : y < h) (hx : x < w) :
    circularSum h w r weighted valid f y x =
      Spec.circleSum h w r weighted (fun i j => if valid i j then f i j else 0) y x := by
  unfold circularSum
  rw [circular_exact h w r _ _ none y x hy hx (fun g hg => by cases hg),
    correlate_eq h w r (by omega) (by omega) hr]
  rfl

theorem circleWeight_nonneg (weighted : Bool) (r : ℕ) (dy dx : ℤ) : 0 ≤ Spec.circleWeight weighted r dy dx := by
  unfold Spec.circleWeight
  cases weighted
  · simp only [Bool.false_eq_true, if_false]; split_ifs <;> norm_num
  · simp only [if_true]; exact le_max_left _ _

theorem clamp_lt {n : ℕ} (hn : 0 < n) (z : ℤ) : Spec.clamp n z < n := by
  unfold Spec.clamp; omega

theorem circleSum_mono (h w r : ℕ) (weighted : Bool) (f g : ℕ → ℕ → ℚ) (y x : ℕ) (hh : 0 < h) (hw : 0 < w)
    (hfg : ∀ i j, i < h → j < w → f i j ≤ g i j) :
    Spec.circleSum h w r weighted f y x ≤ Spec.circleSum h w r weighted g y x := by
  unfold Spec.circleSum
  apply Finset.sum_le_sum; intro dy _
  apply Finset.sum_le_sum; intro dx _
  exact mul_le_mul_of_nonneg_left (hfg _ _ (clamp_lt hh _) (clamp_lt hw _)) (circleWeight_nonneg _ _ _ _)

theorem circleSum_smul (h w r : ℕ) (weighted : Bool) (f : ℕ → ℕ → ℚ) (c : ℚ) (y x : ℕ) :
    Spec.circleSum h w r weighted (fun i j => c * f i j) y x = c * Spec.circleSum h w r weighted f y x := by
  unfold Spec.circleSum
  rw [Finset.mul_sum]
  apply Finset.sum_congr rfl; intro dy _
  rw [Finset.mul_sum]
  apply Finset.sum_congr rfl; intro dx _
  ring

/-- C86.  Circular neighbourhood means are the weighted means of the valid values over the circle (edges repeated outwards): missing
where the valid points have no weight, and the shortcuts over zeros and ones never change the answer; nor does the final
clipping to the range of the data. -/
theorem C86_mean (h w r : ℕ) (hr : 0 < r) (weighted : Bool) (valid : ℕ → ℕ → Bool) (f : ℕ → ℕ → ℚ) (lo hi : ℚ)
    (hb : ∀ i j, i < h → j < w → valid i j = true → lo ≤ f i j ∧ f i j ≤ hi) (y x : ℕ) (hy : y < h) (hx : x < w) :
    circularMean h w r weighted valid f lo hi y x =
      (let area := Spec.circleSum h w r weighted (fun i j => if valid i j then 1 else 0) y x
       if area = 0 then none
       else some (Spec.circleSum h w r weighted (fun i j => if valid i j then f i j else 0) y x / area)) := by
  have hh : 0 < h := by omega
  have hw : 0 < w := by omega
  have harea : ∀ i j, i < h → j < w → doCircularSum h w r (circularKernel r weighted) (validOnes valid) none i j
      = Spec.circleSum h w r weighted (fun i j => if valid i j then 1 else 0) i j := by
    intro i j hi hj
    rw [circular_exact h w r _ _ none i j hi hj (fun g hg => by cases hg), correlate_eq h w r hh hw hr]
    rfl
  have htot : doCircularSum h w r (circularKernel r weighted) (zeroInvalid valid f)
      (some (fun i j => doCircularSum h w r (circularKernel r weighted) (validOnes valid) none i j)) y x
      = Spec.circleSum h w r weighted (fun i j => if valid i j then f i j else 0) y x := by
    rw [circular_exact h w r _ _ _ y x hy hx, correlate_eq h w r hh hw hr]
    · rfl
    · intro g hg hone
      injection hg with hg
      rw [← hg]
      beta_reduce
      rw [circular_exact h w r _ _ none y x hy hx (fun g hg => by cases hg)]
      apply correlate_const h w r _ _ _ y x hy hx
      intro i j hi hj h1 h2
      have := hone i j hi hj h1 h2
      unfold zeroInvalid at this ⊢
      unfold validOnes
      by_cases hv : valid i j = true
      · rw [if_pos hv] at this ⊢; rw [if_pos hv]; exact this.symm
      · rw [if_neg hv] at this; exact absurd this (by norm_num)
  unfold circularMean
  simp only []
  rw [harea y x hy hx, htot]
  by_cases h0 : Spec.circleSum h w r weighted (fun i j => if valid i j then 1 else 0) y x = 0
  · rw [if_pos h0, if_pos h0]
  · rw [if_neg h0, if_neg h0]
    congr 1
    have hz : Spec.circleSum h w r weighted (fun _ _ => 0) y x = 0 := by
      have := circleSum_smul h w r weighted (fun _ _ => 0) 0 y x
      simpa using this
    have hpos : 0 < Spec.circleSum h w r weighted (fun i j => if valid i j then 1 else 0) y x := by
      refine lt_of_le_of_ne ?_ (Ne.symm h0)
      refine le_of_eq_of_le hz.symm ?_
      exact circleSum_mono h w r weighted _ _ y x hh hw (fun i j _ _ => by beta_reduce; split_ifs <;> norm_num)
    have b1 : lo * Spec.circleSum h w r weighted (fun i j => if valid i j then 1 else 0) y x
        ≤ Spec.circleSum h w r weighted (fun i j => if valid i j then f i j else 0) y x := by
      rw [← circleSum_smul]
      apply circleSum_mono h w r weighted _ _ y x hh hw
      intro i j hi hj
      beta_reduce
      by_cases hv : valid i j = true
      · rw [if_pos hv, if_pos hv, mul_one]; exact (hb i j hi hj hv).1
      · rw [if_neg hv, if_neg hv, mul_zero]
    have b2 : Spec.circleSum h w r weighted (fun i j => if valid i j then f i j else 0) y x
        ≤ hi * Spec.circleSum h w r weighted (fun i j => if valid i j then 1 else 0) y x := by
      rw [← circleSum_smul]
      apply circleSum_mono h w r weighted _ _ y x hh hw
      intro i j hi hj
      beta_reduce
      by_cases hv : valid i j = true
      · rw [if_pos hv, if_pos hv, mul_one]; exact (hb i j hi hj hv).2
      · rw [if_neg hv, if_neg hv, mul_zero]
    exact npClip_of_mem ((le_div_iff₀ hpos).2 b1) ((div_le_iff₀ hpos).2 b2)

/-- C86.  A valid point always has a mean: its own weight is one. -/
theorem C86_valid_present (h w r : ℕ) (hr : 0 < r) (weighted : Bool) (valid : ℕ → ℕ → Bool) (f : ℕ → ℕ → ℚ) (lo hi : ℚ)
    (hlh : lo ≤ hi) (y x : ℕ) (hy : y < h) (hx : x < w) (hb : ∀ i j, i < h → j < w → valid i j = true → lo ≤ f i j ∧ f i j ≤ hi)
    (hv : valid y x = true) : ∃ v, circularMean h w r weighted valid f lo hi y x = some v ∧ lo ≤ v ∧ v ≤ hi := by
  have hpos : 0 < Spec.circleSum h w r weighted (fun i j => if valid i j then 1 else 0) y x := by
    have hnn : ∀ dy dx : ℤ, 0 ≤ Spec.circleWeight weighted r dy dx *
        (if valid (Spec.clamp h (y + dy)) (Spec.clamp w (x + dx)) = true then (1 : ℚ) else 0) := by
      intro dy dx
      exact mul_nonneg (circleWeight_nonneg _ _ _ _) (by split_ifs <;> norm_num)
    unfold Spec.circleSum
    apply Finset.sum_pos'
    · intro dy _; exact Finset.sum_nonneg (fun dx _ => hnn dy dx)
    · refine ⟨0, by rw [Finset.mem_Icc]; omega, ?_⟩
      apply Finset.sum_pos'
      · intro dx _; exact hnn 0 dx
      · refine ⟨0, by rw [Finset.mem_Icc]; omega, ?_⟩
        have e1 : Spec.clamp h ((y : ℤ) + 0) = y := by unfold Spec.clamp; omega
        have e2 : Spec.clamp w ((x : ℤ) + 0) = x := by unfold Spec.clamp; omega
        rw [e1, e2]
        beta_reduce
        rw [if_pos hv, mul_one]
        unfold Spec.circleWeight
        cases weighted
        · simp only [Bool.false_eq_true, if_false]; rw [if_pos (by positivity)]; norm_num
        · simp
  have hm := C86_mean h w r hr weighted valid f lo hi hb y x hy hx
  simp only [if_neg hpos.ne'] at hm
  unfold circularMean at hm ⊢
  simp only [] at hm ⊢
  by_cases h0 : doCircularSum h w r (circularKernel r weighted) (validOnes valid) none y x = 0
  · rw [if_pos h0] at hm; cases hm
  · rw [if_neg h0]
    exact ⟨_, rfl, npClip_mem hlh⟩

example : circularMean 5 5 2 false (fun _ _ => true) (fun i j => if i = 2 ∧ j = 2 then 13 else 0) 0 13 2 2 = some 1 := by
  decide +kernel
example : circularMean 3 3 1 false (fun _ _ => true) (fun i j => if i = 0 ∧ j = 0 then 0 else 1) 0 1 0 0 = some (2 / 5) := by
  decide +kernel
example : circularSum 3 3 2 true (fun _ _ => true) (fun i j => (3 * i + j : ℚ)) 1 1 = 24 := by decide +kernel

/-! ### Number of cells of a radius -/

theorem axisExtent_uniform (a d : ℚ) (n : ℕ) (hd : 0 < d) (hn : 1 ≤ n) :
    axisExtent (Spec.uniform a d n) = .ok (d * ((n : ℚ) - 1)) := by
  have hne : Spec.uniform a d n ≠ [] := by
    intro h; have := congrArg List.length h; rw [uniform_length] at this; simp at this; omega
  have hs : (Spec.uniform a d n).Pairwise (· ≤ ·) := by
    unfold Spec.uniform
    rw [List.pairwise_map]
    refine List.Pairwise.imp ?_ (List.pairwise_lt_range (n := n))
    intro i j hij
    have : (i : ℚ) ≤ j := by exact_mod_cast hij.le
    nlinarith
  obtain ⟨h1, h2⟩ := npMax_of_sorted _ hs hne
  have hg : ∀ k, k < n → (Spec.uniform a d n).getD k 0 = a + k * d := by
    intro k hk
    have hk' : k < (Spec.uniform a d n).length := by rw [uniform_length]; exact hk
    rw [List.getD_eq_getElem _ _ hk']
    simp [Spec.uniform]
  rw [uniform_length, hg _ (by omega)] at h1
  rw [hg _ (by omega)] at h2
  unfold axisExtent
  rw [h1, h2]
  simp only [bind, Except.bind, pure, Except.pure]
  congr 1
  have : ((n - 1 : ℕ) : ℚ) = (n : ℚ) - 1 := by push_cast [Nat.cast_sub hn]; ring
  rw [this]
  push_cast
  ring

/-- C86.  Number of grid cells of a radius: refused unless the grid is regular and the radius is positive, at least one cell wide and
at most half the diagonal of the domain; otherwise the number of whole cells in the radius. -/
theorem C86_cells (a d b : ℚ) (n m : ℕ) (hd : 0 < d) (hn : 2 ≤ n) (hm : 2 ≤ m) (radius : ℚ) (hr : 0 < radius) :
    ∀ k, nbCells (Spec.uniform a d n) (Spec.uniform b d m) radius = .ok k ↔
      (4 * radius ^ 2 ≤ (d * ((n : ℚ) - 1)) ^ 2 + (d * ((m : ℚ) - 1)) ^ 2 ∧
        0 < k ∧ (k : ℚ) * d ≤ radius ∧ radius < ((k : ℚ) + 1) * d) := by
  have hspx : gridSpacing (Spec.uniform a d n) = .ok d := by
    have := C69_spacing a d n hn (1 / 100000) (by norm_num); rwa [abs_of_pos hd] at this
  have hspy : gridSpacing (Spec.uniform b d m) = .ok d := by
    have := C69_spacing b d m hm (1 / 100000) (by norm_num); rwa [abs_of_pos hd] at this
  intro k
  have hc := (C69_cells _ d hspx hd radius).1 k
  unfold nbCells checkEqualArea checkRadius
  rw [hspx, hspy, axisExtent_uniform a d n hd (by omega), axisExtent_uniform b d m hd (by omega)]
  have hclose : npIsclose d d = true := by
    unfold npIsclose; simp only [sub_self, abs_zero, decide_eq_true_eq]; positivity
  simp only [bind, Except.bind, hclose, Bool.not_true, Bool.and_false, Bool.false_eq_true, if_false]
  by_cases hbig : 0 < radius ∧ 4 * radius ^ 2 > (d * ((n : ℚ) - 1)) ^ 2 + (d * ((m : ℚ) - 1)) ^ 2
  · rw [if_pos hbig]
    constructor
    · intro h; exact nomatch h
    · rintro ⟨h, _⟩; exact absurd hbig.2 (not_lt.2 h)
  · rw [if_neg hbig, ← hc]
    simp only
    constructor
    · intro h; exact ⟨by by_contra hcon; exact hbig ⟨hr, not_le.1 hcon⟩, h⟩
    · rintro ⟨_, h⟩; exact h

end Improver
