import Verif.Model.Nbhood
import Verif.Lemmas.Rescale
import Mathlib.Data.List.GetD
import Mathlib.Algebra.Order.BigOperators.Group.Finset

/-! Properties C26 and C27: box sums and square neighbourhoods. -/

namespace Improver

/-- Specification: is row `i` within `r` rows of row `y`? -/
def Spec.near (r y i : ℕ) : Prop := y ≤ i + r ∧ i ≤ y + r

instance (r y i : ℕ) : Decidable (Spec.near r y i) := by unfold Spec.near; infer_instance

theorem near_iff {r y i : ℕ} : Spec.near r y i ↔ (y ≤ i + r ∧ i ≤ y + r) := Iff.rfl

/-- Specification: sum of `f` over the grid points in the rectangular window around `(y, x)`. -/
def Spec.windowSum (h w ri rj : ℕ) (f : ℕ → ℕ → ℚ) (y x : ℕ) : ℚ :=
  ∑ i ∈ Finset.range h, ∑ j ∈ Finset.range w, if Spec.near ri y i ∧ Spec.near rj x j then f i j else 0

/-- Number of grid points in the window. -/
def Spec.windowCount (h w ri rj : ℕ) (y x : ℕ) : ℚ := Spec.windowSum h w ri rj (fun _ _ => 1) y x

/-- One-dimensional reindexing between padded and original indices. -/
theorem window_reindex (h r y : ℕ) (g : ℕ → ℚ) :
    (∑ a ∈ Finset.Ico (y + 1) (y + (2 * r + 1) + 1), if r + 1 ≤ a ∧ a < h + r + 1 then g (a - (r + 1)) else 0)
      = ∑ i ∈ Finset.range h, if Spec.near r y i then g i else 0 := by
  have h1 : (∑ i ∈ Finset.range h, if Spec.near r y i then g i else 0)
      = ∑ a ∈ Finset.Ico (r + 1) (h + r + 1), if Spec.near r y (a - (r + 1)) then g (a - (r + 1)) else 0 := by
    rw [Finset.sum_Ico_eq_sum_range]
    have : h + r + 1 - (r + 1) = h := by omega
    rw [this]
    apply Finset.sum_congr rfl
    intro i _
    have : r + 1 + i - (r + 1) = i := by omega
    rw [this]
  rw [h1, ← Finset.sum_filter, ← Finset.sum_filter]
  apply Finset.sum_congr _ (fun _ _ => rfl)
  ext a
  simp only [Finset.mem_filter, Finset.mem_Ico, near_iff]
  omega

theorem cumsum_box (p : ℕ → ℕ → ℚ) (y x si sj : ℕ) :
    cumsum2 p (si + y) (sj + x) - cumsum2 p y (sj + x) + cumsum2 p y x - cumsum2 p (si + y) x
      = ∑ a ∈ Finset.Ico (y + 1) (y + si + 1), ∑ b ∈ Finset.Ico (x + 1) (x + sj + 1), p a b := by
  have hc : ∀ a b, cumsum2 p a b = ∑ i ∈ Finset.range (a + 1), ∑ j ∈ Finset.range (b + 1), p i j := by
    intro a b; unfold cumsum2; rw [Finset.sum_comm]
  have hrow : ∀ b, cumsum2 p (si + y) b - cumsum2 p y b
      = ∑ i ∈ Finset.Ico (y + 1) (y + si + 1), ∑ j ∈ Finset.range (b + 1), p i j := by
    intro b
    rw [hc, hc, Finset.sum_Ico_eq_sub _ (by omega), Nat.add_comm si y]
  have e : cumsum2 p (si + y) (sj + x) - cumsum2 p y (sj + x) + cumsum2 p y x - cumsum2 p (si + y) x
      = (cumsum2 p (si + y) (sj + x) - cumsum2 p y (sj + x)) - (cumsum2 p (si + y) x - cumsum2 p y x) := by ring
  rw [e, hrow, hrow, ← Finset.sum_sub_distrib]
  apply Finset.sum_congr rfl
  intro i _
  rw [Finset.sum_Ico_eq_sub _ (by omega), Nat.add_comm sj x]

/-- **C26** (general padding constant): the box sum is the sum over the grid points of the window plus the constant for
every window cell outside the grid. -/
theorem C26_boxsum_constant (h w ri rj : ℕ) (c : ℚ) (f : ℕ → ℕ → ℚ) (y x : ℕ) :
    boxsum h w (2 * ri + 1) (2 * rj + 1) c f y x
      = .ok (Spec.windowSum h w ri rj f y x
          + c * (((2 * ri + 1) * (2 * rj + 1) : ℕ) - Spec.windowCount h w ri rj y x)) := by
  unfold boxsum
  rw [if_neg (by omega)]
  simp only []
  rw [cumsum_box]
  congr 1
  have hr : (2 * ri + 1) / 2 = ri := by omega
  have hr' : (2 * rj + 1) / 2 = rj := by omega
  rw [hr, hr']
  -- split the padded value into the constant and the in-grid difference
  have hp : ∀ a b, padBoxsum h w ri rj c f a b = c +
      (if ri + 1 ≤ a ∧ a < h + ri + 1 then (if rj + 1 ≤ b ∧ b < w + rj + 1 then
        (f (a - (ri + 1)) (b - (rj + 1)) - c) else 0) else 0) := by
    intro a b
    unfold padBoxsum
    by_cases h1 : ri + 1 ≤ a ∧ a < h + ri + 1
    · by_cases h2 : rj + 1 ≤ b ∧ b < w + rj + 1
      · rw [if_pos ⟨h1.1, h1.2, h2.1, h2.2⟩, if_pos h1, if_pos h2]; ring
      · rw [if_neg (fun h => h2 ⟨h.2.2.1, h.2.2.2⟩), if_pos h1, if_neg h2, add_zero]
    · rw [if_neg (fun h => h1 ⟨h.1, h.2.1⟩), if_neg h1, add_zero]
  simp only [hp, Finset.sum_add_distrib]
  have hconst : (∑ a ∈ Finset.Ico (y + 1) (y + (2 * ri + 1) + 1),
      ∑ _b ∈ Finset.Ico (x + 1) (x + (2 * rj + 1) + 1), c) = c * (((2 * ri + 1) * (2 * rj + 1) : ℕ) : ℚ) := by
    simp only [Finset.sum_const, Nat.card_Ico, nsmul_eq_mul]
    have e1 : y + (2 * ri + 1) + 1 - (y + 1) = 2 * ri + 1 := by omega
    have e2 : x + (2 * rj + 1) + 1 - (x + 1) = 2 * rj + 1 := by omega
    rw [e1, e2]; push_cast; ring
  rw [hconst]
  have hin : ∀ a, (∑ b ∈ Finset.Ico (x + 1) (x + (2 * rj + 1) + 1),
      if ri + 1 ≤ a ∧ a < h + ri + 1 then (if rj + 1 ≤ b ∧ b < w + rj + 1 then
        (f (a - (ri + 1)) (b - (rj + 1)) - c) else 0) else 0)
      = if ri + 1 ≤ a ∧ a < h + ri + 1 then
          (fun i => ∑ j ∈ Finset.range w, if Spec.near rj x j then (f i j - c) else 0) (a - (ri + 1)) else 0 := by
    intro a
    by_cases h1 : ri + 1 ≤ a ∧ a < h + ri + 1
    · simp only [if_pos h1]
      exact window_reindex w rj x (fun j => f (a - (ri + 1)) j - c)
    · simp only [if_neg h1, Finset.sum_const_zero]
  simp only [hin]
  rw [window_reindex h ri y (fun i => ∑ j ∈ Finset.range w, if Spec.near rj x j then (f i j - c) else 0)]
  have hcomb : (∑ i ∈ Finset.range h, if Spec.near ri y i then
      (∑ j ∈ Finset.range w, if Spec.near rj x j then (f i j - c) else 0) else 0)
      = Spec.windowSum h w ri rj f y x - c * Spec.windowCount h w ri rj y x := by
    unfold Spec.windowCount Spec.windowSum
    rw [Finset.mul_sum, ← Finset.sum_sub_distrib]
    apply Finset.sum_congr rfl
    intro i _
    rw [Finset.mul_sum, ← Finset.sum_sub_distrib]
    by_cases h1 : Spec.near ri y i
    · rw [if_pos h1]
      apply Finset.sum_congr rfl
      intro j _
      by_cases h2 : Spec.near rj x j
      · rw [if_pos h2, if_pos ⟨h1, h2⟩, if_pos ⟨h1, h2⟩]; ring
      · rw [if_neg h2, if_neg (fun h => h2 h.2), if_neg (fun h => h2 h.2)]; ring
    · rw [if_neg h1]
      symm
      apply Finset.sum_eq_zero
      intro j _
      rw [if_neg (fun h => h1 h.1), if_neg (fun h => h1 h.1)]; ring
  rw [hcomb]
  ring

/-- **C26.** With zero padding and odd sizes the box sum at each point is the sum of the data over the window around it,
restricted to the grid. -/
theorem C26_boxsum (h w ri rj : ℕ) (f : ℕ → ℕ → ℚ) (y x : ℕ) :
    boxsum h w (2 * ri + 1) (2 * rj + 1) 0 f y x = .ok (Spec.windowSum h w ri rj f y x) := by
  rw [C26_boxsum_constant]; congr 1; ring

/-- **C26.** An even size in either direction is refused. -/
theorem C26_even_rejected (h w si sj : ℕ) (c : ℚ) (f : ℕ → ℕ → ℚ) (y x : ℕ) (he : Even si ∨ Even sj) :
    boxsum h w si sj c f y x = .error .valueError := by
  unfold boxsum
  rw [if_pos (he.imp Nat.even_iff.1 Nat.even_iff.1)]

example : boxsum 3 3 3 3 0 (fun i j => (3 * i + j : ℚ)) 0 0 = .ok 8 := by decide +kernel
example : boxsum 3 4 3 1 0 (fun i j => (4 * i + j : ℚ)) 1 2 = .ok 18 := by decide +kernel

/-! ### C27 -/

/-- Rows with a non-extreme value. -/
theorem mem_nonextremeRows {h w : ℕ} {f : ℕ → ℕ → ℚ} {e : ℚ} {y : ℕ} :
    y ∈ nonextremeRows h w f e ↔ y < h ∧ ∃ x, x < w ∧ f y x ≠ e := by
  unfold nonextremeRows
  simp only [List.mem_filter, List.mem_range, List.any_eq_true, decide_eq_true_eq]

theorem mem_nonextremeCols {h w : ℕ} {f : ℕ → ℕ → ℚ} {e : ℚ} {x : ℕ} :
    x ∈ nonextremeCols h w f e ↔ x < w ∧ ∃ y, y < h ∧ f y x ≠ e := by
  unfold nonextremeCols
  simp only [List.mem_filter, List.mem_range, List.any_eq_true, decide_eq_true_eq]

theorem rows_sorted (h w : ℕ) (f : ℕ → ℕ → ℚ) (e : ℚ) : (nonextremeRows h w f e).Pairwise (· < ·) :=
  List.pairwise_lt_range.filter _

theorem cols_sorted (h w : ℕ) (f : ℕ → ℕ → ℚ) (e : ℚ) : (nonextremeCols h w f e).Pairwise (· < ·) :=
  List.pairwise_lt_range.filter _

theorem sorted_head_le {l : List ℕ} (h : l.Pairwise (· < ·)) {x : ℕ} (hx : x ∈ l) : l.headD 0 ≤ x := by
  cases l with
  | nil => simp at hx
  | cons a l =>
    rcases List.mem_cons.1 hx with rfl | hx
    · exact le_rfl
    · exact ((List.pairwise_cons.1 h).1 x hx).le

theorem sorted_le_last {l : List ℕ} (h : l.Pairwise (· < ·)) {x : ℕ} (hx : x ∈ l) : x ≤ l.getLastD 0 := by
  induction l generalizing x with
  | nil => simp at hx
  | cons a l ih =>
    obtain ⟨h1, h2⟩ := List.pairwise_cons.1 h
    cases l with
    | nil =>
      rcases List.mem_cons.1 hx with rfl | hx
      · exact le_rfl
      · simp at hx
    | cons b l =>
      have e : (a :: b :: l).getLastD 0 = (b :: l).getLastD 0 := by simp [List.getLastD]
      rw [e]
      rcases List.mem_cons.1 hx with rfl | hx
      · exact le_trans (h1 b (List.mem_cons_self ..)).le (ih h2 (List.mem_cons_self ..))
      · exact ih h2 hx

/-- A grid point within `r` of a non-extreme value lies in the buffered box. -/
theorem mem_extremeBox {h w r : ℕ} {f : ℕ → ℕ → ℚ} {e : ℚ} {i j y x : ℕ} (hi : i < h) (hj : j < w)
    (hne : f i j ≠ e) (hy : y < h) (hx : x < w) (h1 : Spec.near r y i) (h2 : Spec.near r x j) :
    (extremeBox h w r f e).y0 ≤ y ∧ y < (extremeBox h w r f e).y1 ∧
    (extremeBox h w r f e).x0 ≤ x ∧ x < (extremeBox h w r f e).x1 := by
  have hrow : i ∈ nonextremeRows h w f e := mem_nonextremeRows.2 ⟨hi, j, hj, hne⟩
  have hcol : j ∈ nonextremeCols h w f e := mem_nonextremeCols.2 ⟨hj, i, hi, hne⟩
  have a1 := sorted_head_le (rows_sorted h w f e) hrow
  have a2 := sorted_le_last (rows_sorted h w f e) hrow
  have b1 := sorted_head_le (cols_sorted h w f e) hcol
  have b2 := sorted_le_last (cols_sorted h w f e) hcol
  unfold extremeBox
  simp only []
  rw [if_neg (List.ne_nil_of_mem hrow)]
  simp only [Spec.near] at h1 h2
  refine ⟨?_, ?_, ?_, ?_⟩ <;> simp only [lt_min_iff] <;> omega

theorem extremeBox_le {h w r : ℕ} {f : ℕ → ℕ → ℚ} {e : ℚ} :
    (extremeBox h w r f e).y1 ≤ h ∧ (extremeBox h w r f e).x1 ≤ w := by
  unfold extremeBox
  simp only []
  by_cases hn : nonextremeRows h w f e = []
  · rw [if_pos hn]; simp
  · rw [if_neg hn]; exact ⟨min_le_left _ _, min_le_left _ _⟩

/-- Sum over the trimmed grid equals the sum over the whole grid restricted to the box. -/
theorem trimmed_windowSum (h w r : ℕ) (f : ℕ → ℕ → ℚ) (b : Box) (hb : b.y1 ≤ h ∧ b.x1 ≤ w) (y x : ℕ)
    (hy : b.y0 ≤ y ∧ y < b.y1) (hx : b.x0 ≤ x ∧ x < b.x1) :
    Spec.windowSum (b.y1 - b.y0) (b.x1 - b.x0) r r (fun i j => f (i + b.y0) (j + b.x0)) (y - b.y0) (x - b.x0)
      = Spec.windowSum h w r r (fun i j => if b.y0 ≤ i ∧ i < b.y1 ∧ b.x0 ≤ j ∧ j < b.x1 then f i j else 0) y x := by
  have key : ∀ (n a0 a1 c : ℕ) (g : ℕ → ℚ), a1 ≤ n → a0 ≤ c → c < a1 →
      (∑ i ∈ Finset.range (a1 - a0), if Spec.near r (c - a0) i then g (i + a0) else 0)
        = ∑ i ∈ Finset.range n, if Spec.near r c i ∧ a0 ≤ i ∧ i < a1 then g i else 0 := by
    intro n a0 a1 c g hn hc1 hc2
    have e1 : (∑ i ∈ Finset.range (a1 - a0), if Spec.near r (c - a0) i then g (i + a0) else 0)
        = ∑ i ∈ Finset.Ico a0 a1, if Spec.near r c i then g i else 0 := by
      rw [Finset.sum_Ico_eq_sum_range]
      apply Finset.sum_congr rfl
      intro i _
      rw [Nat.add_comm a0 i]
      have : Spec.near r (c - a0) i ↔ Spec.near r c (i + a0) := by simp only [near_iff]; omega
      by_cases hh : Spec.near r (c - a0) i
      · rw [if_pos hh, if_pos (this.1 hh)]
      · rw [if_neg hh, if_neg (fun h => hh (this.2 h))]
    rw [e1, ← Finset.sum_filter, ← Finset.sum_filter]
    apply Finset.sum_congr _ (fun _ _ => rfl)
    ext i
    simp only [Finset.mem_filter, Finset.mem_Ico, Finset.mem_range, near_iff]
    omega
  unfold Spec.windowSum
  -- reorganise as nested one-dimensional sums
  have l1 : ∀ i, (∑ j ∈ Finset.range (b.x1 - b.x0), if Spec.near r (y - b.y0) i ∧ Spec.near r (x - b.x0) j then
      f (i + b.y0) (j + b.x0) else 0)
      = if Spec.near r (y - b.y0) i then (fun i => ∑ j ∈ Finset.range w,
          if Spec.near r x j ∧ b.x0 ≤ j ∧ j < b.x1 then f i j else 0) (i + b.y0) else 0 := by
    intro i
    by_cases hn : Spec.near r (y - b.y0) i
    · rw [if_pos hn]
      simp only []
      rw [← key w b.x0 b.x1 x (fun j => f (i + b.y0) j) hb.2 hx.1 hx.2]
      apply Finset.sum_congr rfl
      intro j _
      by_cases h2 : Spec.near r (x - b.x0) j
      · rw [if_pos ⟨hn, h2⟩, if_pos h2]
      · rw [if_neg (fun h => h2 h.2), if_neg h2]
    · rw [if_neg hn]
      apply Finset.sum_eq_zero
      intro j _
      rw [if_neg (fun h => hn h.1)]
  simp only [l1]
  rw [key h b.y0 b.y1 y (fun i => ∑ j ∈ Finset.range w,
          if Spec.near r x j ∧ b.x0 ≤ j ∧ j < b.x1 then f i j else 0) hb.1 hy.1 hy.2]
  apply Finset.sum_congr rfl
  intro i _
  by_cases h1 : Spec.near r y i ∧ b.y0 ≤ i ∧ i < b.y1
  · rw [if_pos h1]
    apply Finset.sum_congr rfl
    intro j _
    by_cases h2 : Spec.near r x j ∧ b.x0 ≤ j ∧ j < b.x1
    · rw [if_pos h2, if_pos ⟨h1.1, h2.1⟩, if_pos ⟨h1.2.1, h1.2.2, h2.2.1, h2.2.2⟩]
    · rw [if_neg h2]
      by_cases h3 : Spec.near r y i ∧ Spec.near r x j
      · rw [if_pos h3, if_neg (fun h => h2 ⟨h3.2, h.2.2.1, h.2.2.2⟩)]
      · rw [if_neg h3]
  · rw [if_neg h1]
    symm
    apply Finset.sum_eq_zero
    intro j _
    by_cases h3 : Spec.near r y i ∧ Spec.near r x j
    · rw [if_pos h3, if_neg (fun h => h1 ⟨h3.1, h.1, h.2.1⟩)]
    · rw [if_neg h3]

/-- Box sum of a trimmed grid padded with the extreme value `e`, when every grid value outside the box is `e`: the true
window sum plus `e` for every window cell outside the *domain*. -/
theorem trimmed_boxsum (h w r : ℕ) (f : ℕ → ℕ → ℚ) (e : ℚ) (b : Box) (hb : b.y1 ≤ h ∧ b.x1 ≤ w)
    (hout : ∀ i j, i < h → j < w → ¬ (b.y0 ≤ i ∧ i < b.y1 ∧ b.x0 ≤ j ∧ j < b.x1) → f i j = e)
    (y x : ℕ) (hy : b.y0 ≤ y ∧ y < b.y1) (hx : b.x0 ≤ x ∧ x < b.x1) :
    boxsum (b.y1 - b.y0) (b.x1 - b.x0) (2 * r + 1) (2 * r + 1) e (fun i j => f (i + b.y0) (j + b.x0))
        (y - b.y0) (x - b.x0)
      = .ok (Spec.windowSum h w r r f y x
          + e * (((2 * r + 1) * (2 * r + 1) : ℕ) - Spec.windowCount h w r r y x)) := by
  rw [C26_boxsum_constant]
  congr 1
  unfold Spec.windowCount
  rw [trimmed_windowSum h w r f b hb y x hy hx, trimmed_windowSum h w r (fun _ _ => 1) b hb y x hy hx]
  have : Spec.windowSum h w r r f y x - e * Spec.windowSum h w r r (fun _ _ => 1) y x
      = Spec.windowSum h w r r (fun i j => if b.y0 ≤ i ∧ i < b.y1 ∧ b.x0 ≤ j ∧ j < b.x1 then f i j else 0) y x
      - e * Spec.windowSum h w r r
        (fun i j => if b.y0 ≤ i ∧ i < b.y1 ∧ b.x0 ≤ j ∧ j < b.x1 then (1 : ℚ) else 0) y x := by
    unfold Spec.windowSum
    rw [Finset.mul_sum, Finset.mul_sum, ← Finset.sum_sub_distrib, ← Finset.sum_sub_distrib]
    apply Finset.sum_congr rfl
    intro i hi
    rw [Finset.mul_sum, Finset.mul_sum, ← Finset.sum_sub_distrib, ← Finset.sum_sub_distrib]
    apply Finset.sum_congr rfl
    intro j hj
    by_cases h1 : Spec.near r y i ∧ Spec.near r x j
    · simp only [if_pos h1]
      by_cases h2 : b.y0 ≤ i ∧ i < b.y1 ∧ b.x0 ≤ j ∧ j < b.x1
      · simp only [if_pos h2]
      · simp only [if_neg h2]
        rw [hout i j (Finset.mem_range.1 hi) (Finset.mem_range.1 hj) h2]; ring
    · simp only [if_neg h1]
  linarith

/-- Everything `_do_nbhood_sum` can return at a grid point, for a chosen shortcut with extreme `e`. -/
theorem shortcut_value (h w r : ℕ) (f : ℕ → ℕ → ℚ) (e : ℚ) (fill : ℕ → ℕ → ℚ) (y x : ℕ) (hy : y < h) (hx : x < w)
    (hfill : (∀ i j, i < h → j < w → Spec.near r y i → Spec.near r x j → f i j = e) →
      fill y x = Spec.windowSum h w r r f y x) :
    let b := extremeBox h w r f e
    (if b.size = 0 then (.ok (fill y x) : Except Err ℚ)
     else if b.y0 ≤ y ∧ y < b.y1 ∧ b.x0 ≤ x ∧ x < b.x1 then
      boxsum (b.y1 - b.y0) (b.x1 - b.x0) (2 * r + 1) (2 * r + 1) e
        (fun i j => f (i + b.y0) (j + b.x0)) (y - b.y0) (x - b.x0)
     else .ok (fill y x))
    = .ok (Spec.windowSum h w r r f y x) ∨
    (b.y0 ≤ y ∧ y < b.y1 ∧ b.x0 ≤ x ∧ x < b.x1) ∧
    (if b.size = 0 then (.ok (fill y x) : Except Err ℚ)
     else if b.y0 ≤ y ∧ y < b.y1 ∧ b.x0 ≤ x ∧ x < b.x1 then
      boxsum (b.y1 - b.y0) (b.x1 - b.x0) (2 * r + 1) (2 * r + 1) e
        (fun i j => f (i + b.y0) (j + b.x0)) (y - b.y0) (x - b.x0)
     else .ok (fill y x))
    = .ok (Spec.windowSum h w r r f y x
          + e * (((2 * r + 1) * (2 * r + 1) : ℕ) - Spec.windowCount h w r r y x)) := by
  intro b
  by_cases hin : b.y0 ≤ y ∧ y < b.y1 ∧ b.x0 ≤ x ∧ x < b.x1
  · right
    refine ⟨hin, ?_⟩
    have hs : ¬ b.size = 0 := by
      unfold Box.size
      have h1 : 0 < b.y1 - b.y0 := by omega
      have h2 : 0 < b.x1 - b.x0 := by omega
      exact (Nat.mul_pos h1 h2).ne'
    rw [if_neg hs, if_pos hin]
    apply trimmed_boxsum h w r f e b extremeBox_le _ y x ⟨hin.1, hin.2.1⟩ ⟨hin.2.2.1, hin.2.2.2⟩
    intro i j hi hj hnot
    by_contra hne
    exact hnot (mem_extremeBox hi hj hne hi hj ⟨by omega, by omega⟩ ⟨by omega, by omega⟩)
  · left
    have hf := hfill (fun i j hi hj h1 h2 => by
      by_contra hne
      exact hin (mem_extremeBox hi hj hne hy hx h1 h2))
    by_cases hs : b.size = 0
    · rw [if_pos hs, hf]
    · rw [if_neg hs, if_neg hin, hf]

theorem windowSum_zero_of {h w r : ℕ} {f : ℕ → ℕ → ℚ} {y x : ℕ}
    (hz : ∀ i j, i < h → j < w → Spec.near r y i → Spec.near r x j → f i j = 0) :
    Spec.windowSum h w r r f y x = 0 := by
  unfold Spec.windowSum
  apply Finset.sum_eq_zero
  intro i hi
  apply Finset.sum_eq_zero
  intro j hj
  by_cases h1 : Spec.near r y i ∧ Spec.near r x j
  · rw [if_pos h1, hz i j (Finset.mem_range.1 hi) (Finset.mem_range.1 hj) h1.1 h1.2]
  · rw [if_neg h1]

/-- Value returned when the whole grid is processed (no shortcut). -/
theorem no_shortcut_value (h w r : ℕ) (f : ℕ → ℕ → ℚ) (y x : ℕ) (hy : y < h) (hx : x < w) :
    (if h * w = 0 then (.ok 0 : Except Err ℚ)
     else if 0 ≤ y ∧ y < h ∧ 0 ≤ x ∧ x < w then
      boxsum (h - 0) (w - 0) (2 * r + 1) (2 * r + 1) 0 (fun i j => f (i + 0) (j + 0)) (y - 0) (x - 0)
     else .ok 0) = .ok (Spec.windowSum h w r r f y x) := by
  rw [if_neg (Nat.mul_pos (by omega) (by omega)).ne', if_pos ⟨by omega, hy, by omega, hx⟩]
  exact C26_boxsum h w r r f y x

/-- **C27** (sums): neighbourhood sums (`sum_only`) are exactly the sums of the valid values in the window clipped to the
grid, whatever the data: the all-zero shortcut never changes the answer. -/
theorem C27_sum_exact (h w r : ℕ) (valid : ℕ → ℕ → Bool) (f : ℕ → ℕ → ℚ) (y x : ℕ) (hy : y < h) (hx : x < w) :
    nbhoodSum h w r valid f y x
      = .ok (Spec.windowSum h w r r (fun i j => if valid i j then f i j else 0) y x) := by
  unfold nbhoodSum doNbhoodSum findShortcut shortcutStep
  simp only []
  by_cases hs : (extremeBox h w r (zeroInvalid valid f) 0).size < h * w
  · simp only [if_pos hs]
    have := shortcut_value h w r (zeroInvalid valid f) 0 (fun _ _ => 0) y x hy hx
      (fun hz => (windowSum_zero_of hz).symm)
    rcases this with h1 | ⟨_, h1⟩
    · exact h1
    · rw [zero_mul, add_zero] at h1; exact h1
  · simp only [if_neg hs]
    exact no_shortcut_value h w r (zeroInvalid valid f) y x hy hx

theorem doSum_none (h w r : ℕ) (f : ℕ → ℕ → ℚ) (y x : ℕ) (hy : y < h) (hx : x < w) :
    doNbhoodSum h w r f none y x = .ok (Spec.windowSum h w r r f y x) := by
  have := C27_sum_exact h w r (fun _ _ => true) f y x hy hx
  unfold nbhoodSum zeroInvalid at this
  simpa using this

/-- Specification: sum and count of the valid values in the window. -/
def Spec.validSum (h w r : ℕ) (valid : ℕ → ℕ → Bool) (f : ℕ → ℕ → ℚ) (y x : ℕ) : ℚ :=
  Spec.windowSum h w r r (fun i j => if valid i j then f i j else 0) y x
def Spec.validCount (h w r : ℕ) (valid : ℕ → ℕ → Bool) (y x : ℕ) : ℚ :=
  Spec.windowSum h w r r (fun i j => if valid i j then 1 else 0) y x

/-- What the sum with the all-ones shortcut can be: the true sum, or the true sum plus one for every window cell outside
the grid. -/
theorem doSum_some (h w r : ℕ) (valid : ℕ → ℕ → Bool) (f : ℕ → ℕ → ℚ) (y x : ℕ) (hy : y < h) (hx : x < w) :
    let m := fun i j => okOr0 (doNbhoodSum h w r (validOnes valid) none i j)
    doNbhoodSum h w r (zeroInvalid valid f) (some m) y x = .ok (Spec.validSum h w r valid f y x) ∨
    (extremeBox h w r (zeroInvalid valid f) 1).size < h * w ∧
    (extremeBox h w r (zeroInvalid valid f) 1).size < (extremeBox h w r (zeroInvalid valid f) 0).size ∧
    doNbhoodSum h w r (zeroInvalid valid f) (some m) y x
      = .ok (Spec.validSum h w r valid f y x
          + (((2 * r + 1) * (2 * r + 1) : ℕ) - Spec.windowCount h w r r y x)) := by
  intro m
  have hm : m y x = Spec.validCount h w r valid y x := by
    change okOr0 (doNbhoodSum h w r (validOnes valid) none y x) = _
    rw [doSum_none h w r _ y x hy hx]; rfl
  have hfill1 : (∀ i j, i < h → j < w → Spec.near r y i → Spec.near r x j → zeroInvalid valid f i j = 1) →
      m y x = Spec.windowSum h w r r (zeroInvalid valid f) y x := by
    intro hz
    rw [hm]
    unfold Spec.validCount Spec.windowSum
    apply Finset.sum_congr rfl
    intro i hi
    apply Finset.sum_congr rfl
    intro j hj
    by_cases h1 : Spec.near r y i ∧ Spec.near r x j
    · rw [if_pos h1, if_pos h1]
      have := hz i j (Finset.mem_range.1 hi) (Finset.mem_range.1 hj) h1.1 h1.2
      unfold zeroInvalid at this ⊢
      beta_reduce
      by_cases hv : valid i j = true
      · rw [if_pos hv] at this ⊢; rw [if_pos hv]; exact this.symm
      · rw [if_neg hv] at this; exact absurd this (by norm_num)
    · rw [if_neg h1, if_neg h1]
  unfold doNbhoodSum findShortcut
  simp only []
  by_cases hs0 : (extremeBox h w r (zeroInvalid valid f) 0).size < h * w
  · have e1 : shortcutStep h w r (zeroInvalid valid f) ⟨h * w, 0, fun _ _ => 0, ⟨0, h, 0, w⟩⟩ 0 (fun _ _ => 0)
        = ⟨(extremeBox h w r (zeroInvalid valid f) 0).size, 0, fun _ _ => 0,
          extremeBox h w r (zeroInvalid valid f) 0⟩ := by
      unfold shortcutStep; simp only []; rw [if_pos hs0]
    rw [e1]
    by_cases hs1 : (extremeBox h w r (zeroInvalid valid f) 1).size < (extremeBox h w r (zeroInvalid valid f) 0).size
    · have e2 : shortcutStep h w r (zeroInvalid valid f) ⟨(extremeBox h w r (zeroInvalid valid f) 0).size, 0,
          fun _ _ => 0, extremeBox h w r (zeroInvalid valid f) 0⟩ 1 m
          = ⟨(extremeBox h w r (zeroInvalid valid f) 1).size, 1, m, extremeBox h w r (zeroInvalid valid f) 1⟩ := by
        unfold shortcutStep; simp only []; rw [if_pos hs1]
      rw [e2]
      rcases shortcut_value h w r (zeroInvalid valid f) 1 m y x hy hx hfill1 with h1 | ⟨_, h1⟩
      · exact .inl h1
      · rw [one_mul] at h1
        exact .inr ⟨lt_trans hs1 hs0, hs1, h1⟩
    · have e2 : shortcutStep h w r (zeroInvalid valid f) ⟨(extremeBox h w r (zeroInvalid valid f) 0).size, 0,
          fun _ _ => 0, extremeBox h w r (zeroInvalid valid f) 0⟩ 1 m
          = ⟨(extremeBox h w r (zeroInvalid valid f) 0).size, 0, fun _ _ => 0,
            extremeBox h w r (zeroInvalid valid f) 0⟩ := by
        unfold shortcutStep; simp only []; rw [if_neg hs1]
      rw [e2]
      left
      rcases shortcut_value h w r (zeroInvalid valid f) 0 (fun _ _ => 0) y x hy hx
        (fun hz => (windowSum_zero_of hz).symm) with h1 | ⟨_, h1⟩
      · exact h1
      · rw [zero_mul, add_zero] at h1; exact h1
  · have e1 : shortcutStep h w r (zeroInvalid valid f) ⟨h * w, 0, fun _ _ => 0, ⟨0, h, 0, w⟩⟩ 0 (fun _ _ => 0)
        = ⟨h * w, 0, fun _ _ => 0, ⟨0, h, 0, w⟩⟩ := by
      unfold shortcutStep; simp only []; rw [if_neg hs0]
    rw [e1]
    by_cases hs1 : (extremeBox h w r (zeroInvalid valid f) 1).size < h * w
    · have e2 : shortcutStep h w r (zeroInvalid valid f) ⟨h * w, 0, fun _ _ => 0, ⟨0, h, 0, w⟩⟩ 1 m
          = ⟨(extremeBox h w r (zeroInvalid valid f) 1).size, 1, m, extremeBox h w r (zeroInvalid valid f) 1⟩ := by
        unfold shortcutStep; simp only []; rw [if_pos hs1]
      rw [e2]
      rcases shortcut_value h w r (zeroInvalid valid f) 1 m y x hy hx hfill1 with h1 | ⟨_, h1⟩
      · exact .inl h1
      · rw [one_mul] at h1
        exact .inr ⟨hs1, by omega, h1⟩
    · have e2 : shortcutStep h w r (zeroInvalid valid f) ⟨h * w, 0, fun _ _ => 0, ⟨0, h, 0, w⟩⟩ 1 m
          = ⟨h * w, 0, fun _ _ => 0, ⟨0, h, 0, w⟩⟩ := by
        unfold shortcutStep; simp only []; rw [if_neg hs1]
      rw [e2]
      left
      exact no_shortcut_value h w r (zeroInvalid valid f) y x hy hx

theorem validSum_bounds (h w r : ℕ) (valid : ℕ → ℕ → Bool) (f : ℕ → ℕ → ℚ) (lo hi : ℚ)
    (hb : ∀ i j, i < h → j < w → valid i j = true → lo ≤ f i j ∧ f i j ≤ hi) (y x : ℕ) :
    lo * Spec.validCount h w r valid y x ≤ Spec.validSum h w r valid f y x ∧
    Spec.validSum h w r valid f y x ≤ hi * Spec.validCount h w r valid y x := by
  unfold Spec.validSum Spec.validCount Spec.windowSum
  constructor
  · rw [Finset.mul_sum]
    apply Finset.sum_le_sum
    intro i hi'
    rw [Finset.mul_sum]
    apply Finset.sum_le_sum
    intro j hj
    by_cases h1 : Spec.near r y i ∧ Spec.near r x j
    · rw [if_pos h1, if_pos h1]
      beta_reduce
      by_cases hv : valid i j = true
      · rw [if_pos hv, if_pos hv, mul_one]; exact (hb i j (Finset.mem_range.1 hi') (Finset.mem_range.1 hj) hv).1
      · rw [if_neg hv, if_neg hv, mul_zero]
    · rw [if_neg h1, if_neg h1, mul_zero]
  · rw [Finset.mul_sum]
    apply Finset.sum_le_sum
    intro i hi'
    rw [Finset.mul_sum]
    apply Finset.sum_le_sum
    intro j hj
    by_cases h1 : Spec.near r y i ∧ Spec.near r x j
    · rw [if_pos h1, if_pos h1]
      beta_reduce
      by_cases hv : valid i j = true
      · rw [if_pos hv, if_pos hv, mul_one]; exact (hb i j (Finset.mem_range.1 hi') (Finset.mem_range.1 hj) hv).2
      · rw [if_neg hv, if_neg hv, mul_zero]
    · rw [if_neg h1, if_neg h1, mul_zero]

theorem validCount_nonneg (h w r : ℕ) (valid : ℕ → ℕ → Bool) (y x : ℕ) : 0 ≤ Spec.validCount h w r valid y x := by
  unfold Spec.validCount Spec.windowSum
  apply Finset.sum_nonneg; intro i _
  apply Finset.sum_nonneg; intro j _
  by_cases h1 : Spec.near r y i ∧ Spec.near r x j
  · rw [if_pos h1]; beta_reduce; split_ifs <;> norm_num
  · rw [if_neg h1]

/-- Shape of the mean: NaN exactly where no valid point is in the window, otherwise within the data range. -/
theorem C27_mean_in_range (h w r : ℕ) (valid : ℕ → ℕ → Bool) (f : ℕ → ℕ → ℚ) (lo hi : ℚ) (hlh : lo ≤ hi) (y x : ℕ)
    (hy : y < h) (hx : x < w) :
    ∃ out, nbhoodMean h w r valid f lo hi y x = .ok out ∧
      (out = none ↔ Spec.validCount h w r valid y x = 0) ∧ ∀ v, out = some v → lo ≤ v ∧ v ≤ hi := by
  unfold nbhoodMean
  rw [doSum_none h w r _ y x hy hx]
  have hc : Spec.windowSum h w r r (validOnes valid) y x = Spec.validCount h w r valid y x := rfl
  rw [hc]
  obtain ⟨t, ht⟩ : ∃ t, doNbhoodSum h w r (zeroInvalid valid f)
      (some (fun i j => okOr0 (doNbhoodSum h w r (validOnes valid) none i j))) y x = .ok t := by
    rcases doSum_some h w r valid f y x hy hx with h1 | ⟨_, _, h1⟩ <;> exact ⟨_, h1⟩
  simp only [bind, Except.bind, pure, Except.pure]
  rw [ht]
  refine ⟨_, rfl, ?_, ?_⟩
  · by_cases h0 : Spec.validCount h w r valid y x = 0
    · simp [h0]
    · simp [h0]
  · intro v hv
    by_cases h0 : Spec.validCount h w r valid y x = 0
    · rw [if_pos h0] at hv; cases hv
    · rw [if_neg h0] at hv
      injection hv with hv
      rw [← hv]; exact npClip_mem hlh

/-- **C27** (exactness, partial): the neighbourhood mean is the mean of the valid values in the window clipped to the grid
at every point whose whole window lies inside the grid, and at every point of the grid when the all-ones shortcut does not
apply (its box is not smaller than both the grid and the box of non-zero values).  The full statement has no such
condition; see `C27_edge_refuted`. -/
theorem C27_mean_exact_partial (h w r : ℕ) (valid : ℕ → ℕ → Bool) (f : ℕ → ℕ → ℚ) (lo hi : ℚ)
    (hb : ∀ i j, i < h → j < w → valid i j = true → lo ≤ f i j ∧ f i j ≤ hi) (y x : ℕ)
    (hy : y < h) (hx : x < w)
    (hcase : (r ≤ y ∧ y + r < h ∧ r ≤ x ∧ x + r < w) ∨
      ¬ ((extremeBox h w r (zeroInvalid valid f) 1).size < h * w ∧
        (extremeBox h w r (zeroInvalid valid f) 1).size < (extremeBox h w r (zeroInvalid valid f) 0).size)) :
    nbhoodMean h w r valid f lo hi y x = .ok (
      if Spec.validCount h w r valid y x = 0 then none
      else some (Spec.validSum h w r valid f y x / Spec.validCount h w r valid y x)) := by
  have hinterior : (r ≤ y ∧ y + r < h ∧ r ≤ x ∧ x + r < w) →
      Spec.windowCount h w r r y x = (((2 * r + 1) * (2 * r + 1) : ℕ) : ℚ) := by
    rintro ⟨h1, h2, h3, h4⟩
    have key : ∀ n c : ℕ, r ≤ c → c + r < n →
        (∑ i ∈ Finset.range n, if Spec.near r c i then (1 : ℚ) else 0) = ((2 * r + 1 : ℕ) : ℚ) := by
      intro n c hc1 hc2
      rw [← Finset.sum_filter]
      have : (Finset.range n).filter (fun i => Spec.near r c i) = Finset.Ico (c - r) (c + r + 1) := by
        ext i
        simp only [Finset.mem_filter, Finset.mem_range, Finset.mem_Ico, near_iff]
        omega
      rw [this, Finset.sum_const, Nat.card_Ico, nsmul_eq_mul, mul_one]
      congr 1
      omega
    unfold Spec.windowCount Spec.windowSum
    have : ∀ i, (∑ j ∈ Finset.range w, if Spec.near r y i ∧ Spec.near r x j then (1 : ℚ) else 0)
        = (if Spec.near r y i then (1 : ℚ) else 0) * ((2 * r + 1 : ℕ) : ℚ) := by
      intro i
      by_cases hn : Spec.near r y i
      · rw [if_pos hn, one_mul, ← key w x h3 h4]
        apply Finset.sum_congr rfl
        intro j _
        by_cases hj : Spec.near r x j
        · rw [if_pos ⟨hn, hj⟩, if_pos hj]
        · rw [if_neg (fun h => hj h.2), if_neg hj]
      · rw [if_neg hn, zero_mul]
        apply Finset.sum_eq_zero
        intro j _
        rw [if_neg (fun h => hn h.1)]
    simp only [this]
    rw [← Finset.sum_mul, key h y h1 h2]
    push_cast; ring
  have htot : doNbhoodSum h w r (zeroInvalid valid f)
      (some (fun i j => okOr0 (doNbhoodSum h w r (validOnes valid) none i j))) y x
      = .ok (Spec.validSum h w r valid f y x) := by
    rcases doSum_some h w r valid f y x hy hx with h1 | ⟨h2, h3, h1⟩
    · exact h1
    · rcases hcase with hc | hc
      · rw [hinterior hc, sub_self, add_zero] at h1; exact h1
      · exact absurd ⟨h2, h3⟩ hc
  unfold nbhoodMean
  rw [doSum_none h w r _ y x hy hx]
  have hc : Spec.windowSum h w r r (validOnes valid) y x = Spec.validCount h w r valid y x := rfl
  rw [hc]
  simp only [bind, Except.bind, pure, Except.pure]
  rw [htot]
  simp only []
  congr 1
  by_cases h0 : Spec.validCount h w r valid y x = 0
  · rw [if_pos h0, if_pos h0]
  · rw [if_neg h0, if_neg h0]
    congr 1
    have hpos : 0 < Spec.validCount h w r valid y x :=
      lt_of_le_of_ne (validCount_nonneg h w r valid y x) (Ne.symm h0)
    obtain ⟨b1, b2⟩ := validSum_bounds h w r valid f lo hi hb y x
    exact npClip_of_mem ((le_div_iff₀ hpos).2 b1) ((div_le_iff₀ hpos).2 b2)

/-- C27 (finding): a 4×4 field of ones with a single zero in the corner, neighbourhood 3×3: the true mean in the corner is
3/4 but the all-ones shortcut counts the five cells outside the grid as ones and returns 1; on the next point of the edge
the true mean is 5/6 and 1 is returned; in the interior the mean is right. -/
theorem C27_edge_refuted :
    let f : ℕ → ℕ → ℚ := fun i j => if i = 0 ∧ j = 0 then 0 else 1
    (Spec.validSum 4 4 1 (fun _ _ => true) f 0 0 / Spec.validCount 4 4 1 (fun _ _ => true) 0 0 = 3/4 ∧
      nbhoodMean 4 4 1 (fun _ _ => true) f 0 1 0 0 = .ok (some 1)) ∧
    (Spec.validSum 4 4 1 (fun _ _ => true) f 0 1 / Spec.validCount 4 4 1 (fun _ _ => true) 0 1 = 5/6 ∧
      nbhoodMean 4 4 1 (fun _ _ => true) f 0 1 0 1 = .ok (some 1)) ∧
    nbhoodMean 4 4 1 (fun _ _ => true) f 0 1 1 1 = .ok (some (8/9)) := by decide +kernel

example : nbhoodMean 3 3 1 (fun i j => !(i == 1 && j == 1)) (fun i j => (3 * i + j : ℚ)) 0 8 0 0 = .ok (some (4/3)) := by
  decide +kernel
example : nbhoodSum 3 3 1 (fun _ _ => true) (fun i j => (3 * i + j : ℚ)) 1 1 = .ok 36 := by decide +kernel

end Improver
