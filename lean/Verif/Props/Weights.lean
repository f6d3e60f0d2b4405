import Verif.Model.Weights
import Verif.Props.Interp

/-! Properties C20, C21 and C38: blending weights. -/

namespace Improver

/-! ### C20 normalisation -/

/-- C20 (complete description): a weight list is accepted exactly when it is non-empty, has no negative entry and a
non-zero sum, and the result divides every weight by the sum. -/
theorem C20_normalise_iff (w out : List ℚ) :
    normaliseWeights w = .ok out ↔
      w ≠ [] ∧ (∀ x ∈ w, 0 ≤ x) ∧ w.sum ≠ 0 ∧ out = w.map (fun x => x / w.sum) := by
  unfold normaliseWeights
  cases w with
  | nil => simp [npMin]
  | cons a l =>
    have hm : npMin (a :: l) = .ok (l.foldl min a) := rfl
    obtain ⟨hmem, hle⟩ := npMin_spec hm
    rw [hm]
    simp only []
    by_cases h0 : l.foldl min a < 0
    · rw [if_pos h0]
      constructor
      · intro h; cases h
      · rintro ⟨_, h1, _⟩
        exact absurd (h1 _ hmem) (not_le.2 h0)
    · rw [if_neg h0]
      by_cases hs : (a :: l).sum = 0
      · rw [if_pos hs]
        constructor
        · intro h; cases h
        · rintro ⟨_, _, h2, _⟩; exact absurd hs h2
      · rw [if_neg hs]
        constructor
        · intro h
          injection h with h
          exact ⟨by simp, fun x hx => le_trans (not_lt.1 h0) (hle x hx), hs, h.symm⟩
        · rintro ⟨_, _, _, rfl⟩; rfl

/-- C20: normalised weights are non-negative, sum to one, and keep every proportion. -/
theorem C20_normalised (w out : List ℚ) (h : normaliseWeights w = .ok out) :
    out.length = w.length ∧ (∀ x ∈ out, 0 ≤ x ∧ x ≤ 1) ∧ out.sum = 1 ∧
      ∀ i j, out.getD i 0 * w.getD j 0 = out.getD j 0 * w.getD i 0 := by
  obtain ⟨_, hpos, hs, rfl⟩ := (C20_normalise_iff w out).1 h
  have hsum : 0 ≤ w.sum := List.sum_nonneg hpos
  have hsp : 0 < w.sum := lt_of_le_of_ne hsum (Ne.symm hs)
  have hdiv : (w.map (fun x => x / w.sum)).sum = 1 := by
    have : ∀ (l : List ℚ) (s : ℚ), (l.map (fun x => x / s)).sum = l.sum / s := by
      intro l s
      induction l with
      | nil => simp
      | cons a l ih => simp [ih, add_div]
    rw [this]; exact div_self hs
  have hnn : ∀ x ∈ w.map (fun x => x / w.sum), 0 ≤ x := by
    intro x hx
    obtain ⟨y, hy, rfl⟩ := List.mem_map.1 hx
    exact div_nonneg (hpos y hy) hsum
  refine ⟨by simp, fun x hx => ⟨hnn x hx, ?_⟩, hdiv, ?_⟩
  · rw [← hdiv]; exact List.single_le_sum hnn x hx
  · have hg : ∀ i, (w.map (fun x => x / w.sum)).getD i 0 = w.getD i 0 / w.sum := by
      intro i
      have := List.getD_map (l := w) (d := (0:ℚ)) (n := i) (fun x => x / w.sum)
      simpa using this
    intro i j
    rw [hg, hg]; ring

/-- C20: a negative weight, an all-zero list or an empty list is refused with a `ValueError`. -/
theorem C20_rejected (w : List ℚ) (h : (∃ x ∈ w, x < 0) ∨ w.sum = 0) :
    normaliseWeights w = .error .valueError := by
  unfold normaliseWeights
  cases w with
  | nil => simp [npMin]
  | cons a l =>
    have hm : npMin (a :: l) = .ok (l.foldl min a) := rfl
    rw [hm]
    simp only []
    by_cases h0 : l.foldl min a < 0
    · rw [if_pos h0]
    · rw [if_neg h0]
      rcases h with ⟨x, hx, hxn⟩ | h
      · exact absurd hxn (not_lt.2 (le_trans (not_lt.1 h0) ((npMin_spec hm).2 x hx)))
      · rw [if_pos h]

example : normaliseWeights [1, 3, 4] = .ok [1/8, 3/8, 1/2] := by decide +kernel
example : normaliseWeights [1, -3, 4] = .error .valueError := by decide +kernel
example : normaliseWeights [0, 0] = .error .valueError := by decide +kernel

/-! ### C21 linear weights -/

theorem map_range_getD {n : ℕ} (f : ℕ → ℚ) {k : ℕ} (hk : k < n) :
    ((List.range n).map f).getD k 0 = f k := by
  rw [List.getD_eq_getElem _ _ (by simpa using hk)]; simp

theorem map_div_getD (l : List ℚ) (s : ℚ) (i : ℕ) :
    (l.map (fun x => x / s)).getD i 0 = l.getD i 0 / s := by
  have := List.getD_map (l := l) (d := (0:ℚ)) (n := i) (fun x => x / s)
  simpa using this

/-- C21 (linear): accepted weights are non-negative, sum to one, and consecutive weights differ by one constant step;
first and last weight are in the ratio `y0 : yn`. -/
theorem C21_linear (y0 yn : ℚ) (n : ℕ) (out : List ℚ) (h : linearWeights y0 yn n = .ok out) :
    out.length = n ∧ (∀ x ∈ out, 0 ≤ x) ∧ out.sum = 1 ∧
      (∃ d, ∀ k, k + 1 < n → out.getD (k + 1) 0 - out.getD k 0 = d) ∧
      (2 ≤ n → out.getD 0 0 * yn = out.getD (n - 1) 0 * y0) := by
  unfold linearWeights at h
  by_cases h1 : n = 1
  · rw [if_pos h1] at h
    injection h with h
    subst h; subst h1
    exact ⟨rfl, by simp, by simp, ⟨0, fun k hk => by omega⟩, fun h => by omega⟩
  · rw [if_neg h1] at h
    simp only [] at h
    obtain ⟨a, b, c, _⟩ := C20_normalised _ _ h
    obtain ⟨_, _, hs, rfl⟩ := (C20_normalise_iff _ _).1 h
    refine ⟨by simp, fun x hx => (b x hx).1, c, ?_, ?_⟩
    · refine ⟨(yn - y0) / ((n : ℚ) - 1) / (((List.range n).map (fun t : ℕ => (yn - y0) / ((n : ℚ) - 1) * (t : ℚ) + y0)).sum), ?_⟩
      intro k hk
      rw [map_div_getD, map_div_getD, map_range_getD _ hk, map_range_getD _ (by omega)]
      push_cast
      ring
    · intro hn
      have hne : (n : ℚ) - 1 ≠ 0 := by
        have : (2 : ℚ) ≤ n := by exact_mod_cast hn
        intro h; linarith
      have hcast : ((n - 1 : ℕ) : ℚ) = (n : ℚ) - 1 := by
        rw [Nat.cast_sub (by omega)]; simp
      rw [map_div_getD, map_div_getD, map_range_getD _ (by omega), map_range_getD _ (by omega), hcast]
      have : (yn - y0) / ((n : ℚ) - 1) * ((n : ℚ) - 1) = yn - y0 := div_mul_cancel₀ _ hne
      rw [this]
      push_cast
      ring

/-- C21 (linear): every constructor-accepted pair with a non-negative and not vanishing end value gives weights for
every positive number of cycles. -/
theorem C21_linear_total (y0 yn : ℚ) (n : ℕ) (hn : 0 < n) (h0 : 0 ≤ y0) (h1 : 0 ≤ yn) (hp : 0 < y0 + yn) :
    ∃ out, linearWeights y0 yn n = .ok out := by
  unfold linearWeights
  by_cases hn1 : n = 1
  · exact ⟨[1], by rw [if_pos hn1]⟩
  · rw [if_neg hn1]
    have hn2 : 2 ≤ n := by omega
    have hnq : (0 : ℚ) < (n : ℚ) - 1 := by
      have : (2 : ℚ) ≤ n := by exact_mod_cast hn2
      linarith
    have hval : ∀ k : ℕ, k < n → 0 ≤ (yn - y0) / ((n : ℚ) - 1) * (k : ℚ) + y0 := by
      intro k hk
      have hkq : (k : ℚ) ≤ (n : ℚ) - 1 := by
        have : (k : ℚ) + 1 ≤ n := by exact_mod_cast hk
        linarith
      have hk0 : (0 : ℚ) ≤ k := by positivity
      have : (yn - y0) / ((n : ℚ) - 1) * (k : ℚ) + y0
          = (yn * k + y0 * (((n : ℚ) - 1) - k)) / ((n : ℚ) - 1) := by
        field_simp; ring
      rw [this]
      apply div_nonneg _ hnq.le
      have := mul_nonneg h1 hk0
      have := mul_nonneg h0 (sub_nonneg.2 hkq)
      linarith
    set w := (List.range n).map (fun t : ℕ => (yn - y0) / ((n : ℚ) - 1) * (t : ℚ) + y0) with hw
    have hnn : ∀ x ∈ w, 0 ≤ x := by
      intro x hx
      rw [hw] at hx
      obtain ⟨k, hk, rfl⟩ := List.mem_map.1 hx
      exact hval k (List.mem_range.1 hk)
    have hmem0 : y0 ∈ w := by
      rw [hw]; exact List.mem_map.2 ⟨0, List.mem_range.2 hn, by simp⟩
    have hmemn : yn ∈ w := by
      rw [hw]
      refine List.mem_map.2 ⟨n - 1, List.mem_range.2 (by omega), ?_⟩
      have hcast : ((n - 1 : ℕ) : ℚ) = (n : ℚ) - 1 := by
        rw [Nat.cast_sub (by omega)]; simp
      rw [hcast, div_mul_cancel₀ _ hnq.ne']; ring
    have hs : w.sum ≠ 0 := by
      have h2 := List.single_le_sum hnn y0 hmem0
      have h3 := List.single_le_sum hnn yn hmemn
      intro h; linarith
    exact ⟨_, (C20_normalise_iff w _).2 ⟨List.ne_nil_of_mem hmem0, hnn, hs, rfl⟩⟩

/-- C21 (linear): a negative first value is refused by the constructor. -/
theorem C21_linear_init (y0 yn : ℚ) (h : y0 < 0) : linearInit (some y0) (some yn) = .error .valueError := by
  simp [linearInit, h]

example : linearWeights 20 2 4 = .ok [20/44, 14/44, 8/44, 2/44] := by decide +kernel
example : linearWeights 5 (-1) 3 = .error .valueError := by decide +kernel

/-! ### C21 non-linear weights -/

/-- C21 (non-linear): for every accepted `cval` and every positive number of cycles weights exist, are positive, sum
to one, and each is `cval` times the one before. -/
theorem C21_nonlinear (c : Option ℚ) (cval : ℚ) (hc : nonlinearInit c = .ok cval) (n : ℕ) (hn : 0 < n) :
    ∃ out, nonlinearWeights cval n = .ok out ∧ out.length = n ∧ (∀ x ∈ out, 0 < x) ∧ out.sum = 1 ∧
      ∀ k, k + 1 < n → out.getD (k + 1) 0 = cval * out.getD k 0 := by
  have hcp : 0 < cval := by
    cases c with
    | none => cases hc
    | some c =>
      unfold nonlinearInit at hc
      simp only [] at hc
      by_cases h : c ≤ 0 ∨ c > 1
      · rw [if_pos h] at hc; cases hc
      · rw [if_neg h] at hc
        injection hc with hc
        subst hc
        exact not_le.1 (fun h' => h (.inl h'))
  unfold nonlinearWeights
  set w := (List.range n).map (fun k : ℕ => cval ^ k) with hw
  have hpos : ∀ x ∈ w, 0 < x := by
    intro x hx
    rw [hw] at hx
    obtain ⟨k, _, rfl⟩ := List.mem_map.1 hx
    exact pow_pos hcp k
  have h1 : (1 : ℚ) ∈ w := by
    rw [hw]; exact List.mem_map.2 ⟨0, List.mem_range.2 hn, by simp⟩
  have hs : 0 < w.sum := lt_of_lt_of_le one_pos (List.single_le_sum (fun x hx => (hpos x hx).le) 1 h1)
  have hok := (C20_normalise_iff w _).2 ⟨List.ne_nil_of_mem h1, fun x hx => (hpos x hx).le, hs.ne', rfl⟩
  obtain ⟨a, _, b, _⟩ := C20_normalised _ _ hok
  refine ⟨_, hok, by rw [a, hw]; simp, ?_, b, ?_⟩
  · intro x hx
    obtain ⟨y, hy, rfl⟩ := List.mem_map.1 hx
    exact div_pos (hpos y hy) hs
  · intro k hk
    rw [map_div_getD, map_div_getD, hw, map_range_getD _ hk, map_range_getD _ (by omega), pow_succ]
    ring

theorem zip_map_fst_eq {α β : Type} : ∀ (l : List α) (m : List β), l.length = m.length → (l.zip m).map Prod.fst = l
  | [], [], _ => rfl
  | a :: l, b :: m, h => by
    simp only [List.zip_cons_cons, List.map_cons]
    rw [zip_map_fst_eq l m (by simpa using h)]

theorem reverse_zip {α β : Type} (l : List α) (m : List β) (h : l.length = m.length) :
    (l.zip m).reverse = l.reverse.zip m.reverse := by
  apply List.ext_getElem
  · simp [h]
  · intro i h1 h2
    simp [List.getElem_reverse, h]

/-- C21 (non-linear, inverse ordering): with distinct coordinate points the weights are attached to the points in
ascending order, and increase along them: the highest point gets the first (largest) weight. -/
theorem C21_nonlinear_inverse (cval : ℚ) (points : List ℚ) (hnd : points.Nodup) (w : List ℚ)
    (hw : nonlinearWeights cval points.length = .ok w) :
    nonlinearProcess cval true points = .ok ((npSort points).zip w.reverse) := by
  have hwl : w.length = points.length := by
    have := (C20_normalised _ _ hw).1
    simpa using this
  set desc := points.insertionSort (· ≥ ·) with hd
  have hperm : desc.Perm points := List.perm_insertionSort _ _
  have hdsort : desc.Pairwise (· ≥ ·) := List.pairwise_insertionSort _ _
  have hrev : desc.reverse = npSort points := by
    apply eq_of_perm_sorted
    · exact (List.reverse_perm _).trans (hperm.trans (npSort_perm _).symm)
    · exact List.pairwise_reverse.2 hdsort
    · exact npSort_sorted _
  have hdl : desc.length = points.length := hperm.length_eq
  unfold nonlinearProcess
  simp only [bind, Except.bind, pure, Except.pure, if_true]
  rw [← hd, hdl, hw]
  simp only []
  congr 1
  haveI : Std.Total (fun a b : ℚ × ℚ => a.1 ≤ b.1) := ⟨fun _ _ => le_total _ _⟩
  haveI : IsTrans (ℚ × ℚ) (fun a b : ℚ × ℚ => a.1 ≤ b.1) := ⟨fun _ _ _ => le_trans⟩
  have hz : (desc.zip w).reverse = (npSort points).zip w.reverse := by
    rw [reverse_zip _ _ (by omega), hrev]
  rw [← hz]
  have hfst : ((desc.zip w).reverse.map Prod.fst) = npSort points := by
    rw [hz, zip_map_fst_eq]
    simp [npSort_length, hwl]
  have hnodup : ((desc.zip w).reverse.map Prod.fst).Nodup := by
    rw [hfst]; exact (npSort_perm points).nodup_iff.2 hnd
  refine List.Perm.eq_of_pairwise (le := fun a b : ℚ × ℚ => a.1 ≤ b.1) ?_ (List.pairwise_insertionSort _ _) ?_
    ((List.perm_insertionSort _ _).trans (List.reverse_perm _).symm)
  · intro a b ha hb hab hba
    have ha' : a ∈ (desc.zip w).reverse := by
      rw [List.mem_reverse]; exact (List.perm_insertionSort _ _).subset ha
    exact List.inj_on_of_nodup_map hnodup ha' hb (le_antisymm hab hba)
  · have := npSort_sorted points
    rw [← hfst] at this
    exact List.pairwise_map.1 this

example : nonlinearProcess (1/2) true [1, 3, 2] = .ok [(1, 1/7), (2, 2/7), (3, 4/7)] := by decide +kernel
example : nonlinearProcess (1/2) false [1, 2, 3] = .ok [(1, 4/7), (2, 2/7), (3, 1/7)] := by decide +kernel

/-! ### C21 triangular weights -/

/-- The triangular shape as a user would draw it: height one at the midpoint, zero at distance `width` and beyond. -/
def triangle (midpoint width x : ℚ) : ℚ := max 0 (1 - |x - midpoint| / width)

theorem tri_raw (midpoint width x : ℚ) (hw : 0 < width) :
    (if x ≥ midpoint - width ∧ x ≤ midpoint + width then triWeight midpoint (1 / width) x else 0)
      = triangle midpoint width x := by
  unfold triangle triWeight
  by_cases h : x ≥ midpoint - width ∧ x ≤ midpoint + width
  · rw [if_pos h]
    have habs : |x - midpoint| ≤ width := abs_le.2 ⟨by linarith [h.1], by linarith [h.2]⟩
    have h1 : |x - midpoint| / width ≤ 1 := (div_le_one hw).2 habs
    by_cases he : x = midpoint
    · rw [if_pos he, he]; simp
    · rw [if_neg he, max_eq_right (by linarith)]; ring
  · rw [if_neg h]
    have habs : width < |x - midpoint| := by
      by_contra hc
      have := abs_le.1 (not_lt.1 hc)
      exact h ⟨by linarith [this.1], by linarith [this.2]⟩
    have h1 : 1 < |x - midpoint| / width := (one_lt_div hw).2 habs
    rw [max_eq_left (by linarith)]

/-- C21 (triangular): for a positive width the weights are the triangle sampled at the points and divided by the sum
of the samples; they are accepted exactly when some point lies strictly inside the window. -/
theorem C21_triangular (coords : List ℚ) (midpoint width : ℚ) (hw : 0 < width) (out : List ℚ) :
    triangularWeights coords midpoint width = .ok out ↔
      (∃ x ∈ coords, |x - midpoint| < width) ∧
      out = coords.map (fun x => triangle midpoint width x / (coords.map (triangle midpoint width)).sum) := by
  unfold triangularWeights
  rw [if_neg hw.ne']
  simp only []
  have hmap : (coords.map (fun x =>
      if x ≥ midpoint - width ∧ x ≤ midpoint + width then triWeight midpoint (1 / width) x else 0))
      = coords.map (triangle midpoint width) := List.map_congr_left (fun x _ => tri_raw _ _ _ hw)
  rw [hmap, C20_normalise_iff, List.map_map]
  have hnn : ∀ x ∈ coords.map (triangle midpoint width), 0 ≤ x := by
    intro x hx
    obtain ⟨y, _, rfl⟩ := List.mem_map.1 hx
    exact le_max_left _ _
  constructor
  · rintro ⟨_, _, hs, rfl⟩
    refine ⟨?_, rfl⟩
    by_contra hc
    push Not at hc
    apply hs
    apply List.sum_eq_zero
    intro x hx
    obtain ⟨y, hy, rfl⟩ := List.mem_map.1 hx
    have := (one_le_div hw).2 (hc y hy)
    exact max_eq_left (by linarith)
  · rintro ⟨⟨x, hx, hlt⟩, rfl⟩
    have hm : triangle midpoint width x ∈ coords.map (triangle midpoint width) := List.mem_map.2 ⟨x, hx, rfl⟩
    have hp : 0 < triangle midpoint width x := by
      have := (div_lt_one hw).2 hlt
      exact lt_max_of_lt_right (by linarith)
    exact ⟨List.ne_nil_of_mem hm, hnn, (lt_of_lt_of_le hp (List.single_le_sum hnn _ hm)).ne', rfl⟩

/-- C21 (triangular): accepted weights are non-negative and sum to one, vanish at distance `width` or more, and a
point nearer the midpoint never gets a smaller weight. -/
theorem C21_triangular_shape (coords : List ℚ) (midpoint width : ℚ) (hw : 0 < width) (out : List ℚ)
    (h : triangularWeights coords midpoint width = .ok out) :
    out.length = coords.length ∧ (∀ x ∈ out, 0 ≤ x) ∧ out.sum = 1 ∧
      (∀ i, i < coords.length → width ≤ |coords.getD i 0 - midpoint| → out.getD i 0 = 0) ∧
      (∀ i j, i < coords.length → j < coords.length →
        |coords.getD i 0 - midpoint| ≤ |coords.getD j 0 - midpoint| → out.getD j 0 ≤ out.getD i 0) := by
  have hnorm := h
  unfold triangularWeights at hnorm
  rw [if_neg hw.ne'] at hnorm
  obtain ⟨a, b, c, _⟩ := C20_normalised _ _ hnorm
  obtain ⟨_, rfl⟩ := (C21_triangular _ _ _ hw _).1 h
  have hnn : ∀ x ∈ coords.map (triangle midpoint width), 0 ≤ x := by
    intro x hx
    obtain ⟨y, _, rfl⟩ := List.mem_map.1 hx
    exact le_max_left _ _
  have hsn : 0 ≤ (coords.map (triangle midpoint width)).sum := List.sum_nonneg hnn
  have hg : ∀ i, i < coords.length → (coords.map (fun x => triangle midpoint width x
      / (coords.map (triangle midpoint width)).sum)).getD i 0
      = triangle midpoint width (coords.getD i 0) / (coords.map (triangle midpoint width)).sum := by
    intro i hi
    rw [List.getD_eq_getElem _ _ (by simpa using hi), List.getD_eq_getElem _ _ hi]; simp
  refine ⟨by simp, fun x hx => (b x hx).1, c, ?_, ?_⟩
  · intro i hi hd
    rw [hg i hi]
    have : triangle midpoint width (coords.getD i 0) = 0 := by
      have := (one_le_div hw).2 hd
      exact max_eq_left (by linarith)
    rw [this, zero_div]
  · intro i j hi hj hd
    rw [hg i hi, hg j hj]
    apply div_le_div_of_nonneg_right _ hsn
    unfold triangle
    have := div_le_div_of_nonneg_right hd hw.le
    exact max_le_max le_rfl (by linarith)

/-- C21 (triangular): a zero width is a `ZeroDivisionError`; a negative width never gives weights. -/
theorem C21_triangular_bad_width (coords : List ℚ) (midpoint width : ℚ) (hw : width ≤ 0) :
    ∃ e, triangularWeights coords midpoint width = .error e := by
  unfold triangularWeights
  by_cases h0 : width = 0
  · exact ⟨_, by rw [if_pos h0]⟩
  · rw [if_neg h0]
    have hneg : width < 0 := lt_of_le_of_ne hw h0
    refine ⟨.valueError, C20_rejected _ (.inr ?_)⟩
    apply List.sum_eq_zero
    intro x hx
    obtain ⟨y, _, rfl⟩ := List.mem_map.1 hx
    rw [if_neg]
    rintro ⟨h1, h2⟩
    linarith

example : triangularWeights [1, 2, 3, 4, 5] 3 2 = .ok [0, 1/4, 1/2, 1/4, 0] := by decide +kernel
example : triangularWeights [7, 8] 3 2 = .error .valueError := by decide +kernel

/-! ### C38 ChooseWeightsLinear -/

/-- C38: whatever the configuration, weights that are returned are non-negative and sum to one across the models. -/
theorem C38_normalised (config : List (List ℚ × List ℚ)) (x : ℚ) (out : List ℚ)
    (h : chooseLinear config x = .ok out) :
    out.length = config.length ∧ (∀ w ∈ out, 0 ≤ w ∧ w ≤ 1) ∧ out.sum = 1 := by
  unfold chooseLinear at h
  simp only [bind, Except.bind] at h
  cases hm : config.mapM (fun c => chooseLinearRaw c.1 c.2 x) with
  | error e => rw [hm] at h; cases h
  | ok raw =>
    rw [hm] at h
    simp only [] at h
    obtain ⟨a, b, c, _⟩ := C20_normalised _ _ h
    exact ⟨by rw [a, (mapM_ok_forall _ _ _ hm).length_eq], b, c⟩

/-- C38: returned weights are in proportion to the models' own tables read at the target point. -/
theorem C38_proportional (config : List (List ℚ × List ℚ)) (x : ℚ) (out : List ℚ)
    (h : chooseLinear config x = .ok out) :
    ∃ raw : List ℚ, List.Forall₂ (fun c r => chooseLinearRaw c.1 c.2 x = .ok r) config raw ∧
      (∀ r ∈ raw, 0 ≤ r) ∧ out = raw.map (fun r => r / raw.sum) := by
  unfold chooseLinear at h
  simp only [bind, Except.bind] at h
  cases hm : config.mapM (fun c => chooseLinearRaw c.1 c.2 x) with
  | error e => rw [hm] at h; cases h
  | ok raw =>
    rw [hm] at h
    obtain ⟨_, b, _, d⟩ := (C20_normalise_iff _ _).1 h
    exact ⟨raw, mapM_ok_forall _ _ _ hm, b, d⟩

theorem argsort_of_sorted {keys : List ℚ} (h : keys.Pairwise (· ≤ ·)) :
    argsort keys = List.range keys.length := by
  unfold argsort
  apply List.Pairwise.insertionSort_eq
  rw [List.pairwise_iff_getElem]
  intro i j hi hj hij
  simp only [List.getElem_range]
  have hi' : i < keys.length := by simpa using hi
  have hj' : j < keys.length := by simpa using hj
  exact getD_mono h hij.le hj'

/-- C38: a table with unequal numbers of points and weights is refused. -/
theorem C38_lengths_checked (points weights : List ℚ) (hl : points.length ≠ weights.length) (x : ℚ) :
    chooseLinearRaw points weights x = .error .valueError := if_pos hl

/-- C38: an ascending table (at least two points) is read by linear interpolation between its neighbouring points
and held constant beyond both ends. -/
theorem C38_ascending_table (points weights : List ℚ) (hl : points.length = weights.length)
    (ha : points.Pairwise (· < ·)) (hn : 2 ≤ points.length) (x : ℚ) :
    (x ≤ points.getD 0 0 → chooseLinearRaw points weights x = .ok (weights.getD 0 0)) ∧
    (points.getD (points.length - 1) 0 ≤ x →
      chooseLinearRaw points weights x = .ok (weights.getD (weights.length - 1) 0)) ∧
    (∀ k, k + 1 < points.length → points.getD k 0 ≤ x → x ≤ points.getD (k + 1) 0 →
      chooseLinearRaw points weights x = .ok (weights.getD k 0
        + (weights.getD (k + 1) 0 - weights.getD k 0) * ((x - points.getD k 0)
          / (points.getD (k + 1) 0 - points.getD k 0)))) := by
  have hsort : points.Pairwise (· ≤ ·) := ha.imp le_of_lt
  have hstrict : ∀ i j, i < j → j < points.length → points.getD i 0 < points.getD j 0 := by
    intro i j hij hj
    rw [List.getD_eq_getElem _ _ hj, List.getD_eq_getElem _ _ (by omega)]
    exact List.pairwise_iff_getElem.1 ha i j _ _ hij
  have hxs : (argsort points).map (fun i : ℕ => points.getD i 0) = points := by
    rw [argsort_of_sorted hsort, map_getD_range]
  have hys : (argsort points).map (fun i : ℕ => weights.getD i 0) = weights := by
    rw [argsort_of_sorted hsort, hl, map_getD_range]
  have hraw : chooseLinearRaw points weights x
      = .ok (if x < points.getD 0 0 then weights.getD 0 0
        else if x > points.getD (points.length - 1) 0 then weights.getD (weights.length - 1) 0
        else interp1dLin points weights x) := by
    unfold chooseLinearRaw interp1dFill
    rw [if_neg (by omega), if_neg (by intro h; rw [h] at hn; simp at hn)]
    simp only [hxs, hys]
  have hmid : ∀ k, k + 1 < points.length → points.getD k 0 ≤ x → x ≤ points.getD (k + 1) 0 →
      chooseLinearRaw points weights x = .ok (weights.getD k 0
        + (weights.getD (k + 1) 0 - weights.getD k 0) * ((x - points.getD k 0)
          / (points.getD (k + 1) 0 - points.getD k 0))) := by
    intro k hk h1 h2
    rw [hraw]
    congr 1
    have hgap := hstrict k (k + 1) (by omega) hk
    rw [if_neg (by
      have := getD_mono hsort (i := 0) (j := k) (by omega) (by omega)
      exact not_lt.2 (le_trans this h1)), if_neg (by
      have := getD_mono hsort (i := k + 1) (j := points.length - 1) (by omega) (by omega)
      exact not_lt.2 (le_trans h2 this))]
    unfold interp1dLin
    simp only []
    rcases eq_or_lt_of_le h1 with h1 | h1
    · -- at a table point
      have hss : searchsortedLeft points x = k :=
        ss_unique (by omega) (fun i hi => by rw [← h1]; exact hstrict i k hi (by omega)) (fun _ => h1.ge)
      rw [hss]
      by_cases hk0 : k = 0
      · subst hk0
        have : min (max 0 1) (points.length - 1) = 1 := by omega
        rw [this, ← h1]; simp
      · have : min (max k 1) (points.length - 1) = k := by omega
        rw [this, ← h1]
        have hg := hstrict (k - 1) k (by omega) (by omega)
        have : points.getD k 0 - points.getD (k - 1) 0 ≠ 0 := by intro h; linarith
        rw [div_mul_cancel₀ _ this]; ring
    · have hss : searchsortedLeft points x = k + 1 :=
        ss_unique (by omega) (fun i hi => lt_of_le_of_lt (getD_mono hsort (by omega) (by omega)) h1)
          (fun _ => h2)
      rw [hss]
      have : min (max (k + 1) 1) (points.length - 1) = k + 1 := by omega
      rw [this]
      simp only [Nat.add_sub_cancel]
      ring
  refine ⟨?_, ?_, hmid⟩
  · intro hx
    rcases eq_or_lt_of_le hx with hx | hx
    · have := hmid 0 (by omega) hx.ge (by rw [hx]; exact (hstrict 0 1 (by omega) (by omega)).le)
      rw [this, hx]; simp
    · rw [hraw, if_pos hx]
  · intro hx
    rcases eq_or_lt_of_le hx with hx | hx
    · obtain ⟨m, hm⟩ : ∃ m, points.length = m + 2 := ⟨points.length - 2, by omega⟩
      have e1 : points.length - 1 = m + 1 := by omega
      have e2 : weights.length - 1 = m + 1 := by omega
      rw [e1] at hx
      have hg := hstrict m (m + 1) (by omega) (by omega)
      have := hmid m (by omega) (by rw [← hx]; exact hg.le) hx.ge
      rw [this, e2, ← hx]
      have : points.getD (m + 1) 0 - points.getD m 0 ≠ 0 := by intro h; linarith
      rw [div_self this]; congr 1; ring
    · rw [hraw, if_neg (by
        have := getD_mono hsort (i := 0) (j := points.length - 1) (by omega) (by omega)
        exact not_lt.2 (le_trans this hx.le)), if_pos hx]

/-- C38 (finding): the same table listed in descending order is read differently: beyond the ends the two end
weights are exchanged, so a model configured with weight 1 at lead time 0 and weight 0 at lead time 48 gets weight 1 at
lead time 60 when its points are listed as `[48, 0]`. -/
theorem C38_descending_table_refuted :
    chooseLinearRaw [0, 48] [1, 0] 60 = .ok 0 ∧ chooseLinearRaw [48, 0] [0, 1] 60 = .ok 1 ∧
    chooseLinearRaw [0, 48] [1, 0] 24 = .ok (1/2) ∧ chooseLinearRaw [48, 0] [0, 1] 24 = .ok (1/2) := by
  decide +kernel

example : chooseLinear [([0, 10, 20], [1, 0, 0]), ([0, 10, 20], [0, 1, 3])] 15 = .ok [0, 1] := by decide +kernel
example : chooseLinear [([0, 10, 20], [1, 1/2, 0]), ([0, 10, 20], [0, 1, 3])] 15 = .ok [1/9, 8/9] := by decide +kernel

end Improver
