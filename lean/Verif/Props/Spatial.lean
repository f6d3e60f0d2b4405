import Verif.Model.Spatial
import Verif.Props.Pad
import Verif.Props.Nbhood
import Mathlib.Order.Bounds.Basic

/-! Properties C68-C70: maxima within a vicinity, distances in grid cells, gradients. -/

namespace Improver

/-! ### C68: vicinity -/

theorem reflectIdx_self (n : ℕ) (i : ℕ) (h : i < n) : reflectIdx n (i : ℤ) = i := by
  unfold reflectIdx
  have : ((i : ℤ) % (2 * n : ℤ)) = i := Int.emod_eq_of_lt (by omega) (by omega)
  simp only [this, Int.toNat_natCast]
  rw [if_pos h]

theorem reflectIdx_lt (n : ℕ) (hn : 0 < n) (i : ℤ) : reflectIdx n i < n := by
  unfold reflectIdx
  simp only []
  by_cases h : (i % (2 * n : ℤ)).toNat < n
  · rw [if_pos h]; exact h
  · rw [if_neg h]; omega

/-- Reflected positions stay inside the part of the window that lies on the grid. -/
theorem reflectIdx_near (n r y : ℕ) (hy : y < n) (i : ℤ) (h1 : (y : ℤ) ≤ i + r) (h2 : i ≤ y + r) :
    reflectIdx n i < n ∧ Spec.near r y (reflectIdx n i) := by
  have hlt := reflectIdx_lt n (by omega) i
  refine ⟨hlt, ?_⟩
  by_cases hr : n ≤ r
  · unfold Spec.near; omega
  by_cases c1 : i < 0
  · have e : i % (2 * n : ℤ) = i + 2 * n := by
      rw [← Int.add_emod_right, Int.emod_eq_of_lt (by omega) (by omega)]
    have : reflectIdx n i = (-i - 1).toNat := by
      unfold reflectIdx
      simp only [e]
      rw [if_neg (by omega)]; omega
    rw [this]; unfold Spec.near; omega
  · by_cases c2 : i < n
    · obtain ⟨k, rfl⟩ : ∃ k : ℕ, i = k := ⟨i.toNat, by omega⟩
      rw [reflectIdx_self n k (by omega)]; unfold Spec.near; omega
    · have e : i % (2 * n : ℤ) = i := Int.emod_eq_of_lt (by omega) (by omega)
      have : reflectIdx n i = (2 * n - 1 - i).toNat := by
        unfold reflectIdx
        simp only [e]
        rw [if_neg (by omega)]; omega
      rw [this]; unfold Spec.near; omega

theorem foldl_max_greatest (a : ℚ) (l : List ℚ) : IsGreatest {v | v = a ∨ v ∈ l} (l.foldl max a) := by
  induction l generalizing a with
  | nil => exact ⟨.inl rfl, fun v hv => by rcases hv with rfl | h; exact le_rfl; simp at h⟩
  | cons b l ih =>
    obtain ⟨h1, h2⟩ := ih (max a b)
    rw [List.foldl_cons]
    refine ⟨?_, ?_⟩
    · rcases h1 with h | h
      · rcases max_choice a b with e | e
        · left; rw [h, e]
        · right; rw [h, e]; exact List.mem_cons_self ..
      · exact .inr (List.mem_cons_of_mem _ h)
    · intro v hv
      have hm : max a b ≤ List.foldl max (max a b) l := h2 (.inl rfl)
      rcases hv with rfl | hv
      · exact le_trans (le_max_left _ _) hm
      · rcases List.mem_cons.1 hv with rfl | hv
        · exact le_trans (le_max_right _ _) hm
        · exact h2 (.inr hv)

/-- The scipy maximum filter is the maximum over the part of the window on the grid, whatever the radius. -/
theorem maximumFilter_greatest (h w r : ℕ) (g : ℕ → ℕ → ℚ) (y x : ℕ) (hy : y < h) (hx : x < w) :
    IsGreatest {v | ∃ i j, i < h ∧ j < w ∧ Spec.near r y i ∧ Spec.near r x j ∧ v = g i j} (maximumFilter h w r g y x) := by
  unfold maximumFilter
  simp only []
  set vals := (List.range (2 * r + 1)).flatMap (fun a : ℕ =>
    (List.range (2 * r + 1)).map (fun b : ℕ =>
      g (reflectIdx h ((y : ℤ) + a - r)) (reflectIdx w ((x : ℤ) + b - r)))) with hvals
  have hmem : ∀ v, v ∈ vals ↔ ∃ i j, i < h ∧ j < w ∧ Spec.near r y i ∧ Spec.near r x j ∧ v = g i j := by
    intro v
    rw [hvals]
    simp only [List.mem_flatMap, List.mem_map, List.mem_range]
    constructor
    · rintro ⟨a, ha, b, hb, rfl⟩
      obtain ⟨p1, p2⟩ := reflectIdx_near h r y hy ((y : ℤ) + a - r) (by omega) (by omega)
      obtain ⟨q1, q2⟩ := reflectIdx_near w r x hx ((x : ℤ) + b - r) (by omega) (by omega)
      exact ⟨_, _, p1, q1, p2, q2, rfl⟩
    · rintro ⟨i, j, hi, hj, ⟨n1, n2⟩, ⟨m1, m2⟩, rfl⟩
      refine ⟨i + r - y, by omega, j + r - x, by omega, ?_⟩
      have e1 : (y : ℤ) + (i + r - y : ℕ) - r = i := by omega
      have e2 : (x : ℤ) + (j + r - x : ℕ) - r = j := by omega
      rw [e1, e2, reflectIdx_self h i hi, reflectIdx_self w j hj]
  have hset : {v | ∃ i j, i < h ∧ j < w ∧ Spec.near r y i ∧ Spec.near r x j ∧ v = g i j} = {v | v ∈ vals} := by
    ext v; exact (hmem v).symm
  rw [hset]
  cases hv : vals with
  | nil =>
    exfalso
    have : g y x ∈ vals := (hmem _).2 ⟨y, x, hy, hx, ⟨by omega, by omega⟩, ⟨by omega, by omega⟩, rfl⟩
    rw [hv] at this; simp at this
  | cons a l =>
    have := foldl_max_greatest a l
    simp only [List.tail_cons, List.headD_cons, List.mem_cons]
    exact this

theorem anyMasked_iff (h w : ℕ) (mask : ℕ → ℕ → Bool) :
    anyMasked h w mask = true ↔ ∃ y x, y < h ∧ x < w ∧ mask y x = true := by
  unfold anyMasked
  simp only [List.any_eq_true, List.mem_range]
  exact ⟨fun ⟨y, h1, x, h2, h3⟩ => ⟨y, x, h1, h2, h3⟩, fun ⟨y, x, h1, h2, h3⟩ => ⟨y, h1, x, h2, h3⟩⟩

/-- Specification: the values a vicinity maximum may draw on: unmasked points within `r` rows and columns that lie on the
same side of the coast as the point itself (when a land mask is given). -/
def Spec.vicinity (h w r : ℕ) (mask : ℕ → ℕ → Bool) (land : Option (ℕ → ℕ → Bool)) (f : ℕ → ℕ → ℚ) (y x : ℕ) : Set ℚ :=
  {v | ∃ i j, i < h ∧ j < w ∧ Spec.near r y i ∧ Spec.near r x j ∧ mask i j = false ∧
    (∀ l, land = some l → l i j = l y x) ∧ v = f i j}

theorem vicinityUnmasked_eq (h w : ℕ) (low : ℚ) (mask : ℕ → ℕ → Bool) (f : ℕ → ℕ → ℚ) (i j : ℕ) (hi : i < h) (hj : j < w) :
    vicinityUnmasked h w low mask f i j = if mask i j then low else f i j := by
  unfold vicinityUnmasked
  by_cases hm : anyMasked h w mask = true
  · rw [if_pos hm]
  · rw [if_neg hm]
    rw [if_neg]
    intro hc
    exact hm ((anyMasked_iff h w mask).2 ⟨i, j, hi, hj, hc⟩)

/-- The filter over a field filled with a value no larger than any datum gives the maximum over the points kept. -/
theorem filled_greatest (h w r : ℕ) (low : ℚ) (keep : ℕ → ℕ → Prop) (f g : ℕ → ℕ → ℚ)
    (hlow : ∀ i j, i < h → j < w → low ≤ f i j)
    (hg : ∀ i j, i < h → j < w → (keep i j ∧ g i j = f i j) ∨ (¬ keep i j ∧ g i j = low)) (y x : ℕ) (hy : y < h) (hx : x < w)
    (hk : keep y x) :
    IsGreatest {v | ∃ i j, i < h ∧ j < w ∧ Spec.near r y i ∧ Spec.near r x j ∧ keep i j ∧ v = f i j}
      (maximumFilter h w r g y x) := by
  obtain ⟨h1, h2⟩ := maximumFilter_greatest h w r g y x hy hx
  have hup : ∀ i j, i < h → j < w → Spec.near r y i → Spec.near r x j → keep i j → f i j ≤ maximumFilter h w r g y x := by
    intro i j hi hj n1 n2 hkk
    rcases hg i j hi hj with ⟨_, e⟩ | ⟨hn, _⟩
    · rw [← e]; exact h2 ⟨i, j, hi, hj, n1, n2, rfl⟩
    · exact absurd hkk hn
  have hself := hup y x hy hx ⟨by omega, by omega⟩ ⟨by omega, by omega⟩ hk
  refine ⟨?_, ?_⟩
  · obtain ⟨i, j, hi, hj, n1, n2, e⟩ := h1
    rcases hg i j hi hj with ⟨hkk, e2⟩ | ⟨_, e2⟩
    · exact ⟨i, j, hi, hj, n1, n2, hkk, by rw [e, e2]⟩
    · refine ⟨y, x, hy, hx, ⟨by omega, by omega⟩, ⟨by omega, by omega⟩, hk, ?_⟩
      apply le_antisymm _ hself
      rw [e, e2]; exact hlow y x hy hx
  · rintro v ⟨i, j, hi, hj, n1, n2, hkk, rfl⟩
    exact hup i j hi hj n1 n2 hkk

/-- **C68** (maximum): at every unmasked point the result is the greatest of the unmasked values in the square around it on
its own side of the coast; it does not depend on how the edges of the grid are extended.  The data must not be below minus
the fill value of their type (true of every float). -/
theorem C68_maximum (h w r : ℕ) (fill : ℚ) (mask : ℕ → ℕ → Bool) (land : Option (ℕ → ℕ → Bool)) (f : ℕ → ℕ → ℚ)
    (hlow : ∀ i j, i < h → j < w → -fill ≤ f i j) (y x : ℕ) (hy : y < h) (hx : x < w) (hm : mask y x = false) :
    IsGreatest (Spec.vicinity h w r mask land f y x) (maximumWithinVicinity h w r fill mask land f y x) := by
  have hval : maximumWithinVicinity h w r fill mask land f y x
      = vicinityMax h w r (-fill) land (vicinityUnmasked h w (-fill) mask f) y x := by
    unfold maximumWithinVicinity
    simp only [hm, Bool.not_false, if_true]
    by_cases hc : anyMasked h w mask = true
    · rw [if_pos hc]
    · rw [if_neg hc]
  rw [hval]
  cases land with
  | none =>
    unfold vicinityMax
    have := filled_greatest h w r (-fill) (fun i j => mask i j = false) f (vicinityUnmasked h w (-fill) mask f) hlow
      (by
        intro i j hi hj
        rw [vicinityUnmasked_eq h w _ mask f i j hi hj]
        cases hc : mask i j
        · left; exact ⟨rfl, by simp⟩
        · right; exact ⟨by simp, by simp⟩) y x hy hx hm
    convert this using 1
    unfold Spec.vicinity
    ext v
    simp
  | some l =>
    have key : vicinityMax h w r (-fill) (some l) (vicinityUnmasked h w (-fill) mask f) y x
        = maximumFilter h w r (fun i j => if l i j ≠ l y x then -fill else vicinityUnmasked h w (-fill) mask f i j) y x := by
      unfold vicinityMax
      simp only []
      cases hl : l y x
      · simp
      · simp
    rw [key]
    have := filled_greatest h w r (-fill) (fun i j => mask i j = false ∧ l i j = l y x) f
      (fun i j => if l i j ≠ l y x then -fill else vicinityUnmasked h w (-fill) mask f i j) hlow
      (by
        intro i j hi hj
        by_cases hl : l i j = l y x
        · rw [if_neg (not_not.2 hl), vicinityUnmasked_eq h w _ mask f i j hi hj]
          cases hc : mask i j
          · left; exact ⟨⟨rfl, hl⟩, by simp⟩
          · right; exact ⟨by simp, by simp⟩
        · rw [if_pos hl]; right; exact ⟨fun h => hl h.2, rfl⟩) y x hy hx ⟨hm, rfl⟩
    convert this using 1
    unfold Spec.vicinity
    ext v
    simp [and_assoc]

/-- **C68** (masked points): masked points keep the value they had (and stay masked). -/
theorem C68_masked_unchanged (h w r : ℕ) (fill : ℚ) (mask : ℕ → ℕ → Bool) (land : Option (ℕ → ℕ → Bool)) (f : ℕ → ℕ → ℚ)
    (y x : ℕ) (hy : y < h) (hx : x < w) (hm : mask y x = true) :
    maximumWithinVicinity h w r fill mask land f y x = f y x := by
  unfold maximumWithinVicinity
  simp only [hm, Bool.not_true]
  rw [if_pos ((anyMasked_iff h w mask).2 ⟨y, x, hy, hx, hm⟩)]
  simp

/-- **C68** (growth): the result is at least the point's own value, and does not decrease when the radius grows. -/
theorem C68_monotone (h w r r' : ℕ) (hr : r ≤ r') (fill : ℚ) (mask : ℕ → ℕ → Bool) (land : Option (ℕ → ℕ → Bool))
    (f : ℕ → ℕ → ℚ) (hlow : ∀ i j, i < h → j < w → -fill ≤ f i j) (y x : ℕ) (hy : y < h) (hx : x < w)
    (hm : mask y x = false) :
    f y x ≤ maximumWithinVicinity h w r fill mask land f y x ∧
    maximumWithinVicinity h w r fill mask land f y x ≤ maximumWithinVicinity h w r' fill mask land f y x := by
  obtain ⟨h1, h2⟩ := C68_maximum h w r fill mask land f hlow y x hy hx hm
  obtain ⟨_, h3⟩ := C68_maximum h w r' fill mask land f hlow y x hy hx hm
  refine ⟨h2 ⟨y, x, hy, hx, ⟨by omega, by omega⟩, ⟨by omega, by omega⟩, hm, fun _ _ => rfl, rfl⟩, h3 ?_⟩
  obtain ⟨i, j, hi, hj, ⟨a, b⟩, ⟨c, d⟩, e⟩ := h1
  exact ⟨i, j, hi, hj, ⟨by omega, by omega⟩, ⟨by omega, by omega⟩, e⟩

/-- netCDF default fill value of a four-byte integer (netCDF4.default_fillvals['i4']); that of a four-byte float is about
`9.97e36`. -/
def Spec.fillInt32 : ℚ := -2147483647

/-- **C68** (finding): for integer data the fill value is negative, so "minus the fill value" is the largest of all values:
a masked point, or a point across the coast, then *determines* the maximum of all its neighbours. -/
theorem C68_integer_refuted :
    ∃ (mask : ℕ → ℕ → Bool) (land : Option (ℕ → ℕ → Bool)) (f : ℕ → ℕ → ℚ),
      ¬ IsGreatest (Spec.vicinity 1 2 1 mask land f 0 0) (maximumWithinVicinity 1 2 1 Spec.fillInt32 mask land f 0 0) := by
  refine ⟨fun _ j => j == 1, none, fun _ _ => 3, ?_⟩
  have e : maximumWithinVicinity 1 2 1 Spec.fillInt32 (fun _ j => j == 1) none (fun _ _ => 3) 0 0 = 2147483647 := by
    decide +kernel
  rw [e]
  rintro ⟨⟨i, j, _, _, _, _, _, _, h⟩, _⟩
  norm_num at h

example : maximumWithinVicinity 2 3 1 1000 (fun i j => i == 1 && j == 1) none (fun i j => (3 * i + 2 * j : ℚ)) 0 0 = 3 := by
  decide +kernel
example : maximumWithinVicinity 2 3 5 1000 (fun _ _ => false) (some fun _ j => j == 2) (fun i j => (3 * i + 2 * j : ℚ)) 0 0 = 5 := by
  decide +kernel

/-- **C68** (radii): exactly one of the two kinds of radius must be given, with no negative entry; the given list is used. -/
theorem C68_constructor (radii gp : List ℚ) :
    (∀ cfg, vicinityInit radii gp = .ok cfg →
      (radii ≠ [] ∧ gp = [] ∧ (∀ r ∈ radii, 0 ≤ r) ∧ cfg = (radii, false)) ∨
      (radii = [] ∧ gp ≠ [] ∧ (∀ r ∈ gp, 0 ≤ r) ∧ cfg = (gp, true))) ∧
    (radii ≠ [] → gp = [] → (∀ r ∈ radii, 0 ≤ r) → vicinityInit radii gp = .ok (radii, false)) ∧
    (radii = [] → gp ≠ [] → (∀ r ∈ gp, 0 ≤ r) → vicinityInit radii gp = .ok (gp, true)) := by
  unfold vicinityInit
  have hany : ∀ l : List ℚ, (l.any (fun r => decide (r < 0)) = true) ↔ ¬ ∀ r ∈ l, 0 ≤ r := by
    intro l; simp
  cases radii with
  | nil =>
    cases gp with
    | nil => simp
    | cons a gp => 
      by_cases hc : ∀ r ∈ a :: gp, 0 ≤ r
      · have := (not_congr (hany (a :: gp))).2 (not_not.2 hc)
        simp [this, eq_comm]
        intro r hr
        exact hc r (by simpa [eq_comm] using hr)
      · have := (hany (a :: gp)).2 hc
        simp [this]
        simpa using hc
  | cons b radii =>
    cases gp with
    | cons a gp => simp
    | nil =>
      by_cases hc : ∀ r ∈ b :: radii, 0 ≤ r
      · have := (not_congr (hany (b :: radii))).2 (not_not.2 hc)
        simp [this, eq_comm]
        intro r hr
        exact hc r (by simpa [eq_comm] using hr)
      · have := (hany (b :: radii)).2 hc
        simp [this]
        simpa using hc

/-! ### C69: distances and grid cells -/

theorem gridSpacing_spec (points : List ℚ) (rtol s : ℚ) (h : gridSpacing points rtol = .ok s) :
    (npDiff points) ≠ [] ∧ s = ((npDiff points).map abs).sum / (npDiff points).length ∧ 0 ≤ s ∧
      ∀ d ∈ npDiff points, |(|d| - s)| ≤ rtol * s := by
  unfold gridSpacing at h
  simp only [] at h
  by_cases h1 : (npDiff points).map abs = []
  · rw [if_pos h1] at h; exact nomatch h
  rw [if_neg h1] at h
  set m := ((npDiff points).map abs).sum / ((npDiff points).map abs).length with hm
  have hm0 : 0 ≤ m := by
    apply div_nonneg _ (Nat.cast_nonneg _)
    apply List.sum_nonneg
    intro v hv
    obtain ⟨d, _, rfl⟩ := List.mem_map.1 hv
    exact abs_nonneg d
  by_cases h2 : ((npDiff points).map abs).all (fun d => decide (|d - m| ≤ rtol * |m|)) = true
  · rw [if_pos h2] at h
    injection h with h
    refine ⟨fun hc => h1 (by rw [hc]; rfl), ?_, h ▸ hm0, ?_⟩
    · rw [← h, hm, List.length_map]
    · intro d hd
      have := List.all_eq_true.1 h2 |d| (List.mem_map.2 ⟨d, hd, rfl⟩)
      rw [decide_eq_true_eq, abs_of_nonneg hm0] at this
      rw [← h]; exact this
  · rw [if_neg h2] at h; exact nomatch h

/-- **C69** (spacing): on an evenly spaced axis the grid spacing is the distance between neighbours, in either direction. -/
theorem C69_spacing (a d : ℚ) (n : ℕ) (hn : 2 ≤ n) (rtol : ℚ) (hr : 0 ≤ rtol) :
    gridSpacing (Spec.uniform a d n) rtol = .ok |d| := by
  unfold gridSpacing
  simp only [npDiff_uniform, List.map_replicate, List.sum_replicate, List.length_replicate]
  have hne : List.replicate (n - 1) |d| ≠ [] := by
    intro hc
    have := congrArg List.length hc
    rw [List.length_replicate] at this
    simp at this; omega
  rw [if_neg hne]
  have hc : ((n - 1 : ℕ) : ℚ) ≠ 0 := by
    have : (n - 1 : ℕ) ≠ 0 := by omega
    exact_mod_cast this
  have hm : (n - 1) • |d| / ((n - 1 : ℕ) : ℚ) = |d| := by
    rw [nsmul_eq_mul]; field_simp
  rw [hm, if_pos]
  rw [List.all_eq_true]
  intro v hv
  rw [List.eq_of_mem_replicate hv, decide_eq_true_eq, sub_self, abs_zero]
  positivity

/-- **C69** (uneven grids): a spacing is only reported when every pair of neighbours is that far apart, within the relative
tolerance; otherwise the request is refused. -/
theorem C69_uneven (points : List ℚ) (rtol : ℚ) :
    (∀ s, gridSpacing points rtol = .ok s → ∀ d ∈ npDiff points, (1 - rtol) * s ≤ |d| ∧ |d| ≤ (1 + rtol) * s) ∧
    (∀ s, gridSpacing points rtol = .ok s → s = ((npDiff points).map abs).sum / (npDiff points).length) ∧
    (∀ e, gridSpacing points rtol = .error e → e = .valueError) := by
  refine ⟨?_, fun s hs => (gridSpacing_spec points rtol s hs).2.1, ?_⟩
  · intro s hs d hd
    obtain ⟨_, _, _, h⟩ := gridSpacing_spec points rtol s hs
    have := abs_le.1 (h d hd)
    constructor <;> linarith [this.1, this.2]
  · intro e he
    unfold gridSpacing at he
    simp only [] at he
    split_ifs at he <;> (injection he with he; exact he.symm)

example : gridSpacing [0, 2, 4, 7] = .error .valueError := by decide +kernel
example : gridSpacing [6, 4, 2] = .ok 2 := by decide +kernel

/-- **C69** (cells): a distance is converted to the largest whole number of grid lengths that fits in it; distances that are
not positive, or shorter than one grid length, are refused. -/
theorem C69_cells (points : List ℚ) (s : ℚ) (hs : gridSpacing points = .ok s) (hpos : 0 < s) (dist : ℚ) :
    (∀ n, distanceToCells points dist = .ok n ↔ (0 < n ∧ (n : ℚ) * s ≤ dist ∧ dist < ((n : ℚ) + 1) * s)) ∧
    (distanceToCells points dist = .error .valueError ↔ dist < s) := by
  have key : ∀ k : ℕ, 0 < dist → (⌊dist / |s|⌋.toNat = k ↔ ((k : ℚ) * s ≤ dist ∧ dist < ((k : ℚ) + 1) * s)) := by
    intro k hd
    rw [abs_of_pos hpos]
    have h0 : 0 ≤ ⌊dist / s⌋ := Int.floor_nonneg.2 (div_nonneg hd.le hpos.le)
    have : ⌊dist / s⌋.toNat = k ↔ ⌊dist / s⌋ = (k : ℤ) := by omega
    rw [this, Int.floor_eq_iff, le_div_iff₀ hpos, div_lt_iff₀ hpos]
    push_cast
    exact Iff.rfl
  unfold distanceToCells
  by_cases hd : dist ≤ 0
  · rw [if_pos hd]
    refine ⟨fun n => ⟨fun h => (nomatch h), fun ⟨h0, h1, _⟩ => ?_⟩, ?_⟩
    · exfalso
      have : (0:ℚ) < n := by exact_mod_cast h0
      have := mul_pos this hpos
      linarith
    · exact ⟨fun _ => by linarith, fun _ => rfl⟩
  · rw [if_neg hd]
    have hd' : 0 < dist := not_le.1 hd
    simp only [hs, bind, Except.bind]
    by_cases hz : ⌊dist / |s|⌋.toNat = 0
    · rw [if_pos hz]
      have hz' := (key 0 hd').1 hz
      norm_num at hz'
      refine ⟨fun n => ⟨fun h => (nomatch h), fun ⟨h0, h1, h2⟩ => ?_⟩, ?_⟩
      · have := (key n hd').2 ⟨h1, h2⟩; omega
      · exact ⟨fun _ => hz'.2, fun _ => rfl⟩
    · rw [if_neg hz]
      refine ⟨fun n => ⟨fun h => ?_, fun ⟨h0, h1, h2⟩ => ?_⟩, ⟨fun h => (nomatch h), fun h => ?_⟩⟩
      · injection h with h
        have := (key n hd').1 h
        exact ⟨by omega, this⟩
      · rw [(key n hd').2 ⟨h1, h2⟩]
      · exact absurd ((key 0 hd').2 ⟨by push_cast; linarith, by push_cast; linarith⟩) hz

example : distanceToCells [0, 2000, 4000] 5999 = .ok 2 := by decide +kernel
example : distanceToCells [0, 2000, 4000] 1999 = .error .valueError := by decide +kernel

/-- **C69** (metres): with a radius in metres on an evenly spaced axis, the columns of the neighbourhood of a point are
exactly those whose coordinate lies within the radius of the point's. -/
theorem C69_metres (a d : ℚ) (hd : d ≠ 0) (n : ℕ) (hn : 2 ≤ n) (dist : ℚ) (k : ℕ)
    (hk : distanceToCells (Spec.uniform a d n) dist = .ok k) (x j : ℕ) :
    Spec.near k x j ↔ |(a + x * d) - (a + j * d)| ≤ dist := by
  have hpos : 0 < |d| := abs_pos.2 hd
  obtain ⟨_, h1, h2⟩ := ((C69_cells _ _ (C69_spacing a d n hn _ (by norm_num)) hpos dist).1 k).1 hk
  have e : (a + x * d) - (a + j * d) = (x - j : ℚ) * d := by ring
  rw [e, abs_mul]
  have hz : |(x : ℚ) - j| = ((|(x : ℤ) - j| : ℤ) : ℚ) := by push_cast; rfl
  have hn' : Spec.near k x j ↔ |(x : ℤ) - j| ≤ k := by
    unfold Spec.near; rw [abs_le]; omega
  rw [hn', hz]
  constructor
  · intro h
    refine le_trans (mul_le_mul_of_nonneg_right ?_ hpos.le) h1
    exact_mod_cast h
  · intro h
    by_contra hc
    have : (k : ℤ) + 1 ≤ |(x : ℤ) - j| := by omega
    have : ((k : ℚ) + 1) ≤ ((|(x : ℤ) - j| : ℤ) : ℚ) := by exact_mod_cast this
    have := mul_le_mul_of_nonneg_right this hpos.le
    linarith

/-- **C69** (round trip): converting a number of cells to a distance and back gives the number again. -/
theorem C69_roundtrip (xs ys : List ℚ) (n : ℕ) (hn : 0 < n) (dist s : ℚ) (hs : gridSpacing xs = .ok s) (hpos : 0 < s)
    (h : cellsToDistance xs ys n = .ok dist) : distanceToCells xs dist = .ok n := by
  have hd : dist = s * n := by
    unfold cellsToDistance at h
    cases hc : checkEqualArea xs ys true with
    | error e => rw [hc] at h; exact nomatch h
    | ok u =>
      simp only [hc, hs, bind, Except.bind, pure, Except.pure] at h
      injection h with h; exact h.symm
  rw [(C69_cells xs s hs hpos dist).1 n, hd]
  refine ⟨hn, by linarith, by linarith⟩

/-- **C69** (equal area): a grid passes the check exactly when both axes are evenly spaced and, if asked for, the spacings
agree within numpy's tolerance. -/
theorem C69_equal_area (xs ys : List ℚ) (req : Bool) :
    checkEqualArea xs ys req = .ok () ↔ ∃ dx dy, gridSpacing xs = .ok dx ∧ gridSpacing ys = .ok dy ∧
      (req = true → |dx - dy| ≤ 1 / 100000000 + 1 / 100000 * |dy|) := by
  unfold checkEqualArea npIsclose
  cases hx : gridSpacing xs with
  | error e => simp only [bind, Except.bind]; exact ⟨fun h => (nomatch h), fun ⟨_, _, h, _⟩ => nomatch h⟩
  | ok dx =>
    cases hy : gridSpacing ys with
    | error e => simp only [bind, Except.bind]; exact ⟨fun h => (nomatch h), fun ⟨_, _, _, h, _⟩ => nomatch h⟩
    | ok dy =>
      simp only [bind, Except.bind]
      cases req with
      | false => simp
      | true =>
        by_cases hc : |dx - dy| ≤ 1 / 100000000 + 1 / 100000 * |dy|
        · simp only [hc, decide_true, Bool.not_true, Bool.and_false]
          exact ⟨fun _ => ⟨dx, dy, rfl, rfl, fun _ => hc⟩, fun _ => rfl⟩
        · simp only [hc, decide_false, Bool.not_false, Bool.and_true]
          refine ⟨fun h => (nomatch h), ?_⟩
          rintro ⟨dx', dy', h1, h2, h3⟩
          injection h1 with h1; injection h2 with h2
          rw [← h1, ← h2] at h3
          exact absurd (h3 trivial) hc

/-! ### C70: differences and gradients -/

/-- **C70** (differences): one difference per pair of neighbours, each the later value minus the earlier; on a circular axis
one more, from the last point round to the first. -/
theorem C70_differences (row : List ℚ) (hne : row ≠ []) :
    (adjacentDiff false row).length = row.length - 1 ∧ (adjacentDiff true row).length = row.length ∧
    (∀ c k, (h : k + 1 < row.length) → (adjacentDiff c row)[k]? = some (row[k + 1] - row[k])) ∧
    (adjacentDiff true row)[row.length - 1]? = some (row.head hne - row.getLast hne) ∧
    (adjacentDiff true row).sum = 0 := by
  have hlen : 0 < row.length := List.length_pos_iff.2 hne
  have hlast : row.headD 0 - row.getLastD 0 = row.head hne - row.getLast hne := by
    cases row with
    | nil => exact absurd rfl hne
    | cons a l =>
      rw [List.getLastD_eq_getLast?, List.getLast?_eq_some_getLast (List.cons_ne_nil a l)]; rfl
  refine ⟨?_, ?_, ?_, ?_, ?_⟩
  · unfold adjacentDiff; simp [npDiff_length']
  · unfold adjacentDiff; simp [npDiff_length']; omega
  · intro c k hk
    have hl : k < (npDiff row).length := by rw [npDiff_length']; omega
    unfold adjacentDiff
    rw [List.getElem?_append_left hl, List.getElem?_eq_getElem hl, npDiff_getElem]
  · unfold adjacentDiff
    rw [List.getElem?_append_right (by rw [npDiff_length']), npDiff_length', Nat.sub_self, if_pos rfl, hlast]
    rfl
  · unfold adjacentDiff
    rw [List.sum_append, if_pos rfl]
    cases row with
    | nil => exact absurd rfl hne
    | cons a l =>
      rw [npDiff_sum']; simp

/-- **C70** (projection grids, ascending axis): the gradient between neighbours is the change of the field divided by the
signed change of the coordinate. -/
theorem C70_gradient_partial (a d : ℚ) (hd : 0 < d) (row : List ℚ) (hn : 2 ≤ row.length) :
    ∃ ds, projectionDistances false (Spec.uniform a d row.length) = .ok ds ∧
      (gradientRow (adjacentDiff false row) ds).length = row.length - 1 ∧
      ∀ k, (h : k + 1 < row.length) → (gradientRow (adjacentDiff false row) ds)[k]?
        = some ((row[k + 1] - row[k]) / ((a + (k + 1 : ℕ) * d) - (a + k * d))) := by
  refine ⟨List.replicate (row.length - 1) d, ?_, ?_, ?_⟩
  · unfold projectionDistances
    rw [if_neg (by decide), C69_spacing a d row.length hn _ (by norm_num), abs_of_pos hd, uniform_length]
    rfl
  · unfold gradientRow; rw [List.length_zipWith, List.length_replicate]
    have := (C70_differences row (by intro h; rw [h] at hn; simp at hn)).1
    rw [this]; simp
  · intro k hk
    have h1 := (C70_differences row (by intro h; rw [h] at hn; simp at hn)).2.2.1 false k hk
    unfold gradientRow
    rw [List.getElem?_zipWith, h1, List.getElem?_replicate, if_pos (by omega)]
    simp only []
    congr 2
    push_cast; ring

/-- **C70** (projection grids): a circular projected axis is refused. -/
theorem C70_circular_refused (points : List ℚ) : projectionDistances true points = .error .notImplemented := rfl

/-- **C70** (finding): on a projection grid whose axis runs downwards the spacing is taken without its sign, so every
gradient has the wrong sign. -/
theorem C70_descending_refuted (a d : ℚ) (hd : d < 0) (row : List ℚ) (hn : 2 ≤ row.length) :
    ∃ ds, projectionDistances false (Spec.uniform a d row.length) = .ok ds ∧
      ∀ k, (h : k + 1 < row.length) → (gradientRow (adjacentDiff false row) ds)[k]?
        = some (-((row[k + 1] - row[k]) / ((a + (k + 1 : ℕ) * d) - (a + k * d)))) := by
  refine ⟨List.replicate (row.length - 1) (-d), ?_, ?_⟩
  · unfold projectionDistances
    rw [if_neg (by decide), C69_spacing a d row.length hn _ (by norm_num), abs_of_neg hd, uniform_length]
    rfl
  · intro k hk
    have h1 := (C70_differences row (by intro h; rw [h] at hn; simp at hn)).2.2.1 false k hk
    unfold gradientRow
    rw [List.getElem?_zipWith, h1, List.getElem?_replicate, if_pos (by omega)]
    simp only []
    congr 1
    rw [← div_neg]
    congr 1
    push_cast; ring

/-- **C70** (longitude / latitude grids): gradients are differences over the signed distance along the parallel (or the
meridian), whichever way the axis runs, including the pair that wraps round a circular axis. -/
theorem C70_latlon (radius radPerDeg cosLat : ℚ) (circ : Bool) (longs row : List ℚ) (hl : longs.length = row.length)
    (hne : longs ≠ []) (hr : row ≠ []) :
    let g := gradientRow (adjacentDiff circ row) (latLonXDistances radius radPerDeg cosLat circ longs)
    (∀ k, (h : k + 1 < row.length) → g[k]? = some ((row[k + 1] - row[k]) /
      (radius * cosLat * (radPerDeg * (longs[k + 1] - longs[k]))))) ∧
    (circ = true → g[row.length - 1]? = some ((row.head hr - row.getLast hr) /
      (radius * cosLat * (radPerDeg * (360 + longs.head hne - longs.getLast hne))))) ∧
    g.length = if circ then row.length else row.length - 1 := by
  intro g
  have hpos : 0 < longs.length := List.length_pos_iff.2 hne
  obtain ⟨d1, d2, d3, d4, _⟩ := C70_differences row hr
  have hx : latLonXDistances radius radPerDeg cosLat circ longs = (npDiff
      (if circ then longs ++ [360 + longs.headD 0] else longs)).map (fun d => radius * cosLat * (radPerDeg * d)) := rfl
  cases circ with
  | false =>
    refine ⟨?_, fun h => Bool.noConfusion h, ?_⟩
    · intro k hk
      have hk' : k < (npDiff longs).length := by rw [npDiff_length']; omega
      change (gradientRow _ _)[k]? = _
      unfold gradientRow
      rw [List.getElem?_zipWith, d3 false k hk, hx, List.getElem?_map, if_neg (by decide),
        List.getElem?_eq_getElem hk', npDiff_getElem]
      rfl
    · change (gradientRow _ _).length = _
      unfold gradientRow
      rw [List.length_zipWith, d1, hx, List.length_map, npDiff_length', if_neg (by decide), hl]
      simp
  | true =>
    have hlen : (longs ++ [360 + longs.headD 0]).length = longs.length + 1 := by simp
    refine ⟨?_, ?_, ?_⟩
    · intro k hk
      have hk' : k < (npDiff (longs ++ [360 + longs.headD 0])).length := by rw [npDiff_length', hlen]; omega
      change (gradientRow _ _)[k]? = _
      unfold gradientRow
      rw [List.getElem?_zipWith, d3 true k hk, hx, List.getElem?_map, if_pos rfl,
        List.getElem?_eq_getElem hk', npDiff_getElem]
      rw [List.getElem_append_left (by omega), List.getElem_append_left (by omega)]
      rfl
    · intro _
      have hk' : row.length - 1 < (npDiff (longs ++ [360 + longs.headD 0])).length := by
        rw [npDiff_length', hlen]; omega
      change (gradientRow _ _)[row.length - 1]? = _
      unfold gradientRow
      rw [List.getElem?_zipWith, d4, hx, List.getElem?_map, if_pos rfl,
        List.getElem?_eq_getElem hk', npDiff_getElem]
      rw [List.getElem_append_right (by omega), List.getElem_append_left (by omega)]
      simp only [List.getElem_singleton]
      have e1 : longs.headD 0 = longs.head hne := by
        cases longs with
        | nil => exact absurd rfl hne
        | cons a l => rfl
      have e2 : longs[row.length - 1]'(by omega) = longs.getLast hne := by
        rw [List.getLast_eq_getElem]; simp only [hl]
      rw [e1, e2]
      rfl
    · change (gradientRow _ _).length = _
      unfold gradientRow
      rw [List.length_zipWith, d2, hx, List.length_map, npDiff_length', if_pos rfl, hlen, if_pos rfl, hl]
      simp

/-- **C70** (meridional gradients on longitude / latitude grids). -/
theorem C70_latlon_y (radius radPerDeg : ℚ) (lats col : List ℚ) (hl : lats.length = col.length) (hr : col ≠ []) (k : ℕ)
    (hk : k + 1 < col.length) :
    (gradientRow (adjacentDiff false col) (latLonYDistances radius radPerDeg lats))[k]?
      = some ((col[k + 1] - col[k]) / (radius * (radPerDeg * (lats[k + 1] - lats[k])))) := by
  have hk' : k < (npDiff lats).length := by rw [npDiff_length']; omega
  unfold gradientRow latLonYDistances
  rw [List.getElem?_zipWith, (C70_differences col hr).2.2.1 false k hk, List.getElem?_map,
    List.getElem?_eq_getElem hk', npDiff_getElem]
  rfl

/-- **C70** (where): the coordinate of each difference is halfway between the two points it compares. -/
theorem C70_midpoints (points : List ℚ) (hne : points ≠ []) :
    (∀ c k, (h : k + 1 < points.length) → (axisMidpoints c points)[k]? = some ((points[k] + points[k + 1]) / 2)) ∧
    (axisMidpoints true points)[points.length - 1]? = some ((points.getLast hne + (360 + points.head hne)) / 2) ∧
    (axisMidpoints false points).length = points.length - 1 ∧ (axisMidpoints true points).length = points.length := by
  have hpos : 0 < points.length := List.length_pos_iff.2 hne
  have e1 : points.headD 0 = points.head hne := by
    cases points with
    | nil => exact absurd rfl hne
    | cons a l => rfl
  have gen : ∀ (ps : List ℚ) k, (h : k + 1 < ps.length) →
      (List.zipWith (fun a b => (b + a) / 2) ps ps.tail)[k]? = some ((ps[k] + ps[k + 1]) / 2) := by
    intro ps k hk
    rw [List.getElem?_zipWith, List.getElem?_eq_getElem (by omega), List.getElem?_tail, List.getElem?_eq_getElem hk]
    simp only []
    rw [add_comm]
  refine ⟨?_, ?_, ?_, ?_⟩
  · intro c k hk
    cases c with
    | false => unfold axisMidpoints; rw [if_neg (by decide)]; exact gen points k hk
    | true =>
      unfold axisMidpoints
      rw [if_pos rfl]
      have := gen (points ++ [360 + points.headD 0]) k (by simp; omega)
      rw [List.getElem_append_left (by omega), List.getElem_append_left (by omega)] at this
      exact this
  · unfold axisMidpoints
    rw [if_pos rfl]
    have := gen (points ++ [360 + points.headD 0]) (points.length - 1) (by simp; omega)
    rw [List.getElem_append_left (by omega), List.getElem_append_right (by omega)] at this
    simp only [List.getElem_singleton] at this
    rw [this, e1, List.getLast_eq_getElem]
  · unfold axisMidpoints; rw [if_neg (by decide)]; simp
  · unfold axisMidpoints; rw [if_pos rfl]; simp

example : gradientRow (adjacentDiff false [1, 3, 9]) [2, 2] = [1, 3] := by decide +kernel
example : (adjacentDiff true [1, 3, 9] : List ℚ) = [2, 6, -8] := by decide +kernel

/-- **C68** (several radii): one result per radius, in the order given, each for the number of grid cells of that radius. -/
theorem C68_process (h w : ℕ) (fill : ℚ) (radii xs : List ℚ) (mask : ℕ → ℕ → Bool) (land : Option (ℕ → ℕ → Bool))
    (f : ℕ → ℕ → ℚ) (y x : ℕ) (out : List ℚ)
    (ho : vicinityProcess h w fill (radii, false) xs mask land f y x = .ok out) :
    List.Forall₂ (fun r v => ∃ n, distanceToCells xs r = .ok n ∧ v = maximumWithinVicinity h w n fill mask land f y x)
      radii out := by
  unfold vicinityProcess at ho
  simp only [bind, Except.bind, pure, Except.pure] at ho
  rw [if_neg (by decide)] at ho
  cases hm : radii.mapM (distanceToCells xs) with
  | error e => rw [hm] at ho; exact nomatch ho
  | ok cells =>
    rw [hm] at ho
    simp only [] at ho
    injection ho with ho
    subst ho
    induction radii generalizing cells with
    | nil =>
      rw [List.mapM_nil] at hm
      injection hm with hm; subst hm; exact .nil
    | cons r rs ih =>
      rw [List.mapM_cons] at hm
      simp only [bind, Except.bind, pure, Except.pure] at hm
      cases hr : distanceToCells xs r with
      | error e => rw [hr] at hm; exact nomatch hm
      | ok n =>
        rw [hr] at hm
        simp only [] at hm
        cases hrs : rs.mapM (distanceToCells xs) with
        | error e => rw [hrs] at hm; exact nomatch hm
        | ok ns =>
          rw [hrs] at hm
          simp only [] at hm
          injection hm with hm; subst hm
          exact .cons ⟨n, hr, rfl⟩ (ih ns hrs)

/-- **C68** (grid point radii): whole grid point radii are used as they are. -/
theorem C68_process_cells (h w : ℕ) (fill : ℚ) (ns : List ℕ) (xs : List ℚ) (mask : ℕ → ℕ → Bool)
    (land : Option (ℕ → ℕ → Bool)) (f : ℕ → ℕ → ℚ) (y x : ℕ) :
    vicinityProcess h w fill (ns.map (fun n : ℕ => (n : ℚ)), true) xs mask land f y x
      = .ok (ns.map (fun n => maximumWithinVicinity h w n fill mask land f y x)) := by
  unfold vicinityProcess
  simp only [bind, Except.bind, pure, Except.pure, if_true, List.map_map]
  refine congrArg Except.ok (List.map_congr_left fun n _ => ?_)
  simp

end Improver
