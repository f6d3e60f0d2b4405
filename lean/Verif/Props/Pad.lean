import Verif.Model.Pad
import Verif.Lemmas.ListAux
import Mathlib.Data.List.GetD

/-! Property C29: adding and removing halos. -/

namespace Improver

/-- Specification: the points of a uniform coordinate. -/
def Spec.uniform (a d : ℚ) (n : ℕ) : List ℚ := (List.range n).map (fun k : ℕ => a + k * d)

theorem npDiff_zip (p : List ℚ) : npDiff p = List.zipWith (fun a b => a - b) p.tail p := by
  induction p with
  | nil => simp [npDiff]
  | cons a l ih =>
    cases l with
    | nil => simp [npDiff]
    | cons b l => simp only [npDiff, ih]; simp

theorem npDiff_length' (p : List ℚ) : (npDiff p).length = p.length - 1 := by
  rw [npDiff_zip]; simp

theorem npDiff_getElem (p : List ℚ) (i : ℕ) (h : i < (npDiff p).length) :
    (npDiff p)[i] = p[i + 1]'(by rw [npDiff_length'] at h; omega) - p[i]'(by rw [npDiff_length'] at h; omega) := by
  simp only [npDiff_zip]
  simp

/-- The sum of differences telescopes. -/
theorem npDiff_sum' (a : ℚ) (l : List ℚ) : (npDiff (a :: l)).sum = (a :: l).getLastD 0 - a := by
  induction l generalizing a with
  | nil => simp [npDiff]
  | cons b l ih =>
    have e : npDiff (a :: b :: l) = (b - a) :: npDiff (b :: l) := by simp [npDiff]
    rw [e, List.sum_cons, ih b]
    have e2 : (a :: b :: l).getLastD 0 = (b :: l).getLastD 0 := by simp [List.getLastD]
    rw [e2]; ring

theorem uniform_length (a d : ℚ) (n : ℕ) : (Spec.uniform a d n).length = n := by simp [Spec.uniform]

theorem npDiff_uniform (a d : ℚ) (n : ℕ) : npDiff (Spec.uniform a d n) = List.replicate (n - 1) d := by
  apply List.ext_getElem
  · rw [npDiff_length', uniform_length, List.length_replicate]
  · intro i h1 h2
    rw [npDiff_getElem, List.getElem_replicate]
    simp only [Spec.uniform, List.getElem_map, List.getElem_range]
    push_cast; ring

theorem npDiff_replicate (n : ℕ) (d : ℚ) : npDiff (List.replicate n d) = List.replicate (n - 1) 0 := by
  apply List.ext_getElem
  · rw [npDiff_length']; simp
  · intro i h1 h2
    rw [npDiff_getElem]; simp

theorem coordIncrement_uniform (a d : ℚ) (n : ℕ) (hn : 2 ≤ n) : coordIncrement (Spec.uniform a d n) = .ok d := by
  unfold coordIncrement
  simp only []
  rw [npDiff_uniform, npDiff_replicate, List.sum_replicate, nsmul_zero]
  have : npIsclose 0 0 = true := by decide +kernel
  rw [if_pos this]
  obtain ⟨m, rfl⟩ : ∃ m, n = m + 2 := ⟨n - 2, by omega⟩
  simp [List.replicate_succ]

theorem uniform_head (a d : ℚ) (n : ℕ) (hn : 1 ≤ n) : (Spec.uniform a d n).headD 0 = a := by
  obtain ⟨m, rfl⟩ : ∃ m, n = m + 1 := ⟨n - 1, by omega⟩
  unfold Spec.uniform
  rw [List.range_succ_eq_map]; simp

theorem uniform_last (a d : ℚ) (n : ℕ) (hn : 1 ≤ n) : (Spec.uniform a d n).getLastD 0 = a + ((n : ℚ) - 1) * d := by
  obtain ⟨m, rfl⟩ : ∃ m, n = m + 1 := ⟨n - 1, by omega⟩
  unfold Spec.uniform
  rw [List.range_succ]; simp

/-- **C29** (coordinates): a uniform coordinate is extended with the same spacing by `width` points on either side, and
the bounds are half a spacing on either side of each point. -/
theorem C29_coord_extended (a d : ℚ) (n width : ℕ) (hn : 2 ≤ n) :
    padCoordAdd (Spec.uniform a d n) width
      = .ok ⟨Spec.uniform (a - width * d) d (n + 2 * width),
          (Spec.uniform (a - width * d) d (n + 2 * width)).map (fun v => (v - d / 2, v + d / 2))⟩ := by
  unfold padCoordAdd
  rw [coordIncrement_uniform a d n hn, uniform_head _ _ _ (by omega), uniform_last _ _ _ (by omega), uniform_length]
  simp only [bind, Except.bind, pure, Except.pure]
  have : npLinspace (a - width * d) (a + ((n : ℚ) - 1) * d + width * d) (n + width + width)
      = Spec.uniform (a - width * d) d (n + 2 * width) := by
    unfold npLinspace Spec.uniform
    have e : n + width + width = n + 2 * width := by omega
    rw [e]
    apply List.map_congr_left
    intro k _
    have hpos : ((n + 2 * width : ℕ) : ℚ) - 1 ≠ 0 := by
      have : (2 : ℚ) ≤ ((n + 2 * width : ℕ) : ℚ) := by exact_mod_cast (by omega : 2 ≤ n + 2 * width)
      linarith
    have : (a + ((n : ℚ) - 1) * d + width * d - (a - width * d)) / (((n + 2 * width : ℕ) : ℚ) - 1) = d := by
      rw [div_eq_iff hpos]; push_cast; ring
    rw [this]
  rw [this]
  congr 2
  unfold coordBounds
  apply List.map_congr_left
  intro v _
  congr 1 <;> ring

/-- **C29** (coordinates): removing a halo recovers the original points. -/
theorem C29_coord_roundtrip (a d : ℚ) (n width : ℕ) (hn : 2 ≤ n) (p : PaddedCoord)
    (hp : padCoordAdd (Spec.uniform a d n) width = .ok p) :
    ∃ q, padCoordRemove p.points width = .ok q ∧ q.points = Spec.uniform a d n := by
  rw [C29_coord_extended a d n width hn] at hp
  injection hp with hp
  subst hp
  unfold padCoordRemove
  simp only [bind, Except.bind, pure, Except.pure]
  rw [coordIncrement_uniform _ _ _ (by omega)]
  refine ⟨_, rfl, ?_⟩
  simp only []
  rw [uniform_length]
  apply List.ext_getElem
  · simp [Spec.uniform]; omega
  · intro i h1 h2
    simp only [Spec.uniform, List.getElem_drop, List.getElem_take, List.getElem_map, List.getElem_range]
    push_cast; ring

theorem symIndex_lt (n width i : ℕ) (hn : 0 < n) : symIndex n width i < n := by
  unfold symIndex
  simp only []
  have h0 : 0 ≤ ((i : ℤ) - (width : ℤ)) % ((2 * n : ℕ) : ℤ) := Int.emod_nonneg _ (by omega)
  have h1 : ((i : ℤ) - (width : ℤ)) % ((2 * n : ℕ) : ℤ) < ((2 * n : ℕ) : ℤ) := Int.emod_lt_of_pos _ (by omega)
  split_ifs <;> omega

theorem symIndex_inner (n width i : ℕ) (h1 : width ≤ i) (h2 : i < n + width) : symIndex n width i = i - width := by
  unfold symIndex
  simp only []
  have : ((i : ℤ) - (width : ℤ)) % ((2 * n : ℕ) : ℤ) = (i : ℤ) - (width : ℤ) :=
    Int.emod_eq_of_lt (by omega) (by omega)
  rw [this, if_pos (by omega)]
  omega

theorem symIndex_low (n width k : ℕ) (h1 : k < width) (h2 : k < n) : symIndex n width (width - 1 - k) = k := by
  unfold symIndex
  simp only []
  have : (((width - 1 - k : ℕ) : ℤ) - (width : ℤ)) % ((2 * n : ℕ) : ℤ) = 2 * (n : ℤ) - 1 - k := by
    rw [← Int.add_emod_right]
    rw [Int.emod_eq_of_lt (by omega) (by omega)]
    omega
  rw [this, if_neg (by omega)]
  omega

theorem symIndex_high (n width k : ℕ) (h2 : k < n) : symIndex n width (n + width + k) = n - 1 - k := by
  unfold symIndex
  simp only []
  have : (((n + width + k : ℕ) : ℤ) - (width : ℤ)) % ((2 * n : ℕ) : ℤ) = (n : ℤ) + k := by
    rw [Int.emod_eq_of_lt (by omega) (by omega)]
    omega
  rw [this, if_neg (by omega)]
  omega

/-- Inner part of the padded array, for every padding method. -/
theorem npPad2_inner (h w wy wx : ℕ) (method : PadMethod) (f : ℕ → ℕ → ℚ) (i j : ℕ) (hi : i < h) (hj : j < w) :
    npPad2 h w wy wx method f (i + wy) (j + wx) = f i j := by
  unfold npPad2
  cases method with
  | constant => simp only []; rw [if_pos (by omega)]; simp
  | symmetric =>
    simp only []
    rw [symIndex_inner h wy _ (by omega) (by omega), symIndex_inner w wx _ (by omega) (by omega)]; simp
  | other halo => simp only []; rw [if_pos (by omega)]; simp

/-- **C29.** For a cube on a uniform grid, padding with any method and any widths succeeds, enlarges the grid by the widths
on each side, and removing a halo of the same widths succeeds and returns the original sizes, coordinates and data. -/
theorem C29_roundtrip (g : Grid2) (a d b e : ℚ) (wx wy : ℕ) (method : PadMethod)
    (hh : 2 ≤ g.h) (hw : 2 ≤ g.w) (hys : g.ys = Spec.uniform a d g.h) (hxs : g.xs = Spec.uniform b e g.w) :
    ∃ p, padCubeWithHalo g wx wy method = .ok p ∧ p.h = g.h + 2 * wy ∧ p.w = g.w + 2 * wx ∧
    ∃ q, removeHaloFromCube p wx wy = .ok q ∧ q.h = g.h ∧ q.w = g.w ∧ q.ys = g.ys ∧ q.xs = g.xs ∧
      ∀ i j, i < g.h → j < g.w → q.data i j = g.data i j := by
  unfold padCubeWithHalo
  rw [hys, hxs]
  have hx := C29_coord_extended b e g.w wx hw
  have hy := C29_coord_extended a d g.h wy hh
  obtain ⟨qx, hqx, hqx'⟩ := C29_coord_roundtrip b e g.w wx hw _ hx
  obtain ⟨qy, hqy, hqy'⟩ := C29_coord_roundtrip a d g.h wy hh _ hy
  rw [hx, hy]
  simp only [bind, Except.bind, pure, Except.pure]
  refine ⟨_, rfl, rfl, rfl, ?_⟩
  unfold removeHaloFromCube
  simp only [] at hqx hqy
  simp only [bind, Except.bind, pure, Except.pure]
  rw [hqx, hqy]
  refine ⟨_, rfl, ?_, ?_, hqy', hqx', ?_⟩
  · simp only []; omega
  · simp only []; omega
  · intro i j hi hj
    exact npPad2_inner g.h g.w wy wx method g.data i j hi hj

/-- **C29** (symmetric padding introduces no new values): every value of the padded array is a value of the original
grid. -/
theorem C29_symmetric_values (h w wy wx : ℕ) (f : ℕ → ℕ → ℚ) (hh : 0 < h) (hw : 0 < w) (a b : ℕ) :
    ∃ i j, i < h ∧ j < w ∧ npPad2 h w wy wx .symmetric f a b = f i j :=
  ⟨_, _, symIndex_lt h wy a hh, symIndex_lt w wx b hw, rfl⟩

/-- **C29** (symmetric padding mirrors the field about its edges): the cell `k + 1` outside an edge holds the value of the
cell `k` inside it, in each direction. -/
theorem C29_symmetric_mirror (h w wy wx : ℕ) (f : ℕ → ℕ → ℚ) (i j k : ℕ) (hi : i < h) (hj : j < w) :
    (k < wx → k < w → npPad2 h w wy wx .symmetric f (i + wy) (wx - 1 - k) = f i k) ∧
    (k < wy → k < h → npPad2 h w wy wx .symmetric f (wy - 1 - k) (j + wx) = f k j) ∧
    (k < w → npPad2 h w wy wx .symmetric f (i + wy) (w + wx + k) = f i (w - 1 - k)) ∧
    (k < h → npPad2 h w wy wx .symmetric f (h + wy + k) (j + wx) = f (h - 1 - k) j) := by
  have hi' := symIndex_inner h wy (i + wy) (by omega) (by omega)
  have hj' := symIndex_inner w wx (j + wx) (by omega) (by omega)
  rw [Nat.add_sub_cancel] at hi' hj'
  refine ⟨fun h1 h2 => ?_, fun h1 h2 => ?_, fun h1 => ?_, fun h1 => ?_⟩ <;> simp only [npPad2]
  · rw [hi', symIndex_low w wx k h1 h2]
  · rw [hj', symIndex_low h wy k h1 h2]
  · rw [hi', symIndex_high w wx k h1]
  · rw [hj', symIndex_high h wy k h1]

/-- **C29** (constant padding fills the halo with zeros). -/
theorem C29_constant_halo (h w wy wx : ℕ) (f : ℕ → ℕ → ℚ) (a b : ℕ)
    (hout : a < wy ∨ h + wy ≤ a ∨ b < wx ∨ w + wx ≤ b) : npPad2 h w wy wx .constant f a b = 0 := by
  unfold npPad2
  simp only []
  rw [if_neg (by omega)]

/-- **C29** (what the uniformity check really tests, partial): a coordinate with at least three points is refused exactly
when its first and last increments differ by more than 1e-8.  The full claim is that every non-uniform coordinate is
refused; see `C29_uniformity_refuted`. -/
theorem C29_uniformity_partial (p : List ℚ) (width : ℕ) (first : ℚ) (rest : List ℚ)
    (hinc : npDiff p = first :: rest) :
    padCoordAdd p width = .error .valueError ↔ 1 / 100000000 < |(first :: rest).getLastD 0 - first| := by
  unfold padCoordAdd coordIncrement
  simp only [bind, Except.bind, pure, Except.pure]
  rw [hinc, npDiff_sum']
  by_cases hc : npIsclose ((first :: rest).getLastD 0 - first) 0 = true
  · rw [if_pos hc]
    simp only [reduceCtorEq, false_iff, not_lt]
    have := of_decide_eq_true hc
    rw [sub_zero, abs_zero, mul_zero, add_zero] at this
    exact this
  · rw [if_neg hc]
    simp only [true_iff]
    have := of_decide_eq_false (by simpa using hc : npIsclose ((first :: rest).getLastD 0 - first) 0 = false)
    rw [sub_zero, abs_zero, mul_zero, add_zero] at this
    exact not_le.1 this

/-- C29 (finding): the coordinate 0, 1, 3, 4 is not uniform, but is accepted because its first and last increments agree;
padding it moves its interior points, so that padding and removing the halo changes the coordinate. -/
theorem C29_uniformity_refuted :
    (padCoordAdd [0, 1, 3, 4] 1).toOption.map PaddedCoord.points = some [-1, 1/5, 7/5, 13/5, 19/5, 5] ∧
    (padCoordRemove [-1, 1/5, 7/5, 13/5, 19/5, 5] 1).toOption.map PaddedCoord.points
      = some [1/5, 7/5, 13/5, 19/5] := by decide +kernel

example : (padCoordAdd [10, 20, 30] 2).toOption.map PaddedCoord.points = some [-10, 0, 10, 20, 30, 40, 50] := by
  decide +kernel
example : (padCoordAdd [0, 1, 3] 1) = .error .valueError := by decide +kernel
example : (List.range 9).map (fun b => npPad2 1 3 0 3 .symmetric (fun _ j => (j : ℚ)) 0 b)
    = [2, 1, 0, 0, 1, 2, 2, 1, 0] := by decide +kernel

end Improver
