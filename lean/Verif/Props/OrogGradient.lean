import Verif.Model.OrogGradient
import Verif.Props.OrogCoeff
import Verif.Props.OrogEnh
import Verif.Props.Pad
import Verif.Props.Spatial

/-! C283: the gradients of the orography in orographic enhancement. -/

namespace Improver
namespace Spec

/-- `t` holds the heights `F x y` on a grid with `nx` points eastwards from `x0` in steps of `dx` and `ny` northwards from `y0` in steps of `dy`, with either
dimension leading and each axis in either direction. -/
structure heightsOn (F : ℚ → ℚ → ℚ) (x0 dx : ℚ) (nx : ℕ) (y0 dy : ℚ) (ny : ℕ) (t : Field2 ℚ) : Prop where
  xs : t.xs = uniform x0 dx nx ∨ t.xs = (uniform x0 dx nx).reverse
  ys : t.ys = uniform y0 dy ny ∨ t.ys = (uniform y0 dy ny).reverse
  heights : ∀ i j, i < ny → j < nx → fieldValueAt t i j = F (t.xs.getD j 0) (t.ys.getD i 0)

/-- The mean of three values: at a place, at the one before and at the one after it; at the first and the last of `n` places the value there counts twice. -/
def meanAcross (n : ℕ) (f : ℕ → ℚ) (k : ℕ) : ℚ :=
  ((if k = 0 then f 0 else f (k - 1)) + f k + (if k + 1 = n then f k else f (k + 1))) / 3

/-- The slope at place `k` of `n` from values `d` apart: over the two neighbours, and at both ends the slope of the last step and half of what it differs
from the step before. -/
def slopeAt (n : ℕ) (d : ℚ) (f : ℕ → ℚ) (k : ℕ) : ℚ :=
  if k = 0 then (f 1 - f 0) / d + ((f 1 - f 0) / d - (f 2 - f 1) / d) / 2
  else if k + 1 = n then (f k - f (k - 1)) / d + ((f k - f (k - 1)) / d - (f (k - 1) - f (k - 2)) / d) / 2
  else (f (k + 1) - f (k - 1)) / (2 * d)

/-- The values of a field nowhere fall towards the east. -/
def risesEastward (t : Field2 ℚ) : Prop :=
  ∀ y x, y < t.ys.length → x + 1 < t.xs.length → fieldValueAt t y x ≤ fieldValueAt t y (x + 1)

end Spec

open Spec

theorem smoothThree_eq (n : ℕ) (f : ℕ → ℚ) (k : ℕ) (hk : k < n) : smoothThree n f k = meanAcross n f k := by
  unfold smoothThree meanAcross
  have h1 : f (k - 1) = if k = 0 then f 0 else f (k - 1) := by
    by_cases h : k = 0
    · rw [if_pos h, h]
    · rw [if_neg h]
  have h2 : f (min (k + 1) (n - 1)) = if k + 1 = n then f k else f (k + 1) := by
    by_cases h : k + 1 = n
    · rw [if_pos h]; congr 1; omega
    · rw [if_neg h]; congr 1; omega
  rw [← h1, ← h2]

theorem uniform_getD (a d : ℚ) (n k : ℕ) (hk : k < n) : (uniform a d n).getD k 0 = a + k * d := by
  unfold uniform
  rw [List.getD_eq_getElem?_getD, List.getElem?_map, List.getElem?_range hk]; rfl

theorem midpoint_getD (a d : ℚ) (n k : ℕ) (hk : k + 1 < n) :
    (axisMidpoints false (uniform a d n)).getD k 0 = a + (k + 1 / 2) * d := by
  unfold axisMidpoints
  have e : (uniform a d n)[k]? = some (a + k * d) := by
    unfold uniform; rw [List.getElem?_map, List.getElem?_range (by omega)]; rfl
  have e' : (uniform a d n)[k + 1]? = some (a + (k + 1 : ℕ) * d) := by
    unfold uniform; rw [List.getElem?_map, List.getElem?_range hk]; rfl
  simp only [Bool.false_eq_true, if_false]
  rw [List.getD_eq_getElem?_getD, List.getElem?_zipWith, List.getElem?_tail, e, e']
  simp only [Option.getD_some]
  push_cast; ring

theorem count_before (a d : ℚ) (hd : 0 < d) (n k m : ℕ) (hk : k < n) (hm : m + 1 ≤ n) :
    ((List.range m).filter fun i => decide ((axisMidpoints false (uniform a d n)).getD i 0 < a + k * d)).length = min k m := by
  induction m with
  | zero => simp
  | succ m ih =>
    rw [List.range_succ, List.filter_append, List.length_append, ih (by omega), List.filter_singleton]
    rw [midpoint_getD a d n m (by omega)]
    by_cases h : m < k
    · have h' : (m : ℚ) + 1 ≤ k := by exact_mod_cast h
      have : a + ((m : ℚ) + 1 / 2) * d < a + k * d := by nlinarith
      rw [decide_eq_true this]
      change min k m + 1 = _
      omega
    · have h' : (k : ℚ) ≤ m := by exact_mod_cast (not_lt.1 h)
      have : ¬ a + ((m : ℚ) + 1 / 2) * d < a + k * d := by nlinarith
      rw [decide_eq_false this]
      change min k m + 0 = _
      omega

theorem gradient_slope (a d : ℚ) (hd : 0 < d) (n : ℕ) (hn : 3 ≤ n) (f : ℕ → ℚ) (k : ℕ) (hk : k < n) :
    gradientAtPoints (uniform a d n) d f k = slopeAt n d f k := by
  unfold gradientAtPoints regridLinear
  have hl : (uniform a d n).length = n := uniform_length a d n
  rw [hl, uniform_getD a d n k hk]
  simp only []
  rw [count_before a d hd n k (n - 1) hk (by omega)]
  generalize hi : min (min k (n - 1) - 1) (n - 1 - 2) = i
  have hi' : i + 1 + 1 < n := by omega
  rw [midpoint_getD a d n i (by omega), midpoint_getD a d n (i + 1) hi']
  have hd' : d ≠ 0 := hd.ne'
  have hden : a + (((i + 1 : ℕ) : ℚ) + 1 / 2) * d - (a + ((i : ℚ) + 1 / 2) * d) = d := by push_cast; ring
  rw [hden]
  unfold slopeAt
  by_cases h0 : k = 0
  · have : i = 0 := by omega
    subst h0; subst this
    rw [if_pos rfl]; push_cast; field_simp; ring
  · rw [if_neg h0]
    by_cases h1 : k + 1 = n
    · have : k = i + 2 := by omega
      subst this
      rw [if_pos h1]
      have e1 : i + 2 - 1 = i + 1 := by omega
      have e2 : i + 2 - 2 = i := by omega
      rw [e1, e2]; push_cast; field_simp; ring
    · have : k = i + 1 := by omega
      subst this
      rw [if_neg h1]
      have e1 : i + 1 - 1 = i := by omega
      rw [e1]; push_cast; field_simp; ring

theorem uniform_descends (a d : ℚ) (hd : 0 < d) (n : ℕ) (hn : 2 ≤ n) :
    axisDescends (uniform a d n) = false ∧ axisDescends (uniform a d n).reverse = true := by
  have hne : uniform a d n ≠ [] := by
    intro h
    have := congrArg List.length h
    rw [uniform_length] at this; simp at this; omega
  have hh : (uniform a d n).headD 0 = a := by
    rw [List.headD_eq_head?_getD, List.head?_eq_getElem?, ← List.getD_eq_getElem?_getD, uniform_getD a d n 0 (by omega)]; simp
  have hlast : (uniform a d n).getLastD 0 = a + (n - 1 : ℕ) * d := by
    rw [List.getLastD_eq_getLast?, List.getLast?_eq_getElem?, uniform_length, ← List.getD_eq_getElem?_getD, uniform_getD a d n (n - 1) (by omega)]
  have hpos : 0 < ((n - 1 : ℕ) : ℚ) * d := mul_pos (by exact_mod_cast (by omega : 0 < n - 1)) hd
  unfold axisDescends
  refine ⟨?_, ?_⟩
  · rw [hh, hlast]; exact decide_eq_false (by linarith)
  · have e1 : (uniform a d n).reverse.headD 0 = a + (n - 1 : ℕ) * d := by
      rw [List.headD_eq_head?_getD, List.head?_reverse, ← List.getLastD_eq_getLast?, hlast]
    have e2 : (uniform a d n).reverse.getLastD 0 = a := by
      rw [List.getLastD_eq_getLast?, List.getLast?_reverse, ← List.headD_eq_head?_getD, hh]
    rw [e1, e2]; exact decide_eq_true (by linarith)

theorem sorted_axis (a d : ℚ) (hd : 0 < d) (n : ℕ) (hn : 2 ≤ n) (l : List ℚ) (h : l = uniform a d n ∨ l = (uniform a d n).reverse) :
    sortedAxis l = uniform a d n ∧ ∀ k, k < n → sortedIndex l k < n ∧ l.getD (sortedIndex l k) 0 = a + k * d := by
  obtain ⟨h1, h2⟩ := uniform_descends a d hd n hn
  unfold sortedAxis sortedIndex
  rcases h with h | h
  · rw [h, h1]
    simp only [Bool.false_eq_true, if_false]
    exact ⟨trivial, fun k hk => ⟨hk, uniform_getD a d n k hk⟩⟩
  · rw [h, h2]
    simp only [if_true, List.reverse_reverse, List.length_reverse, uniform_length]
    refine ⟨trivial, fun k hk => ⟨by omega, ?_⟩⟩
    rw [List.getD_eq_getElem?_getD, List.getElem?_reverse (by rw [uniform_length]; omega), uniform_length, ← List.getD_eq_getElem?_getD,
      show n - 1 - (n - 1 - k) = k from by omega, uniform_getD a d n k hk]

theorem sortedTopography_at (F : ℚ → ℚ → ℚ) (x0 dx : ℚ) (nx : ℕ) (y0 dy : ℚ) (ny : ℕ) (t : Field2 ℚ) (hx : 0 < dx) (hy : 0 < dy) (hnx : 2 ≤ nx) (hny : 2 ≤ ny)
    (h : heightsOn F x0 dx nx y0 dy ny t) :
    (sortedTopography t).xs = uniform x0 dx nx ∧ (sortedTopography t).ys = uniform y0 dy ny ∧
      ∀ i j, i < ny → j < nx → (sortedTopography t).data i j = F (x0 + j * dx) (y0 + i * dy) := by
  obtain ⟨e1, p1⟩ := sorted_axis x0 dx hx nx hnx t.xs h.xs
  obtain ⟨e2, p2⟩ := sorted_axis y0 dy hy ny hny t.ys h.ys
  have hs := toYX_coords ⟨t.xFirst, sortedAxis t.ys, sortedAxis t.xs,
    if t.xFirst then fun i j => t.data (sortedIndex t.xs i) (sortedIndex t.ys j)
    else fun i j => t.data (sortedIndex t.ys i) (sortedIndex t.xs j)⟩
  unfold sortedTopography
  refine ⟨hs.2.1.trans e1, hs.1.trans e2, fun i j hi hj => ?_⟩
  rw [toYX_fieldValueAt]
  have hd := h.heights (sortedIndex t.ys i) (sortedIndex t.xs j) (p2 i hi).1 (p1 j hj).1
  rw [(p1 j hj).2, (p2 i hi).2] at hd
  rw [← hd]
  unfold fieldValueAt
  cases t.xFirst <;> rfl

theorem slopeAt_congr (n : ℕ) (d : ℚ) (f f' : ℕ → ℚ) (hn : 3 ≤ n) (h : ∀ j, j < n → f j = f' j) (k : ℕ) (hk : k < n) : slopeAt n d f k = slopeAt n d f' k := by
  unfold slopeAt
  by_cases h0 : k = 0
  · rw [if_pos h0, if_pos h0, h 0 (by omega), h 1 (by omega), h 2 (by omega)]
  · rw [if_neg h0, if_neg h0]
    by_cases h1 : k + 1 = n
    · rw [if_pos h1, if_pos h1, h k hk, h (k - 1) (by omega), h (k - 2) (by omega)]
    · rw [if_neg h1, if_neg h1, h (k + 1) (by omega), h (k - 1) (by omega)]

/-- **C283** (values): on an even grid of at least three points each way the gradient towards the east is the slope along the row of the heights averaged over the
row and its neighbours, and the gradient towards the north that along the column of the heights averaged over the column and its neighbours. -/
theorem C283_values (F : ℚ → ℚ → ℚ) (x0 dx : ℚ) (nx : ℕ) (y0 dy : ℚ) (ny : ℕ) (t : Field2 ℚ) (hx : 0 < dx) (hy : 0 < dy) (hnx : 3 ≤ nx) (hny : 3 ≤ ny)
    (h : heightsOn F x0 dx nx y0 dy ny t) :
    ∃ g, orographyGradients t = .ok g ∧ ∀ y x, y < ny → x < nx →
      g.gradx y x = slopeAt nx dx (fun j => meanAcross ny (fun i => F (x0 + j * dx) (y0 + i * dy)) y) x ∧
      g.grady y x = slopeAt ny dy (fun i => meanAcross nx (fun j => F (x0 + j * dx) (y0 + i * dy)) x) y := by
  obtain ⟨e1, e2, e3⟩ := sortedTopography_at F x0 dx nx y0 dy ny t hx hy (by omega) (by omega) h
  unfold orographyGradients
  simp only []
  rw [e1, e2, C69_spacing x0 dx nx (by omega) _ (by norm_num), C69_spacing y0 dy ny (by omega) _ (by norm_num), abs_of_pos hx, abs_of_pos hy, uniform_length,
    uniform_length]
  simp only [bind, Except.bind, pure, Except.pure]
  rw [if_neg (by omega)]
  refine ⟨_, rfl, fun y x hyn hxn => ⟨?_, ?_⟩⟩
  · simp only []
    rw [gradient_slope x0 dx hx nx hnx _ x hxn]
    have key : ∀ j, j < nx → smoothThree ny (fun i => (sortedTopography t).data i j) y =
        meanAcross ny (fun i => F (x0 + j * dx) (y0 + i * dy)) y := by
      intro j hj
      rw [smoothThree_eq _ _ _ hyn]
      unfold meanAcross
      simp only []
      by_cases h0 : y = 0
      · rw [if_pos h0, if_pos h0, e3 0 j (by omega) hj, e3 y j hyn hj]
        by_cases h1 : y + 1 = ny
        · rw [if_pos h1, if_pos h1]
        · rw [if_neg h1, if_neg h1, e3 (y + 1) j (by omega) hj]
      · rw [if_neg h0, if_neg h0, e3 (y - 1) j (by omega) hj, e3 y j hyn hj]
        by_cases h1 : y + 1 = ny
        · rw [if_pos h1, if_pos h1]
        · rw [if_neg h1, if_neg h1, e3 (y + 1) j (by omega) hj]
    exact slopeAt_congr nx dx _ _ hnx key x hxn
  · simp only []
    rw [gradient_slope y0 dy hy ny hny _ y hyn]
    have key : ∀ i, i < ny → smoothThree nx (fun j => (sortedTopography t).data i j) x =
        meanAcross nx (fun j => F (x0 + j * dx) (y0 + i * dy)) x := by
      intro i hi
      rw [smoothThree_eq _ _ _ hxn]
      unfold meanAcross
      simp only []
      by_cases h0 : x = 0
      · rw [if_pos h0, if_pos h0, e3 i 0 hi (by omega), e3 i x hi hxn]
        by_cases h1 : x + 1 = nx
        · rw [if_pos h1, if_pos h1]
        · rw [if_neg h1, if_neg h1, e3 i (x + 1) hi (by omega)]
      · rw [if_neg h0, if_neg h0, e3 i (x - 1) hi (by omega), e3 i x hi hxn]
        by_cases h1 : x + 1 = nx
        · rw [if_pos h1, if_pos h1]
        · rw [if_neg h1, if_neg h1, e3 i (x + 1) hi (by omega)]
    exact slopeAt_congr ny dy _ _ hny key y hyn

/-- **C283** (layout): the same heights with the dimensions in another order or an axis in the other direction have the same gradients. -/
theorem C283_layout (F : ℚ → ℚ → ℚ) (x0 dx : ℚ) (nx : ℕ) (y0 dy : ℚ) (ny : ℕ) (t t' : Field2 ℚ) (hx : 0 < dx) (hy : 0 < dy) (hnx : 3 ≤ nx) (hny : 3 ≤ ny)
    (h : heightsOn F x0 dx nx y0 dy ny t) (h' : heightsOn F x0 dx nx y0 dy ny t') :
    ∃ g g', orographyGradients t = .ok g ∧ orographyGradients t' = .ok g' ∧
      ∀ y x, y < ny → x < nx → g'.gradx y x = g.gradx y x ∧ g'.grady y x = g.grady y x := by
  obtain ⟨g, e, p⟩ := C283_values F x0 dx nx y0 dy ny t hx hy hnx hny h
  obtain ⟨g', e', p'⟩ := C283_values F x0 dx nx y0 dy ny t' hx hy hnx hny h'
  exact ⟨g, g', e, e', fun y x hyn hxn => ⟨(p' y x hyn hxn).1.trans (p y x hyn hxn).1.symm, (p' y x hyn hxn).2.trans (p y x hyn hxn).2.symm⟩⟩

theorem meanAcross_add (n : ℕ) (f : ℕ → ℚ) (c : ℚ) (k : ℕ) : meanAcross n (fun i => c + f i) k = c + meanAcross n f k := by
  unfold meanAcross
  simp only []
  split_ifs <;> ring

/-- The slope of a quadratic function is exact, at the ends too. -/
theorem slope_quadratic (n : ℕ) (d x0 a b c : ℚ) (hd : 0 < d) (f : ℕ → ℚ) (hf : ∀ j : ℕ, f j = a * (x0 + j * d) ^ 2 + b * (x0 + j * d) + c) (k : ℕ) (hn : 3 ≤ n)
    (hk : k < n) : slopeAt n d f k = 2 * a * (x0 + k * d) + b := by
  have hd' : d ≠ 0 := hd.ne'
  unfold slopeAt
  by_cases h0 : k = 0
  · subst h0
    rw [if_pos rfl, hf 0, hf 1, hf 2]; push_cast; field_simp; ring
  · rw [if_neg h0]
    by_cases h1 : k + 1 = n
    · rw [if_pos h1]
      obtain ⟨m, rfl⟩ : ∃ m, k = m + 2 := ⟨k - 2, by omega⟩
      rw [show m + 2 - 1 = m + 1 from by omega, show m + 2 - 2 = m from by omega, hf, hf, hf]; push_cast; field_simp; ring
    · rw [if_neg h1]
      obtain ⟨m, rfl⟩ : ∃ m, k = m + 1 := ⟨k - 1, by omega⟩
      rw [show m + 1 - 1 = m from by omega, hf, hf]; push_cast; field_simp; ring

/-- **C283** (exact): on a surface of the form `a x² + b x + c y² + e y + k` (a plane, a ridge, a valley) both gradients are exact at every point, the edges included. -/
theorem C283_exact (a b c e k x0 dx : ℚ) (nx : ℕ) (y0 dy : ℚ) (ny : ℕ) (t : Field2 ℚ) (hx : 0 < dx) (hy : 0 < dy) (hnx : 3 ≤ nx) (hny : 3 ≤ ny)
    (h : heightsOn (fun x y => a * x ^ 2 + b * x + c * y ^ 2 + e * y + k) x0 dx nx y0 dy ny t) :
    ∃ g, orographyGradients t = .ok g ∧ ∀ i j, i < ny → j < nx →
      g.gradx i j = 2 * a * (x0 + j * dx) + b ∧ g.grady i j = 2 * c * (y0 + i * dy) + e := by
  obtain ⟨g, eg, p⟩ := C283_values _ x0 dx nx y0 dy ny t hx hy hnx hny h
  refine ⟨g, eg, fun i j hi hj => ?_⟩
  obtain ⟨p1, p2⟩ := p i j hi hj
  constructor
  · rw [p1]
    apply slope_quadratic nx dx x0 a b (meanAcross ny (fun i : ℕ => c * (y0 + i * dy) ^ 2 + e * (y0 + i * dy) + k) i) hx _ _ j hnx hj
    intro m
    rw [show a * (x0 + (m : ℚ) * dx) ^ 2 + b * (x0 + (m : ℚ) * dx) + meanAcross ny (fun i : ℕ => c * (y0 + i * dy) ^ 2 + e * (y0 + i * dy) + k) i =
      meanAcross ny (fun l : ℕ => a * (x0 + (m : ℚ) * dx) ^ 2 + b * (x0 + (m : ℚ) * dx) + (c * (y0 + l * dy) ^ 2 + e * (y0 + l * dy) + k)) i
      from (meanAcross_add _ _ _ _).symm]
    exact congrArg (fun f => meanAcross ny f i) (funext fun l => by ring)
  · rw [p2]
    apply slope_quadratic ny dy y0 c e (meanAcross nx (fun j : ℕ => a * (x0 + j * dx) ^ 2 + b * (x0 + j * dx) + k) j) hy _ _ i hny hi
    intro m
    rw [show c * (y0 + (m : ℚ) * dy) ^ 2 + e * (y0 + (m : ℚ) * dy) + meanAcross nx (fun j : ℕ => a * (x0 + j * dx) ^ 2 + b * (x0 + j * dx) + k) j =
      meanAcross nx (fun l : ℕ => c * (y0 + (m : ℚ) * dy) ^ 2 + e * (y0 + (m : ℚ) * dy) + (a * (x0 + l * dx) ^ 2 + b * (x0 + l * dx) + k)) j
      from (meanAcross_add _ _ _ _).symm]
    exact congrArg (fun f => meanAcross nx f j) (funext fun l => by ring)

theorem smoothThree_affine (n : ℕ) (f : ℕ → ℚ) (s c : ℚ) (k : ℕ) : smoothThree n (fun i => s * f i + c) k = s * smoothThree n f k + c := by
  unfold smoothThree; ring

theorem gradient_affine (l : List ℚ) (d s c : ℚ) (f : ℕ → ℚ) (k : ℕ) : gradientAtPoints l d (fun i => s * f i + c) k = s * gradientAtPoints l d f k := by
  unfold gradientAtPoints regridLinear
  simp only []
  ring

/-- **C283** (datum and scale): on any grid, heights that are `s` times as large, from another datum, have gradients `s` times as large (and are refused when
the heights themselves are). -/
theorem C283_affine (t : Field2 ℚ) (s c : ℚ) :
    orographyGradients { t with data := fun i j => s * t.data i j + c } =
      (orographyGradients t).map fun g => ⟨fun y x => s * g.gradx y x, fun y x => s * g.grady y x⟩ := by
  have e : sortedTopography { t with data := fun i j => s * t.data i j + c } =
      { sortedTopography t with data := fun i j => s * (sortedTopography t).data i j + c } := by
    unfold sortedTopography Field2.toYX
    cases t.xFirst <;> rfl
  unfold orographyGradients
  simp only [e]
  simp only [bind, Except.bind, pure, Except.pure]
  cases gridSpacing (sortedTopography t).xs with
  | error e => rfl
  | ok dx =>
    cases gridSpacing (sortedTopography t).ys with
    | error e => rfl
    | ok dy =>
      simp only []
      by_cases hs : (sortedTopography t).xs.length < 3 ∨ (sortedTopography t).ys.length < 3
      · rw [if_pos hs, if_pos hs]; rfl
      · rw [if_neg hs, if_neg hs]
        simp only [Except.map, smoothThree_affine, gradient_affine]

/-- **C283** (uneven grids): gradients are only made when the points of each axis are evenly spaced, to one part in 100000 of their spacing. -/
theorem C283_even (t : Field2 ℚ) (g : OrogGradients) (h : orographyGradients t = .ok g) :
    ∃ dx dy, (∀ d ∈ npDiff (sortedAxis t.xs), |(|d| - dx)| ≤ 1 / 100000 * dx) ∧ ∀ d ∈ npDiff (sortedAxis t.ys), |(|d| - dy)| ≤ 1 / 100000 * dy := by
  have hc := toYX_coords ⟨t.xFirst, sortedAxis t.ys, sortedAxis t.xs,
    if t.xFirst then fun i j => t.data (sortedIndex t.xs i) (sortedIndex t.ys j)
    else fun i j => t.data (sortedIndex t.ys i) (sortedIndex t.xs j)⟩
  have ex : (sortedTopography t).xs = sortedAxis t.xs := hc.2.1
  have ey : (sortedTopography t).ys = sortedAxis t.ys := hc.1
  unfold orographyGradients at h
  simp only [bind, Except.bind, ex, ey] at h
  cases h1 : gridSpacing (sortedAxis t.xs) with
  | error e => rw [h1] at h; exact nomatch h
  | ok dx =>
    cases h2 : gridSpacing (sortedAxis t.ys) with
    | error e => rw [h1, h2] at h; exact nomatch h
    | ok dy => exact ⟨dx, dy, (gridSpacing_spec _ _ _ h1).2.2.2, (gridSpacing_spec _ _ _ h2).2.2.2⟩

theorem pointEnhancement_level (m rh svp t : ℝ) : pointEnhancement m rh svp 0 t = 0 := by
  unfold pointEnhancement
  have : orogMasked m rh 0 = true := by
    unfold orogMasked
    simp only []
    rw [if_pos (by rw [abs_zero]; norm_num)]
  simp [this]

/-- **C283** (along the contours): where the wind blows along the contours of the smoothed orography no rain is generated. -/
theorem C283_contours (f : OrogFields) (g : OrogGradients) (y x : ℕ) (h : (g.gradx y x : ℝ) * f.u y x + (g.grady y x : ℝ) * f.v y x = 0) :
    pointField (f.withGradients g) y x = 0 := by
  unfold pointField vGradZ OrogFields.withGradients
  simp only []
  rw [h]
  exact pointEnhancement_level _ _ _ _

/-- **C283** (level ground): over level ground (or a level sea) no rain is generated, whatever the wind. -/
theorem C283_level (k x0 dx : ℚ) (nx : ℕ) (y0 dy : ℚ) (ny : ℕ) (t : Field2 ℚ) (hx : 0 < dx) (hy : 0 < dy) (hnx : 3 ≤ nx) (hny : 3 ≤ ny)
    (h : heightsOn (fun _ _ => k) x0 dx nx y0 dy ny t) :
    ∃ g, orographyGradients t = .ok g ∧ ∀ f : OrogFields, ∀ i j, i < ny → j < nx → pointField (f.withGradients g) i j = 0 := by
  have h' : heightsOn (fun x y => 0 * x ^ 2 + 0 * x + 0 * y ^ 2 + 0 * y + k) x0 dx nx y0 dy ny t :=
    ⟨h.xs, h.ys, fun i j hi hj => (h.heights i j hi hj).trans (by ring)⟩
  obtain ⟨g, eg, p⟩ := C283_exact 0 0 0 0 k x0 dx nx y0 dy ny t hx hy hnx hny h'
  refine ⟨g, eg, fun f i j hi hj => C283_contours f g i j ?_⟩
  rw [(p i j hi hj).1, (p i j hi hj).2]
  push_cast; ring

theorem slope_bound (n : ℕ) (d M : ℚ) (hd : 0 < d) (hn : 3 ≤ n) (f : ℕ → ℚ) (h : ∀ j, j + 1 < n → |f (j + 1) - f j| ≤ M * d) (k : ℕ) (hk : k < n) :
    |slopeAt n d f k| ≤ (if k = 0 ∨ k + 1 = n then 2 * M else M) := by
  have q : ∀ j, j + 1 < n → |(f (j + 1) - f j) / d| ≤ M := by
    intro j hj
    rw [abs_div, abs_of_pos hd, div_le_iff₀ hd]; exact h j hj
  have hd' : d ≠ 0 := hd.ne'
  unfold slopeAt
  by_cases h0 : k = 0
  · rw [if_pos h0, if_pos (Or.inl h0)]
    have a1 := abs_le.1 (q 0 (by omega))
    have a2 := abs_le.1 (q 1 (by omega))
    simp only [Nat.zero_add, show 1 + 1 = 2 from rfl] at a1 a2
    rw [abs_le]
    constructor <;> linarith [a1.1, a1.2, a2.1, a2.2]
  · rw [if_neg h0]
    by_cases h1 : k + 1 = n
    · rw [if_pos h1, if_pos (Or.inr h1)]
      obtain ⟨m, rfl⟩ : ∃ m, k = m + 2 := ⟨k - 2, by omega⟩
      rw [show m + 2 - 1 = m + 1 from by omega, show m + 2 - 2 = m from by omega]
      have a1 := abs_le.1 (q m (by omega))
      have a2 := abs_le.1 (q (m + 1) (by omega))
      rw [show m + 1 + 1 = m + 2 from rfl] at a2
      rw [abs_le]
      constructor <;> linarith [a1.1, a1.2, a2.1, a2.2]
    · rw [if_neg h1, if_neg (by omega)]
      obtain ⟨m, rfl⟩ : ∃ m, k = m + 1 := ⟨k - 1, by omega⟩
      rw [show m + 1 - 1 = m from by omega]
      have a1 := abs_le.1 (q m (by omega))
      have a2 := abs_le.1 (q (m + 1) (by omega))
      have e : (f (m + 1 + 1) - f m) / (2 * d) = ((f (m + 1) - f m) / d + (f (m + 1 + 1) - f (m + 1)) / d) / 2 := by field_simp; ring
      rw [e, abs_le]
      constructor <;> linarith [a1.1, a1.2, a2.1, a2.2]

theorem mean_step (n : ℕ) (f f' : ℕ → ℚ) (B : ℚ) (h : ∀ i, i < n → |f i - f' i| ≤ B) (k : ℕ) (hk : k < n) : |meanAcross n f k - meanAcross n f' k| ≤ B := by
  unfold meanAcross
  have a0 := abs_le.1 (h k hk)
  have a1 : -B ≤ (if k = 0 then f 0 else f (k - 1)) - (if k = 0 then f' 0 else f' (k - 1)) ∧
      (if k = 0 then f 0 else f (k - 1)) - (if k = 0 then f' 0 else f' (k - 1)) ≤ B := by
    by_cases h0 : k = 0
    · rw [if_pos h0, if_pos h0]; exact abs_le.1 (h 0 (by omega))
    · rw [if_neg h0, if_neg h0]; exact abs_le.1 (h (k - 1) (by omega))
  have a2 : -B ≤ (if k + 1 = n then f k else f (k + 1)) - (if k + 1 = n then f' k else f' (k + 1)) ∧
      (if k + 1 = n then f k else f (k + 1)) - (if k + 1 = n then f' k else f' (k + 1)) ≤ B := by
    by_cases h0 : k + 1 = n
    · rw [if_pos h0, if_pos h0]; exact a0
    · rw [if_neg h0, if_neg h0]; exact abs_le.1 (h (k + 1) (by omega))
  rw [abs_le]
  constructor <;> linarith [a0.1, a0.2, a1.1, a1.2, a2.1, a2.2]

/-- **C283** (bound): where no two neighbours along a row differ by more than `M` per unit length, no gradient towards the east is steeper than `M`, except at the western and
eastern edges, where it is no steeper than `2 M`. -/
theorem C283_bound (F : ℚ → ℚ → ℚ) (x0 dx : ℚ) (nx : ℕ) (y0 dy : ℚ) (ny : ℕ) (t : Field2 ℚ) (hx : 0 < dx) (hy : 0 < dy) (hnx : 3 ≤ nx) (hny : 3 ≤ ny)
    (h : heightsOn F x0 dx nx y0 dy ny t) (M : ℚ)
    (hM : ∀ i j : ℕ, i < ny → j + 1 < nx → |F (x0 + (j + 1 : ℕ) * dx) (y0 + i * dy) - F (x0 + j * dx) (y0 + i * dy)| ≤ M * dx) :
    ∃ g, orographyGradients t = .ok g ∧ ∀ y x, y < ny → x < nx → |g.gradx y x| ≤ (if x = 0 ∨ x + 1 = nx then 2 * M else M) := by
  obtain ⟨g, eg, p⟩ := C283_values F x0 dx nx y0 dy ny t hx hy hnx hny h
  refine ⟨g, eg, fun y x hyn hxn => ?_⟩
  rw [(p y x hyn hxn).1]
  apply slope_bound nx dx M hx hnx _ _ x hxn
  intro j hj
  have step : ∀ i : ℕ, i < ny → |(fun i : ℕ => F (x0 + (j + 1 : ℕ) * dx) (y0 + i * dy)) i - (fun i : ℕ => F (x0 + (j : ℕ) * dx) (y0 + i * dy)) i| ≤ M * dx :=
    fun i hi => hM i j hi hj
  exact mean_step ny (fun i : ℕ => F (x0 + (j + 1 : ℕ) * dx) (y0 + i * dy)) (fun i : ℕ => F (x0 + (j : ℕ) * dx) (y0 + i * dy)) (M * dx) step y hyn

/-- A hill in the east of a plain: 3 rows of heights 0, 0, 0, 300 m, 1 km apart. -/
def plainAndHill : Field2 ℚ := ⟨false, [0, 1000, 2000], [0, 1000, 2000, 3000], fun _ j => [0, 0, 0, 300].getD j 0⟩

/-- A coast: heights 0, 0, 300, 300 m. -/
def risingCoast : Field2 ℚ := ⟨false, [0, 1000, 2000], [0, 1000, 2000, 3000], fun _ j => [0, 0, 300, 300].getD j 0⟩

/-- **C283** (edges): at the edges of the grid the gradient can have the wrong sign: heights that nowhere fall eastwards have a gradient of -0.15 at the western and at
the eastern edge. -/
theorem C283_edges_refuted : ¬ ∀ (t : Field2 ℚ) (g : OrogGradients), risesEastward t → orographyGradients t = .ok g →
    ∀ y x, y < t.ys.length → x < t.xs.length → 0 ≤ g.gradx y x := by
  intro h
  have hr : risesEastward risingCoast := by
    unfold risesEastward
    have : ∀ y, y < 3 → ∀ x, x + 1 < 4 → fieldValueAt risingCoast y x ≤ fieldValueAt risingCoast y (x + 1) := by
      intro y _ x hx
      have hx' : x = 0 ∨ x = 1 ∨ x = 2 := by omega
      change ([0, 0, 300, 300] : List ℚ).getD x 0 ≤ ([0, 0, 300, 300] : List ℚ).getD (x + 1) 0
      rcases hx' with rfl | rfl | rfl <;> decide +kernel
    exact fun y x hy hx => this y hy x hx
  have hv : ((orographyGradients risingCoast).toOption.map fun g => g.gradx 1 0) = some (-3 / 20) := by decide +kernel
  cases hg : orographyGradients risingCoast with
  | error e => rw [hg] at hv; exact nomatch hv
  | ok g =>
    rw [hg] at hv
    have h1 : g.gradx 1 0 = -3 / 20 := Option.some.inj hv
    have := h risingCoast g hr hg 1 0 (by decide) (by decide)
    rw [h1] at this
    norm_num at this

example : ((orographyGradients plainAndHill).toOption.map fun g => (List.range 4).map (g.gradx 1)) = some [0, 0, 3 / 20, 9 / 20] := by decide +kernel
example : ((orographyGradients risingCoast).toOption.map fun g => (List.range 4).map (g.gradx 1)) = some [-3 / 20, 3 / 20, 3 / 20, -3 / 20] := by decide +kernel
-- x first, x descending, the height equal to twice the distance northwards and minus that eastwards
example : ((orographyGradients ⟨true, [0, 10, 20], [30, 20, 10, 0], fun i j => 2 * (10 * j) - (30 - 10 * i)⟩).toOption.map
    fun g => [g.gradx 0 0, g.gradx 2 3, g.grady 0 0, g.grady 2 3]) = some [-1, -1, 2, 2] := by decide +kernel
example : heightsOn (fun x y => 2 * y - x) 0 10 4 0 10 3 ⟨true, [0, 10, 20], [30, 20, 10, 0], fun i j => 2 * (10 * j) - (30 - 10 * i)⟩ := by
  refine ⟨Or.inr (by decide +kernel), Or.inl (by decide +kernel), fun i j hi hj => ?_⟩
  have h1 : i = 0 ∨ i = 1 ∨ i = 2 := by omega
  have h2 : j = 0 ∨ j = 1 ∨ j = 2 ∨ j = 3 := by omega
  rcases h1 with rfl | rfl | rfl <;> rcases h2 with rfl | rfl | rfl | rfl <;> decide +kernel
example : (orographyGradients ⟨false, [0, 10, 20], [0, 10, 25], fun _ _ => 0⟩).toOption.isSome = false := by decide +kernel

end Improver
