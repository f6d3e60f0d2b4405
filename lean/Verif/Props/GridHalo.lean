import Verif.Model.GridHalo
import Verif.Props.HaloRun

/-! C291: a grid with a halo. -/

namespace Improver

open Spec

namespace Spec

/-- The radius spans `w` whole steps of the axis, one at least. -/
def Axis.Cells (x : Axis) (radius : ℚ) (w : ℕ) : Prop := 0 < w ∧ (w : ℚ) * |x.d| ≤ radius ∧ radius < ((w : ℚ) + 1) * |x.d|

/-- The axis with `w` more points on either side. -/
def Axis.extend (x : Axis) (w : ℕ) : Axis := ⟨x.o - w * x.d, x.d, x.n + 2 * w⟩

/-- The points of an axis. -/
def Axis.points (x : Axis) : List ℚ := uniform x.o x.d x.n

/-- Cells that reach half a step to either side of the points. -/
def Axis.edges (x : Axis) : List (ℚ × ℚ) := x.points.map fun p => (p - x.d / 2, p + x.d / 2)

end Spec

theorem cells_of_axis {x : Spec.Axis} {pts : List ℚ} (h : x.Gives pts) {radius : ℚ} :
    (∀ w, distanceToCells pts radius = .ok w ↔ x.Cells radius w) ∧ (distanceToCells pts radius = .error .valueError ↔ radius < |x.d|) := by
  obtain ⟨h1, h2, rfl⟩ := h
  exact C69_cells _ |x.d| (C69_spacing x.o x.d x.n h2 _ (by norm_num)) (abs_pos.2 h1) radius

theorem distanceToCells_error (pts : List ℚ) (radius : ℚ) (x : Spec.Axis) (h : x.Gives pts) (hr : ¬ radius < |x.d|) : ∃ w, x.Cells radius w := by
  have hp := abs_pos.2 h.1
  have h0 : 0 ≤ ⌊radius / |x.d|⌋ := Int.floor_nonneg.2 (div_nonneg (hp.le.trans (not_lt.1 hr)) hp.le)
  have e1 : ((⌊radius / |x.d|⌋.toNat : ℕ) : ℚ) = (⌊radius / |x.d|⌋ : ℚ) := by
    have : ((⌊radius / |x.d|⌋.toNat : ℕ) : ℤ) = ⌊radius / |x.d|⌋ := Int.toNat_of_nonneg h0
    exact_mod_cast this
  refine ⟨⌊radius / |x.d|⌋.toNat, ?_, ?_, ?_⟩
  · have : 1 ≤ ⌊radius / |x.d|⌋ := by
      rw [Int.le_floor]; push_cast; rw [le_div_iff₀ hp]; linarith [not_lt.1 hr]
    omega
  · rw [e1, ← le_div_iff₀ hp]; exact Int.floor_le _
  · rw [e1, ← div_lt_iff₀ hp]; exact Int.lt_floor_add_one _

/-- **C291** (made): the grid has the whole number of cells of the radius more on either side of each axis, at the same spacing, with cells half a step around the points,
and all its values are 0. -/
theorem C291_made (yName xName : String) (ys xs : List ℚ) (radius : ℚ) (hne : yName ≠ xName) (ya xa : Spec.Axis) (hya : ya.Gives ys) (hxa : xa.Gives xs) (wy wx : ℕ)
    (hwy : ya.Cells radius wy) (hwx : xa.Cells radius wx) :
    ∃ out, createCubeWithHalo yName xName ys xs radius = .ok out ∧ out.grid.dims = [yName, xName] ∧
      out.grid.points yName = (ya.extend wy).points ∧ out.grid.points xName = (xa.extend wx).points ∧
      out.yBounds = (ya.extend wy).edges ∧ out.xBounds = (xa.extend wx).edges ∧
      (∀ a, Spec.placeValue out.grid.toDimCube a = 0) ∧ out.name = "grid_with_halo" ∧ out.units = "no_unit" := by
  have ey := ((cells_of_axis hya).1 wy).2 hwy
  have ex := ((cells_of_axis hxa).1 wx).2 hwx
  obtain ⟨-, ny, rfl⟩ := hya
  obtain ⟨-, nx, rfl⟩ := hxa
  refine ⟨haloGridOf yName xName ⟨(ya.extend wy).points, (ya.extend wy).edges⟩ ⟨(xa.extend wx).points, (xa.extend wx).edges⟩, ?_, rfl, if_pos rfl,
    (if_neg hne.symm).trans (if_pos rfl), rfl, rfl, fun _ => rfl, rfl, rfl⟩
  unfold createCubeWithHalo
  rw [ex, ey]
  simp only [bind, Except.bind, pure, Except.pure]
  rw [C29_coord_extended ya.o ya.d ya.n wy ny, C29_coord_extended xa.o xa.d xa.n wx nx]
  rfl

/-- **C291** (contains): the points of the grid that was given are points of the grid made, `wy` and `wx` further in. -/
theorem C291_contains (yName xName : String) (ys xs : List ℚ) (radius : ℚ) (hne : yName ≠ xName) (ya xa : Spec.Axis) (hya : ya.Gives ys) (hxa : xa.Gives xs) (wy wx : ℕ)
    (hwy : ya.Cells radius wy) (hwx : xa.Cells radius wx) (out : HaloGrid) (h : createCubeWithHalo yName xName ys xs radius = .ok out) :
    (∀ i < ys.length, (out.grid.points yName)[i + wy]? = ys[i]?) ∧ (∀ i < xs.length, (out.grid.points xName)[i + wx]? = xs[i]?) := by
  obtain ⟨out', h', -, e1, e2, -⟩ := C291_made yName xName ys xs radius hne ya xa hya hxa wy wx hwy hwx
  rw [h] at h'; injection h' with h'; subst h'
  have one : ∀ {x : Spec.Axis} {pts : List ℚ}, x.Gives pts → ∀ w i, i < pts.length → (x.extend w).points[i + w]? = pts[i]? := by
    rintro x pts ⟨-, -, rfl⟩ w i hi
    rw [uniform_length] at hi
    unfold Spec.Axis.points Spec.Axis.extend Spec.uniform
    rw [List.getElem?_map, List.getElem?_map, List.getElem?_range (by show i + w < x.n + 2 * w; omega), List.getElem?_range hi]
    show some _ = some _
    congr 1
    push_cast
    ring
  exact ⟨fun i hi => by rw [e1]; exact one hya wy i hi, fun i hi => by rw [e2]; exact one hxa wx i hi⟩

/-- **C291** (width): the grid made reaches beyond the outermost points of the grid given by no more than the radius, and by more than the radius less one step. -/
theorem C291_width (yName xName : String) (ys xs : List ℚ) (radius : ℚ) (hne : yName ≠ xName) (ya xa : Spec.Axis) (hya : ya.Gives ys) (hxa : xa.Gives xs) (out : HaloGrid)
    (h : createCubeWithHalo yName xName ys xs radius = .ok out) :
    (∀ a b, ys.head? = some a → (out.grid.points yName).head? = some b → |a - b| ≤ radius ∧ radius < |a - b| + |ya.d|) ∧
    (∀ a b, xs.head? = some a → (out.grid.points xName).head? = some b → |a - b| ≤ radius ∧ radius < |a - b| + |xa.d|) ∧
    (∀ a b, ys.getLast? = some a → (out.grid.points yName).getLast? = some b → |a - b| ≤ radius ∧ radius < |a - b| + |ya.d|) ∧
    (∀ a b, xs.getLast? = some a → (out.grid.points xName).getLast? = some b → |a - b| ≤ radius ∧ radius < |a - b| + |xa.d|) := by
  have hcx : ∃ wx, xa.Cells radius wx := by
    by_cases hr : radius < |xa.d|
    · exfalso
      unfold createCubeWithHalo at h
      rw [(cells_of_axis hxa).2.2 hr] at h
      exact nomatch h
    · exact distanceToCells_error xs radius xa hxa hr
  obtain ⟨wx, hwx⟩ := hcx
  have hcy : ∃ wy, ya.Cells radius wy := by
    by_cases hr : radius < |ya.d|
    · exfalso
      unfold createCubeWithHalo at h
      rw [((cells_of_axis hxa).1 wx).2 hwx, (cells_of_axis hya).2.2 hr] at h
      exact nomatch h
    · exact distanceToCells_error ys radius ya hya hr
  obtain ⟨wy, hwy⟩ := hcy
  obtain ⟨out', h', -, e1, e2, -⟩ := C291_made yName xName ys xs radius hne ya xa hya hxa wy wx hwy hwx
  rw [h] at h'; injection h' with h'; subst h'
  have dist : ∀ {x : Spec.Axis} {w : ℕ}, x.Cells radius w → ∀ c : ℚ, |c| = w * |x.d| → |c| ≤ radius ∧ radius < |c| + |x.d| := by
    rintro x w ⟨-, c1, c2⟩ c hc
    rw [hc]
    exact ⟨c1, by linarith⟩
  have first : ∀ {x : Spec.Axis} {pts : List ℚ} {w : ℕ}, x.Gives pts → x.Cells radius w → ∀ a b, pts.head? = some a → (x.extend w).points.head? = some b →
      |a - b| ≤ radius ∧ radius < |a - b| + |x.d| := by
    rintro x pts w ⟨-, n2, rfl⟩ hw a b ha hb
    refine dist hw _ ?_
    have p1 := ha
    have p2 := hb
    unfold Spec.Axis.points Spec.Axis.extend at p2
    unfold Spec.uniform at p1 p2
    rw [List.head?_eq_getElem?, List.getElem?_map, List.getElem?_range (by omega)] at p1
    rw [List.head?_eq_getElem?, List.getElem?_map, List.getElem?_range (by show 0 < x.n + 2 * w; omega)] at p2
    have q1 := Option.some.inj p1
    have q2 := Option.some.inj p2
    rw [← q1, ← q2]
    push_cast
    have : x.o + 0 * x.d - (x.o - w * x.d + 0 * x.d) = w * x.d := by ring
    rw [this, abs_mul, Nat.abs_cast]
  have last : ∀ {x : Spec.Axis} {pts : List ℚ} {w : ℕ}, x.Gives pts → x.Cells radius w → ∀ a b, pts.getLast? = some a → (x.extend w).points.getLast? = some b →
      |a - b| ≤ radius ∧ radius < |a - b| + |x.d| := by
    rintro x pts w ⟨-, n2, rfl⟩ hw a b ha hb
    refine dist hw _ ?_
    have p1 := ha
    have p2 := hb
    unfold Spec.Axis.points Spec.Axis.extend at p2
    rw [List.getLast?_eq_getElem?, uniform_length] at p1 p2
    unfold Spec.uniform at p1 p2
    rw [List.getElem?_map, List.getElem?_range (by omega)] at p1
    rw [List.getElem?_map, List.getElem?_range (by show x.n + 2 * w - 1 < x.n + 2 * w; omega)] at p2
    have q1 := Option.some.inj p1
    have q2 := Option.some.inj p2
    rw [← q1, ← q2, show x.n + 2 * w - 1 = (x.n - 1) + 2 * w by omega]
    push_cast
    have : x.o + ((x.n - 1 : ℕ) : ℚ) * x.d - (x.o - w * x.d + (((x.n - 1 : ℕ) : ℚ) + 2 * w) * x.d) = -(w * x.d) := by ring
    rw [this, abs_neg, abs_mul, Nat.abs_cast]
  exact ⟨fun a b ha hb => first hya hwy a b ha (e1 ▸ hb), fun a b ha hb => first hxa hwx a b ha (e2 ▸ hb),
    fun a b ha hb => last hya hwy a b ha (e1 ▸ hb), fun a b ha hb => last hxa hwx a b ha (e2 ▸ hb)⟩

/-- **C291** (round trip): removing a halo of the same radius from the grid made leaves the axes that were given. -/
theorem C291_roundtrip (order : List String → List String) (ho : ∀ l, (order l).Perm l) (yName xName : String) (ys xs : List ℚ) (radius : ℚ) (hne : yName ≠ xName)
    (hty : yName ≠ "threshold") (htx : xName ≠ "threshold") (ya xa : Spec.Axis) (hya : ya.Gives ys) (hxa : xa.Gives xs) (out : HaloGrid)
    (h : createCubeWithHalo yName xName ys xs radius = .ok out) :
    ∃ back, removeCubeHalo order yName xName radius out.grid = .ok back ∧ back.dims = [yName, xName] ∧ back.points yName = ys ∧ back.points xName = xs := by
  have hcx : ∃ wx, xa.Cells radius wx := by
    by_cases hr : radius < |xa.d|
    · exfalso
      unfold createCubeWithHalo at h
      rw [(cells_of_axis hxa).2.2 hr] at h
      exact nomatch h
    · exact distanceToCells_error xs radius xa hxa hr
  obtain ⟨wx, hwx⟩ := hcx
  have hcy : ∃ wy, ya.Cells radius wy := by
    by_cases hr : radius < |ya.d|
    · exfalso
      unfold createCubeWithHalo at h
      rw [((cells_of_axis hxa).1 wx).2 hwx, (cells_of_axis hya).2.2 hr] at h
      exact nomatch h
    · exact distanceToCells_error ys radius ya hya hr
  obtain ⟨wy, hwy⟩ := hcy
  obtain ⟨out', h', e0, e1, e2, -⟩ := C291_made yName xName ys xs radius hne ya xa hya hxa wy wx hwy hwx
  rw [h] at h'; injection h' with h'; subst h'
  have gives : ∀ {x : Spec.Axis} {pts : List ℚ} {w : ℕ}, x.Gives pts → x.Cells radius w → (x.extend w).Gives (x.extend w).points ∧ (x.extend w).Halo radius w ∧
      Spec.uniform ((x.extend w).trim w).o ((x.extend w).trim w).d ((x.extend w).trim w).n = pts := by
    rintro x pts w ⟨d0, n2, rfl⟩ ⟨c0, c1, c2⟩
    refine ⟨⟨d0, ?_, rfl⟩, ⟨c0, c1, c2, ?_⟩, ?_⟩
    · show 2 ≤ x.n + 2 * w; omega
    · show 2 * w < x.n + 2 * w; omega
    · show Spec.uniform (x.o - w * x.d + w * x.d) x.d (x.n + 2 * w - 2 * w) = _
      rw [Nat.add_sub_cancel, sub_add_cancel]
  obtain ⟨gy, hy, ry⟩ := gives hya hwy
  obtain ⟨gx, hx, rx⟩ := gives hxa hwx
  obtain ⟨back, b0, b1, b2, b3, -⟩ := C265_trimmed order ho yName xName radius out.grid (by rw [e0]; simpa using hne) (by rw [e0]; simpa using ⟨hty.symm, htx.symm⟩)
    (by rw [e0]; simp) (by rw [e0]; simp) hne (ya.extend wy) (xa.extend wx) (e1 ▸ gy) (e2 ▸ gx) wy wx hy hx
  exact ⟨back, b0, b1.trans e0, b2.trans ry, b3.trans rx⟩

/-- **C291** (refused): a radius of less than one cell along either axis is refused, and no other for evenly spaced axes. -/
theorem C291_refused (yName xName : String) (ys xs : List ℚ) (radius : ℚ) (hne : yName ≠ xName) (ya xa : Spec.Axis) (hya : ya.Gives ys) (hxa : xa.Gives xs) :
    (radius < |ya.d| ∨ radius < |xa.d| → createCubeWithHalo yName xName ys xs radius = .error .valueError) ∧
    (¬ (radius < |ya.d| ∨ radius < |xa.d|) → ∃ out, createCubeWithHalo yName xName ys xs radius = .ok out) := by
  constructor
  · intro hr
    unfold createCubeWithHalo
    by_cases hx : radius < |xa.d|
    · rw [(cells_of_axis hxa).2.2 hx]; rfl
    · obtain ⟨wx, hwx⟩ := distanceToCells_error xs radius xa hxa hx
      rw [((cells_of_axis hxa).1 wx).2 hwx, (cells_of_axis hya).2.2 (hr.resolve_right hx)]; rfl
  · intro hr
    obtain ⟨wx, hwx⟩ := distanceToCells_error xs radius xa hxa fun e => hr (Or.inr e)
    obtain ⟨wy, hwy⟩ := distanceToCells_error ys radius ya hya fun e => hr (Or.inl e)
    obtain ⟨out, h, -⟩ := C291_made yName xName ys xs radius hne ya xa hya hxa wy wx hwy hwx
    exact ⟨out, h⟩

/-- **C291** (command): without a radius, 162 km. -/
theorem C291_command (yName xName : String) (ys xs : List ℚ) (radius : ℚ) :
    gridWithHaloCommand yName xName ys xs none = createCubeWithHalo yName xName ys xs 162000 ∧
    gridWithHaloCommand yName xName ys xs (some radius) = createCubeWithHalo yName xName ys xs radius := ⟨rfl, rfl⟩

/-- **C291** (reach): a place within the radius of the outermost point need not be in the grid made, not even in its outermost cells. -/
theorem C291_reach_refuted : ¬ ∀ (ys xs : List ℚ) (radius : ℚ) (out : HaloGrid), createCubeWithHalo "y" "x" ys xs radius = .ok out →
    ∀ p a, xs.getLast? = some a → a ≤ p → p ≤ a + radius → ∃ b ∈ out.xBounds, b.1 ≤ p ∧ p ≤ b.2 := by
  intro h
  have g : Spec.Axis.Gives ⟨0, 10, 2⟩ [0, 10] := ⟨by norm_num, le_refl _, by simp [Spec.uniform, List.range_succ]⟩
  have w : Spec.Axis.Cells ⟨0, 10, 2⟩ 19 1 := ⟨by norm_num, by norm_num, by norm_num⟩
  obtain ⟨out, h1, -, -, -, -, hb, -⟩ := C291_made "y" "x" [0, 10] [0, 10] 19 (by decide) ⟨0, 10, 2⟩ ⟨0, 10, 2⟩ g g 1 1 w w
  obtain ⟨b, hb1, -, hb2⟩ := h [0, 10] [0, 10] 19 out h1 29 10 rfl (by norm_num) (by norm_num)
  rw [hb] at hb1
  have e : Spec.Axis.edges (Spec.Axis.extend ⟨0, 10, 2⟩ 1) = [(-15, -5), (-5, 5), (5, 15), (15, 25)] := by decide +kernel
  rw [e] at hb1
  simp only [List.mem_cons, List.not_mem_nil, or_false] at hb1
  rcases hb1 with rfl | rfl | rfl | rfl <;> norm_num at hb2

example : (createCubeWithHalo "y" "x" [0, 10, 20] [30, 10, -10] 45).toOption.map (fun o => (o.grid.points "y", o.grid.points "x")) =
    some ([-40, -30, -20, -10, 0, 10, 20, 30, 40, 50, 60], [70, 50, 30, 10, -10, -30, -50]) := by decide +kernel
example : (createCubeWithHalo "y" "x" [0, 10, 20] [30, 10, -10] 15).toOption.isSome = false := by decide +kernel

end Improver
