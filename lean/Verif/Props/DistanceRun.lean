import Verif.Model.DistanceRun
import Verif.Props.Spatial

/-! C288: cubes of distances between neighbouring points of a grid. -/

namespace Improver

namespace Spec

/-- Row `i`, column `j` of a field. -/
def DistanceAt (f : DistanceField) (i j : ℕ) : ℚ := (f.rows.getD i []).getD j 0

/-- The field has as many rows and columns as its axes have points. -/
def fitsAxes (f : DistanceField) : Prop := f.rows.length = f.ys.length ∧ ∀ r ∈ f.rows, r.length = f.xs.length

/-- Halfway points of neighbours of an axis. -/
def halfway (p m : List ℚ) : Prop := m.length = p.length - 1 ∧ ∀ k, k + 1 < p.length → m.getD k 0 = (p.getD k 0 + p.getD (k + 1) 0) / 2

end Spec

open Spec

theorem uniform_scaled (a d s : ℚ) (n : ℕ) : (uniform a d n).map (fun p => p * s) = uniform (a * s) (d * s) n := by
  unfold uniform
  rw [List.map_map]
  apply List.map_congr_left
  intro k _
  simp only [Function.comp]
  ring

theorem mapped_getD {α β : Type} (f : α → β) (l : List α) (i : ℕ) (h : i < l.length) (b : β) : (l.map f).getD i b = f l[i] := by
  rw [List.getD_eq_getElem _ _ (by simpa using h), List.getElem_map]

theorem halfway_midpoints (p : List ℚ) : halfway p (axisMidpoints false p) := by
  unfold halfway axisMidpoints
  simp only [Bool.false_eq_true, if_false]
  constructor
  · simp
  · intro k hk
    rw [List.getD_eq_getElem?_getD, List.getElem?_zipWith, List.getElem?_tail, List.getElem?_eq_getElem hk, List.getElem?_eq_getElem (by omega)]
    rw [List.getD_eq_getElem _ _ hk, List.getD_eq_getElem _ _ (by omega)]
    simp only [Option.getD_some]
    ring

/-- C288 (projected grids): for an evenly spaced grid with y first, axes in any units of length, every distance along x is the distance of neighbouring columns in
metres, every distance along y that of neighbouring rows, at the points halfway between them. -/
theorem C288_projected (radius radPerDeg : ℚ) (cosLat : ℚ → ℚ) (c : DistanceGrid) (ax dx sx ay dy sy : ℚ) (nx ny : ℕ) (hnx : 2 ≤ nx) (hny : 2 ≤ ny)
    (hx : c.x = ⟨true, .length sx, uniform ax dx nx, false⟩) (hy : c.y = ⟨true, .length sy, uniform ay dy ny, false⟩) (ho : c.xFirst = false) :
    ∃ fx fy, (gridDistances radius radPerDeg cosLat c).1 = .ok (fx, fy) ∧ fitsAxes fx ∧ fitsAxes fy ∧
      fx.ys = uniform (ay * sy) (dy * sy) ny ∧ halfway (uniform (ax * sx) (dx * sx) nx) fx.xs ∧
      fy.xs = uniform (ax * sx) (dx * sx) nx ∧ halfway (uniform (ay * sy) (dy * sy) ny) fy.ys ∧
      (∀ i j, i < ny → j + 1 < nx → DistanceAt fx i j = |(ax + (j + 1 : ℕ) * dx) * sx - (ax + j * dx) * sx|) ∧
      ∀ i j, i + 1 < ny → j < nx → DistanceAt fy i j = |(ay + (i + 1 : ℕ) * dy) * sy - (ay + i * dy) * sy| := by
  obtain ⟨o, y, x, g⟩ := c
  subst hx hy ho
  have ex : (uniform ax dx nx).map (fun p => p * sx) = uniform (ax * sx) (dx * sx) nx := uniform_scaled ..
  have ey : (uniform ay dy ny).map (fun p => p * sy) = uniform (ay * sy) (dy * sy) ny := uniform_scaled ..
  have hmx := halfway_midpoints (uniform (ax * sx) (dx * sx) nx)
  have hmy := halfway_midpoints (uniform (ay * sy) (dy * sy) ny)
  have lx : (axisMidpoints false (uniform (ax * sx) (dx * sx) nx)).length = nx - 1 := by rw [hmx.1, uniform_length]
  have ly : (axisMidpoints false (uniform (ay * sy) (dy * sy) ny)).length = ny - 1 := by rw [hmy.1, uniform_length]
  refine ⟨⟨List.replicate ny (List.replicate (nx - 1) |dx * sx|), uniform (ay * sy) (dy * sy) ny, axisMidpoints false (uniform (ax * sx) (dx * sx) nx)⟩,
    ⟨List.replicate (ny - 1) (List.replicate nx |dy * sy|), axisMidpoints false (uniform (ay * sy) (dy * sy) ny), uniform (ax * sx) (dx * sx) nx⟩,
    ?_, ?_, ?_, rfl, hmx, rfl, hmy, ?_, ?_⟩
  · unfold gridDistances
    simp only [HorizontalUnit.isLength, Bool.and_self, if_true, DistanceGrid.afterCheck, HorizontalAxis.toMetres]
    unfold projectedDistances
    simp only [Bool.false_eq_true, if_false, ex, ey, bind, Except.bind]
    rw [C69_spacing (ax * sx) (dx * sx) nx hnx _ (by norm_num), C69_spacing (ay * sy) (dy * sy) ny hny _ (by norm_num)]
    simp only [DistanceGrid.shape, Bool.false_eq_true, if_false, uniform_length, not_true_eq_false, ne_eq, lx, ly]
  · constructor
    · simp [uniform_length]
    · intro r hr
      rw [List.eq_of_mem_replicate hr]
      simp [lx]
  · constructor
    · simp [ly]
    · intro r hr
      rw [List.eq_of_mem_replicate hr]
      simp [uniform_length]
  · intro i j hi hj
    unfold DistanceAt
    simp only [List.getD_eq_getElem?_getD, List.getElem?_replicate, if_pos hi, Option.getD_some]
    rw [if_pos (by omega), Option.getD_some]
    congr 1
    push_cast
    ring
  · intro i j hi hj
    unfold DistanceAt
    simp only [List.getD_eq_getElem?_getD, List.getElem?_replicate, if_pos (show i < ny - 1 by omega), Option.getD_some]
    rw [if_pos hj, Option.getD_some]
    congr 1
    push_cast
    ring

/-- C288 (grids of latitude and longitude): distances along x are arcs of the circle of latitude, those along y arcs of the meridian; on an axis round the globe
there is one more, from the last to the first point. -/
theorem C288_latlon (radius radPerDeg : ℚ) (cosLat : ℚ → ℚ) (c : DistanceGrid) (hg : c.geographic = true) (hx : c.x.unit = .degrees) (hy : c.y.unit = .degrees) :
    ∃ fx fy, gridDistances radius radPerDeg cosLat c = (.ok (fx, fy), c) ∧ fx.ys = c.y.points ∧ fy.xs = c.x.points ∧
      fx.rows.length = c.y.points.length ∧ fy.rows.length = c.y.points.length - 1 ∧
      (∀ i j, i < c.y.points.length → j + 1 < c.x.points.length →
        DistanceAt fx i j = radius * cosLat (c.y.points.getD i 0) * (radPerDeg * (c.x.points.getD (j + 1) 0 - c.x.points.getD j 0))) ∧
      (c.x.circular = true → ∀ i, i < c.y.points.length → c.x.points ≠ [] →
        (fx.rows.getD i []).length = c.x.points.length ∧
        DistanceAt fx i (c.x.points.length - 1) =
          radius * cosLat (c.y.points.getD i 0) * (radPerDeg * (360 + c.x.points.getD 0 0 - c.x.points.getD (c.x.points.length - 1) 0))) ∧
      (c.x.circular = false → ∀ i, i < c.y.points.length → (fx.rows.getD i []).length = c.x.points.length - 1) ∧
      ∀ i j, i + 1 < c.y.points.length → j < c.x.points.length →
        DistanceAt fy i j = radius * (radPerDeg * (c.y.points.getD (i + 1) 0 - c.y.points.getD i 0)) := by
  have hc : c.afterCheck = c := by
    unfold DistanceGrid.afterCheck
    rw [hx]
    rfl
  refine ⟨⟨c.y.points.map fun lat => latLonXDistances radius radPerDeg (cosLat lat) c.x.circular c.x.points, c.y.points,
      axisMidpoints c.x.circular c.x.points⟩,
    ⟨(latLonYDistances radius radPerDeg c.y.points).map fun d => List.replicate c.x.points.length d, axisMidpoints c.y.circular c.y.points, c.x.points⟩,
    ?_, rfl, rfl, by simp, ?_, ?_, ?_, ?_, ?_⟩
  · unfold gridDistances
    dsimp only
    rw [hc, hx, hg]
    unfold latLonDistances
    rw [if_neg (by simp [HorizontalUnit.isLength]), if_pos rfl, if_pos ⟨hx, hy⟩]
  · simp [latLonYDistances, npDiff_length']
  · intro i j hi hj
    unfold DistanceAt
    dsimp only
    rw [mapped_getD _ _ i hi []]
    unfold latLonXDistances
    rw [List.getD_eq_getElem _ _ hi]
    cases hcirc : c.x.circular with
    | false =>
      simp only [Bool.false_eq_true, if_false]
      have hk : j < (npDiff c.x.points).length := by rw [npDiff_length']; omega
      rw [List.getD_eq_getElem _ _ (by simpa using hk), List.getElem_map, npDiff_getElem _ _ hk, List.getD_eq_getElem _ _ hj,
        List.getD_eq_getElem _ _ (by omega)]
    | true =>
      simp only [if_true]
      have hk : j < (npDiff (c.x.points ++ [360 + c.x.points.headD 0])).length := by rw [npDiff_length']; simp; omega
      rw [List.getD_eq_getElem _ _ (by simpa using hk), List.getElem_map, npDiff_getElem _ _ hk, List.getD_eq_getElem _ _ hj,
        List.getD_eq_getElem _ _ (by omega), List.getElem_append_left hj, List.getElem_append_left (by omega)]
  · intro hcirc i hi hne
    unfold DistanceAt
    dsimp only
    rw [mapped_getD _ _ i hi []]
    unfold latLonXDistances
    rw [List.getD_eq_getElem _ _ hi, hcirc]
    simp only [if_true]
    have hp : 0 < c.x.points.length := List.length_pos_iff.2 hne
    have hk : c.x.points.length - 1 < (npDiff (c.x.points ++ [360 + c.x.points.headD 0])).length := by rw [npDiff_length']; simp; omega
    refine ⟨by simp [npDiff_length'], ?_⟩
    rw [List.getD_eq_getElem _ _ (by simpa using hk), List.getElem_map, npDiff_getElem _ _ hk, List.getElem_append_right (by omega),
      List.getElem_append_left (by omega), List.getD_eq_getElem _ _ (by omega : c.x.points.length - 1 < c.x.points.length)]
    simp only [List.getElem_singleton]
    congr 4
    cases hl : c.x.points with
    | nil => exact absurd hl hne
    | cons a l => rfl
  · intro hcirc i hi
    dsimp only
    rw [List.getD_eq_getElem _ _ (by simpa using hi), List.getElem_map]
    unfold latLonXDistances
    rw [hcirc]
    simp [npDiff_length']
  · intro i j hi hj
    unfold DistanceAt latLonYDistances
    dsimp only
    have hk : i < (npDiff c.y.points).length := by rw [npDiff_length']; omega
    rw [mapped_getD _ _ i (by simpa using hk) [], List.getElem_map, npDiff_getElem _ _ hk, List.getD_eq_getElem _ _ hi,
      List.getD_eq_getElem _ _ (by omega : i < c.y.points.length)]
    simp only [List.getD_eq_getElem?_getD, List.getElem?_replicate, if_pos hj, Option.getD_some]

/-- C288 (once round the globe): the distances of a row of a circular axis add up to the circle of latitude, whatever the points. -/
theorem C288_circumference (radius radPerDeg cosLat : ℚ) (longs : List ℚ) (hne : longs ≠ []) :
    (latLonXDistances radius radPerDeg cosLat true longs).sum = radius * cosLat * (radPerDeg * 360) := by
  have hs : ∀ l : List ℚ, (l.map fun d => radius * cosLat * (radPerDeg * d)).sum = radius * cosLat * (radPerDeg * l.sum) := by
    intro l
    induction l with
    | nil => simp
    | cons a t ih => rw [List.map_cons, List.sum_cons, List.sum_cons, ih]; ring
  unfold latLonXDistances
  dsimp only
  rw [hs, if_pos rfl]
  cases longs with
  | nil => exact absurd rfl hne
  | cons a l =>
    rw [List.cons_append, npDiff_sum']
    have e : ∀ (k : List ℚ) (b c : ℚ), (b :: (k ++ [c])).getLastD 0 = c := by
      intro k b c
      rw [← List.cons_append, List.getLastD_eq_getLast?, List.getLast?_append]
      simp
    rw [e, List.headD_cons]
    ring

/-- C288 (refused): a grid with axes in units of length whose x axis is circular is refused, whatever its points. -/
theorem C288_circular (radius radPerDeg : ℚ) (cosLat : ℚ → ℚ) (c : DistanceGrid) (h : c.x.unit.isLength = true ∧ c.y.unit.isLength = true) (hc : c.x.circular = true) :
    (gridDistances radius radPerDeg cosLat c).1 = .error .notImplemented := by
  have hk : c.afterCheck.x.circular = true := by
    unfold DistanceGrid.afterCheck
    rw [if_pos h.1]
    unfold HorizontalAxis.toMetres
    dsimp only
    split <;> exact hc
  unfold gridDistances projectedDistances
  simp only [h.1, h.2, Bool.and_self, if_true, hk]

example : (gridDistances 6371229 (1 / 57) (fun _ => 1) ⟨false, ⟨true, .length 1000, [0, 1], false⟩, ⟨true, .length 1000, [0, 1, 2], true⟩, false⟩).1 = .error .notImplemented := by
  decide +kernel

/-- C288: grids with one axis in lengths and the other not, with angles other than degrees, or with angles and no geographic coordinate system are refused. -/
theorem C288_refused (radius radPerDeg : ℚ) (cosLat : ℚ → ℚ) (c : DistanceGrid) (h1 : ¬ (c.x.unit.isLength = true ∧ c.y.unit.isLength = true))
    (h2 : ¬ (c.geographic = true ∧ c.x.unit = .degrees ∧ c.y.unit = .degrees)) : (gridDistances radius radPerDeg cosLat c).1 = .error .valueError := by
  unfold gridDistances
  dsimp only
  rw [if_neg (by rw [Bool.and_eq_true]; exact h1)]
  by_cases hg : c.geographic = true
  · rw [if_pos hg]
    unfold latLonDistances
    rw [if_neg]
    rintro ⟨a, b⟩
    apply h2
    refine ⟨hg, ?_⟩
    unfold DistanceGrid.afterCheck at a b
    by_cases hl : c.x.unit.isLength = true
    · rw [if_pos hl] at a
      unfold HorizontalAxis.toMetres at a
      dsimp only at a
      cases hu : c.x.unit with
      | length s => rw [hu] at a; exact nomatch a
      | degrees => rw [hu] at hl; exact nomatch hl
      | other => rw [hu] at hl; exact nomatch hl
    · rw [if_neg hl] at a b
      exact ⟨a, b⟩
  · rw [if_neg hg]

/-- Finding: a projected grid with x first is refused, unless it has as many rows as columns. -/
theorem C288_x_first_refuted (radius radPerDeg : ℚ) (cosLat : ℚ → ℚ) (c : DistanceGrid) (h : c.x.unit.isLength = true ∧ c.y.unit.isLength = true)
    (ho : c.xFirst = true) (hn : c.x.points.length ≠ c.y.points.length) (out : DistanceField × DistanceField) :
    (gridDistances radius radPerDeg cosLat c).1 ≠ .ok out := by
  intro hr
  unfold gridDistances at hr
  dsimp only at hr
  rw [if_pos (by rw [Bool.and_eq_true]; exact h)] at hr
  have hlen : ∀ a : HorizontalAxis, a.toMetres.points.length = a.points.length := by
    intro a
    unfold HorizontalAxis.toMetres
    cases a.unit <;> simp
  have ha : c.afterCheck.shape.1 ≠ c.afterCheck.y.points.length := by
    unfold DistanceGrid.afterCheck DistanceGrid.shape
    rw [if_pos h.1]
    simp only [ho, if_true, hlen]
    exact hn
  unfold projectedDistances at hr
  simp only [bind, Except.bind] at hr
  split at hr
  · exact nomatch hr
  · split at hr
    · exact nomatch hr
    · split at hr
      · exact nomatch hr
      · exact nomatch hr

/-- Finding: the caller's cube is changed: its axes are in metres afterwards. -/
theorem C288_units_refuted (radius radPerDeg : ℚ) (cosLat : ℚ → ℚ) :
    (gridDistances radius radPerDeg cosLat ⟨false, ⟨true, .length 1000, [0, 2], false⟩, ⟨true, .length 1000, [5, 7], false⟩, false⟩).2 =
      ⟨false, ⟨true, .length 1, [0, 2000], false⟩, ⟨true, .length 1, [5000, 7000], false⟩, false⟩ := by
  have : (gridDistances radius radPerDeg cosLat ⟨false, ⟨true, .length 1000, [0, 2], false⟩, ⟨true, .length 1000, [5, 7], false⟩, false⟩).2 =
      DistanceGrid.afterCheck ⟨false, ⟨true, .length 1000, [0, 2], false⟩, ⟨true, .length 1000, [5, 7], false⟩, false⟩ := rfl
  rw [this]
  decide +kernel

/-- The hypotheses of `C288_projected` are met by a grid of two rows and three columns in kilometres. -/
example (radius radPerDeg : ℚ) (cosLat : ℚ → ℚ) : ∃ fx fy, (gridDistances radius radPerDeg cosLat
    ⟨false, ⟨true, .length 1000, uniform 0 2 2, false⟩, ⟨true, .length 1000, uniform 5 2 3, false⟩, false⟩).1 = .ok (fx, fy) ∧ DistanceAt fx 1 1 = 2000 := by
  obtain ⟨fx, fy, h, -, -, -, -, -, -, hd, -⟩ := C288_projected radius radPerDeg cosLat
    ⟨false, ⟨true, .length 1000, uniform 0 2 2, false⟩, ⟨true, .length 1000, uniform 5 2 3, false⟩, false⟩ 5 2 1000 0 2 1000 3 2 (by norm_num) (by norm_num) rfl rfl rfl
  refine ⟨fx, fy, h, ?_⟩
  rw [hd 1 1 (by norm_num) (by norm_num)]
  norm_num

end Improver
