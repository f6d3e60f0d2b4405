import Verif.Model.HaloRun
import Verif.Props.Pad
import Verif.Props.PercNbRun

/-! C265, C266: `remove_cube_halo` and `MetaNeighbourhood` on cubes with named dimensions. -/

namespace Improver

open Spec

namespace Spec

/-- The place `wy` rows and `wx` columns further in. -/
def shifted (yName xName : String) (wy wx : ℕ) (a : String → ℕ) : String → ℕ := along (along a yName (a yName + wy)) xName (a xName + wx)

/-- An axis of `n` points from `o` in steps of `d`. -/
structure Axis where
  o : ℚ
  d : ℚ
  n : ℕ

/-- The axis gives these points; there are two at least. -/
def Axis.Gives (x : Axis) (points : List ℚ) : Prop := x.d ≠ 0 ∧ 2 ≤ x.n ∧ points = uniform x.o x.d x.n

/-- The axis without `w` points on either side. -/
def Axis.trim (x : Axis) (w : ℕ) : Axis := ⟨x.o + w * x.d, x.d, x.n - 2 * w⟩

/-- The radius spans `w` whole steps of the axis, one at least, and leaves points between. -/
def Axis.Halo (x : Axis) (radius : ℚ) (w : ℕ) : Prop := 0 < w ∧ (w : ℚ) * |x.d| ≤ radius ∧ radius < ((w : ℚ) + 1) * |x.d| ∧ 2 * w < x.n

end Spec

theorem newAxes_fold {α : Type} (l : List String) (d : DimCube α) :
    (l.foldl (fun (d : DimCube α) s => ⟨s :: d.dims, fun idx => d.data idx.tail⟩) d).dims = l.reverse ++ d.dims ∧
    ∀ a : String → ℕ, (l.foldl (fun (d : DimCube α) s => ⟨s :: d.dims, fun idx => d.data idx.tail⟩) d).data
      ((l.foldl (fun (d : DimCube α) s => ⟨s :: d.dims, fun idx => d.data idx.tail⟩) d).dims.map a) = d.data (d.dims.map a) := by
  induction l generalizing d with
  | nil => exact ⟨rfl, fun _ => rfl⟩
  | cons s l ih =>
    rw [List.foldl_cons]
    obtain ⟨h1, h2⟩ := ih ⟨s :: d.dims, fun idx => d.data idx.tail⟩
    refine ⟨?_, fun a => ?_⟩
    · rw [h1]; simp
    · rw [h2]; rfl

theorem padCoordRemove_axis {x : Spec.Axis} {pts : List ℚ} (h : x.Gives pts) {radius : ℚ} {w : ℕ} (hw : x.Halo radius w) :
    distanceToCells pts radius = .ok w ∧ ∃ q, padCoordRemove pts w = .ok q ∧ q.points = Spec.uniform (x.trim w).o (x.trim w).d (x.trim w).n := by
  obtain ⟨h1, h2, rfl⟩ := h
  obtain ⟨w1, w2, w3, w4⟩ := hw
  refine ⟨((C69_cells _ |x.d| (C69_spacing x.o x.d x.n h2 _ (by norm_num)) (abs_pos.2 h1) radius).1 w).2 ⟨w1, w2, w3⟩, ?_⟩
  unfold padCoordRemove
  rw [coordIncrement_uniform _ _ _ h2]
  refine ⟨_, rfl, ?_⟩
  show ((Spec.uniform x.o x.d x.n).take ((Spec.uniform x.o x.d x.n).length - w)).drop w = Spec.uniform (x.o + w * x.d) x.d (x.n - 2 * w)
  rw [uniform_length]
  apply List.ext_getElem
  · rw [List.length_drop, List.length_take, uniform_length, uniform_length]; omega
  · intro i i1 i2
    rw [List.getElem_drop, List.getElem_take]
    simp only [Spec.uniform, List.getElem_map, List.getElem_range]
    push_cast
    ring

/-- **C265**: removing a halo whose radius spans `wy` and `wx` grid cells leaves a cube on the same dimensions in the same order, whose y and x axes lack that many
points on either side and whose other coordinates are the same; every place holds what the cube had at the same coordinates. -/
theorem C265_trimmed {α : Type} (order : List String → List String) (ho : ∀ l, (order l).Perm l) (yName xName : String) (radius : ℚ) (c : PointCube α)
    (hn : c.dims.Nodup) (hthr : "threshold" ∉ c.dims) (hy : yName ∈ c.dims) (hx : xName ∈ c.dims) (hne : yName ≠ xName) (ya xa : Spec.Axis)
    (hya : ya.Gives (c.points yName)) (hxa : xa.Gives (c.points xName)) (wy wx : ℕ) (hwy : ya.Halo radius wy) (hwx : xa.Halo radius wx) :
    ∃ out, removeCubeHalo order yName xName radius c = .ok out ∧ out.dims = c.dims ∧
      out.points yName = Spec.uniform (ya.trim wy).o (ya.trim wy).d (ya.trim wy).n ∧ out.points xName = Spec.uniform (xa.trim wx).o (xa.trim wx).d (xa.trim wx).n ∧
      (∀ n, n ≠ yName → n ≠ xName → out.points n = c.points n) ∧
      ∀ a, Spec.Inside out out.dims a → Spec.placeValue out.toDimCube a = Spec.placeValue c.toDimCube (Spec.shifted yName xName wy wx a) := by
  obtain ⟨cy, py, qy, qy'⟩ := padCoordRemove_axis hya hwy
  obtain ⟨cx, px, qx, qx'⟩ := padCoordRemove_axis hxa hwx
  have hmerged : ∀ n, n ∈ order (c.dims.filter fun n => decide (n ≠ yName ∧ n ≠ xName ∧ (c.points n).length ≠ 1)) ↔
      n ∈ c.dims ∧ n ≠ yName ∧ n ≠ xName ∧ (c.points n).length ≠ 1 := by
    intro n
    rw [(ho _).mem_iff, List.mem_filter, decide_eq_true_iff]
  have hmn : (order (c.dims.filter fun n => decide (n ≠ yName ∧ n ≠ xName ∧ (c.points n).length ≠ 1))).Nodup := (ho _).nodup_iff.2 (hn.filter _)
  have hsl : trimmedSlices order yName xName wy wx c = ⟨order (c.dims.filter fun n => decide (n ≠ yName ∧ n ≠ xName ∧ (c.points n).length ≠ 1)) ++ [yName, xName],
      fun idx => c.data (c.dims.map (placeOf yName xName (order (c.dims.filter fun n => decide (n ≠ yName ∧ n ≠ xName ∧ (c.points n).length ≠ 1))) idx
        (idx.getD (order (c.dims.filter fun n => decide (n ≠ yName ∧ n ≠ xName ∧ (c.points n).length ≠ 1))).length 0 + wy)
        (idx.getD ((order (c.dims.filter fun n => decide (n ≠ yName ∧ n ≠ xName ∧ (c.points n).length ≠ 1))).length + 1) 0 + wx)))⟩ := rfl
  generalize hk : order (c.dims.filter fun n => decide (n ≠ yName ∧ n ≠ xName ∧ (c.points n).length ≠ 1)) = kept at hmerged hmn hsl
  have hsd : (trimmedSlices order yName xName wy wx c).dims = kept ++ [yName, xName] := by rw [hsl]
  have hsdn : (kept ++ [yName, xName]).Nodup := by
    rw [List.nodup_append]
    refine ⟨hmn, by simpa using hne, fun u hu v hv e => ?_⟩
    have := (hmerged u).1 hu
    simp only [List.mem_cons, List.not_mem_nil, or_false] at hv
    rcases hv with hv | hv
    · exact this.2.1 (e.trans hv)
    · exact this.2.2.1 (e.trans hv)
  obtain ⟨f1, f2⟩ := newAxes_fold (c.dims.filter fun n => decide (n ∉ (trimmedSlices order yName xName wy wx c).dims)) (trimmedSlices order yName xName wy wx c)
  change (newAxes c.dims (trimmedSlices order yName xName wy wx c)).dims = _ at f1
  change ∀ a : String → ℕ, (newAxes c.dims (trimmedSlices order yName xName wy wx c)).data ((newAxes c.dims (trimmedSlices order yName xName wy wx c)).dims.map a) = _ at f2
  have hperm : (newAxes c.dims (trimmedSlices order yName xName wy wx c)).dims.Perm c.dims := by
    rw [f1, hsd]
    have hnd : ((c.dims.filter fun n => decide (n ∉ kept ++ [yName, xName])).reverse ++ (kept ++ [yName, xName])).Nodup := by
      rw [List.nodup_append]
      refine ⟨List.nodup_reverse.2 (hn.filter _), hsdn, fun u hu v hv e => ?_⟩
      rw [List.mem_reverse, List.mem_filter, decide_eq_true_iff] at hu
      exact hu.2 (e ▸ hv)
    rw [List.perm_ext_iff_of_nodup hnd hn]
    intro n
    rw [List.mem_append, List.mem_reverse, List.mem_filter, decide_eq_true_iff]
    constructor
    · rintro (h | h)
      · exact h.1
      · rcases List.mem_append.1 h with h | h
        · exact ((hmerged n).1 h).1
        · simp only [List.mem_cons, List.not_mem_nil, or_false] at h
          rcases h with rfl | rfl
          · exact hy
          · exact hx
    · intro h
      by_cases e : n ∈ kept ++ [yName, xName]
      · exact Or.inr e
      · exact Or.inl ⟨h, e⟩
  have hreq : coordsToReorder (newAxes c.dims (trimmedSlices order yName xName wy wx c)).dims none c.dims = c.dims := by
    unfold coordsToReorder
    have e1 : c.dims.filterMap (fun n => if n = "threshold" then none else some n) = c.dims := by
      have : c.dims.filterMap (fun n => if n = "threshold" then none else some n) = c.dims.filterMap some := by
        apply List.filterMap_congr
        intro n hn'
        exact if_neg fun e : n = "threshold" => hthr (e ▸ hn')
      rw [this, List.filterMap_some]
    rw [e1]
    exact List.filter_eq_self.2 fun n hn' => decide_eq_true (hperm.mem_iff.2 hn')
  obtain ⟨d, d1, d2, d3⟩ := C51_ordering (newAxes c.dims (trimmedSlices order yName xName wy wx c)) (hperm.nodup_iff.2 hn) none c.dims (by rw [hreq]; exact hn) true
  have hdims : d.dims = c.dims := by
    rw [d2, if_pos rfl, hreq]
    have : (newAxes c.dims (trimmedSlices order yName xName wy wx c)).dims.filter (fun n => decide (n ∉ c.dims)) = [] := by
      rw [List.filter_eq_nil_iff]
      intro n hn' e
      exact decide_eq_true_iff.1 e (hperm.mem_iff.1 hn')
    rw [this, List.append_nil]
  refine ⟨⟨d, trimmedPoints c.points yName xName py.points px.points⟩, ?_, hdims, (if_pos rfl).trans qy', (if_neg (Ne.symm hne)).trans ((if_pos rfl).trans qx'),
    fun n e1 e2 => (if_neg e1).trans (if_neg e2), fun a ha => ?_⟩
  · unfold removeCubeHalo
    rw [cx]
    simp only [bind, Except.bind]
    rw [cy]
    simp only
    rw [qx]
    simp only
    rw [qy]
    simp only
    rw [d1]
    rfl
  · show d.data (d.dims.map a) = _
    rw [d3 a, f2 a, hsl]
    unfold Spec.placeValue
    show c.data _ = _
    congr 1
    have g1 : ((kept ++ [yName, xName]).map a).getD kept.length 0 = a yName := by simp [List.getD]
    have g2 : ((kept ++ [yName, xName]).map a).getD (kept.length + 1) 0 = a xName := by simp [List.getD]
    rw [g1, g2]
    apply List.map_congr_left
    intro n hn'
    unfold placeOf Spec.shifted Spec.along
    by_cases e1 : n = yName
    · rw [if_pos e1, if_neg (fun e => hne (e1 ▸ e)), if_pos e1]
    · by_cases e2 : n = xName
      · rw [if_neg e1, if_pos e2, if_pos e2]
      · rw [if_neg e1, if_neg e2, if_neg e2, if_neg e1]
        by_cases e3 : n ∈ kept
        · rw [if_pos e3]
          have hmem : n ∈ kept ++ [yName, xName] := List.mem_append_left _ e3
          have := getD_map_idxOf hmem a
          rwa [List.idxOf_append_of_mem e3] at this
        · rw [if_neg e3]
          have hlen : (c.points n).length = 1 := by
            by_contra hne'
            exact e3 ((hmerged n).2 ⟨hn', e1, e2, hne'⟩)
          have h1 := ha n (by show n ∈ d.dims; rw [hdims]; exact hn')
          have h2 : trimmedPoints c.points yName xName py.points px.points n = c.points n := (if_neg e1).trans (if_neg e2)
          have h3 : a n < (trimmedPoints c.points yName xName py.points px.points n).length := h1
          rw [h2] at h3
          omega

/-- **C265** (refused): a halo of less than one grid cell along either axis, such as none at all, is an error. -/
theorem C265_refused {α : Type} (order : List String → List String) (yName xName : String) (radius : ℚ) (c : PointCube α) (ya xa : Spec.Axis)
    (hya : ya.Gives (c.points yName)) (hxa : xa.Gives (c.points xName)) (h : radius < |ya.d| ∨ radius < |xa.d|) :
    removeCubeHalo order yName xName radius c = .error .valueError := by
  have few : ∀ {x : Spec.Axis} {pts : List ℚ}, x.Gives pts → (distanceToCells pts radius = .error .valueError ↔ radius < |x.d|) ∧
      (radius < |x.d| ∨ ∃ w, distanceToCells pts radius = .ok w ∧ ∃ q, padCoordRemove pts w = .ok q) := by
    rintro x pts ⟨h1, h2, rfl⟩
    have hg := C69_spacing x.o x.d x.n h2 (1 / 100000) (by norm_num)
    have hc := C69_cells _ |x.d| hg (abs_pos.2 h1) radius
    refine ⟨hc.2, ?_⟩
    by_cases hr : radius < |x.d|
    · exact Or.inl hr
    · right
      cases hd : distanceToCells (Spec.uniform x.o x.d x.n) radius with
      | ok w =>
        refine ⟨w, rfl, ?_⟩
        unfold padCoordRemove
        rw [coordIncrement_uniform _ _ _ h2]
        exact ⟨_, rfl⟩
      | error e =>
        exfalso
        have hpos : 0 < radius := lt_of_lt_of_le (abs_pos.2 h1) (not_lt.1 hr)
        have key := (hc.1 (⌊radius / |x.d|⌋.toNat)).2 ⟨by
            have : 1 ≤ ⌊radius / |x.d|⌋ := by
              rw [Int.le_floor]; push_cast; rw [le_div_iff₀ (abs_pos.2 h1)]; linarith [not_lt.1 hr]
            omega, by
            have h0 : 0 ≤ ⌊radius / |x.d|⌋ := Int.floor_nonneg.2 (div_nonneg hpos.le (abs_nonneg _))
            have e1 : ((⌊radius / |x.d|⌋.toNat : ℕ) : ℚ) = (⌊radius / |x.d|⌋ : ℚ) := by
              have : ((⌊radius / |x.d|⌋.toNat : ℕ) : ℤ) = ⌊radius / |x.d|⌋ := Int.toNat_of_nonneg h0
              exact_mod_cast this
            rw [e1, ← le_div_iff₀ (abs_pos.2 h1)]
            exact Int.floor_le _, by
            have h0 : 0 ≤ ⌊radius / |x.d|⌋ := Int.floor_nonneg.2 (div_nonneg hpos.le (abs_nonneg _))
            have e1 : ((⌊radius / |x.d|⌋.toNat : ℕ) : ℚ) = (⌊radius / |x.d|⌋ : ℚ) := by
              have : ((⌊radius / |x.d|⌋.toNat : ℕ) : ℤ) = ⌊radius / |x.d|⌋ := Int.toNat_of_nonneg h0
              exact_mod_cast this
            rw [e1, ← div_lt_iff₀ (abs_pos.2 h1)]
            exact Int.lt_floor_add_one _⟩
        rw [hd] at key
        exact nomatch key
  unfold removeCubeHalo
  by_cases hxr : radius < |xa.d|
  · rw [(few hxa).1.2 hxr]; rfl
  · have hyr := h.resolve_right hxr
    obtain ⟨w, hw, _⟩ := (few hxa).2.resolve_left hxr
    rw [hw]
    simp only [bind, Except.bind]
    rw [(few hya).1.2 hyr]

/-! ## C266 -/

/-- **C266** (halo): with a halo radius that spans `w` cells, the result is what `NeighbourhoodProcessing` gives for the whole cube, trimmed by `w` cells on every
side; if the halo is at least as wide as the radius, no neighbourhood reaches over the edge of the cube. -/
theorem C266_halo (m : MetaNb) (hout : m.output = "probabilities") (hm : m.shape = "circular" ∨ (m.shape = "square" ∧ m.weighted = false))
    (order : List String → List String) (ho : ∀ l, (order l).Perm l) (mask : Option (PointCube ℤ)) (c : NbCube) (hthr : "threshold" ∉ c.dims)
    (d : ℚ) (hc : Spec.Smoothable c mask d) (radius : ℚ) (hrad : findRadius m.radii c.fps = .ok radius) (r : ℕ) (hr : Spec.SpansCells c d radius r)
    (ya xa : Spec.Axis) (hya : ya.Gives (c.points c.yName)) (hxa : xa.Gives (c.points c.xName))
    (halo : ℚ) (hh : m.halo = some halo) (w : ℕ) (hwy : ya.Halo halo w) (hwx : xa.Halo halo w) :
    ∃ whole out, m.plugin.process order mask c = .ok whole ∧ Spec.SmoothDims c whole ∧ m.process order mask c = .ok out ∧ out.dims = whole.dims ∧
      out.points c.yName = Spec.uniform (ya.trim w).o (ya.trim w).d (ya.trim w).n ∧ out.points c.xName = Spec.uniform (xa.trim w).o (xa.trim w).d (xa.trim w).n ∧
      ∀ a, Spec.Inside out c.dims a → Spec.Inside c.toPointCube c.dims (Spec.shifted c.yName c.xName w w a) ∧
        Spec.placeValue out.toDimCube a = Spec.placeValue whole.toDimCube (Spec.shifted c.yName c.xName w w a) ∧
        (r ≤ w → r ≤ Spec.shifted c.yName c.xName w w a c.yName ∧ Spec.shifted c.yName c.xName w w a c.yName + r < (c.points c.yName).length ∧
          r ≤ Spec.shifted c.yName c.xName w w a c.xName ∧ Spec.shifted c.yName c.xName w w a c.xName + r < (c.points c.xName).length) := by
  obtain ⟨whole, e1, e2, e3⟩ := nbRun_slices m.plugin order ho mask c d hc radius hrad r hr
  obtain ⟨⟨lead, hl, hdims⟩, hpts⟩ := e2
  have hmem : ∀ n, n ∈ lead → n ∈ c.dims ∧ n ≠ c.yName ∧ n ≠ c.xName := by
    intro n hn
    have := List.mem_filter.1 (hl.mem_iff.1 hn)
    have h2 := decide_eq_true_iff.1 this.2
    exact ⟨this.1, h2.1, h2.2.1⟩
  have hnd : whole.dims.Nodup := by
    rw [hdims, List.nodup_append]
    refine ⟨hl.nodup_iff.2 (hc.nodup.filter _), by simpa using hc.ne, fun u hu v hv e => ?_⟩
    have := hmem u hu
    simp only [List.mem_cons, List.not_mem_nil, or_false] at hv
    rcases hv with hv | hv
    · exact this.2.1 (e.trans hv)
    · exact this.2.2 (e.trans hv)
  have hsub : ∀ n ∈ whole.dims, n ∈ c.dims := by
    intro n hn
    rw [hdims] at hn
    rcases List.mem_append.1 hn with h | h
    · exact (hmem n h).1
    · simp only [List.mem_cons, List.not_mem_nil, or_false] at h
      rcases h with rfl | rfl
      · exact hc.y
      · exact hc.x
  obtain ⟨out, o1, o2, o3, o4, o5, o6⟩ := C265_trimmed order ho c.yName c.xName halo whole hnd (fun h => hthr (hsub _ h)) (by rw [hdims]; simp) (by rw [hdims]; simp)
    hc.ne ya xa (by rw [hpts]; exact hya) (by rw [hpts]; exact hxa) w w hwy hwx
  refine ⟨whole, out, e1, ⟨⟨lead, hl, hdims⟩, hpts⟩, ?_, o2, o3, o4, fun a ha => ?_⟩
  · unfold MetaNb.process
    have hopt : metaNbCheck m.output m.shape false m.weighted = .ok () :=
      (C90_options m.output m.shape false m.weighted).1.2 ⟨by rw [hout]; simp, by simp⟩
    rw [hopt]
    simp only [bind, Except.bind]
    unfold MetaNb.fields
    rw [if_pos hout, (C90_options m.output m.shape false m.weighted).2.2 hm]
    simp only [bind, Except.bind]
    rw [e1]
    simp only
    rw [hh]
    exact o1
  · have hyl : (c.points c.yName).length = ya.n := by rw [hya.2.2, uniform_len]
    have hxl : (c.points c.xName).length = xa.n := by rw [hxa.2.2, uniform_len]
    have hay := ha c.yName hc.y
    have hax := ha c.xName hc.x
    rw [o3, uniform_len] at hay
    rw [o4, uniform_len] at hax
    have hay' : a c.yName < ya.n - 2 * w := hay
    have hax' : a c.xName < xa.n - 2 * w := hax
    have sy : Spec.shifted c.yName c.xName w w a c.yName = a c.yName + w := by
      unfold Spec.shifted Spec.along
      exact (if_neg hc.ne).trans (if_pos rfl)
    have sx : Spec.shifted c.yName c.xName w w a c.xName = a c.xName + w := by
      unfold Spec.shifted Spec.along
      exact if_pos rfl
    refine ⟨fun n hn => ?_, o6 a (fun n hn => ha n (hsub n (o2 ▸ hn))), fun hrw => ?_⟩
    · by_cases n1 : n = c.yName
      · subst n1; rw [sy, hyl]; omega
      · by_cases n2 : n = c.xName
        · subst n2; rw [sx, hxl]; omega
        · have : Spec.shifted c.yName c.xName w w a n = a n := by
            unfold Spec.shifted Spec.along
            exact (if_neg n2).trans (if_neg n1)
          rw [this]
          have h1 := ha n hn
          rw [o5 n n1 n2, hpts] at h1
          exact h1
    · rw [sy, sx, hyl, hxl]
      omega

/-- **C266** (square means): with a halo at least as wide as the radius every place of the result holds the mean of all values that count in the square around it,
masked where the place itself does not count and NaN where nothing does. -/
theorem C266_square_mean (m : MetaNb) (hout : m.output = "probabilities") (hm : m.shape = "square" ∧ m.weighted = false ∧ m.areaSum = false)
    (order : List String → List String) (ho : ∀ l, (order l).Perm l) (mask : Option (PointCube ℤ)) (c : NbCube) (hthr : "threshold" ∉ c.dims)
    (d : ℚ) (hc : Spec.Smoothable c mask d) (radius : ℚ) (hrad : findRadius m.radii c.fps = .ok radius) (r : ℕ) (hr : Spec.SpansCells c d radius r)
    (ya xa : Spec.Axis) (hya : ya.Gives (c.points c.yName)) (hxa : xa.Gives (c.points c.xName))
    (halo : ℚ) (hh : m.halo = some halo) (w : ℕ) (hwy : ya.Halo halo w) (hwx : xa.Halo halo w) (hrw : r ≤ w) :
    ∃ out, m.process order mask c = .ok out ∧ ∀ a, Spec.Inside out c.dims a →
      let b := Spec.shifted c.yName c.xName w w a
      let total (f : ℕ → ℕ → ℚ) := Spec.windowSum (c.points c.yName).length (c.points c.xName).length r r
        (fun i j => if Spec.counts c mask b i j then f i j else 0) (b c.yName) (b c.xName)
      Spec.placeValue out.toDimCube a = Spec.putBack true (Spec.counts c mask b (b c.yName) (b c.xName))
        (if total (fun _ _ => 1) = 0 then none else some (total (Spec.valueIn c b) / total fun _ _ => 1)) := by
  obtain ⟨whole, out, h1, _, h3, _, _, _, h7⟩ := C266_halo m hout (Or.inr ⟨hm.1, hm.2.1⟩) order ho mask c hthr d hc radius hrad r hr ya xa hya hxa halo hh w hwy hwx
  have hsq : m.plugin.circular = false := by
    unfold MetaNb.plugin
    rw [hm.1]
    exact decide_eq_false (show ¬ ("square" = "circular") by decide)
  obtain ⟨whole', g1, _, g3⟩ := C258_square_mean m.plugin hm.2.2 hsq order ho mask c d hc radius hrad r hr
  cases h1.symm.trans g1
  refine ⟨out, h3, fun a ha => ?_⟩
  intro b total
  obtain ⟨k1, k2, k3⟩ := h7 a ha
  obtain ⟨v, v1, v2, _, v4⟩ := g3 b k1
  rw [k2, v1]
  have hv : v = if total (fun _ _ => 1) = 0 then none else some (total (Spec.valueIn c b) / total fun _ _ => 1) := by
    by_cases ht : total (fun _ _ => 1) = 0
    · rw [if_pos ht]; exact v2.2 ht
    · rw [if_neg ht]; exact v4 (k3 hrw) ht
  rw [hv]
  rfl

/-- **C266** (options): percentiles with weights, weights on squares and shapes of other names are refused; so is any other output than the two. -/
theorem C266_refused (m : MetaNb) (order : List String → List String) (mask : Option (PointCube ℤ)) (c : NbCube)
    (h : (m.output = "percentiles" ∧ m.weighted = true) ∨ (m.output = "probabilities" ∧ ¬ (m.shape = "circular" ∨ (m.shape = "square" ∧ m.weighted = false))) ∨
      (m.output ≠ "percentiles" ∧ m.output ≠ "probabilities")) : ∀ out, m.process order mask c ≠ .ok out := by
  intro out hp
  unfold MetaNb.process at hp
  cases h1 : metaNbCheck m.output m.shape false m.weighted with
  | error e => rw [h1] at hp; exact nomatch hp
  | ok u =>
    rw [h1] at hp
    simp only [bind, Except.bind] at hp
    have hopt := (C90_options m.output m.shape false m.weighted).1.1 h1
    rcases h with ⟨h, hw⟩ | ⟨h, hs⟩ | ⟨h, h'⟩
    · exact hopt.1 ⟨h, Or.inl hw⟩
    · unfold MetaNb.fields at hp
      rw [if_pos h] at hp
      cases h2 : nbMethodCheck m.shape m.weighted with
      | error e => rw [h2] at hp; exact nomatch hp
      | ok u => exact hs ((C90_options m.output m.shape false m.weighted).2.1 h2)
    · unfold MetaNb.fields at hp
      rw [if_neg h', if_neg h] at hp
      exact nomatch hp

/-- **Finding.** A mask given with percentiles is ignored. -/
theorem C266_mask_ignored_refuted (m : MetaNb) (hout : m.output = "percentiles") (order : List String → List String) (mask : PointCube ℤ) (c : NbCube) :
    m.process order (some mask) c = m.process order none c := by
  unfold MetaNb.process MetaNb.fields
  rw [hout]
  rfl

/-- A cube for the examples: five by five points, one kilometre apart, and one realization. -/
def haloSample : NbCube :=
  ⟨⟨⟨["x", "realization", "y"], fun idx => ⟨(10 * idx.getD 2 0 + idx.getD 0 0 : ℕ), false⟩⟩,
    fun n => if n = "realization" then [0] else Spec.uniform 0 1000 5⟩, "y", "x", [1]⟩

example : Spec.Axis.Gives ⟨0, 1000, 5⟩ (haloSample.points "y") ∧ Spec.Axis.Halo ⟨0, 1000, 5⟩ 1500 1 ∧ Spec.Smoothable haloSample none 1000 ∧
    Spec.SpansCells haloSample 1000 1000 1 := by
  refine ⟨⟨by norm_num, by norm_num, rfl⟩, by unfold Spec.Axis.Halo; decide +kernel, ⟨show ["x", "realization", "y"].Nodup by decide,
    show "y" ∈ ["x", "realization", "y"] by decide, show "x" ∈ ["x", "realization", "y"] by decide, show ("y" : String) ≠ "x" by decide, by norm_num,
    ⟨0, 5, by decide, rfl⟩, ⟨0, 5, by decide, rfl⟩, fun _ e => nomatch e⟩, by decide, by norm_num, by norm_num, ?_⟩
  show (4 * 1000 ^ 2 : ℚ) ≤ (1000 * (((Spec.uniform 0 1000 5).length : ℚ) - 1)) ^ 2 + (1000 * (((Spec.uniform 0 1000 5).length : ℚ) - 1)) ^ 2
  rw [uniform_len]; norm_num

/-- Removing the halo keeps the order of the dimensions, the one of one point too; smoothing and removing it gives means over whole squares. -/
example : ((removeCubeHalo id "y" "x" 1500 haloSample.toPointCube).toOption.map fun o => (o.dims, o.points "y", (o.data [0, 0, 1]).val)) =
      some (["x", "realization", "y"], [1000, 2000, 3000], 21) ∧
    (((⟨"probabilities", "square", false, false, .single 1000, [], some 1500⟩ : MetaNb).process id none haloSample).toOption.map fun o =>
      (o.dims, o.points "x", o.data [0, 0], o.data [2, 1])) = some (["y", "x"], [1000, 2000, 3000], some (some 11), some (some 32)) := by
  constructor <;> decide +kernel

end Improver
