import Verif.Model.LandSea
import Verif.Model.Regrid
import Verif.Props.Spatial

/-! Property theorems C104 (order of dimensions), C105 (land and sea points after nearest neighbour regridding), C106 (the land mask must cover the
source) and C107 (modes and attributes). -/

namespace Improver

/-! ## C104 -/

theorem swapAxes_get (l : List String) (i j : ℕ) (hi : i < l.length) (hj : j < l.length) (k : ℕ) :
    (swapAxes l i j)[k]? = if k = j then l[i]? else if k = i then l[j]? else l[k]? := by
  unfold swapAxes
  rw [List.getElem?_set, List.getElem?_set]
  simp only [List.length_set]
  by_cases hkj : k = j
  · subst hkj
    simp [hj, hi, List.getD_eq_getElem?_getD]
  · rw [if_neg (fun h => hkj h.symm), if_neg hkj]
    by_cases hki : k = i
    · subst hki
      simp [hj, hi, List.getD_eq_getElem?_getD]
    · rw [if_neg (fun h => hki h.symm), if_neg hki]

theorem swapAxes_length (l : List String) (i j : ℕ) : (swapAxes l i j).length = l.length := by simp [swapAxes]

theorem swapAxes_swap (l : List String) (i j : ℕ) (hi : i < l.length) (hj : j < l.length) : swapAxes (swapAxes l i j) i j = l := by
  apply List.ext_getElem?
  intro k
  rw [swapAxes_get _ _ _ (by rwa [swapAxes_length]) (by rwa [swapAxes_length]), swapAxes_get _ _ _ hi hj, swapAxes_get _ _ _ hi hj, swapAxes_get _ _ _ hi hj]
  split_ifs <;> simp_all

/-- C104.  The values are brought into the order latitude, longitude, other dimensions exactly when longitude is not the first dimension of the
cube. -/
theorem C104_flatten (dims : List String) (hn : dims.Nodup) (lat lon : ℕ) (hlat : lat < dims.length) (hlon : lon < dims.length) (hne : lat ≠ lon) :
    ((flattenDims dims lat lon)[0]? = dims[lat]? ∧ (flattenDims dims lat lon)[1]? = dims[lon]?) ↔ lon ≠ 0 := by
  unfold flattenDims
  have h0 : 0 < dims.length := by omega
  have h1 : 1 < dims.length := by omega
  rw [swapAxes_get _ 1 lon (by rw [swapAxes_length]; exact h1) (by rw [swapAxes_length]; exact hlon),
    swapAxes_get _ 1 lon (by rw [swapAxes_length]; exact h1) (by rw [swapAxes_length]; exact hlon),
    swapAxes_get _ 0 lat h0 hlat, swapAxes_get _ 0 lat h0 hlat, swapAxes_get _ 0 lat h0 hlat]
  constructor
  · rintro ⟨a, b⟩ hz
    subst hz
    simp only [if_true, one_ne_zero, if_false] at a
    have : ∀ x y : ℕ, x < dims.length → y < dims.length → dims[x]? = dims[y]? → x = y := by
      intro x y hx hy hxy
      rw [List.getElem?_eq_getElem hx, List.getElem?_eq_getElem hy, Option.some.injEq] at hxy
      exact (List.Nodup.getElem_inj_iff hn).mp hxy
    by_cases h1l : (1 : ℕ) = lat
    · rw [if_pos h1l] at a
      exact hne (this 0 lat h0 hlat a).symm
    · rw [if_neg h1l] at a
      exact h1l (this 1 lat h1 hlat a)
  · intro hz
    rw [if_neg (Ne.symm hz)]
    split_ifs <;> simp_all

/-- C104.  The dimensions of the result are put back where they were. -/
theorem C104_unflatten (dims : List String) (lat lon : ℕ) (hlat : lat < dims.length) (hlon : lon < dims.length) (h2 : 1 < dims.length) :
    unflattenDims (flattenDims dims lat lon) lat lon = dims := by
  unfold unflattenDims flattenDims
  rw [swapAxes_swap _ 1 lon (by rwa [swapAxes_length]) (by rwa [swapAxes_length]), swapAxes_swap _ 0 lat (by omega) hlat]

/-- C104.  For a cube whose last dimensions are latitude and longitude, every dimension coordinate of the result is attached to the dimension that
varies with it. -/
theorem C104_attached (others : List String) (latName lonName : String) (hn : (others ++ [latName, lonName]).Nodup) :
    let dims := others ++ [latName, lonName]
    attachedDims dims latName lonName = unflattenDims (flattenDims dims others.length (others.length + 1)) others.length (others.length + 1) ∧
    (flattenDims dims others.length (others.length + 1))[0]? = some latName ∧ (flattenDims dims others.length (others.length + 1))[1]? = some lonName := by
  intro dims
  have hl : dims.length = others.length + 2 := by simp [dims]
  have hfl := (C104_flatten dims hn others.length (others.length + 1) (by omega) (by omega) (by omega)).mpr (by omega)
  have e0 : dims[others.length]? = some latName := by simp [dims]
  have e1 : dims[others.length + 1]? = some lonName := by simp [dims, List.getElem?_append_right]
  rw [e0, e1] at hfl
  refine ⟨?_, hfl⟩
  rw [C104_unflatten dims _ _ (by omega) (by omega) (by omega)]
  unfold attachedDims
  have hne : latName ≠ lonName := by
    rintro rfl
    rw [List.nodup_append] at hn
    simp at hn
  have h1 : latName ∉ others := by
    intro hm
    rw [List.nodup_append] at hn
    exact (hn.2.2 latName hm latName (by simp)) rfl
  have h2 : lonName ∉ others := by
    intro hm
    rw [List.nodup_append] at hn
    exact (hn.2.2 lonName hm lonName (by simp)) rfl
  have : (dims.erase latName).erase lonName = others := by
    simp only [dims]
    rw [List.erase_append_right _ h1, List.erase_cons_head, List.erase_append_right _ h2]
    simp
  rw [this]

/-- C104, finding.  For a cube with another order of dimensions the coordinates are attached to the wrong dimensions, or (longitude first) values
are taken from the wrong grid points. -/
theorem C104_order_refuted :
    (¬ ∀ (dims : List String) (lat lon : ℕ) (latName lonName : String), dims.Nodup → dims[lat]? = some latName → dims[lon]? = some lonName → lat ≠ lon →
      attachedDims dims latName lonName = unflattenDims (flattenDims dims lat lon) lat lon) ∧
    (¬ ∀ (dims : List String) (lat lon : ℕ) (latName lonName : String), dims.Nodup → dims[lat]? = some latName → dims[lon]? = some lonName → lat ≠ lon →
      (flattenDims dims lat lon)[0]? = some latName ∧ (flattenDims dims lat lon)[1]? = some lonName) := by
  constructor
  · intro h
    have := h ["latitude", "longitude", "realization"] 0 1 "latitude" "longitude" (by decide) rfl rfl (by decide)
    revert this
    decide
  · intro h
    have := h ["longitude", "latitude"] 1 0 "latitude" "longitude" (by decide) rfl rfl (by decide)
    revert this
    decide

example : flattenDims ["realization", "time", "latitude", "longitude"] 2 3 = ["latitude", "longitude", "realization", "time"] := by decide

/-! ## C105 -/

theorem mem_gridPts (h w : ℕ) (q : ℕ × ℕ) : q ∈ gridPts h w ↔ q.1 < h ∧ q.2 < w := by
  unfold gridPts
  simp only [List.mem_flatMap, List.mem_map, List.mem_range]
  constructor
  · rintro ⟨y, hy, x, hx, rfl⟩; exact ⟨hy, hx⟩
  · rintro ⟨hy, hx⟩; exact ⟨q.1, hy, q.2, hx, rfl⟩

theorem nearestOf_spec (pts : List (ℕ × ℕ)) (q : ℕ × ℕ) (hne : pts ≠ []) :
    nearestOf pts q ∈ pts ∧ ∀ b ∈ pts, idxDist (nearestOf pts q) q ≤ idxDist b q := by
  obtain ⟨a, as, rfl⟩ := List.exists_cons_of_ne_nil hne
  unfold nearestOf
  dsimp only
  clear hne
  induction as generalizing a with
  | nil => simp
  | cons b bs ih =>
    rw [List.foldl_cons]
    by_cases hb : idxDist b q < idxDist a q
    · rw [if_pos hb]
      obtain ⟨i1, i2⟩ := ih b
      refine ⟨List.mem_cons_of_mem _ i1, ?_⟩
      intro c hc
      rcases List.mem_cons.mp hc with rfl | hc
      · exact le_trans (i2 b (by simp)) hb.le
      · exact i2 c hc
    · rw [if_neg hb]
      obtain ⟨i1, i2⟩ := ih a
      refine ⟨?_, ?_⟩
      · rcases List.mem_cons.mp i1 with h | h
        · rw [h]; simp
        · exact List.mem_cons_of_mem _ (List.mem_cons_of_mem _ h)
      · intro c hc
        rcases List.mem_cons.mp hc with rfl | hc
        · exact i2 c (by simp)
        · rcases List.mem_cons.mp hc with rfl | hc
          · exact le_trans (i2 a (by simp)) (not_lt.mp hb)
          · exact i2 c (List.mem_cons_of_mem _ hc)

theorem inVicinity_iff (h w r : ℕ) (fill : ℚ) (inLand : ℕ → ℕ → Bool) (sel : Bool) (y x : ℕ) (hy : y < h) (hx : x < w) :
    inVicinity h w r fill inLand sel y x = true ↔ ∃ i j, i < h ∧ j < w ∧ Spec.near r y i ∧ Spec.near r x j ∧ inLand i j = sel := by
  unfold inVicinity maximumWithinVicinity
  have hm : anyMasked h w (fun _ _ => false) = false := by
    unfold anyMasked
    simp
  simp only [hm, Bool.false_eq_true, if_false, vicinityMax, vicinityUnmasked, decide_eq_true_eq, gt_iff_lt]
  obtain ⟨h1, h2⟩ := maximumFilter_greatest h w r (fun i j => if inLand i j = sel then 1 else 0) y x hy hx
  constructor
  · intro hlt
    obtain ⟨i, j, a, b, c, d, e⟩ := h1
    refine ⟨i, j, a, b, c, d, ?_⟩
    by_contra hc
    rw [e, if_neg hc] at hlt
    norm_num at hlt
  · rintro ⟨i, j, a, b, c, d, e⟩
    have : (1 : ℚ) ≤ _ := h2 ⟨i, j, a, b, c, d, by rw [if_pos e]⟩
    linarith

/-- C105.  After nearest neighbour regridding, a target point whose type (land or sea) differs from that of the source point it was taken from gets the
value of the nearest target point (counted in grid lengths) that was taken from a source point of the right type, if there is one within the vicinity
square; all other points keep their values.  Both corrections read the regridded field, so the result does not depend on their order. -/
theorem C105_adjust {α : Type} (h w r : ℕ) (fill : ℚ) (inLand outLand : ℕ → ℕ → Bool) (f : ℕ → ℕ → α) (y x : ℕ) (hy : y < h) (hx : x < w) :
    (inLand y x = outLand y x → adjustLandSea h w r fill inLand outLand f y x = f y x) ∧
    ((¬ ∃ i j, i < h ∧ j < w ∧ Spec.near r y i ∧ Spec.near r x j ∧ inLand i j = outLand y x) → adjustLandSea h w r fill inLand outLand f y x = f y x) ∧
    (inLand y x ≠ outLand y x → (∃ i j, i < h ∧ j < w ∧ Spec.near r y i ∧ Spec.near r x j ∧ inLand i j = outLand y x) →
      ∃ i j, i < h ∧ j < w ∧ inLand i j = outLand y x ∧ adjustLandSea h w r fill inLand outLand f y x = f i j ∧
        ∀ i' j', i' < h → j' < w → inLand i' j' = outLand y x → idxDist (i, j) (y, x) ≤ idxDist (i', j') (y, x)) := by
  have step : ∀ (sel : Bool) (out : ℕ → ℕ → α), (outLand y x ≠ sel ∨ inLand y x = sel ∨
      ¬ ∃ i j, i < h ∧ j < w ∧ Spec.near r y i ∧ Spec.near r x j ∧ inLand i j = sel) → correctWhere h w r fill inLand outLand f sel out y x = out y x := by
    intro sel out hc
    unfold correctWhere
    by_cases hu : (gridPts h w).filter (fun q => inLand q.1 q.2 == sel) = []
    · simp only [hu, if_true]
    · simp only [if_neg hu]
      rw [if_neg]
      rintro ⟨a, b, c⟩
      rw [inVicinity_iff h w r fill inLand sel y x hy hx] at c
      rcases hc with hc | hc | hc
      · exact hc a
      · exact b hc
      · exact hc c
  have hit : ∀ (sel : Bool) (out : ℕ → ℕ → α), outLand y x = sel → inLand y x ≠ sel →
      (∃ i j, i < h ∧ j < w ∧ Spec.near r y i ∧ Spec.near r x j ∧ inLand i j = sel) →
      ∃ i j, i < h ∧ j < w ∧ inLand i j = sel ∧ correctWhere h w r fill inLand outLand f sel out y x = f i j ∧
        ∀ i' j', i' < h → j' < w → inLand i' j' = sel → idxDist (i, j) (y, x) ≤ idxDist (i', j') (y, x) := by
    intro sel out ho hi hv
    have hmem : ∀ q, q ∈ (gridPts h w).filter (fun q => inLand q.1 q.2 == sel) ↔ (q.1 < h ∧ q.2 < w) ∧ inLand q.1 q.2 = sel := by
      intro q
      rw [List.mem_filter, mem_gridPts]
      simp
    have hne : (gridPts h w).filter (fun q => inLand q.1 q.2 == sel) ≠ [] := by
      obtain ⟨i, j, a, b, -, -, e⟩ := hv
      exact List.ne_nil_of_mem ((hmem (i, j)).mpr ⟨⟨a, b⟩, e⟩)
    obtain ⟨n1, n2⟩ := nearestOf_spec _ (y, x) hne
    have n1' := (hmem _).mp n1
    refine ⟨(nearestOf ((gridPts h w).filter (fun q => inLand q.1 q.2 == sel)) (y, x)).1, (nearestOf ((gridPts h w).filter (fun q => inLand q.1 q.2 == sel)) (y, x)).2,
      n1'.1.1, n1'.1.2, n1'.2, ?_, ?_⟩
    · unfold correctWhere
      simp only [if_neg hne]
      rw [if_pos ⟨ho, hi, (inVicinity_iff h w r fill inLand sel y x hy hx).mpr hv⟩]
    · intro i' j' hi' hj' he
      exact n2 (i', j') ((hmem _).mpr ⟨⟨hi', hj'⟩, he⟩)
  unfold adjustLandSea
  cases ho : outLand y x with
  | true =>
    refine ⟨fun he => ?_, fun he => ?_, fun hne hv => ?_⟩
    · rw [step true _ (.inr (.inl he)), step false _ (.inl (by rw [ho]; decide))]
    · rw [step true _ (.inr (.inr he)), step false _ (.inl (by rw [ho]; decide))]
    · exact hit true _ ho hne hv
  | false =>
    refine ⟨fun he => ?_, fun he => ?_, fun hne hv => ?_⟩
    · rw [step true _ (.inl (by rw [ho]; decide)), step false _ (.inr (.inl he))]
    · rw [step true _ (.inl (by rw [ho]; decide)), step false _ (.inr (.inr he))]
    · rw [step true _ (.inl (by rw [ho]; decide))]
      exact hit false f ho hne hv

/-- C105.  The point whose value is used is within √2 times the vicinity radius. -/
theorem C105_distance (r y x i j i0 j0 : ℕ) (h1 : Spec.near r y i0) (h2 : Spec.near r x j0) (hd : idxDist (i, j) (y, x) ≤ idxDist (i0, j0) (y, x)) :
    idxDist (i, j) (y, x) ≤ 2 * (r : ℚ) ^ 2 := by
  refine le_trans hd ?_
  unfold idxDist
  unfold Spec.near at h1 h2
  have a : |(i0 : ℚ) - y| ≤ r := by
    rw [abs_le]
    constructor
    · have : (y : ℚ) ≤ i0 + r := by exact_mod_cast (by omega)
      linarith
    · have : (i0 : ℚ) ≤ y + r := by exact_mod_cast (by omega)
      linarith
  have b : |(j0 : ℚ) - x| ≤ r := by
    rw [abs_le]
    constructor
    · have : (x : ℚ) ≤ j0 + r := by exact_mod_cast (by omega)
      linarith
    · have : (j0 : ℚ) ≤ x + r := by exact_mod_cast (by omega)
      linarith
  have a2 := sq_le_sq' (abs_le.mp a).1 (abs_le.mp a).2
  have b2 := sq_le_sq' (abs_le.mp b).1 (abs_le.mp b).2
  dsimp only
  linarith

/-- A regular case: a sea target taken from land, a land target taken from the sea near land, and one too far from any. -/
example : (List.range 6).map (fun x => adjustLandSea 1 6 2 1000 (fun _ j => j == 0) (fun _ j => j == 2 || j == 5) (fun _ j => j) 0 x) = [1, 1, 0, 3, 4, 5] := by
  decide +kernel

/-! ## C106 -/

/-- The points `cut` are found one after the other in `grid`. -/
def Spec.runIn (cut grid : List ℚ) (s : ℕ) : Prop := s + cut.length ≤ grid.length ∧ ∀ k c g, cut[k]? = some c → grid[s + k]? = some g → npIsclose c g = true

theorem zipWith_all {a b : List ℚ} (h : (List.zipWith (fun x y => npIsclose x y) a b).all id = true) (k : ℕ) (x y : ℚ)
    (hx : a[k]? = some x) (hy : b[k]? = some y) : npIsclose x y = true := by
  rw [List.all_eq_true] at h
  have : npIsclose x y ∈ List.zipWith (fun x y => npIsclose x y) a b := by
    apply List.mem_of_getElem? (i := k)
    rw [List.getElem?_zipWith, hx, hy]
  simpa using h _ this

/-- C106.  An axis is accepted only if its name, units and coordinate system are those of the larger grid and its points are found, in
order and without gaps, in the larger grid (up to the tolerance of `np.isclose`).  (The points of both are supposed to be distinct beyond the tolerance.) -/
theorem C106_sound (grid cut : GridAxis) (hd : cut.points.Pairwise (fun a b => ∀ g ∈ grid.points, ¬ (npIsclose a g = true ∧ npIsclose b g = true)))
    (h : axisContains grid cut = .ok true) :
    cut.name = grid.name ∧ cut.units = grid.units ∧ cut.system = grid.system ∧ ∃ s, Spec.runIn cut.points grid.points s := by
  unfold axisContains at h
  by_cases hm : cut.name ≠ grid.name ∨ cut.units ≠ grid.units ∨ cut.system ≠ grid.system
  · rw [if_pos hm] at h; simp at h
  rw [if_neg hm] at h
  simp only [not_or, not_not] at hm
  refine ⟨hm.1, hm.2.1, hm.2.2, ?_⟩
  cases hc : cut.points with
  | nil => rw [hc] at h; exact nomatch h
  | cons c cs =>
  rw [hc] at h hd
  simp only at h
  by_cases hf : (grid.points.map (fun g => npIsclose c g)).any id = true
  · simp only [hf, Bool.not_true, Bool.false_eq_true, if_false] at h
    set s := (grid.points.map (fun g => npIsclose c g)).idxOf true with hs
    have hmem : true ∈ grid.points.map (fun g => npIsclose c g) := by
      rw [List.any_eq_true] at hf
      obtain ⟨b, hb, hb'⟩ := hf
      have : b = true := by simpa using hb'
      rwa [← this]
    have hslt : s < grid.points.length := by
      have := List.idxOf_lt_length_of_mem hmem
      rwa [List.length_map] at this
    refine ⟨s, ?_⟩
    have hlen : ((grid.points.drop s).take (c :: cs).length).length = min (c :: cs).length (grid.points.length - s) := by simp
    unfold npAllclose at h
    by_cases hl : (c :: cs).length = ((grid.points.drop s).take (c :: cs).length).length
    · rw [if_pos hl] at h
      simp only [Except.ok.injEq] at h
      refine ⟨?_, ?_⟩
      · rw [hlen] at hl
        omega
      · intro k a g ha hg
        apply zipWith_all h k a g ha
        rw [List.getElem?_take, if_pos (by have := (List.getElem?_eq_some_iff.mp ha).1; exact this), List.getElem?_drop]
        exact hg
    · exfalso
      rw [if_neg hl] at h
      cases cs with
      | nil =>
        rw [hlen] at hl
        simp at hl
        omega
      | cons c2 cs =>
        have hb : ((grid.points.drop s).take (c :: c2 :: cs).length) ≠ [] := by
          intro he
          rw [he] at hlen
          simp at hlen
          omega
        obtain ⟨g, gs, hg⟩ := List.exists_cons_of_ne_nil hb
        rw [hg] at h
        have hgm : g ∈ grid.points := by
          have : g ∈ (grid.points.drop s).take (c :: c2 :: cs).length := by rw [hg]; simp
          exact List.mem_of_mem_drop (List.mem_of_mem_take this)
        cases gs with
        | nil =>
          simp only [Except.ok.injEq, List.all_cons, Bool.and_eq_true] at h
          exact (List.pairwise_cons.mp hd).1 c2 (by simp) g hgm ⟨h.1, h.2.1⟩
        | cons g2 gs => simp at h
  · rw [Bool.not_eq_true] at hf
    rw [if_pos (by rw [hf]; rfl)] at h
    simp at h

/-- C106.  An axis cut from the larger grid is accepted, if no earlier point of the grid is close to its first point. -/
theorem C106_complete (grid cut : GridAxis) (hm : cut.name = grid.name ∧ cut.units = grid.units ∧ cut.system = grid.system) (s : ℕ)
    (hne : cut.points ≠ []) (hrun : Spec.runIn cut.points grid.points s)
    (hfirst : ∀ k < s, ∀ c g, cut.points[0]? = some c → grid.points[k]? = some g → npIsclose c g = false) : axisContains grid cut = .ok true := by
  unfold axisContains
  rw [if_neg (by simp only [not_or, not_not]; exact hm)]
  obtain ⟨c, cs, hc⟩ := List.exists_cons_of_ne_nil hne
  rw [hc] at hrun hfirst ⊢
  simp only
  obtain ⟨hl, hr⟩ := hrun
  have hslt : s < grid.points.length := by simp at hl; omega
  have hg : grid.points[s]? = some grid.points[s] := List.getElem?_eq_getElem hslt
  have hclose := hr 0 c grid.points[s] rfl (by simpa using hg)
  have hmem : true ∈ grid.points.map (fun g => npIsclose c g) := List.mem_map.mpr ⟨grid.points[s], List.getElem_mem hslt, hclose⟩
  have hany : (grid.points.map (fun g => npIsclose c g)).any id = true := List.any_eq_true.mpr ⟨true, hmem, rfl⟩
  have hidx : (grid.points.map (fun g => npIsclose c g)).idxOf true = s := by
    have hlt := List.idxOf_lt_length_of_mem hmem
    have hget : (grid.points.map (fun g => npIsclose c g))[(grid.points.map (fun g => npIsclose c g)).idxOf true]'hlt = true := List.getElem_idxOf hlt
    rcases lt_trichotomy ((grid.points.map (fun g => npIsclose c g)).idxOf true) s with hlt' | he | hgt
    · exfalso
      rw [List.getElem_map] at hget
      have := hfirst _ hlt' c _ rfl (List.getElem?_eq_getElem (by simpa using hlt))
      rw [hget] at this
      exact absurd this (by decide)
    · exact he
    · exfalso
      have := List.not_of_lt_findIdx (p := (· == true)) (xs := grid.points.map (fun g => npIsclose c g)) (i := s) hgt
      rw [List.getElem_map, hclose] at this
      simp at this
  simp only [hany, Bool.not_true, Bool.false_eq_true, if_false, hidx]
  unfold npAllclose
  rw [if_pos (by simp; simp at hl; omega)]
  have : (List.zipWith (fun x y => npIsclose x y) (c :: cs) ((grid.points.drop s).take (c :: cs).length)).all id = true := by
    rw [List.all_eq_true]
    intro b hb
    obtain ⟨k, hk⟩ := List.mem_iff_getElem?.mp hb
    rw [List.getElem?_zipWith] at hk
    cases hx : (c :: cs)[k]? with
    | none => rw [hx] at hk; simp at hk
    | some x =>
    cases hy : ((grid.points.drop s).take (c :: cs).length)[k]? with
    | none => rw [hx, hy] at hk; simp at hk
    | some y =>
    rw [hx, hy] at hk
    simp only [Option.some.injEq] at hk
    rw [List.getElem?_take] at hy
    split_ifs at hy
    rw [List.getElem?_drop] at hy
    rw [← hk]
    exact hr k x y hx hy
  rw [this]

/-- C106.  A land mask covers the source when both axes do, or when the grids are the same. -/
theorem C106_cover (gx gy cx cy : GridAxis) :
    gridContainsCutout gx gy cx cy = .ok true ↔ (cx = gx ∧ cy = gy) ∨ (axisContains gx cx = .ok true ∧ axisContains gy cy = .ok true) := by
  unfold gridContainsCutout
  by_cases he : cx = gx ∧ cy = gy
  · rw [if_pos he]; simp [he]
  · rw [if_neg he]
    simp only [bind, Except.bind, pure, Except.pure, he, false_or]
    cases hx : axisContains gx cx with
    | error e => simp
    | ok b => cases b <;> simp

example : axisContains ⟨"latitude", "degrees", "geog", [50, 51, 52, 53, 54]⟩ ⟨"latitude", "degrees", "geog", [51, 52, 53]⟩ = .ok true := by decide +kernel
example : axisContains ⟨"latitude", "degrees", "geog", [50, 51, 52, 53, 54]⟩ ⟨"latitude", "degrees", "geog", [53, 54, 55]⟩ = .ok false := by decide +kernel

/-! ## C107 -/

/-- C107.  The constructor accepts exactly the seven modes, and those with a mask only with a land mask; a vicinity is kept only with a land mask. -/
theorem C107_init (mode : String) (haveMask : Bool) (vic : ℚ) :
    (∃ v, regridLandSeaInit mode haveMask vic = .ok v) ↔
      mode ∈ ["bilinear", "nearest", "nearest-2", "bilinear-2"] ∨
        (mode ∈ ["nearest-with-mask", "nearest-with-mask-2", "bilinear-with-mask-2"] ∧ haveMask = true) := by
  unfold regridLandSeaInit requiresLandmask
  simp only [List.mem_cons, List.not_mem_nil, or_false]
  by_cases h1 : mode = "bilinear" ∨ mode = "nearest" ∨ mode = "nearest-2" ∨ mode = "bilinear-2"
  · simp [h1]
  · rw [if_neg h1]
    by_cases h2 : mode = "nearest-with-mask" ∨ mode = "nearest-with-mask-2" ∨ mode = "bilinear-with-mask-2"
    · rw [if_pos h2]
      cases haveMask <;> simp [h1, h2]
    · rw [if_neg h2]
      simp [h1, h2]

theorem attrGet_cons (k' v : String) (attrs : List (String × String)) (k : String) :
    attrGet ((k', v) :: attrs) k = if k' = k then some v else attrGet attrs k := by
  unfold attrGet
  by_cases h : k' = k
  · simp [h]
  · simp [h]

theorem attrGet_pop (attrs : List (String × String)) (k k2 : String) : attrGet (attrPop attrs k2) k = if k = k2 then none else attrGet attrs k := by
  induction attrs with
  | nil => simp [attrPop, attrGet]
  | cons a as ih =>
    obtain ⟨a1, a2⟩ := a
    unfold attrPop at ih ⊢
    by_cases h : a1 = k2
    · rw [List.filter_cons_of_neg (by simp [h]), ih, attrGet_cons]
      by_cases hk : k = k2
      · simp [hk]
      · rw [if_neg hk, if_neg hk, if_neg (by rw [h]; exact fun e => hk e.symm)]
    · rw [List.filter_cons_of_pos (by simp [h]), attrGet_cons, attrGet_cons, ih]
      by_cases hk : k = k2
      · subst hk; simp [h]
      · simp [hk]

theorem attrGet_set (attrs : List (String × String)) (k k2 v : String) : attrGet (attrSet attrs k2 v) k = if k = k2 then some v else attrGet attrs k := by
  unfold attrSet
  rw [attrGet_cons]
  have := attrGet_pop attrs k k2
  unfold attrPop at this
  rw [this]
  by_cases hk : k = k2
  · simp [hk]
  · rw [if_neg hk, if_neg hk, if_neg (fun e => hk e.symm)]

theorem attrGet_update (target attrs : List (String × String)) (k k2 : String) :
    attrGet (updateGridAttr target attrs k2) k = if k = k2 then attrGet target k else attrGet attrs k := by
  unfold updateGridAttr
  cases h : attrGet target k2 with
  | none =>
    simp only [attrGet_pop]
    by_cases hk : k = k2
    · simp [hk, h]
    · simp [hk]
  | some v =>
    simp only [attrGet_set]
    by_cases hk : k = k2
    · simp [hk, h]
    · simp [hk]

/-- C107.  Attributes of the result: the title is the one asked for (or "unknown"); a grid attribute of the source takes the value it has on the target, or
is dropped; grid attributes that the source lacks are not added; all other attributes are kept. -/
theorem C107_attributes (grid : List String) (attrs target : List (String × String)) (title : Option String) (k : String) :
    attrGet (regridAttributes grid attrs target title) k =
      if k = "title" then some (title.getD "unknown")
      else if k ∈ grid ∧ attrGet attrs k ≠ none then attrGet target k
      else attrGet attrs k := by
  unfold regridAttributes
  rw [attrGet_set]
  by_cases ht : k = "title"
  · simp [ht]
  · rw [if_neg ht, if_neg ht]
    have hloop : ∀ (ks : List String) (a : List (String × String)), attrGet (ks.foldl (updateGridAttr target) a) k = if k ∈ ks then attrGet target k else attrGet a k := by
      intro ks
      induction ks with
      | nil => intro a; simp
      | cons b bs ih =>
        intro a
        rw [List.foldl_cons, ih, attrGet_update]
        by_cases h1 : k ∈ bs
        · simp [h1]
        · by_cases h2 : k = b
          · simp [h2]
          · simp [h1, h2]
    rw [hloop]
    have hkey : attrGet attrs k ≠ none ↔ k ∈ attrs.map Prod.fst := by
      unfold attrGet
      simp only [ne_eq, Option.map_eq_none_iff, List.find?_eq_none, not_forall, decide_eq_true_eq, not_not, List.mem_map]
      constructor
      · rintro ⟨x, hx, rfl⟩; exact ⟨x, hx, rfl⟩
      · rintro ⟨x, hx, rfl⟩; exact ⟨x, hx, rfl⟩
    have : (k ∈ (attrs.map Prod.fst).filter (fun k => decide (k ∈ grid))) ↔ (k ∈ grid ∧ attrGet attrs k ≠ none) := by
      rw [List.mem_filter, hkey]
      simp [and_comm]
    by_cases hc : k ∈ grid ∧ attrGet attrs k ≠ none
    · rw [if_pos (this.mpr hc), if_pos hc]
    · rw [if_neg (fun e => hc (this.mp e)), if_neg hc]

example : regridAttributes ["mosg__grid_type", "mosg__grid_domain"] [("source", "IMPROVER"), ("mosg__grid_type", "a"), ("mosg__grid_domain", "global")]
    [("mosg__grid_type", "b"), ("title", "x")] none = [("title", "unknown"), ("mosg__grid_type", "b"), ("source", "IMPROVER")] := by decide

end Improver
