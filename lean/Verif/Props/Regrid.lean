import Verif.Model.Regrid
import Verif.Lemmas.ListAux
import Mathlib.Tactic.Positivity
import Mathlib.Tactic.LinearCombination
import Mathlib.Data.List.GetD

/-! Property theorems C100 (bilinear), C101 (nearest), C102 (nearest with a mask), C103 (bilinear with a mask) and C104 (order of dimensions) of
regridding from an even grid. -/

namespace Improver

/-! ### Specifications -/

/-- A target is in the domain spanned by the source grid points. -/
def Spec.inSource (lat lon : RegAxis) (p : ℚ × ℚ) : Prop :=
  (lat.point 0 ≤ p.1 ∧ p.1 ≤ lat.point (lat.n - 1)) ∧ (lon.point 0 ≤ p.2 ∧ p.2 ≤ lon.point (lon.n - 1))

/-- The grid cell with the bottom left corner `(j, i)` contains the target. -/
def Spec.inCell (lat lon : RegAxis) (p : ℚ × ℚ) (j i : ℕ) : Prop :=
  (j + 1 < lat.n ∧ lat.point j ≤ p.1 ∧ p.1 ≤ lat.point (j + 1)) ∧ (i + 1 < lon.n ∧ lon.point i ≤ p.2 ∧ p.2 ≤ lon.point (i + 1))

/-- A target that is (to the tolerance of `np.isclose`) on a grid line is exactly on it. -/
def Spec.clear (lat lon : RegAxis) (p : ℚ × ℚ) : Prop :=
  (∀ k < lat.n, npIsclose p.1 (lat.point k) = true → p.1 = lat.point k) ∧ (∀ k < lon.n, npIsclose p.2 (lon.point k) = true → p.2 = lon.point k)

/-! ### Slicing -/

theorem filter_convex (n : ℕ) (p : ℕ → Bool) (hc : ∀ i j k, i ≤ j → j ≤ k → p i = true → p k = true → p j = true) :
    ∃ s m, (List.range n).filter p = List.range' s m ∧ s + m ≤ n := by
  induction n with
  | zero => exact ⟨0, 0, by simp, by simp⟩
  | succ n ih =>
    obtain ⟨s, m, h, hle⟩ := ih
    rw [List.range_succ, List.filter_append, h]
    by_cases hp : p n = true
    · simp only [List.filter_cons, hp, if_true, List.filter_nil]
      cases m with
      | zero => exact ⟨n, 1, by simp, by omega⟩
      | succ m =>
        have hmem : ∀ k, k ∈ List.range' s (m + 1) ↔ k < n ∧ p k = true := by
          intro k; rw [← h, List.mem_filter, List.mem_range]
        have hs : p s = true := ((hmem s).mp (by simp)).2
        have : s + (m + 1) = n := by
          by_contra hne
          have hlt : s + (m + 1) < n := by omega
          have := (hmem (s + (m + 1))).mpr ⟨hlt, hc s _ n (by omega) (by omega) hs hp⟩
          rw [List.mem_range'_1] at this
          omega
        refine ⟨s, m + 1 + 1, ?_, by omega⟩
        rw [List.range'_concat (n := m + 1), ← this]
        simp
    · simp only [List.filter_cons, hp, List.filter_nil]
      exact ⟨s, m, by simp, by omega⟩

theorem RegAxis.point_lt (a : RegAxis) (h : 0 < a.step) {i j : ℕ} : a.point i < a.point j ↔ i < j := by
  unfold RegAxis.point
  constructor
  · intro hlt
    by_contra hc
    have : (j : ℚ) ≤ i := by exact_mod_cast not_lt.mp hc
    nlinarith
  · intro hlt
    have : (i : ℚ) < j := by exact_mod_cast hlt
    nlinarith

theorem RegAxis.point_le (a : RegAxis) (h : 0 < a.step) {i j : ℕ} : a.point i ≤ a.point j ↔ i ≤ j := by
  rw [← not_lt, a.point_lt h, not_lt]

theorem RegAxis.point_succ (a : RegAxis) (i : ℕ) : a.point (i + 1) = a.point i + a.step := by
  unfold RegAxis.point; push_cast; ring

theorem keepIdx_range (a : RegAxis) (h : 0 < a.step) (d lo hi : ℚ) :
    ∃ s m, keepIdx a d lo hi = List.range' s m ∧ s + m ≤ a.n := by
  unfold keepIdx
  apply filter_convex
  intro i j k hij hjk hi hk
  simp only [Bool.and_eq_true, decide_eq_true_eq] at *
  have h1 := (a.point_le h).mpr hij
  have h2 := (a.point_le h).mpr hjk
  exact ⟨lt_of_lt_of_le hi.1 h1, lt_of_le_of_lt h2 hk.2⟩

theorem foldl_max_map (f : ℕ → ℚ) (hf : ∀ i j, i ≤ j → f i ≤ f j) (s m : ℕ) (b : ℚ) (hb : b ≤ f s) :
    ((List.range' s (m + 1)).map f).foldl max b = f (s + m) := by
  induction m generalizing s b with
  | zero => simp [hb]
  | succ m ih =>
    rw [List.range'_succ]
    simp only [List.map_cons, List.foldl_cons]
    rw [max_eq_right hb, ih (s + 1) (f s) (hf _ _ (by omega))]
    congr 1; omega

theorem foldl_min_map (f : ℕ → ℚ) (hf : ∀ i j, i ≤ j → f i ≤ f j) (s m : ℕ) (b : ℚ) (hb : b ≤ f s) :
    ((List.range' s m).map f).foldl min b = b := by
  induction m generalizing s with
  | zero => simp
  | succ m ih =>
    rw [List.range'_succ]
    simp only [List.map_cons, List.foldl_cons]
    rw [min_eq_left hb, ih (s + 1) (le_trans hb (hf _ _ (by omega)))]

/-- A slice of the source: consecutive rows and columns. -/
structure SliceOf (lat lon : RegAxis) (s : SrcGrid) (r0 c0 H W : ℕ) : Prop where
  rows : s.rows = List.range' r0 H
  cols : s.cols = List.range' c0 W
  lats : s.lats = (List.range' r0 H).map lat.point
  lons : s.lons = (List.range' c0 W).map lon.point
  hH : 0 < H
  hW : 0 < W
  hr : r0 + H ≤ lat.n
  hc : c0 + W ≤ lon.n

theorem largestOf_range (a : RegAxis) (h : 0 < a.step) (s m : ℕ) (hm : 0 < m) : largestOf ((List.range' s m).map a.point) = a.point (s + m - 1) := by
  obtain ⟨m, rfl⟩ : ∃ k, m = k + 1 := ⟨m - 1, by omega⟩
  unfold largestOf
  rw [foldl_max_map a.point (fun i j => (a.point_le h).mpr)]
  · congr 1
  · rw [List.range'_succ]; simp

theorem smallestOf_range (a : RegAxis) (h : 0 < a.step) (s m : ℕ) (hm : 0 < m) : smallestOf ((List.range' s m).map a.point) = a.point s := by
  obtain ⟨m, rfl⟩ : ∃ k, m = k + 1 := ⟨m - 1, by omega⟩
  unfold smallestOf
  have : ((List.range' s (m + 1)).map a.point).headD 0 = a.point s := by rw [List.range'_succ]; simp
  rw [this, foldl_min_map a.point (fun i j => (a.point_le h).mpr)]
  exact le_refl _

theorem headD_range (a : RegAxis) (s m : ℕ) (hm : 0 < m) : ((List.range' s m).map a.point).headD 0 = a.point s := by
  obtain ⟨m, rfl⟩ : ∃ k, m = k + 1 := ⟨m - 1, by omega⟩
  rw [List.range'_succ]; simp

theorem getD_range' (s m k : ℕ) (h : k < m) : (List.range' s m).getD k 0 = s + k := by
  rw [List.getD_eq_getElem?_getD, List.getElem?_range' h]
  simp

theorem getD_points (a : RegAxis) (s m k : ℕ) (h : k < m) : ((List.range' s m).map a.point).getD k 0 = a.point (s + k) := by
  rw [List.getD_eq_getElem?_getD, List.getElem?_map, List.getElem?_range' h]
  simp

/-- The lines around a coordinate between the first and last line. -/
theorem exists_line (a : RegAxis) (h : 0 < a.step) (hn : 2 ≤ a.n) (y : ℚ) (h0 : a.point 0 ≤ y) (h1 : y ≤ a.point (a.n - 1)) :
    ∃ k, k + 1 < a.n ∧ a.point k ≤ y ∧ y ≤ a.point (k + 1) := by
  have key : ∀ m, m + 1 < a.n → y ≤ a.point (m + 1) → ∃ k, k + 1 < a.n ∧ a.point k ≤ y ∧ y ≤ a.point (k + 1) := by
    intro m
    induction m with
    | zero => intro hm hy; exact ⟨0, hm, h0, hy⟩
    | succ m ih =>
      intro hm hy
      by_cases hc : y ≤ a.point (m + 1)
      · exact ih (by omega) hc
      · exact ⟨m + 1, hm, le_of_lt (not_le.mp hc), hy⟩
  have e : a.n - 2 + 1 = a.n - 1 := by omega
  exact key (a.n - 2) (by omega) (by rw [e]; exact h1)

/-- A line within one spacing of a target is kept by the slicing. -/
theorem keepIdx_near (a : RegAxis) (h : 0 < a.step) (d lo hi y : ℚ) (hd : a.step ≤ d) (hlo : lo ≤ y) (hhi : y ≤ hi) (k : ℕ) (hk : k < a.n)
    (h1 : y - a.step ≤ a.point k) (h2 : a.point k ≤ y + a.step) : k ∈ keepIdx a d lo hi := by
  unfold keepIdx
  rw [List.mem_filter, List.mem_range]
  simp only [Bool.and_eq_true, decide_eq_true_eq]
  exact ⟨hk, by linarith, by linarith⟩

theorem foldl_max_ge_all (a : ℚ) (l : List ℚ) : ∀ x ∈ a :: l, x ≤ l.foldl max a := by
  intro x hx
  rcases List.mem_cons.mp hx with rfl | hx
  · exact (foldl_le_max x l).1
  · exact (foldl_le_max a l).2 x hx

theorem foldl_min_le_all (a : ℚ) (l : List ℚ) : ∀ x ∈ a :: l, l.foldl min a ≤ x := by
  intro x hx
  rcases List.mem_cons.mp hx with rfl | hx
  · exact (foldl_min_le x l).1
  · exact (foldl_min_le a l).2 x hx

theorem maxOf_spec {l : List ℚ} {m : ℚ} (h : maxOf l = .ok m) : ∀ x ∈ l, x ≤ m := by
  cases l with
  | nil => exact nomatch h
  | cons a as => unfold maxOf at h; injection h with h; rw [← h]; exact foldl_max_ge_all a as

theorem minOf_spec {l : List ℚ} {m : ℚ} (h : minOf l = .ok m) : ∀ x ∈ l, m ≤ x := by
  cases l with
  | nil => exact nomatch h
  | cons a as => unfold minOf at h; injection h with h; rw [← h]; exact foldl_min_le_all a as

theorem maxOf_mem {l : List ℚ} {m : ℚ} (h : maxOf l = .ok m) : m ∈ l := by
  cases l with
  | nil => exact nomatch h
  | cons a as =>
    unfold maxOf at h; injection h with h; rw [← h]
    clear h
    induction as generalizing a with
    | nil => simp
    | cons b bs ih =>
      simp only [List.foldl_cons]
      have := ih (max a b)
      rcases List.mem_cons.mp this with h | h
      · rw [h]; rcases max_choice a b with h | h <;> rw [h] <;> simp
      · exact List.mem_cons_of_mem _ (List.mem_cons_of_mem _ h)

/-- What slicing gives: consecutive lines that contain the cell of every target in the domain. -/
theorem sliceSource_spec (lat lon : RegAxis) (hlat : 0 < lat.step) (hlon : 0 < lon.step) (nlat : 2 ≤ lat.n) (nlon : 2 ≤ lon.n) (dlat dlon : ℚ)
    (hdlat : lat.step ≤ dlat) (hdlon : lon.step ≤ dlon) (out : List (ℚ × ℚ)) (s : SrcGrid) (h : sliceSource lat lon dlat dlon out = .ok s) :
    ∃ r0 c0 H W, SliceOf lat lon s r0 c0 H W ∧
      (∀ p ∈ out, (∀ k < lat.n, |lat.point k - p.1| < 2 * lat.step → r0 ≤ k ∧ k < r0 + H) ∧
        (∀ k < lon.n, |lon.point k - p.2| < 2 * lon.step → c0 ≤ k ∧ k < c0 + W)) ∧
      ∀ p ∈ out, (insideSource s p = true ↔ Spec.inSource lat lon p) ∧ (insideSource s p = true → 2 ≤ H ∧ 2 ≤ W) := by
  unfold sliceSource at h
  simp only [bind, Except.bind, pure, Except.pure] at h
  cases h1 : maxOf (out.map (·.1)) with
  | error e => rw [h1] at h; exact nomatch h
  | ok latMax =>
  cases h2 : maxOf (out.map (·.2)) with
  | error e => rw [h1, h2] at h; exact nomatch h
  | ok lonMax =>
  cases h3 : minOf (out.map (·.1)) with
  | error e => rw [h1, h2, h3] at h; exact nomatch h
  | ok latMin =>
  cases h4 : minOf (out.map (·.2)) with
  | error e => rw [h1, h2, h3, h4] at h; exact nomatch h
  | ok lonMin =>
  rw [h1, h2, h3, h4] at h
  simp only at h
  by_cases he : keepIdx lat dlat latMin latMax = [] ∨ keepIdx lon dlon lonMin lonMax = []
  · rw [if_pos he] at h; exact nomatch h
  rw [if_neg he] at h
  injection h with h
  subst h
  push Not at he
  obtain ⟨r0, H, hr, hrn⟩ := keepIdx_range lat hlat dlat latMin latMax
  obtain ⟨c0, W, hc, hcn⟩ := keepIdx_range lon hlon dlon lonMin lonMax
  have hH : 0 < H := by
    rcases Nat.eq_zero_or_pos H with h0 | h0
    · rw [hr, h0] at he; simp at he
    · exact h0
  have hW : 0 < W := by
    rcases Nat.eq_zero_or_pos W with h0 | h0
    · rw [hc, h0] at he; simp at he
    · exact h0
  refine ⟨r0, c0, H, W, ⟨hr, hc, by simp [hr], by simp [hc], hH, hW, hrn, hcn⟩, ?_, ?_⟩
  · intro p hp
    have near : ∀ (a : RegAxis) (d lo hi y : ℚ) (s m : ℕ) (hd : a.step ≤ d) (hlo : lo ≤ y) (hhi : y ≤ hi) (hk : keepIdx a d lo hi = List.range' s m),
        ∀ k < a.n, |a.point k - y| < 2 * a.step → s ≤ k ∧ k < s + m := by
      intro a d lo hi y s m hd hlo hhi hk k hkn habs
      rw [abs_lt] at habs
      have : k ∈ keepIdx a d lo hi := by
        unfold keepIdx
        rw [List.mem_filter, List.mem_range]
        simp only [Bool.and_eq_true, decide_eq_true_eq]
        exact ⟨hkn, by linarith, by linarith⟩
      rw [hk, List.mem_range'_1] at this
      exact this
    exact ⟨near lat dlat latMin latMax p.1 r0 H hdlat (minOf_spec h3 _ (List.mem_map_of_mem hp)) (maxOf_spec h1 _ (List.mem_map_of_mem hp)) hr,
      near lon dlon lonMin lonMax p.2 c0 W hdlon (minOf_spec h4 _ (List.mem_map_of_mem hp)) (maxOf_spec h2 _ (List.mem_map_of_mem hp)) hc⟩
  intro p hp
  have axis : ∀ (a : RegAxis) (ha : 0 < a.step) (na : 2 ≤ a.n) (d lo hi y : ℚ) (s m : ℕ) (hd : a.step ≤ d) (hlo : lo ≤ y) (hhi : y ≤ hi)
      (hk : keepIdx a d lo hi = List.range' s m) (hm : 0 < m) (hsm : s + m ≤ a.n),
      ((a.point s ≤ y ∧ y ≤ a.point (s + m - 1)) ↔ (a.point 0 ≤ y ∧ y ≤ a.point (a.n - 1))) ∧
      ((a.point s ≤ y ∧ y ≤ a.point (s + m - 1)) → 2 ≤ m) := by
    intro a ha na d lo hi y s m hd hlo hhi hk hm hsm
    have fwd : (a.point s ≤ y ∧ y ≤ a.point (s + m - 1)) → (a.point 0 ≤ y ∧ y ≤ a.point (a.n - 1)) := fun ⟨u, v⟩ =>
      ⟨le_trans ((a.point_le ha).mpr (Nat.zero_le _)) u, le_trans v ((a.point_le ha).mpr (by omega))⟩
    have bwd : (a.point 0 ≤ y ∧ y ≤ a.point (a.n - 1)) → (a.point s ≤ y ∧ y ≤ a.point (s + m - 1)) ∧ 2 ≤ m := by
      rintro ⟨u, v⟩
      obtain ⟨k, hk1, hk2, hk3⟩ := exists_line a ha na y u v
      have hs := a.point_succ k
      have m1 := keepIdx_near a ha d lo hi y hd hlo hhi k (by omega) (by linarith) (by linarith)
      have m2 := keepIdx_near a ha d lo hi y hd hlo hhi (k + 1) hk1 (by linarith) (by linarith)
      rw [hk, List.mem_range'_1] at m1 m2
      refine ⟨⟨le_trans ((a.point_le ha).mpr m1.1) hk2, le_trans hk3 ((a.point_le ha).mpr (by omega))⟩, by omega⟩
    exact ⟨⟨fwd, fun h => (bwd h).1⟩, fun h => (bwd (fwd h)).2⟩
  have a1 := axis lat hlat nlat dlat latMin latMax p.1 r0 H hdlat (minOf_spec h3 _ (List.mem_map_of_mem hp)) (maxOf_spec h1 _ (List.mem_map_of_mem hp)) hr hH hrn
  have a2 := axis lon hlon nlon dlon lonMin lonMax p.2 c0 W hdlon (minOf_spec h4 _ (List.mem_map_of_mem hp)) (maxOf_spec h2 _ (List.mem_map_of_mem hp)) hc hW hcn
  have hin : insideSource ⟨keepIdx lat dlat latMin latMax, keepIdx lon dlon lonMin lonMax, (keepIdx lat dlat latMin latMax).map lat.point,
      (keepIdx lon dlon lonMin lonMax).map lon.point⟩ p = true ↔
      (lat.point r0 ≤ p.1 ∧ p.1 ≤ lat.point (r0 + H - 1)) ∧ (lon.point c0 ≤ p.2 ∧ p.2 ≤ lon.point (c0 + W - 1)) := by
    unfold insideSource
    simp only [hr, hc, largestOf_range lat hlat _ _ hH, largestOf_range lon hlon _ _ hW, smallestOf_range lat hlat _ _ hH, smallestOf_range lon hlon _ _ hW,
      Bool.and_eq_true, decide_eq_true_eq]
  rw [hin]
  refine ⟨?_, fun hh => ⟨a1.2 hh.1, a2.2 hh.2⟩⟩
  unfold Spec.inSource
  rw [a1.1, a2.1]

/-! ### Surrounding points -/

/-- The flattened indices of a cell. -/
def cellQuad (W r c : ℕ) : Quad ℕ := ⟨r * W + c, (r + 1) * W + c, (r + 1) * W + c + 1, r * W + c + 1⟩

/-- A quad as integers. -/
def Quad.toInt (q : Quad ℕ) : Quad ℤ := ⟨q.i1, q.i2, q.i3, q.i4⟩

theorem lon_lat_corner (w : ℤ) (q : Quad ℤ) : cornerAdjust w q = lonAdjust (latAdjust w q) := by
  unfold cornerAdjust lonAdjust latAdjust
  simp only [Quad.mk.injEq]
  refine ⟨by ring, trivial, by ring, by ring⟩

/-- The row (or column) number of a coordinate in a slice. -/
theorem floor_line (a : RegAxis) (h : 0 < a.step) (s : ℕ) (y : ℚ) (r : ℕ) (h1 : a.point (s + r) ≤ y) (h2 : y < a.point (s + r + 1)) :
    ⌊(y - a.point s) / a.step⌋ = r := by
  rw [Int.floor_eq_iff]
  unfold RegAxis.point at h1 h2 ⊢
  push_cast at h1 h2
  constructor
  · rw [le_div_iff₀ h]; push_cast; linarith
  · rw [div_lt_iff₀ h]; push_cast; linarith

/-- One axis of the indices after adjustment at the last line: the cell of the coordinate. -/
theorem axis_cell (a : RegAxis) (h : 0 < a.step) (s m : ℕ) (hm : 2 ≤ m) (y : ℚ) (h0 : a.point s ≤ y) (h1 : y ≤ a.point (s + m - 1)) :
    ∃ r, r + 1 < m ∧ a.point (s + r) ≤ y ∧ y ≤ a.point (s + r + 1) ∧
      ⌊(y - a.point s) / a.step⌋ = (if y = a.point (s + m - 1) then (r : ℤ) + 1 else r) := by
  by_cases hy : y = a.point (s + m - 1)
  · refine ⟨m - 2, by omega, ?_, ?_, ?_⟩
    · rw [hy]; exact (a.point_le h).mpr (by omega)
    · rw [hy]; exact (a.point_le h).mpr (by omega)
    · rw [if_pos hy, floor_line a h s y (m - 1)]
      · omega
      · rw [hy]; exact (a.point_le h).mpr (by omega)
      · rw [hy]; exact (a.point_lt h).mpr (by omega)
  · have hlt : y < a.point (s + m - 1) := lt_of_le_of_ne h1 hy
    have key : ∀ k, k + 1 < m → y < a.point (s + k + 1) → ∃ r, r + 1 < m ∧ a.point (s + r) ≤ y ∧ y < a.point (s + r + 1) := by
      intro k
      induction k with
      | zero => intro hk hk'; exact ⟨0, hk, h0, hk'⟩
      | succ k ih =>
        intro hk hk'
        by_cases hc : y < a.point (s + k + 1)
        · exact ih (by omega) hc
        · exact ⟨k + 1, hk, by rw [← Nat.add_assoc]; exact not_lt.mp hc, hk'⟩
    have e : s + (m - 2) + 1 = s + m - 1 := by omega
    obtain ⟨r, hr1, hr2, hr3⟩ := key (m - 2) (by omega) (by rw [e]; exact hlt)
    exact ⟨r, hr1, hr2, le_of_lt hr3, by rw [if_neg hy]; exact floor_line a h s y r hr2 hr3⟩

/-- The quad of a target with its adjustments, in general. -/
def adjustedQuad (s : SrcGrid) (dlat dlon : ℚ) (atLat atLon : Bool) (p : ℚ × ℚ) : Quad ℤ :=
  let q := rawIndexes s dlat dlon p
  let q' := if atLat then latAdjust s.cols.length q else q
  if atLon then lonAdjust q' else q'

theorem adjustedQuad_cell (lat lon : RegAxis) (hlat : 0 < lat.step) (hlon : 0 < lon.step) (s : SrcGrid) (r0 c0 H W : ℕ)
    (hs : SliceOf lat lon s r0 c0 H W) (hH : 2 ≤ H) (hW : 2 ≤ W) (p : ℚ × ℚ)
    (h1 : lat.point r0 ≤ p.1 ∧ p.1 ≤ lat.point (r0 + H - 1)) (h2 : lon.point c0 ≤ p.2 ∧ p.2 ≤ lon.point (c0 + W - 1)) (atLat atLon : Bool)
    (hl : atLat = true ↔ p.1 = lat.point (r0 + H - 1)) (hl' : atLon = true ↔ p.2 = lon.point (c0 + W - 1)) :
    ∃ r c, (r + 1 < H ∧ lat.point (r0 + r) ≤ p.1 ∧ p.1 ≤ lat.point (r0 + r + 1)) ∧
      (c + 1 < W ∧ lon.point (c0 + c) ≤ p.2 ∧ p.2 ≤ lon.point (c0 + c + 1)) ∧
      adjustedQuad s lat.step lon.step atLat atLon p = (cellQuad W r c).toInt := by
  obtain ⟨r, a1, a2, a3, a4⟩ := axis_cell lat hlat r0 H hH p.1 h1.1 h1.2
  obtain ⟨c, b1, b2, b3, b4⟩ := axis_cell lon hlon c0 W hW p.2 h2.1 h2.2
  refine ⟨r, c, ⟨a1, a2, a3⟩, ⟨b1, b2, b3⟩, ?_⟩
  have hlen : (s.cols.length : ℤ) = W := by rw [hs.cols]; simp
  unfold adjustedQuad rawIndexes
  rw [hs.lats, hs.lons, headD_range lat r0 H hs.hH, headD_range lon c0 W hs.hW, a4, b4, hlen]
  unfold Quad.toInt cellQuad
  by_cases e1 : p.1 = lat.point (r0 + H - 1) <;> by_cases e2 : p.2 = lon.point (c0 + W - 1)
  · rw [hl.mpr e1, hl'.mpr e2]
    simp only [if_pos e1, if_pos e2, if_true, latAdjust, lonAdjust, Quad.mk.injEq]
    push_cast
    refine ⟨?_, ?_, ?_, ?_⟩ <;> ring
  · have e2' : atLon = false := by rw [← Bool.not_eq_true, hl']; exact e2
    rw [hl.mpr e1, e2']
    simp only [if_pos e1, if_neg e2, if_true, latAdjust, lonAdjust, Quad.mk.injEq, Bool.false_eq_true, if_false]
    push_cast
    refine ⟨?_, ?_, ?_, ?_⟩ <;> ring
  · have e1' : atLat = false := by rw [← Bool.not_eq_true, hl]; exact e1
    rw [hl'.mpr e2, e1']
    simp only [if_neg e1, if_pos e2, if_true, latAdjust, lonAdjust, Quad.mk.injEq, Bool.false_eq_true, if_false]
    push_cast
    refine ⟨?_, ?_, ?_, ?_⟩ <;> ring
  · have e1' : atLat = false := by rw [← Bool.not_eq_true, hl]; exact e1
    have e2' : atLon = false := by rw [← Bool.not_eq_true, hl']; exact e2
    rw [e1', e2']
    simp only [if_neg e1, if_neg e2, latAdjust, lonAdjust, Quad.mk.injEq, Bool.false_eq_true, if_false]
    push_cast
    refine ⟨?_, ?_, ?_, ?_⟩ <;> ring

theorem npIsclose_self (x : ℚ) : npIsclose x x = true := by
  unfold npIsclose
  simp only [decide_eq_true_eq, sub_self, abs_zero]
  positivity

/-- `basicIndexes` treats every target by the general adjustment. -/
theorem basicIndexes_eq (s : SrcGrid) (dlat dlon : ℚ) (ps : List (ℚ × ℚ)) (qs : List (Quad ℤ)) (h : basicIndexes s dlat dlon ps = .ok qs) :
    ∃ latMaxOut lonMaxOut, maxOf (ps.map (·.1)) = .ok latMaxOut ∧ maxOf (ps.map (·.2)) = .ok lonMaxOut ∧
      qs = ps.map (fun p => adjustedQuad s dlat dlon (npIsclose (largestOf s.lats) latMaxOut && npIsclose p.1 (largestOf s.lats))
        (npIsclose (largestOf s.lons) lonMaxOut && npIsclose p.2 (largestOf s.lons)) p) := by
  unfold basicIndexes at h
  simp only [bind, Except.bind, pure, Except.pure] at h
  cases h1 : maxOf (ps.map (·.1)) with
  | error e => rw [h1] at h; exact nomatch h
  | ok latMaxOut =>
  cases h2 : maxOf (ps.map (·.2)) with
  | error e => rw [h1, h2] at h; exact nomatch h
  | ok lonMaxOut =>
  rw [h1, h2] at h
  simp only at h
  refine ⟨latMaxOut, lonMaxOut, rfl, rfl, ?_⟩
  have hmap : ∀ F : ℕ → Quad ℤ, ∀ G : ℚ × ℚ → Quad ℤ, (∀ k (hk : k < ps.length), F k = G ps[k]) → (List.range ps.length).map F = ps.map G := by
    intro F G hFG
    apply List.ext_getElem
    · simp
    · intro k hk1 hk2
      simp only [List.getElem_map, List.getElem_range]
      exact hFG k (by simpa using hk1)
  cases hcorner : cornerOf (largestOf s.lats) (largestOf s.lons) (npIsclose (largestOf s.lats) latMaxOut) (npIsclose (largestOf s.lons) lonMaxOut) ps with
  | error e => rw [hcorner] at h; exact nomatch h
  | ok corner =>
  rw [hcorner] at h
  simp only at h
  injection h with h
  rw [← h]
  apply hmap
  intro k hk
  have hget : ps.getD k (0, 0) = ps[k] := by rw [List.getD_eq_getElem?_getD, List.getElem?_eq_getElem hk]; rfl
  rw [hget]
  unfold targetQuad
  unfold cornerOf at hcorner
  by_cases hck : corner = some k
  · rw [if_pos hck, lon_lat_corner]
    -- the corner target satisfies both conditions
    by_cases hb : (npIsclose (largestOf s.lats) latMaxOut && npIsclose (largestOf s.lons) lonMaxOut) = true
    · rw [if_pos hb] at hcorner
      have both : npIsclose ps[k].1 (largestOf s.lats) = true ∧ npIsclose ps[k].2 (largestOf s.lons) = true := by
        unfold cornerTarget at hcorner
        split at hcorner
        · injection hcorner with hcorner; rw [hck] at hcorner; exact nomatch hcorner
        · rename_i j hj
          injection hcorner with hcorner
          rw [hck] at hcorner
          by_cases hj0 : j = 0
          · rw [if_pos hj0] at hcorner; exact nomatch hcorner
          · rw [if_neg hj0] at hcorner
            injection hcorner with hcorner
            have hm : j ∈ (List.range (whereIdx (fun p => npIsclose p.1 (largestOf s.lats)) ps).length).filter
                (fun k_1 => npIsclose (ps.getD ((whereIdx (fun p => npIsclose p.1 (largestOf s.lats)) ps).getD k_1 0) (0, 0)).2 (largestOf s.lons)) := by
              rw [hj]; simp
            rw [List.mem_filter, List.mem_range] at hm
            rw [hcorner, hget] at hm
            refine ⟨?_, hm.2⟩
            have hk' : k ∈ whereIdx (fun p => npIsclose p.1 (largestOf s.lats)) ps := by
              rw [← hcorner, List.getD_eq_getElem?_getD, List.getElem?_eq_getElem hm.1]
              simp
            unfold whereIdx at hk'
            rw [List.mem_filter, hget] at hk'
            exact hk'.2
        · exact nomatch hcorner
      rw [Bool.and_eq_true] at hb
      unfold adjustedQuad
      rw [hb.1, hb.2, both.1, both.2]
      simp
    · rw [if_neg hb] at hcorner
      injection hcorner with hcorner
      rw [hck] at hcorner; exact nomatch hcorner
  · rw [if_neg hck]
    rfl

theorem pyIndex_ok (n i : ℕ) (h : i < n) : pyIndex n (i : ℤ) = .ok i := by
  unfold pyIndex
  rw [if_pos (by omega)]
  simp

theorem cell_bound (H W r c : ℕ) (hr : r < H) (hc : c < W) : r * W + c < H * W := by
  calc r * W + c < r * W + W := by omega
    _ = (r + 1) * W := by ring
    _ ≤ H * W := Nat.mul_le_mul_right W hr

theorem resolveQuad_cell (lat lon : RegAxis) (s : SrcGrid) (r0 c0 H W : ℕ) (hs : SliceOf lat lon s r0 c0 H W) (r c : ℕ) (hr : r + 1 < H) (hc : c + 1 < W) :
    resolveQuad s (cellQuad W r c).toInt = .ok (cellQuad W r c) := by
  have hn : s.rows.length * s.cols.length = H * W := by rw [hs.rows, hs.cols]; simp
  unfold resolveQuad
  simp only [hn, Quad.toInt, cellQuad, bind, Except.bind, pure, Except.pure]
  rw [pyIndex_ok _ _ (cell_bound H W r c (by omega) (by omega)), pyIndex_ok _ _ (cell_bound H W (r + 1) c hr (by omega)),
    pyIndex_ok _ ((r + 1) * W + c + 1) (cell_bound H W (r + 1) (c + 1) hr hc), pyIndex_ok _ (r * W + c + 1) (cell_bound H W r (c + 1) (by omega) hc)]

theorem flat_cell (lat lon : RegAxis) (s : SrcGrid) (r0 c0 H W : ℕ) (hs : SliceOf lat lon s r0 c0 H W) (r c : ℕ) (hr : r < H) (hc : c < W) :
    flatPoint s (r * W + c) = (lat.point (r0 + r), lon.point (c0 + c)) ∧
    (s.rows.getD ((r * W + c) / s.cols.length) 0, s.cols.getD ((r * W + c) % s.cols.length) 0) = (r0 + r, c0 + c) := by
  have hl : s.cols.length = W := by rw [hs.cols]; simp
  have e1 : (r * W + c) / W = r := by
    rw [Nat.mul_comm, Nat.mul_add_div (by omega), Nat.div_eq_of_lt hc, Nat.add_zero]
  have e2 : (r * W + c) % W = c := by rw [Nat.mul_comm, Nat.mul_add_mod, Nat.mod_eq_of_lt hc]
  unfold flatPoint
  rw [hl, e1, e2, hs.lats, hs.lons, hs.rows, hs.cols]
  rw [getD_points lat r0 H r hr, getD_points lon c0 W c hc, getD_range' r0 H r hr, getD_range' c0 W c hc]
  exact ⟨rfl, rfl⟩

/-! ### The whole list of targets -/

theorem scatter_spec (f : ℚ × ℚ → Bool) (G : ℚ × ℚ → Except Err (Option ℚ)) (out : List (ℚ × ℚ)) (res : List (Option ℚ))
    (h : (out.filter f).mapM G = .ok res) :
    (scatter (out.map f) res).length = out.length ∧ ∀ (k : ℕ) p, out[k]? = some p →
      if f p then ∃ v, G p = .ok v ∧ (scatter (out.map f) res)[k]? = some v else (scatter (out.map f) res)[k]? = some none := by
  induction out generalizing res with
  | nil => simp [scatter]
  | cons a as ih =>
    by_cases ha : f a = true
    · rw [List.filter_cons_of_pos ha, List.mapM_cons] at h
      simp only [bind, Except.bind, pure, Except.pure] at h
      cases hg : G a with
      | error e => rw [hg] at h; exact nomatch h
      | ok v =>
        rw [hg] at h
        cases hm : (as.filter f).mapM G with
        | error e => rw [hm] at h; exact nomatch h
        | ok vs =>
          rw [hm] at h
          injection h with h
          subst h
          obtain ⟨i1, i2⟩ := ih vs hm
          simp only [List.map_cons, ha, scatter, List.length_cons, i1, true_and]
          intro k p hk
          cases k with
          | zero =>
            simp only [List.getElem?_cons_zero, Option.some.injEq] at hk ⊢
            subst hk
            rw [if_pos ha]; exact ⟨v, hg, rfl⟩
          | succ k => simp only [List.getElem?_cons_succ] at hk ⊢; exact i2 k p hk
    · rw [List.filter_cons_of_neg ha] at h
      obtain ⟨i1, i2⟩ := ih res h
      have ha' : f a = false := by simpa using ha
      simp only [List.map_cons, ha', scatter, List.length_cons, i1, true_and]
      intro k p hk
      cases k with
      | zero =>
        simp only [List.getElem?_cons_zero, Option.some.injEq] at hk ⊢
        subst hk
        simp [ha']
      | succ k => simp only [List.getElem?_cons_succ] at hk ⊢; exact i2 k p hk

theorem zip_map_self {α β : Type} (l : List α) (F : α → β) : l.zip (l.map F) = l.map (fun a => (a, F a)) := by
  induction l with
  | nil => rfl
  | cons a as ih => simp [ih]

/-- What a call does with every target: outside the domain the result is missing; inside it is computed from the corners of the cell of the target. -/
theorem regrid_targets (mode : String) (lat lon : RegAxis) (hlat : 0 < lat.step) (hlon : 0 < lon.step) (nlat : 2 ≤ lat.n) (nlon : 2 ≤ lon.n)
    (ms : ℚ × ℚ) (data : ℕ → ℕ → Option ℚ) (land : ℕ → ℕ → Bool) (ip : ℚ → ℚ) (dist : ℚ × ℚ → ℕ × ℕ → ℚ) (vic : ℚ) (tgt : ℚ × ℚ → Bool)
    (out : List (ℚ × ℚ)) (hclear : ∀ p ∈ out, Spec.clear lat lon p) (res : List (Option ℚ))
    (h : regridWithMask mode lat lon ms data land ip dist vic tgt out = .ok res) :
    res.length = out.length ∧ ∃ s r0 c0 H W, SliceOf lat lon s r0 c0 H W ∧
      (∀ p ∈ out, (∀ k < lat.n, |lat.point k - p.1| < 2 * lat.step → r0 ≤ k ∧ k < r0 + H) ∧
        (∀ k < lon.n, |lon.point k - p.2| < 2 * lon.step → c0 ≤ k ∧ k < c0 + W)) ∧ ∀ (k : ℕ) p, out[k]? = some p →
      (¬ Spec.inSource lat lon p → res[k]? = some none) ∧
      (Spec.inSource lat lon p → ∃ r c v, r + 1 < H ∧ c + 1 < W ∧ Spec.inCell lat lon p (r0 + r) (c0 + c) ∧
        regridTarget mode s lat.step lon.step data land ip dist vic tgt p (cellQuad W r c).toInt = .ok v ∧ res[k]? = some v) := by
  unfold regridWithMask at h
  simp only [bind, Except.bind, pure, Except.pure] at h
  set dlat := (if (decide (mode = "nearest-with-mask-2") || decide (mode = "bilinear-with-mask-2")) = true then max lat.step ms.1 else lat.step) with hdlat
  set dlon := (if (decide (mode = "nearest-with-mask-2") || decide (mode = "bilinear-with-mask-2")) = true then max lon.step ms.2 else lon.step) with hdlon
  have d1 : lat.step ≤ dlat := by rw [hdlat]; split_ifs; exacts [le_max_left _ _, le_refl _]
  have d2 : lon.step ≤ dlon := by rw [hdlon]; split_ifs; exacts [le_max_left _ _, le_refl _]
  cases hsl : sliceSource lat lon dlat dlon out with
  | error e => rw [hsl] at h; exact nomatch h
  | ok s =>
  rw [hsl] at h
  simp only at h
  obtain ⟨r0, c0, H, W, hs, hnear, hin⟩ := sliceSource_spec lat lon hlat hlon nlat nlon dlat dlon d1 d2 out s hsl
  cases hq : basicIndexes s lat.step lon.step (out.filter (insideSource s)) with
  | error e => rw [hq] at h; exact nomatch h
  | ok quads =>
  rw [hq] at h
  simp only at h
  obtain ⟨latMaxOut, lonMaxOut, e1, e2, rfl⟩ := basicIndexes_eq _ _ _ _ _ hq
  rw [zip_map_self, List.mapM_map] at h
  cases hm : (out.filter (insideSource s)).mapM ((fun pq : (ℚ × ℚ) × Quad ℤ => regridTarget mode s lat.step lon.step data land ip dist vic tgt pq.1 pq.2) ∘
      (fun p => (p, adjustedQuad s lat.step lon.step (npIsclose (largestOf s.lats) latMaxOut && npIsclose p.1 (largestOf s.lats))
        (npIsclose (largestOf s.lons) lonMaxOut && npIsclose p.2 (largestOf s.lons)) p))) with
  | error e => rw [hm] at h; exact nomatch h
  | ok rs =>
  rw [hm] at h
  injection h with h
  obtain ⟨s1, s2⟩ := scatter_spec (insideSource s) _ out rs hm
  rw [h] at s1 s2
  refine ⟨s1, s, r0, c0, H, W, hs, hnear, ?_⟩
  intro k p hk
  have hp : p ∈ out := List.mem_of_getElem? hk
  have hsk := s2 k p hk
  obtain ⟨i1, i2⟩ := hin p hp
  constructor
  · intro hn
    rw [if_neg (by rw [i1]; exact hn)] at hsk
    exact hsk
  · intro hd
    have hins : insideSource s p = true := i1.mpr hd
    rw [if_pos hins] at hsk
    obtain ⟨v, hv, hres⟩ := hsk
    simp only [Function.comp] at hv
    obtain ⟨hH, hW⟩ := i2 hins
    have hlats : largestOf s.lats = lat.point (r0 + H - 1) := by rw [hs.lats, largestOf_range lat hlat _ _ hs.hH]
    have hlons : largestOf s.lons = lon.point (c0 + W - 1) := by rw [hs.lons, largestOf_range lon hlon _ _ hs.hW]
    have hmemf : p ∈ out.filter (insideSource s) := List.mem_filter.mpr ⟨hp, hins⟩
    have hins' : ∀ q ∈ out.filter (insideSource s), (lat.point r0 ≤ q.1 ∧ q.1 ≤ largestOf s.lats) ∧ (lon.point c0 ≤ q.2 ∧ q.2 ≤ largestOf s.lons) := by
      intro q hq
      have := (List.mem_filter.mp hq).2
      unfold insideSource at this
      simp only [Bool.and_eq_true, decide_eq_true_eq] at this
      rw [hs.lats, smallestOf_range lat hlat _ _ hs.hH, hs.lons, smallestOf_range lon hlon _ _ hs.hW] at this
      rw [hs.lats, hs.lons]
      exact ⟨⟨this.1.1, this.1.2⟩, ⟨this.2.1, this.2.2⟩⟩
    have hbox := hins' p hmemf
    have gate1 : (npIsclose (largestOf s.lats) latMaxOut && npIsclose p.1 (largestOf s.lats)) = true ↔ p.1 = lat.point (r0 + H - 1) := by
      rw [← hlats, Bool.and_eq_true]
      constructor
      · rintro ⟨-, hb⟩
        rw [hlats] at hb ⊢
        exact (hclear p hp).1 (r0 + H - 1) (by have := hs.hr; omega) hb
      · intro he
        have u1 : p.1 ≤ latMaxOut := maxOf_spec e1 _ (List.mem_map_of_mem hmemf)
        obtain ⟨q, hq, hqe⟩ := List.mem_map.mp (maxOf_mem e1)
        have u2 : latMaxOut ≤ largestOf s.lats := by rw [← hqe]; exact (hins' q hq).1.2
        have : largestOf s.lats = latMaxOut := le_antisymm (by rw [← he]; exact u1) u2
        rw [← this, he]
        exact ⟨npIsclose_self _, npIsclose_self _⟩
    have gate2 : (npIsclose (largestOf s.lons) lonMaxOut && npIsclose p.2 (largestOf s.lons)) = true ↔ p.2 = lon.point (c0 + W - 1) := by
      rw [← hlons, Bool.and_eq_true]
      constructor
      · rintro ⟨-, hb⟩
        rw [hlons] at hb ⊢
        exact (hclear p hp).2 (c0 + W - 1) (by have := hs.hc; omega) hb
      · intro he
        have u1 : p.2 ≤ lonMaxOut := maxOf_spec e2 _ (List.mem_map_of_mem hmemf)
        obtain ⟨q, hq, hqe⟩ := List.mem_map.mp (maxOf_mem e2)
        have u2 : lonMaxOut ≤ largestOf s.lons := by rw [← hqe]; exact (hins' q hq).2.2
        have : largestOf s.lons = lonMaxOut := le_antisymm (by rw [← he]; exact u1) u2
        rw [← this, he]
        exact ⟨npIsclose_self _, npIsclose_self _⟩
    obtain ⟨r, c, a1, a2, a3⟩ := adjustedQuad_cell lat lon hlat hlon s r0 c0 H W hs hH hW p ⟨hbox.1.1, by rw [← hlats]; exact hbox.1.2⟩
      ⟨hbox.2.1, by rw [← hlons]; exact hbox.2.2⟩ _ _ gate1 gate2
    rw [a3] at hv
    refine ⟨r, c, v, a1.1, a2.1, ⟨⟨?_, a1.2.1, a1.2.2⟩, ⟨?_, a2.2.1, a2.2.2⟩⟩, hv, hres⟩
    · have := hs.hr; omega
    · have := hs.hc; omega

end Improver
