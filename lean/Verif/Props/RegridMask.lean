import Verif.Props.RegridModes

/-! Property theorems C102 (nearest with a land mask) and C103 (bilinear with a land mask) of regridding from an even grid. -/

namespace Improver

/-! ### Nearest points -/

theorem argmin_go_some (l : List (Option ℚ)) : ∀ (k best : ℕ) (m : ℚ),
    (argminInf.go l k best (some m) = best ∧ ∀ d, some d ∈ l → m ≤ d) ∨
    ∃ i d, l[i]? = some (some d) ∧ argminInf.go l k best (some m) = k + i ∧ d < m ∧ ∀ d', some d' ∈ l → d ≤ d' := by
  induction l with
  | nil => intro k best m; left; simp [argminInf.go]
  | cons a as ih =>
    intro k best m
    cases a with
    | none =>
      simp only [argminInf.go]
      rcases ih (k + 1) best m with ⟨h1, h2⟩ | ⟨i, d, h1, h2, h3, h4⟩
      · left; exact ⟨h1, by intro d hd; simp at hd; exact h2 d hd⟩
      · right; exact ⟨i + 1, d, by simpa using h1, by rw [h2]; omega, h3, by intro d' hd; simp at hd; exact h4 d' hd⟩
    | some a =>
      simp only [argminInf.go]
      by_cases ha : a < m
      · rw [if_pos ha]
        right
        rcases ih (k + 1) k a with ⟨h1, h2⟩ | ⟨i, d, h1, h2, h3, h4⟩
        · refine ⟨0, a, rfl, by rw [h1]; rfl, ha, ?_⟩
          intro d' hd
          simp only [List.mem_cons, Option.some.injEq] at hd
          rcases hd with rfl | hd
          · exact le_refl _
          · exact h2 d' hd
        · refine ⟨i + 1, d, by simpa using h1, by rw [h2]; omega, lt_trans h3 ha, ?_⟩
          intro d' hd
          simp only [List.mem_cons, Option.some.injEq] at hd
          rcases hd with rfl | hd
          · exact le_of_lt h3
          · exact h4 d' hd
      · rw [if_neg ha]
        rcases ih (k + 1) best m with ⟨h1, h2⟩ | ⟨i, d, h1, h2, h3, h4⟩
        · left
          refine ⟨h1, ?_⟩
          intro d' hd
          simp only [List.mem_cons, Option.some.injEq] at hd
          rcases hd with rfl | hd
          · exact not_lt.mp ha
          · exact h2 d' hd
        · right
          refine ⟨i + 1, d, by simpa using h1, by rw [h2]; omega, h3, ?_⟩
          intro d' hd
          simp only [List.mem_cons, Option.some.injEq] at hd
          rcases hd with rfl | hd
          · exact le_of_lt (lt_of_lt_of_le h3 (not_lt.mp ha))
          · exact h4 d' hd

theorem argmin_go_none (l : List (Option ℚ)) : ∀ (k best : ℕ), (∃ d, some d ∈ l) →
    ∃ i d, l[i]? = some (some d) ∧ argminInf.go l k best none = k + i ∧ ∀ d', some d' ∈ l → d ≤ d' := by
  induction l with
  | nil => intro k best h; simp at h
  | cons a as ih =>
    intro k best h
    cases a with
    | none =>
      simp only [argminInf.go]
      obtain ⟨d, hd⟩ := h
      obtain ⟨i, d, h1, h2, h3⟩ := ih (k + 1) best ⟨d, by simpa using hd⟩
      exact ⟨i + 1, d, by simpa using h1, by rw [h2]; omega, by intro d' hd; simp at hd; exact h3 d' hd⟩
    | some a =>
      simp only [argminInf.go]
      rcases argmin_go_some as (k + 1) k a with ⟨h1, h2⟩ | ⟨i, d, h1, h2, h3, h4⟩
      · refine ⟨0, a, rfl, by rw [h1]; rfl, ?_⟩
        intro d' hd
        simp only [List.mem_cons, Option.some.injEq] at hd
        rcases hd with rfl | hd
        · exact le_refl _
        · exact h2 d' hd
      · refine ⟨i + 1, d, by simpa using h1, by rw [h2]; omega, ?_⟩
        intro d' hd
        simp only [List.mem_cons, Option.some.injEq] at hd
        rcases hd with rfl | hd
        · exact le_of_lt h3
        · exact h4 d' hd

theorem argminInf_spec (l : List (Option ℚ)) (h : ∃ d, some d ∈ l) :
    ∃ d, l[argminInf l]? = some (some d) ∧ ∀ d', some d' ∈ l → d ≤ d' := by
  have e : argminInf l = argminInf.go l 0 0 none := by
    cases l with
    | nil => simp at h
    | cons a as => rfl
  obtain ⟨i, d, h1, h2, h3⟩ := argmin_go_none l 0 0 h
  rw [e, h2, Nat.zero_add]
  exact ⟨d, h1, h3⟩

/-- `l` lists the `k` nearest of the points that satisfy `P`, nearest first. -/
structure Spec.Nearest {α : Type} (P : α → Prop) (dist : α → ℚ) (k : ℕ) (l : List α) : Prop where
  nodup : l.Nodup
  length : l.length = k
  mem : ∀ x ∈ l, P x
  sorted : l.Pairwise (fun a b => dist a ≤ dist b)
  rest : ∀ y, P y → y ∉ l → ∀ x ∈ l, dist x ≤ dist y

theorem nearestPts_spec (n : ℕ) (dist : ℕ → ℚ) (k : ℕ) (l : List ℕ) (h : nearestPts n dist k = .ok l) : k ≤ n ∧ Spec.Nearest (· < n) dist k l := by
  unfold nearestPts at h
  by_cases hk : n < k
  · rw [if_pos hk] at h; exact nomatch h
  rw [if_neg hk] at h
  injection h with h
  have hp : ((List.range n).insertionSort (fun a b => dist a ≤ dist b)).Perm (List.range n) := List.perm_insertionSort _ _
  have hs : ((List.range n).insertionSort (fun a b => dist a ≤ dist b)).Pairwise (fun a b => dist a ≤ dist b) := by
    haveI : Std.Total (fun a b : ℕ => dist a ≤ dist b) := ⟨fun a b => le_total _ _⟩
    haveI : IsTrans ℕ (fun a b => dist a ≤ dist b) := ⟨fun _ _ _ => le_trans⟩
    exact List.pairwise_insertionSort _ _
  generalize (List.range n).insertionSort (fun a b => dist a ≤ dist b) = L at h hp hs
  subst h
  have hlen : L.length = n := by rw [hp.length_eq]; simp
  refine ⟨not_lt.mp hk, ?_, ?_, ?_, ?_, ?_⟩
  · exact (hp.nodup_iff.mpr List.nodup_range).sublist (List.take_sublist _ _)
  · rw [List.length_take, hlen]; omega
  · intro x hx
    have := hp.mem_iff.mp (List.mem_of_mem_take hx)
    simpa using this
  · exact hs.sublist (List.take_sublist _ _)
  · intro y hy hyl x hx
    have hyL : y ∈ L := hp.mem_iff.mpr (by simpa using hy)
    rw [← List.take_append_drop k L] at hs hyL
    rw [List.pairwise_append] at hs
    rcases List.mem_append.mp hyL with hy' | hy'
    · exact absurd hy' hyl
    · exact hs.2.2 x hx y hy'

theorem sorted_head_near {α : Type} {dist : α → ℚ} {a : α} {as : List α} (h : (a :: as).Pairwise (fun a b => dist a ≤ dist b)) :
    ∀ x ∈ a :: as, dist a ≤ dist x := by
  intro x hx
  rcases List.mem_cons.mp hx with rfl | hx
  · exact le_refl _
  · exact (List.pairwise_cons.mp h).1 x hx

/-- What the search for another source point gives. -/
theorem nearestMask_spec (s : SrcGrid) (dist : ℕ → ℚ) (land : ℕ → Bool) (target : Bool) (vic : ℚ) (q : Quad ℕ) (p : ℚ × ℚ) (i : ℕ)
    (hno : ¬ ∀ x ∈ q.toList, land x = target) (h : nearestMask s dist land target vic q p = .ok i) :
    let n := s.rows.length * s.cols.length
    i < n ∧ ((land i = target ∧ ∀ x < n, land x = target → dist i ≤ dist x) ∨
      ((∀ x < n, dist i ≤ dist x) ∧ ∀ x < n, land x = target → vic < dist x ∨
        ∃ l : List ℕ, l.Nodup ∧ l.length = 8 ∧ ∀ y ∈ l, y < n ∧ land y ≠ target ∧ dist y ≤ dist x)) := by
  intro n
  unfold nearestMask at h
  simp only [bind, Except.bind, pure, Except.pure] at h
  have hc : (sameSurface land target q.toList).count true < 4 := by
    have hle : (sameSurface land target q.toList).count true ≤ (sameSurface land target q.toList).length := List.count_le_length
    have hlen : (sameSurface land target q.toList).length = 4 := by simp [sameSurface, Quad.toList]
    rcases lt_or_eq_of_le hle with h | h
    · omega
    · exfalso
      apply hno
      rw [List.count_eq_length] at h
      intro x hx
      have := h (land x == target) (List.mem_map.mpr ⟨x, hx, rfl⟩)
      simpa using this.symm
  rw [if_pos hc] at h
  cases h4 : nearestPts n dist 4 with
  | error e => rw [show s.rows.length * s.cols.length = n from rfl, h4] at h; exact nomatch h
  | ok pts =>
  rw [show s.rows.length * s.cols.length = n from rfl, h4] at h
  obtain ⟨hn4, hnear⟩ := nearestPts_spec _ _ _ _ h4
  simp only at h
  have hpick : ∀ (D : List (Option ℚ)) (hD : ∃ d, some d ∈ D) (hlen : D.length = pts.length), ∃ d x, D[argminInf D]? = some (some d) ∧
      pts[argminInf D]? = some x ∧ nearestPick D pts = x ∧ ∀ d', some d' ∈ D → d ≤ d' := by
    intro D hD hlen
    obtain ⟨d, hd, hmin⟩ := argminInf_spec D hD
    have hlt : argminInf D < pts.length := by
      rw [← hlen]
      exact (List.getElem?_eq_some_iff.mp hd).1
    refine ⟨d, pts[argminInf D], hd, List.getElem?_eq_getElem hlt, ?_, hmin⟩
    unfold nearestPick
    rw [List.getD_eq_getElem?_getD, List.getElem?_eq_getElem hlt]; rfl
  by_cases h0 : (sameSurface land target pts).count true = 0
  · rw [if_pos h0] at h
    have hnone : ∀ x ∈ pts, land x ≠ target := by
      intro x hx he
      rw [List.count_eq_zero] at h0
      apply h0
      exact List.mem_map.mpr ⟨x, hx, by simp [he]⟩
    unfold lakeMatches at h
    cases h8 : nearestPts n dist 8 with
    | error e => simp only [bind, Except.bind, h8] at h; exact nomatch h
    | ok pts8 =>
    simp only [bind, Except.bind, h8, pure, Except.pure] at h
    obtain ⟨hn8, hnear8⟩ := nearestPts_spec _ _ _ _ h8
    cases hf : pts8.filter (fun i => (land i == target) && !decide (dist i > vic)) with
    | nil =>
      rw [hf] at h
      simp only at h
      injection h with h
      have hne : pts ≠ [] := by
        intro he
        have := hnear.length
        rw [he] at this
        simp at this
      obtain ⟨d, x, hd, hx, hpk, hmin⟩ := hpick (pts.map (fun i => some (dist i))) (by
        obtain ⟨a, as, rfl⟩ := List.exists_cons_of_ne_nil hne
        exact ⟨dist a, by simp⟩) (by simp)
      rw [hpk] at h
      subst h
      rw [List.getElem?_map, hx] at hd
      simp only [Option.map_some, Option.some.injEq] at hd
      have hxm : x ∈ pts := List.mem_of_getElem? hx
      refine ⟨hnear.mem x hxm, .inr ⟨?_, ?_⟩⟩
      · intro y hy
        by_cases hyp : y ∈ pts
        · rw [hd]; exact hmin _ (List.mem_map.mpr ⟨y, hyp, rfl⟩)
        · exact hnear.rest y hy hyp x hxm
      · intro y hy hyl
        rw [List.filter_eq_nil_iff] at hf
        by_cases hv : vic < dist y
        · exact .inl hv
        right
        have hy8 : y ∉ pts8 := by
          intro hm
          have := hf y hm
          simp [hyl] at this
          exact hv this
        refine ⟨pts8, hnear8.nodup, hnear8.length, ?_⟩
        intro z hz
        have hle := hnear8.rest y hy hy8 z hz
        refine ⟨hnear8.mem z hz, ?_, hle⟩
        intro hlz
        have := hf z hz
        simp [hlz] at this
        exact hv (lt_of_lt_of_le this hle)
    | cons a as =>
      rw [hf] at h
      simp only at h
      injection h with h
      obtain ⟨b, bs, rfl⟩ := List.exists_cons_of_ne_nil (show pts ≠ [] by
        intro he
        have := hnear.length
        rw [he] at this
        simp at this)
      have hia : i = a := by
        rw [← h]
        rfl
      subst hia
      have hm : i ∈ pts8.filter (fun i => (land i == target) && !decide (dist i > vic)) := by rw [hf]; simp
      have hm' := List.mem_filter.mp hm
      simp only [Bool.and_eq_true, beq_iff_eq, Bool.not_eq_true', decide_eq_false_iff_not, gt_iff_lt, not_lt] at hm'
      refine ⟨hnear8.mem i hm'.1, .inl ⟨hm'.2.1, ?_⟩⟩
      intro y hy hly
      by_cases hy8 : y ∈ pts8
      · by_cases hv : vic < dist y
        · exact le_of_lt (lt_of_le_of_lt hm'.2.2 hv)
        · have hyf : y ∈ pts8.filter (fun i => (land i == target) && !decide (dist i > vic)) := by
            rw [List.mem_filter]
            refine ⟨hy8, ?_⟩
            simp [hly]
            exact not_lt.mp hv
          have hs := hnear8.sorted.sublist (List.filter_sublist (p := fun i => (land i == target) && !decide (dist i > vic)))
          rw [hf] at hs hyf
          exact sorted_head_near hs y hyf
      · exact hnear8.rest y hy hy8 i hm'.1
  · rw [if_neg h0] at h
    injection h with h
    have hz : List.zipWith (fun i (b : Bool) => if b then some (dist i) else none) pts (sameSurface land target pts) =
        pts.map (fun i => if land i == target then some (dist i) else none) := by
      unfold sameSurface
      rw [List.zipWith_map_right, List.zipWith_self]
    rw [hz] at h
    have hex : ∃ d, some d ∈ pts.map (fun i => if land i == target then some (dist i) else none) := by
      have : true ∈ sameSurface land target pts := by
        by_contra hc
        exact h0 (List.count_eq_zero.mpr hc)
      obtain ⟨x, hx, hxe⟩ := List.mem_map.mp this
      exact ⟨dist x, List.mem_map.mpr ⟨x, hx, by rw [if_pos hxe]⟩⟩
    obtain ⟨d, x, hd, hx, hpk, hmin⟩ := hpick _ hex (by simp)
    rw [hpk] at h
    subst h
    rw [List.getElem?_map, hx] at hd
    simp only [Option.map_some, Option.some.injEq] at hd
    have hxm : x ∈ pts := List.mem_of_getElem? hx
    by_cases hlx : land x = target
    · simp only [hlx, beq_self_eq_true, if_true, Option.some.injEq] at hd
      refine ⟨hnear.mem x hxm, .inl ⟨hlx, ?_⟩⟩
      intro y hy hly
      by_cases hyp : y ∈ pts
      · rw [hd]
        exact hmin _ (List.mem_map.mpr ⟨y, hyp, by simp [hly]⟩)
      · exact hnear.rest y hy hyp x hxm
    · simp [hlx] at hd


/-! ### Flattened and two-dimensional positions -/

/-- The part of the source that is searched: rows `r0 .. r0 + H - 1` and columns `c0 .. c0 + W - 1`. -/
def Spec.inWindow (r0 c0 H W : ℕ) (x : ℕ × ℕ) : Prop := (r0 ≤ x.1 ∧ x.1 < r0 + H) ∧ (c0 ≤ x.2 ∧ x.2 < c0 + W)

/-- The four corners of a cell. -/
def Spec.corners (j i : ℕ) : List (ℕ × ℕ) := [(j, i), (j + 1, i), (j + 1, i + 1), (j, i + 1)]

/-- The source grid point of a flattened position. -/
def origOf (s : SrcGrid) (x : ℕ) : ℕ × ℕ := (s.rows.getD (x / s.cols.length) 0, s.cols.getD (x % s.cols.length) 0)

theorem slice_size {lat lon : RegAxis} {s : SrcGrid} {r0 c0 H W : ℕ} (hs : SliceOf lat lon s r0 c0 H W) : s.rows.length * s.cols.length = H * W := by
  rw [hs.rows, hs.cols]; simp

theorem orig_of_lt {lat lon : RegAxis} {s : SrcGrid} {r0 c0 H W : ℕ} (hs : SliceOf lat lon s r0 c0 H W) (x : ℕ) (hx : x < H * W) :
    origOf s x = (r0 + x / W, c0 + x % W) ∧ Spec.inWindow r0 c0 H W (origOf s x) := by
  have h1 : x / W < H := by rw [Nat.div_lt_iff_lt_mul hs.hW]; exact hx
  have h2 : x % W < W := Nat.mod_lt _ hs.hW
  have h3 := (flat_cell lat lon s r0 c0 H W hs (x / W) (x % W) h1 h2).2
  rw [Nat.div_add_mod' x W] at h3
  have e : origOf s x = (r0 + x / W, c0 + x % W) := h3
  rw [e]
  unfold Spec.inWindow
  refine ⟨rfl, ?_⟩
  dsimp only
  exact ⟨⟨Nat.le_add_right _ _, Nat.add_lt_add_left h1 _⟩, ⟨Nat.le_add_right _ _, Nat.add_lt_add_left h2 _⟩⟩

theorem orig_inj {lat lon : RegAxis} {s : SrcGrid} {r0 c0 H W : ℕ} (hs : SliceOf lat lon s r0 c0 H W) (x y : ℕ) (hx : x < H * W) (hy : y < H * W)
    (h : origOf s x = origOf s y) : x = y := by
  rw [(orig_of_lt hs x hx).1, (orig_of_lt hs y hy).1, Prod.mk.injEq] at h
  rw [← Nat.div_add_mod' x W, ← Nat.div_add_mod' y W, show x / W = y / W by omega, show x % W = y % W by omega]

theorem orig_surj {lat lon : RegAxis} {s : SrcGrid} {r0 c0 H W : ℕ} (hs : SliceOf lat lon s r0 c0 H W) (q : ℕ × ℕ) (hq : Spec.inWindow r0 c0 H W q) :
    ∃ x < H * W, origOf s x = q := by
  obtain ⟨⟨a, b⟩, c, d⟩ := hq
  refine ⟨(q.1 - r0) * W + (q.2 - c0), cell_bound H W _ _ (by omega) (by omega), ?_⟩
  have := (flat_cell lat lon s r0 c0 H W hs (q.1 - r0) (q.2 - c0) (by omega) (by omega)).2
  have e : origOf s ((q.1 - r0) * W + (q.2 - c0)) = (r0 + (q.1 - r0), c0 + (q.2 - c0)) := this
  rw [e]
  ext <;> dsimp only <;> omega

theorem nodup_orig {lat lon : RegAxis} {s : SrcGrid} {r0 c0 H W : ℕ} (hs : SliceOf lat lon s r0 c0 H W) (l : List ℕ) (hl : l.Nodup)
    (hm : ∀ x ∈ l, x < H * W) : (l.map (origOf s)).Nodup := by
  refine (List.nodup_map_iff_inj_on hl).mpr ?_
  intro x hx y hy h
  exact orig_inj hs x y (hm x hx) (hm y hy) h

theorem cell_orig {lat lon : RegAxis} {s : SrcGrid} {r0 c0 H W : ℕ} (hs : SliceOf lat lon s r0 c0 H W) (r c : ℕ) (hr : r + 1 < H) (hc : c + 1 < W) :
    (cellQuad W r c).toList.map (origOf s) = Spec.corners (r0 + r) (c0 + c) := by
  have f1 := (flat_cell lat lon s r0 c0 H W hs r c (by omega) (by omega)).2
  have f2 := (flat_cell lat lon s r0 c0 H W hs (r + 1) c hr (by omega)).2
  have f3 := (flat_cell lat lon s r0 c0 H W hs (r + 1) (c + 1) hr hc).2
  have f4 := (flat_cell lat lon s r0 c0 H W hs r (c + 1) (by omega) hc).2
  simp only [cellQuad, Quad.toList, List.map_cons, List.map_nil, Spec.corners]
  rw [show origOf s (r * W + c) = _ from f1, show origOf s ((r + 1) * W + c) = _ from f2, show origOf s ((r + 1) * W + c + 1) = _ from f3,
    show origOf s (r * W + c + 1) = _ from f4]
  simp only [Nat.add_assoc]

/-! ## C102: nearest with a mask -/

/-- C102.  Nearest neighbour regridding with a land mask.  Every target outside the domain is missing.  For a target inside:
* if the four corners of its cell have the type (land or sea) of the target it gets the value of a nearest source point (in degrees), which is one of
  them and so has its type;
* otherwise it gets the value of a source point of its type that is nearest of those of its type in the part of the source that is searched, or, failing
  that, the value of the nearest point of any type, and then every point of its type is beyond the vicinity radius or has at least eight
  points of the other type that are no farther from the target.
The part searched contains all source lines within two grid lengths of every target.  (Targets nearly but not exactly on a grid line are excluded.  That
the part searched depends on the other targets is the finding `C102_domain_refuted`.) -/
theorem C102_nearest_mask_partial (lat lon : RegAxis) (hlat : 0 < lat.step) (hlon : 0 < lon.step) (nlat : 2 ≤ lat.n) (nlon : 2 ≤ lon.n)
    (ms : ℚ × ℚ) (data : ℕ → ℕ → Option ℚ) (land : ℕ → ℕ → Bool) (ip : ℚ → ℚ) (dist : ℚ × ℚ → ℕ × ℕ → ℚ) (vic : ℚ) (tgt : ℚ × ℚ → Bool)
    (out : List (ℚ × ℚ)) (hclear : ∀ p ∈ out, Spec.clear lat lon p) (res : List (Option ℚ))
    (h : regridWithMask "nearest-with-mask-2" lat lon ms data land ip dist vic tgt out = .ok res) :
    res.length = out.length ∧ ∃ r0 c0 H W, r0 + H ≤ lat.n ∧ c0 + W ≤ lon.n ∧
      (∀ p ∈ out, (∀ k < lat.n, |lat.point k - p.1| < 2 * lat.step → r0 ≤ k ∧ k < r0 + H) ∧
        (∀ k < lon.n, |lon.point k - p.2| < 2 * lon.step → c0 ≤ k ∧ k < c0 + W)) ∧
      ∀ (k : ℕ) p, out[k]? = some p →
      (¬ Spec.inSource lat lon p → res[k]? = some none) ∧
      (Spec.inSource lat lon p → ∃ j i j0 i0, Spec.inWindow r0 c0 H W (j, i) ∧ res[k]? = some (data j i) ∧ Spec.inCell lat lon p j0 i0 ∧
        ((∀ x ∈ Spec.corners j0 i0, land x.1 x.2 = tgt p) → land j i = tgt p ∧ ∀ j' i', Spec.degrees lat lon p j i ≤ Spec.degrees lat lon p j' i') ∧
        ((¬ ∀ x ∈ Spec.corners j0 i0, land x.1 x.2 = tgt p) →
          (land j i = tgt p ∧ ∀ x, Spec.inWindow r0 c0 H W x → land x.1 x.2 = tgt p → dist p (j, i) ≤ dist p x) ∨
          ((∀ x, Spec.inWindow r0 c0 H W x → dist p (j, i) ≤ dist p x) ∧
            ∀ x, Spec.inWindow r0 c0 H W x → land x.1 x.2 = tgt p → vic < dist p x ∨
              ∃ l : List (ℕ × ℕ), l.Nodup ∧ l.length = 8 ∧ ∀ y ∈ l, Spec.inWindow r0 c0 H W y ∧ land y.1 y.2 ≠ tgt p ∧ dist p y ≤ dist p x))) := by
  obtain ⟨h1, s, r0, c0, H, W, hs, hnear, h2⟩ := regrid_targets _ lat lon hlat hlon nlat nlon ms data land ip dist vic tgt out hclear res h
  refine ⟨h1, r0, c0, H, W, hs.hr, hs.hc, hnear, fun k p hk => ⟨(h2 k p hk).1, fun hd => ?_⟩⟩
  obtain ⟨r, c, v, hr, hc, hcell, hv, hres⟩ := (h2 k p hk).2 hd
  unfold regridTarget at hv
  simp only [resolveQuad_cell lat lon s r0 c0 H W hs r c hr hc, bind, Except.bind, pure, Except.pure] at hv
  rw [if_neg (by decide), if_neg (by decide), if_pos trivial] at hv
  have hcor := cell_orig hs r c hr hc
  have hbig := slice_size hs
  by_cases hall : ∀ x ∈ Spec.corners (r0 + r) (c0 + c), land x.1 x.2 = tgt p
  · have hall' : ∀ x ∈ (cellQuad W r c).toList, land (origOf s x).1 (origOf s x).2 = tgt p := by
      intro x hx
      apply hall
      rw [← hcor]
      exact List.mem_map.mpr ⟨x, hx, rfl⟩
    have hnm : nearestMask s (fun i => dist p (origOf s i)) (fun i => land (origOf s i).1 (origOf s i).2) (tgt p) vic (cellQuad W r c) p =
        .ok (nearestPick ((cellQuad W r c).toList.map (fun i => some (degDist s p i))) (cellQuad W r c).toList) := by
      unfold nearestMask
      simp only [bind, Except.bind, pure, Except.pure]
      rw [if_neg]
      have : (sameSurface (fun i => land (origOf s i).1 (origOf s i).2) (tgt p) (cellQuad W r c).toList).count true = 4 := by
        unfold sameSurface
        rw [List.map_congr_left (g := fun _ => true) (fun x hx => by simpa using hall' x hx)]
        rfl
      omega
    obtain ⟨j, i, hj, hi, hval, hmin⟩ := nearest_corner lat lon hlat hlon s r0 c0 H W hs r c hr hc data p hcell
    have hnm' : nearestMask s (fun i => dist p (s.rows.getD (i / s.cols.length) 0, s.cols.getD (i % s.cols.length) 0))
        (fun i => land (s.rows.getD (i / s.cols.length) 0) (s.cols.getD (i % s.cols.length) 0)) (tgt p) vic (cellQuad W r c) p = _ := hnm
    rw [hnm'] at hv
    injection hv with hv
    refine ⟨j, i, r0 + r, c0 + c, ?_, ?_, hcell, ?_, fun hn => absurd hall hn⟩
    · unfold Spec.inWindow; dsimp only; omega
    · rw [hres, ← hv, hval]
    · refine fun _ => ⟨?_, hmin⟩
      have : (j, i) ∈ Spec.corners (r0 + r) (c0 + c) := by
        unfold Spec.corners
        rcases hj with rfl | rfl <;> rcases hi with rfl | rfl <;> simp
      exact hall _ this
  · have hno : ¬ ∀ x ∈ (cellQuad W r c).toList, land (origOf s x).1 (origOf s x).2 = tgt p := by
      intro hc'
      apply hall
      intro x hx
      rw [← hcor] at hx
      obtain ⟨y, hy, rfl⟩ := List.mem_map.mp hx
      exact hc' y hy
    cases hnm : nearestMask s (fun i => dist p (origOf s i)) (fun i => land (origOf s i).1 (origOf s i).2) (tgt p) vic (cellQuad W r c) p with
    | error e =>
      have hnm' : nearestMask s (fun i => dist p (s.rows.getD (i / s.cols.length) 0, s.cols.getD (i % s.cols.length) 0))
        (fun i => land (s.rows.getD (i / s.cols.length) 0) (s.cols.getD (i % s.cols.length) 0)) (tgt p) vic (cellQuad W r c) p = _ := hnm
      rw [hnm'] at hv; exact nomatch hv
    | ok x =>
    have hnm' : nearestMask s (fun i => dist p (s.rows.getD (i / s.cols.length) 0, s.cols.getD (i % s.cols.length) 0))
        (fun i => land (s.rows.getD (i / s.cols.length) 0) (s.cols.getD (i % s.cols.length) 0)) (tgt p) vic (cellQuad W r c) p = _ := hnm
    rw [hnm'] at hv
    injection hv with hv
    obtain ⟨hx, hsel⟩ := nearestMask_spec s _ _ (tgt p) vic (cellQuad W r c) p x hno hnm
    rw [hbig] at hx hsel
    refine ⟨(origOf s x).1, (origOf s x).2, r0 + r, c0 + c, (orig_of_lt hs x hx).2, by rw [hres, ← hv]; rfl, hcell, fun hn => absurd hn hall, fun _ => ?_⟩
    rcases hsel with ⟨a1, a2⟩ | ⟨a1, a2⟩
    · left
      refine ⟨a1, fun y hy hly => ?_⟩
      obtain ⟨z, hz, rfl⟩ := orig_surj hs y hy
      exact a2 z hz hly
    · right
      refine ⟨fun y hy => ?_, fun y hy hly => ?_⟩
      · obtain ⟨z, hz, rfl⟩ := orig_surj hs y hy
        exact a1 z hz
      · obtain ⟨z, hz, rfl⟩ := orig_surj hs y hy
        rcases a2 z hz hly with b | ⟨l, l1, l2, l3⟩
        · exact .inl b
        · refine .inr ⟨l.map (origOf s), nodup_orig hs l l1 (fun u hu => (l3 u hu).1), by simpa using l2, ?_⟩
          intro u hu
          obtain ⟨w, hw, rfl⟩ := List.mem_map.mp hu
          exact ⟨(orig_of_lt hs w (l3 w hw).1).2, (l3 w hw).2⟩

/-- C102, finding.  The value of a target depends on which other targets are regridded in the same call. -/
theorem C102_domain_refuted : ¬ ∀ (lat lon : RegAxis) (data : ℕ → ℕ → Option ℚ) (land : ℕ → ℕ → Bool) (dist : ℚ × ℚ → ℕ × ℕ → ℚ) (vic : ℚ) (tgt : ℚ × ℚ → Bool)
    (p q : ℚ × ℚ) (a b c : Option ℚ), 0 < lat.step → 0 < lon.step → Spec.inSource lat lon p → Spec.inSource lat lon q →
    regridWithMask "nearest-with-mask-2" lat lon (1, 1) data land (fun _ => 1) dist vic tgt [p] = .ok [a] →
    regridWithMask "nearest-with-mask-2" lat lon (1, 1) data land (fun _ => 1) dist vic tgt [p, q] = .ok [b, c] → a = b := by
  intro h
  have := h ⟨0, 1, 4⟩ ⟨0, 1, 10⟩ (fun j i => some (10 * j + i)) (fun j i => j == 1 && i == 4)
    (fun p x => 100 * |p.1 - x.1| + |p.2 - x.2|) 50 (fun p => decide (p.2 < 4)) (1, 1) (1, 8) (some 11) (some 14) (some 18)
    (by norm_num) (by norm_num) (by unfold Spec.inSource RegAxis.point; norm_num) (by unfold Spec.inSource RegAxis.point; norm_num)
    (by decide +kernel) (by decide +kernel)
  simp at this

/-- A regular case: an island of two points in the sea; the first target is land, the second is sea, the third is land far from the island. -/
example : regridWithMask "nearest-with-mask-2" ⟨0, 1, 8⟩ ⟨0, 1, 8⟩ (1, 1) (fun j i => some (10 * j + i)) (fun j i => j == 2 && (i == 2 || i == 3)) (fun _ => 1)
    (fun p x => (p.1 - x.1) ^ 2 + (p.2 - x.2) ^ 2) 9 (fun p => decide (p.1 ≠ 9 / 4)) [(3 / 2, 3 / 2), (9 / 4, 5 / 2), (13 / 2, 27 / 4), (9, 9)] =
    .ok [some 22, some 32, some 67, none] := by decide +kernel

/-! ## C103: bilinear with a mask -/

/-- A weighted sum of source values; missing if any of the points is missing. -/
def Spec.mix (data : ℕ → ℕ → Option ℚ) : List ((ℕ × ℕ) × ℚ) → Option ℚ
  | [] => some 0
  | (x, w) :: rest => match data x.1 x.2, Spec.mix data rest with
    | some v, some t => some (w * v + t)
    | _, _ => none

/-- Four weights of the corners of a cell that sum to one and reproduce the position of the target. -/
def Spec.Barycentric (lat lon : RegAxis) (p : ℚ × ℚ) (j i : ℕ) (w : List ℚ) : Prop :=
  w.length = 4 ∧ w.sum = 1 ∧
  (List.zipWith (fun x v => v * lat.point x.1) (Spec.corners j i) w).sum = p.1 ∧
  (List.zipWith (fun x v => v * lon.point x.2) (Spec.corners j i) w).sum = p.2

/-- Inverse distance weighting of the matching points of the list. -/
def Spec.idw (ip : ℕ × ℕ → ℚ) (ok : ℕ × ℕ → Bool) (l : List (ℕ × ℕ)) : List ((ℕ × ℕ) × ℚ) :=
  l.map (fun x => (x, if ok x then ip x / ((l.filter ok).map ip).sum else 0))

/-- The value from the matching points of the nearest four. -/
def Spec.FromFour (P : ℕ × ℕ → Prop) (ip dist : ℕ × ℕ → ℚ) (ok : ℕ × ℕ → Bool) (data : ℕ → ℕ → Option ℚ) (v : Option ℚ) : Prop :=
  ∃ l, Spec.Nearest P dist 4 l ∧ (∃ x ∈ l, ok x = true) ∧ v = Spec.mix data (Spec.idw ip ok l)

/-- None of the nearest four points matches. -/
def Spec.NoneOfFour (P : ℕ × ℕ → Prop) (dist : ℕ × ℕ → ℚ) (ok : ℕ × ℕ → Bool) : Prop :=
  ∃ l, Spec.Nearest P dist 4 l ∧ ∀ x ∈ l, ok x = false

/-- The value from the first four of the nearest eight points that match and are within the vicinity; `other` if there is none. -/
def Spec.FromEight (P : ℕ × ℕ → Prop) (ip dist : ℕ × ℕ → ℚ) (ok : ℕ × ℕ → Bool) (vic : ℚ) (corners : List (ℕ × ℕ)) (other : Option ℚ)
    (data : ℕ → ℕ → Option ℚ) (v : Option ℚ) : Prop :=
  ∃ l, Spec.Nearest P dist 8 l ∧
    let used := (l.filter (fun x => ok x && decide (dist x ≤ vic))).take 4
    (used = [] → v = other) ∧
    (used ≠ [] → v = Spec.mix data (used.map (fun x => (x, ip x / (used.map ip).sum)) ++ (corners.drop used.length).map (fun x => (x, 0))))

theorem applyWeights_mix (s : SrcGrid) (data : ℕ → ℕ → Option ℚ) (idx : List ℕ) (w : List ℚ) :
    applyWeights s data idx w = Spec.mix data ((idx.map (origOf s)).zip w) := by
  unfold applyWeights
  induction idx generalizing w with
  | nil => rfl
  | cons a as ih =>
    cases w with
    | nil => cases h : flatValue s data a <;> simp [sumWeighted, h, Spec.mix]
    | cons b bs =>
      have hv : flatValue s data a = data (origOf s a).1 (origOf s a).2 := rfl
      simp only [List.map_cons, List.zip_cons_cons, Spec.mix, ← ih, hv]
      cases data (origOf s a).1 (origOf s a).2 with
      | none => simp [sumWeighted]
      | some v =>
        simp only [sumWeighted]
        cases sumWeighted (List.map (flatValue s data) as) bs <;> rfl

theorem nearest_orig {lat lon : RegAxis} {s : SrcGrid} {r0 c0 H W : ℕ} (hs : SliceOf lat lon s r0 c0 H W) (dist : ℕ × ℕ → ℚ) (k : ℕ) (l : List ℕ)
    (h : Spec.Nearest (· < H * W) (fun x => dist (origOf s x)) k l) : Spec.Nearest (Spec.inWindow r0 c0 H W) dist k (l.map (origOf s)) where
  nodup := nodup_orig hs l h.nodup h.mem
  length := by simpa using h.length
  mem := by
    intro x hx
    obtain ⟨y, hy, rfl⟩ := List.mem_map.mp hx
    exact (orig_of_lt hs y (h.mem y hy)).2
  sorted := List.pairwise_map.mpr h.sorted
  rest := by
    intro y hy hyl x hx
    obtain ⟨u, hu, rfl⟩ := List.mem_map.mp hx
    obtain ⟨z, hz, rfl⟩ := orig_surj hs y hy
    exact h.rest z hz (fun hm => hyl (List.mem_map.mpr ⟨z, hm, rfl⟩)) u hu

theorem lakesIslands_spec {lat lon : RegAxis} {s : SrcGrid} {r0 c0 H W : ℕ} (hs : SliceOf lat lon s r0 c0 H W) (data : ℕ → ℕ → Option ℚ)
    (ip dist : ℕ × ℕ → ℚ) (land : ℕ → ℕ → Bool) (target : Bool) (vic : ℚ) (basic : List ℚ) (idx : List ℕ) (hidx : idx.length = 4) (wi : List ℚ × List ℕ)
    (h : lakesIslands s (fun x => ip (origOf s x)) (fun x => dist (origOf s x)) (fun x => land (origOf s x).1 (origOf s x).2) target vic basic idx = .ok wi) :
    Spec.FromEight (Spec.inWindow r0 c0 H W) ip dist (fun x => land x.1 x.2 == target) vic (idx.map (origOf s)) (applyWeights s data idx basic) data
      (applyWeights s data wi.2 wi.1) := by
  unfold lakesIslands lakeMatches at h
  simp only [bind, Except.bind, pure, Except.pure] at h
  rw [slice_size hs] at h
  cases h8 : nearestPts (H * W) (fun x => dist (origOf s x)) 8 with
  | error e => rw [h8] at h; exact nomatch h
  | ok pts =>
  rw [h8] at h
  simp only at h
  obtain ⟨-, hnear⟩ := nearestPts_spec _ _ _ _ h8
  refine ⟨pts.map (origOf s), nearest_orig hs dist 8 pts hnear, ?_⟩
  have hf : (pts.map (origOf s)).filter (fun x => (land x.1 x.2 == target) && decide (dist x ≤ vic)) =
      (pts.filter (fun i => (land (origOf s i).1 (origOf s i).2 == target) && !decide (dist (origOf s i) > vic))).map (origOf s) := by
    rw [List.filter_map]
    congr 1
    apply List.filter_congr
    intro x _
    simp only [Function.comp, gt_iff_lt, ← decide_not, not_lt]
  rw [hf]
  generalize pts.filter (fun i => (land (origOf s i).1 (origOf s i).2 == target) && !decide (dist (origOf s i) > vic)) = found at h
  rw [← List.map_take]
  constructor
  · intro he
    have : found = [] := by
      cases found with
      | nil => rfl
      | cons a as => simp at he
    rw [if_pos this] at h
    injection h with h
    rw [← h]
  · intro he
    have : found ≠ [] := by
      rintro rfl
      simp at he
    rw [if_neg this] at h
    injection h with h
    rw [← h]
    dsimp only
    rw [applyWeights_mix]
    congr 1
    have hle : (found.take 4).length ≤ 4 := by simp
    rw [List.map_append, List.zip_append (by simp)]
    congr 1
    · rw [List.map_map, ← List.map_map, List.map_map, List.zip_map', List.map_map]
      apply List.map_congr_left
      intro x _
      simp only [Function.comp, List.map_map, mul_one_div]
      rfl
    · rw [List.map_drop, List.length_map]
      have : ∀ (l : List (ℕ × ℕ)) (n : ℕ), l.length = n → l.zip (List.replicate n (0 : ℚ)) = l.map (fun x => (x, 0)) := by
        intro l
        induction l with
        | nil => intro n _; simp
        | cons a as ih =>
          intro n hn
          obtain ⟨m, rfl⟩ : ∃ m, n = m + 1 := ⟨as.length, by simpa using hn.symm⟩
          rw [List.replicate_succ, List.zip_cons_cons, ih m (by simpa using hn)]
          rfl
      apply this
      rw [List.length_drop, List.length_map, hidx]

theorem idwOrLakes_spec {lat lon : RegAxis} {s : SrcGrid} {r0 c0 H W : ℕ} (hs : SliceOf lat lon s r0 c0 H W) (data : ℕ → ℕ → Option ℚ)
    (ip dist : ℕ × ℕ → ℚ) (land : ℕ → ℕ → Bool) (target : Bool) (vic : ℚ) (basic : List ℚ) (idx : List ℕ) (hidx : idx.length = 4) (wi : List ℚ × List ℕ)
    (h : idwOrLakes s (fun x => ip (origOf s x)) (fun x => dist (origOf s x)) (fun x => land (origOf s x).1 (origOf s x).2) target vic basic idx = .ok wi) :
    Spec.FromFour (Spec.inWindow r0 c0 H W) ip dist (fun x => land x.1 x.2 == target) data (applyWeights s data wi.2 wi.1) ∨
    (Spec.NoneOfFour (Spec.inWindow r0 c0 H W) dist (fun x => land x.1 x.2 == target) ∧
      Spec.FromEight (Spec.inWindow r0 c0 H W) ip dist (fun x => land x.1 x.2 == target) vic (idx.map (origOf s)) (applyWeights s data idx basic) data
        (applyWeights s data wi.2 wi.1)) := by
  unfold idwOrLakes at h
  simp only [bind, Except.bind, pure, Except.pure] at h
  rw [slice_size hs] at h
  cases h4 : nearestPts (H * W) (fun x => dist (origOf s x)) 4 with
  | error e => rw [h4] at h; exact nomatch h
  | ok pts =>
  rw [h4] at h
  simp only at h
  obtain ⟨-, hnear⟩ := nearestPts_spec _ _ _ _ h4
  by_cases h0 : (sameSurface (fun x => land (origOf s x).1 (origOf s x).2) target pts).count true = 0
  · rw [if_pos h0] at h
    right
    refine ⟨⟨pts.map (origOf s), nearest_orig hs dist 4 pts hnear, ?_⟩, lakesIslands_spec hs data ip dist land target vic basic idx hidx wi h⟩
    intro x hx
    obtain ⟨y, hy, rfl⟩ := List.mem_map.mp hx
    rw [List.count_eq_zero] at h0
    rw [← Bool.not_eq_true]
    intro hc
    exact h0 (List.mem_map.mpr ⟨y, hy, hc⟩)
  · rw [if_neg h0] at h
    injection h with h
    left
    refine ⟨pts.map (origOf s), nearest_orig hs dist 4 pts hnear, ?_, ?_⟩
    · have : true ∈ sameSurface (fun x => land (origOf s x).1 (origOf s x).2) target pts := by
        by_contra hc
        exact h0 (List.count_eq_zero.mpr hc)
      obtain ⟨x, hx, hxe⟩ := List.mem_map.mp this
      exact ⟨_, List.mem_map.mpr ⟨x, hx, rfl⟩, hxe⟩
    · rw [← h]
      dsimp only
      rw [applyWeights_mix]
      congr 1
      have hz : List.zipWith (fun i (b : Bool) => if b then ip (origOf s i) else 0) pts (sameSurface (fun x => land (origOf s x).1 (origOf s x).2) target pts) =
          pts.map (fun i => if (land (origOf s i).1 (origOf s i).2 == target) = true then ip (origOf s i) else 0) := by
        unfold sameSurface
        rw [List.zipWith_map_right, List.zipWith_self]
      rw [hz]
      have hsum : ∀ l : List ℕ, (l.map (fun i => if (land (origOf s i).1 (origOf s i).2 == target) = true then ip (origOf s i) else 0)).sum =
          (((l.map (origOf s)).filter (fun x => land x.1 x.2 == target)).map ip).sum := by
        intro l
        induction l with
        | nil => rfl
        | cons a as ih =>
          simp only [List.map_cons, List.sum_cons, ih]
          by_cases hb : (land (origOf s a).1 (origOf s a).2 == target) = true
          · rw [if_pos hb, List.filter_cons_of_pos (p := fun x : ℕ × ℕ => land x.1 x.2 == target) hb]; rfl
          · rw [if_neg hb, List.filter_cons_of_neg (p := fun x : ℕ × ℕ => land x.1 x.2 == target) hb, zero_add]
      rw [hsum]
      unfold Spec.idw
      rw [List.map_map, List.map_map, List.zip_map']
      apply List.map_congr_left
      intro x _
      simp only [Function.comp]
      by_cases hb : (land (origOf s x).1 (origOf s x).2 == target) = true
      · rw [if_pos hb, if_pos hb, mul_one_div]
      · rw [if_neg hb, if_neg hb, zero_mul]


theorem triangle_spec (lat lon : RegAxis) (hlat : 0 < lat.step) (hlon : 0 < lon.step) (s : SrcGrid) (r0 c0 H W : ℕ) (hs : SliceOf lat lon s r0 c0 H W)
    (r c : ℕ) (hr : r + 1 < H) (hc : c + 1 < W) (p : ℚ × ℚ) (m : ℕ) (hm : m < 4) :
    Spec.Barycentric lat lon p (r0 + r) (c0 + c) (triangleWeights s lat.step lon.step (cellQuad W r c) p m) ∧
    (triangleWeights s lat.step lon.step (cellQuad W r c) p m)[m]? = some 0 := by
  have hp := (flat_cell lat lon s r0 c0 H W hs r c (by omega) (by omega)).1
  have hi1 : (cellQuad W r c).i1 = r * W + c := rfl
  have e1 := hlat.ne'
  have e2 := hlon.ne'
  unfold triangleWeights Spec.Barycentric Spec.corners
  rw [hi1, hp]
  interval_cases m
  all_goals
    simp only [if_true, OfNat.ofNat_ne_zero, OfNat.ofNat_ne_one, one_ne_zero, if_false, List.length_cons, List.length_nil, List.sum_cons, List.sum_nil,
      List.zipWith_cons_cons, List.zipWith_nil_left, List.getElem?_cons_zero, List.getElem?_cons_succ, RegAxis.point_succ, Nat.reduceEqDiff, and_true]
    refine ⟨trivial, ?_, ?_, ?_⟩
    all_goals
      field_simp
      ring

theorem one_mismatch {α : Type} (ok : α → Bool) (x1 x2 x3 x4 : α) (hn : [x1, x2, x3, x4].countP ok = 3) :
    ∃ m < 4, ([x1, x2, x3, x4].map ok).idxOf false = m ∧ ∀ (m' : ℕ) x, [x1, x2, x3, x4][m']? = some x → ok x = false → m' = m := by
  have cases4 : ∀ (m' : ℕ) x, [x1, x2, x3, x4][m']? = some x → (m' = 0 ∧ x = x1) ∨ (m' = 1 ∧ x = x2) ∨ (m' = 2 ∧ x = x3) ∨ (m' = 3 ∧ x = x4) := by
    intro m' x hx
    rcases m' with _ | _ | _ | _ | m' <;> simp at hx <;> subst hx <;> simp
  simp only [List.countP_cons, List.countP_nil] at hn
  simp only [List.map_cons, List.map_nil]
  cases o1 : ok x1 with
  | false =>
    cases o2 : ok x2 with
    | false => simp only [o1, o2] at hn; split_ifs at hn <;> first | omega | simp_all
    | true =>
    cases o3 : ok x3 with
    | false => simp only [o1, o2, o3] at hn; split_ifs at hn <;> first | omega | simp_all
    | true =>
    cases o4 : ok x4 with
    | false => simp [o1, o2, o3, o4] at hn
    | true =>
      refine ⟨0, by norm_num, by decide, fun m' x hx hf => ?_⟩
      rcases cases4 m' x hx with ⟨a, b⟩ | ⟨a, b⟩ | ⟨a, b⟩ | ⟨a, b⟩ <;> subst b <;> simp_all
  | true =>
    cases o2 : ok x2 with
    | false =>
      cases o3 : ok x3 with
      | false => simp only [o1, o2, o3] at hn; split_ifs at hn <;> first | omega | simp_all
      | true =>
      cases o4 : ok x4 with
      | false => simp [o1, o2, o3, o4] at hn
      | true =>
        refine ⟨1, by norm_num, by decide, fun m' x hx hf => ?_⟩
        rcases cases4 m' x hx with ⟨a, b⟩ | ⟨a, b⟩ | ⟨a, b⟩ | ⟨a, b⟩ <;> subst b <;> simp_all
    | true =>
      cases o3 : ok x3 with
      | false =>
        cases o4 : ok x4 with
        | false => simp [o1, o2, o3, o4] at hn
        | true =>
          refine ⟨2, by norm_num, by decide, fun m' x hx hf => ?_⟩
          rcases cases4 m' x hx with ⟨a, b⟩ | ⟨a, b⟩ | ⟨a, b⟩ | ⟨a, b⟩ <;> subst b <;> simp_all
      | true =>
        cases o4 : ok x4 with
        | false =>
          refine ⟨3, by norm_num, by decide, fun m' x hx hf => ?_⟩
          rcases cases4 m' x hx with ⟨a, b⟩ | ⟨a, b⟩ | ⟨a, b⟩ | ⟨a, b⟩ <;> subst b <;> simp_all
        | true => simp [o1, o2, o3, o4] at hn

set_option maxHeartbeats 800000 in
/-- C103.  Bilinear regridding with a land mask.  Every target outside the domain is missing.  A target inside, in the cell `(j0, i0)`, of whose
corners `n` have the type of the target:
* `n = 4`: bilinear interpolation in the cell;
* `n = 3`: a combination of the three matching corners whose weights sum to one and reproduce the position of the target, if no weight is below -1e-8
  (the target is in their triangle); the fourth corner has weight zero;
* otherwise: inverse distance weighting of those of the nearest four source points that match; if none does, or if `n = 0`, of the (up to four) nearest of
  the nearest eight that match and are within the vicinity radius; if there is none, plain bilinear interpolation.
(Targets nearly but not exactly on a grid line are excluded.  Points with weight zero can still make the target missing: `C103_missing_refuted`.) -/
theorem C103_bilinear_mask_partial (lat lon : RegAxis) (hlat : 0 < lat.step) (hlon : 0 < lon.step) (nlat : 2 ≤ lat.n) (nlon : 2 ≤ lon.n)
    (ms : ℚ × ℚ) (data : ℕ → ℕ → Option ℚ) (land : ℕ → ℕ → Bool) (ip : ℚ → ℚ) (dist : ℚ × ℚ → ℕ × ℕ → ℚ) (vic : ℚ) (tgt : ℚ × ℚ → Bool)
    (out : List (ℚ × ℚ)) (hclear : ∀ p ∈ out, Spec.clear lat lon p) (res : List (Option ℚ))
    (h : regridWithMask "bilinear-with-mask-2" lat lon ms data land ip dist vic tgt out = .ok res) :
    res.length = out.length ∧ ∃ r0 c0 H W, r0 + H ≤ lat.n ∧ c0 + W ≤ lon.n ∧
      (∀ p ∈ out, (∀ k < lat.n, |lat.point k - p.1| < 2 * lat.step → r0 ≤ k ∧ k < r0 + H) ∧
        (∀ k < lon.n, |lon.point k - p.2| < 2 * lon.step → c0 ≤ k ∧ k < c0 + W)) ∧
      ∀ (k : ℕ) p, out[k]? = some p →
      (¬ Spec.inSource lat lon p → res[k]? = some none) ∧
      (Spec.inSource lat lon p → ∃ j0 i0 v, Spec.inCell lat lon p j0 i0 ∧ res[k]? = some v ∧
        let P := Spec.inWindow r0 c0 H W
        let ok := fun x : ℕ × ℕ => land x.1 x.2 == tgt p
        let n := (Spec.corners j0 i0).countP ok
        let four := Spec.FromFour P (fun x => ip (dist p x)) (dist p) ok data v
        let eight := Spec.FromEight P (fun x => ip (dist p x)) (dist p) ok vic (Spec.corners j0 i0) (Spec.bilinearAt lat lon data p j0 i0) data v
        let fallback := four ∨ (Spec.NoneOfFour P (dist p) ok ∧ eight)
        (n = 4 → v = Spec.bilinearAt lat lon data p j0 i0) ∧
        (n = 3 → ∃ w, Spec.Barycentric lat lon p j0 i0 w ∧ (∀ xw ∈ (Spec.corners j0 i0).zip w, ok xw.1 = false → xw.2 = 0) ∧
          ((∀ x ∈ w, x > -1 / 100000000) → v = Spec.mix data ((Spec.corners j0 i0).zip w)) ∧
          ((¬ ∀ x ∈ w, x > -1 / 100000000) → fallback)) ∧
        (n = 1 ∨ n = 2 → fallback) ∧
        (n = 0 → eight)) := by
  obtain ⟨h1, s, r0, c0, H, W, hs, hnear, h2⟩ := regrid_targets _ lat lon hlat hlon nlat nlon ms data land ip dist vic tgt out hclear res h
  refine ⟨h1, r0, c0, H, W, hs.hr, hs.hc, hnear, fun k p hk => ⟨(h2 k p hk).1, fun hd => ?_⟩⟩
  obtain ⟨r, c, v, hr, hc, hcell, hv, hres⟩ := (h2 k p hk).2 hd
  unfold regridTarget at hv
  simp only [resolveQuad_cell lat lon s r0 c0 H W hs r c hr hc, bind, Except.bind, pure, Except.pure] at hv
  rw [if_neg (by decide), if_neg (by decide), if_neg (by decide), if_pos trivial] at hv
  have hcor := cell_orig hs r c hr hc
  refine ⟨r0 + r, c0 + c, v, hcell, hres, ?_⟩
  intro P ok n four eight fallback
  cases hb : bilinearMask s lat.step lon.step (fun x => (fun y => ip (dist p y)) (origOf s x)) (fun x => dist p (origOf s x))
      (fun x => land (origOf s x).1 (origOf s x).2) (tgt p) vic (cellQuad W r c) p with
  | error e =>
    have hb' : bilinearMask s lat.step lon.step (fun i => ip (dist p (s.rows.getD (i / s.cols.length) 0, s.cols.getD (i % s.cols.length) 0)))
      (fun i => dist p (s.rows.getD (i / s.cols.length) 0, s.cols.getD (i % s.cols.length) 0))
      (fun i => land (s.rows.getD (i / s.cols.length) 0) (s.cols.getD (i % s.cols.length) 0)) (tgt p) vic (cellQuad W r c) p = _ := hb
    rw [hb'] at hv; exact nomatch hv
  | ok wi =>
  have hb' : bilinearMask s lat.step lon.step (fun i => ip (dist p (s.rows.getD (i / s.cols.length) 0, s.cols.getD (i % s.cols.length) 0)))
    (fun i => dist p (s.rows.getD (i / s.cols.length) 0, s.cols.getD (i % s.cols.length) 0))
    (fun i => land (s.rows.getD (i / s.cols.length) 0) (s.cols.getD (i % s.cols.length) 0)) (tgt p) vic (cellQuad W r c) p = _ := hb
  rw [hb'] at hv
  injection hv with hv
  have hsame : sameSurface (fun x => land (origOf s x).1 (origOf s x).2) (tgt p) (cellQuad W r c).toList = (Spec.corners (r0 + r) (c0 + c)).map ok := by
    rw [← hcor, List.map_map]; rfl
  have hcount : (sameSurface (fun x => land (origOf s x).1 (origOf s x).2) (tgt p) (cellQuad W r c).toList).count true = n := by
    rw [hsame, List.count_eq_countP, List.countP_map]
    apply List.countP_congr
    intro x _
    simp
  have hbil := basic_bilinear lat lon hlat hlon s r0 c0 H W hs r c hr hc data p
  have hlen : (cellQuad W r c).toList.length = 4 := rfl
  have fb : idwOrLakes s (fun x => (fun y => ip (dist p y)) (origOf s x)) (fun x => dist p (origOf s x)) (fun x => land (origOf s x).1 (origOf s x).2) (tgt p) vic
      (basicWeights s lat.step lon.step (cellQuad W r c) p) (cellQuad W r c).toList = .ok wi → fallback := by
    intro hi
    have := idwOrLakes_spec hs data (fun y => ip (dist p y)) (dist p) land (tgt p) vic _ _ hlen wi hi
    rw [hcor, hbil, hv] at this
    exact this
  have lk : lakesIslands s (fun x => (fun y => ip (dist p y)) (origOf s x)) (fun x => dist p (origOf s x)) (fun x => land (origOf s x).1 (origOf s x).2) (tgt p) vic
      (basicWeights s lat.step lon.step (cellQuad W r c) p) (cellQuad W r c).toList = .ok wi → eight := by
    intro hi
    have := lakesIslands_spec hs data (fun y => ip (dist p y)) (dist p) land (tgt p) vic _ _ hlen wi hi
    rw [hcor, hbil, hv] at this
    exact this
  unfold bilinearMask at hb
  simp only [hcount] at hb
  refine ⟨fun hn => ?_, fun hn => ?_, fun hn => ?_, fun hn => ?_⟩
  · rw [if_pos hn] at hb
    injection hb with hb
    rw [← hv, ← hb]
    exact hbil
  · rw [if_neg (by omega), if_pos hn] at hb
    rw [hsame] at hb
    have hex := one_mismatch ok _ _ _ _ hn
    rw [show [(r0 + r, c0 + c), (r0 + r + 1, c0 + c), (r0 + r + 1, c0 + c + 1), (r0 + r, c0 + c + 1)] = Spec.corners (r0 + r) (c0 + c) from rfl] at hex
    obtain ⟨m, hm4, hm, huniq⟩ := hex
    rw [hm] at hb
    obtain ⟨hbary, hzero⟩ := triangle_spec lat lon hlat hlon s r0 c0 H W hs r c hr hc p m hm4
    refine ⟨triangleWeights s lat.step lon.step (cellQuad W r c) p m, hbary, ?_, ?_, ?_⟩
    · intro xw hxw hf
      obtain ⟨m', hm'⟩ := List.mem_iff_getElem?.mp hxw
      rw [List.getElem?_zip_eq_some] at hm'
      have := huniq m' xw.1 hm'.1 hf
      rw [this, hzero] at hm'
      simpa using hm'.2.symm
    · intro hall
      rw [if_pos (by rw [List.all_eq_true]; intro x hx; simpa using hall x hx)] at hb
      injection hb with hb
      rw [← hv, ← hb]
      dsimp only
      rw [applyWeights_mix, hcor]
    · intro hall
      rw [if_neg (by rw [List.all_eq_true]; intro hc'; exact hall (fun x hx => by simpa using hc' x hx))] at hb
      exact fb hb
  · rw [if_neg (by omega), if_neg (by omega), if_neg (by omega)] at hb
    exact fb hb
  · rw [if_neg (by omega), if_neg (by omega), if_pos hn] at hb
    exact lk hb


theorem mix_range (data : ℕ → ℕ → Option ℚ) (lo hi : ℚ) (ws : List ((ℕ × ℕ) × ℚ)) :
    ∀ y, (∀ xw ∈ ws, 0 ≤ xw.2) → (∀ xw ∈ ws, xw.2 ≠ 0 → ∀ q, data xw.1.1 xw.1.2 = some q → lo ≤ q ∧ q ≤ hi) → Spec.mix data ws = some y →
      lo * (ws.map (·.2)).sum ≤ y ∧ y ≤ hi * (ws.map (·.2)).sum := by
  induction ws with
  | nil => intro y _ _ h; simp only [Spec.mix, Option.some.injEq] at h; simp [← h]
  | cons a as ih =>
    intro y hpos hb h
    obtain ⟨x, w⟩ := a
    simp only [Spec.mix] at h
    cases hv : data x.1 x.2 with
    | none => simp [hv] at h
    | some q =>
    cases ht : Spec.mix data as with
    | none => simp [hv, ht] at h
    | some t =>
    simp only [hv, ht, Option.some.injEq] at h
    obtain ⟨i1, i2⟩ := ih t (fun xw hx => hpos xw (List.mem_cons_of_mem _ hx)) (fun xw hx => hb xw (List.mem_cons_of_mem _ hx)) ht
    simp only [List.map_cons, List.sum_cons]
    have w0 : 0 ≤ w := hpos (x, w) (by simp)
    have key : lo * w ≤ w * q ∧ w * q ≤ hi * w := by
      by_cases hw : w = 0
      · simp [hw]
      · obtain ⟨b1, b2⟩ := hb (x, w) (by simp) hw q hv
        constructor <;> nlinarith
    rw [← h]
    constructor <;> nlinarith [key.1, key.2]

/-- The weights of inverse distance weighting: they sum to one and only matching points have a weight. -/
theorem C103_idw_weights (ip : ℕ × ℕ → ℚ) (hip : ∀ x, 0 < ip x) (ok : ℕ × ℕ → Bool) (l : List (ℕ × ℕ)) (hex : ∃ x ∈ l, ok x = true) :
    ((Spec.idw ip ok l).map (·.2)).sum = 1 ∧ ∀ xw ∈ Spec.idw ip ok l, 0 ≤ xw.2 ∧ (xw.2 ≠ 0 ↔ ok xw.1 = true) := by
  have hpos : 0 < ((l.filter ok).map ip).sum := by
    obtain ⟨x, hx, ho⟩ := hex
    have hm : ip x ∈ (l.filter ok).map ip := List.mem_map.mpr ⟨x, List.mem_filter.mpr ⟨hx, ho⟩, rfl⟩
    exact lt_of_lt_of_le (hip x) (List.single_le_sum (by intro y hy; obtain ⟨z, _, rfl⟩ := List.mem_map.mp hy; exact (hip z).le) _ hm)
  constructor
  · unfold Spec.idw
    rw [List.map_map]
    generalize ht : ((l.filter ok).map ip).sum = T at hpos ⊢
    have : ∀ l' : List (ℕ × ℕ), (l'.map ((·.2) ∘ fun x => (x, if ok x = true then ip x / T else 0))).sum = ((l'.filter ok).map ip).sum / T := by
      intro l'
      induction l' with
      | nil => simp
      | cons a as ih =>
        rw [List.map_cons, List.sum_cons, ih]
        by_cases ha : ok a = true
        · rw [List.filter_cons_of_pos ha, List.map_cons, List.sum_cons]
          simp only [Function.comp, ha, if_true]
          ring
        · rw [List.filter_cons_of_neg ha]
          simp only [Function.comp, ha]
          simp
    rw [this, ht]
    exact div_self hpos.ne'
  · intro xw hx
    obtain ⟨x, _, rfl⟩ := List.mem_map.mp hx
    dsimp only
    by_cases ha : ok x = true
    · rw [if_pos ha]
      have := div_pos (hip x) hpos
      exact ⟨this.le, fun _ => ha, fun _ => this.ne'⟩
    · rw [if_neg ha]
      simp [ha]

/-- C103.  Inverse distance weighting makes no new extremes: the value lies between the values of the points of the type of the target.  (`ip` is a
positive function.) -/
theorem C103_four_range (P : ℕ × ℕ → Prop) (ip dist : ℕ × ℕ → ℚ) (hip : ∀ x, 0 < ip x) (ok : ℕ × ℕ → Bool) (data : ℕ → ℕ → Option ℚ) (y lo hi : ℚ)
    (hb : ∀ x q, P x → ok x = true → data x.1 x.2 = some q → lo ≤ q ∧ q ≤ hi) (h : Spec.FromFour P ip dist ok data (some y)) : lo ≤ y ∧ y ≤ hi := by
  obtain ⟨l, hn, hex, hv⟩ := h
  obtain ⟨w1, w2⟩ := C103_idw_weights ip hip ok l hex
  have := mix_range data lo hi _ y (fun xw hx => (w2 xw hx).1) (fun xw hx hne q hq => by
    have hok := (w2 xw hx).2.mp hne
    obtain ⟨x, hxl, rfl⟩ := List.mem_map.mp hx
    exact hb x q (hn.mem x hxl) hok hq) hv.symm
  rwa [w1, mul_one, mul_one] at this

/-- C103.  The same for a target on an island or a lake. -/
theorem C103_eight_range (P : ℕ × ℕ → Prop) (ip dist : ℕ × ℕ → ℚ) (hip : ∀ x, 0 < ip x) (ok : ℕ × ℕ → Bool) (vic : ℚ) (corners : List (ℕ × ℕ)) (other : Option ℚ)
    (data : ℕ → ℕ → Option ℚ) (y lo hi : ℚ) (hb : ∀ x q, P x → ok x = true → dist x ≤ vic → data x.1 x.2 = some q → lo ≤ q ∧ q ≤ hi)
    (h : Spec.FromEight P ip dist ok vic corners other data (some y)) : other = some y ∨ (lo ≤ y ∧ y ≤ hi) := by
  obtain ⟨l, hn, h0, h1⟩ := h
  by_cases hu : (l.filter (fun x => ok x && decide (dist x ≤ vic))).take 4 = []
  · exact .inl (h0 hu).symm
  right
  have hv := h1 hu
  have hmem : ∀ x ∈ (l.filter (fun x => ok x && decide (dist x ≤ vic))).take 4, x ∈ l ∧ ok x = true ∧ dist x ≤ vic := by
    intro x hx
    have := List.mem_filter.mp (List.mem_of_mem_take hx)
    simpa using this
  generalize (l.filter (fun x => ok x && decide (dist x ≤ vic))).take 4 = used at hu hv hmem
  have hpos : 0 < (used.map ip).sum := by
    obtain ⟨a, as, rfl⟩ := List.exists_cons_of_ne_nil hu
    rw [List.map_cons, List.sum_cons]
    have : 0 ≤ (as.map ip).sum := List.sum_nonneg (by intro z hz; obtain ⟨u, _, rfl⟩ := List.mem_map.mp hz; exact (hip u).le)
    linarith [hip a]
  have hall : ∀ xw ∈ used.map (fun x => (x, ip x / (used.map ip).sum)) ++ (corners.drop used.length).map (fun x => (x, (0 : ℚ))),
      (xw.1 ∈ used ∧ 0 ≤ xw.2) ∨ xw.2 = 0 := by
    intro xw hx
    rcases List.mem_append.mp hx with hx | hx
    · obtain ⟨x, hxu, rfl⟩ := List.mem_map.mp hx
      exact .inl ⟨hxu, (div_pos (hip x) hpos).le⟩
    · obtain ⟨x, _, rfl⟩ := List.mem_map.mp hx
      exact .inr rfl
  have := mix_range data lo hi _ y (fun xw hx => by rcases hall xw hx with h | h; exacts [h.2, h.ge]) (fun xw hx hne q hq => by
    rcases hall xw hx with h | h
    · obtain ⟨m1, m2, m3⟩ := hmem xw.1 h.1
      exact hb xw.1 q (hn.mem _ m1) m2 m3 hq
    · exact absurd h hne) hv.symm
  have hsum : ((used.map (fun x => (x, ip x / (used.map ip).sum)) ++ (corners.drop used.length).map (fun x => (x, (0 : ℚ)))).map (·.2)).sum = 1 := by
    rw [List.map_append, List.sum_append, List.map_map, List.map_map]
    have e1 : (used.map ((·.2) ∘ fun x => (x, ip x / (used.map ip).sum))).sum = 1 := by
      have : ∀ (T : ℚ) (l' : List (ℕ × ℕ)), (l'.map ((·.2) ∘ fun x => (x, ip x / T))).sum = (l'.map ip).sum / T := by
        intro T l'
        induction l' with
        | nil => simp
        | cons a as ih => rw [List.map_cons, List.sum_cons, ih, List.map_cons, List.sum_cons]; simp only [Function.comp]; ring
      rw [this]
      exact div_self hpos.ne'
    have e2 : ((corners.drop used.length).map ((·.2) ∘ fun x => (x, (0 : ℚ)))).sum = 0 := by
      apply List.sum_eq_zero
      intro z hz
      obtain ⟨u, _, rfl⟩ := List.mem_map.mp hz
      rfl
    rw [e1, e2, add_zero]
  rwa [hsum, mul_one, mul_one] at this

/-- C103, finding.  A source point of the other type, which has weight zero, makes the target missing if it is missing itself: a sea target next to
masked land is lost although three sea points surround it. -/
theorem C103_missing_refuted : ¬ ∀ (lat lon : RegAxis) (data : ℕ → ℕ → Option ℚ) (land : ℕ → ℕ → Bool) (dist : ℚ × ℚ → ℕ × ℕ → ℚ) (vic : ℚ) (tgt : ℚ × ℚ → Bool)
    (p : ℚ × ℚ) (a : Option ℚ), 0 < lat.step → 0 < lon.step → Spec.inSource lat lon p → (∀ j i, land j i = tgt p → data j i ≠ none) →
    (∃ j i, land j i = tgt p ∧ j < lat.n ∧ i < lon.n ∧ dist p (j, i) ≤ vic) →
    regridWithMask "bilinear-with-mask-2" lat lon (1, 1) data land (fun _ => 1) dist vic tgt [p] = .ok [a] → a ≠ none := by
  intro h
  refine h ⟨0, 1, 4⟩ ⟨0, 1, 4⟩ (fun j i => if j == 1 && i == 1 then none else some (10 * j + i)) (fun j i => j == 1 && i == 1)
    (fun p x => (p.1 - x.1) ^ 2 + (p.2 - x.2) ^ 2) 9 (fun _ => false) (7 / 4, 7 / 4) none
    (by norm_num) (by norm_num) (by unfold Spec.inSource RegAxis.point; norm_num) ?_ ⟨2, 2, by decide, by norm_num, by norm_num, by norm_num⟩
    (by decide +kernel) rfl
  intro j i hji
  rw [hji]
  simp

/-- Regular cases: all corners sea; one corner land and the target in the triangle of the other three; the target next to the land corner; land with no
corner of its type; outside. -/
example : regridWithMask "bilinear-with-mask-2" ⟨0, 1, 8⟩ ⟨0, 1, 8⟩ (1, 1) (fun j i => some (10 * j + i)) (fun j i => j == 2 && i == 2) (fun d => 1 / (d + 1))
    (fun p x => (p.1 - x.1) ^ 2 + (p.2 - x.2) ^ 2) 9 (fun p => decide (p.1 = 4)) [(1 / 2, 1 / 2), (11 / 4, 11 / 4), (9 / 4, 9 / 4), (4, 4), (9, 9)] =
    .ok [some (11 / 2), some (121 / 4), some (1364 / 47), some 44, none] := by decide +kernel

end Improver
