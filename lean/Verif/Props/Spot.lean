import Verif.Model.Spot
import Verif.Props.Times
import Verif.Lemmas.ListAux
import Mathlib.Data.List.Dedup

/-! C83-C85: choosing grid points for spot sites, extracting values there, subsetting spot data. -/

namespace Improver

/-! ### Specification -/

/-- Grid points a site may use: on the grid, and on land if that is asked for. -/
def Spec.eligible (landConstraint : Bool) (nx ny : ℕ) (land : ℕ → ℕ → Bool) (n : ℕ × ℕ) : Prop :=
  n.1 < nx ∧ n.2 < ny ∧ (landConstraint = true → land n.1 n.2 = true)

/-! ### Helpers -/

theorem mem_gridNodes {nx ny : ℕ} {n : ℕ × ℕ} : n ∈ gridNodes nx ny ↔ n.1 < nx ∧ n.2 < ny := by
  unfold gridNodes
  obtain ⟨i, j⟩ := n
  simp only [List.mem_flatMap, List.mem_map, List.mem_range, Prod.mk.injEq]
  constructor
  · rintro ⟨a, ha, b, hb, rfl, rfl⟩; exact ⟨ha, hb⟩
  · rintro ⟨h1, h2⟩; exact ⟨i, h1, j, h2, rfl, rfl⟩

theorem mem_treeNodes {l : Bool} {nx ny : ℕ} {land : ℕ → ℕ → Bool} {n : ℕ × ℕ} :
    n ∈ treeNodes l nx ny land ↔ Spec.eligible l nx ny land n := by
  unfold treeNodes Spec.eligible
  cases l
  · simp [mem_gridNodes]
  · simp [mem_gridNodes, and_assoc]

theorem gridNodes_nodup (nx ny : ℕ) : (gridNodes nx ny).Nodup := by
  unfold gridNodes
  rw [List.nodup_flatMap]
  refine ⟨fun i _ => ?_, ?_⟩
  · refine (List.nodup_range).map ?_
    intro a b h; simpa using h
  · refine List.Pairwise.imp ?_ (List.pairwise_lt_range (n := nx))
    intro a b hab
    simp only [Function.onFun, List.disjoint_left, List.mem_map]
    rintro x ⟨_, _, rfl⟩ ⟨_, _, h⟩
    simp at h; omega

theorem treeNodes_nodup (l : Bool) (nx ny : ℕ) (land : ℕ → ℕ → Bool) : (treeNodes l nx ny land).Nodup := by
  unfold treeNodes
  split
  · exact (gridNodes_nodup nx ny).filter _
  · exact gridNodes_nodup nx ny

theorem sorted_by_dist (dist : ℕ × ℕ → ℚ) (nodes : List (ℕ × ℕ)) :
    (nodes.insertionSort (fun a b => dist a ≤ dist b)).Pairwise (fun a b => dist a ≤ dist b) := by
  have : Std.Total (fun a b : ℕ × ℕ => dist a ≤ dist b) := ⟨fun a b => le_total _ _⟩
  have : IsTrans (ℕ × ℕ) (fun a b : ℕ × ℕ => dist a ≤ dist b) := ⟨fun a b c => le_trans⟩
  exact List.pairwise_insertionSort _ nodes

theorem foldl_min_spec : ∀ (l : List ℚ) (a : ℚ), (l.foldl min a = a ∨ l.foldl min a ∈ l) ∧ l.foldl min a ≤ a ∧
    ∀ v ∈ l, l.foldl min a ≤ v
  | [], a => by simp
  | b :: l, a => by
    obtain ⟨h1, h2, h3⟩ := foldl_min_spec l (min a b)
    rw [List.foldl_cons]
    refine ⟨?_, le_trans h2 (min_le_left _ _), ?_⟩
    · rcases h1 with h1 | h1
      · rcases le_total a b with h | h
        · left; rw [h1, min_eq_left h]
        · right; rw [h1, min_eq_right h]; simp
      · right; exact List.mem_cons_of_mem _ h1
    · intro v hv
      rcases List.mem_cons.1 hv with rfl | hv
      · exact le_trans h2 (min_le_right _ _)
      · exact h3 v hv

theorem npMin_least {l : List ℚ} {m : ℚ} (h : npMin l = .ok m) : m ∈ l ∧ ∀ v ∈ l, m ≤ v := by
  cases l with
  | nil => exact nomatch h
  | cons a l =>
    injection h with h
    obtain ⟨h1, h2, h3⟩ := foldl_min_spec l a
    rw [h] at h1 h2 h3
    refine ⟨?_, ?_⟩
    · rcases h1 with rfl | h1
      · simp
      · simp [h1]
    · intro v hv
      rcases List.mem_cons.1 hv with rfl | hv
      · exact h2
      · exact h3 v hv

/-- The chosen node has the least vertical displacement, and comes before every other node with as little. -/
theorem selectMinimumDz_spec (orog : ℕ → ℕ → ℚ) (alt : ℚ) (found : List (ℕ × ℕ)) :
    (found = [] → selectMinimumDz orog alt found = none) ∧
    (found ≠ [] → ∃ pre n post, selectMinimumDz orog alt found = some n ∧ found = pre ++ n :: post ∧
      (∀ m ∈ found, |orog n.1 n.2 - alt| ≤ |orog m.1 m.2 - alt|) ∧
      ∀ m ∈ pre, |orog n.1 n.2 - alt| < |orog m.1 m.2 - alt|) := by
  constructor
  · rintro rfl; rfl
  · intro hne
    unfold selectMinimumDz
    cases hm : npMin (found.map (fun n => |orog n.1 n.2 - alt|)) with
    | error e =>
      exfalso
      cases found with
      | nil => exact hne rfl
      | cons a l => exact nomatch hm
    | ok m =>
      obtain ⟨hmem, hle⟩ := npMin_least hm
      obtain ⟨n0, hn0, hn0m⟩ := List.mem_map.1 hmem
      simp only
      cases hf : found.find? (fun n => decide (|orog n.1 n.2 - alt| = m)) with
      | none =>
        exfalso
        have := List.find?_eq_none.1 hf n0 hn0
        simp only [decide_eq_true_eq] at this
        exact this hn0m
      | some n =>
        obtain ⟨hp, pre, post, heq, hpre⟩ := List.find?_eq_some_iff_append.1 hf
        have hp : |orog n.1 n.2 - alt| = m := by simpa using hp
        refine ⟨pre, n, post, rfl, heq, ?_, ?_⟩
        · intro q hq
          rw [hp]; exact hle _ (List.mem_map.2 ⟨q, hq, rfl⟩)
        · intro q hq
          have h1 := hpre q hq
          simp only [Bool.not_eq_eq_eq_not, Bool.not_true, decide_eq_false_iff_not] at h1
          rw [hp]
          refine lt_of_le_of_ne (hle _ (List.mem_map.2 ⟨q, ?_, rfl⟩)) (fun e => h1 e.symm)
          rw [heq]; simp [hq]

/-! ### C83 -/

/-- C83.  Without constraints the nearest grid point is used. -/
theorem C83_nearest (c : NbCfg) (nx ny : ℕ) (land : ℕ → ℕ → Bool) (orog : ℕ → ℕ → ℚ) (dist : ℕ × ℕ → ℚ)
    (nearest : ℕ × ℕ) (alt : ℚ) (h1 : c.land = false) (h2 : c.minimumDz = false) :
    chooseNeighbour c nx ny land orog dist nearest alt = .ok nearest := by
  unfold chooseNeighbour; simp [h1, h2]

theorem nearestPoint_spec (points : List ℚ) (v : ℚ) (hne : points ≠ []) :
    nearestPoint points v < points.length ∧
      ∀ k, k < points.length → |points.getD (nearestPoint points v) 0 - v| ≤ |points.getD k 0 - v| := by
  cases points with
  | nil => exact absurd rfl hne
  | cons a l =>
    have := argminFrom_spec [|a - v|] (l.map (fun p => |p - v|)) |a - v| 0 (by simp) (by simp) (by simp)
      (fun k x hk => absurd hk (by omega))
    simp only [List.length_singleton] at this
    obtain ⟨m, h1, h2, h3, _⟩ := this
    have hidx : nearestPoint (a :: l) v = argminFrom |a - v| 0 1 (l.map (fun p => |p - v|)) := rfl
    rw [hidx]
    set i := argminFrom |a - v| 0 1 (l.map (fun p => |p - v|)) with hi
    have hmap : [|a - v|] ++ l.map (fun p => |p - v|) = (a :: l).map (fun p => |p - v|) := rfl
    rw [hmap] at h1 h2 h3
    rw [List.length_map] at h1
    rw [List.getElem?_map, List.getElem?_eq_getElem h1] at h2
    simp only [Option.map_some, Option.some.injEq] at h2
    refine ⟨h1, fun k hk => ?_⟩
    rw [List.getD_eq_getElem _ _ h1, List.getD_eq_getElem _ _ hk, h2]
    exact h3 _ (List.mem_map.2 ⟨_, List.getElem_mem hk, rfl⟩)

/-- C83.  On a regional grid the nearest point by axis is a closest point of the whole grid. -/
theorem C83_planar_nearest (xs ys : List ℚ) (hx : xs ≠ []) (hy : ys ≠ []) (x y : ℚ) (alt : Option ℚ) (w u : Option ℕ) :
    let s := planarSite xs ys x y alt w u
    s.nearest.1 < xs.length ∧ s.nearest.2 < ys.length ∧
    ∀ i j, i < xs.length → j < ys.length →
      (xs.getD s.nearest.1 0 - x) ^ 2 + (ys.getD s.nearest.2 0 - y) ^ 2 ≤
        (xs.getD i 0 - x) ^ 2 + (ys.getD j 0 - y) ^ 2 := by
  obtain ⟨a1, a2⟩ := nearestPoint_spec xs x hx
  obtain ⟨b1, b2⟩ := nearestPoint_spec ys y hy
  refine ⟨a1, b1, fun i j hi hj => ?_⟩
  exact add_le_add (sq_le_sq.2 (a2 i hi)) (sq_le_sq.2 (b2 j hj))

/-- C83 (part).  With the land constraint alone, on a grid with some land: the closest land point if it is within the search
radius, and otherwise the nearest point. -/
theorem C83_land_partial (c : NbCfg) (nx ny : ℕ) (land : ℕ → ℕ → Bool) (orog : ℕ → ℕ → ℚ) (dist : ℕ × ℕ → ℚ)
    (nearest : ℕ × ℕ) (alt : ℚ) (h1 : c.land = true) (h2 : c.minimumDz = false)
    (hex : ∃ n, Spec.eligible true nx ny land n) :
    ∃ n, chooseNeighbour c nx ny land orog dist nearest alt = .ok n ∧
      ((∃ m, Spec.eligible true nx ny land m ∧ dist m < c.radius) →
        Spec.eligible true nx ny land n ∧ dist n < c.radius ∧ ∀ m, Spec.eligible true nx ny land m → dist n ≤ dist m) ∧
      ((∀ m, Spec.eligible true nx ny land m → c.radius ≤ dist m) → n = nearest) := by
  unfold chooseNeighbour
  rw [h1, h2]
  simp only [Bool.or_false, if_true, Bool.not_false]
  obtain ⟨n0, hn0⟩ := hex
  have hne : treeNodes true nx ny land ≠ [] := List.ne_nil_of_mem (mem_treeNodes.2 hn0)
  rw [if_neg hne]
  have hperm := List.perm_insertionSort (fun a b => dist a ≤ dist b) (treeNodes true nx ny land)
  have hs := sorted_by_dist dist (treeNodes true nx ny land)
  cases hl : (treeNodes true nx ny land).insertionSort (fun a b => dist a ≤ dist b) with
  | nil => rw [hl] at hperm; exact absurd (List.nil_perm.1 hperm) hne
  | cons n rest =>
    rw [hl] at hperm hs
    have hmem : ∀ m, Spec.eligible true nx ny land m → m = n ∨ m ∈ rest := by
      intro m hm
      have : m ∈ n :: rest := hperm.mem_iff.2 (mem_treeNodes.2 hm)
      simpa using this
    have hleast : ∀ m, Spec.eligible true nx ny land m → dist n ≤ dist m := by
      intro m hm
      rcases hmem m hm with rfl | h
      · exact le_refl _
      · exact (List.pairwise_cons.1 hs).1 m h
    have hn : Spec.eligible true nx ny land n := mem_treeNodes.1 (hperm.mem_iff.1 (by simp))
    simp only
    by_cases hr : dist n < c.radius
    · rw [if_pos hr]
      exact ⟨n, rfl, fun _ => ⟨hn, hr, hleast⟩, fun h => absurd (h n hn) (not_le.2 hr)⟩
    · rw [if_neg hr]
      refine ⟨nearest, rfl, ?_, fun _ => rfl⟩
      rintro ⟨m, hm, hmr⟩
      exact absurd (lt_of_le_of_lt (hleast m hm) hmr) hr

/-- What the tree returns: eligible points within the radius, nearest first, and a point is left out only when there are already
`nodeLimit` points at least as near. -/
theorem kdQuery_spec (dist : ℕ × ℕ → ℚ) (nodes : List (ℕ × ℕ)) (k : ℕ) (bound : ℚ) :
    (kdQuery dist nodes k bound).Pairwise (fun a b => dist a ≤ dist b) ∧
    (∀ n ∈ kdQuery dist nodes k bound, n ∈ nodes ∧ dist n < bound) ∧
    (∀ n ∈ nodes, dist n < bound → n ∉ kdQuery dist nodes k bound →
      (kdQuery dist nodes k bound).length = k ∧ ∀ m ∈ kdQuery dist nodes k bound, dist m ≤ dist n) := by
  have hperm := List.perm_insertionSort (fun a b => dist a ≤ dist b) nodes
  have hs := sorted_by_dist dist nodes
  unfold kdQuery
  set l := nodes.insertionSort (fun a b => dist a ≤ dist b) with hl
  refine ⟨(hs.sublist (List.take_sublist k l)).filter _, ?_, ?_⟩
  · intro n hn
    obtain ⟨h1, h2⟩ := List.mem_filter.1 hn
    exact ⟨hperm.mem_iff.1 (List.mem_of_mem_take h1), by simpa using h2⟩
  · intro n hn hb hnot
    have hnl : n ∈ l := hperm.mem_iff.2 hn
    have hnt : n ∉ l.take k := fun h => hnot (List.mem_filter.2 ⟨h, by simpa using hb⟩)
    have hnd' : n ∈ l.drop k := by
      have := List.take_append_drop k l
      rw [← this] at hnl
      exact (List.mem_append.1 hnl).resolve_left hnt
    have hcross : ∀ m ∈ l.take k, dist m ≤ dist n := by
      intro m hm
      have := List.take_append_drop k l
      rw [← this] at hs
      exact (List.pairwise_append.1 hs).2.2 m hm n hnd'
    have hall : (l.take k).filter (fun n => decide (dist n < bound)) = l.take k := by
      rw [List.filter_eq_self]
      intro m hm
      simpa using lt_of_le_of_lt (hcross m hm) hb
    rw [hall]
    refine ⟨?_, hcross⟩
    rw [List.length_take]
    have : k < l.length := by
      by_contra hge
      rw [List.drop_eq_nil_of_le (by omega)] at hnd'
      simp at hnd'
    omega

/-- C83.  With the minimum-dz constraint (with or without the land constraint): if no eligible point is within the search radius
the nearest point is used; otherwise an eligible point within the radius whose height is closest to the site among the
candidates - and the nearest such one -, the candidates being the `nodeLimit` nearest eligible points in the radius: any
other eligible point in the radius is at least as far away as all `nodeLimit` candidates. -/
theorem C83_minimum_dz (c : NbCfg) (nx ny : ℕ) (land : ℕ → ℕ → Bool) (orog : ℕ → ℕ → ℚ) (dist : ℕ × ℕ → ℚ)
    (nearest : ℕ × ℕ) (alt : ℚ) (h2 : c.minimumDz = true) (hk : 0 < c.nodeLimit)
    (hex : ∃ n, Spec.eligible c.land nx ny land n) :
    ((∀ m, Spec.eligible c.land nx ny land m → c.radius ≤ dist m) →
      chooseNeighbour c nx ny land orog dist nearest alt = .ok nearest) ∧
    ((∃ m, Spec.eligible c.land nx ny land m ∧ dist m < c.radius) →
      ∃ (n : ℕ × ℕ) (cand : List (ℕ × ℕ)), chooseNeighbour c nx ny land orog dist nearest alt = .ok n ∧ n ∈ cand ∧
        (∀ m ∈ cand, Spec.eligible c.land nx ny land m ∧ dist m < c.radius) ∧
        (∀ m, Spec.eligible c.land nx ny land m → dist m < c.radius → m ∉ cand →
          cand.length = c.nodeLimit ∧ ∀ q ∈ cand, dist q ≤ dist m) ∧
        ∀ m ∈ cand, |orog n.1 n.2 - alt| < |orog m.1 m.2 - alt| ∨
          (|orog n.1 n.2 - alt| = |orog m.1 m.2 - alt| ∧ dist n ≤ dist m)) := by
  obtain ⟨n0, hn0⟩ := hex
  have hne : treeNodes c.land nx ny land ≠ [] := List.ne_nil_of_mem (mem_treeNodes.2 hn0)
  obtain ⟨k1, k2, k3⟩ := kdQuery_spec dist (treeNodes c.land nx ny land) c.nodeLimit c.radius
  have hs := selectMinimumDz_spec orog alt (kdQuery dist (treeNodes c.land nx ny land) c.nodeLimit c.radius)
  have hch : chooseNeighbour c nx ny land orog dist nearest alt
      = match selectMinimumDz orog alt (kdQuery dist (treeNodes c.land nx ny land) c.nodeLimit c.radius) with
        | some n => .ok n | none => .ok nearest := by
    unfold chooseNeighbour
    simp only [h2, Bool.or_true, if_true, Bool.not_true, Bool.false_eq_true, if_false]
    rw [if_neg hne]
    rfl
  rw [hch]
  set cand := kdQuery dist (treeNodes c.land nx ny land) c.nodeLimit c.radius with hc
  constructor
  · intro hfar
    have : cand = [] := by
      rw [List.eq_nil_iff_forall_not_mem]
      intro m hm
      obtain ⟨h1, h3⟩ := k2 m hm
      exact absurd h3 (not_lt.2 (hfar m (mem_treeNodes.1 h1)))
    rw [hs.1 this]
  · rintro ⟨m, hm, hmr⟩
    have hcne : cand ≠ [] := by
      intro he
      have := (k3 m (mem_treeNodes.2 hm) hmr (by rw [he]; simp)).1
      rw [he] at this
      simp at this; omega
    obtain ⟨pre, n, post, hsel, heq, hmin, hpre⟩ := hs.2 hcne
    refine ⟨n, cand, by rw [hsel], by rw [heq]; simp, ?_, ?_, ?_⟩
    · intro q hq
      obtain ⟨h1, h3⟩ := k2 q hq
      exact ⟨mem_treeNodes.1 h1, h3⟩
    · intro q hq hqr hqn
      exact k3 q (mem_treeNodes.2 hq) hqr hqn
    · intro q hq
      rcases lt_or_eq_of_le (hmin q hq) with h | h
      · left; exact h
      · right
        refine ⟨h, ?_⟩
        rw [heq] at hq k1
        rcases List.mem_append.1 hq with hq' | hq'
        · exact absurd h (ne_of_lt (hpre q hq'))
        · rcases List.mem_cons.1 hq' with rfl | hq'
          · exact le_refl _
          · exact (List.pairwise_cons.1 (List.pairwise_append.1 k1).2.1).1 q hq'

/-- C83, finding.  On a grid without any land the land constraint fails instead of falling back on the nearest point. -/
theorem C83_no_land_refuted (c : NbCfg) (nx ny : ℕ) (land : ℕ → ℕ → Bool) (orog : ℕ → ℕ → ℚ) (dist : ℕ × ℕ → ℚ)
    (nearest : ℕ × ℕ) (alt : ℚ) (h1 : c.land = true) (hno : ∀ i j, land i j = false) :
    chooseNeighbour c nx ny land orog dist nearest alt = .error .valueError := by
  have : treeNodes true nx ny land = [] := by
    rw [List.eq_nil_iff_forall_not_mem]
    intro n hn
    have := (mem_treeNodes.1 hn).2.2 rfl
    rw [hno] at this; exact nomatch this
  unfold chooseNeighbour
  simp [h1, this]

theorem mapM_getElem {α β : Type} (f : α → Except Err β) : ∀ (l : List α) (out : List β), l.mapM f = .ok out →
    out.length = l.length ∧ ∀ (i : ℕ) (a : α), l[i]? = some a → ∃ b, out[i]? = some b ∧ f a = .ok b
  | [], out, h => by
    simp only [List.mapM_nil, pure, Except.pure] at h
    injection h with h; subst h; simp
  | a :: l, out, h => by
    rw [List.mapM_cons] at h
    cases hf : f a with
    | error e => rw [hf] at h; exact nomatch h
    | ok b =>
      rw [hf] at h
      simp only [bind, Except.bind] at h
      cases hm : l.mapM f with
      | error e => rw [hm] at h; exact nomatch h
      | ok bs =>
        rw [hm] at h
        simp only [pure, Except.pure] at h
        injection h with h
        subst h
        obtain ⟨h1, h2⟩ := mapM_getElem f l bs hm
        refine ⟨by simp [h1], fun i x hi => ?_⟩
        cases i with
        | zero =>
          simp only [List.getElem?_cons_zero, Option.some.injEq] at hi
          subst hi
          exact ⟨b, rfl, hf⟩
        | succ i => exact h2 i x (by simpa using hi)

/-- Sites inside the domain: within the bounds in y, and also in x unless the grid is global. -/
def Spec.inDomain (global : Bool) (xb yb : ℚ × ℚ) (s : Site) : Prop :=
  (yb.1 ≤ s.y ∧ s.y ≤ yb.2) ∧ (global = false → xb.1 ≤ s.x ∧ s.x ≤ xb.2)

/-- C83.  The neighbour cube has one column per site inside the domain, in the given order; its altitude is the site's (the
orography of the nearest point when unknown), its indices the chosen grid point and its displacement the altitude minus
the orography there. -/
theorem C83_columns (c : NbCfg) (global metres sameGrid useUnique : Bool) (xb yb : ℚ × ℚ) (nx ny : ℕ)
    (land : ℕ → ℕ → Bool) (orog : ℕ → ℕ → ℚ) (sites : List Site) (out : List NbOut)
    (h : neighbourSelection c global metres sameGrid useUnique xb yb nx ny land orog sites = .ok out) :
    (global = true ∨ metres = true) ∧ sameGrid = true ∧
    ∃ kept : List Site, kept.Sublist sites ∧ (∀ s ∈ sites, Spec.inDomain global xb yb s → s ∈ kept) ∧
      (∀ s ∈ kept, Spec.inDomain global xb yb s) ∧ out.length = kept.length ∧
      ∀ (i : ℕ) (s : Site), kept[i]? = some s → ∃ o, out[i]? = some o ∧
        (∀ a, s.altitude = some a → o.altitude = a) ∧
        (s.altitude = none → o.altitude = orog s.nearest.1 s.nearest.2) ∧
        chooseNeighbour c nx ny land orog s.dist s.nearest o.altitude = .ok (o.xIndex, o.yIndex) ∧
        o.displacement = o.altitude - orog o.xIndex o.yIndex := by
  unfold neighbourSelection at h
  split at h
  · exact nomatch h
  · rename_i hg
    split at h
    · exact nomatch h
    · rename_i hs
      have hdom : ∀ s, withinDomain global xb yb s = true ↔ Spec.inDomain global xb yb s := by
        intro s
        unfold withinDomain Spec.inDomain
        cases global
        · simp; constructor
          · rintro ⟨⟨⟨a, b⟩, d⟩, e⟩; exact ⟨⟨d, e⟩, a, b⟩
          · rintro ⟨⟨d, e⟩, a, b⟩; exact ⟨⟨⟨a, b⟩, d⟩, e⟩
        · simp
      simp only at h
      have hout : (sites.filter (withinDomain global xb yb)).mapM (siteNeighbour c nx ny land orog) = .ok out := by
        cases hm : (sites.filter (withinDomain global xb yb)).mapM (siteNeighbour c nx ny land orog) with
        | error e => rw [hm] at h; exact nomatch h
        | ok o =>
          rw [hm] at h
          simp only [bind, Except.bind, pure, Except.pure] at h
          split at h
          · split at h
            · exact nomatch h
            · exact h
          · exact h
      obtain ⟨hlen, hget⟩ := mapM_getElem _ _ _ hout
      refine ⟨by cases global <;> cases metres <;> simp at hg ⊢, by cases sameGrid <;> simp at hs ⊢,
        sites.filter (withinDomain global xb yb), List.filter_sublist, ?_, ?_, hlen, ?_⟩
      · intro s hs' hd
        exact List.mem_filter.2 ⟨hs', (hdom s).2 hd⟩
      · intro s hs'
        exact (hdom s).1 (List.mem_filter.1 hs').2
      · intro i s hi
        obtain ⟨o, ho, hf⟩ := hget i s hi
        refine ⟨o, ho, ?_⟩
        unfold siteNeighbour at hf
        simp only [bind, Except.bind, pure, Except.pure] at hf
        cases hc : chooseNeighbour c nx ny land orog s.dist s.nearest (siteAltitude orog s) with
        | error e => rw [hc] at hf; exact nomatch hf
        | ok n =>
          rw [hc] at hf
          injection hf with hf
          subst hf
          refine ⟨?_, ?_, hc, rfl⟩
          · intro a ha; simp [siteAltitude, ha]
          · intro ha; simp [siteAltitude, ha]

/-- C83.  Unique identifiers are accepted exactly when every site has one, no two are equal and none has more than eight
digits. -/
theorem C83_unique_ids (ids : List (Option ℕ)) (vals : List ℕ) :
    checkUniqueIds ids = .ok vals ↔ ids = vals.map some ∧ vals.Nodup ∧ ∀ v ∈ vals, v < 10 ^ 8 := by
  unfold checkUniqueIds
  by_cases hany : ids.any (·.isNone) = true
  · rw [if_pos hany]
    constructor
    · intro h; exact nomatch h
    · rintro ⟨rfl, _⟩; simp at hany
  · rw [if_neg hany]
    have hids : ids = (ids.filterMap id).map some := by
      have : ∀ l : List (Option ℕ), l.any (·.isNone) = false → l = (l.filterMap id).map some := by
        intro l
        induction l with
        | nil => intro _; rfl
        | cons a l ih =>
          intro h
          cases a with
          | none => simp at h
          | some v =>
            have := ih (by simpa using h)
            simpa using this
      exact this ids (by rwa [Bool.not_eq_true] at hany)
    set w := ids.filterMap id with hw
    have hlen : ids.length = w.length := by rw [hids]; simp
    simp only
    by_cases hd : w.dedup.length ≠ ids.length
    · rw [if_pos hd]
      constructor
      · intro h; exact nomatch h
      · rintro ⟨h1, h2, _⟩
        exfalso; apply hd
        have : w = vals := by rw [hw, h1]; simp
        rw [this, h2.dedup, hlen, this]
    · rw [if_neg hd]
      have hnd : w.Nodup := by
        push Not at hd
        rw [hlen] at hd
        have := List.Sublist.eq_of_length (List.dedup_sublist w) hd
        exact List.dedup_eq_self.1 this
      by_cases hb : w.any (fun v => decide (v ≥ 10 ^ 8)) = true
      · rw [if_pos hb]
        constructor
        · intro h; exact nomatch h
        · rintro ⟨h1, _, h3⟩
          exfalso
          have : w = vals := by rw [hw, h1]; simp
          rw [this, List.any_eq_true] at hb
          obtain ⟨v, hv, hge⟩ := hb
          have h4 := h3 v hv
          have h5 : v ≥ 10 ^ 8 := by simpa using hge
          omega
      · rw [if_neg hb]
        constructor
        · intro h
          injection h with h
          rw [← h]
          refine ⟨hids, hnd, fun v hv => ?_⟩
          by_contra hge
          apply hb
          rw [List.any_eq_true]
          exact ⟨v, hv, by simpa using hge⟩
        · rintro ⟨h1, _, _⟩
          have : w = vals := by rw [hw, h1]; simp
          rw [this]

/-- Concrete case: a 3 x 3 grid with spacing 1, a site at the sea point (0, 0); land at (1, 0) and (2, 2), heights 5 and 9. -/
example :
    let dist : ℕ × ℕ → ℚ := fun n => (n.1 : ℚ) * n.1 + n.2 * n.2
    let land : ℕ → ℕ → Bool := fun i j => (i == 1 && j == 0) || (i == 2 && j == 2)
    let orog : ℕ → ℕ → ℚ := fun i j => if i = 1 then 5 else if i = 2 ∧ j = 2 then 9 else 0
    chooseNeighbour { land := true, radius := 20 } 3 3 land orog dist (0, 0) 10 = .ok (1, 0) ∧
    chooseNeighbour { land := true, minimumDz := true, radius := 20 } 3 3 land orog dist (0, 0) 10 = .ok (2, 2) ∧
    chooseNeighbour { land := true, minimumDz := true, radius := 5 } 3 3 land orog dist (0, 0) 10 = .ok (1, 0) ∧
    chooseNeighbour { land := true, radius := 1 } 3 3 land orog dist (0, 0) 10 = .ok (0, 0) ∧
    Spec.eligible true 3 3 land (1, 0) := by
  refine ⟨?_, ?_, ?_, ?_, ?_⟩ <;> try decide +kernel
  exact ⟨by omega, by omega, fun _ => rfl⟩

example : checkUniqueIds [some 12, some 7] = .ok [12, 7] := by decide +kernel

/-! ### C84: extraction -/

/-- C84.  Extraction succeeds exactly when the grids agree, the method is on the neighbour cube and every index is on the grid; the
value of each site is then the grid value at its row (y index) and column (x index). -/
theorem C84_value {V : Type} (nb : NeighbourCube) (method : String) (grid : AxisId × AxisId) (ny nx : ℕ) (data : ℕ → ℕ → V)
    (out : List V) : spotExtract nb method grid ny nx data = .ok out ↔
      nb.grid = grid ∧ ∃ cols, extractCoordinates nb method = .ok cols ∧
        (∀ o ∈ cols, o.yIndex < ny ∧ o.xIndex < nx) ∧ out = cols.map (fun o => data o.yIndex o.xIndex) := by
  have hm : ∀ (cols : List NbOut) (out : List V), cols.mapM (fun o => if o.yIndex < ny ∧ o.xIndex < nx then
      Except.ok (ε := Err) (data o.yIndex o.xIndex) else .error .indexError) = .ok out ↔
      (∀ o ∈ cols, o.yIndex < ny ∧ o.xIndex < nx) ∧ out = cols.map (fun o => data o.yIndex o.xIndex) := by
    intro cols
    induction cols with
    | nil =>
      intro out
      simp only [List.mapM_nil, pure, Except.pure, Except.ok.injEq, List.map_nil]
      constructor
      · rintro rfl; simp
      · rintro ⟨_, rfl⟩; rfl
    | cons o cols ih =>
      intro out
      rw [List.mapM_cons]
      by_cases ho : o.yIndex < ny ∧ o.xIndex < nx
      · rw [if_pos ho]
        simp only [bind, Except.bind, pure, Except.pure]
        cases hc : cols.mapM (fun o => if o.yIndex < ny ∧ o.xIndex < nx then
          Except.ok (ε := Err) (data o.yIndex o.xIndex) else .error .indexError) with
        | error e =>
          constructor
          · intro h; exact nomatch h
          · rintro ⟨h1, _⟩
            have := (ih _).2 ⟨fun o ho => h1 o (by simp [ho]), rfl⟩
            rw [hc] at this; exact nomatch this
        | ok vs =>
          obtain ⟨h1, h2⟩ := (ih vs).1 hc
          simp only [Except.ok.injEq, List.map_cons]
          constructor
          · rintro rfl
            refine ⟨?_, by rw [h2]⟩
            intro q hq
            rcases List.mem_cons.1 hq with rfl | hq
            · exact ho
            · exact h1 q hq
          · rintro ⟨_, h⟩; rw [h, h2]
      · rw [if_neg ho]
        simp only [bind, Except.bind]
        constructor
        · intro h; exact nomatch h
        · rintro ⟨h, _⟩; exact absurd (h o (by simp)) ho
  unfold spotExtract
  by_cases hg : grid = nb.grid
  · have : checkGridMatch [nb.grid, grid] = .ok () := by simp [checkGridMatch, hg]
    rw [this]
    simp only [bind, Except.bind]
    cases he : extractCoordinates nb method with
    | error e =>
      constructor
      · intro h; exact nomatch h
      · rintro ⟨_, cols, h, _⟩; exact nomatch h
    | ok cols =>
      simp only
      rw [hm]
      constructor
      · intro h; exact ⟨hg.symm, cols, rfl, h⟩
      · rintro ⟨_, cols', h, h2⟩
        injection h with h
        subst h; exact h2
  · have : checkGridMatch [nb.grid, grid] = .error .valueError := by simp [checkGridMatch, hg]
    rw [this]
    simp only [bind, Except.bind]
    constructor
    · intro h; exact nomatch h
    · rintro ⟨h, _⟩; exact absurd h.symm hg

/-- C84.  The coordinates used are those of the requested method; a method that is not on the neighbour cube is refused. -/
theorem C84_method (nb : NeighbourCube) (method : String) :
    ((∀ m ∈ nb.methods, m.1 ≠ method) → extractCoordinates nb method = .error .valueError) ∧
    (∀ cols, extractCoordinates nb method = .ok cols → (method, cols) ∈ nb.methods) := by
  unfold extractCoordinates
  cases hf : nb.methods.find? (fun m => m.1 == method) with
  | none => exact ⟨fun _ => rfl, fun cols h => (nomatch h)⟩
  | some m =>
    have hm := List.mem_of_find?_eq_some hf
    have hp : m.1 = method := by simpa using List.find?_some hf
    refine ⟨fun h => absurd hp (h m hm), fun cols h => ?_⟩
    injection h with h
    rw [← hp, ← h]; exact hm

/-- C84.  End to end: with the neighbour cube made by neighbour selection on the same grid, each site receives the value of the
grid point chosen for it. -/
theorem C84_end_to_end (c : NbCfg) (global metres sameGrid useUnique : Bool) (xb yb : ℚ × ℚ) (nx ny : ℕ)
    (land : ℕ → ℕ → Bool) (orog : ℕ → ℕ → ℚ) (sites : List Site) (cols : List NbOut) (grid : AxisId × AxisId)
    (data : ℕ → ℕ → ℚ) (out : List ℚ)
    (hn : neighbourSelection c global metres sameGrid useUnique xb yb nx ny land orog sites = .ok cols)
    (he : spotExtract ⟨grid, [(methodName c.land c.minimumDz, cols)]⟩ (methodName c.land c.minimumDz) grid ny nx data
      = .ok out) :
    out.length = cols.length ∧ ∀ (i : ℕ) (o : NbOut), cols[i]? = some o → out[i]? = some (data o.yIndex o.xIndex) := by
  obtain ⟨_, cols', hc, _, hout⟩ := (C84_value _ _ _ _ _ _ _).1 he
  have := (C84_method _ _).2 cols' hc
  simp at this
  subst this
  rw [hout]
  exact ⟨by simp, fun i o ho => by rw [List.getElem?_map, ho]; rfl⟩

/-- C84.  The four methods have different names. -/
theorem C84_names (l d l' d' : Bool) : methodName l d = methodName l' d' ↔ l = l' ∧ d = d' := by
  cases l <;> cases d <;> cases l' <;> cases d' <;> simp [methodName] <;> decide

/-- C84, finding.  The bounds of the coordinates do not take part in the comparison of grids: two grids with the same points and
different cells are taken to match. -/
theorem C84_bounds_refuted : ∃ (x x' y : Axis), x.bounds ≠ x'.bounds ∧
    checkGridMatch [gridId none x y, gridId none x' y] = .ok () :=
  ⟨⟨⟨[0, 1], "projection_x_coordinate", "", "m"⟩, [(-1 / 2, 1 / 2), (1 / 2, 3 / 2)]⟩,
    ⟨⟨[0, 1], "projection_x_coordinate", "", "m"⟩, [(-1, 1 / 2), (1 / 2, 2)]⟩,
    ⟨⟨[0], "projection_y_coordinate", "", "m"⟩, []⟩, by decide +kernel, by decide +kernel⟩

/-- C84.  Cubes match exactly when they all have the identity of the first. -/
theorem C84_grid_match (g : AxisId × AxisId) (gs : List (AxisId × AxisId)) :
    checkGridMatch (g :: gs) = .ok () ↔ ∀ k ∈ gs, k = g := by
  simp only [checkGridMatch]
  by_cases h : gs.all (fun k => decide (k = g)) = true
  · rw [if_pos h]
    simp only [List.all_eq_true, decide_eq_true_eq] at h
    simpa using h
  · rw [if_neg h]
    simp only [List.all_eq_true, decide_eq_true_eq] at h
    constructor
    · intro h'; exact nomatch h'
    · intro h'; exact absurd h' h

example : spotExtract ⟨(⟨[0, 1], "x", "", "m"⟩, ⟨[0, 1, 2], "y", "", "m"⟩), [("nearest", [⟨1, 2, 0, 10⟩, ⟨0, 0, 0, 5⟩])]⟩ "nearest"
    (⟨[0, 1], "x", "", "m"⟩, ⟨[0, 1, 2], "y", "", "m"⟩) 3 2 (fun y x => 10 * y + x) = .ok [21, 0] := by decide +kernel

/-! ### C85: subsetting -/

/-- C85.  Subsetting keeps, in order and unchanged, exactly the spots whose identifier is on the neighbour cube and is set; it is
refused when none is left. -/
theorem C85_subset {V : Type} (ids : List String) (spots : List (String × V)) :
    (subsetSites ids spots = .error .valueError ↔ ∀ s ∈ spots, s.1 = "None" ∨ s.1 ∉ ids) ∧
    (∀ out, subsetSites ids spots = .ok out → out.Sublist spots ∧
      ∀ s ∈ spots, s ∈ out ↔ s.1 ≠ "None" ∧ s.1 ∈ ids) := by
  have hmem : ∀ s : String × V, s ∈ spots.filter (fun s => decide (s.1 ∈ ids.filter (fun i => i != "None"))) ↔
      s ∈ spots ∧ s.1 ∈ ids ∧ s.1 ≠ "None" := by
    intro s; simp [List.mem_filter]
  unfold subsetSites
  simp only
  set kept := spots.filter (fun s => decide (s.1 ∈ ids.filter (fun i => i != "None"))) with hk
  by_cases he : kept.isEmpty = true
  · rw [if_pos he]
    have hnil : kept = [] := by simpa using he
    refine ⟨⟨fun _ s hs => ?_, fun _ => rfl⟩, fun out h => (nomatch h)⟩
    by_contra hcon
    push Not at hcon
    have := (hmem s).2 ⟨hs, hcon.2, hcon.1⟩
    rw [hnil] at this; simp at this
  · rw [if_neg he]
    refine ⟨⟨fun h => (nomatch h), fun h => ?_⟩, fun out h => ?_⟩
    · exfalso; apply he
      rw [List.isEmpty_iff, List.eq_nil_iff_forall_not_mem]
      intro s hs
      obtain ⟨h1, h2, h3⟩ := (hmem s).1 hs
      rcases h s h1 with h4 | h4
      · exact h3 h4
      · exact h4 h2
    · injection h with h
      rw [← h]
      refine ⟨List.filter_sublist, fun s hs => ?_⟩
      rw [hmem]
      exact ⟨fun h => ⟨h.2.2, h.2.1⟩, fun h => ⟨hs, h.2, h.1⟩⟩

example : subsetSites ["03002", "None", "03005"] [("03005", 1), ("None", 2), ("03002", 3), ("03001", 4)]
    = .ok [("03005", 1), ("03002", 3)] := by decide +kernel

end Improver
