import Verif.Model.CubeManip
import Mathlib.Data.List.GetD
import Mathlib.Data.List.Perm.Basic
import Mathlib.Data.List.Sort
import Mathlib.Data.List.NodupEquivFin

/-! C50 to C54: helper functions on cubes. -/

namespace Improver

/-! ### C50: expand_bounds -/

/-- Specification: `[lo, hi]` is the smallest interval containing the values. -/
def Spec.IsHull {α : Type} [LinearOrder α] (vals : List α) (lo hi : α) : Prop :=
  lo ∈ vals ∧ hi ∈ vals ∧ ∀ v ∈ vals, lo ≤ v ∧ v ≤ hi

theorem foldMin_spec {α : Type} [LinearOrder α] (a : α) (l : List α) : foldMin a l ∈ a :: l ∧ ∀ v ∈ a :: l, foldMin a l ≤ v := by
  unfold foldMin
  induction l generalizing a with
  | nil => simp
  | cons b l ih =>
    rw [List.foldl_cons]
    obtain ⟨h1, h2⟩ := ih (min a b)
    constructor
    · rcases List.mem_cons.1 h1 with h | h
      · rw [h]; rcases min_choice a b with h | h <;> rw [h] <;> simp
      · simp [h]
    · intro v hv
      have hm := h2 (min a b) (by simp)
      rcases List.mem_cons.1 hv with rfl | hv
      · exact le_trans hm (min_le_left _ _)
      · rcases List.mem_cons.1 hv with rfl | hv
        · exact le_trans hm (min_le_right _ _)
        · exact h2 v (by simp [hv])

theorem foldMax_spec {α : Type} [LinearOrder α] (a : α) (l : List α) : foldMax a l ∈ a :: l ∧ ∀ v ∈ a :: l, v ≤ foldMax a l := by
  unfold foldMax
  induction l generalizing a with
  | nil => simp
  | cons b l ih =>
    rw [List.foldl_cons]
    obtain ⟨h1, h2⟩ := ih (max a b)
    constructor
    · rcases List.mem_cons.1 h1 with h | h
      · rw [h]; rcases max_choice a b with h | h <;> rw [h] <;> simp
      · simp [h]
    · intro v hv
      have hm := h2 (max a b) (by simp)
      rcases List.mem_cons.1 hv with rfl | hv
      · exact le_trans (le_max_left _ _) hm
      · rcases List.mem_cons.1 hv with rfl | hv
        · exact le_trans (le_max_right _ _) hm
        · exact h2 v (by simp [hv])

theorem isHull_unique {α : Type} [LinearOrder α] {vals : List α} {a b c d : α} (h1 : Spec.IsHull vals a b)
    (h2 : Spec.IsHull vals c d) : a = c ∧ b = d :=
  ⟨le_antisymm (h1.2.2 c h2.1).1 (h2.2.2 a h1.1).1, le_antisymm (h2.2.2 b h1.2.1).2 (h1.2.2 d h2.2.1).2⟩

theorem expand_of_vals {α : Type} [LinearOrder α] (coords : List (SCoord α)) (vals : List α) (hv : boundVals coords = .ok vals)
    (hne : vals ≠ []) : ∃ lo hi, expandBounds coords = .ok ⟨hi, some (lo, hi)⟩ ∧ Spec.IsHull vals lo hi := by
  unfold expandBounds
  rw [hv]
  cases vals with
  | nil => exact absurd rfl hne
  | cons v vs =>
    exact ⟨foldMin v vs, foldMax v vs, rfl, (foldMin_spec v vs).1, (foldMax_spec v vs).1,
      fun x hx => ⟨(foldMin_spec v vs).2 x hx, (foldMax_spec v vs).2 x hx⟩⟩

theorem boundVals_bounded {α : Type} (l : List (α × α × α)) :
    boundVals (l.map (fun b => (⟨b.1, some b.2⟩ : SCoord α))) = .ok (l.flatMap (fun b => [b.2.1, b.2.2])) := by
  unfold boundVals
  rw [if_neg (by simp)]
  simp [List.flatMap_map, SCoord.ends]

theorem boundVals_points {α : Type} (l : List α) : boundVals (l.map (fun p => (⟨p, none⟩ : SCoord α))) = .ok l := by
  unfold boundVals
  cases l with
  | nil => rfl
  | cons a l =>
    rw [if_pos (by simp), if_neg (by simp)]
    simp [List.map_map, Function.comp_def]

/-- **C50** (bounded inputs): the coordinate gets as bounds the smallest interval that contains all input bounds, and its point is
the end of that interval. -/
theorem C50_bounded {α : Type} [LinearOrder α] (l : List (α × α × α)) (hl : l ≠ []) :
    ∃ lo hi, expandBounds (l.map (fun b => (⟨b.1, some b.2⟩ : SCoord α))) = .ok ⟨hi, some (lo, hi)⟩ ∧
      Spec.IsHull (l.flatMap (fun b => [b.2.1, b.2.2])) lo hi := by
  refine expand_of_vals _ _ (boundVals_bounded l) ?_
  cases l with
  | nil => exact absurd rfl hl
  | cons a l => simp

/-- **C50** (unbounded inputs): the bounds are the smallest interval that contains all points. -/
theorem C50_unbounded {α : Type} [LinearOrder α] (l : List α) (hl : l ≠ []) :
    ∃ lo hi, expandBounds (l.map (fun p => (⟨p, none⟩ : SCoord α))) = .ok ⟨hi, some (lo, hi)⟩ ∧ Spec.IsHull l lo hi :=
  expand_of_vals _ _ (boundVals_points l) hl

/-- **C50** (mixtures): a mixture of bounded and unbounded coordinates is refused, and nothing else is. -/
theorem C50_mixture {α : Type} [LinearOrder α] (coords : List (SCoord α)) (hne : coords ≠ []) :
    expandBounds coords = .error .valueError ↔ (∃ c ∈ coords, c.bounds = none) ∧ (∃ c ∈ coords, c.bounds ≠ none) := by
  by_cases h1 : coords.any (fun c => c.bounds.isNone)
  · by_cases h2 : coords.all (fun c => c.bounds.isNone)
    · have hv : boundVals coords = .ok (coords.map SCoord.point) := by
        unfold boundVals
        rw [if_pos h1, if_neg (by simpa using h2)]
      obtain ⟨lo, hi, h, _⟩ := expand_of_vals coords _ hv (by simpa using hne)
      rw [h]
      constructor
      · intro hh; cases hh
      · rintro ⟨_, c, hc, hb⟩
        have := List.all_eq_true.1 h2 c hc
        simp only [Option.isNone_iff_eq_none] at this
        exact absurd this hb
    · have hv : boundVals coords = .error .valueError := by
        unfold boundVals
        rw [if_pos h1, if_pos h2]
      unfold expandBounds
      rw [hv]
      constructor
      · intro _
        obtain ⟨c, hc, hb⟩ := List.any_eq_true.1 h1
        refine ⟨⟨c, hc, by simpa using hb⟩, ?_⟩
        by_contra hcon
        push Not at hcon
        exact h2 (List.all_eq_true.2 (fun c hc => by simp [hcon c hc]))
      · intro _; rfl
  · have hb : ∀ c ∈ coords, c.bounds ≠ none := by
      intro c hc hb
      exact h1 (List.any_eq_true.2 ⟨c, hc, by simp [hb]⟩)
    have hv : boundVals coords = .ok (coords.flatMap SCoord.ends) := by
      unfold boundVals
      rw [if_neg h1]
    have hne' : coords.flatMap SCoord.ends ≠ [] := by
      cases coords with
      | nil => exact absurd rfl hne
      | cons c cs =>
        have := hb c (by simp)
        cases hc : c.bounds with
        | none => exact absurd hc this
        | some b => simp [List.flatMap_cons, SCoord.ends, hc]
    obtain ⟨lo, hi, h, _⟩ := expand_of_vals coords _ hv hne'
    rw [h]
    constructor
    · intro hh; cases hh
    · rintro ⟨⟨c, hc, hcb⟩, _⟩
      exact absurd hcb (hb c hc)

theorem isHull_of_mem {α : Type} [LinearOrder α] {v w : List α} (h : ∀ x, x ∈ v ↔ x ∈ w) {lo hi : α} (hh : Spec.IsHull v lo hi) :
    Spec.IsHull w lo hi :=
  ⟨(h _).1 hh.1, (h _).1 hh.2.1, fun x hx => hh.2.2 x ((h x).2 hx)⟩

/-- **C50** (order): the result does not depend on the order of the inputs. -/
theorem C50_order {α : Type} [LinearOrder α] (l l' : List (α × α × α)) (hp : l.Perm l') :
    expandBounds (l.map (fun b => (⟨b.1, some b.2⟩ : SCoord α))) = expandBounds (l'.map (fun b => (⟨b.1, some b.2⟩ : SCoord α))) := by
  by_cases hl : l = []
  · subst hl; rw [hp.nil_eq]
  · have hl' : l' ≠ [] := fun h => hl (by subst h; exact hp.eq_nil)
    obtain ⟨lo, hi, e1, h1⟩ := C50_bounded l hl
    obtain ⟨lo', hi', e2, h2⟩ := C50_bounded l' hl'
    have := isHull_unique (isHull_of_mem (fun x => by
      simp only [List.mem_flatMap, hp.mem_iff]) h1) h2
    rw [e1, e2, this.1, this.2]

/-- **C50** (steps): expanding in two steps gives the same as expanding over all inputs at once. -/
theorem C50_steps {α : Type} [LinearOrder α] (l l' : List (α × α × α)) (hl : l ≠ []) (hl' : l' ≠ [])
    (c c' : SCoord α) (h : expandBounds (l.map (fun b => (⟨b.1, some b.2⟩ : SCoord α))) = .ok c)
    (h' : expandBounds (l'.map (fun b => (⟨b.1, some b.2⟩ : SCoord α))) = .ok c') :
    expandBounds [c, c'] = expandBounds ((l ++ l').map (fun b => (⟨b.1, some b.2⟩ : SCoord α))) := by
  obtain ⟨lo, hi, e1, h1⟩ := C50_bounded l hl
  obtain ⟨lo', hi', e2, h2⟩ := C50_bounded l' hl'
  obtain ⟨lo3, hi3, e3, h3⟩ := C50_bounded (l ++ l') (by simp [hl])
  rw [e1] at h; rw [e2] at h'
  cases h; cases h'
  obtain ⟨lo4, hi4, e4, h4⟩ := C50_bounded [(hi, lo, hi), (hi', lo', hi')] (by simp)
  simp only [List.map_cons, List.map_nil] at e4
  rw [e3, e4]
  have : Spec.IsHull ((l ++ l').flatMap (fun b => [b.2.1, b.2.2])) lo4 hi4 := by
    simp only [List.flatMap_cons, List.flatMap_nil, List.append_nil, List.cons_append, List.nil_append] at h4
    rw [List.flatMap_append]
    refine ⟨?_, ?_, ?_⟩
    · have := h4.1
      simp only [List.mem_cons, List.not_mem_nil, or_false] at this
      rcases this with h | h | h | h <;> rw [h] <;> simp only [List.mem_append]
      · exact Or.inl h1.1
      · exact Or.inl h1.2.1
      · exact Or.inr h2.1
      · exact Or.inr h2.2.1
    · have := h4.2.1
      simp only [List.mem_cons, List.not_mem_nil, or_false] at this
      rcases this with h | h | h | h <;> rw [h] <;> simp only [List.mem_append]
      · exact Or.inl h1.1
      · exact Or.inl h1.2.1
      · exact Or.inr h2.1
      · exact Or.inr h2.2.1
    · intro v hv
      rcases List.mem_append.1 hv with hv | hv
      · exact ⟨le_trans (h4.2.2 lo (by simp)).1 (h1.2.2 v hv).1, le_trans (h1.2.2 v hv).2 (h4.2.2 hi (by simp)).2⟩
      · exact ⟨le_trans (h4.2.2 lo' (by simp)).1 (h2.2.2 v hv).1, le_trans (h2.2.2 v hv).2 (h4.2.2 hi' (by simp)).2⟩
  obtain ⟨ha, hb⟩ := isHull_unique this h3
  rw [ha, hb]

example : expandBounds [⟨(3600 : ℤ), some (0, 3600)⟩, ⟨7200, some (3600, 7200)⟩] = .ok ⟨7200, some (0, 7200)⟩ := rfl

/-! ### C51: enforce_coordinate_ordering -/

theorem idxOf_getD {l : List String} {n : String} (h : n ∈ l) : l.getD (l.idxOf n) "" = n := by
  rw [List.getD_eq_getElem _ _ (List.idxOf_lt_length_of_mem h)]
  exact List.getElem_idxOf _

theorem getD_idxOf {l : List String} (hn : l.Nodup) {d : ℕ} (h : d < l.length) : l.idxOf (l.getD d "") = d := by
  rw [List.getD_eq_getElem _ _ h]
  exact hn.idxOf_getElem d h

theorem idx_range_filter (dims : List String) (hd : dims.Nodup) (req : List String) (hr : ∀ n ∈ req, n ∈ dims) :
    ((List.range dims.length).filter (fun d => decide (d ∉ req.map (fun n => dims.idxOf n)))).map (fun d : ℕ => dims.getD d "")
      = dims.filter (fun n => decide (n ∉ req)) := by
  have h1 : dims = (List.range dims.length).map (fun d : ℕ => dims.getD d "") := by
    apply List.ext_getElem
    · simp
    · intro i h1 h2
      simp only [List.getElem_map, List.getElem_range]
      rw [List.getD_eq_getElem _ _ h1]
  conv_rhs => rw [h1, List.filter_map]
  congr 1
  apply List.filter_congr
  intro d hdm
  have hdl := List.mem_range.1 hdm
  simp only [Function.comp, decide_eq_decide, not_iff_not]
  constructor
  · intro h
    obtain ⟨n, hn, hne⟩ := List.mem_map.1 h
    rw [← hne, idxOf_getD (hr n hn)]
    exact hn
  · intro h
    exact List.mem_map.2 ⟨_, h, getD_idxOf hd hdl⟩

/-- Transposing by a permutation of the dimensions keeps every value at its named coordinates. -/
theorem transpose_spec {α : Type} (c : DimCube α) (nd : List ℕ) (hp : nd.Perm (List.range c.dims.length)) :
    ∃ c', c.transpose nd = .ok c' ∧ c'.dims = nd.map (fun d : ℕ => c.dims.getD d "") ∧
      ∀ a : String → ℕ, c'.data (c'.dims.map a) = c.data (c.dims.map a) := by
  have hnd : nd.Nodup := hp.nodup_iff.2 List.nodup_range
  have hlen : nd.length = c.dims.length := by rw [hp.length_eq, List.length_range]
  unfold DimCube.transpose
  rw [if_neg (by push Not; exact ⟨hlen, hnd⟩)]
  refine ⟨_, rfl, rfl, ?_⟩
  intro a
  simp only
  congr 1
  apply List.ext_getElem
  · simp
  · intro i h1 h2
    simp only [List.length_map] at h2
    simp only [List.getElem_map, List.getElem_range, List.map_map]
    have hi : i ∈ nd := hp.mem_iff.2 (List.mem_range.2 h2)
    have hlt := List.idxOf_lt_length_of_mem hi
    rw [List.getD_eq_getElem _ _ (by simpa using hlt)]
    simp only [List.getElem_map, Function.comp]
    rw [List.getElem_idxOf hlt, List.getD_eq_getElem _ _ h2]

theorem insertionSort_range_perm (nd : List ℕ) (n : ℕ) (hp : nd.Perm (List.range n)) : nd.insertionSort (· ≤ ·) = List.range n := by
  apply List.Perm.eq_of_pairwise (le := (· ≤ ·))
  · intro a b _ _ h1 h2; exact le_antisymm h1 h2
  · exact List.pairwise_insertionSort _ _
  · exact List.pairwise_lt_range.imp le_of_lt
  · exact (List.perm_insertionSort _ _).trans hp

/-- **C51**: for a cube with distinct dimension coordinates and distinct requested names, `enforce_coordinate_ordering` succeeds; the
requested coordinates that are dimensions come first (or last) in the requested order, the others keep their order, and every value
stays at its named coordinates. -/
theorem C51_ordering {α : Type} (c : DimCube α) (hd : c.dims.Nodup) (threshold : Option String) (names : List String)
    (hn : (coordsToReorder c.dims threshold names).Nodup) (anchorStart : Bool) :
    ∃ c', enforceOrdering c threshold names anchorStart = .ok c' ∧
      c'.dims = (if anchorStart then coordsToReorder c.dims threshold names ++ c.dims.filter (fun n => decide (n ∉ coordsToReorder c.dims threshold names))
        else c.dims.filter (fun n => decide (n ∉ coordsToReorder c.dims threshold names)) ++ coordsToReorder c.dims threshold names) ∧
      ∀ a : String → ℕ, c'.data (c'.dims.map a) = c.data (c.dims.map a) := by
  have hreq : ∀ n ∈ coordsToReorder c.dims threshold names, n ∈ c.dims := by
    intro n hn
    unfold coordsToReorder at hn
    simpa using (List.mem_filter.1 hn).2
  unfold enforceOrdering
  simp only
  generalize coordsToReorder c.dims threshold names = req at *
  set re := req.map (fun n => c.dims.idxOf n) with hre
  set rest := (List.range c.dims.length).filter (fun d => decide (d ∉ re)) with hrest
  have hren : re.Nodup := by
    rw [hre]
    refine List.Nodup.map_on ?_ hn
    intro x hx y hy he
    have := congrArg (fun d => c.dims.getD d "") he
    simp only [idxOf_getD (hreq x hx), idxOf_getD (hreq y hy)] at this
    exact this
  have hremap : re.map (fun d : ℕ => c.dims.getD d "") = req := by
    rw [hre, List.map_map]
    conv_rhs => rw [← List.map_id req]
    apply List.map_congr_left
    intro n hn'
    simp only [Function.comp, idxOf_getD (hreq n hn'), id]
  have hrestmap := idx_range_filter c.dims hd req hreq
  rw [← hre, ← hrest] at hrestmap
  have hp : (re ++ rest).Perm (List.range c.dims.length) := by
    rw [List.perm_ext_iff_of_nodup]
    · intro d
      rw [List.mem_append, hrest, List.mem_filter]
      simp only [decide_eq_true_eq]
      constructor
      · rintro (h | h)
        · rw [hre] at h
          obtain ⟨n, hn', rfl⟩ := List.mem_map.1 h
          exact List.mem_range.2 (List.idxOf_lt_length_of_mem (hreq n hn'))
        · exact h.1
      · intro h
        by_cases hd' : d ∈ re
        · exact Or.inl hd'
        · exact Or.inr ⟨h, hd'⟩
    · rw [List.nodup_append]
      refine ⟨hren, List.nodup_range.filter _, ?_⟩
      intro a ha b hb hab
      subst hab
      rw [hrest] at hb
      exact absurd ha (by simpa using (List.mem_filter.1 hb).2)
    · exact List.nodup_range
  have key : ∀ nd : List ℕ, nd.Perm (List.range c.dims.length) →
      ∃ c', (if nd ≠ nd.insertionSort (· ≤ ·) then c.transpose nd else .ok c) = .ok c' ∧
        c'.dims = nd.map (fun d : ℕ => c.dims.getD d "") ∧ ∀ a : String → ℕ, c'.data (c'.dims.map a) = c.data (c.dims.map a) := by
    intro nd hpn
    by_cases hs : nd ≠ nd.insertionSort (· ≤ ·)
    · rw [if_pos hs]; exact transpose_spec c nd hpn
    · rw [if_neg hs]
      push Not at hs
      rw [insertionSort_range_perm nd _ hpn] at hs
      refine ⟨c, rfl, ?_, fun _ => rfl⟩
      rw [hs]
      apply List.ext_getElem
      · simp
      · intro i h1 h2
        simp only [List.getElem_map, List.getElem_range]
        rw [List.getD_eq_getElem _ _ h1]
  cases anchorStart with
  | true =>
    simp only [if_true]
    obtain ⟨c', h1, h2, h3⟩ := key _ hp
    exact ⟨c', h1, by rw [h2, List.map_append, hremap, hrestmap], h3⟩
  | false =>
    simp only [Bool.false_eq_true, if_false, List.drop_left, List.take_left]
    obtain ⟨c', h1, h2, h3⟩ := key _ (List.perm_append_comm.trans hp)
    exact ⟨c', h1, by rw [h2, List.map_append, hremap, hrestmap], h3⟩

/-- Specification of "requested": the names asked for that are dimensions, "threshold" meaning the threshold coordinate. -/
theorem C51_requested (dims : List String) (t : String) (names : List String) (hn : "threshold" ∉ names) :
    coordsToReorder dims (some t) names = names.filter (fun n => decide (n ∈ dims)) ∧
    coordsToReorder dims (some t) ("threshold" :: names) = (t :: names).filter (fun n => decide (n ∈ dims)) := by
  have h : names.filterMap (fun n => if n = "threshold" then some t else some n) = names := by
    induction names with
    | nil => rfl
    | cons a l ih =>
      simp only [List.mem_cons, not_or] at hn
      rw [List.filterMap_cons, if_neg (fun h => hn.1 h.symm), ih hn.2]
  unfold coordsToReorder
  rw [List.filterMap_cons, if_pos rfl]
  exact ⟨by rw [h], by rw [h]⟩

example : ((enforceOrdering ⟨["realization", "y", "x"], fun i => i⟩ none ["y", "x"] true).toOption.map DimCube.dims)
    = some ["y", "x", "realization"] := by decide +kernel
example : ((enforceOrdering ⟨["realization", "y", "x"], fun i => i⟩ none ["y", "x"] true).toOption.map (fun c => c.data [1, 2, 3]))
    = some [3, 1, 2] := by decide +kernel

/-! ### C52: filter_realizations -/

/-- Specification: realization `r` is available at every time of the inputs. -/
def Spec.CompleteRealization {D : Type} (slices : List (ℤ × ℤ × D)) (r : ℤ) : Prop :=
  (∃ s ∈ slices, s.1 = r) ∧ ∀ s ∈ slices, ∃ s' ∈ slices, s'.1 = r ∧ s'.2.1 = s.2.1

theorem keep_iff {D : Type} (slices : List (ℤ × ℤ × D)) (r : ℤ) :
    r ∈ (slices.map (fun s => s.1)).dedup.filter (fun r => (slices.map (fun s => s.2.1)).all
      (fun t => ((slices.filter (fun s => s.1 = r)).map (fun s => s.2.1)).contains t)) ↔ Spec.CompleteRealization slices r := by
  rw [List.mem_filter, List.mem_dedup, List.all_eq_true]
  unfold Spec.CompleteRealization
  constructor
  · rintro ⟨h1, h2⟩
    obtain ⟨s, hs, hr⟩ := List.mem_map.1 h1
    refine ⟨⟨s, hs, hr⟩, ?_⟩
    intro s hs
    have := h2 s.2.1 (List.mem_map.2 ⟨s, hs, rfl⟩)
    rw [List.contains_iff_mem] at this
    obtain ⟨s', hs', ht⟩ := List.mem_map.1 this
    have := List.mem_filter.1 hs'
    exact ⟨s', this.1, by simpa using this.2, ht⟩
  · rintro ⟨⟨s, hs, hr⟩, h2⟩
    refine ⟨List.mem_map.2 ⟨s, hs, hr⟩, ?_⟩
    intro t ht
    obtain ⟨s, hs, rfl⟩ := List.mem_map.1 ht
    obtain ⟨s', hs', hr', ht'⟩ := h2 s hs
    rw [List.contains_iff_mem]
    exact List.mem_map.2 ⟨s', List.mem_filter.2 ⟨hs', by simpa using hr'⟩, ht'⟩

/-- **C52**: the result consists of exactly the input slices of those realizations that are available at every time. -/
theorem C52_complete_realizations {D : Type} (slices out : List (ℤ × ℤ × D)) (h : filterRealizations slices = .ok out) :
    ∀ s, s ∈ out ↔ s ∈ slices ∧ Spec.CompleteRealization slices s.1 := by
  unfold filterRealizations at h
  simp only at h
  split_ifs at h with h1 h2
  cases h
  intro s
  rw [(List.perm_insertionSort _ _).mem_iff, List.mem_filter]
  simp only [decide_eq_true_eq]
  rw [keep_iff]

/-- **C52** (no duplication): each slice appears once, in ascending order of realization and then time. -/
theorem C52_sorted {D : Type} (slices out : List (ℤ × ℤ × D)) (h : filterRealizations slices = .ok out) :
    out.Pairwise (fun a b => a.1 < b.1 ∨ (a.1 = b.1 ∧ a.2.1 < b.2.1)) := by
  unfold filterRealizations at h
  simp only at h
  split_ifs at h with h1 h2
  cases h
  have hn : (slices.map (fun s => (s.1, s.2.1))).Nodup := by simpa using h1
  generalize List.filter _ (List.map (fun s => s.1) slices).dedup = keep
  have hn2 : ((slices.filter (fun s => decide (s.1 ∈ keep))).map (fun s => (s.1, s.2.1))).Nodup :=
    hn.sublist (List.filter_sublist.map _)
  have hperm := List.perm_insertionSort (fun a b : ℤ × ℤ × D => a.1 < b.1 ∨ (a.1 = b.1 ∧ a.2.1 ≤ b.2.1))
    (slices.filter (fun s => decide (s.1 ∈ keep)))
  have hn3 := (hperm.map (fun s => (s.1, s.2.1))).nodup_iff.2 hn2
  have htot : Std.Total (fun a b : ℤ × ℤ × D => a.1 < b.1 ∨ (a.1 = b.1 ∧ a.2.1 ≤ b.2.1)) := ⟨fun a b => by omega⟩
  have htr : IsTrans (ℤ × ℤ × D) (fun a b => a.1 < b.1 ∨ (a.1 = b.1 ∧ a.2.1 ≤ b.2.1)) := ⟨fun a b c h1 h2 => by omega⟩
  have hs := List.pairwise_insertionSort (fun a b : ℤ × ℤ × D => a.1 < b.1 ∨ (a.1 = b.1 ∧ a.2.1 ≤ b.2.1))
    (slices.filter (fun s => decide (s.1 ∈ keep)))
  have hn4 : (List.insertionSort (fun a b : ℤ × ℤ × D => a.1 < b.1 ∨ (a.1 = b.1 ∧ a.2.1 ≤ b.2.1))
    (slices.filter (fun s => decide (s.1 ∈ keep)))).Pairwise (fun a b => (a.1, a.2.1) ≠ (b.1, b.2.1)) := List.pairwise_map.1 hn3
  refine (hs.and hn4).imp ?_
  rintro a b ⟨h1, h2⟩
  rcases h1 with h1 | ⟨h1, h3⟩
  · exact Or.inl h1
  · refine Or.inr ⟨h1, lt_of_le_of_ne h3 (fun he => h2 (by rw [h1, he]))⟩

/-- **C52** (failure): without duplicate slices it fails only when no realization is available at every time. -/
theorem C52_fails {D : Type} (slices : List (ℤ × ℤ × D)) (hn : (slices.map (fun s => (s.1, s.2.1))).Nodup) :
    (∃ e, filterRealizations slices = .error e) ↔ ∀ r, ¬ Spec.CompleteRealization slices r := by
  unfold filterRealizations
  simp only
  rw [if_neg (by simpa using hn)]
  constructor
  · rintro ⟨e, h⟩ r hr
    have := (keep_iff slices r).2 hr
    split_ifs at h with h2
    rw [h2] at this
    simp at this
  · intro h
    refine ⟨.indexError, if_pos ?_⟩
    rw [List.eq_nil_iff_forall_not_mem]
    intro r hr
    exact h r ((keep_iff slices r).1 hr)

example : filterRealizations [(0, 10, "a"), (1, 10, "b"), (1, 20, "c")] = .ok [(1, 10, "b"), (1, 20, "c")] := by decide +kernel

/-! ### C53: heights -/

/-- **C53** (maximum): the maximum is that of the levels within the (inclusive) bounds. -/
theorem C53_maximum (levels : List (ℚ × ℚ)) (lo hi v : ℚ) (h : maximumInHeight levels (some lo) (some hi) = .ok v) :
    (∃ l ∈ levels, lo ≤ l.1 ∧ l.1 ≤ hi ∧ l.2 = v) ∧ ∀ l ∈ levels, lo ≤ l.1 → l.1 ≤ hi → l.2 ≤ v := by
  unfold maximumInHeight at h
  cases hm : levels.map Prod.fst with
  | nil => rw [hm] at h; cases h
  | cons a as =>
    rw [hm] at h
    simp only [Option.getD_some] at h
    cases hf : (levels.filter (fun l => decide (lo ≤ l.1 ∧ l.1 ≤ hi))).map Prod.snd with
    | nil => rw [hf] at h; cases h
    | cons b bs =>
      rw [hf] at h
      simp only [Except.ok.injEq] at h
      obtain ⟨h1, h2⟩ := foldMax_spec b bs
      rw [h, ← hf] at h1
      rw [h, ← hf] at h2
      constructor
      · obtain ⟨l, hl, hv⟩ := List.mem_map.1 h1
        have := List.mem_filter.1 hl
        simp only [decide_eq_true_eq] at this
        exact ⟨l, this.1, this.2.1, this.2.2, hv⟩
      · intro l hl h3 h4
        exact h2 _ (List.mem_map.2 ⟨l, List.mem_filter.2 ⟨hl, by simp [h3, h4]⟩, rfl⟩)

/-- **C53** (maximum, all levels): without bounds it is the maximum over all levels. -/
theorem C53_maximum_all (levels : List (ℚ × ℚ)) (hne : levels ≠ []) :
    ∃ v, maximumInHeight levels none none = .ok v ∧ (∃ l ∈ levels, l.2 = v) ∧ ∀ l ∈ levels, l.2 ≤ v := by
  unfold maximumInHeight
  cases hm : levels.map Prod.fst with
  | nil => exact absurd (List.map_eq_nil_iff.1 hm) hne
  | cons a as =>
    simp only [Option.getD_none]
    have hall : levels.filter (fun l => decide (foldMin a as ≤ l.1 ∧ l.1 ≤ foldMax a as)) = levels := by
      rw [List.filter_eq_self]
      intro l hl
      have hmem : l.1 ∈ a :: as := by rw [← hm]; exact List.mem_map.2 ⟨l, hl, rfl⟩
      simp [(foldMin_spec a as).2 _ hmem, (foldMax_spec a as).2 _ hmem]
    rw [hall]
    cases hf : levels.map Prod.snd with
    | nil => exact absurd (List.map_eq_nil_iff.1 hf) hne
    | cons b bs =>
      obtain ⟨h1, h2⟩ := foldMax_spec b bs
      refine ⟨_, rfl, ?_, ?_⟩
      · rw [← hf] at h1
        obtain ⟨l, hl, hv⟩ := List.mem_map.1 h1
        exact ⟨l, hl, hv⟩
      · intro l hl
        exact h2 _ (by rw [← hf]; exact List.mem_map.2 ⟨l, hl, rfl⟩)

/-- **C53** (no level): bounds that contain no level are an error. -/
theorem C53_no_level (levels : List (ℚ × ℚ)) (lo hi : ℚ) (h : ∀ l ∈ levels, ¬ (lo ≤ l.1 ∧ l.1 ≤ hi)) :
    maximumInHeight levels (some lo) (some hi) = .error .valueError := by
  unfold maximumInHeight
  cases hm : levels.map Prod.fst with
  | nil => rfl
  | cons a as =>
    simp only [Option.getD_some]
    have : levels.filter (fun l => decide (lo ≤ l.1 ∧ l.1 ≤ hi)) = [] := by
      rw [List.filter_eq_nil_iff]
      intro l hl
      simpa using h l hl
    rw [this]
    rfl

theorem heightFold_append (mx acc : ℚ) (pre suf : List (ℚ × ℚ)) (h v : ℚ) (hv : v = mx) (hs : ∀ l ∈ suf, l.2 ≠ mx) :
    (pre ++ (h, v) :: suf).foldl (heightStep mx) acc = h := by
  rw [List.foldl_append, List.foldl_cons]
  have h1 : ∀ a, heightStep mx a (h, v) = h := fun a => if_pos hv
  rw [h1]
  induction suf generalizing pre with
  | nil => rfl
  | cons s suf ih =>
    rw [List.foldl_cons]
    have : heightStep mx h s = h := if_neg (hs s (by simp))
    rw [this]
    exact ih pre (fun l hl => hs l (by simp [hl]))

/-- **C53** (what is returned): if the maximum is attained, the height returned is one at which it is attained: the *last* in
coordinate order when `find_lowest` is set, the *first* otherwise.  The full property asks for the first (lowest) when
`find_lowest` is set; see `C53_find_lowest_refuted`. -/
theorem C53_height_partial (pre suf : List (ℚ × ℚ)) (h mx : ℚ) (hne : pre ≠ [] ∨ suf ≠ []) :
    ((∀ l ∈ suf, l.2 ≠ mx) → heightOfMaximum (pre ++ (h, mx) :: suf) mx true = .ok h) ∧
    ((∀ l ∈ pre, l.2 ≠ mx) → heightOfMaximum (pre ++ (h, mx) :: suf) mx false = .ok h) := by
  have hlen : (pre ++ (h, mx) :: suf).length ≠ 1 := by
    rw [List.length_append, List.length_cons]
    rcases hne with h | h
    · have := List.length_pos_iff.2 h; omega
    · have := List.length_pos_iff.2 h; omega
  unfold heightOfMaximum
  rw [if_neg hlen, if_neg hlen]
  constructor
  · intro hs
    rw [if_pos rfl, heightFold_append mx mx pre suf h mx rfl hs]
  · intro hp
    rw [if_neg (by simp), List.reverse_append, List.reverse_cons, List.append_assoc]
    simp only [List.cons_append, List.nil_append]
    rw [heightFold_append mx mx suf.reverse pre.reverse h mx rfl (fun l hl => hp l (by simpa using hl))]

/-- **C53** (finding): whenever the maximum is attained at two or more of ascending heights, the height returned for
`find_lowest=True` is not the lowest one: the two settings are exchanged. -/
theorem C53_find_lowest_refuted (pre mid suf : List (ℚ × ℚ)) (h1 h2 mx : ℚ)
    (hasc : ((pre ++ (h1, mx) :: (mid ++ (h2, mx) :: suf)).map Prod.fst).Pairwise (· < ·)) :
    ∃ r, heightOfMaximum (pre ++ (h1, mx) :: (mid ++ (h2, mx) :: suf)) mx true = .ok r ∧ h1 < r := by
  have hlen : (pre ++ (h1, mx) :: (mid ++ (h2, mx) :: suf)).length ≠ 1 := by
    simp only [List.length_append, List.length_cons]; omega
  unfold heightOfMaximum
  rw [if_neg hlen, if_pos rfl]
  refine ⟨_, rfl, ?_⟩
  have key : ∀ (l : List (ℚ × ℚ)) (a : ℚ), h1 < a → (∀ x ∈ l, h1 < x.1) → h1 < l.foldl (heightStep mx) a := by
    intro l
    induction l with
    | nil => intro a h _; exact h
    | cons x l ih =>
      intro a h hx
      rw [List.foldl_cons]
      refine ih _ ?_ (fun y hy => hx y (by simp [hy]))
      unfold heightStep
      by_cases hc : x.2 = mx
      · rw [if_pos hc]; exact hx x (by simp)
      · rw [if_neg hc]; exact h
  rw [List.map_append, List.map_cons, List.pairwise_append] at hasc
  have hgt : ∀ x ∈ mid ++ (h2, mx) :: suf, h1 < x.1 := fun x hx =>
    (List.pairwise_cons.1 hasc.2.1).1 x.1 (List.mem_map.2 ⟨x, hx, rfl⟩)
  rw [List.foldl_append, List.foldl_cons, List.foldl_append, List.foldl_cons]
  have e : ∀ a, heightStep mx a (h2, mx) = h2 := fun a => if_pos rfl
  rw [e]
  exact key suf h2 (hgt (h2, mx) (by simp)) (fun x hx => hgt x (by simp [hx]))

example : heightOfMaximum [(5, 8), (75, 7), (300, 8)] 8 true = .ok 300 := by decide +kernel
example : maximumInHeight [(5, 2), (75, 5), (300, 9)] none (some 100) = .ok 5 := by decide +kernel

/-! ### C54: compare_attributes -/

/-- Specification: attribute (key, value) occurs on every cube. -/
def Spec.OnAll {V : Type} (cubes : List (List (String × V))) (kv : String × V) : Prop := ∀ a ∈ cubes, kv ∈ a

theorem attrGet_iff {V : Type} (a : List (String × V)) (hk : (a.map Prod.fst).Nodup) (k : String) (v : V) :
    attrGet a k = some v ↔ (k, v) ∈ a := by
  unfold attrGet
  induction a with
  | nil => simp
  | cons kv a ih =>
    rw [List.map_cons, List.nodup_cons] at hk
    by_cases h : kv.1 = k
    · rw [List.find?_cons_of_pos (by simpa using h)]
      simp only [Option.map_some, Option.some.injEq, List.mem_cons]
      constructor
      · intro hv; left; rw [← h, ← hv]
      · rintro (hv | hv)
        · rw [← hv]
        · exact absurd (List.mem_map.2 ⟨_, hv, h.symm⟩) hk.1
    · rw [List.find?_cons_of_neg (by simpa using h), ih hk.2]
      simp only [List.mem_cons]
      constructor
      · exact Or.inr
      · rintro (hv | hv)
        · exact absurd (by rw [← hv]) h
        · exact hv

theorem common_spec {V : Type} [DecidableEq V] (p : String → Bool) (ref : List (String × V)) (hr : (ref.map Prod.fst).Nodup)
    (cs : List (List (String × V))) (common : List String) (k : String) :
    k ∈ cs.foldl (commonStep p ref) common ↔
      k ∈ common ∧ (cs ≠ [] → p k = true) ∧ ∀ a ∈ cs, ∃ v, (k, v) ∈ ref ∧ (k, v) ∈ a := by
  induction cs generalizing common with
  | nil => simp
  | cons a cs ih =>
    rw [List.foldl_cons, ih]
    have hstep : k ∈ commonStep p ref common a ↔ k ∈ common ∧ p k = true ∧ ∃ v, (k, v) ∈ ref ∧ (k, v) ∈ a := by
      unfold commonStep filteredAttributes
      simp only [List.mem_map, List.mem_filter, Bool.and_eq_true, decide_eq_true_eq]
      constructor
      · rintro ⟨⟨k', v⟩, ⟨⟨h1, h2⟩, h3, h4⟩, rfl⟩
        exact ⟨h3, h2, v, (attrGet_iff ref hr _ _).1 h4, h1⟩
      · rintro ⟨h1, h2, v, h3, h4⟩
        exact ⟨(k, v), ⟨⟨h4, h2⟩, h1, (attrGet_iff ref hr _ _).2 h3⟩, rfl⟩
    rw [hstep]
    constructor
    · rintro ⟨⟨h1, h2, h3⟩, _, h4⟩
      refine ⟨h1, fun _ => h2, ?_⟩
      intro b hb
      rcases List.mem_cons.1 hb with rfl | hb
      · exact h3
      · exact h4 b hb
    · rintro ⟨h1, h2, h3⟩
      exact ⟨⟨h1, h2 (by simp), h3 a (by simp)⟩, fun _ => h2 (by simp), fun b hb => h3 b (by simp [hb])⟩

/-- **C54**: for two or more cubes, the differences listed for a cube are exactly its (filtered) attributes that do not occur with
the same value on every cube. -/
theorem C54_differences {V : Type} [DecidableEq V] (p : String → Bool) (c d : List (String × V)) (cs : List (List (String × V)))
    (hk : ∀ a ∈ c :: d :: cs, (a.map Prod.fst).Nodup) :
    List.Forall₂ (fun a out => ∀ kv, kv ∈ out ↔ kv ∈ a ∧ p kv.1 = true ∧ ¬ Spec.OnAll (c :: d :: cs) kv)
      (c :: d :: cs) (compareAttributes p (c :: d :: cs)) := by
  have hr : ((filteredAttributes p c).map Prod.fst).Nodup := (hk c (by simp)).sublist (List.filter_sublist.map _)
  unfold compareAttributes
  simp only
  rw [List.forall₂_map_right_iff, List.forall₂_same]
  intro a ha kv
  unfold filteredAttributes
  rw [List.mem_filter, List.mem_filter]
  simp only [decide_eq_true_eq]
  rw [and_assoc]
  refine and_congr_right (fun hka => and_congr_right (fun hp => not_congr ?_))
  change kv.1 ∈ (d :: cs).foldl (commonStep p (filteredAttributes p c)) ((filteredAttributes p c).map Prod.fst) ↔ _
  rw [common_spec p _ hr]
  have huniq : ∀ b ∈ c :: d :: cs, ∀ k v w, (k, v) ∈ b → (k, w) ∈ b → v = w := by
    intro b hb k v w h1 h2
    have := List.inj_on_of_nodup_map (hk b hb) h1 h2 rfl
    simpa using this
  obtain ⟨k, v⟩ := kv
  simp only at hp ⊢
  unfold Spec.OnAll
  constructor
  · rintro ⟨h1, _, h3⟩ b hb
    obtain ⟨⟨k', w⟩, hw, rfl⟩ := List.mem_map.1 h1
    simp only at hka h3 hp ⊢
    have hwc : (k', w) ∈ c := (List.mem_filter.1 hw).1
    have hb' : ∀ x ∈ c :: d :: cs, (k', w) ∈ x := by
      intro x hx
      rcases List.mem_cons.1 hx with rfl | hx
      · exact hwc
      · obtain ⟨u, hu1, hu2⟩ := h3 x hx
        have : u = w := huniq c (by simp) _ _ _ (List.mem_filter.1 hu1).1 hwc
        exact this ▸ hu2
    have : v = w := huniq a ha _ _ _ hka (hb' a ha)
    rw [this]
    exact hb' b hb
  · intro h
    have hc : (k, v) ∈ filteredAttributes p c := List.mem_filter.2 ⟨h c (by simp), hp⟩
    exact ⟨List.mem_map.2 ⟨_, hc, rfl⟩, fun _ => hp, fun b hb => ⟨v, hc, h b (by simp only [List.mem_cons] at hb ⊢; tauto)⟩⟩

/-- **C54** (finding): a single cube gives no entry at all, not one empty entry. -/
theorem C54_single_cube {V : Type} [DecidableEq V] (p : String → Bool) (c : List (String × V)) : compareAttributes p [c] = [] := rfl

example : compareAttributes (fun _ => true) [[("a", 1), ("b", 2)], [("a", 1), ("b", 3), ("c", 4)]]
    = [[("b", 2)], [("b", 3), ("c", 4)]] := by decide +kernel

end Improver
