import Verif.Model.Checker
import Verif.Props.CubeManip

/-! Properties of cube checks (C179, C181), masking (C180) and loading (C182). -/

namespace Improver

/-! ### Order of dimensions -/

theorem npInsert_filter {l r : List ℕ} {i v : ℕ} (h : npInsert l i v = .ok r) (p : ℕ → Bool) (hv : p v = false) :
    r.filter p = l.filter p := by
  unfold npInsert at h
  by_cases hl : l.length < i
  · rw [if_pos hl] at h; exact nomatch h
  · rw [if_neg hl, Except.ok.injEq] at h
    subst h
    rw [List.filter_append, List.filter_cons_of_neg (by simp [hv]), ← List.filter_append, List.take_append_drop]

theorem npInsert_get {l r : List ℕ} {i v : ℕ} (h : npInsert l i v = .ok r) :
    r[i]? = some v ∧ r.Perm (v :: l) ∧ ∀ j < i, r[j]? = l[j]? := by
  unfold npInsert at h
  by_cases hl : l.length < i
  · rw [if_pos hl] at h; exact nomatch h
  · rw [if_neg hl, Except.ok.injEq] at h
    subst h
    have hlen : (l.take i).length = i := by rw [List.length_take]; omega
    refine ⟨?_, ?_, fun j hj => ?_⟩
    · rw [List.getElem?_append_right (by omega), hlen, Nat.sub_self]
      rfl
    · have := List.perm_middle (a := v) (l₁ := l.take i) (l₂ := l.drop i)
      rwa [List.take_append_drop] at this
    · rw [List.getElem?_append_left (by omega), List.getElem?_take_of_lt hj]

theorem increasing_room {n : ℕ} {d : ℕ} {ds : List ℕ} (hs : (d :: ds).Pairwise (· < ·)) (hb : ∀ x ∈ d :: ds, x < n) :
    d + ds.length < n := by
  induction ds generalizing d with
  | nil => simpa using hb d List.mem_cons_self
  | cons e ds ih =>
    rw [List.pairwise_cons] at hs
    have h1 := hs.1 e List.mem_cons_self
    have h2 := ih hs.2 fun x hx => hb x (List.mem_cons_of_mem _ hx)
    rw [List.length_cons]
    omega

theorem insertDims_spec {ds base : List ℕ} (hs : ds.Pairwise (· < ·)) (hb : ∀ x ∈ ds, x < base.length + ds.length) :
    ∃ r, insertDims ds base = .ok r ∧ (∀ d ∈ ds, r[d]? = some d) ∧ r.Perm (base ++ ds) ∧
      (∀ p : ℕ → Bool, (∀ d ∈ ds, p d = false) → r.filter p = base.filter p) ∧
      ∀ j, (∀ d ∈ ds, j < d) → r[j]? = base[j]? := by
  induction ds generalizing base with
  | nil => exact ⟨base, rfl, by simp, by simp, fun _ _ => rfl, fun _ _ => rfl⟩
  | cons d ds ih =>
    have hroom := increasing_room hs hb
    rw [List.length_cons] at hroom
    have hi : ∃ b, npInsert base d d = .ok b := by
      unfold npInsert
      rw [if_neg (by omega)]
      exact ⟨_, rfl⟩
    obtain ⟨b, hb1⟩ := hi
    obtain ⟨g1, g2, g3⟩ := npInsert_get hb1
    rw [List.pairwise_cons] at hs
    have hlen : b.length = base.length + 1 := by rw [g2.length_eq, List.length_cons]
    obtain ⟨r, r1, r2, r3, r4, r5⟩ := ih (base := b) hs.2 fun x hx => by
      have := hb x (List.mem_cons_of_mem _ hx)
      rw [List.length_cons] at this
      omega
    refine ⟨r, ?_, ?_, ?_, ?_, ?_⟩
    · rw [insertDims, hb1]
      simp only [bind, Except.bind]
      exact r1
    · intro x hx
      rw [List.mem_cons] at hx
      rcases hx with rfl | hx
      · rw [r5 _ hs.1, g1]
      · exact r2 x hx
    · refine r3.trans ((g2.append_right ds).trans ?_)
      rw [List.cons_append]
      exact List.perm_middle.symm
    · intro p hp
      rw [r4 p fun x hx => hp x (List.mem_cons_of_mem _ hx), npInsert_filter hb1 p (hp d List.mem_cons_self)]
    · intro j hj
      rw [r5 j fun x hx => hj x (List.mem_cons_of_mem _ hx), g3 j (hj d List.mem_cons_self)]

theorem dimOf_mapM {e : Err} {dims l : List String} (h : ∀ n ∈ l, n ∈ dims) :
    l.mapM (dimOf e dims) = .ok (l.map fun n => dims.idxOf n) := by
  induction l with
  | nil => rfl
  | cons n l ih =>
    rw [List.mapM_cons, dimOf, if_pos (h n List.mem_cons_self)]
    simp only [bind, Except.bind, pure, Except.pure]
    rw [ih fun m hm => h m (List.mem_cons_of_mem _ hm)]
    rfl

/-- C179: scalar coordinates that are dimensions of the original become the leading dimensions, in their order, without
change to any value. -/
theorem C179_promote {α : Type} (names : List String) (c : ScalarCube α) :
    (promoteScalars names c).dims = c.scalars.filter (fun s => decide (s ∈ names)) ++ c.cube.dims ∧
    ∀ idx, (promoteScalars names c).data idx =
      c.cube.data (idx.drop (c.scalars.filter fun s => decide (s ∈ names)).length) := by
  obtain ⟨cube, scalars⟩ := c
  unfold promoteScalars
  dsimp only
  rw [List.foldl_reverse]
  induction scalars with
  | nil => exact ⟨rfl, fun idx => rfl⟩
  | cons s l ih =>
    rw [List.foldr_cons]
    by_cases hs : s ∈ names
    · rw [if_pos hs, List.filter_cons_of_pos (by simpa using hs)]
      dsimp only
      rw [ih.1]
      refine ⟨rfl, fun idx => ?_⟩
      rw [ih.2, List.length_cons, ← List.drop_one, List.drop_drop, Nat.add_comm]
    · rw [if_neg hs, List.filter_cons_of_neg (by simpa using hs)]
      exact ih

/-- C179: if the new cube has the dimensions of the original, scalar coordinates counted, and besides the exceptions, named
in the order in which they are on it, the check succeeds; the result has the dimensions of the original in their order,
the exceptions where they were, and every value at its coordinates. -/
theorem C179_order {α : Type} (names exceptions : List String) (new : ScalarCube α)
    (hd : (promoteScalars names new).dims.Nodup)
    (hp : (names ++ exceptions).Perm (promoteScalars names new).dims)
    (he : exceptions.Pairwise fun a b =>
      (promoteScalars names new).dims.idxOf a < (promoteScalars names new).dims.idxOf b) :
    ∃ r, checkCubeCoordinates names new exceptions = .ok r ∧
      r.dims.filter (fun n => decide (n ∈ names)) = names ∧
      r.dims.Perm (promoteScalars names new).dims ∧
      (∀ i : ℕ, ∀ e ∈ exceptions, (promoteScalars names new).dims[i]? = some e → r.dims[i]? = some e) ∧
      ∀ at_ : String → ℕ, r.data (r.dims.map at_) =
        (promoteScalars names new).data ((promoteScalars names new).dims.map at_) := by
  unfold checkCubeCoordinates
  generalize promoteScalars names new = c at *
  dsimp only
  have hlen := hp.length_eq
  rw [List.length_append] at hlen
  have hmem : ∀ n ∈ names ++ exceptions, n ∈ c.dims := fun n hn => hp.mem_iff.1 hn
  have hn1 : ∀ n ∈ names, n ∈ c.dims := fun n hn => hmem n (List.mem_append_left _ hn)
  have hn2 : ∀ n ∈ exceptions, n ∈ c.dims := fun n hn => hmem n (List.mem_append_right _ hn)
  have hnd : (names ++ exceptions).Nodup := hp.nodup_iff.2 hd
  have hdisj : ∀ x ∈ names, x ∉ exceptions := fun x hx hx' => by
    rw [List.nodup_append] at hnd
    exact hnd.2.2 x hx x hx' rfl
  rw [if_neg (by omega), dimOf_mapM hn1, dimOf_mapM hn2]
  simp only [bind, Except.bind]
  obtain ⟨r, r1, r2, r3, r4, _⟩ := insertDims_spec (ds := exceptions.map fun n => c.dims.idxOf n)
    (base := names.map fun n => c.dims.idxOf n) (by rw [List.pairwise_map]; exact he) (by
      intro x hx
      obtain ⟨n, hn, rfl⟩ := List.mem_map.1 hx
      rw [List.length_map, List.length_map, hlen]
      exact List.idxOf_lt_length_of_mem (hn2 n hn))
  rw [r1]
  dsimp only
  have hinj : ∀ x ∈ c.dims, ∀ y ∈ c.dims, c.dims.idxOf x = c.dims.idxOf y → x = y := by
    intro x hx y hy e
    rw [← idxOf_getD hx, e, idxOf_getD hy]
  have hperm : r.Perm (List.range c.dims.length) := by
    refine r3.trans ?_
    rw [← List.map_append]
    refine (hp.map _).trans ?_
    have : c.dims.map (fun n => c.dims.idxOf n) = List.range c.dims.length := by
      apply List.ext_getElem
      · simp
      · intro i h1 h2
        rw [List.getElem_map, List.getElem_range]
        rw [List.length_map] at h1
        have := getD_idxOf hd h1
        rwa [List.getD_eq_getElem _ _ h1] at this
    rw [this]
  obtain ⟨c', t1, t2, t3⟩ := transpose_spec c r hperm
  refine ⟨c', t1, ?_, ?_, ?_, t3⟩
  · rw [t2, List.filter_map]
    have e1 : r.filter ((fun n => decide (n ∈ names)) ∘ fun d : ℕ => c.dims.getD d "") =
        names.map fun n => c.dims.idxOf n := by
      have h1 := r4 ((fun n => decide (n ∈ names)) ∘ fun d : ℕ => c.dims.getD d "") (by
        intro d hdm
        obtain ⟨n, hn, rfl⟩ := List.mem_map.1 hdm
        simp only [Function.comp, idxOf_getD (hn2 n hn), decide_eq_false_iff_not]
        exact fun h => hdisj n h hn)
      rw [h1, List.filter_eq_self]
      intro d hdm
      obtain ⟨n, hn, rfl⟩ := List.mem_map.1 hdm
      simp only [Function.comp, idxOf_getD (hn1 n hn), decide_eq_true_eq]
      exact hn
    rw [e1, List.map_map]
    conv_rhs => rw [← List.map_id names]
    apply List.map_congr_left
    intro n hn
    simp only [Function.comp, idxOf_getD (hn1 n hn), id]
  · rw [t2]
    refine (hperm.map _).trans ?_
    have : (List.range c.dims.length).map (fun d : ℕ => c.dims.getD d "") = c.dims := by
      apply List.ext_getElem
      · simp
      · intro i h1 h2
        rw [List.getElem_map, List.getElem_range, List.getD_eq_getElem _ _ h2]
    rw [this]
  · intro i e hee hi
    have hi' : i < c.dims.length := (List.getElem?_eq_some_iff.1 hi).1
    have hidx : c.dims.idxOf e = i := by
      have := getD_idxOf hd hi'
      rwa [List.getD_eq_getElem?_getD, hi, Option.getD_some] at this
    have := r2 i (List.mem_map.2 ⟨e, hee, hidx⟩)
    rw [t2, List.getElem?_map, this, Option.map_some, List.getD_eq_getElem?_getD, hi]
    rfl

example : ((checkCubeCoordinates ["time", "y", "x"] ⟨⟨["x", "percentile", "y"], fun i => i⟩, ["height", "time"]⟩
      ["percentile"]).toOption.map fun c => (c.dims, c.data [0, 10, 20, 30])) =
    some (["time", "y", "percentile", "x"], [30, 20, 10]) := by decide +kernel

/-- C179 finding: exceptions named in another order than that of the dimensions lead to an error, or do not stay where they
were. -/
theorem C179_exception_order_refuted :
    (checkCubeCoordinates ["y", "x"] ⟨⟨["y", "x", "time", "percentile"], fun i => i⟩, []⟩ ["percentile", "time"]).toOption.map
      DimCube.dims = none ∧
    (checkCubeCoordinates ["y", "x"] ⟨⟨["percentile", "time", "y", "x"], fun i => i⟩, []⟩ ["time", "percentile"]).toOption.map
      DimCube.dims = some ["percentile", "y", "time", "x"] := by decide +kernel

/-- C179: another number of dimensions is an error. -/
theorem C179_error {α : Type} (names exceptions : List String) (new : ScalarCube α)
    (h : names.length + exceptions.length ≠ (promoteScalars names new).dims.length) :
    checkCubeCoordinates names new exceptions = .error .coordinateNotFound := by
  unfold checkCubeCoordinates
  dsimp only
  rw [if_pos h]

/-! ### Other checks -/

/-- C181: the mismatch is empty exactly when each cube has the dimensions of the other (or, one way, the first has those of
the second), and otherwise names the dimensions only one has. -/
theorem C181_mismatch (first second : List String) (n : String) :
    (n ∈ dimensionMismatch first second true ↔ (n ∈ first ∧ n ∉ second ∨ n ∈ second ∧ n ∉ first)) ∧
    (n ∈ dimensionMismatch first second false ↔ n ∈ second ∧ n ∉ first) := by
  unfold dimensionMismatch
  constructor
  · rw [if_pos rfl, List.mem_append, List.mem_filter, List.mem_filter]
    simp only [decide_eq_true_eq]
    tauto
  · rw [if_neg (by simp), List.mem_filter]
    simp only [decide_eq_true_eq]

/-- C181: the spatial coordinates match exactly when any two cubes have the same x and y coordinates. -/
theorem C181_spatial {X : Type} [DecidableEq X] (cubes : List (X × X)) (hne : cubes ≠ []) :
    ∃ b, spatialMatch cubes = .ok b ∧ (b = true ↔ ∀ c ∈ cubes, ∀ d ∈ cubes, c.1 = d.1 ∧ c.2 = d.2) := by
  obtain ⟨ref, rest, rfl⟩ := List.exists_cons_of_ne_nil hne
  refine ⟨_, rfl, ?_⟩
  have key : ∀ (l : List (X × X)) (b : Bool),
      l.foldl (fun m c => decide (c.1 = ref.1) && decide (c.2 = ref.2) && m) b = true ↔
        b = true ∧ ∀ c ∈ l, c.1 = ref.1 ∧ c.2 = ref.2 := by
    intro l
    induction l with
    | nil => intro b; simp
    | cons c l ih =>
      intro b
      rw [List.foldl_cons, ih]
      simp only [Bool.and_eq_true, decide_eq_true_eq, List.forall_mem_cons]
      tauto
  rw [key]
  constructor
  · rintro ⟨_, h⟩ c hc d hd
    rw [List.mem_cons] at hc hd
    have hc' : c.1 = ref.1 ∧ c.2 = ref.2 := by
      rcases hc with rfl | hc
      · exact ⟨rfl, rfl⟩
      · exact h c hc
    have hd' : d.1 = ref.1 ∧ d.2 = ref.2 := by
      rcases hd with rfl | hd
      · exact ⟨rfl, rfl⟩
      · exact h d hd
    exact ⟨hc'.1.trans hd'.1.symm, hc'.2.trans hd'.2.symm⟩
  · intro h
    exact ⟨rfl, fun c hc => h c (List.mem_cons_of_mem _ hc) ref List.mem_cons_self⟩

theorem sameCoord_iff {X : Type} [DecidableEq X] (c : Option X) (rest : List (Option X)) :
    sameCoord (c :: rest) = .ok () ↔ ∃ t, ∀ x ∈ c :: rest, x = some t := by
  unfold sameCoord
  by_cases hn : ((c :: rest).any Option.isNone) = true
  · rw [if_pos hn]
    constructor
    · intro h; exact nomatch h
    · rintro ⟨t, h⟩
      obtain ⟨x, hx, hxn⟩ := List.any_eq_true.1 hn
      rw [h x hx] at hxn
      exact nomatch hxn
  · rw [if_neg hn]
    have hall : ∀ x ∈ c :: rest, x ≠ none := by
      intro x hx e
      exact hn (List.any_eq_true.2 ⟨x, hx, by rw [e]; rfl⟩)
    dsimp only
    by_cases ha : (rest.all fun x => decide (x = c)) = true
    · rw [if_pos ha]
      refine ⟨fun _ => ?_, fun _ => rfl⟩
      rw [List.all_eq_true] at ha
      obtain ⟨t, ht⟩ := Option.ne_none_iff_exists'.1 (hall c List.mem_cons_self)
      refine ⟨t, fun x hx => ?_⟩
      rw [List.mem_cons] at hx
      rcases hx with rfl | hx
      · exact ht
      · have := ha x hx
        rw [decide_eq_true_eq] at this
        rw [this, ht]
    · rw [if_neg ha]
      constructor
      · intro h; exact nomatch h
      · rintro ⟨t, h⟩
        exfalso
        apply ha
        rw [List.all_eq_true]
        intro x hx
        rw [decide_eq_true_eq, h x (List.mem_cons_of_mem _ hx), h c List.mem_cons_self]

/-- C181: the time coordinates are accepted exactly when there are at least two cubes, all with (or all without) time bounds
as asked for, all with the same time, and with the same forecast reference time unless the first has a blend time. -/
theorem C181_times {X : Type} [DecidableEq X] (inputs : List (TimeCube X)) (bounds : Bool) :
    timeCoordsValid inputs bounds = .ok () ↔
      2 ≤ inputs.length ∧ (∀ c ∈ inputs, c.bounded = bounds) ∧ (∃ t, ∀ c ∈ inputs, c.time = t) ∧
      ((∃ c, inputs.head? = some c ∧ c.hasBlendTime = true) ∨ ∃ t, ∀ c ∈ inputs, c.reference = some t) := by
  match inputs with
  | [] => simp [timeCoordsValid]
  | [_] => simp [timeCoordsValid]
  | c :: d :: rest =>
    unfold timeCoordsValid
    dsimp only
    by_cases hb : ((c :: d :: rest).any fun x => decide (x.bounded ≠ bounds)) = true
    · rw [if_pos hb]
      constructor
      · intro h; exact nomatch h
      · rintro ⟨_, h, _⟩
        obtain ⟨x, hx, hxb⟩ := List.any_eq_true.1 hb
        rw [decide_eq_true_eq] at hxb
        exact absurd (h x hx) hxb
    · rw [if_neg hb]
      have hb' : ∀ x ∈ c :: d :: rest, x.bounded = bounds := by
        intro x hx
        by_contra hc
        exact hb (List.any_eq_true.2 ⟨x, hx, by rw [decide_eq_true_eq]; exact hc⟩)
      have ht := sameCoord_iff (some c.time) ((d :: rest).map fun x => some x.time)
      have hr := sameCoord_iff c.reference ((d :: rest).map TimeCube.reference)
      simp only [bind, Except.bind]
      rw [List.map_cons (f := fun x : TimeCube X => some x.time), List.map_cons (f := TimeCube.reference)]
      have et : (∃ t, ∀ x ∈ some c.time :: (d :: rest).map (fun x => some x.time), x = some t) ↔
          ∃ t, ∀ x ∈ c :: d :: rest, x.time = t := by
        constructor
        · rintro ⟨t, h⟩
          refine ⟨t, fun x hx => ?_⟩
          have := h (some x.time) (by
            rw [← List.map_cons (f := fun x : TimeCube X => some x.time)]
            exact List.mem_map.2 ⟨x, hx, rfl⟩)
          exact Option.some.inj this
        · rintro ⟨t, h⟩
          refine ⟨t, fun o ho => ?_⟩
          rw [← List.map_cons (f := fun x : TimeCube X => some x.time)] at ho
          obtain ⟨x, hx, rfl⟩ := List.mem_map.1 ho
          rw [h x hx]
      have er : (∃ t, ∀ x ∈ c.reference :: (d :: rest).map TimeCube.reference, x = some t) ↔
          ∃ t, ∀ x ∈ c :: d :: rest, x.reference = some t := by
        constructor
        · rintro ⟨t, h⟩
          refine ⟨t, fun x hx => h x.reference ?_⟩
          rw [← List.map_cons (f := TimeCube.reference)]
          exact List.mem_map.2 ⟨x, hx, rfl⟩
        · rintro ⟨t, h⟩
          refine ⟨t, fun o ho => ?_⟩
          rw [← List.map_cons (f := TimeCube.reference)] at ho
          obtain ⟨x, hx, rfl⟩ := List.mem_map.1 ho
          exact h x hx
      cases hs : sameCoord (some c.time :: (d :: rest).map fun x => some x.time) with
      | error e =>
        constructor
        · intro h; exact nomatch h
        · rintro ⟨_, _, h, _⟩
          rw [ht.2 (et.2 h)] at hs
          exact nomatch hs
      | ok u =>
        have hst := et.1 (ht.1 hs)
        dsimp only
        by_cases hbl : c.hasBlendTime = true
        · rw [if_pos hbl]
          exact ⟨fun _ => ⟨by simp, hb', hst, Or.inl ⟨c, rfl, hbl⟩⟩, fun _ => rfl⟩
        · rw [if_neg hbl, hr, er]
          constructor
          · intro h
            exact ⟨by simp, hb', hst, Or.inr h⟩
          · rintro ⟨_, _, _, ⟨x, hx, hxb⟩ | h⟩
            · cases hx
              exact absurd hxb hbl
            · exact h

example : timeCoordsValid [⟨3, true, some 1, false⟩, ⟨3, true, some 1, false⟩] true = .ok () ∧
    timeCoordsValid [⟨3, true, some 1, false⟩, ⟨3, true, some 2, false⟩] true = .error .valueError := by decide

/-- C181 finding: only the first cube's blend time counts: cubes with one and the same set of coordinates are accepted or
refused depending on their order. -/
theorem C181_blend_order_refuted :
    timeCoordsValid [⟨3, true, none, true⟩, ⟨3, true, some 1, false⟩] true = .ok () ∧
    timeCoordsValid [⟨3, true, some 1, false⟩, ⟨3, true, none, true⟩] true = .error .coordinateNotFound := by decide

/-! ### Masks -/

/-- C180: a mask with the dimensions of the cube, in any order, and of the same sizes, masks exactly the points where it is
true (or false, if inverted), and leaves the other values of the cube as they are. -/
theorem C180_mask {threshold : Option String} {cube mask : MaskCube} {maskName : String} (invert : Bool)
    (hm : mask.name = maskName) (hc : cube.name ≠ maskName) (hd : mask.grid.dims.Nodup) (hdc : cube.grid.dims.Nodup)
    (hp : ∀ n, n ∈ mask.grid.dims ↔ n ∈ cube.grid.dims) (hs : ∀ n ∈ cube.grid.dims, mask.size n = cube.size n)
    (ht : "threshold" ∉ cube.grid.dims) (first : Bool) :
    ∃ r left, applyMask threshold (if first then [mask, cube] else [cube, mask]) maskName invert = .ok (r, left) ∧
      r.name = cube.name ∧ r.grid.dims = cube.grid.dims ∧
      ∀ at_ : String → ℕ, r.grid.data (r.grid.dims.map at_) =
        if xor invert (decide ((mask.grid.data (mask.grid.dims.map at_)).getD 0 ≠ 0)) = true then none
        else cube.grid.data (cube.grid.dims.map at_) := by
  have hreq : coordsToReorder mask.grid.dims threshold cube.grid.dims = cube.grid.dims := by
    unfold coordsToReorder
    have e : cube.grid.dims.filterMap (fun n => if n = "threshold" then threshold else some n) = cube.grid.dims := by
      have : ∀ l : List String, "threshold" ∉ l → l.filterMap (fun n => if n = "threshold" then threshold else some n) = l := by
        intro l
        induction l with
        | nil => intro _; rfl
        | cons a l ih =>
          intro h
          rw [List.mem_cons, not_or] at h
          rw [List.filterMap_cons, if_neg fun e => h.1 e.symm, ih h.2]
      exact this _ ht
    rw [e, List.filter_eq_self]
    intro n hn
    rw [decide_eq_true_eq]
    exact (hp n).2 hn
  obtain ⟨c', o1, o2, o3⟩ := C51_ordering (⟨mask.grid.dims, fun i => maskTruth invert (mask.grid.data i)⟩ : DimCube Bool) hd
    threshold cube.grid.dims (by dsimp only; rw [hreq]; exact hdc) true
  dsimp only at o2 o3
  rw [if_pos rfl, hreq] at o2
  have hfil : mask.grid.dims.filter (fun n => decide (n ∉ cube.grid.dims)) = [] := by
    rw [List.filter_eq_nil_iff]
    intro n hn
    rw [decide_eq_true_eq, not_not]
    exact (hp n).1 hn
  rw [hfil, List.append_nil] at o2
  have key : ∀ a b : MaskCube, ((a = mask ∧ b = cube) ∨ (a = cube ∧ b = mask)) →
      ∃ r left, applyMask threshold [a, b] maskName invert = .ok (r, left) ∧
      r.name = cube.name ∧ r.grid.dims = cube.grid.dims ∧
      ∀ at_ : String → ℕ, r.grid.data (r.grid.dims.map at_) =
        if xor invert (decide ((mask.grid.data (mask.grid.dims.map at_)).getD 0 ≠ 0)) = true then none
        else cube.grid.data (cube.grid.dims.map at_) := by
    intro a b hab
    have h1 : (if a.name = maskName then a else b) = mask := by
      rcases hab with ⟨rfl, rfl⟩ | ⟨rfl, rfl⟩
      · rw [if_pos hm]
      · rw [if_neg hc]
    have h2 : (if a.name = maskName then b else a) = cube := by
      rcases hab with ⟨rfl, rfl⟩ | ⟨rfl, rfl⟩
      · rw [if_pos hm]
      · rw [if_neg hc]
    have h3 : ¬ (a.name = maskName ∧ b.name = maskName ∨ a.name ≠ maskName ∧ b.name ≠ maskName) := by
      rcases hab with ⟨rfl, rfl⟩ | ⟨rfl, rfl⟩
      · rintro (h | h)
        · exact hc h.2
        · exact h.1 hm
      · rintro (h | h)
        · exact hc h.1
        · exact h.2 hm
    unfold applyMask
    dsimp only
    rw [if_neg h3, h1, h2, o1]
    simp only [bind, Except.bind]
    rw [if_neg]
    · rw [o2]
      have hsh : cube.grid.dims.map mask.size = cube.shape := by
        unfold MaskCube.shape
        exact List.map_congr_left hs
      unfold npMask
      rw [if_pos hsh]
      refine ⟨_, _, rfl, rfl, rfl, fun at_ => ?_⟩
      dsimp only
      have := o3 at_
      rw [o2] at this
      rw [this]
      rfl
    · rw [o2, not_not]
      unfold dimensionMismatch
      simp
  cases first with
  | true => exact key mask cube (Or.inl ⟨rfl, rfl⟩)
  | false => exact key cube mask (Or.inr ⟨rfl, rfl⟩)

/-- C180: with other dimensions, or with other than two cubes of which exactly one has the name of the mask, there is an
error. -/
theorem C180_errors {threshold : Option String} {cubes : List MaskCube} {maskName : String} {invert : Bool} {r : MaskCube × MaskCube}
    (h : applyMask threshold cubes maskName invert = .ok r) :
    cubes.length = 2 ∧ (cubes.filter fun c => decide (c.name = maskName)).length = 1 ∧
      ∀ n, n ∈ r.1.grid.dims ↔ n ∈ r.2.grid.dims := by
  unfold applyMask at h
  match cubes, h with
  | [a, b], h =>
    dsimp only at h
    by_cases hn : a.name = maskName ∧ b.name = maskName ∨ a.name ≠ maskName ∧ b.name ≠ maskName
    · rw [if_pos hn] at h; exact nomatch h
    · rw [if_neg hn] at h
      refine ⟨rfl, ?_, ?_⟩
      · by_cases ha : a.name = maskName
        · have hb : b.name ≠ maskName := fun e => hn (Or.inl ⟨ha, e⟩)
          simp [ha, hb]
        · have hb : b.name = maskName := by
            by_contra e
            exact hn (Or.inr ⟨ha, e⟩)
          simp [ha, hb]
      · simp only [bind, Except.bind] at h
        generalize (if a.name = maskName then b else a) = cube at h
        generalize (if a.name = maskName then a else b) = mask at h
        cases ho : enforceOrdering (⟨mask.grid.dims, fun i => maskTruth invert (mask.grid.data i)⟩ : DimCube Bool) threshold
            cube.grid.dims true with
        | error e => rw [ho] at h; exact nomatch h
        | ok m =>
          rw [ho] at h
          dsimp only at h
          by_cases hmm : dimensionMismatch cube.grid.dims m.dims true ≠ []
          · rw [if_pos hmm] at h; exact nomatch h
          · rw [if_neg hmm] at h
            cases hk : npMask cube.shape (m.dims.map mask.size) cube.grid.data m.data with
            | error e => rw [hk] at h; exact nomatch h
            | ok data =>
              rw [hk, Except.ok.injEq] at h
              rw [← h]
              dsimp only
              rw [not_not] at hmm
              intro n
              have := (C181_mismatch cube.grid.dims m.dims n).1
              rw [hmm] at this
              simp only [List.not_mem_nil, false_iff] at this
              tauto

/-- Cubes for examples. -/
def exMask : MaskCube := ⟨"mask", ⟨["x", "y"], fun i => some (if i = [1, 0] then 1 else 0)⟩, fun _ => 2⟩
/-- Cubes for examples. -/
def exMaskee : MaskCube := ⟨"rain", ⟨["y", "x"], fun i => some (10 * (i.getD 0 0 : ℚ) + (i.getD 1 0 : ℚ))⟩, fun _ => 2⟩

example : ((applyMask none [exMaskee, exMask] "mask" false).toOption.map fun r =>
    ([[0, 0], [0, 1], [1, 0], [1, 1]] : List (List ℕ)).map r.1.grid.data) = some [some 0, none, some 10, some 11] := by decide +kernel

/-- C180 finding: the mask cube of the caller is changed: with inversion, a second use of the same mask cube masks the
points that the first use left. -/
theorem C180_twice_refuted :
    ((applyMask none [exMaskee, exMask] "mask" true).toOption.map fun r =>
      ([[0, 0], [0, 1], [1, 0], [1, 1]] : List (List ℕ)).map r.1.grid.data) = some [none, some 1, none, none] ∧
    (((applyMask none [exMaskee, exMask] "mask" true).toOption.bind fun r =>
      (applyMask none [exMaskee, r.2] "mask" true).toOption).map fun r =>
      ([[0, 0], [0, 1], [1, 0], [1, 1]] : List (List ℕ)).map r.1.grid.data) = some [some 0, none, some 10, some 11] := by
  constructor <;> decide +kernel

/-- C180 finding: only names of dimensions are compared: a mask on another grid with as many points is accepted, and masks
points elsewhere. -/
theorem C180_shape_refuted :
    ((applyMask none [⟨"rain", ⟨["y", "x"], fun _ => some 1⟩, fun n => if n = "y" then 2 else 3⟩,
        ⟨"mask", ⟨["y", "x"], fun i => some (if i = [1, 0] then 1 else 0)⟩, fun n => if n = "y" then 3 else 2⟩] "mask"
        false).toOption.map fun r =>
      ([[0, 0], [0, 1], [0, 2], [1, 0], [1, 1], [1, 2]] : List (List ℕ)).map r.1.grid.data) =
    some [some 1, some 1, none, some 1, some 1, some 1] := by decide +kernel

/-! ### Loading -/

/-- The probabilistic dimensions of a cube that loading puts first. -/
def Spec.leading {α : Type} (c : LoadCube α) (n : String) : Prop :=
  n = "realization" ∨ n = "percentile" ∨ c.threshold = some n

/-- C182: a loaded cube has its realization, percentile and threshold dimensions first, in this order, its y and x
dimensions last, and the others between them in the order of the file; no value moves from its coordinates, and attributes
are those of the file but for the pointer to the prefix cube. -/
theorem C182_tidy {α : Type} (c : LoadCube α) (hd : c.grid.dims.Nodup) (x y : String) (hx : c.xName = some x)
    (hy : c.yName = some y) (hxy : x ≠ y) (hxl : ¬ Spec.leading c x) (hyl : ¬ Spec.leading c y) (hxt : x ≠ "threshold")
    (hyt : y ≠ "threshold") (ht : c.threshold ≠ some "realization" ∧ c.threshold ≠ some "percentile") :
    ∃ r, tidyCube c = .ok r ∧
      r.grid.dims = (["realization", "percentile"] ++ c.threshold.toList).filter (fun n => decide (n ∈ c.grid.dims)) ++
        c.grid.dims.filter (fun n => decide (n ≠ "realization" ∧ n ≠ "percentile" ∧ c.threshold ≠ some n ∧ n ≠ y ∧ n ≠ x)) ++
        [y, x].filter (fun n => decide (n ∈ c.grid.dims)) ∧
      (∀ at_ : String → ℕ, r.grid.data (r.grid.dims.map at_) = c.grid.data (c.grid.dims.map at_)) ∧
      (∀ a, a ∈ r.attributes ↔ a ∈ c.attributes ∧ a.1 ≠ "bald__isPrefixedBy") := by
  have hreq1 : coordsToReorder c.grid.dims c.threshold ["realization", "percentile", "threshold"] =
      (["realization", "percentile"] ++ c.threshold.toList).filter (fun n => decide (n ∈ c.grid.dims)) := by
    unfold coordsToReorder
    congr 1
  have hnd1 : (coordsToReorder c.grid.dims c.threshold ["realization", "percentile", "threshold"]).Nodup := by
    rw [hreq1]
    refine List.Nodup.filter _ ?_
    cases hth : c.threshold with
    | none => decide
    | some t =>
      rw [hth] at ht
      simp only [ne_eq, Option.some.injEq] at ht
      simp [Ne.symm ht.1, Ne.symm ht.2]
  obtain ⟨g1, o1, o2, o3⟩ := C51_ordering c.grid hd c.threshold ["realization", "percentile", "threshold"] hnd1 true
  rw [if_pos rfl, hreq1] at o2
  set lead := (["realization", "percentile"] ++ c.threshold.toList).filter (fun n => decide (n ∈ c.grid.dims)) with hlead
  have hsub : ∀ n, n ∈ lead → n ∈ c.grid.dims := by
    intro n h
    rw [hlead, List.mem_filter, decide_eq_true_eq] at h
    exact h.2
  have hmem : ∀ n, n ∈ g1.dims ↔ n ∈ c.grid.dims := by
    intro n
    rw [o2]
    constructor
    · intro h
      rcases List.mem_append.1 h with h | h
      · exact hsub n h
      · exact (List.mem_filter.1 h).1
    · intro h
      by_cases hl : n ∈ lead
      · exact List.mem_append.2 (Or.inl hl)
      · exact List.mem_append.2 (Or.inr (List.mem_filter.2 ⟨h, decide_eq_true hl⟩))
  have hleadmem : ∀ n, n ∈ lead ↔ Spec.leading c n ∧ n ∈ c.grid.dims := by
    intro n
    rw [hlead, List.mem_filter, decide_eq_true_eq]
    unfold Spec.leading
    simp only [List.mem_append, List.mem_cons, List.not_mem_nil, or_false, Option.mem_toList, Option.mem_def]
    tauto
  have hnd2 : g1.dims.Nodup := by
    rw [o2, List.nodup_append]
    refine ⟨hreq1 ▸ hnd1, hd.filter _, ?_⟩
    intro a ha b hb e
    subst e
    rw [List.mem_filter, decide_eq_true_eq] at hb
    exact hb.2 ha
  have hreq2 : coordsToReorder g1.dims c.threshold [y, x] = [y, x].filter (fun n => decide (n ∈ c.grid.dims)) := by
    unfold coordsToReorder
    rw [List.filterMap_cons, if_neg hyt, List.filterMap_cons, if_neg hxt]
    simp only [List.filterMap_nil]
    apply List.filter_congr
    intro n _
    simp only [hmem]
  obtain ⟨g2, p1, p2, p3⟩ := C51_ordering g1 hnd2 c.threshold [y, x] (by
    rw [hreq2]
    refine List.Nodup.filter _ ?_
    simp [Ne.symm hxy]) false
  rw [if_neg (by simp), hreq2] at p2
  refine ⟨{ c with attributes := c.attributes.filter fun a => decide (a.1 ≠ "bald__isPrefixedBy"), grid := g2 }, ?_, ?_, ?_, ?_⟩
  · unfold tidyCube
    dsimp only
    simp only [bind, Except.bind]
    rw [o1, hy, hx]
    dsimp only
    rw [p1]
  · dsimp only
    rw [p2]
    congr 1
    rw [o2, List.filter_append]
    congr 1
    · rw [List.filter_eq_self]
      intro n hn
      rw [decide_eq_true_eq, List.mem_filter]
      rintro ⟨h, _⟩
      have hl := ((hleadmem n).1 hn).1
      simp only [List.mem_cons, List.not_mem_nil, or_false] at h
      rcases h with rfl | rfl
      · exact hyl hl
      · exact hxl hl
    · rw [List.filter_filter]
      apply List.filter_congr
      intro n hn
      rw [Bool.eq_iff_iff, Bool.and_eq_true, decide_eq_true_eq, decide_eq_true_eq, decide_eq_true_eq, hleadmem,
        List.mem_filter, decide_eq_true_eq]
      unfold Spec.leading
      simp only [List.mem_cons, List.not_mem_nil, or_false]
      tauto
  · intro at_
    dsimp only
    rw [p3, o3]
  · intro a
    dsimp only
    rw [List.mem_filter, decide_eq_true_eq]

example : ((tidyCube (⟨none, [("title", "T"), ("bald__isPrefixedBy", "p")], ⟨["y", "time", "rain", "x", "realization"], fun i => i⟩,
      some "rain", some "x", some "y"⟩ : LoadCube (List ℕ))).toOption.map fun r => (r.attributes, r.grid.dims, r.grid.data [0, 1, 2, 3, 4])) =
    some ([("title", "T")], ["realization", "rain", "time", "y", "x"], [3, 2, 1, 4, 0]) := by decide +kernel

theorem mapM_ok_forall₂ {α β : Type} {f : α → Except Err β} {l : List α} {r : List β} (h : l.mapM f = .ok r) :
    List.Forall₂ (fun a b => f a = .ok b) l r := by
  induction l generalizing r with
  | nil => cases h; exact .nil
  | cons a l ih =>
    rw [List.mapM_cons] at h
    simp only [bind, Except.bind, pure, Except.pure] at h
    cases hf : f a with
    | error e => rw [hf] at h; exact nomatch h
    | ok b =>
      rw [hf] at h
      dsimp only at h
      cases hl : l.mapM f with
      | error e => rw [hl] at h; exact nomatch h
      | ok r' =>
        rw [hl] at h
        cases h
        exact .cons hf (ih hl)

theorem mapM_of_forall₂ {α β : Type} {f : α → Except Err β} {l : List α} {r : List β}
    (h : List.Forall₂ (fun a b => f a = .ok b) l r) : l.mapM f = .ok r := by
  induction h with
  | nil => rfl
  | cons hf _ ih =>
    rw [List.mapM_cons]
    simp only [bind, Except.bind, pure, Except.pure]
    rw [hf, ih]

/-- C182: loading gives the cubes of all files that meet the constraint, file by file and in the order of each file, and
nothing from the prefix cube; it is an error if there are none. -/
theorem C182_list {α : Type} (wanted : LoadCube α → Bool) (files : List (List (LoadCube α))) :
    (∀ r, loadCubelist wanted files = .ok r ↔
      r ≠ [] ∧ List.Forall₂ (fun c d => tidyCube c = .ok d)
        (files.flatten.filter fun c => decide (c.longName ≠ some "prefixes") && wanted c) r) ∧
    ((∀ f ∈ files, ∀ c ∈ f, wanted c = true → c.longName = some "prefixes") →
      loadCubelist wanted files = .error .valueError) := by
  have e : (files.map fun f => f.filter fun c => decide (c.longName ≠ some "prefixes") && wanted c).flatten =
      files.flatten.filter fun c => decide (c.longName ≠ some "prefixes") && wanted c := by
    rw [List.filter_flatten]
  unfold loadCubelist
  dsimp only
  rw [e]
  constructor
  · intro r
    constructor
    · intro h
      by_cases hn : (files.flatten.filter fun c => decide (c.longName ≠ some "prefixes") && wanted c) = []
      · rw [if_pos hn] at h; exact nomatch h
      · rw [if_neg hn] at h
        have hf := mapM_ok_forall₂ h
        refine ⟨?_, hf⟩
        rintro rfl
        cases hc : (files.flatten.filter fun c => decide (c.longName ≠ some "prefixes") && wanted c) with
        | nil => exact hn hc
        | cons a l => rw [hc] at hf; exact nomatch hf
    · rintro ⟨hr, hf⟩
      rw [if_neg]
      · exact mapM_of_forall₂ hf
      · intro hn
        rw [hn] at hf
        cases hf
        exact hr rfl
  · intro h
    rw [if_pos]
    rw [List.filter_eq_nil_iff]
    intro c hc hcon
    rw [Bool.and_eq_true, decide_eq_true_eq] at hcon
    obtain ⟨f, hf, hcf⟩ := List.mem_flatten.1 hc
    exact hcon.1 (h f hf c hcf hcon.2)

/-- C182: loading one cube gives the cube itself if one is found and the merge of the cubes found otherwise. -/
theorem C182_cube {α : Type} (wanted : LoadCube α → Bool) (merge : List (LoadCube α) → Except Err (LoadCube α))
    (files : List (List (LoadCube α))) :
    (∀ c, loadCubelist wanted files = .ok [c] → loadCube wanted merge files = .ok c) ∧
    (∀ a b l, loadCubelist wanted files = .ok (a :: b :: l) → loadCube wanted merge files = merge (a :: b :: l)) ∧
    (∀ e, loadCubelist wanted files = .error e → loadCube wanted merge files = .error e) := by
  refine ⟨fun c h => ?_, fun a b l h => ?_, fun e h => ?_⟩ <;>
  · unfold loadCube
    rw [h]
    rfl

end Improver
