import Verif.Model.Merge
import Verif.Props.CubeManip
import Verif.Props.BlendRun
import Verif.Props.TimeLag
import Verif.Props.ReliabilityRun

namespace Improver

/-! ### C233: adding a dimension to a cube -/

/-- C233.  The new dimension goes where asked, the others keep their order, and at every index of the new dimension the values are those
of the cube; other locations are refused. -/
theorem C233_added (c : MaskedGrid) (new : String) (l : ℕ) (hl : l ≤ c.dims.length) :
    ∃ out, addCoordinate c new l = .ok out ∧ out.dims = c.dims.take l ++ new :: c.dims.drop l ∧
      ∀ a : String → ℕ, out.value (out.dims.map a) = c.value (c.dims.map a) := by
  have hins : npInsert (List.range c.dims.length) l c.dims.length
      = .ok ((List.range c.dims.length).take l ++ c.dims.length :: (List.range c.dims.length).drop l) := by
    unfold npInsert
    rw [if_neg (by simpa using hl)]
  have hp : ((List.range c.dims.length).take l ++ c.dims.length :: (List.range c.dims.length).drop l).Perm
      (List.range (c.dims ++ [new]).length) := by
    rw [List.length_append, List.length_singleton, List.range_succ]
    refine List.perm_middle.trans ?_
    rw [List.take_append_drop]
    exact (List.perm_append_singleton _ _).symm
  obtain ⟨out, ho, hd, hv⟩ := transpose_spec (⟨c.dims ++ [new], fun i => c.value (i.take c.dims.length)⟩ : DimCube ℚ) _ hp
  unfold addCoordinate
  dsimp only
  rw [if_neg (by push Not; exact ⟨by exact_mod_cast hl, by omega⟩)]
  simp only [bind, Except.bind, pure, Except.pure, Int.toNat_natCast]
  rw [hins]
  dsimp only
  rw [ho]
  refine ⟨_, rfl, ?_, ?_⟩
  · rw [hd]
    dsimp only
    have hget : ∀ k < c.dims.length, (c.dims ++ [new]).getD k "" = c.dims.getD k "" := by
      intro k hk
      rw [List.getD_eq_getElem?_getD, List.getElem?_append_left hk, List.getD_eq_getElem?_getD]
    have hall : (List.range c.dims.length).map (fun d => (c.dims ++ [new]).getD d "") = c.dims := by
      apply List.ext_getElem (by simp)
      intro i h1 h2
      simp only [List.getElem_map, List.getElem_range]
      rw [hget i h2, List.getD_eq_getElem _ _ h2]
    rw [List.map_append, List.map_cons, List.map_take, List.map_drop, hall]
    congr 2
    rw [List.getD_eq_getElem?_getD, List.getElem?_append_right le_rfl]
    simp
  · intro a
    have h := hv a
    dsimp only at h ⊢
    rw [h]
    congr 1
    rw [List.map_append, List.take_left' (by simp)]

/-- C233.  Locations outside the cube are refused. -/
theorem C233_refused (c : MaskedGrid) (new : String) (l : ℤ) (hl : l < 0 ∨ (c.dims.length : ℤ) < l) :
    addCoordinate c new l = .error .valueError := by
  unfold addCoordinate
  dsimp only
  rw [if_pos (by rcases hl with h | h; exacts [Or.inr h, Or.inl h])]

/-- C233 (limits).  The mask is lost: no point of the result is masked, whatever the input. -/
theorem C233_mask_refuted (c : MaskedGrid) (new : String) (l : ℕ) (hl : l ≤ c.dims.length) :
    ∃ out, addCoordinate c new l = .ok out ∧ ∀ i, out.mask i = false := by
  obtain ⟨out, ho, _⟩ := C233_added c new l hl
  refine ⟨out, ho, ?_⟩
  unfold addCoordinate at ho
  dsimp only at ho
  rw [if_neg (by push Not; exact ⟨by exact_mod_cast hl, by omega⟩)] at ho
  simp only [bind, Except.bind, pure, Except.pure, Int.toNat_natCast] at ho
  cases h1 : npInsert (List.range c.dims.length) l c.dims.length with
  | error e => rw [h1] at ho; exact nomatch ho
  | ok order =>
    rw [h1] at ho
    dsimp only at ho
    cases h2 : DimCube.transpose (⟨c.dims ++ [new], fun i => c.value (i.take c.dims.length)⟩ : DimCube ℚ) order with
    | error e => rw [h2] at ho; exact nomatch ho
    | ok d =>
      rw [h2] at ho
      have := Except.ok.inj ho
      intro i
      rw [← this]

/-- Concrete case: a threshold dimension put between realizations and rows; the masked value 9 shows in the result. -/
example : ((addCoordinate ⟨["realization", "y"], fun i => match i with | [a, b] => (10 * a + b : ℚ) | _ => 9, fun i => decide (i = [1, 0])⟩
    "threshold" 1).toOption.map fun o => (o.dims, o.value [1, 5, 0], o.value [0, 2, 3], o.mask [1, 5, 0]))
    = some (["realization", "threshold", "y"], 10, 3, false) := by decide +kernel

/-! ### C234: merging cubes -/

/-- The lengths of the time bounds agree with the first to one part in 100000. -/
def Spec.sameRanges (bounds : List (Option (ℤ × ℤ))) : Prop :=
  ∀ b0 b : ℤ × ℤ, bounds.head? = some (some b0) → some b ∈ bounds → npIsclose |(b.2 : ℚ) - b.1| |(b0.2 : ℚ) - b0.1| = true

theorem npIsclose_same (r : ℚ) : npIsclose r r = true := by
  unfold npIsclose
  simp only [sub_self, abs_zero, decide_eq_true_eq]
  positivity

/-- The check of ranges, for coordinates that have bounds at all points or at none. -/
theorem checkRanges_iff (s : List (Option (ℤ × ℤ))) (hs : (∀ b ∈ s, b.isSome = true) ∨ ∀ b ∈ s, b.isNone = true) :
    checkRanges s = .ok () ↔ Spec.sameRanges s := by
  match s, hs with
  | [], _ => exact ⟨fun _ _ _ h => (nomatch h), fun _ => rfl⟩
  | [b], _ =>
    refine ⟨fun _ => ?_, fun _ => rfl⟩
    intro b0 b' h1 h2
    simp only [List.head?_cons, Option.some.injEq] at h1
    simp only [List.mem_singleton] at h2
    rw [h1, Option.some.injEq] at h2
    subst h2
    exact npIsclose_same _
  | b :: b' :: rest, hs =>
    unfold checkRanges
    dsimp only
    rcases hs with hs | hs
    · rw [if_neg (by simp only [List.any_eq_true, not_exists, not_and]; intro x hx; have := hs x hx; cases x <;> simp_all)]
      obtain ⟨v, hv⟩ := Option.isSome_iff_exists.1 (hs b (by simp))
      subst hv
      generalize hl : (some v :: b' :: rest) = l at *
      have hhead : (l.map boundsRange).headD 0 = boundsRange (some v) := by
        rw [← hl]; rfl
      rw [hhead]
      have key : ((l.map boundsRange).all fun r => npIsclose r (boundsRange (some v))) = true ↔ Spec.sameRanges l := by
        rw [List.all_map, List.all_eq_true]
        constructor
        · intro h b0 b1 h1 h2
          rw [← hl, List.head?_cons, Option.some.injEq, Option.some.injEq] at h1
          have h3 := h _ h2
          rw [h1] at h3
          exact h3
        · intro h x hx
          obtain ⟨u, rfl⟩ := Option.isSome_iff_exists.1 (hs x hx)
          exact h v u (by rw [← hl]; rfl) hx
      by_cases hk : Spec.sameRanges l
      · rw [if_pos (key.2 hk)]; exact ⟨fun _ => hk, fun _ => rfl⟩
      · rw [if_neg (fun h => hk (key.1 h))]; exact ⟨fun h => (nomatch h), fun h => absurd h hk⟩
    · have hb : b = none := by have := hs b (by simp); cases b <;> simp_all
      subst hb
      rw [if_pos (by simp)]
      refine ⟨fun _ => ?_, fun _ => rfl⟩
      intro b0 b1 h1 _
      simp at h1

theorem foldl_methods {D : Type} (rest : List (MergeIn D)) (m : List String) (x : String) :
    x ∈ rest.foldl (fun m k => m.filter fun x => decide (x ∈ k.methods)) m ↔ x ∈ m ∧ ∀ k ∈ rest, x ∈ k.methods := by
  induction rest generalizing m with
  | nil => simp
  | cons k rest ih =>
    rw [List.foldl_cons, ih, List.mem_filter]
    simp only [decide_eq_true_eq, List.mem_cons, forall_eq_or_imp]
    tauto

theorem get_of_mem {d : AttrDict} (hn : (d.map Prod.fst).Nodup) {e : String × AttrVal} (he : e ∈ d) : AttrDict.get d e.1 = some e.2 := by
  unfold AttrDict.get
  induction d with
  | nil => exact absurd he (by simp)
  | cons f d ih =>
    rw [List.find?_cons]
    by_cases h : f.1 = e.1
    · simp only [h, decide_true]
      rcases List.mem_cons.1 he with rfl | he'
      · rfl
      · rw [List.map_cons, List.nodup_cons] at hn
        exact absurd (h ▸ List.mem_map_of_mem he') hn.1
    · simp only [h, decide_false]
      rcases List.mem_cons.1 he with rfl | he'
      · exact absurd rfl h
      · rw [List.map_cons, List.nodup_cons] at hn
        exact ih hn.2 he'

theorem mem_of_get {d : AttrDict} {k : String} {v : AttrVal} (h : AttrDict.get d k = some v) : (k, v) ∈ d := by
  unfold AttrDict.get at h
  obtain ⟨e, he, hv⟩ := Option.map_eq_some_iff.1 h
  have h1 := List.find?_some he
  have h2 := List.mem_of_find?_eq_some he
  simp only [decide_eq_true_eq] at h1
  have : e = (k, v) := Prod.ext h1 hv
  exact this ▸ h2

theorem mem_commonAttrs (all : List AttrDict) (hall : ∀ d ∈ all, (d.map Prod.fst).Nodup) {d : AttrDict} (hd : d ∈ all) (e : String × AttrVal) :
    e ∈ commonAttrs all d ↔ ∀ a ∈ all, e ∈ a := by
  unfold commonAttrs
  rw [List.mem_filter, List.all_eq_true]
  constructor
  · rintro ⟨_, h⟩ a ha
    exact mem_of_get (by simpa using h a ha)
  · intro h
    refine ⟨h d hd, ?_⟩
    intro a ha
    simpa using get_of_mem (hall a ha) (h a ha)

/-- The cubes can be merged: one name, different points, all or none with bounds. -/
structure Spec.Mergeable {D : Type} (cubes : List (MergeIn D)) : Prop where
  name : ∀ c ∈ cubes, ∀ k ∈ cubes, c.name = k.name
  points : (cubes.map MergeIn.point).Nodup
  bounds : (∀ c ∈ cubes, c.bounds.isSome = true) ∨ ∀ c ∈ cubes, c.bounds.isNone = true

/-- C234.  One cube is returned as it is, with or without the check. -/
theorem C234_single {D : Type} (c : MergeIn D) (check : Bool) :
    mergeCubes [c] check = .ok ⟨c.name, c.attrs, c.methods, [(c.point, c.bounds, c.data)]⟩ := by
  unfold mergeCubes
  cases check <;> rfl

/-- The result of merging several cubes before the check. -/
theorem irisMerge_spec {D : Type} (c : MergeIn D) (cubes : List (MergeIn D)) (hc : cubes.head? = some c) (methods : List String)
    (hattr : ∀ d ∈ cubes.map MergeIn.attrs, (d.map Prod.fst).Nodup) :
    let eq := cubes.map fun c => { c with attrs := commonAttrs (cubes.map MergeIn.attrs) c.attrs, methods := methods }
    (Spec.Mergeable cubes → irisMerge eq = .ok ⟨c.name, commonAttrs (cubes.map MergeIn.attrs) c.attrs, methods,
      (cubes.map fun k => (k.point, k.bounds, k.data)).insertionSort fun a b => a.1 ≤ b.1⟩) ∧
    (¬ Spec.Mergeable cubes → irisMerge eq = .error .valueError) := by
  match cubes, hc with
  | c' :: rest, hc =>
    have : c' = c := by simpa using hc
    subst this
    dsimp only
    generalize hl : c' :: rest = l at *
    have hcl : c' ∈ l := by rw [← hl]; simp
    have hmap : (l.map fun c => ({ c with attrs := commonAttrs (l.map MergeIn.attrs) c.attrs, methods := methods } : MergeIn D))
        = ({ c' with attrs := commonAttrs (l.map MergeIn.attrs) c'.attrs, methods := methods } : MergeIn D) ::
          rest.map fun c => { c with attrs := commonAttrs (l.map MergeIn.attrs) c.attrs, methods := methods } := by
      rw [← hl]; rfl
    have hperm : ∀ k ∈ l, (commonAttrs (l.map MergeIn.attrs) k.attrs).Perm (commonAttrs (l.map MergeIn.attrs) c'.attrs) := by
      intro k hk
      have hnod : ∀ d ∈ l.map MergeIn.attrs, (commonAttrs (l.map MergeIn.attrs) d).Nodup := by
        intro d hd
        unfold commonAttrs
        exact (List.Nodup.of_map _ (hattr d hd)).filter _
      rw [List.perm_ext_iff_of_nodup (hnod _ (List.mem_map_of_mem hk)) (hnod _ (List.mem_map_of_mem hcl))]
      intro e
      rw [mem_commonAttrs _ hattr (List.mem_map_of_mem hk), mem_commonAttrs _ hattr (List.mem_map_of_mem hcl)]
    rw [hmap]
    unfold irisMerge
    dsimp only
    rw [← hmap]
    have hA : ((l.map fun c => ({ c with attrs := commonAttrs (l.map MergeIn.attrs) c.attrs, methods := methods } : MergeIn D)).all
        (fun k => decide (k.name = c'.name ∧ k.attrs.Perm (commonAttrs (l.map MergeIn.attrs) c'.attrs) ∧ k.methods.Perm methods ∧
          k.bounds.isSome = c'.bounds.isSome))) = true ↔ ∀ k ∈ l, k.name = c'.name ∧ k.bounds.isSome = c'.bounds.isSome := by
      rw [List.all_map, List.all_eq_true]
      constructor
      · intro h k hk
        have := h k hk
        simp only [Function.comp, decide_eq_true_eq] at this
        exact ⟨this.1, this.2.2.2⟩
      · intro h k hk
        simp only [Function.comp, decide_eq_true_eq]
        exact ⟨(h k hk).1, hperm k hk, List.Perm.refl _, (h k hk).2⟩
    have hP : ((l.map fun c => ({ c with attrs := commonAttrs (l.map MergeIn.attrs) c.attrs, methods := methods } : MergeIn D)).map MergeIn.point)
        = l.map MergeIn.point := by rw [List.map_map]; rfl
    rw [hP, List.map_map]
    have hM : Spec.Mergeable l ↔ (∀ k ∈ l, k.name = c'.name ∧ k.bounds.isSome = c'.bounds.isSome) ∧ (l.map MergeIn.point).Nodup := by
      constructor
      · rintro ⟨h1, h2, h3⟩
        refine ⟨fun k hk => ⟨h1 k hk c' hcl, ?_⟩, h2⟩
        rcases h3 with h3 | h3
        · rw [h3 k hk, h3 c' hcl]
        · have e1 := h3 k hk
          have e2 := h3 c' hcl
          rw [Option.isNone_iff_eq_none] at e1 e2
          rw [e1, e2]
      · rintro ⟨h1, h2⟩
        refine ⟨fun a ha b hb => (h1 a ha).1.trans (h1 b hb).1.symm, h2, ?_⟩
        cases hb : c'.bounds with
        | none => exact Or.inr fun k hk => by have := (h1 k hk).2; rw [hb] at this; cases hk' : k.bounds <;> simp_all
        | some v => exact Or.inl fun k hk => by rw [(h1 k hk).2, hb]; rfl
    constructor
    · intro h
      obtain ⟨g1, g2⟩ := hM.1 h
      rw [if_neg (not_not.2 (hA.2 g1)), if_neg (not_not.2 g2)]
      rfl
    · intro h
      by_cases g1 : ∀ k ∈ l, k.name = c'.name ∧ k.bounds.isSome = c'.bounds.isSome
      · rw [if_neg (not_not.2 (hA.2 g1)), if_pos (fun g2 => h (hM.2 ⟨g1, g2⟩))]
      · rw [if_pos (fun g => g1 (hA.1 g))]

/-- C234.  Several cubes merge exactly if they have one name, different points and all or none bounds, and (if asked for) time bounds of one
length.  The result has every input once, in the order of the points, and exactly the attributes and the cell methods all have. -/
theorem C234_merged {D : Type} (cubes : List (MergeIn D)) (h2 : 2 ≤ cubes.length) (check : Bool)
    (hattr : ∀ c ∈ cubes, (c.attrs.map Prod.fst).Nodup) :
    (∀ out, mergeCubes cubes check = .ok out →
      Spec.Mergeable cubes ∧ (check = true → Spec.sameRanges (out.slices.map fun s => s.2.1)) ∧
      (∀ c ∈ cubes, out.name = c.name) ∧
      out.slices.Perm (cubes.map fun c => (c.point, c.bounds, c.data)) ∧ out.slices.Pairwise (fun a b => a.1 < b.1) ∧
      (∀ e, e ∈ out.attrs ↔ ∀ c ∈ cubes, e ∈ c.attrs) ∧ (∀ m, m ∈ out.methods ↔ ∀ c ∈ cubes, m ∈ c.methods)) ∧
    (Spec.Mergeable cubes → check = false → ∃ out, mergeCubes cubes check = .ok out) ∧
    (Spec.Mergeable cubes → check = true → ((∃ out, mergeCubes cubes check = .ok out) ↔
      Spec.sameRanges ((cubes.insertionSort fun a b => a.point ≤ b.point).map MergeIn.bounds))) ∧
    (¬ Spec.Mergeable cubes → mergeCubes cubes check = .error .valueError) := by
  have hattr' : ∀ d ∈ cubes.map MergeIn.attrs, (d.map Prod.fst).Nodup := by
    intro d hd
    obtain ⟨c, hc, rfl⟩ := List.mem_map.1 hd
    exact hattr c hc
  match cubes, h2 with
  | c :: c2 :: rest, h2 =>
    obtain ⟨s1, s2⟩ := irisMerge_spec c (c :: c2 :: rest) rfl
      ((c2 :: rest).foldl (fun (m : List String) (k : MergeIn D) => m.filter fun x => decide (x ∈ k.methods)) c.methods) hattr'
    have hopen : mergeCubes (c :: c2 :: rest) check = (do
        let out ← irisMerge ((c :: c2 :: rest).map fun k => { k with attrs := commonAttrs ((c :: c2 :: rest).map MergeIn.attrs) k.attrs, methods := ((c2 :: rest).foldl (fun (m : List String) (k : MergeIn D) => m.filter fun x => decide (x ∈ k.methods)) c.methods) })
        if check then checkRanges (out.slices.map fun s => s.2.1)
        return out) := rfl
    rw [hopen]
    clear hopen
    generalize hl : c :: c2 :: rest = l at *
    have hcl : c ∈ l := by rw [← hl]; simp
    have hsortmap : ((l.map fun k => (k.point, k.bounds, k.data)).insertionSort fun a b => a.1 ≤ b.1)
        = (l.insertionSort fun a b => a.point ≤ b.point).map fun k => (k.point, k.bounds, k.data) := by
      symm
      apply List.map_insertionSort
      intro a _ b _; rfl
    have hbd : Spec.Mergeable l → (∀ b ∈ ((l.insertionSort fun a b => a.point ≤ b.point).map MergeIn.bounds), b.isSome = true) ∨
        ∀ b ∈ ((l.insertionSort fun a b => a.point ≤ b.point).map MergeIn.bounds), b.isNone = true := by
      intro hM
      have hmem : ∀ b ∈ ((l.insertionSort fun a b => a.point ≤ b.point).map MergeIn.bounds), ∃ k ∈ l, k.bounds = b := by
        intro b hb
        obtain ⟨k, hk, rfl⟩ := List.mem_map.1 hb
        exact ⟨k, (List.perm_insertionSort _ _).mem_iff.1 hk, rfl⟩
      rcases hM.bounds with h | h
      · exact Or.inl fun b hb => by obtain ⟨k, hk, rfl⟩ := hmem b hb; exact h k hk
      · exact Or.inr fun b hb => by obtain ⟨k, hk, rfl⟩ := hmem b hb; exact h k hk
    by_cases hM : Spec.Mergeable l
    · rw [s1 hM]
      simp only [bind, Except.bind, pure, Except.pure]
      rw [hsortmap, List.map_map]
      have hcomp : ((fun s : ℤ × Option (ℤ × ℤ) × D => s.2.1) ∘ fun k : MergeIn D => (k.point, k.bounds, k.data)) = MergeIn.bounds := rfl
      rw [hcomp]
      have hchk := checkRanges_iff _ (hbd hM)
      have hprops : (∀ k ∈ l, c.name = k.name) ∧
          ((l.insertionSort fun a b => a.point ≤ b.point).map fun k => (k.point, k.bounds, k.data)).Perm (l.map fun c => (c.point, c.bounds, c.data)) ∧
          ((l.insertionSort fun a b => a.point ≤ b.point).map fun k => (k.point, k.bounds, k.data)).Pairwise (fun a b => a.1 < b.1) ∧
          (∀ e, e ∈ commonAttrs (l.map MergeIn.attrs) c.attrs ↔ ∀ k ∈ l, e ∈ k.attrs) ∧
          (∀ m, m ∈ (c2 :: rest).foldl (fun (m : List String) (k : MergeIn D) => m.filter fun x => decide (x ∈ k.methods)) c.methods ↔ ∀ k ∈ l, m ∈ k.methods) := by
        refine ⟨fun k hk => hM.name c hcl k hk, (List.perm_insertionSort _ _).map _, ?_, ?_, ?_⟩
        · have p1 : ((l.insertionSort fun a b => a.point ≤ b.point).map MergeIn.point).Nodup :=
            ((List.perm_insertionSort _ _).map _).nodup_iff.2 hM.points
          have p2 : (l.insertionSort fun a b => a.point ≤ b.point).Pairwise (fun a b => a.point ≤ b.point) := List.pairwise_insertionSort _ _
          rw [List.pairwise_map]
          have p3 : (l.insertionSort fun a b => a.point ≤ b.point).Pairwise (fun a b => a.point ≠ b.point) := by
            rw [List.nodup_iff_pairwise_ne, List.pairwise_map] at p1
            exact p1
          exact (p2.and p3).imp fun h => lt_of_le_of_ne h.1 h.2
        · intro e
          rw [mem_commonAttrs _ hattr' (List.mem_map_of_mem hcl)]
          simp only [List.mem_map, forall_exists_index, and_imp, forall_apply_eq_imp_iff₂]
        · intro m
          rw [foldl_methods, ← hl]
          simp only [List.mem_cons, forall_eq_or_imp]
      refine ⟨?_, ?_, ?_, fun h => absurd hM h⟩
      · intro out ho
        cases check with
        | false =>
          have := Except.ok.inj ho
          subst this
          exact ⟨hM, fun h => (nomatch h), hprops⟩
        | true =>
          cases hr : checkRanges ((l.insertionSort fun a b => a.point ≤ b.point).map MergeIn.bounds) with
          | error e =>
            simp only [if_true, hr] at ho
            exact nomatch ho
          | ok u =>
            simp only [if_true, hr] at ho
            have := Except.ok.inj ho
            subst this
            refine ⟨hM, fun _ => ?_, hprops⟩
            rw [List.map_map, hcomp]
            exact hchk.1 hr
      · intro _ hc
        subst hc
        exact ⟨_, rfl⟩
      · intro _ hc
        subst hc
        rw [← hchk]
        constructor
        · rintro ⟨out, ho⟩
          cases hr : checkRanges ((l.insertionSort fun a b => a.point ≤ b.point).map MergeIn.bounds) with
          | error e =>
            simp only [if_true, hr] at ho
            exact nomatch ho
          | ok u => rfl
        · intro hr
          simp only [if_true, hr]
          exact ⟨_, rfl⟩
    · rw [s2 hM]
      exact ⟨fun _ h => (nomatch h), fun h => absurd h hM, fun h => absurd h hM, fun _ => rfl⟩

/-- C234 (limits).  "One length" is up to one part in 100000: 1000000 s and 1000010 s are taken as equal. -/
theorem C234_close_refuted : ∃ cubes : List (MergeIn Unit), (mergeCubes cubes true).toOption.isSome = true ∧
    ∃ c ∈ cubes, ∃ k ∈ cubes, ∃ b d, c.bounds = some b ∧ k.bounds = some d ∧ b.2 - b.1 ≠ d.2 - d.1 := by
  refine ⟨[⟨"rain", [], [], 1000000, some (0, 1000000), ()⟩, ⟨"rain", [], [], 2000010, some (1000000, 2000010), ()⟩], by decide +kernel, ?_⟩
  exact ⟨_, List.mem_cons_self, _, List.mem_cons_of_mem _ List.mem_cons_self, (0, 1000000), (1000000, 2000010), rfl, rfl, by decide⟩

/-- Concrete case: three cubes given out of order, with a common title and cell method. -/
example :
    let c : ℤ → Text → List String → MergeIn ℕ := fun p s m =>
      ⟨"rain", [("title", .text ['t']), ("history", .text s)], m, p, some (p - 60, p), p.toNat⟩
    let o := (mergeCubes [c 180 ['a'] ["mean", "max"], c 60 ['b'] ["max"], c 120 ['a'] ["max", "sum"]] true).toOption
    o.map (fun o => List.map id o.attrs) = some [("title", .text ['t'])] ∧ o.map Merged.methods = some ["max"] ∧
    o.map Merged.slices = some [(60, some (0, 60), 60), (120, some (60, 120), 120), (180, some (120, 180), 180)] := by
  intro c o
  refine ⟨?_, ?_, ?_⟩ <;> decide +kernel

/-! ### C235: merging the cubes of a blend -/

/-- C235.  A blend over models needs the name of the attribute that tells the models apart; another blend drops that name, unless runs are to be
recorded. -/
theorem C235_init (isModel : Bool) (modelAttr recordAttr : Option String) :
    (isModel = true → modelAttr = none → mergeInit isModel modelAttr recordAttr = .error .valueError) ∧
    (isModel = true → ∀ a, modelAttr = some a → mergeInit isModel modelAttr recordAttr = .ok (some a)) ∧
    (isModel = false → recordAttr = none → mergeInit isModel modelAttr recordAttr = .ok none) ∧
    (isModel = false → recordAttr ≠ none → mergeInit isModel modelAttr recordAttr = .ok modelAttr) := by
  unfold mergeInit
  refine ⟨?_, ?_, ?_, ?_⟩
  · rintro rfl rfl; rfl
  · rintro rfl a rfl; rfl
  · rintro rfl rfl; cases modelAttr <;> rfl
  · intro h1 h2
    subst h1
    rw [if_neg (by simp), if_neg (by simp [h2])]

/-- What a cube becomes before it is merged into a blend of models: the blend time goes; if the weights are by forecast period, several cubes (or
one, if a cycle is given) get the given cycle, or the latest of all, and the period from that cycle to their own time. -/
structure Spec.Prepared {D : Type} (byPeriod : Bool) (cycle : Option ℤ) (cubes : List (BlendIn D)) (c k : BlendIn D) : Prop where
  same : k.title = c.title ∧ k.key = c.key ∧ k.time = c.time ∧ k.bounds = c.bounds ∧ k.data = c.data
  blendTime : k.blendTime = none
  keep : (byPeriod = false ∨ (cycle = none ∧ cubes.length = 1)) → k.frt = c.frt ∧ k.fp = c.fp
  given : byPeriod = true → ∀ t, cycle = some t → k.frt = t ∧ k.fp = c.time - t
  latest : byPeriod = true → cycle = none → 2 ≤ cubes.length →
    ((∃ a ∈ cubes, a.frt = k.frt) ∧ ∀ a ∈ cubes, a.frt ≤ k.frt) ∧ k.fp = c.time - k.frt

/-- The first step of a blend of models. -/
theorem prepare_spec {D : Type} (byPeriod : Bool) (cycle : Option ℤ) (cubes : List (BlendIn D)) (hne : cubes ≠ []) :
    ∃ f : BlendIn D → BlendIn D,
      (if byPeriod then rebadgeBlend (cubes.map fun c => { c with blendTime := none }) cycle
        else .ok (cubes.map fun c => { c with blendTime := none })) = .ok (cubes.map f) ∧
      ∀ c ∈ cubes, Spec.Prepared byPeriod cycle cubes c (f c) := by
  cases byPeriod with
  | false =>
    exact ⟨fun c => { c with blendTime := none }, rfl, fun c _ =>
      ⟨⟨rfl, rfl, rfl, rfl, rfl⟩, rfl, fun _ => ⟨rfl, rfl⟩, fun h => (nomatch h), fun h => (nomatch h)⟩⟩
  | true =>
    rw [if_pos rfl]
    unfold rebadgeBlend
    rw [List.map_map]
    have hflat : ∀ (t : BlendIn D → ℤ) (g : BlendIn D → ℤ), ((cubes.map fun c => (⟨t c, c.time, g c, [(0, { c with blendTime := none })]⟩ :
        LagCube (BlendIn D))).flatMap fun k => k.members.map fun m => { m.2 with frt := k.frt, fp := k.fp })
        = cubes.map fun c => { c with blendTime := none, frt := t c, fp := g c } := by
      intro t g
      rw [List.flatMap_map]
      simp only [List.map_cons, List.map_nil]
      exact List.map_eq_flatMap.symm
    cases hc : cycle with
    | some t =>
      rw [C39_given_cycle]
      simp only [bind, Except.bind, pure, Except.pure]
      refine ⟨fun c => { c with blendTime := none, frt := t, fp := c.time - t }, ?_, ?_⟩
      · rw [← hflat (fun _ => t) (fun c => c.time - t), List.map_map]; rfl
      · intro c _
        refine ⟨⟨rfl, rfl, rfl, rfl, rfl⟩, rfl, ?_, ?_, ?_⟩
        · rintro (h | h)
          · exact nomatch h
          · exact nomatch h.1
        · intro _ t' h; cases h; exact ⟨rfl, rfl⟩
        · intro _ h; exact nomatch h
    | none =>
      by_cases h1 : cubes.length = 1
      · refine ⟨fun c => { c with blendTime := none }, ?_, ?_⟩
        · unfold rebadgeLatest
          rw [if_pos ⟨rfl, by simpa using h1⟩]
          simp only [bind, Except.bind, pure, Except.pure]
          rw [← hflat BlendIn.frt BlendIn.fp]; rfl
        · intro c _
          exact ⟨⟨rfl, rfl, rfl, rfl, rfl⟩, rfl, fun _ => ⟨rfl, rfl⟩, fun _ t h => (nomatch h), fun _ _ h => by omega⟩
      · have h2 : 2 ≤ cubes.length := by
          have := List.length_pos_iff.2 hne
          omega
        have hok : ∃ out, rebadgeLatest (cubes.map ((fun c => (⟨c.frt, c.time, c.fp, [(0, c)]⟩ : LagCube (BlendIn D))) ∘
            fun c => { c with blendTime := none })) none = .ok out := by
          unfold rebadgeLatest
          rw [if_neg (by rintro ⟨_, h⟩; exact h1 (by simpa using h))]
          match cubes, hne with
          | c :: cs, _ => exact ⟨_, rfl⟩
        obtain ⟨out, ho⟩ := hok
        obtain ⟨t, ⟨k, hk, hkt⟩, hle, hout⟩ := C39_latest_cycle _ _ (by simpa using h2) ho
        obtain ⟨a, ha, rfl⟩ := List.mem_map.1 hk
        rw [ho]
        simp only [bind, Except.bind, pure, Except.pure]
        refine ⟨fun c => { c with blendTime := none, frt := t, fp := c.time - t }, ?_, ?_⟩
        · rw [hout, ← hflat (fun _ => t) (fun c => c.time - t), List.map_map]; rfl
        · intro c _
          refine ⟨⟨rfl, rfl, rfl, rfl, rfl⟩, rfl, ?_, fun _ _ h => (nomatch h), ?_⟩
          · rintro (h | h)
            · exact nomatch h
            · exact absurd h.2 h1
          · intro _ _ _
            refine ⟨⟨⟨a, ha, hkt⟩, ?_⟩, rfl⟩
            intro b hb
            exact hle _ (List.mem_map.2 ⟨b, hb, rfl⟩)

/-- The last step: sorting and checking. -/
theorem keyed_spec {D : Type} (keyed : List (ℤ × Option Text × BlendIn D)) (hne : keyed ≠ []) (out : List (ℤ × Option Text × BlendIn D)) :
    (if keyed.length = 0 then (.error .indexError : Except Err (List (ℤ × Option Text × BlendIn D)))
      else if ¬ (keyed.map Prod.fst).Nodup then .error .valueError
      else if ¬ (keyed.all (fun s => s.2.2.bounds.isSome) ∨ keyed.all (fun s => s.2.2.bounds.isNone)) then .error .valueError
      else do
        let out := keyed.insertionSort fun a b => a.1 ≤ b.1
        checkRanges (out.map fun s => s.2.2.bounds)
        return out) = .ok out ↔
    out = keyed.insertionSort (fun a b => a.1 ≤ b.1) ∧ (keyed.map Prod.fst).Nodup ∧
      ((∀ s ∈ keyed, s.2.2.bounds.isSome = true) ∨ ∀ s ∈ keyed, s.2.2.bounds.isNone = true) ∧
      Spec.sameRanges (out.map fun s => s.2.2.bounds) := by
  rw [if_neg (by simpa using hne)]
  by_cases h1 : (keyed.map Prod.fst).Nodup
  · rw [if_neg (not_not.2 h1)]
    by_cases h2 : (keyed.all (fun s => s.2.2.bounds.isSome) ∨ keyed.all (fun s => s.2.2.bounds.isNone))
    · rw [if_neg (not_not.2 h2)]
      have h2' : ((∀ s ∈ keyed, s.2.2.bounds.isSome = true) ∨ ∀ s ∈ keyed, s.2.2.bounds.isNone = true) := by
        rwa [List.all_eq_true, List.all_eq_true] at h2
      have hb : (∀ b ∈ ((keyed.insertionSort fun a b => a.1 ≤ b.1).map fun s => s.2.2.bounds), b.isSome = true) ∨
          ∀ b ∈ ((keyed.insertionSort fun a b => a.1 ≤ b.1).map fun s => s.2.2.bounds), b.isNone = true := by
        have hmem : ∀ b ∈ ((keyed.insertionSort fun a b => a.1 ≤ b.1).map fun s => s.2.2.bounds), ∃ k ∈ keyed, k.2.2.bounds = b := by
          intro b hb
          obtain ⟨k, hk, rfl⟩ := List.mem_map.1 hb
          exact ⟨k, (List.perm_insertionSort _ _).mem_iff.1 hk, rfl⟩
        rcases h2' with h | h
        · exact Or.inl fun b hb => by obtain ⟨k, hk, rfl⟩ := hmem b hb; exact h k hk
        · exact Or.inr fun b hb => by obtain ⟨k, hk, rfl⟩ := hmem b hb; exact h k hk
      have hchk := checkRanges_iff _ hb
      simp only [bind, Except.bind, pure, Except.pure]
      cases hr : checkRanges ((keyed.insertionSort fun a b => a.1 ≤ b.1).map fun s => s.2.2.bounds) with
      | error e =>
        dsimp only
        refine ⟨fun h => (nomatch h), ?_⟩
        rintro ⟨rfl, _, _, h⟩
        rw [← hchk, hr] at h
        exact nomatch h
      | ok u =>
        dsimp only
        rw [Except.ok.injEq]
        constructor
        · rintro rfl
          exact ⟨rfl, h1, h2', hchk.1 hr⟩
        · rintro ⟨rfl, _⟩; rfl
    · rw [if_pos h2]
      refine ⟨fun h => (nomatch h), ?_⟩
      rintro ⟨_, _, h, _⟩
      rw [List.all_eq_true, List.all_eq_true] at h2
      exact absurd h h2
  · rw [if_pos h1]
    exact ⟨fun h => (nomatch h), fun h => absurd h.2.1 h1⟩

/-- C235.  A blend of models: it runs exactly if every cube names its model, no model comes twice, all or none have bounds and these are of one
length.  The i-th slice is the i-th cube, as prepared, with model number 1000·i and its model's name. -/
theorem C235_models {D : Type} (byPeriod : Bool) (cycle : Option ℤ) (cubes : List (BlendIn D)) (hne : cubes ≠ []) :
    ((∃ out, mergeForBlending true byPeriod cycle cubes = .ok out) ↔
      ((∃ names : List Text, cubes.map BlendIn.title = names.map some ∧ names.Nodup) ∧
        ((∀ c ∈ cubes, c.bounds.isSome = true) ∨ ∀ c ∈ cubes, c.bounds.isNone = true) ∧ Spec.sameRanges (cubes.map BlendIn.bounds))) ∧
    (∀ out, mergeForBlending true byPeriod cycle cubes = .ok out → out.length = cubes.length ∧
      ∀ (i : ℕ) (c : BlendIn D), cubes[i]? = some c → ∃ k, out[i]? = some (1000 * (i : ℤ), c.title, k) ∧ Spec.Prepared byPeriod cycle cubes c k) := by
  obtain ⟨f, hf, hprep⟩ := prepare_spec byPeriod cycle cubes hne
  have hkey : ∀ out, mergeForBlending true byPeriod cycle cubes = .ok out ↔
      ∃ names : List Text, cubes.map BlendIn.title = names.map some ∧ names.Nodup ∧
        ((∀ c ∈ cubes, c.bounds.isSome = true) ∨ ∀ c ∈ cubes, c.bounds.isNone = true) ∧ Spec.sameRanges (cubes.map BlendIn.bounds) ∧
        out = cubes.zipIdx.map (fun p => (1000 * (p.2 : ℤ), p.1.title, f p.1)) := by
    intro out
    have hopen : mergeForBlending true byPeriod cycle cubes = (do
        let cubes ← (if byPeriod then rebadgeBlend (cubes.map fun c => { c with blendTime := none }) cycle
          else .ok (cubes.map fun c => { c with blendTime := none }))
        let ids ← modelCoordinates [] 0 (cubes.map BlendIn.title)
        let keyed := ((ids.zip cubes).map fun p => ((p.1.1 : ℤ), some p.1.2, p.2))
        (if keyed.length = 0 then (.error .indexError : Except Err (List (ℤ × Option Text × BlendIn D)))
          else if ¬ (keyed.map Prod.fst).Nodup then .error .valueError
          else if ¬ (keyed.all (fun s => s.2.2.bounds.isSome) ∨ keyed.all (fun s => s.2.2.bounds.isNone)) then .error .valueError
          else do
            let out := keyed.insertionSort fun a b => a.1 ≤ b.1
            checkRanges (out.map fun s => s.2.2.bounds)
            return out)) := by
      unfold mergeForBlending
      cases byPeriod <;> simp only [if_true, Bool.false_eq_true, if_false, bind, Except.bind, pure, Except.pure] <;> rfl
    rw [hopen, hf]
    simp only [bind, Except.bind]
    have ht : (cubes.map f).map BlendIn.title = cubes.map BlendIn.title := by
      rw [List.map_map]
      exact List.map_congr_left fun c hc => (hprep c hc).same.1
    rw [ht]
    cases hm : modelCoordinates [] 0 (cubes.map BlendIn.title) with
    | error e =>
      dsimp only
      refine ⟨fun h => (nomatch h), ?_⟩
      rintro ⟨names, hn, hnd, _⟩
      rw [(modelCoordinates_from [] 0 _ _).2 ⟨names, hn, hnd, by simp, rfl⟩] at hm
      exact nomatch hm
    | ok ids =>
      obtain ⟨names, hn, hnd, _, rfl⟩ := (modelCoordinates_from [] 0 _ _).1 hm
      have hlen : names.length = cubes.length := by
        have := congrArg List.length hn
        simpa using this.symm
      have hk : ((((names.zipIdx 0).map fun p => (1000 * p.2, p.1)).zip (cubes.map f)).map fun p : (ℕ × Text) × BlendIn D => ((p.1.1 : ℤ), some p.1.2, p.2))
          = cubes.zipIdx.map (fun p => (1000 * (p.2 : ℤ), p.1.title, f p.1)) := by
        apply List.ext_getElem (by simp [hlen])
        intro i h1 h2
        have hi : i < cubes.length := by simpa using h2
        have hi' : i < names.length := by omega
        have hti : cubes[i].title = some names[i] := by
          have := congrArg (fun l => l[i]?) hn
          simp only [List.getElem?_map, List.getElem?_eq_getElem hi, List.getElem?_eq_getElem hi', Option.map_some, Option.some.injEq] at this
          exact this
        simp [hti]
      have := keyed_spec (cubes.zipIdx.map (fun p => (1000 * (p.2 : ℤ), p.1.title, f p.1))) (by simpa using hne) out
      dsimp only
      rw [hk]
      refine this.trans ?_
      have hsorted : (cubes.zipIdx.map (fun p => (1000 * (p.2 : ℤ), p.1.title, f p.1))).Pairwise (fun a b => a.1 ≤ b.1) := by
        rw [List.pairwise_iff_getElem]
        intro i j hi hj hij
        simp only [List.getElem_map, List.getElem_zipIdx]
        have : (i : ℤ) < j := by exact_mod_cast hij
        push_cast
        omega
      have hs : (cubes.zipIdx.map (fun p => (1000 * (p.2 : ℤ), p.1.title, f p.1))).insertionSort (fun a b => a.1 ≤ b.1)
          = cubes.zipIdx.map (fun p => (1000 * (p.2 : ℤ), p.1.title, f p.1)) := hsorted.insertionSort_eq
      rw [hs]
      have hnod : ((cubes.zipIdx.map (fun p => (1000 * (p.2 : ℤ), p.1.title, f p.1))).map Prod.fst).Nodup := by
        rw [List.map_map, List.nodup_iff_pairwise_ne, List.pairwise_iff_getElem]
        intro i j hi hj hij
        simp only [List.getElem_map, List.getElem_zipIdx, Function.comp]
        have : (i : ℤ) < j := by exact_mod_cast hij
        push_cast
        omega
      have hall : ∀ P : Option (ℤ × ℤ) → Prop, (∀ s ∈ cubes.zipIdx.map (fun p => (1000 * (p.2 : ℤ), p.1.title, f p.1)), P s.2.2.bounds) ↔ ∀ c ∈ cubes, P c.bounds := by
        intro P
        constructor
        · intro h c hc
          obtain ⟨i, hi, rfl⟩ := List.mem_iff_getElem.1 hc
          have h3 := h (1000 * ((i : ℕ) : ℤ), cubes[i].title, f cubes[i]) (List.mem_map.2 ⟨(cubes[i], i), by
            rw [List.mem_zipIdx_iff_getElem?]; simp [hi], rfl⟩)
          rwa [(hprep _ hc).same.2.2.2.1] at h3
        · intro h s hs
          obtain ⟨p, hp, rfl⟩ := List.mem_map.1 hs
          have hc : p.1 ∈ cubes := List.fst_mem_of_mem_zipIdx hp
          dsimp only
          rw [(hprep _ hc).same.2.2.2.1]
          exact h _ hc
      have hbs : (cubes.zipIdx.map (fun p => (1000 * (p.2 : ℤ), p.1.title, f p.1))).map (fun s => s.2.2.bounds) = cubes.map BlendIn.bounds := by
        rw [List.map_map]
        apply List.ext_getElem (by simp)
        intro i h1 h2
        have hi : i < cubes.length := by simpa using h2
        simp only [List.getElem_map, List.getElem_zipIdx, Function.comp]
        exact (hprep _ (List.getElem_mem hi)).same.2.2.2.1
      constructor
      · rintro ⟨rfl, _, hb, hr⟩
        rw [hall (fun b => b.isSome = true), hall (fun b => b.isNone = true)] at hb
        rw [hbs] at hr
        exact ⟨names, hn, hnd, hb, hr, rfl⟩
      · rintro ⟨_, _, _, hb, hr, rfl⟩
        rw [hall (fun b => b.isSome = true), hall (fun b => b.isNone = true), hbs]
        exact ⟨rfl, hnod, hb, hr⟩
  constructor
  · constructor
    · rintro ⟨out, ho⟩
      obtain ⟨names, h1, h2, h3, h4, _⟩ := (hkey out).1 ho
      exact ⟨⟨names, h1, h2⟩, h3, h4⟩
    · rintro ⟨⟨names, h1, h2⟩, h3, h4⟩
      exact ⟨_, (hkey _).2 ⟨names, h1, h2, h3, h4, rfl⟩⟩
  · intro out ho
    obtain ⟨names, h1, h2, h3, h4, rfl⟩ := (hkey out).1 ho
    refine ⟨by simp, ?_⟩
    intro i c hc
    refine ⟨f c, ?_, hprep c (List.mem_of_getElem? hc)⟩
    simp [hc]

theorem mapM_error_value {α β : Type} (f : α → Except Err β) (e0 : Err) (hf : ∀ a e, f a = .error e → e = e0) (l : List α) (e : Err)
    (h : l.mapM f = .error e) : e = e0 := by
  induction l with
  | nil => exact nomatch h
  | cons a l ih =>
    rw [List.mapM_cons] at h
    simp only [bind, Except.bind, pure, Except.pure] at h
    cases ha : f a with
    | error e' =>
      rw [ha] at h
      have := Except.error.inj h
      exact this ▸ hf a e' ha
    | ok b =>
      rw [ha] at h
      dsimp only at h
      cases hl : l.mapM f with
      | error e' =>
        rw [hl] at h
        have := Except.error.inj h
        exact ih (this ▸ hl)
      | ok bs => rw [hl] at h; exact nomatch h

/-- C235.  A blend over another coordinate: it runs exactly if every cube has that coordinate, no value comes twice, all or none have bounds and
these, in the order of the coordinate, are of one length.  The slices are the cubes, unchanged, in the order of the coordinate. -/
theorem C235_other {D : Type} (byPeriod : Bool) (cycle : Option ℤ) (cubes : List (BlendIn D)) (hne : cubes ≠ []) :
    (∀ out, mergeForBlending false byPeriod cycle cubes = .ok out →
      (out.map fun s => s.2.2).Perm cubes ∧ (∀ s ∈ out, s.2.2.key = some s.1 ∧ s.2.1 = none) ∧ out.Pairwise (fun a b => a.1 < b.1) ∧
      ((∀ c ∈ cubes, c.bounds.isSome = true) ∨ ∀ c ∈ cubes, c.bounds.isNone = true) ∧ Spec.sameRanges (out.map fun s => s.2.2.bounds)) ∧
    (∀ keys : List ℤ, cubes.map BlendIn.key = keys.map some → keys.Nodup →
      ((∀ c ∈ cubes, c.bounds.isSome = true) ∨ ∀ c ∈ cubes, c.bounds.isNone = true) →
      (∀ c ∈ cubes, ∀ k ∈ cubes, ∀ b d, c.bounds = some b → k.bounds = some d → |b.2 - b.1| = |d.2 - d.1|) →
      ∃ out, mergeForBlending false byPeriod cycle cubes = .ok out) ∧
    ((∃ c ∈ cubes, c.key = none) → mergeForBlending false byPeriod cycle cubes = .error .valueError) := by
  have hopen : mergeForBlending false byPeriod cycle cubes = (do
      let keyed ← cubes.mapM fun c => match c.key with
        | some k => .ok (k, (none : Option Text), c)
        | none => .error .valueError
      (if keyed.length = 0 then (.error .indexError : Except Err (List (ℤ × Option Text × BlendIn D)))
        else if ¬ (keyed.map Prod.fst).Nodup then .error .valueError
        else if ¬ (keyed.all (fun s => s.2.2.bounds.isSome) ∨ keyed.all (fun s => s.2.2.bounds.isNone)) then .error .valueError
        else do
          let out := keyed.insertionSort fun a b => a.1 ≤ b.1
          checkRanges (out.map fun s => s.2.2.bounds)
          return out)) := by
    unfold mergeForBlending
    simp only [Bool.false_eq_true, if_false, bind, Except.bind, pure, Except.pure]
    rfl
  rw [hopen]
  simp only [bind, Except.bind]
  cases hm : cubes.mapM (fun c => match c.key with
        | some k => (.ok (k, (none : Option Text), c) : Except Err (ℤ × Option Text × BlendIn D))
        | none => .error .valueError) with
  | error e =>
    dsimp only
    have hnone : ∃ c ∈ cubes, c.key = none := by
      by_contra hc
      push Not at hc
      obtain ⟨r, hr⟩ := mapM_total (fun c : BlendIn D => match c.key with
        | some k => (.ok (k, (none : Option Text), c) : Except Err (ℤ × Option Text × BlendIn D))
        | none => .error .valueError) cubes (fun c hc' => by
          obtain ⟨k, hk⟩ := Option.ne_none_iff_exists'.1 (hc c hc')
          exact ⟨(k, none, c), by simp only [hk]⟩)
      rw [hr] at hm
      exact nomatch hm
    refine ⟨fun _ h => (nomatch h), ?_, ?_⟩
    · intro keys hk
      exfalso
      obtain ⟨c, hc, hcn⟩ := hnone
      have : (none : Option ℤ) ∈ keys.map some := by rw [← hk, ← hcn]; exact List.mem_map_of_mem hc
      simp at this
    · intro _
      rw [mapM_error_value _ .valueError (fun c e hce => ?_) _ _ hm]
      cases hk : c.key with
      | some k => simp only [hk] at hce; exact nomatch hce
      | none => simp only [hk] at hce; exact (Except.error.inj hce).symm
  | ok keyed =>
    have hfa := mapM_ok_forall _ _ _ hm
    have heach : List.Forall₂ (fun (c : BlendIn D) (s : ℤ × Option Text × BlendIn D) => c.key = some s.1 ∧ s.2.1 = none ∧ s.2.2 = c) cubes keyed := by
      refine hfa.imp ?_
      intro c s h
      cases hk : c.key with
      | none => simp only [hk] at h; exact nomatch h
      | some k =>
        simp only [hk] at h
        have := Except.ok.inj h
        subst this
        exact ⟨rfl, rfl, rfl⟩
    have hcubes : keyed.map (fun s => s.2.2) = cubes := by
      clear hfa hm hopen hne
      induction heach with
      | nil => rfl
      | cons h _ ih => rw [List.map_cons, ih, h.2.2]
    have hkeys : keyed.map (fun s => some s.1) = cubes.map BlendIn.key := by
      clear hfa hm hopen hne hcubes
      induction heach with
      | nil => rfl
      | cons h _ ih => rw [List.map_cons, List.map_cons, ih, h.1]
    have hin : ∀ s ∈ keyed, s.2.2.key = some s.1 ∧ s.2.1 = none := by
      intro s hs
      have hs' : ∃ c ∈ cubes, c.key = some s.1 ∧ s.2.1 = none ∧ s.2.2 = c := by
        clear hfa hm hopen hne hcubes hkeys
        induction heach with
        | nil => exact nomatch hs
        | cons h _ ih =>
          rcases List.mem_cons.1 hs with rfl | hs
          · exact ⟨_, List.mem_cons_self, h⟩
          · obtain ⟨c, hc, h'⟩ := ih hs
            exact ⟨c, List.mem_cons_of_mem _ hc, h'⟩
      obtain ⟨c, _, h⟩ := hs'
      rw [h.2.2]
      exact ⟨h.1, h.2.1⟩
    have hkne : keyed ≠ [] := by
      rintro rfl
      exact hne (by rw [← hcubes]; rfl)
    have hb : ∀ P : Option (ℤ × ℤ) → Prop, (∀ s ∈ keyed, P s.2.2.bounds) ↔ ∀ c ∈ cubes, P c.bounds := by
      intro P
      rw [← hcubes]
      simp only [List.mem_map, forall_exists_index, and_imp, forall_apply_eq_imp_iff₂]
    dsimp only
    refine ⟨?_, ?_, ?_⟩
    · intro out ho
      obtain ⟨rfl, h1, h2, h3⟩ := (keyed_spec keyed hkne out).1 ho
      have hperm := List.perm_insertionSort (fun a b : ℤ × Option Text × BlendIn D => a.1 ≤ b.1) keyed
      refine ⟨?_, ?_, ?_, ?_, h3⟩
      · conv_rhs => rw [← hcubes]
        exact hperm.map _
      · intro s hs
        exact hin s (hperm.mem_iff.1 hs)
      · have p1 := (hperm.map Prod.fst).nodup_iff.2 h1
        have p2 : (keyed.insertionSort fun a b => a.1 ≤ b.1).Pairwise (fun a b => a.1 ≤ b.1) := List.pairwise_insertionSort _ _
        have p3 : (keyed.insertionSort fun a b => a.1 ≤ b.1).Pairwise (fun a b => a.1 ≠ b.1) := by
          rw [List.nodup_iff_pairwise_ne, List.pairwise_map] at p1
          exact p1
        exact (p2.and p3).imp fun h => lt_of_le_of_ne h.1 h.2
      · rwa [hb (fun b => b.isSome = true), hb (fun b => b.isNone = true)] at h2
    · intro keys hk hnd hbd hr
      refine ⟨_, (keyed_spec keyed hkne _).2 ⟨rfl, ?_, ?_, ?_⟩⟩
      · have : keyed.map Prod.fst = keys := by
          rw [hk] at hkeys
          have h2 : (keyed.map Prod.fst).map some = keys.map some := by rw [List.map_map]; exact hkeys
          exact List.map_injective_iff.2 (Option.some_injective _) h2
        rw [this]
        exact hnd
      · rwa [hb (fun b => b.isSome = true), hb (fun b => b.isNone = true)]
      · have hmem : ∀ b, b ∈ ((keyed.insertionSort fun a b => a.1 ≤ b.1).map fun s => s.2.2.bounds) → ∃ c ∈ cubes, c.bounds = b := by
          intro b hb'
          obtain ⟨s, hs, rfl⟩ := List.mem_map.1 hb'
          have := (List.perm_insertionSort _ _).mem_iff.1 hs
          exact ⟨s.2.2, by rw [← hcubes]; exact List.mem_map_of_mem this, rfl⟩
        intro b0 b h1 h2
        obtain ⟨c, hc, hcb⟩ := hmem _ (List.mem_of_mem_head? h1)
        obtain ⟨k, hk', hkb⟩ := hmem _ h2
        have := hr c hc k hk' b0 b hcb hkb
        have h3 : |(b.2 : ℚ) - b.1| = |(b0.2 : ℚ) - b0.1| := by exact_mod_cast this.symm
        rw [h3]
        exact npIsclose_same _
    · rintro ⟨c, hc, hcn⟩
      exfalso
      have : (none : Option ℤ) ∈ keyed.map (fun s => some s.1) := by rw [hkeys, ← hcn]; exact List.mem_map_of_mem hc
      simp at this

/-- Concrete case: two models blended by forecast period, and three cycles given out of order. -/
example :
    let c : Option Text → ℤ → ℤ → BlendIn ℕ := fun t f k => ⟨t, some k, 36000, none, f, 36000 - f, some f, k.toNat⟩
    let o := (mergeForBlending true true none [c (some ['u', 'k']) 3600 1, c (some ['g', 'l']) 0 2]).toOption
    o.map (fun o => o.map fun s => (s.1, s.2.1)) = some [(0, some ['u', 'k']), (1000, some ['g', 'l'])] ∧
    o.map (fun o => o.map fun s => (s.2.2.frt, s.2.2.fp, s.2.2.data)) = some [(3600, 32400, 1), (3600, 32400, 2)] ∧
    ((mergeForBlending false false none [c none 3600 3, c none 0 1, c none 1800 2]).toOption.map fun o => o.map fun s => (s.1, s.2.2.data)) =
      some [(1, 1), (2, 2), (3, 3)] := by
  intro c o
  refine ⟨?_, ?_, ?_⟩ <;> decide +kernel

end Improver
