import Verif.Model.Compare
import Mathlib.Data.List.Basic
import Mathlib.Tactic.Linarith
import Mathlib.Tactic.NormNum

/-! Properties of the comparison of netCDF files (C169). -/

namespace Improver

/-! ## Specification -/

/-- An attribute value without NaN. -/
def Spec.nanFree : NcAttr → Prop
  | .text _ => True
  | .num _ v => v ≠ .nan
  | .arr vs => ∀ v ∈ vs, v ≠ .nan

/-- The attributes agree: outside the ignored names the same ones are present, with equal values. -/
def Spec.attrsAgree (ignored : List String) (a d : List (String × NcAttr)) : Prop :=
  ∀ k, k ∉ ignored → a.lookup k = d.lookup k ∧ ∀ v, a.lookup k = some v → Spec.nanFree v

/-- Two numbers agree within the tolerance, relative to the second. -/
def Spec.numNear (rtol atol : ℚ) (a d : NcNum) : Prop :=
  (∃ x y, a = .fin x ∧ d = .fin y ∧ |x - y| ≤ atol + rtol * |y|) ∨ (a = .nan ∧ d = .nan) ∨ ∃ p, a = .inf p ∧ d = .inf p

/-- Arrays agree element by element; where one of them is a scalar, it agrees with every element of the other. -/
def Spec.elemsAgree {α : Type} (R : α → α → Prop) (sa sd : List ℕ) (a d : List α) : Prop :=
  (sa = sd ∧ List.Forall₂ R a d) ∨ (sa ≠ sd ∧ (sa = [] ∨ sd = []) ∧ ∀ x ∈ a, ∀ y ∈ d, R x y)

/-- The data agree. -/
def Spec.dataAgree (rtol atol : ℚ) : NcData → NcData → Prop
  | .nums sa a, .nums sd d => Spec.elemsAgree (Spec.numNear rtol atol) sa sd a d
  | .texts sa a, .texts sd d => Spec.elemsAgree (· = ·) sa sd a d
  | _, _ => False

/-- The variable is a dimension of some compared variable of the desired file. -/
def Spec.isCoordinate (exclude : List String) (a d : List (String × NcVar)) (k : String) : Prop :=
  ∃ n, n ∉ exclude ∧ (∃ x, a.lookup n = some x) ∧ ∃ v, d.lookup n = some v ∧ k ∈ v.dims

/-- One variable agrees: attributes, type and data; exactly if it is a coordinate. -/
def Spec.varAgree (opts : NcOptions) (coordinate : Prop) (a d : NcVar) : Prop :=
  Spec.attrsAgree opts.ignored a.attrs d.attrs ∧ a.dtype = d.dtype ∧
  (coordinate → Spec.dataAgree 0 0 a.data d.data) ∧ (¬ coordinate → Spec.dataAgree opts.rtol opts.atol a.data d.data)

/-- One group agrees, subgroups aside. -/
def Spec.levelAgree (opts : NcOptions) (a d : NcGroup) : Prop :=
  Spec.attrsAgree opts.ignored a.attrs d.attrs ∧
  (∀ k, k ∉ opts.exclude → a.dims.lookup k = d.dims.lookup k) ∧
  ∀ k, k ∉ opts.exclude → ((a.vars.lookup k).isSome ↔ (d.vars.lookup k).isSome) ∧
    ∀ x y, a.vars.lookup k = some x → d.vars.lookup k = some y →
      Spec.varAgree opts (Spec.isCoordinate opts.exclude a.vars d.vars k) x y

/-- The group at a path. -/
def Spec.groupAt : List String → NcGroup → Option NcGroup
  | [], g => some g
  | k :: rest, g => (g.groups.get k).bind (Spec.groupAt rest)

/-- The files agree: the same groups exist, and each agrees. -/
def Spec.filesAgree (opts : NcOptions) (a d : NcGroup) : Prop :=
  ∀ path, ((Spec.groupAt path a).isSome ↔ (Spec.groupAt path d).isSome) ∧
    ∀ g g', Spec.groupAt path a = some g → Spec.groupAt path d = some g' → Spec.levelAgree opts g g'

mutual
/-- Subgroups of a group have different names, at every level. -/
def Spec.distinct : NcGroup → Prop
  | .mk _ _ _ gs => gs.names.Nodup ∧ Spec.distincts gs
def Spec.distincts : NcGroups → Prop
  | .nil => True
  | .cons _ g rest => Spec.distinct g ∧ Spec.distincts rest
end

/-! ## Proofs -/

theorem sameNames_iff (a b : List String) : sameNames a b = true ↔ ∀ k, k ∈ a ↔ k ∈ b := by
  unfold sameNames
  rw [Bool.and_eq_true, List.all_eq_true, List.all_eq_true]
  constructor
  · rintro ⟨h1, h2⟩ k
    exact ⟨fun h => by simpa using h1 k h, fun h => by simpa using h2 k h⟩
  · intro h
    exact ⟨fun k hk => by simpa using (h k).1 hk, fun k hk => by simpa using (h k).2 hk⟩

theorem mem_without (a b : List String) (k : String) : k ∈ withoutNames a b ↔ k ∈ a ∧ k ∉ b := by
  unfold withoutNames
  simp

theorem mem_common (a b : List String) (k : String) : k ∈ commonNames a b ↔ k ∈ a ∧ k ∈ b := by
  unfold commonNames
  simp

theorem mem_keys {α : Type} (l : List (String × α)) (k : String) : k ∈ l.map Prod.fst ↔ (l.lookup k).isSome := by
  induction l with
  | nil => simp
  | cons p l ih =>
    obtain ⟨n, v⟩ := p
    rw [List.map_cons, List.mem_cons, List.lookup_cons, ih]
    by_cases h : k = n
    · simp [h]
    · have : (k == n) = false := by simpa using h
      rw [this]
      simp [h]

theorem ite_nil {α : Type} {c : Bool} {r : α} : (if c = true then [] else [r]) = [] ↔ c = true := by
  cases c <;> simp

/-- The scheme shared by attributes, dimensions and variables: the names outside the given ones agree, and so do
the entries of common names. -/
theorem names_scheme {α : Type} (skip : List String) (a d : List (String × α)) (r : NcReport)
    (f : String → List NcReport) :
    ((if sameNames (withoutNames (a.map Prod.fst) skip) (withoutNames (d.map Prod.fst) skip) then [] else [r]) ++
      (commonNames (withoutNames (a.map Prod.fst) skip) (withoutNames (d.map Prod.fst) skip)).flatMap f) = [] ↔
    (∀ k, k ∉ skip → ((a.lookup k).isSome ↔ (d.lookup k).isSome)) ∧
    ∀ k, k ∉ skip → (a.lookup k).isSome → (d.lookup k).isSome → f k = [] := by
  rw [List.append_eq_nil_iff, ite_nil, sameNames_iff, List.flatMap_eq_nil_iff]
  constructor
  · rintro ⟨h1, h2⟩
    refine ⟨fun k hk => ?_, fun k hk ha hd => ?_⟩
    · have := h1 k
      rw [mem_without, mem_without, mem_keys, mem_keys] at this
      simpa [hk] using this
    · apply h2
      rw [mem_common, mem_without, mem_without, mem_keys, mem_keys]
      exact ⟨⟨ha, hk⟩, hd, hk⟩
  · rintro ⟨h1, h2⟩
    refine ⟨fun k => ?_, fun k hk => ?_⟩
    · rw [mem_without, mem_without, mem_keys, mem_keys]
      constructor
      · rintro ⟨ha, hk⟩; exact ⟨(h1 k hk).1 ha, hk⟩
      · rintro ⟨ha, hk⟩; exact ⟨(h1 k hk).2 ha, hk⟩
    · rw [mem_common, mem_without, mem_without, mem_keys, mem_keys] at hk
      exact h2 k hk.1.2 hk.1.1 hk.2.1

theorem ncEq_iff (a b : NcNum) : a.eq b = true ↔ a = b ∧ a ≠ .nan := by
  cases a <;> cases b <;> simp [NcNum.eq]

theorem zipAll_iff {α β : Type} (f : α → β → Bool) (a : List α) (d : List β) :
    (decide (a.length = d.length) && (List.zipWith f a d).all id) = true ↔ List.Forall₂ (fun x y => f x y = true) a d := by
  induction a generalizing d with
  | nil => cases d <;> simp
  | cons x a ih =>
    cases d with
    | nil => simp
    | cons y d =>
      rw [List.forall₂_cons, ← ih]
      simp only [List.length_cons, Nat.add_right_cancel_iff, List.zipWith_cons_cons, List.all_cons, id,
        Bool.and_eq_true, decide_eq_true_iff]
      tauto

theorem forall2_eq_ne (a d : List NcNum) :
    List.Forall₂ (fun x y => NcNum.eq x y = true) a d ↔ a = d ∧ ∀ v ∈ a, v ≠ .nan := by
  induction a generalizing d with
  | nil => cases d <;> simp
  | cons x a ih =>
    cases d with
    | nil => simp
    | cons y d =>
      rw [List.forall₂_cons, ih, ncEq_iff, List.cons.injEq, List.forall_mem_cons]
      tauto

theorem compareAttr_nil (n k : String) (a d : NcAttr) : compareAttr n k a d = [] ↔ a = d ∧ Spec.nanFree a := by
  cases a <;> cases d <;> simp only [compareAttr, Spec.nanFree, reduceCtorEq, false_and, NcAttr.text.injEq,
    NcAttr.num.injEq, NcAttr.arr.injEq, and_true, List.cons_ne_nil]
  · rename_i a d
    by_cases h : a = d <;> simp [h]
  · rename_i ta a td d
    rw [List.append_eq_nil_iff, ite_nil, ncEq_iff]
    by_cases h : ta = td
    · rw [if_neg (by rw [h]; simp)]; simp [h]
    · rw [if_pos (fun e => h e.symm)]; simp [h]
  · rename_i a d
    rw [ite_nil, zipAll_iff, forall2_eq_ne]

theorem compareAttrs_nil (opts : NcOptions) (n : String) (a d : List (String × NcAttr)) :
    compareNcAttrs opts n a d = [] ↔ Spec.attrsAgree opts.ignored a d := by
  unfold compareNcAttrs
  dsimp only
  rw [names_scheme]
  unfold Spec.attrsAgree compareAttrAt
  constructor
  · rintro ⟨h1, h2⟩ k hk
    have h1 := h1 k hk
    have h2 := h2 k hk
    cases ha : a.lookup k with
    | none => 
      cases hd : d.lookup k with
      | none => exact ⟨rfl, fun v hv => (nomatch hv)⟩
      | some y => rw [ha, hd] at h1; simp at h1
    | some x =>
      cases hd : d.lookup k with
      | none => rw [ha, hd] at h1; simp at h1
      | some y =>
        rw [ha, hd] at h2
        have := (compareAttr_nil n k x y).1 (h2 rfl rfl)
        exact ⟨by rw [this.1], fun v hv => by rw [Option.some.injEq] at hv; exact hv ▸ this.2⟩
  · intro h
    refine ⟨fun k hk => by rw [(h k hk).1], fun k hk ha hd => ?_⟩
    obtain ⟨x, hx⟩ := Option.isSome_iff_exists.1 ha
    have hy := (h k hk).1 ▸ hx
    rw [hx, hy]
    exact (compareAttr_nil n k x x).2 ⟨rfl, (h k hk).2 x hx⟩

theorem compareDims_nil (opts : NcOptions) (n : String) (a d : List (String × ℕ)) :
    compareDims opts n a d = [] ↔ ∀ k, k ∉ opts.exclude → a.lookup k = d.lookup k := by
  unfold compareDims
  dsimp only
  rw [names_scheme]
  unfold compareDim
  constructor
  · rintro ⟨h1, h2⟩ k hk
    have h1 := h1 k hk
    have h2 := h2 k hk
    cases ha : a.lookup k with
    | none =>
      cases hd : d.lookup k with
      | none => rfl
      | some y => rw [ha, hd] at h1; simp at h1
    | some x =>
      cases hd : d.lookup k with
      | none => rw [ha, hd] at h1; simp at h1
      | some y =>
        rw [ha, hd] at h2
        have := h2 rfl rfl
        dsimp only at this
        by_cases e : x = y
        · rw [e]
        · rw [if_pos e] at this; exact nomatch this
  · intro h
    refine ⟨fun k hk => by rw [h k hk], fun k hk ha hd => ?_⟩
    obtain ⟨x, hx⟩ := Option.isSome_iff_exists.1 ha
    rw [← h k hk, hx]
    simp

theorem closeNum_iff (r t : ℚ) (a d : NcNum) : closeNum r t a d = true ↔ Spec.numNear r t a d := by
  unfold Spec.numNear
  cases a <;> cases d <;> simp [closeNum]
  exact eq_comm

theorem compareElems_iff {α : Type} (f : α → α → Bool) (R : α → α → Prop) (hf : ∀ x y, f x y = true ↔ R x y)
    (sa sd : List ℕ) (a d : List α) : compareElems f sa sd a d = true ↔ Spec.elemsAgree R sa sd a d := by
  have hR : (fun x y => f x y = true) = R := by funext x y; exact propext (hf x y)
  have hall : (a.all fun x => d.all fun y => f x y) = true ↔ ∀ x ∈ a, ∀ y ∈ d, R x y := by
    rw [List.all_eq_true]
    constructor
    · intro h x hx y hy
      exact (hf x y).1 (List.all_eq_true.1 (h x hx) y hy)
    · intro h x hx
      exact List.all_eq_true.2 fun y hy => (hf x y).2 (h x hx y hy)
  unfold compareElems Spec.elemsAgree
  by_cases h : sa = sd
  · rw [if_pos h, zipAll_iff, hR]
    simp [h]
  · rw [if_neg h]
    by_cases h1 : sa = []
    · rw [if_pos h1, hall]
      have hsd : sd ≠ [] := fun he => h (h1.trans he.symm)
      constructor
      · intro hh; exact .inr ⟨h, .inl h1, hh⟩
      · rintro (⟨e, -⟩ | ⟨-, -, hh⟩)
        · exact absurd e h
        · exact hh
    · rw [if_neg h1]
      by_cases h2 : sd = []
      · rw [if_pos h2, hall]
        simp [h, h1, h2]
      · rw [if_neg h2]
        simp [h, h1, h2]

theorem compareData_nil (n : String) (r t : ℚ) (a d : NcVar) :
    compareData n r t a d = [] ↔ a.dtype = d.dtype ∧ Spec.dataAgree r t a.data d.data := by
  unfold compareData
  rw [List.append_eq_nil_iff]
  have h1 : (if a.dtype ≠ d.dtype then [NcReport.type n] else []) = [] ↔ a.dtype = d.dtype := by
    by_cases h : a.dtype = d.dtype <;> simp [h]
  rw [h1]
  apply and_congr_right
  intro _
  cases a.data <;> cases d.data <;> dsimp only [Spec.dataAgree]
  · rw [ite_nil, compareElems_iff _ _ (closeNum_iff r t)]
  · simp
  · simp
  · rw [ite_nil, compareElems_iff _ _ (fun x y => decide_eq_true_iff)]

theorem coordVars_iff (exclude : List String) (a d : List (String × NcVar)) (k : String) (hk : k ∉ exclude)
    (hak : (a.lookup k).isSome) (hdk : (d.lookup k).isSome) :
    (coordVars d (commonNames (withoutNames (a.map Prod.fst) exclude) (withoutNames (d.map Prod.fst) exclude))).contains k
      = true ↔ Spec.isCoordinate exclude a d k := by
  unfold coordVars Spec.isCoordinate
  rw [List.contains_iff_mem, mem_common, List.mem_flatMap]
  have hin : k ∈ commonNames (withoutNames (a.map Prod.fst) exclude) (withoutNames (d.map Prod.fst) exclude) := by
    rw [mem_common, mem_without, mem_without, mem_keys, mem_keys]
    exact ⟨⟨hak, hk⟩, hdk, hk⟩
  constructor
  · rintro ⟨⟨n, hn, hd⟩, -⟩
    rw [mem_common, mem_without, mem_without, mem_keys, mem_keys] at hn
    refine ⟨n, hn.1.2, Option.isSome_iff_exists.1 hn.1.1, ?_⟩
    obtain ⟨v, hv⟩ := Option.isSome_iff_exists.1 hn.2.1
    rw [hv] at hd
    exact ⟨v, hv, by simpa using hd⟩
  · rintro ⟨n, hn, ⟨x, hx⟩, v, hv, hkv⟩
    refine ⟨⟨n, ?_, by rw [hv]; simpa using hkv⟩, hin⟩
    rw [mem_common, mem_without, mem_without, mem_keys, mem_keys]
    exact ⟨⟨by rw [hx]; rfl, hn⟩, by rw [hv]; rfl, hn⟩

theorem compareVars_nil (opts : NcOptions) (n : String) (a d : List (String × NcVar)) :
    compareVars opts n a d = [] ↔ ∀ k, k ∉ opts.exclude → ((a.lookup k).isSome ↔ (d.lookup k).isSome) ∧
      ∀ x y, a.lookup k = some x → d.lookup k = some y →
        Spec.varAgree opts (Spec.isCoordinate opts.exclude a d k) x y := by
  have one : ∀ k x y, k ∉ opts.exclude → a.lookup k = some x → d.lookup k = some y →
      (compareVar opts n (coordVars d (commonNames (withoutNames (a.map Prod.fst) opts.exclude)
        (withoutNames (d.map Prod.fst) opts.exclude))) a d k = [] ↔
        Spec.varAgree opts (Spec.isCoordinate opts.exclude a d k) x y) := by
    intro k x y hk hx hy
    have hc := coordVars_iff opts.exclude a d k hk (by rw [hx]; rfl) (by rw [hy]; rfl)
    unfold compareVar Spec.varAgree
    rw [hx, hy]
    dsimp only
    rw [List.append_eq_nil_iff, compareAttrs_nil]
    apply and_congr_right
    intro _
    by_cases h : Spec.isCoordinate opts.exclude a d k
    · rw [if_pos (hc.2 h), compareData_nil]
      simp [h]
    · rw [if_neg (fun e => h (hc.1 e)), compareData_nil]
      simp [h]
  unfold compareVars
  dsimp only
  rw [names_scheme]
  constructor
  · rintro ⟨h1, h2⟩ k hk
    refine ⟨h1 k hk, fun x y hx hy => ?_⟩
    exact (one k x y hk hx hy).1 (h2 k hk (by rw [hx]; rfl) (by rw [hy]; rfl))
  · intro h
    refine ⟨fun k hk => (h k hk).1, fun k hk ha hd => ?_⟩
    obtain ⟨x, hx⟩ := Option.isSome_iff_exists.1 ha
    obtain ⟨y, hy⟩ := Option.isSome_iff_exists.1 hd
    exact (one k x y hk hx hy).2 ((h k hk).2 x y hx hy)

theorem mem_names (gs : NcGroups) (k : String) : k ∈ gs.names ↔ (gs.get k).isSome := by
  match gs with
  | .nil => simp [NcGroups.names, NcGroups.get]
  | .cons n g rest =>
    have ih := mem_names rest k
    rw [NcGroups.names, NcGroups.get, List.mem_cons, ih]
    by_cases h : k = n <;> simp [h]

/-- Comparison of one level and of the subgroups. -/
theorem compareDatasets_nil (opts : NcOptions) (n : String) (a d : NcGroup) :
    compareDatasets opts n a d = [] ↔ Spec.levelAgree opts a d ∧
      (∀ k, (a.groups.get k).isSome ↔ (d.groups.get k).isSome) ∧ compareSubgroups opts d.groups a.groups = [] := by
  obtain ⟨aa, ad, av, ag⟩ := a
  rw [compareDatasets, List.append_eq_nil_iff, List.append_eq_nil_iff, List.append_eq_nil_iff, List.append_eq_nil_iff,
    compareAttrs_nil, ite_nil, compareDims_nil, compareVars_nil, sameNames_iff]
  unfold Spec.levelAgree
  simp only [NcGroup.attrs, NcGroup.dims, NcGroup.vars, NcGroup.groups, mem_names]
  tauto

theorem groupAt_cons (k : String) (rest : List String) (g : NcGroup) :
    Spec.groupAt (k :: rest) g = (g.groups.get k).bind (Spec.groupAt rest) := rfl

/-- Agreement of files level by level. -/
theorem filesAgree_iff (opts : NcOptions) (a d : NcGroup) :
    Spec.filesAgree opts a d ↔ Spec.levelAgree opts a d ∧
      ∀ k, ((a.groups.get k).isSome ↔ (d.groups.get k).isSome) ∧
        ∀ g g', a.groups.get k = some g → d.groups.get k = some g' → Spec.filesAgree opts g g' := by
  constructor
  · intro h
    refine ⟨(h []).2 a d rfl rfl, fun k => ⟨?_, fun g g' hg hg' path => ?_⟩⟩
    · have := (h [k]).1
      rw [groupAt_cons, groupAt_cons] at this
      cases ha : a.groups.get k <;> cases hd : d.groups.get k <;> rw [ha, hd] at this <;>
        simp [Spec.groupAt] at this ⊢
    · have := h (k :: path)
      rw [groupAt_cons, groupAt_cons, hg, hg'] at this
      exact this
  · rintro ⟨h1, h2⟩ path
    cases path with
    | nil =>
      refine ⟨by simp [Spec.groupAt], fun g g' hg hg' => ?_⟩
      injection hg with hg
      injection hg' with hg'
      rw [← hg, ← hg']
      exact h1
    | cons k rest =>
      obtain ⟨h3, h4⟩ := h2 k
      rw [groupAt_cons, groupAt_cons]
      cases ha : a.groups.get k with
      | none =>
        cases hd : d.groups.get k with
        | none => simp
        | some g' => rw [ha, hd] at h3; simp at h3
      | some g =>
        cases hd : d.groups.get k with
        | none => rw [ha, hd] at h3; simp at h3
        | some g' => exact h4 g g' ha hd rest

theorem get_not_mem {gs : NcGroups} {k : String} (h : k ∉ gs.names) : gs.get k = none := by
  rw [mem_names] at h
  simpa using h

mutual
theorem compareDatasets_iff (opts : NcOptions) (n : String) : ∀ (a d : NcGroup), Spec.distinct a →
    (compareDatasets opts n a d = [] ↔ Spec.filesAgree opts a d)
  | .mk aa ad av ag, d, hd => by
    rw [compareDatasets_nil, filesAgree_iff]
    rw [Spec.distinct] at hd
    have hs := compareSubgroups_iff opts d.groups ag hd.1 hd.2
    simp only [NcGroup.groups] at hs ⊢
    constructor
    · rintro ⟨h1, h2, h3⟩
      exact ⟨h1, fun k => ⟨h2 k, hs.1 h3 k⟩⟩
    · rintro ⟨h1, h2⟩
      exact ⟨h1, fun k => (h2 k).1, hs.2 fun k => (h2 k).2⟩
theorem compareSubgroups_iff (opts : NcOptions) (ds : NcGroups) : ∀ (gs : NcGroups), gs.names.Nodup →
    Spec.distincts gs → (compareSubgroups opts ds gs = [] ↔
      ∀ k g g', gs.get k = some g → ds.get k = some g' → Spec.filesAgree opts g g')
  | .nil, _, _ => by
    simp [compareSubgroups, NcGroups.get]
  | .cons n g rest, hn, hd => by
    rw [NcGroups.names, List.nodup_cons] at hn
    rw [Spec.distincts] at hd
    have ih := compareSubgroups_iff opts ds rest hn.2 hd.2
    rw [compareSubgroups, List.append_eq_nil_iff, ih]
    have hrest : rest.get n = none := get_not_mem hn.1
    have hhead : (match ds.get n with
        | some g' => compareNcAttrs opts n g.attrs g'.attrs ++ compareDatasets opts n g g'
        | none => []) = [] ↔ ∀ g', ds.get n = some g' → Spec.filesAgree opts g g' := by
      cases hds : ds.get n with
      | none => simp
      | some g' =>
        dsimp only
        rw [List.append_eq_nil_iff, compareDatasets_iff opts n g g' hd.1, compareAttrs_nil]
        constructor
        · rintro ⟨-, h⟩ g'' e
          injection e with e
          exact e ▸ h
        · intro h
          have := h g' rfl
          exact ⟨((filesAgree_iff opts g g').1 this).1.1, this⟩
    refine Iff.trans (and_congr_left fun _ => hhead) ?_
    constructor
    · rintro ⟨h1, h2⟩ k x x' hx hx'
      rw [NcGroups.get] at hx
      by_cases e : k = n
      · rw [if_pos e, Option.some.injEq] at hx
        subst hx
        exact h1 x' (e ▸ hx')
      · rw [if_neg e] at hx
        exact h2 k x x' hx hx'
    · intro h
      refine ⟨fun g' hg' => h n g g' (by rw [NcGroups.get, if_pos rfl]) hg', fun k x x' hx hx' => ?_⟩
      apply h k x x' _ hx'
      rw [NcGroups.get, if_neg]
      · exact hx
      · intro e
        rw [e, hrest] at hx
        exact nomatch hx
end

/-- C169: the comparison of two files reports nothing exactly when they agree: the same groups, attributes (but for
ignored names), dimensions and variables (but for excluded names), with equal attribute values, dimension sizes and
types, equal coordinate data, and other data equal within the tolerance. -/
theorem C169_silent_iff_agree (opts : NcOptions) (name : String) (a d : NcGroup) (h : Spec.distinct a) :
    compareDatasets opts name a d = [] ↔ Spec.filesAgree opts a d := compareDatasets_iff opts name a d h

/-! ### Consequences -/

theorem near_mono {r r' t t' : ℚ} (hr : r ≤ r') (ht : t ≤ t') {a d : NcNum} (h : Spec.numNear r t a d) :
    Spec.numNear r' t' a d := by
  rcases h with ⟨x, y, rfl, rfl, h⟩ | h | h
  · exact .inl ⟨x, y, rfl, rfl, by nlinarith [abs_nonneg y, mul_le_mul_of_nonneg_right hr (abs_nonneg y)]⟩
  · exact .inr (.inl h)
  · exact .inr (.inr h)

theorem dataAgree_mono {r r' t t' : ℚ} (hr : r ≤ r') (ht : t ≤ t') {a d : NcData} (h : Spec.dataAgree r t a d) :
    Spec.dataAgree r' t' a d := by
  cases a <;> cases d <;> simp only [Spec.dataAgree] at h ⊢
  · rcases h with ⟨e, h⟩ | ⟨e1, e2, h⟩
    · exact .inl ⟨e, h.imp fun _ _ => near_mono hr ht⟩
    · exact .inr ⟨e1, e2, fun x hx y hy => near_mono hr ht (h x hx y hy)⟩
  · exact h

/-- C169: files that pass with a tolerance pass with every larger one. -/
theorem C169_tolerance_monotone (opts opts' : NcOptions) (name : String) (a d : NcGroup) (hd : Spec.distinct a)
    (he : opts'.exclude = opts.exclude) (hi : opts'.ignored = opts.ignored) (hr : opts.rtol ≤ opts'.rtol)
    (ht : opts.atol ≤ opts'.atol) (h : compareDatasets opts name a d = []) : compareDatasets opts' name a d = [] := by
  rw [C169_silent_iff_agree _ _ _ _ hd] at h ⊢
  intro path
  refine ⟨(h path).1, fun g g' hg hg' => ?_⟩
  obtain ⟨l1, l2, l3⟩ := (h path).2 g g' hg hg'
  refine ⟨hi ▸ l1, he ▸ l2, fun k hk => ⟨(l3 k (he ▸ hk)).1, fun x y hx hy => ?_⟩⟩
  obtain ⟨v1, v2, v3, v4⟩ := (l3 k (he ▸ hk)).2 x y hx hy
  refine ⟨hi ▸ v1, v2, fun hc => v3 (he ▸ hc), fun hc => dataAgree_mono hr ht (v4 (he ▸ hc))⟩

theorem near_refl {r t : ℚ} (hr : 0 ≤ r) (ht : 0 ≤ t) (a : NcNum) : Spec.numNear r t a a := by
  cases a with
  | fin q => exact .inl ⟨q, q, rfl, rfl, by rw [sub_self, abs_zero]; positivity⟩
  | nan => exact .inr (.inl ⟨rfl, rfl⟩)
  | inf p => exact .inr (.inr ⟨p, rfl, rfl⟩)

theorem dataAgree_refl {r t : ℚ} (hr : 0 ≤ r) (ht : 0 ≤ t) (a : NcData) : Spec.dataAgree r t a a := by
  cases a with
  | nums s v => exact .inl ⟨rfl, List.forall₂_same.2 fun x _ => near_refl hr ht x⟩
  | texts s v => exact .inl ⟨rfl, List.forall₂_same.2 fun x _ => rfl⟩

/-- No attribute of any group or variable holds a NaN. -/
def Spec.noNanAttrs (a : NcGroup) : Prop :=
  ∀ path g, Spec.groupAt path a = some g → (∀ k v, g.attrs.lookup k = some v → Spec.nanFree v) ∧
    ∀ n x, g.vars.lookup n = some x → ∀ k v, x.attrs.lookup k = some v → Spec.nanFree v

/-- C169: a file agrees with itself, for every tolerance that is not negative, NaN data included, provided no
attribute is NaN. -/
theorem C169_reflexive (opts : NcOptions) (name : String) (a : NcGroup) (hd : Spec.distinct a)
    (hr : 0 ≤ opts.rtol) (ht : 0 ≤ opts.atol) (hn : Spec.noNanAttrs a) : compareDatasets opts name a a = [] := by
  rw [C169_silent_iff_agree _ _ _ _ hd]
  intro path
  refine ⟨Iff.rfl, fun g g' hg hg' => ?_⟩
  rw [hg, Option.some.injEq] at hg'
  subst hg'
  obtain ⟨n1, n2⟩ := hn path g hg
  refine ⟨fun k _ => ⟨rfl, n1 k⟩, fun k _ => rfl, fun k _ => ⟨Iff.rfl, fun x y hx hy => ?_⟩⟩
  rw [hx, Option.some.injEq] at hy
  subst hy
  exact ⟨fun k' _ => ⟨rfl, n2 k x hx k'⟩, rfl, fun _ => dataAgree_refl le_rfl le_rfl _,
    fun _ => dataAgree_refl hr ht _⟩

/-- C169: a value of a compared variable that differs by more than the tolerance, or at all in a coordinate, is
reported. -/
theorem C169_detects (opts : NcOptions) (name : String) (a d : NcGroup) (hd : Spec.distinct a) {path : List String}
    {g g' : NcGroup} (hg : Spec.groupAt path a = some g) (hg' : Spec.groupAt path d = some g') {k : String}
    (hk : k ∉ opts.exclude) {x y : NcVar} (hx : g.vars.lookup k = some x) (hy : g'.vars.lookup k = some y)
    {s : List ℕ} {vs ws : List NcNum} (hvs : x.data = .nums s vs) (hws : y.data = .nums s ws) {i : ℕ} {p q : ℚ}
    (hp : vs[i]? = some (.fin p)) (hq : ws[i]? = some (.fin q))
    (hr : 0 ≤ opts.rtol) (ht : 0 ≤ opts.atol)
    (hbad : opts.atol + opts.rtol * |q| < |p - q| ∨ (Spec.isCoordinate opts.exclude g.vars g'.vars k ∧ p ≠ q)) :
    compareDatasets opts name a d ≠ [] := by
  intro h
  rw [C169_silent_iff_agree _ _ _ _ hd] at h
  obtain ⟨-, -, v3, v4⟩ := (((h path).2 g g' hg hg').2.2 k hk).2 x y hx hy
  have key : ∀ r t : ℚ, Spec.dataAgree r t x.data y.data → |p - q| ≤ t + r * |q| := by
    intro r t hag
    rw [hvs, hws] at hag
    rcases hag with ⟨-, hf⟩ | ⟨hne, -⟩
    · have hl := hf.length_eq
      have hi : i < vs.length := (List.getElem?_eq_some_iff.1 hp).1
      have := hf.get hi (hl ▸ hi)
      rw [List.get_eq_getElem, List.get_eq_getElem, (List.getElem?_eq_some_iff.1 hp).2,
        (List.getElem?_eq_some_iff.1 hq).2] at this
      rcases this with ⟨x', y', e1, e2, hle⟩ | ⟨e, -⟩ | ⟨_, e, -⟩
      · injection e1 with e1
        injection e2 with e2
        rw [e1, e2]
        exact hle
      · exact nomatch e
      · exact nomatch e
    · exact absurd rfl hne
  rcases hbad with hb | ⟨hc, hne⟩
  · by_cases hc : Spec.isCoordinate opts.exclude g.vars g'.vars k
    · have h0 := key 0 0 (v3 hc)
      rw [zero_mul, add_zero] at h0
      have hpq : p = q := by
        have := abs_nonpos_iff.1 h0
        linarith
      have hneg : 0 ≤ opts.atol + opts.rtol * |q| := by positivity
      rw [hpq, sub_self, abs_zero] at hb
      linarith
    · exact absurd (key _ _ (v4 hc)) (not_le.2 hb)
  · have h0 := key 0 0 (v3 hc)
    rw [zero_mul, add_zero] at h0
    exact hne (by have := abs_nonpos_iff.1 h0; linarith)

/-- Two files with one variable each, on a grid of 2 points. -/
def ncExample (x : ℚ) (dims : List String) : NcGroup :=
  .mk [("title", .text "t")] [("x", 2)]
    [("x", ⟨["x"], [], "float32", .nums [2] [.fin 0, .fin 1]⟩),
     ("rain", ⟨dims, [("units", .text "mm")], "float32", .nums [2] [.fin x, .nan]⟩)]
    (.cons "sub" (.mk [] [] [] .nil) .nil)

example : Spec.distinct (ncExample 100 ["x"]) := by
  simp [ncExample, Spec.distinct, Spec.distincts, NcGroups.names]

example : compareDatasets ⟨1 / 100, 0, [], []⟩ "" (ncExample 100 ["x"]) (ncExample 101 ["x"]) = [] ∧
    compareDatasets ⟨1 / 1000, 0, [], []⟩ "" (ncExample 100 ["x"]) (ncExample 101 ["x"]) = [.data "/rain"] ∧
    compareDatasets ⟨0, 0, ["rain"], []⟩ "" (ncExample 100 ["x"]) (ncExample 101 ["x"]) = [] := by decide +kernel

/-- C169 finding: agreement is not symmetric, because the tolerance is relative to the second file. -/
theorem C169_symmetry_refuted :
    compareDatasets ⟨1 / 100, 0, [], []⟩ "" (ncExample 199 ["x"]) (ncExample 201 ["x"]) = [] ∧
    compareDatasets ⟨1 / 100, 0, [], []⟩ "" (ncExample 201 ["x"]) (ncExample 199 ["x"]) = [.data "/rain"] := by
  decide +kernel

/-- C169 finding: the dimensions of a variable are not compared, only the shape of its data. -/
theorem C169_dimension_names_refuted (opts : NcOptions) (name : String) (attrs : List (String × NcAttr))
    (dims : List (String × ℕ)) (n : String) (v : NcVar) (other : List String)
    (hr : 0 ≤ opts.rtol) (ht : 0 ≤ opts.atol) (ha : ∀ k x, attrs.lookup k = some x → Spec.nanFree x)
    (hv : ∀ k x, v.attrs.lookup k = some x → Spec.nanFree x) :
    compareDatasets opts name (.mk attrs dims [(n, { v with dims := other })] .nil) (.mk attrs dims [(n, v)] .nil)
      = [] := by
  rw [C169_silent_iff_agree _ _ _ _ (by simp [Spec.distinct, Spec.distincts, NcGroups.names])]
  rw [filesAgree_iff]
  refine ⟨⟨fun k _ => ⟨rfl, ha k⟩, fun k _ => rfl, fun k _ => ?_⟩, fun k => by simp [NcGroup.groups, NcGroups.get]⟩
  simp only [NcGroup.vars, List.lookup_cons, List.lookup_nil]
  by_cases h : (k == n) = true
  · rw [h]
    refine ⟨by simp, fun x y hx hy => ?_⟩
    injection hx with hx
    injection hy with hy
    rw [← hx, ← hy]
    exact ⟨fun k' _ => ⟨rfl, hv k'⟩, rfl, fun _ => dataAgree_refl le_rfl le_rfl _, fun _ => dataAgree_refl hr ht _⟩
  · rw [Bool.not_eq_true] at h
    rw [h]
    refine ⟨by simp, fun x y hx hy => (nomatch hx)⟩

/-- C169 finding: a file with a NaN attribute does not agree with itself. -/
theorem C169_nan_attribute_refuted (opts : NcOptions) (name key type : String) (h : key ∉ opts.ignored) :
    compareDatasets opts name (.mk [(key, .num type .nan)] [] [] .nil) (.mk [(key, .num type .nan)] [] [] .nil) ≠ [] := by
  rw [Ne, C169_silent_iff_agree _ _ _ _ (by simp [Spec.distinct, Spec.distincts, NcGroups.names]), filesAgree_iff]
  rintro ⟨⟨h1, -⟩, -⟩
  have := (h1 key h).2 (.num type .nan) (by simp [NcGroup.attrs])
  exact this rfl

/-- C169 finding: a scalar agrees with an array whose elements all equal it. -/
example : compareDatasets ⟨0, 0, [], []⟩ ""
    (.mk [] [("x", 2)] [("r", ⟨[], [], "f4", .nums [] [.fin 3]⟩)] .nil)
    (.mk [] [("x", 2)] [("r", ⟨["x"], [], "f4", .nums [2] [.fin 3, .fin 3]⟩)] .nil) = [] := by decide +kernel

end Improver
