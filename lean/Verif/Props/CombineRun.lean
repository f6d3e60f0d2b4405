import Verif.Model.CombineRun
import Verif.Props.WholeBlend
import Verif.Props.Combine

/-! C253: `CubeCombiner.process` on cubes with named dimensions. -/

namespace Improver

/-- The place in a cube for a place in a larger one: dimensions of length one are repeated. -/
def shrinkPlace (k : PointCube (Option ℚ)) (a : String → ℕ) (e : String) : ℕ := if (k.points e).length = 1 then 0 else a e

/-- The same dimensions, each of the same length or of length one. -/
def FitsOn (r k : PointCube (Option ℚ)) : Prop := k.dims = r.dims ∧ ∀ e ∈ r.dims, (k.points e).length = (r.points e).length ∨ (k.points e).length = 1

theorem fitIndex_named (k : PointCube (Option ℚ)) (dims : List String) (a : String → ℕ) :
    fitIndex (dims.map fun n => (k.points n).length) (dims.map a) = dims.map (shrinkPlace k a) := by
  unfold fitIndex
  rw [List.length_map, List.length_map, Nat.sub_self, List.drop_zero]
  induction dims with
  | nil => rfl
  | cons x l ih =>
    rw [List.map_cons, List.map_cons, List.zipWith_cons_cons, ih]
    rfl

theorem fitsShape_named (r k : PointCube (Option ℚ)) (dims : List String)
    (h : ∀ e ∈ dims, (k.points e).length = (r.points e).length ∨ (k.points e).length = 1) :
    fitsShape (dims.map fun n => (r.points n).length) (dims.map fun n => (k.points n).length) = true := by
  unfold fitsShape
  rw [List.length_map, List.length_map, Nat.sub_self, List.drop_zero]
  simp only [le_refl, decide_true, Bool.true_and, List.all_eq_true, decide_eq_true_eq]
  intro p hp
  obtain ⟨i, hi, rfl⟩ := List.getElem_of_mem hp
  simp only [List.getElem_zip, List.getElem_map]
  simp only [List.length_zip, List.length_map, min_self] at hi
  exact h _ (List.getElem_mem hi)

/-- What one step of the combination does to the value at a place. -/
def StepAt (op : CombineOp) (f : PointCube (Option ℚ) → Except Err (PointCube (Option ℚ))) (r k : PointCube (Option ℚ)) : Prop :=
  ∃ r', f r = .ok r' ∧ r'.dims = r.dims ∧ r'.points = r.points ∧
    ∀ a, Spec.Inside r r.dims a → Spec.placeValue r'.toDimCube a = op.app (Spec.placeValue r.toDimCube a) (Spec.placeValue k.toDimCube (shrinkPlace k a))

theorem whole_at (op : CombineOp) (r k : PointCube (Option ℚ)) (h : FitsOn r k) : StepAt op (fun r => combineWhole op r k) r k := by
  obtain ⟨hd, hl⟩ := h
  have hshape : k.shape = r.dims.map fun n => (k.points n).length := by unfold PointCube.shape; rw [hd]
  refine ⟨⟨⟨r.dims, fun idx => op.app (r.data idx) (k.data (fitIndex k.shape idx))⟩, r.points⟩, ?_, rfl, rfl, ?_⟩
  · show combineWhole op r k = _
    unfold combineWhole
    rw [if_pos]
    rw [hshape]
    exact fitsShape_named r k r.dims hl
  · intro a _
    unfold Spec.placeValue
    simp only
    rw [hshape, fitIndex_named, hd]

theorem eraseIdx_map_named {β : Type} {l : List String} (d : String) (f : String → β) : (l.map f).eraseIdx (l.idxOf d) = (l.erase d).map f := by
  induction l with
  | nil => rfl
  | cons x l ih =>
    by_cases h : x = d
    · subst h
      rw [List.idxOf_cons_self, List.erase_cons_head]
      rfl
    · rw [List.idxOf_cons_ne _ h, List.erase_cons_tail (by simpa using h), List.map_cons, List.eraseIdx_cons_succ, ih]
      rfl

theorem realization_at (op : CombineOp) (r : PointCube (Option ℚ)) (k : CombineIn) (h : FitsOn r k.toPointCube) (hn : r.dims.Nodup)
    (hr : "realization" ∈ r.dims) (hlen : (k.points "realization").length = (r.points "realization").length) :
    StepAt op (fun r => combineByRealization op r k) r k.toPointCube := by
  obtain ⟨hd, hl⟩ := h
  have hs1 : r.shape.eraseIdx (r.dims.idxOf "realization") = (r.dims.erase "realization").map fun n => (r.points n).length := eraseIdx_map_named _ _
  have hs2 : k.shape.eraseIdx (k.dims.idxOf "realization") = (r.dims.erase "realization").map fun n => (k.points n).length := by
    rw [← hd]; exact eraseIdx_map_named _ _
  unfold StepAt combineByRealization
  simp only
  rw [if_pos (by rw [hd]; exact hr), if_pos (by
    rw [hs1, hs2]
    exact fitsShape_named r k.toPointCube _ fun e he => hl e (List.mem_of_mem_erase he))]
  refine ⟨_, rfl, rfl, rfl, ?_⟩
  intro a ha
  unfold Spec.placeValue
  simp only
  rw [getD_map_idxOf hr, if_pos (by rw [hlen]; exact ha _ hr), hs2, eraseIdx_map_named, fitIndex_named, hd, insertIdx_named hn hr]
  congr 3
  funext e
  unfold Spec.along
  by_cases he : e = "realization"
  · rw [if_pos he, he]
    unfold shrinkPlace
    by_cases h1 : (k.points "realization").length = 1
    · rw [if_pos h1]
      have := ha _ hr
      omega
    · rw [if_neg h1]
  · rw [if_neg he]

theorem fold_at (op : CombineOp) (f : PointCube (Option ℚ) → CombineIn → Except Err (PointCube (Option ℚ))) (rest : List CombineIn)
    (r : PointCube (Option ℚ)) (h : ∀ k ∈ rest, ∀ r' : PointCube (Option ℚ), r'.dims = r.dims → r'.points = r.points → StepAt op (fun r => f r k) r' k.toPointCube) :
    ∃ r', rest.foldlM f r = .ok r' ∧ r'.dims = r.dims ∧ r'.points = r.points ∧
      ∀ a, Spec.Inside r r.dims a → Spec.placeValue r'.toDimCube a =
        (rest.map fun k => Spec.placeValue k.toDimCube (shrinkPlace k.toPointCube a)).foldl op.app (Spec.placeValue r.toDimCube a) := by
  induction rest generalizing r with
  | nil => exact ⟨r, rfl, rfl, rfl, fun _ _ => rfl⟩
  | cons k rest ih =>
    obtain ⟨r1, h1, h2, h3, h4⟩ := h k (by simp) r rfl rfl
    obtain ⟨r2, g1, g2, g3, g4⟩ := ih r1 (fun k' hk' r' hd hp => h k' (by simp [hk']) r' (hd.trans h2) (hp.trans h3))
    refine ⟨r2, ?_, g2.trans h2, g3.trans h3, ?_⟩
    · rw [List.foldlM_cons]
      show (f r k >>= _) = _
      simp only at h1
      rw [h1]
      exact g1
    · intro a ha
      have ha' : Spec.Inside r1 r1.dims a := by
        intro e he
        rw [h3]
        exact ha e (h2 ▸ he)
      rw [g4 a ha', h4 a ha, List.map_cons, List.foldl_cons]

namespace Spec

/-- A cube that can be combined with the first one: it has the same dimensions in the same order, or, if there is a coordinate to broadcast along, all
others in any order, and in either case the same points. -/
def Combinable (b : Option String) (first c : CombineIn) : Prop :=
  (c.dims = first.dims ∨ ∃ t, b = some t ∧ t ∉ c.dims ∧ t ∉ c.scalars.map Prod.fst ∧ c.dims.Perm (first.dims.erase t)) ∧
    ∀ e ∈ c.dims, c.points e = first.points e

/-- Realizations, if taken one by one, are at least two and in ascending order. -/
def RealizationsAscend (b : Option String) (first : CombineIn) : Prop :=
  "realization" ∈ first.dims → b ≠ some "realization" →
    2 ≤ (first.points "realization").length ∧ (first.points "realization").Pairwise (· < ·)

end Spec

theorem inside_shrink (k : PointCube (Option ℚ)) (first : PointCube (Option ℚ)) (l : List String) (hsub : ∀ e ∈ l, e ∈ first.dims)
    (hp : ∀ e ∈ l, (k.points e).length = (first.points e).length) (a : String → ℕ) (ha : Spec.Inside first first.dims a) :
    l.map (shrinkPlace k a) = l.map a := by
  apply List.map_congr_left
  intro e he
  unfold shrinkPlace
  by_cases h : (k.points e).length = 1
  · rw [if_pos h]
    have := ha e (hsub e he)
    rw [← hp e he] at this
    omega
  · rw [if_neg h]

/-- One cube made ready. -/
theorem broadcastOne_at (t : String) (first c : CombineIn) (hn : first.dims.Nodup) (hth : "threshold" ∉ first.dims) (ht : t ∈ first.dims)
    (hc : Spec.Combinable (some t) first c) :
    ∃ k, broadcastOne t first.dims c = .ok k ∧ FitsOn first.toPointCube k.toPointCube ∧ k.name = c.name ∧ k.scalars = c.scalars ∧ k.methods = c.methods ∧
      (∀ e ∈ first.dims, e ≠ t → k.points e = first.points e) ∧ ((k.points t).length = 1 ∨ k.points t = first.points t) ∧
      (c.dims = first.dims → k = c) ∧
      ∀ a, Spec.Inside first.toPointCube first.dims a → Spec.placeValue k.toDimCube (shrinkPlace k.toPointCube a) = Spec.placeValue c.toDimCube a := by
  obtain ⟨hd, hp⟩ := hc
  by_cases hsame : c.dims = first.dims
  · refine ⟨c, ?_, ⟨hsame, fun e he => Or.inl (by rw [hp e (hsame ▸ he)])⟩, rfl, rfl, rfl, fun e he _ => hp e (hsame ▸ he),
      Or.inr (hp t (hsame ▸ ht)), fun _ => rfl, ?_⟩
    · unfold broadcastOne
      rw [if_pos (hsame ▸ ht)]
    · intro a ha
      unfold Spec.placeValue
      rw [inside_shrink c.toPointCube first.toPointCube c.dims (fun e he => hsame ▸ he) (fun e he => by rw [hp e he]) a ha]
  · obtain ⟨t', hb, htc, hts, hperm⟩ := hd.resolve_left hsame
    cases hb
    have hperm' : (t :: c.dims).Perm first.dims := (hperm.cons t).trans (List.perm_cons_erase ht).symm
    obtain ⟨k, hk1, hk2, hk3, hk4⟩ := reorder_all (⟨⟨t :: c.dims, fun idx => c.data idx.tail⟩, fun n => if n = t then [0] else c.points n⟩ : PointCube (Option ℚ))
      (hperm'.nodup_iff.2 hn) first.dims hperm' hth
    have hkt : k.points t = [0] := by rw [hk3]; exact if_pos rfl
    have hkp : ∀ e ∈ first.dims, e ≠ t → k.points e = first.points e := by
      intro e he hne
      rw [hk3]
      have hec : e ∈ c.dims := by
        rcases List.mem_cons.1 (hperm'.mem_iff.2 he) with h | h
        · exact absurd h hne
        · exact h
      exact (if_neg hne).trans (hp e hec)
    refine ⟨{ c with toPointCube := k }, ?_, ⟨hk2, ?_⟩, rfl, rfl, rfl, hkp, Or.inl (by show (k.points t).length = 1; rw [hkt]; rfl), ?_, ?_⟩
    · unfold broadcastOne
      rw [if_neg htc, if_neg hts, hk1]
      rfl
    · intro e he
      by_cases hne : e = t
      · right
        show (k.points e).length = 1
        rw [hne, hkt]
        rfl
      · left
        show (k.points e).length = _
        rw [hkp e he hne]
    · intro h
      exact absurd h hsame
    · intro a ha
      show Spec.placeValue k.toDimCube (shrinkPlace k a) = _
      rw [hk4]
      unfold Spec.placeValue
      simp only [List.map_cons, List.tail_cons]
      rw [inside_shrink k first.toPointCube c.dims (fun e he => hperm'.mem_iff.1 (List.mem_cons_of_mem _ he)) (fun e he => by
        rw [hkp e (hperm'.mem_iff.1 (List.mem_cons_of_mem _ he)) (fun h => htc (h ▸ he))]) a ha]

theorem combineCubes_at (op : CombineOp) (b : Option String) (first : CombineIn) (rest : List CombineIn) (hn : first.dims.Nodup)
    (hth : "threshold" ∉ first.dims) (hasc : Spec.RealizationsAscend b first) (hfit : ∀ k ∈ rest, FitsOn first.toPointCube k.toPointCube)
    (hreal : "realization" ∈ first.dims → b ≠ some "realization" → ∀ k ∈ rest, (k.points "realization").length = (first.points "realization").length) :
    ∃ r, combineCubes op b first rest = .ok r ∧ r.dims = first.dims ∧ (∀ e ∈ first.dims, r.points e = first.points e) ∧
      ∀ a, Spec.Inside first.toPointCube first.dims a → Spec.placeValue r.toDimCube a =
        combineData op (Spec.placeValue first.toDimCube a) (rest.map fun k => Spec.placeValue k.toDimCube (shrinkPlace k.toPointCube a)) := by
  have hstep : ∃ r, foldCubes op b first rest = .ok r ∧ r.dims = first.dims ∧
      (∀ e ∈ first.dims, r.points e = first.points e) ∧
      ∀ a, Spec.Inside first.toPointCube first.dims a → Spec.placeValue r.toDimCube a =
        (rest.map fun k => Spec.placeValue k.toDimCube (shrinkPlace k.toPointCube a)).foldl op.app (Spec.placeValue first.toDimCube a) := by
    unfold foldCubes
    by_cases hc : "realization" ∈ first.dims ∧ b ≠ some "realization"
    · rw [if_pos hc]
      obtain ⟨r, h1, h2, h3, h4⟩ := fold_at op (combineByRealization op) rest first.toPointCube (by
        intro k hk r' hd hp
        obtain ⟨f1, f2⟩ := hfit k hk
        refine realization_at op r' k ⟨f1.trans hd.symm, fun e he => ?_⟩ (hd ▸ hn) (hd ▸ hc.1) ?_
        · rw [hp]; exact f2 e (hd ▸ he)
        · rw [hp]; exact hreal hc.1 hc.2 k hk)
      rw [h1]
      simp only [bind, Except.bind]
      obtain ⟨a1, a2⟩ := hasc hc.1 hc.2
      have hrr : r.points "realization" = first.points "realization" := by rw [h3]
      unfold mergeRealizations mergeAlong
      rw [hrr, if_neg (by omega), if_neg (by omega), List.take_length, argsort_ascending _ a2]
      simp only [bind, Except.bind]
      have hnr : (r.takeAlong "realization" (List.range (first.points "realization").length)).dims.Nodup := by
        show r.dims.Nodup
        rw [h2]; exact hn
      obtain ⟨q, q1, q2, q3, q4⟩ := reorder_all (r.takeAlong "realization" (List.range (first.points "realization").length)) hnr first.dims
        (by show r.dims.Perm first.dims; rw [h2]) hth
      refine ⟨q, q1, q2, ?_, ?_⟩
      · intro e he
        rw [q3]
        show (if e = "realization" then _ else _) = _
        by_cases h : e = "realization"
        · rw [if_pos h, h, hrr]
          exact map_getD_range _ _
        · rw [if_neg h, h3]
      · intro a ha
        rw [q4, takeAlong_at r (h2 ▸ hn) (h2 ▸ hc.1)]
        have hlt := ha _ hc.1
        rw [List.getD_eq_getElem _ _ (by simpa using hlt), List.getElem_range, along_same]
        exact h4 a ha
    · rw [if_neg hc]
      obtain ⟨r, h1, h2, h3, h4⟩ := fold_at op (fun r c => combineWhole op r c.toPointCube) rest first.toPointCube (by
        intro k hk r' hd hp
        obtain ⟨f1, f2⟩ := hfit k hk
        exact whole_at op r' k.toPointCube ⟨f1.trans hd.symm, fun e he => by rw [hp]; exact f2 e (hd ▸ he)⟩)
      exact ⟨r, h1, h2, fun e _ => by rw [h3], h4⟩
  obtain ⟨r, h1, h2, h3, h4⟩ := hstep
  unfold combineCubes
  rw [h1]
  simp only [bind, Except.bind]
  by_cases hm : op = .mean
  · rw [if_pos hm]
    refine ⟨_, rfl, h2, h3, ?_⟩
    intro a ha
    unfold combineData
    simp only
    rw [if_pos hm, ← h4 a ha, List.length_map]
    rfl
  · rw [if_neg hm]
    refine ⟨_, rfl, h2, h3, ?_⟩
    intro a ha
    unfold combineData
    simp only
    rw [if_neg hm, h4 a ha]

namespace Spec

/-- The scalar coordinate of a name must be expanded: all cubes have it, and they do not all agree. -/
def Differs (cubes : List CombineIn) (n : String) : Prop :=
  (∀ c ∈ cubes, ∃ s, c.scalars.lookup n = some s) ∧ ∃ c ∈ cubes, ∃ k ∈ cubes, c.scalars.lookup n ≠ k.scalars.lookup n

/-- The cell method for an operation. -/
def methodOf (operation : String) : Option String := [("max", "maximum"), ("min", "minimum"), ("mean", "mean")].lookup operation

end Spec

theorem isExpanded_iff (first : CombineIn) (rest : List CombineIn) (n : String) : isExpanded first rest n = true ↔ Spec.Differs (first :: rest) n := by
  unfold isExpanded Spec.Differs scalarOf
  simp only [Bool.and_eq_true, List.all_eq_true, List.any_eq_true, decide_eq_true_eq, Option.isSome_iff_exists]
  refine and_congr_right fun _ => ?_
  constructor
  · rintro ⟨c, hc, hne⟩
    exact ⟨c, by simp [hc], first, by simp, hne⟩
  · rintro ⟨c, hc, k, hk, hne⟩
    by_cases h : c.scalars.lookup n = first.scalars.lookup n
    · rcases List.mem_cons.1 hk with rfl | hk
      · exact absurd h hne
      · exact ⟨k, hk, fun e => hne (h.trans e.symm)⟩
    · rcases List.mem_cons.1 hc with rfl | hc
      · exact absurd rfl h
      · exact ⟨c, hc, h⟩

theorem addCellMethod_iff (p : Combiner) (methods out : List (String × String)) : addCellMethod p methods = .ok out ↔
    (p.methodCoord = none ∧ out = methods) ∨ ∃ c m, p.methodCoord = some c ∧ Spec.methodOf p.operation = some m ∧ out = methods ++ [(m, c)] := by
  unfold addCellMethod
  cases p.methodCoord with
  | none => simp [eq_comm]
  | some c =>
    simp only
    unfold Spec.methodOf
    by_cases h1 : p.operation = "max"
    · rw [if_pos h1, h1]
      simp [List.lookup, eq_comm]
    rw [if_neg h1]
    by_cases h2 : p.operation = "min"
    · rw [if_pos h2, h2]
      simp [List.lookup, eq_comm]
    rw [if_neg h2]
    by_cases h3 : p.operation = "mean"
    · rw [if_pos h3, h3]
      simp [List.lookup, eq_comm]
    rw [if_neg h3]
    simp only [List.lookup, beq_eq_false_iff_ne.2 h1, beq_eq_false_iff_ne.2 h2, beq_eq_false_iff_ne.2 h3]
    simp

namespace Spec

/-- A coordinate whose bounds are the smallest interval containing those of all the given ones (or their points, if none has bounds), and whose point
is the end of the interval. -/
def Expanded (coords : List (SCoord ℚ)) (s : SCoord ℚ) : Prop :=
  ∃ lo hi, s = ⟨hi, some (lo, hi)⟩ ∧
    (((∀ c ∈ coords, c.bounds ≠ none) ∧ IsHull (coords.flatMap fun c => (c.bounds.map fun b => [b.1, b.2]).getD []) lo hi) ∨
      ((∀ c ∈ coords, c.bounds = none) ∧ IsHull (coords.map SCoord.point) lo hi))

end Spec

theorem ends_eq : (SCoord.ends : SCoord ℚ → List ℚ) = fun c => (c.bounds.map fun b => [b.1, b.2]).getD [] := by
  funext c
  unfold SCoord.ends
  cases c.bounds <;> rfl

theorem expandBounds_iff (coords : List (SCoord ℚ)) (hne : coords ≠ []) (s : SCoord ℚ) : expandBounds coords = .ok s ↔ Spec.Expanded coords s := by
  have key : ∀ vals : List ℚ, boundVals coords = .ok vals → vals ≠ [] →
      (expandBounds coords = .ok s ↔ ∃ lo hi, s = ⟨hi, some (lo, hi)⟩ ∧ Spec.IsHull vals lo hi) := by
    intro vals hv hvne
    obtain ⟨lo, hi, h1, h2⟩ := expand_of_vals coords vals hv hvne
    rw [h1]
    constructor
    · intro h
      cases h
      exact ⟨lo, hi, rfl, h2⟩
    · rintro ⟨lo', hi', rfl, h3⟩
      obtain ⟨rfl, rfl⟩ := isHull_unique h2 h3
      rfl
  obtain ⟨x, l, rfl⟩ : ∃ x l, coords = x :: l := by
    cases coords with
    | nil => exact absurd rfl hne
    | cons x l => exact ⟨x, l, rfl⟩
  by_cases h1 : ∀ c ∈ x :: l, c.bounds ≠ none
  · have hv : boundVals (x :: l) = .ok ((x :: l).flatMap SCoord.ends) := by
      unfold boundVals
      rw [if_neg]
      rw [Bool.not_eq_true, List.any_eq_false]
      intro c hc h
      exact h1 c hc (Option.isNone_iff_eq_none.1 h)
    have hx : ∃ b, x.bounds = some b := Option.ne_none_iff_exists'.1 (h1 x (by simp))
    obtain ⟨b, hb⟩ := hx
    rw [key _ hv (by rw [List.flatMap_cons]; unfold SCoord.ends; rw [hb]; simp), ends_eq]
    unfold Spec.Expanded
    refine exists_congr fun lo => exists_congr fun hi => and_congr_right fun _ => ?_
    constructor
    · intro h; exact Or.inl ⟨h1, h⟩
    · rintro (h | h)
      · exact h.2
      · exact absurd (h.1 x (by simp)) (h1 x (by simp))
  by_cases h2 : ∀ c ∈ x :: l, c.bounds = none
  · have hv : boundVals (x :: l) = .ok ((x :: l).map SCoord.point) := by
      unfold boundVals
      rw [if_pos, if_neg]
      · rw [not_not, List.all_eq_true]
        intro c hc
        rw [h2 c hc]; rfl
      · rw [List.any_eq_true]
        exact ⟨x, by simp, by rw [h2 x (by simp)]; rfl⟩
    rw [key _ hv (by simp)]
    unfold Spec.Expanded
    refine exists_congr fun lo => exists_congr fun hi => and_congr_right fun _ => ?_
    constructor
    · intro h; exact Or.inr ⟨h2, h⟩
    · rintro (h | h)
      · exact absurd (h2 x (by simp)) (h.1 x (by simp))
      · exact h.2
  · push Not at h1 h2
    have := (C50_mixture (x :: l) (by simp)).2 ⟨h1, h2⟩
    rw [this]
    constructor
    · intro h; exact nomatch h
    · rintro ⟨lo, hi, _, (h | h)⟩
      · obtain ⟨c, hc, hb⟩ := h1
        exact absurd hb (h.1 c hc)
      · obtain ⟨c, hc, hb⟩ := h2
        exact absurd (h.1 c hc) hb

namespace Spec

/-- The scalar coordinate of the result in place of one of the first cube. -/
def ScalarOut (expand : Bool) (cubes : List CombineIn) (p q : String × SCoord ℚ) : Prop :=
  q.1 = p.1 ∧ ((expand = true ∧ Differs cubes p.1 ∧ Expanded (cubes.filterMap fun c => c.scalars.lookup p.1) q.2) ∨
    ((expand = false ∨ ¬ Differs cubes p.1) ∧ q.2 = p.2))

/-- Name, scalar coordinates and cell methods of the result. -/
def CombineMeta (p : Combiner) (first : CombineIn) (rest : List CombineIn) (new : String) (out : CombineOut) : Prop :=
  if p.op = .multiply then out.name = none ∧ out.scalars = first.scalars ∧ out.methods = first.methods
  else out.name = some new ∧ List.Forall₂ (ScalarOut p.expandBound (first :: rest)) first.scalars out.scalars ∧
    ((p.methodCoord = none ∧ out.methods = first.methods) ∨
      ∃ c m, p.methodCoord = some c ∧ methodOf p.operation = some m ∧ out.methods = first.methods ++ [(m, c)])

end Spec

theorem expandScalar_iff (first : CombineIn) (rest : List CombineIn) (p q : String × SCoord ℚ) :
    expandScalar first rest p = .ok q ↔ Spec.ScalarOut true (first :: rest) p q := by
  unfold expandScalar Spec.ScalarOut
  by_cases h : isExpanded first rest p.1 = true
  · rw [if_pos h]
    have hd := (isExpanded_iff first rest p.1).1 h
    obtain ⟨s0, hs0⟩ := hd.1 first (by simp)
    have hne : (first :: rest).filterMap (fun c => scalarOf c p.1) ≠ [] := by
      rw [List.filterMap_cons]
      unfold scalarOf
      rw [hs0]
      simp
    constructor
    · intro he
      cases hx : expandBounds ((first :: rest).filterMap fun c => scalarOf c p.1) with
      | error e => rw [hx] at he; exact nomatch he
      | ok s =>
        rw [hx] at he
        cases he
        exact ⟨rfl, Or.inl ⟨rfl, hd, (expandBounds_iff _ hne s).1 hx⟩⟩
    · rintro ⟨h1, h2⟩
      rcases h2 with h2 | h2
      · have := (expandBounds_iff _ hne q.2).2 h2.2.2
        rw [this]
        show Except.ok (p.1, q.2) = _
        rw [← h1]
      · rcases h2.1 with h3 | h3
        · exact nomatch h3
        · exact absurd hd h3
  · rw [if_neg h]
    have hd : ¬ Spec.Differs (first :: rest) p.1 := fun e => h ((isExpanded_iff first rest p.1).2 e)
    constructor
    · intro he
      cases he
      exact ⟨rfl, Or.inr ⟨Or.inr hd, rfl⟩⟩
    · rintro ⟨h1, h2⟩
      rcases h2 with h2 | h2
      · exact absurd h2.2.1 hd
      · rw [show p = q from Prod.ext h1.symm h2.2.symm]

theorem mapM_iff_forall₂ {α β : Type} (f : α → Except Err β) (R : α → β → Prop) (h : ∀ a b, f a = .ok b ↔ R a b) (l : List α) (m : List β) :
    l.mapM f = .ok m ↔ List.Forall₂ R l m := by
  induction l generalizing m with
  | nil =>
    rw [List.mapM_nil]
    constructor
    · intro e; cases e; exact .nil
    · intro e; cases e; rfl
  | cons a l ih =>
    rw [List.mapM_cons]
    simp only [bind, Except.bind, pure, Except.pure]
    constructor
    · intro e
      cases ha : f a with
      | error x => rw [ha] at e; exact nomatch e
      | ok b =>
        rw [ha] at e
        simp only at e
        cases hl : l.mapM f with
        | error x => rw [hl] at e; exact nomatch e
        | ok bs =>
          rw [hl] at e
          cases e
          exact .cons ((h a b).1 ha) ((ih bs).1 hl)
    · intro e
      cases e with
      | cons h1 h2 =>
        rw [(h _ _).2 h1]
        simp only
        rw [(ih _).2 h2]

theorem finish_iff (p : Combiner) (first : CombineIn) (rest : List CombineIn) (new : String) (r : PointCube (Option ℚ)) (out : CombineOut) :
    finishCombine p first rest new r = .ok out ↔ out.toPointCube = r ∧ Spec.CombineMeta p first rest new out := by
  unfold finishCombine Spec.CombineMeta
  by_cases hm : p.op = .multiply
  · rw [if_pos hm, if_pos hm]
    constructor
    · intro h; cases h; exact ⟨rfl, rfl, rfl, rfl⟩
    · rintro ⟨rfl, h1, h2, h3⟩
      rw [← h1, ← h2, ← h3]
  · rw [if_neg hm, if_neg hm]
    have hs : ∀ s, expandScalars p first rest = .ok s ↔ List.Forall₂ (Spec.ScalarOut p.expandBound (first :: rest)) first.scalars s := by
      intro s
      unfold expandScalars
      cases he : p.expandBound with
      | true =>
        rw [if_pos rfl]
        exact mapM_iff_forall₂ _ _ (expandScalar_iff first rest) _ _
      | false =>
        rw [if_neg (by simp)]
        have : (Spec.ScalarOut false (first :: rest)) = fun p q => p = q := by
          funext a b
          apply propext
          unfold Spec.ScalarOut
          constructor
          · rintro ⟨h1, h2⟩
            rcases h2 with h2 | h2
            · exact nomatch h2.1
            · exact Prod.ext h1.symm h2.2.symm
          · rintro rfl
            exact ⟨rfl, Or.inr ⟨Or.inl rfl, rfl⟩⟩
        rw [this, List.forall₂_eq_eq_eq]
        exact ⟨fun h => by cases h; rfl, fun h => by rw [h]⟩
    simp only [bind, Except.bind]
    constructor
    · intro h
      cases h1 : expandScalars p first rest with
      | error e => rw [h1] at h; exact nomatch h
      | ok s =>
        rw [h1] at h
        simp only at h
        cases h2 : addCellMethod p first.methods with
        | error e => rw [h2] at h; exact nomatch h
        | ok m =>
          rw [h2] at h
          cases h
          exact ⟨rfl, rfl, (hs s).1 h1, (addCellMethod_iff p _ _).1 h2⟩
    · rintro ⟨rfl, h1, h2, h3⟩
      rw [(hs _).2 h2]
      simp only
      rw [(addCellMethod_iff p _ _).2 h3]
      simp only
      rw [← h1]

theorem differs_congr (A B : List CombineIn) (h : A.map CombineIn.scalars = B.map CombineIn.scalars) (n : String) (hd : Spec.Differs A n) :
    Spec.Differs B n := by
  have key : ∀ b ∈ B, ∃ a ∈ A, a.scalars = b.scalars := fun b hb => by
    have : b.scalars ∈ A.map CombineIn.scalars := by rw [h]; exact List.mem_map_of_mem hb
    obtain ⟨a, ha, e⟩ := List.mem_map.1 this
    exact ⟨a, ha, e⟩
  have key' : ∀ a ∈ A, ∃ b ∈ B, b.scalars = a.scalars := fun b hb => by
    have : b.scalars ∈ B.map CombineIn.scalars := by rw [← h]; exact List.mem_map_of_mem hb
    obtain ⟨a, ha, e⟩ := List.mem_map.1 this
    exact ⟨a, ha, e⟩
  obtain ⟨h1, c, hc, k, hk, hne⟩ := hd
  refine ⟨fun b hb => ?_, ?_⟩
  · obtain ⟨a, ha, e⟩ := key b hb
    rw [← e]
    exact h1 a ha
  · obtain ⟨c', hc', e1⟩ := key' c hc
    obtain ⟨k', hk', e2⟩ := key' k hk
    exact ⟨c', hc', k', hk', by rw [e1, e2]; exact hne⟩

theorem scalarOut_congr (e : Bool) (A B : List CombineIn) (h : A.map CombineIn.scalars = B.map CombineIn.scalars) : Spec.ScalarOut e A = Spec.ScalarOut e B := by
  funext p q
  have hd : Spec.Differs A p.1 ↔ Spec.Differs B p.1 := ⟨differs_congr A B h p.1, differs_congr B A h.symm p.1⟩
  have hf : A.filterMap (fun c => c.scalars.lookup p.1) = B.filterMap fun c => c.scalars.lookup p.1 := by
    have : ∀ L : List CombineIn, L.filterMap (fun c => c.scalars.lookup p.1) = (L.map CombineIn.scalars).filterMap fun s => s.lookup p.1 := by
      intro L; rw [List.filterMap_map]; rfl
    rw [this, this, h]
  unfold Spec.ScalarOut
  rw [hf]
  exact propext (and_congr_right fun _ => or_congr (and_congr_right fun _ => and_congr hd Iff.rfl) (and_congr (or_congr Iff.rfl (not_congr hd)) Iff.rfl))

theorem combineMeta_congr (p : Combiner) (first : CombineIn) (A B : List CombineIn) (h : A.map CombineIn.scalars = B.map CombineIn.scalars) (new : String)
    (out : CombineOut) : Spec.CombineMeta p first A new out ↔ Spec.CombineMeta p first B new out := by
  unfold Spec.CombineMeta
  rw [scalarOut_congr p.expandBound (first :: A) (first :: B) (by rw [List.map_cons, List.map_cons, h])]

namespace Spec

/-- The dimension to broadcast along: none, the one named, or for "threshold" the threshold dimension of the first cube. -/
def BroadcastAlong (asked : Option String) (first : CombineIn) (b : Option String) : Prop :=
  (asked = none ∧ b = none) ∨ ∃ n t, asked = some n ∧ b = some t ∧ t ∈ first.dims ∧ if n = "threshold" then first.threshold = some t else t = n

end Spec

theorem broadcastOne_self (t : String) (c : CombineIn) (dims : List String) (h : t ∈ c.dims) : broadcastOne t dims c = .ok c := by
  unfold broadcastOne
  rw [if_pos h]

/-- What preparation gives. -/
theorem prepare_at (asked b : Option String) (first : CombineIn) (cs : List CombineIn) (hb : Spec.BroadcastAlong asked first b) (hn : first.dims.Nodup)
    (hth : "threshold" ∉ first.dims) (hc : ∀ c ∈ cs, Spec.Combinable b first c) :
    ∃ ks, prepareCombine asked first (first :: cs) = .ok (b, first :: ks) ∧ List.Forall₂ (fun c k => FitsOn first.toPointCube k.toPointCube ∧
      k.scalars = c.scalars ∧ (∀ e ∈ first.dims, k.points e = first.points e ∨ b = some e ∧ (k.points e).length = 1) ∧
      ∀ a, Spec.Inside first.toPointCube first.dims a → Spec.placeValue k.toDimCube (shrinkPlace k.toPointCube a) = Spec.placeValue c.toDimCube a) cs ks := by
  rcases hb with ⟨rfl, rfl⟩ | ⟨n, t, rfl, rfl, ht, hnt⟩
  · refine ⟨cs, rfl, ?_⟩
    rw [List.forall₂_same]
    intro c hcm
    obtain ⟨hd, hp⟩ := hc c hcm
    have hsame : c.dims = first.dims := hd.resolve_right (by rintro ⟨t, h, _⟩; exact nomatch h)
    refine ⟨⟨hsame, fun e he => Or.inl (by rw [hp e (hsame ▸ he)])⟩, rfl, fun e he => Or.inl (hp e (hsame ▸ he)), ?_⟩
    intro a ha
    unfold Spec.placeValue
    rw [inside_shrink c.toPointCube first.toPointCube c.dims (fun e he => hsame ▸ he) (fun e he => by rw [hp e he]) a ha]
  · have hname : broadcastName n first = .ok t := by
      unfold broadcastName
      by_cases h : n = "threshold"
      · rw [if_pos h] at hnt ⊢
        rw [hnt]
      · rw [if_neg h] at hnt ⊢
        rw [hnt]
    have hall : ∃ ks, cs.mapM (broadcastOne t first.dims) = .ok ks ∧ List.Forall₂ (fun c k => FitsOn first.toPointCube k.toPointCube ∧
        k.scalars = c.scalars ∧ (∀ e ∈ first.dims, k.points e = first.points e ∨ some t = some e ∧ (k.points e).length = 1) ∧
        ∀ a, Spec.Inside first.toPointCube first.dims a → Spec.placeValue k.toDimCube (shrinkPlace k.toPointCube a) = Spec.placeValue c.toDimCube a) cs ks := by
      clear hname hnt
      induction cs with
      | nil => exact ⟨[], rfl, .nil⟩
      | cons c cs ih =>
        obtain ⟨ks, h1, h2⟩ := ih fun c' hc' => hc c' (by simp [hc'])
        obtain ⟨k, k1, k2, k3, k4, k5, k6, k7, k8, k9⟩ := broadcastOne_at t first c hn hth ht (hc c (by simp))
        refine ⟨k :: ks, ?_, .cons ⟨k2, k4, ?_, k9⟩ h2⟩
        · rw [List.mapM_cons, k1, h1]
          rfl
        · intro e he
          by_cases h : e = t
          · subst h
            rcases k7 with h | h
            · exact Or.inr ⟨rfl, h⟩
            · exact Or.inl h
          · exact Or.inl (k6 e he h)
    obtain ⟨ks, h1, h2⟩ := hall
    refine ⟨ks, ?_, h2⟩
    unfold prepareCombine setupBroadcast
    simp only
    rw [hname]
    simp only [bind, Except.bind]
    rw [if_pos (Or.inl ht), List.mapM_cons, broadcastOne_self t first _ ht, h1]
    rfl

/-- The result of combining cubes: at every place the values there combined in the order of the cubes, with the coordinates of the first cube; whether a
cube has the dimension to broadcast along or not, and in which order its dimensions are, makes no difference.  The run succeeds exactly with the metadata
of the specification, and the plugin keeps the name of the dimension. -/
theorem C253_result (p : Combiner) (first : CombineIn) (cs : List CombineIn) (new : String) (b : Option String) (hcs : cs ≠ [])
    (hn : first.dims.Nodup) (hth : "threshold" ∉ first.dims) (hb : Spec.BroadcastAlong p.broadcast first b) (hc : ∀ c ∈ cs, Spec.Combinable b first c)
    (hasc : Spec.RealizationsAscend b first) :
    ∃ r : PointCube (Option ℚ), r.dims = first.dims ∧ (∀ e ∈ first.dims, r.points e = first.points e) ∧
      (∀ a, Spec.Inside first.toPointCube first.dims a →
        combinePoint p.op ((first :: cs).map fun c => Spec.placeValue c.toDimCube a) = .ok (Spec.placeValue r.toDimCube a)) ∧
      ∀ out p', p.process (first :: cs) new = .ok (out, p') ↔
        out.toPointCube = r ∧ Spec.CombineMeta p first cs new out ∧ p' = { p with broadcast := b } := by
  obtain ⟨ks, h1, h2⟩ := prepare_at p.broadcast b first cs hb hn hth hc
  have hks : ∀ k ∈ ks, ∃ c ∈ cs, FitsOn first.toPointCube k.toPointCube ∧
      (∀ e ∈ first.dims, k.points e = first.points e ∨ b = some e ∧ (k.points e).length = 1) := by
    intro k hk
    obtain ⟨i, hi, rfl⟩ := List.getElem_of_mem hk
    have hi' : i < cs.length := h2.length_eq ▸ hi
    have hr := (List.forall₂_iff_get.1 h2).2 i hi' hi
    simp only [List.get_eq_getElem] at hr
    exact ⟨cs[i], List.getElem_mem _, hr.1, hr.2.2.1⟩
  obtain ⟨r, r1, r2, r3, r4⟩ := combineCubes_at p.op b first ks hn hth hasc (fun k hk => (hks k hk).choose_spec.2.1) (by
    intro hr hbr k hk
    obtain ⟨c, _, _, h⟩ := hks k hk
    rcases h _ hr with h | h
    · rw [h]
    · exact absurd h.1 hbr)
  have hdims : checkDims b.isSome first ks = .ok () := by
    unfold checkDims
    rw [if_pos]
    rw [List.all_eq_true]
    intro k hk
    obtain ⟨c, _, hf, hp⟩ := hks k hk
    unfold dimsMatch
    rw [List.all_eq_true, hf.1]
    intro q hq
    obtain ⟨e, he, rfl⟩ : ∃ e ∈ first.dims, q = (e, e) := by
      obtain ⟨i, hi, rfl⟩ := List.getElem_of_mem hq
      refine ⟨first.dims[i]'(by simpa using hi), List.getElem_mem _, ?_⟩
      rw [List.getElem_zip]
    rcases hp e he with h | ⟨h, h'⟩
    · simp [h]
    · simp [h, h']
  have hscal : ks.map CombineIn.scalars = cs.map CombineIn.scalars := by
    clear hks r4 r1 hdims h1 hc hcs
    induction h2 with
    | nil => rfl
    | cons h _ ih => rw [List.map_cons, List.map_cons, ih, h.2.1]
  have hvals : ∀ a, Spec.Inside first.toPointCube first.dims a →
      (ks.map fun k => Spec.placeValue k.toDimCube (shrinkPlace k.toPointCube a)) = cs.map fun c => Spec.placeValue c.toDimCube a := by
    intro a ha
    clear hks r4 r1 hdims h1 hc hcs hscal
    induction h2 with
    | nil => rfl
    | cons h _ ih => rw [List.map_cons, List.map_cons, ih, h.2.2.2 a ha]
  obtain ⟨c, l, rfl⟩ : ∃ c l, cs = c :: l := by
    cases cs with
    | nil => exact absurd rfl hcs
    | cons c l => exact ⟨c, l, rfl⟩
  refine ⟨r, r2, r3, fun a ha => by rw [r4 a ha, hvals a ha]; rfl, ?_⟩
  intro out p'
  unfold Combiner.process
  simp only
  rw [h1]
  simp only [bind, Except.bind]
  unfold combinePrepared
  simp only
  rw [hdims]
  simp only [bind, Except.bind]
  rw [r1]
  simp only
  constructor
  · intro h
    cases hf : finishCombine p first ks new r with
    | error e => rw [hf] at h; exact nomatch h
    | ok o =>
      rw [hf] at h
      cases h
      obtain ⟨f1, f2⟩ := (finish_iff _ _ _ _ _ _).1 hf
      exact ⟨f1, (combineMeta_congr p first _ _ hscal new _).1 f2, rfl⟩
  · rintro ⟨f1, f2, rfl⟩
    rw [(finish_iff p first ks new r out).2 ⟨f1, (combineMeta_congr p first _ _ hscal new _).2 f2⟩]

/-- What is refused: fewer than two cubes; a dimension to broadcast along that the first cube does not have; a further cube with a scalar coordinate of
that name; dimensions or points that do not agree; a cell method for another operation than maximum, minimum and mean. -/
theorem C253_refused (p : Combiner) (cubes : List CombineIn) (new : String) :
    (cubes.length < 2 → p.process cubes new = .error .valueError) ∧
    (∀ first c l n, cubes = first :: c :: l → p.broadcast = some n → n ≠ "threshold" → n ∉ first.dims → n ∉ first.scalars.map Prod.fst →
      p.process cubes new = .error .coordinateNotFound) ∧
    (∀ first c l, cubes = first :: c :: l → p.broadcast = some "threshold" → first.threshold = none → p.process cubes new = .error .coordinateNotFound) ∧
    (∀ first c l n, cubes = first :: c :: l → p.broadcast = some n → n ≠ "threshold" → n ∈ first.dims → n ∉ c.dims → n ∈ c.scalars.map Prod.fst →
      p.process cubes new = .error .typeError) ∧
    (∀ first c l, cubes = first :: c :: l → p.broadcast = none →
      (∃ k ∈ c :: l, k.dims.length = first.dims.length ∧ (k.dims ≠ first.dims ∨ ∃ e ∈ first.dims, k.points e ≠ first.points e)) →
      p.process cubes new = .error .valueError) ∧
    ∀ coord, p.op ≠ .multiply → p.methodCoord = some coord → p.operation ∉ ["max", "min", "mean"] → ∀ out p', p.process cubes new ≠ .ok (out, p') := by
  refine ⟨?_, ?_, ?_, ?_, ?_, ?_⟩
  · intro h
    unfold Combiner.process
    match cubes, h with
    | [], _ => rfl
    | [_], _ => rfl
  · rintro first c l n rfl hb hn h1 h2
    unfold Combiner.process prepareCombine setupBroadcast broadcastName
    simp only [hb, if_neg hn, bind, Except.bind]
    rw [if_neg (by rintro (h | h); exacts [h1 h, h2 h])]
    rfl
  · rintro first c l rfl hb ht
    unfold Combiner.process prepareCombine setupBroadcast broadcastName
    simp only [hb, if_pos, ht, bind, Except.bind]
    rfl
  · rintro first c l n rfl hb hn h1 h2 h3
    unfold Combiner.process prepareCombine setupBroadcast broadcastName
    simp only [hb, if_neg hn, bind, Except.bind]
    rw [if_pos (Or.inl h1), List.mapM_cons, broadcastOne_self n first _ h1, List.mapM_cons]
    have : broadcastOne n first.dims c = .error .typeError := by
      unfold broadcastOne
      rw [if_neg h2, if_pos h3]
    rw [this]
    rfl
  · rintro first c l rfl hb ⟨k, hk, hlen, hne⟩
    unfold Combiner.process prepareCombine
    simp only [hb, bind, Except.bind]
    unfold combinePrepared
    simp only
    have : checkDims (none : Option String).isSome first (c :: l) = .error .valueError := by
      unfold checkDims
      rw [if_neg]
      intro h
      have := List.all_eq_true.1 h k hk
      unfold dimsMatch at this
      rw [List.all_eq_true] at this
      have key : ∀ i (hi : i < first.dims.length), k.dims[i]'(hlen ▸ hi) = first.dims[i] ∧ k.points (k.dims[i]'(hlen ▸ hi)) = first.points first.dims[i] := by
        intro i hi
        have hm : (k.dims[i]'(hlen ▸ hi), first.dims[i]) ∈ k.dims.zip first.dims := by
          have hz : i < (k.dims.zip first.dims).length := by rw [List.length_zip, hlen, min_self]; exact hi
          have : (k.dims.zip first.dims)[i] = (k.dims[i]'(hlen ▸ hi), first.dims[i]) := List.getElem_zip
          rw [← this]
          exact List.getElem_mem hz
        simpa using this _ hm
      have hd : k.dims = first.dims := List.ext_getElem hlen fun i h1 h2 => (key i h2).1
      rcases hne with hne | ⟨e, he, hne⟩
      · exact hne hd
      · obtain ⟨i, hi, rfl⟩ := List.getElem_of_mem he
        obtain ⟨a, b⟩ := key i hi
        exact hne (by rw [← b, a])
    rw [this]
    rfl
  · intro coord hm hc ho out p' h
    unfold Combiner.process at h
    match cubes, h with
    | first :: c :: l, h =>
      simp only [bind, Except.bind] at h
      cases h1 : prepareCombine p.broadcast first (first :: c :: l) with
      | error e => rw [h1] at h; exact nomatch h
      | ok b =>
        rw [h1] at h
        simp only at h
        unfold combinePrepared at h
        cases h2 : b.2 with
        | nil => rw [h2] at h; exact nomatch h
        | cons f rest =>
          rw [h2] at h
          simp only [bind, Except.bind] at h
          cases h3 : checkDims b.1.isSome f rest with
          | error e => rw [h3] at h; exact nomatch h
          | ok u =>
            rw [h3] at h
            simp only at h
            cases h4 : combineCubes p.op b.1 f rest with
            | error e => rw [h4] at h; exact nomatch h
            | ok r =>
              rw [h4] at h
              simp only at h
              cases h5 : finishCombine p f rest new r with
              | error e => rw [h5] at h; exact nomatch h
              | ok o =>
                have := ((finish_iff _ _ _ _ _ _).1 h5).2
                unfold Spec.CombineMeta at this
                rw [if_neg hm] at this
                obtain ⟨_, _, h6 | ⟨c', m, h6, h7, _⟩⟩ := this
                · rw [hc] at h6; exact nomatch h6.1
                · unfold Spec.methodOf at h7
                  simp only [List.mem_cons, List.not_mem_nil, or_false, not_or] at ho
                  simp only [List.lookup, beq_eq_false_iff_ne.2 ho.1, beq_eq_false_iff_ne.2 ho.2.1, beq_eq_false_iff_ne.2 ho.2.2] at h7
                  exact nomatch h7

/-- A cube for the examples: realizations and thresholds of two points. -/
def exCombineCube (name : String) (dims : List String) (pts : String → List ℚ) (data : List ℕ → Option ℚ) (scalars : List (String × SCoord ℚ)) : CombineIn :=
  ⟨⟨⟨dims, data⟩, pts⟩, name, scalars, [], some "rain"⟩

/-- The points of the example. -/
def exCombinePoints (r t : List ℚ) (n : String) : List ℚ := if n = "realization" then r else if n = "rain" then t else [0, 1]

/-- The first cube. -/
def exCombineFirst : CombineIn := exCombineCube "a" ["realization", "rain", "x"] (exCombinePoints [0, 1] [3, 4])
  (fun i => some (100 * i.getD 0 0 + 10 * i.getD 1 0 + i.getD 2 0)) [("time", ⟨3, some (0, 3)⟩), ("height", ⟨10, none⟩)]

/-- A cube without threshold, in another order. -/
def exCombineSecond : CombineIn := exCombineCube "b" ["x", "realization"] (exCombinePoints [0, 1] [3, 4])
  (fun i => some (1000 * i.getD 0 0 + 10000 * i.getD 1 0)) [("time", ⟨6, some (3, 6)⟩), ("height", ⟨10, none⟩)]

/-- The plugin. -/
def exCombiner : Combiner := ⟨"+", .add, none, some "threshold", true⟩

/-- The hypotheses of `C253_result` hold for the example. -/
example : Spec.BroadcastAlong exCombiner.broadcast exCombineFirst (some "rain") ∧ Spec.Combinable (some "rain") exCombineFirst exCombineSecond ∧
    Spec.RealizationsAscend (some "rain") exCombineFirst ∧ exCombineFirst.dims.Nodup := by
  refine ⟨Or.inr ⟨"threshold", "rain", rfl, rfl, by decide +kernel, by decide +kernel⟩, ⟨Or.inr ⟨"rain", rfl, by decide +kernel, by decide +kernel, by decide +kernel⟩,
    by decide +kernel⟩, fun _ _ => ⟨by decide +kernel, by decide +kernel⟩, by decide +kernel⟩

/-- The result of the example: sums, and the time of the result covers both. -/
example : ((exCombiner.process [exCombineFirst, exCombineSecond] "c").toOption.map fun o =>
      (o.1.dims, o.1.data [1, 0, 1], o.1.name)) = some (["realization", "rain", "x"], some 11101, some "c") ∧
    ((exCombiner.process [exCombineFirst, exCombineSecond] "c").toOption.map fun o => o.1.scalars.map fun s => (s.1, s.2.point, s.2.bounds)) =
      some [("time", 6, some (0, 6)), ("height", 10, none)] := by
  constructor <;> decide +kernel

/-- A further cube with one realization only is refused if there is nothing to broadcast along, but with a dimension to broadcast along it is accepted and
combined with the first realization only: the other realizations keep the first cube's values. -/
theorem C253_realization_broadcast_refuted :
    let second := exCombineCube "b" ["realization", "rain", "x"] (exCombinePoints [0] [3, 4]) (fun _ => some 1000) []
    (({ exCombiner with broadcast := none } : Combiner).process [exCombineFirst, second] "c").toOption.isNone = true ∧
    ((exCombiner.process [exCombineFirst, second] "c").toOption.map fun o => [o.1.data [0, 1, 1], o.1.data [1, 1, 1]]) = some [some 1011, some 111] := by
  intro second
  constructor <;> decide +kernel

/-- A realization dimension of length one is lost. -/
theorem C253_single_realization_refuted :
    let c := exCombineCube "a" ["realization", "x"] (exCombinePoints [0] [3, 4]) (fun _ => some 1) []
    ((({ exCombiner with broadcast := none } : Combiner).process [c, c] "c").toOption.map fun o => o.1.dims) = some ["x"] := by
  intro c
  decide +kernel

/-- A plugin that was made for "threshold" can be used again for the same diagnostic only: it keeps the name of the first threshold. -/
theorem C253_reuse_refuted (first c : CombineIn) (l : List CombineIn) (p p' : Combiner) (new : String) (out : CombineOut)
    (h : p.process (first :: c :: l) new = .ok (out, p')) (hp : p.broadcast = some "threshold") (t : String) (ht : first.threshold = some t) (ht' : t ≠ "threshold")
    (first2 c2 : CombineIn) (l2 : List CombineIn) (hn : t ∉ first2.dims) (hs : t ∉ first2.scalars.map Prod.fst) :
    p'.process (first2 :: c2 :: l2) new = .error .coordinateNotFound := by
  have hb : p'.broadcast = some t := by
    unfold Combiner.process prepareCombine setupBroadcast broadcastName at h
    simp only [hp, if_pos, ht, bind, Except.bind] at h
    by_cases hc : t ∈ first.dims ∨ t ∈ first.scalars.map Prod.fst
    · rw [if_pos hc] at h
      cases hm : (first :: c :: l).mapM (broadcastOne t first.dims) with
      | error e => rw [hm] at h; exact nomatch h
      | ok ks =>
        rw [hm] at h
        simp only [Except.map] at h
        cases hk : combinePrepared p (some t) ks new with
        | error e => rw [hk] at h; exact nomatch h
        | ok o =>
          rw [hk] at h
          cases h
          rfl
    · rw [if_neg hc] at h
      exact nomatch h
  exact (C253_refused p' (first2 :: c2 :: l2) new).2.1 first2 c2 l2 t rfl hb ht' hn hs

/-- Such a plugin: the example used for a second diagnostic. -/
example : ((exCombiner.process [exCombineFirst, exCombineSecond] "c").toOption.map fun o => o.2.broadcast) = some (some "rain") := by decide +kernel

/-- A product does not get the cell method asked for, and an operation without cell method is not refused then. -/
theorem C253_product_method_refuted (p : Combiner) (first : CombineIn) (cs : List CombineIn) (new : String) (out : CombineOut) (p' : Combiner)
    (hm : p.op = .multiply) (h : p.process (first :: cs) new = .ok (out, p')) (hb : p.broadcast = none) : out.methods = first.methods := by
  unfold Combiner.process at h
  match cs, h with
  | c :: l, h =>
    unfold prepareCombine at h
    simp only [hb, bind, Except.bind] at h
    unfold combinePrepared at h
    simp only [bind, Except.bind] at h
    cases h3 : checkDims (none : Option String).isSome first (c :: l) with
    | error e => rw [h3] at h; exact nomatch h
    | ok u =>
      rw [h3] at h
      simp only at h
      cases h4 : combineCubes p.op none first (c :: l) with
      | error e => rw [h4] at h; exact nomatch h
      | ok r =>
        rw [h4] at h
        simp only at h
        cases h5 : finishCombine p first (c :: l) new r with
        | error e => rw [h5] at h; exact nomatch h
        | ok o =>
          rw [h5] at h
          cases h
          have := ((finish_iff _ _ _ _ _ _).1 h5).2
          unfold Spec.CombineMeta at this
          rw [if_pos hm] at this
          exact this.2.2

/-- Such a product. -/
example : ((({ exCombiner with operation := "*", op := .multiply, methodCoord := some "time", broadcast := none } : Combiner).process [exCombineFirst, exCombineFirst]
    "c").toOption.map fun o => o.1.methods) = some [] := by decide +kernel

end Improver
