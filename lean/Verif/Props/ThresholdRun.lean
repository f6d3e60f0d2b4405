import Verif.Model.ThresholdRun
import Verif.Props.Threshold
import Verif.Props.Spatial
import Verif.Props.ProbName
import Verif.Props.WholeBlend

/-! C254: `Threshold.process` on cubes with named dimensions. -/

namespace Improver

theorem squeezed_at {α : Type} (c : PointCube α) (a : String → ℕ) (ha : Spec.Inside c c.dims a) :
    Spec.placeValue c.squeezed.toDimCube a = Spec.placeValue c.toDimCube a := by
  unfold Spec.placeValue PointCube.squeezed
  simp only
  congr 1
  apply List.map_congr_left
  intro n hn
  by_cases h : n ∈ c.dims.filter fun n => decide ((c.points n).length ≠ 1)
  · rw [if_pos h, getD_map_idxOf h]
  · rw [if_neg h]
    have h1 : (c.points n).length = 1 := by
      by_contra hc
      exact h (List.mem_filter.2 ⟨hn, by simpa using hc⟩)
    have := ha n hn
    omega

namespace Spec

/-- The value of a cube at a place as the thresholds see it: a masked point filled if asked, and in the unit of the thresholds. -/
def seen (p : ThreshPlugin) (c : ThreshCube) (a : String → ℕ) : MVal :=
  let m := placeValue c.toDimCube a
  ⟨convertUnit c.unit (p.unit.getD c.unit) (if m.masked then p.fill.getD m.val else m.val), m.masked && p.fill.isNone⟩

/-- The members over which probabilities are taken: the realizations if they are collapsed, else the cube alone. -/
def membersAt (p : ThreshPlugin) (c : ThreshCube) : List ((String → ℕ) → MVal) :=
  if p.collapse = true ∧ "realization" ∈ c.dims then
    (List.range (c.points "realization").length).map fun r a => seen p c (along a "realization" r)
  else [seen p c]

/-- The dimensions left when realizations are collapsed. -/
def restDims (p : ThreshPlugin) (c : ThreshCube) : List String := if p.collapse then c.dims.erase "realization" else c.dims

/-- The mean of numbers, masked if there are none. -/
def meanOver (l : List ℚ) : Option ℚ := if l = [] then none else some (l.sum / l.length)

/-- Cubes and plugins the statements are about: dimensions have different names and are not called as the new ones; units agree; thresholds and radii
are not given twice, and each threshold has bounds which are equal or have it strictly between them; realizations to be collapsed are there; a land
mask comes with radii only, and radii are those of `cells` grid cells, on two dimensions at least. -/
structure Thresholdable (p : ThreshPlugin) (land : Option (ℕ → ℕ → Bool)) (c : ThreshCube) (cells : Option (List ℕ)) : Prop where
  nodup : c.dims.Nodup
  fresh : c.name ∉ c.dims
  word : c.name ∉ ["threshold", "realization", "percentile", "radius_of_vicinity"]
  radius : "radius_of_vicinity" ∉ c.dims
  unit : (p.unit.getD c.unit).dimension = c.unit.dimension
  thresholds : p.thresholds.Nodup
  lengths : p.bounds.length = p.thresholds.length
  bounds : ∀ tb ∈ p.thresholds.zip p.bounds, tb.2.1 = tb.2.2 ∨ (tb.2.1 < tb.1 ∧ tb.1 < tb.2.2)
  realization : p.collapse = true → "realization" ∈ c.dims ∨ "realization" ∈ c.scalars
  landed : p.radii = none → land = none
  near : match p.radii with
    | none => cells = none
    | some rs => rs.Nodup ∧ plainName c.name.toList ∧ 2 ≤ (restDims p c).length ∧
      ∃ l, cells = some l ∧ List.Forall₂ (fun r n => distanceToCells (c.points c.xName) r = .ok n) rs l

end Spec

theorem seen_eq (p : ThreshPlugin) (c : ThreshCube) (a : String → ℕ) :
    threshValue p c (Spec.placeValue c.toDimCube a) = Spec.seen p c a := by
  unfold Spec.seen threshValue fillMasked ThreshPlugin.unitFor
  cases p.fill with
  | none =>
    simp
  | some f =>
    by_cases h : (Spec.placeValue c.toDimCube a).masked = true
    · simp [h]
    · simp [h]

/-- The slices and the members are the same. -/
theorem slices_eq (p : ThreshPlugin) (land : Option (ℕ → ℕ → Bool)) (c : ThreshCube) (cells : Option (List ℕ)) (h : Spec.Thresholdable p land c cells) :
    ∃ k slices, prepareThresh p c = .ok k ∧ threshSlices p c k = .ok slices ∧
      List.Forall₂ (fun (s : PointCube MVal) m => s.dims = Spec.restDims p c ∧ s.points = c.points ∧ ∀ a, Spec.placeValue s.toDimCube a = m a) slices
        (Spec.membersAt p c) := by
  refine ⟨⟨⟨c.dims, fun idx => threshValue p c (c.data idx)⟩, c.points⟩, ?_⟩
  set k : PointCube MVal := ⟨⟨c.dims, fun idx => threshValue p c (c.data idx)⟩, c.points⟩ with hk
  have hkv : ∀ a, Spec.placeValue k.toDimCube a = Spec.seen p c a := fun a => seen_eq p c a
  have hprep : prepareThresh p c = .ok k := by
    unfold prepareThresh
    rw [if_neg (by rw [not_not]; exact h.unit)]
  unfold threshSlices Spec.membersAt Spec.restDims
  cases hc : p.collapse with
  | false =>
    refine ⟨[k], hprep, by simp, ?_⟩
    rw [if_neg (by simp)]
    exact .cons ⟨rfl, rfl, hkv⟩ .nil
  | true =>
    by_cases hr : "realization" ∈ c.dims
    · rw [if_neg (show ¬ (true = false) by simp), if_pos hr, if_pos (⟨rfl, hr⟩ : true = true ∧ "realization" ∈ c.dims), if_pos rfl]
      refine ⟨_, hprep, rfl, ?_⟩
      rw [List.forall₂_map_left_iff, List.forall₂_map_right_iff, List.forall₂_same]
      intro i _
      refine ⟨rfl, rfl, fun a => ?_⟩
      rw [sliceAt_at k h.nodup hr, hkv]
    · rw [if_neg (show ¬ (true = false) by simp), if_neg hr, if_pos ((h.realization hc).resolve_left hr),
        if_neg (show ¬ (true = true ∧ "realization" ∈ c.dims) from fun e => hr e.2), if_pos rfl, List.erase_of_not_mem hr]
      exact ⟨[k], hprep, rfl, .cons ⟨rfl, rfl, hkv⟩ .nil⟩

theorem checkBounds_ok (p : ThreshPlugin) (h : ∀ tb ∈ p.thresholds.zip p.bounds, tb.2.1 = tb.2.2 ∨ (tb.2.1 < tb.1 ∧ tb.1 < tb.2.2)) :
    checkBounds p = .ok () := by
  unfold checkBounds
  have : ∃ l, (p.thresholds.zip p.bounds).mapM (fun tb => truthValue p.op tb.1 tb.2 0) = .ok l := by
    revert h
    generalize p.thresholds.zip p.bounds = z
    intro h
    induction z with
    | nil => exact ⟨[], rfl⟩
    | cons x l ih =>
      obtain ⟨r, hr⟩ := ih fun tb ht => h tb (by simp [ht])
      obtain ⟨v, hv⟩ := C01_truth_value_defined p.op x.1 x.2.1 x.2.2 0 (h x (by simp))
      refine ⟨v :: r, ?_⟩
      rw [List.mapM_cons, hr, show truthValue p.op x.1 x.2 0 = .ok v from hv]
      rfl
  obtain ⟨l, hl⟩ := this
  rw [hl]
  rfl

/-- The dimensions in order. -/
theorem orderDims_at (A : PointCube (Option ℚ)) (name : String) (pre rest : List String) (hA : A.dims = pre ++ name :: rest)
    (hpre : pre = [] ∨ pre = ["radius_of_vicinity"]) (hn : rest.Nodup) (hf : name ∉ rest) (hr : "radius_of_vicinity" ∉ rest)
    (hw : name ∉ ["threshold", "realization", "percentile", "radius_of_vicinity"]) :
    ∃ a o, A.reorder [name] = .ok a ∧ a.squeezed.reorder ["realization", "percentile", name, "radius_of_vicinity"] = .ok o ∧ o.points = A.points ∧
      o.dims = ((["realization", "percentile", name, "radius_of_vicinity"].filter fun n =>
          decide (n = name ∨ (n = "radius_of_vicinity" ∧ pre ≠ []) ∨ n ∈ rest)) ++
          rest.filter fun n => decide (n ≠ "realization" ∧ n ≠ "percentile")).filter (fun n => decide ((A.points n).length ≠ 1)) ∧
      ∀ x, Spec.Inside A A.dims x → Spec.placeValue o.toDimCube x = Spec.placeValue A.toDimCube x := by
  simp only [List.mem_cons, List.not_mem_nil, or_false, not_or] at hw
  obtain ⟨w1, w2, w3, w4⟩ := hw
  have hnd : A.dims.Nodup := by
    rw [hA]
    rcases hpre with rfl | rfl
    · simp [hn, hf]
    · simp [hn, hf, hr, Ne.symm w4]
  obtain ⟨a, a1, a2, a3, a4⟩ := reorder_at A hnd [name] (by simp) (by simpa using Ne.symm w1)
  have hmem : ∀ n, n ∈ a.dims ↔ n ∈ A.dims := by
    intro n
    rw [a2, List.mem_append, List.mem_filter, List.mem_filter]
    simp only [List.mem_cons, List.not_mem_nil, or_false, decide_eq_true_eq]
    constructor
    · rintro (h | h)
      · exact h.2
      · exact h.1
    · intro h
      by_cases e : n = name
      · exact Or.inl ⟨e, h⟩
      · exact Or.inr ⟨h, e⟩
  have had : a.dims = name :: (pre ++ rest) := by
    rw [a2, hA]
    have e1 : [name].filter (fun n => decide (n ∈ pre ++ name :: rest)) = [name] := by simp
    rw [e1, List.filter_append, List.filter_cons_of_neg (by simp)]
    have e2 : pre.filter (fun n => decide (n ∉ [name])) = pre := by
      rw [List.filter_eq_self]
      intro x hx
      rcases hpre with rfl | rfl
      · exact nomatch hx
      · simp only [List.mem_cons, List.not_mem_nil, or_false] at hx
        subst hx
        simpa using Ne.symm w4
    have e3 : rest.filter (fun n => decide (n ∉ [name])) = rest := by
      rw [List.filter_eq_self]
      intro x hx
      have : x ≠ name := fun e => hf (e ▸ hx)
      simpa using this
    rw [e2, e3]
    rfl
  have hsd : a.squeezed.dims = (name :: (pre ++ rest)).filter fun n => decide ((A.points n).length ≠ 1) := by
    unfold PointCube.squeezed
    simp only
    rw [had, a3]
  have hand : a.dims.Nodup := by
    rw [had]
    rcases hpre with rfl | rfl
    · simp [hn, hf]
    · simp [hn, hf, hr, w4]
  obtain ⟨o, o1, o2, o3, o4⟩ := reorder_at a.squeezed (by rw [hsd, ← had]; exact hand.filter _) ["realization", "percentile", name, "radius_of_vicinity"]
    (by simp [Ne.symm w2, Ne.symm w3, w4]) (by simpa using Ne.symm w1)
  refine ⟨a, o, a1, o1, o3.trans a3, ?_, ?_⟩
  · rw [o2, hsd, List.filter_append, List.filter_filter, List.filter_filter]
    congr 1
    · apply List.filter_congr
      intro n hn
      rw [← Bool.decide_and, decide_eq_decide, List.mem_filter, List.mem_cons, List.mem_append, decide_eq_true_eq]
      rcases hpre with rfl | rfl
      · simp only [List.not_mem_nil, false_or, ne_eq, not_true_eq_false, and_false]
        exact And.comm
      · simp only [List.mem_cons, List.not_mem_nil, or_false, ne_eq, reduceCtorEq, not_false_eq_true, and_true]
        exact And.comm
    · have key : ∀ l : List String, l.filter (fun n => decide (n ∉ ["realization", "percentile", name, "radius_of_vicinity"]) && decide ((A.points n).length ≠ 1)) =
          (l.filter fun n => decide (n ∉ ["realization", "percentile", name, "radius_of_vicinity"])).filter fun n => decide ((A.points n).length ≠ 1) := by
        intro l
        rw [List.filter_filter]
        apply List.filter_congr
        intro x _
        rw [Bool.and_comm]
      rw [key, List.filter_cons_of_neg (by simp), List.filter_append]
      have e2 : pre.filter (fun n => decide (n ∉ ["realization", "percentile", name, "radius_of_vicinity"])) = [] := by
        rcases hpre with rfl | rfl
        · rfl
        · rw [List.filter_cons_of_neg (by simp)]; rfl
      rw [e2, List.nil_append]
      congr 1
      apply List.filter_congr
      intro x hx
      have x1 : x ≠ name := fun e => hf (e ▸ hx)
      have x2 : x ≠ "radius_of_vicinity" := fun e => hr (e ▸ hx)
      rw [decide_eq_decide]
      simp [x1, x2]
  · intro x hx
    rw [o4, squeezed_at a x (fun e he => by rw [a3]; exact hx e ((hmem e).1 he)), a4]

theorem mapM_of_forall₂' {α β : Type} {f : α → Except Err β} {l : List α} {m : List β} (h : List.Forall₂ (fun a b => f a = .ok b) l m) :
    l.mapM f = .ok m := by
  induction h with
  | nil => rfl
  | cons h _ ih => rw [List.mapM_cons, h, ih]; rfl

/-- The place in the result: `i` along thresholds, `v` along radii. -/
def Spec.resultPlace (c : ThreshCube) (a : String → ℕ) (i v : ℕ) : String → ℕ := Spec.along (Spec.along a "radius_of_vicinity" v) c.name i

/-- The run, with values given by what each slice adds. -/
theorem thresh_at (p : ThreshPlugin) (land : Option (ℕ → ℕ → Bool)) (c : ThreshCube) (cells : Option (List ℕ)) (h : Spec.Thresholdable p land c cells) :
    ∃ out slices, p.process land c = .ok out ∧
      List.Forall₂ (fun (s : PointCube MVal) m => s.dims = Spec.restDims p c ∧ s.points = c.points ∧ ∀ a, Spec.placeValue s.toDimCube a = m a) slices
        (Spec.membersAt p c) ∧
      out.name = Spec.probName c.name.toList (if p.radii.isSome then .fixed else .no) (if p.op.lessThan then .below else .above) ∧
      out.points c.name = (npSort p.thresholds).map (convertUnit (p.unit.getD c.unit) c.unit) ∧
      (∀ rs, p.radii = some rs → out.points "radius_of_vicinity" = npSort rs) ∧
      (∀ e ∈ Spec.restDims p c, out.points e = c.points e) ∧
      out.dims = ((["realization", "percentile", c.name, "radius_of_vicinity"].filter fun n =>
          decide (n = c.name ∨ (n = "radius_of_vicinity" ∧ p.radii.isSome = true) ∨ n ∈ Spec.restDims p c)) ++
          (Spec.restDims p c).filter fun n => decide (n ≠ "realization" ∧ n ≠ "percentile")).filter (fun n => decide ((out.points n).length ≠ 1)) ∧
      ∀ a i v, Spec.Inside c.toPointCube (Spec.restDims p c) a → i < p.thresholds.length → v < ((p.radii.map List.length).getD 1) →
        Spec.placeValue out.toDimCube (Spec.resultPlace c a i v) =
          meanTruth p.op ((p.thresholds.zip p.bounds).getD i (0, 0, 0)) (cells.map fun l => l.getD v 0) land slices ((Spec.restDims p c).map a) := by
  obtain ⟨k, slices, h1, h2, h3⟩ := slices_eq p land c cells h
  have hcells : threshCells p c = .ok cells := by
    have := h.near
    unfold threshCells
    cases hr : p.radii with
    | none => rw [hr] at this; simp only at this ⊢; rw [this]
    | some rs =>
      rw [hr] at this
      simp only at this ⊢
      obtain ⟨_, _, _, l, hl, hf⟩ := this
      rw [mapM_of_forall₂' hf, hl]
      rfl
  have hlab : mergedLabels p.thresholds = .ok (npSort p.thresholds) := by unfold mergedLabels; rw [if_pos h.thresholds]
  have hrad : ∃ radii, radiusLabels p = .ok radii ∧ ∀ rs, p.radii = some rs → radii = npSort rs := by
    have := h.near
    unfold radiusLabels
    cases hr : p.radii with
    | none => exact ⟨[], rfl, fun _ e => nomatch e⟩
    | some rs =>
      rw [hr] at this
      refine ⟨npSort rs, ?_, fun _ e => by cases e; rfl⟩
      simp only at this ⊢
      unfold mergedLabels
      rw [if_pos this.1]
  obtain ⟨radii, hrl, hrs⟩ := hrad
  have hrest : (Spec.restDims p c).Nodup ∧ (∀ e ∈ Spec.restDims p c, e ∈ c.dims) := by
    unfold Spec.restDims
    split
    · exact ⟨h.nodup.erase _, fun e he => List.mem_of_mem_erase he⟩
    · exact ⟨h.nodup, fun e he => he⟩
  have hfresh : c.name ∉ Spec.restDims p c := fun e => h.fresh (hrest.2 _ e)
  have hradius : "radius_of_vicinity" ∉ Spec.restDims p c := fun e => h.radius (hrest.2 _ e)
  have hname : threshName p c = .ok (Spec.probName c.name.toList (if p.radii.isSome then .fixed else .no) (if p.op.lessThan then .below else .above)) := by
    have := h.near
    have hplain : probPrefix ++ c.name.toList ++ (if p.op.lessThan then "_below_threshold".toList else "_above_threshold".toList) =
        Spec.probName c.name.toList .no (if p.op.lessThan then .below else .above) := by
      unfold Spec.probName
      rw [show Spec.Vicinity.no.text = [] from rfl, List.append_nil]
      cases p.op.lessThan <;> rfl
    unfold threshName
    simp only
    rw [hplain]
    cases hr : p.radii with
    | none => rfl
    | some rs =>
      rw [hr] at this
      exact C137_vicinity c.name.toList .no _ this.2.1
  have hcell : cells.isSome = p.radii.isSome := by
    have := h.near
    cases hr : p.radii with
    | none => rw [hr] at this; simp only at this; rw [this]; rfl
    | some rs => rw [hr] at this; simp only at this; obtain ⟨_, _, _, l, hl, _⟩ := this; rw [hl]; rfl
  set A := threshArray p land c cells (npSort p.thresholds) radii slices (Spec.restDims p c) with hAdef
  have hdims : A.dims = (if p.radii.isSome then ["radius_of_vicinity"] else []) ++ c.name :: Spec.restDims p c := by
    rw [hAdef, ← hcell]
    unfold threshArray
    cases cells <;> rfl
  have hpts : A.points = fun n => if n = c.name then (npSort p.thresholds).map (convertUnit (p.unitFor c) c.unit) else
      if n = "radius_of_vicinity" then radii else c.points n := by
    rw [hAdef]
    unfold threshArray
    cases cells <;> rfl
  obtain ⟨a, o, a1, o1, o2, o3, o4⟩ := orderDims_at A c.name _ _ hdims (by cases p.radii.isSome <;> simp) hrest.1 hfresh hradius h.word
  have hneR : "radius_of_vicinity" ≠ c.name := fun e => h.word (by rw [← e]; simp)
  clear_value A
  generalize (Spec.probName c.name.toList (if p.radii.isSome then .fixed else .no) (if p.op.lessThan then .below else .above)) = nm at hname ⊢
  refine ⟨⟨o, nm⟩, slices, ?_, h3, rfl, ?_, ?_, ?_, ?_, ?_⟩
  · unfold ThreshPlugin.process
    rw [if_neg (fun e => by
      have := h.landed (Option.isNone_iff_eq_none.1 e.1)
      rw [this] at e
      exact nomatch e.2), h1]
    simp only [bind, Except.bind]
    rw [hcells]
    simp only
    rw [h2]
    simp only
    rw [hlab]
    simp only
    rw [hrl]
    simp only
    rw [checkBounds_ok p h.bounds]
    simp only
    have hd : (if p.collapse = true then c.dims.erase "realization" else c.dims) = Spec.restDims p c := rfl
    rw [hd, if_neg (by
      rintro ⟨e1, e2⟩
      rw [hcell] at e1
      obtain ⟨rs, hr⟩ := Option.isSome_iff_exists.1 e1
      have := h.near
      rw [hr] at this
      have := this.2.2.1
      omega), ← hAdef, a1]
    simp only
    rw [o1]
    simp only
    rw [hname]
  · show o.points c.name = _
    rw [o2, hpts]
    exact if_pos rfl
  · intro rs hr
    show o.points "radius_of_vicinity" = _
    rw [o2, hpts]
    exact ((if_neg hneR).trans (if_pos rfl)).trans (hrs rs hr)
  · intro e he
    show o.points e = _
    rw [o2, hpts]
    simp only
    rw [if_neg (fun x : e = c.name => hfresh (x ▸ he)), if_neg (fun x : e = "radius_of_vicinity" => hradius (x ▸ he))]
  · show o.dims = _
    rw [o3]
    show _ = List.filter (fun n => decide ((o.points n).length ≠ 1)) _
    rw [o2]
    congr 2
    apply List.filter_congr
    intro n _
    rw [decide_eq_decide]
    cases p.radii.isSome <;> simp
  · intro x i v hx hi hv
    have hin : Spec.Inside A A.dims (Spec.resultPlace c x i v) := by
      intro e he
      rw [hdims] at he
      rw [hpts]
      simp only
      unfold Spec.resultPlace Spec.along
      by_cases e1 : e = c.name
      · rw [if_pos e1, if_pos e1, List.length_map, (npSort_perm _).length_eq]
        exact hi
      rw [if_neg e1, if_neg e1]
      by_cases e2 : e = "radius_of_vicinity"
      · rw [if_pos e2, if_pos e2]
        cases hr : p.radii with
        | none =>
          rw [hr] at he
          simp only [Option.isSome_none, Bool.false_eq_true, if_false, List.nil_append, List.mem_cons] at he
          rcases he with he | he
          · exact absurd he e1
          · exact absurd (e2 ▸ he) hradius
        | some rs =>
          rw [hrs rs hr, (npSort_perm _).length_eq]
          rw [hr] at hv
          simpa using hv
      · rw [if_neg e2, if_neg e2]
        have he' : e ∈ Spec.restDims p c := by
          rcases List.mem_append.1 he with he | he
          · cases hr : p.radii.isSome with
            | true => rw [hr] at he; simp at he; exact absurd he e2
            | false => rw [hr] at he; simp at he
          · rcases List.mem_cons.1 he with he | he
            · exact absurd he e1
            · exact he
        exact hx e he'
    have hmap : (Spec.restDims p c).map (Spec.resultPlace c x i v) = (Spec.restDims p c).map x := by
      unfold Spec.resultPlace
      rw [map_along_not_mem hfresh, map_along_not_mem hradius]
    have hn1 : Spec.resultPlace c x i v c.name = i := if_pos rfl
    have hn2 : Spec.resultPlace c x i v "radius_of_vicinity" = v := by
      unfold Spec.resultPlace Spec.along
      rw [if_neg hneR, if_pos rfl]
    show Spec.placeValue o.toDimCube _ = _
    rw [o4 _ hin, hAdef]
    unfold Spec.placeValue threshArray
    cases hc : cells with
    | none =>
      simp only [List.map_cons, List.getD_cons_zero, List.drop_succ_cons, List.drop_zero, Option.map_none]
      rw [hmap, hn1]
    | some l =>
      simp only [List.map_cons, List.getD_cons_zero, List.getD_cons_succ, List.drop_succ_cons, List.drop_zero, Option.map_some]
      rw [hmap, hn1, hn2]

theorem truthOf_eq {op : CmpOp} {t : ℚ} {b : ℚ × ℚ} {f : ℚ → ℚ} (hf : ∀ x, truthValue op t b x = .ok (f x)) (x : ℚ) : truthOf op t b x = f x := by
  unfold truthOf
  rw [hf x]
  rfl

theorem zip_getD_of_get {l : List ℚ} {m : List (ℚ × ℚ)} {i : ℕ} {t : ℚ} {b : ℚ × ℚ} (ht : l[i]? = some t) (hb : m[i]? = some b) :
    (l.zip m).getD i (0, 0, 0) = (t, b) := by
  rw [List.getD_eq_getElem?_getD, (List.getElem?_zip_eq_some (z := (t, b))).2 ⟨ht, hb⟩]
  rfl

theorem restDims_sub (p : ThreshPlugin) (c : ThreshCube) (e : String) (he : e ∈ Spec.restDims p c) : e ∈ c.dims := by
  unfold Spec.restDims at he
  split at he
  · exact List.mem_of_mem_erase he
  · exact he

theorem restDims_nodup (p : ThreshPlugin) (c : ThreshCube) (h : c.dims.Nodup) : (Spec.restDims p c).Nodup := by
  unfold Spec.restDims
  split
  · exact h.erase _
  · exact h

theorem data_named {p : ThreshPlugin} {c : ThreshCube} {s : PointCube MVal} {m : (String → ℕ) → MVal} (hd : s.dims = Spec.restDims p c)
    (hv : ∀ a, Spec.placeValue s.toDimCube a = m a) (a : String → ℕ) : s.data ((Spec.restDims p c).map a) = m a := by
  rw [← hv a, ← hd]
  rfl

/-- Probabilities without vicinity.  At the place of the `i`th threshold given, the probability is the mean of the truth values of the members not masked
there, masked if there are none; `f` is the truth value for the threshold and its bounds (see C03). The other coordinates are those of the cube, dimensions
of length one become scalar, and realizations, percentiles and thresholds come first. -/
theorem C254_probabilities (p : ThreshPlugin) (c : ThreshCube) (h : Spec.Thresholdable p none c none) (hr : p.radii = none) :
    ∃ out, p.process none c = .ok out ∧
      out.name = Spec.probName c.name.toList .no (if p.op.lessThan then .below else .above) ∧
      out.points c.name = (npSort p.thresholds).map (convertUnit (p.unit.getD c.unit) c.unit) ∧
      (∀ e ∈ Spec.restDims p c, out.points e = c.points e) ∧
      out.dims = (((["realization", "percentile", c.name].filter fun n => decide (n = c.name ∨ n ∈ Spec.restDims p c)) ++
          (Spec.restDims p c).filter fun n => decide (n ≠ "realization" ∧ n ≠ "percentile")).filter fun n => decide ((out.points n).length ≠ 1)) ∧
      ∀ a, Spec.Inside c.toPointCube (Spec.restDims p c) a → ∀ i t b, p.thresholds[i]? = some t → p.bounds[i]? = some b →
        ∀ f : ℚ → ℚ, (∀ x, truthValue p.op t b x = .ok (f x)) →
        Spec.placeValue out.toDimCube (Spec.along a c.name i) = Spec.meanOfUnmasked f ((Spec.membersAt p c).map fun m => m a) := by
  obtain ⟨out, slices, h1, h2, h3, h4, h5, h6, h7, h8⟩ := thresh_at p none c none h
  rw [hr] at h3 h7
  have hrad : "radius_of_vicinity" ∉ Spec.restDims p c := fun e => h.radius (restDims_sub p c _ e)
  have hne : "radius_of_vicinity" ≠ c.name := fun e => h.word (by rw [← e]; simp)
  have hdims : out.dims = (((["realization", "percentile", c.name].filter fun n => decide (n = c.name ∨ n ∈ Spec.restDims p c)) ++
          (Spec.restDims p c).filter fun n => decide (n ≠ "realization" ∧ n ≠ "percentile")).filter fun n => decide ((out.points n).length ≠ 1)) := by
    rw [h7]
    congr 2
    have e0 : (["realization", "percentile", c.name, "radius_of_vicinity"] : List String) = ["realization", "percentile", c.name] ++ ["radius_of_vicinity"] := rfl
    have e1 : (["radius_of_vicinity"] : List String).filter (fun n => decide (n = c.name ∨ (n = "radius_of_vicinity" ∧ (none : Option (List ℚ)).isSome = true) ∨
        n ∈ Spec.restDims p c)) = [] := by
      rw [List.filter_eq_nil_iff]
      intro x hx
      rw [List.mem_singleton] at hx
      subst hx
      simp [hne, hrad]
    rw [e0, List.filter_append, e1, List.append_nil]
    apply List.filter_congr
    intro n _
    rw [decide_eq_decide]
    simp
  have hro : "radius_of_vicinity" ∉ out.dims := by
    rw [hdims]
    intro e
    have e := (List.mem_filter.1 e).1
    rcases List.mem_append.1 e with e | e
    · have := (List.mem_filter.1 e).1
      simp [hne] at this
    · exact hrad (List.mem_filter.1 e).1
  refine ⟨out, h1, h3, h4, h6, hdims, ?_⟩
  intro a ha i t b ht hb f hf
  have hi : i < p.thresholds.length := (List.getElem?_eq_some_iff.1 ht).1
  have key := h8 a i 0 ha hi (by rw [hr]; simp)
  have hplace : Spec.placeValue out.toDimCube (Spec.along a c.name i) = Spec.placeValue out.toDimCube (Spec.resultPlace c a i 0) := by
    unfold Spec.placeValue
    congr 1
    apply List.map_congr_left
    intro n hn
    unfold Spec.resultPlace Spec.along
    by_cases e : n = c.name
    · rw [if_pos e, if_pos e]
    · rw [if_neg e, if_neg e, if_neg (fun e2 : n = "radius_of_vicinity" => hro (e2 ▸ hn))]
  rw [hplace, key, zip_getD_of_get ht hb]
  have hl : ∀ (sl : List (PointCube MVal)) (ms : List ((String → ℕ) → MVal)), List.Forall₂ (fun (s : PointCube MVal) m => s.dims = Spec.restDims p c ∧ s.points = c.points ∧ ∀ a, Spec.placeValue s.toDimCube a = m a) sl ms →
      sl.filterMap (sliceTruth p.op (t, b) none none ((Spec.restDims p c).map a)) =
        ((ms.map fun m => m a).filter fun m => !m.masked).map fun m => f m.val := by
    intro sl ms hsm
    induction hsm with
    | nil => rfl
    | @cons s m sl ms hs _ ih =>
      have hd := data_named hs.1 hs.2.2 a
      have hs1 : sliceTruth p.op (t, b) none none ((Spec.restDims p c).map a) s = if (m a).masked then none else some (f (m a).val) := by
        unfold sliceTruth
        rw [hd]
        simp only
        rw [truthOf_eq hf]
      rw [List.filterMap_cons, hs1, List.map_cons]
      cases hm : (m a).masked with
      | true => rw [if_pos rfl, List.filter_cons_of_neg (by simp [hm])]; exact ih
      | false =>
        rw [if_neg (by simp), List.filter_cons_of_pos (by simp [hm]), List.map_cons]
        simp only
        rw [ih]
  unfold meanTruth Spec.meanOfUnmasked
  simp only [Option.map_none]
  rw [hl _ _ h2]
  simp only [List.length_eq_zero_iff, List.map_eq_nil_iff, List.length_map]

theorem lastTwo_named {pre : List String} {u w : String} (hn : (pre ++ [u, w]).Nodup) (a : String → ℕ) (y x : ℕ) :
    lastTwo ((pre ++ [u, w]).map a) y x = (pre ++ [u, w]).map (Spec.along (Spec.along a u y) w x) := by
  have hu : u ∉ pre ∧ w ∉ pre ∧ u ≠ w := by
    rw [List.nodup_append] at hn
    obtain ⟨_, h2, h3⟩ := hn
    refine ⟨fun e => h3 u e u (by simp) rfl, fun e => h3 w e w (by simp) rfl, ?_⟩
    simpa using h2
  unfold lastTwo
  rw [List.map_append, List.map_append, List.length_append, List.length_map]
  simp only [List.map_cons, List.map_nil, List.length_cons, List.length_nil, Nat.zero_add, Nat.reduceAdd, Nat.add_sub_cancel]
  rw [show List.take pre.length (List.map a pre ++ [a u, a w]) = List.map a pre by
    rw [List.take_append_of_le_length (by simp)]; rw [List.take_of_length_le (by simp)], map_along_not_mem hu.2.1, map_along_not_mem hu.1]
  congr 1
  unfold Spec.along
  simp [hu.2.2]

/-- Probabilities within a vicinity, at the place of the `i`th threshold and the `v`th radius given: the mean, over the members not masked there, of the
greatest truth value about the place over the last two dimensions, within the radius, of points that are not masked and on the same side of the coast.  The
bounds are equal, or nothing is masked. -/
theorem C254_vicinity (p : ThreshPlugin) (land : Option (ℕ → ℕ → Bool)) (c : ThreshCube) (cells : List ℕ) (h : Spec.Thresholdable p land c (some cells))
    (rs : List ℚ) (hr : p.radii = some rs) (pre : List String) (u w : String) (hd : Spec.restDims p c = pre ++ [u, w]) :
    ∃ out, p.process land c = .ok out ∧
      out.name = Spec.probName c.name.toList .fixed (if p.op.lessThan then .below else .above) ∧
      out.points c.name = (npSort p.thresholds).map (convertUnit (p.unit.getD c.unit) c.unit) ∧
      out.points "radius_of_vicinity" = npSort rs ∧
      (∀ e ∈ Spec.restDims p c, out.points e = c.points e) ∧
      out.dims = (((["realization", "percentile", c.name, "radius_of_vicinity"].filter fun n =>
          decide (n = c.name ∨ n = "radius_of_vicinity" ∨ n ∈ Spec.restDims p c)) ++
          (Spec.restDims p c).filter fun n => decide (n ≠ "realization" ∧ n ≠ "percentile")).filter fun n => decide ((out.points n).length ≠ 1)) ∧
      ∀ a, Spec.Inside c.toPointCube (Spec.restDims p c) a → ∀ i t b v r, p.thresholds[i]? = some t → p.bounds[i]? = some b → cells[v]? = some r →
        (b.1 = b.2 ∨ ∀ m ∈ Spec.membersAt p c, ∀ a, (m a).masked = false) →
        ∀ f : ℚ → ℚ, (∀ x, truthValue p.op t b x = .ok (f x)) →
        ∃ g, List.Forall₂ (fun m q => IsGreatest (Spec.vicinity (c.points u).length (c.points w).length r
              (fun y x => (m (Spec.along (Spec.along a u y) w x)).masked) land (fun y x => f (m (Spec.along (Spec.along a u y) w x)).val) (a u) (a w)) q)
            ((Spec.membersAt p c).filter fun m => !(m a).masked) g ∧
          Spec.placeValue out.toDimCube (Spec.along (Spec.along a "radius_of_vicinity" v) c.name i) = Spec.meanOver g := by
  obtain ⟨out, slices, h1, h2, h3, h4, h5, h6, h7, h8⟩ := thresh_at p land c (some cells) h
  rw [hr] at h3 h7
  refine ⟨out, h1, h3, h4, h5 rs hr, h6, ?_, ?_⟩
  · rw [h7]
    congr 2
    apply List.filter_congr
    intro n _
    rw [decide_eq_decide]
    simp
  · intro a ha i t b v r ht hb hv hmask f hf
    have hi : i < p.thresholds.length := (List.getElem?_eq_some_iff.1 ht).1
    have hlen : cells.length = rs.length := by
      have := h.near
      rw [hr] at this
      obtain ⟨_, _, _, l, hl, hf2⟩ := this
      cases hl
      exact hf2.length_eq.symm
    have hvl : v < rs.length := by rw [← hlen]; exact (List.getElem?_eq_some_iff.1 hv).1
    have key := h8 a i v ha hi (by rw [hr]; simpa using hvl)
    have hnd : (pre ++ [u, w]).Nodup := hd ▸ restDims_nodup p c h.nodup
    have hcell : cells.getD v 0 = r := by rw [List.getD_eq_getElem?_getD, hv]; rfl
    have hau : a u < (c.points u).length := ha u (by rw [hd]; simp)
    have haw : a w < (c.points w).length := ha w (by rw [hd]; simp)
    have hself : Spec.along (Spec.along a u (a u)) w (a w) = a := by
      rw [along_same, along_same]
    have hl : ∀ (sl : List (PointCube MVal)) (ms : List ((String → ℕ) → MVal)), List.Forall₂ (fun (s : PointCube MVal) m => s.dims = Spec.restDims p c ∧ s.points = c.points ∧ ∀ a, Spec.placeValue s.toDimCube a = m a) sl ms →
        (∀ m ∈ ms, m ∈ Spec.membersAt p c) →
        List.Forall₂ (fun m q => IsGreatest (Spec.vicinity (c.points u).length (c.points w).length r
              (fun y x => (m (Spec.along (Spec.along a u y) w x)).masked) land (fun y x => f (m (Spec.along (Spec.along a u y) w x)).val) (a u) (a w)) q)
            (ms.filter fun m => !(m a).masked) (sl.filterMap (sliceTruth p.op (t, b) (some r) land ((Spec.restDims p c).map a))) := by
      intro sl ms hsm
      induction hsm with
      | nil => intro _; exact .nil
      | @cons s m sl ms hs _ ih =>
        intro hms
        have ih := ih fun m hm => hms m (by simp [hm])
        have hda := data_named hs.1 hs.2.2 a
        have hdat : ∀ y x, s.data (lastTwo ((pre ++ [u, w]).map a) y x) = m (Spec.along (Spec.along a u y) w x) := by
          intro y x
          rw [lastTwo_named hnd, ← hd]
          exact data_named hs.1 hs.2.2 _
        have hcr : ∀ y x, (decide (b.1 = b.2) && (m (Spec.along (Spec.along a u y) w x)).masked) = (m (Spec.along (Spec.along a u y) w x)).masked := by
          intro y x
          rcases hmask with e | e
          · simp [e]
          · rw [e m (hms m (by simp)) _]; simp
        have hs1 : sliceTruth p.op (t, b) (some r) land ((Spec.restDims p c).map a) s = if (m a).masked then none else
            some (maximumWithinVicinity (c.points u).length (c.points w).length r fillFloat32
              (fun y x => (m (Spec.along (Spec.along a u y) w x)).masked) land (fun y x => f (m (Spec.along (Spec.along a u y) w x)).val) (a u) (a w)) := by
          unfold sliceTruth
          rw [hda]
          simp only
          congr 2
          unfold truthNear
          simp only
          rw [hs.1, hs.2.1, hd]
          simp only [hdat, hcr, truthOf_eq hf]
          rw [List.length_map]
          have e1 : (pre ++ [u, w]).length - 2 = pre.length := by simp
          have e2 : (pre ++ [u, w]).length - 1 = pre.length + 1 := by simp
          rw [e1, e2]
          have g0 : ∀ {β : Type} (F : String → β) (z : β), ((pre ++ [u, w]).map F).getD pre.length z = F u := by
            intro β F z
            rw [List.getD_eq_getElem?_getD, List.getElem?_map, List.getElem?_append_right (Nat.le_refl _), Nat.sub_self]
            rfl
          have g1 : ∀ {β : Type} (F : String → β) (z : β), ((pre ++ [u, w]).map F).getD (pre.length + 1) z = F w := by
            intro β F z
            rw [List.getD_eq_getElem?_getD, List.getElem?_map, List.getElem?_append_right (by omega), Nat.add_sub_cancel_left]
            rfl
          rw [g0, g1, g0, g1]
        rw [List.filterMap_cons, hs1]
        cases hm : (m a).masked with
        | true => rw [if_pos rfl, List.filter_cons_of_neg (by simp [hm])]; exact ih
        | false =>
          rw [if_neg (by simp), List.filter_cons_of_pos (by simp [hm])]
          refine .cons ?_ ih
          apply C68_maximum
          · intro y x _ _
            have := (C01_truth_value_in_unit_interval p.op t b.1 b.2 _ _ (hf (m (Spec.along (Spec.along a u y) w x)).val)).1
            have hfill : (0 : ℚ) ≤ fillFloat32 := by unfold fillFloat32; norm_num
            linarith
          · exact hau
          · exact haw
          · rw [hself]; exact hm
    refine ⟨_, hl slices _ h2 fun m hm => hm, ?_⟩
    have := key
    unfold Spec.resultPlace at this
    rw [this, zip_getD_of_get ht hb]
    unfold meanTruth Spec.meanOver
    simp only [Option.map_some, hcell, List.length_eq_zero_iff]

/-- With thresholds and radii in ascending order the labels are those given, so that the values of C254_probabilities and C254_vicinity stand at the
labels of their thresholds and radii. -/
theorem C254_labels (p : ThreshPlugin) (land : Option (ℕ → ℕ → Bool)) (c : ThreshCube) (cells : Option (List ℕ)) (h : Spec.Thresholdable p land c cells)
    (ht : p.thresholds.Pairwise (· ≤ ·)) (hr : ∀ rs, p.radii = some rs → rs.Pairwise (· ≤ ·)) :
    ∃ out, p.process land c = .ok out ∧ out.points c.name = p.thresholds.map (convertUnit (p.unit.getD c.unit) c.unit) ∧
      ∀ rs, p.radii = some rs → out.points "radius_of_vicinity" = rs := by
  obtain ⟨out, slices, h1, _, _, h4, h5, _⟩ := thresh_at p land c cells h
  refine ⟨out, h1, by rw [h4, npSort_of_sorted ht], fun rs e => by rw [h5 rs e, npSort_of_sorted (hr rs e)]⟩

/-- Nothing is returned if a land mask comes without radii, if units are not convertible, if a threshold or a radius is given twice, if realizations are to be
collapsed and there are none, or if fuzzy bounds touch their threshold. -/
theorem C254_refused (p : ThreshPlugin) (land : Option (ℕ → ℕ → Bool)) (c : ThreshCube)
    (h : (p.radii = none ∧ land ≠ none) ∨ (p.unit.getD c.unit).dimension ≠ c.unit.dimension ∨ ¬ p.thresholds.Nodup ∨
      (∃ rs, p.radii = some rs ∧ ¬ rs.Nodup) ∨ (p.collapse = true ∧ "realization" ∉ c.dims ∧ "realization" ∉ c.scalars) ∨
      ∃ tb ∈ p.thresholds.zip p.bounds, tb.2.1 < tb.2.2 ∧ (tb.1 = tb.2.1 ∨ tb.1 = tb.2.2)) :
    ∀ out, p.process land c ≠ .ok out := by
  intro out hout
  unfold ThreshPlugin.process at hout
  by_cases h0 : p.radii.isNone = true ∧ land.isSome = true
  · rw [if_pos h0] at hout
    exact nomatch hout
  rw [if_neg h0] at hout
  simp only [bind, Except.bind] at hout
  cases h1 : prepareThresh p c with
  | error e => rw [h1] at hout; exact nomatch hout
  | ok k =>
  rw [h1] at hout
  simp only at hout
  cases h2 : threshCells p c with
  | error e => rw [h2] at hout; exact nomatch hout
  | ok cells =>
  rw [h2] at hout
  simp only at hout
  cases h3 : threshSlices p c k with
  | error e => rw [h3] at hout; exact nomatch hout
  | ok slices =>
  rw [h3] at hout
  simp only at hout
  cases h4 : mergedLabels p.thresholds with
  | error e => rw [h4] at hout; exact nomatch hout
  | ok labels =>
  rw [h4] at hout
  simp only at hout
  cases h5 : radiusLabels p with
  | error e => rw [h5] at hout; exact nomatch hout
  | ok radii =>
  rw [h5] at hout
  simp only at hout
  cases h6 : checkBounds p with
  | error e => rw [h6] at hout; exact nomatch hout
  | ok _ =>
  rcases h with h | h | h | h | h | h
  · apply h0
    exact ⟨by rw [h.1]; rfl, Option.isSome_iff_ne_none.2 h.2⟩
  · unfold prepareThresh at h1
    rw [if_pos (show (p.unitFor c).dimension ≠ c.unit.dimension from h)] at h1
    exact nomatch h1
  · unfold mergedLabels at h4
    rw [if_neg h] at h4
    exact nomatch h4
  · obtain ⟨rs, e1, e2⟩ := h
    unfold radiusLabels mergedLabels at h5
    rw [e1] at h5
    simp only at h5
    rw [if_neg e2] at h5
    exact nomatch h5
  · unfold threshSlices at h3
    rw [if_neg (by rw [h.1]; simp), if_neg h.2.1, if_neg h.2.2] at h3
    exact nomatch h3
  · obtain ⟨tb, hm, hlt, ht⟩ := h
    unfold checkBounds at h6
    cases hM : (p.thresholds.zip p.bounds).mapM fun tb => truthValue p.op tb.1 tb.2 0 with
    | error e => rw [hM] at h6; exact nomatch h6
    | ok l =>
      have hF := mapM_ok_forall _ _ _ hM
      have hex : ∃ v, truthValue p.op tb.1 tb.2 0 = .ok v := by
        clear hM h6 hout
        revert hm hF
        generalize p.thresholds.zip p.bounds = z
        intro hm hF
        induction hF with
        | nil => exact nomatch hm
        | cons hx _ ih =>
          rcases List.mem_cons.1 hm with e | e
          · subst e; exact ⟨_, hx⟩
          · exact ih e
      obtain ⟨v, hv⟩ := hex
      have := C01_one_sided_bounds_always_fail p.op tb.1 tb.2.1 tb.2.2 0 hlt ht
      rw [show (tb.2.1, tb.2.2) = tb.2 from rfl] at this
      rw [this] at hv
      exact nomatch hv

/-- A grid of `ny` by `nx` points. -/
def gridForThreshold (dims : List String) (points : String → List ℚ) (data : List ℕ → MVal) : ThreshCube :=
  ⟨⟨⟨dims, data⟩, points⟩, "rain", ⟨"m", 1, 0⟩, [], "x"⟩

theorem result_of_map {α β : Type} {r : Except Err α} {f : α → β} {v : β} (h : r.toOption.map f = some v) : ∃ o, r = .ok o ∧ f o = v := by
  cases r with
  | error e => exact nomatch h
  | ok o => exact ⟨o, rfl, Option.some.inj h⟩

/-- **Finding.** Thresholds are taken in the order given, and the coordinate is in ascending order: with thresholds 2 and 1 the value 3/2 has probability
0 of being above 1, and probability 1 of being above 2. -/
theorem C254_order_refuted :
    ∃ (p : ThreshPlugin) (c : ThreshCube) (out : ThreshOut), Spec.Thresholdable p none c none ∧ p.process none c = .ok out ∧ p.op = .gt ∧ p.thresholds = [2, 1] ∧
      p.bounds = [(2, 2), (1, 1)] ∧ p.unit = none ∧ c.dims = ["x"] ∧ (∀ idx, c.data idx = ⟨3 / 2, false⟩) ∧
      out.dims = [c.name, "x"] ∧ out.points c.name = [1, 2] ∧ out.data [0, 0] = some 0 ∧ out.data [1, 0] = some 1 := by
  let p : ThreshPlugin := ⟨⟨[2, 1], [(2, 2), (1, 1)], .gt⟩, none, false, none, none⟩
  let c := gridForThreshold ["x"] (fun _ => [0, 1]) fun _ => ⟨3 / 2, false⟩
  have hT : Spec.Thresholdable p none c none := by
    constructor <;> decide +kernel
  have hrun : ((p.process none c).toOption.map fun o => (o.dims, o.points c.name, o.data [0, 0], o.data [1, 0])) =
      some (["rain", "x"], [1, 2], some 0, some 1) := by
    decide +kernel
  obtain ⟨out, h1, h2⟩ := result_of_map hrun
  simp only [Prod.mk.injEq] at h2
  exact ⟨p, c, out, hT, h1, rfl, rfl, rfl, rfl, rfl, fun _ => rfl, h2⟩

/-- **Finding.** The same of radii: with radii 2 and 1 the coordinate is 1, 2, and the value at 1 is that of the vicinity of 2. -/
theorem C254_radius_order_refuted :
    ∃ (p : ThreshPlugin) (c : ThreshCube) (cells : List ℕ) (out : ThreshOut), Spec.Thresholdable p none c (some cells) ∧ p.process none c = .ok out ∧
      p.radii = some [2, 1] ∧ out.dims = ["radius_of_vicinity", "y", "x"] ∧ out.points "radius_of_vicinity" = [1, 2] ∧
      (∀ y x, c.data [y, x] = ⟨if x = 2 then 5 else 0, false⟩) ∧ c.points "x" = [0, 1, 2] ∧ p.op = .gt ∧ p.thresholds = [1] ∧ p.bounds = [(1, 1)] ∧ p.unit = none ∧
      out.data [0, 0, 0] = some 1 ∧ out.data [1, 0, 0] = some 0 := by
  let p : ThreshPlugin := ⟨⟨[1], [(1, 1)], .gt⟩, none, false, some [2, 1], none⟩
  let c := gridForThreshold ["y", "x"] (fun n => if n = "x" then [0, 1, 2] else [0, 1]) fun idx => ⟨if idx.getD 1 0 = 2 then 5 else 0, false⟩
  have hT : Spec.Thresholdable p none c (some [2, 1]) := by
    constructor
    case near => exact ⟨by decide +kernel, by unfold Spec.plainName; decide +kernel, by decide +kernel, [2, 1], rfl, .cons (by decide +kernel) (.cons (by decide +kernel) .nil)⟩
    all_goals decide +kernel
  have hrun : ((p.process none c).toOption.map fun o => (o.dims, o.points "radius_of_vicinity", o.data [0, 0, 0], o.data [1, 0, 0])) =
      some (["radius_of_vicinity", "y", "x"], [1, 2], some 1, some 0) := by
    decide +kernel
  obtain ⟨out, h1, h2⟩ := result_of_map hrun
  simp only [Prod.mk.injEq] at h2
  exact ⟨p, c, _, out, hT, h1, rfl, h2.1, h2.2.1, fun _ _ => rfl, rfl, rfl, rfl, rfl, rfl, h2.2.2⟩

/-- **Finding.** With fuzzy bounds what lies under the mask is used: the point beside a masked one has probability 1 though its own value, the only one not
masked, has probability 0. -/
theorem C254_fuzzy_mask_refuted :
    ∃ (p : ThreshPlugin) (c : ThreshCube) (cells : List ℕ) (out : ThreshOut), Spec.Thresholdable p none c (some cells) ∧ p.process none c = .ok out ∧
      p.op = .gt ∧ p.thresholds = [2] ∧ p.bounds = [(1, 3)] ∧ p.radii = some [1] ∧ p.unit = none ∧ p.fill = none ∧ out.dims = ["y", "x"] ∧
      (∀ y x, c.data [y, x] = ⟨if x = 1 then 5 else 0, x == 1⟩) ∧ c.points "x" = [0, 1] ∧
      out.data [0, 0] = some 1 ∧ out.data [0, 1] = none := by
  let p : ThreshPlugin := ⟨⟨[2], [(1, 3)], .gt⟩, none, false, some [1], none⟩
  let c := gridForThreshold ["y", "x"] (fun _ => [0, 1]) fun idx => ⟨if idx.getD 1 0 = 1 then 5 else 0, idx.getD 1 0 == 1⟩
  have hT : Spec.Thresholdable p none c (some [1]) := by
    constructor
    case near => exact ⟨by decide +kernel, by unfold Spec.plainName; decide +kernel, by decide +kernel, [1], rfl, .cons (by decide +kernel) .nil⟩
    all_goals decide +kernel
  have hrun : ((p.process none c).toOption.map fun o => (o.dims, o.data [0, 0], o.data [0, 1])) = some (["y", "x"], some 1, none) := by
    decide +kernel
  obtain ⟨out, h1, h2⟩ := result_of_map hrun
  simp only [Prod.mk.injEq] at h2
  exact ⟨p, c, _, out, hT, h1, rfl, rfl, rfl, rfl, rfl, rfl, h2.1, fun _ _ => rfl, rfl, h2.2⟩

/-- **Finding.** The vicinity is over the last two dimensions whatever they are: with dimensions y, x, realization (not collapsed) it is over x and
realizations, so that the value of one realization gets into the other, and that of a neighbouring row does not. -/
theorem C254_axes_refuted :
    ∃ (p : ThreshPlugin) (c : ThreshCube) (cells : List ℕ) (out : ThreshOut), Spec.Thresholdable p none c (some cells) ∧ p.process none c = .ok out ∧
      p.op = .gt ∧ p.thresholds = [1] ∧ p.bounds = [(1, 1)] ∧ p.radii = some [1] ∧ p.unit = none ∧
      c.dims = ["y", "x", "realization"] ∧ (∀ y x r, c.data [y, x, r] = ⟨if r = 1 ∧ y = 0 then 5 else 0, false⟩) ∧
      out.dims = ["realization", "y", "x"] ∧ out.data [0, 0, 0] = some 1 ∧ out.data [1, 1, 0] = some 0 := by
  let p : ThreshPlugin := ⟨⟨[1], [(1, 1)], .gt⟩, none, false, some [1], none⟩
  let c := gridForThreshold ["y", "x", "realization"] (fun _ => [0, 1]) fun idx => ⟨if idx.getD 2 0 = 1 ∧ idx.getD 0 0 = 0 then 5 else 0, false⟩
  have hT : Spec.Thresholdable p none c (some [1]) := by
    constructor
    case near => exact ⟨by decide +kernel, by unfold Spec.plainName; decide +kernel, by decide +kernel, [1], rfl, .cons (by decide +kernel) .nil⟩
    all_goals decide +kernel
  have hrun : ((p.process none c).toOption.map fun o => (o.dims, o.data [0, 0, 0], o.data [1, 1, 0])) = some (["realization", "y", "x"], some 1, some 0) := by
    decide +kernel
  obtain ⟨out, h1, h2⟩ := result_of_map hrun
  simp only [Prod.mk.injEq] at h2
  exact ⟨p, c, _, out, hT, h1, rfl, rfl, rfl, rfl, rfl, rfl, fun _ _ _ => rfl, h2⟩

/-- The hypotheses of C254_probabilities hold of realizations that are collapsed, with masked points, several thresholds and another unit. -/
example : Spec.Thresholdable ⟨⟨[1, 2], [(1, 1), (1, 3)], .lt⟩, some ⟨"m", 1 / 1000, 0⟩, true, none, none⟩ none
    (gridForThreshold ["realization", "y", "x"] (fun _ => [0, 1]) fun idx => ⟨idx.getD 0 0, idx.getD 1 0 == 1⟩) none := by
  constructor <;> decide +kernel

/-- Those of C254_vicinity of realizations that are collapsed, with a land mask and two radii. -/
example : Spec.Thresholdable ⟨⟨[1, 2], [(1, 1), (2, 2)], .ge⟩, none, true, some [1, 2], none⟩ (some fun _ x => x == 1)
    (gridForThreshold ["realization", "y", "x"] (fun _ => [0, 1]) fun idx => ⟨idx.getD 0 0, idx.getD 1 0 == 1⟩) (some [1, 2]) ∧
    Spec.restDims ⟨⟨[1, 2], [(1, 1), (2, 2)], .ge⟩, none, true, some [1, 2], none⟩
      (gridForThreshold ["realization", "y", "x"] (fun _ => [0, 1]) fun idx => ⟨idx.getD 0 0, idx.getD 1 0 == 1⟩) = [] ++ ["y", "x"] := by
  refine ⟨?_, by decide +kernel⟩
  constructor
  case near => exact ⟨by decide +kernel, by unfold Spec.plainName; decide +kernel, by decide +kernel, [1, 2], rfl, .cons (by decide +kernel) (.cons (by decide +kernel) .nil)⟩
  all_goals decide +kernel

end Improver
