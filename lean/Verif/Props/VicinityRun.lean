import Verif.Model.VicinityRun
import Verif.Props.ThresholdRun

/-! C255: `OccurrenceWithinVicinity` on cubes with named dimensions. -/

namespace Improver

namespace Spec

/-- The dimensions other than y and x. -/
def otherDims (c : VicCube) : List String := c.dims.filter fun n => decide (n ≠ c.yName ∧ n ≠ c.xName)

/-- Cubes the statements are about: dimensions have different names and are dimension coordinates, so that their points differ; y and x are dimensions;
nothing is called as the new coordinate. -/
structure VicReady (c : VicCube) : Prop where
  nodup : c.dims.Nodup
  y : c.yName ∈ c.dims
  x : c.xName ∈ c.dims
  yx : c.yName ≠ c.xName
  points : ∀ n ∈ c.dims, (c.points n).Nodup
  radius : "radius_of_vicinity" ∉ c.dims ∧ "radius_of_vicinity" ∉ c.scalars
  word : "threshold" ∉ c.dims
  prob : c.isProb = true → ∃ d v t, plainName d ∧ c.name = probName d v t

/-- The land mask as a function of the place: it is on y and x in this order, with the points of the cube. -/
def LandFor (p : VicPlugin) (c : VicCube) (land : Option (ℕ → ℕ → Bool)) : Prop :=
  match p.land with
  | none => land = none
  | some l => l.dims = [c.yName, c.xName] ∧ l.points c.yName = c.points c.yName ∧ l.points c.xName = c.points c.xName ∧
    land = some fun y x => decide (1 / 2 ≤ placeValue l.toDimCube (fun n => if n = c.yName then y else x))

/-- The radii in grid cells: the whole part of a radius given in cells. -/
def CellsFor (p : VicPlugin) (c : VicCube) (cells : List ℕ) : Prop :=
  if p.inCells then List.Forall₂ (fun (r : ℚ) (n : ℕ) => (n : ℚ) ≤ r ∧ r < n + 1) p.radii cells
  else List.Forall₂ (fun r n => distanceToCells (c.points c.xName) r = .ok n) p.radii cells

end Spec

theorem landFor_ok {p : VicPlugin} {c : VicCube} {land : Option (ℕ → ℕ → Bool)} (h : Spec.VicReady c) (hl : Spec.LandFor p c land) :
    checkLand p c = .ok land := by
  unfold Spec.LandFor at hl
  unfold checkLand
  cases hp : p.land with
  | none => rw [hp] at hl; simp only at hl ⊢; rw [hl]
  | some l =>
    rw [hp] at hl
    simp only at hl ⊢
    obtain ⟨h1, h2, h3, h4⟩ := hl
    rw [if_neg (by simp [h2, h3]), if_neg (by simp [h1, h2, h3]), h4]
    congr 2
    funext y x
    unfold Spec.placeValue
    rw [h1]
    simp [h.yx.symm]

theorem cellsFor_ok {p : VicPlugin} {c : VicCube} {cells : List ℕ} (hc : Spec.CellsFor p c cells) : vicCells p c = .ok cells := by
  unfold Spec.CellsFor at hc
  unfold vicCells
  by_cases h : p.inCells = true
  · rw [if_pos h] at hc ⊢
    congr 1
    generalize p.radii = l at hc ⊢
    induction hc with
    | nil => rfl
    | @cons r n _ _ h1 _ ih =>
      have e : ⌊r⌋ = (n : ℤ) := Int.floor_eq_iff.2 ⟨by exact_mod_cast h1.1, by exact_mod_cast h1.2⟩
      rw [List.map_cons, ih, e, Int.toNat_natCast]
  · rw [if_neg h] at hc ⊢
    exact mapM_of_forall₂' hc

/-- Where a value was before sorting. -/
theorem argsort_index {p : List ℚ} (hn : p.Nodup) {i j : ℕ} (hi : i < p.length) (h : (npSort p)[j]? = p[i]?) : (argsort p).getD j 0 = i := by
  obtain ⟨h1, h2⟩ := argsort_getD p
  rw [← h2, List.getElem?_map, List.getElem?_eq_getElem hi] at h
  cases hj : (argsort p)[j]? with
  | none => rw [hj] at h; exact nomatch h
  | some k =>
    rw [hj] at h
    have hk : k < p.length := by
      have : k ∈ argsort p := List.mem_of_getElem? hj
      have := (argsort_perm p).mem_iff.1 this
      simpa using this
    simp only [Option.map_some, Option.some.injEq] at h
    rw [List.getD_eq_getElem?_getD, hj]
    rw [List.getD_eq_getElem _ _ hk] at h
    exact (hn.getElem_inj_iff).1 h

theorem sortedPlace_named {dims others : List String} {points : String → List ℚ} {a b : String → ℕ}
    (ho : ∀ n ∈ others, (argsort (points n)).getD (b n) 0 = a n) (hr : ∀ n ∈ dims, n ∉ others → b n = a n) :
    sortedPlace dims others points (dims.map b) = dims.map a := by
  unfold sortedPlace
  apply List.map_congr_left
  intro n hn
  rw [getD_map_idxOf hn]
  by_cases h : n ∈ others
  · rw [if_pos h, ho n h]
  · rw [if_neg h, hr n hn h]

theorem atYX_named {c : VicCube} (h : Spec.VicReady c) (a : String → ℕ) (y x : ℕ) :
    atYX c (c.dims.map a) y x = c.dims.map (Spec.along (Spec.along a c.yName y) c.xName x) := by
  unfold atYX
  rw [map_set_named h.nodup h.y, map_set_named h.nodup h.x]

theorem vicValue_named {c : VicCube} (h : Spec.VicReady c) (land : Option (ℕ → ℕ → Bool)) (r : ℕ) (a : String → ℕ) :
    vicValue c land r (c.dims.map a) = ⟨maximumWithinVicinity (c.points c.yName).length (c.points c.xName).length r fillFloat32
      (fun y x => (Spec.placeValue c.toDimCube (Spec.along (Spec.along a c.yName y) c.xName x)).masked) land
      (fun y x => (Spec.placeValue c.toDimCube (Spec.along (Spec.along a c.yName y) c.xName x)).val) (a c.yName) (a c.xName),
      (Spec.placeValue c.toDimCube a).masked⟩ := by
  unfold vicValue
  simp only [atYX_named h, getD_map_idxOf h.y, getD_map_idxOf h.x]
  rfl

theorem vicName_ready {c : VicCube} (h : Spec.VicReady c) : ∃ n, vicName c = .ok n ∧
    (c.isProb = false → n = c.name ++ "_in_vicinity".toList) ∧
    (c.isProb = true → ∀ d v t, Spec.plainName d → c.name = Spec.probName d v t → n = Spec.probName d .fixed t) := by
  unfold vicName
  cases hp : c.isProb with
  | false => exact ⟨_, rfl, fun _ => rfl, fun e => (nomatch e)⟩
  | true =>
    obtain ⟨d, v, t, h1, h2⟩ := h.prob hp
    refine ⟨Spec.probName d .fixed t, ?_, fun e => (nomatch e), ?_⟩
    · rw [if_pos rfl, h2]
      exact C137_vicinity d v t h1
    · intro _ d' v' t' h1' h2'
      have e := C137_injective d d' v v' t t' h1 h1' (h2.symm.trans h2')
      rw [e.1, e.2.2]

/-- The whole run: the result has the dimensions of the cube, those without a coordinate system first, with the radius (if there are several) before the others;
the points of every dimension but y and x are in ascending order; and every value is found at the labels of the value it was made from: the greatest value
within the radius not masked and on the same side of the coast, where the cube is not masked, and the value itself where it is. -/
theorem C255_result (p : VicPlugin) (c : VicCube) (h : Spec.VicReady c) (land : Option (ℕ → ℕ → Bool)) (cells : List ℕ)
    (hland : Spec.LandFor p c land) (hcells : Spec.CellsFor p c cells) (hr : p.radii.Nodup) :
    ∃ out, p.process c = .ok out ∧
      (c.isProb = false → out.name = c.name ++ "_in_vicinity".toList) ∧
      (c.isProb = true → ∀ d v t, Spec.plainName d → c.name = Spec.probName d v t → out.name = Spec.probName d .fixed t) ∧
      out.dims = c.dims.filter (fun n => !c.hasSystem n) ++ (if p.radii.length = 1 then [] else ["radius_of_vicinity"]) ++ c.dims.filter c.hasSystem ∧
      out.points "radius_of_vicinity" = npSort p.radii ∧
      (∀ n ∈ Spec.otherDims c, out.points n = npSort (c.points n)) ∧
      out.points c.yName = c.points c.yName ∧ out.points c.xName = c.points c.xName ∧
      ∀ (a b : String → ℕ) (v : ℕ) (radius : ℚ) (r : ℕ), Spec.Inside c.toPointCube c.dims a → p.radii[v]? = some radius → cells[v]? = some r →
        (npSort p.radii)[b "radius_of_vicinity"]? = some radius →
        (∀ n ∈ Spec.otherDims c, (npSort (c.points n))[b n]? = (c.points n)[a n]?) → b c.yName = a c.yName → b c.xName = a c.xName →
        ∃ q, Spec.placeValue out.toDimCube b = ⟨q, (Spec.placeValue c.toDimCube a).masked⟩ ∧
          ((Spec.placeValue c.toDimCube a).masked = true → q = (Spec.placeValue c.toDimCube a).val) ∧
          ((Spec.placeValue c.toDimCube a).masked = false → (∀ a, -fillFloat32 ≤ (Spec.placeValue c.toDimCube a).val) →
            IsGreatest (Spec.vicinity (c.points c.yName).length (c.points c.xName).length r
              (fun y x => (Spec.placeValue c.toDimCube (Spec.along (Spec.along a c.yName y) c.xName x)).masked) land
              (fun y x => (Spec.placeValue c.toDimCube (Spec.along (Spec.along a c.yName y) c.xName x)).val) (a c.yName) (a c.xName)) q) := by
  have hl := landFor_ok h hland
  have hc := cellsFor_ok hcells
  obtain ⟨nm, n1, n2, n3⟩ := vicName_ready h
  set M := vicMerged p c land cells with hM
  have hothers : (c.dims.filter fun n => decide (n ≠ c.yName ∧ n ≠ c.xName)) = Spec.otherDims c := rfl
  have hMd : M.dims = (if p.radii.length = 1 then [] else ["radius_of_vicinity"]) ++ c.dims := by
    rw [hM]
    unfold vicMerged
    by_cases e : p.radii.length = 1
    · simp only [if_pos e]; rfl
    · simp only [if_neg e]; rfl
  have hMp : M.points = fun n => if n = "radius_of_vicinity" then npSort p.radii else if n ∈ Spec.otherDims c then npSort (c.points n) else c.points n := by
    rw [hM]
    unfold vicMerged
    by_cases e : p.radii.length = 1
    · simp only [if_pos e]; rfl
    · simp only [if_neg e]; rfl
  have hMn : M.dims.Nodup := by
    rw [hMd]
    split
    · exact h.nodup
    · exact List.nodup_cons.2 ⟨h.radius.1, h.nodup⟩
  have hlead : (c.dims.filter fun n => !c.hasSystem n).Nodup := h.nodup.filter _
  obtain ⟨o, o1, o2, o3, o4⟩ := reorder_at M hMn (c.dims.filter fun n => !c.hasSystem n) hlead fun e => h.word (List.mem_filter.1 e).1
  refine ⟨⟨o, nm⟩, ?_, n2, n3, ?_, ?_, ?_, ?_, ?_, ?_⟩
  · unfold VicPlugin.process
    rw [hl]
    simp only [bind, Except.bind]
    rw [hc]
    simp only
    rw [if_neg (by rw [not_or]; exact h.radius), if_neg (not_not.2 hr), n1]
    simp only
    rw [← hM, o1]
  · show o.dims = _
    rw [o2, hMd, List.filter_append, List.append_assoc]
    congr 1
    · rw [List.filter_eq_self]
      intro n hn
      have := (List.mem_filter.1 hn).1
      simp [this]
    · congr 1
      · rw [List.filter_eq_self]
        intro n hn
        split at hn
        · exact nomatch hn
        · rw [List.mem_singleton] at hn
          subst hn
          rw [decide_eq_true_eq]
          exact fun e => h.radius.1 (List.mem_filter.1 e).1
      · apply List.filter_congr
        intro n hn
        cases e : c.hasSystem n <;> simp [hn, e]
  · show o.points _ = _
    rw [o3, hMp]
    exact if_pos rfl
  · intro n hn
    show o.points _ = _
    rw [o3, hMp]
    have : n ≠ "radius_of_vicinity" := fun e => h.radius.1 (e ▸ (List.mem_filter.1 hn).1)
    simp only [if_neg this, if_pos hn]
  · show o.points _ = _
    rw [o3, hMp]
    have : c.yName ≠ "radius_of_vicinity" := fun e => h.radius.1 (e ▸ h.y)
    have h2 : c.yName ∉ Spec.otherDims c := fun e => by have := (List.mem_filter.1 e).2; simp at this
    simp only [if_neg this, if_neg h2]
  · show o.points _ = _
    rw [o3, hMp]
    have : c.xName ≠ "radius_of_vicinity" := fun e => h.radius.1 (e ▸ h.x)
    have h2 : c.xName ∉ Spec.otherDims c := fun e => by have := (List.mem_filter.1 e).2; simp at this
    simp only [if_neg this, if_neg h2]
  · intro a b v radius r ha hv hcv hb ho hy hx
    have hvl : v < p.radii.length := (List.getElem?_eq_some_iff.1 hv).1
    have hidx : (argsort p.radii).getD (b "radius_of_vicinity") 0 = v := argsort_index hr hvl (hb.trans hv.symm)
    have hsp : sortedPlace c.dims (Spec.otherDims c) c.points (c.dims.map b) = c.dims.map a := by
      apply sortedPlace_named
      · intro n hn
        have hd := (List.mem_filter.1 hn).1
        exact argsort_index (h.points n hd) (ha n hd) (ho n hn)
      · intro n hn hnot
        by_cases e1 : n = c.yName
        · rw [e1, hy]
        by_cases e2 : n = c.xName
        · rw [e2, hx]
        exact absurd (List.mem_filter.2 ⟨hn, by simp [e1, e2]⟩) hnot
    have hval : Spec.placeValue M.toDimCube b = vicValue c land r (c.dims.map a) := by
      have hcg : cells.getD v 0 = r := by rw [List.getD_eq_getElem?_getD, hcv]; rfl
      rw [hM]
      unfold vicMerged Spec.placeValue
      by_cases e : p.radii.length = 1
      · simp only [if_pos e]
        rw [hothers, hsp]
        have : v = 0 := by omega
        subst this
        rw [hcg]
      · simp only [if_neg e, List.map_cons, List.getD_cons_zero, List.drop_succ_cons, List.drop_zero]
        rw [hothers, hsp, hidx, hcg]
    refine ⟨(vicValue c land r (c.dims.map a)).val, ?_, ?_, ?_⟩
    · show Spec.placeValue o.toDimCube b = _
      rw [o4, hval, vicValue_named h]
    · intro hm
      rw [vicValue_named h]
      simp only
      rw [C68_masked_unchanged _ _ _ _ _ _ _ _ _ (ha _ h.y) (ha _ h.x) (by simp only [along_same]; exact hm)]
      simp only [along_same]
    · intro hm hlow
      rw [vicValue_named h]
      simp only
      exact C68_maximum _ _ _ _ _ _ _ (fun y x _ _ => hlow _) _ _ (ha _ h.y) (ha _ h.x) (by simp only [along_same]; exact hm)

/-- Nothing is returned if the cube has a radius of vicinity already, if a radius is given twice, or if the land mask is on another grid; and no plugin is made
with a land mask of another name. -/
theorem C255_refused (p : VicPlugin) (c : VicCube) :
    (("radius_of_vicinity" ∈ c.dims ∨ "radius_of_vicinity" ∈ c.scalars) ∨ ¬ p.radii.Nodup ∨
      (∃ l, p.land = some l ∧ (l.points c.yName ≠ c.points c.yName ∨ l.points c.xName ≠ c.points c.xName)) → ∀ out, p.process c ≠ .ok out) ∧
    ∀ radii cells (l : VicLand), l.name ≠ "land_binary_mask" → ∀ q, VicPlugin.make radii cells (some l) ≠ .ok q := by
  constructor
  · intro h out hout
    unfold VicPlugin.process at hout
    simp only [bind, Except.bind] at hout
    cases h1 : checkLand p c with
    | error e => rw [h1] at hout; exact nomatch hout
    | ok land =>
    rw [h1] at hout
    simp only at hout
    cases h2 : vicCells p c with
    | error e => rw [h2] at hout; exact nomatch hout
    | ok cells =>
    rw [h2] at hout
    simp only at hout
    by_cases h3 : "radius_of_vicinity" ∈ c.dims ∨ "radius_of_vicinity" ∈ c.scalars
    · rw [if_pos h3] at hout; exact nomatch hout
    rw [if_neg h3] at hout
    by_cases h4 : ¬ p.radii.Nodup
    · rw [if_pos h4] at hout; exact nomatch hout
    rcases h with h | h | ⟨l, e1, e2⟩
    · exact h3 h
    · exact h4 h
    · unfold checkLand at h1
      rw [e1] at h1
      simp only at h1
      rw [if_pos e2] at h1
      exact nomatch h1
  · intro radii cells l hl q hq
    unfold VicPlugin.make at hq
    simp only [bind, Except.bind] at hq
    cases h1 : vicinityInit radii cells with
    | error e => rw [h1] at hq; exact nomatch hq
    | ok v =>
      rw [h1] at hq
      simp only at hq
      rw [if_pos hl] at hq
      exact nomatch hq

/-- **Finding.** A land mask with the same coordinates but its dimensions in the other order is accepted on a square grid, and used transposed: land is where
x is 0, the value 5 is at sea, and it is given to the land point beside it. -/
theorem C255_land_order_refuted :
    ∃ (p : VicPlugin) (c : VicCube) (l : VicLand) (out : VicOut), Spec.VicReady c ∧ p.land = some l ∧ l.dims = ["x", "y"] ∧ l.points = c.points ∧
      (∀ a, Spec.placeValue l.toDimCube a = if a "x" = 0 then 1 else 0) ∧ c.dims = ["y", "x"] ∧
      (∀ y x, c.data [y, x] = ⟨if y = 0 ∧ x = 1 then 5 else 0, false⟩) ∧ p.radii = [1] ∧ p.inCells = true ∧
      p.process c = .ok out ∧ out.dims = ["y", "x"] ∧ out.data [0, 0] = ⟨5, false⟩ := by
  let l : VicLand := ⟨⟨⟨["x", "y"], fun idx => if idx.getD 0 0 = 0 then 1 else 0⟩, fun _ => [0, 1]⟩, "land_binary_mask"⟩
  let p : VicPlugin := ⟨[1], true, some l⟩
  let c : VicCube := ⟨⟨⟨["y", "x"], fun idx => ⟨if idx.getD 0 0 = 0 ∧ idx.getD 1 0 = 1 then 5 else 0, false⟩⟩, fun _ => [0, 1]⟩, "rain".toList, false, "y", "x",
    fun _ => true, []⟩
  have hrun : ((p.process c).toOption.map fun o => (o.dims, o.data [0, 0])) = some (["y", "x"], ⟨5, false⟩) := by
    decide +kernel
  obtain ⟨out, h1, h2⟩ := result_of_map hrun
  simp only [Prod.mk.injEq] at h2
  refine ⟨p, c, l, out, ⟨by decide +kernel, by decide +kernel, by decide +kernel, by decide +kernel, fun n _ => by
      show ([0, 1] : List ℚ).Nodup
      decide +kernel, by decide +kernel, by decide +kernel, fun e => nomatch e⟩, rfl, rfl, rfl, fun _ => rfl, rfl, fun _ _ => rfl, rfl, rfl, h1, h2⟩

/-- The hypotheses of C255_result hold of a cube of three dimensions with descending levels, two radii given in descending order and a land mask. -/
example :
    let l : VicLand := ⟨⟨⟨["y", "x"], fun idx => if idx.getD 0 0 = 0 then 1 else 0⟩, fun _ => [0, 1]⟩, "land_binary_mask"⟩
    let p : VicPlugin := ⟨[2, 1], true, some l⟩
    let c : VicCube := ⟨⟨⟨["pressure", "y", "x"], fun idx => ⟨idx.getD 0 0, idx.getD 1 0 == 1⟩⟩, fun n => if n = "pressure" then [1000, 500] else [0, 1]⟩,
      "rain".toList, false, "y", "x", fun n => n != "pressure", []⟩
    Spec.VicReady c ∧ Spec.LandFor p c (some fun y _ => decide (y = 0)) ∧ Spec.CellsFor p c [2, 1] ∧ p.radii.Nodup := by
  intro l p c
  refine ⟨⟨by decide +kernel, by decide +kernel, by decide +kernel, by decide +kernel, by decide +kernel, by decide +kernel, by decide +kernel,
    fun e => nomatch e⟩, ⟨rfl, rfl, rfl, ?_⟩, .cons (by decide +kernel) (.cons (by decide +kernel) .nil), by decide +kernel⟩
  congr 1
  funext y x
  show decide (y = 0) = decide ((1 / 2 : ℚ) ≤ if y = 0 then 1 else 0)
  by_cases e : y = 0
  · subst e; decide +kernel
  · rw [if_neg e, decide_eq_false e]; decide +kernel

end Improver
