import Verif.Model.ShowerRun
import Verif.Props.ThresholdRun

/-! C256: `ShowerConditionProbability` on cubes with named dimensions. -/

namespace Improver

namespace Spec

/-- A cube that can be thresholded: dimensions of different names, none called as the cube or as the coordinates made. -/
structure PlainCube (c : ThreshCube) : Prop where
  nodup : c.dims.Nodup
  fresh : c.name ∉ c.dims
  word : c.name ∉ ["threshold", "realization", "percentile", "radius_of_vicinity"]
  radius : "radius_of_vicinity" ∉ c.dims
  unit : c.unit.scale ≠ 0

/-- Of the cubes `c` and no other has a name that holds `key`. -/
def OnlyOne (key : String) (cubes : List ThreshCube) (c : ThreshCube) : Prop :=
  ∃ pre post, cubes = pre ++ c :: post ∧ key.toList <:+: c.name.toList ∧ ∀ x ∈ pre ++ post, ¬ key.toList <:+: x.name.toList

/-- A shower: little cloud or much convection (that is not missing). -/
def isShower (ct vt : ℚ) (cloud convection : MVal) : Prop := cloud.val ≤ ct ∨ (convection.masked = false ∧ vt < convection.val)

open Classical in
/-- The proportion of showers among the members with a value of the cloud, missing if there are none. -/
noncomputable def showerFraction (ct vt : ℚ) (members : List (MVal × MVal)) : Option ℚ :=
  let l := members.filter fun m => !m.1.masked
  if l = [] then none else some ((l.filter fun m => decide (isShower ct vt m.1 m.2)).length / l.length)

/-- The members at a place. -/
def showerMembers (cloud convection : ThreshCube) (a : String → ℕ) : List (MVal × MVal) :=
  if "realization" ∈ cloud.dims then (List.range (cloud.points "realization").length).map fun r =>
    (placeValue cloud.toDimCube (along a "realization" r), placeValue convection.toDimCube (along a "realization" r))
  else [(placeValue cloud.toDimCube a, placeValue convection.toDimCube a)]

/-- The dimensions of the result. -/
def showerDims (c : ThreshCube) : List String :=
  ((["percentile"].filter fun n => decide (n ∈ c.dims)) ++ c.dims.filter fun n => decide (n ≠ "realization" ∧ n ≠ "percentile")).filter
    fun n => decide ((c.points n).length ≠ 1)

end Spec

theorem showerThresholdable (op : CmpOp) (t : ℚ) {c : ThreshCube} (h : Spec.PlainCube c) : Spec.Thresholdable (showerThreshold op t) none c none where
  nodup := h.nodup
  fresh := h.fresh
  word := h.word
  radius := h.radius
  unit := rfl
  thresholds := by simp [showerThreshold]
  lengths := rfl
  bounds := by
    intro tb htb
    simp only [showerThreshold, List.zip_cons_cons, List.zip_nil_right, List.mem_singleton] at htb
    subst htb
    exact Or.inl rfl
  realization := fun e => nomatch e
  landed := fun _ => rfl
  near := rfl

theorem convertUnit_self {u : StdUnit} (h : u.scale ≠ 0) (x : ℚ) : convertUnit u u x = x := by
  unfold convertUnit
  rw [add_sub_cancel_right, mul_div_assoc, div_self h, mul_one]

/-- One thresholded input: its dimensions and values. -/
theorem showerThreshold_at (op : CmpOp) (t : ℚ) (f : ℚ → ℚ) (hf : ∀ x, truthValue op t (t, t) x = .ok (f x)) {c : ThreshCube} (h : Spec.PlainCube c) :
    ∃ out, (showerThreshold op t).process none c = .ok out ∧
      out.dims = ((["realization", "percentile"].filter fun n => decide (n ∈ c.dims)) ++
          c.dims.filter fun n => decide (n ≠ "realization" ∧ n ≠ "percentile")).filter (fun n => decide ((c.points n).length ≠ 1)) ∧
      (∀ e ∈ c.dims, out.points e = c.points e) ∧
      ∀ a, Spec.Inside c.toPointCube c.dims a → Spec.placeValue out.toDimCube a =
        if (Spec.placeValue c.toDimCube a).masked then none else some (f (Spec.placeValue c.toDimCube a).val) := by
  have hrest : Spec.restDims (showerThreshold op t) c = c.dims := rfl
  obtain ⟨out, h1, _, h3, h4, h5, h6⟩ := C254_probabilities (showerThreshold op t) c (showerThresholdable op t h) rfl
  rw [hrest] at h4 h5 h6
  have hlen : (out.points c.name).length = 1 := by
    rw [h3, List.length_map, npSort_length]
    rfl
  have hw := h.word
  simp only [List.mem_cons, List.not_mem_nil, or_false, not_or] at hw
  have hd : out.dims = ((["realization", "percentile"].filter fun n => decide (n ∈ c.dims)) ++
          c.dims.filter fun n => decide (n ≠ "realization" ∧ n ≠ "percentile")).filter (fun n => decide ((c.points n).length ≠ 1)) := by
    rw [h5]
    have e0 : (["realization", "percentile", c.name] : List String) = ["realization", "percentile"] ++ [c.name] := rfl
    rw [e0]
    simp only [List.filter_append]
    have e1 : ([c.name].filter fun n => decide (n = c.name ∨ n ∈ c.dims)).filter (fun n => decide ((out.points n).length ≠ 1)) = [] := by
      rw [List.filter_eq_nil_iff]
      intro x hx
      have := (List.mem_filter.1 hx).1
      rw [List.mem_singleton] at this
      subst this
      simp [hlen]
    rw [e1, List.append_nil]
    congr 1
    · rw [List.filter_filter, List.filter_filter]
      apply List.filter_congr
      intro n hn
      have hne : n ≠ c.name := by
        simp only [List.mem_cons, List.not_mem_nil, or_false] at hn
        rcases hn with rfl | rfl
        · exact Ne.symm hw.2.1
        · exact Ne.symm hw.2.2.1
      by_cases hm : n ∈ c.dims
      · rw [h4 n hm]; simp [hne, hm]
      · simp [hne, hm]
    · apply List.filter_congr
      intro n hn
      rw [h4 n (List.mem_filter.1 hn).1]
  refine ⟨out, h1, hd, h4, ?_⟩
  intro a ha
  have hno : c.name ∉ out.dims := by
    rw [hd]
    intro e
    rcases List.mem_append.1 (List.mem_filter.1 e).1 with e | e
    · exact h.fresh (by simpa using (List.mem_filter.1 e).2)
    · exact h.fresh (List.mem_filter.1 e).1
  have key := h6 a ha 0 t (t, t) rfl rfl f hf
  have hpl : Spec.placeValue out.toDimCube (Spec.along a c.name 0) = Spec.placeValue out.toDimCube a := by
    unfold Spec.placeValue
    rw [map_along_not_mem hno]
  rw [← hpl, key]
  have hmem : Spec.membersAt (showerThreshold op t) c = [Spec.seen (showerThreshold op t) c] := by
    unfold Spec.membersAt
    rw [if_neg (fun e => nomatch e.1)]
  have hseen : Spec.seen (showerThreshold op t) c a = Spec.placeValue c.toDimCube a := by
    unfold Spec.seen showerThreshold
    simp only [Option.getD_none, ite_self, Option.isNone_none, Bool.and_true]
    rw [convertUnit_self h.unit]
  rw [hmem, List.map_singleton, hseen]
  unfold Spec.meanOfUnmasked
  cases hm : (Spec.placeValue c.toDimCube a).masked <;> simp [hm]

theorem showerAt_eq (ct vt : ℚ) (m : MVal × MVal) [Decidable (Spec.isShower ct vt m.1 m.2)] :
    showerAt (if m.1.masked then none else some (if m.1.val ≤ ct then 1 else 0)) (if m.2.masked then none else some (if vt < m.2.val then 1 else 0)) =
      if m.1.masked then none else some (if Spec.isShower ct vt m.1 m.2 then 1 else 0) := by
  unfold showerAt
  cases h1 : m.1.masked with
  | true => simp
  | false =>
    simp only [Bool.false_eq_true, if_false, Option.map_some, Option.some.injEq]
    have hs : Spec.isShower ct vt m.1 m.2 ↔ m.1.val ≤ ct ∨ (m.2.masked = false ∧ vt < m.2.val) := Iff.rfl
    cases h2 : m.2.masked with
    | true =>
      rw [h2] at hs
      by_cases h3 : m.1.val ≤ ct
      · rw [if_pos h3, if_pos (hs.2 (Or.inl h3))]; simp
      · have hneg : ¬ Spec.isShower ct vt m.1 m.2 := fun e => by simpa [h3] using hs.1 e
        simp [h3, hneg]
    | false =>
      rw [h2] at hs
      by_cases h3 : m.1.val ≤ ct
      · rw [if_pos h3, if_pos (hs.2 (Or.inl h3))]
        by_cases h4 : vt < m.2.val <;> simp [h4]
      · by_cases h4 : vt < m.2.val
        · rw [if_neg h3, if_pos (hs.2 (Or.inr ⟨rfl, h4⟩))]; simp [h4]
        · have hneg : ¬ Spec.isShower ct vt m.1 m.2 := fun e => by simpa [h3, h4] using hs.1 e
          simp [h3, h4, hneg]

theorem showerMean_eq (ct vt : ℚ) (ms : List (MVal × MVal)) :
    meanNotMasked (ms.map fun m => showerAt (if m.1.masked then none else some (if m.1.val ≤ ct then 1 else 0))
      (if m.2.masked then none else some (if vt < m.2.val then 1 else 0))) = Spec.showerFraction ct vt ms := by
  classical
  have key : ∀ ms : List (MVal × MVal), ((ms.map fun m => showerAt (if m.1.masked then none else some (if m.1.val ≤ ct then 1 else 0))
      (if m.2.masked then none else some (if vt < m.2.val then 1 else 0))).filterMap id).length = (ms.filter fun m => !m.1.masked).length ∧
      ((ms.map fun m => showerAt (if m.1.masked then none else some (if m.1.val ≤ ct then 1 else 0))
      (if m.2.masked then none else some (if vt < m.2.val then 1 else 0))).filterMap id).sum =
        ((((ms.filter fun m => !m.1.masked).filter fun m => decide (Spec.isShower ct vt m.1 m.2)).length : ℕ) : ℚ) := by
    intro ms
    induction ms with
    | nil => exact ⟨rfl, rfl⟩
    | cons m ms ih =>
      rw [List.map_cons, showerAt_eq]
      cases h1 : m.1.masked with
      | true =>
        rw [if_pos rfl, List.filter_cons_of_neg (by simp [h1])]
        exact ih
      | false =>
        rw [if_neg (by simp), List.filter_cons_of_pos (by simp [h1]), List.filterMap_cons]
        simp only [id, List.length_cons, List.sum_cons]
        refine ⟨by rw [← ih.1]; rfl, ?_⟩
        have ih2 := ih.2
        simp only [id] at ih2
        by_cases h2 : Spec.isShower ct vt m.1 m.2
        · rw [List.filter_cons_of_pos (by simp [h2]), if_pos h2, List.length_cons]
          push_cast
          rw [← ih2]
          ring_nf
        · rw [List.filter_cons_of_neg (by simp [h2]), if_neg h2, zero_add]
          exact ih2
  unfold meanNotMasked Spec.showerFraction
  simp only
  rw [(key ms).1, (key ms).2]
  by_cases h : (ms.filter fun m => !m.1.masked) = []
  · rw [if_pos h, if_pos (by rw [h]; rfl)]
  · rw [if_neg h, if_neg (fun e => h (List.length_eq_zero_iff.1 e))]

theorem showerDims_erase (c : ThreshCube) (hn : c.dims.Nodup) :
    (((["realization", "percentile"].filter fun n => decide (n ∈ c.dims)) ++ c.dims.filter fun n => decide (n ≠ "realization" ∧ n ≠ "percentile")).filter
      fun n => decide ((c.points n).length ≠ 1)).erase "realization" = Spec.showerDims c := by
  have hno : "realization" ∉ Spec.showerDims c := by
    unfold Spec.showerDims
    intro e
    rcases List.mem_append.1 (List.mem_filter.1 e).1 with e | e
    · have := (List.mem_filter.1 e).1
      simp at this
    · have := (List.mem_filter.1 e).2
      simp at this
  have e0 : (["realization", "percentile"] : List String) = ["realization"] ++ ["percentile"] := rfl
  have e1 : Spec.showerDims c = _ := List.filter_append _ _
  rw [e0]
  simp only [List.filter_append, List.append_assoc]
  rw [← e1]
  by_cases h : "realization" ∈ c.dims ∧ (c.points "realization").length ≠ 1
  · rw [List.filter_cons_of_pos (by simp [h.1]), List.filter_cons_of_pos (by simp [h.2])]
    simp
  · have : (["realization"].filter fun n => decide (n ∈ c.dims)).filter (fun n => decide ((c.points n).length ≠ 1)) = [] := by
      rw [List.filter_eq_nil_iff]
      intro x hx
      have hx1 := (List.mem_filter.1 hx).1
      rw [List.mem_singleton] at hx1
      subst hx1
      have hx2 : "realization" ∈ c.dims := by simpa using (List.mem_filter.1 hx).2
      intro e
      exact h ⟨hx2, by simpa using e⟩
    rw [this, List.nil_append, List.erase_of_not_mem hno]

theorem showerInput_ok {key : String} {cubes : List ThreshCube} {c : ThreshCube} (h : Spec.OnlyOne key cubes c) : showerInput key cubes = .ok c := by
  obtain ⟨pre, post, h1, h2, h3⟩ := h
  unfold showerInput
  rw [h1, List.filter_append, List.filter_cons_of_pos ((nameHolds_iff _ _).2 h2),
    List.filter_eq_nil_iff.2 (fun x hx e => h3 x (by simp [hx]) ((nameHolds_iff _ _).1 e)),
    List.filter_eq_nil_iff.2 (fun x hx e => h3 x (by simp [hx]) ((nameHolds_iff _ _).1 e))]
  rfl

/-- The whole run, for cloud and convection on the same points and dimensions in the same order: at every place the proportion of showers among the
realizations with a value of the cloud (of the cube alone if there are no realizations), missing if there are none. -/
theorem C256_result (ct vt : ℚ) (cubes : List ThreshCube) (cloud convection : ThreshCube)
    (hc : Spec.OnlyOne "cloud_area_fraction" cubes cloud) (hv : Spec.OnlyOne "convective_ratio" cubes convection)
    (h1 : Spec.PlainCube cloud) (h2 : Spec.PlainCube convection) (hd : convection.dims = cloud.dims) (hp : ∀ n ∈ cloud.dims, convection.points n = cloud.points n) :
    ∃ out, showerProcess ct vt cubes = .ok out ∧ out.dims = Spec.showerDims cloud ∧ (∀ n ∈ out.dims, out.points n = cloud.points n) ∧
      ∀ a, Spec.Inside cloud.toPointCube cloud.dims a →
        Spec.placeValue out.toDimCube a = Spec.showerFraction ct vt (Spec.showerMembers cloud convection a) := by
  have hf : ∀ x, truthValue .le ct (ct, ct) x = .ok (if x ≤ ct then 1 else 0) := fun x => by rw [truthValue_crisp]; simp [CmpOp.eval]
  have hg : ∀ x, truthValue .gt vt (vt, vt) x = .ok (if vt < x then 1 else 0) := fun x => by rw [truthValue_crisp]; simp [CmpOp.eval]
  obtain ⟨A, a1, a2, a3, a4⟩ := showerThreshold_at .le ct _ hf h1
  obtain ⟨B, b1, b2, b3, b4⟩ := showerThreshold_at .gt vt _ hg h2
  have hdims : A.dims = B.dims := by
    rw [a2, b2, hd]
    apply List.filter_congr
    intro n hn
    have : n ∈ cloud.dims := by
      rcases List.mem_append.1 hn with e | e
      · simpa using (List.mem_filter.1 e).2
      · exact (List.mem_filter.1 e).1
    rw [hp n this]
  have hmem : ∀ n ∈ B.dims, n ∈ cloud.dims := by
    intro n hn
    rw [b2, hd] at hn
    rcases List.mem_append.1 (List.mem_filter.1 hn).1 with e | e
    · simpa using (List.mem_filter.1 e).2
    · exact (List.mem_filter.1 e).1
  have hBp : ∀ n ∈ cloud.dims, B.points n = cloud.points n := fun n hn => (b3 n (hd ▸ hn)).trans (hp n hn)
  have hAp : ∀ n ∈ cloud.dims, A.points n = cloud.points n := a3
  have hshape : (cloud.dims.map fun n => (cloud.points n).length) = convection.dims.map fun n => (convection.points n).length := by
    rw [hd]
    exact List.map_congr_left fun n hn => by rw [hp n hn]
  have hcomb : combineShower A.toPointCube B.toPointCube = .ok ⟨⟨B.dims, fun idx => showerAt (A.data idx) (B.data idx)⟩, B.points⟩ := by
    unfold combineShower
    rw [if_neg]
    rw [not_not, hdims]
    exact List.map_congr_left fun n hn => by rw [hAp n (hmem n hn), hBp n (hmem n hn)]
  set C : PointCube (Option ℚ) := ⟨⟨B.dims, fun idx => showerAt (A.data idx) (B.data idx)⟩, B.points⟩ with hC
  have hBn : B.dims.Nodup := by
    rw [b2, hd]
    apply List.Nodup.filter
    rw [List.nodup_append]
    refine ⟨List.Nodup.filter _ (by decide), h1.nodup.filter _, ?_⟩
    intro x hx y hy e
    subst e
    have hx1 := (List.mem_filter.1 hx).1
    have hy1 := (List.mem_filter.1 hy).2
    simp only [List.mem_cons, List.not_mem_nil, or_false] at hx1
    simp only [ne_eq, decide_eq_true_eq] at hy1
    rcases hx1 with e | e
    · exact hy1.1 e
    · exact hy1.2 e
  have hCval : ∀ a, Spec.Inside cloud.toPointCube cloud.dims a → Spec.placeValue C.toDimCube a =
      showerAt (if (Spec.placeValue cloud.toDimCube a).masked then none else some (if (Spec.placeValue cloud.toDimCube a).val ≤ ct then 1 else 0))
        (if (Spec.placeValue convection.toDimCube a).masked then none else some (if vt < (Spec.placeValue convection.toDimCube a).val then 1 else 0)) := by
    intro a ha
    rw [← a4 a ha, ← b4 a (fun n hn => by rw [hp n (hd ▸ hn)]; exact ha n (hd ▸ hn))]
    show showerAt (A.data (B.dims.map a)) (B.data (B.dims.map a)) = showerAt (A.data (A.dims.map a)) (B.data (B.dims.map a))
    rw [hdims]
  have hK : (collapseMean C).dims = Spec.showerDims cloud ∧ (collapseMean C).points = B.points ∧
      ∀ a, Spec.Inside cloud.toPointCube cloud.dims a → Spec.placeValue (collapseMean C).toDimCube a =
        Spec.showerFraction ct vt (Spec.showerMembers cloud convection a) := by
    have herase : B.dims.erase "realization" = Spec.showerDims cloud := by
      rw [← hdims, a2]
      exact showerDims_erase cloud h1.nodup
    by_cases hr : "realization" ∈ B.dims
    · have hin : "realization" ∈ cloud.dims := hmem _ hr
      unfold collapseMean
      rw [if_pos (show "realization" ∈ C.dims from hr)]
      refine ⟨herase, rfl, ?_⟩
      intro a ha
      rw [← showerMean_eq]
      unfold Spec.showerMembers
      rw [if_pos hin, List.map_map]
      show meanNotMasked ((List.range (B.points "realization").length).map fun i => (C.sliceAt "realization" i).data ((B.dims.erase "realization").map a)) = _
      congr 1
      rw [hBp _ hin]
      apply List.map_congr_left
      intro i hi
      have := sliceAt_at C hBn hr i a
      unfold Spec.placeValue at this
      rw [show ((C.sliceAt "realization" i).dims) = B.dims.erase "realization" from rfl] at this
      rw [this]
      refine (hCval (Spec.along a "realization" i) ?_)
      intro n hn
      unfold Spec.along
      by_cases e : n = "realization"
      · rw [if_pos e, e]; simpa using hi
      · rw [if_neg e]; exact ha n hn
    · unfold collapseMean
      rw [if_neg (show ¬ "realization" ∈ C.dims from hr)]
      refine ⟨?_, rfl, ?_⟩
      · rw [← herase, List.erase_of_not_mem hr]
      · intro a ha
        rw [← showerMean_eq, hCval a ha]
        have hmembers : Spec.showerMembers cloud convection a = [(Spec.placeValue cloud.toDimCube a, Spec.placeValue convection.toDimCube a)] := by
          unfold Spec.showerMembers
          by_cases hin : "realization" ∈ cloud.dims
          · have hlen : (cloud.points "realization").length = 1 := by
              by_contra hne
              apply hr
              rw [← hdims, a2]
              apply List.mem_filter.2
              refine ⟨List.mem_append.2 (Or.inl (List.mem_filter.2 ⟨by simp, by simp [hin]⟩)), by simpa using hne⟩
            have h0 : a "realization" = 0 := by have := ha _ hin; omega
            rw [if_pos hin, hlen]
            have : Spec.along a "realization" 0 = a := by rw [← h0, along_same]
            simp [this]
          · rw [if_neg hin]
        rw [hmembers, List.map_singleton]
        unfold meanNotMasked
        generalize showerAt _ _ = z
        cases z <;> simp
  have hsub : ∀ n ∈ (collapseMean C).dims, n ∈ cloud.dims ∧ (cloud.points n).length ≠ 1 := by
    intro n hn
    rw [hK.1] at hn
    unfold Spec.showerDims at hn
    refine ⟨?_, by simpa using (List.mem_filter.1 hn).2⟩
    rcases List.mem_append.1 (List.mem_filter.1 hn).1 with e | e
    · simpa using (List.mem_filter.1 e).2
    · exact (List.mem_filter.1 e).1
  have hsq : (collapseMean C).squeezed.dims = (collapseMean C).dims := by
    show List.filter _ _ = _
    rw [List.filter_eq_self]
    intro n hn
    rw [hK.2.1, hBp n (hsub n hn).1]
    simpa using (hsub n hn).2
  refine ⟨(collapseMean C).squeezed, ?_, hsq.trans hK.1, ?_, ?_⟩
  · have i1 : showerInput "cloud_area_fraction" cubes = .ok cloud := showerInput_ok hc
    have i2 : showerInput "convective_ratio" cubes = .ok convection := showerInput_ok hv
    unfold showerProcess
    rw [i1, i2]
    simp only [bind, Except.bind]
    rw [if_neg (not_not.2 hshape), a1]
    simp only
    rw [b1]
    simp only
    rw [hcomb]
  · intro n hn
    rw [hsq] at hn
    show (collapseMean C).points n = _
    rw [hK.2.1, hBp n (hsub n hn).1]
  · intro a ha
    rw [squeezed_at (collapseMean C) a (fun n hn => by rw [hK.2.1, hBp n (hsub n hn).1]; exact ha n (hsub n hn).1)]
    exact hK.2.2 a ha

theorem showerInput_only {key : String} {cubes : List ThreshCube} {c : ThreshCube} (h : showerInput key cubes = .ok c) : Spec.OnlyOne key cubes c := by
  unfold showerInput at h
  cases hf : cubes.filter (nameHolds key) with
  | nil => rw [hf] at h; exact nomatch h
  | cons d l =>
    rw [hf] at h
    cases l with
    | cons _ _ => exact nomatch h
    | nil =>
      cases h
      obtain ⟨pre, post, h1, h2, h3, h4⟩ := List.filter_eq_cons_iff.1 hf
      refine ⟨pre, post, h1, (nameHolds_iff _ _).1 h3, ?_⟩
      intro x hx e
      rcases List.mem_append.1 hx with hx | hx
      · exact h2 x hx ((nameHolds_iff _ _).2 e)
      · exact List.filter_eq_nil_iff.1 h4 x hx ((nameHolds_iff _ _).2 e)

/-- Nothing is returned unless there is exactly one cube of each kind and the two have one shape. -/
theorem C256_refused (ct vt : ℚ) (cubes : List ThreshCube)
    (h : (∀ c, ¬ Spec.OnlyOne "cloud_area_fraction" cubes c) ∨ (∀ c, ¬ Spec.OnlyOne "convective_ratio" cubes c) ∨
      ∃ cloud convection, Spec.OnlyOne "cloud_area_fraction" cubes cloud ∧ Spec.OnlyOne "convective_ratio" cubes convection ∧
        (cloud.dims.map fun n => (cloud.points n).length) ≠ convection.dims.map fun n => (convection.points n).length) :
    ∀ out, showerProcess ct vt cubes ≠ .ok out := by
  intro out hout
  unfold showerProcess at hout
  cases h1 : showerInput "cloud_area_fraction" cubes with
  | error e => rw [h1] at hout; exact nomatch hout
  | ok cloud =>
  cases h2 : showerInput "convective_ratio" cubes with
  | error e => rw [h1, h2] at hout; exact nomatch hout
  | ok convection =>
  rcases h with h | h | ⟨c1, c2, e1, e2, e3⟩
  · exact h _ (showerInput_only h1)
  · exact h _ (showerInput_only h2)
  · rw [showerInput_ok e1] at h1
    rw [showerInput_ok e2] at h2
    cases h1
    cases h2
    rw [showerInput_ok e1, showerInput_ok e2] at hout
    simp only [bind, Except.bind] at hout
    rw [if_pos e3] at hout
    exact nomatch hout

/-- Inputs for the statements below. -/
def showerCubeFor (name : String) (dims : List String) (scale : ℚ) (data : List ℕ → MVal) : ThreshCube :=
  ⟨⟨⟨dims, data⟩, fun n => if n = "realization" then [0, 1, 2] else [0, 1]⟩, name, ⟨"1", scale, 0⟩, [], "x"⟩

/-- **Finding.** Only the shapes are compared: with the cloud on (y, x) and the convection on (x, y) the cloud is used transposed.  There is little cloud
at y = 1, x = 0 only, and the shower is found at y = 0, x = 1. -/
theorem C256_axes_refuted :
    ∃ (cloud convection : ThreshCube) (out : PointCube (Option ℚ)), Spec.PlainCube cloud ∧ Spec.PlainCube convection ∧
      Spec.OnlyOne "cloud_area_fraction" [cloud, convection] cloud ∧ Spec.OnlyOne "convective_ratio" [cloud, convection] convection ∧
      cloud.dims = ["y", "x"] ∧ convection.dims = ["x", "y"] ∧ (∀ n, convection.points n = cloud.points n) ∧
      (∀ y x, cloud.data [y, x] = ⟨if y = 1 ∧ x = 0 then 0 else 1, false⟩) ∧ (∀ idx, convection.data idx = ⟨0, false⟩) ∧
      showerProcess (13 / 16) (4 / 5) [cloud, convection] = .ok out ∧ out.dims = ["x", "y"] ∧ out.data [1, 0] = some 1 ∧ out.data [0, 1] = some 0 := by
  let cloud := showerCubeFor "low_and_medium_type_cloud_area_fraction" ["y", "x"] 1 fun idx => ⟨if idx.getD 0 0 = 1 ∧ idx.getD 1 0 = 0 then 0 else 1, false⟩
  let convection := showerCubeFor "convective_ratio" ["x", "y"] 1 fun _ => ⟨0, false⟩
  have hrun : ((showerProcess (13 / 16) (4 / 5) [cloud, convection]).toOption.map fun o => (o.dims, o.data [1, 0], o.data [0, 1])) =
      some (["x", "y"], some 1, some 0) := by
    decide +kernel
  obtain ⟨out, h1, h2⟩ := result_of_map hrun
  simp only [Prod.mk.injEq] at h2
  refine ⟨cloud, convection, out, ⟨by decide +kernel, by decide +kernel, by decide +kernel, by decide +kernel, by decide +kernel⟩,
    ⟨by decide +kernel, by decide +kernel, by decide +kernel, by decide +kernel, by decide +kernel⟩,
    ⟨[], [convection], rfl, by decide +kernel, by
      intro x hx
      rw [List.nil_append, List.mem_singleton] at hx
      subst hx
      decide +kernel⟩,
    ⟨[cloud], [], rfl, by decide +kernel, by
      intro x hx
      rw [List.append_nil, List.mem_singleton] at hx
      subst hx
      decide +kernel⟩, rfl, rfl, fun _ => rfl, fun _ _ => rfl, fun _ => rfl, h1, h2⟩

/-- **Finding.** Units are not looked at: with a cloud of 50 per cent everywhere, below the threshold of 0.8125, there is no shower. -/
theorem C256_percent_refuted :
    ∃ (cloud convection : ThreshCube) (out : PointCube (Option ℚ)), Spec.PlainCube cloud ∧ Spec.PlainCube convection ∧
      Spec.OnlyOne "cloud_area_fraction" [cloud, convection] cloud ∧ Spec.OnlyOne "convective_ratio" [cloud, convection] convection ∧
      cloud.unit = ⟨"1", 1 / 100, 0⟩ ∧ (∀ idx, cloud.data idx = ⟨50, false⟩) ∧ (∀ idx, convection.data idx = ⟨0, false⟩) ∧
      showerProcess (13 / 16) (4 / 5) [cloud, convection] = .ok out ∧ out.dims = ["y", "x"] ∧ out.data [0, 0] = some 0 := by
  let cloud := showerCubeFor "low_and_medium_type_cloud_area_fraction" ["y", "x"] (1 / 100) fun _ => ⟨50, false⟩
  let convection := showerCubeFor "convective_ratio" ["y", "x"] 1 fun _ => ⟨0, false⟩
  have hrun : ((showerProcess (13 / 16) (4 / 5) [cloud, convection]).toOption.map fun o => (o.dims, o.data [0, 0])) = some (["y", "x"], some 0) := by
    decide +kernel
  obtain ⟨out, h1, h2⟩ := result_of_map hrun
  simp only [Prod.mk.injEq] at h2
  refine ⟨cloud, convection, out, ⟨by decide +kernel, by decide +kernel, by decide +kernel, by decide +kernel, by decide +kernel⟩,
    ⟨by decide +kernel, by decide +kernel, by decide +kernel, by decide +kernel, by decide +kernel⟩,
    ⟨[], [convection], rfl, by decide +kernel, by
      intro x hx
      rw [List.nil_append, List.mem_singleton] at hx
      subst hx
      decide +kernel⟩,
    ⟨[cloud], [], rfl, by decide +kernel, by
      intro x hx
      rw [List.append_nil, List.mem_singleton] at hx
      subst hx
      decide +kernel⟩, rfl, fun _ => rfl, fun _ => rfl, h1, h2⟩

/-- The hypotheses of C256_result hold of cubes with realizations and masks; and the fraction at a place with one masked member of three is one half. -/
example :
    let cloud := showerCubeFor "low_and_medium_type_cloud_area_fraction" ["realization", "y", "x"] 1 fun idx => ⟨if idx.getD 0 0 = 1 then 0 else 1, idx.getD 0 0 == 2⟩
    let convection := showerCubeFor "convective_ratio" ["realization", "y", "x"] 1 fun idx => ⟨idx.getD 0 0, idx.getD 0 0 == 1⟩
    Spec.PlainCube cloud ∧ Spec.PlainCube convection ∧ Spec.OnlyOne "cloud_area_fraction" [cloud, convection] cloud ∧
      Spec.OnlyOne "convective_ratio" [cloud, convection] convection ∧ convection.dims = cloud.dims ∧ (∀ n ∈ cloud.dims, convection.points n = cloud.points n) ∧
      ((showerProcess (13 / 16) (4 / 5) [cloud, convection]).toOption.map fun o => (o.dims, o.data [0, 0])) = some (["y", "x"], some (1 / 2)) := by
  intro cloud convection
  refine ⟨⟨by decide +kernel, by decide +kernel, by decide +kernel, by decide +kernel, by decide +kernel⟩,
    ⟨by decide +kernel, by decide +kernel, by decide +kernel, by decide +kernel, by decide +kernel⟩,
    ⟨[], [convection], rfl, by decide +kernel, by
      intro x hx
      rw [List.nil_append, List.mem_singleton] at hx
      subst hx
      decide +kernel⟩,
    ⟨[cloud], [], rfl, by decide +kernel, by
      intro x hx
      rw [List.append_nil, List.mem_singleton] at hx
      subst hx
      decide +kernel⟩, rfl, fun _ _ => rfl, by decide +kernel⟩

end Improver
