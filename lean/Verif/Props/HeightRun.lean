import Verif.Model.HeightRun
import Verif.Props.LapseRate
import Verif.Props.ReliabilityRun
import Verif.Lemmas.ListAux

/-! Theorems about the `apply-height-adjustment` command (C239). -/

namespace Improver

/-- `d` is the displacement of the sites by the method the options name: "nearest", with "_land" and "_minimum_dz" as asked. -/
def Spec.siteDisplacement (neighbours : List (String × List ℚ)) (land similar : Bool) (d : List ℚ) : Prop :=
  ∃ i : ℕ, neighbours[i]? = some ((match land, similar with
    | false, false => "nearest" | true, false => "nearest_land" | false, true => "nearest_minimum_dz"
    | true, true => "nearest_land_minimum_dz"), d)

theorem displacements_spec (neighbours : List (String × List ℚ)) (hnd : (neighbours.map Prod.fst).Nodup) (land similar : Bool) (d : List ℚ) :
    displacements neighbours (methodName land similar) = .ok d ↔ Spec.siteDisplacement neighbours land similar d := by
  have hname : methodName land similar = (match land, similar with
    | false, false => "nearest" | true, false => "nearest_land" | false, true => "nearest_minimum_dz"
    | true, true => "nearest_land_minimum_dz") := by
    cases land <;> cases similar <;> decide +kernel
  unfold Spec.siteDisplacement displacements
  rw [← hname]
  generalize methodName land similar = m
  constructor
  · intro h
    cases hf : neighbours.find? fun n => decide (n.1 = m) with
    | none => rw [hf] at h; exact nomatch h
    | some n =>
      rw [hf] at h
      have h1 := List.mem_of_find?_eq_some hf
      have h2 : n.1 = m := by simpa using List.find?_some hf
      have h3 : n.2 = d := Except.ok.inj h
      obtain ⟨i, hi, hie⟩ := List.getElem_of_mem h1
      refine ⟨i, ?_⟩
      rw [List.getElem?_eq_getElem hi, hie, ← h2, ← h3]
  · rintro ⟨i, hi⟩
    have hmem := List.mem_of_getElem? hi
    cases hf : neighbours.find? fun n => decide (n.1 = m) with
    | none =>
      have := List.find?_eq_none.1 hf _ hmem
      simp at this
    | some n =>
      have h1 := List.mem_of_find?_eq_some hf
      have h2 : n.1 = m := by simpa using List.find?_some hf
      have : n = (m, d) := List.inj_on_of_nodup_map hnd h1 hmem h2
      rw [this]

theorem convert_metre (u : StdUnit) (hu : u.scale ≠ 0) (v d : ℚ) :
    convertUnit u heightMetre v = v * u.scale + u.offset ∧
    ∀ y, convertUnit heightMetre u (convertUnit u heightMetre v + d) = y ↔ y * u.scale + u.offset = v * u.scale + u.offset + d := by
  unfold convertUnit heightMetre
  refine ⟨by ring, fun y => ?_⟩
  rw [div_eq_iff hu]
  constructor <;> intro h <;> linarith

/-- C239.  Heights (a single value per site, percentiles or realizations) with the sites along the last dimension: every value is raised by
the displacement of its site, as physical quantities, and the unit is kept. -/
theorem C239_values (neighbours : List (String × List ℚ)) (hnd : (neighbours.map Prod.fst).Nodup) (land similar : Bool) (unit : StdUnit)
    (hdim : unit.dimension = "length") (hs : unit.scale ≠ 0) (rows : List (List ℚ)) (d : List ℚ)
    (hd : Spec.siteDisplacement neighbours land similar d) (hlen : ∀ r ∈ rows, r.length = d.length) :
    ∃ out, heightCommand neighbours land similar (.values unit rows) = .ok (.values unit out) ∧ out.length = rows.length ∧
      ∀ (i : ℕ) (r : List ℚ), rows[i]? = some r → ∃ o, out[i]? = some o ∧ o.length = r.length ∧
        ∀ (j : ℕ) (v e : ℚ), r[j]? = some v → d[j]? = some e →
          ∃ y, o[j]? = some y ∧ y * unit.scale + unit.offset = v * unit.scale + unit.offset + e := by
  unfold heightCommand heightAdjust
  dsimp only
  rw [if_neg (by rw [hdim]; exact fun h => h rfl), (displacements_spec neighbours hnd land similar d).2 hd]
  simp only [bind, Except.bind, pure, Except.pure]
  have hm : rows.mapM (raiseRow unit d) =
      .ok (rows.map fun r => List.zipWith (fun v d => convertUnit heightMetre unit (convertUnit unit heightMetre v + d)) r d) := by
    clear hd
    induction rows with
    | nil => rfl
    | cons r rows ih =>
      rw [List.mapM_cons, ih fun r hr => hlen r (by simp [hr])]
      unfold raiseRow broadcastTo
      rw [if_pos (hlen r (by simp)).symm]
      rfl
  rw [hm]
  refine ⟨_, rfl, by simp, fun i r hi => ⟨_, by rw [List.getElem?_map, hi]; rfl, ?_, ?_⟩⟩
  · rw [List.length_zipWith, hlen r (List.mem_of_getElem? hi), min_self]
  · intro j v e hv he
    refine ⟨_, by rw [List.getElem?_zipWith, hv, he], ?_⟩
    exact ((convert_metre unit hs v e).2 _).1 rfl

/-- C239.  Probabilities that do not decrease with the threshold: for two or more sites, two or more thresholds in a unit of length, the
thresholds and their unit are kept and the probability of every member, site and threshold is the probability curve of that site, over the
thresholds in metres, read at the threshold plus the displacement of the site. -/
theorem C239_probabilities (neighbours : List (String × List ℚ)) (hnd : (neighbours.map Prod.fst).Nodup) (land similar : Bool) (unit : StdUnit)
    (hdim : unit.dimension = "length") (hs : 0 < unit.scale) (thresholds : List ℚ) (h2 : 2 ≤ thresholds.length)
    (hsort : thresholds.Pairwise (· < ·)) (members : List (List (List ℚ))) (d : List ℚ)
    (hd : Spec.siteDisplacement neighbours land similar d) (hd2 : 2 ≤ d.length) (hlen : ∀ m ∈ members, m.length = d.length)
    (hrow : ∀ m ∈ members, ∀ r ∈ m, r.length = thresholds.length ∧ r.Pairwise (· ≤ ·)) :
    ∃ out, heightCommand neighbours land similar (.probs thresholds unit members) = .ok (.probs thresholds unit out) ∧
      out.length = members.length ∧
      ∀ (i : ℕ) (m : List (List ℚ)), members[i]? = some m → ∃ o, out[i]? = some o ∧ o.length = m.length ∧
        ∀ (j : ℕ) (r : List ℚ) (e : ℚ), m[j]? = some r → d[j]? = some e → ∃ q, o[j]? = some q ∧ q.length = thresholds.length ∧
          ∀ (k : ℕ) (t : ℚ), thresholds[k]? = some t → ∃ p, q[k]? = some p ∧
            Spec.onCurve (thresholds.map fun t => t * unit.scale + unit.offset) r (t * unit.scale + unit.offset + e) p := by
  have hconv : thresholds.map (convertUnit unit heightMetre) = thresholds.map fun t => t * unit.scale + unit.offset :=
    List.map_congr_left fun t _ => (convert_metre unit hs.ne' t 0).1
  have hsort' : (thresholds.map fun t => t * unit.scale + unit.offset).Pairwise (· < ·) := by
    rw [List.pairwise_map]
    refine hsort.imp fun h => ?_
    have := mul_lt_mul_of_pos_right h hs
    linarith
  unfold heightCommand heightAdjust
  dsimp only
  rw [if_neg (by omega), if_neg (by rw [hdim]; exact fun h => h rfl), (displacements_spec neighbours hnd land similar d).2 hd]
  simp only [bind, Except.bind, pure, Except.pure]
  rw [hconv]
  set xs := thresholds.map fun t => t * unit.scale + unit.offset with hxs
  have hxl : xs.length = thresholds.length := by simp [hxs]
  -- one site
  have hsite : ∀ m ∈ members, ∀ r ∈ m, ∀ e : ℚ, ∃ q, heightAdjustProbs xs r e = .ok q ∧ q.length = thresholds.length ∧
      ∀ (k : ℕ) (t : ℚ), thresholds[k]? = some t → ∃ p, q[k]? = some p ∧
        Spec.onCurve xs r (t * unit.scale + unit.offset + e) p := by
    intro m hm r hr e
    obtain ⟨q, hq, hql, hqp⟩ := C82_below_partial xs r e hsort' (by rw [hxl]; exact (hrow m hm r hr).1) (by omega) (hrow m hm r hr).2
    refine ⟨q, hq, by rw [hql, hxl], fun k t hk => ?_⟩
    exact hqp k _ (by rw [hxs, List.getElem?_map, hk]; rfl)
  -- one member
  have hmember : ∀ m ∈ members, ∃ o, adjustMember xs m d = .ok o ∧ o.length = m.length ∧
      ∀ (j : ℕ) (r : List ℚ) (e : ℚ), m[j]? = some r → d[j]? = some e → ∃ q, o[j]? = some q ∧ q.length = thresholds.length ∧
        ∀ (k : ℕ) (t : ℚ), thresholds[k]? = some t → ∃ p, q[k]? = some p ∧
          Spec.onCurve xs r (t * unit.scale + unit.offset + e) p := by
    intro m hm
    unfold adjustMember broadcastTo
    rw [if_pos (hlen m hm).symm]
    simp only [bind, Except.bind]
    rw [if_neg (by rw [hlen m hm]; omega)]
    obtain ⟨o, ho⟩ := mapM_total (fun s : List ℚ × ℚ => heightAdjustProbs xs s.1 s.2) (m.zip d) (by
      intro s hs'
      obtain ⟨q, hq, _⟩ := hsite m hm s.1 (List.of_mem_zip hs').1 s.2
      exact ⟨q, hq⟩)
    refine ⟨o, ho, ?_, ?_⟩
    · have := (mapM_ok_forall _ _ _ ho).length_eq
      rw [← this, List.length_zip, hlen m hm, min_self]
    · intro j r e hr he
      have hz : (m.zip d)[j]? = some (r, e) := by
        rw [List.getElem?_zip_eq_some]; exact ⟨hr, he⟩
      have hF := mapM_ok_forall _ _ _ ho
      obtain ⟨hj, _⟩ := List.getElem?_eq_some_iff.1 hz
      have hj' : j < o.length := by rw [← hF.length_eq]; exact hj
      have hval := List.forall₂_iff_get.1 hF |>.2 j hj hj'
      simp only [List.get_eq_getElem] at hval
      rw [List.getElem?_eq_some_iff.1 hz |>.2] at hval
      obtain ⟨q, hq, hq1, hq2⟩ := hsite m hm r (List.mem_of_getElem? hr) e
      refine ⟨q, ?_, hq1, hq2⟩
      rw [List.getElem?_eq_getElem hj']
      have := hval.symm.trans hq
      rw [Except.ok.inj this]
  obtain ⟨out, hout⟩ := mapM_total (fun m => adjustMember xs m d) members (fun m hm => by
    obtain ⟨o, ho, _⟩ := hmember m hm
    exact ⟨o, ho⟩)
  rw [hout]
  have hF := mapM_ok_forall _ _ _ hout
  refine ⟨out, rfl, hF.length_eq.symm, fun i m hi => ?_⟩
  obtain ⟨hi1, hi2⟩ := List.getElem?_eq_some_iff.1 hi
  have hi' : i < out.length := by rw [← hF.length_eq]; exact hi1
  have hval := List.forall₂_iff_get.1 hF |>.2 i hi1 hi'
  simp only [List.get_eq_getElem] at hval
  rw [hi2] at hval
  obtain ⟨o, ho, ho1, ho2⟩ := hmember m (List.mem_of_getElem? hi)
  refine ⟨o, ?_, ho1, ho2⟩
  rw [List.getElem?_eq_getElem hi']
  rw [Except.ok.inj (hval.symm.trans ho)]

/-- C239.  Refusals: a neighbour cube without the method asked for; a unit that is not a length; fewer than two thresholds. -/
theorem C239_refused (neighbours : List (String × List ℚ)) (land similar : Bool) :
    ((∀ d, ¬ Spec.siteDisplacement neighbours land similar d) → (neighbours.map Prod.fst).Nodup → ∀ c out,
      heightCommand neighbours land similar c ≠ .ok out) ∧
    (∀ unit rows, unit.dimension ≠ "length" → heightCommand neighbours land similar (.values unit rows) = .error .valueError) ∧
    (∀ thresholds unit members, (unit.dimension ≠ "length" ∨ thresholds.length < 2) →
      heightCommand neighbours land similar (.probs thresholds unit members) = .error .valueError) := by
  refine ⟨?_, ?_, ?_⟩
  · intro h hnd c out hc
    have hno : ∀ d, displacements neighbours (methodName land similar) ≠ .ok d := fun d hd =>
      h d ((displacements_spec neighbours hnd land similar d).1 hd)
    unfold heightCommand heightAdjust at hc
    cases hdisp : displacements neighbours (methodName land similar) with
    | ok d => exact hno d hdisp
    | error e =>
      rw [hdisp] at hc
      cases c with
      | values unit rows =>
        dsimp only at hc
        by_cases hu : unit.dimension ≠ heightMetre.dimension
        · rw [if_pos hu] at hc; exact nomatch hc
        · rw [if_neg hu] at hc; exact nomatch hc
      | probs t unit m =>
        dsimp only at hc
        by_cases ht : t.length < 2
        · rw [if_pos ht] at hc; exact nomatch hc
        rw [if_neg ht] at hc
        by_cases hu : unit.dimension ≠ heightMetre.dimension
        · rw [if_pos hu] at hc; exact nomatch hc
        · rw [if_neg hu] at hc; exact nomatch hc
  · intro unit rows h
    unfold heightCommand heightAdjust
    dsimp only
    rw [if_pos (show unit.dimension ≠ heightMetre.dimension from h)]
  · intro t unit m h
    unfold heightCommand heightAdjust
    dsimp only
    by_cases ht : t.length < 2
    · rw [if_pos ht]
    · rw [if_neg ht, if_pos (show unit.dimension ≠ heightMetre.dimension from h.resolve_right ht)]

/-- C239 (limits).  Probabilities at a single site are never adjusted: the interpolation needs two sites. -/
theorem C239_single_site_refuted (neighbours : List (String × List ℚ)) (land similar : Bool) (thresholds : List ℚ) (unit : StdUnit)
    (r : List ℚ) (out : HeightCube) : heightCommand neighbours land similar (.probs thresholds unit [[r]]) ≠ .ok out := by
  intro h
  unfold heightCommand heightAdjust at h
  dsimp only at h
  by_cases ht : thresholds.length < 2
  · rw [if_pos ht] at h; exact nomatch h
  rw [if_neg ht] at h
  by_cases hu : unit.dimension ≠ heightMetre.dimension
  · rw [if_pos hu] at h; exact nomatch h
  rw [if_neg hu] at h
  cases hd : displacements neighbours (methodName land similar) with
  | error e => rw [hd] at h; exact nomatch h
  | ok d =>
    rw [hd] at h
    simp only [bind, Except.bind, List.mapM_cons, List.mapM_nil, adjustMember] at h
    cases hb : broadcastTo d [r].length with
    | error e => rw [hb] at h; exact nomatch h
    | ok v =>
      rw [hb] at h
      dsimp only at h
      rw [if_pos (by simp)] at h
      exact nomatch h

/-- C239 (limits).  With the sites along the leading dimension and as many percentiles as sites, the displacement of the second site goes to
the second percentile of every site. -/
theorem C239_layout_refuted :
    ∃ (site₁ site₂ out₁ out₂ : List ℚ), site₁ = [100, 200] ∧ site₂ = [100, 200] ∧
      heightCommand [("nearest", [10, 20])] false false (.values ⟨"length", 1, 0⟩ [site₁, site₂]) =
        .ok (.values ⟨"length", 1, 0⟩ [out₁, out₂]) ∧
      out₁ = [110, 220] ∧ out₂ = [110, 220] :=
  ⟨_, _, _, _, rfl, rfl, by decide +kernel, rfl, rfl⟩

/-- Concrete case: two sites 50 m above and 100 m below the ground of the model, thresholds of cloud base in feet, land neighbours. -/
example :
    let c : HeightCube := .probs [1000, 2000, 3000] ⟨"length", 1 / 4, 0⟩ [[[0, 1 / 2, 1], [1 / 4, 1 / 2, 3 / 4]]]
    heightCommand [("nearest", [7, 7]), ("nearest_land", [50, -100])] true false c =
      .ok (.probs [1000, 2000, 3000] ⟨"length", 1 / 4, 0⟩ [[[1 / 10, 3 / 5, 1], [1 / 4, 2 / 5, 13 / 20]]]) := by
  decide +kernel

end Improver
