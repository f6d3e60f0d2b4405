import Verif.Model.BlendRun
import Verif.Props.Blend
import Verif.Props.Weights
import Verif.Props.Standards

/-! Properties of `WeightAndBlend` (C183). -/

namespace Improver

/-- The blended value: the weighted mean of the values that are there, none if these have no weight. -/
def Spec.blendAt (pts : List ℚ) (u : ℚ → ℚ) (v : ℚ → Option ℚ) : Option ℚ :=
  let there := pts.filter fun p => (v p).isSome
  if (there.map u).sum = 0 then none
  else some ((there.map fun p => u p * (v p).getD 0).sum / (there.map u).sum)

theorem maAverage_blendAt (pts : List ℚ) (u : ℚ → ℚ) (v : ℚ → Option ℚ) :
    maAverage (pts.map v) (pts.map u) = Spec.blendAt pts u v := by
  have hn : (((pts.map v).zip (pts.map u)).map numTerm).sum =
      ((pts.filter fun p => (v p).isSome).map fun p => u p * (v p).getD 0).sum := by
    rw [List.zip_map', List.map_map]
    induction pts with
    | nil => rfl
    | cons p l ih =>
      rw [List.map_cons, List.sum_cons, ih]
      cases hv : v p with
      | none => rw [List.filter_cons_of_neg (by simp [hv])]; simp [hv, numTerm]
      | some x =>
        rw [List.filter_cons_of_pos (by simp [hv]), List.map_cons, List.sum_cons]
        simp [hv, numTerm]
  have hd : (((pts.map v).zip (pts.map u)).map denTerm).sum = ((pts.filter fun p => (v p).isSome).map u).sum := by
    rw [List.zip_map', List.map_map]
    clear hn
    induction pts with
    | nil => rfl
    | cons p l ih =>
      rw [List.map_cons, List.sum_cons, ih]
      cases hv : v p with
      | none => rw [List.filter_cons_of_neg (by simp [hv])]; simp [hv, denTerm]
      | some x =>
        rw [List.filter_cons_of_pos (by simp [hv]), List.map_cons, List.sum_cons]
        simp [hv, denTerm]
  unfold maAverage Spec.blendAt
  dsimp only
  rw [hn, hd]

theorem sum_drop_zero (l : List ℚ) (u f : ℚ → ℚ) (h : ∀ p ∈ l, u p = 0 → f p = 0) :
    ((l.filter fun p => decide (u p ≠ 0)).map f).sum = (l.map f).sum := by
  induction l with
  | nil => rfl
  | cons a l ih =>
    have ih' := ih fun p hp => h p (List.mem_cons_of_mem _ hp)
    by_cases hu : u a = 0
    · rw [List.filter_cons_of_neg (by simp [hu]), ih', List.map_cons, List.sum_cons, h a (List.mem_cons_self ..) hu, zero_add]
    · rw [List.filter_cons_of_pos (by simp [hu]), List.map_cons, List.sum_cons, List.map_cons, List.sum_cons, ih']

theorem blendAt_nonzero (pts : List ℚ) (u : ℚ → ℚ) (v : ℚ → Option ℚ) :
    Spec.blendAt (pts.filter fun p => decide (u p ≠ 0)) u v = Spec.blendAt pts u v := by
  have e : ((pts.filter fun p => decide (u p ≠ 0)).filter fun p => (v p).isSome) =
      ((pts.filter fun p => (v p).isSome).filter fun p => decide (u p ≠ 0)) := by
    rw [List.filter_filter, List.filter_filter]
    apply List.filter_congr
    intro p _
    rw [Bool.and_comm]
  unfold Spec.blendAt
  dsimp only
  rw [e, sum_drop_zero _ u u fun p _ h => h, sum_drop_zero _ u (fun p => u p * (v p).getD 0) fun p _ h => by rw [h, zero_mul]]

theorem blendAt_perm {pts qts : List ℚ} (h : pts.Perm qts) (u : ℚ → ℚ) (v : ℚ → Option ℚ) :
    Spec.blendAt pts u v = Spec.blendAt qts u v := by
  unfold Spec.blendAt
  dsimp only
  rw [((h.filter _).map u).sum_eq, ((h.filter _).map fun p => u p * (v p).getD 0).sum_eq]

theorem blendAt_single (p : ℚ) (u : ℚ → ℚ) (hu : u p ≠ 0) (v : ℚ → Option ℚ) : Spec.blendAt [p] u v = v p := by
  unfold Spec.blendAt
  dsimp only
  cases hv : v p with
  | none => rw [List.filter_cons_of_neg (by simp [hv])]; simp
  | some x =>
    rw [List.filter_cons_of_pos (by simp [hv])]
    simp only [List.filter_nil, List.map_cons, List.map_nil, List.sum_cons, List.sum_nil, add_zero, hv, Option.getD_some]
    rw [if_neg hu, mul_comm, mul_div_assoc, div_self hu, mul_one]

theorem zip_as_map {l : List ℚ} {w : List ℚ} (hl : w.length = l.length) (hnd : l.Nodup) :
    l.zip w = l.map fun p => (p, w.getD (l.idxOf p) 0) := by
  apply List.ext_getElem
  · simp [hl]
  · intro i h1 h2
    have hi : i < l.length := by simpa using h2
    rw [List.getElem_zip, List.getElem_map, hnd.idxOf_getElem i hi]
    rw [List.getD_eq_getElem _ _ (by omega)]

/-- C183: every way to get weights gives each blend point one weight; weights are not negative and have sum one. -/
theorem C183_weights (m : WtsMethod) (pts : List ℚ) (hnd : pts.Nodup) (hs : pts.Pairwise (· ≤ ·)) (hne : pts ≠ [])
    (w : List (ℚ × ℚ)) (h : blendWeights m pts = .ok w) :
    w.map Prod.fst = pts ∧ (∀ x ∈ w, 0 ≤ x.2) ∧ (w.map Prod.snd).sum = 1 := by
  have key : ∀ l : List ℚ, l.length = pts.length → (∀ x ∈ l, 0 ≤ x) → l.sum = 1 →
      (pts.zip l).map Prod.fst = pts ∧ (∀ x ∈ pts.zip l, 0 ≤ x.2) ∧ ((pts.zip l).map Prod.snd).sum = 1 := by
    intro l h1 h2 h3
    refine ⟨List.map_fst_zip (by omega), ?_, ?_⟩
    · rintro ⟨a, b⟩ hx
      exact h2 b (List.of_mem_zip hx).2
    · rw [List.map_snd_zip (by omega), h3]
  cases m with
  | linear y0 yn =>
    unfold blendWeights at h
    simp only [bind, Except.bind] at h
    cases hi : linearInit y0 yn with
    | error e => rw [hi] at h; exact nomatch h
    | ok y =>
      rw [hi] at h
      dsimp only at h
      cases hl : linearWeights y.1 y.2 pts.length with
      | error e => rw [hl] at h; exact nomatch h
      | ok l =>
        rw [hl] at h
        cases h
        obtain ⟨a, b, c, _⟩ := C21_linear _ _ _ _ hl
        exact key l a b c
  | nonlinear c inverse =>
    unfold blendWeights at h
    simp only [bind, Except.bind] at h
    cases hi : nonlinearInit c with
    | error e => rw [hi] at h; exact nomatch h
    | ok cval =>
      rw [hi] at h
      dsimp only at h
      obtain ⟨l, hl, h1, h2, h3, _⟩ := C21_nonlinear c cval hi pts.length (List.length_pos_iff.2 hne)
      cases inverse with
      | true =>
        rw [C21_nonlinear_inverse cval pts hnd l hl] at h
        have e : npSort pts = pts := eq_of_perm_sorted (npSort_perm _) (npSort_sorted _) hs
        rw [e] at h
        cases h
        refine key l.reverse (by simp [h1]) (fun x hx => (h2 x (List.mem_reverse.1 hx)).le) (by rw [List.sum_reverse, h3])
      | false =>
        unfold nonlinearProcess at h
        simp only [bind, Except.bind, pure, Except.pure] at h
        rw [if_neg (by simp), hl] at h
        dsimp only at h
        rw [if_neg (by simp)] at h
        cases h
        exact key l h1 (fun x hx => (h2 x hx).le) h3
  | dict config at_ =>
    unfold blendWeights at h
    simp only [bind, Except.bind] at h
    cases hl : chooseLinear (pts.map config) at_ with
    | error e => rw [hl] at h; exact nomatch h
    | ok l =>
      rw [hl] at h
      cases h
      obtain ⟨a, b, c⟩ := C38_normalised _ _ _ hl
      exact key l (by rw [a, List.length_map]) (fun x hx => (b x hx).1) c

theorem keepWeighted_map {α : Type} (s : List ℚ) (u : ℚ → ℚ) (f : ℚ → α) :
    keepWeighted (s.map fun p => (p, u p)) (s.map fun p => (p, f p)) =
      (s.filter fun p => decide (u p ≠ 0)).map fun p => (p, f p) := by
  unfold keepWeighted
  rw [List.filter_map]
  congr 1
  apply List.filter_congr
  intro p hp
  simp only [Function.comp_apply, decide_eq_decide, List.mem_map, List.mem_filter, decide_eq_true_eq, not_exists, not_and]
  constructor
  · intro h hu
    exact h (p, u p) ⟨⟨p, hp, rfl⟩, hu⟩ rfl
  · rintro h x ⟨⟨q, _, rfl⟩, hq⟩ rfl
    exact h hq

/-- C183: the blend is, at every grid point, the mean of the inputs weighted by the weights for their blend points, whatever
the order of the inputs; leaving out slices without weight, and the last slice standing for the blend, do not show. -/
theorem C183_blend (m : WtsMethod) (n : ℕ) (pts : List ℚ) (hnd : pts.Nodup) (h2 : 2 ≤ pts.length)
    (x : ℚ → List (Option ℚ)) (hx : ∀ p ∈ pts, (x p).length = n) (slices : List (ℚ × List (Option ℚ)))
    (hs : slices.Perm (pts.map fun p => (p, x p))) (w : List (ℚ × ℚ))
    (hw : blendWeights m (pts.insertionSort (· ≤ ·)) = .ok w) :
    ∃ u : ℚ → ℚ, w = (pts.insertionSort (· ≤ ·)).map (fun p => (p, u p)) ∧ (∀ p ∈ pts, 0 ≤ u p) ∧ (pts.map u).sum = 1 ∧
      ∃ r, weightAndBlend m n slices = .ok r ∧ r.length = n ∧
        ∀ g < n, r[g]? = some (Spec.blendAt pts u fun p => (x p).getD g none) := by
  change blendWeights m (npSort pts) = .ok w at hw
  change ∃ u : ℚ → ℚ, w = (npSort pts).map (fun p => (p, u p)) ∧ _
  have hperm := npSort_perm pts
  have hsnd : (npSort pts).Nodup := hperm.nodup_iff.2 hnd
  have hslen : (npSort pts).length = pts.length := hperm.length_eq
  obtain ⟨w1, w2, w3⟩ := C183_weights m (npSort pts) hsnd (npSort_sorted pts)
    (by intro h; rw [h] at hslen; simp at hslen; omega) w hw
  have hform : w = (npSort pts).map fun p => (p, (w.map Prod.snd).getD ((npSort pts).idxOf p) 0) := by
    rw [← zip_as_map (by rw [List.length_map, ← w1, List.length_map]) hsnd]
    conv_rhs => rw [← w1]
    rw [List.zip_map']
    simp
  generalize hu : (fun p => (w.map Prod.snd).getD ((npSort pts).idxOf p) 0) = u
  have hform' : w = (npSort pts).map fun p => (p, u p) := by rw [← hu]; exact hform
  have hsum : ((npSort pts).map u).sum = 1 := by
    rw [← w3, hform', List.map_map]
    rfl
  have hnn : ∀ p ∈ npSort pts, 0 ≤ u p := by
    intro p hp
    exact w2 (p, u p) (by rw [hform']; exact List.mem_map.2 ⟨p, hp, rfl⟩)
  refine ⟨u, hform', fun p hp => hnn p (hperm.mem_iff.2 hp), by rw [← (hperm.map u).sum_eq, hsum], ?_⟩
  have hcube : sortByCoord slices = (npSort pts).map fun p => (p, x p) := sortByCoord_of_fun slices pts x hs
  have hxs : ∀ p ∈ npSort pts, (x p).length = n := fun p hp => hx p (hperm.mem_iff.1 hp)
  have hperm' : ∀ g, Spec.blendAt pts u (fun p => (x p).getD g none) =
      Spec.blendAt ((npSort pts).filter fun p => decide (u p ≠ 0)) u fun p => (x p).getD g none := by
    intro g
    rw [blendAt_nonzero, blendAt_perm hperm]
  unfold weightAndBlend
  dsimp only
  rw [hcube]
  have hfst : ((npSort pts).map fun p => (p, x p)).map Prod.fst = npSort pts := by
    rw [List.map_map]; exact List.map_id _
  have hkw := keepWeighted_map (npSort pts) u x
  have hww := keepWeighted_map (npSort pts) u u
  rw [← hform'] at hkw hww
  generalize hS : npSort pts = S at *
  have hS2 : 2 ≤ S.length := by omega
  match S, hS2 with
  | [], h => simp at h
  | [_], h => simp at h
  | a :: b :: t, _ =>
    simp only [List.map_cons] at hfst hkw ⊢
    simp only [bind, Except.bind]
    rw [hfst, hw]
    dsimp only
    rw [hkw]
    match hK : (a :: b :: t).filter fun p => decide (u p ≠ 0) with
    | [] =>
      exfalso
      have : ((a :: b :: t).map u).sum = 0 := by
        rw [← sum_drop_zero _ u u fun p _ h => h, hK]; rfl
      rw [hsum] at this
      exact one_ne_zero this
    | [p] =>
      simp only [List.map_cons, List.map_nil]
      have hp : p ∈ (a :: b :: t).filter fun p => decide (u p ≠ 0) := by rw [hK]; exact List.mem_cons_self ..
      rw [List.mem_filter, decide_eq_true_eq] at hp
      refine ⟨x p, rfl, hxs p hp.1, fun g hg => ?_⟩
      rw [hperm', hK, blendAt_single p u hp.2]
      have : g < (x p).length := by rw [hxs p hp.1]; exact hg
      rw [List.getElem?_eq_getElem this, List.getD_eq_getElem _ _ this]
    | p :: q :: k =>
      simp only [List.map_cons]
      have hmap : (List.range n).mapM (fun g => weightedBlend
          ((p, (x p).getD g none) :: (q, (x q).getD g none) :: (k.map fun p => (p, x p)).map fun s => (s.1, s.2.getD g none))
          (some (keepWeighted w w))) =
          .ok ((List.range n).map fun g => Spec.blendAt (p :: q :: k) u fun p => (x p).getD g none) := by
        apply forall₂_mapM
        rw [List.forall₂_map_right_iff, List.forall₂_same]
        intro g _
        rw [hww, hK, ← maAverage_blendAt]
        apply C22_order_independent (p :: q :: k) (fun p => (x p).getD g none) u
        · simp [List.map_map, Function.comp_def]
        · exact List.Perm.refl _
      refine ⟨_, hmap, by simp, fun g hg => ?_⟩
      rw [hperm', hK, List.getElem?_map, List.getElem?_range hg]
      rfl

example : weightAndBlend (.linear (some 3) (some 0)) 2 [(8, [some 10, none]), (2, [some 1, some 2]), (5, [some 4, some 8])] =
    .ok [some 2, some 4] := by decide +kernel

example : weightAndBlend (.dict (fun p => ([0, 6], if p = 8 then [1, 0] else [0, 1])) 0) 2
    [(8, [some 10, none]), (2, [some 1, some 2])] = .ok [some 10, none] := by decide +kernel

/-- C183: one input is returned as it is, whatever the weights asked for. -/
theorem C183_single (m : WtsMethod) (n : ℕ) (s : ℚ × List (Option ℚ)) : weightAndBlend m n [s] = .ok s.2 := rfl

/-- C183: no blended value is beyond the smallest and largest of the inputs that have weight there. -/
theorem C183_between (pts : List ℚ) (u : ℚ → ℚ) (hu : ∀ p ∈ pts, 0 ≤ u p) (v : ℚ → Option ℚ) (lo hi b : ℚ)
    (hb : ∀ p ∈ pts, 0 < u p → ∀ y, v p = some y → lo ≤ y ∧ y ≤ hi) (h : Spec.blendAt pts u v = some b) :
    lo ≤ b ∧ b ≤ hi := by
  rw [← maAverage_blendAt] at h
  refine C22_blend_between _ _ ?_ lo hi b ?_ h
  · intro y hy
    obtain ⟨p, hp, rfl⟩ := List.mem_map.1 hy
    exact hu p hp
  · intro y w hyw hw
    rw [List.zip_map'] at hyw
    obtain ⟨p, hp, e⟩ := List.mem_map.1 hyw
    rw [Prod.mk.injEq] at e
    rw [← e.2] at hw
    exact hb p hp hw y e.1

theorem modelCoordinates_from (seen : List Text) (i : ℕ) (titles : List (Option Text)) (r : List (ℕ × Text)) :
    modelCoordinates seen i titles = .ok r ↔
      ∃ names : List Text, titles = names.map some ∧ names.Nodup ∧ (∀ t ∈ names, t ∉ seen) ∧
        r = (names.zipIdx i).map fun p => (1000 * p.2, p.1) := by
  induction titles generalizing seen i r with
  | nil =>
    unfold modelCoordinates
    constructor
    · intro h
      cases h
      exact ⟨[], rfl, List.nodup_nil, by simp, rfl⟩
    · rintro ⟨names, h, _, _, rfl⟩
      cases names with
      | nil => rfl
      | cons a l => exact nomatch h
  | cons t titles ih =>
    cases t with
    | none =>
      unfold modelCoordinates
      constructor
      · intro h; exact nomatch h
      · rintro ⟨names, h, _⟩
        cases names with
        | nil => exact nomatch h
        | cons a l => simp at h
    | some t =>
      unfold modelCoordinates
      by_cases ht : t ∈ seen
      · rw [if_pos ht]
        constructor
        · intro h; exact nomatch h
        · rintro ⟨names, h, _, hs, _⟩
          cases names with
          | nil => exact nomatch h
          | cons a l =>
            simp only [List.map_cons, List.cons.injEq, Option.some.injEq] at h
            rw [h.1] at ht
            exact absurd ht (hs a (List.mem_cons_self ..))
      · rw [if_neg ht]
        constructor
        · intro h
          cases hr : modelCoordinates (seen ++ [t]) (i + 1) titles with
          | error e => rw [hr] at h; exact nomatch h
          | ok r' =>
            rw [hr] at h
            cases h
            obtain ⟨names, rfl, h1, h2, rfl⟩ := (ih _ _ _).1 hr
            refine ⟨t :: names, rfl, List.nodup_cons.2 ⟨fun hc => h2 t hc (by simp), h1⟩, ?_, ?_⟩
            · intro a ha
              rcases List.mem_cons.1 ha with rfl | ha
              · exact ht
              · exact fun hc => h2 a ha (List.mem_append_left _ hc)
            · rw [List.zipIdx_cons, List.map_cons]
        · rintro ⟨names, h, h1, h2, rfl⟩
          cases names with
          | nil => exact nomatch h
          | cons a l =>
            simp only [List.map_cons, List.cons.injEq, Option.some.injEq] at h
            obtain ⟨rfl, rfl⟩ := h
            rw [(ih _ _ _).2 ⟨l, rfl, (List.nodup_cons.1 h1).2, ?_, rfl⟩]
            · rw [List.zipIdx_cons, List.map_cons]; rfl
            · intro b hb hc
              rcases List.mem_append.1 hc with hc | hc
              · exact h2 b (List.mem_cons_of_mem _ hb) hc
              · rw [List.mem_singleton] at hc
                subst hc
                exact (List.nodup_cons.1 h1).1 hb

/-- C183: models get different ids, 1000 apart in the order of the cubes, each with its own name; a cube without the
attribute, or two cubes of one model, are errors. -/
theorem C183_models (titles : List (Option Text)) (r : List (ℕ × Text)) :
    modelCoordinates [] 0 titles = .ok r ↔
      ∃ names : List Text, titles = names.map some ∧ names.Nodup ∧ r = names.mapIdx fun i t => (1000 * i, t) := by
  rw [modelCoordinates_from]
  have e : ∀ names : List Text, ((names.zipIdx 0).map fun p => (1000 * p.2, p.1)) = names.mapIdx fun i t => (1000 * i, t) := by
    intro names
    rw [List.mapIdx_eq_zipIdx_map]
  constructor
  · rintro ⟨names, h1, h2, _, h3⟩
    exact ⟨names, h1, h2, by rw [h3, e]⟩
  · rintro ⟨names, h1, h2, h3⟩
    exact ⟨names, h1, h2, by simp, by rw [h3, e]⟩

example : modelCoordinates [] 0 [some "uk".toList, some "nc".toList] = .ok [(0, "uk".toList), (1000, "nc".toList)] ∧
    modelCoordinates [] 0 [some "uk".toList, some "uk".toList] = .error .valueError := by decide +kernel

end Improver
