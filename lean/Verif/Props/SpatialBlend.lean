import Verif.Model.SpatialBlend
import Verif.Props.BlendRun
import Verif.Props.SpatialWeights

/-! C281: a blend with weights that follow the masks of the inputs. -/

namespace Improver

theorem spatialPoint_eq (n : ℕ) (fuzzy : ℚ) (edt : (ℕ → Bool) → ℕ → ℚ) (K : List ℚ) (hK : K.Nodup) (x : ℚ → List (Option ℚ)) (w : List ℚ)
    (g : ℕ) (ws : List ℚ) (hlen : ws.length = K.length)
    (h : (spatialInput n fuzzy edt (K.map fun p => (p, x p)) w).process g = .ok ws) :
    spatialPoint n fuzzy edt (K.map fun p => (p, x p)) w g =
      .ok (Spec.blendAt K (fun p => ws.getD (K.idxOf p) 0) fun p => (x p).getD g none) := by
  unfold spatialPoint
  rw [h]
  simp only [bind, Except.bind]
  rw [← maAverage_blendAt]
  apply C22_order_independent K (fun p => (x p).getD g none) (fun p => ws.getD (K.idxOf p) 0)
  · simp [List.map_map, Function.comp_def]
  · have : (K.map fun p => (p, x p)).map Prod.fst = K := by rw [List.map_map]; exact List.map_id _
    rw [this, zip_as_map hlen hK]

/-- The weights at a point: none negative, positive exactly for the inputs that are there, the given ones away from all masks. -/
theorem spatialPoint_weights (n : ℕ) (fuzzy : ℚ) (hf : 0 < fuzzy) (edt : (ℕ → Bool) → ℕ → ℚ) (hedt : ∀ f g, f g = true → 0 < edt f g)
    (K : List ℚ) (hK : K.Nodup) (x : ℚ → List (Option ℚ)) (u : ℚ → ℚ) (hu : ∀ p ∈ K, 0 < u p) (hsum : (K.map u).sum = 1) (g : ℕ) (hg : g < n) :
    ∃ wt : ℚ → ℚ, spatialPoint n fuzzy edt (K.map fun p => (p, x p)) (K.map u) g = .ok (Spec.blendAt K wt fun p => (x p).getD g none) ∧
      (∀ p ∈ K, 0 ≤ wt p) ∧ (∀ p ∈ K, 0 < wt p ↔ ((x p).getD g none).isSome = true) ∧
      ((∀ p ∈ K, ((x p).getD g none).isSome = true ∧
        ((∀ q < n, ((x p).getD q none).isSome = true) ∨ fuzzy ≤ edt (fun q => ((x p).getD q none).isSome) g)) →
        ∀ p ∈ K, wt p = u p) := by
  let s := spatialInput n fuzzy edt (K.map fun p => (p, x p)) (K.map u)
  have hwl : s.w1d.length = K.length := List.length_map ..
  have hmask : ∀ i (hi : i < K.length) q, s.mask i q = ((x K[i]).getD q none).isNone := by
    intro i hi q
    show (match (K.map fun p => (p, x p))[i]? with | some s => (s.2.getD q none).isNone | none => false) = _
    rw [List.getElem?_map, List.getElem?_eq_getElem hi]
    rfl
  have hnot : ∀ i (hi : i < K.length), (fun q => !s.mask i q) = fun q => ((x K[i]).getD q none).isSome := by
    intro i hi
    funext q
    rw [hmask i hi q]
    cases (x K[i]).getD q none <;> rfl
  have hwd : ∀ i (hi : i < K.length), s.w1d.getD i 0 = u K[i] := by
    intro i hi
    show (K.map u).getD i 0 = _
    rw [List.getD_eq_getElem _ _ (by simpa using hi), List.getElem_map]
  have hpos : ∀ v ∈ s.w1d, 0 < v := by
    intro v hv
    obtain ⟨p, hp, rfl⟩ := List.mem_map.1 hv
    exact hu p hp
  have hidx : ∀ p ∈ K, ∃ i, ∃ hi : i < K.length, K.idxOf p = i ∧ K[i] = p := fun p hp =>
    ⟨K.idxOf p, List.idxOf_lt_length_of_mem hp, rfl, List.getElem_idxOf _⟩
  by_cases hm : ∃ i, i < s.w1d.length ∧ ∃ q ∈ s.pts, s.mask i q = true
  · obtain ⟨out, ho, hl, hnn, -, hz⟩ := s.C24_valid (fun v hv => (hpos v hv).le) hf hm g
    have hl' : out.length = K.length := hl.trans hwl
    refine ⟨_, spatialPoint_eq n fuzzy edt K hK x (K.map u) g out hl' ho, ?_, ?_, ?_⟩
    · intro p hp
      obtain ⟨i, hi, e, -⟩ := hidx p hp
      show 0 ≤ out.getD (K.idxOf p) 0
      rw [e, List.getD_eq_getElem _ _ (by omega)]
      exact hnn _ (List.getElem_mem _)
    · intro p hp
      obtain ⟨i, hi, e, e'⟩ := hidx p hp
      show 0 < out.getD (K.idxOf p) 0 ↔ _
      rw [e]
      cases hv : ((x p).getD g none) with
      | none =>
        have : s.mask i g = true := by rw [hmask i hi, e', hv]; rfl
        rw [hz i this]
        simp
      | some v =>
        have hmf : s.mask i g = false := by rw [hmask i hi, e', hv]; rfl
        refine ⟨fun _ => rfl, fun _ => ?_⟩
        exact s.C24_positive (fun v hv => (hpos v hv).le) hf hm g i (by omega) (by rw [hwd i hi, e']; exact hu p hp) hmf
          (by rw [hnot i hi]; exact hedt _ _ (by rw [e', hv]; rfl)) out ho
    · intro hall p hp
      obtain ⟨i, hi, e, e'⟩ := hidx p hp
      have hfar := s.C24_far hpos hf hm g (fun i hi => by
        have hi : i < K.length := by omega
        obtain ⟨a, b⟩ := hall K[i] (List.getElem_mem hi)
        refine ⟨?_, ?_⟩
        · rw [hmask i hi]
          rw [Option.isNone_eq_false_iff]
          exact a
        · rcases b with b | b
          · left
            intro q hq
            rw [hmask i hi, Option.isNone_eq_false_iff]
            exact b q (List.mem_range.1 hq)
          · right; rw [hnot i hi]; exact b)
      rw [hfar] at ho
      injection ho with ho
      have hs1 : s.w1d.sum = 1 := hsum
      show out.getD (K.idxOf p) 0 = u p
      rw [← ho, hs1, e, List.getD_eq_getElem _ _ (by rw [List.length_map]; omega), List.getElem_map, div_one]
      have := hwd i hi
      rw [List.getD_eq_getElem _ _ (by omega)] at this
      rw [this, e']
  · have hno : ∀ i, i < s.w1d.length → ∀ q ∈ s.pts, s.mask i q = false := by
      intro i hi q hq
      cases h : s.mask i q with
      | false => rfl
      | true => exact absurd ⟨i, hi, q, hq, h⟩ hm
    have ho := s.C24_no_mask hno g
    have hpt := spatialPoint_eq n fuzzy edt K hK x (K.map u) g (K.map u) (List.length_map ..) ho
    have hwt : ∀ p ∈ K, (K.map u).getD (K.idxOf p) 0 = u p := by
      intro p hp
      obtain ⟨i, hi, e, e'⟩ := hidx p hp
      rw [e, List.getD_eq_getElem _ _ (by simpa using hi), List.getElem_map, e']
    refine ⟨_, hpt, fun p hp => ?_, fun p hp => ?_, fun _ p hp => hwt p hp⟩
    · show 0 ≤ (K.map u).getD (K.idxOf p) 0
      rw [hwt p hp]; exact (hu p hp).le
    · show 0 < (K.map u).getD (K.idxOf p) 0 ↔ _
      rw [hwt p hp]
      refine ⟨fun _ => ?_, fun _ => hu p hp⟩
      obtain ⟨i, hi, e, e'⟩ := hidx p hp
      have := hno i (by omega) g (List.mem_range.2 hg)
      rw [hmask i hi, e', Option.isNone_eq_false_iff] at this
      exact this

theorem blendAt_congr (pts : List ℚ) (u u' : ℚ → ℚ) (v : ℚ → Option ℚ) (h : ∀ p ∈ pts, u p = u' p) :
    Spec.blendAt pts u v = Spec.blendAt pts u' v := by
  have h1 : ((pts.filter fun p => (v p).isSome).map u) = ((pts.filter fun p => (v p).isSome).map u') :=
    List.map_congr_left fun p hp => h p (List.mem_filter.1 hp).1
  have h2 : ((pts.filter fun p => (v p).isSome).map fun p => u p * (v p).getD 0) =
      ((pts.filter fun p => (v p).isSome).map fun p => u' p * (v p).getD 0) :=
    List.map_congr_left fun p hp => by rw [h p (List.mem_filter.1 hp).1]
  unfold Spec.blendAt
  dsimp only
  rw [h1, h2]

/-- **C281** (blend): whatever the order of the inputs and the pattern of their masks, the value at every grid point is a weighted mean of
the inputs, with weights at that point that are positive exactly for the inputs which have weight in the blend and are not masked there;
where these all have no masked point, or are at least the fuzzy length away from their masked points, the weights are those of the
blend without regard to masks.  (Distances to masked points are positive where a field is not masked.) -/
theorem C281_blend (m : WtsMethod) (n : ℕ) (fuzzy : ℚ) (hf : 0 < fuzzy) (edt : (ℕ → Bool) → ℕ → ℚ) (hedt : ∀ f g, f g = true → 0 < edt f g)
    (pts : List ℚ) (hnd : pts.Nodup) (h2 : 2 ≤ pts.length)
    (x : ℚ → List (Option ℚ)) (hx : ∀ p ∈ pts, (x p).length = n) (slices : List (ℚ × List (Option ℚ)))
    (hs : slices.Perm (pts.map fun p => (p, x p))) (w : List (ℚ × ℚ))
    (hw : blendWeights m (pts.insertionSort (· ≤ ·)) = .ok w) :
    ∃ u : ℚ → ℚ, w = (pts.insertionSort (· ≤ ·)).map (fun p => (p, u p)) ∧ (∀ p ∈ pts, 0 ≤ u p) ∧ (pts.map u).sum = 1 ∧
      ∃ r, spatialBlend m n fuzzy edt slices = .ok r ∧ r.length = n ∧
        ∀ g < n, ∃ wt : ℚ → ℚ, r[g]? = some (Spec.blendAt pts wt fun p => (x p).getD g none) ∧ (∀ p ∈ pts, 0 ≤ wt p) ∧
          (∀ p ∈ pts, 0 < wt p ↔ 0 < u p ∧ ((x p).getD g none).isSome = true) ∧
          ((∀ p ∈ pts, 0 < u p → ((x p).getD g none).isSome = true ∧
            ((∀ q < n, ((x p).getD q none).isSome = true) ∨ fuzzy ≤ edt (fun q => ((x p).getD q none).isSome) g)) →
            r[g]? = some (Spec.blendAt pts u fun p => (x p).getD g none)) := by
  obtain ⟨u, hform, hnn0, hsum0, -⟩ := C183_blend m n pts hnd h2 x hx slices hs w hw
  refine ⟨u, hform, hnn0, hsum0, ?_⟩
  change w = (npSort pts).map (fun p => (p, u p)) at hform
  change blendWeights m (npSort pts) = .ok w at hw
  have hperm := npSort_perm pts
  have hsnd : (npSort pts).Nodup := hperm.nodup_iff.2 hnd
  have hslen : (npSort pts).length = pts.length := hperm.length_eq
  have hsum : ((npSort pts).map u).sum = 1 := by rw [(hperm.map u).sum_eq, hsum0]
  have hnn : ∀ p ∈ npSort pts, 0 ≤ u p := fun p hp => hnn0 p (hperm.mem_iff.1 hp)
  have hcube : sortByCoord slices = (npSort pts).map fun p => (p, x p) := sortByCoord_of_fun slices pts x hs
  have hxs : ∀ p ∈ npSort pts, (x p).length = n := fun p hp => hx p (hperm.mem_iff.1 hp)
  have hmemS : ∀ p ∈ pts, p ∈ npSort pts := fun p hp => hperm.mem_iff.2 hp
  have hback : ∀ (wt : ℚ → ℚ) (g : ℕ), (∀ p ∈ pts, u p = 0 → wt p = 0) →
      Spec.blendAt pts wt (fun p => (x p).getD g none) =
        Spec.blendAt ((npSort pts).filter fun p => decide (u p ≠ 0)) wt fun p => (x p).getD g none := by
    intro wt g h1
    rw [blendAt_perm hperm.symm, ← blendAt_nonzero (npSort pts),
      ← blendAt_nonzero ((npSort pts).filter fun p => decide (u p ≠ 0)), List.filter_filter]
    congr 1
    apply List.filter_congr
    intro p hp
    have hp' := hperm.mem_iff.1 hp
    by_cases hu : u p = 0
    · have := h1 p hp' hu
      simp [hu, this]
    · simp [hu]
  unfold spatialBlend
  rw [hcube]
  have hfst : ((npSort pts).map fun p => (p, x p)).map Prod.fst = npSort pts := by
    rw [List.map_map]; exact List.map_id _
  have hkw := keepWeighted_map (npSort pts) u x
  have hww := keepWeighted_map (npSort pts) u u
  rw [← hform] at hkw hww
  generalize hS : npSort pts = S at *
  have hS2 : 2 ≤ S.length := by omega
  match S, hS2 with
  | [], h => simp at h
  | [_], h => simp at h
  | a :: b :: t, _ =>
    simp only [List.map_cons] at hfst hkw ⊢
    simp only [bind, Except.bind]
    rw [hfst, hw]
    dsimp only
    rw [hkw]
    have hKmem : ∀ p, p ∈ (a :: b :: t).filter (fun p => decide (u p ≠ 0)) ↔ p ∈ pts ∧ 0 < u p := by
      intro p
      rw [List.mem_filter, decide_eq_true_eq, hperm.mem_iff]
      constructor
      · rintro ⟨h1, h3⟩
        exact ⟨h1, lt_of_le_of_ne (hnn0 p h1) (Ne.symm h3)⟩
      · rintro ⟨h1, h3⟩
        exact ⟨h1, h3.ne'⟩
    have hKsum : (((a :: b :: t).filter fun p => decide (u p ≠ 0)).map u).sum = 1 := by
      rw [sum_drop_zero _ u u fun p _ h => h]; exact hsum
    have hKnd : ((a :: b :: t).filter fun p => decide (u p ≠ 0)).Nodup := hsnd.filter _
    match hK : (a :: b :: t).filter fun p => decide (u p ≠ 0) with
    | [] =>
      rw [hK] at hKsum
      exact absurd hKsum (by simp)
    | [p] =>
      simp only [List.map_cons, List.map_nil]
      rw [hK] at hKmem hback
      have hp := (hKmem p).1 (List.mem_cons_self ..)
      have hpx := hx p hp.1
      have hother : ∀ q ∈ pts, q ≠ p → u q = 0 := by
        intro q hq hne
        by_contra h
        have := (hKmem q).2 ⟨hq, lt_of_le_of_ne (hnn0 q hq) (Ne.symm h)⟩
        rw [List.mem_singleton] at this
        exact hne this
      refine ⟨x p, rfl, hpx, fun g hg => ?_⟩
      have hget : (x p)[g]? = some ((x p).getD g none) := by
        have : g < (x p).length := by omega
        rw [List.getElem?_eq_getElem this, List.getD_eq_getElem _ _ this]
      have hub : Spec.blendAt pts u (fun p => (x p).getD g none) = (x p).getD g none := by
        rw [hback u g (fun _ _ h => h), blendAt_single p u hp.2.ne']
      refine ⟨fun q => if ((x q).getD g none).isSome then u q else 0, ?_, ?_, ?_, fun _ => by rw [hget, hub]⟩
      · rw [hget, ← hub]
        congr 1
        unfold Spec.blendAt
        dsimp only
        have h1 : ∀ q ∈ pts.filter (fun p => ((x p).getD g none).isSome), (if ((x q).getD g none).isSome then u q else 0) = u q := by
          intro q hq
          rw [if_pos (List.mem_filter.1 hq).2]
        rw [List.map_congr_left (g := u) h1,
          List.map_congr_left (f := fun q => (if ((x q).getD g none).isSome then u q else 0) * ((x q).getD g none).getD 0)
            (g := fun q => u q * ((x q).getD g none).getD 0) (fun q hq => by rw [h1 q hq])]
      · intro q hq
        dsimp only
        by_cases h : ((x q).getD g none).isSome = true
        · rw [if_pos h]; exact hnn0 q hq
        · rw [if_neg h]
      · intro q hq
        dsimp only
        by_cases h : ((x q).getD g none).isSome = true
        · rw [if_pos h]; exact ⟨fun h' => ⟨h', h⟩, fun h' => h'.1⟩
        · rw [if_neg h]; exact ⟨fun h' => absurd h' (lt_irrefl _), fun h' => absurd h'.2 h⟩
    | p :: q :: k =>
      simp only [List.map_cons]
      have hkeep : (keepWeighted w w).map Prod.snd = (p :: q :: k).map u := by
        rw [hww, hK, List.map_map]; rfl
      rw [hkeep]
      rw [hK] at hKmem hKsum hKnd hback
      have hpw : ∀ g, ∃ wt : ℚ → ℚ, g < n →
          (spatialPoint n fuzzy edt ((p :: q :: k).map fun p => (p, x p)) ((p :: q :: k).map u) g =
              .ok (Spec.blendAt (p :: q :: k) wt fun p => (x p).getD g none) ∧
            (∀ p' ∈ p :: q :: k, 0 ≤ wt p') ∧ (∀ p' ∈ p :: q :: k, 0 < wt p' ↔ ((x p').getD g none).isSome = true) ∧
            ((∀ p' ∈ p :: q :: k, ((x p').getD g none).isSome = true ∧
              ((∀ q < n, ((x p').getD q none).isSome = true) ∨ fuzzy ≤ edt (fun q => ((x p').getD q none).isSome) g)) →
              ∀ p' ∈ p :: q :: k, wt p' = u p')) := by
        intro g
        by_cases hg : g < n
        · obtain ⟨wt, h⟩ := spatialPoint_weights n fuzzy hf edt hedt (p :: q :: k) hKnd x u (fun p hp => ((hKmem p).1 hp).2) hKsum g hg
          exact ⟨wt, fun _ => h⟩
        · exact ⟨fun _ => 0, fun h => absurd h hg⟩
      choose wt hwt using hpw
      have hmap : (List.range n).mapM (spatialPoint n fuzzy edt
          ((p, x p) :: (q, x q) :: k.map fun p => (p, x p)) ((p :: q :: k).map u)) =
          .ok ((List.range n).map fun g => Spec.blendAt (p :: q :: k) (wt g) fun p => (x p).getD g none) := by
        apply forall₂_mapM
        rw [List.forall₂_map_right_iff, List.forall₂_same]
        intro g hg
        exact (hwt g (List.mem_range.1 hg)).1
      refine ⟨_, hmap, by simp, fun g hg => ?_⟩
      obtain ⟨-, w1, w2, w3⟩ := hwt g hg
      -- weights for all inputs: those of the inputs that take part, zero for the others
      have hval : (List.map (fun g => Spec.blendAt (p :: q :: k) (wt g) fun p => (x p).getD g none) (List.range n))[g]? =
          some (Spec.blendAt (p :: q :: k) (wt g) fun p => (x p).getD g none) := by
        rw [List.getElem?_map, List.getElem?_range hg]; rfl
      have hzero : ∀ y ∈ pts, u y = 0 → y ∉ p :: q :: k := by
        intro y _ hy hin
        have := ((hKmem y).1 hin).2
        rw [hy] at this
        exact lt_irrefl _ this
      refine ⟨fun y => if y ∈ p :: q :: k then wt g y else 0, ?_, ?_, ?_, ?_⟩
      · rw [hval, hback _ g]
        · congr 1
          apply blendAt_congr
          intro y hy
          exact (if_pos hy).symm
        · intro y hy hu
          exact if_neg (hzero y hy hu)
      · intro y _
        dsimp only
        by_cases hin : y ∈ p :: q :: k
        · rw [if_pos hin]; exact w1 y hin
        · rw [if_neg hin]
      · intro y hy
        dsimp only
        by_cases hin : y ∈ p :: q :: k
        · rw [if_pos hin]
          exact (w2 y hin).trans ⟨fun h => ⟨((hKmem y).1 hin).2, h⟩, fun h => h.2⟩
        · rw [if_neg hin]
          exact ⟨fun h => absurd h (lt_irrefl _), fun h => absurd ((hKmem y).2 ⟨hy, h.1⟩) hin⟩
      · intro hall
        have hw3 := w3 fun y hy => hall y ((hKmem y).1 hy).1 ((hKmem y).1 hy).2
        rw [hval, hback u g (fun _ _ h => h)]
        congr 1
        exact blendAt_congr _ _ _ _ hw3

/-- A weighted mean of weights that are positive exactly for the values that are there and wanted. -/
theorem blendAt_valid (pts : List ℚ) (u wt : ℚ → ℚ) (v : ℚ → Option ℚ) (h0 : ∀ p ∈ pts, 0 ≤ wt p)
    (hpos : ∀ p ∈ pts, 0 < wt p ↔ 0 < u p ∧ (v p).isSome = true) :
    (Spec.blendAt pts wt v = none ↔ ∀ p ∈ pts, 0 < u p → v p = none) ∧
    ∀ lo hi b, Spec.blendAt pts wt v = some b → (∀ p ∈ pts, 0 < u p → ∀ y, v p = some y → lo ≤ y ∧ y ≤ hi) → lo ≤ b ∧ b ≤ hi := by
  constructor
  · have hnn : ∀ z ∈ (pts.filter fun p => (v p).isSome).map wt, 0 ≤ z := by
      intro z hz
      obtain ⟨p, hp, rfl⟩ := List.mem_map.1 hz
      exact h0 p (List.mem_filter.1 hp).1
    unfold Spec.blendAt
    dsimp only
    constructor
    · intro h p hp hu
      cases hv : v p with
      | none => rfl
      | some y =>
        exfalso
        have hs : (v p).isSome = true := by rw [hv]; rfl
        have hw := (hpos p hp).2 ⟨hu, hs⟩
        have hle := List.single_le_sum hnn (wt p) (List.mem_map.2 ⟨p, List.mem_filter.2 ⟨hp, hs⟩, rfl⟩)
        rw [if_neg (by intro h; rw [h] at hle; linarith)] at h
        exact nomatch h
    · intro h
      rw [if_pos]
      have : ∀ z ∈ (pts.filter fun p => (v p).isSome).map wt, z = 0 := by
        intro z hz
        obtain ⟨p, hp, rfl⟩ := List.mem_map.1 hz
        obtain ⟨hp, hs⟩ := List.mem_filter.1 hp
        by_contra hne
        have hw := (hpos p hp).1 (lt_of_le_of_ne (h0 p hp) (Ne.symm hne))
        rw [h p hp hw.1] at hs
        exact nomatch hs
      exact List.sum_eq_zero this
  · intro lo hi b hb hall
    exact C183_between pts wt h0 v lo hi b (fun p hp hw y hy => hall p hp ((hpos p hp).1 hw).1 y hy) hb

/-- **C281** (masked): a grid point is masked in the blend exactly if every input with weight in the blend is masked there. -/
theorem C281_masked (m : WtsMethod) (n : ℕ) (fuzzy : ℚ) (hf : 0 < fuzzy) (edt : (ℕ → Bool) → ℕ → ℚ) (hedt : ∀ f g, f g = true → 0 < edt f g)
    (pts : List ℚ) (hnd : pts.Nodup) (h2 : 2 ≤ pts.length)
    (x : ℚ → List (Option ℚ)) (hx : ∀ p ∈ pts, (x p).length = n) (slices : List (ℚ × List (Option ℚ)))
    (hs : slices.Perm (pts.map fun p => (p, x p))) (w : List (ℚ × ℚ))
    (hw : blendWeights m (pts.insertionSort (· ≤ ·)) = .ok w) (r : List (Option ℚ)) (hr : spatialBlend m n fuzzy edt slices = .ok r)
    (g : ℕ) (hg : g < n) :
    r[g]? = some none ↔ ∀ p c, (p, c) ∈ w → 0 < c → (x p).getD g none = none := by
  obtain ⟨u, hform, hnn, hsum, r', hr', hl, hall⟩ := C281_blend m n fuzzy hf edt hedt pts hnd h2 x hx slices hs w hw
  rw [hr] at hr'
  injection hr' with hr'
  subst hr'
  obtain ⟨wt, e, h0, hpos, -⟩ := hall g hg
  rw [e]
  have key := (blendAt_valid pts u wt _ h0 hpos).1
  constructor
  · intro h p c hpc hc
    injection h with h
    rw [hform] at hpc
    obtain ⟨p', hp', e⟩ := List.mem_map.1 hpc
    cases e
    exact key.1 h p ((npSort_perm pts).mem_iff.1 hp') hc
  · intro h
    congr 1
    refine key.2 fun p hp hu => h p (u p) ?_ hu
    rw [hform]
    exact List.mem_map.2 ⟨p, (npSort_perm pts).mem_iff.2 hp, rfl⟩

/-- **C281** (range): the blend lies within the range of the inputs with weight that are not masked at the point; with only one of these it
is that one's value. -/
theorem C281_between (m : WtsMethod) (n : ℕ) (fuzzy : ℚ) (hf : 0 < fuzzy) (edt : (ℕ → Bool) → ℕ → ℚ) (hedt : ∀ f g, f g = true → 0 < edt f g)
    (pts : List ℚ) (hnd : pts.Nodup) (h2 : 2 ≤ pts.length)
    (x : ℚ → List (Option ℚ)) (hx : ∀ p ∈ pts, (x p).length = n) (slices : List (ℚ × List (Option ℚ)))
    (hs : slices.Perm (pts.map fun p => (p, x p))) (w : List (ℚ × ℚ))
    (hw : blendWeights m (pts.insertionSort (· ≤ ·)) = .ok w) (r : List (Option ℚ)) (hr : spatialBlend m n fuzzy edt slices = .ok r)
    (g : ℕ) (hg : g < n) (lo hi b : ℚ) (hb : r[g]? = some (some b))
    (hin : ∀ p c, (p, c) ∈ w → 0 < c → ∀ y, (x p).getD g none = some y → lo ≤ y ∧ y ≤ hi) : lo ≤ b ∧ b ≤ hi := by
  obtain ⟨u, hform, hnn, hsum, r', hr', hl, hall⟩ := C281_blend m n fuzzy hf edt hedt pts hnd h2 x hx slices hs w hw
  rw [hr] at hr'
  injection hr' with hr'
  subst hr'
  obtain ⟨wt, e, h0, hpos, -⟩ := hall g hg
  rw [e] at hb
  injection hb with hb
  refine (blendAt_valid pts u wt _ h0 hpos).2 lo hi b hb fun p hp hu y hy => hin p (u p) ?_ hu y hy
  rw [hform]
  exact List.mem_map.2 ⟨p, (npSort_perm pts).mem_iff.2 hp, rfl⟩

/-- **C281** (further dimensions): when the first slice along further dimensions (such as the realizations) has a masked point, a cube is
accepted exactly if all its slices have the same mask, which is the one used. -/
theorem C281_template (places : List (ℕ × ℕ)) (first : ℕ × ℕ → Bool) (rest : List (ℕ × ℕ → Bool)) (h : ∃ p ∈ places, first p = true) :
    ((∀ k ∈ rest, ∀ p ∈ places, k p = first p) → templateMask places (first :: rest) = .ok first) ∧
    ((∃ k ∈ rest, ∃ p ∈ places, k p ≠ first p) → templateMask places (first :: rest) = .error .valueError) := by
  have hany : places.any first = true := List.any_eq_true.2 h
  unfold templateMask
  dsimp only
  rw [if_pos hany]
  constructor
  · intro hall
    rw [if_pos]
    exact List.all_eq_true.2 fun k hk => List.all_eq_true.2 fun p hp => beq_iff_eq.2 (hall k hk p hp)
  · rintro ⟨k, hk, p, hp, hne⟩
    rw [if_neg]
    intro hall
    exact hne (beq_iff_eq.1 (List.all_eq_true.1 (List.all_eq_true.1 hall k hk) p hp))

/-- **C281** (refuted): one would expect masks that vary along a further dimension always to be refused; but if the first slice has no
masked point the others are not looked at, and the cube is taken to be without masked points. -/
theorem C281_template_refuted (places : List (ℕ × ℕ)) (first : ℕ × ℕ → Bool) (rest : List (ℕ × ℕ → Bool))
    (h : ∀ p ∈ places, first p = false) : templateMask places (first :: rest) = .ok first := by
  unfold templateMask
  dsimp only
  rw [if_neg]
  intro hany
  obtain ⟨p, hp, h'⟩ := List.any_eq_true.1 hany
  rw [h p hp] at h'
  exact nomatch h'

/-! ### Cases -/

/-- Distance along a line of four points, to the nearest point where the field is false. -/
def lineDistance (f : ℕ → Bool) (g : ℕ) : ℚ :=
  if f g then ((List.range 4).filter fun q => !f q).foldl (fun d q => min d |(q : ℚ) - g|) 10 else 0

example : spatialBlend (.linear (some 1) (some 1)) 4 2 lineDistance
    [(8, [some 10, some 10, some 10, none]), (2, [some 2, some 2, some 2, some 2])] = .ok [some 6, some 6, some 4, some 2] := by decide +kernel

end Improver
