import Verif.Model.BlendCommand
import Verif.Props.SpatialBlend

/-! C282: the blending commands. -/

namespace Improver

/-- The number of points below `p`. -/
def Spec.pointsBelow (pts : List ℚ) (p : ℚ) : ℕ := (pts.filter fun q => decide (q < p)).length

/-- The number of points above `p`. -/
def Spec.pointsAbove (pts : List ℚ) (p : ℚ) : ℕ := (pts.filter fun q => decide (p < q)).length

/-- The option is given and is not zero. -/
def Spec.isGiven (o : Option ℚ) : Prop := ∃ v, o = some v ∧ v ≠ 0

/-- Options which contradict each other. -/
def Spec.contradictory (a : BlendArgs) : Prop :=
  (a.method = "linear".toList ∧ Spec.isGiven a.cval) ∨
  (a.method = "nonlinear".toList ∧ (Spec.isGiven a.y0 ∨ Spec.isGiven a.yn)) ∨
  (a.method = "dict".toList ∧ a.config = none) ∨
  ("model".toList <:+: a.coordinate ∧ a.modelId = false) ∨
  (a.recordRun = true ∧ a.modelId = false)

theorem optTruthy_iff (o : Option ℚ) : optTruthy o = true ↔ Spec.isGiven o := by
  unfold Spec.isGiven
  cases o with
  | none => simp [optTruthy]
  | some v => simp [optTruthy]

theorem five_checks (A B C D E : Prop) [Decidable A] [Decidable B] [Decidable C] [Decidable D] [Decidable E] (e : Err) :
    ((A ∨ B ∨ C ∨ D ∨ E) → (if A then Except.error e else if B then .error e else if C then .error e else if D then .error e
      else if E then .error e else .ok () : Except Err Unit) = .error e) ∧
    (¬ (A ∨ B ∨ C ∨ D ∨ E) → (if A then Except.error e else if B then .error e else if C then .error e else if D then .error e
      else if E then .error e else .ok () : Except Err Unit) = .ok ()) := by
  by_cases h1 : A
  · simp [h1]
  · by_cases h2 : B
    · simp [h1, h2]
    · by_cases h3 : C
      · simp [h1, h2, h3]
      · by_cases h4 : D
        · simp [h1, h2, h3, h4]
        · by_cases h5 : E <;> simp [h1, h2, h3, h4, h5]

theorem blendArgsCheck_iff (a : BlendArgs) :
    (Spec.contradictory a → blendArgsCheck a = .error .runtimeError) ∧ (¬ Spec.contradictory a → blendArgsCheck a = .ok ()) := by
  unfold blendArgsCheck Spec.contradictory
  rw [← hasPart_iff, ← optTruthy_iff, ← optTruthy_iff, ← optTruthy_iff, ← Option.isNone_iff_eq_none]
  exact five_checks _ _ _ _ _ _

/-- **C282** (refused): contradictory options are refused before anything else is looked at. -/
theorem C282_refused (a : BlendArgs) (h : Spec.contradictory a) (n : ℕ) (fuzzy : ℚ) (edt : (ℕ → Bool) → ℕ → ℚ)
    (slices : List (ℚ × List (Option ℚ))) : blendCommand a n fuzzy edt slices = .error .runtimeError := by
  unfold blendCommand
  rw [(blendArgsCheck_iff a).1 h]
  rfl

/-- **C282** (unknown method): every other way to get weights is refused, also when there is only one input. -/
theorem C282_unknown (a : BlendArgs) (h1 : a.method ≠ "linear".toList) (h2 : a.method ≠ "nonlinear".toList)
    (h3 : a.method ≠ "dict".toList) (hc : ¬ Spec.contradictory a) (n : ℕ) (fuzzy : ℚ) (edt : (ℕ → Bool) → ℕ → ℚ)
    (slices : List (ℚ × List (Option ℚ))) : blendCommand a n fuzzy edt slices = .error .valueError := by
  unfold blendCommand
  rw [(blendArgsCheck_iff a).2 hc]
  unfold blendArgsMethod
  rw [if_neg h3, if_neg h1, if_neg h2]
  rfl

theorem linear_ne_nonlinear : ("linear".toList : Text) ≠ "nonlinear".toList := by decide +kernel
theorem linear_ne_dict : ("linear".toList : Text) ≠ "dict".toList := by decide +kernel
theorem nonlinear_ne_dict : ("nonlinear".toList : Text) ≠ "dict".toList := by decide +kernel

theorem blendArgsMethod_linear (a : BlendArgs) (h : a.method = "linear".toList) : blendArgsMethod a = .ok (.linear a.y0 a.yn) := by
  unfold blendArgsMethod
  rw [if_neg (by rw [h]; exact linear_ne_dict), if_pos h]

theorem blendArgsMethod_nonlinear (a : BlendArgs) (h : a.method = "nonlinear".toList) :
    blendArgsMethod a = .ok (.nonlinear a.cval false) := by
  unfold blendArgsMethod
  rw [if_neg (by rw [h]; exact nonlinear_ne_dict), if_neg (by rw [h]; exact linear_ne_nonlinear.symm), if_pos h]

theorem blendArgsMethod_dict (a : BlendArgs) (h : a.method = "dict".toList) (c : (ℚ → List ℚ × List ℚ) × ℚ) (hc : a.config = some c) :
    blendArgsMethod a = .ok (.dict c.1 c.2) := by
  unfold blendArgsMethod
  rw [if_pos h, hc]

theorem blendCommand_of (a : BlendArgs) (hc : ¬ Spec.contradictory a) (m : WtsMethod) (hm : blendArgsMethod a = .ok m) (n : ℕ) (fuzzy : ℚ)
    (edt : (ℕ → Bool) → ℕ → ℚ) (slices : List (ℚ × List (Option ℚ))) :
    blendCommand a n fuzzy edt slices = if a.spatial then spatialBlend m n fuzzy edt slices else weightAndBlend m n slices := by
  unfold blendCommand
  rw [(blendArgsCheck_iff a).2 hc, hm]
  rfl

/-! ### Places in the order of the blend points -/

theorem below_sorted : ∀ (l : List ℚ), l.Pairwise (· ≤ ·) → l.Nodup → ∀ p ∈ l, l.idxOf p = Spec.pointsBelow l p
  | [], _, _, _, h => nomatch h
  | a :: t, hs, hn, p, hp => by
    have hs' := List.pairwise_cons.1 hs
    have hn' := List.nodup_cons.1 hn
    unfold Spec.pointsBelow
    by_cases h : a = p
    · subst h
      rw [List.idxOf_cons_self, List.filter_cons_of_neg (by simp)]
      have : t.filter (fun q => decide (q < a)) = [] := by
        rw [List.filter_eq_nil_iff]
        intro q hq h
        exact absurd (hs'.1 q hq) (not_le.2 (of_decide_eq_true h))
      rw [this]
      rfl
    · have hpt : p ∈ t := by
        rcases List.mem_cons.1 hp with e | e
        · exact absurd e.symm h
        · exact e
      have hlt : a < p := lt_of_le_of_ne (hs'.1 p hpt) h
      rw [List.idxOf_cons_ne _ h, List.filter_cons_of_pos (by simpa using hlt), List.length_cons,
        below_sorted t hs'.2 hn'.2 p hpt]
      rfl

theorem below_perm {l m : List ℚ} (h : l.Perm m) (p : ℚ) : Spec.pointsBelow l p = Spec.pointsBelow m p := (h.filter _).length_eq

theorem below_above (l : List ℚ) (hn : l.Nodup) (p : ℚ) (hp : p ∈ l) : Spec.pointsBelow l p + 1 + Spec.pointsAbove l p = l.length := by
  induction l with
  | nil => exact nomatch hp
  | cons a t ih =>
    have hn' := List.nodup_cons.1 hn
    unfold Spec.pointsBelow Spec.pointsAbove at *
    by_cases h : a = p
    · subst h
      rw [List.filter_cons_of_neg (by simp), List.filter_cons_of_neg (by simp), List.length_cons]
      have key : ∀ s : List ℚ, a ∉ s → (s.filter fun q => decide (q < a)).length + (s.filter fun q => decide (a < q)).length = s.length := by
        intro s
        induction s with
        | nil => simp
        | cons b s ih =>
          intro hb
          have hb' := not_or.1 fun h => hb (List.mem_cons.2 h)
          have := ih hb'.2
          rcases lt_trichotomy b a with h | h | h
          · rw [List.filter_cons_of_pos (by simpa using h), List.filter_cons_of_neg (by simpa using h.le), List.length_cons, List.length_cons]
            omega
          · exact absurd h.symm hb'.1
          · rw [List.filter_cons_of_neg (by simpa using h.le), List.filter_cons_of_pos (by simpa using h), List.length_cons, List.length_cons]
            omega
      have := key t hn'.1
      omega
    · have hpt : p ∈ t := by
        rcases List.mem_cons.1 hp with e | e
        · exact absurd e.symm h
        · exact e
      have := ih hn'.2 hpt
      rcases lt_or_gt_of_ne h with h | h
      · rw [List.filter_cons_of_pos (by simpa using h), List.filter_cons_of_neg (by simpa using h.le), List.length_cons, List.length_cons]
        omega
      · rw [List.filter_cons_of_neg (by simpa using h.le), List.filter_cons_of_pos (by simpa using h), List.length_cons, List.length_cons]
        omega

theorem blendAt_scale (pts : List ℚ) (u : ℚ → ℚ) (v : ℚ → Option ℚ) (c : ℚ) (hc : c ≠ 0) :
    Spec.blendAt pts (fun p => c * u p) v = Spec.blendAt pts u v := by
  have key : ∀ (l : List ℚ) (f : ℚ → ℚ), (l.map fun p => c * f p).sum = c * (l.map f).sum := by
    intro l f
    induction l with
    | nil => simp
    | cons a l ih => rw [List.map_cons, List.sum_cons, ih, List.map_cons, List.sum_cons]; ring
  unfold Spec.blendAt
  dsimp only
  have e : (fun p => c * u p * (v p).getD 0) = fun p => c * (u p * (v p).getD 0) := by funext p; ring
  rw [e, key, key]
  by_cases h : ((pts.filter fun p => (v p).isSome).map u).sum = 0
  · rw [if_pos h, if_pos (by rw [h, mul_zero])]
  · rw [if_neg h, if_neg (mul_ne_zero hc h), mul_div_mul_left _ _ hc]

/-- Weights that are a fixed multiple of `f (number of points below)`. -/
theorem weightAndBlend_rank (m : WtsMethod) (n : ℕ) (pts : List ℚ) (hnd : pts.Nodup) (h2 : 2 ≤ pts.length) (x : ℚ → List (Option ℚ))
    (hx : ∀ p ∈ pts, (x p).length = n) (slices : List (ℚ × List (Option ℚ))) (hs : slices.Perm (pts.map fun p => (p, x p)))
    (f : ℕ → ℚ) (c : ℚ) (hc : c ≠ 0) (l : List ℚ) (hl : l.length = pts.length) (hlf : ∀ k < pts.length, l.getD k 0 = c * f k)
    (hw : blendWeights m (npSort pts) = .ok ((npSort pts).zip l)) :
    ∃ r, weightAndBlend m n slices = .ok r ∧ r.length = n ∧
      ∀ g < n, r[g]? = some (Spec.blendAt pts (fun p => f (Spec.pointsBelow pts p)) fun p => (x p).getD g none) := by
  obtain ⟨u, hform, -, -, r, hr, hlen, hall⟩ := C183_blend m n pts hnd h2 x hx slices hs _ hw
  have hperm := npSort_perm pts
  have hsnd : (npSort pts).Nodup := hperm.nodup_iff.2 hnd
  rw [zip_as_map (by rw [hl, hperm.length_eq]) hsnd] at hform
  refine ⟨r, hr, hlen, fun g hg => ?_⟩
  rw [hall g hg, ← blendAt_scale pts (fun p => f (Spec.pointsBelow pts p)) _ c hc]
  congr 1
  apply blendAt_congr
  intro p hp
  have hp' : p ∈ npSort pts := hperm.mem_iff.2 hp
  have := List.map_inj_left.1 hform p hp'
  injection this with _ this
  rw [← this]
  have hi : (npSort pts).idxOf p = Spec.pointsBelow pts p := by
    rw [below_sorted _ (npSort_sorted pts) hsnd p hp', below_perm hperm]
  rw [hi]
  apply hlf
  rw [← hi, ← hperm.length_eq]
  exact List.idxOf_lt_length_of_mem hp'

/-- **C282** (linear): the blend is the weighted mean with weights along the straight line from `y0` at the lowest blend point to `yn` at
the highest: with `b` points below and `a` above, a point has the weight `a * y0 + b * yn`.  Any order of the inputs gives the same. -/
theorem C282_linear (a : BlendArgs) (hm : a.method = "linear".toList) (hc : ¬ Spec.contradictory a) (hsp : a.spatial = false)
    (y0 yn : ℚ) (e0 : a.y0 = some y0) (en : a.yn = some yn) (h0 : 0 ≤ y0) (hn : 0 ≤ yn) (hpos : 0 < y0 + yn)
    (n : ℕ) (fuzzy : ℚ) (edt : (ℕ → Bool) → ℕ → ℚ) (pts : List ℚ) (hnd : pts.Nodup) (h2 : 2 ≤ pts.length) (x : ℚ → List (Option ℚ))
    (hx : ∀ p ∈ pts, (x p).length = n) (slices : List (ℚ × List (Option ℚ))) (hs : slices.Perm (pts.map fun p => (p, x p))) :
    ∃ r, blendCommand a n fuzzy edt slices = .ok r ∧ r.length = n ∧
      ∀ g < n, r[g]? = some (Spec.blendAt pts (fun p => Spec.pointsAbove pts p * y0 + Spec.pointsBelow pts p * yn) fun p => (x p).getD g none) := by
  rw [blendCommand_of a hc _ (blendArgsMethod_linear a hm), hsp, e0, en]
  rw [if_neg (by decide)]
  obtain ⟨out, ho⟩ := C21_linear_total y0 yn pts.length (by omega) h0 hn hpos
  have hlen : out.length = pts.length := (C21_linear y0 yn _ out ho).1
  have hslen : (npSort pts).length = pts.length := (npSort_perm pts).length_eq
  have hw : blendWeights (.linear (some y0) (some yn)) (npSort pts) = .ok ((npSort pts).zip out) := by
    unfold blendWeights linearInit
    dsimp only
    rw [if_neg (not_lt.2 h0)]
    simp only [bind, Except.bind]
    rw [hslen, ho]
  have ho' := ho
  unfold linearWeights at ho'
  rw [if_neg (by omega)] at ho'
  dsimp only at ho'
  obtain ⟨-, -, hsne, hout⟩ := (C20_normalise_iff _ _).1 ho'
  have hq : (0 : ℚ) < (pts.length : ℚ) - 1 := by
    have : (2 : ℚ) ≤ pts.length := by exact_mod_cast h2
    linarith
  obtain ⟨r, hr, hl, hall⟩ := weightAndBlend_rank _ n pts hnd h2 x hx slices hs
    (fun k => ((pts.length : ℚ) - 1 - k) * y0 + k * yn)
    (1 / (((pts.length : ℚ) - 1) * ((List.range pts.length).map fun t : ℕ => (yn - y0) / ((pts.length : ℚ) - 1) * (t : ℚ) + y0).sum))
    (by
      apply one_div_ne_zero
      exact mul_ne_zero hq.ne' hsne) out hlen (by
      intro k hk
      rw [hout, map_div_getD, map_range_getD _ hk]
      field_simp
      ring) hw
  refine ⟨r, hr, hl, fun g hg => ?_⟩
  rw [hall g hg]
  congr 1
  apply blendAt_congr
  intro p hp
  have := below_above pts hnd p hp
  have e : ((Spec.pointsBelow pts p : ℕ) : ℚ) + 1 + (Spec.pointsAbove pts p : ℚ) = pts.length := by exact_mod_cast this
  rw [← e]
  ring

/-- **C282** (nonlinear): each point has `cval` times the weight of the one below. -/
theorem C282_nonlinear (a : BlendArgs) (hm : a.method = "nonlinear".toList) (hc : ¬ Spec.contradictory a) (hsp : a.spatial = false)
    (c : ℚ) (ec : a.cval = some c) (h0 : 0 < c) (h1 : c ≤ 1)
    (n : ℕ) (fuzzy : ℚ) (edt : (ℕ → Bool) → ℕ → ℚ) (pts : List ℚ) (hnd : pts.Nodup) (h2 : 2 ≤ pts.length) (x : ℚ → List (Option ℚ))
    (hx : ∀ p ∈ pts, (x p).length = n) (slices : List (ℚ × List (Option ℚ))) (hs : slices.Perm (pts.map fun p => (p, x p))) :
    ∃ r, blendCommand a n fuzzy edt slices = .ok r ∧ r.length = n ∧
      ∀ g < n, r[g]? = some (Spec.blendAt pts (fun p => c ^ Spec.pointsBelow pts p) fun p => (x p).getD g none) := by
  rw [blendCommand_of a hc _ (blendArgsMethod_nonlinear a hm), hsp, ec]
  rw [if_neg (by decide)]
  have hinit : nonlinearInit (some c) = .ok c := by
    unfold nonlinearInit
    dsimp only
    rw [if_neg (by rintro (h | h) <;> linarith)]
  obtain ⟨out, ho, hlen, -, -, -⟩ := C21_nonlinear (some c) c hinit pts.length (by omega)
  have hslen : (npSort pts).length = pts.length := (npSort_perm pts).length_eq
  have hw : blendWeights (.nonlinear (some c) false) (npSort pts) = .ok ((npSort pts).zip out) := by
    unfold blendWeights nonlinearProcess
    dsimp only
    rw [hinit]
    simp only [bind, Except.bind, pure, Except.pure]
    rw [if_neg (by decide), hslen, ho]
    rfl
  have ho' := ho
  unfold nonlinearWeights at ho'
  obtain ⟨-, -, hsne, hout⟩ := (C20_normalise_iff _ _).1 ho'
  exact weightAndBlend_rank _ n pts hnd h2 x hx slices hs (fun k => c ^ k)
    (1 / ((List.range pts.length).map fun k : ℕ => c ^ k).sum) (one_div_ne_zero hsne) out hlen (by
      intro k hk
      rw [hout, map_div_getD, map_range_getD _ hk]
      ring) hw

theorem sortByCoord_two (slices : List (ℚ × List (Option ℚ))) (h2 : 2 ≤ slices.length) :
    ∃ p q t, sortByCoord slices = p :: q :: t := by
  have : (sortByCoord slices).length = slices.length := (List.perm_insertionSort _ _).length_eq
  match h : sortByCoord slices with
  | [] => rw [h] at this; simp at this; omega
  | [_] => rw [h] at this; simp at this; omega
  | p :: q :: t => exact ⟨p, q, t, rfl⟩

theorem blend_weights_error (m : WtsMethod) (n : ℕ) (fuzzy : ℚ) (edt : (ℕ → Bool) → ℕ → ℚ) (slices : List (ℚ × List (Option ℚ)))
    (h2 : 2 ≤ slices.length) (e : Err) (he : ∀ points, points.length = slices.length → blendWeights m points = .error e) (sp : Bool) :
    (if sp then spatialBlend m n fuzzy edt slices else weightAndBlend m n slices) = .error e := by
  obtain ⟨p, q, t, h⟩ := sortByCoord_two slices h2
  have hlen : (sortByCoord slices).length = slices.length := (List.perm_insertionSort _ _).length_eq
  rw [h] at hlen
  have he' := he ((p :: q :: t).map Prod.fst) (by rw [List.length_map, hlen])
  cases sp with
  | true =>
    rw [if_pos rfl]
    unfold spatialBlend
    rw [h]
    dsimp only
    rw [he']
    rfl
  | false =>
    rw [if_neg (by decide)]
    unfold weightAndBlend
    rw [h]
    dsimp only
    rw [he']
    rfl

/-- **C282** (values of the weights): with two or more inputs the values for linear weights must both be given, not negative and not both
zero; that for nonlinear weights must be given, above 0 and at most 1. -/
theorem C282_values (a : BlendArgs) (hc : ¬ Spec.contradictory a) (n : ℕ) (fuzzy : ℚ) (edt : (ℕ → Bool) → ℕ → ℚ)
    (slices : List (ℚ × List (Option ℚ))) (h2 : 2 ≤ slices.length)
    (h : (a.method = "linear".toList ∧ ¬ ∃ y0 yn, a.y0 = some y0 ∧ a.yn = some yn ∧ 0 ≤ y0 ∧ 0 ≤ yn ∧ 0 < y0 + yn) ∨
      (a.method = "nonlinear".toList ∧ ¬ ∃ c, a.cval = some c ∧ 0 < c ∧ c ≤ 1)) :
    blendCommand a n fuzzy edt slices = .error .valueError := by
  rcases h with ⟨hm, h⟩ | ⟨hm, h⟩
  · rw [blendCommand_of a hc _ (blendArgsMethod_linear a hm)]
    apply blend_weights_error _ _ _ _ _ h2
    intro points hp
    unfold blendWeights linearInit
    dsimp only
    cases h0 : a.y0 with
    | none => rfl
    | some y0 =>
      cases hn : a.yn with
      | none => rfl
      | some yn =>
        dsimp only
        by_cases hy : y0 < 0
        · rw [if_pos hy]; rfl
        · rw [if_neg hy]
          simp only [bind, Except.bind]
          cases hl : linearWeights y0 yn points.length with
          | error e =>
            dsimp only
            unfold linearWeights at hl
            rw [if_neg (by omega)] at hl
            dsimp only at hl
            unfold normaliseWeights at hl
            cases hmin : npMin ((List.range points.length).map fun t : ℕ => (yn - y0) / ((points.length : ℚ) - 1) * (t : ℚ) + y0) with
            | error e' =>
              exfalso
              match hL : (List.range points.length).map (fun t : ℕ => (yn - y0) / ((points.length : ℚ) - 1) * (t : ℚ) + y0) with
              | [] =>
                have := congrArg List.length hL
                rw [List.length_map, List.length_range] at this
                simp only [List.length_nil] at this
                omega
              | v :: vs => rw [hL] at hmin; simp [npMin] at hmin
            | ok mn =>
              rw [hmin] at hl
              dsimp only at hl
              split_ifs at hl
              all_goals first | (injection hl with hl; rw [← hl]) | exact nomatch hl
          | ok out =>
            exfalso
            apply h
            refine ⟨y0, yn, h0, hn, not_lt.1 hy, ?_⟩
            unfold linearWeights at hl
            rw [if_neg (by omega)] at hl
            dsimp only at hl
            obtain ⟨-, hnn, hsum, -⟩ := (C20_normalise_iff _ _).1 hl
            have hq : (0 : ℚ) < (points.length : ℚ) - 1 := by
              have : (2 : ℚ) ≤ points.length := by exact_mod_cast (by omega : 2 ≤ points.length)
              linarith
            have hyn : 0 ≤ yn := by
              apply hnn
              refine List.mem_map.2 ⟨points.length - 1, List.mem_range.2 (by omega), ?_⟩
              have hcast : ((points.length - 1 : ℕ) : ℚ) = (points.length : ℚ) - 1 := by
                rw [Nat.cast_sub (by omega)]; simp
              rw [hcast, div_mul_cancel₀ _ hq.ne']; ring
            refine ⟨hyn, ?_⟩
            by_contra hle
            have e1 : y0 = 0 := by linarith [not_lt.1 hy]
            have e2 : yn = 0 := by linarith [not_lt.1 hy]
            apply hsum
            apply List.sum_eq_zero
            intro z hz
            obtain ⟨k, -, rfl⟩ := List.mem_map.1 hz
            rw [e1, e2]
            simp
  · rw [blendCommand_of a hc _ (blendArgsMethod_nonlinear a hm)]
    apply blend_weights_error _ _ _ _ _ h2
    intro points hp
    unfold blendWeights nonlinearInit
    dsimp only
    cases hcv : a.cval with
    | none => rfl
    | some c =>
      dsimp only
      rw [if_pos]
      · rfl
      · by_contra hno
        exact h ⟨c, hcv, not_le.1 fun h' => hno (.inl h'), not_lt.1 fun h' => hno (.inr h')⟩

/-- **C282** (one input): a single input is returned as it is, whatever the values for the weights. -/
theorem C282_one_input (a : BlendArgs) (hc : ¬ Spec.contradictory a)
    (hm : a.method = "linear".toList ∨ a.method = "nonlinear".toList ∨ a.method = "dict".toList) (n : ℕ) (fuzzy : ℚ)
    (edt : (ℕ → Bool) → ℕ → ℚ) (p : ℚ) (v : List (Option ℚ)) : blendCommand a n fuzzy edt [(p, v)] = .ok v := by
  have key : ∀ m, (if a.spatial then spatialBlend m n fuzzy edt [(p, v)] else weightAndBlend m n [(p, v)]) = .ok v := by
    intro m
    cases a.spatial <;> rfl
  rcases hm with hm | hm | hm
  · rw [blendCommand_of a hc _ (blendArgsMethod_linear a hm)]; exact key _
  · rw [blendCommand_of a hc _ (blendArgsMethod_nonlinear a hm)]; exact key _
  · cases hcf : a.config with
    | none => exact absurd (Or.inr (Or.inr (Or.inl ⟨hm, hcf⟩))) hc
    | some c => rw [blendCommand_of a hc _ (blendArgsMethod_dict a hm c hcf)]; exact key _

/-- **C282** (other options): options for another way to get weights make no difference once they are accepted. -/
theorem C282_irrelevant (a b : BlendArgs) (ha : ¬ Spec.contradictory a) (hb : ¬ Spec.contradictory b) (hmm : a.method = b.method)
    (hsp : a.spatial = b.spatial)
    (h : (a.method = "linear".toList ∧ a.y0 = b.y0 ∧ a.yn = b.yn) ∨ (a.method = "nonlinear".toList ∧ a.cval = b.cval) ∨
      (a.method = "dict".toList ∧ a.config = b.config)) (n : ℕ) (fuzzy : ℚ) (edt : (ℕ → Bool) → ℕ → ℚ)
    (slices : List (ℚ × List (Option ℚ))) : blendCommand a n fuzzy edt slices = blendCommand b n fuzzy edt slices := by
  rcases h with ⟨hm, e0, en⟩ | ⟨hm, ec⟩ | ⟨hm, ec⟩
  · rw [blendCommand_of a ha _ (blendArgsMethod_linear a hm), blendCommand_of b hb _ (blendArgsMethod_linear b (hmm ▸ hm)), hsp, e0, en]
  · rw [blendCommand_of a ha _ (blendArgsMethod_nonlinear a hm), blendCommand_of b hb _ (blendArgsMethod_nonlinear b (hmm ▸ hm)), hsp, ec]
  · cases hcf : a.config with
    | none => exact absurd (Or.inr (Or.inr (Or.inl ⟨hm, hcf⟩))) ha
    | some c =>
      rw [blendCommand_of a ha _ (blendArgsMethod_dict a hm c hcf),
        blendCommand_of b hb _ (blendArgsMethod_dict b (hmm ▸ hm) c (ec ▸ hcf)), hsp]

/-- **C282** (refuted): the documentation promises an error whenever `cval` is given with linear weights or `y0val` or `ynval` with
nonlinear ones; but a zero is taken not to be given, and is ignored. -/
theorem C282_zero_refuted (a : BlendArgs) (hr : a.recordRun = true → a.modelId = true) (hmod : "model".toList <:+: a.coordinate → a.modelId = true)
    (h : (a.method = "linear".toList ∧ a.cval = some 0) ∨ (a.method = "nonlinear".toList ∧ a.y0 = some 0 ∧ a.yn = some 0)) :
    ¬ Spec.contradictory a := by
  have nz : ∀ o, o = some (0 : ℚ) → ¬ Spec.isGiven o := by
    rintro o rfl ⟨v, hv, hne⟩
    injection hv with hv
    exact hne hv.symm
  have tail : ¬ ((("model".toList <:+: a.coordinate) ∧ a.modelId = false) ∨ (a.recordRun = true ∧ a.modelId = false)) := by
    rintro (⟨h1, h2⟩ | ⟨h1, h2⟩)
    · rw [hmod h1] at h2; exact nomatch h2
    · rw [hr h1] at h2; exact nomatch h2
  unfold Spec.contradictory
  rcases h with ⟨hm, hcv⟩ | ⟨hm, h0, hn⟩
  · rintro (⟨-, g⟩ | ⟨g, -⟩ | ⟨g, -⟩ | g)
    · exact nz _ hcv g
    · exact linear_ne_nonlinear (hm.symm.trans g)
    · exact linear_ne_dict (hm.symm.trans g)
    · exact tail g
  · rintro (⟨g, -⟩ | ⟨-, g⟩ | ⟨g, -⟩ | g)
    · exact linear_ne_nonlinear (g.symm.trans hm)
    · rcases g with g | g
      · exact nz _ h0 g
      · exact nz _ hn g
    · exact nonlinear_ne_dict (hm.symm.trans g)
    · exact tail g

/-- **C282** (vicinity): blend-with-vicinity-and-rename gives the data of weighted-blending; with neither a name nor a radius it is refused. -/
theorem C282_vicinity (name : Text) (radius : ℚ) (a : BlendArgs) (n : ℕ) (fuzzy : ℚ) (edt : (ℕ → Bool) → ℕ → ℚ)
    (slices : List (ℚ × List (Option ℚ))) (blended : DiagMeta) :
    (name = [] → radius = 0 → vicinityBlendCommand name radius a n fuzzy edt slices blended = .error .valueError) ∧
    (∀ r m, vicinityBlendCommand name radius a n fuzzy edt slices blended = .ok (r, m) ↔
      (name ≠ [] ∨ radius ≠ 0) ∧ blendCommand a n fuzzy edt slices = .ok r ∧ updateVicinity name radius blended = .ok m) := by
  unfold vicinityBlendCommand
  constructor
  · intro h1 h2
    rw [if_pos ⟨h1, h2⟩]
  · intro r m
    by_cases h : name = [] ∧ radius = 0
    · rw [if_pos h]
      constructor
      · intro h'; exact nomatch h'
      · rintro ⟨h1 | h1, -⟩
        · exact absurd h.1 h1
        · exact absurd h.2 h1
    · rw [if_neg h]
      have h' : name ≠ [] ∨ radius ≠ 0 := by
        by_cases hn : name = []
        · right; exact fun hr => h ⟨hn, hr⟩
        · left; exact hn
      simp only [bind, Except.bind]
      cases blendCommand a n fuzzy edt slices with
      | error e => simp
      | ok r' =>
        dsimp only
        cases updateVicinity name radius blended with
        | error e => simp
        | ok m' =>
          dsimp only
          constructor
          · intro e
            injection e with e
            injection e with e1 e2
            subst e1; subst e2
            exact ⟨h', rfl, rfl⟩
          · rintro ⟨-, e1, e2⟩
            injection e1 with e1
            injection e2 with e2
            rw [e1, e2]

/-! ### Cases -/

/-- Linear weights from 3 at the lowest point to 1 at the highest, one coordinate, no records. -/
def exBlend : BlendArgs :=
  ⟨"forecast_reference_time".toList, "linear".toList, some 3, some 1, some 0, none, false, false, false⟩

theorem exBlend_fine : ¬ Spec.contradictory exBlend :=
  C282_zero_refuted exBlend (by decide) (by intro h; exact absurd ((hasPart_iff _ _).2 h) (by decide +kernel)) (Or.inl ⟨rfl, rfl⟩)

example : blendCommand exBlend 2 1 (fun _ _ => 1) [(9, [some 8, none]), (1, [some 2, some 5]), (4, [some 2, some 1])] =
    .ok [some 3, some (17 / 5)] := by decide +kernel

end Improver
