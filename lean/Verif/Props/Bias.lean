import Verif.Model.Bias
import Verif.Props.CalMatch
import Mathlib.Tactic.FinCases
import Mathlib.Tactic.Linarith

/-!
C131 (the forecast bias), C132 (correcting a forecast by its bias), C133 (acceptance of biases,
and what is left of the caller's cubes).
-/

namespace Improver
namespace Spec

/-- Forecast and truth values of point `i`, at the times at which neither is masked. -/
def pairsAt (i : ℕ) (fcs truths : List (List (Option ℚ))) : List (ℚ × ℚ) :=
  (fcs.zip truths).filterMap fun p =>
    match p.1.getD i none, p.2.getD i none with
    | some f, some o => some (f, o)
    | _, _ => none

/-- `v` kept between optional limits. -/
def between (lo hi : Option ℚ) (v : ℚ) : Prop :=
  (∀ l, lo = some l → l ≤ v) ∧ (∀ h, hi = some h → v ≤ h)

/-- `v` is the point between the limits which is nearest to `x`. -/
def nearestTo (lo hi : Option ℚ) (x v : ℚ) : Prop :=
  between lo hi v ∧ ∀ w, between lo hi w → |x - v| ≤ |x - w|

end Spec

open Spec

theorem pairsAt_eq (i : ℕ) (fcs truths : List (List (Option ℚ))) :
    (pairsAt i fcs truths).map (fun p => p.1 - p.2) =
      ((fcs.zip truths).map fun p => maskedSub (p.1.getD i none) (p.2.getD i none)).filterMap id := by
  unfold pairsAt
  induction fcs.zip truths with
  | nil => rfl
  | cons p t ih =>
    cases h1 : p.1.getD i none <;> cases h2 : p.2.getD i none <;>
      simp only [List.filterMap_cons, List.map_cons, maskedSub, id, h1, h2, ih]

theorem getD_zipWith_sub (i : ℕ) (a b : List (Option ℚ)) :
    (List.zipWith maskedSub a b).getD i none = maskedSub (a.getD i none) (b.getD i none) := by
  simp only [List.getD_eq_getElem?_getD, List.getElem?_zipWith]
  cases h1 : a[i]? with
  | none => simp [maskedSub]
  | some x =>
    cases h2 : b[i]? with
    | none => cases x <;> simp [maskedSub]
    | some y => simp

theorem meanOverTime_get (n i : ℕ) (hi : i < n) (rows : List (List (Option ℚ))) :
    (meanOverTime n rows)[i]? = some (maskedMean (rows.map fun r => r.getD i none)) := by
  simp [meanOverTime, hi]

theorem additiveError_get (n i : ℕ) (hi : i < n) (fcs truths : List (List (Option ℚ))) :
    (additiveError true n fcs truths)[i]? =
      some (let ds := (pairsAt i fcs truths).map fun p => p.1 - p.2
            if ds = [] then none else some (ds.sum / (ds.length : ℚ))) := by
  simp only [additiveError, if_true, meanOverTime_get n i hi]
  have h : (List.zipWith (List.zipWith maskedSub) fcs truths).map (fun r => r.getD i none) =
      (fcs.zip truths).map fun p => maskedSub (p.1.getD i none) (p.2.getD i none) := by
    rw [← List.map_uncurry_zip_eq_zipWith, List.map_map]
    apply List.map_congr_left
    intro p _
    exact getD_zipWith_sub i p.1 p.2
  rw [h, pairsAt_eq]
  rfl

theorem sum_sub_mean (l : List ℚ) (h : l ≠ []) :
    (l.map fun x => x - l.sum / (l.length : ℚ)).sum = 0 := by
  have h2 : ∀ (c : ℚ) (k : List ℚ), (k.map fun x => x - c).sum = k.sum - (k.length : ℚ) * c := by
    intro c k
    induction k with
    | nil => simp
    | cons a t ih => simp only [List.map_cons, List.sum_cons, ih, List.length_cons]; push_cast; ring
  rw [h2]
  have : (l.length : ℚ) ≠ 0 := by
    simpa using h
  field_simp
  ring

theorem sum_sq_shift (c d : ℚ) (k : List ℚ) (h : (k.map fun x => x - c).sum = 0) :
    (k.map fun x => (x - d) ^ 2).sum =
      (k.map fun x => (x - c) ^ 2).sum + (k.length : ℚ) * (c - d) ^ 2 := by
  have h2 : ∀ k : List ℚ, (k.map fun x => (x - d) ^ 2).sum =
      (k.map fun x => (x - c) ^ 2).sum + (k.length : ℚ) * (c - d) ^ 2 +
        2 * (c - d) * (k.map fun x => x - c).sum := by
    intro k
    induction k with
    | nil => simp
    | cons a t ih => simp only [List.map_cons, List.sum_cons, ih, List.length_cons]; push_cast; ring
  rw [h2, h]
  ring

/-- C131: where forecast and truth are known at one time at least, the bias is the number which,
subtracted from the forecasts of that point, leaves them without mean error. -/
theorem C131_unbiased (n i : ℕ) (hi : i < n) (fcs truths : List (List (Option ℚ)))
    (hk : pairsAt i fcs truths ≠ []) :
    ∃ b, (additiveError true n fcs truths)[i]? = some (some b) ∧
      ((pairsAt i fcs truths).map fun p => (p.1 - b) - p.2).sum = 0 := by
  rw [additiveError_get n i hi]
  have hne : (pairsAt i fcs truths).map (fun p => p.1 - p.2) ≠ [] := by simpa using hk
  simp only [if_neg hne]
  refine ⟨_, rfl, ?_⟩
  have h := sum_sub_mean _ hne
  rw [List.map_map] at h
  rw [← h]
  congr 1
  apply List.map_congr_left
  intro p _
  simp only [Function.comp]
  ring

/-- C131: and no other constant correction leaves a smaller mean squared error on the training
data. -/
theorem C131_least_squares (n i : ℕ) (hi : i < n) (fcs truths : List (List (Option ℚ))) (b c : ℚ)
    (hb : (additiveError true n fcs truths)[i]? = some (some b)) :
    ((pairsAt i fcs truths).map fun p => ((p.1 - b) - p.2) ^ 2).sum ≤
      ((pairsAt i fcs truths).map fun p => ((p.1 - c) - p.2) ^ 2).sum := by
  have hk : pairsAt i fcs truths ≠ [] := by
    intro h
    rw [additiveError_get n i hi, h] at hb
    simp at hb
  obtain ⟨b', h1, h2⟩ := C131_unbiased n i hi fcs truths hk
  rw [hb] at h1
  obtain rfl : b = b' := by simpa using h1
  have e : ∀ d : ℚ, ((pairsAt i fcs truths).map fun p => ((p.1 - d) - p.2) ^ 2) =
      ((pairsAt i fcs truths).map fun p => p.1 - p.2).map fun x => (x - d) ^ 2 := by
    intro d
    rw [List.map_map]
    apply List.map_congr_left
    intro p _
    simp only [Function.comp]
    ring
  have e2 : ((pairsAt i fcs truths).map fun p => (p.1 - b) - p.2) =
      ((pairsAt i fcs truths).map fun p => p.1 - p.2).map fun x => x - b := by
    rw [List.map_map]
    apply List.map_congr_left
    intro p _
    simp only [Function.comp]
    ring
  rw [e, e, sum_sq_shift b c _ (by rw [← e2]; exact h2)]
  have : 0 ≤ (((pairsAt i fcs truths).map fun p => p.1 - p.2).length : ℚ) * (b - c) ^ 2 := by
    positivity
  linarith

/-- C131: the bias is masked exactly at the points where at no time both are known. -/
theorem C131_masked (n i : ℕ) (hi : i < n) (fcs truths : List (List (Option ℚ))) :
    (additiveError true n fcs truths)[i]? = some none ↔ pairsAt i fcs truths = [] := by
  rw [additiveError_get n i hi]
  by_cases h : pairsAt i fcs truths = [] <;> simp [h]

/-- C131: of a single time the bias is the error itself. -/
theorem C131_single (n i : ℕ) (f o : List (Option ℚ)) (hi : i < f.length) (ho : i < o.length) :
    (additiveError false n [f] [o])[i]? = some (maskedSub f[i] o[i]) := by
  simp [additiveError, List.getElem?_zipWith, hi, ho]

/-- non-vacuity: three times, the second masked in the truth. -/
example : pairsAt 0 [[some 3], [some 5], [some 8]] [[some 1], [none], [some 2]] = [(3, 1), (8, 2)] ∧
    additiveError true 2 [[some 3, none], [some 5, some 1], [some 8, none]]
      [[some 1, some 2], [none, none], [some 2, some 1]] = [some 4, none] := by decide +kernel

theorem biasClip_nearest (lo hi : Option ℚ) (x : ℚ) (h : ∀ l u, lo = some l → hi = some u → l ≤ u) :
    nearestTo lo hi x (biasClip lo hi x) := by
  have key : between lo hi (biasClip lo hi x) := by
    unfold biasClip between
    rcases lo with _ | l <;> rcases hi with _ | u <;> simp only [Option.some.injEq, reduceCtorEq]
    · simp
    · exact ⟨by simp, fun h' e => e ▸ min_le_right _ _⟩
    · exact ⟨fun h' e => e ▸ le_max_right _ _, by simp⟩
    · have := h l u rfl rfl
      exact ⟨fun h' e => e ▸ le_min (le_max_right _ _) this, fun h' e => e ▸ min_le_right _ _⟩
  refine ⟨key, ?_⟩
  intro w hw
  unfold between at hw
  unfold biasClip
  rcases lo with _ | l <;> rcases hi with _ | u
  · simp
  · have hu := hw.2 u rfl
    simp only
    rcases le_total x u with h1 | h1
    · rw [min_eq_left h1]; simp
    · rw [min_eq_right h1, abs_of_nonneg (by linarith), abs_of_nonneg (by linarith)]; linarith
  · have hl := hw.1 l rfl
    simp only
    rcases le_total x l with h1 | h1
    · rw [max_eq_right h1, abs_of_nonpos (by linarith), abs_of_nonpos (by linarith)]; linarith
    · rw [max_eq_left h1]; simp
  · have hu := hw.2 u rfl
    have hl := hw.1 l rfl
    have hlu := h l u rfl rfl
    simp only
    rcases le_total x l with h1 | h1
    · rw [max_eq_right h1, min_eq_left hlu, abs_of_nonpos (by linarith),
        abs_of_nonpos (by linarith)]
      linarith
    · rw [max_eq_left h1]
      rcases le_total x u with h2 | h2
      · rw [min_eq_left h2]; simp
      · rw [min_eq_right h2, abs_of_nonneg (by linarith), abs_of_nonneg (by linarith)]; linarith

theorem applyBias_data (lo hi : Option ℚ) (fill : Bool) (fc out fc' : BiasForecast)
    (bs bs' : List BiasCube) (hne : bs ≠ [])
    (h : applyBias lo hi fill fc bs = .ok (out, fc', bs')) :
    ∃ bias, meanBias fc.data.length bs = .ok bias ∧
      out.data = clipField lo hi (List.zipWith maskedSub fc.data (fillBias fill bias)) ∧
      fc' = fc ∧ out.comment = fc.comment ∧ out.frt = fc.frt ∧ out.fp = fc.fp := by
  unfold applyBias at h
  have he : bs.isEmpty ≠ true := by simpa using hne
  rw [if_neg he] at h
  simp only [bind, Except.bind] at h
  cases h1 : biasConsistent fc bs with
  | error e => rw [h1] at h; nomatch h
  | ok u =>
    rw [h1] at h
    cases h2 : meanBias fc.data.length bs with
    | error e => rw [h2] at h; nomatch h
    | ok bias =>
      rw [h2] at h
      simp only [Except.ok.injEq, Prod.mk.injEq] at h
      obtain ⟨ha, hb, -⟩ := h
      refine ⟨bias, rfl, ?_, hb.symm, ?_, ?_, ?_⟩ <;> rw [← ha]
      by_cases hs : (lo.isSome || hi.isSome) = true
      · simp only [if_pos hs]
      · simp only [if_neg hs]
        rcases lo with _ | l <;> rcases hi with _ | u
        · unfold clipField
          have hid : (fun x : Option ℚ => x.map (biasClip none none)) = id := by
            funext x; cases x <;> rfl
          rw [hid, List.map_id]
        all_goals exact absurd rfl hs

theorem clip_get (lo hi : Option ℚ) (fill : Bool) (d b : List (Option ℚ)) (i : ℕ) (f c : Option ℚ)
    (hf : d[i]? = some f) (hb : b[i]? = some c) :
    (clipField lo hi (List.zipWith maskedSub d (fillBias fill b)))[i]? =
      some ((maskedSub f (if fill then some (c.getD 0) else c)).map (biasClip lo hi)) := by
  unfold clipField fillBias
  cases fill <;> simp [List.getElem?_zipWith, hf, hb]

/-- C132: one bias cube.  Where forecast and bias are known, the result is the forecast minus the
bias, or the limit nearest to it. -/
theorem C132_corrected (lo hi : Option ℚ) (fill : Bool) (fc out fc' : BiasForecast)
    (b : BiasCube) (bs' : List BiasCube) (i : ℕ) (f c : ℚ)
    (hlim : ∀ l u, lo = some l → hi = some u → l ≤ u)
    (h : applyBias lo hi fill fc [b] = .ok (out, fc', bs'))
    (hf : fc.data[i]? = some (some f)) (hb : b.data[i]? = some (some c)) :
    ∃ v, out.data[i]? = some (some v) ∧ nearestTo lo hi (f - c) v := by
  obtain ⟨bias, h1, h2, -⟩ := applyBias_data lo hi fill fc out fc' [b] bs' (by simp) h
  simp only [meanBias, Except.ok.injEq] at h1
  rw [h2, ← h1, clip_get lo hi fill _ _ i _ _ hf hb]
  refine ⟨biasClip lo hi (f - c), ?_, biasClip_nearest lo hi _ hlim⟩
  cases fill <;> simp [maskedSub]

/-- C132: where the bias is masked the forecast is kept (within the limits) if masked biases are
to be filled, and otherwise the result is masked. -/
theorem C132_masked_bias (lo hi : Option ℚ) (fill : Bool) (fc out fc' : BiasForecast)
    (b : BiasCube) (bs' : List BiasCube) (i : ℕ) (f : ℚ)
    (hlim : ∀ l u, lo = some l → hi = some u → l ≤ u)
    (h : applyBias lo hi fill fc [b] = .ok (out, fc', bs'))
    (hf : fc.data[i]? = some (some f)) (hb : b.data[i]? = some none) :
    (fill = true → ∃ v, out.data[i]? = some (some v) ∧ nearestTo lo hi f v) ∧
    (fill = false → out.data[i]? = some none) := by
  obtain ⟨bias, h1, h2, -⟩ := applyBias_data lo hi fill fc out fc' [b] bs' (by simp) h
  simp only [meanBias, Except.ok.injEq] at h1
  rw [h2, ← h1, clip_get lo hi fill _ _ i _ _ hf hb]
  constructor
  · rintro rfl
    exact ⟨biasClip lo hi f, by simp [maskedSub], biasClip_nearest lo hi _ hlim⟩
  · rintro rfl
    simp [maskedSub]

/-- C132: a masked forecast value stays masked, whatever the biases. -/
theorem C132_masked_forecast (lo hi : Option ℚ) (fill : Bool) (fc out fc' : BiasForecast)
    (bs bs' : List BiasCube) (i : ℕ)
    (h : applyBias lo hi fill fc bs = .ok (out, fc', bs'))
    (hf : fc.data[i]? = some none) : out.data[i]? = some none ∨ out.data[i]? = none := by
  by_cases hne : bs = []
  · subst hne
    simp only [applyBias, List.isEmpty_nil, if_true, Except.ok.injEq, Prod.mk.injEq] at h
    rw [← h.1]
    exact Or.inl hf
  · obtain ⟨bias, h1, h2, -⟩ := applyBias_data lo hi fill fc out fc' bs bs' hne h
    rw [h2]
    simp only [clipField, List.getElem?_map, List.getElem?_zipWith, hf]
    cases (fillBias fill bias)[i]? with
    | none => right; rfl
    | some x => left; cases x <;> rfl

/-- C132: several biases.  The forecast is corrected by the mean of those known at the point; a
point without any is treated as a masked bias. -/
theorem C132_several (lo hi : Option ℚ) (fill : Bool) (fc out fc' : BiasForecast)
    (bs bs' : List BiasCube) (i : ℕ) (f : ℚ)
    (hlim : ∀ l u, lo = some l → hi = some u → l ≤ u) (hlen : 2 ≤ bs.length)
    (h : applyBias lo hi fill fc bs = .ok (out, fc', bs'))
    (hf : fc.data[i]? = some (some f)) :
    (∀ known : List ℚ, known = bs.filterMap (fun b => b.data.getD i none) → known ≠ [] →
      ∃ m v, (known.map fun c => c - m).sum = 0 ∧ out.data[i]? = some (some v) ∧
        nearestTo lo hi (f - m) v) ∧
    ((∀ b ∈ bs, b.data.getD i none = none) →
      (fill = true → ∃ v, out.data[i]? = some (some v) ∧ nearestTo lo hi f v) ∧
      (fill = false → out.data[i]? = some none)) := by
  have hne : bs ≠ [] := by rintro rfl; simp at hlen
  obtain ⟨bias, h1, h2, -⟩ := applyBias_data lo hi fill fc out fc' bs bs' hne h
  have hi' : i < fc.data.length := by
    by_contra hcon
    rw [List.getElem?_eq_none (by omega)] at hf
    nomatch hf
  have hbias : bias = meanOverTime fc.data.length (bs.map (·.data)) := by
    rcases bs with _ | ⟨b1, _ | ⟨b2, t⟩⟩
    · simp at hlen
    · simp at hlen
    · simp only [meanBias] at h1
      split at h1
      · nomatch h1
      · split at h1
        · simpa using h1.symm
        · nomatch h1
  have hget : bias[i]? = some (maskedMean (bs.map fun b => b.data.getD i none)) := by
    rw [hbias, meanOverTime_get _ i hi', List.map_map]
    rfl
  rw [h2, clip_get lo hi fill _ _ i _ _ hf hget]
  have hk : (bs.map fun b => b.data.getD i none).filterMap id =
      bs.filterMap (fun b => b.data.getD i none) := by
    rw [List.filterMap_map]; rfl
  constructor
  · rintro known hkn hkne
    have hm : maskedMean (bs.map fun b => b.data.getD i none) =
        some (known.sum / (known.length : ℚ)) := by
      unfold maskedMean
      rw [hk, ← hkn]
      simp only [if_neg hkne]
    rw [hm]
    refine ⟨_, biasClip lo hi (f - known.sum / (known.length : ℚ)), sum_sub_mean known hkne, ?_,
      biasClip_nearest lo hi _ hlim⟩
    cases fill <;> simp [maskedSub]
  · intro hall
    have hm : maskedMean (bs.map fun b => b.data.getD i none) = none := by
      unfold maskedMean
      rw [hk]
      have : bs.filterMap (fun b => b.data.getD i none) = [] := by
        rw [List.filterMap_eq_nil_iff]; exact hall
      rw [this]; rfl
    rw [hm]
    constructor
    · rintro rfl
      exact ⟨biasClip lo hi f, by simp [maskedSub], biasClip_nearest lo hi _ hlim⟩
    · rintro rfl
      simp [maskedSub]

/-- C132: round trip.  Without limits, the forecast from which the bias was made is corrected to
the truth. -/
theorem C132_round_trip (fill : Bool) (fc out fc' : BiasForecast) (b : BiasCube)
    (bs' : List BiasCube) (n i : ℕ) (f o : ℚ) (truth : List (Option ℚ))
    (hb : b.data = additiveError false n [fc.data] [truth])
    (h : applyBias none none fill fc [b] = .ok (out, fc', bs'))
    (hf : fc.data[i]? = some (some f)) (ho : truth[i]? = some (some o)) :
    out.data[i]? = some (some o) := by
  obtain ⟨hi, hf'⟩ := List.getElem?_eq_some_iff.1 hf
  obtain ⟨hj, ho'⟩ := List.getElem?_eq_some_iff.1 ho
  have hbi : b.data[i]? = some (some (f - o)) := by
    rw [hb, C131_single n i _ _ hi hj, hf', ho']
    rfl
  obtain ⟨v, h1, h2⟩ := C132_corrected none none fill fc out fc' b bs' i f (f - o) (by simp) h hf hbi
  have := h2.2 (f - (f - o)) ⟨by simp, by simp⟩
  simp only [sub_self, abs_zero] at this
  have : f - (f - o) - v = 0 := abs_eq_zero.1 (le_antisymm this (abs_nonneg _))
  rw [h1]
  have : v = o := by linarith
  rw [this]

theorem dedup_length_one {α : Type} [DecidableEq α] (l : List α) :
    l.dedup.length = 1 ↔ l ≠ [] ∧ ∃ h, ∀ x ∈ l, x = h := by
  constructor
  · intro hl
    obtain ⟨h, hh⟩ := List.length_eq_one_iff.1 hl
    refine ⟨?_, h, ?_⟩
    · rintro rfl; simp at hl
    · intro x hx
      have := List.mem_dedup.2 hx
      rw [hh] at this
      simpa using this
  · rintro ⟨hne, h, hh⟩
    have hnd := List.nodup_dedup l
    have hmem : ∀ x ∈ l.dedup, x = h := fun x hx => hh x (List.mem_dedup.1 hx)
    have hne' : l.dedup ≠ [] := by simpa [List.dedup_eq_nil] using hne
    match hd : l.dedup with
    | [] => exact absurd hd hne'
    | [_] => rfl
    | a :: c :: t =>
      rw [hd] at hmem hnd
      have h1 := hmem a (by simp)
      have h2 := hmem c (by simp)
      simp [h1, h2] at hnd

/-- C133: the biases are accepted exactly when forecast and biases are all of one hour of the day
and one forecast period and, if there are several biases, each is of one reference time and these
differ.  (Coordinates are not empty.) -/
theorem C133_accepted (lo hi : Option ℚ) (fill : Bool) (fc : BiasForecast) (bs : List BiasCube)
    (hne : bs ≠ []) (hfrt : ∀ b ∈ bs, b.frt ≠ []) (hfp : ∀ b ∈ bs, b.fp ≠ []) :
    (∃ r, applyBias lo hi fill fc bs = .ok r) ↔
      (∃ h, (∀ t ∈ fc.frt, hourOfDay t = h) ∧ ∀ b ∈ bs, ∀ t ∈ b.frt, hourOfDay t = h) ∧
      (∃ p, (∀ q ∈ fc.fp, q = p) ∧ ∀ b ∈ bs, ∀ q ∈ b.fp, q = p) ∧
      (2 ≤ bs.length → (∀ b ∈ bs, b.bounded = false) ∧ (bs.map (·.frt)).Nodup) := by
  have hcons : biasConsistent fc bs = .ok () ↔
      (∃ h, (∀ t ∈ fc.frt, hourOfDay t = h) ∧ ∀ b ∈ bs, ∀ t ∈ b.frt, hourOfDay t = h) ∧
      (∃ p, (∀ q ∈ fc.fp, q = p) ∧ ∀ b ∈ bs, ∀ q ∈ b.fp, q = p) := by
    obtain ⟨b0, hb0⟩ := List.exists_mem_of_ne_nil bs hne
    obtain ⟨t0, ht0⟩ := List.exists_mem_of_ne_nil _ (hfrt b0 hb0)
    obtain ⟨p0, hp0⟩ := List.exists_mem_of_ne_nil _ (hfp b0 hb0)
    have hH : (bs.flatMap fun b => frtHours b.frt) ≠ [] := by
      apply List.ne_nil_of_mem (a := hourOfDay t0)
      exact List.mem_flatMap.2 ⟨b0, hb0, (mem_frtHours _ _).2 ⟨t0, ht0, rfl⟩⟩
    have hP : (bs.flatMap fun b => b.fp) ≠ [] :=
      List.ne_nil_of_mem (List.mem_flatMap.2 ⟨b0, hb0, hp0⟩)
    have e1 : ((bs.flatMap fun b => frtHours b.frt).dedup.length = 1 ∧
        (frtHours fc.frt ++ (bs.flatMap fun b => frtHours b.frt).dedup).dedup.length = 1) ↔
        ∃ h, (∀ t ∈ fc.frt, hourOfDay t = h) ∧ ∀ b ∈ bs, ∀ t ∈ b.frt, hourOfDay t = h := by
      rw [dedup_length_one, dedup_length_one]
      constructor
      · rintro ⟨-, -, h, hh⟩
        refine ⟨h, ?_, ?_⟩
        · intro t ht
          exact hh _ (List.mem_append_left _ ((mem_frtHours _ _).2 ⟨t, ht, rfl⟩))
        · intro b hb t ht
          exact hh _ (List.mem_append_right _ (List.mem_dedup.2
            (List.mem_flatMap.2 ⟨b, hb, (mem_frtHours _ _).2 ⟨t, ht, rfl⟩⟩)))
      · rintro ⟨h, h1, h2⟩
        have hb : ∀ x ∈ (bs.flatMap fun b => frtHours b.frt), x = h := by
          intro x hx
          obtain ⟨b, hb, hx⟩ := List.mem_flatMap.1 hx
          obtain ⟨t, ht, rfl⟩ := (mem_frtHours _ _).1 hx
          exact h2 b hb t ht
        refine ⟨⟨hH, h, hb⟩, ?_, h, ?_⟩
        · simp [hH]
        · intro x hx
          rcases List.mem_append.1 hx with hx | hx
          · obtain ⟨t, ht, rfl⟩ := (mem_frtHours _ _).1 hx
            exact h1 t ht
          · exact hb x (List.mem_dedup.1 hx)
    have e2 : ((bs.flatMap fun b => b.fp).dedup.length = 1 ∧
        (fc.fp ++ (bs.flatMap fun b => b.fp).dedup).dedup.length = 1) ↔
        ∃ p, (∀ q ∈ fc.fp, q = p) ∧ ∀ b ∈ bs, ∀ q ∈ b.fp, q = p := by
      rw [dedup_length_one, dedup_length_one]
      constructor
      · rintro ⟨-, -, h, hh⟩
        exact ⟨h, fun q hq => hh _ (List.mem_append_left _ hq), fun b hb q hq =>
          hh _ (List.mem_append_right _ (List.mem_dedup.2 (List.mem_flatMap.2 ⟨b, hb, hq⟩)))⟩
      · rintro ⟨h, h1, h2⟩
        have hb : ∀ x ∈ (bs.flatMap fun b => b.fp), x = h := by
          intro x hx
          obtain ⟨b, hb, hx⟩ := List.mem_flatMap.1 hx
          exact h2 b hb x hx
        refine ⟨⟨hP, h, hb⟩, ?_, h, ?_⟩
        · simp [hP]
        · intro x hx
          rcases List.mem_append.1 hx with hx | hx
          · exact h1 x hx
          · exact hb x (List.mem_dedup.1 hx)
    rw [← e1, ← e2]
    simp only [biasConsistent]
    by_cases c1 : (bs.flatMap fun b => frtHours b.frt).dedup.length = 1 <;>
    by_cases c2 : (frtHours fc.frt ++ (bs.flatMap fun b => frtHours b.frt).dedup).dedup.length = 1 <;>
    by_cases c3 : (bs.flatMap fun b => b.fp).dedup.length = 1 <;>
    by_cases c4 : (fc.fp ++ (bs.flatMap fun b => b.fp).dedup).dedup.length = 1 <;>
    simp only [c1, c2, c3, c4, ne_eq, not_true, not_false_eq_true, if_true, if_false, true_and,
      false_and, and_true, and_false, reduceCtorEq]
  have hmean : (∃ r, meanBias fc.data.length bs = .ok r) ↔
      (2 ≤ bs.length → (∀ b ∈ bs, b.bounded = false) ∧ (bs.map (·.frt)).Nodup) := by
    rcases bs with _ | ⟨b1, _ | ⟨b2, t⟩⟩
    · exact absurd rfl hne
    · simp [meanBias]
    · have hl : 2 ≤ (b1 :: b2 :: t).length := by simp
      simp only [hl, true_imp_iff, meanBias]
      by_cases ha : ((b1 :: b2 :: t).any (·.bounded)) = true
      · rw [if_pos ha]
        constructor
        · rintro ⟨r, hr⟩; nomatch hr
        · rintro ⟨hb, -⟩
          obtain ⟨b, hb1, hb2⟩ := List.any_eq_true.1 ha
          rw [hb b hb1] at hb2
          nomatch hb2
      · rw [if_neg ha]
        have hall : ∀ b ∈ (b1 :: b2 :: t), b.bounded = false := by
          intro b hb
          by_contra hc
          exact ha (List.any_eq_true.2 ⟨b, hb, by simpa using hc⟩)
        by_cases hn : ((b1 :: b2 :: t).map (·.frt)).Nodup
        · rw [if_pos hn]
          exact ⟨fun _ => ⟨hall, hn⟩, fun _ => ⟨_, rfl⟩⟩
        · rw [if_neg hn]
          constructor
          · rintro ⟨r, hr⟩; nomatch hr
          · rintro ⟨-, h⟩; exact absurd h hn
  rw [← and_assoc, ← hcons, ← hmean]
  unfold applyBias
  have he : bs.isEmpty ≠ true := by simpa using hne
  rw [if_neg he]
  simp only [bind, Except.bind]
  cases h1 : biasConsistent fc bs with
  | error e => simp
  | ok u =>
    cases h2 : meanBias fc.data.length bs with
    | error e => simp
    | ok r => simp

/-- C133: without biases the forecast is returned as it is, but for a comment that no calibration
has been applied. -/
theorem C133_no_bias (lo hi : Option ℚ) (fill : Bool) (fc : BiasForecast) :
    ∃ out, applyBias lo hi fill fc [] = .ok (out, out, []) ∧ out.data = fc.data ∧
      out.frt = fc.frt ∧ out.fp = fc.fp ∧
      ∃ c, out.comment = some c ∧ ∃ p, c = p ++ warningText ∧
        (p = "" ∨ ∃ s, fc.comment = some s ∧ p = s ++ "\n") := by
  refine ⟨{ fc with comment := addWarning fc.comment }, rfl, rfl, rfl, rfl, ?_⟩
  simp only [addWarning]
  rcases hc : fc.comment with _ | s
  · exact ⟨_, rfl, "", by simp, Or.inl rfl⟩
  · by_cases hs : s = ""
    · simp only [hs, if_true]
      exact ⟨_, rfl, "", by simp, Or.inl rfl⟩
    · simp only [hs, if_false]
      exact ⟨_, rfl, s ++ "\n", rfl, Or.inr ⟨s, rfl, rfl⟩⟩

/-- C133: the forecast and, when there are several or masked values are not filled, the biases of
the caller are left as they were. -/
theorem C133_inputs_kept (lo hi : Option ℚ) (fill : Bool) (fc out fc' : BiasForecast)
    (bs bs' : List BiasCube) (hne : bs ≠ [])
    (h : applyBias lo hi fill fc bs = .ok (out, fc', bs')) :
    fc' = fc ∧ (2 ≤ bs.length ∨ fill = false ∨ (∀ b ∈ bs, none ∉ b.data) → bs' = bs) := by
  refine ⟨(applyBias_data lo hi fill fc out fc' bs bs' hne h).choose_spec.2.2.1, ?_⟩
  unfold applyBias at h
  have he : bs.isEmpty ≠ true := by simpa using hne
  rw [if_neg he] at h
  simp only [bind, Except.bind] at h
  cases h1 : biasConsistent fc bs with
  | error e => rw [h1] at h; nomatch h
  | ok u =>
    rw [h1] at h
    cases h2 : meanBias fc.data.length bs with
    | error e => rw [h2] at h; nomatch h
    | ok bias =>
      rw [h2] at h
      simp only [Except.ok.injEq, Prod.mk.injEq] at h
      obtain ⟨-, -, hb⟩ := h
      intro hcase
      rw [← hb]
      rcases bs with _ | ⟨b1, _ | ⟨b2, t⟩⟩
      · rfl
      · have hd : fillBias fill b1.data = b1.data := by
          unfold fillBias
          rcases hcase with hc | hc | hc
          · simp at hc
          · simp [hc]
          · split
            · conv_rhs => rw [← List.map_id b1.data]
              apply List.map_congr_left
              intro x hx
              cases x with
              | none => exact absurd hx (hc b1 (by simp))
              | some v => rfl
            · rfl
        simp only [hd]
      · rfl

/-- C133, refuted in general: a single bias cube with masked values is filled in the cube of the
caller, so that using it again without filling gives another result than before. -/
theorem C133_bias_overwritten_refuted :
    ∃ (fc o1 o2 o3 : BiasForecast) (b : BiasCube) (bs' bs2 bs3 : List BiasCube) (fc' : BiasForecast),
      applyBias none none false fc [b] = .ok (o1, fc', bs2) ∧ bs2.map (·.data) = [b.data] ∧
      applyBias none none true fc [b] = .ok (o2, fc', bs') ∧ bs'.map (·.data) ≠ [b.data] ∧
      applyBias none none false fc bs' = .ok (o3, fc', bs3) ∧ o3.data ≠ o1.data := by
  refine ⟨⟨[0], [3600], none, [some 1]⟩, ⟨[0], [3600], none, [none]⟩, ⟨[0], [3600], none, [some 1]⟩,
    ⟨[0], [3600], none, [some 1]⟩, ⟨[0], false, [3600], [none]⟩, [⟨[0], false, [3600], [some 0]⟩],
    [⟨[0], false, [3600], [none]⟩], [⟨[0], false, [3600], [some 0]⟩],
    ⟨[0], [3600], none, [some 1]⟩, ?_, ?_, ?_, ?_, ?_, ?_⟩
  all_goals decide +kernel

/-- non-vacuity: two biases at different reference times of the same hour; limits. -/
example : (applyBias (some 0) none true ⟨[172800], [3600], none, [some 5, some 1, none, some 3]⟩
      [⟨[0], false, [3600], [some 1, some 2, some 1, none]⟩,
       ⟨[86400], false, [3600], [some 2, some 4, some 1, none]⟩]).map (fun r => r.1.data) =
    .ok [some (7/2), some 0, none, some 3] := by decide +kernel

end Improver
