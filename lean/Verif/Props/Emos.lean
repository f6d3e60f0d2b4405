import Verif.Model.Emos
import Verif.Props.Crps

/-!
C121-C125: training data, initial guess, training by point and application of EMOS coefficients.
-/

namespace Improver

open Spec

namespace Spec

/-- The elements of `l` at the positions that are not masked, in order. -/
def keep {α : Type} (mask : List Bool) (l : List α) : List α :=
  ((mask.zip l).filter fun p => !p.1).map Prod.snd

end Spec

/-! ### C121: flattening -/

/-- The value of an array element that is not masked, NaN being `none`. -/
def entryValue : Entry → Option ℝ
  | .val r => some r
  | _ => none

theorem pickUnmasked_keep (l : List Entry) :
    pickUnmasked l = keep (l.map Entry.isMasked) (l.map entryValue) := by
  induction l with
  | nil => rfl
  | cons e t ih =>
    unfold pickUnmasked keep at *
    cases e <;> simp [List.filterMap_cons, Entry.unmasked?, Entry.isMasked, entryValue, ih]

theorem pickUnmasked_length (l : List Entry) :
    (pickUnmasked l).length = ((l.map Entry.isMasked).filter (!·)).length := by
  induction l with
  | nil => rfl
  | cons e t ih =>
    unfold pickUnmasked at *
    cases e <;> simp [List.filterMap_cons, Entry.unmasked?, Entry.isMasked, ih]

theorem pickUnmasked_flatten (rows : List (List Entry)) :
    pickUnmasked rows.flatten = (rows.map pickUnmasked).flatten := by
  induction rows with
  | nil => rfl
  | cons r t ih =>
    simp only [List.flatten_cons, List.map_cons, ← ih]
    unfold pickUnmasked
    rw [List.filterMap_append]

theorem flatten_chunks {α : Type} (rows : List (List α)) (k : ℕ)
    (h : ∀ r ∈ rows, r.length = k) (i : ℕ) (hi : i < rows.length) :
    ((rows.flatten).drop (i * k)).take k = rows[i] := by
  induction rows generalizing i with
  | nil => simp at hi
  | cons r t ih =>
    have hr : r.length = k := h r (List.mem_cons_self ..)
    cases i with
    | zero => simp [← hr]
    | succ j =>
      simp only [List.flatten_cons, List.getElem_cons_succ]
      rw [← ih (fun r hr => h r (List.mem_cons_of_mem _ hr)) j (by simpa using hi)]
      rw [List.drop_append, List.drop_of_length_le (by rw [hr]; nlinarith), List.nil_append]
      congr 2
      rw [hr]; rw [Nat.succ_mul]; omega

theorem length_flatten_const {α : Type} (rows : List (List α)) (k : ℕ)
    (h : ∀ r ∈ rows, r.length = k) : rows.flatten.length = rows.length * k := by
  rw [List.length_flatten]
  have : rows.map List.length = List.replicate rows.length k := by
    rw [List.eq_replicate_iff]
    exact ⟨by simp, by intro x hx; obtain ⟨r, hr, rfl⟩ := List.mem_map.1 hx; exact h r hr⟩
  rw [this]; simp

theorem reshape_flatten {α : Type} (rows : List (List α)) (k : ℕ) (hne : rows ≠ [])
    (h : ∀ r ∈ rows, r.length = k) : reshapeRows rows.length rows.flatten = .ok rows := by
  have hpos : 0 < rows.length := List.length_pos_iff.2 hne
  have hlen := length_flatten_const rows k h
  unfold reshapeRows
  rw [hlen, if_neg (by simp [hpos.ne'])]
  rw [Nat.mul_div_cancel_left k hpos]
  congr 1
  apply List.ext_getElem (by simp)
  intro i h1 h2
  simp only [List.getElem_map, List.getElem_range]
  exact flatten_chunks rows k h i h2

/-- C121: when every slice has the same mask, the flattened predictors keep one row for each
slice, consisting of its unmasked values in order. -/
theorem C121_rows (nd3 : Bool) (rows : List (List Entry)) (mask : List Bool) (hne : rows ≠ [])
    (h : ∀ r ∈ rows, r.map Entry.isMasked = mask) :
    flattenLeading nd3 rows = .ok (rows.map fun r => keep mask (r.map entryValue)) := by
  have hs : sameMasks rows = true := by
    cases rows with
    | nil => rfl
    | cons r t =>
      simp only [sameMasks, List.all_eq_true, beq_iff_eq]
      intro s hs
      rw [h s (List.mem_cons_of_mem _ hs), h r (List.mem_cons_self ..)]
  unfold flattenLeading flattenAll
  simp only [hs, Bool.not_true, Bool.and_false, Bool.false_eq_true, if_false]
  rw [pickUnmasked_flatten]
  have hl : ∀ r ∈ rows.map pickUnmasked, r.length = (mask.filter (!·)).length := by
    intro r hr
    obtain ⟨s, hs, rfl⟩ := List.mem_map.1 hr
    rw [pickUnmasked_length, h s hs]
  have := reshape_flatten (rows.map pickUnmasked) _ (by simpa using hne) hl
  rw [List.length_map] at this
  rw [this]
  congr 1
  apply List.map_congr_left
  intro r hr
  rw [pickUnmasked_keep, h r hr]

theorem keep_append {α : Type} (m1 m2 : List Bool) (l1 l2 : List α) (h : m1.length = l1.length) :
    keep (m1 ++ m2) (l1 ++ l2) = keep m1 l1 ++ keep m2 l2 := by
  unfold keep
  rw [List.zip_append h, List.filter_append, List.map_append]

/-- C121: the flattened truths are the unmasked values, in order. -/
theorem C121_truths (nd3 : Bool) (rows : List (List Entry)) (mask : List Bool)
    (h : ∀ r ∈ rows, r.map Entry.isMasked = mask) :
    flattenAll nd3 rows = .ok (keep (List.replicate rows.length mask).flatten
      (rows.flatten.map entryValue)) := by
  have hs : sameMasks rows = true := by
    cases rows with
    | nil => rfl
    | cons r t =>
      simp only [sameMasks, List.all_eq_true, beq_iff_eq]
      intro s hs
      rw [h s (List.mem_cons_of_mem _ hs), h r (List.mem_cons_self ..)]
  unfold flattenAll
  simp only [hs, Bool.not_true, Bool.and_false, Bool.false_eq_true, if_false]
  rw [pickUnmasked_keep]
  congr 2
  rw [List.map_flatten]
  congr 1
  rw [List.eq_replicate_iff]
  refine ⟨by simp, ?_⟩
  intro x hx
  obtain ⟨r, hr, rfl⟩ := List.mem_map.1 hx
  exact h r hr

theorem zip_keep {α β : Type} (mask : List Bool) (a : List α) (b : List β)
    (ha : a.length = mask.length) (hb : b.length = mask.length) :
    (keep mask a).zip (keep mask b) = keep mask (a.zip b) := by
  induction mask generalizing a b with
  | nil => cases a <;> simp_all [keep]
  | cons m t ih =>
    cases a with
    | nil => simp at ha
    | cons x a => cases b with
      | nil => simp at hb
      | cons y b =>
        have := ih a b (by simpa using ha) (by simpa using hb)
        unfold keep at *
        cases m <;> simp [this]

/-- C121: values taken from two arrays with the same mask stay paired: the flattened pairs are
exactly the pairs of values at the same unmasked time and point. -/
theorem C121_paired (nd3 nd3' : Bool) (truths : List (List Entry)) (pred : List Entry)
    (mask : List Bool) (hm : ∀ r ∈ truths, r.map Entry.isMasked = mask)
    (hp : pred.map Entry.isMasked = (List.replicate truths.length mask).flatten) :
    ∃ t f, flattenAll nd3 truths = .ok t ∧ flattenLeading nd3' [pred] = .ok [f] ∧
      f.zip t = keep (List.replicate truths.length mask).flatten
        ((pred.map entryValue).zip (truths.flatten.map entryValue)) := by
  refine ⟨_, _, C121_truths nd3 truths mask hm, C121_rows nd3' [pred] _ (by simp) (by simpa using hp), ?_⟩
  have hl1 : (pred.map entryValue).length = ((List.replicate truths.length mask).flatten).length := by
    rw [← hp]; simp
  have hl2 : (truths.flatten.map entryValue).length
      = ((List.replicate truths.length mask).flatten).length := by
    rw [List.length_map, length_flatten_const truths mask.length (fun r hr => by rw [← hm r hr]; simp),
      length_flatten_const _ mask.length (fun r hr => by rw [List.eq_of_mem_replicate hr])]
    simp
  exact zip_keep _ _ _ hl1 hl2

/-- C121: masks that differ between the slices of an array of three or more dimensions are
rejected. -/
theorem C121_mask_mismatch (rows : List (List Entry)) (r s : List Entry) (hr : r ∈ rows)
    (hs : s ∈ rows) (h : r.map Entry.isMasked ≠ s.map Entry.isMasked)
    (hlen : r.length = s.length) : ∃ e, flattenAll true rows = .error e := by
  have h1 : sameMasks rows = false := by
    by_contra hc
    rw [Bool.not_eq_false] at hc
    cases rows with
    | nil => simp at hr
    | cons r0 t =>
      simp only [sameMasks, List.all_eq_true, beq_iff_eq] at hc
      have e : ∀ x ∈ r0 :: t, x.map Entry.isMasked = r0.map Entry.isMasked := by
        intro x hx
        rcases List.mem_cons.1 hx with rfl | hx
        · rfl
        · exact hc x hx
      exact h ((e r hr).trans (e s hs).symm)
  have h2 : anyMaskedRows rows = true := by
    by_contra hc
    rw [Bool.not_eq_true] at hc
    unfold anyMaskedRows at hc
    rw [List.any_eq_false] at hc
    have e : ∀ x ∈ rows, x.map Entry.isMasked = List.replicate x.length false := by
      intro x hx
      have := hc x hx
      rw [List.eq_replicate_iff]
      refine ⟨by simp, fun b hb => ?_⟩
      obtain ⟨y, hy, rfl⟩ := List.mem_map.1 hb
      by_contra hy'
      exact this (List.any_eq_true.2 ⟨y, hy, by simpa using hy'⟩)
    exact h (by rw [e r hr, e s hs, hlen])
  refine ⟨"ValueError: mask differs", ?_⟩
  unfold flattenAll
  simp [h1, h2]

/-- Finding: with a land mask, an observation missing at a land point at one of several times
makes the training fail, although missing observations are accepted without a land mask. -/
theorem C121_missing_truth_refuted :
    (∃ e, flattenAll true ([[.val 1, .nan], [.val 2, .val 3]].map (maskSlice [true, true]))
      = .error e) ∧
    flattenAll true [[.val 1, .nan], [.val 2, .val 3]] = .ok [some 1, none, some 2, some 3] := by
  constructor
  · apply C121_mask_mismatch _ (maskSlice [true, true] [.val 1, .nan])
      (maskSlice [true, true] [.val 2, .val 3])
    · simp
    · simp
    · simp [maskSlice, Entry.isMasked]
    · simp [maskSlice]
  · simp [flattenAll, anyMaskedRows, Entry.isMasked, pickUnmasked, Entry.unmasked?]

/-- Finding: for two-dimensional arrays the masks of the rows are not compared, and values of
one row can be moved to another. -/
theorem C121_two_dimensions_refuted :
    flattenLeading false [[.val 1, .masked, .masked], [.val 2, .val 3, .val 4]]
      = .ok [[some 1, some 2], [some 3, some 4]] := by
  simp [flattenLeading, flattenAll, anyMaskedRows, sameMasks, Entry.isMasked, pickUnmasked,
    List.filterMap_cons, Entry.unmasked?, reshapeRows, List.range_succ]

/-- The hypotheses of `C121_paired` are met with a sea point and a missing observation. -/
example : ∃ t f, flattenAll true [[.masked, .nan], [.masked, .val 3]] = .ok t ∧
    flattenLeading true [[.masked, .val 5, .masked, .val 6]] = .ok [f] ∧
    f.zip t = [(some 5, none), (some 6, some 3)] := by
  obtain ⟨t, f, h1, h2, h3⟩ := C121_paired true true [[.masked, .nan], [.masked, .val 3]]
    [.masked, .val 5, .masked, .val 6] [true, false] (by simp [Entry.isMasked])
    (by simp [Entry.isMasked])
  exact ⟨t, f, h1, h2, by rw [h3]; simp [keep, entryValue]⟩

/-! ### C122: initial guess -/

/-- C122: the default guess for the ensemble mean predicts the ensemble mean and the ensemble
variance. -/
theorem C122_default_mean (ols : List (List ℝ) → List ℝ → ℝ × List ℝ) (nReal : ℕ) (t3 f3 : Bool)
    (truths : List (List Entry)) (pred : List Entry) (x v : ℝ) :
    ∃ a bs g d, initialGuess ols true .mean nReal t3 f3 truths [pred] = .ok (coeffs a bs g d) ∧
      location .mean a bs [x] = x ∧ spread g d v = v := by
  refine ⟨0, [1], 0, 1, ?_, by simp [location], by simp [spread]⟩
  simp [initialGuess, coeffs]

theorem zipWith_replicate_sum (xs : List ℝ) (c : ℝ) :
    (List.zipWith (fun x b => b * x) xs (List.replicate xs.length c)).sum = c * xs.sum := by
  induction xs with
  | nil => simp
  | cons x t ih => simp [List.replicate_succ, ih]; ring

/-- C122: with additional static predictors the default guess predicts their plain average. -/
theorem C122_default_predictors (ols : List (List ℝ) → List ℝ → ℝ × List ℝ) (nReal : ℕ)
    (t3 f3 : Bool) (truths preds : List (List Entry)) (xs : List ℝ)
    (hlen : xs.length = preds.length) (v : ℝ) :
    ∃ a bs g d, initialGuess ols true .mean nReal t3 f3 truths preds = .ok (coeffs a bs g d) ∧
      location .mean a bs xs = xs.sum / xs.length ∧ spread g d v = v := by
  refine ⟨0, List.replicate preds.length (1 / (preds.length : ℝ)), 0, 1, ?_, ?_, by simp [spread]⟩
  · simp [initialGuess, coeffs]
  · unfold location
    rw [← hlen]
    simp only [reduceCtorEq, if_false, zipWith_replicate_sum]
    ring

/-- C122: the default guess for the realizations predicts the ensemble mean and variance. -/
theorem C122_default_realizations (ols : List (List ℝ) → List ℝ → ℝ × List ℝ)
    (t3 f3 : Bool) (truths preds : List (List Entry)) (xs : List ℝ) (v : ℝ) :
    ∃ a bs g d, initialGuess ols true .realizations xs.length t3 f3 truths preds
        = .ok (coeffs a bs g d) ∧
      location .realizations a bs xs = xs.sum / xs.length ∧ spread g d v = v := by
  refine ⟨0, List.replicate xs.length (Real.sqrt (1 / (xs.length : ℝ))), 0, 1, ?_, ?_,
    by simp [spread]⟩
  · simp [initialGuess, coeffs]
  · unfold location
    simp only [if_true]
    have h := zipWith_replicate_sum xs (Real.sqrt (1 / (xs.length : ℝ)) ^ 2)
    have e : List.zipWith (fun x b => b ^ 2 * x) xs
        (List.replicate xs.length (Real.sqrt (1 / (xs.length : ℝ)))) =
        List.zipWith (fun x b => b * x) xs
          (List.replicate xs.length (Real.sqrt (1 / (xs.length : ℝ)) ^ 2)) := by
      rw [← List.map_replicate (f := fun b : ℝ => b ^ 2), List.zipWith_map_right]
    rw [e, h, Real.sq_sqrt (by positivity)]
    ring

/-- C122: any missing value in the training data leads to the default guess. -/
theorem C122_missing_gives_default (ols : List (List ℝ) → List ℝ → ℝ × List ℝ) (u : Bool)
    (p : Predictor) (nReal : ℕ) (t3 f3 : Bool) (truths preds : List (List Entry))
    (h : anyNan truths = true ∨ anyNan preds = true) :
    initialGuess ols u p nReal t3 f3 truths preds =
      initialGuess ols true p nReal t3 f3 truths preds := by
  unfold initialGuess
  rcases h with h | h <;> simp [h]

namespace Spec

/-- Sum of squared errors of a linear prediction; `cols` holds the predictors. -/
noncomputable def squaredError (a : ℝ) (bs : List ℝ) (cols : List (List ℝ)) (t : List ℝ) : ℝ :=
  ((List.range t.length).map fun i =>
    (t.getD i 0 - location .mean a bs (cols.map fun c => c.getD i 0)) ^ 2).sum

/-- Intercept and gradients `e` are a least squares fit of `t` on the columns. -/
def IsFit (e : ℝ × List ℝ) (cols : List (List ℝ)) (t : List ℝ) : Prop :=
  e.2.length = cols.length ∧
    ∀ a bs, bs.length = cols.length → squaredError e.1 e.2 cols t ≤ squaredError a bs cols t

end Spec

theorem sse_zero {a : ℝ} {bs : List ℝ} {cols : List (List ℝ)} {t : List ℝ}
    (h : squaredError a bs cols t ≤ 0) :
    ∀ i < t.length, location .mean a bs (cols.map fun c => c.getD i 0) = t.getD i 0 := by
  intro i hi
  have hnn : ∀ x ∈ (List.range t.length).map (fun i =>
      (t.getD i 0 - location .mean a bs (cols.map fun c => c.getD i 0)) ^ 2), (0:ℝ) ≤ x := by
    intro x hx
    obtain ⟨j, _, rfl⟩ := List.mem_map.1 hx
    exact sq_nonneg _
  have hmem : (t.getD i 0 - location .mean a bs (cols.map fun c => c.getD i 0)) ^ 2 ∈
      (List.range t.length).map (fun i =>
        (t.getD i 0 - location .mean a bs (cols.map fun c => c.getD i 0)) ^ 2) :=
    List.mem_map.2 ⟨i, by simpa using hi, rfl⟩
  have h1 := List.single_le_sum hnn _ hmem
  have h2 : (t.getD i 0 - location .mean a bs (cols.map fun c => c.getD i 0)) ^ 2 = 0 :=
    le_antisymm (h1.trans h) (sq_nonneg _)
  have := pow_eq_zero_iff (two_ne_zero) |>.1 h2
  linarith

theorem flatten_complete (nd3 : Bool) (rows : List (List ℝ)) :
    flattenAll nd3 (rows.map fun r => r.map Entry.val) = .ok ((rows.flatten).map some) := by
  have h : anyMaskedRows (rows.map fun r => r.map Entry.val) = false := by
    simp [anyMaskedRows, Entry.isMasked]
  unfold flattenAll
  simp only [h, Bool.false_and, Bool.false_eq_true, if_false]
  congr 1
  rw [← List.map_flatten]
  unfold pickUnmasked
  rw [List.filterMap_map]
  induction rows.flatten with
  | nil => rfl
  | cons x t ih => simp [Entry.unmasked?, ih]

theorem filterMap_id_map_some {α : Type} (l : List α) : (l.map some).filterMap id = l := by
  induction l with
  | nil => rfl
  | cons x t ih => simp

theorem flattenLeading_complete (nd3 : Bool) (rows : List (List ℝ)) (k : ℕ) (hne : rows ≠ [])
    (h : ∀ r ∈ rows, r.length = k) :
    flattenLeading nd3 (rows.map fun r => r.map Entry.val) = .ok (rows.map fun r => r.map some) := by
  unfold flattenLeading
  rw [flatten_complete]
  simp only [List.length_map]
  rw [List.map_flatten]
  have := reshape_flatten (rows.map fun r => r.map some) k (by simpa using hne) (by
    intro r hr
    obtain ⟨s, hs, rfl⟩ := List.mem_map.1 hr
    simpa using h s hs)
  rw [List.length_map] at this
  exact this

theorem anyNan_complete (rows : List (List ℝ)) :
    anyNan (rows.map fun r => r.map Entry.val) = false := by
  simp [anyNan]

theorem guess_complete (ols : List (List ℝ) → List ℝ → ℝ × List ℝ) (p : Predictor) (nReal : ℕ)
    (t3 f3 : Bool) (truths preds : List (List ℝ)) (k : ℕ) (hne : preds ≠ [])
    (h : ∀ r ∈ preds, r.length = k) :
    initialGuess ols false p nReal t3 f3 (truths.map fun r => r.map Entry.val)
      (preds.map fun r => r.map Entry.val)
      = .ok (coeffs (ols preds truths.flatten).1 (ols preds truths.flatten).2 0 1) := by
  unfold initialGuess
  simp only [anyNan_complete, Bool.or_false, Bool.false_eq_true, if_false, flatten_complete,
    flattenLeading_complete f3 preds k hne h, List.map_map, Function.comp_def,
    filterMap_id_map_some, List.map_id', coeffs]

/-- C122: for complete training data with an exactly linear relation between predictors and
truths, the regression guess of the mean option predicts every truth. -/
theorem C122_regression (ols : List (List ℝ) → List ℝ → ℝ × List ℝ)
    (nReal : ℕ) (t3 f3 : Bool) (truths preds : List (List ℝ)) (k : ℕ) (hne : preds ≠ [])
    (hols : IsFit (ols preds truths.flatten) preds truths.flatten)
    (h : ∀ r ∈ preds, r.length = k) (a : ℝ) (bs : List ℝ) (hbs : bs.length = preds.length)
    (hlin : ∀ i < truths.flatten.length,
      truths.flatten.getD i 0 = location .mean a bs (preds.map fun c => c.getD i 0)) :
    ∃ a' bs', initialGuess ols false .mean nReal t3 f3 (truths.map fun r => r.map Entry.val)
        (preds.map fun r => r.map Entry.val) = .ok (coeffs a' bs' 0 1) ∧
      ∀ i < truths.flatten.length,
        location .mean a' bs' (preds.map fun c => c.getD i 0) = truths.flatten.getD i 0 := by
  refine ⟨_, _, guess_complete ols .mean nReal t3 f3 truths preds k hne h, ?_⟩
  apply sse_zero
  refine (hols.2 a bs hbs).trans_eq ?_
  unfold squaredError
  have : (List.range truths.flatten.length).map (fun i => (truths.flatten.getD i 0
      - location .mean a bs (preds.map fun c => c.getD i 0)) ^ 2)
      = (List.range truths.flatten.length).map (fun _ => (0:ℝ)) := by
    apply List.map_congr_left
    intro i hi
    rw [hlin i (by simpa using hi)]; ring
  rw [this]; simp

/-- Finding: for the realizations option the regression coefficients are used without taking the
square root although `beta` is squared later: with truths exactly a quarter of the only
realization the guess predicts a sixteenth, whatever least squares routine is used. -/
theorem C122_realizations_regression_refuted (ols : List (List ℝ) → List ℝ → ℝ × List ℝ)
    (hols : IsFit (ols [[4, 8]] [1, 2]) [[4, 8]] [1, 2]) :
    ∃ a' bs', initialGuess ols false .realizations 1 true true
        ([[1], [2]].map fun r => r.map Entry.val) ([[4, 8]].map fun r => r.map Entry.val)
          = .ok (coeffs a' bs' 0 1) ∧
      location .realizations a' bs' [4] = 1 / 4 ∧ location .realizations a' bs' [8] = 1 / 2 := by
  refine ⟨_, _, guess_complete ols .realizations 1 true true [[1], [2]] [[4, 8]] 2 (by simp)
    (by simp), ?_⟩
  obtain ⟨hl, hmin⟩ : IsFit (ols [[4, 8]] ([[1], [2]] : List (List ℝ)).flatten) [[4, 8]]
    ([[1], [2]] : List (List ℝ)).flatten := hols
  set e := ols [[4, 8]] ([[1], [2]] : List (List ℝ)).flatten
  have h0 := hmin 0 [1 / 4] (by simp)
  have hz : squaredError 0 [1 / 4] [[4, 8]] ([[1], [2]] : List (List ℝ)).flatten = 0 := by
    simp [squaredError, location, List.range_succ]; norm_num
  rw [hz] at h0
  have h1 := sse_zero h0 0 (by simp)
  have h2 := sse_zero h0 1 (by simp)
  obtain ⟨b, hb⟩ : ∃ b, e.2 = [b] := List.length_eq_one_iff.1 hl
  rw [hb] at h1 h2 ⊢
  simp [location] at h1 h2 ⊢
  have hb4 : b = 1 / 4 := by linarith
  have ha : e.1 = 0 := by linarith
  rw [ha, hb4]
  norm_num

/-- A fit as required by the two theorems above exists for these data. -/
example : IsFit (0, [1 / 4]) [[4, 8]] [1, 2] := by
  refine ⟨rfl, fun a bs _ => ?_⟩
  have hz : squaredError 0 [1 / 4] [[4, 8]] [1, 2] = 0 := by
    simp [squaredError, location, List.range_succ]; norm_num
  rw [hz]
  apply List.sum_nonneg
  intro x hx
  obtain ⟨j, _, rfl⟩ := List.mem_map.1 hx
  exact sq_nonneg _

/-! ### Splitting the optimised coefficients -/

/-- C122: the coefficient cubes hold exactly the optimised coefficients, under their names. -/
theorem C122_coefficients_written (p : Predictor) (a : ℝ) (bs : List ℝ) (g d : ℝ) (nPred : ℕ)
    (h : p = .mean → nPred = bs.length ∧ bs ≠ []) :
    splitCoeffs p nPred (coeffs a bs g d) = .ok (a, bs, g, d) := by
  unfold splitCoeffs
  by_cases hc : p = .realizations ∨ 1 < nPred
  · rw [if_pos hc, splitGuess_coeffs]
  · rw [if_neg hc]
    push Not at hc
    have hp : p = .mean := by cases p with
      | mean => rfl
      | realizations => exact absurd rfl hc.1
    obtain ⟨hn, hne⟩ := h hp
    cases bs with
    | nil => exact absurd rfl hne
    | cons b t => cases t with
      | nil => rfl
      | cons b' t' => simp at hn; omega

end Improver
