import Verif.Props.CrpsCore

/-!
C119, C120: the functions minimised by the EMOS training are mean continuous ranked
probability scores.
-/

open MeasureTheory ProbabilityTheory Filter Set
open scoped Topology NNReal

namespace Improver

namespace Spec

/-- A training case with a complete forecast: predictors, observed value (if any) and ensemble
variance. -/
structure Case where
  x : List ℝ
  y : Option ℝ
  v : ℝ

/-- The data handed to the minimised function. -/
def Case.train (c : Case) : TrainCase := ⟨c.x.map some, c.y, some c.v⟩

/-- Regression on the predictors: coefficients for the ensemble mean (and static fields),
squared coefficients for the realizations. -/
noncomputable def location (p : Predictor) (a : ℝ) (bs xs : List ℝ) : ℝ :=
  a + (List.zipWith (fun x b => (if p = .realizations then b ^ 2 else b) * x) xs bs).sum

/-- Regression on the ensemble variance. -/
noncomputable def spread (g d v : ℝ) : ℝ := g ^ 2 + d ^ 2 * v

/-- Mean over the observed cases; `none` (NaN) without any. -/
noncomputable def meanScore (f : Case → ℝ → ℝ) (cs : List Case) : Option ℝ :=
  let s := cs.filterMap fun c => c.y.map (f c)
  if s = [] then none else some (s.sum / s.length)

/-- The coefficient vector `[alpha, beta..., gamma, delta]`. -/
def coeffs (a : ℝ) (bs : List ℝ) (g d : ℝ) : List ℝ := a :: (bs ++ [g, d])

end Spec

open Spec

theorem splitGuess_coeffs (a : ℝ) (bs : List ℝ) (g d : ℝ) :
    splitGuess (coeffs a bs g d) = .ok (a, bs, g, d) := by
  unfold splitGuess coeffs
  have h : (a :: (bs ++ [g, d])).reverse = d :: g :: (bs.reverse ++ [a]) := by simp
  rw [h]
  simp only [Except.ok.injEq, Prod.mk.injEq, and_true, true_and, List.drop_succ_cons, List.drop_zero]
  rw [show bs ++ [g, d] = (bs ++ [g]) ++ [d] by simp, List.dropLast_concat, List.dropLast_concat]

theorem mapM_some {α : Type} (l : List α) : (l.map some).mapM id = some l := by
  induction l with
  | nil => rfl
  | cons x t ih => simp [List.mapM_cons, ih]

theorem dotRow_some (p : Predictor) (a : ℝ) (bs xs : List ℝ) :
    dotRow a (betaWeights p bs) (xs.map some) = some (location p a bs xs) := by
  unfold dotRow location
  rw [mapM_some]
  simp only [Option.map_some, Option.some.injEq, add_right_inj]
  cases p with
  | mean =>
    simp only [betaWeights, reduceCtorEq, if_false]
    congr 1
    induction xs generalizing bs with
    | nil => simp
    | cons x t ih => cases bs with
      | nil => simp
      | cons b bt => simp [ih, mul_comm]
  | realizations =>
    simp only [betaWeights, if_true]
    congr 1
    induction xs generalizing bs with
    | nil => simp
    | cons x t ih => cases bs with
      | nil => simp
      | cons b bt => simp [ih]; ring

/-- Location, standard deviation and outcome of a complete case. -/
noncomputable def rowOf (p : Predictor) (a : ℝ) (bs : List ℝ) (g d : ℝ) (c : Case) :
    Option ℝ × Option ℝ × Option ℝ :=
  (some (location p a bs c.x), some (Real.sqrt (spread g d c.v)), c.y)

theorem crpsPrep_ok (p : Predictor) (a : ℝ) (bs : List ℝ) (g d : ℝ) (cs : List Case)
    (hlen : ∀ c ∈ cs, c.x.length = bs.length) :
    crpsPrep p (coeffs a bs g d) (cs.map Case.train) = .ok (cs.map (rowOf p a bs g d)) := by
  unfold crpsPrep
  rw [splitGuess_coeffs]
  have h : (cs.map Case.train).any (fun c => c.preds.length != bs.length) = false := by
    rw [List.any_eq_false]
    intro t ht
    obtain ⟨c, hc, rfl⟩ := List.mem_map.1 ht
    simp [Case.train, hlen c hc]
  simp only [h, Bool.false_eq_true, if_false, List.map_map]
  congr 1
  apply List.map_congr_left
  intro c _
  simp only [Function.comp, Case.train, dotRow_some, sigmaOf, Option.map_some, rowOf, spread]
  congr 4; ring

/-- A case that makes the score refuse the coefficients. -/
theorem npRatio_row (p : Predictor) (a : ℝ) (bs : List ℝ) (g d : ℝ) (c : Case) :
    npRatio (rowOf p a bs g d c).1 (rowOf p a bs g d c).2.1 =
      if Real.sqrt (spread g d c.v) = 0 then
        (if 0 < location p a bs c.x then some ⊤
          else if location p a bs c.x < 0 then some ⊥ else none)
      else some ((location p a bs c.x / Real.sqrt (spread g d c.v) : ℝ) : EReal) := rfl

theorem mapM_id_some {α : Type} {l : List (Option α)} (h : ∀ o ∈ l, o ≠ none) :
    ∃ m, l.mapM id = some m ∧ l = m.map some := by
  induction l with
  | nil => exact ⟨[], rfl, rfl⟩
  | cons o t ih =>
    obtain ⟨m, hm, he⟩ := ih fun o ho => h o (List.mem_cons_of_mem _ ho)
    cases o with
    | none => exact absurd rfl (h none (List.mem_cons_self ..))
    | some x => exact ⟨x :: m, by simp [List.mapM_cons, hm], by simp [he]⟩

theorem mapM_id_none {α : Type} {l : List (Option α)} (h : none ∈ l) : l.mapM id = none := by
  induction l with
  | nil => simp at h
  | cons o t ih =>
    cases o with
    | none => simp [List.mapM_cons]
    | some x =>
      have : none ∈ t := by simpa using h
      simp [List.mapM_cons, ih this]

theorem foldr_min_mem (m : List EReal) : m.foldr min ⊤ = ⊤ ∨ m.foldr min ⊤ ∈ m := by
  induction m with
  | nil => left; rfl
  | cons x t ih =>
    simp only [List.foldr_cons]
    rcases min_choice x (t.foldr min ⊤) with h | h
    · right; rw [h]; simp
    · rw [h]; rcases ih with ih | ih
      · left; exact ih
      · right; exact List.mem_cons_of_mem _ ih

theorem foldr_min_le (m : List EReal) : ∀ x ∈ m, m.foldr min ⊤ ≤ x := by
  induction m with
  | nil => simp
  | cons y t ih =>
    intro x hx
    simp only [List.foldr_cons]
    rcases List.mem_cons.1 hx with rfl | hx
    · exact min_le_left _ _
    · exact (min_le_right _ _).trans (ih x hx)

/-- The finiteness test of the code in terms of the cases: no location at or below zero without
spread, and at least one case with spread. -/
theorem finite_iff (p : Predictor) (a : ℝ) (bs : List ℝ) (g d : ℝ) (cs : List Case)
    (hne : cs ≠ []) :
    ∃ m, npMinE ((cs.map (rowOf p a bs g d)).map fun r => npRatio r.1 r.2.1) = .ok m ∧
      (isFiniteE m ↔
        (∀ c ∈ cs, spread g d c.v ≤ 0 → 0 < location p a bs c.x) ∧
          ∃ c ∈ cs, 0 < spread g d c.v) ∧
      (m = some ⊤ ↔ ∀ c ∈ cs, spread g d c.v ≤ 0 ∧ 0 < location p a bs c.x) := by
  unfold npMinE
  have hnn : ((cs.map (rowOf p a bs g d)).map fun r => npRatio r.1 r.2.1) ≠ [] := by simpa using hne
  rw [if_neg hnn]
  refine ⟨_, rfl, ?_⟩
  set l := (cs.map (rowOf p a bs g d)).map fun r => npRatio r.1 r.2.1 with hl
  have hmem : ∀ o, o ∈ l ↔ ∃ c ∈ cs, npRatio (rowOf p a bs g d c).1 (rowOf p a bs g d c).2.1 = o := by
    intro o; simp [hl]
  have hs0 : ∀ c : Case, Real.sqrt (spread g d c.v) = 0 ↔ spread g d c.v ≤ 0 := fun c =>
    Real.sqrt_eq_zero'
  by_cases hnone : none ∈ l
  · rw [mapM_id_none hnone]
    obtain ⟨c, hc, he⟩ := (hmem none).1 hnone
    rw [npRatio_row] at he
    by_cases h0 : Real.sqrt (spread g d c.v) = 0
    · rw [if_pos h0] at he
      by_cases h1 : 0 < location p a bs c.x
      · rw [if_pos h1] at he; cases he
      · constructor
        · constructor
          · intro h; exact h.elim
          · intro h; exact absurd (h.1 c hc ((hs0 c).1 h0)) h1
        · constructor
          · intro h; cases h
          · intro h; exact absurd (h c hc).2 h1
    · rw [if_neg h0] at he; cases he
  · obtain ⟨m, hm, hlm⟩ := mapM_id_some (l := l) fun o ho h => hnone (h ▸ ho)
    rw [hm]
    simp only [Option.map_some, isFiniteE]
    have hmm : ∀ r, r ∈ m ↔ ∃ c ∈ cs, npRatio (rowOf p a bs g d c).1 (rowOf p a bs g d c).2.1 = some r := by
      intro r; rw [← hmem, hlm]; simp
    -- value for each case
    have hval : ∀ c ∈ cs, ∃ r ∈ m,
        npRatio (rowOf p a bs g d c).1 (rowOf p a bs g d c).2.1 = some r := by
      intro c hc
      have : npRatio (rowOf p a bs g d c).1 (rowOf p a bs g d c).2.1 ∈ l := (hmem _).2 ⟨c, hc, rfl⟩
      rw [hlm] at this
      obtain ⟨r, hr, he⟩ := List.mem_map.1 this
      exact ⟨r, hr, he.symm⟩
    have htop : m.foldr min ⊤ = ⊤ ↔ ∀ c ∈ cs, spread g d c.v ≤ 0 ∧ 0 < location p a bs c.x := by
      constructor
      · intro h c hc
        obtain ⟨r, hr, he⟩ := hval c hc
        have hrt : r = ⊤ := by
          have := foldr_min_le m r hr; rw [h] at this; exact top_le_iff.1 this
        subst hrt
        rw [npRatio_row] at he
        by_cases h0 : Real.sqrt (spread g d c.v) = 0
        · rw [if_pos h0] at he
          by_cases h1 : 0 < location p a bs c.x
          · exact ⟨(hs0 c).1 h0, h1⟩
          · rw [if_neg h1] at he
            by_cases h2 : location p a bs c.x < 0
            · rw [if_pos h2] at he; simp at he
            · rw [if_neg h2] at he; cases he
        · rw [if_neg h0] at he
          simp only [Option.some.injEq] at he
          exact absurd he (EReal.coe_ne_top _)
      · intro h
        rcases foldr_min_mem m with h' | h'
        · exact h'
        · obtain ⟨c, hc, he⟩ := (hmm _).1 h'
          rw [npRatio_row, if_pos ((hs0 c).2 (h c hc).1), if_pos (h c hc).2] at he
          simpa using he.symm
    constructor
    · constructor
      · rintro ⟨h1, h2⟩
        constructor
        · intro c hc hsp
          by_contra hloc
          obtain ⟨r, hr, he⟩ := hval c hc
          rw [npRatio_row, if_pos ((hs0 c).2 hsp), if_neg hloc] at he
          by_cases hlt : location p a bs c.x < 0
          · rw [if_pos hlt] at he
            simp only [Option.some.injEq] at he
            subst he
            exact h2 (le_bot_iff.1 (foldr_min_le m ⊥ hr))
          · rw [if_neg hlt] at he; cases he
        · by_contra hcon
          push Not at hcon
          apply h1
          rw [htop]
          intro c hc
          refine ⟨hcon c hc, ?_⟩
          by_contra hloc
          obtain ⟨r, hr, he⟩ := hval c hc
          rw [npRatio_row, if_pos ((hs0 c).2 (hcon c hc)), if_neg hloc] at he
          by_cases hlt : location p a bs c.x < 0
          · rw [if_pos hlt] at he
            simp only [Option.some.injEq] at he
            subst he
            exact h2 (le_bot_iff.1 (foldr_min_le m ⊥ hr))
          · rw [if_neg hlt] at he; cases he
      · rintro ⟨h1, c0, hc0, hp0⟩
        constructor
        · intro h; rw [htop] at h
          exact absurd (h c0 hc0).1 (not_le.2 hp0)
        · intro h
          rcases foldr_min_mem m with h' | h'
          · rw [h'] at h; exact absurd h (by simp)
          · rw [h] at h'
            obtain ⟨c, hc, he⟩ := (hmm _).1 h'
            rw [npRatio_row] at he
            by_cases h0 : Real.sqrt (spread g d c.v) = 0
            · rw [if_pos h0, if_pos (h1 c hc ((hs0 c).1 h0))] at he
              simp at he
            · rw [if_neg h0] at he
              simp only [Option.some.injEq] at he
              exact absurd he (EReal.coe_ne_bot _)
    · rw [Option.some.injEq]; exact htop

theorem normalEntry_row (p : Predictor) (a : ℝ) (bs : List ℝ) (g d : ℝ) (c : Case) :
    normalEntry (rowOf p a bs g d c).1 (rowOf p a bs g d c).2.1 (rowOf p a bs g d c).2.2 =
      if 0 < spread g d c.v then
        c.y.map (crps (gaussianReal (location p a bs c.x) (Real.toNNReal (spread g d c.v))))
      else none := by
  unfold rowOf normalEntry
  rcases c with ⟨x, y, v⟩
  cases y with
  | none => simp
  | some y =>
    simp only
    by_cases h : 0 < spread g d v
    · have hs : 0 < Real.sqrt (spread g d v) := Real.sqrt_pos.2 h
      rw [if_neg hs.ne', if_pos h, normal_formula _ _ _ hs, Real.sq_sqrt h.le]
      rfl
    · rw [if_pos (Real.sqrt_eq_zero'.2 (not_lt.1 h)), if_neg h]

theorem nanMean_filter (f : Case → ℝ → ℝ) (g d : ℝ) (cs : List Case) :
    nanMeanR (cs.map fun c => if 0 < spread g d c.v then c.y.map (f c) else none) =
      meanScore f (cs.filter fun c => 0 < spread g d c.v) := by
  unfold nanMeanR meanScore
  have h : (cs.map fun c => if 0 < spread g d c.v then c.y.map (f c) else none).filterMap id
      = (cs.filter fun c => 0 < spread g d c.v).filterMap fun c => c.y.map (f c) := by
    rw [List.filterMap_map, List.filterMap_filter]
    apply List.filterMap_congr
    intro c _
    simp only [Function.comp, id]
    by_cases h : 0 < spread g d c.v <;> simp [h]
  simp only [h]

/-- C119: when some case has spread and the location is positive wherever there is none, the
score is the mean CRPS of the normal distributions predicted by the coefficients, over the
observed cases with spread. -/
theorem C119_normal_score (p : Predictor) (a : ℝ) (bs : List ℝ) (g d : ℝ) (cs : List Case)
    (hlen : ∀ c ∈ cs, c.x.length = bs.length)
    (hbad : ∀ c ∈ cs, spread g d c.v ≤ 0 → 0 < location p a bs c.x)
    (hsp : ∃ c ∈ cs, 0 < spread g d c.v) :
    normalCrps p (coeffs a bs g d) (cs.map Case.train) = .ok (meanScore
      (fun c y => crps (gaussianReal (location p a bs c.x) (Real.toNNReal (spread g d c.v))) y)
      (cs.filter fun c => 0 < spread g d c.v)) := by
  have hne : cs ≠ [] := by rintro rfl; simp at hsp
  obtain ⟨m, hm, hfin, -⟩ := finite_iff p a bs g d cs hne
  unfold normalCrps
  simp only [crpsPrep_ok p a bs g d cs hlen, hm, if_pos (hfin.2 ⟨hbad, hsp⟩)]
  simp only [List.map_map, Function.comp_def, normalEntry_row, ← nanMean_filter]

/-- C119: with spread everywhere, every observed case counts. -/
theorem C119_normal_all (p : Predictor) (a : ℝ) (bs : List ℝ) (g d : ℝ) (cs : List Case)
    (hne : cs ≠ []) (hlen : ∀ c ∈ cs, c.x.length = bs.length)
    (hsp : ∀ c ∈ cs, 0 < spread g d c.v) :
    normalCrps p (coeffs a bs g d) (cs.map Case.train) = .ok (meanScore
      (fun c y => crps (gaussianReal (location p a bs c.x) (Real.toNNReal (spread g d c.v))) y)
      cs) := by
  obtain ⟨c0, hc0⟩ := List.exists_mem_of_ne_nil cs hne
  rw [C119_normal_score p a bs g d cs hlen (fun c hc h => absurd h (not_le.2 (hsp c hc)))
    ⟨c0, hc0, hsp c0 hc0⟩]
  congr 2
  rw [List.filter_eq_self]
  intro c hc
  simpa using hsp c hc

theorem meanScore_nonneg {f : Case → ℝ → ℝ} (hf : ∀ c y, 0 ≤ f c y) {cs : List Case} {r : ℝ}
    (h : meanScore f cs = some r) : 0 ≤ r := by
  unfold meanScore at h
  simp only at h
  split_ifs at h with h0
  simp only [Option.some.injEq] at h
  rw [← h]
  apply div_nonneg
  · apply List.sum_nonneg
    intro x hx
    obtain ⟨c, _, hc⟩ := List.mem_filterMap.1 hx
    obtain ⟨y, _, rfl⟩ := Option.map_eq_some_iff.1 hc
    exact hf c y
  · positivity

/-- C119: the coefficients are refused (value 999999, far above any realistic score) when a
case has no spread and a location that is not positive, or when no case has spread. -/
theorem C119_normal_refused (p : Predictor) (a : ℝ) (bs : List ℝ) (g d : ℝ) (cs : List Case)
    (hne : cs ≠ []) (hlen : ∀ c ∈ cs, c.x.length = bs.length)
    (hbad : (∃ c ∈ cs, spread g d c.v ≤ 0 ∧ location p a bs c.x ≤ 0) ∨
      ∀ c ∈ cs, spread g d c.v ≤ 0) :
    normalCrps p (coeffs a bs g d) (cs.map Case.train) = .ok (some 999999) := by
  obtain ⟨m, hm, hfin, -⟩ := finite_iff p a bs g d cs hne
  have hnot : ¬ isFiniteE m := by
    rw [hfin]
    rintro ⟨h1, c, hc, h2⟩
    rcases hbad with ⟨c', hc', h3, h4⟩ | h
    · exact absurd (h1 c' hc' h3) (not_lt.2 h4)
    · exact absurd (h c hc) (not_le.2 h2)
  unfold normalCrps
  simp only [crpsPrep_ok p a bs g d cs hlen, hm, if_neg hnot, badValue]

/-- C119: a missing value in any forecast also makes the score refuse the coefficients. -/
theorem C119_missing_forecast (p : Predictor) (a : ℝ) (bs : List ℝ) (g d : ℝ)
    (ts : List TrainCase) (hlen : ∀ t ∈ ts, t.preds.length = bs.length)
    (hmiss : ∃ t ∈ ts, none ∈ t.preds ∨ t.var = none) :
    normalCrps p (coeffs a bs g d) ts = .ok (some 999999) ∧
      truncCrps p (coeffs a bs g d) ts = .ok (some 999999) := by
  have hprep : crpsPrep p (coeffs a bs g d) ts = .ok (ts.map fun c =>
      (dotRow a (betaWeights p bs) c.preds, sigmaOf g d c.var, c.truth)) := by
    unfold crpsPrep
    rw [splitGuess_coeffs]
    have h : ts.any (fun c => c.preds.length != bs.length) = false := by
      rw [List.any_eq_false]
      intro t ht
      simp [hlen t ht]
    simp only [h, Bool.false_eq_true, if_false]
  obtain ⟨t, ht, hn⟩ := hmiss
  have hmin : npMinE ((ts.map fun c =>
      (dotRow a (betaWeights p bs) c.preds, sigmaOf g d c.var, c.truth)).map
        fun r => npRatio r.1 r.2.1) = .ok none := by
    unfold npMinE
    rw [if_neg (by intro h; simp at h; subst h; simp at ht), mapM_id_none]
    · rfl
    · simp only [List.mem_map, exists_exists_and_eq_and]
      refine ⟨t, ht, ?_⟩
      rcases hn with hn | hn
      · unfold dotRow; rw [mapM_id_none hn]; rfl
      · unfold sigmaOf npRatio; rw [hn]
        cases dotRow a (betaWeights p bs) t.preds <;> rfl
  constructor
  · unfold normalCrps
    simp only [hprep, hmin, badValue]
    exact if_neg id
  · unfold truncCrps
    simp only [hprep, hmin, badValue]
    exact if_neg (by rintro (h | h) <;> exact h)

/-- C119: the score is never negative (and NaN only when nothing was observed). -/
theorem C119_score_nonneg (p : Predictor) (a : ℝ) (bs : List ℝ) (g d : ℝ) (cs : List Case)
    (hne : cs ≠ []) (hlen : ∀ c ∈ cs, c.x.length = bs.length) :
    ∃ o, normalCrps p (coeffs a bs g d) (cs.map Case.train) = .ok o ∧ ∀ r, o = some r → 0 ≤ r := by
  by_cases h : (∀ c ∈ cs, spread g d c.v ≤ 0 → 0 < location p a bs c.x) ∧
      ∃ c ∈ cs, 0 < spread g d c.v
  · refine ⟨_, C119_normal_score p a bs g d cs hlen h.1 h.2, fun r hr => ?_⟩
    exact meanScore_nonneg (fun c y => crps_nonneg _ _) hr
  · refine ⟨_, C119_normal_refused p a bs g d cs hne hlen ?_, fun r hr => ?_⟩
    · by_contra hcon
      push Not at hcon
      exact h ⟨fun c hc hs => hcon.1 c hc hs, hcon.2⟩
    · simp only [Option.some.injEq] at hr; rw [← hr]; norm_num

/-- Finding: a case whose predicted distribution is a point (no spread) at a positive location
is left out of the score, however wrong it is: any number of such cases, with any observations,
leaves the score unchanged. -/
theorem C119_spreadless_ignored_refuted (p : Predictor) (a : ℝ) (bs : List ℝ) (g d : ℝ)
    (cs extra : List Case)
    (hlen : ∀ c ∈ cs ++ extra, c.x.length = bs.length) (hne : cs ≠ [])
    (hsp : ∀ c ∈ cs, 0 < spread g d c.v)
    (hex : ∀ c ∈ extra, spread g d c.v ≤ 0 ∧ 0 < location p a bs c.x) :
    normalCrps p (coeffs a bs g d) ((cs ++ extra).map Case.train) =
      normalCrps p (coeffs a bs g d) (cs.map Case.train) := by
  obtain ⟨c0, hc0⟩ := List.exists_mem_of_ne_nil cs hne
  rw [C119_normal_all p a bs g d cs hne (fun c hc => hlen c (by simp [hc])) hsp,
    C119_normal_score p a bs g d (cs ++ extra) hlen ?_ ⟨c0, by simp [hc0], hsp c0 hc0⟩]
  · congr 2
    rw [List.filter_append, List.filter_eq_self.2, List.filter_eq_nil_iff.2, List.append_nil]
    · intro c hc; simpa using (hex c hc).1
    · intro c hc; simpa using hsp c hc
  · intro c hc h
    rcases List.mem_append.1 hc with hc | hc
    · exact absurd h (not_le.2 (hsp c hc))
    · exact (hex c hc).2

/-- The hypotheses of `C119_normal_score` are met by a training set with an unobserved case and
with a case without ensemble variance. -/
example : normalCrps .mean (coeffs 0 [1] 0 1)
    (([⟨[2], some 1, 1⟩, ⟨[3], none, 4⟩, ⟨[5], some 7, 0⟩] : List Case).map Case.train)
      = .ok (some (crps (gaussianReal 2 1) 1)) := by
  rw [C119_normal_score .mean 0 [1] 0 1 _ (by simp) (by simp [spread, location])
    ⟨⟨[2], some 1, 1⟩, by simp, by simp [spread]⟩]
  simp [meanScore, spread, location]

/-- The same coefficients are refused for the same training set when the location of the case
without variance is not positive. -/
example : normalCrps .mean (coeffs 0 [1] 0 1)
    (([⟨[2], some 1, 1⟩, ⟨[-5], some 7, 0⟩] : List Case).map Case.train) = .ok (some 999999) :=
  C119_normal_refused .mean 0 [1] 0 1 _ (by simp) (by simp)
    (Or.inl ⟨⟨[-5], some 7, 0⟩, by simp, by simp [spread, location]⟩)

/-! ### C120: truncated normal -/

theorem truncEntry_row (p : Predictor) (a : ℝ) (bs : List ℝ) (g d : ℝ) (c : Case)
    (hy : ∀ y, c.y = some y → 0 ≤ y) :
    truncEntry (rowOf p a bs g d c).1 (rowOf p a bs g d c).2.1 (rowOf p a bs g d c).2.2 =
      if 0 < spread g d c.v then
        c.y.map (crps (truncNormal (location p a bs c.x) (Real.toNNReal (spread g d c.v))))
      else none := by
  unfold rowOf truncEntry
  rcases c with ⟨x, y, v⟩
  cases y with
  | none => simp
  | some y =>
    simp only
    by_cases h : 0 < spread g d v
    · have hs : 0 < Real.sqrt (spread g d v) := Real.sqrt_pos.2 h
      rw [if_neg hs.ne', if_pos h, trunc_formula _ _ _ hs (hy y rfl), Real.sq_sqrt h.le]
      rfl
    · rw [if_pos (Real.sqrt_eq_zero'.2 (not_lt.1 h)), if_neg h]

/-- C120: for non-negative observations the score of the truncated normal option is the mean
CRPS of the predicted normal distributions conditioned on being non-negative. -/
theorem C120_truncated_score (p : Predictor) (a : ℝ) (bs : List ℝ) (g d : ℝ) (cs : List Case)
    (hlen : ∀ c ∈ cs, c.x.length = bs.length)
    (hy : ∀ c ∈ cs, ∀ y, c.y = some y → 0 ≤ y)
    (hbad : ∀ c ∈ cs, spread g d c.v ≤ 0 → 0 < location p a bs c.x)
    (hsp : ∃ c ∈ cs, 0 < spread g d c.v) :
    truncCrps p (coeffs a bs g d) (cs.map Case.train) = .ok (meanScore
      (fun c y => crps (truncNormal (location p a bs c.x) (Real.toNNReal (spread g d c.v))) y)
      (cs.filter fun c => 0 < spread g d c.v)) := by
  have hne : cs ≠ [] := by rintro rfl; simp at hsp
  obtain ⟨m, hm, hfin, -⟩ := finite_iff p a bs g d cs hne
  unfold truncCrps
  simp only [crpsPrep_ok p a bs g d cs hlen, hm,
    if_pos (Or.inl (hfin.2 ⟨hbad, hsp⟩) : isFiniteE m ∨ geMinusThree m)]
  simp only [List.map_map, Function.comp_def, ← nanMean_filter]
  congr 2
  apply List.map_congr_left
  intro c hc
  exact truncEntry_row p a bs g d c (hy c hc)

/-- The hypotheses of `C120_truncated_score` are met by a training set for the realizations
option with a dry observation. -/
example : truncCrps .realizations (coeffs 0 [2, 1] 1 1)
    (([⟨[2, 3], some 0, 1⟩, ⟨[0, 0], none, 4⟩] : List Case).map Case.train)
      = .ok (some (crps (truncNormal 11 2) 0)) := by
  rw [C120_truncated_score .realizations 0 [2, 1] 1 1 _ (by simp) (by simp)
    (by simp [spread]; norm_num) ⟨⟨[2, 3], some 0, 1⟩, by simp, by simp [spread]⟩]
  have h4 : (0:ℝ) < 1 + 4 := by norm_num
  simp [meanScore, spread, location, h4]
  norm_num

/-- C120: refusal of coefficients. -/
theorem C120_truncated_refused (p : Predictor) (a : ℝ) (bs : List ℝ) (g d : ℝ) (cs : List Case)
    (hlen : ∀ c ∈ cs, c.x.length = bs.length)
    (hbad : ∃ c ∈ cs, spread g d c.v ≤ 0 ∧ location p a bs c.x ≤ 0) :
    truncCrps p (coeffs a bs g d) (cs.map Case.train) = .ok (some 999999) := by
  have hne : cs ≠ [] := by rintro rfl; simp at hbad
  obtain ⟨c', hc', h3, h4⟩ := hbad
  obtain ⟨m, hm, hfin, htop⟩ := finite_iff p a bs g d cs hne
  have hnot : ¬ isFiniteE m := by
    rw [hfin]
    rintro ⟨h1, -⟩
    exact absurd (h1 c' hc' h3) (not_lt.2 h4)
  have hnt : m ≠ some ⊤ := fun h => absurd ((htop.1 h) c' hc').2 (not_lt.2 h4)
  have hge : ¬ geMinusThree m := by
    cases m with
    | none => exact id
    | some r =>
      have hr : r = ⊥ := by
        by_contra hb
        exact hnot ⟨fun h => hnt (by rw [h]), hb⟩
      subst hr
      simp only [geMinusThree, le_bot_iff]
      exact EReal.coe_ne_bot _
  unfold truncCrps
  simp only [crpsPrep_ok p a bs g d cs hlen, hm, if_neg (not_or.2 ⟨hnot, hge⟩), badValue]

/-- Finding: when no case has any spread and all locations are positive, the normal option
refuses the coefficients but the truncated option returns NaN. -/
theorem C120_no_spread_refuted (p : Predictor) (a : ℝ) (bs : List ℝ) (g d : ℝ) (cs : List Case)
    (hne : cs ≠ []) (hlen : ∀ c ∈ cs, c.x.length = bs.length)
    (hs : ∀ c ∈ cs, spread g d c.v ≤ 0 ∧ 0 < location p a bs c.x) :
    normalCrps p (coeffs a bs g d) (cs.map Case.train) = .ok (some 999999) ∧
      truncCrps p (coeffs a bs g d) (cs.map Case.train) = .ok none := by
  refine ⟨C119_normal_refused p a bs g d cs hne hlen (Or.inr fun c hc => (hs c hc).1), ?_⟩
  obtain ⟨m, hm, -, htop⟩ := finite_iff p a bs g d cs hne
  have hmt := htop.2 hs
  subst hmt
  unfold truncCrps
  have hor : isFiniteE (some ⊤) ∨ geMinusThree (some ⊤) := Or.inr le_top
  simp only [crpsPrep_ok p a bs g d cs hlen, hm, if_pos hor]
  rw [List.map_map]
  congr 1
  unfold nanMeanR
  have : (cs.map ((fun r => truncEntry r.1 r.2.1 r.2.2) ∘ rowOf p a bs g d)).filterMap id = [] := by
    rw [List.filterMap_map, List.filterMap_eq_nil_iff]
    intro c hc
    simp only [Function.comp, id, rowOf, truncEntry]
    cases c.y with
    | none => rfl
    | some y => simp only; rw [if_pos (Real.sqrt_eq_zero'.2 (hs c hc).1)]
  simp only [this, if_true]

/-- Finding: the lower limit of -3 on the ratio of location to standard deviation that the code
names has no effect: whatever the limit `r`, coefficients with a smaller ratio are scored like
all others, not refused. -/
theorem C120_ratio_limit_refuted (r : ℝ) : ∃ (a : ℝ) (c : Case),
    location .mean a [1] c.x / Real.sqrt (spread 1 0 c.v) < r ∧
      truncCrps .mean (coeffs a [1] 1 0) ([c].map Case.train)
        = .ok (some (crps (truncNormal (location .mean a [1] c.x) 1) 0)) := by
  have hs : ∀ v, spread 1 0 v = 1 := fun v => by simp [spread]
  refine ⟨r - 1, ⟨[0], some 0, 0⟩, ?_, ?_⟩
  · simp [hs, location]
  · rw [C120_truncated_score .mean (r - 1) [1] 1 0 [⟨[0], some 0, 0⟩] (by simp)
      (by simp) (by simp [hs]) ⟨_, List.mem_singleton_self _, by simp [hs]⟩]
    simp [meanScore, hs]

theorem trunc_formula_neg (x0 y : ℝ) (hy : y < -x0) :
    ∫ z, ((if z < -x0 then 0 else (normCdf z - normCdf (-x0)) / normCdf x0)
        - if y ≤ z then 1 else 0) ^ 2
      < 1 / (normCdf x0 * normCdf x0) *
        (y * normCdf x0 * (2 * normCdf y + normCdf x0 - 2) + 2 * normPdf y * normCdf x0
          - normCdf (Real.sqrt 2 * x0) / Real.sqrt Real.pi) := by
  set p := normCdf x0 with hp
  have hppos : 0 < p := normCdf_pos x0
  have hq : normCdf (-x0) = 1 - p := normCdf_neg x0
  set F : ℝ → ℝ := fun z => if z < -x0 then 0 else (normCdf z - normCdf (-x0)) / p with hF
  set H : ℝ → ℝ := fun y => 1 / (p * p) *
        (y * p * (2 * normCdf y + p - 2) + 2 * normPdf y * p
          - normCdf (Real.sqrt 2 * x0) / Real.sqrt Real.pi) with hH
  have h0 := std_trunc x0 (-x0) le_rfl
  rw [← hp] at h0
  have eU : EqOn (fun z => (1 - F z) ^ 2) (fun z => (1 / p ^ 2) * (1 - normCdf z) ^ 2)
      (Ici (-x0)) :=
    fun z hz => by
      have : ¬ z < -x0 := not_lt.2 hz
      simp only [hF, this, if_false, hq]
      field_simp
      ring
  have hint2 : IntegrableOn (fun z => (1 - F z) ^ 2) (Ici (-x0)) :=
    IntegrableOn.congr_fun ((integrableOn_tail_Ici (-x0)).const_mul (1 / p ^ 2)) eU.symm
      measurableSet_Ici
  have eZ : EqOn (fun z => F z ^ 2) (fun _ => (0:ℝ)) (Iio (-x0)) := fun z hz => by
    have : z < -x0 := hz
    simp [hF, this]
  have hZ : IntegrableOn (fun z => F z ^ 2) (Iio (-x0)) :=
    IntegrableOn.congr_fun (integrableOn_zero) eZ.symm measurableSet_Iio
  have eO : EqOn (fun z => (1 - F z) ^ 2) (fun _ => (1:ℝ)) (Ico y (-x0)) := fun z hz => by
    have : z < -x0 := hz.2
    simp [hF, this]
  have hO : IntegrableOn (fun z => (1 - F z) ^ 2) (Ico y (-x0)) :=
    IntegrableOn.congr_fun (integrableOn_const (by simp)) eO.symm measurableSet_Ico
  have hun : Ici y = Ico y (-x0) ∪ Ici (-x0) := (Ico_union_Ici_eq_Ici hy.le).symm
  have e1 : ∫ z, (F z - if y ≤ z then 1 else 0) ^ 2
      = (-x0 - y) + ∫ z in Ici (-x0), (1 - F z) ^ 2 := by
    rw [integral_step F y (hZ.mono_set (Iio_subset_Iio hy.le)) (by rw [hun]; exact hO.union hint2),
      hun, setIntegral_union (by
        rw [disjoint_left]; intro z hz hz'; exact absurd hz' (not_le.2 hz.2)) measurableSet_Ici
        hO hint2,
      setIntegral_congr_fun measurableSet_Ico eO,
      setIntegral_congr_fun measurableSet_Iio (eZ.mono (Iio_subset_Iio hy.le))]
    simp [max_eq_left (by linarith : (0:ℝ) ≤ -x0 - y)]
  have e2 : ∫ z, (F z - if -x0 ≤ z then 1 else 0) ^ 2
      = ∫ z in Ici (-x0), (1 - F z) ^ 2 := by
    rw [integral_step F (-x0) hZ hint2, setIntegral_congr_fun measurableSet_Iio eZ]
    simp
  rw [e1, ← e2]
  have e3 : ∫ z, (F z - if -x0 ≤ z then 1 else 0) ^ 2 = H (-x0) := h0
  rw [e3]
  have hder : ∀ t, HasDerivAt (fun t => H t + t) (1 / p * (2 * normCdf t + p - 2) + 1) t := by
    intro t
    have hc := hasDerivAt_normCdf t
    have hd := hasDerivAt_normPdf t
    have a1 := ((hasDerivAt_id t).mul_const p).mul (((hc.const_mul 2).add_const p).sub_const 2)
    have a2 := (hd.const_mul 2).mul_const p
    have a3 := (((a1.add a2).sub_const (normCdf (Real.sqrt 2 * x0) / Real.sqrt Real.pi)).const_mul
      (1 / (p * p))).add (hasDerivAt_id t)
    refine a3.congr_deriv ?_
    simp
    field_simp
    ring
  have hanti : StrictAntiOn (fun t => H t + t) (Iic (-x0)) := by
    apply strictAntiOn_of_deriv_neg (convex_Iic _)
    · exact fun t _ => (hder t).continuousAt.continuousWithinAt
    · intro t ht
      rw [interior_Iic] at ht
      rw [(hder t).deriv]
      have h1 := normCdf_strictMono ht
      rw [hq] at h1
      have : 1 / p * (2 * normCdf t + p - 2) + 1 = 2 * (normCdf t + p - 1) / p := by
        field_simp; ring
      rw [this]
      exact div_neg_of_neg_of_pos (by linarith) hppos
  have := hanti (show y ∈ Iic (-x0) from hy.le) (mem_Iic.2 le_rfl) hy
  simp only at this
  linarith

/-- Finding: for a negative observation the closed formula is not the CRPS of the truncated
distribution but strictly larger. -/
theorem C120_negative_observation_refuted (p : Predictor) (a : ℝ) (bs : List ℝ) (g d : ℝ)
    (xs : List ℝ) (v y : ℝ) (hlen : xs.length = bs.length) (hs : 0 < spread g d v) (hy : y < 0) :
    ∃ r, truncCrps p (coeffs a bs g d) ([(⟨xs, some y, v⟩ : Case)].map Case.train) = .ok (some r) ∧
      crps (truncNormal (location p a bs xs) (Real.toNNReal (spread g d v))) y < r := by
  obtain ⟨m, hm, hfin, -⟩ := finite_iff p a bs g d [⟨xs, some y, v⟩] (by simp)
  have hf : isFiniteE m := hfin.2 ⟨by
    intro c hc; rw [List.mem_singleton] at hc; subst hc
    intro h; exact absurd h (not_le.2 hs), ⟨_, List.mem_singleton_self _, hs⟩⟩
  unfold truncCrps
  simp only [crpsPrep_ok p a bs g d [⟨xs, some y, v⟩] (by simpa using hlen), hm,
    if_pos (Or.inl hf : isFiniteE m ∨ geMinusThree m)]
  set L := location p a bs xs
  set S := Real.sqrt (spread g d v)
  have hS : 0 < S := Real.sqrt_pos.2 hs
  refine ⟨_, by simp [nanMeanR, rowOf, truncEntry, hS.ne', L, S]; rfl, ?_⟩
  have h := trunc_formula_neg (L / S) ((y - L) / S) (by
    rw [← neg_div, div_lt_div_iff_of_pos_right hS]; linarith)
  have e : Spec.crps (Spec.truncNormal L (Real.toNNReal (spread g d v))) y = S * ∫ z,
      ((if z < -(L / S) then 0 else (normCdf z - normCdf (-(L / S))) / normCdf (L / S))
        - if (y - L) / S ≤ z then 1 else 0) ^ 2 := by
    rw [← integral_affine _ L S hS]
    unfold Spec.crps
    congr 1
    funext x
    rw [← Real.sq_sqrt hs.le, cdf_trunc L S x hS]
    have e1 : ((y - L) / S ≤ (x - L) / S) ↔ y ≤ x := by
      rw [div_le_div_iff_of_pos_right hS]; constructor <;> intro h <;> linarith
    have e2 : ((x - L) / S < -(L / S)) ↔ x < 0 := by
      rw [← neg_div, div_lt_div_iff_of_pos_right hS]; constructor <;> intro h <;> linarith
    simp only [e1, e2]
  rw [e]
  refine (mul_lt_mul_of_pos_left h hS).trans_eq ?_
  ring

end Improver
