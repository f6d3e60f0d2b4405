import Verif.Model.PrecipType
import Verif.Lemmas.NpInterp
import Verif.Props.CubeManip
import Mathlib.Tactic.Linarith
import Mathlib.Tactic.Ring
import Mathlib.Tactic.FieldSimp
import Mathlib.Tactic.Positivity
import Mathlib.Algebra.Order.Field.Basic

/-! C59-C66: precipitation type diagnostics, visibility, table extraction, filling of missing data. -/

namespace Improver

/-! ### C59: freezing rain -/

theorem freezing_fold (n : ℚ) (ks : List ℤ) (r s t : ℤ → ℚ) (acc : ℚ) :
    ((ks.map r).zip ((ks.map s).zip (ks.map t))).foldl (freezingStep n) acc = acc + (ks.map (fun k => (r k + s k) * t k)).sum / n := by
  induction ks generalizing acc with
  | nil => simp
  | cons k ks ih =>
    simp only [List.map_cons, List.zip_cons_cons, List.foldl_cons, ih, List.sum_cons]
    unfold freezingStep
    ring

theorem matchRealizations_map (common ks : List ℤ) (f : ℤ → ℚ) :
    (matchRealizations common (ks.map (fun k => (k, f k)))).map Prod.snd = (ks.filter (fun k => decide (k ∈ common))).map f := by
  unfold matchRealizations
  induction ks with
  | nil => rfl
  | cons k ks ih =>
    simp only [List.map_cons, List.filter_cons]
    by_cases h : k ∈ common
    · simp only [h, decide_true, if_true, List.map_cons, ih]
    · simp only [h, decide_false, Bool.false_eq_true, if_false, ih]

/-- What is computed in general: the sum over the common realizations divided by the number of realizations of the rain cube. -/
theorem freezingRain_general (ks ks' : List ℤ) (hsub : ∀ k ∈ ks', k ∈ ks) (hne : ks' ≠ []) (hf : ks.filter (fun k => decide (k ∈ ks')) = ks')
    (r s t : ℤ → ℚ) :
    freezingRain (ks.map (fun k => (k, r k))) (ks'.map (fun k => (k, s k))) (ks'.map (fun k => (k, t k)))
      = .ok ((ks'.map (fun k => (r k + s k) * t k)).sum / (ks.length : ℕ)) := by
  have hk : ∀ f : ℤ → ℚ, ∀ l : List ℤ, (l.map (fun k => (k, f k))).map Prod.fst = l := by
    intro f l; rw [List.map_map]; exact List.map_id'' (fun _ => rfl) l
  unfold freezingRain
  simp only [hk, and_self, hf, List.length_map]
  rw [if_neg hne]
  simp only [matchRealizations_map, hf]
  have h2 : ks'.filter (fun k => decide (k ∈ ks')) = ks' := by
    rw [List.filter_eq_self]; intro a ha; exact decide_eq_true ha
  rw [h2, freezing_fold, zero_add]

/-- **C59** (mean): when all three cubes have the same realizations the probability is the mean over the realizations of
(rain + sleet) × temperature probability. -/
theorem C59_mean (ks : List ℤ) (hne : ks ≠ []) (r s t : ℤ → ℚ) :
    ∃ p, freezingRain (ks.map (fun k => (k, r k))) (ks.map (fun k => (k, s k))) (ks.map (fun k => (k, t k))) = .ok p ∧
      p * ks.length = (ks.map (fun k => (r k + s k) * t k)).sum := by
  refine ⟨_, freezingRain_general ks ks (fun _ h => h) hne ?_ r s t, ?_⟩
  · rw [List.filter_eq_self]; intro a ha; exact decide_eq_true ha
  · have : ((ks.length : ℕ) : ℚ) ≠ 0 := by
      exact_mod_cast (List.length_pos_iff.2 hne).ne'
    field_simp

/-- **C59** (probability): inputs that are probabilities with rain + sleet at most 1 give a probability. -/
theorem C59_probability (ks : List ℤ) (hne : ks ≠ []) (r s t : ℤ → ℚ)
    (h : ∀ k ∈ ks, 0 ≤ r k ∧ 0 ≤ s k ∧ r k + s k ≤ 1 ∧ 0 ≤ t k ∧ t k ≤ 1) :
    ∃ p, freezingRain (ks.map (fun k => (k, r k))) (ks.map (fun k => (k, s k))) (ks.map (fun k => (k, t k))) = .ok p ∧
      0 ≤ p ∧ p ≤ 1 := by
  obtain ⟨p, hp, hs⟩ := C59_mean ks hne r s t
  refine ⟨p, hp, ?_⟩
  have hpos : (0 : ℚ) < (ks.length : ℕ) := by exact_mod_cast List.length_pos_iff.2 hne
  have key : ∀ l : List ℤ, (∀ k ∈ l, 0 ≤ r k ∧ 0 ≤ s k ∧ r k + s k ≤ 1 ∧ 0 ≤ t k ∧ t k ≤ 1) →
      0 ≤ (l.map (fun k => (r k + s k) * t k)).sum ∧ (l.map (fun k => (r k + s k) * t k)).sum ≤ (l.length : ℕ) := by
    intro l
    induction l with
    | nil => simp
    | cons k l ih =>
      intro hl
      obtain ⟨i1, i2⟩ := ih (fun x hx => hl x (by simp [hx]))
      obtain ⟨a, b, c, d, e⟩ := hl k (by simp)
      simp only [List.map_cons, List.sum_cons, List.length_cons]
      push_cast
      have h1 : 0 ≤ (r k + s k) * t k := mul_nonneg (by linarith) d
      have h2 : (r k + s k) * t k ≤ 1 := mul_le_one₀ c d e
      constructor <;> linarith
  have := key ks h
  rw [← hs] at this
  constructor
  · by_contra hc
    push Not at hc
    nlinarith [this.1]
  · by_contra hc
    push Not at hc
    nlinarith [this.2]

/-- **C59** (finding): the mean is taken over the realizations of the rain cube even where only some of them are common to the three
cubes: with certain freezing rain in every common realization the probability is less than 1. -/
theorem C59_subset_refuted (ks extra : List ℤ) (hks : ks ≠ []) (hex : extra ≠ []) (hd : ∀ k ∈ extra, k ∉ ks) :
    ∃ p, freezingRain ((ks ++ extra).map (fun k => (k, 1))) (ks.map (fun k => (k, 0))) (ks.map (fun k => (k, 1))) = .ok p ∧ p < 1 := by
  refine ⟨_, freezingRain_general (ks ++ extra) ks (fun k h => by simp [h]) hks ?_ (fun _ => 1) (fun _ => 0) (fun _ => 1), ?_⟩
  · rw [List.filter_append]
    have h1 : ks.filter (fun k => decide (k ∈ ks)) = ks := by
      rw [List.filter_eq_self]; intro a ha; exact decide_eq_true ha
    have h2 : extra.filter (fun k => decide (k ∈ ks)) = [] := by
      rw [List.filter_eq_nil_iff]; intro a ha; simp [hd a ha]
    rw [h1, h2, List.append_nil]
  · have h1 := List.length_pos_iff.2 hks
    have h2 := List.length_pos_iff.2 hex
    have e : (ks.map (fun _ : ℤ => ((1 : ℚ) + 0) * 1)).sum = (ks.length : ℕ) := by
      clear h1 hd hks
      induction ks with
      | nil => rfl
      | cons a l ih => rw [List.map_cons, List.sum_cons, ih, List.length_cons]; push_cast; ring
    rw [e, List.length_append, div_lt_one (by positivity)]
    exact_mod_cast (by omega : ks.length < ks.length + extra.length)

/-- **C59** (no common realization): refused. -/
theorem C59_no_common (rain sleet temperature : List (ℤ × ℚ))
    (h : ∀ k, ¬ (k ∈ rain.map Prod.fst ∧ k ∈ sleet.map Prod.fst ∧ k ∈ temperature.map Prod.fst)) :
    freezingRain rain sleet temperature = .error .valueError := by
  unfold freezingRain
  simp only
  rw [if_pos]
  rw [List.filter_eq_nil_iff]
  intro a ha hc
  exact h a ⟨ha, of_decide_eq_true hc⟩

example : freezingRain [(0, 1 / 2), (1, 1)] [(0, 1 / 4), (1, 0)] [(0, 1), (1, 1 / 2)] = .ok (5 / 8) := by decide +kernel

/-! ### C60: snow splitter -/

/-- **C60**: for any points with P(rain) + P(snow) ≤ 1 the rain and snow parts add up to the precipitation at every point, and for
probabilities and non-negative precipitation each lies between 0 and the precipitation; certain rain makes it all rain. -/
theorem C60_split (points : List (ℚ × ℚ × ℚ)) (h : ∀ p ∈ points, p.1 + p.2.1 ≤ 1) :
    ∃ rain snow, snowSplit true points = .ok rain ∧ snowSplit false points = .ok snow ∧
      List.zipWith (· + ·) rain snow = points.map (fun p => p.2.2) ∧
      List.Forall₂ (fun p (r : ℚ) => (0 ≤ p.1 → 0 ≤ p.2.1 → 0 ≤ p.2.2 → 0 ≤ r ∧ r ≤ p.2.2) ∧ (p.1 = 1 → p.2.1 = 0 → r = p.2.2) ∧
        (p.1 = 0 → p.2.1 = 1 → r = 0)) points rain := by
  have hno : ¬ points.any (fun p => decide (p.1 + p.2.1 > 1)) = true := by
    rw [List.any_eq_true]
    rintro ⟨p, hp, hc⟩
    have := of_decide_eq_true hc
    linarith [h p hp]
  unfold snowSplit
  rw [if_neg hno, if_neg hno]
  refine ⟨_, _, rfl, rfl, ?_, ?_⟩
  · clear hno h
    induction points with
    | nil => rfl
    | cons p l ih =>
      simp only [List.map_cons, List.zipWith_cons_cons, List.cons.injEq]
      refine ⟨?_, ih⟩
      simp only [if_true, Bool.false_eq_true, if_false]
      ring
  · rw [List.forall₂_map_right_iff, List.forall₂_same]
    intro p hp
    have hsum := h p hp
    simp only [if_true]
    refine ⟨?_, ?_, ?_⟩
    · intro a b c
      have h1 : 0 ≤ (p.1 - p.2.1 + 1) / 2 := by linarith
      have h2 : (p.1 - p.2.1 + 1) / 2 ≤ 1 := by linarith
      exact ⟨mul_nonneg c h1, by nlinarith⟩
    · intro a b; rw [a, b]; ring
    · intro a b; rw [a, b]; ring

/-- **C60** (refusal): a single point with P(rain) + P(snow) > 1 makes the call fail, for either output. -/
theorem C60_refusal (b : Bool) (points : List (ℚ × ℚ × ℚ)) (p : ℚ × ℚ × ℚ) (hp : p ∈ points) (h : p.1 + p.2.1 > 1) :
    snowSplit b points = .error .valueError := by
  unfold snowSplit
  rw [if_pos]
  rw [List.any_eq_true]
  exact ⟨p, hp, decide_eq_true h⟩

example : snowSplit true [(1 / 2, 1 / 4, 8)] = .ok [5] := by decide +kernel

/-! ### C61: snow fraction -/

/-- Specification: a nearest-value interpolation fills a point with the value of some usable point, whenever there is one. -/
def Spec.FillsFromUsable (n : ℕ) (grid : (ℕ → Option ℚ) → ℕ → Option ℚ) : Prop :=
  ∀ usable : ℕ → Option ℚ, (∃ k < n, usable k ≠ none) → ∀ i < n, ∃ k < n, usable k ≠ none ∧ grid usable i = usable k

/-- **C61**: for non-negative rain and snow the snow fraction is snow / (rain + snow) where there is precipitation, elsewhere (for any
nearest-value interpolation) the fraction of some point with precipitation; it is between 0 and 1 at all points of a grid with
any precipitation. -/
theorem C61_fraction (n : ℕ) (grid : (ℕ → Option ℚ) → ℕ → Option ℚ) (hg : Spec.FillsFromUsable n grid) (rain snow : ℕ → ℚ)
    (hr : ∀ i < n, 0 ≤ rain i) (hs : ∀ i < n, 0 ≤ snow i) (hp : ∃ k < n, 0 < rain k + snow k) (i : ℕ) (hi : i < n) :
    ∃ f, snowFraction n grid rain snow i = some f ∧ 0 ≤ f ∧ f ≤ 1 ∧
      (0 < rain i + snow i → f * (rain i + snow i) = snow i) ∧
      (∃ k < n, 0 < rain k + snow k ∧ f * (rain k + snow k) = snow k) := by
  have hrat : ∀ k < n, 0 < rain k + snow k → ∃ f, snowRatio (rain k) (snow k) = some f ∧ 0 ≤ f ∧ f ≤ 1 ∧ f * (rain k + snow k) = snow k := by
    intro k hk hpos
    refine ⟨snow k / (rain k + snow k), ?_, div_nonneg (hs k hk) hpos.le, ?_, ?_⟩
    · unfold snowRatio divFinite; rw [if_neg hpos.ne']
    · rw [div_le_one hpos]; linarith [hr k hk]
    · field_simp
  have hnone : ∀ k < n, snowRatio (rain k) (snow k) ≠ none → 0 < rain k + snow k := by
    intro k hk h
    have h0 : rain k + snow k ≠ 0 := by
      intro hz; apply h; unfold snowRatio divFinite; rw [if_pos hz]
    have := add_nonneg (hr k hk) (hs k hk)
    exact lt_of_le_of_ne this (Ne.symm h0)
  unfold snowFraction interpolateMissing
  simp only [if_true, Option.map_none]
  by_cases hpos : 0 < rain i + snow i
  · obtain ⟨f, e, f0, f1, hf⟩ := hrat i hi hpos
    rw [e]
    exact ⟨f, rfl, f0, f1, fun _ => hf, i, hi, hpos, hf⟩
  · have hz : snowRatio (rain i) (snow i) = none := by
      by_contra h
      exact hpos (hnone i hi h)
    rw [hz]
    simp only
    obtain ⟨k0, hk0, hp0⟩ := hp
    obtain ⟨f0, e0, _⟩ := hrat k0 hk0 hp0
    rw [if_pos]
    · obtain ⟨k, hk, hu, hgk⟩ := hg (fun k => snowRatio (rain k) (snow k)) ⟨k0, hk0, by rw [e0]; simp⟩ i hi
      obtain ⟨f, e, f0, f1, hf⟩ := hrat k hk (hnone k hk hu)
      rw [hgk, e]
      exact ⟨f, rfl, f0, f1, fun h => absurd h hpos, k, hk, hnone k hk hu, hf⟩
    · rw [List.any_eq_true]
      exact ⟨k0, List.mem_range.2 hk0, by rw [e0]; rfl⟩

/-- **C61** (no precipitation anywhere): all values stay NaN. -/
theorem C61_dry (n : ℕ) (grid : (ℕ → Option ℚ) → ℕ → Option ℚ) (rain snow : ℕ → ℚ) (h : ∀ k < n, rain k + snow k = 0) (i : ℕ) (hi : i < n) :
    snowFraction n grid rain snow i = none := by
  have hz : ∀ k < n, snowRatio (rain k) (snow k) = none := by
    intro k hk; unfold snowRatio divFinite; rw [if_pos (h k hk)]
  unfold snowFraction interpolateMissing
  simp only [if_true]
  rw [hz i hi]
  simp only
  rw [if_neg]
  rw [List.any_eq_true]
  rintro ⟨k, hk, hc⟩
  rw [hz k (List.mem_range.1 hk)] at hc
  cases hc

example : snowRatio 3 1 = some (1 / 4) := by decide +kernel
example : Spec.FillsFromUsable 2 (fun u i => if (u i).isSome then u i else u (1 - i)) := by
  intro u hu i hi
  obtain ⟨k, hk, h⟩ := hu
  cases e : u i with
  | some v =>
    refine ⟨i, hi, by rw [e]; simp, ?_⟩
    simp only [e, Option.isSome_some, if_true]
  | none =>
    refine ⟨1 - i, by omega, ?_, ?_⟩
    · have : k = 1 - i := by
        have : k ≠ i := by intro hk; rw [hk] at h; exact h e
        omega
      rw [← this]; exact h
    · simp only [e, Option.isSome_none, Bool.false_eq_true, if_false]

/-! ### C62: filling using differences from a reference field -/

/-- **C62** (unmasked points): values that are not masked are unchanged, whatever the interpolation does. -/
theorem C62_unmasked (n : ℕ) (lin near : (ℕ → Option ℚ) → ℕ → Option ℚ) (limit : Option (ℕ → ℚ)) (asMax : Bool) (cube : ℕ → Option ℚ)
    (ref : ℕ → ℚ) (i : ℕ) (v : ℚ) (h : cube i = some v) : interpolateDifference n lin near limit asMax cube ref i = some v := by
  unfold interpolateDifference
  simp only [h]

theorem nanRange_spec (n : ℕ) (d : ℕ → Option ℚ) (lo hi : ℚ) (h : nanRange n d = some (lo, hi)) :
    (∃ k < n, d k = some lo) ∧ (∃ k < n, d k = some hi) ∧ (∀ k < n, ∀ v, d k = some v → lo ≤ v ∧ v ≤ hi) := by
  unfold nanRange at h
  cases hl : (List.range n).filterMap d with
  | nil => rw [hl] at h; cases h
  | cons a l =>
    rw [hl] at h
    simp only [Option.some.injEq, Prod.mk.injEq] at h
    obtain ⟨rfl, rfl⟩ := h
    have h1 := foldMin_spec a l
    have h2 := foldMax_spec a l
    rw [← hl] at h1 h2
    have mem : ∀ x, x ∈ (List.range n).filterMap d ↔ ∃ k < n, d k = some x := by
      intro x; simp [List.mem_filterMap, List.mem_range]
    refine ⟨(mem _).1 h1.1, (mem _).1 h2.1, ?_⟩
    intro k hk v hv
    exact ⟨h1.2 v ((mem v).2 ⟨k, hk, hv⟩), h2.2 v ((mem v).2 ⟨k, hk, hv⟩)⟩

/-- **C62** (filled points): whatever the interpolation does, a filled value without limit is the reference value minus a difference that
lies between the smallest and the largest difference at unmasked points; and with a limit it does not exceed it (or, as a
minimum, is not below it). -/
theorem C62_filled (n : ℕ) (lin near : (ℕ → Option ℚ) → ℕ → Option ℚ) (limit : Option (ℕ → ℚ)) (asMax : Bool) (cube : ℕ → Option ℚ)
    (ref : ℕ → ℚ) (i : ℕ) (h : cube i = none) (r : ℚ) (hr : interpolateDifference n lin near limit asMax cube ref i = some r) :
    (limit = none → ∃ j < n, ∃ k < n, ∃ a b, cube j = some a ∧ cube k = some b ∧ ref j - a ≤ ref i - r ∧ ref i - r ≤ ref k - b) ∧
    (∀ l, limit = some l → asMax = true → r ≤ l i) ∧ (∀ l, limit = some l → asMax = false → l i ≤ r) := by
  unfold interpolateDifference at hr
  simp only [h] at hr
  cases hn : nanRange n (fun k => (cube k).map (fun v => ref k - v)) with
  | none => rw [hn] at hr; cases hr
  | some p =>
    obtain ⟨lo, hi⟩ := p
    rw [hn] at hr
    simp only [Option.map_eq_some_iff] at hr
    obtain ⟨d, _, rfl⟩ := hr
    obtain ⟨⟨j, hj, e1⟩, ⟨k, hk, e2⟩, hall⟩ := nanRange_spec n _ lo hi hn
    obtain ⟨a, ha, rfl⟩ := Option.map_eq_some_iff.1 e1
    obtain ⟨b, hb, rfl⟩ := Option.map_eq_some_iff.1 e2
    refine ⟨?_, ?_, ?_⟩
    · intro hl
      subst hl
      have hlohi := (hall k hk _ e2).1
      refine ⟨j, hj, k, hk, a, b, ha, hb, ?_, ?_⟩
      · simp only [Option.map_none, applyLimit, sub_sub_cancel]
        exact le_min (le_max_right _ _) hlohi
      · simp only [Option.map_none, applyLimit, sub_sub_cancel]
        exact min_le_right _ _
    · intro l hl hm
      subst hl; subst hm
      simp only [Option.map_some, applyLimit, if_true]
      exact min_le_right _ _
    · intro l hl hm
      subst hl; subst hm
      simp only [Option.map_some, applyLimit, Bool.false_eq_true, if_false]
      exact le_max_right _ _

/-- **C62** (completeness): if the nearest-value interpolation fills from usable points, every masked point is filled as soon as one
point is unmasked. -/
theorem C62_complete (n : ℕ) (lin near : (ℕ → Option ℚ) → ℕ → Option ℚ) (hnear : Spec.FillsFromUsable n near) (limit : Option (ℕ → ℚ))
    (asMax : Bool) (cube : ℕ → Option ℚ) (ref : ℕ → ℚ) (hv : ∃ k < n, cube k ≠ none) (i : ℕ) (hi : i < n) :
    ∃ r, interpolateDifference n lin near limit asMax cube ref i = some r := by
  cases hc : cube i with
  | some v => exact ⟨v, C62_unmasked n lin near limit asMax cube ref i v hc⟩
  | none =>
    unfold interpolateDifference
    simp only [hc]
    obtain ⟨k, hk, hk2⟩ := hv
    obtain ⟨v, hv⟩ := Option.ne_none_iff_exists'.1 hk2
    have hd1 : ∀ d1 : ℕ → Option ℚ, d1 k ≠ none →
        ∃ d, (if (List.range n).any (fun k => (d1 k).isNone) then interpolateMissing n near (fun k => (d1 k).isSome) none true d1 else d1) i = some d := by
      intro d1 h1
      by_cases ha : (List.range n).any (fun k => (d1 k).isNone) = true
      · rw [if_pos ha]
        unfold interpolateMissing
        cases hdi : d1 i with
        | some d => exact ⟨d, rfl⟩
        | none =>
          simp only
          have hu : (fun k => if (d1 k).isSome = true then d1 k else none) = d1 := by
            funext k
            cases d1 k <;> simp
          rw [hu]
          rw [if_pos]
          · obtain ⟨m, hm, hmn, hg⟩ := hnear d1 ⟨k, hk, h1⟩ i hi
            obtain ⟨d, hd⟩ := Option.ne_none_iff_exists'.1 hmn
            rw [hg, hd]
            exact ⟨_, rfl⟩
          · rw [List.any_eq_true]
            exact ⟨k, List.mem_range.2 hk, by simp only [Option.isSome_iff_ne_none.2 h1, if_true]⟩
      · rw [if_neg ha]
        cases hdi : d1 i with
        | some d => exact ⟨d, rfl⟩
        | none =>
          exfalso
          apply ha
          rw [List.any_eq_true]
          exact ⟨i, List.mem_range.2 hi, by rw [hdi]; rfl⟩
    cases hn : nanRange n (fun k => (cube k).map (fun v => ref k - v)) with
    | none =>
      exfalso
      unfold nanRange at hn
      have hm : ref k - v ∈ (List.range n).filterMap (fun k => (cube k).map (fun v => ref k - v)) := by
        rw [List.mem_filterMap]
        exact ⟨k, List.mem_range.2 hk, by rw [hv]; rfl⟩
      cases hl : (List.range n).filterMap (fun k => (cube k).map (fun v => ref k - v)) with
      | nil => rw [hl] at hm; cases hm
      | cons a l => rw [hl] at hn; cases hn
    | some p =>
      obtain ⟨lo, hi'⟩ := p
      simp only
      obtain ⟨d, hd⟩ := hd1 (interpolateMissing n lin (fun k => (cube k).isSome) none true (fun k => (cube k).map (fun v => ref k - v)))
        (by unfold interpolateMissing; simp [hv])
      rw [hd]
      exact ⟨_, rfl⟩

/-! ### C63: hail fraction -/

/-- **C63** (range): the hail fraction is between 0 and 1/4. -/
theorem C63_range (w size ccl cct melt orog : ℚ) : 0 ≤ hailFraction w size ccl cct melt orog ∧ hailFraction w size ccl cct melt orog ≤ 1 / 4 := by
  have hr := npInterp_range (xp := [5, 50]) (fp := [0, 1 / 4]) (by decide +kernel) (by simp) rfl (by decide +kernel) w
  have e0 : ([0, 1 / 4] : List ℚ).getD 0 0 = 0 := rfl
  have e1 : ([0, 1 / 4] : List ℚ).getD (([0, 1 / 4] : List ℚ).length - 1) 0 = 1 / 4 := rfl
  rw [e0, e1] at hr
  unfold hailFraction
  simp only
  generalize npInterp [5, 50] [0, 1 / 4] w = f at *
  by_cases h1 : ccl < 26815 / 100 ∨ cct > 25815 / 100 ∨ melt > orog
  · rw [if_pos h1]
    by_cases h2 : size > 2 / 1000 ∧ (0 : ℚ) < 5 / 100
    · rw [if_pos h2]; norm_num
    · rw [if_neg h2]; norm_num
  · rw [if_neg h1]
    by_cases h2 : size > 2 / 1000 ∧ f < 5 / 100
    · rw [if_pos h2]; norm_num
    · rw [if_neg h2]; exact hr

/-- **C63** (large hail): where the hail size exceeds 2 mm the fraction is at least 0.05. -/
theorem C63_large_hail (w size ccl cct melt orog : ℚ) (h : size > 2 / 1000) : 5 / 100 ≤ hailFraction w size ccl cct melt orog := by
  unfold hailFraction
  simp only
  generalize (if ccl < 26815 / 100 ∨ cct > 25815 / 100 ∨ melt > orog then (0 : ℚ) else npInterp [5, 50] [0, 1 / 4] w) = f
  by_cases h2 : size > 2 / 1000 ∧ f < 5 / 100
  · rw [if_pos h2]
  · rw [if_neg h2]
    by_contra hc
    exact h2 ⟨h, not_le.1 hc⟩

/-- **C63** (no hail): with small hail, a cold condensation level, a warm cloud top or a melting level above the ground give 0. -/
theorem C63_no_hail (w size ccl cct melt orog : ℚ) (hs : size ≤ 2 / 1000) (h : ccl < 26815 / 100 ∨ cct > 25815 / 100 ∨ melt > orog) :
    hailFraction w size ccl cct melt orog = 0 := by
  unfold hailFraction
  simp only
  rw [if_pos h, if_neg (fun hc => absurd hc.1 (not_lt.2 hs))]

/-- **C63** (updraught): with small hail and favourable conditions the fraction rises linearly from 0 at an updraught of 5 m/s to 1/4 at
50 m/s, and is constant outside. -/
theorem C63_updraught (w size ccl cct melt orog : ℚ) (hs : size ≤ 2 / 1000) (h : ¬ (ccl < 26815 / 100 ∨ cct > 25815 / 100 ∨ melt > orog)) :
    hailFraction w size ccl cct melt orog = if w ≤ 5 then 0 else if 50 ≤ w then 1 / 4 else (w - 5) / 180 := by
  have e : hailFraction w size ccl cct melt orog = npInterp [5, 50] [0, 1 / 4] w := by
    unfold hailFraction
    simp only
    rw [if_neg h, if_neg (fun hc => absurd hc.1 (not_lt.2 hs))]
  rw [e]
  unfold npInterp
  simp only [List.length_cons, List.length_nil, Nat.zero_add, Nat.reduceAdd, Nat.add_one_sub_one, List.getD_cons_zero, List.getD_cons_succ]
  by_cases h1 : w ≤ 5
  · rw [if_pos h1, if_neg (by linarith)]
    rcases lt_or_eq_of_le h1 with h2 | h2
    · rw [if_pos h2]
    · subst h2
      rw [if_neg (by norm_num)]
      have e2 : (([5, 50] : List ℚ).takeWhile (fun a => decide (a ≤ (5 : ℚ)))).length - 1 = 0 := by decide +kernel
      rw [e2]
      simp
  · rw [if_neg h1]
    push Not at h1
    by_cases h2 : 50 ≤ w
    · rw [if_pos h2]
      rcases lt_or_eq_of_le h2 with h3 | h3
      · rw [if_pos h3]
      · subst h3
        rw [if_neg (by norm_num), if_neg (by norm_num)]
        have e2 : (([5, 50] : List ℚ).takeWhile (fun a => decide (a ≤ (50 : ℚ)))).length - 1 = 1 := by decide +kernel
        rw [e2]
        simp
    · rw [if_neg h2]
      push Not at h2
      rw [if_neg (by linarith), if_neg (by linarith)]
      have e2 : (([5, 50] : List ℚ).takeWhile (fun a => decide (a ≤ w))).length - 1 = 0 := by
        simp [List.takeWhile, h1.le, not_le.2 h2]
      rw [e2, if_neg (by norm_num)]
      simp only [List.getD_cons_zero, List.getD_cons_succ, Nat.zero_add]
      rw [if_neg (ne_of_lt h1)]
      ring

/-! ### C64: shower conditions -/

/-- **C64**: the shower probability is the fraction of realizations with little cloud (at most the cloud threshold) or an unmasked
convective ratio above its threshold. -/
theorem C64_fraction (ct vt : ℚ) (members : List (ℚ × Option ℚ)) (hne : members ≠ []) :
    ∃ p, showerProbability ct vt members = .ok p ∧
      p * members.length = ((members.filter (fun m => decide (m.1 ≤ ct ∨ ∃ v ∈ m.2, vt < v))).length : ℕ) := by
  have hm : ∀ m : ℚ × Option ℚ, showerMember ct vt m.1 m.2 = .ok (if m.1 ≤ ct ∨ ∃ v ∈ m.2, vt < v then 1 else 0) := by
    intro m
    obtain ⟨c, v⟩ := m
    unfold showerMember truthValue
    simp only [if_true, bind, Except.bind, pure, Except.pure, CmpOp.eval, decide_eq_true_eq]
    cases v with
    | none =>
      by_cases h1 : c ≤ ct <;> simp [h1]
    | some x =>
      by_cases h1 : c ≤ ct <;> by_cases h2 : vt < x <;> simp [h1, h2]
  have hmap : members.mapM (fun m => showerMember ct vt m.1 m.2) = .ok (members.map (fun m => if m.1 ≤ ct ∨ ∃ v ∈ m.2, vt < v then (1 : ℚ) else 0)) := by
    clear hne
    induction members with
    | nil => rfl
    | cons m l ih =>
      rw [List.mapM_cons, hm, ih]
      rfl
  unfold showerProbability
  rw [hmap]
  simp only [bind, Except.bind, pure, Except.pure]
  refine ⟨_, rfl, ?_⟩
  have hpos : ((members.length : ℕ) : ℚ) ≠ 0 := by exact_mod_cast (List.length_pos_iff.2 hne).ne'
  rw [List.length_map, div_mul_cancel₀ _ hpos]
  clear hne hpos hmap
  induction members with
  | nil => rfl
  | cons m l ih =>
    rw [List.map_cons, List.sum_cons, ih, List.filter_cons]
    by_cases h : m.1 ≤ ct ∨ ∃ v ∈ m.2, vt < v
    · rw [if_pos h, if_pos (decide_eq_true h), List.length_cons]; push_cast; ring
    · rw [if_neg h, if_neg (by simpa using h)]; ring

example : showerProbability (13 / 16) (4 / 5) [(1 / 2, none), (1, some 1), (1, some (4 / 5)), (1, none)] = .ok (1 / 2) := by decide +kernel

/-! ### C65: visibility combined with cloud base -/

/-- **C65** (scaling factors): the factor is the initial value at threshold 0, 1 from the first unscaled threshold on, between the initial
value and 1 in between, and never decreases with the threshold. -/
theorem C65_scaling (initial first : ℚ) (hf : 0 < first) (h1 : initial ≤ 1) :
    visScaling initial first 0 = initial ∧ (∀ t, first ≤ t → visScaling initial first t = 1) ∧
    (∀ t, 0 ≤ t → initial ≤ visScaling initial first t ∧ visScaling initial first t ≤ 1) ∧
    (∀ t t', 0 ≤ t → t ≤ t' → visScaling initial first t ≤ visScaling initial first t') := by
  have form : ∀ t, t ≤ first → visScaling initial first t = 1 - (1 - initial) * ((first - t) / first) ^ 4 := by
    intro t ht
    unfold visScaling
    rw [if_neg (not_lt.2 ht), div_pow]
    have := hf.ne'
    field_simp
    ring
  have hone : ∀ t, first ≤ t → visScaling initial first t = 1 := by
    intro t ht
    rcases lt_or_eq_of_le ht with h | h
    · unfold visScaling; rw [if_pos h]
    · rw [form t h.symm.le, ← h]; simp
  have hmono : ∀ t t', 0 ≤ t → t ≤ t' → visScaling initial first t ≤ visScaling initial first t' := by
    intro t t' h0 h
    rcases le_or_gt first t' with h2 | h2
    · rw [hone t' h2]
      rcases le_or_gt first t with h3 | h3
      · rw [hone t h3]
      · rw [form t h3.le]
        have : 0 ≤ ((first - t) / first) ^ 4 := by positivity
        nlinarith [mul_nonneg (sub_nonneg.2 h1) this]
    · rw [form t (by linarith), form t' h2.le]
      have ha : 0 ≤ (first - t') / first := div_nonneg (by linarith) hf.le
      have hb : (first - t') / first ≤ (first - t) / first := div_le_div_of_nonneg_right (by linarith) hf.le
      have := pow_le_pow_left₀ ha hb 4
      nlinarith [mul_le_mul_of_nonneg_left this (sub_nonneg.2 h1)]
  have h00 : visScaling initial first 0 = initial := by
    rw [form 0 hf.le, sub_zero, div_self hf.ne']; ring
  refine ⟨h00, hone, ?_, hmono⟩
  intro t ht
  constructor
  · have := hmono 0 t (le_refl _) ht
    rwa [h00] at this
  · rcases le_total t first with h | h
    · have := hmono t first ht h
      rwa [hone first (le_refl _)] at this
    · rw [hone t h]

/-- **C65** (combination): probabilities of visibility *below* the thresholds are never lowered, stay between 0 and 1, equal the larger
of visibility and cloud probability from the first unscaled threshold on, and stay in order across thresholds. -/
theorem C65_below (initial first cloud : ℚ) (hf : 0 < first) (h1 : initial ≤ 1) (hi : 0 ≤ initial) (hc0 : 0 ≤ cloud) (hc1 : cloud ≤ 1)
    (vis : List (ℚ × ℚ)) (hv : ∀ p ∈ vis, 0 ≤ p.1 ∧ 0 ≤ p.2 ∧ p.2 ≤ 1) :
    List.Forall₂ (fun p q => q.1 = p.1 ∧ p.2 ≤ q.2 ∧ 0 ≤ q.2 ∧ q.2 ≤ 1 ∧ (first ≤ p.1 → q.2 = max p.2 cloud)) vis (visCombine initial first false cloud vis) ∧
    (vis.Pairwise (fun p q => p.1 ≤ q.1 ∧ p.2 ≤ q.2) →
      (visCombine initial first false cloud vis).Pairwise (fun p q => p.1 ≤ q.1 ∧ p.2 ≤ q.2)) := by
  obtain ⟨s0, s1, s2, s3⟩ := C65_scaling initial first hf h1
  unfold visCombine
  simp only [Bool.false_eq_true, if_false]
  constructor
  · rw [List.forall₂_map_right_iff, List.forall₂_same]
    intro p hp
    obtain ⟨a, b, c⟩ := hv p hp
    have hs := s2 p.1 a
    refine ⟨rfl, le_max_left _ _, le_trans b (le_max_left _ _), max_le c ?_, ?_⟩
    · nlinarith [hs.2, hs.1]
    · intro h; rw [s1 p.1 h, mul_one]
  · intro hp
    rw [List.pairwise_map]
    have : vis.Pairwise (fun p q => (p.1 ≤ q.1 ∧ p.2 ≤ q.2) ∧ 0 ≤ p.1) := by
      clear s0 s1 s2 s3
      induction vis with
      | nil => exact List.Pairwise.nil
      | cons x l ih =>
        rw [List.pairwise_cons] at hp ⊢
        exact ⟨fun y hy => ⟨hp.1 y hy, (hv x (by simp)).1⟩, ih (fun p hp => hv p (by simp [hp])) hp.2⟩
    refine this.imp ?_
    rintro p q ⟨⟨h1, h2⟩, h0⟩
    refine ⟨h1, max_le_max h2 ?_⟩
    exact mul_le_mul_of_nonneg_left (s3 p.1 q.1 h0 h1) hc0

/-- **C65** (above): probabilities of visibility *above* the thresholds are treated as the complements of those below. -/
theorem C65_above (initial first cloud : ℚ) (vis : List (ℚ × ℚ)) :
    visCombine initial first true cloud vis =
      (visCombine initial first false cloud (vis.map (fun p => (p.1, 1 - p.2)))).map (fun p => (p.1, 1 - p.2)) := by
  unfold visCombine
  simp only [List.map_map, Bool.false_eq_true, if_false, if_true]
  apply List.map_congr_left
  intro p _
  rfl

example : visCombine (3 / 5) 5000 false 1 [(0, 0), (5000, 1 / 2)] = [(0, 3 / 5), (5000, 1)] := by decide +kernel

/-! ### C66: extraction from a table -/

/-- Specification: `i` is the last label that does not exceed the value by the tolerance or more, the first one if there is none. -/
def Spec.LowerLabel (labels : List ℚ) (v : ℚ) (i : ℕ) : Prop :=
  i < labels.length ∧ (∀ j < labels.length, i < j → v + tableTol ≤ labels.getD j 0) ∧ (0 < i → labels.getD i 0 < v + tableTol)

theorem tableTol_pos : 0 < tableTol := by unfold tableTol; norm_num

theorem getD_le_of_sorted {l : List ℚ} (hs : l.Pairwise (· ≤ ·)) {i j : ℕ} (hij : i ≤ j) (hj : j < l.length) : l.getD i 0 ≤ l.getD j 0 :=
  getD_mono hs hij hj

theorem takeWhile_spec (l : List ℚ) (v : ℚ) (hs : l.Pairwise (· ≤ ·)) :
    (∀ j < l.length, j < (l.takeWhile (fun a => decide (a ≤ v))).length ↔ l.getD j 0 ≤ v) := by
  induction l with
  | nil => simp
  | cons a l ih =>
    intro j hj
    rw [List.pairwise_cons] at hs
    by_cases h : a ≤ v
    · rw [List.takeWhile_cons_of_pos (by simpa using h)]
      cases j with
      | zero => simp [h]
      | succ j =>
        have := ih hs.2 j (by simpa using hj)
        rw [List.getD_cons_succ, ← this, List.length_cons]
        omega
    · rw [List.takeWhile_cons_of_neg (by simpa using h)]
      constructor
      · intro h; simp at h
      · intro h2
        exfalso
        apply h
        cases j with
        | zero => simpa using h2
        | succ j =>
          rw [List.getD_cons_succ] at h2
          have hj' : j < l.length := by simpa using hj
          have : l.getD j 0 ∈ l := by
            rw [List.getD_eq_getElem _ _ hj']; exact List.getElem_mem hj'
          exact le_trans (hs.1 _ this) h2

/-- **C66** (index): for ascending labels the index found is that of the last label below the value (to within the tolerance), or the
first label if the value is below all of them. -/
theorem C66_index (labels : List ℚ) (hne : labels ≠ []) (hs : labels.Pairwise (· ≤ ·)) (v : ℚ) :
    Spec.LowerLabel labels v (nearestLowerIndex labels v) := by
  have hlen := List.length_pos_iff.2 hne
  have htw := takeWhile_spec labels v hs
  have htol := tableTol_pos
  have hle : (labels.takeWhile (fun a => decide (a ≤ v))).length ≤ labels.length := (List.takeWhile_sublist _).length_le
  unfold nearestLowerIndex
  simp only
  generalize (labels.takeWhile (fun a => decide (a ≤ v))).length = c at *
  cases hc : (closeLabels labels v).getLast? with
  | some k =>
    simp only
    have hk : (max (k : ℤ) 0).toNat = k := by omega
    rw [hk]
    have hmem : k ∈ closeLabels labels v := List.mem_of_getLast? hc
    unfold closeLabels at hmem
    rw [List.mem_filter, List.mem_range] at hmem
    have hka := abs_lt.1 (of_decide_eq_true hmem.2)
    refine ⟨hmem.1, ?_, fun _ => by linarith [hka.2]⟩
    intro j hj hkj
    by_contra hcon
    push Not at hcon
    -- then j would be a later close label
    have hjc : j ∈ closeLabels labels v := by
      unfold closeLabels
      rw [List.mem_filter, List.mem_range]
      refine ⟨hj, decide_eq_true (abs_lt.2 ⟨?_, by linarith⟩)⟩
      have := getD_le_of_sorted hs hkj.le hj
      linarith [hka.1]
    have hsrt : (closeLabels labels v).Pairwise (· < ·) := by
      unfold closeLabels
      exact List.pairwise_lt_range.sublist List.filter_sublist
    have hnn : closeLabels labels v ≠ [] := List.ne_nil_of_mem hjc
    rw [List.getLast?_eq_some_getLast hnn, Option.some.injEq] at hc
    rw [← List.dropLast_append_getLast hnn, List.pairwise_append] at hsrt
    rw [← List.dropLast_append_getLast hnn, List.mem_append] at hjc
    rcases hjc with h | h
    · have := hsrt.2.2 j h _ (List.mem_singleton.2 rfl)
      omega
    · rw [List.mem_singleton] at h; omega
  | none =>
    have hempty : closeLabels labels v = [] := List.getLast?_eq_none_iff.1 hc
    have hfar : ∀ j < labels.length, ¬ |labels.getD j 0 - v| < tableTol := by
      intro j hj h
      have : j ∈ closeLabels labels v := by
        unfold closeLabels
        rw [List.mem_filter, List.mem_range]
        exact ⟨hj, decide_eq_true h⟩
      rw [hempty] at this; cases this
    simp only
    refine ⟨by omega, ?_, ?_⟩
    · intro j hj hij
      have hgt : v < labels.getD j 0 := by
        by_contra h
        have := (htw j hj).2 (not_lt.1 h)
        omega
      have := hfar j hj
      rw [abs_of_pos (by linarith)] at this
      linarith
    · intro hi
      have hi2 : (max ((c : ℤ) - 1) 0).toNat < labels.length := by omega
      have := (htw _ hi2).1 (by omega)
      linarith

/-- The index of the specification is unique for strictly ascending labels that differ by the tolerance or not. -/
theorem lowerLabel_unique (labels : List ℚ) (v : ℚ) (i j : ℕ) (hi : Spec.LowerLabel labels v i) (hj : Spec.LowerLabel labels v j) : i = j := by
  rcases lt_trichotomy i j with h | h | h
  · have h1 := hi.2.1 j hj.1 h
    have h2 := hj.2.2 (by omega)
    linarith
  · exact h
  · have h1 := hj.2.1 i hi.1 h
    have h2 := hi.2.2 (by omega)
    linarith

/-- **C66** (value): the value extracted is the table's entry for the column and row labels next below the two inputs, whatever the order
in which the table lists its columns and rows; NaN inputs give NaN. -/
theorem C66_value {V : Type} (cols rows : List ℚ) (hc : cols ≠ []) (hr : rows ≠ []) (entry : ℚ → ℚ → V) (c r : ℚ) :
    (∃ i j, Spec.LowerLabel (cols.insertionSort (· ≤ ·)) c i ∧ Spec.LowerLabel (rows.insertionSort (· ≤ ·)) r j ∧
      tableValue cols rows entry (some c) (some r)
        = some (entry ((cols.insertionSort (· ≤ ·)).getD i 0) ((rows.insertionSort (· ≤ ·)).getD j 0))) ∧
    (∀ cols' rows', cols'.Perm cols → rows'.Perm rows → tableValue cols' rows' entry (some c) (some r) = tableValue cols rows entry (some c) (some r)) ∧
    (∀ x, tableValue cols rows entry none x = none) ∧ (∀ x, tableValue cols rows entry x none = none) := by
  have hne : ∀ l : List ℚ, l ≠ [] → l.insertionSort (· ≤ ·) ≠ [] := by
    intro l hl h
    apply hl
    have := (List.perm_insertionSort (· ≤ ·) l).symm
    rw [h] at this
    exact this.eq_nil
  refine ⟨⟨_, _, C66_index _ (hne cols hc) (List.pairwise_insertionSort _ _) c, C66_index _ (hne rows hr) (List.pairwise_insertionSort _ _) r, rfl⟩,
    ?_, fun x => by cases x <;> rfl, fun x => by cases x <;> rfl⟩
  intro cols' rows' h1 h2
  have hs : ∀ l l' : List ℚ, l'.Perm l → l'.insertionSort (· ≤ ·) = l.insertionSort (· ≤ ·) := by
    intro l l' h
    exact List.Perm.eq_of_pairwise (le := (· ≤ ·)) (fun a b _ _ h1 h2 => le_antisymm h1 h2) (List.pairwise_insertionSort _ _)
      (List.pairwise_insertionSort _ _) ((List.perm_insertionSort _ _).trans (h.trans (List.perm_insertionSort _ _).symm))
  unfold tableValue
  simp only [hs cols cols' h1, hs rows rows' h2]

example : nearestLowerIndex [0, 10, 20] 15 = 1 := by decide +kernel
example : nearestLowerIndex [0, 10, 20] (19999999 / 1000000) = 2 := by decide +kernel
example : nearestLowerIndex [0, 10, 20] (-5) = 0 := by decide +kernel

end Improver
