import Verif.Props.Psychro

/-! Properties of the wet bulb temperature (C147, C148). -/

namespace Improver

namespace Spec
/-- One point's fixed-precision iteration: keep adding the increment until it is at most `precision` in size, or the
given number of increments has been added. -/
noncomputable def refine (incr : ℝ → ℝ) (precision : ℝ) : ℕ → ℝ → ℝ
  | 0, w => w
  | k + 1, w => if |incr w| ≤ precision then w else refine incr precision k (w + incr w)

/-- Latent heat plus sensible heat of air saturated at `w`, with fixed latent heat `l` and specific heat `c`. -/
noncomputable def heat (l c p w : ℝ) : ℝ := l * saturatedHumidity w p + c * w

/-- The slope the scheme uses for that heat (Clausius-Clapeyron). -/
noncomputable def slope (l c p w : ℝ) : ℝ := saturatedHumidity w p * l ^ 2 / (461.6 * w ^ 2) + c

/-- The specific heat of air with a moisture content of `r`. -/
noncomputable def moistHeat (r : ℝ) : ℝ := 1005 * (1 - r) + 1850 * r

/-- The increment at `w` for air at temperature `t`, pressure `p`, relative humidity `rh`. -/
noncomputable def increment (t p rh w : ℝ) : ℝ :=
  let r := rh * saturatedHumidity t p
  let c := moistHeat r
  let l := latentHeat t
  (l * r + c * t - heat l c p w) / slope l c p w
end Spec

theorem maskSelect_map {α β : Type} (l : List α) (m : α → Bool) (f : α → β) :
    maskSelect (l.map m) (l.map f) = (l.filter m).map f := by
  unfold maskSelect
  induction l with
  | nil => rfl
  | cons a l ih =>
    simp only [List.map_cons, List.zip_cons_cons, List.filter_cons]
    by_cases h : m a = true
    · rw [if_pos h, if_pos h, List.map_cons, List.map_cons, ih]
    · rw [if_neg h, if_neg h, ih]

theorem maskSelect_self {α : Type} (l : List α) (m : α → Bool) : maskSelect (l.map m) l = l.filter m := by
  have := maskSelect_map l m id
  simpa using this

theorem wetDeltas_map (idx : List ℕ) (w p c l h : ℕ → ℝ) :
    wetDeltas (idx.map w) (idx.map p) (idx.map c) (idx.map l) (idx.map h)
      = idx.map fun i => wetDelta (w i) (p i) (c i) (l i) (h i) := by
  induction idx with
  | nil => rfl
  | cons a idx ih => simp only [List.map_cons, wetDeltas, ih]

theorem addAt_map (idx : List ℕ) (hn : idx.Nodup) (w d : ℕ → ℝ) (i : ℕ) :
    addAt w idx (idx.map d) i = if i ∈ idx then w i + d i else w i := by
  unfold addAt
  induction idx generalizing w with
  | nil => simp
  | cons a idx ih =>
    rw [List.map_cons, List.zip_cons_cons, List.foldl_cons, ih (List.nodup_cons.mp hn).2]
    have ha := (List.nodup_cons.mp hn).1
    by_cases hi : i ∈ idx
    · have : i ≠ a := fun h => ha (h ▸ hi)
      simp [hi, Function.update_of_ne this]
    · by_cases hia : i = a
      · subst hia; simp [ha]
      · simp [hi, hia]

theorem wetLoop_pointwise (precision : ℝ) (p c l h : ℕ → ℝ) (fuel : ℕ) :
    ∀ (w : ℕ → ℝ) (idx : List ℕ), idx.Nodup → ∀ i,
    wetLoop precision fuel w idx (idx.map p) (idx.map c) (idx.map l) (idx.map h) i
      = if i ∈ idx then Spec.refine (fun x => wetDelta x (p i) (c i) (l i) (h i)) precision fuel (w i) else w i := by
  classical
  induction fuel with
  | zero => intro w idx _ i; simp [wetLoop, Spec.refine]
  | succ k ih =>
    intro w idx hn i
    rw [wetLoop]
    by_cases he : idx = []
    · rw [if_pos he, he]; simp
    · rw [if_neg he]
      simp only [wetDeltas_map, List.map_map, Function.comp_def, maskSelect_map, maskSelect_self]
      generalize hm : (fun i => decide (|wetDelta (w i) (p i) (c i) (l i) (h i)| > precision)) = m
      have hn' := hn.filter m
      rw [ih _ _ hn', addAt_map _ hn' w (fun i => wetDelta (w i) (p i) (c i) (l i) (h i)) i]
      by_cases hi : i ∈ idx
      · rw [if_pos hi]
        by_cases hmi : m i = true
        · have hgt : ¬ |wetDelta (w i) (p i) (c i) (l i) (h i)| ≤ precision := by
            rw [← hm] at hmi
            exact not_le.mpr (of_decide_eq_true hmi)
          have hf : i ∈ idx.filter m := List.mem_filter.mpr ⟨hi, hmi⟩
          rw [if_pos hf, if_pos hf, Spec.refine, if_neg hgt]
        · have hle : |wetDelta (w i) (p i) (c i) (l i) (h i)| ≤ precision := by
            rw [← hm] at hmi
            by_contra hc
            exact hmi (decide_eq_true (not_le.mp hc))
          have hf : i ∉ idx.filter m := fun hh => hmi (List.mem_filter.mp hh).2
          rw [if_neg hf, if_neg hf, Spec.refine, if_pos hle]
      · have hf : i ∉ idx.filter m := fun hh => hi (List.mem_filter.mp hh).1
        rw [if_neg hf, if_neg hf, if_neg hi]

theorem wetDelta_eq (t p rh w : ℝ) :
    wetDelta w p (specificHeat (rh * saturatedHumidity t p)) (latentHeat t)
      (enthalpyOf (rh * saturatedHumidity t p) (specificHeat (rh * saturatedHumidity t p)) (latentHeat t) t)
      = Spec.increment t p rh w := by
  have hc : ∀ r, specificHeat r = Spec.moistHeat r := by intro r; unfold specificHeat Spec.moistHeat; ring
  unfold wetDelta Spec.increment Spec.heat Spec.slope enthalpyOf enthalpyGradient
  simp only [hc]
  ring_nf

/-- The array calculation gives every point what its own temperature, pressure and relative humidity give on their
own, by at most twenty increments; other points, and how many there are, play no part. -/
theorem C147_pointwise (precision : ℝ) (n : ℕ) (p rh t : ℕ → ℝ) (i : ℕ) (hi : i < n) :
    wetBulb precision n p rh t i = Spec.refine (Spec.increment (t i) (p i) (rh i)) precision 20 (t i) := by
  unfold wetBulb
  simp only []
  rw [wetLoop_pointwise precision p _ _ _ 20 t (List.range n) List.nodup_range i,
    if_pos (List.mem_range.mpr hi)]
  congr 1
  funext w
  exact wetDelta_eq (t i) (p i) (rh i) w

namespace Spec
/-- The sequence of trial values starting at `w`. -/
noncomputable def trial (incr : ℝ → ℝ) (w : ℝ) : ℕ → ℝ
  | 0 => w
  | k + 1 => trial incr w k + incr (trial incr w k)
end Spec

theorem trial_shift (incr : ℝ → ℝ) (w : ℝ) (k : ℕ) :
    Spec.trial incr w (k + 1) = Spec.trial incr (w + incr w) k := by
  induction k with
  | zero => rfl
  | succ k ih => rw [Spec.trial, ih, Spec.trial]

theorem refine_stops (incr : ℝ → ℝ) (precision : ℝ) (fuel : ℕ) (w : ℝ) :
    ∃ k ≤ fuel, Spec.refine incr precision fuel w = Spec.trial incr w k ∧
      (∀ j < k, precision < |incr (Spec.trial incr w j)|) ∧
      (|incr (Spec.trial incr w k)| ≤ precision ∨ k = fuel) := by
  induction fuel generalizing w with
  | zero => exact ⟨0, le_rfl, rfl, fun j hj => absurd hj (Nat.not_lt_zero j), Or.inr rfl⟩
  | succ n ih =>
    rw [Spec.refine]
    by_cases h : |incr w| ≤ precision
    · rw [if_pos h]
      exact ⟨0, Nat.zero_le _, rfl, fun j hj => absurd hj (Nat.not_lt_zero j), Or.inl h⟩
    · rw [if_neg h]
      obtain ⟨k, hk, e, hj, hs⟩ := ih (w + incr w)
      refine ⟨k + 1, Nat.succ_le_succ hk, ?_, ?_, ?_⟩
      · rw [trial_shift]; exact e
      · intro j hjk
        cases j with
        | zero => exact not_le.mp h
        | succ j => rw [trial_shift]; exact hj j (Nat.lt_of_succ_lt_succ hjk)
      · rw [trial_shift]
        rcases hs with hs | hs
        · exact Or.inl hs
        · exact Or.inr (by omega)

/-- Each point stops at the first trial value whose increment is within the precision, or at the twentieth. -/
theorem C147_stops (precision : ℝ) (n : ℕ) (p rh t : ℕ → ℝ) (i : ℕ) (hi : i < n) :
    ∃ k ≤ 20, wetBulb precision n p rh t i = Spec.trial (Spec.increment (t i) (p i) (rh i)) (t i) k ∧
      (∀ j < k, precision < |Spec.increment (t i) (p i) (rh i) (Spec.trial (Spec.increment (t i) (p i) (rh i)) (t i) j)|) ∧
      (|Spec.increment (t i) (p i) (rh i) (wetBulb precision n p rh t i)| ≤ precision ∨ k = 20) := by
  rw [C147_pointwise precision n p rh t i hi]
  obtain ⟨k, hk, e, hj, hs⟩ := refine_stops (Spec.increment (t i) (p i) (rh i)) precision 20 (t i)
  refine ⟨k, hk, e, hj, ?_⟩
  rw [e]
  exact hs

/-- A converged value balances the heat of the air with that of air saturated at the wet bulb temperature, to within
the precision times the slope. -/
theorem C147_balance {t p rh w precision : ℝ} (hp : 0 ≤ p) (hr0 : 0 ≤ rh) (hr : rh * saturatedHumidity t p ≤ 1)
    (hw : |Spec.increment t p rh w| ≤ precision) :
    let r := rh * saturatedHumidity t p
    |latentHeat t * r + Spec.moistHeat r * t - Spec.heat (latentHeat t) (Spec.moistHeat r) p w|
      ≤ precision * Spec.slope (latentHeat t) (Spec.moistHeat r) p w := by
  intro r
  have hs := (C144_range (t := t) hp).1
  have hsw := (C144_range (t := w) hp).1
  have hc : 0 < Spec.moistHeat r := by
    unfold Spec.moistHeat
    have : 0 ≤ r := mul_nonneg hr0 hs.le
    have : r ≤ 1 := hr
    linarith
  have hslope : 0 < Spec.slope (latentHeat t) (Spec.moistHeat r) p w := by
    unfold Spec.slope
    have : 0 ≤ saturatedHumidity w p * latentHeat t ^ 2 / (461.6 * w ^ 2) := by positivity
    linarith
  unfold Spec.increment at hw
  simp only [] at hw
  rw [abs_div, abs_of_pos hslope, div_le_iff₀ hslope] at hw
  exact hw

/-- The hypotheses hold for any relative humidity up to 1. -/
example {t p rh : ℝ} (hp : 0 ≤ p) (h0 : 0 ≤ rh) (h1 : rh ≤ 1) : rh * saturatedHumidity t p ≤ 1 := by
  have h := C144_range (t := t) hp
  nlinarith

/-- In saturated air the wet bulb temperature is the air temperature, exactly. -/
theorem C147_saturated {precision : ℝ} (hprec : 0 ≤ precision) (n : ℕ) (p rh t : ℕ → ℝ) (i : ℕ) (hi : i < n)
    (hrh : rh i = 1) : wetBulb precision n p rh t i = t i := by
  rw [C147_pointwise precision n p rh t i hi, Spec.refine, if_pos]
  unfold Spec.increment Spec.heat
  simp only [hrh, one_mul, sub_self, zero_div, abs_zero]
  exact hprec

/-- The first move is downwards in unsaturated air: the first trial value lies strictly below the air temperature. -/
theorem C147_first_move {t p rh : ℝ} (ht : t < 1341) (hp : 0 ≤ p) (h0 : 0 ≤ rh) (h1 : rh < 1) :
    Spec.trial (Spec.increment t p rh) t 1 < t := by
  have hs := C144_range (t := t) hp
  have hl := latent_pos ht
  have hr : rh * saturatedHumidity t p ≤ 1 := by nlinarith [hs.1, hs.2.1]
  have hr0 : 0 ≤ rh * saturatedHumidity t p := mul_nonneg h0 hs.1.le
  have hc : 0 < Spec.moistHeat (rh * saturatedHumidity t p) := by unfold Spec.moistHeat; linarith
  have hslope : 0 < Spec.slope (latentHeat t) (Spec.moistHeat (rh * saturatedHumidity t p)) p t := by
    unfold Spec.slope
    have h := hs.1
    have : 0 ≤ saturatedHumidity t p * latentHeat t ^ 2 / (461.6 * t ^ 2) := by positivity
    linarith
  have hneg : Spec.increment t p rh t < 0 := by
    unfold Spec.increment
    simp only []
    apply div_neg_of_neg_of_pos _ hslope
    unfold Spec.heat
    have : latentHeat t * (rh * saturatedHumidity t p) < latentHeat t * saturatedHumidity t p := by
      apply mul_lt_mul_of_pos_left _ hl
      nlinarith [hs.1]
    linarith
  show t + Spec.increment t p rh t < t
  linarith

example : (280 : ℝ) < 1341 ∧ (0 : ℝ) ≤ 1e5 ∧ (0 : ℝ) ≤ 0.5 ∧ (0.5 : ℝ) < 1 := by norm_num

/-- A converged wet bulb temperature of unsaturated air above the lowest table temperature lies below the air temperature by more
than rounding: it cannot exceed the air temperature by more than the precision times the ratio of the slope to the
specific heat. -/
theorem C147_not_above {t p rh w precision : ℝ} (ht0 : 183.15 ≤ t) (ht : t < 1341) (hp : 0 ≤ p) (hp2 : p ≤ 1e7)
    (h0 : 0 ≤ rh) (h1 : rh ≤ 1) (hw : |Spec.increment t p rh w| ≤ precision) (hgt : t ≤ w) :
    let r := rh * saturatedHumidity t p
    (w - t) * Spec.moistHeat r ≤ precision * Spec.slope (latentHeat t) (Spec.moistHeat r) p w := by
  intro r
  have hs := C144_range (t := t) hp
  have hl := latent_pos ht
  have hr : r ≤ 1 := by show rh * _ ≤ 1; nlinarith [hs.1, hs.2.1]
  have hb := C147_balance (w := w) hp h0 hr hw
  simp only [] at hb
  have hmono := C144_monotone_in_temperature ht0 hgt hp hp2
  have hr2 : r ≤ saturatedHumidity w p := by
    have : r ≤ saturatedHumidity t p := by show rh * _ ≤ _; nlinarith [hs.1]
    linarith
  have h3 : latentHeat t * r ≤ latentHeat t * saturatedHumidity w p := mul_le_mul_of_nonneg_left hr2 hl.le
  have h4 := (abs_le.mp hb).1
  unfold Spec.heat at h4
  have e : (w - t) * Spec.moistHeat r = Spec.moistHeat r * w - Spec.moistHeat r * t := by ring
  rw [e]
  change _ ≤ latentHeat t * r + Spec.moistHeat r * t - _ at h4
  linarith

/-! ## Slices -/

namespace Spec
/-- The cube has a vertical coordinate called `v` along a dimension. -/
def hasLevels {α : Type} (c : LevelCube α) (v : String) : Prop := c.z = some (v, true)
/-- The cube has a vertical coordinate without a dimension. -/
def singleLevel {α : Type} (c : LevelCube α) : Prop := ∃ v, c.z = some (v, false)
/-- The cube has no vertical coordinate. -/
def noLevel {α : Type} (c : LevelCube α) : Prop := c.z = none
end Spec

/-- The cubes are taken whole when any has no vertical coordinate or all have a single level. -/
theorem C148_whole {α β γ : Type} (t : LevelCube α) (r : LevelCube β) (p : LevelCube γ) :
    sliceInputs t r p = .ok .whole ↔
      (Spec.noLevel t ∨ Spec.noLevel r ∨ Spec.noLevel p) ∨
      (Spec.singleLevel t ∧ Spec.singleLevel r ∧ Spec.singleLevel p) := by
  obtain ⟨zt, lt⟩ := t
  obtain ⟨zr, lr⟩ := r
  obtain ⟨zp, lp⟩ := p
  unfold Spec.noLevel Spec.singleLevel sliceInputs verticalCoords
  rcases zt with _ | ⟨a, _ | _⟩ <;> rcases zr with _ | ⟨b, _ | _⟩ <;> rcases zp with _ | ⟨c, _ | _⟩ <;>
    simp
  all_goals try (split_ifs <;> simp)

/-- Slices are taken exactly when all three cubes have levels along a dimension of the same name; the k-th slice then
holds the k-th level of each, matched by position. -/
theorem C148_slices {α β γ : Type} (t : LevelCube α) (r : LevelCube β) (p : LevelCube γ) (l : List (α × β × γ)) :
    sliceInputs t r p = .ok (.slices l) ↔
      (∃ v, Spec.hasLevels t v ∧ Spec.hasLevels r v ∧ Spec.hasLevels p v) ∧
      l = t.levels.zip (r.levels.zip p.levels) := by
  obtain ⟨zt, lt⟩ := t
  obtain ⟨zr, lr⟩ := r
  obtain ⟨zp, lp⟩ := p
  unfold Spec.hasLevels sliceInputs verticalCoords
  rcases zt with _ | ⟨a, _ | _⟩ <;> rcases zr with _ | ⟨b, _ | _⟩ <;> rcases zp with _ | ⟨c, _ | _⟩ <;>
    simp
  split_ifs with h
  · simp
    intro h1 h2
    rcases h with h | h
    · exact absurd h1 (by simpa using h)
    · exact absurd h2 (by simpa using h)
  · push Not at h
    simp [h.1, h.2, eq_comm]

/-- In every other case there is an error. -/
theorem C148_error {α β γ : Type} (t : LevelCube α) (r : LevelCube β) (p : LevelCube γ) :
    (∃ e, sliceInputs t r p = .error e) ↔
      (¬ Spec.noLevel t ∧ ¬ Spec.noLevel r ∧ ¬ Spec.noLevel p) ∧
      ¬ (Spec.singleLevel t ∧ Spec.singleLevel r ∧ Spec.singleLevel p) ∧
      ¬ ∃ v, Spec.hasLevels t v ∧ Spec.hasLevels r v ∧ Spec.hasLevels p v := by
  have hw := C148_whole t r p
  have hs := C148_slices t r p
  cases h : sliceInputs t r p with
  | error e =>
    rw [h] at hw hs
    simp only [reduceCtorEq, false_iff] at hw hs
    push Not at hw
    refine ⟨fun _ => ⟨⟨hw.1.1, hw.1.2.1, hw.1.2.2⟩, ?_, ?_⟩, fun _ => ⟨e, rfl⟩⟩
    · rintro ⟨a, b, c⟩; exact hw.2 a b c
    · intro hv; exact hs _ ⟨hv, rfl⟩
  | ok v =>
    constructor
    · rintro ⟨e, he⟩; nomatch he
    · rintro ⟨⟨a, b, c⟩, d, e⟩
      exfalso
      cases v with
      | whole =>
        rcases hw.mp h with hh | hh
        · rcases hh with hh | hh | hh
          · exact a hh
          · exact b hh
          · exact c hh
        · exact d hh
      | slices l => exact e ((hs l).mp h).1

/-- Level values play no part: relative humidity stored in the opposite order is combined with the wrong levels, and
surplus levels are dropped, without an error from the slicing. -/
theorem C148_level_values_ignored_refuted :
    sliceInputs (⟨some ("height", true), [(10 : ℚ), 20]⟩ : LevelCube ℚ) ⟨some ("height", true), [(20 : ℚ), 10]⟩
      ⟨some ("height", true), [(10 : ℚ), 20, 30]⟩ = .ok (.slices [(10, 20, 10), (20, 10, 20)]) := by
  simp [sliceInputs, verticalCoords]

end Improver
