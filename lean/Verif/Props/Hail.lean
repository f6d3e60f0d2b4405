import Verif.Model.Hail
import Verif.Props.Psychro

/-! Properties of hail size (C153), cloud top temperature (C154) and the condensation level (C155). -/

namespace Improver

/-! ## Rounding -/

theorem rintR_cases (x : ℝ) : rintR x = ⌊x⌋ ∧ x - ⌊x⌋ ≤ 1 / 2 ∨ rintR x = ⌊x⌋ + 1 ∧ 1 / 2 ≤ x - ⌊x⌋ := by
  unfold rintR
  by_cases h1 : x - ⌊x⌋ < 1 / 2
  · rw [if_pos h1]; exact Or.inl ⟨rfl, h1.le⟩
  · rw [if_neg h1]
    by_cases h2 : 1 / 2 < x - ⌊x⌋
    · rw [if_pos h2]; exact Or.inr ⟨rfl, h2.le⟩
    · rw [if_neg h2]
      by_cases h3 : ⌊x⌋ % 2 = 0
      · rw [if_pos h3]; exact Or.inl ⟨rfl, not_lt.mp h2⟩
      · rw [if_neg h3]; exact Or.inr ⟨rfl, not_lt.mp h1⟩

theorem rintR_near (x : ℝ) : |x - rintR x| ≤ 1 / 2 := by
  have h0 := Int.floor_le x
  have h1 := Int.lt_floor_add_one x
  rcases rintR_cases x with ⟨e, h⟩ | ⟨e, h⟩ <;> rw [e, abs_le] <;> push_cast <;> constructor <;> linarith

theorem rintR_mono {x y : ℝ} (h : x ≤ y) : rintR x ≤ rintR y := by
  have hf := Int.floor_le_floor h
  rcases hf.lt_or_eq with hlt | he
  · rcases rintR_cases x with ⟨e, -⟩ | ⟨e, -⟩ <;> rcases rintR_cases y with ⟨e', -⟩ | ⟨e', -⟩ <;> rw [e, e'] <;> omega
  · unfold rintR
    rw [← he]
    by_cases h1 : x - ⌊x⌋ < 1 / 2
    · rw [if_pos h1]
      split_ifs <;> omega
    · rw [if_neg h1, if_neg (by linarith : ¬ y - ⌊x⌋ < 1 / 2)]
      by_cases h2 : 1 / 2 < x - ⌊x⌋
      · rw [if_pos h2, if_pos (by linarith)]
      · rw [if_neg h2]
        split_ifs <;> omega

/-! ## The hail tables -/

theorem nomogram_mono : ∀ i ∈ List.range 26, ∀ j ∈ List.range 10,
    (i + 1 < 26 → tableAt hailNomogram i j ≤ tableAt hailNomogram (i + 1) j) ∧
    (j + 1 < 10 → tableAt hailNomogram i j ≤ tableAt hailNomogram i (j + 1)) := by decide +kernel

theorem nomogram_range : ∀ i ∈ List.range 26, ∀ j ∈ List.range 10,
    0 ≤ tableAt hailNomogram i j ∧ tableAt hailNomogram i j ≤ 120 := by decide +kernel

theorem nomogram_le {i i' j j' : ℕ} (hi : i ≤ i') (hi' : i' < 26) (hj : j ≤ j') (hj' : j' < 10) :
    tableAt hailNomogram i j ≤ tableAt hailNomogram i' j' := by
  have h1 : tableAt hailNomogram i j ≤ tableAt hailNomogram i' j := by
    induction i', hi using Nat.le_induction with
    | base => exact le_rfl
    | succ k hk ih =>
      exact (ih (by omega)).trans ((nomogram_mono k (List.mem_range.mpr (by omega)) j (List.mem_range.mpr (by omega))).1 hi')
  have h2 : tableAt hailNomogram i' j ≤ tableAt hailNomogram i' j' := by
    clear h1
    induction j', hj using Nat.le_induction with
    | base => exact le_rfl
    | succ k hk ih =>
      exact (ih (by omega)).trans ((nomogram_mono i' (List.mem_range.mpr hi') k (List.mem_range.mpr (by omega))).2 hj')
  exact h1.trans h2

theorem hailCell_lt (v h : Option ℝ) : (hailCell v h).1 < 26 ∧ (hailCell v h).2 < 10 := by
  unfold hailCell
  rcases v with _ | v <;> rcases h with _ | h
  · exact ⟨by norm_num, by norm_num⟩
  · exact ⟨by norm_num, by norm_num⟩
  · exact ⟨by norm_num, by norm_num⟩
  · dsimp only
    split_ifs with hc
    · constructor <;> dsimp only <;> omega
    · exact ⟨by norm_num, by norm_num⟩

theorem bisect_int (l : List ℤ) (s : ℤ) : bisectRight l (s : ℝ) = (l.filter fun k => decide (k ≤ s)).length := by
  unfold bisectRight
  congr 1
  apply List.filter_congr
  intro k _
  rw [decide_eq_decide]
  exact Int.cast_le

theorem bisect_mono (l : List ℤ) {x y : ℝ} (h : x ≤ y) : bisectRight l x ≤ bisectRight l y := by
  unfold bisectRight
  apply List.Sublist.length_le
  have : (l.filter fun k : ℤ => decide ((k : ℝ) ≤ x)) = (l.filter fun k : ℤ => decide ((k : ℝ) ≤ y)).filter fun k : ℤ => decide ((k : ℝ) ≤ x) := by
    rw [List.filter_filter]
    apply List.filter_congr
    intro k _
    by_cases hk : (k : ℝ) ≤ x
    · simp [hk, hk.trans h]
    · simp [hk]
  rw [this]
  exact List.filter_sublist

theorem bisect_heights_le (w : ℝ) : bisectRight hailHeights w ≤ 6 := by
  unfold bisectRight
  exact (List.length_filter_le _ _)

theorem bisect_heights_pos {w : ℝ} (h : 3350 ≤ w) : 1 ≤ bisectRight hailHeights w := by
  unfold bisectRight hailHeights
  rw [List.filter_cons, if_pos (by simp only [decide_eq_true_eq]; exact_mod_cast h)]
  simp

theorem bisect_heights_low {w : ℝ} (h : w < 3350) : bisectRight hailHeights w = 0 := by
  unfold bisectRight
  rw [List.length_eq_zero_iff, List.filter_eq_nil_iff]
  intro k hk
  simp only [decide_eq_true_eq, not_le]
  have : (3350 : ℤ) ≤ k := by
    have : ∀ k ∈ hailHeights, (3350 : ℤ) ≤ k := by decide
    exact this k hk
  have : (3350 : ℝ) ≤ k := by exact_mod_cast this
  linarith

theorem bisect_heights_high {w : ℝ} (h : 4400 ≤ w) : bisectRight hailHeights w = 6 := by
  unfold bisectRight
  rw [List.filter_eq_self.mpr]
  · rfl
  · intro k hk
    simp only [decide_eq_true_eq]
    have : k ≤ (4400 : ℤ) := by
      have : ∀ k ∈ hailHeights, k ≤ (4400 : ℤ) := by decide
      exact this k hk
    have : (k : ℝ) ≤ 4400 := by exact_mod_cast this
    linarith

/-- The facts about the second table: rows fall as the height rises, sizes grow along a row and never exceed the size they replace. -/
theorem updated_table : ∀ i ∈ List.range 6, ∀ s ∈ List.range 121,
    ((hailGroups.filter fun k => decide (k ≤ (s : ℤ))).length < 8) ∧
    0 ≤ tableAt hailUpdated i (hailGroups.filter fun k => decide (k ≤ (s : ℤ))).length ∧
    tableAt hailUpdated i (hailGroups.filter fun k => decide (k ≤ (s : ℤ))).length ≤ s ∧
    (i + 1 < 6 → tableAt hailUpdated (i + 1) (hailGroups.filter fun k => decide (k ≤ (s : ℤ))).length
      ≤ tableAt hailUpdated i (hailGroups.filter fun k => decide (k ≤ (s : ℤ))).length) ∧
    (s + 1 < 121 → tableAt hailUpdated i (hailGroups.filter fun k => decide (k ≤ (s : ℤ))).length
      ≤ tableAt hailUpdated i (hailGroups.filter fun k => decide (k ≤ ((s + 1 : ℕ) : ℤ))).length) := by decide +kernel

theorem updated_row_antitone {s i i' : ℕ} (hs : s < 121) (hi : i ≤ i') (hi' : i' < 6) :
    tableAt hailUpdated i' (bisectRight hailGroups ((s : ℤ) : ℝ)) ≤ tableAt hailUpdated i (bisectRight hailGroups ((s : ℤ) : ℝ)) := by
  rw [bisect_int]
  induction i', hi using Nat.le_induction with
  | base => exact le_rfl
  | succ k hk ih =>
    exact ((updated_table k (List.mem_range.mpr (by omega)) s (List.mem_range.mpr hs)).2.2.2.1 hi').trans (ih (by omega))

theorem updated_size_mono {s s' i : ℕ} (hs : s ≤ s') (hs' : s' < 121) (hi : i < 6) :
    tableAt hailUpdated i (bisectRight hailGroups ((s : ℤ) : ℝ)) ≤ tableAt hailUpdated i (bisectRight hailGroups ((s' : ℤ) : ℝ)) := by
  rw [bisect_int, bisect_int]
  induction s', hs using Nat.le_induction with
  | base => exact le_rfl
  | succ k hk ih =>
    exact (ih (by omega)).trans
      ((updated_table i (List.mem_range.mpr hi) k (List.mem_range.mpr (by omega))).2.2.2.2 hs')

theorem pyIndex_lt (w : ℝ) : pyRow 6 ((bisectRight hailHeights w : ℤ) - 1) < 6 := by
  have := bisect_heights_le w
  unfold pyRow
  split_ifs <;> omega

/-- The size read from the nomogram before any correction. -/
theorem base_size (v h : Option ℝ) : ∃ s : ℕ, s < 121 ∧ hailSizeMm v h none = s := by
  have hc := hailCell_lt v h
  have hr := nomogram_range _ (List.mem_range.mpr hc.1) _ (List.mem_range.mpr hc.2)
  refine ⟨(hailSizeMm v h none).toNat, ?_, ?_⟩ <;> unfold hailSizeMm <;> dsimp only <;> omega

theorem size_wet (v h : Option ℝ) {w : ℝ} (hw : 3300 ≤ w) :
    hailSizeMm v h (some w) = updatedHail (hailSizeMm v h none) w := by
  unfold hailSizeMm
  dsimp only
  rw [if_pos hw]

theorem size_dry (v h : Option ℝ) {w : ℝ} (hw : w < 3300) : hailSizeMm v h (some w) = hailSizeMm v h none := by
  unfold hailSizeMm
  dsimp only
  rw [if_neg (not_le.mpr hw)]

/-- Every lookup is inside its table: both indices of the nomogram, and both of the second table. -/
theorem C153_in_bounds (v h : Option ℝ) (w : ℝ) :
    (hailCell v h).1 < hailNomogram.length ∧ (hailCell v h).2 < 10 ∧
    (∀ row ∈ hailNomogram, row.length = 10) ∧
    pyRow 6 ((bisectRight hailHeights w : ℤ) - 1) < hailUpdated.length ∧
    bisectRight hailGroups (hailSizeMm v h none) < 8 ∧ (∀ row ∈ hailUpdated, row.length = 8) := by
  refine ⟨(hailCell_lt v h).1, (hailCell_lt v h).2, by decide, pyIndex_lt w, ?_, by decide⟩
  obtain ⟨s, hs, e⟩ := base_size v h
  rw [e, bisect_int]
  exact (updated_table 0 (by decide) s (List.mem_range.mpr hs)).1

/-- Sizes are between 0 and 120 mm, so they fit the 8-bit integers of the table. -/
theorem C153_range (v h wetBulb : Option ℝ) : 0 ≤ hailSizeMm v h wetBulb ∧ hailSizeMm v h wetBulb ≤ 120 := by
  obtain ⟨s, hs, e⟩ := base_size v h
  rcases wetBulb with _ | w
  · rw [e]; omega
  · by_cases hw : 3300 ≤ w
    · rw [size_wet v h hw, e]
      have hp := pyIndex_lt w
      have := updated_table _ (List.mem_range.mpr hp) s (List.mem_range.mpr hs)
      unfold updatedHail
      rw [bisect_int]
      omega
    · rw [size_dry v h (not_le.mp hw), e]; omega

/-- Larger temperature differences in either direction never give smaller hail, whatever the wet bulb zero height. -/
theorem C153_monotone {v1 v2 h1 h2 : ℝ} (hv : v1 ≤ v2) (hh : h1 ≤ h2) (wetBulb : Option ℝ) :
    hailSizeMm (some v1) (some h1) wetBulb ≤ hailSizeMm (some v2) (some h2) wetBulb := by
  have hbase : hailSizeMm (some v1) (some h1) none ≤ hailSizeMm (some v2) (some h2) none := by
    have hr1 : rintR (v1 * 2) ≤ rintR (v2 * 2) := rintR_mono (by linarith)
    have hr2 : rintR (h1 / 5) ≤ rintR (h2 / 5) := rintR_mono (div_le_div_of_nonneg_right hh (by norm_num))
    have hc2 := hailCell_lt (some v2) (some h2)
    unfold hailSizeMm
    dsimp only
    by_cases hc : rintR (v1 * 2) ≥ 0 ∧ rintR (h1 / 5) - 1 ≥ 0
    · have e1 : hailCell (some v1) (some h1) = ((min (rintR (v1 * 2)) 25).toNat, (min (rintR (h1 / 5) - 1) 9).toNat) := by
        unfold hailCell; dsimp only; rw [if_pos hc]
      have e2 : hailCell (some v2) (some h2) = ((min (rintR (v2 * 2)) 25).toNat, (min (rintR (h2 / 5) - 1) 9).toNat) := by
        unfold hailCell; dsimp only; rw [if_pos ⟨by omega, by omega⟩]
      apply nomogram_le _ hc2.1 _ hc2.2
      · rw [e1, e2]; dsimp only; omega
      · rw [e1, e2]; dsimp only; omega
    · have e1 : hailCell (some v1) (some h1) = (0, 0) := by
        unfold hailCell; dsimp only; rw [if_neg hc]
      rw [e1]
      have : tableAt hailNomogram 0 0 = 0 := by decide
      dsimp only
      rw [this]
      exact (nomogram_range _ (List.mem_range.mpr hc2.1) _ (List.mem_range.mpr hc2.2)).1
  rcases wetBulb with _ | w
  · exact hbase
  · by_cases hw : 3300 ≤ w
    · rw [size_wet _ _ hw, size_wet _ _ hw]
      obtain ⟨s1, hs1, e1⟩ := base_size (some v1) (some h1)
      obtain ⟨s2, hs2, e2⟩ := base_size (some v2) (some h2)
      rw [e1, e2] at hbase ⊢
      exact updated_size_mono (by omega) hs2 (pyIndex_lt w)
    · rw [size_dry _ _ (not_le.mp hw), size_dry _ _ (not_le.mp hw)]; exact hbase

/-- From 3350 m upwards a higher wet bulb zero never gives larger hail; the correction never enlarges hail, and
removes it from 4400 m. -/
theorem C153_wet_bulb (v h : Option ℝ) {w w' : ℝ} (hw : 3350 ≤ w) (hww : w ≤ w') :
    hailSizeMm v h (some w') ≤ hailSizeMm v h (some w) ∧ hailSizeMm v h (some w) ≤ hailSizeMm v h none ∧
    (4400 ≤ w → hailSizeMm v h (some w) = 0) := by
  obtain ⟨s, hs, e⟩ := base_size v h
  have h1 := bisect_heights_pos hw
  have h2 := bisect_mono hailHeights hww
  have h3 := bisect_heights_le w'
  have e1 : pyRow 6 ((bisectRight hailHeights w : ℤ) - 1) = bisectRight hailHeights w - 1 := by
    unfold pyRow; rw [if_neg (by omega)]; omega
  have e2 : pyRow 6 ((bisectRight hailHeights w' : ℤ) - 1) = bisectRight hailHeights w' - 1 := by
    unfold pyRow; rw [if_neg (by omega)]; omega
  rw [size_wet _ _ (by linarith : 3300 ≤ w), size_wet _ _ (by linarith : 3300 ≤ w'), e]
  unfold updatedHail
  rw [e1, e2]
  refine ⟨updated_row_antitone hs (by omega) (by omega), ?_, ?_⟩
  · rw [bisect_int]
    exact (updated_table _ (List.mem_range.mpr (by omega)) s (List.mem_range.mpr hs)).2.2.1
  · intro h4
    rw [bisect_heights_high h4, bisect_int]
    have a := updated_table 5 (by decide) s (List.mem_range.mpr hs)
    have b : ∀ s ∈ List.range 121, tableAt hailUpdated 5 (hailGroups.filter fun k => decide (k ≤ (s : ℤ))).length = 0 := by
      decide +kernel
    exact b s (List.mem_range.mpr hs)

/-- Below 3350 m that fails: from 3300 m to 3350 m the row index is -1, which Python takes as the last row, so that all
hail disappears there although it is kept below and above. -/
theorem C153_gap_refuted {w : ℝ} (h1 : 3300 ≤ w) (h2 : w < 3350) (v h : Option ℝ) :
    hailSizeMm v h (some w) = 0 := by
  obtain ⟨s, hs, e⟩ := base_size v h
  rw [size_wet _ _ h1, e]
  unfold updatedHail
  rw [bisect_heights_low h2, bisect_int]
  have b : ∀ s ∈ List.range 121, tableAt hailUpdated (pyRow 6 (((0 : ℕ) : ℤ) - 1))
      (hailGroups.filter fun k => decide (k ≤ (s : ℤ))).length = 0 := by
    decide +kernel
  exact b s (List.mem_range.mpr hs)

/-- The same large differences give 120 mm hail with the wet bulb zero at 3299 m, none at 3320 m and 75 mm at 3350 m. -/
theorem C153_gap_example : ∃ v h : ℝ, hailSizeMm (some v) (some h) (some 3299) = 120 ∧
    hailSizeMm (some v) (some h) (some 3320) = 0 ∧ hailSizeMm (some v) (some h) (some 3350) = 75 := by
  have f1 : rintR ((20 : ℝ) * 2) = 40 := by
    have hf : ⌊(20 : ℝ) * 2⌋ = 40 := by rw [Int.floor_eq_iff]; norm_num
    unfold rintR
    rw [hf, if_pos (by norm_num)]
  have f2 : rintR ((60 : ℝ) / 5) = 12 := by
    have hf : ⌊(60 : ℝ) / 5⌋ = 12 := by rw [Int.floor_eq_iff]; norm_num
    unfold rintR
    rw [hf, if_pos (by norm_num)]
  have hb : hailSizeMm (some 20) (some 60) none = 120 := by
    unfold hailSizeMm hailCell
    dsimp only
    rw [f1, f2]
    decide
  refine ⟨20, 60, ?_, C153_gap_refuted (by norm_num) (by norm_num) _ _, ?_⟩
  · rw [size_dry _ _ (by norm_num), hb]
  · rw [size_wet _ _ (by norm_num), hb]
    unfold updatedHail
    have hh : bisectRight hailHeights 3350 = 1 := by
      have : (3350 : ℝ) = ((3350 : ℤ) : ℝ) := by norm_num
      rw [this, bisect_int]; decide
    rw [hh, bisect_int]
    decide

/-- No hail where the condensation level is colder than -5 C, where there is no -5 C level, or where the rounded
differences fall outside the nomogram below. -/
theorem C153_no_hail (solve : (ℝ → ℝ) → ℝ → ℝ) (cclT cclP : ℝ) (p268 wb : Option ℝ)
    (h : cclT < 268.15 ∨ p268 = none ∨ ∃ p, p268 = some p ∧ dryTemperature 268.15 p cclP - 268.15 < 2.5) :
    hailSize solve cclT cclP p268 wb = 0 := by
  have key : ∀ v hz : Option ℝ, hailCell v hz = (0, 0) → ∀ wb, hailSizeMm v hz wb = 0 := by
    intro v hz hc wb
    have hb : hailSizeMm v hz none = 0 := by
      unfold hailSizeMm; dsimp only; rw [hc]; decide
    rcases wb with _ | w
    · exact hb
    · by_cases hw : 3300 ≤ w
      · have hp := pyIndex_lt w
        rw [size_wet _ _ hw, hb]
        have := updated_table _ (List.mem_range.mpr hp) 0 (by decide)
        unfold updatedHail
        rw [bisect_int]
        have h1 := this.2.1
        have h2 := this.2.2.1
        simp only [Nat.cast_zero] at h1 h2
        omega
      · rw [size_dry _ _ (not_le.mp hw), hb]
  unfold hailSize
  dsimp only
  rw [key, Int.cast_zero, zero_div]
  rcases h with h | h | ⟨p, h, hlt⟩
  · cases p268 with
    | none => rfl
    | some p => simp only [Option.bind_some, if_pos h]; rfl
  · rw [h]; rfl
  · rw [h]
    simp only [Option.bind_some]
    by_cases hc : cclT < 268.15
    · simp only [if_pos hc]; rfl
    · simp only [if_neg hc]
      unfold hailCell
      dsimp only
      rw [if_neg]
      rintro ⟨-, h2⟩
      generalize dryTemperature 268.15 p cclP - 268.15 = x at *
      have hx : x / 5 < 1 / 2 := by rw [div_lt_iff₀ (by norm_num)]; linarith
      rcases rintR_cases (x / 5) with ⟨e, -⟩ | ⟨e, h3⟩
      · have : ⌊x / 5⌋ < 1 := by rw [Int.floor_lt]; push_cast; linarith
        omega
      · have : ⌊x / 5⌋ < 0 := by
          by_contra hcon
          push Not at hcon
          have : (0 : ℝ) ≤ ⌊x / 5⌋ := by exact_mod_cast hcon
          linarith
        omega

example : ∃ cclT : ℝ, cclT < 268.15 := ⟨260, by norm_num⟩

/-! ## Cloud top -/

namespace Spec
/-- The parcel has stopped rising at a level: above cloud base and colder than its surroundings. -/
def stopped (parcel : ℝ → ℝ) (base : ℝ) (p env : ℝ) : Prop := parcel p < env ∧ p < base
end Spec

open Classical in
theorem cctLoop_pointwise (n : ℕ) (parcel : ℕ → ℝ → ℝ) (cclP : ℕ → ℝ) (levels : List (ℝ × (ℕ → ℝ))) (i : ℕ) (hi : i < n) :
    ∀ (live : ℕ → Bool) (cct : ℕ → ℝ),
    cctLoop n parcel cclP levels live cct i =
      if live i then
        (match (levels.takeWhile fun l => decide (¬ Spec.stopped (parcel i) (cclP i) l.1 (l.2 i))).getLast? with
          | some l => parcel i l.1
          | none => cct i)
      else cct i := by
  induction levels with
  | nil => intro live cct; simp [cctLoop]
  | cons l rest ih =>
    intro live cct
    obtain ⟨p, env⟩ := l
    rw [cctLoop]
    dsimp only
    have hstep : (live i && !(decide (parcel i p < env i) && decide (p < cclP i))) =
        (live i && decide (¬ Spec.stopped (parcel i) (cclP i) p (env i))) := by
      unfold Spec.stopped
      by_cases h1 : parcel i p < env i <;> by_cases h2 : p < cclP i <;> simp [h1, h2]
    by_cases hl : live i = true
    · rw [if_pos hl]
      by_cases hs : Spec.stopped (parcel i) (cclP i) p (env i)
      · have hdead : (live i && !(decide (parcel i p < env i) && decide (p < cclP i))) = false := by
          rw [hstep, decide_eq_false (not_not.mpr hs), Bool.and_false]
        rw [List.takeWhile_cons_of_neg (by simpa using hs)]
        simp only [List.getLast?_nil]
        split_ifs with hall
        · simp only [hdead, Bool.false_eq_true, if_false]
        · rw [ih]; simp only [hdead, Bool.false_eq_true, if_false]
      · have halive : (live i && !(decide (parcel i p < env i) && decide (p < cclP i))) = true := by
          rw [hstep, hl, decide_eq_true hs]; rfl
        have hnall : ¬ ((List.range n).all fun i => !(live i && !(decide (parcel i p < env i) && decide (p < cclP i)))) = true := by
          rw [List.all_eq_true]
          intro hall
          have := hall i (List.mem_range.mpr hi)
          rw [halive] at this
          cases this
        rw [if_neg hnall, ih, if_pos halive, List.takeWhile_cons_of_pos (by simpa using hs)]
        rw [List.getLast?_cons]
        cases h : (rest.takeWhile fun l => decide (¬ Spec.stopped (parcel i) (cclP i) l.1 (l.2 i))).getLast? with
        | none => simp only [halive, if_true, Option.getD_none]
        | some l => simp
    · have hl' : live i = false := by simpa using hl
      rw [if_neg hl]
      have hdead : (live i && !(decide (parcel i p < env i) && decide (p < cclP i))) = false := by
        rw [hl']; rfl
      split_ifs with hall
      · simp only [hdead, Bool.false_eq_true, if_false]
      · rw [ih]; simp only [hdead, Bool.false_eq_true, if_false]

open Classical in
/-- Each point's cloud top is the parcel's temperature at the last level before the first one, in the stored order, at which
the parcel has stopped rising (the cloud base temperature if there is none), and is missing when less than 4 K colder
than the cloud base.  Other points, and levels after the stop, play no part. -/
theorem C154_cloud_top (n : ℕ) (solve : (ℝ → ℝ) → ℝ → ℝ) (cclT cclP : ℕ → ℝ) (levels : List (ℝ × (ℕ → ℝ))) (i : ℕ) (hi : i < n) :
    cloudTop n solve cclT cclP levels i =
      (let top := match (levels.takeWhile fun l =>
          decide (¬ Spec.stopped (parcelT solve (cclT i) (cclP i)) (cclP i) l.1 (l.2 i))).getLast? with
        | some l => parcelT solve (cclT i) (cclP i) l.1
        | none => cclT i
       if 4 ≤ cclT i - top then some top else none) := by
  unfold cloudTop
  dsimp only
  rw [cctLoop_pointwise n _ cclP levels i hi, if_pos rfl]
  generalize (match (levels.takeWhile fun l =>
          decide (¬ Spec.stopped (parcelT solve (cclT i) (cclP i)) (cclP i) l.1 (l.2 i))).getLast? with
        | some l => parcelT solve (cclT i) (cclP i) l.1
        | none => cclT i) = top
  by_cases h : cclT i - top < 4
  · rw [if_pos h, if_neg (not_le.mpr h)]
  · rw [if_neg h, if_pos (not_lt.mp h)]

/-- A cloud top that is given is at least 4 K colder than the base and is the parcel's temperature at one of the levels, at which
the parcel is no colder than its surroundings if the level is above the base. -/
theorem C154_buoyant (n : ℕ) (solve : (ℝ → ℝ) → ℝ → ℝ) (cclT cclP : ℕ → ℝ) (levels : List (ℝ × (ℕ → ℝ))) (i : ℕ) (hi : i < n)
    {v : ℝ} (hv : cloudTop n solve cclT cclP levels i = some v) :
    v ≤ cclT i - 4 ∧ ∃ l ∈ levels, v = parcelT solve (cclT i) (cclP i) l.1 ∧ (l.1 < cclP i → l.2 i ≤ v) := by
  classical
  rw [C154_cloud_top n solve cclT cclP levels i hi] at hv
  dsimp only at hv
  cases h : (levels.takeWhile fun l =>
      decide (¬ Spec.stopped (parcelT solve (cclT i) (cclP i)) (cclP i) l.1 (l.2 i))).getLast? with
  | none =>
    rw [h] at hv
    dsimp only at hv
    rw [if_neg (by norm_num)] at hv
    cases hv
  | some l =>
    rw [h] at hv
    dsimp only at hv
    split_ifs at hv with h4
    have e := Option.some.inj hv
    have hm := List.mem_of_getLast? h
    have hs := List.all_takeWhile (l := levels) (p := fun l =>
      decide (¬ Spec.stopped (parcelT solve (cclT i) (cclP i)) (cclP i) l.1 (l.2 i)))
    rw [List.all_eq_true] at hs
    have hs := hs l hm
    rw [decide_eq_true_eq] at hs
    refine ⟨by linarith, l, (List.takeWhile_prefix _).subset hm, e.symm, ?_⟩
    intro hp
    by_contra hc
    exact hs ⟨by rw [e]; exact not_le.mp hc, hp⟩

/-! ## Condensation level -/

/-- The temperature returned is that of the surface air lifted dry to the pressure returned, for every root finder; it is colder than the surface air exactly when the pressure is lower. -/
theorem C155_condensation (solve : (ℝ → ℝ) → ℝ → ℝ) {t p q : ℝ} (ht : 0 < t) (hp : 0 < p)
    (h2 : 0 < (condensationLevel solve t p q).1) :
    (condensationLevel solve t p q).2 = dryTemperature t p (condensationLevel solve t p q).1 ∧
    dryPressure t p (condensationLevel solve t p q).2 = (condensationLevel solve t p q).1 ∧
    ((condensationLevel solve t p q).2 < t ↔ (condensationLevel solve t p q).1 < p) := by
  have e : (condensationLevel solve t p q).2 = dryTemperature t p (condensationLevel solve t p q).1 := rfl
  refine ⟨e, ?_, ?_⟩
  · rw [e]; exact (C145_inverse ht hp).1 _ h2
  · rw [e]
    generalize (condensationLevel solve t p q).1 = p2 at *
    have hid := (C145_path ht hp hp hp).2.1
    constructor
    · intro h
      by_contra hc
      push Not at hc
      rcases hc.eq_or_lt with hc | hc
      · rw [← hc, hid] at h; exact lt_irrefl _ h
      · have := (C145_path ht hp hp h2).2.2.1 hc
        rw [hid] at this
        linarith
    · intro h
      have := (C145_path ht hp h2 hp).2.2.1 h
      rwa [hid] at this

/-- With a root finder that finds a root whenever there is one, the lifted air is just saturated at the level
returned, whenever there is a pressure at which it is. -/
theorem C155_saturated_there (solve : (ℝ → ℝ) → ℝ → ℝ) (hsolve : ∀ (f : ℝ → ℝ) (x : ℝ), (∃ y, f y = 0) → f (solve f x) = 0)
    {t p q : ℝ} (hex : ∃ p2, saturatedHumidity (dryTemperature t p p2) p2 = q) :
    saturatedHumidity (condensationLevel solve t p q).2 (condensationLevel solve t p q).1 = q := by
  obtain ⟨p2, hp2⟩ := hex
  have := hsolve (fun p2 => q - saturatedHumidity (dryTemperature t p p2) p2) p ⟨p2, by rw [hp2, sub_self]⟩
  have e : saturatedHumidity (condensationLevel solve t p q).2 (condensationLevel solve t p q).1
      = saturatedHumidity (dryTemperature t p (solve (fun p2 => q - saturatedHumidity (dryTemperature t p p2) p2) p))
        (solve (fun p2 => q - saturatedHumidity (dryTemperature t p p2) p2) p) := rfl
  rw [e]
  linarith

/-- Such a root finder exists. -/
example : ∃ solve : (ℝ → ℝ) → ℝ → ℝ, ∀ (f : ℝ → ℝ) (x : ℝ), (∃ y, f y = 0) → f (solve f x) = 0 := by
  classical
  refine ⟨fun f x => if h : ∃ y, f y = 0 then h.choose else x, fun f x h => ?_⟩
  simp only [dif_pos h]
  exact h.choose_spec

/-- Saturated surface air condenses at the surface: its own pressure is a root. -/
theorem C155_saturated_surface {t p : ℝ} (ht : 0 < t) (hp : 0 < p) :
    humidityMixingRatio t p 1 - saturatedHumidity (dryTemperature t p p) p = 0 := by
  rw [(C145_path ht hp hp hp).2.1, (C144_mixing_ratio (t := t) (rh := 1) hp.le).2.2, sub_self]

end Improver
