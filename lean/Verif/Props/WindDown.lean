import Verif.Model.WindDown
import Mathlib.Tactic.LinearCombination
import Mathlib.Analysis.Complex.ExponentialBounds

/-!
C114 - C118: downscaling of the wind for roughness and height.
-/

namespace Improver

open Real

/-! ### Specification -/

/-- The ancillaries describe a resolved slope: silhouette roughness and standard deviation of the orography are positive numbers. -/
def Spec.resolved (a : WindAncil) (s σ : ℝ) : Prop := a.aos = some s ∧ 0 < s ∧ a.sigma = some σ ∧ 0 < σ

/-- Wavenumber of the unresolved hills: `π s / (σ √2)` between those of the scales resolved by the model and by the grid. -/
noncomputable def Spec.waveNumber (s σ ppres modres : ℝ) : ℝ := max (π / (3 * modres)) (min (s * π / (σ * √2)) (π / (ppres / 2)))

/-- Height below which the flow is adjusted to the roughness. -/
noncomputable def Spec.refHeight (σ k : ℝ) : ℝ :=
  max 1 (min (max 0 (min 1 (Real.log (k * (σ * √2) / 0.04))) / k) (2 * (σ * √2)))

/-- Speed after the adjustment to the roughness: a logarithmic profile below the reference height. -/
noncomputable def Spec.logProfile (uref href z h u : ℝ) : ℝ := open Classical in if h < href then uref * (Real.log (h / z) / Real.log (href / z)) else u

/-! ### Masks and scales -/

theorem hOver2_pos {σ : ℝ} (h : 0 < σ) : hOver2 (some σ) = σ * √2 ∧ 0 < σ * √2 := by
  unfold hOver2
  simp only
  rw [if_pos h]
  exact ⟨rfl, by positivity⟩

theorem hcSet_iff (a : WindAncil) : hcSet a (hOver2 a.sigma) ↔ ∃ s σ, Spec.resolved a s σ := by
  unfold hcSet Spec.resolved
  constructor
  · rintro ⟨h1, s, h2, h3⟩
    refine ⟨s, ?_⟩
    rcases hs : a.sigma with _ | σ
    · rw [hs] at h1; exact absurd (by unfold hOver2 rmdi; norm_num) h1
    · rw [hs] at h1
      refine ⟨σ, h2, not_le.mp h3, rfl, ?_⟩
      by_contra hc
      apply h1
      unfold hOver2
      simp only
      rw [if_neg hc]
      unfold rmdi; norm_num
  · rintro ⟨s, σ, h1, h2, h3, h4⟩
    rw [h3, (hOver2_pos h4).1]
    exact ⟨not_le.mpr (hOver2_pos h4).2, s, h1, not_le.mpr h2⟩

theorem hcSet_of {a : WindAncil} {s σ : ℝ} (h : Spec.resolved a s σ) : hcSet a (hOver2 a.sigma) := (hcSet_iff a).mpr ⟨s, σ, h⟩

theorem hOver2_of {a : WindAncil} {s σ : ℝ} (h : Spec.resolved a s σ) : hOver2 a.sigma = σ * √2 := by
  rw [h.2.2.1]; exact (hOver2_pos h.2.2.2).1

theorem waveNum_eq {a : WindAncil} {s σ ppres modres : ℝ} (h : Spec.resolved a s σ) (hp : 0 < ppres) (hm : 0 < modres) :
    waveNum a (hOver2 a.sigma) (ppres / 2) (3 * modres) = Spec.waveNumber s σ ppres modres := by
  have hho := hOver2_of h
  have hpos : 0 < σ * √2 := (hOver2_pos h.2.2.2).2
  have hset := hcSet_of h
  unfold waveNum
  simp only [if_pos hset]
  rw [hho, if_neg hpos.ne', h.1]
  simp only [Option.getD_some]
  have hs := h.2.1
  have hpi := Real.pi_pos
  have e1 : (if s * π / (σ * √2) > π / (ppres / 2) then π / (ppres / 2) else s * π / (σ * √2)) = min (s * π / (σ * √2)) (π / (ppres / 2)) := by
    by_cases c : s * π / (σ * √2) > π / (ppres / 2)
    · rw [if_pos c, min_eq_right c.le]
    · rw [if_neg c, min_eq_left (not_lt.mp c)]
  rw [e1]
  have hmin : 0 < min (s * π / (σ * √2)) (π / (ppres / 2)) := lt_min (by positivity) (by positivity)
  rw [abs_of_pos hmin]
  unfold Spec.waveNumber
  by_cases c : min (s * π / (σ * √2)) (π / (ppres / 2)) < π / (3 * modres)
  · rw [if_pos c, max_eq_left c.le]
  · rw [if_neg c, max_eq_right (not_lt.mp c)]

theorem hRef_eq {a : WindAncil} {s σ k : ℝ} (h : Spec.resolved a s σ) (hk : 0 < k) : hRef a (hOver2 a.sigma) k = Spec.refHeight σ k := by
  have hho := hOver2_of h
  have hpos : 0 < σ * √2 := (hOver2_pos h.2.2.2).2
  have hset := hcSet_of h
  unfold hRef
  simp only [if_pos hset]
  rw [hho]
  have elog : -Real.log 0.04 + Real.log (k * (σ * √2)) = Real.log (k * (σ * √2) / 0.04) := by
    rw [Real.log_div (by positivity) (by norm_num)]
    ring
  rw [elog]
  set L := Real.log (k * (σ * √2) / 0.04) with hL
  have e1 : (if L > 1 then 1 else L) = min 1 L := by
    by_cases c : L > 1
    · rw [if_pos c, min_eq_left c.le]
    · rw [if_neg c, min_eq_right (not_lt.mp c)]
  rw [e1]
  have e2 : (if min 1 L < 0 then 0 else min 1 L) = max 0 (min 1 L) := by
    by_cases c : min 1 L < 0
    · rw [if_pos c, max_eq_left c.le]
    · rw [if_neg c, max_eq_right (not_lt.mp c)]
  rw [e2]
  set c := max 0 (min 1 L) / k with hc
  unfold Spec.refHeight
  rw [← hL, ← hc]
  have e3 : (if c < 1 then 1 else c) = max 1 c := by
    by_cases q : c < 1
    · rw [if_pos q, max_eq_left q.le]
    · rw [if_neg q, max_eq_right (not_lt.mp q)]
  rw [e3]
  have e4 : ∀ t : ℝ, (if t < 1 then 1 else t) = max 1 t := by
    intro t
    by_cases q : t < 1
    · rw [if_pos q, max_eq_left q.le]
    · rw [if_neg q, max_eq_right (not_lt.mp q)]
  rw [e4]
  rcases le_total c 1 with q | q
  · rw [max_eq_left q]
    rw [max_eq_left (min_le_left _ _), max_eq_left (le_trans (min_le_left _ _) q)]
  · rw [max_eq_right q]

/-- C115: the wavenumber lies between those of the largest and the smallest unresolved scales. -/
theorem C115_wavenumber {s σ ppres modres : ℝ} (hp : 0 < ppres) (hr : ppres / 2 ≤ 3 * modres) :
    π / (3 * modres) ≤ Spec.waveNumber s σ ppres modres ∧ Spec.waveNumber s σ ppres modres ≤ π / (ppres / 2)
      ∧ 0 < Spec.waveNumber s σ ppres modres := by
  have hpi := Real.pi_pos
  have hm : 0 < 3 * modres := by linarith
  have h1 : π / (3 * modres) ≤ Spec.waveNumber s σ ppres modres := le_max_left _ _
  have h0 : 0 < π / (3 * modres) := by positivity
  refine ⟨h1, max_le ?_ (min_le_right _ _), lt_of_lt_of_le h0 h1⟩
  exact div_le_div_of_nonneg_left hpi.le (by linarith) hr

/-- C115: the reference height is at least one metre and no more than the peak to trough height of the hills or one metre. -/
theorem C115_reference_height (σ k : ℝ) (hk : 0 < k) :
    1 ≤ Spec.refHeight σ k ∧ Spec.refHeight σ k ≤ max 1 (2 * (σ * √2)) ∧ Spec.refHeight σ k ≤ max 1 (1 / k) := by
  unfold Spec.refHeight
  refine ⟨le_max_left _ _, max_le_max (le_refl _) (min_le_right _ _), max_le_max (le_refl _) (le_trans (min_le_left _ _) ?_)⟩
  exact div_le_div_of_nonneg_right (max_le (by norm_num) (min_le_left _ _)) hk.le

/-! ### C114: where nothing is known, nothing is changed -/

theorem heightCorr_false {mask : Prop} (h : ¬ mask) (ua k dz z : ℝ) : heightCorr mask ua k dz z = 0 := by
  unfold heightCorr; simp only [if_neg h]

theorem roughColumn_false {mask : Prop} (h : ¬ mask) (col : List (ℝ × ℝ)) (href z0 : ℝ) : roughColumn mask col href z0 = col := by
  unfold roughColumn; rw [if_neg h]

theorem z0Filled_none {a : WindAncil} (h : a.z0 = none) : z0Filled a = a := by unfold z0Filled; rw [h]

/-- C114: at a point whose silhouette roughness or standard deviation of orography is not a positive number the wind is returned as it is. -/
theorem C114_unresolved (a : WindAncil) (ppres modres : ℝ) (col : List (ℝ × ℝ)) (hu : ∀ hu ∈ col, 0 ≤ hu.2) (h : ∀ s σ, ¬ Spec.resolved a s σ) :
    rcHcColumn a ppres modres col = col := by
  have hn : ¬ hcSet a (hOver2 a.sigma) := by rw [hcSet_iff]; rintro ⟨s, σ, hh⟩; exact h s σ hh
  have hrc : ¬ rcSet a (hOver2 a.sigma) := fun c => hn c.1
  have hhc : ∀ q : Prop, ¬ (hcRefined a (hOver2 a.sigma) ∧ q) := fun q c => hn c.1.1
  unfold rcHcColumn
  simp only
  have e : ∀ href, baseColumn a (hOver2 a.sigma) href col = col := by
    intro href
    unfold baseColumn
    cases (z0Filled a).z0 with
    | none => rfl
    | some z => exact roughColumn_false hrc _ _ _
  rw [e]
  conv_rhs => rw [← List.map_id col]
  apply List.map_congr_left
  intro p hp
  rw [heightCorr_false (hhc _), add_zero, if_neg (not_lt.mpr (hu p hp))]
  rfl

theorem roughColumn_heights (mask : Prop) (col : List (ℝ × ℝ)) (href z0 : ℝ) : (roughColumn mask col href z0).map Prod.fst = col.map Prod.fst := by
  unfold roughColumn
  split
  · rw [List.map_map]; rfl
  · rfl

/-- C114: the result has the levels of the input, and no negative speed, whatever the input. -/
theorem C114_levels_nonneg (a : WindAncil) (ppres modres : ℝ) (col : List (ℝ × ℝ)) :
    (rcHcColumn a ppres modres col).map Prod.fst = col.map Prod.fst ∧ ∀ hu ∈ rcHcColumn a ppres modres col, 0 ≤ hu.2 := by
  unfold rcHcColumn
  simp only
  constructor
  · rw [List.map_map]
    unfold baseColumn
    cases (z0Filled a).z0 with
    | none => rfl
    | some z => exact roughColumn_heights _ _ _ _
  · intro p hp
    obtain ⟨q, -, rfl⟩ := List.mem_map.mp hp
    simp only
    split
    · exact le_refl _
    · rename_i hh; exact not_lt.mp hh

/-! ### The profile -/

/-- The height correction is applied: both orographies are known and the wind at the height `1/k` blows. -/
def Spec.corrected (a : WindAncil) (pp mod ua : ℝ) : Prop :=
  a.pporo = some pp ∧ pp ≠ -32767 ∧ a.modoro = some mod ∧ mod ≠ -32767 ∧ 0 < ua

theorem hcMask_iff {a : WindAncil} {s σ : ℝ} (h : Spec.resolved a s σ) (ua : ℝ) :
    (hcRefined a (hOver2 a.sigma) ∧ ¬ ua ≤ 0) ↔ ∃ pp mod, Spec.corrected a pp mod ua := by
  unfold hcRefined Spec.corrected rmdi
  constructor
  · rintro ⟨⟨-, ⟨p, h1, h2⟩, m, h3, h4⟩, h5⟩
    exact ⟨p, m, h1, h2, h3, h4, not_le.mp h5⟩
  · rintro ⟨p, m, h1, h2, h3, h4, h5⟩
    exact ⟨⟨hcSet_of h, ⟨p, h1, h2⟩, m, h3, h4⟩, not_le.mpr h5⟩

/-- The roughness length the profile uses: a positive length that was given. -/
def Spec.rough (a : WindAncil) (z : ℝ) : Prop := a.z0 = some (some z) ∧ 0 < z

theorem rough_base {a : WindAncil} {s σ z : ℝ} (h : Spec.resolved a s σ) (hz : Spec.rough a z) (col : List (ℝ × ℝ)) (href : ℝ) :
    baseColumn a (hOver2 a.sigma) href col = col.map (fun hu => (hu.1, Spec.logProfile (uAtH col href) href z hu.1 hu.2)) := by
  have hf : z0Filled a = a := by unfold z0Filled; rw [hz.1]; simp only; rw [if_neg (not_le.mpr hz.2)]
  have hr : rcSet a (hOver2 a.sigma) := by
    refine ⟨hcSet_of h, ?_⟩
    intro z' hz'
    rw [hz.1] at hz'
    exact ⟨z, (Option.some.inj hz').symm, not_le.mpr hz.2⟩
  unfold baseColumn
  rw [hf, hz.1]
  simp only [Option.getD_some]
  unfold roughColumn
  rw [if_pos hr]
  apply List.map_congr_left
  intro p _
  unfold roughOne Spec.logProfile
  by_cases hl : p.1 < href
  · rw [if_pos hl, if_pos hl]
    congr 1
    field_simp
  · rw [if_neg hl, if_neg hl]

/-- The height correction as a function of height. -/
noncomputable def Spec.heightCorrection (k ua dz x : ℝ) : ℝ := (if k * x > 0.0001 then Real.exp (-(k * x)) else 1) * ua * k * dz

/-- `hc` is the height correction of the column: none when an orography is missing or the wind at the height `1/k` does not blow. -/
def Spec.IsHeightCorrection (a : WindAncil) (k : ℝ) (col : List (ℝ × ℝ)) (hc : ℝ → ℝ) : Prop :=
  ((∀ pp mod, ¬ Spec.corrected a pp mod (uAtH col (1 / k))) → ∀ x, hc x = 0)
    ∧ ∀ pp mod, Spec.corrected a pp mod (uAtH col (1 / k)) → ∀ x, hc x = Spec.heightCorrection k (uAtH col (1 / k)) (pp - mod) x

theorem column_form {a : WindAncil} {s σ ppres modres : ℝ} (h : Spec.resolved a s σ) (hp : 0 < ppres) (hm : 0 < modres)
    (hr : ppres / 2 ≤ 3 * modres) (col : List (ℝ × ℝ)) :
    ∃ hc : ℝ → ℝ, rcHcColumn a ppres modres col
        = (baseColumn a (hOver2 a.sigma) (Spec.refHeight σ (Spec.waveNumber s σ ppres modres)) col).map (fun hu => (hu.1, max 0 (hu.2 + hc hu.1)))
      ∧ Spec.IsHeightCorrection a (Spec.waveNumber s σ ppres modres) col hc := by
  have hk0 := (C115_wavenumber (s := s) (σ := σ) hp hr).2.2
  have hk := waveNum_eq h hp hm
  refine ⟨fun x => heightCorr (hcRefined a (hOver2 a.sigma) ∧ ¬ uAtH col (1 / Spec.waveNumber s σ ppres modres) ≤ 0)
    (uAtH col (1 / Spec.waveNumber s σ ppres modres)) (Spec.waveNumber s σ ppres modres) (a.pporo.getD 0 - a.modoro.getD 0) x, ?_, ?_, ?_⟩
  · unfold rcHcColumn
    simp only
    rw [hk, hRef_eq h hk0]
    apply List.map_congr_left
    intro p _
    congr 1
    split
    · rename_i hlt; exact (max_eq_left hlt.le).symm
    · rename_i hge; exact (max_eq_right (not_lt.mp hge)).symm
  · intro hn x
    apply heightCorr_false
    rw [hcMask_iff h]
    rintro ⟨pp, mod, hc⟩
    exact hn pp mod hc
  · intro pp mod hc x
    have hmask := (hcMask_iff h (uAtH col (1 / Spec.waveNumber s σ ppres modres))).mpr ⟨pp, mod, hc⟩
    unfold heightCorr Spec.heightCorrection
    simp only [if_pos hmask]
    rw [hc.1, hc.2.2.1]
    simp only [Option.getD_some]
    ring

/-- C115: at a resolved land point of positive roughness length `z`, the speed at every level is the logarithmic profile through the wind at the
reference height below this height and the model wind from there up, plus the height correction, and never negative. -/
theorem C115_profile {a : WindAncil} {s σ z ppres modres : ℝ} (h : Spec.resolved a s σ) (hz : Spec.rough a z) (hp : 0 < ppres) (hm : 0 < modres)
    (hr : ppres / 2 ≤ 3 * modres) (col : List (ℝ × ℝ)) :
    ∃ hc : ℝ → ℝ, rcHcColumn a ppres modres col = col.map (fun hu =>
        (hu.1, max 0 (Spec.logProfile (uAtH col (Spec.refHeight σ (Spec.waveNumber s σ ppres modres)))
          (Spec.refHeight σ (Spec.waveNumber s σ ppres modres)) z hu.1 hu.2 + hc hu.1)))
      ∧ Spec.IsHeightCorrection a (Spec.waveNumber s σ ppres modres) col hc := by
  obtain ⟨hc, e, hhc⟩ := column_form h hp hm hr col
  refine ⟨hc, ?_, hhc⟩
  rw [e, rough_base h hz, List.map_map]
  rfl

/-- C115: without a roughness length cube, or at a sea or missing point (roughness length zero, negative or NaN), only the height correction changes
the wind. -/
theorem C115_no_roughness {a : WindAncil} {s σ ppres modres : ℝ} (h : Spec.resolved a s σ) (hz : ∀ z, ¬ Spec.rough a z) (hp : 0 < ppres) (hm : 0 < modres)
    (hr : ppres / 2 ≤ 3 * modres) (col : List (ℝ × ℝ)) :
    ∃ hc : ℝ → ℝ, rcHcColumn a ppres modres col = col.map (fun hu => (hu.1, max 0 (hu.2 + hc hu.1)))
      ∧ Spec.IsHeightCorrection a (Spec.waveNumber s σ ppres modres) col hc := by
  obtain ⟨hc, e, hhc⟩ := column_form h hp hm hr col
  refine ⟨hc, ?_, hhc⟩
  rw [e]
  congr 1
  rcases hz0 : a.z0 with _ | z
  · unfold baseColumn
    rw [z0Filled_none hz0, hz0]
  · have hnr : ¬ rcSet a (hOver2 a.sigma) := by
      rintro ⟨-, hr⟩
      obtain ⟨v, rfl, hv⟩ := hr z hz0
      exact hz v ⟨hz0, not_le.mp hv⟩
    unfold baseColumn
    cases (z0Filled a).z0 with
    | none => rfl
    | some z => exact roughColumn_false hnr _ _ _

/-- C115: for a roughness length below the reference height the profile increases with height, stays below the wind at the reference height and is
not positive at or below the roughness length. -/
theorem C115_profile_shape {uref href z : ℝ} (hu : 0 ≤ uref) (hz : 0 < z) (hzr : z < href) (u : ℝ) :
    (∀ h h', 0 < h → h ≤ h' → h' < href → Spec.logProfile uref href z h u ≤ Spec.logProfile uref href z h' u)
      ∧ (∀ h, 0 < h → h < href → Spec.logProfile uref href z h u ≤ uref)
      ∧ (∀ h, z ≤ h → h < href → 0 ≤ Spec.logProfile uref href z h u)
      ∧ ∀ h, 0 < h → h ≤ z → Spec.logProfile uref href z h u ≤ 0 := by
  have hlog : 0 < Real.log (href / z) := Real.log_pos (by rw [lt_div_iff₀ hz]; linarith)
  have hm : ∀ h h', 0 < h → h ≤ h' → Real.log (h / z) ≤ Real.log (h' / z) := by
    intro h h' h0 hh
    exact Real.log_le_log (by positivity) (div_le_div_of_nonneg_right hh hz.le)
  refine ⟨?_, ?_, ?_, ?_⟩
  · intro h h' h0 hh hl
    unfold Spec.logProfile
    rw [if_pos (lt_of_le_of_lt hh hl), if_pos hl]
    exact mul_le_mul_of_nonneg_left (div_le_div_of_nonneg_right (hm h h' h0 hh) hlog.le) hu
  · intro h h0 hl
    unfold Spec.logProfile
    rw [if_pos hl]
    have : Real.log (h / z) / Real.log (href / z) ≤ 1 := by
      rw [div_le_one hlog]; exact hm h href h0 hl.le
    nlinarith
  · intro h h0 hl
    unfold Spec.logProfile
    rw [if_pos hl]
    have : 0 ≤ Real.log (h / z) := Real.log_nonneg (by rw [le_div_iff₀ hz]; linarith)
    positivity
  · intro h h0 hl
    unfold Spec.logProfile
    rw [if_pos (lt_of_le_of_lt hl hzr)]
    have h1 : Real.log (h / z) ≤ 0 := Real.log_nonpos (by positivity) (by rw [div_le_one hz]; exact hl)
    have h2 : Real.log (h / z) / Real.log (href / z) ≤ 0 := div_nonpos_of_nonpos_of_nonneg h1 hlog.le
    exact mul_nonpos_of_nonneg_of_nonpos hu h2

/-- C115, finding: the reference height can be as low as one metre, and nothing ensures that it is above the roughness length: then the profile is
upside down, with more wind nearer to the ground than at the reference height. -/
theorem C115_upside_down_refuted : ∃ uref href z h u : ℝ, 1 ≤ href ∧ 0 < h ∧ h < href ∧ 0 < z ∧ 0 < uref
    ∧ uref < Spec.logProfile uref href z h u := by
  refine ⟨1, 1, 2, 1 / 2, 0, by norm_num, by norm_num, by norm_num, by norm_num, by norm_num, ?_⟩
  unfold Spec.logProfile
  rw [if_pos (by norm_num)]
  have e1 : Real.log ((1 : ℝ) / 2 / 2) = -(2 * Real.log 2) := by
    have : ((1 : ℝ) / 2 / 2) = (2 ^ 2)⁻¹ := by norm_num
    rw [this, Real.log_inv, Real.log_pow]
    norm_num
  have e2 : Real.log ((1 : ℝ) / 2) = -Real.log 2 := by rw [one_div, Real.log_inv]
  rw [e1, e2]
  have h2 : Real.log 2 ≠ 0 := (Real.log_pos (by norm_num)).ne'
  have : (1 : ℝ) * (-(2 * Real.log 2) / -Real.log 2) = 2 := by field_simp
  rw [this]
  norm_num

/-! ### C116: the wind between the levels -/

theorem findIdx_at {α : Type} {p : α → Bool} {l : List α} {i : ℕ} (hi : i < l.length) (h1 : p l[i] = true) (h2 : ∀ j (hj : j < i), p l[j] = false) :
    l.findIdx p = i := by
  rw [List.findIdx_eq hi]
  exact ⟨h1, h2⟩

theorem getD_at {l : List ℝ} {i : ℕ} (hi : i < l.length) : l.getD i 0 = l[i] := by simp [hi]

/-- Levels in increasing order of height. -/
def Spec.increasing (col : List (ℝ × ℝ)) : Prop := (col.map Prod.fst).Pairwise (· < ·)

theorem increasing_lt {col : List (ℝ × ℝ)} (h : Spec.increasing col) {i j : ℕ} (hij : i < j) (hj : j < col.length) :
    (col[i]'(by omega)).1 < (col[j]).1 := by
  have := List.pairwise_iff_getElem.mp h i j (by simp; omega) (by simpa using hj) hij
  simpa using this

theorem increasing_le {col : List (ℝ × ℝ)} (h : Spec.increasing col) {i j : ℕ} (hij : i ≤ j) (hj : j < col.length) :
    (col[i]'(by omega)).1 ≤ (col[j]).1 := by
  rcases Nat.eq_or_lt_of_le hij with rfl | hlt
  · exact le_refl _
  · exact (increasing_lt h hlt hj).le

theorem loIdx_at {col : List (ℝ × ℝ)} (h : Spec.increasing col) {i : ℕ} (hi : i < col.length) {x : ℝ} (h1 : (col[i]).1 ≤ x)
    (h2 : ∀ j (hj : j < col.length), i < j → x < (col[j]).1) : loIdx (col.map Prod.fst) x = i := by
  unfold loIdx
  rw [if_pos ⟨_, List.mem_map.mpr ⟨col[i], List.getElem_mem hi, rfl⟩, h1⟩]
  apply findIdx_at (by simpa using hi)
  · simp only [List.getElem_map, decide_eq_true_eq]
    refine ⟨h1, ?_⟩
    intro h' hh' hle
    obtain ⟨q, hq, rfl⟩ := List.mem_map.mp hh'
    obtain ⟨j, hj, rfl⟩ := List.mem_iff_getElem.mp hq
    have hji : j ≤ i := by
      by_contra hc
      push Not at hc
      have := h2 j hj hc
      linarith
    have := increasing_le h hji hi
    linarith
  · intro j hj
    simp only [List.getElem_map, decide_eq_false_iff_not, not_and, not_forall]
    intro _
    refine ⟨(col[i]).1, List.mem_map.mpr ⟨col[i], List.getElem_mem hi, rfl⟩, h1, ?_⟩
    have := increasing_lt h hj hi
    push Not
    linarith

theorem upIdx_at {col : List (ℝ × ℝ)} {i : ℕ} (hi : i < col.length) {x : ℝ} (h1 : x < (col[i]).1)
    (h2 : ∀ j (hj : j < i), (col[j]'(by omega)).1 ≤ x) : upIdx (col.map Prod.fst) x = i := by
  unfold upIdx
  rw [if_pos ⟨_, List.mem_map.mpr ⟨col[i], List.getElem_mem hi, rfl⟩, h1⟩]
  apply findIdx_at (by simpa using hi)
  · simpa using h1
  · intro j hj
    simpa using h2 j hj

theorem colFst {col : List (ℝ × ℝ)} {i : ℕ} (hi : i < col.length) : (col.map Prod.fst).getD i 0 = (col[i]).1 := by simp [hi]

theorem colSnd {col : List (ℝ × ℝ)} {i : ℕ} (hi : i < col.length) : (col.map Prod.snd).getD i 0 = (col[i]).2 := by simp [hi]

/-- C116: for levels in increasing order, the wind at a height between two levels is on the line between them, so that it is between their speeds. -/
theorem C116_between {col : List (ℝ × ℝ)} (h : Spec.increasing col) {i : ℕ} (hi : i + 1 < col.length) {x : ℝ} (h1 : (col[i]).1 ≤ x)
    (h2 : x < (col[i + 1]).1) :
    uAtH col x = (col[i]).2 + (x - (col[i]).1) / ((col[i + 1]).1 - (col[i]).1) * ((col[i + 1]).2 - (col[i]).2)
      ∧ min (col[i]).2 (col[i + 1]).2 ≤ uAtH col x ∧ uAtH col x ≤ max (col[i]).2 (col[i + 1]).2 := by
  have hlo := loIdx_at h (by omega : i < col.length) h1 (fun j hj hij => lt_of_lt_of_le h2 (increasing_le h hij hj))
  have hup := upIdx_at hi h2 (fun j hj => le_trans (increasing_le h (by omega : j ≤ i) (by omega)) h1)
  have hd := increasing_lt h (Nat.lt_succ_self i) hi
  have e : uAtH col x = (col[i]).2 + (x - (col[i]).1) / ((col[i + 1]).1 - (col[i]).1) * ((col[i + 1]).2 - (col[i]).2) := by
    unfold uAtH
    simp only
    rw [hlo, hup, colFst hi, colFst (by omega : i < col.length), colSnd hi, colSnd (by omega : i < col.length)]
    unfold interpolate1d
    rw [if_pos (by simp only [Nat.succ_eq_add_one] at hd; linarith [hd] : _ )]
  refine ⟨e, ?_, ?_⟩
  · rw [e]
    set t := (x - (col[i]).1) / ((col[i + 1]).1 - (col[i]).1) with ht
    have t0 : 0 ≤ t := div_nonneg (by linarith) (by linarith)
    have t1 : t ≤ 1 := by rw [ht, div_le_one (by linarith)]; linarith
    rcases le_total (col[i]).2 (col[i + 1]).2 with c | c
    · rw [min_eq_left c]; nlinarith
    · rw [min_eq_right c]; nlinarith
  · rw [e]
    set t := (x - (col[i]).1) / ((col[i + 1]).1 - (col[i]).1) with ht
    have t0 : 0 ≤ t := div_nonneg (by linarith) (by linarith)
    have t1 : t ≤ 1 := by rw [ht, div_le_one (by linarith)]; linarith
    rcases le_total (col[i]).2 (col[i + 1]).2 with c | c
    · rw [max_eq_right c]; nlinarith
    · rw [max_eq_left c]; nlinarith

/-- C116: below the lowest level the wind decreases in proportion to the height. -/
theorem C116_below {col : List (ℝ × ℝ)} (h : Spec.increasing col) (hl : 0 < col.length) {x : ℝ} (h1 : x < (col[0]).1) :
    uAtH col x = x / (col[0]).1 * (col[0]).2 := by
  have hup := upIdx_at hl h1 (fun j hj => by omega)
  have hlo : loIdx (col.map Prod.fst) x = 0 := by
    unfold loIdx
    rw [if_neg]
    rintro ⟨v, hv, hle⟩
    obtain ⟨q, hq, rfl⟩ := List.mem_map.mp hv
    obtain ⟨j, hj, rfl⟩ := List.mem_iff_getElem.mp hq
    have := increasing_le h (Nat.zero_le j) hj
    linarith
  unfold uAtH
  simp only
  rw [hlo, hup, colFst hl, colSnd hl]
  unfold interpolate1d
  rw [if_neg (by simp)]

/-- C116: at or above the highest of several levels the wind is extrapolated with the slope between the lowest and the highest level. -/
theorem C116_above {col : List (ℝ × ℝ)} (h : Spec.increasing col) {n : ℕ} (hl : col.length = n + 2) {x : ℝ}
    (h1 : (col[n + 1]).1 ≤ x) :
    uAtH col x = (col[n + 1]).2
      + (x - (col[n + 1]).1) * (((col[n + 1]).2 - (col[0]).2) / ((col[n + 1]).1 - (col[0]).1)) := by
  have hlo := loIdx_at h (by omega : n + 1 < col.length) h1 (fun j hj hij => by omega)
  have hup : upIdx (col.map Prod.fst) x = 0 := by
    unfold upIdx
    rw [if_neg]
    rintro ⟨v, hv, hlt⟩
    obtain ⟨q, hq, rfl⟩ := List.mem_map.mp hv
    obtain ⟨j, hj, rfl⟩ := List.mem_iff_getElem.mp hq
    have := increasing_le h (by omega : j ≤ n + 1) (by omega)
    linarith
  have hd := increasing_lt h (by omega : 0 < n + 1) (by omega : n + 1 < col.length)
  unfold uAtH
  simp only
  rw [hlo, hup, colFst (by omega : 0 < col.length), colFst (by omega : n + 1 < col.length), colSnd (by omega : 0 < col.length),
    colSnd (by omega : n + 1 < col.length)]
  unfold interpolate1d
  have hne : (col[0]).1 - (col[n + 1]).1 ≠ 0 := by intro hc; linarith
  have hne' : (col[n + 1]).1 - (col[0]).1 ≠ 0 := by intro hc; linarith
  rw [if_pos hne]
  field_simp
  ring

/-- C116, finding: above the highest level the value can be far outside the range of the speeds of the column, even negative. -/
theorem C116_extrapolation_refuted : uAtH [(10, 0), (20, 10)] 100 = 90 ∧ uAtH [(10, 10), (20, 1)] 100 = -71 := by
  have i1 : Spec.increasing [((10 : ℝ), (0 : ℝ)), (20, 10)] := by unfold Spec.increasing; norm_num
  have i2 : Spec.increasing [((10 : ℝ), (10 : ℝ)), (20, 1)] := by unfold Spec.increasing; norm_num
  have e1 := C116_above i1 (n := 0) rfl (x := 100) (by norm_num)
  have e2 := C116_above i2 (n := 0) rfl (x := 100) (by norm_num)
  constructor
  · rw [e1]; norm_num
  · rw [e2]; norm_num

/-- C116, finding: levels in decreasing order are not interpolated between neighbours: at 15 m, between 10 m and 20 m, the wind is taken between 10 m
and the top. -/
theorem C116_decreasing_refuted : uAtH [(100, 50), (20, 10), (10, 0)] 15 = 25 / 9 := by
  have hup : upIdx [(100 : ℝ), 20, 10] 15 = 0 := by
    unfold upIdx
    rw [if_pos ⟨100, by simp, by norm_num⟩]
    apply findIdx_at (by simp)
    · norm_num
    · intro j hj; omega
  have hlo : loIdx [(100 : ℝ), 20, 10] 15 = 2 := by
    unfold loIdx
    rw [if_pos ⟨10, by simp, by norm_num⟩]
    apply findIdx_at (by simp)
    · simp only [List.getElem_cons_succ, List.getElem_cons_zero, decide_eq_true_eq]
      refine ⟨by norm_num, ?_⟩
      intro h' hh hle
      simp only [List.mem_cons, List.not_mem_nil, or_false] at hh
      rcases hh with rfl | rfl | rfl <;> linarith
    · intro j hj
      have : j = 0 ∨ j = 1 := by omega
      rcases this with rfl | rfl <;> norm_num
  unfold uAtH
  simp only [List.map_cons, List.map_nil]
  rw [hup, hlo]
  unfold interpolate1d
  norm_num

/-! ### C117: height correction -/

theorem uAtH_nonneg_below {col : List (ℝ × ℝ)} (h : Spec.increasing col) (hl : 0 < col.length) (hpos : 0 < (col[0]).1) (hu : 0 ≤ (col[0]).2)
    {x : ℝ} (hx : 0 ≤ x) (h1 : x < (col[0]).1) : 0 ≤ uAtH col x := by
  rw [C116_below h hl h1]
  positivity

theorem decay_range {k x : ℝ} (hk : 0 < k) (hx : 0 ≤ x) :
    0 < (if k * x > 0.0001 then Real.exp (-(k * x)) else 1) ∧ (if k * x > 0.0001 then Real.exp (-(k * x)) else 1) ≤ 1 := by
  split
  · exact ⟨Real.exp_pos _, Real.exp_le_one_iff.mpr (by have := mul_nonneg hk.le hx; linarith)⟩
  · exact ⟨one_pos, le_refl _⟩

/-- C117: the correction has the sign of the difference between the orography of the grid and that of the model, is at most `u k |dz|` in size, and
weakens with height. -/
theorem C117_height_correction {k ua dz : ℝ} (hk : 0 < k) (hu : 0 < ua) :
    (∀ x, 0 ≤ x → (0 < dz → 0 < Spec.heightCorrection k ua dz x) ∧ (dz < 0 → Spec.heightCorrection k ua dz x < 0)
        ∧ (dz = 0 → Spec.heightCorrection k ua dz x = 0) ∧ |Spec.heightCorrection k ua dz x| ≤ ua * k * |dz|)
      ∧ ∀ x y, 0 ≤ x → x ≤ y → |Spec.heightCorrection k ua dz y| ≤ |Spec.heightCorrection k ua dz x| := by
  have habs : ∀ x, 0 ≤ x → |Spec.heightCorrection k ua dz x| = (if k * x > 0.0001 then Real.exp (-(k * x)) else 1) * (ua * k * |dz|) := by
    intro x hx
    obtain ⟨e0, e1⟩ := decay_range hk hx
    unfold Spec.heightCorrection
    rw [abs_mul, abs_of_pos (by positivity)]
    ring
  constructor
  · intro x hx
    obtain ⟨e0, e1⟩ := decay_range hk hx
    refine ⟨fun hd => ?_, fun hd => ?_, fun hd => ?_, ?_⟩
    · unfold Spec.heightCorrection; positivity
    · unfold Spec.heightCorrection
      exact mul_neg_of_pos_of_neg (by positivity) hd
    · unfold Spec.heightCorrection; rw [hd, mul_zero]
    · rw [habs x hx]
      have : 0 ≤ ua * k * |dz| := by positivity
      nlinarith
  · intro x y hx hxy
    rw [habs x hx, habs y (le_trans hx hxy)]
    apply mul_le_mul_of_nonneg_right _ (by positivity)
    have hxy' : k * x ≤ k * y := mul_le_mul_of_nonneg_left hxy hk.le
    by_cases cx : k * x > 0.0001
    · rw [if_pos cx, if_pos (lt_of_lt_of_le cx hxy')]
      exact Real.exp_le_exp.mpr (by linarith)
    · rw [if_neg cx]
      exact (decay_range hk (le_trans hx hxy)).2

/-- C117: with a missing orography (NaN or the missing data indicator) there is no height correction, and at sea the wind is then unchanged. -/
theorem C117_missing_orography {a : WindAncil} (ua : ℝ) (h : a.pporo = none ∨ a.modoro = none ∨ a.pporo = some (-32767) ∨ a.modoro = some (-32767)) :
    ∀ pp mod, ¬ Spec.corrected a pp mod ua := by
  rintro pp mod ⟨h1, h2, h3, h4, -⟩
  rcases h with h | h | h | h
  · rw [h] at h1; exact nomatch h1
  · rw [h] at h3; exact nomatch h3
  · rw [h] at h1; exact h2 (Option.some.inj h1).symm
  · rw [h] at h3; exact h4 (Option.some.inj h3).symm

theorem C117_example : ∃ (a : WindAncil) (s σ z : ℝ), Spec.resolved a s σ ∧ Spec.rough a z
    ∧ Spec.corrected a 300 200 (uAtH [(10, 5), (100, 8)] (1 / Spec.waveNumber s σ 2000 4000)) := by
  have hk := C115_wavenumber (s := 0.1) (σ := 50) (ppres := 2000) (modres := 4000) (by norm_num) (by norm_num)
  have hinc : Spec.increasing [((10 : ℝ), (5 : ℝ)), (100, 8)] := by unfold Spec.increasing; norm_num
  refine ⟨⟨some 0.1, some 50, some (some 0.1), some 300, some 200⟩, 0.1, 50, 0.1, ⟨rfl, by norm_num, rfl, by norm_num⟩, ⟨rfl, by norm_num⟩,
    rfl, by norm_num, rfl, by norm_num, ?_⟩
  have h0 : (100 : ℝ) ≤ 1 / Spec.waveNumber 0.1 50 2000 4000 := by
    rw [le_div_iff₀ hk.2.2]
    have h1 := hk.2.1
    have : π / (2000 / 2) ≤ 4 / 1000 := by
      have := Real.pi_le_four
      rw [div_le_div_iff₀ (by norm_num) (by norm_num)]
      linarith
    linarith
  rw [C116_above hinc (n := 0) rfl h0]
  norm_num
  norm_num at h0
  nlinarith

/-! ### C118: the object as it is used again, and the coordinates -/

theorem z0Filled_idem (a : WindAncil) : z0Filled (z0Filled a) = z0Filled a := by
  unfold z0Filled
  rcases h : a.z0 with _ | (_ | v)
  · simp [h]
  · simp [h]
  · by_cases hv : v ≤ 0
    · simp only [if_pos hv]; norm_num
    · simp [if_neg hv, h]

/-- C118: without a roughness length or with a positive one, a second call gives the same result. -/
theorem C118_repeat_partial (a : WindAncil) (ppres modres : ℝ) (hs : List ℝ) (us : List (Option ℝ)) (h : a.z0 = none ∨ ∃ z, Spec.rough a z) :
    roughnessProcess (roughnessProcess a ppres modres hs us).2 ppres modres hs us = roughnessProcess a ppres modres hs us := by
  have hf : z0Filled a = a := by
    rcases h with h | ⟨z, hz⟩
    · exact z0Filled_none h
    · unfold z0Filled; rw [hz.1]; simp only; rw [if_neg (not_le.mpr hz.2)]
  have : (roughnessProcess a ppres modres hs us).2 = a := by
    unfold roughnessProcess
    split <;> exact hf
  rw [this]

/-- A sea point near hills: no roughness length there. -/
noncomputable def Spec.seaPoint : WindAncil := ⟨some 0.1, some 50, some (some 0), none, none⟩

theorem seaPoint_first (hs : ℝ) (u : ℝ) (hu : 0 ≤ u) :
    (roughnessProcess Spec.seaPoint 2000 4000 [hs] [some u]).1 = .ok [(hs, u)] := by
  have hc : ¬ ∃ v ∈ [some u], v = none ∨ ∃ w, v = some w ∧ w < 0 := by
    rintro ⟨v, hv, hw⟩
    simp only [List.mem_singleton] at hv
    subst hv
    rcases hw with hw | ⟨w, hw, hw'⟩
    · exact nomatch hw
    · cases hw; linarith
  unfold roughnessProcess
  rw [if_neg hc]
  simp only [List.map_cons, List.map_nil, Option.getD_some, List.zip_cons_cons, List.zip_nil_right]
  obtain ⟨hc, e, hhc⟩ := C115_no_roughness (a := Spec.seaPoint) (s := 0.1) (σ := 50) (ppres := 2000) (modres := 4000)
    ⟨rfl, by norm_num, rfl, by norm_num⟩
    (by
      rintro z ⟨h1, h2⟩
      simp only [Spec.seaPoint, Option.some.injEq] at h1
      linarith) (by norm_num) (by norm_num) (by norm_num) [(hs, u)]
  rw [e]
  simp only [List.map_cons, List.map_nil, hhc.1 (C117_missing_orography _ (Or.inl rfl)), add_zero, max_eq_right hu]

/-- C118, finding: the first call fills the roughness length of sea points in place, after the mask was computed; the second call on the same plugin
takes these points for land and applies the roughness correction there. -/
theorem C118_repeat_refuted : ∃ h u : ℝ,
    (roughnessProcess Spec.seaPoint 2000 4000 [h] [some u]).1 = .ok [(h, u)]
      ∧ (roughnessProcess (roughnessProcess Spec.seaPoint 2000 4000 [h] [some u]).2 2000 4000 [h] [some u]).1 ≠ .ok [(h, u)] := by
  have hlt : (0.5 : ℝ) < Spec.refHeight 50 (Spec.waveNumber 0.1 50 2000 4000) :=
    lt_of_lt_of_le (by norm_num) (C115_reference_height 50 _ (C115_wavenumber (by norm_num) (by norm_num)).2.2).1
  set href := Spec.refHeight 50 (Spec.waveNumber 0.1 50 2000 4000) with hhref
  refine ⟨0.5, 1, seaPoint_first 0.5 1 (by norm_num), ?_⟩
  have hc : ¬ ∃ v ∈ [some (1 : ℝ)], v = none ∨ ∃ w, v = some w ∧ w < 0 := by
    rintro ⟨v, hv, hw⟩
    simp only [List.mem_singleton] at hv
    subst hv
    rcases hw with hw | ⟨w, hw, hw'⟩
    · exact nomatch hw
    · cases hw; linarith
  have hleft : (roughnessProcess Spec.seaPoint 2000 4000 [0.5] [some 1]).2 = ⟨some 0.1, some 50, some (some (1 / 10000)), none, none⟩ := by
    unfold roughnessProcess
    rw [if_neg hc]
    simp only [z0Filled, Spec.seaPoint, le_refl, if_true]
  rw [hleft]
  unfold roughnessProcess
  rw [if_neg hc]
  simp only [List.map_cons, List.map_nil, Option.getD_some, List.zip_cons_cons, List.zip_nil_right]
  obtain ⟨c, hcol, hc0⟩ := C115_profile (a := ⟨some 0.1, some 50, some (some (1 / 10000)), none, none⟩) (s := 0.1) (σ := 50) (z := 1 / 10000)
    (ppres := 2000) (modres := 4000) ⟨rfl, by norm_num, rfl, by norm_num⟩ ⟨rfl, by norm_num⟩ (by norm_num) (by norm_num) (by norm_num) [(0.5, 1)]
  rw [hcol, ← hhref]
  have hcz := hc0.1 (C117_missing_orography _ (Or.inl rfl))
  simp only [List.map_cons, List.map_nil, hcz, add_zero]
  intro heq
  have heq' := congrArg (fun l => (l.map Prod.snd)) (Except.ok.inj heq)
  simp only [List.map_cons, List.map_nil, List.cons.injEq, and_true] at heq'
  have hinc : Spec.increasing [((0.5 : ℝ), (1 : ℝ))] := by unfold Spec.increasing; simp
  -- with a single level the wind at the reference height is proportional to the height
  have hu : uAtH [((0.5 : ℝ), (1 : ℝ))] href = href / 0.5 := by
    have hup : upIdx [(0.5 : ℝ)] href = 0 := by
      unfold upIdx
      rw [if_neg]
      rintro ⟨v, hv, hv'⟩
      simp only [List.mem_singleton] at hv
      rw [hv] at hv'
      linarith
    have hlo := loIdx_at hinc (i := 0) (by simp) (x := href) (by simpa using hlt.le) (fun j hj hij => by simp at hj; omega)
    unfold uAtH
    simp only [List.map_cons, List.map_nil] at hlo ⊢
    rw [hup, hlo]
    unfold interpolate1d
    simp
  rw [hu] at heq'
  unfold Spec.logProfile at heq'
  rw [if_pos hlt] at heq'
  -- `h / log (h / z)` increases with `h` for `h > e z`
  have hz1 : 0 < Real.log (0.5 / (1 / 10000)) := Real.log_pos (by norm_num)
  have hz2 : Real.log (0.5 / (1 / 10000)) < Real.log (href / (1 / 10000)) := by
    apply Real.log_lt_log (by norm_num)
    exact div_lt_div_of_pos_right hlt (by norm_num)
  have hone : href / 0.5 * (Real.log (0.5 / (1 / 10000)) / Real.log (href / (1 / 10000))) = 1 := by
    rcases max_choice 0 (href / 0.5 * (Real.log (0.5 / (1 / 10000)) / Real.log (href / (1 / 10000)))) with hm | hm
    · rw [hm] at heq'; exact absurd heq' (by norm_num)
    · rw [hm] at heq'; exact heq'
  have hL2 : 0 < Real.log (href / (1 / 10000)) := lt_trans hz1 hz2
  have hmul : href * Real.log (0.5 / (1 / 10000)) = 0.5 * Real.log (href / (1 / 10000)) := by
    rw [div_mul_div_comm, div_eq_one_iff_eq (by positivity)] at hone
    linarith
  -- log href' = log 0.5' + log (2 href), and log t ≤ t - 1
  have hsplit : Real.log (href / (1 / 10000)) = Real.log (0.5 / (1 / 10000)) + Real.log (href / 0.5) := by
    rw [← Real.log_mul (by norm_num) (by positivity)]
    congr 1
    field_simp
  have hle : Real.log (href / 0.5) ≤ href / 0.5 - 1 := Real.log_le_sub_one_of_pos (by positivity)
  have hbig : 1 < Real.log (0.5 / (1 / 10000)) := by
    rw [Real.lt_log_iff_exp_lt (by norm_num)]
    have := Real.exp_one_lt_d9
    norm_num at this ⊢
    linarith
  rw [hsplit] at hmul
  have e5 : href / 0.5 = 2 * href := by ring
  rw [e5] at hle hmul
  nlinarith

/-- C118: negative or missing wind is refused, and nothing else is. -/
theorem C118_invalid_wind (a : WindAncil) (ppres modres : ℝ) (hs : List ℝ) (us : List (Option ℝ)) :
    (∃ r, (roughnessProcess a ppres modres hs us).1 = .ok r) ↔ ∀ u ∈ us, ∃ v, u = some v ∧ 0 ≤ v := by
  unfold roughnessProcess
  by_cases h : ∃ u ∈ us, u = none ∨ ∃ v, u = some v ∧ v < 0
  · rw [if_pos h]
    constructor
    · rintro ⟨r, hr⟩; exact nomatch hr
    · intro hall
      obtain ⟨u, hu, hb⟩ := h
      obtain ⟨v, hv, h0⟩ := hall u hu
      rcases hb with hb | ⟨w, hw, hw0⟩
      · rw [hb] at hv; exact nomatch hv
      · rw [hw] at hv; cases hv; linarith
  · rw [if_neg h]
    refine ⟨fun _ u hu => ?_, fun _ => ⟨_, rfl⟩⟩
    rcases u with _ | v
    · exact absurd ⟨none, hu, Or.inl rfl⟩ h
    · refine ⟨v, rfl, ?_⟩
      by_contra hc
      exact h ⟨some v, hu, Or.inr ⟨v, rfl, not_le.mp hc⟩⟩

/-- C118: the result has the dimensions of the input in the order of the input, whatever it is, when there is more than one time or no time
dimension. -/
theorem C118_dimension_order (dims : List WAxis) (nt : ℕ) (h : (dims.Perm [.y, .x, .z, .t] ∧ nt ≠ 1) ∨ dims.Perm [.y, .x, .z]) :
    downscaleDims dims nt = .ok dims := by
  rcases h with ⟨h, hn⟩ | h
  · have hm : dims ∈ [WAxis.y, .x, .z, .t].permutations' := List.mem_permutations'.mpr h
    have key : ∀ d ∈ [WAxis.y, .x, .z, .t].permutations', downscaleDims d 2 = .ok d := by decide +kernel
    have e : downscaleDims dims nt = downscaleDims dims 2 := by
      unfold downscaleDims
      simp [hn]
    rw [e]
    exact key dims hm
  · have hm : dims ∈ [WAxis.y, .x, .z].permutations' := List.mem_permutations'.mpr h
    have key : ∀ d ∈ [WAxis.y, .x, .z].permutations', downscaleDims d 2 = .ok d ∧ WAxis.t ∉ d := by decide +kernel
    have e : downscaleDims dims nt = downscaleDims dims 2 := by
      unfold downscaleDims
      simp [(key dims hm).2]
    rw [e]
    exact (key dims hm).1

/-- C118, finding: a time dimension of length one always fails, after all the work is done. -/
theorem C118_single_time_refuted (dims : List WAxis) (h : dims.Perm [.y, .x, .z, .t]) : downscaleDims dims 1 = .error .valueError := by
  have hm : dims ∈ [WAxis.y, .x, .z, .t].permutations' := List.mem_permutations'.mpr h
  have key : ∀ d ∈ [WAxis.y, .x, .z, .t].permutations', downscaleDims d 1 = .error .valueError := by decide +kernel
  exact key dims hm

/-- C118: with exactly one of the known names among the coordinates the vertical coordinate is that one, and without any there is none. -/
theorem C118_vertical_name (names wanted : List String) :
    (∀ n, names.filter (fun m => decide (m ∈ wanted)) = [n] → coordChoices names wanted = [some n])
      ∧ (names.filter (fun m => decide (m ∈ wanted)) = [] → coordChoices names wanted = [none]) := by
  constructor
  · intro n h
    unfold coordChoices
    rw [h]
    rfl
  · intro h
    unfold coordChoices
    rw [h]
    rfl

/-- C118, finding: with both a height and a model level number on the cube, either may be taken for the vertical coordinate, depending on the run. -/
theorem C118_vertical_name_refuted :
    coordChoices ["time", "height", "model_level_number"] ["height", "model_level_number"] = [some "height", some "model_level_number"] := by
  decide +kernel

/-- C118: the ancillaries are accepted exactly when their units are as expected and all are on one grid. -/
theorem C118_ancillaries (aos sigma pporo modoro : String × String) (z0 : Option (String × String)) :
    checkAncils aos sigma pporo modoro z0 = .ok true
      ↔ aos.1 = "1" ∧ sigma.1 = "m" ∧ pporo.1 = "m" ∧ modoro.1 = "m" ∧ (∀ z, z0 = some z → z.1 = "m" ∧ z.2 = aos.2)
        ∧ sigma.2 = aos.2 ∧ pporo.2 = aos.2 ∧ modoro.2 = aos.2 := by
  unfold checkAncils
  by_cases hu : aos.1 ≠ "1" ∨ sigma.1 ≠ "m" ∨ pporo.1 ≠ "m" ∨ modoro.1 ≠ "m"
  · rw [if_pos hu]
    constructor
    · intro h; exact nomatch h
    · rintro ⟨h1, h2, h3, h4, -⟩
      rcases hu with hu | hu | hu | hu
      · exact absurd h1 hu
      · exact absurd h2 hu
      · exact absurd h3 hu
      · exact absurd h4 hu
  · rw [if_neg hu]
    push Not at hu
    obtain ⟨h1, h2, h3, h4⟩ := hu
    have allEq : ∀ (c : String) (l : List String), ((c :: l).all (fun a => (c :: l).all (fun b => decide (a = b))) = true) ↔ ∀ b ∈ l, b = c := by
      intro c l
      simp only [List.all_eq_true, decide_eq_true_eq]
      constructor
      · intro h b hb
        exact h b (List.mem_cons_of_mem _ hb) c List.mem_cons_self
      · intro h a ha b hb
        have e : ∀ y ∈ c :: l, y = c := by
          intro y hy
          rcases List.mem_cons.mp hy with hy | hy
          · exact hy
          · exact h y hy
        rw [e a ha, e b hb]
    rcases z0 with _ | z
    · simp only [Except.ok.injEq]
      rw [allEq]
      simp [h1, h2, h3, h4]
    · simp only
      by_cases hz : z.1 ≠ "m"
      · rw [if_pos hz]
        constructor
        · intro h; exact nomatch h
        · rintro ⟨-, -, -, -, h, -⟩; exact absurd (h z rfl).1 hz
      · rw [if_neg hz]
        push Not at hz
        simp only [Except.ok.injEq]
        rw [allEq]
        simp [h1, h2, h3, h4, hz]
        tauto

/-- C118: the resolution is the mean of the two spacings in metres, on a metre grid only. -/
theorem C118_resolution (xname yname xunit yunit : String) (xres yres r : ℚ) :
    avGridRes xname yname xunit yunit xres yres = .ok r
      ↔ xname = "projection_x_coordinate" ∧ yname = "projection_y_coordinate" ∧ xunit = "m" ∧ yunit = "m" ∧ r = (|xres| + |yres|) / 2 := by
  unfold avGridRes
  by_cases h1 : xname ≠ "projection_x_coordinate" ∨ yname ≠ "projection_y_coordinate"
  · rw [if_pos h1]
    constructor
    · intro h; exact nomatch h
    · rintro ⟨a, b, -⟩; rcases h1 with h1 | h1
      · exact absurd a h1
      · exact absurd b h1
  · rw [if_neg h1]
    push Not at h1
    by_cases h2 : xunit ≠ "m" ∨ yunit ≠ "m"
    · rw [if_pos h2]
      constructor
      · intro h; exact nomatch h
      · rintro ⟨-, -, a, b, -⟩; rcases h2 with h2 | h2
        · exact absurd a h2
        · exact absurd b h2
    · rw [if_neg h2]
      push Not at h2
      constructor
      · intro h; cases h; exact ⟨h1.1, h1.2, h2.1, h2.2, rfl⟩
      · rintro ⟨-, -, -, -, rfl⟩; rfl

end Improver
