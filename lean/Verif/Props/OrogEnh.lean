import Verif.Model.OrogEnh
import Verif.Props.Hail
import Mathlib.Algebra.BigOperators.Intervals
import Mathlib.Algebra.Order.BigOperators.Group.Finset
import Mathlib.Tactic.Linarith
import Mathlib.Tactic.Ring
import Mathlib.Tactic.FieldSimp
import Mathlib.Tactic.NormNum

/-! Properties of orographic enhancement: the value at a point (C166) and the upstream integral (C167). -/

namespace Improver

open Finset

/-! ## C166: the enhancement generated at a point -/

/-- The conditions under which a point generates rain: high ground, humid air, and wind blowing up the slope. -/
def Spec.generates (meanHeight rh w : ℝ) : Prop := 20 ≤ meanHeight ∧ 0.8 ≤ rh ∧ 0.0005 ≤ w

/-- The rain rate generated (mm h-1): the vapour flux up the slope, as vapour density times ascent. -/
noncomputable def Spec.generatedRate (rh svp w t : ℝ) : ℝ := 3600 * (rh * svp / (461.6 * t)) * w

theorem orogMasked_iff (h rh w : ℝ) : orogMasked h rh w = true ↔ h < 20 ∨ rh < 0.8 ∨ |w| < 0.0005 := by
  unfold orogMasked
  dsimp only
  by_cases h1 : h < 20 <;> by_cases h2 : rh < 0.8 <;> by_cases h3 : |w| < 0.0005 <;>
    simp only [h1, h2, h3, if_true, if_false, true_or, or_true, or_self, Bool.false_eq_true]

/-- C166: the enhancement at a point is the generated rate where the point generates rain and zero everywhere
else. -/
theorem C166_point_value {h rh svp w t : ℝ} (hs : 0 < svp) (ht : 0 < t) :
    (Spec.generates h rh w → pointEnhancement h rh svp w t = Spec.generatedRate rh svp w t ∧
      0 < pointEnhancement h rh svp w t) ∧
    (¬ Spec.generates h rh w → pointEnhancement h rh svp w t = 0) := by
  have hform : (3600.0 : ℝ) / 461.6 * (rh * svp * w / t) = Spec.generatedRate rh svp w t := by
    unfold Spec.generatedRate
    have := ht.ne'
    field_simp
    norm_num
    ring
  constructor
  · rintro ⟨h1, h2, h3⟩
    have hm : orogMasked h rh w = false := by
      rw [Bool.eq_false_iff, Ne, orogMasked_iff]
      have : |w| = w := abs_of_pos (by linarith [show (0 : ℝ) < 0.0005 by norm_num])
      rw [this]
      push Not
      exact ⟨h1, h2, h3⟩
    have hw : 0 < w := by linarith [show (0 : ℝ) < 0.0005 by norm_num]
    have hr : 0 < rh := by linarith [show (0 : ℝ) < 0.8 by norm_num]
    have hpos : (3600.0 : ℝ) / 461.6 * (rh * svp * w / t) > 0 := by positivity
    have e : pointEnhancement h rh svp w t = Spec.generatedRate rh svp w t := by
      unfold pointEnhancement
      dsimp only
      rw [hm, Bool.not_false, if_pos rfl, if_pos hpos, hform]
    exact ⟨e, by rw [e, ← hform]; exact hpos⟩
  · intro hn
    unfold pointEnhancement
    dsimp only
    by_cases hm : orogMasked h rh w = true
    · rw [hm, Bool.not_true, if_neg (by simp : ¬ (false = true)), ite_self]
    · rw [Bool.not_eq_true] at hm
      rw [hm, Bool.not_false, if_pos rfl, if_neg]
      have hmm : ¬ (h < 20 ∨ rh < 0.8 ∨ |w| < 0.0005) := by rw [← orogMasked_iff, hm]; simp
      push Not at hmm
      have hw : w ≤ 0 := by
        by_contra hc
        push Not at hc
        exact hn ⟨hmm.1, hmm.2.1, by rw [abs_of_pos hc] at hmm; exact hmm.2.2⟩
      have hr : 0 < rh := by linarith [show (0 : ℝ) < 0.8 by norm_num, hmm.2.1]
      have : rh * svp * w / t ≤ 0 := by
        apply div_nonpos_of_nonpos_of_nonneg _ ht.le
        exact mul_nonpos_of_nonneg_of_nonpos (by positivity) hw
      have h36 : (0 : ℝ) ≤ 3600.0 / 461.6 := by norm_num
      nlinarith

/-- C166: the field of point enhancements is nowhere negative, whatever the wind and the topography. -/
theorem C166_nonneg (f : OrogFields) (y x : ℕ) : 0 ≤ pointField f y x := by
  unfold pointField pointEnhancement
  dsimp only
  split_ifs <;> linarith

/-- C166: on physical input the field is decided by the wind component up the slope: zero on flat or descending
ground, and otherwise the flux of water vapour. -/
theorem C166_field_value (f : OrogFields) (y x : ℕ) (hp : 0 ≤ f.pressure y x) (ht : 0 < f.temperature y x) :
    (Spec.generates (f.meanHeight y x) (f.rh y x) (f.gradx y x * f.u y x + f.grady y x * f.v y x) →
      pointField f y x = Spec.generatedRate (f.rh y x) (svpInAir (f.temperature y x) (f.pressure y x))
        (f.gradx y x * f.u y x + f.grady y x * f.v y x) (f.temperature y x) ∧ 0 < pointField f y x) ∧
    (¬ Spec.generates (f.meanHeight y x) (f.rh y x) (f.gradx y x * f.u y x + f.grady y x * f.v y x) →
      pointField f y x = 0) :=
  C166_point_value (svpInAir_pos hp) ht

/-- C166: more humid air, or faster ascent, never gives less rain. -/
theorem C166_monotone {h rh rh' svp w w' t : ℝ} (hs : 0 < svp) (ht : 0 < t) (hr : rh ≤ rh') (hw : w ≤ w') :
    pointEnhancement h rh svp w t ≤ pointEnhancement h rh' svp w' t := by
  by_cases hg : Spec.generates h rh w
  · have hg' : Spec.generates h rh' w' := ⟨hg.1, hg.2.1.trans hr, hg.2.2.trans hw⟩
    rw [((C166_point_value hs ht).1 hg).1, ((C166_point_value hs ht).1 hg').1]
    unfold Spec.generatedRate
    have h1 : (0 : ℝ) < 0.8 := by norm_num
    have h2 : (0 : ℝ) < 0.0005 := by norm_num
    have hrh : 0 < rh := by linarith [hg.2.1]
    have hww : 0 < w := by linarith [hg.2.2]
    have : rh * svp / (461.6 * t) ≤ rh' * svp / (461.6 * t) :=
      div_le_div_of_nonneg_right (mul_le_mul_of_nonneg_right hr hs.le) (by positivity)
    have h3 : 0 ≤ rh' * svp / (461.6 * t) := by
      have : 0 < rh' := by linarith
      positivity
    exact mul_le_mul (by linarith) hw hww.le (by linarith)
  · rw [(C166_point_value hs ht).2 hg]
    by_cases hg' : Spec.generates h rh' w'
    · exact ((C166_point_value hs ht).1 hg').2.le
    · rw [(C166_point_value hs ht).2 hg']

/-- A point that generates rain, and one on the lee side that does not. -/
example : Spec.generates 300 0.9 (0.1 * 10 + 0 * 3) ∧ ¬ Spec.generates 300 0.9 (-0.1 * 10 + 0 * 3) := by
  constructor
  · refine ⟨?_, ?_, ?_⟩ <;> norm_num
  · rintro ⟨-, -, h⟩
    norm_num at h

/-! ## C167: the upstream integral -/

theorem windSpeed_nonneg (u v : ℝ) : 0 ≤ windSpeedOf u v := Real.sqrt_nonneg _

theorem hasWind_iff (u v : ℝ) : hasWind u v = true ↔ 1e-8 < windSpeedOf u v := by
  unfold hasWind
  rw [Bool.not_eq_true', decide_eq_false_iff_not, abs_zero, mul_zero, add_zero, sub_zero,
    abs_of_nonneg (windSpeed_nonneg u v), not_le]

theorem sin_cos_sq {u v : ℝ} (h : hasWind u v = true) : sinWind u v ^ 2 + cosWind u v ^ 2 = 1 := by
  have hp : 0 < windSpeedOf u v := lt_trans (by norm_num) ((hasWind_iff u v).1 h)
  unfold sinWind cosWind
  rw [if_pos h, if_pos h, div_pow, div_pow, ← add_div]
  have : windSpeedOf u v ^ 2 = u ^ 2 + v ^ 2 := by
    unfold windSpeedOf
    exact Real.sq_sqrt (by positivity)
  rw [this]
  exact div_self (by rw [← this]; positivity)

theorem maxSinCos_eq (u v : ℝ) : maxSinCos u v = max |sinWind u v| |cosWind u v| := by
  unfold maxSinCos
  split
  · rename_i h; rw [max_eq_left h.le]
  · rename_i h; rw [max_eq_right (not_lt.1 h)]

theorem maxSinCos_bounds {u v : ℝ} (h : hasWind u v = true) :
    1 / 2 ≤ maxSinCos u v ^ 2 ∧ 0 < maxSinCos u v ∧ maxSinCos u v ≤ 1 := by
  have hs := sin_cos_sq h
  rw [maxSinCos_eq]
  have h1 := sq_abs (sinWind u v)
  have h2 := sq_abs (cosWind u v)
  have n1 := abs_nonneg (sinWind u v)
  have n2 := abs_nonneg (cosWind u v)
  have hsq : 1 / 2 ≤ (max |sinWind u v| |cosWind u v|) ^ 2 := by
    rcases le_total |sinWind u v| |cosWind u v| with hc | hc
    · rw [max_eq_right hc]; nlinarith
    · rw [max_eq_left hc]; nlinarith
  refine ⟨hsq, ?_, ?_⟩
  · have : 0 ≤ max |sinWind u v| |cosWind u v| := n1.trans (le_max_left _ _)
    rcases this.lt_or_eq with hc | hc
    · exact hc
    · rw [← hc] at hsq; norm_num at hsq
  · apply max_le
    · nlinarith
    · nlinarith

theorem calm_parts {u v : ℝ} (h : hasWind u v = false) : sinWind u v = 0 ∧ cosWind u v = 0 ∧ maxSinCos u v = 0 := by
  have a : sinWind u v = 0 := by unfold sinWind; rw [h]; rfl
  have b : cosWind u v = 0 := by unfold cosWind; rw [h]; rfl
  exact ⟨a, b, by rw [maxSinCos_eq, a, b]; simp⟩

/-- A whole number moved into a domain of n cells. -/
noncomputable def Spec.ontoGrid (n : ℕ) (i : ℤ) : ℕ := (max 0 (min i ((n : ℤ) - 1))).toNat

theorem sourceIndex_some (n pos : ℕ) (d s : ℝ) (hn : 0 < n) :
    sourceIndex n pos (some d) s = Spec.ontoGrid n (rintR (pos - d * s)) := by
  unfold sourceIndex Spec.ontoGrid
  dsimp only
  split_ifs <;> omega

theorem ontoGrid_lt {n : ℕ} (hn : 0 < n) (i : ℤ) : Spec.ontoGrid n i < n := by
  unfold Spec.ontoGrid
  omega

/-- C167: every source point read lies on the grid. -/
theorem C167_sources_on_grid {n : ℕ} (hn : 0 < n) (pos : ℕ) (d : Option ℝ) (s : ℝ) :
    sourceIndex n pos d s < n := by
  cases d with
  | none => exact hn
  | some d => rw [sourceIndex_some _ _ _ _ hn]; exact ontoGrid_lt hn _

theorem le_roiLength {ny nx : ℕ} (spacing : ℝ) (u v : RField) {y x : ℕ} (hy : y < ny) (hx : x < nx) :
    maxRoi spacing (maxSinCos (u y x) (v y x)) ≤ roiLength ny nx spacing u v := by
  unfold roiLength
  exact Finset.le_sup (f := fun p : ℕ × ℕ => maxRoi spacing (maxSinCos (u p.1 p.2) (v p.1 p.2)))
    (b := (y, x)) (by simp [hy, hx])

/-- The row or column, before it is forced onto the grid, of the k-th source point: k cells back along the wind,
where s is the wind component along the axis and m the larger of the two components. -/
noncomputable def Spec.upwind (pos : ℕ) (k : ℕ) (m s : ℝ) : ℤ := rintR (pos - k * s / m)

/-- The larger wind component, which decides the axis along which cells are counted. -/
noncomputable def Spec.mainWind (u v : ℝ) : ℝ := max |u| |v|

/-- The weight of the k-th source point: a Gaussian in its distance (grid squares) whose standard deviation is
the distance the wind covers in the cloud's lifetime of 102 s. -/
noncomputable def Spec.gauss (spacing u v : ℝ) (k : ℕ) : ℝ :=
  Real.exp (-(k * √(u ^ 2 + v ^ 2) / Spec.mainWind u v) ^ 2 / (2 * (102 * √(u ^ 2 + v ^ 2) / (1000 * spacing)) ^ 2))

theorem wind_ratio {u v : ℝ} (h : hasWind u v = true) :
    maxSinCos u v = Spec.mainWind u v / √(u ^ 2 + v ^ 2) ∧ sinWind u v = u / √(u ^ 2 + v ^ 2) ∧
    cosWind u v = v / √(u ^ 2 + v ^ 2) ∧ 0 < √(u ^ 2 + v ^ 2) ∧ 0 < Spec.mainWind u v := by
  have hp : 0 < √(u ^ 2 + v ^ 2) := lt_trans (by norm_num) ((hasWind_iff u v).1 h)
  have a : sinWind u v = u / √(u ^ 2 + v ^ 2) := by unfold sinWind; rw [if_pos h]; rfl
  have b : cosWind u v = v / √(u ^ 2 + v ^ 2) := by unfold cosWind; rw [if_pos h]; rfl
  have c : maxSinCos u v = Spec.mainWind u v / √(u ^ 2 + v ^ 2) := by
    rw [maxSinCos_eq, a, b, abs_div, abs_div, abs_of_pos hp, Spec.mainWind, max_div_div_right hp.le]
  refine ⟨c, a, b, hp, ?_⟩
  have := (maxSinCos_bounds h).2.1
  rw [c, div_pos_iff_of_pos_right hp] at this
  exact this

theorem sum_slots (length roi : ℕ) (hle : roi ≤ length) (msc : ℝ) (g : Option ℝ → ℝ) (hg : g none = 0) :
    ((pointDistances length roi msc).map g).sum = ∑ k ∈ range roi, g (some ((k : ℝ) / msc)) := by
  unfold pointDistances
  rw [List.map_map, ← List.sum_toFinset, List.toFinset_range]
  · rw [← Finset.sum_subset (Finset.range_subset_range.2 hle)]
    · apply Finset.sum_congr rfl
      intro k hk
      rw [Function.comp, if_pos (Finset.mem_range.1 hk)]
    · intro k _ hk
      rw [Function.comp, if_neg (by simpa using hk), hg]
  · exact List.nodup_range

theorem sourceWeight_some {spacing u v : ℝ} (hs : 0 < spacing) (h : hasWind u v = true) (k : ℕ) :
    sourceWeight spacing (windSpeedOf u v) (some ((k : ℝ) / maxSinCos u v)) = Spec.gauss spacing u v k := by
  obtain ⟨c, -, -, hp, hm⟩ := wind_ratio h
  unfold sourceWeight Spec.gauss
  dsimp only
  have hw : 0 < windSpeedOf u v := hp
  rw [if_pos (by positivity)]
  congr 1
  rw [c, div_div_eq_mul_div]
  unfold windSpeedOf
  rw [mul_comm √(u ^ 2 + v ^ 2) 102, div_eq_div_iff (by positivity) (by positivity)]
  ring

/-- The weighted sum over the first n source points of the cell, and the sum of their weights. -/
noncomputable def Spec.total (ny nx : ℕ) (spacing u v : ℝ) (point : RField) (y x n : ℕ) : ℝ :=
  ∑ k ∈ range n, point (Spec.ontoGrid ny (Spec.upwind y k (Spec.mainWind u v) v))
    (Spec.ontoGrid nx (Spec.upwind x k (Spec.mainWind u v) u)) * Spec.gauss spacing u v k

noncomputable def Spec.totalWeight (spacing u v : ℝ) (n : ℕ) : ℝ := ∑ k ∈ range n, Spec.gauss spacing u v k

theorem weightedSums_eq {ny nx : ℕ} (hny : 0 < ny) (hnx : 0 < nx) {spacing : ℝ} (hs : 0 < spacing) (point : RField)
    (y x : ℕ) {u v : ℝ} (h : hasWind u v = true) {length roi : ℕ} (hle : roi ≤ length) :
    weightedSums ny nx spacing point y x u v (pointDistances length roi (maxSinCos u v)) =
      (Spec.total ny nx spacing u v point y x roi, Spec.totalWeight spacing u v roi) := by
  obtain ⟨c, es, ec, hp, hm⟩ := wind_ratio h
  have step : ∀ (k : ℕ) (s : ℝ), (k : ℝ) / (Spec.mainWind u v / √(u ^ 2 + v ^ 2)) * (s / √(u ^ 2 + v ^ 2)) =
      k * s / Spec.mainWind u v := by
    intro k s
    have := hp.ne'
    have := hm.ne'
    field_simp
  unfold weightedSums Spec.total Spec.totalWeight
  congr 1
  · rw [sum_slots length roi hle _ (fun d => point (sourceIndex ny y d (cosWind u v))
      (sourceIndex nx x d (sinWind u v)) * sourceWeight spacing (windSpeedOf u v) d)
      (by simp [sourceWeight])]
    apply Finset.sum_congr rfl
    intro k _
    rw [sourceIndex_some _ _ _ _ hny, sourceIndex_some _ _ _ _ hnx, sourceWeight_some hs h, c, es, ec, step, step]
    rfl
  · rw [sum_slots length roi hle _ (fun d => sourceWeight spacing (windSpeedOf u v) d) (by simp [sourceWeight])]
    apply Finset.sum_congr rfl
    intro k _
    rw [sourceWeight_some hs h]

theorem gauss_pos (spacing u v : ℝ) (k : ℕ) : 0 < Spec.gauss spacing u v k := Real.exp_pos _

theorem totalWeight_pos (spacing u v : ℝ) {n : ℕ} (hn : 0 < n) : 0 < Spec.totalWeight spacing u v n :=
  Finset.sum_pos (fun k _ => gauss_pos _ _ _ k) ⟨0, by simpa using hn⟩

/-- C167: where there is wind the enhancement is 0.23265 times the weighted mean of the point values at the
cell itself and at the upwind cells, of which there are as many as fit in 15 km; it is undefined exactly when
not even the cell itself fits. -/
theorem C167_weighted_mean {ny nx : ℕ} {spacing : ℝ} (hs : 0 < spacing) (u v point : RField) {y x : ℕ}
    (hy : y < ny) (hx : x < nx) (hw : 1e-8 < √(u y x ^ 2 + v y x ^ 2)) {n : ℕ}
    (hn : n = ⌊15 / spacing * (Spec.mainWind (u y x) (v y x) / √(u y x ^ 2 + v y x ^ 2))⌋₊) :
    upstreamComponent ny nx spacing u v point y x =
      if n = 0 then none else
        some (0.23265 * (Spec.total ny nx spacing (u y x) (v y x) point y x n /
          Spec.totalWeight spacing (u y x) (v y x) n)) := by
  have h : hasWind (u y x) (v y x) = true := (hasWind_iff _ _).2 hw
  have hn' : maxRoi spacing (maxSinCos (u y x) (v y x)) = n := by rw [hn, maxRoi, (wind_ratio h).1]
  have hle := le_roiLength spacing u v hy hx
  unfold upstreamComponent
  dsimp only
  rw [if_pos h, weightedSums_eq (by omega) (by omega) hs point y x h hle, hn']
  dsimp only
  by_cases h0 : n = 0
  · rw [if_pos h0, if_pos]
    rw [h0]; rfl
  · rw [if_neg h0, if_neg (totalWeight_pos _ _ _ (by omega)).ne']

/-- C167: where the air is calm the enhancement is zero. -/
theorem C167_calm (ny nx : ℕ) (spacing : ℝ) (u v point : RField) (y x : ℕ)
    (hw : √(u y x ^ 2 + v y x ^ 2) ≤ 1e-8) : upstreamComponent ny nx spacing u v point y x = some 0 := by
  have h : hasWind (u y x) (v y x) = false := by
    rw [← Bool.not_eq_true, hasWind_iff]
    exact not_lt.2 hw
  have hroi : maxRoi spacing (maxSinCos (u y x) (v y x)) = 0 := by
    rw [(calm_parts h).2.2, maxRoi, mul_zero, Nat.floor_zero]
  unfold upstreamComponent
  dsimp only
  rw [h, hroi, if_neg (by simp)]
  unfold weightedSums
  dsimp only
  rw [sum_slots _ 0 (Nat.zero_le _) _ (fun d => point (sourceIndex ny y d (cosWind (u y x) (v y x)))
      (sourceIndex nx x d (sinWind (u y x) (v y x))) * sourceWeight spacing (windSpeedOf (u y x) (v y x)) d)
      (by simp [sourceWeight])]
  simp

/-- C167: on any grid with spacing at most 10.6 km the enhancement of every cell is defined. -/
theorem C167_defined {ny nx : ℕ} {spacing : ℝ} (hs : 0 < spacing) (hmax : spacing ≤ 10.6) (u v point : RField)
    {y x : ℕ} (hy : y < ny) (hx : x < nx) : ∃ e, upstreamComponent ny nx spacing u v point y x = some e := by
  by_cases hw : 1e-8 < √(u y x ^ 2 + v y x ^ 2)
  · rw [C167_weighted_mean hs u v point hy hx hw rfl, if_neg]
    · exact ⟨_, rfl⟩
    · have hb := maxSinCos_bounds ((hasWind_iff _ _).2 hw)
      rw [(wind_ratio ((hasWind_iff _ _).2 hw)).1] at hb
      generalize Spec.mainWind (u y x) (v y x) / √(u y x ^ 2 + v y x ^ 2) = m at hb
      rw [Nat.floor_eq_zero, not_lt]
      have hm : 10.6 / 15 ≤ m := by
        by_contra hc
        push Not at hc
        have : m ^ 2 < (10.6 / 15) ^ 2 := by nlinarith [hb.2.1]
        have h2 : ((10.6 : ℝ) / 15) ^ 2 < 1 / 2 := by norm_num
        linarith [hb.1]
      rw [div_mul_eq_mul_div, le_div_iff₀ hs]
      have : (15 : ℝ) * (10.6 / 15) = 10.6 := by norm_num
      nlinarith
  · exact ⟨0, C167_calm ny nx spacing u v point y x (not_lt.1 hw)⟩

/-- C167 fails on coarse grids: with a spacing above 15 km every windy cell is NaN. -/
theorem C167_coarse_grid_refuted {ny nx : ℕ} {spacing : ℝ} (hs : 15 < spacing) (u v point : RField) {y x : ℕ}
    (hy : y < ny) (hx : x < nx) (hw : 1e-8 < √(u y x ^ 2 + v y x ^ 2)) :
    upstreamComponent ny nx spacing u v point y x = none := by
  rw [C167_weighted_mean (by linarith) u v point hy hx hw rfl, if_pos]
  have hb := maxSinCos_bounds ((hasWind_iff _ _).2 hw)
  rw [(wind_ratio ((hasWind_iff _ _).2 hw)).1] at hb
  rw [Nat.floor_eq_zero]
  have h1 : 15 / spacing < 1 := by rw [div_lt_one (by linarith)]; exact hs
  have h0 : 0 < 15 / spacing := by apply div_pos <;> linarith
  nlinarith [hb.2.1, hb.2.2]

/-- C167: the enhancement lies between 0.23265 times the smallest and largest point values; so a uniform field is
scaled by exactly that factor. -/
theorem C167_bounds {ny nx : ℕ} {spacing : ℝ} (hs : 0 < spacing) (u v point : RField) {y x : ℕ}
    (hy : y < ny) (hx : x < nx) (hw : 1e-8 < √(u y x ^ 2 + v y x ^ 2)) {lo hi e : ℝ}
    (hb : ∀ i < ny, ∀ j < nx, lo ≤ point i j ∧ point i j ≤ hi)
    (he : upstreamComponent ny nx spacing u v point y x = some e) : 0.23265 * lo ≤ e ∧ e ≤ 0.23265 * hi := by
  rw [C167_weighted_mean hs u v point hy hx hw rfl] at he
  generalize ⌊15 / spacing * (Spec.mainWind (u y x) (v y x) / √(u y x ^ 2 + v y x ^ 2))⌋₊ = n at he
  by_cases h0 : n = 0
  · rw [if_pos h0] at he; exact nomatch he
  rw [if_neg h0, Option.some.injEq] at he
  have hp := totalWeight_pos spacing (u y x) (v y x) (Nat.pos_of_ne_zero h0)
  have hlo : lo * Spec.totalWeight spacing (u y x) (v y x) n ≤
      Spec.total ny nx spacing (u y x) (v y x) point y x n := by
    unfold Spec.totalWeight Spec.total
    rw [Finset.mul_sum]
    apply Finset.sum_le_sum
    intro k _
    exact mul_le_mul_of_nonneg_right (hb _ (ontoGrid_lt (by omega) _) _ (ontoGrid_lt (by omega) _)).1 (gauss_pos _ _ _ _).le
  have hhi : Spec.total ny nx spacing (u y x) (v y x) point y x n ≤
      hi * Spec.totalWeight spacing (u y x) (v y x) n := by
    unfold Spec.totalWeight Spec.total
    rw [Finset.mul_sum]
    apply Finset.sum_le_sum
    intro k _
    exact mul_le_mul_of_nonneg_right (hb _ (ontoGrid_lt (by omega) _) _ (ontoGrid_lt (by omega) _)).2 (gauss_pos _ _ _ _).le
  rw [← he]
  have a := (le_div_iff₀ hp).2 hlo
  have b := (div_le_iff₀ hp).2 hhi
  constructor <;> nlinarith

theorem rintR_intCast (z : ℤ) : rintR (z : ℝ) = z := by
  unfold rintR
  rw [Int.floor_intCast, sub_self, if_pos (by norm_num)]

theorem rintR_le_of_abs {x : ℝ} {a b : ℤ} (h1 : (a : ℝ) ≤ x) (h2 : x ≤ b) : a ≤ rintR x ∧ rintR x ≤ b :=
  ⟨by rw [← rintR_intCast a]; exact rintR_mono h1, by rw [← rintR_intCast b]; exact rintR_mono h2⟩

/-- Along the axis the wind follows most closely, the k-th source point is k cells upwind. -/
theorem upwind_main (pos k : ℕ) {m s : ℝ} (hm : 0 < m) (hs : |s| = m) :
    Spec.upwind pos k m s = if 0 < s then (pos : ℤ) - k else (pos : ℤ) + k := by
  unfold Spec.upwind
  by_cases h : 0 < s
  · rw [if_pos h]
    rw [abs_of_pos h] at hs
    have : ((pos : ℝ) - k * s / m) = (((pos : ℤ) - k : ℤ) : ℝ) := by
      rw [hs, mul_div_cancel_right₀ _ hm.ne']
      push_cast
      rfl
    rw [this, rintR_intCast]
  · rw [if_neg h]
    rw [abs_of_nonpos (not_lt.1 h)] at hs
    have : ((pos : ℝ) - k * s / m) = (((pos : ℤ) + k : ℤ) : ℝ) := by
      rw [show s = -m by linarith, mul_neg, neg_div, mul_div_cancel_right₀ _ hm.ne']
      push_cast
      ring
    rw [this, rintR_intCast]

/-- Along either axis it is at most k cells away, on the upwind side. -/
theorem upwind_near (pos k : ℕ) {m s : ℝ} (hm : 0 < m) (hs : |s| ≤ m) :
    (0 ≤ s → (pos : ℤ) - k ≤ Spec.upwind pos k m s ∧ Spec.upwind pos k m s ≤ pos) ∧
    (s ≤ 0 → (pos : ℤ) ≤ Spec.upwind pos k m s ∧ Spec.upwind pos k m s ≤ (pos : ℤ) + k) := by
  unfold Spec.upwind
  have hk : (0 : ℝ) ≤ k := Nat.cast_nonneg k
  rw [abs_le] at hs
  rw [mul_div_assoc]
  constructor <;> intro h0
  · have h1 : s / m ≤ 1 := (div_le_one hm).2 hs.2
    have h2 : 0 ≤ s / m := by positivity
    apply rintR_le_of_abs <;> push_cast <;> nlinarith
  · have h1 : -1 ≤ s / m := by rw [le_div_iff₀ hm]; linarith
    have h2 : s / m ≤ 0 := div_nonpos_of_nonpos_of_nonneg h0 hm.le
    apply rintR_le_of_abs <;> push_cast <;> nlinarith

/-- C167: the k-th source point (before it is forced onto the grid) is exactly k cells upwind along the axis that
the wind follows most closely and at most k cells upwind along the other; u blows towards larger x and v towards
larger y. -/
theorem C167_upwind (y x k : ℕ) {u v m : ℝ} (hm : m = max |u| |v|) (hp : 0 < m) :
    (|v| ≤ |u| → Spec.upwind x k m u = if 0 < u then (x : ℤ) - k else (x : ℤ) + k) ∧
    (|u| ≤ |v| → Spec.upwind y k m v = if 0 < v then (y : ℤ) - k else (y : ℤ) + k) ∧
    (0 ≤ u → (x : ℤ) - k ≤ Spec.upwind x k m u ∧ Spec.upwind x k m u ≤ x) ∧
    (u ≤ 0 → (x : ℤ) ≤ Spec.upwind x k m u ∧ Spec.upwind x k m u ≤ (x : ℤ) + k) ∧
    (0 ≤ v → (y : ℤ) - k ≤ Spec.upwind y k m v ∧ Spec.upwind y k m v ≤ y) ∧
    (v ≤ 0 → (y : ℤ) ≤ Spec.upwind y k m v ∧ Spec.upwind y k m v ≤ (y : ℤ) + k) := by
  have hum : |u| ≤ m := hm ▸ le_max_left _ _
  have hvm : |v| ≤ m := hm ▸ le_max_right _ _
  exact ⟨fun h => upwind_main x k hp (by rw [hm, max_eq_left h]),
    fun h => upwind_main y k hp (by rw [hm, max_eq_right h]),
    (upwind_near x k hp hum).1, (upwind_near x k hp hum).2, (upwind_near y k hp hvm).1, (upwind_near y k hp hvm).2⟩

theorem ontoGrid_near {n pos : ℕ} (hp : pos < n) {i : ℤ} {k : ℕ} (h1 : (pos : ℤ) - k ≤ i) (h2 : i ≤ (pos : ℤ) + k) :
    pos ≤ Spec.ontoGrid n i + k ∧ Spec.ontoGrid n i ≤ pos + k := by
  unfold Spec.ontoGrid
  omega

/-- C167: the enhancement of a cell depends only on point values within 15 km of it, measured along the axes; in
particular not on what lies beyond, however windy it is. -/
theorem C167_local {ny nx : ℕ} {spacing : ℝ} (hs : 0 < spacing) (u v p q : RField) {y x : ℕ}
    (hy : y < ny) (hx : x < nx)
    (hpq : ∀ i < ny, ∀ j < nx, |(i : ℝ) - y| * spacing < 15 → |(j : ℝ) - x| * spacing < 15 → p i j = q i j) :
    upstreamComponent ny nx spacing u v p y x = upstreamComponent ny nx spacing u v q y x := by
  by_cases hw : 1e-8 < √(u y x ^ 2 + v y x ^ 2)
  · rw [C167_weighted_mean hs u v p hy hx hw rfl, C167_weighted_mean hs u v q hy hx hw rfl]
    congr 4
    unfold Spec.total
    apply Finset.sum_congr rfl
    intro k hk
    congr 1
    have hb := maxSinCos_bounds ((hasWind_iff _ _).2 hw)
    have hr := wind_ratio ((hasWind_iff _ _).2 hw)
    have hu := C167_upwind y x k (rfl : Spec.mainWind (u y x) (v y x) = _) hr.2.2.2.2
    rw [Finset.mem_range, ← hr.1] at hk
    have hk15 : (k : ℝ) * spacing < 15 := by
      have h1 : ((k + 1 : ℕ) : ℝ) ≤ 15 / spacing * maxSinCos (u y x) (v y x) :=
        (Nat.le_floor_iff' (Nat.succ_ne_zero k)).1 hk
      push_cast at h1
      have h2 : 15 / spacing * maxSinCos (u y x) (v y x) ≤ 15 / spacing := by
        have : 0 < 15 / spacing := by positivity
        nlinarith [hb.2.2]
      have h3 : (k : ℝ) < 15 / spacing := by linarith
      exact (lt_div_iff₀ hs).1 h3
    have near : ∀ {n pos : ℕ} {i : ℤ}, pos < n → (pos : ℤ) - k ≤ i → i ≤ (pos : ℤ) + k →
        |(Spec.ontoGrid n i : ℝ) - pos| * spacing < 15 := by
      intro n pos i hp h1 h2
      obtain ⟨c1, c2⟩ := ontoGrid_near hp h1 h2
      have d1 : (pos : ℝ) ≤ Spec.ontoGrid n i + k := by exact_mod_cast c1
      have d2 : (Spec.ontoGrid n i : ℝ) ≤ pos + k := by exact_mod_cast c2
      have : |(Spec.ontoGrid n i : ℝ) - pos| ≤ k := by rw [abs_le]; constructor <;> linarith
      nlinarith
    apply hpq _ (ontoGrid_lt (by omega) _) _ (ontoGrid_lt (by omega) _)
    · rcases le_total 0 (v y x) with h0 | h0
      · exact near hy (hu.2.2.2.2.1 h0).1 (by have := (hu.2.2.2.2.1 h0).2; omega)
      · exact near hy (by have := (hu.2.2.2.2.2 h0).1; omega) (hu.2.2.2.2.2 h0).2
    · rcases le_total 0 (u y x) with h0 | h0
      · exact near hx (hu.2.2.1 h0).1 (by have := (hu.2.2.1 h0).2; omega)
      · exact near hx (by have := (hu.2.2.2.1 h0).1; omega) (hu.2.2.2.1 h0).2
  · rw [C167_calm ny nx spacing u v p y x (not_lt.1 hw), C167_calm ny nx spacing u v q y x (not_lt.1 hw)]

/-- C167: the product, in m s-1, is never negative, and never exceeds 0.23265 times the largest rate generated
anywhere. -/
theorem C167_product {ny nx : ℕ} (xkm : ℕ → ℝ) (hg : xkm 0 < xkm 1) (f : OrogFields) {y x : ℕ}
    (hy : y < ny) (hx : x < nx) {hi e : ℝ} (hh : ∀ i < ny, ∀ j < nx, pointField f i j ≤ hi)
    (he : orogEnhancement ny nx xkm f y x = some e) : 0 ≤ e ∧ e * 3600000 ≤ 0.23265 * hi := by
  unfold orogEnhancement at he
  rw [Option.map_eq_some_iff] at he
  obtain ⟨a, ha, rfl⟩ := he
  have h0 : 0 ≤ a ∧ a ≤ 0.23265 * hi := by
    by_cases hw : 1e-8 < √(f.u y x ^ 2 + f.v y x ^ 2)
    · have := C167_bounds (lo := 0) (hi := hi) (sub_pos.2 hg) f.u f.v (pointField f) hy hx hw
        (fun i hi' j hj => ⟨C166_nonneg f i j, hh i hi' j hj⟩) ha
      rw [mul_zero] at this
      exact this
    · rw [C167_calm ny nx _ f.u f.v (pointField f) y x (not_lt.1 hw), Option.some.injEq] at ha
      have := (C166_nonneg f y x).trans (hh y hy x hx)
      rw [← ha]
      exact ⟨le_rfl, by positivity⟩
  constructor
  · exact div_nonneg h0.1 (by norm_num)
  · rw [div_mul_cancel₀ _ (by norm_num)]; exact h0.2

/-- A westerly wind of 10 m s-1 on a grid of 2 km: windy, and within the limit for a defined result. -/
example : (1e-8 : ℝ) < √(10 ^ 2 + 0 ^ 2) ∧ (2 : ℝ) ≤ 10.6 ∧ |(0 : ℝ)| ≤ |10| := by
  have : √((10 : ℝ) ^ 2 + 0 ^ 2) = 10 := by
    rw [zero_pow two_ne_zero, add_zero, Real.sqrt_sq (by norm_num)]
  rw [this]
  norm_num

end Improver
