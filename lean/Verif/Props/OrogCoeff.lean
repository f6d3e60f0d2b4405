import Verif.Model.OrogCoeff
import Verif.Props.RecursiveFilter
import Verif.Props.Regrid
import Verif.Props.Interp

/-! C247: orographic smoothing coefficients of an orography.  C248: they serve the recursive filter on the grid of the orography. -/

namespace Improver
namespace Spec

/-- The value at row `y` (second coordinate) and column `x`, whatever the order of the dimensions. -/
def fieldValueAt {V : Type} (c : Field2 V) (y x : ℕ) : V := if c.xFirst then c.data x y else c.data y x

/-- The same field with its dimensions in the other order. -/
def flipped {V : Type} (c : Field2 V) : Field2 V := ⟨!c.xFirst, c.ys, c.xs, fun i j => c.data j i⟩

/-- A step from a point to the next along x, or along y. -/
inductive GridStep
  | alongX (y x : ℕ)
  | alongY (y x : ℕ)

/-- Where a step begins, and where it ends. -/
def GridStep.start : GridStep → ℕ × ℕ
  | .alongX y x => (y, x)
  | .alongY y x => (y, x)

def GridStep.stop : GridStep → ℕ × ℕ
  | .alongX y x => (y, x + 1)
  | .alongY y x => (y + 1, x)

/-- Both ends are on the grid of `c`. -/
def onGrid {V : Type} (c : Field2 V) (s : GridStep) : Prop := s.stop.1 < c.ys.length ∧ s.stop.2 < c.xs.length

/-- Distance of a step. -/
def stepLength (distX distY : ℕ → ℕ → ℚ) : GridStep → ℚ
  | .alongX y x => distX y x
  | .alongY y x => distY y x

/-- Steepness of a step: the power of the gradient's size. -/
def steepness (pw : ℚ → ℚ) (distX distY : ℕ → ℕ → ℚ) (c : Field2 ℚ) (s : GridStep) : ℚ :=
  pw |(fieldValueAt c s.stop.1 s.stop.2 - fieldValueAt c s.start.1 s.start.2) / stepLength distX distY s|

/-- The coefficient of a step in the result. -/
def coefficientOf (o : CoefRun) : GridStep → Option ℚ
  | .alongX y x => fieldValueAt o.x y x
  | .alongY y x => fieldValueAt o.y y x

/-- No smoothing between two points with these mask values: by default if one of them is masked; inverted, if one of them is not; at boundaries, if they
differ. -/
def separated (r : MaskRule) (a b : ℤ) : Prop :=
  if r.boundary = true then a ≠ b else if r.invert = true then ¬ (a = 1 ∧ b = 1) else a = 1 ∨ b = 1

/-- The mask forbids smoothing along the step. -/
def cut (r : MaskRule) (mask : Option (Field2 ℤ)) (s : GridStep) : Prop :=
  ∃ m, mask = some m ∧ separated r (fieldValueAt m s.start.1 s.start.2) (fieldValueAt m s.stop.1 s.stop.2)

/-- All steepnesses of the grid. -/
def steepnesses (pw : ℚ → ℚ) (distX distY : ℕ → ℕ → ℚ) (c : Field2 ℚ) : Set ℚ := {v | ∃ s, onGrid c s ∧ v = steepness pw distX distY c s}

/-- A mask holds zeros and ones. -/
def zeroOne (mask : Option (Field2 ℤ)) : Prop := ∀ m, mask = some m → ∀ i j, m.data i j = 0 ∨ m.data i j = 1

end Spec

open Spec

theorem toYX_fieldValueAt {V : Type} (c : Field2 V) (y x : ℕ) : c.toYX.data y x = fieldValueAt c y x := by
  unfold Field2.toYX fieldValueAt
  cases h : c.xFirst <;> simp

theorem toYX_coords {V : Type} (c : Field2 V) : c.toYX.ys = c.ys ∧ c.toYX.xs = c.xs ∧ c.toYX.xFirst = false := by
  unfold Field2.toYX
  cases h : c.xFirst <;> simp [h]

theorem fromYX_valueAt {V : Type} (b : Bool) (ys xs : List ℚ) (d : ℕ → ℕ → V) (y x : ℕ) :
    fieldValueAt (Field2.fromYX b ⟨false, ys, xs, d⟩) y x = d y x := by
  unfold Field2.fromYX fieldValueAt
  cases b <;> simp

theorem mem_arrayValues (h w : ℕ) (f : ℕ → ℕ → ℚ) (v : ℚ) : v ∈ arrayValues h w f ↔ ∃ y x, y < h ∧ x < w ∧ v = f y x := by
  unfold arrayValues
  simp only [List.mem_flatMap, List.mem_range, List.mem_map]
  constructor
  · rintro ⟨y, hy, x, hx, rfl⟩
    exact ⟨y, x, hy, hx, rfl⟩
  · rintro ⟨y, x, hy, hx, rfl⟩
    exact ⟨y, hy, x, hx, rfl⟩

theorem coefLimits_ok {xs ys : List ℚ} {l : ℚ × ℚ} (h : coefLimits xs ys = .ok l) :
    IsLeast {v | ∃ u, (u ∈ xs ∨ u ∈ ys) ∧ v = |u|} l.1 ∧ IsGreatest {v | ∃ u, (u ∈ xs ∨ u ∈ ys) ∧ v = |u|} l.2 := by
  unfold coefLimits at h
  simp only [bind, Except.bind, pure, Except.pure] at h
  cases h1 : npMin (xs.map abs) with
  | error e => rw [h1] at h; exact nomatch h
  | ok a =>
    rw [h1] at h
    cases h2 : npMin (ys.map abs) with
    | error e => rw [h2] at h; exact nomatch h
    | ok b =>
      rw [h2] at h
      cases h3 : npMax (xs.map abs) with
      | error e => rw [h3] at h; exact nomatch h
      | ok c =>
        rw [h3] at h
        cases h4 : npMax (ys.map abs) with
        | error e => rw [h4] at h; exact nomatch h
        | ok d =>
          rw [h4] at h
          simp only [Except.ok.injEq] at h
          subst h
          obtain ⟨a1, a2⟩ := npMin_spec h1
          obtain ⟨b1, b2⟩ := npMin_spec h2
          obtain ⟨c1, c2⟩ := npMax_spec h3
          obtain ⟨d1, d2⟩ := npMax_spec h4
          obtain ⟨ua, hua, rfl⟩ := List.mem_map.1 a1
          obtain ⟨ub, hub, rfl⟩ := List.mem_map.1 b1
          obtain ⟨uc, huc, rfl⟩ := List.mem_map.1 c1
          obtain ⟨ud, hud, rfl⟩ := List.mem_map.1 d1
          refine ⟨⟨?_, ?_⟩, ⟨?_, ?_⟩⟩
          · rcases min_choice |ua| |ub| with e | e <;> rw [e]
            · exact ⟨ua, Or.inl hua, rfl⟩
            · exact ⟨ub, Or.inr hub, rfl⟩
          · rintro v ⟨u, hu | hu, rfl⟩
            · exact le_trans (min_le_left _ _) (a2 _ (List.mem_map_of_mem hu))
            · exact le_trans (min_le_right _ _) (b2 _ (List.mem_map_of_mem hu))
          · rcases max_choice |uc| |ud| with e | e <;> rw [e]
            · exact ⟨uc, Or.inl huc, rfl⟩
            · exact ⟨ud, Or.inr hud, rfl⟩
          · rintro v ⟨u, hu | hu, rfl⟩
            · exact le_trans (c2 _ (List.mem_map_of_mem hu)) (le_max_left _ _)
            · exact le_trans (d2 _ (List.mem_map_of_mem hu)) (le_max_right _ _)

theorem coefLimits_total (xs ys : List ℚ) : (∃ l, coefLimits xs ys = .ok l) ↔ xs ≠ [] ∧ ys ≠ [] := by
  unfold coefLimits
  simp only [bind, Except.bind, pure, Except.pure]
  cases xs with
  | nil => simp [npMin]
  | cons a t =>
    cases ys with
    | nil => simp [npMin]
    | cons b u => simp [npMin, npMax]

/-- The steepness as computed. -/
theorem steepness_x (pw : ℚ → ℚ) (distX distY : ℕ → ℕ → ℚ) (c : Field2 ℚ) (y x : ℕ) :
    unnormalised pw (gradX distX c.toYX.data) y x = steepness pw distX distY c (.alongX y x) := by
  simp only [unnormalised, gradX, toYX_fieldValueAt, steepness, GridStep.start, GridStep.stop, stepLength]

theorem steepness_y (pw : ℚ → ℚ) (distX distY : ℕ → ℕ → ℚ) (c : Field2 ℚ) (y x : ℕ) :
    unnormalised pw (gradY distY c.toYX.data) y x = steepness pw distX distY c (.alongY y x) := by
  simp only [unnormalised, gradY, toYX_fieldValueAt, steepness, GridStep.start, GridStep.stop, stepLength]

theorem steepnesses_eq (pw : ℚ → ℚ) (hpw : ∀ v, 0 ≤ v → 0 ≤ pw v) (distX distY : ℕ → ℕ → ℚ) (c : Field2 ℚ) :
    {v | ∃ u, (u ∈ arrayValues c.ys.length (c.xs.length - 1) (unnormalised pw (gradX distX c.toYX.data)) ∨
      u ∈ arrayValues (c.ys.length - 1) c.xs.length (unnormalised pw (gradY distY c.toYX.data))) ∧ v = |u|} = steepnesses pw distX distY c := by
  have hab : ∀ s, |steepness pw distX distY c s| = steepness pw distX distY c s := fun s => abs_of_nonneg (hpw _ (abs_nonneg _))
  ext v
  simp only [Set.mem_setOf_eq, mem_arrayValues, steepnesses]
  constructor
  · rintro ⟨u, ⟨y, x, hy, hx, rfl⟩ | ⟨y, x, hy, hx, rfl⟩, rfl⟩
    · refine ⟨.alongX y x, ⟨hy, ?_⟩, ?_⟩
      · simp only [GridStep.stop]; omega
      · rw [steepness_x pw distX distY, hab]
    · refine ⟨.alongY y x, ⟨?_, hx⟩, ?_⟩
      · simp only [GridStep.stop]; omega
      · rw [steepness_y pw distX distY, hab]
  · rintro ⟨s, ⟨h1, h2⟩, rfl⟩
    cases s with
    | alongX y x =>
      simp only [GridStep.stop] at h1 h2
      exact ⟨_, Or.inl ⟨y, x, h1, by omega, rfl⟩, by rw [steepness_x pw distX distY, hab]⟩
    | alongY y x =>
      simp only [GridStep.stop] at h1 h2
      exact ⟨_, Or.inr ⟨y, x, by omega, h2, rfl⟩, by rw [steepness_y pw distX distY, hab]⟩

theorem orogCoeffInit_iff (minG maxG : ℚ) : orogCoeffInit minG maxG = .ok () ↔ (0 ≤ minG ∧ minG ≤ 1 / 2) ∧ 0 ≤ maxG ∧ maxG ≤ 1 / 2 := by
  unfold orogCoeffInit
  by_cases h1 : minG < 0 ∨ minG > 1 / 2
  · rw [if_pos h1]
    simp only [reduceCtorEq, false_iff]
    rintro ⟨⟨a, b⟩, -⟩
    rcases h1 with h | h <;> linarith
  · rw [if_neg h1]
    push Not at h1
    by_cases h2 : maxG < 0 ∨ maxG > 1 / 2
    · rw [if_pos h2]
      simp only [reduceCtorEq, false_iff]
      rintro ⟨-, a, b⟩
      rcases h2 with h | h <;> linarith
    · rw [if_neg h2]
      push Not at h2
      exact ⟨fun _ => ⟨h1, h2⟩, fun _ => rfl⟩

/-- What a successful run consists of. -/
theorem orogCoefficients_spec {minG maxG : ℚ} {pw : ℚ → ℚ} {r : MaskRule} {distX distY : ℕ → ℕ → ℚ} {ndim : ℕ} {cube : Field2 ℚ}
    {mask : Option (Field2 ℤ)} {o : CoefRun} (h : orogCoefficients minG maxG pw r distX distY ndim cube mask = .ok o) :
    orogCoeffInit minG maxG = .ok () ∧ ndim = 2 ∧ maskElsewhere cube mask = false ∧
    ∃ l, coefLimits (arrayValues cube.ys.length (cube.xs.length - 1) (unnormalised pw (gradX distX cube.toYX.data)))
        (arrayValues (cube.ys.length - 1) cube.xs.length (unnormalised pw (gradY distY cube.toYX.data))) = .ok l ∧
      o = ⟨Field2.fromYX cube.xFirst ⟨false, cube.ys, axisMidpoints false cube.xs,
          maskX r ((mask.map Field2.toYX).map Field2.data) fun y x => coefScale minG maxG l (unnormalised pw (gradX distX cube.toYX.data) y x)⟩,
        Field2.fromYX cube.xFirst ⟨false, axisMidpoints false cube.ys, cube.xs,
          maskY r ((mask.map Field2.toYX).map Field2.data) fun y x => coefScale minG maxG l (unnormalised pw (gradY distY cube.toYX.data) y x)⟩,
        cube.toYX, mask.map Field2.toYX⟩ := by
  unfold orogCoefficients at h
  simp only [bind, Except.bind, pure, Except.pure] at h
  cases h0 : orogCoeffInit minG maxG with
  | error e => rw [h0] at h; exact nomatch h
  | ok u =>
    rw [h0] at h
    simp only at h
    by_cases h1 : ndim ≠ 2
    · rw [if_pos h1] at h; exact nomatch h
    · rw [if_neg h1] at h
      by_cases h2 : maskElsewhere cube mask = true
      · rw [if_pos h2] at h; exact nomatch h
      · rw [if_neg h2] at h
        obtain ⟨e1, e2, -⟩ := toYX_coords cube
        rw [e1, e2] at h
        cases h3 : coefLimits (arrayValues cube.ys.length (cube.xs.length - 1) (unnormalised pw (gradX distX cube.toYX.data)))
            (arrayValues (cube.ys.length - 1) cube.xs.length (unnormalised pw (gradY distY cube.toYX.data))) with
        | error e => rw [h3] at h; exact nomatch h
        | ok l =>
          rw [h3] at h
          simp only [Except.ok.injEq] at h
          exact ⟨rfl, not_not.1 h1, by simpa using h2, l, rfl, h.symm⟩

theorem arrayValues_ne_nil (h w : ℕ) (f : ℕ → ℕ → ℚ) : arrayValues h w f ≠ [] ↔ 0 < h ∧ 0 < w := by
  constructor
  · intro hne
    obtain ⟨v, hv⟩ := List.exists_mem_of_ne_nil _ hne
    obtain ⟨y, x, hy, hx, -⟩ := (mem_arrayValues h w f v).1 hv
    omega
  · rintro ⟨hh, hw⟩
    exact List.ne_nil_of_mem ((mem_arrayValues h w f (f 0 0)).2 ⟨0, 0, hh, hw, rfl⟩)

/-- C247.  Coefficients are made exactly when both limits are in [0, 1/2], the orography has two dimensions with two points each at least, and a mask, if
given, has the same coordinates in the same order. -/
theorem C247_made (minG maxG : ℚ) (pw : ℚ → ℚ) (r : MaskRule) (distX distY : ℕ → ℕ → ℚ) (ndim : ℕ) (cube : Field2 ℚ) (mask : Option (Field2 ℤ)) :
    (∃ o, orogCoefficients minG maxG pw r distX distY ndim cube mask = .ok o) ↔
      (0 ≤ minG ∧ minG ≤ 1 / 2) ∧ (0 ≤ maxG ∧ maxG ≤ 1 / 2) ∧ ndim = 2 ∧ 2 ≤ cube.ys.length ∧ 2 ≤ cube.xs.length ∧
      ∀ m, mask = some m → m.xFirst = cube.xFirst ∧ m.ys = cube.ys ∧ m.xs = cube.xs := by
  have hm : maskElsewhere cube mask = false ↔ ∀ m, mask = some m → m.xFirst = cube.xFirst ∧ m.ys = cube.ys ∧ m.xs = cube.xs := by
    cases mask with
    | none => simp [maskElsewhere]
    | some m => simp [maskElsewhere, and_assoc]
  constructor
  · rintro ⟨o, h⟩
    obtain ⟨h1, h2, h3, l, hl, -⟩ := orogCoefficients_spec h
    rw [orogCoeffInit_iff] at h1
    have := (coefLimits_total _ _).1 ⟨l, hl⟩
    rw [arrayValues_ne_nil, arrayValues_ne_nil] at this
    exact ⟨h1.1, h1.2, h2, by omega, by omega, hm.1 h3⟩
  · rintro ⟨h1, h1', h2, hy, hx, h3⟩
    obtain ⟨e1, e2, -⟩ := toYX_coords cube
    unfold orogCoefficients
    simp only [bind, Except.bind, pure, Except.pure]
    rw [(orogCoeffInit_iff minG maxG).2 ⟨h1, h1'⟩]
    simp only
    rw [if_neg (not_not.2 h2), if_neg (by rw [hm.2 h3]; simp), e1, e2]
    obtain ⟨l, hl⟩ := (coefLimits_total (arrayValues cube.ys.length (cube.xs.length - 1) (unnormalised pw (gradX distX cube.toYX.data)))
      (arrayValues (cube.ys.length - 1) cube.xs.length (unnormalised pw (gradY distY cube.toYX.data)))).2
      ⟨(arrayValues_ne_nil _ _ _).2 ⟨by omega, by omega⟩, (arrayValues_ne_nil _ _ _).2 ⟨by omega, by omega⟩⟩
    rw [hl]
    exact ⟨_, rfl⟩

theorem zero_iff (r : MaskRule) (a b : ℤ) (ha : a = 0 ∨ a = 1) (hb : b = 0 ∨ b = 1) : r.zero a b = true ↔ separated r a b := by
  obtain ⟨bd, iv⟩ := r
  unfold MaskRule.zero separated
  rcases ha with rfl | rfl <;> rcases hb with rfl | rfl <;> cases bd <;> cases iv <;> simp

/-- The coefficient of a step as computed. -/
theorem coefficient_spec {minG maxG : ℚ} {pw : ℚ → ℚ} {r : MaskRule} {distX distY : ℕ → ℕ → ℚ} {ndim : ℕ} {cube : Field2 ℚ}
    {mask : Option (Field2 ℤ)} (hz : zeroOne mask) {o : CoefRun} (h : orogCoefficients minG maxG pw r distX distY ndim cube mask = .ok o)
    (hpw : ∀ v, 0 ≤ v → 0 ≤ pw v) : ∃ lo hi, IsLeast (steepnesses pw distX distY cube) lo ∧ IsGreatest (steepnesses pw distX distY cube) hi ∧
      ∀ s, (cut r mask s → coefficientOf o s = some 0) ∧
        (¬ cut r mask s → coefficientOf o s = coefScale minG maxG (lo, hi) (steepness pw distX distY cube s)) := by
  obtain ⟨-, -, hme, l, hl, rfl⟩ := orogCoefficients_spec h
  obtain ⟨h1, h2⟩ := coefLimits_ok hl
  rw [steepnesses_eq pw hpw] at h1 h2
  refine ⟨l.1, l.2, h1, h2, ?_⟩
  have hzero : ∀ m, mask = some m → ∀ y x y' x', r.zero (m.toYX.data y x) (m.toYX.data y' x') = true ↔ separated r (fieldValueAt m y x) (fieldValueAt m y' x') := by
    intro m hm y x y' x'
    have hv : ∀ y x, fieldValueAt m y x = 0 ∨ fieldValueAt m y x = 1 := by
      intro y x
      unfold fieldValueAt
      split <;> exact hz m hm _ _
    rw [toYX_fieldValueAt, toYX_fieldValueAt]
    exact zero_iff r _ _ (hv y x) (hv y' x')
  intro s
  cases s with
  | alongX y x =>
    simp only [coefficientOf, fromYX_valueAt, steepness_x pw distX distY]
    cases mask with
    | none =>
      refine ⟨?_, fun _ => rfl⟩
      rintro ⟨m, hm, -⟩
      exact nomatch hm
    | some m =>
      simp only [Option.map_some, maskX]
      have := hzero m rfl y x y (x + 1)
      by_cases hc : r.zero (m.toYX.data y x) (m.toYX.data y (x + 1)) = true
      · rw [if_pos hc]
        exact ⟨fun _ => rfl, fun hn => absurd ⟨m, rfl, this.1 hc⟩ hn⟩
      · rw [if_neg hc]
        refine ⟨?_, fun _ => rfl⟩
        rintro ⟨m', hm, hs⟩
        injection hm with hm
        subst hm
        exact absurd (this.2 hs) hc
  | alongY y x =>
    simp only [coefficientOf, fromYX_valueAt, steepness_y pw distX distY]
    cases mask with
    | none =>
      refine ⟨?_, fun _ => rfl⟩
      rintro ⟨m, hm, -⟩
      exact nomatch hm
    | some m =>
      simp only [Option.map_some, maskY]
      have := hzero m rfl y x (y + 1) x
      by_cases hc : r.zero (m.toYX.data y x) (m.toYX.data (y + 1) x) = true
      · rw [if_pos hc]
        exact ⟨fun _ => rfl, fun hn => absurd ⟨m, rfl, this.1 hc⟩ hn⟩
      · rw [if_neg hc]
        refine ⟨?_, fun _ => rfl⟩
        rintro ⟨m', hm, hs⟩
        injection hm with hm
        subst hm
        exact absurd (this.2 hs) hc

/-- C247.  The coefficient of every step between neighbours is zero where the mask separates them; elsewhere it goes linearly with the steepness from the
one limit at the flattest step of the whole grid (both directions) to the other at the steepest.  Without any difference in steepness it is NaN. -/
theorem C247_values (minG maxG : ℚ) (pw : ℚ → ℚ) (r : MaskRule) (distX distY : ℕ → ℕ → ℚ) (ndim : ℕ) (cube : Field2 ℚ)
    (mask : Option (Field2 ℤ)) (hz : zeroOne mask) (o : CoefRun) (h : orogCoefficients minG maxG pw r distX distY ndim cube mask = .ok o)
    (hpw : ∀ v, 0 ≤ v → 0 ≤ pw v) : ∃ lo hi, IsLeast (steepnesses pw distX distY cube) lo ∧ IsGreatest (steepnesses pw distX distY cube) hi ∧
      ∀ s, onGrid cube s → (cut r mask s → coefficientOf o s = some 0) ∧
        (¬ cut r mask s → lo < hi → ∃ c, coefficientOf o s = some c ∧
          (c - minG) * (hi - lo) = (maxG - minG) * (steepness pw distX distY cube s - lo)) ∧
        (¬ cut r mask s → lo = hi → coefficientOf o s = none) := by
  obtain ⟨lo, hi, h1, h2, h3⟩ := coefficient_spec hz h hpw
  refine ⟨lo, hi, h1, h2, fun s hs => ⟨(h3 s).1, fun hc hlt => ?_, fun hc he => ?_⟩⟩
  · rw [(h3 s).2 hc]
    unfold coefScale
    have hne : hi - lo ≠ 0 := by linarith [sub_pos.2 hlt]
    rw [if_neg hne]
    refine ⟨_, rfl, ?_⟩
    have hab : |steepness pw distX distY cube s| = steepness pw distX distY cube s := abs_of_nonneg (hpw _ (abs_nonneg _))
    rw [hab]
    field_simp
    ring
  · rw [(h3 s).2 hc]
    unfold coefScale
    rw [if_pos (by simp [he])]

/-- C247.  Every coefficient is between the two limits, or zero where the mask separates, so always in [0, 1/2]. -/
theorem C247_limits (minG maxG : ℚ) (pw : ℚ → ℚ) (r : MaskRule) (distX distY : ℕ → ℕ → ℚ) (ndim : ℕ) (cube : Field2 ℚ)
    (mask : Option (Field2 ℤ)) (hz : zeroOne mask) (o : CoefRun) (h : orogCoefficients minG maxG pw r distX distY ndim cube mask = .ok o)
    (hpw : ∀ v, 0 ≤ v → 0 ≤ pw v) (s : GridStep) (hs : onGrid cube s) (c : ℚ) (hc : coefficientOf o s = some c) :
    (¬ cut r mask s → min minG maxG ≤ c ∧ c ≤ max minG maxG) ∧ 0 ≤ c ∧ c ≤ 1 / 2 := by
  obtain ⟨lo, hi, h1, h2, h3⟩ := C247_values minG maxG pw r distX distY ndim cube mask hz o h hpw
  obtain ⟨⟨a1, a2⟩, ⟨b1, b2⟩, -⟩ := (C247_made minG maxG pw r distX distY ndim cube mask).1 ⟨o, h⟩
  obtain ⟨k1, k2, k3⟩ := h3 s hs
  by_cases hcut : cut r mask s
  · rw [k1 hcut] at hc
    injection hc with hc
    subst hc
    exact ⟨fun hn => absurd hcut hn, le_refl _, by norm_num⟩
  · have hle : lo ≤ hi := h2.2 h1.1
    rcases hle.lt_or_eq with hlt | he
    · obtain ⟨c', e1, e2⟩ := k2 hcut hlt
      rw [hc] at e1
      injection e1 with e1
      subst e1
      have hlo : lo ≤ steepness pw distX distY cube s := h1.2 ⟨s, hs, rfl⟩
      have hhi : steepness pw distX distY cube s ≤ hi := h2.2 ⟨s, hs, rfl⟩
      have hpos : 0 < hi - lo := by linarith
      have hcv : c = minG + (maxG - minG) * ((steepness pw distX distY cube s - lo) / (hi - lo)) := by
        field_simp
        linarith
      have t0 : 0 ≤ (steepness pw distX distY cube s - lo) / (hi - lo) := div_nonneg (by linarith) hpos.le
      have t1 : (steepness pw distX distY cube s - lo) / (hi - lo) ≤ 1 := by rw [div_le_one hpos]; linarith
      have hlow : min minG maxG ≤ c := by
        rcases le_total minG maxG with hh | hh
        · rw [min_eq_left hh]; nlinarith
        · rw [min_eq_right hh]; nlinarith
      have hhigh : c ≤ max minG maxG := by
        rcases le_total minG maxG with hh | hh
        · rw [max_eq_right hh]; nlinarith
        · rw [max_eq_left hh]; nlinarith
      exact ⟨fun _ => ⟨hlow, hhigh⟩, le_trans (le_min a1 b1) hlow, le_trans hhigh (max_le a2 b2)⟩
    · rw [k3 hcut he] at hc
      exact nomatch hc

/-- C247.  With the smaller limit for steep slopes, a steeper step never has the larger coefficient, across both directions. -/
theorem C247_steeper (minG maxG : ℚ) (hG : maxG ≤ minG) (pw : ℚ → ℚ) (r : MaskRule) (distX distY : ℕ → ℕ → ℚ) (ndim : ℕ) (cube : Field2 ℚ)
    (mask : Option (Field2 ℤ)) (hz : zeroOne mask) (o : CoefRun) (h : orogCoefficients minG maxG pw r distX distY ndim cube mask = .ok o)
    (hpw : ∀ v, 0 ≤ v → 0 ≤ pw v) (s t : GridStep) (hs : onGrid cube s) (ht : onGrid cube t) (hcs : ¬ cut r mask s) (hct : ¬ cut r mask t)
    (hst : steepness pw distX distY cube s ≤ steepness pw distX distY cube t) (a b : ℚ) (ha : coefficientOf o s = some a)
    (hb : coefficientOf o t = some b) : b ≤ a := by
  obtain ⟨lo, hi, h1, h2, h3⟩ := C247_values minG maxG pw r distX distY ndim cube mask hz o h hpw
  rcases (h2.2 h1.1 : lo ≤ hi).lt_or_eq with hlt | he
  · obtain ⟨a', e1, e2⟩ := (h3 s hs).2.1 hcs hlt
    obtain ⟨b', e3, e4⟩ := (h3 t ht).2.1 hct hlt
    rw [ha] at e1
    rw [hb] at e3
    injection e1 with e1
    injection e3 with e3
    subst e1 e3
    by_contra hcon
    push Not at hcon
    nlinarith
  · rw [(h3 s hs).2.2 hcs he] at ha
    exact nomatch ha

/-- C247.  The order of the dimensions does not matter: in the other order, the same coefficients come in the other order. -/
theorem C247_order (minG maxG : ℚ) (pw : ℚ → ℚ) (r : MaskRule) (distX distY : ℕ → ℕ → ℚ) (ndim : ℕ) (cube : Field2 ℚ)
    (mask : Option (Field2 ℤ)) : orogCoefficients minG maxG pw r distX distY ndim (flipped cube) (mask.map flipped) =
      (orogCoefficients minG maxG pw r distX distY ndim cube mask).map fun o => ⟨flipped o.x, flipped o.y, o.orography, o.mask⟩ := by
  have hto : ∀ {V : Type} (c : Field2 V), (flipped c).toYX = c.toYX := by
    intro V c
    obtain ⟨b, ys, xs, d⟩ := c
    cases b <;> rfl
  have hfrom : ∀ {V : Type} (b : Bool) (ys xs : List ℚ) (d : ℕ → ℕ → V),
      Field2.fromYX (!b) ⟨false, ys, xs, d⟩ = flipped (Field2.fromYX b ⟨false, ys, xs, d⟩) := by
    intro V b ys xs d
    cases b <;> rfl
  have hme : maskElsewhere (flipped cube) (mask.map flipped) = maskElsewhere cube mask := by
    cases mask with
    | none => rfl
    | some m =>
      simp only [Option.map_some, maskElsewhere, flipped]
      congr 3
      exact decide_eq_decide.2 Bool.not_inj_iff
  have hmm : (mask.map flipped).map Field2.toYX = mask.map Field2.toYX := by
    cases mask with
    | none => rfl
    | some m => simp only [Option.map_some, hto]
  unfold orogCoefficients
  rw [hme, hmm, hto]
  have hx : (flipped cube).xFirst = !cube.xFirst := rfl
  rw [hx]
  simp only [hfrom, bind, Except.bind, pure, Except.pure]
  cases orogCoeffInit minG maxG with
  | error e => rfl
  | ok u =>
    simp only
    by_cases h1 : ndim ≠ 2
    · rw [if_pos h1, if_pos h1]; rfl
    · rw [if_neg h1, if_neg h1]
      by_cases h2 : maskElsewhere cube mask = true
      · rw [if_pos h2, if_pos h2]; rfl
      · rw [if_neg h2, if_neg h2]
        generalize coefLimits (arrayValues cube.toYX.ys.length (cube.toYX.xs.length - 1) (unnormalised pw (gradX distX cube.toYX.data)))
            (arrayValues (cube.toYX.ys.length - 1) cube.toYX.xs.length (unnormalised pw (gradY distY cube.toYX.data))) = e
        cases e <;> rfl

/-- Finding: the caller's orography (and mask) is turned round in place if it is in x, y order. -/
theorem C247_orography_turned_refuted (minG maxG : ℚ) (pw : ℚ → ℚ) (r : MaskRule) (distX distY : ℕ → ℕ → ℚ) (ndim : ℕ) (cube : Field2 ℚ)
    (mask : Option (Field2 ℤ)) (hx : cube.xFirst = true) (o : CoefRun)
    (h : orogCoefficients minG maxG pw r distX distY ndim cube mask = .ok o) : o.orography ≠ cube := by
  obtain ⟨-, -, -, l, -, rfl⟩ := orogCoefficients_spec h
  intro he
  have := (toYX_coords cube).2.2
  simp only at he
  rw [he, hx] at this
  exact nomatch this

/-- An orography of two rows and three columns. -/
def sampleOrog : Field2 ℚ := ⟨false, [0, 1], [0, 1, 2], fun y x => ([[0, 1, 3], [0, 4, 3]].getD y []).getD x 0⟩

def arrayRows (h w : ℕ) (f : ℕ → ℕ → Option ℚ) : List (List (Option ℚ)) := (List.range h).map fun y => (List.range w).map fun x => f y x

example : (orogCoefficients (1 / 2) 0 id ⟨false, false⟩ (fun _ _ => 1) (fun _ _ => 1) 2 sampleOrog
      (some ⟨false, [0, 1], [0, 1, 2], fun y x => if y = 1 ∧ x = 2 then 1 else 0⟩)).toOption.map
    (fun o => (arrayRows 2 2 o.x.data, arrayRows 1 3 o.y.data)) =
    some ([[some (3 / 8), some (1 / 4)], [some 0, some 0]], [[some (1 / 2), some (1 / 8), some 0]]) := by decide +kernel

/-! ### C248: the coefficients in the recursive filter -/

theorem midpoints_eq (p : List ℚ) : axisMidpoints false p = coordMidpoints p := by
  unfold axisMidpoints coordMidpoints
  simp only [Bool.false_eq_true, if_false]
  rw [List.zipWith_comm]

theorem pointsMatch_self (p : List ℚ) : pointsMatch p p = true := by
  unfold pointsMatch
  simp only [decide_true, Bool.true_and]
  induction p with
  | nil => rfl
  | cons a t ih => simp only [List.zipWith_cons_cons, List.all_cons, npIsclose_self, id, Bool.true_and, ih]

theorem coordMidpoints_length (p : List ℚ) : (coordMidpoints p).length = p.length - 1 := by
  unfold coordMidpoints
  simp

/-- The steps that some coefficient is made for. -/
theorem cubes_data {minG maxG : ℚ} {pw : ℚ → ℚ} {r : MaskRule} {distX distY : ℕ → ℕ → ℚ} {ndim : ℕ} {cube : Field2 ℚ}
    {mask : Option (Field2 ℤ)} {o : CoefRun} (h : orogCoefficients minG maxG pw r distX distY ndim cube mask = .ok o) (hyx : cube.xFirst = false) :
    o.x.ys = cube.ys ∧ o.x.xs = coordMidpoints cube.xs ∧ o.y.ys = coordMidpoints cube.ys ∧ o.y.xs = cube.xs ∧
    (∀ y x, o.x.data y x = coefficientOf o (.alongX y x)) ∧ (∀ y x, o.y.data y x = coefficientOf o (.alongY y x)) := by
  obtain ⟨-, -, -, l, -, rfl⟩ := orogCoefficients_spec h
  simp only [hyx, Field2.fromYX, Bool.false_eq_true, if_false, midpoints_eq, coefficientOf, fieldValueAt, implies_true, and_self]

/-- Not all steps are equally steep. -/
def Spec.uneven (pw : ℚ → ℚ) (distX distY : ℕ → ℕ → ℚ) (c : Field2 ℚ) : Prop :=
  ∃ s t, onGrid c s ∧ onGrid c t ∧ steepness pw distX distY c s ≠ steepness pw distX distY c t

/-- Then no coefficient is NaN. -/
theorem uneven_numbers {minG maxG : ℚ} {pw : ℚ → ℚ} {r : MaskRule} {distX distY : ℕ → ℕ → ℚ} {ndim : ℕ} {cube : Field2 ℚ}
    {mask : Option (Field2 ℤ)} (hz : zeroOne mask) {o : CoefRun} (h : orogCoefficients minG maxG pw r distX distY ndim cube mask = .ok o)
    (hpw : ∀ v, 0 ≤ v → 0 ≤ pw v) (hdiff : uneven pw distX distY cube) (s : GridStep) (hs : onGrid cube s) : coefficientOf o s ≠ none := by
  obtain ⟨lo, hi, h1, h2, h3⟩ := C247_values minG maxG pw r distX distY ndim cube mask hz o h hpw
  obtain ⟨a, b, ha, hb, hab⟩ := hdiff
  have hlt : lo < hi := by
    rcases (h2.2 h1.1 : lo ≤ hi).lt_or_eq with hlt | he
    · exact hlt
    · exfalso
      apply hab
      have a1 := h1.2 ⟨a, ha, rfl⟩
      have a2 := h2.2 ⟨a, ha, rfl⟩
      have b1 := h1.2 ⟨b, hb, rfl⟩
      have b2 := h2.2 ⟨b, hb, rfl⟩
      linarith
  by_cases hc : cut r mask s
  · rw [(h3 s hs).1 hc]
    exact nofun
  · obtain ⟨c, e, -⟩ := (h3 s hs).2.1 hc hlt
    rw [e]
    exact nofun

/-- C248.  The coefficients made for an orography in y, x order that is not equally steep everywhere are numbers and pass the checks of the recursive filter for every field on the same grid, in whichever
order the two cubes are given. -/
theorem C248_accepted (minG maxG : ℚ) (pw : ℚ → ℚ) (r : MaskRule) (distX distY : ℕ → ℕ → ℚ) (ndim : ℕ) (cube : Field2 ℚ)
    (mask : Option (Field2 ℤ)) (hz : zeroOne mask) (o : CoefRun) (h : orogCoefficients minG maxG pw r distX distY ndim cube mask = .ok o)
    (hpw : ∀ v, 0 ≤ v → 0 ≤ pw v) (hyx : cube.xFirst = false) (hdiff : uneven pw distX distY cube) :
    (∀ s, onGrid cube s → coefficientOf o s ≠ none) ∧
    validateCoefficients cube.xs cube.ys o.cubes.1 o.cubes.2 = .ok o.cubes ∧
    validateCoefficients cube.xs cube.ys o.cubes.2 o.cubes.1 = .ok o.cubes := by
  obtain ⟨e1, e2, e3, e4, e5, e6⟩ := cubes_data h hyx
  have hlim := C247_limits minG maxG pw r distX distY ndim cube mask hz o h hpw
  have hle : ∀ s, onGrid cube s → (coefficientOf o s).getD 0 ≤ 1 / 2 := by
    intro s hs
    cases hc : coefficientOf o s with
    | none => simp
    | some c => exact (hlim s hs c hc).2.2
  have hX : validateCoefficient cube.xs cube.ys o.cubes.1 true = .ok () := by
    unfold validateCoefficient
    have ha : anyAboveHalf o.cubes.1 = false := by
      unfold anyAboveHalf
      simp only [List.any_eq_false, List.mem_range, List.any_eq_true, decide_eq_true_eq, not_exists, not_and, not_lt]
      intro y hy x hx
      simp only [CoefRun.cubes, Field2.coeffCube, e1, e2, coordMidpoints_length] at hy hx ⊢
      rw [e5]
      exact hle (.alongX y x) ⟨hy, by simp only [GridStep.stop]; omega⟩
    rw [if_neg (by simp [CoefRun.cubes, Field2.coeffCube]), ha]
    simp [CoefRun.cubes, Field2.coeffCube, e1, e2, pointsMatch_self]
  have hY : validateCoefficient cube.xs cube.ys o.cubes.2 false = .ok () := by
    unfold validateCoefficient
    have ha : anyAboveHalf o.cubes.2 = false := by
      unfold anyAboveHalf
      simp only [List.any_eq_false, List.mem_range, List.any_eq_true, decide_eq_true_eq, not_exists, not_and, not_lt]
      intro y hy x hx
      simp only [CoefRun.cubes, Field2.coeffCube, e3, e4, coordMidpoints_length] at hy hx ⊢
      rw [e6]
      exact hle (.alongY y x) ⟨by simp only [GridStep.stop]; omega, hx⟩
    rw [if_neg (by simp [CoefRun.cubes, Field2.coeffCube]), ha]
    simp [CoefRun.cubes, Field2.coeffCube, e3, e4, pointsMatch_self]
  have n1 : o.cubes.1.name = "smoothing_coefficient_x" := rfl
  have n2 : o.cubes.2.name = "smoothing_coefficient_y" := rfl
  have l1 : ¬ ("smoothing_coefficient_y" : String) < "smoothing_coefficient_x" := by decide +kernel
  have l2 : ("smoothing_coefficient_x" : String) < "smoothing_coefficient_y" := by decide +kernel
  refine ⟨uneven_numbers hz h hpw hdiff, ?_⟩
  unfold validateCoefficients
  rw [n1, n2, if_neg l1, if_pos l2]
  simp only [bind, Except.bind, pure, Except.pure, hX, hY, and_self]

/-- C248.  Hence the filter accepts them for every number of iterations and every mask on the field, and, however they were masked, each filtered value stays within the
range of the field. -/
theorem C248_filtered (minG maxG : ℚ) (pw : ℚ → ℚ) (r : MaskRule) (distX distY : ℕ → ℕ → ℚ) (ndim : ℕ) (cube : Field2 ℚ)
    (mask : Option (Field2 ℤ)) (hz : zeroOne mask) (o : CoefRun) (h : orogCoefficients minG maxG pw r distX distY ndim cube mask = .ok o)
    (hpw : ∀ v, 0 ≤ v → 0 ≤ pw v) (hyx : cube.xFirst = false) (hdiff : uneven pw distX distY cube) (k : ℤ) (e : ℕ) (g : Grid2) (hgx : g.xs = cube.xs) (hgy : g.ys = cube.ys)
    (hw : g.w = g.xs.length) (hh : g.h = g.ys.length) (fieldMask : Option (ℕ → ℕ → Bool)) :
    ∃ res, recursiveFilterProcess (some k) e g fieldMask o.cubes.1 o.cubes.2 = .ok res ∧
      recursiveFilterProcess (some k) e g fieldMask o.cubes.2 o.cubes.1 = .ok res ∧
      ∀ lo hi, (∀ y x, y < g.h → x < g.w → lo ≤ g.data y x ∧ g.data y x ≤ hi) →
        ∀ y x, y < g.h → x < g.w → lo ≤ res.data y x ∧ res.data y x ≤ hi := by
  obtain ⟨-, v1, v2⟩ := C248_accepted minG maxG pw r distX distY ndim cube mask hz o h hpw hyx hdiff
  obtain ⟨e1, e2, e3, e4, e5, e6⟩ := cubes_data h hyx
  obtain ⟨-, -, -, l1, l2, -⟩ := (C247_made minG maxG pw r distX distY ndim cube mask).1 ⟨o, h⟩
  have hlim := C247_limits minG maxG pw r distX distY ndim cube mask hz o h hpw
  have hin : ∀ s, onGrid cube s → 0 ≤ (coefficientOf o s).getD 0 ∧ (coefficientOf o s).getD 0 ≤ 1 := by
    intro s hs
    cases hc : coefficientOf o s with
    | none => simp
    | some c =>
      obtain ⟨-, a, b⟩ := hlim s hs c hc
      exact ⟨a, by simp only [Option.getD_some]; linarith⟩
  have hcx : ∀ y x, y < g.h → x + 1 < g.w → 0 ≤ o.cubes.1.data y x ∧ o.cubes.1.data y x ≤ 1 := by
    intro y x hy hx
    rw [hh, hgy] at hy
    rw [hw, hgx] at hx
    have := hin (.alongX y x) ⟨hy, hx⟩
    rw [← e5] at this
    exact this
  have hcy : ∀ y x, y + 1 < g.h → x < g.w → 0 ≤ o.cubes.2.data y x ∧ o.cubes.2.data y x ≤ 1 := by
    intro y x hy hx
    rw [hh, hgy] at hy
    rw [hw, hgx] at hx
    have := hin (.alongY y x) ⟨hy, hx⟩
    rw [← e6] at this
    exact this
  have hr : ∀ (cx cy : ℕ → ℕ → ℚ), Spec.coeffsIn g.h g.w 1 cx cy → ∀ lo hi, (∀ y x, y < g.h → x < g.w → lo ≤ g.data y x ∧ g.data y x ≤ hi) →
        ∀ y x, y < g.h → x < g.w → lo ≤ filterSlice g.h g.w e k.toNat cx cy g.data y x ∧ filterSlice g.h g.w e k.toNat cx cy g.data y x ≤ hi :=
    fun cx cy hc lo hi hf y x hy hx =>
      C28_range g.h g.w e k.toNat cx cy g.data lo hi (by rw [hh, hgy]; exact l1) (by rw [hw, hgx]; exact l2) hc hf y x hy hx
  unfold recursiveFilterProcess
  rw [hgx, hgy, v1, v2]
  simp only [bind, Except.bind]
  refine ⟨_, rfl, rfl, ?_⟩
  simp only
  apply hr
  cases fieldMask with
  | none => exact ⟨hcx, hcy⟩
  | some m =>
    refine ⟨fun y x hy hx => ?_, fun y x hy hx => ?_⟩
    · simp only [zeroMaskedX]
      split
      · exact ⟨le_refl _, zero_le_one⟩
      · exact hcx y x hy hx
    · simp only [zeroMaskedY]
      split
      · exact ⟨le_refl _, zero_le_one⟩
      · exact hcy y x hy hx

/-- Finding: from an orography in x, y order the coefficients come in x, y order (the x cube then has the mid-points along its leading dimension), which the filter,
which reads rows and columns by position, does not turn round. -/
theorem C248_x_first_refuted (minG maxG : ℚ) (pw : ℚ → ℚ) (r : MaskRule) (distX distY : ℕ → ℕ → ℚ) (ndim : ℕ) (cube : Field2 ℚ)
    (mask : Option (Field2 ℤ)) (o : CoefRun) (h : orogCoefficients minG maxG pw r distX distY ndim cube mask = .ok o) (hxy : cube.xFirst = true) :
    o.x.xFirst = true ∧ o.y.xFirst = true ∧ ∀ y x, o.x.data x y = coefficientOf o (.alongX y x) ∧ o.y.data x y = coefficientOf o (.alongY y x) := by
  obtain ⟨-, -, -, l, -, rfl⟩ := orogCoefficients_spec h
  simp only [hxy, Field2.fromYX, if_true, coefficientOf, fieldValueAt, implies_true, and_self]

example : let c := orogCoefficients (1 / 2) 0 id ⟨false, false⟩ (fun _ _ => 1) (fun _ _ => 1) 2 sampleOrog none
    (c.toOption.bind fun o => (recursiveFilterProcess (some 1) 1 ⟨2, 3, fun y x => if y = 0 ∧ x = 0 then 16 else 0, [0, 1], [0, 1, 2]⟩ none o.cubes.2 o.cubes.1).toOption.map
      fun res => decide (0 < res.data 0 1 ∧ res.data 0 1 < 16)) = some true := by decide +kernel

end Improver
