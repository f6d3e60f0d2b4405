import Verif.Model.Dz
import Mathlib.Tactic.Linarith
import Mathlib.Tactic.Positivity
import Mathlib.Tactic.NormNum
import Mathlib.Data.Rat.Cast.Order

/-!
C134 (estimation of the rescaling for vertical displacement), C135 (scaled displacements), C136
(application to a forecast).
-/

open Classical

namespace Improver
namespace Spec

/-- Sum of squared distances of the points from the line `a + b x`. -/
noncomputable def lineError (pts : List (ℝ × ℝ)) (a b : ℝ) : ℝ :=
  (pts.map fun p => (p.2 - (a + b * p.1)) ^ 2).sum

/-- `fit` fits straight lines (intercept, gradient) by least squares. -/
def FitsLines (fit : List (ℝ × ℝ) → ℝ × ℝ) : Prop :=
  ∀ pts, pts ≠ [] → ∀ a b, lineError pts (fit pts).1 (fit pts).2 ≤ lineError pts a b

/-- The site `i` has the value `v` in a row over `sites`. -/
def hasValue (sites : List String) (row : List ℝ) (i : String) (v : ℝ) : Prop :=
  (i, v) ∈ sites.zip row

/-- Displacement `d` is between the bounds, if any. -/
def inBounds (lo hi : Option ℝ) (d : ℝ) : Prop :=
  (∀ l, lo = some l → l ≤ d) ∧ (∀ h, hi = some h → d ≤ h)

/-- `c` is `d`, or the bound beyond which `d` lies. -/
def heldWithin (lo hi : Option ℝ) (d c : ℝ) : Prop :=
  inBounds lo hi c ∧ (inBounds lo hi d → c = d) ∧
  (∀ l, lo = some l → d < l → c = l) ∧ (∀ h, hi = some h → h < d → c = h)

/-- Forecast, truth and displacement at time `k` of a site found in all inputs. -/
def training (fS tS dS : List String) (fcs truths : List (List ℝ)) (dz : List ℝ)
    (k : ℕ) (i : String) (f t d : ℝ) : Prop :=
  (∃ r, fcs[k]? = some r ∧ hasValue fS r i f) ∧ (∃ r, truths[k]? = some r ∧ hasValue tS r i t) ∧
    hasValue dS dz i d

end Spec

open Spec

/-! ### Scaled displacements -/

theorem exp_min_max (s l u d : ℝ) (hlu : l ≤ u) :
    min (max (Real.exp (-1 * s * d)) (min (Real.exp (-1 * s * l)) (Real.exp (-1 * s * u))))
      (max (Real.exp (-1 * s * l)) (Real.exp (-1 * s * u))) =
    Real.exp (-1 * s * (min (max d l) u)) := by
  have hm : Monotone Real.exp := Real.exp_monotone
  rw [← hm.map_min, ← hm.map_max, ← hm.map_max, ← hm.map_min]
  congr 1
  rcases le_total 0 s with h | h
  · have e : ∀ x y : ℝ, x ≤ y → -1 * s * y ≤ -1 * s * x := fun x y hxy => by nlinarith
    rw [min_eq_right (e l u hlu), max_eq_left (e l u hlu)]
    rcases le_total d l with h1 | h1
    · rw [max_eq_right h1, min_eq_left hlu, max_eq_left (e d u (h1.trans hlu)),
        min_eq_right (e d l h1)]
    · rw [max_eq_left h1]
      rcases le_total d u with h2 | h2
      · rw [min_eq_left h2, max_eq_left (e d u h2), min_eq_left (e l d h1)]
      · rw [min_eq_right h2, max_eq_right (e u d h2), min_eq_left (e l u hlu)]
  · have e : ∀ x y : ℝ, x ≤ y → -1 * s * x ≤ -1 * s * y := fun x y hxy => by nlinarith
    rw [min_eq_left (e l u hlu), max_eq_right (e l u hlu)]
    rcases le_total d l with h1 | h1
    · rw [max_eq_right h1, min_eq_left hlu, max_eq_right (e d l h1), min_eq_left (e l u hlu)]
    · rw [max_eq_left h1]
      rcases le_total d u with h2 | h2
      · rw [min_eq_left h2, max_eq_left (e l d h1), min_eq_left (e d u h2)]
      · rw [min_eq_right h2, max_eq_left (e l d h1), min_eq_right (e u d h2)]

/-- C135: the scaled displacement is the exponential of minus the scale factor times the
displacement, held within the bounds; unless the scale factor is exactly zero and a bound is
missing. -/
theorem C135_scaled_partial (lo hi : Option ℝ) (s d : ℝ)
    (hb : ∀ l u, lo = some l → hi = some u → l ≤ u)
    (hs : s ≠ 0 ∨ (lo.isSome ∧ hi.isSome)) :
    ∃ c, heldWithin lo hi d c ∧ scaledDz lo hi s d = some (Real.exp (-s * c)) := by
  rcases lo with _ | l <;> rcases hi with _ | u
  · have h0 : s ≠ 0 := by simpa using hs
    refine ⟨d, ⟨⟨by simp, by simp⟩, by simp, by simp, by simp⟩, ?_⟩
    have hp : 0 ≤ Real.exp (-1 * s * d) := (Real.exp_pos _).le
    rcases lt_or_gt_of_ne h0 with h | h
    · have h' : ¬ 0 < s := not_lt.2 h.le
      simp only [scaledDz, expLower, expUpper, h0, h', if_false, clipF]
      rw [max_eq_left hp, neg_one_mul]
    · simp only [scaledDz, expLower, expUpper, h0, h, if_false, if_true, clipF]
      rw [max_eq_left hp, neg_one_mul]
  · have h0 : s ≠ 0 := by simpa using hs
    refine ⟨min d u, ⟨⟨by simp, fun h e => by cases e; exact min_le_right _ _⟩,
      fun h => min_eq_left (h.2 u rfl), by simp,
      fun h e hlt => by cases e; exact min_eq_right hlt.le⟩, ?_⟩
    rcases lt_or_gt_of_ne h0 with h | h
    · have h' : ¬ 0 < s := not_lt.2 h.le
      simp only [scaledDz, expLower, h0, h', if_false, expUpper, clipF]
      rw [min_eq_left (Real.exp_pos _).le, max_eq_left (Real.exp_pos _).le,
        max_eq_right (Real.exp_pos _).le]
      rw [← Real.exp_monotone.map_min]
      congr 2
      rcases le_total d u with h2 | h2
      · rw [min_eq_left h2, min_eq_left (by nlinarith)]; ring
      · rw [min_eq_right h2, min_eq_right (by nlinarith)]; ring
    · simp only [scaledDz, expLower, h0, h, if_false, if_true, expUpper, clipF]
      rw [← Real.exp_monotone.map_max]
      congr 2
      rcases le_total d u with h2 | h2
      · rw [min_eq_left h2, max_eq_left (by nlinarith)]; ring
      · rw [min_eq_right h2, max_eq_right (by nlinarith)]; ring
  · have h0 : s ≠ 0 := by simpa using hs
    refine ⟨max d l, ⟨⟨fun h e => by cases e; exact le_max_right _ _, by simp⟩,
      fun h => max_eq_left (h.1 l rfl), fun h e hlt => by cases e; exact max_eq_right hlt.le,
      by simp⟩, ?_⟩
    rcases lt_or_gt_of_ne h0 with h | h
    · have h' : ¬ 0 < s := not_lt.2 h.le
      simp only [scaledDz, expLower, h0, h', if_false, expUpper, clipF]
      rw [← Real.exp_monotone.map_max]
      congr 2
      rcases le_total d l with h2 | h2
      · rw [max_eq_right h2, max_eq_right (by nlinarith)]; ring
      · rw [max_eq_left h2, max_eq_left (by nlinarith)]; ring
    · simp only [scaledDz, expLower, h0, h, if_false, if_true, expUpper, clipF]
      rw [min_eq_right (Real.exp_pos _).le, max_eq_left (Real.exp_pos _).le,
        max_eq_left (Real.exp_pos _).le]
      rw [← Real.exp_monotone.map_min]
      congr 2
      rcases le_total d l with h2 | h2
      · rw [max_eq_right h2, min_eq_right (by nlinarith)]; ring
      · rw [max_eq_left h2, min_eq_left (by nlinarith)]; ring
  · have hlu := hb l u rfl rfl
    refine ⟨min (max d l) u, ⟨⟨fun h e => by cases e; exact le_min (le_max_right _ _) hlu,
      fun h e => by cases e; exact min_le_right _ _⟩, ?_, ?_, ?_⟩, ?_⟩
    · intro h
      rw [max_eq_left (h.1 l rfl), min_eq_left (h.2 u rfl)]
    · intro h e hlt
      cases e
      rw [max_eq_right hlt.le, min_eq_left hlu]
    · intro h e hlt
      cases e
      exact min_eq_right (hlt.le.trans (le_max_left _ _))
    · simp only [scaledDz, expLower, expUpper, clipF]
      rw [exp_min_max s l u d hlu]
      simp

/-- C135: so it is positive, and one for a site at the altitude of its grid point, if the bounds
allow a displacement of zero. -/
theorem C135_positive (lo hi : Option ℝ) (s d : ℝ)
    (hb : ∀ l u, lo = some l → hi = some u → l ≤ u)
    (hs : s ≠ 0 ∨ (lo.isSome ∧ hi.isSome)) :
    (∃ v, scaledDz lo hi s d = some v ∧ 0 < v) ∧
    (inBounds lo hi 0 → scaledDz lo hi s 0 = some 1) := by
  constructor
  · obtain ⟨c, -, h⟩ := C135_scaled_partial lo hi s d hb hs
    exact ⟨_, h, Real.exp_pos _⟩
  · intro h0
    obtain ⟨c, h1, h⟩ := C135_scaled_partial lo hi s 0 hb hs
    rw [h, h1.2.1 h0]
    simp

/-- C135, refuted: with a scale factor of zero and the default bounds every site gets NaN, though
the rescaling should then change nothing. -/
theorem C135_zero_factor_refuted (lo hi : Option ℝ) (d : ℝ) (h : lo = none ∨ hi = none) :
    scaledDz lo hi 0 d = none := by
  rcases h with rfl | rfl
  · simp [scaledDz, expLower, clipF]
  · rcases lo with _ | l <;> simp [scaledDz, expLower, expUpper, clipF]

/-! ### Estimation -/

theorem lineError_zero {pts : List (ℝ × ℝ)} {a b : ℝ} (h : lineError pts a b ≤ 0) :
    ∀ p ∈ pts, p.2 = a + b * p.1 := by
  unfold lineError at h
  induction pts with
  | nil => simp
  | cons q t ih =>
    simp only [List.map_cons, List.sum_cons] at h
    have hn : 0 ≤ (t.map fun p => (p.2 - (a + b * p.1)) ^ 2).sum := by
      apply List.sum_nonneg
      intro x hx
      obtain ⟨p, _, rfl⟩ := List.mem_map.1 hx
      exact sq_nonneg _
    have hq : 0 ≤ (q.2 - (a + b * q.1)) ^ 2 := sq_nonneg _
    intro p hp
    rcases List.mem_cons.1 hp with rfl | hp
    · have : (p.2 - (a + b * p.1)) ^ 2 = 0 := by linarith
      have := pow_eq_zero_iff (two_ne_zero) |>.1 this
      linarith
    · exact ih (by linarith) p hp

theorem lineError_exact {pts : List (ℝ × ℝ)} {a b : ℝ} (h : ∀ p ∈ pts, p.2 = a + b * p.1) :
    lineError pts a b = 0 := by
  unfold lineError
  apply List.sum_eq_zero
  intro x hx
  obtain ⟨p, hp, rfl⟩ := List.mem_map.1 hx
  rw [h p hp]
  ring

theorem selectSites_zip (common sites : List String) (row : List ℝ) (h : row.length = sites.length) :
    (sites.filter fun s => decide (s ∈ common)).zip (selectSites common sites row) =
      (sites.zip row).filter fun p => decide (p.1 ∈ common) := by
  unfold selectSites
  induction sites generalizing row with
  | nil => simp
  | cons s t ih =>
    cases row with
    | nil => simp at h
    | cons v r =>
      have ih := ih r (by simpa using h)
      by_cases hs : s ∈ common
      · simp only [List.zip_cons_cons, List.filter_cons, hs, decide_true, if_true, List.map_cons, ih]
      · simpa only [List.zip_cons_cons, List.filter_cons, hs, decide_false, Bool.false_eq_true,
          if_false] using ih

theorem selectSites_length (common sites : List String) (row : List ℝ)
    (h : row.length = sites.length) :
    (selectSites common sites row).length = (sites.filter fun s => decide (s ∈ common)).length := by
  unfold selectSites
  induction sites generalizing row with
  | nil => simp
  | cons s t ih =>
    cases row with
    | nil => simp at h
    | cons v r =>
      have ih := ih r (by simpa using h)
      by_cases hs : s ∈ common
      · simpa only [List.zip_cons_cons, List.filter_cons, hs, decide_true, if_true, List.map_cons,
          List.length_cons, add_left_inj] using ih
      · simpa only [List.zip_cons_cons, List.filter_cons, hs, decide_false, Bool.false_eq_true,
          if_false] using ih

/-- The values at the `j`-th selected site. -/
theorem selectSites_get (common sites : List String) (row : List ℝ) (h : row.length = sites.length)
    (j : ℕ) (v : ℝ) :
    (selectSites common sites row)[j]? = some v ↔
      ∃ i, (sites.filter fun s => decide (s ∈ common))[j]? = some i ∧
        ((sites.zip row).filter fun p => decide (p.1 ∈ common))[j]? = some (i, v) := by
  rw [← selectSites_zip common sites row h]
  simp only [List.getElem?_zip_eq_some]
  constructor
  · intro hv
    have hj : j < (sites.filter fun s => decide (s ∈ common)).length := by
      rw [← selectSites_length common sites row h]
      exact (List.getElem?_eq_some_iff.1 hv).1
    exact ⟨_, List.getElem?_eq_getElem hj, List.getElem?_eq_getElem hj, hv⟩
  · rintro ⟨i, -, -, hv⟩
    exact hv

/-- Same order of the common sites in the three inputs. -/
def Spec.sameOrder (fS tS dS : List String) : Prop :=
  let common := fS.filter fun s => decide (s ∈ tS) && decide (s ∈ dS)
  (tS.filter fun s => decide (s ∈ common)) = common ∧
  (dS.filter fun s => decide (s ∈ common)) = common

theorem mem_dzFitData (lo hi : Option ℝ) (fS tS dS : List String) (fcs truths : List (List ℝ))
    (dz : List ℝ) (hf : ∀ r ∈ fcs, r.length = fS.length) (ht : ∀ r ∈ truths, r.length = tS.length)
    (hd : dz.length = dS.length) (hord : sameOrder fS tS dS) (hnd : fS.Nodup)
    (p : ℝ × ℝ) :
    p ∈ dzFitData lo hi (fcs.map (selectSites (commonSites fS tS dS) fS))
      (truths.map (selectSites (commonSites fS tS dS) tS))
      (selectSites (commonSites fS tS dS) dS dz) ↔
    ∃ k i f t, training fS tS dS fcs truths dz k i f t p.1 ∧ f ≠ 0 ∧ t ≠ 0 ∧ inBounds lo hi p.1 ∧
      p.2 = Real.log (f / t) := by
  obtain ⟨ho1, ho2⟩ := hord
  set c := commonSites fS tS dS with hc
  have hcc : c = fS.filter fun s => decide (s ∈ tS) && decide (s ∈ dS) := rfl
  rw [← hcc] at ho1 ho2
  have ho0 : (fS.filter fun s => decide (s ∈ c)) = c := by
    rw [hcc]
    apply List.filter_congr
    intro s hs
    simp [hs]
  have hcnd : c.Nodup := by rw [hcc]; exact hnd.filter _
  unfold dzFitData
  rw [List.mem_flatMap]
  constructor
  · rintro ⟨⟨fr, tr⟩, hmem, hp⟩
    obtain ⟨k, hk⟩ := List.mem_iff_getElem?.1 hmem
    rw [List.getElem?_zip_eq_some] at hk
    simp only [List.getElem?_map, Option.map_eq_some_iff] at hk
    obtain ⟨⟨fr0, hfr0, hfr⟩, tr0, htr0, htr⟩ := hk
    have hfl := hf fr0 (List.mem_of_getElem? hfr0)
    have htl := ht tr0 (List.mem_of_getElem? htr0)
    unfold dzRow at hp
    rw [List.mem_filterMap] at hp
    obtain ⟨⟨⟨f, t⟩, d⟩, hq, hpt⟩ := hp
    obtain ⟨j, hj⟩ := List.mem_iff_getElem?.1 hq
    rw [List.getElem?_zip_eq_some, List.getElem?_zip_eq_some] at hj
    obtain ⟨⟨hjf, hjt⟩, hjd⟩ := hj
    simp only at hjf hjt hjd
    rw [← hfr, selectSites_get c fS fr0 hfl] at hjf
    rw [← htr, selectSites_get c tS tr0 htl] at hjt
    rw [selectSites_get c dS dz hd] at hjd
    obtain ⟨i, h1, h1'⟩ := hjf
    obtain ⟨i2, h2, h2'⟩ := hjt
    obtain ⟨i3, h3, h3'⟩ := hjd
    rw [ho0] at h1
    rw [ho1] at h2
    rw [ho2] at h3
    obtain rfl : i = i2 := by rw [h1] at h2; simpa using h2
    obtain rfl : i = i3 := by rw [h1] at h3; simpa using h3
    unfold dzPoint at hpt
    by_cases hkp : dzKept lo hi f t d
    · rw [if_pos hkp] at hpt
      simp only [Option.some.injEq] at hpt
      subst hpt
      obtain ⟨g1, g2, g3, g4⟩ := hkp
      exact ⟨k, i, f, t, ⟨⟨fr0, hfr0, List.mem_of_mem_filter (List.mem_of_getElem? h1')⟩,
        ⟨tr0, htr0, List.mem_of_mem_filter (List.mem_of_getElem? h2')⟩,
        List.mem_of_mem_filter (List.mem_of_getElem? h3')⟩, g1, g2, ⟨g3, g4⟩, rfl⟩
    · rw [if_neg hkp] at hpt
      nomatch hpt
  · rintro ⟨k, i, f, t, ⟨⟨fr0, hfr0, hvf⟩, ⟨tr0, htr0, hvt⟩, hvd⟩, g1, g2, ⟨g3, g4⟩, hp2⟩
    have hfl := hf fr0 (List.mem_of_getElem? hfr0)
    have htl := ht tr0 (List.mem_of_getElem? htr0)
    refine ⟨(selectSites c fS fr0, selectSites c tS tr0), ?_, ?_⟩
    · apply List.mem_iff_getElem?.2
      refine ⟨k, ?_⟩
      rw [List.getElem?_zip_eq_some]
      simp [hfr0, htr0]
    · have hic : i ∈ c := by
        rw [hcc, List.mem_filter]
        refine ⟨(List.of_mem_zip hvf).1, ?_⟩
        simp [(List.of_mem_zip hvt).1, (List.of_mem_zip hvd).1]
      obtain ⟨j, hj⟩ := List.mem_iff_getElem?.1 hic
      have key : ∀ (S : List String) (row : List ℝ) (v : ℝ), row.length = S.length →
          (S.filter fun s => decide (s ∈ c)) = c → (i, v) ∈ S.zip row →
          (selectSites c S row)[j]? = some v := by
        intro S row v hl ho hm
        have hm' : (i, v) ∈ (S.zip row).filter fun p => decide (p.1 ∈ c) :=
          List.mem_filter.2 ⟨hm, by simpa using hic⟩
        obtain ⟨j', hj'⟩ := List.mem_iff_getElem?.1 hm'
        have hz := hj'
        rw [← selectSites_zip c S row hl, List.getElem?_zip_eq_some, ho] at hz
        have hjj : j' = j := by
          obtain ⟨a1, a2⟩ := List.getElem?_eq_some_iff.1 hz.1
          obtain ⟨b1, b2⟩ := List.getElem?_eq_some_iff.1 hj
          exact (List.Nodup.getElem_inj_iff hcnd).1 (a2.trans b2.symm)
        rw [hjj] at hj'
        exact (selectSites_get c S row hl j v).2 ⟨i, by rw [ho]; exact hj, hj'⟩
      unfold dzRow
      rw [List.mem_filterMap]
      refine ⟨((f, t), p.1), ?_, ?_⟩
      · apply List.mem_iff_getElem?.2
        refine ⟨j, ?_⟩
        rw [List.getElem?_zip_eq_some, List.getElem?_zip_eq_some]
        exact ⟨⟨key fS fr0 f hfl ho0 hvf, key tS tr0 t htl ho1 hvt⟩, key dS dz p.1 hd ho2 hvd⟩
      · unfold dzPoint
        rw [if_pos ⟨g1, g2, g3, g4⟩, ← hp2]

/-- C134: if the logarithm of the ratio of forecast and truth depends linearly, with gradient `s`,
on the displacement, over the training data at which neither is zero and the displacement is
within the bounds, and these have two different displacements, then `s` is the scale factor used:
the output at every site of the neighbour cube is the scaled displacement (C135) for `s`.  The
sites common to the three inputs must be in the same order in each. -/
theorem C134_recovers_partial (fit : List (ℝ × ℝ) → ℝ × ℝ) (hfit : FitsLines fit)
    (lo hi : Option ℝ) (fS tS dS : List String) (fcs truths : List (List ℝ)) (dz : List ℝ)
    (hf : ∀ r ∈ fcs, r.length = fS.length) (ht : ∀ r ∈ truths, r.length = tS.length)
    (hd : dz.length = dS.length) (hord : sameOrder fS tS dS) (hnd : fS.Nodup) (a s : ℝ)
    (hlin : ∀ k i f t d, training fS tS dS fcs truths dz k i f t d → f ≠ 0 → t ≠ 0 →
      inBounds lo hi d → Real.log (f / t) = a + s * d)
    (htwo : ∃ k i f t d k' i' f' t' d', d ≠ d' ∧
      training fS tS dS fcs truths dz k i f t d ∧ f ≠ 0 ∧ t ≠ 0 ∧ inBounds lo hi d ∧
      training fS tS dS fcs truths dz k' i' f' t' d' ∧ f' ≠ 0 ∧ t' ≠ 0 ∧ inBounds lo hi d') :
    estimateDz fit lo hi fS tS dS fcs truths dz = .ok (dz.map (scaledDz lo hi s)) := by
  have hmem := mem_dzFitData lo hi fS tS dS fcs truths dz hf ht hd hord hnd
  unfold estimateDz
  simp only
  set data := dzFitData lo hi (fcs.map (selectSites (commonSites fS tS dS) fS))
      (truths.map (selectSites (commonSites fS tS dS) tS))
      (selectSites (commonSites fS tS dS) dS dz)
  obtain ⟨k, i, f, t, d, k', i', f', t', d', hdd, h1, h2, h3, h4, h1', h2', h3', h4'⟩ := htwo
  have m1 : (d, Real.log (f / t)) ∈ data := (hmem _).2 ⟨k, i, f, t, h1, h2, h3, h4, rfl⟩
  have m2 : (d', Real.log (f' / t')) ∈ data := (hmem _).2 ⟨k', i', f', t', h1', h2', h3', h4', rfl⟩
  have hne : data ≠ [] := List.ne_nil_of_mem m1
  rw [if_neg hne]
  have hex : ∀ p ∈ data, p.2 = a + s * p.1 := by
    intro p hp
    obtain ⟨k, i, f, t, g1, g2, g3, g4, g5⟩ := (hmem p).1 hp
    rw [g5]
    exact hlin k i f t p.1 g1 g2 g3 g4
  have h0 := hfit data hne a s
  rw [lineError_exact hex] at h0
  have hz := lineError_zero h0
  have e1 := hz _ m1
  have e2 := hz _ m2
  have e1' := hex _ m1
  have e2' := hex _ m2
  simp only at e1 e2 e1' e2'
  have hs : (fit data).2 = s := by
    have : ((fit data).2 - s) * (d - d') = 0 := by linarith
    rcases mul_eq_zero.1 this with h | h
    · linarith
    · exact absurd (by linarith) hdd
  rw [hs]

/-- C134: pairs with a zero forecast or a zero truth, and sites beyond the bounds, do not matter:
the estimate is a function of the other points only. -/
theorem C134_data (lo hi : Option ℝ) (fS tS dS : List String) (fcs truths : List (List ℝ))
    (dz : List ℝ) (hf : ∀ r ∈ fcs, r.length = fS.length) (ht : ∀ r ∈ truths, r.length = tS.length)
    (hd : dz.length = dS.length) (hord : sameOrder fS tS dS) (hnd : fS.Nodup)
    (fit : List (ℝ × ℝ) → ℝ × ℝ) :
    ∃ data : List (ℝ × ℝ), (∀ d y, (d, y) ∈ data ↔
        ∃ k i f t, training fS tS dS fcs truths dz k i f t d ∧ f ≠ 0 ∧ t ≠ 0 ∧ inBounds lo hi d ∧
          y = Real.log (f / t)) ∧
      (data = [] → estimateDz fit lo hi fS tS dS fcs truths dz = .error .typeError) ∧
      (data ≠ [] → estimateDz fit lo hi fS tS dS fcs truths dz =
        .ok (dz.map (scaledDz lo hi (fit data).2))) := by
  refine ⟨dzFitData lo hi (fcs.map (selectSites (commonSites fS tS dS) fS))
      (truths.map (selectSites (commonSites fS tS dS) tS))
      (selectSites (commonSites fS tS dS) dS dz), ?_, ?_, ?_⟩
  · intro d y
    exact mem_dzFitData lo hi fS tS dS fcs truths dz hf ht hd hord hnd (d, y)
  · intro h
    unfold estimateDz
    simp only
    rw [if_pos h]
  · intro h
    unfold estimateDz
    simp only
    rw [if_neg h]

/-- C134, refuted in general: when the cubes hold the same sites in different orders, the values
of different sites are paired.  Here forecast and truth are equal at both sites, so that the points
should all have a logarithm of zero. -/
theorem C134_order_refuted :
    (∀ i f t d, training ["a", "b"] ["b", "a"] ["a", "b"] [[1, Real.exp 1]] [[Real.exp 1, 1]]
      [0, 1] 0 i f t d → f = t) ∧
    dzFitData none none ([[1, Real.exp 1]].map
        (selectSites (commonSites ["a", "b"] ["b", "a"] ["a", "b"]) ["a", "b"]))
      ([[Real.exp 1, 1]].map
        (selectSites (commonSites ["a", "b"] ["b", "a"] ["a", "b"]) ["b", "a"]))
      (selectSites (commonSites ["a", "b"] ["b", "a"] ["a", "b"]) ["a", "b"] [0, 1]) =
      [(0, -1), (1, 1)] := by
  constructor
  · rintro i f t d ⟨⟨r, hr, hf⟩, ⟨r', hr', ht⟩, -⟩
    simp only [List.getElem?_cons_zero, Option.some.injEq] at hr hr'
    subst hr hr'
    simp only [hasValue, List.zip_cons_cons, List.zip_nil_left, List.mem_cons, Prod.mk.injEq,
      List.not_mem_nil, or_false] at hf ht
    rcases hf with ⟨rfl, rfl⟩ | ⟨rfl, rfl⟩ <;> rcases ht with ⟨h, rfl⟩ | ⟨h, rfl⟩ <;>
      first | rfl | (exact absurd h (by decide))
  · have he : Real.exp 1 ≠ 0 := Real.exp_ne_zero 1
    simp [dzFitData, dzRow, selectSites, commonSites, dzPoint, dzKept, he, List.filter_cons]

/-- non-vacuity of C134_recovers_partial: two sites, one time, `s = 1`. -/
example (fit : List (ℝ × ℝ) → ℝ × ℝ) (hfit : FitsLines fit) :
    estimateDz fit none none ["a", "b"] ["a", "b"] ["a", "b"] [[2, 2 * Real.exp 1]] [[2, 2]]
      [0, 1] = .ok ([0, 1].map (scaledDz none none 1)) := by
  apply C134_recovers_partial fit hfit (a := 0)
  · simp
  · simp
  · simp
  · simp [sameOrder]
  · simp
  · rintro k i f t d ⟨⟨r, hr, hf⟩, ⟨r', hr', ht⟩, hd⟩ _ _ _
    have hk : k = 0 := by
      rcases k with _ | k
      · rfl
      · simp at hr
    subst hk
    simp only [List.getElem?_cons_zero, Option.some.injEq] at hr hr'
    subst hr hr'
    simp only [hasValue, List.zip_cons_cons, List.zip_nil_left, List.mem_cons, Prod.mk.injEq,
      List.not_mem_nil, or_false] at hf ht hd
    rcases hf with ⟨rfl, rfl⟩ | ⟨rfl, rfl⟩ <;> rcases ht with ⟨h, rfl⟩ | ⟨h, rfl⟩ <;>
      rcases hd with ⟨h', rfl⟩ | ⟨h', rfl⟩ <;>
      first
        | (exact absurd h (by decide))
        | (exact absurd h' (by decide))
        | simp
  · refine ⟨0, "a", 2, 2, 0, 0, "b", 2 * Real.exp 1, 2, 1, by norm_num, ?_, by norm_num,
      by norm_num, ⟨by simp, by simp⟩, ?_, ?_, by norm_num, ⟨by simp, by simp⟩⟩
    · exact ⟨⟨_, rfl, by simp [hasValue]⟩, ⟨_, rfl, by simp [hasValue]⟩, by simp [hasValue]⟩
    · exact ⟨⟨_, rfl, by simp [hasValue]⟩, ⟨_, rfl, by simp [hasValue]⟩, by simp [hasValue]⟩
    · have := Real.exp_ne_zero 1
      positivity

/-! ### Application -/

theorem mem_leniencies (n : ℕ) (o : ℤ) : o ∈ leniencies n ↔ |o| ≤ n := by
  induction n with
  | zero => simp [leniencies]
  | succ n ih =>
    simp only [leniencies, List.mem_append, ih, List.mem_cons, List.not_mem_nil, or_false]
    push_cast
    constructor
    · rintro (h | rfl | rfl)
      · linarith
      · rw [abs_neg, abs_of_nonneg (by positivity)]
      · rw [abs_of_nonneg (by positivity)]
    · intro h
      rcases lt_or_ge (n : ℤ) |o| with h1 | h1
      · have : |o| = n + 1 := by omega
        rcases abs_choice o with h2 | h2
        · right; right; omega
        · right; left; omega
      · left; exact h1

theorem leniencies_sorted (n : ℕ) :
    (leniencies n).Pairwise fun a b => |a| < |b| ∨ (a < 0 ∧ b = -a) := by
  induction n with
  | zero => simp [leniencies]
  | succ n ih =>
    simp only [leniencies]
    rw [List.pairwise_append]
    refine ⟨ih, ?_, ?_⟩
    · simp only [List.pairwise_cons, List.mem_cons, List.not_mem_nil, or_false, forall_eq,
        List.Pairwise.nil, and_true, false_imp_iff, implies_true]
      right
      exact ⟨by omega, by ring⟩
    · intro a ha b hb
      rw [mem_leniencies] at ha
      left
      have hp : |(n : ℤ) + 1| = n + 1 := abs_of_nonneg (by positivity)
      simp only [List.mem_cons, List.not_mem_nil, or_false] at hb
      rcases hb with rfl | rfl
      · rw [abs_neg, hp]; linarith
      · rw [hp]; linarith

/-- A `find?` over a list ordered by `r` gives an element before all other matches. -/
theorem find_first {α : Type} (r : α → α → Prop) (p : α → Bool) (l : List α)
    (hl : l.Pairwise r) (x : α) (hx : l.find? p = some x) :
    x ∈ l ∧ p x = true ∧ ∀ y ∈ l, p y = true → y = x ∨ r x y := by
  induction l with
  | nil => simp at hx
  | cons a t ih =>
    rw [List.pairwise_cons] at hl
    by_cases ha : p a = true
    · rw [List.find?_cons_of_pos ha] at hx
      obtain rfl : a = x := by simpa using hx
      refine ⟨by simp, ha, ?_⟩
      intro y hy _
      rcases List.mem_cons.1 hy with rfl | hy
      · left; rfl
      · right; exact hl.1 y hy
    · rw [List.find?_cons_of_neg ha] at hx
      obtain ⟨h1, h2, h3⟩ := ih hl.2 hx
      refine ⟨List.mem_cons_of_mem _ h1, h2, ?_⟩
      intro y hy hpy
      rcases List.mem_cons.1 hy with rfl | hy
      · exact absurd hpy ha
      · exact h3 y hy hpy

/-- C136: the forecast period used is the shortest one not shorter than that of the forecast, or
the longest if all are shorter (periods in ascending order). -/
theorem C136_period (fps : List ℤ) (fp : ℤ) (hs : fps.Pairwise (· < ·)) (hne : fps ≠ []) :
    ∃ p, chosenPeriod fps fp = some p ∧ p ∈ fps ∧
      ((fp ≤ p ∧ ∀ q ∈ fps, fp ≤ q → p ≤ q) ∨ (p < fp ∧ ∀ q ∈ fps, q ≤ p)) := by
  unfold chosenPeriod
  cases h : fps.find? (fun p => decide (0 ≤ p - fp)) with
  | some p =>
    obtain ⟨h1, h2, h3⟩ := find_first _ _ _ hs p h
    refine ⟨p, rfl, h1, Or.inl ⟨by have := of_decide_eq_true h2; omega, ?_⟩⟩
    intro q hq hfq
    rcases h3 q hq (by simpa using hfq) with rfl | h
    · rfl
    · exact le_of_lt h
  | none =>
    rw [List.find?_eq_none] at h
    have hl := List.getLast?_eq_getLast_of_ne_nil hne
    refine ⟨fps.getLast hne, hl, List.getLast_mem hne, Or.inr ⟨?_, ?_⟩⟩
    · have := h _ (List.getLast_mem hne)
      simp only [decide_eq_true_eq] at this
      omega
    · intro q hq
      have hd := List.dropLast_append_getLast hne
      rw [← hd] at hq hs
      rcases List.mem_append.1 hq with hq | hq
      · exact le_of_lt ((List.pairwise_append.1 hs).2.2 q hq _ (by simp))
      · simp at hq; exact hq.le

namespace Spec

/-- Hour of the day, `o` hours after the reference time. -/
def hourAfter (frt o : ℤ) : ℤ := (frt / 3600 + o) % 24

end Spec

theorem lenientHour_eq (frt o : ℤ) : lenientHour frt o = hourAfter frt o * 3600 := by
  unfold lenientHour hourAfter
  congr 1
  omega

/-- C136: the forecast is multiplied, site by site, by the scaled displacements for that period
and for the hour of its reference time or, if there is none for it, for the hour nearest to it
within the leniency, the earlier of two. -/
theorem C136_applied (n : ℕ) (sites : List String) (frt fp : ℤ) (data out : List ℝ) (s : ScaledDz)
    (h : applyDz n sites frt fp data s = .ok out) :
    sites = s.sites ∧ ∃ p o : ℤ, chosenPeriod s.fps fp = some p ∧ |o| ≤ n ∧
      hourAfter frt o * 3600 ∈ s.hours ∧
      (∀ o' : ℤ, |o'| ≤ n → hourAfter frt o' * 3600 ∈ s.hours → |o| ≤ |o'| ∧ (|o| = |o'| → o ≤ o')) ∧
      out = List.zipWith (· * ·) data (s.data p (hourAfter frt o * 3600)) := by
  unfold applyDz at h
  by_cases hs : sites ≠ s.sites
  · rw [if_pos hs] at h; nomatch h
  rw [if_neg hs] at h
  refine ⟨not_not.1 hs, ?_⟩
  cases hp : chosenPeriod s.fps fp with
  | none => rw [hp] at h; nomatch h
  | some p =>
    rw [hp] at h
    simp only at h
    cases ho : (leniencies n).find? (fun o => decide (lenientHour frt o ∈ s.hours)) with
    | none => rw [ho] at h; nomatch h
    | some o =>
      rw [ho] at h
      simp only [Except.ok.injEq] at h
      obtain ⟨h1, h2, h3⟩ := find_first _ _ _ (leniencies_sorted n) o ho
      have h2' := of_decide_eq_true h2
      rw [lenientHour_eq] at h h2'
      refine ⟨p, o, rfl, (mem_leniencies n o).1 h1, h2', ?_, h.symm⟩
      intro o' ho' hm
      rw [← lenientHour_eq] at hm
      rcases h3 o' ((mem_leniencies n o').2 ho') (by simpa using hm) with rfl | h | ⟨h, h'⟩
      · exact ⟨le_rfl, fun _ => le_rfl⟩
      · exact ⟨h.le, fun e => absurd e (ne_of_lt h)⟩
      · subst h'
        exact ⟨by rw [abs_neg], fun _ => by omega⟩

/-- C136: it is refused exactly when the sites, or their order, differ or no hour within the
leniency is available. -/
theorem C136_accepted (n : ℕ) (sites : List String) (frt fp : ℤ) (data : List ℝ) (s : ScaledDz)
    (hne : s.fps ≠ []) :
    (∃ out, applyDz n sites frt fp data s = .ok out) ↔
      sites = s.sites ∧ ∃ o : ℤ, |o| ≤ n ∧ hourAfter frt o * 3600 ∈ s.hours := by
  constructor
  · rintro ⟨out, h⟩
    obtain ⟨h1, p, o, -, h2, h3, -⟩ := C136_applied n sites frt fp data out s h
    exact ⟨h1, o, h2, h3⟩
  · rintro ⟨rfl, o, h2, h3⟩
    unfold applyDz
    rw [if_neg (by simp)]
    have hp : ∃ p, chosenPeriod s.fps fp = some p := by
      unfold chosenPeriod
      cases s.fps.find? (fun p => decide (0 ≤ p - fp)) with
      | some p => exact ⟨p, rfl⟩
      | none => exact ⟨_, List.getLast?_eq_getLast_of_ne_nil hne⟩
    obtain ⟨p, hp⟩ := hp
    rw [hp]
    simp only
    cases ho : (leniencies n).find? (fun o => decide (lenientHour frt o ∈ s.hours)) with
    | some o' => exact ⟨_, rfl⟩
    | none =>
      rw [List.find?_eq_none] at ho
      have := ho o ((mem_leniencies n o).2 h2)
      rw [lenientHour_eq] at this
      simp [h3] at this

/-- C136: the hour stored by the estimation is that of the reference times of its forecasts, so
that a forecast from the same hour of the day is corrected by it, without use of the leniency. -/
theorem C136_hour (time fp frt : ℤ) (h : (time - fp) / 3600 % 24 = frt / 3600 % 24) :
    dzHour time fp = hourAfter frt 0 * 3600 := by
  unfold dzHour hourAfter
  rw [h]
  simp

/-- C136, end to end: a forecast whose logarithmic error depends linearly on the displacement, with
the estimated factor and no constant, becomes the truth at sites within the bounds. -/
theorem C136_corrects (lo hi : Option ℝ) (s d f t : ℝ)
    (hb : ∀ l u, lo = some l → hi = some u → l ≤ u)
    (hs : s ≠ 0 ∨ (lo.isSome ∧ hi.isSome)) (hd : inBounds lo hi d)
    (hf : 0 < f) (ht : 0 < t) (hlin : Real.log (f / t) = s * d) :
    ∃ c, scaledDz lo hi s d = some c ∧ f * c = t := by
  obtain ⟨c, h1, h2⟩ := C135_scaled_partial lo hi s d hb hs
  refine ⟨_, h2, ?_⟩
  rw [h1.2.1 hd]
  have : Real.exp (s * d) = f / t := by
    rw [← hlin, Real.exp_log (div_pos hf ht)]
  rw [neg_mul, Real.exp_neg, this]
  field_simp

/-- C136, refuted: the forecast of the caller is overwritten, and giving it again corrects it
twice. -/
theorem C136_twice_refuted :
    ∃ (s : ScaledDz) (data once twice : List ℝ),
      applyDz 0 ["a"] 0 3600 data s = .ok once ∧ applyDz 0 ["a"] 0 3600 once s = .ok twice ∧
      once ≠ twice := by
  have h : ∀ d : List ℝ, applyDz 0 ["a"] 0 3600 d ⟨[3600], [0], ["a"], fun _ _ => [2]⟩ =
      .ok (List.zipWith (· * ·) d [2]) := by
    intro d
    simp [applyDz, chosenPeriod, leniencies, lenientHour]
  exact ⟨⟨[3600], [0], ["a"], fun _ _ => [2]⟩, [1], [2], [4], by rw [h]; simp, by
    rw [h]; norm_num, by norm_num⟩

/-- non-vacuity: hours 23 and 2 available, forecast from 00, leniency 2: hour 23 is used. -/
example : applyDz 2 ["a"] 0 7200 [3] ⟨[3600, 10800], [82800, 7200], ["a"],
    fun p h => if p = 10800 ∧ h = 82800 then [2] else [0]⟩ = .ok [6] := by
  simp [applyDz, chosenPeriod, leniencies, lenientHour, List.find?]
  norm_num

end Improver
