import Verif.Model.Assembly
import Verif.Props.Nowcast
import Verif.Props.Spatial
import Verif.Props.RainForests

/-! Property theorems C190 (pysteps_advection.py). -/

namespace Improver

/-- The forecast `k` steps after the analysis of `c`, from the field `f` (mm/h): `e` is the enhancement for its time. -/
def Spec.nowcastAt (thr : ℚ) (interval : ℤ) (oe : List (ℤ × (ℕ → ℕ → ℚ))) (c : NowcastCube) (k : ℕ) (f : RateField)
    (r : RateForecast) : Prop :=
  r.time = c.time + k * (60 * interval) ∧ r.timeBounds = c.timeBounds ∧
  r.frt = (match c.frt with | some t => t | none => c.time) ∧
  r.period = (if k = 0 then (match c.period with | some p => p | none => 0) else k * (60 * interval)) ∧
  ∃ s, Spec.nearestSlice oe r.time s ∧ ∀ y x, r.data y x = (f y x).map fun v => Spec.oeAdd thr (s.2 y x) (v / c.scale)

theorem finishForecast_ok {thr fac : ℚ} {oe : List (ℤ × (ℕ → ℕ → ℚ))} {f r : RateForecast}
    (h : finishForecast thr fac oe f = .ok r) : r.time = f.time ∧ r.timeBounds = f.timeBounds ∧ r.frt = f.frt ∧
      r.period = f.period ∧ ∃ s, Spec.nearestSlice oe f.time s ∧
        ∀ y x, r.data y x = (f.data y x).map fun v => Spec.oeAdd thr (s.2 y x) (v * fac) := by
  unfold finishForecast at h
  simp only [bind, Except.bind] at h
  cases hd : oeField "add" thr oe f.time fun y x => (f.data y x).map (· * fac) with
  | error e => rw [hd] at h; exact nomatch h
  | ok d =>
    rw [hd] at h
    injection h with h
    subst h
    obtain ⟨s, hs, hv⟩ := oeField_spec "add" thr oe f.time _ d (.inl rfl) hd
    refine ⟨rfl, rfl, rfl, rfl, s, hs, fun y x => ?_⟩
    refine (hv y x).trans ?_
    rw [if_pos rfl]
    cases f.data y x <;> simp

theorem oeField_ok_iff (op : String) (thr : ℚ) (oe : List (ℤ × (ℕ → ℕ → ℚ))) (t : ℤ) (f : ℕ → ℕ → Option ℚ) :
    (∃ g, oeField op thr oe t f = .ok g) ↔ ∃ q ∈ oe, |t - q.1| ≤ 1800 := by
  rw [← (oeSelect_spec oe t).2]
  unfold oeField
  simp only [bind, Except.bind, pure, Except.pure]
  cases oeSelect oe t with
  | error e => exact ⟨fun ⟨_, h⟩ => (nomatch h), fun ⟨_, h⟩ => (nomatch h)⟩
  | ok e => exact ⟨fun _ => ⟨e, rfl⟩, fun _ => ⟨_, rfl⟩⟩

theorem nowcast_ok {thr : ℚ} {extrap : RateField → RateField → RateField → ℕ → List RateField} {interval maxLead : ℤ}
    {c : NowcastCube} {u v : RateField} {oe : List (ℤ × (ℕ → ℕ → ℚ))} {out : List RateForecast}
    (h : pystepsNowcast thr extrap interval maxLead c u v oe = .ok out) :
    interval ≠ 0 ∧ subStr "rate" c.name = true ∧ checkEqualArea c.xs c.ys true = .ok () ∧ ∃ base spacing,
      oeField "subtract" thr oe c.time c.data = .ok base ∧ gridSpacing c.xs = .ok spacing ∧
      (outputCubes interval (analysisForecast c fun y x => (base y x).map (· * c.scale))
        (extrap (fun y x => (base y x).map (· * c.scale)) (displacementOf u interval spacing)
          (displacementOf v interval spacing) (maxLead / interval).toNat)).mapM (finishForecast thr (1 / c.scale) oe) =
        .ok out := by
  unfold pystepsNowcast at h
  by_cases h0 : interval = 0
  · rw [if_pos h0] at h; exact nomatch h
  rw [if_neg h0] at h
  cases hr : subStr "rate" c.name with
  | false => rw [hr] at h; exact nomatch h
  | true =>
    rw [hr] at h
    simp only [Bool.not_true, Bool.false_eq_true, if_false, bind, Except.bind] at h
    cases ha : checkEqualArea c.xs c.ys true with
    | error e => rw [ha] at h; exact nomatch h
    | ok a =>
      rw [ha] at h
      cases hb : oeField "subtract" thr oe c.time c.data with
      | error e => rw [hb] at h; exact nomatch h
      | ok base =>
        rw [hb] at h
        unfold displacementArray at h
        simp only [bind, Except.bind] at h
        cases hg : gridSpacing c.xs with
        | error e => rw [hg] at h; exact nomatch h
        | ok sp =>
          rw [hg] at h
          exact ⟨h0, rfl, rfl, base, sp, rfl, rfl, h⟩

/-- C190: the forecasts: the analysis and one for each field of the extrapolation, of the analysis without enhancement in
mm/h by the displacements in grid squares for each step; each is for its time, in the units of the analysis with the
enhancement for its own time added. -/
theorem C190_forecasts {thr : ℚ} {extrap : RateField → RateField → RateField → ℕ → List RateField} {interval maxLead : ℤ}
    {c : NowcastCube} {u v : RateField} {oe : List (ℤ × (ℕ → ℕ → ℚ))} {out : List RateForecast}
    (h : pystepsNowcast thr extrap interval maxLead c u v oe = .ok out) :
    ∃ s0 spacing rate, Spec.nearestSlice oe c.time s0 ∧ gridSpacing c.xs = .ok spacing ∧
      (∀ y x, rate y x = (c.data y x).map fun p => Spec.oeSub thr (s0.2 y x) p * c.scale) ∧
      List.Forall₂ (fun kf r => Spec.nowcastAt thr interval oe c kf.2 kf.1 r)
        ((rate :: extrap rate (fun y x => (u y x).map fun w => w * (60 * interval) / spacing)
          (fun y x => (v y x).map fun w => w * (60 * interval) / spacing) (maxLead / interval).toNat).zipIdx) out := by
  obtain ⟨_, _, _, base, sp, hb, hg, hm⟩ := nowcast_ok h
  obtain ⟨s0, hs0, hv0⟩ := oeField_spec "subtract" thr oe c.time _ base (.inr rfl) hb
  refine ⟨s0, sp, fun y x => (base y x).map (· * c.scale), hs0, hg, fun y x => ?_, ?_⟩
  · show (base y x).map (· * c.scale) = _
    rw [hv0 y x, if_neg (by decide)]
    cases c.data y x <;> simp
  have hdisp : ∀ w : RateField, (fun y x => (w y x).map fun w => w * (60 * interval) / sp) = displacementOf w interval sp := by
    intro w; funext y x; unfold displacementOf; cases w y x with
    | none => rfl
    | some a => simp only [Option.map_some]; congr 2; ring
  rw [hdisp u, hdisp v]
  set rate : RateField := fun y x => (base y x).map (· * c.scale)
  generalize extrap rate (displacementOf u interval sp) (displacementOf v interval sp) (maxLead / interval).toNat = fields at *
  have hf := mapM_ok_forall₂ hm
  unfold outputCubes at hf
  rw [List.zipIdx_cons]
  cases hf with
  | cons h0 hrest =>
    rename_i r0 out'
    have hdiv : ∀ (o : Option ℚ) (g : ℚ → ℚ), (o.map fun v => g (v * (1 / c.scale))) = o.map fun v => g (v / c.scale) := by
      intro o g; congr 1; funext v; congr 1; ring
    refine .cons ?_ ?_
    · obtain ⟨h1, h2, h3, h4, s, hs, hd⟩ := finishForecast_ok h0
      unfold Spec.nowcastAt
      simp only [analysisForecast] at h1 h2 h3 h4 hs hd
      refine ⟨by rw [h1]; simp, h2, by rw [h3]; cases c.frt <;> rfl, by rw [h4]; cases c.period <;> simp, s, h1 ▸ hs, ?_⟩
      intro y x
      rw [hd y x, hdiv (rate y x) (Spec.oeAdd thr (s.2 y x))]
    · rw [List.forall₂_iff_get] at hrest ⊢
      refine ⟨by simpa using hrest.1, fun i hi1 hi2 => ?_⟩
      have := hrest.2 i (by simpa using hi1) hi2
      obtain ⟨h1, h2, h3, h4, s, hs, hd⟩ := finishForecast_ok this
      simp only [List.get_eq_getElem, List.getElem_mapIdx, analysisForecast] at h1 h2 h3 h4 hs hd
      simp only [List.get_eq_getElem, List.getElem_zipIdx]
      unfold Spec.nowcastAt
      refine ⟨by simp only [List.get_eq_getElem, h1]; push_cast; ring, h2, by simp only [List.get_eq_getElem, h3]; cases c.frt <;> rfl, ?_, s, ?_, ?_⟩
      · simp only [List.get_eq_getElem, h4]
        rw [if_neg (by omega)]; push_cast; ring
      · simp only [List.get_eq_getElem, h1]; exact hs
      · intro y x
        simp only [List.get_eq_getElem, hd y x]
        exact hdiv _ _

/-- C190: if the extrapolation gives as many fields as asked for, there is a forecast for each multiple of the interval up to
the greatest lead time. -/
theorem C190_number {thr : ℚ} {extrap : RateField → RateField → RateField → ℕ → List RateField} {interval maxLead : ℤ}
    {c : NowcastCube} {u v : RateField} {oe : List (ℤ × (ℕ → ℕ → ℚ))} {out : List RateForecast}
    (he : ∀ f a b n, (extrap f a b n).length = n) (hi : 0 < interval) (hm : 0 ≤ maxLead)
    (h : pystepsNowcast thr extrap interval maxLead c u v oe = .ok out) :
    ∀ k : ℕ, k < out.length ↔ k * interval ≤ maxLead := by
  obtain ⟨_, _, _, _, _, _, hf⟩ := C190_forecasts h
  have hl := hf.length_eq
  rw [List.length_zipIdx, List.length_cons, he] at hl
  intro k
  have hq : 0 ≤ maxLead / interval := Int.ediv_nonneg hm hi.le
  rw [← hl, Nat.lt_succ_iff, ← Int.le_ediv_iff_mul_le hi]
  omega

/-- C190: what it needs: an interval, a rate, a grid with the same spacing along both axes, and enhancement within half an
hour of each time. -/
theorem C190_succeeds {thr : ℚ} {extrap : RateField → RateField → RateField → ℕ → List RateField} {interval maxLead : ℤ}
    {c : NowcastCube} {u v : RateField} {oe : List (ℤ × (ℕ → ℕ → ℚ))} (he : ∀ f a b n, (extrap f a b n).length = n)
    (hi : 0 < interval) :
    (∃ out, pystepsNowcast thr extrap interval maxLead c u v oe = .ok out) ↔
      "rate".toList <:+: c.name.toList ∧ checkEqualArea c.xs c.ys true = .ok () ∧
      ∀ k : ℕ, k ≤ (maxLead / interval).toNat → ∃ q ∈ oe, |c.time + k * (60 * interval) - q.1| ≤ 1800 := by
  constructor
  · rintro ⟨out, h⟩
    obtain ⟨_, hr, ha, _⟩ := nowcast_ok h
    refine ⟨by simpa [subStr] using hr, ha, fun k hk => ?_⟩
    obtain ⟨_, _, rate, _, _, _, hf⟩ := C190_forecasts h
    obtain ⟨hl, hg⟩ := List.forall₂_iff_get.1 hf
    rw [List.length_zipIdx, List.length_cons, he] at hl
    have := hg k (by simp [he]; omega) (by omega)
    obtain ⟨h1, _, _, _, s, hs, _⟩ := this
    simp only [List.get_eq_getElem, List.getElem_zipIdx, Nat.zero_add] at h1
    refine ⟨s, hs.1, ?_⟩
    have := hs.2.2
    simp only [List.get_eq_getElem] at this
    rw [h1] at this; exact this
  · rintro ⟨hr, ha, hq⟩
    unfold pystepsNowcast
    rw [if_neg hi.ne']
    have hr' : subStr "rate" c.name = true := by simpa [subStr] using hr
    obtain ⟨base, hb⟩ := (oeField_ok_iff "subtract" thr oe c.time c.data).2 (by simpa using hq 0 (Nat.zero_le _))
    have hsp : ∃ sp, gridSpacing c.xs = .ok sp := by
      unfold checkEqualArea at ha
      simp only [bind, Except.bind] at ha
      cases hg : gridSpacing c.xs with
      | error e => rw [hg] at ha; exact nomatch ha
      | ok sp => exact ⟨sp, rfl⟩
    obtain ⟨sp, hsp⟩ := hsp
    unfold displacementArray
    simp only [hr', Bool.not_true, Bool.false_eq_true, if_false, bind, Except.bind, ha, hb, hsp]
    set rate : RateField := fun y x => (base y x).map (· * c.scale)
    have hlen := he rate (displacementOf u interval sp) (displacementOf v interval sp) (maxLead / interval).toNat
    generalize extrap rate (displacementOf u interval sp) (displacementOf v interval sp) (maxLead / interval).toNat = fields at *
    have hall : ∀ f ∈ outputCubes interval (analysisForecast c rate) fields, ∃ r, finishForecast thr (1 / c.scale) oe f = .ok r := by
      intro f hf
      have ht : ∃ q ∈ oe, |f.time - q.1| ≤ 1800 := by
        rcases List.mem_cons.1 hf with rfl | hf
        · simpa [analysisForecast] using hq 0 (Nat.zero_le _)
        · obtain ⟨i, hi', rfl⟩ := List.mem_mapIdx.1 hf
          obtain ⟨q, hq1, hq2⟩ := hq (i + 1) (by omega)
          refine ⟨q, hq1, ?_⟩
          simp only [analysisForecast]
          rw [show c.time + ((i : ℤ) + 1) * interval * 60 = c.time + ((i + 1 : ℕ) : ℤ) * (60 * interval) by push_cast; ring]
          exact hq2
      obtain ⟨g, hg⟩ := (oeField_ok_iff "add" thr oe f.time fun y x => (f.data y x).map (· * (1 / c.scale))).2 ht
      unfold finishForecast
      simp only [bind, Except.bind, hg]
      exact ⟨_, rfl⟩
    generalize outputCubes interval (analysisForecast c rate) fields = l at hall
    have : ∃ rs, List.Forall₂ (fun a b => finishForecast thr (1 / c.scale) oe a = .ok b) l rs := by
      induction l with
      | nil => exact ⟨[], .nil⟩
      | cons a l ih =>
        obtain ⟨r, hr⟩ := hall a (by simp)
        obtain ⟨rs, hrs⟩ := ih fun f hf => hall f (by simp [hf])
        exact ⟨r :: rs, .cons hr hrs⟩
    obtain ⟨rs, hrs⟩ := this
    exact ⟨rs, mapM_of_forall₂ hrs⟩

/-- C190: the first forecast is the analysis, but that a rate from the minimum up to the minimum plus the enhancement becomes
that sum. -/
theorem C190_first {thr : ℚ} {extrap : RateField → RateField → RateField → ℕ → List RateField} {interval maxLead : ℤ}
    {c : NowcastCube} {u v : RateField} {oe : List (ℤ × (ℕ → ℕ → ℚ))} {out : List RateForecast} (hs : c.scale ≠ 0)
    (hoe : (oe.map Prod.fst).Nodup) (hclose : ∀ p ∈ oe, ∀ q ∈ oe, |c.time - p.1| = |c.time - q.1| → p.1 = q.1)
    (h : pystepsNowcast thr extrap interval maxLead c u v oe = .ok out) :
    ∃ r s, out[0]? = some r ∧ Spec.nearestSlice oe c.time s ∧ r.time = c.time ∧
      ∀ y x, r.data y x = (c.data y x).map fun p => if p < thr then p else max p (thr + s.2 y x) := by
  obtain ⟨s0, _, rate, hs0, _, hrate, hf⟩ := C190_forecasts h
  rw [List.zipIdx_cons] at hf
  cases hf with
  | @cons _ r0 _ out' h0 _ =>
    obtain ⟨ht, _, _, _, s1, hs1, hd⟩ := h0
    have ht' : r0.time = c.time := by rw [ht]; simp
    rw [ht'] at hs1
    have hsame : s1 = s0 := by
      have hfst : s1.1 = s0.1 := by
        apply hclose s1 hs1.1 s0 hs0.1
        exact le_antisymm (hs1.2.1 s0 hs0.1) (hs0.2.1 s1 hs1.1)
      exact List.inj_on_of_nodup_map hoe hs1.1 hs0.1 hfst
    refine ⟨r0, s0, rfl, hs0, ht', fun y x => ?_⟩
    rw [hd y x, hsame]
    show (rate y x).map _ = _
    rw [hrate y x]
    cases c.data y x with
    | none => rfl
    | some p =>
      simp only [Option.map_some, Option.some.injEq]
      rw [mul_div_cancel_right₀ _ hs]
      exact (C92_round_trip thr (s0.2 y x) p).1

/-- C190: if the analysis is its own reference (or has none), forecast periods are times since the reference time. -/
theorem C190_periods {thr : ℚ} {extrap : RateField → RateField → RateField → ℕ → List RateField} {interval maxLead : ℤ}
    {c : NowcastCube} {u v : RateField} {oe : List (ℤ × (ℕ → ℕ → ℚ))} {out : List RateForecast}
    (hfrt : c.frt = none ∨ c.frt = some c.time) (hp : c.period = none ∨ c.period = some 0)
    (h : pystepsNowcast thr extrap interval maxLead c u v oe = .ok out) :
    ∀ r ∈ out, r.period = r.time - r.frt := by
  obtain ⟨_, _, rate, _, _, _, hf⟩ := C190_forecasts h
  intro r hr
  obtain ⟨kf, _, h1, _, h3, h4, _⟩ := forall₂_right hf r hr
  have e1 : r.frt = c.time := by rcases hfrt with h | h <;> rw [h] at h3 <;> exact h3
  rw [h4, h1, e1]
  by_cases hk : kf.2 = 0
  · rw [if_pos hk, hk]
    rcases hp with h | h <;> rw [h] <;> simp
  · rw [if_neg hk]; ring

/-- An analysis on a grid of 3 by 2 points 1 km apart. -/
def exRate : NowcastCube := ⟨"lwe_precipitation_rate", [0, 1000, 2000], [0, 1000], 1, 0, none, none, none, fun y x => some (y + x)⟩

/-- An extrapolation that moves nothing. -/
def exStill (f _ _ : RateField) (n : ℕ) : List RateField := List.replicate n f

/-- Readable parts of the forecasts. -/
def readRates (r : Except Err (List RateForecast)) : Option (List (ℤ × ℤ × ℤ × Option ℚ)) :=
  r.toOption.map fun l => l.map fun f => (f.time, f.frt, f.period, f.data 1 2)

example : readRates (pystepsNowcast (1 / 32) exStill 15 40 exRate (fun _ _ => some 1) (fun _ _ => some 1)
    [(0, fun _ _ => 1), (1800, fun _ _ => 2)]) = some [(0, 0, 0, some 3), (900, 0, 900, some 3), (1800, 0, 1800, some 4)] ∧
    (exRate.scale ≠ 0 ∧ ∀ f a b n, (exStill f a b n).length = n) := by
  refine ⟨by decide +kernel, by decide +kernel, fun f a b n => by simp [exStill]⟩

/-- Finding: when the analysis has a reference time that is not its own time, the forecast periods are not the times since
it. -/
theorem C190_reference_time_refuted :
    readRates (pystepsNowcast (1 / 32) exStill 15 15 ⟨"rainfall_rate", [0, 1000], [0, 1000], 1, 3600, none, some 0, some 3600,
      fun _ _ => some 1⟩ (fun _ _ => some 1) (fun _ _ => some 1) [(3600, fun _ _ => 0)]) =
      some [(3600, 0, 3600, some 1), (4500, 0, 900, some 1)] := by decide +kernel

/-- Finding: the bounds of time are never moved, so those of every forecast are the bounds of the analysis, before its
time. -/
theorem C190_bounds_refuted :
    (pystepsNowcast (1 / 32) exStill 15 15 ⟨"rainfall_rate", [0, 1000], [0, 1000], 1, 3600, some (2700, 3600), none, none,
      fun _ _ => some 1⟩ (fun _ _ => some 1) (fun _ _ => some 1) [(3600, fun _ _ => 0)]).toOption.map
      (fun l => l.map fun f => (f.time, f.timeBounds)) =
      some [(3600, some (2700, 3600)), (4500, some (2700, 3600))] := by decide +kernel

/-- Finding: the spacing of the grid has no sign, so on an axis that descends the displacement is in the wrong direction:
1 m/s gives the displacement of +0.9 squares in 15 minutes on both grids. -/
theorem C190_descending_refuted :
    ((displacementArray [0, 1000, 2000] (fun _ _ => some 1) (fun _ _ => some 0) 15).toOption.map fun d => d.1 0 0) = some (some (9 / 10)) ∧
    ((displacementArray [2000, 1000, 0] (fun _ _ => some 1) (fun _ _ => some 0) 15).toOption.map fun d => d.1 0 0) = some (some (9 / 10)) := by
  decide +kernel

end Improver
