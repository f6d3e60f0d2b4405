import Verif.Model.EmosRun
import Verif.Props.CalUtil
import Verif.Props.CalMatch
import Verif.Props.EmosResult
import Verif.Props.ECC

/-! Properties of whole runs of the EMOS calibration. -/

namespace Improver
open Spec ProbabilityTheory

/-! ### C220: coefficients fit the forecasts they are made for -/

theorem collapsedCoord_extent {c e : SpatialCoord} (h : collapsedCoord c = .ok e) :
    ∃ lo hi, IsLeast (occupied c) lo ∧ IsGreatest (occupied c) hi ∧ e = ⟨[(lo + hi) / 2], some [(lo, hi)]⟩ := by
  unfold collapsedCoord at h
  simp only [bind, Except.bind, pure, Except.pure] at h
  cases hc : c.collapsed with
  | error e => rw [hc] at h; exact nomatch h
  | ok p =>
    rw [hc] at h
    injection h with h
    unfold SpatialCoord.collapsed at hc
    cases hv : c.values with
    | nil => rw [hv] at hc; exact nomatch hc
    | cons a l =>
      rw [hv] at hc
      injection hc with hc
      subst hc
      have hset : occupied c = {v | v ∈ a :: l} := by
        rw [← hv]
        unfold occupied SpatialCoord.values
        cases c.bounds with
        | none => rfl
        | some bs => ext v; simp [List.mem_flatMap]
      refine ⟨listMin a l, listMax a l, ?_, ?_, h.symm⟩
      · rw [hset]; exact listMin_isLeast a l
      · rw [hset]; exact listMax_isGreatest a l

theorem sameExtent_collapsed {c e : SpatialCoord} (h : collapsedCoord c = .ok e) (f : SpatialCoord) :
    sameExtent f e ↔ sameExtent f c := by
  obtain ⟨lo, hi, h1, h2, rfl⟩ := collapsedCoord_extent h
  have hle : lo ≤ hi := h1.2 h2.1
  have e1 : IsLeast (occupied ⟨[(lo + hi) / 2], some [(lo, hi)]⟩) lo := by
    constructor
    · exact ⟨(lo, hi), by simp, Or.inl rfl⟩
    · rintro v ⟨b, hb, hv⟩
      simp only [List.mem_singleton] at hb
      subst hb
      rcases hv with rfl | rfl
      · exact le_refl _
      · exact hle
  have e2 : IsGreatest (occupied ⟨[(lo + hi) / 2], some [(lo, hi)]⟩) hi := by
    constructor
    · exact ⟨(lo, hi), by simp, Or.inr rfl⟩
    · rintro v ⟨b, hb, hv⟩
      simp only [List.mem_singleton] at hb
      subst hb
      rcases hv with rfl | rfl
      · exact hle
      · exact le_refl _
  constructor
  · rintro ⟨a, b, f1, f2, g1, g2⟩
    have ea := g1.unique e1
    have eb := g2.unique e2
    subst ea eb
    exact ⟨a, b, f1, f2, h1, h2⟩
  · rintro ⟨a, b, f1, f2, g1, g2⟩
    have ea := g1.unique h1
    have eb := g2.unique h2
    subst ea eb
    exact ⟨a, b, f1, f2, e1, e2⟩

/-- The four cubes and what they hold. -/
theorem coefficientCubes_spec {h : HistoricMeta} {pbp : Bool} {dist : String} {cs : List CoefCube} (hc : coefficientCubes h pbp dist = .ok cs) :
    ∃ frt fp x y, IsGreatest {t | t ∈ h.frt} frt ∧ h.fp = [fp] ∧ (∀ f, sameExtent f x ↔ sameExtent f h.x) ∧ (∀ f, sameExtent f y ↔ sameExtent f h.y) ∧
      (pbp = true → x = h.x ∧ y = h.y) ∧
      cs = ["alpha", "beta", "gamma", "delta"].map (coefCube h pbp dist frt x y) := by
  unfold coefficientCubes at hc
  simp only [bind, Except.bind, pure, Except.pure] at hc
  have tail : ∀ x y : SpatialCoord, (match unifiedFrt h.frt h.frtBounds with
      | .error e => .error e
      | .ok v => if h.fp.length ≠ 1 then .error Err.valueError
        else .ok (["alpha", "beta", "gamma", "delta"].map (coefCube h pbp dist v.1 x y))) = (.ok cs : Except Err (List CoefCube)) →
      ∃ frt fp, IsGreatest {t | t ∈ h.frt} frt ∧ h.fp = [fp] ∧ cs = ["alpha", "beta", "gamma", "delta"].map (coefCube h pbp dist frt x y) := by
    intro x y hh
    have hne : h.frt ≠ [] := by
      intro he
      rw [he] at hh
      exact nomatch hh
    obtain ⟨p, lo, hi, hu, hg, -, -⟩ := C127_unified_frt h.frt hne h.frtBounds
    rw [hu] at hh
    by_cases hl : h.fp.length ≠ 1
    · simp only [] at hh; rw [if_pos hl] at hh; exact nomatch hh
    · simp only [] at hh
      rw [if_neg hl] at hh
      injection hh with hh
      obtain ⟨fp, hfp⟩ := List.length_eq_one_iff.1 (not_not.1 hl)
      exact ⟨p, fp, hg, hfp, hh.symm⟩
  cases pbp with
  | true =>
    simp only [if_true] at hc
    obtain ⟨frt, fp, a, b, c⟩ := tail h.x h.y (by
      rw [← hc]
      cases unifiedFrt h.frt h.frtBounds with
      | error e => rfl
      | ok v => rfl)
    exact ⟨frt, fp, h.x, h.y, a, b, fun _ => Iff.rfl, fun _ => Iff.rfl, fun _ => ⟨rfl, rfl⟩, c⟩
  | false =>
    simp only [Bool.false_eq_true, if_false] at hc
    cases hy : collapsedCoord h.y with
    | error e => rw [hy] at hc; exact nomatch hc
    | ok y =>
      rw [hy] at hc
      simp only [] at hc
      cases hx : collapsedCoord h.x with
      | error e => rw [hx] at hc; exact nomatch hc
      | ok x =>
        rw [hx] at hc
        simp only [] at hc
        obtain ⟨frt, fp, a, b, c⟩ := tail x y (by
          rw [← hc]
          cases unifiedFrt h.frt h.frtBounds with
          | error e => rfl
          | ok v => rfl)
        exact ⟨frt, fp, x, y, a, b, sameExtent_collapsed hx, sameExtent_collapsed hy, (fun hh => (nomatch hh)), c⟩

/-- C220.  Four cubes are written, named after the coefficients; `alpha` and `gamma` have the units of the forecasts, `beta` and `delta` none; all say
for which diagnostic and distribution they are, with the limits if and only if it is truncated. -/
theorem C220_cubes (h : HistoricMeta) (pbp : Bool) (dist : String) (cs : List CoefCube) (hc : coefficientCubes h pbp dist = .ok cs) :
    cs.map (fun c => (c.name, c.units)) = [("emos_coefficient_alpha", h.units), ("emos_coefficient_beta", "1"),
      ("emos_coefficient_gamma", h.units), ("emos_coefficient_delta", "1")] ∧
    ∀ c ∈ cs, c.about.name = h.name ∧ c.distribution = dist ∧ (c.shape = true ↔ dist = "truncnorm") := by
  obtain ⟨frt, fp, x, y, -, -, -, -, -, rfl⟩ := coefficientCubes_spec hc
  constructor
  · simp only [List.map_cons, List.map_nil, coefCube]
    rfl
  · intro c hm
    simp only [List.mem_map] at hm
    obtain ⟨n, -, rfl⟩ := hm
    exact ⟨rfl, rfl, by simp [coefCube]⟩

/-- C220.  Coefficients estimated from consistent historic forecasts are accepted for exactly those forecasts that have the same name, one
forecast period of the same number of hours (rounded up), reference times only at the hour of day of the historic forecasts and, unless at
sites, the same extent; whether they were estimated point by point or for all points together. -/
theorem C220_accepted (h : HistoricMeta) (pbp : Bool) (dist : String) (cs : List CoefCube) (hc : coefficientCubes h pbp dist = .ok cs) (t : ℤ)
    (ht : t ∈ h.frt) (hcons : checkConsistency h.frt h.fp.length = .ok ()) (fc : CalMeta) (hfc : fc.frt ≠ []) :
    emosChecks false fc (cs.map (·.about)) = .ok () ↔
      fc.name = h.name ∧ (∃ p q, fc.fp = [p] ∧ h.fp = [q] ∧ ⌈p / 3600⌉ = ⌈q / 3600⌉) ∧ (∀ s ∈ fc.frt, hourOfDay s = hourOfDay t) ∧
        (fc.spot = true ∨ (sameExtent fc.x h.x ∧ sameExtent fc.y h.y)) := by
  obtain ⟨frt, fp, x, y, hfrt, hfp, hx, hy, -, rfl⟩ := coefficientCubes_spec hc
  have hhour := ((C127_consistent h.frt (List.ne_nil_of_mem ht) _).1 hcons).1
  have hft : hourOfDay frt = hourOfDay t := hhour _ hfrt.1 _ ht
  rw [C125_accepted]
  have key : compatible false fc ⟨h.name, h.spot && pbp, h.fp, [frt], x, y⟩ ↔ fc.name = h.name ∧
      (∃ p q, fc.fp = [p] ∧ h.fp = [q] ∧ ⌈p / 3600⌉ = ⌈q / 3600⌉) ∧ (∀ s ∈ fc.frt, hourOfDay s = hourOfDay t) ∧
        (fc.spot = true ∨ (sameExtent fc.x h.x ∧ sameExtent fc.y h.y)) := by
    unfold compatible
    simp only [Bool.false_eq_true, false_or, List.mem_singleton, exists_eq_left, hx, hy, and_assoc]
    have hh : (∀ k, (∃ s ∈ fc.frt, hourOfDay s = k) ↔ hourOfDay frt = k) ↔ ∀ s ∈ fc.frt, hourOfDay s = hourOfDay t := by
      constructor
      · intro hk s hs
        rw [← hft]
        exact ((hk _).1 ⟨s, hs, rfl⟩).symm
      · intro hs k
        constructor
        · rintro ⟨s, hm, rfl⟩
          rw [hft, hs s hm]
        · rintro rfl
          obtain ⟨s, l, hsl⟩ := List.exists_cons_of_ne_nil hfc
          exact ⟨s, by rw [hsl]; simp, by rw [hs s (by rw [hsl]; simp), hft]⟩
    rw [hh]
  constructor
  · intro hall
    exact key.1 (hall _ (by simp [coefCube]))
  · intro hk c hm
    simp only [List.mem_map] at hm
    obtain ⟨c', ⟨n, -, rfl⟩, rfl⟩ := hm
    exact key.2 hk

/-- C220.  In particular they are accepted for a forecast like the historic ones: same name, grid, forecast period and hour of day. -/
theorem C220_same_grid (h : HistoricMeta) (pbp : Bool) (dist : String) (cs : List CoefCube) (hc : coefficientCubes h pbp dist = .ok cs) (t s : ℤ)
    (ht : t ∈ h.frt) (hcons : checkConsistency h.frt h.fp.length = .ok ()) (hs : hourOfDay s = hourOfDay t)
    (hx : h.x.values ≠ []) (hy : h.y.values ≠ []) :
    emosChecks false ⟨h.name, h.spot, h.fp, [s], h.x, h.y⟩ (cs.map (·.about)) = .ok () := by
  have refl : ∀ c : SpatialCoord, c.values ≠ [] → sameExtent c c := by
    intro c hne
    obtain ⟨a, l, hv⟩ := List.exists_cons_of_ne_nil hne
    have : ∃ e, collapsedCoord c = .ok e := by
      unfold collapsedCoord SpatialCoord.collapsed
      rw [hv]
      exact ⟨_, rfl⟩
    obtain ⟨e, he⟩ := this
    obtain ⟨lo, hi, h1, h2, -⟩ := collapsedCoord_extent he
    exact ⟨lo, hi, h1, h2, h1, h2⟩
  rw [C220_accepted h pbp dist cs hc t ht hcons _ (by simp)]
  obtain ⟨-, fp, -, -, -, hfp, -⟩ := coefficientCubes_spec hc
  exact ⟨rfl, ⟨fp, fp, hfp, hfp, rfl⟩, by simpa using hs, Or.inr ⟨refl _ hx, refl _ hy⟩⟩

example : ∃ cs, coefficientCubes ⟨"air_temperature", "K", false, [10800], [86400 + 3600, 3600], none, ⟨[0, 1, 2], none⟩, ⟨[5, 6], some [(4, 6), (6, 8)]⟩⟩
    false "norm" = .ok cs ∧ (cs.map (fun c => (c.about.frt, c.about.x.points, c.about.y.points))) = List.replicate 4 ([90000], [1], [6]) :=
  ⟨_, rfl, by decide +kernel⟩

/-! ### C221: what the estimation refuses -/

theorem checkFields_iff (r : Bool) (fields : List FieldCoords) :
    checkFields r fields = .ok () ↔ fields = [] ∨ (r = false ∧ ∀ f ∈ fields, "forecast_period" ∉ f ∧ "forecast_reference_time" ∉ f ∧ "realization" ∉ f) := by
  unfold checkFields
  by_cases h : fields = []
  · simp [h]
  · rw [if_neg h]
    cases r with
    | true => simp [h]
    | false =>
      simp only [Bool.false_eq_true, if_false]
      by_cases hd : (fields.any (fun f => disallowedCoords.any (fun c => f.contains c))) = true
      · rw [if_pos hd]
        refine ⟨fun hh => (nomatch hh), ?_⟩
        rintro (hh | ⟨-, hh⟩)
        · exact absurd hh h
        · exfalso
          obtain ⟨f, hf, hd⟩ := List.any_eq_true.1 hd
          have := hh f hf
          simp [disallowedCoords] at hd
          rcases hd with hd | hd | hd
          · exact this.1 hd
          · exact this.2.1 hd
          · exact this.2.2 hd
      · rw [if_neg hd]
        refine ⟨fun _ => Or.inr ⟨trivial, ?_⟩, fun _ => rfl⟩
        intro f hf
        refine ⟨?_, ?_, ?_⟩ <;> (intro hm; apply hd; rw [List.any_eq_true]; refine ⟨f, hf, ?_⟩; simp [disallowedCoords, hm])

theorem mergedPoints_one (l : List ℚ) (hne : l ≠ []) : mergedPoints l = 1 ↔ ∀ p ∈ l, ∀ q ∈ l, p = q := by
  obtain ⟨a, t, rfl⟩ := List.exists_cons_of_ne_nil hne
  unfold mergedPoints
  by_cases h : ((a :: t).all (fun p => decide (p = (a :: t).headD 0))) = true
  · rw [if_pos h]
    simp only [true_iff]
    rw [List.all_eq_true] at h
    intro p hp q hq
    have h1 := of_decide_eq_true (h p hp)
    have h2 := of_decide_eq_true (h q hq)
    rw [h1, h2]
  · rw [if_neg h]
    constructor
    · intro hl
      exfalso
      have : t = [] := by simpa using hl
      subst this
      apply h
      simp
    · intro hall
      exfalso
      apply h
      rw [List.all_eq_true]
      intro p hp
      exact decide_eq_true (hall p hp a (by simp))

/-- The units wanted can be reached from both, or none are wanted and both are the same. -/
def Spec.UnitsFit (conv : String → String → Bool) (desired : Option String) (u v result : String) : Prop :=
  match desired with
  | none => u = v ∧ result = u
  | some d => conv u d = true ∧ conv v d = true ∧ result = d

/-- C221 (the pairs counted at a site): a realization at a time counts if it has a NaN flag for that site; it is missing together with the truth if both flags of
that site are set.  The numbers are those of the site alone, summed over the times. -/
theorem C221_pairs (fs : List TrainCell) (ts : List (List Bool)) (site : ℕ) :
    (sitePairs fs ts site).length = ((fs.zip ts).map (fun e => (e.1.nan.getD site []).length)).sum ∧
    (sitePairs fs ts site).countP (fun p => p.1 ∧ p.2) =
      ((fs.zip ts).map (fun e => if e.2.getD site false = true then (e.1.nan.getD site []).count true else 0)).sum := by
  unfold sitePairs
  constructor
  · rw [List.length_flatMap]
    simp only [List.length_map]
  · rw [List.countP_flatMap]
    congr 1
    apply List.map_congr_left
    intro e _
    simp only [Function.comp, List.countP_map]
    by_cases h : e.2.getD site false = true
    · rw [if_pos h, List.count]
      apply List.countP_congr
      intro b _
      rw [h]; simp
    · rw [if_neg h, List.countP_eq_zero]
      intro b _
      rw [Bool.not_eq_true] at h
      rw [h]; simp

example : (sitePairs [⟨0, 0, [[true, false], [true, true]]⟩] [[true, false]] 0).countP (fun p => p.1 ∧ p.2) = 1 := by decide

/-- C221.  The estimation starts if and only if: a land-sea mask is not combined with coefficients for each point; both cubes are given; they
have a common time; the matched forecasts have one hour of day and one forecast period; at sites, not too many pairs are missing; additional
predictors are static and not combined with realizations as predictor; and the units agree after conversion.  It then uses the matched forecasts
and truths (see C126). -/
theorem C221_accepted (conv : String → String → Bool) (o : EstimateOpts) (landMask : Bool) (sites : ℕ) (u v : String)
    (fcs : Option (List (FcSlice TrainCell))) (truths : Option (List (TruthSlice (List Bool)))) (fields : List FieldCoords)
    (fs : List (FcSlice TrainCell)) (ts : List (TruthSlice (List Bool))) (w : String) (hfs : fs ≠ []) :
    estimateChecks conv o landMask sites u v fcs truths fields = .ok (fs, ts, w) ↔
      (landMask = true → o.pointByPoint = false) ∧
      (∃ f t, fcs = some f ∧ truths = some t ∧ filterNonMatching f t = .ok (fs, ts)) ∧
      (∀ a ∈ fs, ∀ b ∈ fs, hourOfDay a.data.frt = hourOfDay b.data.frt ∧ a.data.fp = b.data.fp) ∧
      (0 < sites → if o.pointByPoint then
          ∀ i < sites, ((sitePairs (fs.map (·.data)) (ts.map (·.data)) i).countP (fun p => p.1 ∧ p.2) : ℚ) /
            (sitePairs (fs.map (·.data)) (ts.map (·.data)) i).length ≤ o.allowed
        else (((List.range sites).flatMap (sitePairs (fs.map (·.data)) (ts.map (·.data)))).countP (fun p => p.1 ∧ p.2) : ℚ) /
            ((List.range sites).flatMap (sitePairs (fs.map (·.data)) (ts.map (·.data)))).length ≤ o.allowed) ∧
      (fields = [] ∨ (o.realizations = false ∧ ∀ f ∈ fields, "forecast_period" ∉ f ∧ "forecast_reference_time" ∉ f ∧ "realization" ∉ f)) ∧
      Spec.UnitsFit conv o.units u v w := by
  have hcons : checkConsistency (fs.map (·.data.frt)) (mergedPoints (fs.map (·.data.fp))) = .ok () ↔
      ∀ a ∈ fs, ∀ b ∈ fs, hourOfDay a.data.frt = hourOfDay b.data.frt ∧ a.data.fp = b.data.fp := by
    rw [C127_consistent _ (by simpa using hfs), mergedPoints_one _ (by simpa using hfs)]
    simp only [List.mem_map, forall_exists_index, and_imp, forall_apply_eq_imp_iff₂]
    constructor
    · rintro ⟨h1, h2⟩ a ha b hb
      exact ⟨h1 a ha b hb, h2 a ha b hb⟩
    · intro h
      exact ⟨fun a ha b hb => (h a ha b hb).1, fun a ha b hb => (h a ha b hb).2⟩
  have hsuf : checkSufficiency (decide (0 < sites)) o.pointByPoint o.allowed ((List.range sites).map (sitePairs (fs.map (·.data)) (ts.map (·.data)))) = .ok () ↔
      (0 < sites → if o.pointByPoint then
          ∀ i < sites, ((sitePairs (fs.map (·.data)) (ts.map (·.data)) i).countP (fun p => p.1 ∧ p.2) : ℚ) /
            (sitePairs (fs.map (·.data)) (ts.map (·.data)) i).length ≤ o.allowed
        else (((List.range sites).flatMap (sitePairs (fs.map (·.data)) (ts.map (·.data)))).countP (fun p => p.1 ∧ p.2) : ℚ) /
            ((List.range sites).flatMap (sitePairs (fs.map (·.data)) (ts.map (·.data)))).length ≤ o.allowed) := by
    by_cases hs : 0 < sites
    · simp only [hs, decide_true, true_imp_iff]
      cases o.pointByPoint with
      | true =>
        rw [C127_sufficient_sites]
        simp
      | false =>
        rw [C127_sufficient_all, ← List.flatMap_def]
        simp
    · simp only [hs, decide_false, false_imp_iff, iff_true]
      exact C127_gridded_unchecked _ _ _
  rw [← hcons, ← hsuf, ← checkFields_iff]
  unfold estimateChecks
  by_cases hl : (landMask && o.pointByPoint) = true
  · rw [if_pos hl]
    refine ⟨fun h => (nomatch h), ?_⟩
    rintro ⟨h, -⟩
    simp only [Bool.and_eq_true] at hl
    rw [h hl.1] at hl
    exact nomatch hl.2
  · rw [if_neg hl]
    have hl' : landMask = true → o.pointByPoint = false := by
      intro h
      rw [h] at hl
      simpa using hl
    rcases fcs with _ | f
    · refine ⟨fun h => (nomatch h), ?_⟩
      rintro ⟨-, ⟨f, t, h, -⟩, -⟩
      exact nomatch h
    rcases truths with _ | t
    · refine ⟨fun h => (nomatch h), ?_⟩
      rintro ⟨-, ⟨f, t, -, h, -⟩, -⟩
      exact nomatch h
    have huf : Spec.UnitsFit conv o.units u v w ↔ (do
        let a ← trainUnits conv o.units u
        let b ← trainUnits conv o.units v
        if a ≠ b then .error .valueError else .ok a) = (.ok w : Except Err String) := by
      unfold Spec.UnitsFit trainUnits
      cases o.units with
      | none =>
        simp only [bind, Except.bind]
        by_cases he : u = v
        · rw [if_neg (by simpa using he)]
          constructor
          · rintro ⟨-, rfl⟩; rfl
          · intro h; injection h with h; exact ⟨he, h.symm⟩
        · rw [if_pos he]
          exact ⟨fun h => absurd h.1 he, fun h => (nomatch h)⟩
      | some d =>
        simp only [bind, Except.bind]
        cases conv u d <;> cases conv v d <;> simp [eq_comm]
    simp only [bind, Except.bind, pure, Except.pure]
    cases hf : filterNonMatching f t with
    | error e =>
      refine ⟨fun h => (nomatch h), ?_⟩
      rintro ⟨-, ⟨f', t', h1, h2, h3⟩, -⟩
      injection h1 with h1
      injection h2 with h2
      subst h1 h2
      rw [hf] at h3
      exact nomatch h3
    | ok m =>
      obtain ⟨fs', ts'⟩ := m
      simp only []
      constructor
      · intro h
        have hfst : fs' = fs ∧ ts' = ts := by
          revert h
          cases checkConsistency (fs'.map (·.data.frt)) (mergedPoints (fs'.map (·.data.fp))) with
          | error e => intro h; exact nomatch h
          | ok _ =>
            simp only []
            cases checkSufficiency (decide (0 < sites)) o.pointByPoint o.allowed ((List.range sites).map (sitePairs (fs'.map (·.data)) (ts'.map (·.data)))) with
            | error e => intro h; exact nomatch h
            | ok _ =>
              simp only []
              cases checkFields o.realizations fields with
              | error e => intro h; exact nomatch h
              | ok _ =>
                simp only []
                cases trainUnits conv o.units u with
                | error e => intro h; exact nomatch h
                | ok a =>
                  simp only []
                  cases trainUnits conv o.units v with
                  | error e => intro h; exact nomatch h
                  | ok b =>
                    simp only []
                    by_cases hab : a ≠ b
                    · rw [if_pos hab]; intro h; exact nomatch h
                    · rw [if_neg hab]
                      intro h
                      simp only [Except.ok.injEq, Prod.mk.injEq] at h
                      exact ⟨h.1, h.2.1⟩
        obtain ⟨rfl, rfl⟩ := hfst
        refine ⟨hl', ⟨f, t, rfl, rfl, hf⟩, ?_⟩
        rw [huf]
        simp only [bind, Except.bind]
        revert h
        cases checkConsistency (fs'.map (·.data.frt)) (mergedPoints (fs'.map (·.data.fp))) with
        | error e => intro h; exact nomatch h
        | ok _ =>
          simp only []
          cases checkSufficiency (decide (0 < sites)) o.pointByPoint o.allowed ((List.range sites).map (sitePairs (fs'.map (·.data)) (ts'.map (·.data)))) with
          | error e => intro h; exact nomatch h
          | ok _ =>
            simp only []
            cases checkFields o.realizations fields with
            | error e => intro h; exact nomatch h
            | ok _ =>
              simp only []
              cases trainUnits conv o.units u with
              | error e => intro h; exact nomatch h
              | ok a =>
                simp only []
                cases trainUnits conv o.units v with
                | error e => intro h; exact nomatch h
                | ok b =>
                  simp only []
                  by_cases hab : a ≠ b
                  · rw [if_pos hab]; intro h; exact nomatch h
                  · rw [if_neg hab, if_neg hab]
                    intro h
                    simp only [Except.ok.injEq, Prod.mk.injEq] at h
                    rw [h.2.2]
                    exact ⟨trivial, trivial, trivial, rfl⟩
      · rintro ⟨-, ⟨f', t', h1, h2, h3⟩, c1, c2, c3, c4⟩
        injection h1 with h1
        injection h2 with h2
        subst h1 h2
        rw [hf] at h3
        injection h3 with h3
        injection h3 with h4 h5
        subst h4 h5
        rw [c1, c2, c3]
        rw [huf] at c4
        simp only [bind, Except.bind] at c4
        simp only []
        revert c4
        cases trainUnits conv o.units u with
        | error e => intro h; exact nomatch h
        | ok a =>
          simp only []
          cases trainUnits conv o.units v with
          | error e => intro h; exact nomatch h
          | ok b =>
            simp only []
            by_cases hab : a ≠ b
            · rw [if_pos hab]; intro h; exact nomatch h
            · rw [if_neg hab, if_neg hab]
              intro h
              injection h with h
              rw [h]

/-- C221 (finding): with a land-sea mask the cubes of additional predictors handed in are masked over the sea: the estimation changes its inputs. -/
theorem C221_fields_changed_refuted (a b : ℝ) :
    fieldsAfter (some [true, false]) [[.val a, .val b]] = [[.val a, .masked]] ∧ fieldsAfter none [[.val a, .val b]] = [[.val a, .val b]] :=
  ⟨rfl, rfl⟩

example : (estimateChecks (fun _ _ => true) ⟨true, false, some "celsius", 1 / 2⟩ false 1 "K" "celsius"
    (some [⟨⟨3600, none⟩, false, ⟨0, 3600, [[false]]⟩⟩, ⟨⟨90000, none⟩, false, ⟨86400, 3600, [[true]]⟩⟩]) (some [⟨⟨90000, none⟩, [true]⟩, ⟨⟨3600, none⟩, [false]⟩])
    [["latitude"]]).toOption.map (fun r => (r.1.map (·.data.frt), r.2.1.map (·.data), r.2.2)) = some ([0, 86400], [[false], [true]], "celsius") := by
  decide +kernel

/-! ### C222: warnings of the minimisation -/

theorem changedMuch_iff (new old : ℚ) : changedMuch new old = true ↔ |old| * 5 < |new - old| * 100 := by
  unfold changedMuch
  by_cases h : old = 0
  · rw [if_pos h, h]
    simp
  · rw [if_neg h]
    have : 0 < |old| := abs_pos.2 h
    rw [decide_eq_true_iff, abs_div, div_mul_eq_mul_div, lt_div_iff₀ this]
    constructor <;> intro h' <;> linarith

/-- C222.  All points together: whatever the minimiser finds is returned, and the warnings do not change it.  There is a warning of no convergence
exactly if the minimiser says so, and a warning of a large change exactly if some coefficient changed in the last iteration by more than
5 % of its value before (a coefficient that was zero: by anything). -/
theorem C222_warnings (r : MinResult) (past : List (List ℚ)) (previous last : List ℚ) (h : r.allvecs = past ++ [previous, last]) :
    ∃ ws, minimisedTogether r = .ok (r.x, ws) ∧ (.notConverged ∈ ws ↔ r.success = false) ∧
      (.lastChange ∈ ws ↔ ∃ e ∈ last.zip previous, |e.2| * 5 < |e.1 - e.2| * 100) := by
  have hc : changeWarning r.allvecs = .ok (if (last.zip previous).any (fun e => changedMuch e.1 e.2) then [.lastChange] else []) := by
    unfold changeWarning
    rw [h]
    simp
  unfold minimisedTogether
  rw [hc]
  refine ⟨_, rfl, ?_, ?_⟩
  · cases r.success <;> by_cases hh : ((last.zip previous).any (fun e => changedMuch e.1 e.2)) = true <;> simp [hh]
  · have : ((last.zip previous).any (fun e => changedMuch e.1 e.2)) = true ↔ ∃ e ∈ last.zip previous, |e.2| * 5 < |e.1 - e.2| * 100 := by
      rw [List.any_eq_true]
      exact exists_congr fun e => and_congr_right fun _ => changedMuch_iff e.1 e.2
    rw [← this]
    cases r.success <;> by_cases hh : ((last.zip previous).any (fun e => changedMuch e.1 e.2)) = true <;> simp [hh]

/-- C222 (finding): a minimisation that stops at its starting point (as with a large tolerance or one iteration) ends with an IndexError instead
of giving these coefficients. -/
theorem C222_first_guess_refuted (x start : List ℚ) (success : Bool) : minimisedTogether ⟨x, success, [start]⟩ = .error .indexError := rfl

example : minimisedTogether ⟨[1, 2], false, [[0, 0], [1, 1], [1, 2]]⟩ = .ok ([1, 2], [.notConverged, .lastChange]) := by decide +kernel
example : minimisedTogether ⟨[0, 104], true, [[0, 100], [0, 104]]⟩ = .ok ([0, 104], []) := by decide +kernel

/-! ### C223: the command -/

/-- What the command gives when calibration works: probabilities with a template, otherwise the kind of the forecast. -/
def Spec.calibratedKind (forecast : EmosForecast) (template : Option EmosForecast) : FcType :=
  if template.isSome then .probabilities else forecast.kind

/-- C223.  At a time not wanted, and without coefficients, the forecast comes back uncalibrated and its comment says so; otherwise the result is that
of the calibration. -/
theorem C223_outcome (valid : Bool) (ps : List ℚ) (resample : List ℚ → EmosForecast → EmosForecast) (calibrate : List ℚ → Except Err EmosForecast)
    (forecast : EmosForecast) (template : Option EmosForecast) (coefficients : Bool) :
    (valid = true → coefficients = true → applyEmosCommand valid ps resample calibrate forecast template coefficients = calibrate ps) ∧
    (valid = false ∨ coefficients = false → ∀ out, applyEmosCommand valid ps resample calibrate forecast template coefficients = .ok out →
      ∃ src, (src = forecast ∨ template = some src ∨ (ps ≠ [] ∧ forecast.kind = .percentiles ∧ src = resample ps forecast)) ∧
        out = { src with comment := addWarning src.comment }) := by
  constructor
  · rintro rfl rfl
    rfl
  · intro hh out h
    unfold applyEmosCommand at h
    have hres : ∀ out, (if forecast.kind = .percentiles then .ok (resample ps forecast) else .error .coordinateNotFound : Except Err EmosForecast).map
        (fun f => ({ f with comment := addWarning f.comment } : EmosForecast)) = .ok out → ps ≠ [] →
        ∃ src, (src = forecast ∨ template = some src ∨ (ps ≠ [] ∧ forecast.kind = .percentiles ∧ src = resample ps forecast)) ∧
          out = { src with comment := addWarning src.comment } := by
      intro out ho hp
      by_cases hk : forecast.kind = .percentiles
      · rw [if_pos hk] at ho
        injection ho with ho
        exact ⟨_, Or.inr (Or.inr ⟨hp, hk, rfl⟩), ho.symm⟩
      · rw [if_neg hk] at ho
        exact nomatch ho
    cases valid with
    | false =>
      simp only [Bool.not_false, if_true] at h
      by_cases hp : ps ≠ []
      · rw [if_pos hp] at h
        exact hres out h hp
      · rw [if_neg hp] at h
        cases template with
        | none => injection h with h; exact ⟨forecast, Or.inl rfl, h.symm⟩
        | some t => injection h with h; exact ⟨t, Or.inr (Or.inl rfl), h.symm⟩
    | true =>
      have hc : coefficients = false := by simpa using hh
      subst hc
      simp only [Bool.not_true, Bool.false_eq_true, if_false, Bool.not_false, if_true] at h
      cases template with
      | some t => injection h with h; exact ⟨t, Or.inr (Or.inl rfl), h.symm⟩
      | none =>
        simp only [] at h
        by_cases hp : ps ≠ []
        · rw [if_pos hp] at h
          exact hres out h hp
        · rw [if_neg hp] at h
          injection h with h
          exact ⟨forecast, Or.inl rfl, h.symm⟩

/-- C223.  The kind of forecast returned is the same whether or not it was calibrated, provided no percentiles are asked for, or the forecast has
percentiles and there is no template; with percentiles asked for, the result is that of resampling the forecast to them. -/
theorem C223_kind (valid : Bool) (ps : List ℚ) (resample : List ℚ → EmosForecast → EmosForecast) (hr : ∀ f, (resample ps f).kind = .percentiles)
    (calibrate : List ℚ → Except Err EmosForecast) (forecast : EmosForecast) (template : Option EmosForecast) (ht : ∀ t, template = some t → t.kind = .probabilities)
    (coefficients : Bool) (hn : valid = false ∨ coefficients = false) (h : ps = [] ∨ (forecast.kind = .percentiles ∧ template = none)) :
    ∃ out, applyEmosCommand valid ps resample calibrate forecast template coefficients = .ok out ∧ out.kind = Spec.calibratedKind forecast template ∧
      (ps ≠ [] → out = { resample ps forecast with comment := addWarning (resample ps forecast).comment }) := by
  unfold applyEmosCommand Spec.calibratedKind
  rcases h with rfl | ⟨hk, rfl⟩
  · cases template with
    | none => cases valid <;> cases coefficients <;> simp at hn ⊢
    | some t =>
      have := ht t rfl
      cases valid <;> cases coefficients <;> simp [this] at hn ⊢
  · rw [if_pos hk]
    by_cases hp : ps ≠ []
    · cases valid <;> cases coefficients <;> simp [hp, Except.map, hr, hk] at hn ⊢
    · have : ps = [] := not_not.1 hp
      subst this
      cases valid <;> cases coefficients <;> simp [hk] at hn ⊢

/-- C223 (finding): with a template and percentiles asked for, a percentile forecast at a time not wanted comes back as percentiles, although both the
calibrated forecast and the answer without coefficients are probabilities. -/
theorem C223_precedence_refuted (ps : List ℚ) (hp : ps ≠ []) (resample : List ℚ → EmosForecast → EmosForecast) (hr : ∀ f, (resample ps f).kind = .percentiles)
    (calibrate : List ℚ → Except Err EmosForecast) (forecast t : EmosForecast) (hk : forecast.kind = .percentiles) (ht : t.kind = .probabilities) (c : Bool) :
    (∃ out, applyEmosCommand false ps resample calibrate forecast (some t) c = .ok out ∧ out.kind = .percentiles) ∧
    (∃ out, applyEmosCommand true ps resample calibrate forecast (some t) false = .ok out ∧ out.kind = .probabilities) := by
  unfold applyEmosCommand
  rw [if_pos hk]
  constructor
  · simp [hp, Except.map, hr]
  · simp [ht]

/-- C223 (finding): realizations (or probabilities) with percentiles asked for can be calibrated, but fail when they are to be returned uncalibrated. -/
theorem C223_realizations_refuted (ps : List ℚ) (hp : ps ≠ []) (resample : List ℚ → EmosForecast → EmosForecast) (calibrate : List ℚ → Except Err EmosForecast)
    (forecast : EmosForecast) (hk : forecast.kind ≠ .percentiles) :
    applyEmosCommand false ps resample calibrate forecast none true = .error .coordinateNotFound ∧
    applyEmosCommand true ps resample calibrate forecast none false = .error .coordinateNotFound ∧
    applyEmosCommand true ps resample calibrate forecast none true = calibrate ps := by
  unfold applyEmosCommand
  rw [if_neg hk]
  simp [hp, Except.map]

/-! ### C224: realizations -/

/-- Whether a point is calibrated: all are without a land-sea mask, else the land points. -/
def landAt (land : Option (List Bool)) (i : ℕ) : Bool := match land with | none => true | some m => m.getD i false

theorem maskSea_landAt (land : Option (List Bool)) (n : ℕ) (hm : ∀ m, land = some m → m.length = n) (l : List ℝ) (hl : l.length = n)
    (i : ℕ) (hi : i < n) : (maskSea land l)[i]? = some (if landAt land i then some (l.getD i 0) else none) := by
  have hx : l[i]? = some (l.getD i 0) := by
    rw [List.getD_eq_getElem _ _ (by omega)]; exact List.getElem?_eq_getElem (by omega)
  cases land with
  | none => simp only [maskSea, List.getElem?_map, hx, landAt, Option.map_some, if_true]
  | some m =>
    have hmi := hm m rfl
    have hb : m[i]? = some (m.getD i false) := by
      rw [List.getD_eq_getElem _ _ (by omega)]; exact List.getElem?_eq_getElem (by omega)
    rw [maskSea_get m l i _ _ hb hx]
    rfl

theorem maskSea_nonneg (land : Option (List Bool)) (l : List ℝ) (h : ∀ s ∈ l, 0 ≤ s) (s : ℝ) (hs : some s ∈ maskSea land l) : 0 ≤ s := by
  cases land with
  | none =>
    simp only [maskSea, List.mem_map, Option.some.injEq, exists_eq_right] at hs
    exact h s hs
  | some m =>
    simp only [maskSea] at hs
    rw [List.mem_iff_getElem?] at hs
    obtain ⟨i, hi⟩ := hs
    rw [List.getElem?_zipWith] at hi
    split at hi
    · rename_i b x _ hx
      cases b with
      | false => simp at hi
      | true =>
        simp only [if_true, Option.some.injEq] at hi
        exact hi ▸ h x (List.mem_of_getElem? hx)
    · simp at hi

/-- The percentiles of a point before they are moved to the members. -/
noncomputable def pctCell (d : EmosDist) (loc scale : List ℝ) (land : Option (List Bool)) (N i k : ℕ) : OutVal :=
  if landAt land i then .val (pctAt d (loc.getD i 0) (scale.getD i 0) (100 * ((k : ℝ) + 1) / ((N : ℝ) + 1))) else .masked

theorem rows_cell (d : EmosDist) (loc scale : List ℝ) (land : Option (List Bool)) (N n : ℕ) (hm : ∀ m, land = some m → m.length = n)
    (hloc : loc.length = n) (hsc : scale.length = n) (i k : ℕ) (hi : i < n) (hk : k < N) :
    ((((chooseSetOfPercentiles N).map (fun p : ℚ => (p : ℝ))).map fun p => List.zipWith (cellOf fun m s => OutVal.val (pctAt d m s p))
      (maskSea land loc) (maskSea land scale)).getD k []).getD i .nan = pctCell d loc scale land N i k := by
  have hk1 : (((chooseSetOfPercentiles N).map (fun p : ℚ => (p : ℝ))).map fun p => List.zipWith (cellOf fun m s => OutVal.val (pctAt d m s p))
      (maskSea land loc) (maskSea land scale)).getD k [] = List.zipWith (cellOf fun m s => OutVal.val (pctAt d m s
        (100 * ((k : ℝ) + 1) / ((N : ℝ) + 1)))) (maskSea land loc) (maskSea land scale) := by
    rw [C12_percentiles_equally_partition, List.map_map, List.map_map, List.getD_eq_getElem?_getD, List.getElem?_map,
      List.getElem?_eq_getElem (by simpa using hk), List.getElem_range]
    simp only [Option.map_some, Option.getD_some, Function.comp]
    push_cast
    rfl
  rw [hk1, List.getD_eq_getElem?_getD, List.getElem?_zipWith, maskSea_landAt land n hm loc hloc i hi,
    maskSea_landAt land n hm scale hsc i hi]
  unfold pctCell
  cases landAt land i <;> simp [cellOf]

/-- **C224.** If a forecast is given as realizations, then so is the result, with as many members.  At the calibrated points (all points without a
land-sea mask, else the land points) the values of the members are the percentiles `100 k / (N + 1)`, `k = 1 .. N`, of the calibrated
distribution of the point, each given to one member, in the order of the members in the forecast; at the other points each member keeps
its value. -/
theorem C224_realizations (d : EmosDist) (hd : proper d) (n : ℕ) (loc scale : List ℝ) (land : Option (List Bool)) (rnd : ℕ → List ℚ)
    (members : List (List ℚ)) (hloc : loc.length = n) (hsc : scale.length = n) (hm : ∀ m, land = some m → m.length = n)
    (hrow : ∀ r ∈ members, r.length = n) (hs : ∀ s ∈ scale, 0 ≤ s) (hr : ∀ i, (rnd i).length = members.length) :
    ∃ out, applyRealizations d n loc scale land rnd members = .ok out ∧ out.length = members.length ∧ (∀ r ∈ out, r.length = n) ∧
      ∀ i < n,
        (landAt land i = true → ∃ rank : ℕ → ℕ, ((List.range members.length).map rank).Perm (List.range members.length) ∧
          (∀ a < members.length, ∀ b < members.length, (members.getD a []).getD i 0 < (members.getD b []).getD i 0 → rank a < rank b) ∧
          ∀ k < members.length, ∃ x, (out.getD k []).getD i .nan = .val x ∧
            (0 < scale.getD i 0 → x ∈ support d ∧
              cdf (law d (loc.getD i 0) (scale.getD i 0)) x = ((rank k : ℝ) + 1) / ((members.length : ℝ) + 1)) ∧
            (scale.getD i 0 = 0 → x = loc.getD i 0)) ∧
        (landAt land i = false → ∀ k < members.length, (out.getD k []).getD i .nan = .val (((members.getD k []).getD i 0 : ℚ) : ℝ)) := by
  set N := members.length with hN
  have hps : ∀ p ∈ (chooseSetOfPercentiles N).map (fun p : ℚ => (p : ℝ)), 0 < p ∧ p < 100 := by
    intro p hp
    obtain ⟨q, hq, rfl⟩ := List.mem_map.1 hp
    rw [C12_percentiles_equally_partition] at hq
    obtain ⟨k, hk, rfl⟩ := List.mem_map.1 hq
    have hk' : (k : ℝ) < N := by exact_mod_cast List.mem_range.1 hk
    have hpos : (0 : ℝ) < (N : ℝ) + 1 := by positivity
    push_cast
    constructor
    · positivity
    · rw [div_lt_iff₀ hpos]; linarith
  have hrows := toPercentiles_eq d hd (maskSea land loc) (maskSea land scale) (maskSea_nonneg land scale hs) _ hps
  set rows := ((chooseSetOfPercentiles N).map (fun p : ℚ => (p : ℝ))).map fun p =>
    List.zipWith (cellOf fun m s => OutVal.val (pctAt d m s p)) (maskSea land loc) (maskSea land scale) with hrowsdef
  have hrlen : rows.length = N := by simp [hrowsdef, C12_percentiles_equally_partition]
  let raw : ℕ → List ℚ := fun i => members.map (fun m => m.getD i 0)
  let rk : ℕ → ℕ → ℕ := fun i k => (eccRanking false (rnd i) (raw i)).getD k 0
  have hrawlen : ∀ i, (raw i).length = N := fun i => by simp [raw, hN]
  have hperm : ∀ i, (eccRanking false (rnd i) (raw i)).Perm (List.range N) := by
    intro i
    have := eccRanking_perm false (rnd i) (raw i) (by rw [hrawlen, hr i])
    rwa [hrawlen] at this
  have hplen : ∀ i, (eccRanking false (rnd i) (raw i)).length = N := fun i => by simpa using (hperm i).length_eq
  have hrklt : ∀ i k, k < N → rk i k < N := by
    intro i k hk
    have : rk i k ∈ eccRanking false (rnd i) (raw i) := by
      simp only [rk]; rw [List.getD_eq_getElem _ _ (by rw [hplen]; exact hk)]; exact List.getElem_mem _
    exact List.mem_range.1 ((hperm i).mem_iff.1 this)
  -- the columns
  have hcol : ∀ i < n, ∀ k < N, (reorderedColumn (rnd i) members rows i).getD k .nan = pctCell d loc scale land N i (rk i k) := by
    intro i hi k hk
    unfold reorderedColumn
    rw [List.getD_eq_getElem?_getD, List.getElem?_zipWith, List.getElem?_map, List.getElem?_map,
      List.getElem?_eq_getElem (show k < (eccRanking false (rnd i) (members.map fun m => m.getD i 0)).length by rw [hplen i]; exact hk),
      List.getElem?_eq_getElem (show k < rows.length by omega)]
    have e1 : (eccRanking false (rnd i) (members.map fun m => m.getD i 0))[k]'(by rw [hplen i]; exact hk) = rk i k := by
      simp only [rk]; rw [List.getD_eq_getElem _ _ (by rw [hplen]; exact hk)]
    have e2 : rows[k].getD i .nan = pctCell d loc scale land N i k := by
      have := rows_cell d loc scale land N n hm hloc hsc i k hi hk
      rw [← hrowsdef, List.getD_eq_getElem rows _ (by omega)] at this
      exact this
    have e3 : (rows.getD (rk i k) []).getD i .nan = pctCell d loc scale land N i (rk i k) := by
      have := rows_cell d loc scale land N n hm hloc hsc i _ hi (hrklt i k hk)
      rwa [← hrowsdef] at this
    simp only [Option.map_some, Option.getD_some, e1, e2, e3]
    unfold pctCell movedVal
    cases landAt land i <;> simp
  set out := (List.range N).map (fun k => ((List.range n).map (fun i => reorderedColumn (rnd i) members rows i)).map
    (fun c => c.getD k .nan)) with hout
  have hcell : ∀ i < n, ∀ k < N, (out.getD k []).getD i .nan = pctCell d loc scale land N i (rk i k) := by
    intro i hi k hk
    have h1 : out.getD k [] = ((List.range n).map (fun i => reorderedColumn (rnd i) members rows i)).map (fun c => c.getD k .nan) := by
      rw [hout, List.getD_eq_getElem?_getD, List.getElem?_map, List.getElem?_eq_getElem (by simpa using hk), List.getElem_range]
      rfl
    rw [h1, List.getD_eq_getElem?_getD, List.getElem?_map, List.getElem?_map, List.getElem?_eq_getElem (by simpa using hi), List.getElem_range,
      ← hcol i hi k hk]
    rfl
  have holen : ∀ r ∈ out, r.length = n := by
    intro r hr'
    obtain ⟨k, _, rfl⟩ := List.mem_map.1 hr'
    simp
  have hland : ∀ i < n, ∀ o : ℕ → OutVal, landAt land i = true → (∀ k < N, o k = pctCell d loc scale land N i (rk i k)) →
      ∃ rank : ℕ → ℕ, ((List.range N).map rank).Perm (List.range N) ∧
        (∀ a < N, ∀ b < N, (members.getD a []).getD i 0 < (members.getD b []).getD i 0 → rank a < rank b) ∧
        ∀ k < N, ∃ x, o k = .val x ∧ (0 < scale.getD i 0 → x ∈ support d ∧
            cdf (law d (loc.getD i 0) (scale.getD i 0)) x = ((rank k : ℝ) + 1) / ((N : ℝ) + 1)) ∧
          (scale.getD i 0 = 0 → x = loc.getD i 0) := by
    intro i hi o hl ho
    refine ⟨rk i, ?_, ?_, ?_⟩
    · have : (List.range N).map (rk i) = eccRanking false (rnd i) (raw i) := by
        apply List.ext_getElem
        · simp [hplen]
        · intro k h1 h2
          simp only [List.getElem_map, List.getElem_range, rk]
          rw [List.getD_eq_getElem _ _ h2]
      rw [this]; exact hperm i
    · intro a ha b hb hab
      have hlp := lexsort_perm (rnd i) (raw i)
      rw [hrawlen] at hlp
      have ea : (lexsort (rnd i) (raw i)).getD (rk i a) 0 = a := argsort_inverse hlp ha
      have eb : (lexsort (rnd i) (raw i)).getD (rk i b) 0 = b := argsort_inverse hlp hb
      have hraw : ∀ c < N, (raw i).getD c 0 = (members.getD c []).getD i 0 := by
        intro c hc
        simp only [raw]
        rw [List.getD_eq_getElem _ _ (by simpa using hc), List.getElem_map, List.getD_eq_getElem members _ hc]
      have hle : rk i a ≤ rk i b := by
        apply lexsort_index_lt (rnd := rnd i) (raw := raw i) (by rw [hrawlen]; exact hrklt i a ha)
        rw [ea, eb]
        unfold lexLe
        rw [hraw a ha, hraw b hb]
        rintro (g | ⟨g, g'⟩) <;> linarith
      rcases hle.eq_or_lt with h | h
      · exfalso
        rw [h] at ea
        have : a = b := ea.symm.trans eb
        subst this
        exact lt_irrefl _ hab
      · exact h
    · intro k hk
      rw [ho k hk]
      unfold pctCell
      rw [if_pos hl]
      refine ⟨_, rfl, ?_, ?_⟩
      · intro hpos
        have hk' : ((rk i k : ℕ) : ℝ) < N := by exact_mod_cast hrklt i k hk
        have hN1 : (0 : ℝ) < (N : ℝ) + 1 := by positivity
        have e : 100 * ((rk i k : ℝ) + 1) / ((N : ℝ) + 1) / 100 = ((rk i k : ℝ) + 1) / ((N : ℝ) + 1) := by field_simp
        obtain ⟨x, hx, h1, h2⟩ := frozenPpf_eq (loc.getD i 0) (scale.getD i 0) hpos d hd (((rk i k : ℝ) + 1) / ((N : ℝ) + 1))
          (by positivity) (by rw [div_lt_one hN1]; linarith)
        rw [show pctAt d (loc.getD i 0) (scale.getD i 0) (100 * ((rk i k : ℝ) + 1) / ((N : ℝ) + 1)) = x by
          unfold pctAt; rw [e, hx]; rfl]
        exact ⟨h1, h2⟩
      · intro h0
        rw [h0]
        simp [pctAt, frozenPpf_zero]
  unfold applyRealizations
  dsimp only
  rw [← hN, hrows]
  simp only [bind, Except.bind]
  rw [← hout]
  cases hl : land with
  | none =>
    rw [hl] at hcell hland
    exact ⟨out, rfl, by simp [hout], holen, fun i hi => ⟨fun h => hland i hi _ h (fun k hk => hcell i hi k hk), fun h => by simp [landAt] at h⟩⟩
  | some m =>
    rw [hl] at hcell hland
    have hmrow : ∀ (k : ℕ) c r, out[k]? = some c → (members.map fun m => m.map fun v : ℚ => (v : ℝ))[k]? = some r → c.length = r.length := by
      intro k c r hc hr'
      rw [holen c (List.mem_of_getElem? hc)]
      rw [List.getElem?_map] at hr'
      cases hmk : members[k]? with
      | none => rw [hmk] at hr'; simp at hr'
      | some q =>
        rw [hmk] at hr'
        simp at hr'
        rw [← hr', List.length_map, hrow q (List.mem_of_getElem? hmk)]
    simp only []
    rw [mergeLandSea_eq out _ (by simp [hout, hN]) hmrow]
    have hget : ∀ i < n, ∀ k < N, ((List.zipWith mergeRow out (members.map fun m => m.map fun v : ℚ => (v : ℝ))).getD k []).getD i .nan =
        (pctCell d loc scale (some m) N i (rk i k)).orRaw (((members.getD k []).getD i 0 : ℚ) : ℝ) := by
      intro i hi k hk
      have hok : k < out.length := by simpa [hout] using hk
      have hor : (out[k]).length = n := holen _ (List.getElem_mem _)
      have hmr : (members[k]'hk).length = n := hrow _ (List.getElem_mem _)
      have h1 : (out[k])[i]? = some (pctCell d loc scale (some m) N i (rk i k)) := by
        rw [← hcell i hi k hk, List.getD_eq_getElem out _ hok, List.getD_eq_getElem _ _ (by omega)]
        exact List.getElem?_eq_getElem (by omega)
      have h2 : ((members[k]'hk).map fun v : ℚ => (v : ℝ))[i]? = some (((members.getD k []).getD i 0 : ℚ) : ℝ) := by
        rw [List.getElem?_map, List.getElem?_eq_getElem (show i < (members[k]'hk).length by omega),
          List.getD_eq_getElem members _ hk, List.getD_eq_getElem _ _ (by omega)]
        rfl
      rw [List.getD_eq_getElem?_getD, List.getD_eq_getElem?_getD, List.getElem?_zipWith, List.getElem?_eq_getElem hok, List.getElem?_map,
        List.getElem?_eq_getElem hk]
      simp only [Option.map_some, Option.getD_some]
      rw [mergeRow_get _ _ i _ _ h1 h2]
      rfl
    refine ⟨_, rfl, by simp [hout, hN], ?_, ?_⟩
    · intro r hr'
      obtain ⟨k, hk, rfl⟩ := List.mem_iff_getElem.1 hr'
      rw [List.getElem_zipWith]
      have hk' : k < members.length := by simp at hk; exact hk.2
      unfold mergeRow
      rw [List.length_zipWith, holen _ (List.getElem_mem _), List.getElem_map, List.length_map, hrow _ (List.getElem_mem _), min_self]
    · intro i hi
      refine ⟨fun h => hland i hi _ h ?_, ?_⟩
      · intro k hk
        rw [hget i hi k hk]
        unfold pctCell
        rw [if_pos h]
        rfl
      · intro h k hk
        rw [hget i hi k hk]
        unfold pctCell
        rw [h]
        rfl

/-- **C224** (consequence): at a calibrated point with spread, a member above another in the forecast is above it in the result. -/
theorem C224_order (d : EmosDist) (hd : proper d) (n : ℕ) (loc scale : List ℝ) (land : Option (List Bool)) (rnd : ℕ → List ℚ)
    (members : List (List ℚ)) (hloc : loc.length = n) (hsc : scale.length = n) (hm : ∀ m, land = some m → m.length = n)
    (hrow : ∀ r ∈ members, r.length = n) (hs : ∀ s ∈ scale, 0 ≤ s) (hr : ∀ i, (rnd i).length = members.length)
    (out : List (List OutVal)) (h : applyRealizations d n loc scale land rnd members = .ok out) (i a b : ℕ) (hi : i < n)
    (hl : landAt land i = true) (hsp : 0 < scale.getD i 0) (ha : a < members.length) (hb : b < members.length)
    (hab : (members.getD a []).getD i 0 < (members.getD b []).getD i 0) :
    ∃ x y, (out.getD a []).getD i .nan = .val x ∧ (out.getD b []).getD i .nan = .val y ∧ x < y := by
  obtain ⟨out', h', -, -, hall⟩ := C224_realizations d hd n loc scale land rnd members hloc hsc hm hrow hs hr
  rw [h] at h'
  injection h' with h'
  subst h'
  obtain ⟨rank, -, hmono, hval⟩ := (hall i hi).1 hl
  obtain ⟨x, hx, hx1, -⟩ := hval a ha
  obtain ⟨y, hy, hy1, -⟩ := hval b hb
  refine ⟨x, y, hx, hy, ?_⟩
  have hN1 : (0 : ℝ) < (members.length : ℝ) + 1 := by positivity
  refine C128_increasing d (loc.getD i 0) (scale.getD i 0) (100 * (((rank a : ℝ) + 1) / ((members.length : ℝ) + 1)))
    (100 * (((rank b : ℝ) + 1) / ((members.length : ℝ) + 1))) x y ?_ ?_ ?_
  · rw [(hx1 hsp).2]; ring
  · rw [(hy1 hsp).2]; ring
  · have : (rank a : ℝ) < rank b := by exact_mod_cast hmono a ha b hb hab
    have : ((rank a : ℝ) + 1) / ((members.length : ℝ) + 1) < ((rank b : ℝ) + 1) / ((members.length : ℝ) + 1) :=
      (div_lt_div_iff_of_pos_right hN1).2 (by linarith)
    linarith

/-- C224 has cases: two members, a land and a sea point. -/
example : ∃ out, applyRealizations .norm 2 [1, 1] [1, 1] (some [true, false]) (fun _ => [0, 0]) [[5, 6], [3, 4]] = .ok out ∧
    (out.getD 0 []).getD 1 .nan = .val ((6 : ℚ) : ℝ) ∧
    ∃ x y, (out.getD 1 []).getD 0 .nan = .val x ∧ (out.getD 0 []).getD 0 .nan = .val y ∧ x < y := by
  obtain ⟨out, h, -, -, hall⟩ := C224_realizations .norm trivial 2 [1, 1] [1, 1] (some [true, false]) (fun _ => [0, 0]) [[5, 6], [3, 4]]
    rfl rfl (by simp) (by simp) (by simp) (by simp)
  refine ⟨out, h, (hall 1 (by norm_num)).2 (by simp [landAt]) 0 (by simp), ?_⟩
  exact C224_order .norm trivial 2 [1, 1] [1, 1] (some [true, false]) (fun _ => [0, 0]) [[5, 6], [3, 4]]
    rfl rfl (by simp) (by simp) (by simp) (by simp) out h 0 1 0 (by norm_num) (by simp [landAt]) (by simp) (by simp) (by simp) (by norm_num)

end Improver
