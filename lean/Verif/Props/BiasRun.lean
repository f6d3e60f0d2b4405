import Verif.Model.BiasRun
import Verif.Props.Bias
import Verif.Props.CalMatch
import Verif.Props.EmosRun

/-! C245: the forecast bias made from an archive.  C246: such a bias is found, accepted and removes the mean error. -/

namespace Improver
namespace Spec

/-- The archive can be used: no probabilities; with percentiles one, without them one realization at most. -/
def oneValued (a : BiasArchive) : Prop :=
  a.probability = false ∧ (∀ n, a.percentiles = some n → n ≤ 1) ∧ (a.percentiles = none → ∀ n, a.realizations = some n → n ≤ 1)

/-- The true value at point `i` for the time (and period) of `c`. -/
def truthAt (truths : List (TruthSlice (List (Option ℚ)))) (c : TimeCell) (i : ℕ) : Option ℚ :=
  (truths.find? fun t => decide (t.cell = c)).bind fun t => t.data.getD i none

/-- `fs` are the forecasts of the archive that have a truth, in order of time. -/
def usedForecasts (a : BiasArchive) (truths : List (TruthSlice (List (Option ℚ)))) (fs : List (FcSlice BiasCell)) : Prop :=
  fs.Pairwise (fun f g => f.cell.point < g.cell.point) ∧ ∀ f, f ∈ fs ↔ kept a.slices truths f

/-- Forecasts and truths at point `i` for the forecasts `fs`, where both are known. -/
def trainingPairs (truths : List (TruthSlice (List (Option ℚ)))) (fs : List (FcSlice BiasCell)) (i : ℕ) : List (ℚ × ℚ) :=
  fs.filterMap fun f => match f.data.values.getD i none, truthAt truths f.cell i with
    | some v, some o => some (v, o)
    | _, _ => none

end Spec

open Spec

theorem ensureSingleValued_iff (a : BiasArchive) : ensureSingleValued a = .ok () ↔ oneValued a := by
  unfold ensureSingleValued oneValued
  obtain ⟨nm, un, p, pc, rl, sl⟩ := a
  simp only
  cases p with
  | true => simp
  | false =>
    cases pc with
    | some k => by_cases h : 1 < k <;> simp [h] <;> omega
    | none =>
      cases rl with
      | none => simp
      | some k => by_cases h : 1 < k <;> simp [h] <;> omega

theorem additiveError_one (n : ℕ) (f o : List (Option ℚ)) (hf : f.length = n) (ho : o.length = n) :
    additiveError false n [f] [o] = additiveError true n [f] [o] := by
  have hm : ∀ x : Option ℚ, maskedMean [x] = x := by
    intro x
    cases x <;> simp [maskedMean]
  simp only [additiveError, Bool.false_eq_true, if_false, if_true, List.zipWith_cons_cons, List.zipWith_nil_left, List.headD_cons, meanOverTime,
    List.map_cons, List.map_nil, hm]
  apply List.ext_getElem
  · simp [hf, ho]
  · intro i h1 h2
    simp only [List.getElem_map, List.getElem_range]
    rw [List.getD_eq_getElem?_getD, List.getElem?_eq_getElem h1, Option.getD_some]

/-- The truths that were matched are those of the same times. -/
theorem truth_of_cell {truths : List (TruthSlice (List (Option ℚ)))} (hd : (truths.map (·.cell.point)).Nodup)
    {t : TruthSlice (List (Option ℚ))} (ht : t ∈ truths) (i : ℕ) : truthAt truths t.cell i = t.data.getD i none := by
  unfold truthAt
  have : truths.find? (fun s => decide (s.cell = t.cell)) = some t := by
    induction truths with
    | nil => simp at ht
    | cons s rest ih =>
      simp only [List.map_cons, List.nodup_cons] at hd
      rcases List.mem_cons.1 ht with rfl | ht
      · simp
      · have hne : s.cell ≠ t.cell := by
          intro he
          exact hd.1 (List.mem_map.2 ⟨t, ht, by rw [he]⟩)
        rw [List.find?_cons_of_neg (by simpa using hne)]
        exact ih hd.2 ht
  rw [this]
  rfl

theorem trainingPairs_eq {truths : List (TruthSlice (List (Option ℚ)))} (hd : (truths.map (·.cell.point)).Nodup)
    (fs : List (FcSlice BiasCell)) (ts : List (TruthSlice (List (Option ℚ)))) (hts : ∀ t ∈ ts, t ∈ truths)
    (hc : ts.map (·.cell) = fs.map (·.cell)) (i : ℕ) :
    pairsAt i (fs.map fun f => f.data.values) (ts.map fun t => t.data) = trainingPairs truths fs i := by
  unfold pairsAt trainingPairs
  induction fs generalizing ts with
  | nil => cases ts with
    | nil => rfl
    | cons t r => simp at hc
  | cons f rest ih =>
    cases ts with
    | nil => simp at hc
    | cons t r =>
      simp only [List.map_cons, List.cons.injEq] at hc
      have ht := truth_of_cell hd (hts t (by simp)) i
      rw [hc.1] at ht
      have := ih r (fun x hx => hts x (by simp [hx])) hc.2
      simp only [List.map_cons, List.zip_cons_cons, List.filterMap_cons, ht, this]
      cases f.data.values.getD i none <;> cases t.data.getD i none <;> rfl

/-- What a successful run consists of. -/
theorem biasRun_spec {n : ℕ} {a : BiasArchive} {truths : List (TruthSlice (List (Option ℚ)))}
    (hd : (truths.map (·.cell.point)).Nodup) (hk : sameKind a.slices truths) {r : BiasProduct} (h : biasRun n a truths = .ok r) :
    ∃ (fs : List (FcSlice BiasCell)) (ts : List (TruthSlice (List (Option ℚ)))) (u : ℤ × Option (ℤ × ℤ)), usedForecasts a truths fs ∧ (∀ t ∈ ts, t ∈ truths) ∧ ts.map (·.cell) = fs.map (·.cell) ∧ fs ≠ [] ∧ oneValued a ∧
      (∀ f ∈ fs, ∀ g ∈ fs, hourOfDay f.data.frt = hourOfDay g.data.frt ∧ f.data.fp = g.data.fp) ∧
      biasReference (fs.map fun f => f.data.frt) = .ok u ∧
      r = ⟨"forecast_error_of_" ++ a.name, a.units, u.2, ⟨[u.1], decide (1 < fs.length), [(fs.map fun f => f.data.fp).headD 0],
        additiveError (decide (1 < fs.length)) n (fs.map fun f => f.data.values) (ts.map fun t => t.data)⟩⟩ := by
  unfold biasRun at h
  simp only [bind, Except.bind] at h
  cases h0 : ensureSingleValued a with
  | error e => rw [h0] at h; exact nomatch h
  | ok x =>
    rw [h0] at h
    simp only at h
    obtain ⟨hA, hB⟩ := C126_matched a.slices truths hd hk
    by_cases hex : ∃ f, kept a.slices truths f
    · obtain ⟨fs, ts, e, h1, h2, h3, h4⟩ := hA hex
      rw [e] at h
      simp only at h
      have hne : fs ≠ [] := by
        obtain ⟨f, hf⟩ := hex
        exact List.ne_nil_of_mem ((h2 f).2 hf)
      cases hc : checkConsistency (fs.map fun f => f.data.frt) (mergedPoints (fs.map fun f => (f.data.fp : ℚ))) with
      | error e => rw [hc] at h; exact nomatch h
      | ok y =>
        rw [hc] at h
        simp only at h
        cases hr : biasReference (fs.map fun f => f.data.frt) with
        | error e => rw [hr] at h; exact nomatch h
        | ok u =>
          rw [hr] at h
          simp only [Except.ok.injEq] at h
          rw [C127_consistent _ (by simpa using hne), mergedPoints_one _ (by simpa using hne)] at hc
          refine ⟨fs, ts, u, ⟨h1, h2⟩, h3, h4, hne, (ensureSingleValued_iff a).1 h0, ?_, hr, h.symm⟩
          intro f hf g hg
          refine ⟨hc.1 _ (List.mem_map.2 ⟨f, hf, rfl⟩) _ (List.mem_map.2 ⟨g, hg, rfl⟩), ?_⟩
          have := hc.2 _ (List.mem_map.2 ⟨f, hf, rfl⟩) _ (List.mem_map.2 ⟨g, hg, rfl⟩)
          exact_mod_cast this
    · rw [hB hex] at h
      exact nomatch h

theorem usedForecasts_unique {a : BiasArchive} {truths : List (TruthSlice (List (Option ℚ)))} {fs gs : List (FcSlice BiasCell)}
    (h : usedForecasts a truths fs) (g : usedForecasts a truths gs) : fs = gs := by
  have hp : fs.Perm gs := (List.perm_ext_iff_of_nodup (h.1.imp fun hh he => by rw [he] at hh; exact lt_irrefl _ hh)
    (g.1.imp fun hh he => by rw [he] at hh; exact lt_irrefl _ hh)).2 (fun x => by rw [h.2, g.2])
  exact hp.eq_of_pairwise (fun _ _ _ _ h1 h2 => absurd (h1.trans h2) (lt_irrefl _)) h.1 g.1

/-- C245.  A bias is made exactly when the forecasts are single valued, there is a forecast with a truth for its time, and those forecasts are all of
one hour of the day and one forecast period. -/
theorem C245_made (n : ℕ) (a : BiasArchive) (truths : List (TruthSlice (List (Option ℚ))))
    (hd : (truths.map (·.cell.point)).Nodup) (hk : sameKind a.slices truths) :
    (∃ r, biasRun n a truths = .ok r) ↔ oneValued a ∧ (∃ f, kept a.slices truths f) ∧
      ∀ f g, kept a.slices truths f → kept a.slices truths g → hourOfDay f.data.frt = hourOfDay g.data.frt ∧ f.data.fp = g.data.fp := by
  constructor
  · rintro ⟨r, h⟩
    obtain ⟨fs, ts, u, hu, -, -, hne, h1, h2, -, -⟩ := biasRun_spec hd hk h
    obtain ⟨f, hf⟩ := List.exists_mem_of_ne_nil fs hne
    exact ⟨h1, ⟨f, (hu.2 f).1 hf⟩, fun f g hf hg => h2 f ((hu.2 f).2 hf) g ((hu.2 g).2 hg)⟩
  · rintro ⟨h1, hex, h2⟩
    obtain ⟨fs, ts, e, h3, h4, h5, h6⟩ := (C126_matched a.slices truths hd hk).1 hex
    have hne : fs ≠ [] := by
      obtain ⟨f, hf⟩ := hex
      exact List.ne_nil_of_mem ((h4 f).2 hf)
    unfold biasRun
    simp only [bind, Except.bind]
    rw [(ensureSingleValued_iff a).2 h1]
    simp only
    rw [e]
    simp only
    have hc : checkConsistency (fs.map fun f => f.data.frt) (mergedPoints (fs.map fun f => (f.data.fp : ℚ))) = .ok () := by
      rw [C127_consistent _ (by simpa using hne), mergedPoints_one _ (by simpa using hne)]
      constructor
      · intro t ht s hs
        obtain ⟨f, hf, rfl⟩ := List.mem_map.1 ht
        obtain ⟨g, hg, rfl⟩ := List.mem_map.1 hs
        exact (h2 f g ((h4 f).1 hf) ((h4 g).1 hg)).1
      · intro t ht s hs
        obtain ⟨f, hf, rfl⟩ := List.mem_map.1 ht
        obtain ⟨g, hg, rfl⟩ := List.mem_map.1 hs
        rw [(h2 f g ((h4 f).1 hf) ((h4 g).1 hg)).2]
    rw [hc]
    simp only
    have hb : ∃ u, biasReference (fs.map fun f => f.data.frt) = .ok u := by
      unfold biasReference
      by_cases hl : 1 < (fs.map fun f => f.data.frt).length
      · rw [if_pos hl]
        obtain ⟨p, lo, hi, hu, -⟩ := C127_unified_frt (fs.map fun f => f.data.frt) (by simpa using hne) none
        rw [hu]
        exact ⟨_, rfl⟩
      · rw [if_neg hl]
        exact ⟨_, rfl⟩
    obtain ⟨u, hu⟩ := hb
    rw [hu]
    exact ⟨_, rfl⟩

/-- What the values of a bias are. -/
theorem biasRun_data {n : ℕ} {a : BiasArchive} {truths : List (TruthSlice (List (Option ℚ)))}
    (hd : (truths.map (·.cell.point)).Nodup) (hk : sameKind a.slices truths) (hl : ∀ f ∈ a.slices, f.data.values.length = n)
    (hm : ∀ t ∈ truths, t.data.length = n) {r : BiasProduct} (h : biasRun n a truths = .ok r) {fs : List (FcSlice BiasCell)}
    (hfs : usedForecasts a truths fs) : ∃ ts : List (TruthSlice (List (Option ℚ))), (∀ t ∈ ts, t ∈ truths) ∧ ts.map (·.cell) = fs.map (·.cell) ∧
      r.cube.data = additiveError true n (fs.map fun f => f.data.values) (ts.map fun t => t.data) := by
  obtain ⟨gs, ts, u, hu, h1, h2, hne, -, -, -, rfl⟩ := biasRun_spec hd hk h
  obtain rfl := usedForecasts_unique hfs hu
  refine ⟨ts, h1, h2, ?_⟩
  by_cases hlen : 1 < fs.length
  · simp only [hlen, decide_true]
  · obtain ⟨f, rfl⟩ : ∃ f, fs = [f] := by
      apply List.length_eq_one_iff.1
      have := List.length_pos_iff.2 hne
      omega
    obtain ⟨t, rfl⟩ : ∃ t, ts = [t] := by
      apply List.length_eq_one_iff.1
      have := congrArg List.length h2
      simpa using this
    have hf : kept a.slices truths f := (hfs.2 f).1 (by simp)
    obtain ⟨i, hi, -⟩ := hf
    exact additiveError_one n _ _ (hl f (List.mem_of_getElem? hi)) (hm t (h1 t (by simp)))

/-- C245.  At every point the bias is the mean, over the forecasts used, of forecast minus truth for the same time; points at which there never are both
are masked. -/
theorem C245_mean_error (n : ℕ) (a : BiasArchive) (truths : List (TruthSlice (List (Option ℚ))))
    (hd : (truths.map (·.cell.point)).Nodup) (hk : sameKind a.slices truths) (hl : ∀ f ∈ a.slices, f.data.values.length = n)
    (hm : ∀ t ∈ truths, t.data.length = n) (r : BiasProduct) (h : biasRun n a truths = .ok r) (fs : List (FcSlice BiasCell))
    (hfs : usedForecasts a truths fs) (i : ℕ) (hi : i < n) :
    (trainingPairs truths fs i = [] → r.cube.data[i]? = some none) ∧
    (trainingPairs truths fs i ≠ [] → r.cube.data[i]? =
      some (some (((trainingPairs truths fs i).map fun p => p.1 - p.2).sum / (trainingPairs truths fs i).length))) := by
  obtain ⟨ts, h1, h2, h3⟩ := biasRun_data hd hk hl hm h hfs
  rw [h3, additiveError_get n i hi, trainingPairs_eq hd fs ts h1 h2]
  constructor
  · intro he
    simp [he]
  · intro he
    have : (trainingPairs truths fs i).map (fun p => p.1 - p.2) ≠ [] := by simpa using he
    simp [he]

/-- C245.  The name tells of which diagnostic it is the error, the units are those of the forecasts, the reference time is the latest of those used, with
the earliest and latest as limits if there are several, and the forecast period is that of all forecasts used. -/
theorem C245_described (n : ℕ) (a : BiasArchive) (truths : List (TruthSlice (List (Option ℚ))))
    (hd : (truths.map (·.cell.point)).Nodup) (hk : sameKind a.slices truths) (r : BiasProduct) (h : biasRun n a truths = .ok r)
    (fs : List (FcSlice BiasCell)) (hfs : usedForecasts a truths fs) :
    r.name = "forecast_error_of_" ++ a.name ∧ r.units = a.units ∧
    (∃ p, r.cube.frt = [p] ∧ IsGreatest {t | ∃ f ∈ fs, f.data.frt = t} p) ∧
    (fs.length = 1 → r.frtBounds = none ∧ r.cube.bounded = false) ∧
    (2 ≤ fs.length → r.cube.bounded = true ∧ ∃ lo hi, r.frtBounds = some (lo, hi) ∧ IsLeast {t | ∃ f ∈ fs, f.data.frt = t} lo ∧
      IsGreatest {t | ∃ f ∈ fs, f.data.frt = t} hi) ∧
    ∃ q, r.cube.fp = [q] ∧ ∀ f ∈ fs, f.data.fp = q := by
  obtain ⟨gs, ts, u, hu, -, -, hne, -, hcon, hr, rfl⟩ := biasRun_spec hd hk h
  obtain rfl := usedForecasts_unique hfs hu
  have hset : {t | t ∈ fs.map fun f => f.data.frt} = {t | ∃ f ∈ fs, f.data.frt = t} := by
    ext t
    simp
  refine ⟨rfl, rfl, ?_, ?_, ?_, ?_⟩
  · unfold biasReference at hr
    by_cases hl : 1 < (fs.map fun f => f.data.frt).length
    · rw [if_pos hl] at hr
      obtain ⟨p, lo, hi, hu, hg, -⟩ := C127_unified_frt (fs.map fun f => f.data.frt) (by simpa using hne) none
      simp only [bind, Except.bind] at hr
      rw [hu] at hr
      simp only [Except.ok.injEq] at hr
      subst hr
      exact ⟨p, rfl, hset ▸ hg⟩
    · rw [if_neg hl] at hr
      obtain ⟨f, rfl⟩ : ∃ f, fs = [f] := by
        apply List.length_eq_one_iff.1
        have := List.length_pos_iff.2 hne
        rw [List.length_map] at hl
        omega
      simp only [Except.ok.injEq] at hr
      subst hr
      refine ⟨_, rfl, ?_⟩
      constructor
      · exact ⟨f, by simp, rfl⟩
      · rintro t ⟨g, hg, rfl⟩
        simp only [List.mem_singleton] at hg
        subst hg
        exact le_refl _
  · intro h1
    unfold biasReference at hr
    rw [if_neg (by rw [List.length_map, h1]; omega)] at hr
    simp only [Except.ok.injEq] at hr
    subst hr
    exact ⟨rfl, by simp [h1]⟩
  · intro h2
    refine ⟨decide_eq_true (by omega), ?_⟩
    unfold biasReference at hr
    rw [if_pos (by rw [List.length_map]; omega)] at hr
    obtain ⟨p, lo, hi, hu, hg, ha, hb⟩ := C127_unified_frt (fs.map fun f => f.data.frt) (by simpa using hne) none
    simp only [bind, Except.bind] at hr
    rw [hu] at hr
    simp only [Except.ok.injEq] at hr
    subst hr
    simp only [reduceCtorEq, false_and, exists_false, or_false] at ha hb
    exact ⟨lo, hi, rfl, hset ▸ ha, hset ▸ hb⟩
  · obtain ⟨f, rest, rfl⟩ := List.exists_cons_of_ne_nil hne
    exact ⟨f.data.fp, rfl, fun g hg => (hcon g hg f (by simp)).2⟩

/-- An archive of three times (one of them without a truth) and its bias. -/
def sampleArchive : BiasArchive := ⟨"wind_speed", "m s-1", false, none, some 1,
  [⟨⟨86400, none⟩, false, 82800, 3600, [some 5, none]⟩, ⟨⟨0, none⟩, false, -3600, 3600, [some 3, some 1]⟩,
   ⟨⟨172800, none⟩, false, 169200, 3600, [some 7, some 7]⟩]⟩

example : (biasRun 2 sampleArchive [⟨⟨0, none⟩, [some 2, some 0]⟩, ⟨⟨86400, none⟩, [some 2, some 4]⟩]).toOption =
    some ⟨"forecast_error_of_wind_speed", "m s-1", some (-3600, 82800), ⟨[82800], true, [3600], [some 2, some 1]⟩⟩ := by decide +kernel

example : sameKind sampleArchive.slices ([⟨⟨0, none⟩, [some 2, some 0]⟩, ⟨⟨86400, none⟩, [some 2, some 4]⟩] : List (TruthSlice (List (Option ℚ)))) ∧
    oneValued sampleArchive := by
  refine ⟨Or.inl ⟨?_, ?_⟩, ?_⟩
  · decide
  · decide
  · refine ⟨rfl, ?_, ?_⟩ <;> simp [sampleArchive]

/-- Finding: with one percentile, several realizations are not noticed. -/
theorem C245_realizations_refuted : ∃ a : BiasArchive, a.realizations = some 3 ∧ ensureSingleValued a = .ok () :=
  ⟨⟨"wind_speed", "m s-1", false, some 1, some 3, []⟩, rfl, rfl⟩

/-! ### C246 -/

/-- C246.  Whatever the diagnostic, the cube of the bias is recognised among the inputs, in any order, and the forecast is the other one. -/
theorem C246_recognised (n : ℕ) (a : BiasArchive) (truths : List (TruthSlice (List (Option ℚ))))
    (r : BiasProduct) (h : biasRun n a truths = .ok r) (fc bias : InCube) (hb : bias.name = r.name)
    (hf : ¬ "forecast_error".toList <:+: fc.name.toList) :
    splitForecastsBias [fc, bias] = .ok (fc, some [bias]) ∧ splitForecastsBias [bias, fc] = .ok (fc, some [bias]) := by
  have hn : r.name = "forecast_error_of_" ++ a.name := by
    unfold biasRun at h
    simp only [bind, Except.bind] at h
    cases h0 : ensureSingleValued a with
    | error e => rw [h0] at h; exact nomatch h
    | ok x =>
      rw [h0] at h
      simp only at h
      cases h1 : filterNonMatching a.slices truths with
      | error e => rw [h1] at h; exact nomatch h
      | ok m =>
        rw [h1] at h
        simp only at h
        cases h2 : checkConsistency (m.1.map fun f => f.data.frt) (mergedPoints (m.1.map fun f => (f.data.fp : ℚ))) with
        | error e => rw [h2] at h; exact nomatch h
        | ok y =>
          rw [h2] at h
          simp only at h
          cases h3 : biasReference (m.1.map fun f => f.data.frt) with
          | error e => rw [h3] at h; exact nomatch h
          | ok u =>
            rw [h3] at h
            simp only [Except.ok.injEq] at h
            rw [← h]
  have h1 : hasPart "forecast_error".toList bias.name.toList = true := by
    rw [hasPart_iff, hb, hn, String.toList_append]
    have : "forecast_error_of_".toList = "forecast_error".toList ++ "_of_".toList := by decide
    rw [this, List.append_assoc]
    exact ⟨[], _, rfl⟩
  have h2 : hasPart "forecast_error".toList fc.name.toList = false := by
    rw [← Bool.not_eq_true, hasPart_iff]
    exact hf
  unfold splitForecastsBias
  simp only [List.filter_cons, List.filter_nil, h1, h2]
  exact ⟨rfl, rfl⟩

/-- C246.  The bias is accepted for exactly the forecasts of the hour of the day and the forecast period of the archive. -/
theorem C246_accepted (n : ℕ) (a : BiasArchive) (truths : List (TruthSlice (List (Option ℚ))))
    (hd : (truths.map (·.cell.point)).Nodup) (hk : sameKind a.slices truths) (r : BiasProduct) (h : biasRun n a truths = .ok r)
    (lo hi : Option ℚ) (fill : Bool) (fc : BiasForecast) :
    (∃ out, applyBias lo hi fill fc [r.cube] = .ok out) ↔
      ∀ f, kept a.slices truths f → (∀ t ∈ fc.frt, hourOfDay t = hourOfDay f.data.frt) ∧ ∀ q ∈ fc.fp, q = f.data.fp := by
  obtain ⟨fs, ts, u, hu, -, -, hne, -, hcon, -, -⟩ := biasRun_spec hd hk h
  obtain ⟨-, -, ⟨p, hp, hpg⟩, -, -, q, hq, hqf⟩ := C245_described n a truths hd hk r h fs hu
  obtain ⟨f0, hf0, hfp⟩ := hpg.1
  rw [C133_accepted lo hi fill fc [r.cube] (by simp) (by simp [hp]) (by simp [hq])]
  simp only [List.mem_singleton, forall_eq, hp, hq, List.length_singleton]
  constructor
  · rintro ⟨⟨x, hx1, hx2⟩, ⟨y, hy1, hy2⟩, -⟩ f hf
    have hf' := (hu.2 f).2 hf
    constructor
    · intro t ht
      rw [hx1 t ht, ← hx2, ← hfp]
      exact (hcon f0 hf0 f hf').1
    · intro z hz
      rw [hy1 z hz, ← hy2, hqf f hf']
  · intro hall
    obtain ⟨b1, b2⟩ := hall f0 ((hu.2 f0).1 hf0)
    refine ⟨⟨hourOfDay f0.data.frt, b1, by rw [hfp]⟩, ⟨f0.data.fp, b2, (hqf f0 hf0).symm⟩, fun hh => absurd hh (by omega)⟩

/-- The value at point `i` of the forecast `f` of the archive, corrected (without limits) by the bias `b`. -/
def correctedAt (fill : Bool) (b : BiasCube) (i : ℕ) (f : FcSlice BiasCell) : Option ℚ :=
  match applyBias none none fill ⟨[f.data.frt], [f.data.fp], none, f.data.values⟩ [b] with
  | .ok out => out.1.data.getD i none
  | .error _ => none

/-- C246.  Applied to the archive it was made from, the bias leaves no mean error at any point at which forecast and truth were ever known. -/
theorem C246_no_mean_error (n : ℕ) (a : BiasArchive) (truths : List (TruthSlice (List (Option ℚ))))
    (hd : (truths.map (·.cell.point)).Nodup) (hk : sameKind a.slices truths) (hl : ∀ f ∈ a.slices, f.data.values.length = n)
    (hm : ∀ t ∈ truths, t.data.length = n) (r : BiasProduct) (h : biasRun n a truths = .ok r) (fs : List (FcSlice BiasCell))
    (hfs : usedForecasts a truths fs) (fill : Bool) (i : ℕ) (hi : i < n) (hne : trainingPairs truths fs i ≠ []) :
    let after := fs.filterMap fun f => match correctedAt fill r.cube i f, truthAt truths f.cell i with
      | some v, some o => some (v - o)
      | _, _ => none
    after.length = (trainingPairs truths fs i).length ∧ after.sum = 0 := by
  intro after
  have hdata := (C245_mean_error n a truths hd hk hl hm r h fs hfs i hi).2 hne
  generalize hb : ((trainingPairs truths fs i).map fun p => p.1 - p.2).sum / ((trainingPairs truths fs i).length : ℚ) = b at hdata
  have hcor : ∀ f ∈ fs, correctedAt fill r.cube i f = (f.data.values.getD i none).map fun v => v - b := by
    intro f hf
    have hkf := (hfs.2 f).1 hf
    have hlen : f.data.values.length = n := by
      obtain ⟨j, hj, -⟩ := hkf
      exact hl f (List.mem_of_getElem? hj)
    have hacc := (C246_accepted n a truths hd hk r h none none fill ⟨[f.data.frt], [f.data.fp], none, f.data.values⟩).2 (by
      obtain ⟨-, -, hall⟩ := (C245_made n a truths hd hk).1 ⟨r, h⟩
      intro g hg
      have := hall f g hkf hg
      simpa using this)
    obtain ⟨out, hout⟩ := hacc
    obtain ⟨o1, o2, o3⟩ := out
    unfold correctedAt
    rw [hout]
    simp only
    have hget : f.data.values[i]? = some (f.data.values.getD i none) := by
      rw [List.getD_eq_getElem?_getD, List.getElem?_eq_getElem (by omega)]
      rfl
    cases hv : f.data.values.getD i none with
    | none =>
      rw [hv] at hget
      rcases C132_masked_forecast none none fill _ o1 o2 [r.cube] o3 i hout hget with h1 | h1 <;>
        simp [List.getD_eq_getElem?_getD, h1]
    | some v =>
      rw [hv] at hget
      obtain ⟨w, h1, h2⟩ := C132_corrected none none fill _ o1 o2 r.cube o3 i v b (by simp) hout hget hdata
      have := h2.2 (v - b) ⟨by simp, by simp⟩
      simp only [sub_self, abs_zero] at this
      have hw : v - b - w = 0 := abs_eq_zero.1 (le_antisymm this (abs_nonneg _))
      rw [List.getD_eq_getElem?_getD, h1]
      simp only [Option.getD_some, Option.map_some]
      congr 1
      linarith
  have hafter : after = ((trainingPairs truths fs i).map fun p => p.1 - p.2).map fun x => x - b := by
    show fs.filterMap _ = _
    unfold trainingPairs
    clear hb hne hdata hfs
    induction fs with
    | nil => rfl
    | cons f rest ih =>
      have := ih (fun g hg => hcor g (by simp [hg]))
      have hc := hcor f (by simp)
      simp only [List.filterMap_cons, hc]
      cases hv : f.data.values.getD i none with
      | none => simpa using this
      | some v =>
        cases ht : truthAt truths f.cell i with
        | none => simpa using this
        | some o =>
          simp only [Option.map_some, List.map_cons]
          rw [this]
          congr 1
          ring
  constructor
  · rw [hafter]
    simp
  · rw [hafter, ← hb]
    have := sum_sub_mean ((trainingPairs truths fs i).map fun p => p.1 - p.2) (by simpa using hne)
    rw [List.length_map] at this
    exact this

/-- C246.  A bias made from several forecasts is not averaged with others: it is refused. -/
theorem C246_not_averaged (n : ℕ) (a : BiasArchive) (truths : List (TruthSlice (List (Option ℚ))))
    (hd : (truths.map (·.cell.point)).Nodup) (hk : sameKind a.slices truths) (r : BiasProduct) (h : biasRun n a truths = .ok r)
    (fs : List (FcSlice BiasCell)) (hfs : usedForecasts a truths fs) (h2 : 2 ≤ fs.length) (lo hi : Option ℚ) (fill : Bool) (fc : BiasForecast)
    (bs : List BiasCube) (hb : r.cube ∈ bs) (hl : 2 ≤ bs.length) (hfrt : ∀ b ∈ bs, b.frt ≠ []) (hfp : ∀ b ∈ bs, b.fp ≠ []) :
    ¬ ∃ out, applyBias lo hi fill fc bs = .ok out := by
  rw [C133_accepted lo hi fill fc bs (List.ne_nil_of_mem hb) hfrt hfp]
  rintro ⟨-, -, h3⟩
  have h4 := (h3 hl).1 _ hb
  have h5 := ((C245_described n a truths hd hk r h fs hfs).2.2.2.2.1 h2).1
  rw [h4] at h5
  exact nomatch h5

example : (applyBias none none false ⟨[255600], [3600], none, [some 6, some 2]⟩
    [⟨[82800], true, [3600], [some 2, some 1]⟩]).toOption.map (fun o => o.1.data) = some [some 4, some 1] := by decide +kernel

end Improver
