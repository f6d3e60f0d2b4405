import Verif.Props.PrecipRun
import Verif.Props.Rename
import Mathlib.Data.Finset.Lattice.Basic
import Mathlib.Algebra.BigOperators.Group.Finset.Basic

/-! Further statements about freezing rain (C240) and the snow splitter (C241). -/

namespace Improver

open Spec

/-! ## C240 -/

/-- Two strictly ascending lists with the same members are equal. -/
theorem ascending_ext_int {a b : List ℤ} (ha : a.Pairwise (· < ·)) (hb : b.Pairwise (· < ·)) (h : ∀ x, x ∈ a ↔ x ∈ b) : a = b := by
  have hp : a.Perm b := (List.perm_ext_iff_of_nodup (ha.imp ne_of_lt) (hb.imp ne_of_lt)).2 h
  exact hp.eq_of_pairwise (fun x y _ _ h1 h2 => absurd h2 (not_lt.2 h1.le)) ha hb

/-- Three cubes of realizations `rs`, `ss`, `ts`. -/
theorem freezingRain_members (rs ss ts : List ℤ) (hrs : rs.Pairwise (· < ·)) (hss : ss.Pairwise (· < ·)) (hts : ts.Pairwise (· < ·))
    (r s t : ℤ → ℚ) (hne : (rs.filter fun m => decide (m ∈ ss ∧ m ∈ ts)) ≠ []) :
    freezingRain (rs.map fun k => (k, r k)) (ss.map fun k => (k, s k)) (ts.map fun k => (k, t k))
      = .ok (((rs.filter fun m => decide (m ∈ ss ∧ m ∈ ts)).map fun k => (r k + s k) * t k).sum / (rs.length : ℕ)) := by
  have hk : ∀ f : ℤ → ℚ, ∀ l : List ℤ, (l.map (fun k => (k, f k))).map Prod.fst = l := by
    intro f l; rw [List.map_map]; exact List.map_id'' (fun _ => rfl) l
  unfold freezingRain
  simp only [hk, List.length_map]
  rw [if_neg hne]
  simp only [matchRealizations_map]
  have hc : ∀ l : List ℤ, l.Pairwise (· < ·) → (∀ m ∈ rs.filter (fun m => decide (m ∈ ss ∧ m ∈ ts)), m ∈ l) →
      l.filter (fun k => decide (k ∈ rs.filter fun m => decide (m ∈ ss ∧ m ∈ ts))) = rs.filter fun m => decide (m ∈ ss ∧ m ∈ ts) := by
    intro l hl hm
    refine ascending_ext_int (hl.filter _) (hrs.filter _) fun x => ?_
    rw [List.mem_filter, decide_eq_true_iff]
    exact ⟨fun h => h.2, fun h => ⟨hm x h, h⟩⟩
  rw [hc rs hrs fun m h => (List.mem_filter.1 h).1, hc ss hss fun m h => (decide_eq_true_iff.1 (List.mem_filter.1 h).2).1,
    hc ts hts fun m h => (decide_eq_true_iff.1 (List.mem_filter.1 h).2).2, freezing_fold, zero_add]

/-- **C240** (common members).  When the cubes do not have the same realizations, only those all three have are used, each with its own
values: the sum over them of (rain + sleet) × the probability of frost is divided by the number of realizations of *rain*; without
a common realization there is an error. -/
theorem C240_common {X T : Type} [DecidableEq X] [DecidableEq T] (rain sleet temp : ProbField X T) (cubes : List (ProbField X T))
    (hp : cubes.Perm [rain, sleet, temp])
    (hr : Spec.onlyWord ["rain", "sleet", "temperature"] "rain" rain.name)
    (hs : Spec.onlyWord ["rain", "sleet", "temperature"] "sleet" sleet.name)
    (ht : Spec.onlyWord ["rain", "sleet", "temperature"] "temperature" temp.name)
    (hg : sleet.place = rain.place ∧ temp.place = rain.place) (htime : sleet.time = rain.time ∧ temp.time = rain.time)
    (hu : sleet.unit.dimension = rain.unit.dimension) (hscale : rain.unit.scale ≠ 0)
    (hthr : List.Forall₂ (Spec.sameQuantity sleet.unit rain.unit) sleet.thresholds rain.thresholds)
    (htu : temp.unit.dimension = "temperature") (k : ℕ) (hk : Spec.freezingAt temp k)
    (rs ss ts : List ℤ) (hrs : rs.Pairwise (· < ·)) (hss : ss.Pairwise (· < ·)) (hts : ts.Pairwise (· < ·))
    (h1 : rain.realizations = some rs) (h2 : sleet.realizations = some ss) (h3 : temp.realizations = some ts) :
    let common := rs.toFinset ∩ ss.toFinset ∩ ts.toFinset
    (common = ∅ → freezingRainProcess cubes = .error .valueError) ∧
    (common ≠ ∅ → ∃ out, freezingRainProcess cubes = .ok out ∧ out.realizations = none ∧
      ∀ r j i, out.data r j i =
        (∑ m ∈ common, (rain.data m j i + sleet.data m j i) * Spec.coldProbability temp k m i) / (rs.length : ℕ)) := by
  intro common
  have hmem : ∀ m, m ∈ common ↔ m ∈ rs.filter fun m => decide (m ∈ ss ∧ m ∈ ts) := by
    intro m
    simp only [common, Finset.mem_inter, List.mem_toFinset, List.mem_filter, decide_eq_true_iff, and_assoc]
  have hempty : common = ∅ ↔ (rs.filter fun m => decide (m ∈ ss ∧ m ∈ ts)) = [] := by
    rw [Finset.eq_empty_iff_forall_notMem, List.eq_nil_iff_forall_not_mem]
    exact forall_congr' fun m => not_congr (hmem m)
  have hsum : ∀ f : ℤ → ℚ, ∑ m ∈ common, f m = ((rs.filter fun m => decide (m ∈ ss ∧ m ∈ ts)).map f).sum := by
    intro f
    have : common = (rs.filter fun m => decide (m ∈ ss ∧ m ∈ ts)).toFinset := by
      ext m; rw [List.mem_toFinset]; exact hmem m
    rw [this, List.sum_toFinset _ ((hrs.imp ne_of_lt).filter _)]
  unfold freezingRainProcess
  rw [freezingInputs_ok rain sleet temp cubes hp hr hs ht hg htime hu hscale hthr htu k hk]
  simp only [bind, Except.bind, h1, h2, h3]
  refine ⟨fun he => ?_, fun he => ?_⟩
  · rw [if_pos (hempty.1 he)]
  · have hne := fun h => he (hempty.2 h)
    rw [if_neg hne]
    refine ⟨_, rfl, rfl, fun r j i => ?_⟩
    have := freezingRain_members rs ss ts hrs hss hts (fun m => rain.data m j i) (fun m => sleet.data m j i)
      (fun m => Spec.coldProbability temp k m i) hne
    unfold ProbField.members
    simp only
    rw [hsum]
    unfold Spec.coldProbability at this ⊢
    rw [this]
    rfl

/-- Realizations 0 and 1 of rain, 1 and 2 of sleet, 1 to 3 of temperature: only realization 1 is common. -/
example : ([0, 1] : List ℤ).toFinset ∩ [1, 2].toFinset ∩ [1, 2, 3].toFinset = {1} := by decide

/-! ## C241 -/

/-- **C241** (one of each).  The splitter refuses cubes of which none, or more than one, has a name with `rain`, with `snow` or with
`precipitation`. -/
theorem C241_one_of_each {X T : Type} [DecidableEq X] (outputIsRain : Bool) (n : ℕ) (cubes : List (TimedField X T)) (word : String)
    (hw : word ∈ ["rain", "snow", "precipitation"]) (hc : ¬ ∃! k, k < cubes.length ∧ ∃ c, cubes[k]? = some c ∧ word.toList <:+: c.name) :
    ∃ e, snowSplitProcess outputIsRain n cubes = .error e := by
  have one : ∀ (part : List Char) (c : TimedField X T), oneCubeWith TimedField.name part cubes = .ok c →
      ∃! k, k < cubes.length ∧ ∃ c, cubes[k]? = some c ∧ part <:+: c.name := by
    intro part c h
    unfold oneCubeWith at h
    have hf : cubes.filter (fun c => hasPart part c.name) = [c] := by
      generalize hg : cubes.filter (fun c => hasPart part c.name) = l at h
      match l, h with
      | [d], h => cases h; rfl
      | [], h => exact nomatch h
      | _ :: _ :: _, h => exact nomatch h
    obtain ⟨l1, l2, rfl, hl1, hpc, hl2⟩ := List.filter_eq_cons_iff.1 hf
    rw [List.filter_eq_nil_iff] at hl2
    refine ⟨l1.length, ⟨by simp, c, by simp, (hasPart_iff part _).1 hpc⟩, ?_⟩
    rintro k ⟨_, d, hd, hpd⟩
    have hpd' := (hasPart_iff part _).2 hpd
    rcases Nat.lt_trichotomy k l1.length with hlt | heq | hgt
    · rw [List.getElem?_append_left hlt] at hd
      exact absurd hpd' (hl1 d (List.mem_of_getElem? hd))
    · exact heq
    · rw [List.getElem?_append_right hgt.le] at hd
      obtain ⟨j, hj⟩ := Nat.exists_eq_add_of_lt hgt
      rw [show k - l1.length = j + 1 by omega, List.getElem?_cons_succ] at hd
      exact absurd hpd' (hl2 d (List.mem_of_getElem? hd))
  cases hout : snowSplitProcess outputIsRain n cubes with
  | error e => exact ⟨e, rfl⟩
  | ok out =>
    exfalso
    apply hc
    unfold snowSplitProcess at hout
    simp only [bind, Except.bind] at hout
    cases h1 : oneCubeWith TimedField.name "rain".toList cubes with
    | error e => rw [h1] at hout; exact nomatch hout
    | ok a =>
      rw [h1] at hout
      simp only at hout
      cases h2 : oneCubeWith TimedField.name "snow".toList cubes with
      | error e => rw [h2] at hout; exact nomatch hout
      | ok b =>
        rw [h2] at hout
        simp only at hout
        cases h3 : oneCubeWith TimedField.name "precipitation".toList cubes with
        | error e => rw [h3] at hout; exact nomatch hout
        | ok d =>
          rcases List.mem_cons.1 hw with rfl | hw
          · exact one _ _ h1
          · rcases List.mem_cons.1 hw with rfl | hw
            · exact one _ _ h2
            · rw [List.mem_singleton.1 hw]; exact one _ _ h3

/-- Two cubes with `rain` in the name. -/
example : ¬ ∃! k, k < 2 ∧ ∃ c, ["rain_a".toList, "rain_b".toList][k]? = some c ∧ "rain".toList <:+: c := by
  rintro ⟨k, _, hu⟩
  have h0 := hu 0 ⟨by norm_num, _, rfl, (hasPart_iff _ _).1 (by decide +kernel)⟩
  have h1 := hu 1 ⟨by norm_num, _, rfl, (hasPart_iff _ _).1 (by decide +kernel)⟩
  omega

/-- **C241** (names).  The snow part is named after the precipitation with `precipitation` replaced by `snowfall`; the rain part with
`rainfall` instead and, if the name holds `lwe_`, without that. -/
theorem C241_names {X T : Type} [DecidableEq X] (outputIsRain : Bool) (n : ℕ) (cubes : List (TimedField X T)) (out : List Char × StdUnit × List ℚ)
    (h : snowSplitProcess outputIsRain n cubes = .ok out) : ∃ precip ∈ cubes, "precipitation".toList <:+: precip.name ∧ out.2.1 = precip.unit ∧
      ∀ p s : List Char, precip.name = p ++ "precipitation".toList ++ s →
        (∀ a b, precip.name = a ++ "precipitation".toList ++ b → a = p) →
        (outputIsRain = false → out.1 = p ++ "snowfall".toList ++ s) ∧
        (outputIsRain = true → ¬ "lwe_".toList <:+: p ++ "rainfall".toList ++ s → out.1 = p ++ "rainfall".toList ++ s) ∧
        (outputIsRain = true → ∀ a b, p ++ "rainfall".toList ++ s = a ++ "lwe_".toList ++ b →
          (∀ c d, p ++ "rainfall".toList ++ s = c ++ "lwe_".toList ++ d → c = a) → out.1 = a ++ b) := by
  unfold snowSplitProcess at h
  simp only [bind, Except.bind] at h
  cases h1 : oneCubeWith TimedField.name "rain".toList cubes with
  | error e => rw [h1] at h; exact nomatch h
  | ok a =>
    rw [h1] at h
    simp only at h
    cases h2 : oneCubeWith TimedField.name "snow".toList cubes with
    | error e => rw [h2] at h; exact nomatch h
    | ok b =>
      rw [h2] at h
      simp only at h
      cases h3 : oneCubeWith TimedField.name "precipitation".toList cubes with
      | error e => rw [h3] at h; exact nomatch h
      | ok q =>
        rw [h3] at h
        simp only at h
        have hq : q ∈ cubes ∧ hasPart "precipitation".toList q.name = true := by
          unfold oneCubeWith at h3
          generalize hg : cubes.filter (fun c => hasPart "precipitation".toList c.name) = l at h3
          match l, h3 with
          | [d], h3 =>
            cases h3
            have : q ∈ cubes.filter (fun c => hasPart "precipitation".toList c.name) := by rw [hg]; exact List.mem_singleton.2 rfl
            exact List.mem_filter.1 this
          | [], h3 => exact nomatch h3
          | _ :: _ :: _, h3 => exact nomatch h3
        cases h4 : spatialMatch ([a, b, q].map fun c => c.place) with
        | error e => rw [h4] at h; exact nomatch h
        | ok same =>
          rw [h4] at h
          simp only at h
          by_cases hs : ¬ same = true
          · rw [if_pos hs] at h; exact nomatch h
          · rw [if_neg hs] at h
            cases h5 : snowSplit outputIsRain ((List.range n).map fun i => (a.data i, b.data i, q.data i)) with
            | error e => rw [h5] at h; exact nomatch h
            | ok vals =>
              rw [h5] at h
              simp only at h
              by_cases hu : a.unit ≠ b.unit
              · rw [if_pos hu] at h; exact nomatch h
              · rw [if_neg hu] at h
                cases h
                refine ⟨q, hq.1, (hasPart_iff _ _).1 hq.2, rfl, fun p s hps hone => ?_⟩
                have rep : ∀ new, replaceText "precipitation".toList new q.name = p ++ new ++ s := by
                  intro new
                  rw [hps]
                  exact replaceText_once _ new p s (by decide) (fun a b e => hone a b (hps.trans e))
                refine ⟨fun ho => ?_, fun ho hn => ?_, fun ho a b hab hone' => ?_⟩
                · subst ho; exact rep _
                · subst ho
                  show replaceText "lwe_".toList [] (replaceText "precipitation".toList "rainfall".toList q.name) = _
                  rw [rep]
                  exact (if_neg (by decide)).trans (replaceGo_none _ _ _ (by decide) hn)
                · subst ho
                  show replaceText "lwe_".toList [] (replaceText "precipitation".toList "rainfall".toList q.name) = _
                  rw [rep, hab, replaceText_once _ _ _ _ (by decide) (fun c d e => hone' c d (hab.trans e)), List.append_nil]

/-- The usual name. -/
example : splitName true "lwe_precipitation_rate".toList = "rainfall_rate".toList ∧
    splitName false "lwe_precipitation_rate".toList = "lwe_snowfall_rate".toList := by decide +kernel

end Improver
