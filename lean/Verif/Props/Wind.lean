import Verif.Model.Wind
import Mathlib.Tactic.LinearCombination

/-!
C111 - C113: the gust diagnostic, wind components and the vertical updraught.
-/

namespace Improver

/-! ### C111: gusts -/

theorem extractPercentile_ok {c : GustCube} {p : ℚ} {i : ℕ} {n : String} (h : extractPercentile c p = .ok (i, n)) :
    c.percentiles[i]? = some p ∧ c.coords.filter (subStr "percentile") = [n] := by
  unfold extractPercentile at h
  unfold findPercentileName at h
  rcases hf : c.coords.filter (subStr "percentile") with _ | ⟨a, _ | ⟨b, l⟩⟩
  · rw [hf] at h; exact nomatch h
  · rw [hf] at h
    simp only at h
    by_cases hp : p ∈ c.percentiles
    · rw [if_pos hp] at h
      cases h
      exact ⟨List.getElem?_idxOf hp, rfl⟩
    · rw [if_neg hp] at h; exact nomatch h
  · rw [hf] at h; exact nomatch h

theorem windGust_ok {pg pw : ℚ} {txt : String} {g w : GustCube} {d : ℕ → ℕ → ℚ} {label : String} {coords : List String}
    (h : windGust pg pw txt g w = .ok (d, label, coords)) :
    ∃ ig iw n, extractPercentile g pg = .ok (ig, n) ∧ extractPercentile w pw = .ok (iw, n) ∧ gustTimesOk g w = true
      ∧ gustData g w ig iw ((g.times.getD []).length) ((w.times.getD []).length) = .ok d
      ∧ label = gustLabel pg pw txt ∧ coords = g.coords.filter (fun c => decide (c ≠ n)) := by
  unfold windGust at h
  rcases h1 : extractPercentile g pg with e | ⟨ig, ng⟩
  · rw [h1] at h; exact nomatch h
  rcases h2 : extractPercentile w pw with e | ⟨iw, nw⟩
  · rw [h1, h2] at h; exact nomatch h
  rw [h1, h2] at h
  simp only at h
  by_cases hn : ng ≠ nw
  · rw [if_pos hn] at h; exact nomatch h
  rw [if_neg hn] at h
  have hn' : ng = nw := not_not.mp hn
  subst hn'
  by_cases ht : gustTimesOk g w = false
  · rw [if_pos ht] at h; exact nomatch h
  rw [if_neg ht] at h
  rcases h3 : gustData g w ig iw ((g.times.getD []).length) ((w.times.getD []).length) with e | d'
  · rw [h3] at h; exact nomatch h
  · rw [h3] at h
    cases h
    exact ⟨ig, iw, ng, rfl, rfl, by simpa using ht, h3, rfl, rfl⟩

/-- C111: for cubes with as many times, the result at every time and point is the larger of the gust at the requested gust percentile and the wind
speed at the requested wind speed percentile. -/
theorem C111_maximum {pg pw : ℚ} {txt : String} {g w : GustCube} {d : ℕ → ℕ → ℚ} {label : String} {coords : List String}
    (h : windGust pg pw txt g w = .ok (d, label, coords)) {tg tw : List ℚ} (hg : g.times = some tg) (hw : w.times = some tw)
    (hl : tg.length = tw.length) :
    ∃ ig iw, g.percentiles[ig]? = some pg ∧ w.percentiles[iw]? = some pw
      ∧ ∀ t k, g.data ig t k ≤ d t k ∧ w.data iw t k ≤ d t k ∧ (d t k = g.data ig t k ∨ d t k = w.data iw t k) := by
  obtain ⟨ig, iw, n, h1, h2, -, h4, -, -⟩ := windGust_ok h
  refine ⟨ig, iw, (extractPercentile_ok h1).1, (extractPercentile_ok h2).1, fun t k => ?_⟩
  unfold gustData at h4
  rw [hg, hw] at h4
  rw [if_pos (by simpa using hl)] at h4
  cases h4
  refine ⟨le_max_left _ _, le_max_right _ _, ?_⟩
  rcases le_total (g.data ig t k) (w.data iw t k) with hle | hle
  · right; exact max_eq_right hle
  · left; exact max_eq_left hle

/-- C111: a result is given for cubes of as many times only when every time is the same in both, or every wind speed time is within the period of the
gust. -/
theorem C111_times {pg pw : ℚ} {txt : String} {g w : GustCube} {r : (ℕ → ℕ → ℚ) × String × List String}
    (h : windGust pg pw txt g w = .ok r) :
    ∃ tg tw, g.times = some tg ∧ w.times = some tw
      ∧ (tg.length = tw.length → (∀ b, g.bounds = some b → b.length = tg.length) →
          tg = tw ∨ ∃ b, g.bounds = some b ∧ ∀ (i : ℕ) p lu, tw[i]? = some p → b[i]? = some lu → lu.1 ≤ p ∧ p ≤ lu.2) := by
  obtain ⟨d, label, coords⟩ := r
  obtain ⟨ig, iw, n, -, -, h3, -, -, -⟩ := windGust_ok h
  unfold gustTimesOk at h3
  rcases hg : g.times with _ | tg
  · rw [hg] at h3; exact nomatch h3
  rcases hw : w.times with _ | tw
  · rw [hg, hw] at h3; exact nomatch h3
  rw [hg, hw] at h3
  refine ⟨tg, tw, rfl, rfl, fun hl hb => ?_⟩
  simp only at h3
  by_cases hz : (List.zipWith (fun a b => decide (a = b)) tg tw).all id = true
  · left
    apply List.ext_getElem hl
    intro i hi hi'
    rw [List.all_eq_true] at hz
    have := hz (decide (tg[i] = tw[i])) (by
      rw [List.mem_iff_getElem]
      exact ⟨i, by simp [hi, hi'], by simp⟩)
    simpa using this
  · right
    rw [if_neg hz] at h3
    rcases hbd : g.bounds with _ | b
    · rw [hbd] at h3; exact nomatch h3
    rw [hbd] at h3
    refine ⟨b, rfl, fun i p lu hp hlu => ?_⟩
    simp only [List.all_eq_true] at h3
    obtain ⟨hi, hp'⟩ := List.getElem?_eq_some_iff.mp hp
    obtain ⟨hj, hlu'⟩ := List.getElem?_eq_some_iff.mp hlu
    have := h3 (decide (b[i].1 ≤ tw[i]) && decide (tw[i] ≤ b[i].2)) (by
      rw [List.mem_iff_getElem]
      exact ⟨i, by simp [hi, hj], by simp⟩)
    rw [hp', hlu'] at this
    simpa using this

/-- C111: conversely, cubes with one percentile coordinate of the same name, the percentiles asked for and the same times are accepted. -/
theorem C111_accepts (pg pw : ℚ) (txt : String) (g w : GustCube) (n : String) (t : List ℚ)
    (hg : g.coords.filter (subStr "percentile") = [n]) (hw : w.coords.filter (subStr "percentile") = [n])
    (hpg : pg ∈ g.percentiles) (hpw : pw ∈ w.percentiles) (htg : g.times = some t) (htw : w.times = some t) :
    ∃ r, windGust pg pw txt g w = .ok r := by
  have e1 : extractPercentile g pg = .ok (g.percentiles.idxOf pg, n) := by
    unfold extractPercentile findPercentileName
    rw [hg]
    simp only
    rw [if_pos hpg]
  have e2 : extractPercentile w pw = .ok (w.percentiles.idxOf pw, n) := by
    unfold extractPercentile findPercentileName
    rw [hw]
    simp only
    rw [if_pos hpw]
  have e3 : gustTimesOk g w = true := by
    unfold gustTimesOk
    rw [htg, htw]
    simp only
    rw [if_pos]
    rw [List.all_eq_true]
    intro b hb
    obtain ⟨i, hi, rfl⟩ := List.mem_iff_getElem.mp hb
    simp
  unfold windGust
  rw [e1, e2, htg, htw]
  simp only [ne_eq, not_true_eq_false, if_false, e3, Bool.true_eq_false, gustData, if_true]
  exact ⟨_, rfl⟩

/-- C111: an absent percentile, or a cube without or with several percentile coordinates, is refused. -/
theorem C111_refuses (pg pw : ℚ) (txt : String) (g w : GustCube)
    (h : pg ∉ g.percentiles ∨ pw ∉ w.percentiles ∨ g.times = none ∨ w.times = none
      ∨ g.coords.filter (subStr "percentile") ≠ w.coords.filter (subStr "percentile")
      ∨ (g.coords.filter (subStr "percentile")).length ≠ 1) :
    ∃ e, windGust pg pw txt g w = .error e := by
  rcases hr : windGust pg pw txt g w with e | ⟨d, label, coords⟩
  · exact ⟨e, rfl⟩
  · exfalso
    obtain ⟨ig, iw, n, h1, h2, h3, -, -, -⟩ := windGust_ok hr
    obtain ⟨a1, a2⟩ := extractPercentile_ok h1
    obtain ⟨b1, b2⟩ := extractPercentile_ok h2
    unfold gustTimesOk at h3
    rcases h with h | h | h | h | h | h
    · exact h (List.mem_of_getElem? a1)
    · exact h (List.mem_of_getElem? b1)
    · rw [h] at h3; exact nomatch h3
    · rw [h] at h3
      cases hg : g.times <;> rw [hg] at h3 <;> exact nomatch h3
    · exact h (a2.trans b2.symm)
    · rw [a2] at h; exact h rfl

/-- C111: the label names the two documented products and them only; the percentile coordinate is gone. -/
theorem C111_metadata {pg pw : ℚ} {txt : String} {g w : GustCube} {d : ℕ → ℕ → ℚ} {label : String} {coords : List String}
    (h : windGust pg pw txt g w = .ok (d, label, coords)) (ht : txt ≠ "Typical gusts" ∧ txt ≠ "Extreme gusts") :
    (label = "Typical gusts" ↔ pg = 50 ∧ pw = 95) ∧ (label = "Extreme gusts" ↔ pg = 95 ∧ pw = 100)
      ∧ (∀ c ∈ coords, subStr "percentile" c = false) ∧ ∀ c ∈ g.coords, subStr "percentile" c = false → c ∈ coords := by
  obtain ⟨ig, iw, n, h1, h2, h3, -, h5, h6⟩ := windGust_ok h
  obtain ⟨-, hn⟩ := extractPercentile_ok h1
  have hnp : subStr "percentile" n = true := (List.mem_filter.mp (by rw [hn]; simp : n ∈ g.coords.filter (subStr "percentile"))).2
  refine ⟨?_, ?_, ?_, ?_⟩
  · rw [h5]; unfold gustLabel
    by_cases c1 : pg = 50 ∧ pw = 95
    · simp [c1]
    · rw [if_neg c1]
      by_cases c2 : pg = 95 ∧ pw = 100
      · rw [if_pos c2]; simp [c1]
      · rw [if_neg c2]; exact ⟨fun hh => absurd hh ht.1, fun hh => absurd hh c1⟩
  · rw [h5]; unfold gustLabel
    by_cases c1 : pg = 50 ∧ pw = 95
    · obtain ⟨rfl, rfl⟩ := c1
      simp only [and_self, if_true]
      refine ⟨fun hh => absurd hh (by decide), fun hh => absurd hh.1 (by norm_num)⟩
    · rw [if_neg c1]
      by_cases c2 : pg = 95 ∧ pw = 100
      · rw [if_pos c2]; simp [c2]
      · rw [if_neg c2]; exact ⟨fun hh => absurd hh ht.2, fun hh => absurd hh c2⟩
  · intro c hc
    rw [h6] at hc
    obtain ⟨c1, c2⟩ := List.mem_filter.mp hc
    by_contra hp
    have : c ∈ g.coords.filter (subStr "percentile") := List.mem_filter.mpr ⟨c1, by simpa using hp⟩
    rw [hn] at this
    simp only [List.mem_singleton] at this
    simp [this] at c2
  · intro c hc hp
    rw [h6]
    refine List.mem_filter.mpr ⟨hc, ?_⟩
    simp only [ne_eq, decide_not, Bool.not_eq_true', decide_eq_false_iff_not]
    rintro rfl
    rw [hnp] at hp
    exact nomatch hp

/-- An hourly gust cube with three times, and a wind speed cube valid at the first of them only. -/
def Spec.gust3 : GustCube := ⟨["percentile", "time"], [50, 95], some [1, 2, 3], some [(0, 1), (1, 2), (2, 3)], fun _ t _ => t⟩

/-- See `Spec.gust3`. -/
def Spec.speed1 : GustCube := ⟨["percentile", "time"], [95], some [1], none, fun _ _ _ => 10⟩

/-- C111, finding: the check of the times stops at the shorter list: the wind speed of one time is accepted for three gust times, two of which are
not its own, and raises all of them. -/
theorem C111_times_refuted : ∃ d label coords, windGust 50 95 "other" Spec.gust3 Spec.speed1 = .ok (d, label, coords)
    ∧ d 0 0 = 10 ∧ d 1 0 = 10 ∧ d 2 0 = 10 := by
  have hs : subStr "percentile" "percentile" = true := by decide +kernel
  have hs' : subStr "percentile" "time" = false := by decide +kernel
  refine ⟨fun t k => max (Spec.gust3.data 0 t k) (Spec.speed1.data 0 0 k), "Typical gusts", ["time"], ?_, ?_, ?_, ?_⟩
  · simp [windGust, extractPercentile, findPercentileName, Spec.gust3, Spec.speed1, List.filter, hs, hs', gustTimesOk, gustData, gustLabel, List.idxOf,
      List.findIdx_cons]
  · simp [Spec.gust3, Spec.speed1]
  · simp [Spec.gust3, Spec.speed1]
  · simp [Spec.gust3, Spec.speed1]; norm_num

/-! ### C112: wind components -/

/-- The angle in radians of a direction cube. -/
noncomputable def Spec.radians (c : DirCube) (y x : ℕ) : ℝ := if c.inDegrees then c.data y x * Real.pi / 180 else c.data y x

theorem dirAdjust_data (c : DirCube) (adj : ℕ → ℕ → ℝ) (y x : ℕ) :
    (dirAdjust c adj).data y x = Spec.radians c y x + adj y x + (if subStr "wind_from_direction" c.name then Real.pi else 0) := by
  unfold dirAdjust dirToRadians Spec.radians
  by_cases h : c.inDegrees = true
  · simp only [if_pos h]; split <;> simp
  · simp only [if_neg h]; split <;> simp

/-- C112: the components have the speed of the wind. -/
theorem C112_speed (speed : ℕ → ℕ → ℝ) (c : DirCube) (adj : ℕ → ℕ → ℝ) (y x : ℕ) :
    ((resolveWind speed c adj).1 y x).1 ^ 2 + ((resolveWind speed c adj).1 y x).2 ^ 2 = speed y x ^ 2 := by
  unfold resolveWind
  simp only
  have := Real.sin_sq_add_cos_sq ((dirAdjust c adj).data y x)
  linear_combination speed y x ^ 2 * this

/-- C112: a wind *from* direction `θ` blows to the opposite direction: `u = -s sin(θ + adj)`, `v = -s cos(θ + adj)`; a direction that is not a
"from" direction is used as it is. -/
theorem C112_direction {speedName : String} {matched : Bool} {speed : ℕ → ℕ → ℝ} {c : DirCube} {adj : ℕ → ℕ → ℝ} {uv : ℕ → ℕ → ℝ × ℝ} {c' : DirCube}
    (h : resolveProcess speedName matched speed c adj = .ok (uv, c')) (y x : ℕ) :
    (subStr "wind_from_direction" c.name = true →
        uv y x = (-(speed y x * Real.sin (Spec.radians c y x + adj y x)), -(speed y x * Real.cos (Spec.radians c y x + adj y x))))
      ∧ (subStr "wind_from_direction" c.name = false →
        uv y x = (speed y x * Real.sin (Spec.radians c y x + adj y x), speed y x * Real.cos (Spec.radians c y x + adj y x))) := by
  unfold resolveProcess at h
  split at h
  · exact nomatch h
  split at h
  · exact nomatch h
  split at h
  · exact nomatch h
  cases h
  constructor
  · intro hn
    simp [dirAdjust_data, hn, Real.sin_add_pi, Real.cos_add_pi]
  · intro hn
    simp [dirAdjust_data, hn]

/-- C112: a result is given exactly for a speed and a direction by name, on the same coordinates. -/
theorem C112_accepts (speedName : String) (matched : Bool) (speed : ℕ → ℕ → ℝ) (c : DirCube) (adj : ℕ → ℕ → ℝ) :
    (∃ r, resolveProcess speedName matched speed c adj = .ok r)
      ↔ "wind_speed".toList <:+: speedName.toList ∧ "wind".toList <:+: c.name.toList ∧ "direction".toList <:+: c.name.toList ∧ matched = true := by
  have key : ∀ sub name, (sub.toList <:+: name.toList) ↔ subStr sub name = true := fun sub name => by unfold subStr; rw [decide_eq_true_iff]
  rw [key, key, key]
  unfold resolveProcess
  generalize subStr "wind_speed" speedName = a
  generalize subStr "wind" c.name = b
  generalize subStr "direction" c.name = d
  cases a <;> cases b <;> cases d <;> cases matched <;> simp

/-- A northerly wind of 5 on a grid aligned with true north. -/
def Spec.northerly : DirCube := ⟨"wind_from_direction", true, fun _ _ => 0⟩

/-- C112, finding: the direction cube of the caller is changed in place (units, adjustment and half a turn), so that resolving the same cubes a second
time gives the opposite wind. -/
theorem C112_repeat_refuted : ∃ uv c' uv2 c'', resolveProcess "wind_speed" true (fun _ _ => 5) Spec.northerly (fun _ _ => 0) = .ok (uv, c')
    ∧ resolveProcess "wind_speed" true (fun _ _ => 5) c' (fun _ _ => 0) = .ok (uv2, c'')
    ∧ uv 0 0 = (0, -5) ∧ uv2 0 0 = (0, 5) := by
  have s1 : subStr "wind_speed" "wind_speed" = true := by decide +kernel
  have s2 : subStr "wind" "wind_from_direction" = true := by decide +kernel
  have s3 : subStr "direction" "wind_from_direction" = true := by decide +kernel
  have s4 : subStr "wind_from_direction" "wind_from_direction" = true := by decide +kernel
  refine ⟨_, _, _, _, rfl, rfl, ?_, ?_⟩ <;>
  simp [dirAdjust, dirToRadians, Spec.northerly, s4, Real.cos_add_pi]

/-- C112: what the caller is left with: the direction in radians, adjusted, and turned by half a turn for a "from" direction. -/
theorem C112_left_behind (speed : ℕ → ℕ → ℝ) (c : DirCube) (adj : ℕ → ℕ → ℝ) (y x : ℕ) :
    (resolveWind speed c adj).2.inDegrees = false
      ∧ (resolveWind speed c adj).2.data y x
          = Spec.radians c y x + adj y x + (if subStr "wind_from_direction" c.name then Real.pi else 0) := by
  refine ⟨?_, dirAdjust_data c adj y x⟩
  unfold resolveWind dirAdjust dirToRadians
  by_cases h : c.inDegrees = true
  · simp [h]
  · simp [h]

/-! ### C113: vertical updraught -/

/-- C113: below both minima there is no updraught; a part below its minimum contributes nothing. -/
theorem C113_minima (cape p : ℝ) :
    (cape < 10 → p < 5 → updraught cape p = 0) ∧ (cape < 10 → 5 ≤ p → updraught cape p = 7.33 * (p / 28.7) ^ (0.22 : ℝ))
      ∧ (10 ≤ cape → p < 5 → updraught cape p = 0.25 * Real.sqrt (2 * cape))
      ∧ (10 ≤ cape → 5 ≤ p → updraught cape p = 0.25 * Real.sqrt (2 * cape) + 7.33 * (p / 28.7) ^ (0.22 : ℝ)) := by
  unfold updraught updraughtCape updraughtPrecip
  have e : ∀ c : ℝ, c ^ (0.5 : ℝ) = Real.sqrt c := by
    intro c
    rw [Real.sqrt_eq_rpow]
    norm_num
  refine ⟨fun h1 h2 => ?_, fun h1 h2 => ?_, fun h1 h2 => ?_, fun h1 h2 => ?_⟩
  · rw [if_pos h1, if_pos h2]; simp
  · rw [if_pos h1, if_neg (not_lt.mpr h2)]; simp
  · rw [if_neg (not_lt.mpr h1), if_pos h2, e]; simp
  · rw [if_neg (not_lt.mpr h1), if_neg (not_lt.mpr h2), e]

theorem updraughtCape_mono {a b : ℝ} (h : a ≤ b) : updraughtCape a ≤ updraughtCape b := by
  unfold updraughtCape
  by_cases ha : a < 10
  · rw [if_pos ha]
    by_cases hb : b < 10
    · rw [if_pos hb]
    · rw [if_neg hb]; push Not at hb; positivity
  · rw [if_neg ha, if_neg (by push Not at ha ⊢; linarith)]
    push Not at ha
    have : (2 * a) ^ (0.5 : ℝ) ≤ (2 * b) ^ (0.5 : ℝ) := Real.rpow_le_rpow (by linarith) (by linarith) (by norm_num)
    linarith

theorem updraughtPrecip_mono {a b : ℝ} (h : a ≤ b) : updraughtPrecip a ≤ updraughtPrecip b := by
  unfold updraughtPrecip
  by_cases ha : a < 5
  · rw [if_pos ha]
    by_cases hb : b < 5
    · rw [if_pos hb]
    · rw [if_neg hb]; push Not at hb; positivity
  · rw [if_neg ha, if_neg (by push Not at ha ⊢; linarith)]
    push Not at ha
    have : (a / 28.7) ^ (0.22 : ℝ) ≤ (b / 28.7) ^ (0.22 : ℝ) := by
      apply Real.rpow_le_rpow (by positivity) _ (by norm_num)
      exact div_le_div_of_nonneg_right h (by norm_num)
    linarith

/-- C113: the updraught is never negative, whatever the sign of the inputs. -/
theorem C113_nonneg (cape p : ℝ) : 0 ≤ updraught cape p := by
  have h1 : updraughtCape (min cape 0) ≤ updraughtCape cape := updraughtCape_mono (min_le_left _ _)
  have h2 : updraughtPrecip (min p 0) ≤ updraughtPrecip p := updraughtPrecip_mono (min_le_left _ _)
  have e1 : updraughtCape (min cape 0) = 0 := if_pos (by have := min_le_right cape 0; linarith)
  have e2 : updraughtPrecip (min p 0) = 0 := if_pos (by have := min_le_right p 0; linarith)
  unfold updraught
  linarith

/-- C113: more available energy or more rain never weakens the updraught. -/
theorem C113_monotone {cape cape' p p' : ℝ} (h1 : cape ≤ cape') (h2 : p ≤ p') : updraught cape p ≤ updraught cape' p' :=
  add_le_add (updraughtCape_mono h1) (updraughtPrecip_mono h2)

/-- C113: more available energy strengthens the updraught strictly once it reaches the minimum, and likewise for rain. -/
theorem C113_strict {a b : ℝ} (h : a < b) : (10 ≤ b → ∀ p, updraught a p < updraught b p) ∧ (5 ≤ b → ∀ cape, updraught cape a < updraught cape b) := by
  constructor
  · intro hb p
    unfold updraught
    have : updraughtCape a < updraughtCape b := by
      unfold updraughtCape
      rw [if_neg (not_lt.mpr hb)]
      by_cases ha : a < 10
      · rw [if_pos ha]; positivity
      · rw [if_neg ha]
        push Not at ha
        have : (2 * a) ^ (0.5 : ℝ) < (2 * b) ^ (0.5 : ℝ) := Real.rpow_lt_rpow (by linarith) (by linarith) (by norm_num)
        linarith
    linarith
  · intro hb cape
    unfold updraught
    have : updraughtPrecip a < updraughtPrecip b := by
      unfold updraughtPrecip
      rw [if_neg (not_lt.mpr hb)]
      by_cases ha : a < 5
      · rw [if_pos ha]; positivity
      · rw [if_neg ha]
        push Not at ha
        have : (a / 28.7) ^ (0.22 : ℝ) < (b / 28.7) ^ (0.22 : ℝ) := by
          apply Real.rpow_lt_rpow (by positivity) _ (by norm_num)
          exact div_lt_div_of_pos_right h (by norm_num)
        linarith
    linarith

/-- What the inputs must be: two cubes of the two names on one grid from one forecast, an instantaneous CAPE valid at the start of the period of the
rain rate. -/
structure Spec.UpInputs (idAttr : Bool) (cubes : List UpCube) (cape precip : UpCube) : Prop where
  two : cubes = [cape, precip] ∨ cubes = [precip, cape]
  grid : cape.grid = precip.grid
  instant : cape.bounds = none
  frt : cape.frt = precip.frt
  start : ∃ u, precip.bounds = some (cape.time, u)
  units : cape.dim = "J kg-1" ∧ precip.dim = "mm h-1"
  model : idAttr = true → ∃ m, cape.model = some m ∧ precip.model = some m

theorem upTimesBad_false {a b : UpCube} : upTimesBad a b = false ↔ a.bounds = none ∧ a.frt = b.frt ∧ ∃ u, b.bounds = some (a.time, u) := by
  unfold upTimesBad
  cases ha : a.bounds with
  | some p => simp
  | none =>
    by_cases hf : a.frt = b.frt
    · cases hb : b.bounds with
      | none => simp [hf]
      | some p =>
        obtain ⟨l, u⟩ := p
        simp [hf]
        exact eq_comm
    · simp [hf]

/-- C113: cubes of the two names are accepted exactly when they satisfy the specification, and in either order. -/
theorem C113_inputs (idAttr : Bool) (a b : UpCube) (ha : a.name = "atmosphere_convective_available_potential_energy")
    (hb : b.name = "lwe_precipitation_rate_max") :
    (upParse idAttr [a, b] = .ok (a, b) ↔ Spec.UpInputs idAttr [a, b] a b)
      ∧ (upParse idAttr [b, a] = .ok (a, b) ↔ Spec.UpInputs idAttr [b, a] a b) := by
  have u1 : upUnpack [a, b] = .ok (a, b) := by simp [upUnpack, List.filter, ha, hb]
  have u2 : upUnpack [b, a] = .ok (a, b) := by simp [upUnpack, List.filter, ha, hb]
  have key : ∀ cubes, (cubes = [a, b] ∨ cubes = [b, a]) → upUnpack cubes = .ok (a, b) →
      (upParse idAttr cubes = .ok (a, b) ↔ Spec.UpInputs idAttr cubes a b) := by
    intro cubes hc hu
    have hlen : ¬ 2 < cubes.length := by rcases hc with rfl | rfl <;> simp
    have hgrid : cubes.any (fun c => decide (c.grid ≠ a.grid)) = true ↔ b.grid ≠ a.grid := by
      rcases hc with rfl | rfl <;> simp
    unfold upParse
    rw [hu]
    simp only
    rw [if_neg hlen]
    by_cases hg : b.grid ≠ a.grid
    · rw [if_pos (hgrid.mpr hg)]
      exact ⟨fun h => (nomatch h), fun h => absurd h.grid.symm hg⟩
    · rw [if_neg (fun h => hg (hgrid.mp h))]
      push Not at hg
      by_cases ht : upTimesBad a b = true
      · rw [if_pos ht]
        refine ⟨fun h => (nomatch h), fun h => ?_⟩
        have := upTimesBad_false.mpr ⟨h.instant, h.frt, h.start⟩
        rw [ht] at this
        exact nomatch this
      · rw [if_neg ht]
        obtain ⟨t1, t2, t3⟩ := upTimesBad_false.mp (by simpa using ht)
        by_cases hd : a.dim ≠ "J kg-1" ∨ b.dim ≠ "mm h-1"
        · rw [if_pos hd]
          refine ⟨fun h => (nomatch h), fun h => ?_⟩
          rcases hd with hd | hd
          · exact absurd h.units.1 hd
          · exact absurd h.units.2 hd
        · rw [if_neg hd]
          push Not at hd
          cases idAttr with
          | false => exact ⟨fun _ => ⟨hc, hg.symm, t1, t2, t3, hd, fun h => nomatch h⟩, fun _ => rfl⟩
          | true =>
            rw [if_pos rfl]
            cases hma : a.model with
            | none => exact ⟨fun h => (nomatch h), fun h => by obtain ⟨m, h1, -⟩ := h.model rfl; rw [hma] at h1; exact nomatch h1⟩
            | some m =>
              cases hmb : b.model with
              | none => exact ⟨fun h => (nomatch h), fun h => by obtain ⟨m, -, h1⟩ := h.model rfl; rw [hmb] at h1; exact nomatch h1⟩
              | some m' =>
                simp only
                by_cases hmm : m ≠ m'
                · rw [if_pos hmm]
                  refine ⟨fun h => (nomatch h), fun h => ?_⟩
                  obtain ⟨m'', h1, h2⟩ := h.model rfl
                  rw [hma] at h1
                  rw [hmb] at h2
                  exact absurd ((Option.some.inj h1).trans (Option.some.inj h2).symm) hmm
                · rw [if_neg hmm]
                  push Not at hmm
                  exact ⟨fun _ => ⟨hc, hg.symm, t1, t2, t3, hd, fun _ => ⟨m, hma, by rw [hmb, hmm]⟩⟩, fun _ => rfl⟩
  exact ⟨key _ (Or.inl rfl) u1, key _ (Or.inr rfl) u2⟩

/-- C113: anything else than two cubes is refused. -/
theorem C113_two_cubes (idAttr : Bool) (cubes : List UpCube) (h : cubes.length ≠ 2) : ∃ e, upParse idAttr cubes = .error e := by
  unfold upParse
  cases hu : upUnpack cubes with
  | error e => exact ⟨e, rfl⟩
  | ok ab =>
    obtain ⟨a, b⟩ := ab
    have hl : 2 ≤ cubes.length := by
      unfold upUnpack at hu
      have hlen : (cubes.filter (fun c => c.name == "atmosphere_convective_available_potential_energy")
        ++ cubes.filter (fun c => c.name == "lwe_precipitation_rate_max")).length ≤ cubes.length := by
        clear hu h
        induction cubes with
        | nil => simp
        | cons c l ih =>
          simp only [List.filter_cons, List.length_append, List.length_cons] at ih ⊢
          by_cases h1 : c.name = "atmosphere_convective_available_potential_energy"
          · have h2 : (c.name == "lwe_precipitation_rate_max") = false := by rw [h1]; decide
            simp [h1]; omega
          · simp only [beq_iff_eq, h1, if_false]
            split
            · simp; omega
            · omega
      split at hu
      · rename_i heq
        rw [heq] at hlen
        simpa using hlen
      · exact nomatch hu
    simp only
    rw [if_pos (by omega)]
    exact ⟨_, rfl⟩

theorem C113_example : Spec.UpInputs true
    [⟨"lwe_precipitation_rate_max", "uk", 7200, some (3600, 7200), 0, some "uk_ens", "mm h-1"⟩,
      ⟨"atmosphere_convective_available_potential_energy", "uk", 3600, none, 0, some "uk_ens", "J kg-1"⟩]
    ⟨"atmosphere_convective_available_potential_energy", "uk", 3600, none, 0, some "uk_ens", "J kg-1"⟩
    ⟨"lwe_precipitation_rate_max", "uk", 7200, some (3600, 7200), 0, some "uk_ens", "mm h-1"⟩ :=
  ⟨Or.inr rfl, rfl, rfl, rfl, ⟨7200, rfl⟩, ⟨rfl, rfl⟩, fun _ => ⟨_, rfl, rfl⟩⟩

end Improver
