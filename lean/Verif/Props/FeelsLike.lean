import Verif.Model.FeelsLike
import Verif.Props.Psychro

/-!
Properties of the feels-like temperature (C156), the phase of precipitation at the surface (C157), the masks of the
significant phase and the UV index (C158).
-/

namespace Improver

/-! ## Feels-like temperature -/

/-- The wind chill is used below 10 °C, the apparent temperature above 20 °C and the linear blend of the two in between, the
three formulae agreeing at both ends. -/
theorem C156_blend (t wind rh p : ℝ) :
    (t ≤ 10 → feelsLike t wind rh p = windChill t (3.6 * wind)) ∧
    (20 ≤ t → feelsLike t wind rh p = apparentT t wind rh p) ∧
    (10 ≤ t → t ≤ 20 →
      feelsLike t wind rh p = (t - 10) / 10 * apparentT t wind rh p + (20 - t) / 10 * windChill t (3.6 * wind)) := by
  unfold feelsLike feelsLikeOf
  dsimp only
  rw [mul_comm wind 3.6]
  refine ⟨fun h => ?_, fun h => ?_, fun h1 h2 => ?_⟩
  · rw [if_neg (by linarith : ¬ t > 20)]
    rcases h.lt_or_eq with h | h
    · rw [if_neg (by intro hc; linarith [hc.1]), if_pos h]
    · rw [if_pos (by subst h; norm_num), h]
      ring
  · rcases h.lt_or_eq with h | h
    · rw [if_pos h]
    · rw [if_neg (by linarith : ¬ t > 20), if_pos ⟨by linarith, by linarith⟩, ← h]
      ring
  · rw [if_neg (by linarith : ¬ t > 20), if_pos ⟨h1, h2⟩]
    ring

/-- The feels-like temperature never leaves the interval between the wind chill and the apparent temperature. -/
theorem C156_between (t wind rh p : ℝ) :
    min (windChill t (3.6 * wind)) (apparentT t wind rh p) ≤ feelsLike t wind rh p ∧
    feelsLike t wind rh p ≤ max (windChill t (3.6 * wind)) (apparentT t wind rh p) := by
  obtain ⟨h1, h2, h3⟩ := C156_blend t wind rh p
  rcases le_total t 10 with h | h
  · rw [h1 h]; exact ⟨min_le_left _ _, le_max_left _ _⟩
  rcases le_total 20 t with h' | h'
  · rw [h2 h']; exact ⟨min_le_right _ _, le_max_right _ _⟩
  rw [h3 h h']
  generalize windChill t (3.6 * wind) = c
  generalize apparentT t wind rh p = a
  have ha : 0 ≤ (t - 10) / 10 := by linarith
  have hb : 0 ≤ (20 - t) / 10 := by linarith
  constructor
  · have e1 := mul_le_mul_of_nonneg_left (min_le_right c a) ha
    have e2 := mul_le_mul_of_nonneg_left (min_le_left c a) hb
    linarith
  · have e1 := mul_le_mul_of_nonneg_left (le_max_right c a) ha
    have e2 := mul_le_mul_of_nonneg_left (le_max_left c a) hb
    linarith

/-- Below 4.824 km/h the wind has no effect on the wind chill. -/
theorem C156_calm {t w : ℝ} (h : w ≤ 4.824) : windChill t w = windChill t 4.824 := by
  unfold windChill
  rw [max_eq_right h, max_self]

theorem windChill_antitone {t w1 w2 : ℝ} (ht : t ≤ 20) (h : w1 ≤ w2) : windChill t w2 ≤ windChill t w1 := by
  unfold windChill
  dsimp only
  have he : (max w1 4.824) ^ (0.16 : ℝ) ≤ (max w2 4.824) ^ (0.16 : ℝ) :=
    Real.rpow_le_rpow (le_trans (by norm_num) (le_max_right _ _)) (max_le_max h le_rfl) (by norm_num)
  generalize (max w1 4.824) ^ (0.16 : ℝ) = a at *
  generalize (max w2 4.824) ^ (0.16 : ℝ) = b at *
  nlinarith [mul_nonneg (sub_nonneg.mpr he) (by linarith : (0:ℝ) ≤ 20 - t)]

/-- More wind never feels warmer, at any temperature, humidity and pressure. -/
theorem C156_wind {t w1 w2 rh p : ℝ} (h : w1 ≤ w2) : feelsLike t w2 rh p ≤ feelsLike t w1 rh p := by
  have ha : apparentT t w2 rh p ≤ apparentT t w1 rh p := by unfold apparentT; dsimp only; linarith
  obtain ⟨h1, h2, h3⟩ := C156_blend t w1 rh p
  obtain ⟨g1, g2, g3⟩ := C156_blend t w2 rh p
  rcases le_total 20 t with h' | h'
  · rw [h2 h', g2 h']; exact ha
  have hc := windChill_antitone (w1 := 3.6 * w1) (w2 := 3.6 * w2) h' (by linarith)
  rcases le_total t 10 with h10 | h10
  · rw [h1 h10, g1 h10]; exact hc
  · rw [h3 h10 h', g3 h10 h']
    have e1 := mul_le_mul_of_nonneg_left ha (by linarith : 0 ≤ (t - 10) / 10)
    have e2 := mul_le_mul_of_nonneg_left hc (by linarith : 0 ≤ (20 - t) / 10)
    linarith

/-- More humidity never feels colder, and strictly warmer above 10 °C; at or below 10 °C humidity has no effect. -/
theorem C156_humidity {t w rh1 rh2 p : ℝ} (hp : 0 ≤ p) (h : rh1 ≤ rh2) :
    feelsLike t w rh1 p ≤ feelsLike t w rh2 p ∧
    (10 < t → rh1 < rh2 → feelsLike t w rh1 p < feelsLike t w rh2 p) ∧
    (t ≤ 10 → feelsLike t w rh1 p = feelsLike t w rh2 p) := by
  have hs := svpInAir_pos (t := t + 273.15) hp
  have e : apparentT t w rh2 p - apparentT t w rh1 p = 0.002 * svpInAir (t + 273.15) p * (rh2 - rh1) := by
    have h2 : (2.0 : ℝ) = 2 := by norm_num
    unfold apparentT; dsimp only; rw [h2]; ring
  have ha : 0 ≤ apparentT t w rh2 p - apparentT t w rh1 p := by
    rw [e]; exact mul_nonneg (by linarith) (by linarith)
  have ha' : rh1 < rh2 → 0 < apparentT t w rh2 p - apparentT t w rh1 p := by
    intro h; rw [e]; exact mul_pos (by linarith) (by linarith)
  obtain ⟨h1, h2, h3⟩ := C156_blend t w rh1 p
  obtain ⟨g1, g2, g3⟩ := C156_blend t w rh2 p
  have key : 10 ≤ t → ∃ a, 0 ≤ a ∧ (10 < t → 0 < a) ∧
      feelsLike t w rh2 p - feelsLike t w rh1 p = a * (apparentT t w rh2 p - apparentT t w rh1 p) := by
    intro h10
    rcases le_total 20 t with h' | h'
    · exact ⟨1, zero_le_one, fun _ => one_pos, by rw [h2 h', g2 h', one_mul]⟩
    · refine ⟨(t - 10) / 10, by linarith, fun _ => by linarith, ?_⟩
      rw [h3 h10 h', g3 h10 h']; ring
  refine ⟨?_, ?_, fun h10 => by rw [h1 h10, g1 h10]⟩
  · rcases le_total t 10 with h10 | h10
    · rw [h1 h10, g1 h10]
    · obtain ⟨a, h0, -, he⟩ := key h10
      have := mul_nonneg h0 ha
      linarith
  · intro h10 hr
    obtain ⟨a, -, h0, he⟩ := key h10.le
    have := mul_pos (h0 h10) (ha' hr)
    linarith

/-- Within each regime warmer air feels warmer: below 10 °C always; above 20 °C while the svp grows with temperature. -/
theorem C156_temperature {t1 t2 w rh p : ℝ} (h : t1 < t2) :
    (t2 ≤ 10 → feelsLike t1 w rh p < feelsLike t2 w rh p) ∧
    (20 ≤ t1 → 0 ≤ rh → 0 ≤ p → p ≤ 1e7 → feelsLike t1 w rh p < feelsLike t2 w rh p) := by
  obtain ⟨h1, h2, -⟩ := C156_blend t1 w rh p
  obtain ⟨g1, g2, -⟩ := C156_blend t2 w rh p
  constructor
  · intro h10
    rw [h1 (by linarith), g1 h10]
    unfold windChill
    dsimp only
    have : 0 ≤ (max (3.6 * w) 4.824) ^ (0.16 : ℝ) := Real.rpow_nonneg (le_trans (by norm_num) (le_max_right _ _)) _
    generalize (max (3.6 * w) 4.824) ^ (0.16 : ℝ) = e at *
    nlinarith [mul_nonneg this (by linarith : 0 ≤ t2 - t1)]
  · intro h20 hr hp hp2
    rw [h2 h20, g2 (by linarith)]
    have hm : svpInAir (t1 + 273.15) p ≤ svpInAir (t2 + 273.15) p :=
      svpInAir_mono hp hp2 (show t1 + 273.15 ∈ Set.Ici (183.15 : ℝ) from by show (183.15 : ℝ) ≤ _; linarith)
        (show t2 + 273.15 ∈ Set.Ici (183.15 : ℝ) from by show (183.15 : ℝ) ≤ _; linarith) (by linarith)
    unfold apparentT
    dsimp only
    have := mul_le_mul_of_nonneg_right hm hr
    nlinarith

/-- "Warmer air never feels colder" is false across the blending range: dry air at 20 °C feels colder than at 10 °C in a
40 m/s wind. -/
theorem C156_temperature_refuted {p : ℝ} : feelsLike 20 40 0 p < feelsLike 10 40 0 p := by
  obtain ⟨-, h2, -⟩ := C156_blend 20 40 0 p
  obtain ⟨g1, -, -⟩ := C156_blend 10 40 0 p
  rw [h2 le_rfl, g1 le_rfl]
  unfold apparentT windChill
  dsimp only
  have he : (max (3.6 * 40) 4.824 : ℝ) ^ (0.16 : ℝ) ≤ 2.25 := by
    rw [max_eq_left (by norm_num)]
    have : (2.25 : ℝ) = ((2.25 : ℝ) ^ (25 : ℝ) ) ^ (0.04 : ℝ) := by
      rw [← Real.rpow_mul (by norm_num)]; norm_num
    rw [this]
    have e2 : (3.6 * 40 : ℝ) ^ (0.16 : ℝ) = ((3.6 * 40 : ℝ) ^ (4 : ℝ)) ^ (0.04 : ℝ) := by
      rw [← Real.rpow_mul (by norm_num)]; norm_num
    rw [e2]
    apply Real.rpow_le_rpow (by positivity) _ (by norm_num)
    have a : (3.6 * 40 : ℝ) ^ (4 : ℝ) = (3.6 * 40 : ℝ) ^ 4 := by exact_mod_cast Real.rpow_natCast (3.6 * 40) 4
    have b : (2.25 : ℝ) ^ (25 : ℝ) = (2.25 : ℝ) ^ 25 := by exact_mod_cast Real.rpow_natCast 2.25 25
    rw [a, b]
    norm_num
  generalize (max (3.6 * 40) 4.824 : ℝ) ^ (0.16 : ℝ) = e at *
  nlinarith

/-! ## Phase at the surface -/

/-- A cube of the given name is among the inputs. -/
def Spec.given (cubes : List LevelField) (name : String) : Prop := ∃ c ∈ cubes, c.name = name

theorem given_find (cubes : List LevelField) (name : String) :
    (∃ c, (cubes.find? fun c => decide (c.name = name)) = some c ∧ c ∈ cubes ∧ c.name = name) ∨
    ((cubes.find? fun c => decide (c.name = name)) = none ∧ ¬ Spec.given cubes name) := by
  cases h : cubes.find? fun c => decide (c.name = name) with
  | some c =>
    exact Or.inl ⟨c, rfl, List.mem_of_find?_eq_some h, by simpa using List.find?_some h⟩
  | none =>
    refine Or.inr ⟨rfl, ?_⟩
    rintro ⟨c, hc, hn⟩
    rw [List.find?_eq_none] at h
    exact h c hc (by simpa using hn)

theorem phaseDefOf_cases (cubes : List LevelField) :
    (Spec.given cubes "altitude_of_snow_falling_level" ∧
      ∃ c ∈ cubes, c.name = "altitude_of_snow_falling_level" ∧ phaseDefOf cubes = some (("snow", true, 80), c)) ∨
    (¬ Spec.given cubes "altitude_of_snow_falling_level" ∧ Spec.given cubes "altitude_of_rain_falling_level" ∧
      ∃ c ∈ cubes, c.name = "altitude_of_rain_falling_level" ∧ phaseDefOf cubes = some (("rain", false, 20), c)) ∨
    (¬ Spec.given cubes "altitude_of_snow_falling_level" ∧ ¬ Spec.given cubes "altitude_of_rain_falling_level" ∧
      Spec.given cubes "altitude_of_rain_from_hail_falling_level" ∧
      ∃ c ∈ cubes, c.name = "altitude_of_rain_from_hail_falling_level" ∧
        phaseDefOf cubes = some (("rain_from_hail", false, 20), c)) ∨
    (¬ Spec.given cubes "altitude_of_snow_falling_level" ∧ ¬ Spec.given cubes "altitude_of_rain_falling_level" ∧
      ¬ Spec.given cubes "altitude_of_rain_from_hail_falling_level" ∧ phaseDefOf cubes = none) := by
  have e1 : "altitude_of_" ++ "snow" ++ "_falling_level" = "altitude_of_snow_falling_level" := by decide +kernel
  have e2 : "altitude_of_" ++ "rain" ++ "_falling_level" = "altitude_of_rain_falling_level" := by decide +kernel
  have e3 : "altitude_of_" ++ "rain_from_hail" ++ "_falling_level" = "altitude_of_rain_from_hail_falling_level" := by
    decide +kernel
  unfold phaseDefOf phaseDefs
  simp only [List.findSome?_cons, List.findSome?_nil, e1, e2, e3]
  generalize "altitude_of_snow_falling_level" = a
  generalize "altitude_of_rain_falling_level" = b
  generalize "altitude_of_rain_from_hail_falling_level" = d
  rcases given_find cubes a with ⟨c, hf, hc, hn⟩ | ⟨hf, hg⟩
  · rw [hf]; exact Or.inl ⟨⟨c, hc, hn⟩, c, hc, hn, rfl⟩
  · rw [hf]
    rcases given_find cubes b with ⟨c, hf, hc, hn⟩ | ⟨hf, hg'⟩
    · rw [hf]; exact Or.inr (Or.inl ⟨hg, ⟨c, hc, hn⟩, c, hc, hn, rfl⟩)
    · rw [hf]
      rcases given_find cubes d with ⟨c, hf, hc, hn⟩ | ⟨hf, hg''⟩
      · rw [hf]; exact Or.inr (Or.inr (Or.inl ⟨hg, hg', ⟨c, hc, hn⟩, c, hc, hn, rfl⟩))
      · rw [hf]; exact Or.inr (Or.inr (Or.inr ⟨hg, hg', hg'', rfl⟩))

/-- The field of a falling level cube compared with the ground: that of the percentile asked for, or the only one. -/
def Spec.levelField (pct : ℚ) (c : LevelField) (level : List ℚ) : Prop :=
  (c.percentiles = none ∧ level = c.data) ∨ ∃ l, c.percentiles = some l ∧ (pct, level) ∈ l

theorem fallingData_ok {pct : ℚ} {c : LevelField} {level : List ℚ} (h : fallingData pct c = .ok level) :
    Spec.levelField pct c level := by
  unfold fallingData at h
  cases hp : c.percentiles with
  | none => rw [hp] at h; exact Or.inl ⟨hp, (Except.ok.inj h).symm⟩
  | some l =>
    rw [hp] at h
    dsimp only at h
    cases hf : l.find? (fun x => decide (x.1 = pct)) with
    | none => rw [hf] at h; nomatch h
    | some x =>
      rw [hf] at h
      have hx : x.1 = pct := by simpa using List.find?_some hf
      refine Or.inr ⟨l, hp, ?_⟩
      rw [← hx, ← Except.ok.inj h]
      exact List.mem_of_find?_eq_some hf

/-- The ground is that of the cube of surface altitude or, without one, of the neighbour cube. -/
def Spec.groundField (cubes : List LevelField) (alt : List ℚ) : Prop :=
  (∃ c ∈ cubes, c.name = "surface_altitude" ∧ alt = c.data) ∨
  (¬ Spec.given cubes "surface_altitude" ∧ ∃ c ∈ cubes, c.name = "grid_neighbours" ∧ alt = c.data)

theorem phaseAltitudes_ok {cubes : List LevelField} {alt : List ℚ} (h : phaseAltitudes cubes = .ok alt) :
    Spec.groundField cubes alt := by
  unfold phaseAltitudes at h
  unfold Spec.groundField
  generalize "surface_altitude" = a at *
  generalize "grid_neighbours" = b at *
  rcases given_find cubes a with ⟨c, hf, hc, hn⟩ | ⟨hf, hg⟩
  · rw [hf] at h; exact Or.inl ⟨c, hc, hn, (Except.ok.inj h).symm⟩
  · rw [hf] at h
    dsimp only at h
    rcases given_find cubes b with ⟨c, hf', hc, hn⟩ | ⟨hf', hg'⟩
    · rw [hf'] at h; exact Or.inr ⟨hg, c, hc, hn, (Except.ok.inj h).symm⟩
    · rw [hf'] at h; nomatch h

/-- What a result says: at each point it is 1 or 0, and 1 exactly where the ground is at or above the snow level (snow) or
below the rain level (rain, hail). -/
theorem C157_phase {cubes : List LevelField} {ok : Bool} {name : String} {data : List ℤ}
    (h : phaseProbability ok cubes = .ok (name, data)) :
    ok = true ∧ cubes.length = 2 ∧ ∃ c ∈ cubes, ∃ level alt, Spec.groundField cubes alt ∧
      data.length = min alt.length level.length ∧
      ((Spec.given cubes "altitude_of_snow_falling_level" ∧ name = "probability_of_snow_at_surface" ∧
        c.name = "altitude_of_snow_falling_level" ∧ Spec.levelField 80 c level ∧
        ∀ (i : ℕ) (x : ℤ) (a l : ℚ), data[i]? = some x → alt[i]? = some a → level[i]? = some l →
          (l ≤ a → x = 1) ∧ (a < l → x = 0)) ∨
      (¬ Spec.given cubes "altitude_of_snow_falling_level" ∧
        ((Spec.given cubes "altitude_of_rain_falling_level" ∧ name = "probability_of_rain_at_surface" ∧
          c.name = "altitude_of_rain_falling_level") ∨
        (¬ Spec.given cubes "altitude_of_rain_falling_level" ∧ name = "probability_of_rain_from_hail_at_surface" ∧
          c.name = "altitude_of_rain_from_hail_falling_level")) ∧
        Spec.levelField 20 c level ∧
        ∀ (i : ℕ) (x : ℤ) (a l : ℚ), data[i]? = some x → alt[i]? = some a → level[i]? = some l →
          (a < l → x = 1) ∧ (l ≤ a → x = 0))) := by
  unfold phaseProbability at h
  by_cases h2 : cubes.length ≠ 2
  · rw [if_pos h2] at h; nomatch h
  rw [if_neg h2] at h
  push Not at h2
  by_cases hk : (!ok) = true
  · rw [if_pos hk] at h; nomatch h
  rw [if_neg hk] at h
  have hk' : ok = true := by simpa using hk
  have e1 : "probability_of_" ++ "snow" ++ "_at_surface" = "probability_of_snow_at_surface" := by decide +kernel
  have e2 : "probability_of_" ++ "rain" ++ "_at_surface" = "probability_of_rain_at_surface" := by decide +kernel
  have e3 : "probability_of_" ++ "rain_from_hail" ++ "_at_surface" = "probability_of_rain_from_hail_at_surface" := by
    decide +kernel
  have get : ∀ (f : ℚ → ℚ → ℤ) (alt level : List ℚ) (i : ℕ) (x : ℤ) (a l : ℚ),
      (List.zipWith f alt level)[i]? = some x → alt[i]? = some a → level[i]? = some l → x = f a l := by
    intro f alt level i x a l hx ha hl
    rw [List.getElem?_zipWith, ha, hl] at hx
    exact (Option.some.inj hx).symm
  refine ⟨hk', h2, ?_⟩
  have body : ∀ (d : String × Bool × ℚ) (c : LevelField),
      phaseDefOf cubes = some (d, c) → ∃ level alt, Spec.levelField d.2.2 c level ∧ Spec.groundField cubes alt ∧
        name = "probability_of_" ++ d.1 ++ "_at_surface" ∧ data = List.zipWith (surfacePhase d.2.1) alt level := by
    intro d c hd
    rw [hd] at h
    dsimp only at h
    simp only [bind, Except.bind] at h
    cases hf : fallingData d.2.2 c with
    | error e => rw [hf] at h; nomatch h
    | ok level =>
      rw [hf] at h
      dsimp only at h
      cases ha : phaseAltitudes cubes with
      | error e => rw [ha] at h; nomatch h
      | ok alt =>
        rw [ha] at h
        have e := Except.ok.inj h
        exact ⟨level, alt, fallingData_ok hf, phaseAltitudes_ok ha, (Prod.mk.inj e).1.symm, (Prod.mk.inj e).2.symm⟩
  have len : ∀ (s : Bool) (alt level : List ℚ), (List.zipWith (surfacePhase s) alt level).length = min alt.length level.length :=
    fun _ _ _ => List.length_zipWith
  rcases phaseDefOf_cases cubes with ⟨hg, c, hc, hn, hd⟩ | ⟨hg, hg2, c, hc, hn, hd⟩ | ⟨hg, hg2, hg3, c, hc, hn, hd⟩ | ⟨hg, hg2, hg3, hd⟩
  · obtain ⟨level, alt, hl, ha, hname, hdata⟩ := body _ _ hd
    refine ⟨c, hc, level, alt, ha, by rw [hdata, len], Or.inl ⟨hg, hname.trans e1, hn, hl, ?_⟩⟩
    intro i x a l hx ha hl
    rw [hdata] at hx
    rw [get _ _ _ i x a l hx ha hl]
    unfold surfacePhase
    rw [if_pos rfl]
    exact ⟨fun h => if_pos h, fun h => if_neg (not_le.mpr h)⟩
  · obtain ⟨level, alt, hl, ha, hname, hdata⟩ := body _ _ hd
    refine ⟨c, hc, level, alt, ha, by rw [hdata, len], Or.inr ⟨hg, Or.inl ⟨hg2, hname.trans e2, hn⟩, hl, ?_⟩⟩
    intro i x a l hx ha hl
    rw [hdata] at hx
    rw [get _ _ _ i x a l hx ha hl]
    unfold surfacePhase
    rw [if_neg (by simp)]
    exact ⟨fun h => if_pos h, fun h => if_neg (not_lt.mpr h)⟩
  · obtain ⟨level, alt, hl, ha, hname, hdata⟩ := body _ _ hd
    refine ⟨c, hc, level, alt, ha, by rw [hdata, len], Or.inr ⟨hg, Or.inr ⟨hg2, hname.trans e3, hn⟩, hl, ?_⟩⟩
    intro i x a l hx ha hl
    rw [hdata] at hx
    rw [get _ _ _ i x a l hx ha hl]
    unfold surfacePhase
    rw [if_neg (by simp)]
    exact ⟨fun h => if_pos h, fun h => if_neg (not_lt.mpr h)⟩
  · rw [hd] at h; nomatch h

/-- Exactly when a result is refused: not two cubes, grids that differ, no falling level cube, a percentile cube without the
percentile needed, or no altitude. -/
theorem C157_refused (cubes : List LevelField) (ok : Bool) :
    (∃ e, phaseProbability ok cubes = .error e) ↔
      cubes.length ≠ 2 ∨ ok = false ∨ phaseDefOf cubes = none ∨
      (∃ d c l, phaseDefOf cubes = some (d, c) ∧ c.percentiles = some l ∧ ∀ x ∈ l, x.1 ≠ d.2.2) ∨
      (¬ Spec.given cubes "surface_altitude" ∧ ¬ Spec.given cubes "grid_neighbours") := by
  have hfall : ∀ (pct : ℚ) (c : LevelField), (∃ e, fallingData pct c = .error e) ↔
      ∃ l, c.percentiles = some l ∧ ∀ x ∈ l, x.1 ≠ pct := by
    intro pct c
    unfold fallingData
    cases hp : c.percentiles with
    | none => exact ⟨fun ⟨e, h⟩ => (nomatch h), fun ⟨l, h, _⟩ => (nomatch h)⟩
    | some l =>
      dsimp only
      cases hf : l.find? (fun x => decide (x.1 = pct)) with
      | none =>
        rw [List.find?_eq_none] at hf
        exact ⟨fun _ => ⟨l, rfl, fun x hx => by simpa using hf x hx⟩, fun _ => ⟨_, rfl⟩⟩
      | some x =>
        refine ⟨fun ⟨e, h⟩ => (nomatch h), fun ⟨l', h, hx⟩ => ?_⟩
        rw [← Option.some.inj h] at hx
        exact absurd (by simpa using List.find?_some hf) (hx x (List.mem_of_find?_eq_some hf))
  have halt : (∃ e, phaseAltitudes cubes = .error e) ↔
      ¬ Spec.given cubes "surface_altitude" ∧ ¬ Spec.given cubes "grid_neighbours" := by
    unfold phaseAltitudes
    generalize "surface_altitude" = a
    generalize "grid_neighbours" = b
    rcases given_find cubes a with ⟨c, hf, hc, hn⟩ | ⟨hf, hg⟩
    · rw [hf]; exact ⟨fun ⟨e, h⟩ => (nomatch h), fun h => absurd ⟨c, hc, hn⟩ h.1⟩
    · rw [hf]
      dsimp only
      rcases given_find cubes b with ⟨c, hf', hc, hn⟩ | ⟨hf', hg'⟩
      · rw [hf']; exact ⟨fun ⟨e, h⟩ => (nomatch h), fun h => absurd ⟨c, hc, hn⟩ h.2⟩
      · rw [hf']; exact ⟨fun _ => ⟨hg, hg'⟩, fun _ => ⟨_, rfl⟩⟩
  rw [← halt]
  unfold phaseProbability
  by_cases h2 : cubes.length ≠ 2
  · rw [if_pos h2]; exact ⟨fun _ => Or.inl h2, fun _ => ⟨_, rfl⟩⟩
  rw [if_neg h2]
  cases ok with
  | false => exact ⟨fun _ => Or.inr (Or.inl rfl), fun _ => ⟨_, rfl⟩⟩
  | true =>
    rw [if_neg (by simp)]
    cases hd : phaseDefOf cubes with
    | none => exact ⟨fun _ => Or.inr (Or.inr (Or.inl rfl)), fun _ => ⟨_, rfl⟩⟩
    | some dc =>
      obtain ⟨d, c⟩ := dc
      dsimp only
      simp only [bind, Except.bind]
      have hf := hfall d.2.2 c
      cases hfd : fallingData d.2.2 c with
      | error e =>
        obtain ⟨l, h1, h3⟩ := hf.1 ⟨e, hfd⟩
        exact ⟨fun _ => Or.inr (Or.inr (Or.inr (Or.inl ⟨d, c, l, rfl, h1, h3⟩))), fun _ => ⟨_, rfl⟩⟩
      | ok level =>
        dsimp only
        cases ha : phaseAltitudes cubes with
        | error e => exact ⟨fun _ => Or.inr (Or.inr (Or.inr (Or.inr ⟨e, rfl⟩))), fun _ => ⟨_, rfl⟩⟩
        | ok alt =>
          refine ⟨fun ⟨e, h⟩ => (nomatch h), ?_⟩
          rintro (h | h | h | ⟨d', c', l, h, h', h''⟩ | ⟨e, h⟩)
          · exact absurd h h2
          · nomatch h
          · nomatch h
          · have e := Option.some.inj h
            obtain ⟨e1, e2⟩ := Prod.mk.inj e
            subst e1; subst e2
            obtain ⟨e, he⟩ := hf.2 ⟨l, h', h''⟩
            rw [hfd] at he; nomatch he
          · nomatch h

/-- Where the snow level is never below the rain level, rain and snow never meet, and the sleet probability is accepted: 1
exactly in between, 0 elsewhere. -/
theorem C157_sleet (alt snow rain : List ℚ) (h1 : snow.length = alt.length) (h2 : rain.length = alt.length)
    (hle : ∀ (i : ℕ) (s r : ℚ), snow[i]? = some s → rain[i]? = some r → r ≤ s) :
    ∃ out, sleetProbability ((List.zipWith (surfacePhase true) alt snow).map (fun k : ℤ => (k : ℚ)))
        ((List.zipWith (surfacePhase false) alt rain).map (fun k : ℤ => (k : ℚ))) = .ok out ∧
      out.length = alt.length ∧
      ∀ (i : ℕ) (x a s r : ℚ), out[i]? = some x → alt[i]? = some a → snow[i]? = some s → rain[i]? = some r →
        (r ≤ a ∧ a < s → x = 1) ∧ (¬ (r ≤ a ∧ a < s) → x = 0) := by
  have val : ∀ (i : ℕ) (x a s r : ℚ),
      (List.zipWith (fun a b => 1 - (a + b)) ((List.zipWith (surfacePhase true) alt snow).map (fun k : ℤ => (k : ℚ)))
        ((List.zipWith (surfacePhase false) alt rain).map (fun k : ℤ => (k : ℚ))))[i]? = some x →
      alt[i]? = some a → snow[i]? = some s → rain[i]? = some r →
      (r ≤ a ∧ a < s → x = 1) ∧ (¬ (r ≤ a ∧ a < s) → x = 0) := by
    intro i x a s r hx ha hs hr
    have hrs := hle i s r hs hr
    simp only [List.getElem?_zipWith, List.getElem?_map, ha, hs, hr, Option.map_some] at hx
    have hx := (Option.some.inj hx).symm
    unfold surfacePhase at hx
    rw [if_pos rfl, if_neg (show ¬ (false = true) by simp)] at hx
    by_cases c1 : s ≤ a
    · rw [if_pos c1, if_neg (not_lt.mpr (hrs.trans c1))] at hx
      exact ⟨fun h => absurd h.2 (not_lt.mpr c1), fun _ => by rw [hx]; norm_num⟩
    · rw [if_neg c1] at hx
      by_cases c2 : a < r
      · rw [if_pos c2] at hx
        exact ⟨fun h => absurd h.1 (not_le.mpr c2), fun _ => by rw [hx]; norm_num⟩
      · rw [if_neg c2] at hx
        exact ⟨fun _ => by rw [hx]; norm_num, fun h => absurd ⟨not_lt.mp c2, not_le.mp c1⟩ h⟩
  unfold sleetProbability
  dsimp only
  generalize hz : List.zipWith (fun a b => 1 - (a + b)) ((List.zipWith (surfacePhase true) alt snow).map (fun k : ℤ => (k : ℚ)))
        ((List.zipWith (surfacePhase false) alt rain).map (fun k : ℤ => (k : ℚ))) = z at val
  have hlen : z.length = alt.length := by
    rw [← hz]; simp only [List.length_zipWith, List.length_map]; omega
  have hno : ¬ z.any (fun x => decide (x < 0)) = true := by
    intro hc
    rw [List.any_eq_true] at hc
    obtain ⟨x, hx, hneg⟩ := hc
    rw [decide_eq_true_eq] at hneg
    obtain ⟨i, hi, rfl⟩ := List.mem_iff_getElem.mp hx
    have v := val i z[i] alt[i] snow[i] rain[i] (List.getElem?_eq_getElem hi) (List.getElem?_eq_getElem (by omega))
      (List.getElem?_eq_getElem (by omega)) (List.getElem?_eq_getElem (by omega))
    by_cases hc : rain[i] ≤ alt[i] ∧ alt[i] < snow[i]
    · rw [v.1 hc] at hneg; norm_num at hneg
    · rw [v.2 hc] at hneg; norm_num at hneg
  rw [if_neg hno]
  exact ⟨z, rfl, hlen, val⟩

/-- The sleet probability is one less the other two, and is refused exactly when somewhere they exceed one together. -/
theorem C157_sleet_refused (snow rain : List ℚ) :
    ((∃ e, sleetProbability snow rain = .error e) ↔ ∃ x ∈ snow.zip rain, 1 < x.1 + x.2) ∧
    ∀ out, sleetProbability snow rain = .ok out →
      out = (snow.zip rain).map (fun x => 1 - (x.1 + x.2)) ∧ ∀ x ∈ out, 0 ≤ x := by
  unfold sleetProbability
  dsimp only
  have hz : List.zipWith (fun a b : ℚ => 1 - (a + b)) snow rain = (snow.zip rain).map (fun x => 1 - (x.1 + x.2)) := by
    rw [List.zip_eq_zipWith, List.map_zipWith]
  rw [hz]
  have hany : (((snow.zip rain).map (fun x : ℚ × ℚ => 1 - (x.1 + x.2))).any fun x => decide (x < 0)) = true ↔
      ∃ x ∈ snow.zip rain, 1 < x.1 + x.2 := by
    rw [List.any_map, List.any_eq_true]
    refine exists_congr fun x => and_congr_right fun _ => ?_
    simp only [Function.comp_apply, decide_eq_true_eq]
    constructor <;> intro h <;> linarith
  by_cases h : (((snow.zip rain).map (fun x : ℚ × ℚ => 1 - (x.1 + x.2))).any fun x => decide (x < 0)) = true
  · rw [if_pos h]
    exact ⟨⟨fun _ => hany.1 h, fun _ => ⟨_, rfl⟩⟩, fun out ho => (nomatch ho)⟩
  · rw [if_neg h]
    refine ⟨⟨fun ⟨e, he⟩ => (nomatch he), fun hc => absurd (hany.2 hc) h⟩, fun out ho => ?_⟩
    have e := (Except.ok.inj ho).symm
    refine ⟨e, fun x hx => ?_⟩
    by_contra hc
    exact h (List.any_eq_true.mpr ⟨x, by rw [← e]; exact hx, by simpa using hc⟩)

/-- The cases are met. -/
example : phaseProbability true [⟨"surface_altitude", none, [0, 50, 100]⟩,
      ⟨"altitude_of_snow_falling_level", some [(20, [1, 1, 1]), (80, [50, 50, 50])], []⟩] =
    .ok ("probability_of_snow_at_surface", [0, 1, 1]) := by decide +kernel

example : phaseProbability true [⟨"grid_neighbours", none, [0, 50, 100]⟩,
      ⟨"altitude_of_rain_falling_level", none, [50, 50, 50]⟩] =
    .ok ("probability_of_rain_at_surface", [1, 0, 0]) := by decide +kernel

example : sleetProbability [0, 0, 1] [1, 0, 0] = .ok [0, 1, 0] := by decide +kernel

/-! ## Masks of the phase -/

/-- Exactly one of the three masks is set at each point of an accepted cube. -/
theorem C158_partition {name units : String} {masked : Bool} {data : List ℚ} {rain sleet snow : String × List ℤ}
    (hr : phaseMask name units masked data "rain" = .ok rain)
    (hs : phaseMask name units masked data "sleet" = .ok sleet)
    (hw : phaseMask name units masked data "snow" = .ok snow) :
    rain.1 = "rain_mask" ∧ sleet.1 = "sleet_mask" ∧ snow.1 = "snow_mask" ∧
    rain.2.length = data.length ∧ sleet.2.length = data.length ∧ snow.2.length = data.length ∧
    ∀ (i : ℕ) (x : ℚ), data[i]? = some x →
      (x ≤ 1 / 100 → rain.2[i]? = some 1 ∧ sleet.2[i]? = some 0 ∧ snow.2[i]? = some 0) ∧
      (1 / 100 < x → x < 99 / 100 → rain.2[i]? = some 0 ∧ sleet.2[i]? = some 1 ∧ snow.2[i]? = some 0) ∧
      (99 / 100 ≤ x → rain.2[i]? = some 0 ∧ sleet.2[i]? = some 0 ∧ snow.2[i]? = some 1) := by
  have key : ∀ (phase : String) (f : ℚ → ℤ) (o : String × List ℤ), phaseOperator phase = some f →
      phaseMask name units masked data phase = .ok o → o = (phase ++ "_mask", data.map f) := by
    intro phase f o hf h
    unfold phaseMask at h
    cases hv : validateFraction name units masked data with
    | error e => rw [hv] at h; nomatch h
    | ok u =>
      rw [hv, hf] at h
      exact (Except.ok.inj h).symm
  have p1 : phaseOperator "rain" = some fun x => if x ≤ 1 / 100 then 1 else 0 := rfl
  have p2 : phaseOperator "sleet" = some fun x => if 1 / 100 < x ∧ x < 99 / 100 then 1 else 0 := rfl
  have p3 : phaseOperator "snow" = some fun x => if x ≥ 99 / 100 then 1 else 0 := rfl
  rw [key _ _ _ p1 hr, key _ _ _ p2 hs, key _ _ _ p3 hw]
  have q1 : "rain" ++ "_mask" = "rain_mask" := by decide +kernel
  have q2 : "sleet" ++ "_mask" = "sleet_mask" := by decide +kernel
  have q3 : "snow" ++ "_mask" = "snow_mask" := by decide +kernel
  refine ⟨q1, q2, q3, List.length_map _, List.length_map _,
    List.length_map _, ?_⟩
  intro i x hx
  simp only [List.getElem?_map, hx, Option.map_some]
  refine ⟨fun h => ?_, fun h1 h2 => ?_, fun h => ?_⟩
  · rw [if_pos h, if_neg (by intro hc; linarith [hc.1]), if_neg (by intro hc; linarith)]
    exact ⟨rfl, rfl, rfl⟩
  · rw [if_neg (by linarith), if_pos ⟨h1, h2⟩, if_neg (by intro hc; linarith)]
    exact ⟨rfl, rfl, rfl⟩
  · rw [if_neg (by linarith), if_neg (by intro hc; linarith [hc.2]), if_pos h]
    exact ⟨rfl, rfl, rfl⟩

/-- When a mask is given at all: a plain snow fraction in the range from 0 to 1 and one of the three phases. -/
theorem C158_accepted (name units : String) (masked : Bool) (data : List ℚ) (phase : String) :
    (∃ o, phaseMask name units masked data phase = .ok o) ↔
      name = "snow_fraction" ∧ units = "1" ∧ masked = false ∧ (∀ x ∈ data, 0 ≤ x ∧ x ≤ 1) ∧
      (phase = "rain" ∨ phase = "sleet" ∨ phase = "snow") := by
  have hphase : (∃ f, phaseOperator phase = some f) ↔ (phase = "rain" ∨ phase = "sleet" ∨ phase = "snow") := by
    unfold phaseOperator
    by_cases h1 : phase = "rain"
    · rw [if_pos h1]; exact ⟨fun _ => Or.inl h1, fun _ => ⟨_, rfl⟩⟩
    by_cases h2 : phase = "sleet"
    · rw [if_neg h1, if_pos h2]; exact ⟨fun _ => Or.inr (Or.inl h2), fun _ => ⟨_, rfl⟩⟩
    by_cases h3 : phase = "snow"
    · rw [if_neg h1, if_neg h2, if_pos h3]; exact ⟨fun _ => Or.inr (Or.inr h3), fun _ => ⟨_, rfl⟩⟩
    · rw [if_neg h1, if_neg h2, if_neg h3]
      exact ⟨fun ⟨f, h⟩ => (nomatch h), fun h => absurd h (by tauto)⟩
  have hval : validateFraction name units masked data = .ok () ↔
      name = "snow_fraction" ∧ units = "1" ∧ masked = false ∧ (∀ x ∈ data, 0 ≤ x ∧ x ≤ 1) := by
    unfold validateFraction
    by_cases h1 : name ≠ "snow_fraction"
    · rw [if_pos h1]; exact ⟨fun h => (nomatch h), fun h => absurd h.1 h1⟩
    rw [if_neg h1]
    by_cases h2 : units ≠ "1"
    · rw [if_pos h2]; exact ⟨fun h => (nomatch h), fun h => absurd h.2.1 h2⟩
    rw [if_neg h2]
    push Not at h1 h2
    cases masked with
    | true => exact ⟨fun h => (nomatch h), fun h => (nomatch h.2.2.1)⟩
    | false =>
      rw [if_neg (by simp)]
      by_cases h3 : (data.any fun x => decide (x < 0) || decide (x > 1)) = true
      · rw [if_pos h3]
        refine ⟨fun h => (nomatch h), fun h => ?_⟩
        obtain ⟨x, hx, hb⟩ := List.any_eq_true.mp h3
        rw [Bool.or_eq_true, decide_eq_true_eq, decide_eq_true_eq] at hb
        have := h.2.2.2 x hx
        rcases hb with hb | hb <;> linarith
      · rw [if_neg h3]
        refine ⟨fun _ => ⟨h1, h2, rfl, fun x hx => ?_⟩, fun _ => rfl⟩
        constructor <;> by_contra hc <;> apply h3 <;> rw [List.any_eq_true] <;> refine ⟨x, hx, ?_⟩ <;>
          rw [Bool.or_eq_true, decide_eq_true_eq, decide_eq_true_eq]
        · exact Or.inl (not_le.mp hc)
        · exact Or.inr (not_le.mp hc)
  unfold phaseMask
  constructor
  · rintro ⟨o, h⟩
    cases hv : validateFraction name units masked data with
    | error e => rw [hv] at h; nomatch h
    | ok u =>
      rw [hv] at h
      dsimp only at h
      cases hf : phaseOperator phase with
      | none => rw [hf] at h; nomatch h
      | some f =>
        have a := hval.1 hv
        have b := hphase.1 ⟨f, hf⟩
        tauto
  · intro h
    have a : validateFraction name units masked data = .ok () := hval.2 (by tauto)
    obtain ⟨f, b⟩ := hphase.2 (by tauto)
    rw [a, b]
    exact ⟨_, rfl⟩

example : phaseMask "snow_fraction" "1" false [0, 1 / 100, 1 / 2, 99 / 100, 1] "sleet" =
    .ok ("sleet_mask", [0, 0, 1, 0, 0]) := by decide +kernel

/-! ## UV index -/

/-- An index is given exactly for the flux by name with neither negative values nor NaN; it is the flux times the scale, so
never negative for a scale that is not. -/
theorem C158_uv (name : String) (scale : ℚ) (data : List (Option ℚ)) :
    ((∃ o, uvIndex name scale data = .ok o) ↔
      name = "surface_downwelling_ultraviolet_flux_in_air" ∧ ∀ d ∈ data, ∃ x : ℚ, d = some x ∧ 0 ≤ x) ∧
    ∀ o, uvIndex name scale data = .ok o →
      o.map some = data.map (Option.map (· * scale)) ∧ (0 ≤ scale → ∀ y ∈ o, 0 ≤ y) := by
  unfold uvIndex
  generalize "surface_downwelling_ultraviolet_flux_in_air" = flux
  by_cases h1 : name ≠ flux
  · rw [if_pos h1]
    exact ⟨⟨fun ⟨o, h⟩ => (nomatch h), fun h => absurd h.1 h1⟩, fun o h => (nomatch h)⟩
  rw [if_neg h1]
  push Not at h1
  by_cases h2 : (data.any negativeFlux || data.any (·.isNone)) = true
  · rw [if_pos h2]
    refine ⟨⟨fun ⟨o, h⟩ => (nomatch h), fun h => ?_⟩, fun o h => (nomatch h)⟩
    rw [Bool.or_eq_true, List.any_eq_true, List.any_eq_true] at h2
    rcases h2 with ⟨d, hd, hb⟩ | ⟨d, hd, hb⟩
    · obtain ⟨x, rfl, hx⟩ := h.2 d hd
      simp only [negativeFlux, decide_eq_true_eq] at hb
      linarith
    · obtain ⟨x, rfl, hx⟩ := h.2 d hd
      simp at hb
  · rw [if_neg h2]
    have hall : ∀ d ∈ data, ∃ x : ℚ, d = some x ∧ 0 ≤ x := by
      intro d hd
      cases d with
      | none => exact absurd (by rw [Bool.or_eq_true, List.any_eq_true, List.any_eq_true]; exact Or.inr ⟨_, hd, rfl⟩) h2
      | some x =>
        refine ⟨x, rfl, ?_⟩
        by_contra hc
        exact h2 (by
          rw [Bool.or_eq_true, List.any_eq_true, List.any_eq_true]
          exact Or.inl ⟨_, hd, by simpa [negativeFlux] using hc⟩)
    refine ⟨⟨fun _ => ⟨h1, hall⟩, fun _ => ⟨_, rfl⟩⟩, fun o ho => ?_⟩
    rw [← Except.ok.inj ho]
    clear h2 ho
    induction data with
    | nil => exact ⟨rfl, fun _ y hy => (nomatch hy)⟩
    | cons d t ih =>
      obtain ⟨x, rfl, hx⟩ := hall d (List.mem_cons_self)
      obtain ⟨i1, i2⟩ := ih fun d hd => hall d (List.mem_cons_of_mem _ hd)
      refine ⟨?_, fun hs y hy => ?_⟩
      · simp only [List.filterMap_cons, id, List.map_cons, Option.map_some, List.cons.injEq, true_and]
        exact i1
      · simp only [List.filterMap_cons, id, List.map_cons, List.mem_cons] at hy
        rcases hy with rfl | hy
        · exact mul_nonneg hx hs
        · exact i2 hs y hy

example : uvIndex "surface_downwelling_ultraviolet_flux_in_air" (36 / 10) [some 0, some (1 / 10)] = .ok [0, 9 / 25] := by
  decide +kernel

end Improver
