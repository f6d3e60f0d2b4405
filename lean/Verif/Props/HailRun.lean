import Verif.Model.HailRun
import Verif.Props.PrecipType
import Verif.Props.Checker
import Verif.Props.LapseRun

/-! ### C232: hail fraction from cubes -/

namespace Improver

/-- The names of the inputs. -/
def Spec.hailNames : List String := ["maximum_vertical_updraught", "diameter_of_hail_stones", "air_temperature_at_condensation_level",
  "air_temperature_at_convective_cloud_top", "altitude_of_rain_from_hail_falling_level", "surface_altitude"]

/-- The hail fraction for an updraught `w` (m/s), hail size (m), temperatures of condensation level and cloud top (K), height at which
hail melts and of the ground (m). -/
def Spec.hailValue (w size ccl cct melt orog : ℚ) : ℚ :=
  let f := if 26815 / 100 ≤ ccl ∧ cct ≤ 25815 / 100 ∧ melt ≤ orog then min (max ((w - 5) / 180) 0) (1 / 4) else 0
  if 2 / 1000 < size then max f (5 / 100) else f

/-- A value of a field in the base unit of its quantity. -/
def NamedField.base {X : Type} (c : NamedField X) (i : List ℕ) : ℚ := c.data i * c.unit.scale + c.unit.offset

theorem hailFraction_spec (w size ccl cct melt orog : ℚ) : hailFraction w size ccl cct melt orog = Spec.hailValue w size ccl cct melt orog := by
  have hf : npInterp [5, 50] [0, 1 / 4] w = min (max ((w - 5) / 180) 0) (1 / 4) := by
    have h := C63_updraught w 0 (26815 / 100) (25815 / 100) 0 0 (by norm_num) (by norm_num)
    have e : hailFraction w 0 (26815 / 100) (25815 / 100) 0 0 = npInterp [5, 50] [0, 1 / 4] w := by
      unfold hailFraction
      simp only
      rw [if_neg (show ¬ ((0 : ℚ) > 2 / 1000 ∧ _) from fun hc => absurd hc.1 (by norm_num)), if_neg (by norm_num)]
    rw [← e, h]
    by_cases h1 : w ≤ 5
    · rw [if_pos h1, max_eq_right (by linarith), min_eq_left (by norm_num)]
    · rw [if_neg h1]
      push Not at h1
      rw [max_eq_left (by linarith)]
      by_cases h2 : 50 ≤ w
      · rw [if_pos h2, min_eq_right (by linarith)]
      · rw [if_neg h2]
        push Not at h2
        rw [min_eq_left (by linarith)]
  unfold hailFraction Spec.hailValue
  simp only
  rw [hf]
  have hc : (if ccl < 26815 / 100 ∨ cct > 25815 / 100 ∨ melt > orog then (0 : ℚ) else min (max ((w - 5) / 180) 0) (1 / 4))
      = if 26815 / 100 ≤ ccl ∧ cct ≤ 25815 / 100 ∧ melt ≤ orog then min (max ((w - 5) / 180) 0) (1 / 4) else 0 := by
    by_cases h : 26815 / 100 ≤ ccl ∧ cct ≤ 25815 / 100 ∧ melt ≤ orog
    · rw [if_pos h, if_neg]
      rintro (h' | h' | h')
      · exact absurd h.1 (not_le.2 h')
      · exact absurd h.2.1 (not_le.2 h')
      · exact absurd h.2.2 (not_le.2 h')
    · rw [if_neg h, if_pos]
      by_contra hn
      push Not at hn
      exact h hn
  rw [hc]
  generalize (if 26815 / 100 ≤ ccl ∧ cct ≤ 25815 / 100 ∧ melt ≤ orog then min (max ((w - 5) / 180) 0) (1 / 4) else 0) = f
  by_cases h1 : 2 / 1000 < size
  · rw [if_pos h1]
    by_cases h2 : f < 5 / 100
    · rw [if_pos ⟨h1, h2⟩, max_eq_right h2.le]
    · rw [if_neg (fun h => h2 h.2), max_eq_left (not_lt.1 h2)]
  · rw [if_neg (fun h => h1 h.1), if_neg h1]

theorem NamedField.convert_ok {X : Type} (c : NamedField X) (u : StdUnit) (h : c.unit.dimension = u.dimension) (hs : u.scale = 1)
    (ho : u.offset = 0) : c.convert u = .ok ⟨c.name, u, c.place, c.shape, c.base⟩ := by
  unfold NamedField.convert
  rw [if_neg (by simpa using h)]
  congr 2
  funext i
  unfold convertUnit NamedField.base
  rw [hs, ho]
  ring

theorem filter_name_single {X : Type} {cubes l : List (NamedField X)} (hp : cubes.Perm l) (n : String) {f : NamedField X}
    (h : l.filter (fun c => decide (c.name = n)) = [f]) : cubes.filter (fun c => decide (c.name = n)) = [f] := by
  have := hp.filter (fun c => decide (c.name = n))
  rw [h] at this
  exact List.perm_singleton.1 this

theorem filter_others {X : Type} {others : List (NamedField X)} (ho : ∀ c ∈ others, c.name ∉ Spec.hailNames) {n : String}
    (hn : n ∈ Spec.hailNames) : others.filter (fun c => decide (c.name = n)) = [] := by
  rw [List.filter_eq_nil_iff]
  intro c hc h
  have : c.name = n := by simpa using h
  exact ho c hc (this ▸ hn)

/-- C232.  The six inputs may be given in any order, among other cubes, in any units of their quantities: if they are on one grid the
result is the hail fraction of the values in SI units at every point. -/
theorem C232_value {X : Type} [DecidableEq X] (w s b t m o : NamedField X) (others cubes : List (NamedField X))
    (hp : cubes.Perm ([w, s, b, t, m, o] ++ others)) (hn : [w, s, b, t, m, o].map NamedField.name = Spec.hailNames)
    (ho : ∀ c ∈ others, c.name ∉ Spec.hailNames)
    (hu : [w, s, b, t, m, o].map (fun c => c.unit.dimension) = ["speed", "length", "temperature", "temperature", "length", "length"])
    (hg : ∀ c ∈ [s, b, t, m, o], c.place = w.place ∧ c.shape = w.shape) :
    ∃ out, hailFractionProcess cubes = .ok out ∧ out.name = "hail_fraction" ∧ out.unit = ⟨"1", 1, 0⟩ ∧ out.place = w.place ∧
      out.shape = w.shape ∧
      ∀ i, out.data i = Spec.hailValue (w.base i) (s.base i) (b.base i) (t.base i) (m.base i) (o.base i) := by
  unfold Spec.hailNames at hn
  simp only [List.map_cons, List.map_nil, List.cons.injEq, and_true] at hn hu
  obtain ⟨n1, n2, n3, n4, n5, n6⟩ := hn
  obtain ⟨u1, u2, u3, u4, u5, u6⟩ := hu
  have hfil : ∀ n ∈ Spec.hailNames, cubes.filter (fun c => decide (c.name = n)) = ([w, s, b, t, m, o].filter fun c => decide (c.name = n)) := by
    intro n hn
    have key : ∃ f, ([w, s, b, t, m, o].filter fun c => decide (c.name = n)) = [f] := by
      simp only [Spec.hailNames, List.mem_cons, List.not_mem_nil, or_false] at hn
      rcases hn with rfl | rfl | rfl | rfl | rfl | rfl <;>
        simp only [List.filter, n1, n2, n3, n4, n5, n6, String.reduceEq, decide_true, decide_false] <;> exact ⟨_, rfl⟩
    obtain ⟨f, hf⟩ := key
    rw [hf]
    apply filter_name_single hp n
    rw [List.filter_append, hf, filter_others ho hn, List.append_nil]
  have hex : extractNames Spec.hailNames cubes = [w, s, b, t, m, o] := by
    unfold extractNames
    rw [List.flatMap_congr hfil]
    unfold Spec.hailNames
    simp only [List.flatMap_cons, List.flatMap_nil, List.filter, n1, n2, n3, n4, n5, n6, String.reduceEq, decide_true, decide_false,
      List.cons_append, List.nil_append]
  have hlen : cubes.length ≠ 0 := by
    rw [hp.length_eq]; simp
  unfold hailFractionProcess
  rw [if_neg hlen, show extractNames ["maximum_vertical_updraught", "diameter_of_hail_stones", "air_temperature_at_condensation_level",
    "air_temperature_at_convective_cloud_top", "altitude_of_rain_from_hail_falling_level", "surface_altitude"] cubes
      = [w, s, b, t, m, o] from hex]
  dsimp only
  rw [NamedField.convert_ok w metrePerSecond u1 rfl rfl, NamedField.convert_ok s metre u2 rfl rfl,
    NamedField.convert_ok b kelvin u3 rfl rfl, NamedField.convert_ok t kelvin u4 rfl rfl, NamedField.convert_ok m metre u5 rfl rfl,
    NamedField.convert_ok o metre u6 rfl rfl]
  simp only [List.mem_cons, List.not_mem_nil, or_false, forall_eq_or_imp, forall_eq] at hg
  obtain ⟨g1, g2, g3, g4, g5⟩ := hg
  simp only [bind, Except.bind, spatialMatch, List.map_cons, List.map_nil, List.foldl_cons, List.foldl_nil, g1.1, g2.1, g3.1, g4.1, g5.1,
    g1.2, g2.2, g3.2, g4.2, g5.2, List.all_cons, List.all_nil, decide_true, Bool.and_true, not_true_eq_false, if_false]
  refine ⟨_, rfl, rfl, rfl, rfl, rfl, ?_⟩
  intro i
  exact hailFraction_spec _ _ _ _ _ _

/-- C232.  If no name occurs twice among the inputs, a result means that all six are there and all on one grid. -/
theorem C232_complete {X : Type} [DecidableEq X] (cubes : List (NamedField X)) (out : NamedField X)
    (h : hailFractionProcess cubes = .ok out) (hnd : (cubes.map NamedField.name).Nodup) :
    ∀ n ∈ Spec.hailNames, ∃ c ∈ cubes, c.name = n ∧ c.place = out.place ∧ c.shape = out.shape := by
  have hle : ∀ n, (cubes.filter fun c => decide (c.name = n)).length ≤ 1 := by
    intro n
    by_contra hc
    push Not at hc
    have h2 : ((cubes.filter fun c => decide (c.name = n)).map NamedField.name).Nodup :=
      hnd.sublist (List.filter_sublist.map _)
    have h3 : (cubes.filter fun c => decide (c.name = n)).map NamedField.name
        = List.replicate (cubes.filter fun c => decide (c.name = n)).length n := by
      rw [List.eq_replicate_iff]
      refine ⟨by simp, ?_⟩
      intro x hx
      obtain ⟨c, hc, rfl⟩ := List.mem_map.1 hx
      simpa using (List.mem_filter.1 hc).2
    rw [h3, List.nodup_replicate] at h2
    omega
  unfold hailFractionProcess at h
  by_cases h0 : cubes.length = 0
  · rw [if_pos h0] at h; exact nomatch h
  rw [if_neg h0] at h
  change (match extractNames Spec.hailNames cubes with
    | [updraught, size, ccl, cct, melting, orography] => _
    | _ => _) = _ at h
  have hlen : (extractNames Spec.hailNames cubes).length = 6 → ∀ n ∈ Spec.hailNames, (cubes.filter fun c => decide (c.name = n)).length = 1 := by
    intro he
    unfold extractNames Spec.hailNames at he
    simp only [List.flatMap_cons, List.flatMap_nil, List.append_nil, List.length_append] at he
    intro n hn
    have l1 := hle "maximum_vertical_updraught"
    have l2 := hle "diameter_of_hail_stones"
    have l3 := hle "air_temperature_at_condensation_level"
    have l4 := hle "air_temperature_at_convective_cloud_top"
    have l5 := hle "altitude_of_rain_from_hail_falling_level"
    have l6 := hle "surface_altitude"
    simp only [Spec.hailNames, List.mem_cons, List.not_mem_nil, or_false] at hn
    rcases hn with rfl | rfl | rfl | rfl | rfl | rfl <;> omega
  have hmem : ∀ n ∈ Spec.hailNames, ∀ c ∈ cubes, c.name = n → c ∈ extractNames Spec.hailNames cubes := by
    intro n hn c hc he
    exact List.mem_flatMap.2 ⟨n, hn, List.mem_filter.2 ⟨hc, by simpa using he⟩⟩
  generalize hl : extractNames Spec.hailNames cubes = l at h hlen hmem
  match l, h with
  | [w, s, b, t, m, o], h =>
    have h1 := hlen rfl
    dsimp only at h
    have hconv : ∀ (c c' : NamedField X) (u : StdUnit), c.convert u = .ok c' → c'.place = c.place ∧ c'.shape = c.shape := by
      intro c c' u hc
      unfold NamedField.convert at hc
      split at hc
      · exact nomatch hc
      · have := Except.ok.inj hc; subst this; exact ⟨rfl, rfl⟩
    simp only [bind, Except.bind] at h
    cases e1 : w.convert metrePerSecond with
    | error e => rw [e1] at h; exact nomatch h
    | ok w' =>
    rw [e1] at h; dsimp only at h
    cases e2 : s.convert metre with
    | error e => rw [e2] at h; exact nomatch h
    | ok s' =>
    rw [e2] at h; dsimp only at h
    cases e3 : b.convert kelvin with
    | error e => rw [e3] at h; exact nomatch h
    | ok b' =>
    rw [e3] at h; dsimp only at h
    cases e4 : t.convert kelvin with
    | error e => rw [e4] at h; exact nomatch h
    | ok t' =>
    rw [e4] at h; dsimp only at h
    cases e5 : m.convert metre with
    | error e => rw [e5] at h; exact nomatch h
    | ok m' =>
    rw [e5] at h; dsimp only at h
    cases e6 : o.convert metre with
    | error e => rw [e6] at h; exact nomatch h
    | ok o' =>
    rw [e6] at h; dsimp only at h
    simp only [List.map_cons, List.map_nil, spatialMatch, List.foldl_cons, List.foldl_nil] at h
    split at h
    · exact nomatch h
    rename_i hs
    split at h
    · exact nomatch h
    rename_i hsh
    have ho := Except.ok.inj h
    simp only [not_not, Bool.and_eq_true, decide_eq_true_eq, and_true] at hs
    simp only [not_not, List.all_cons, List.all_nil, Bool.and_eq_true, decide_eq_true_eq, and_true] at hsh
    have hall : ∀ c ∈ [w, s, b, t, m, o], c.place = out.place ∧ c.shape = out.shape := by
      rw [← ho]
      intro c hc
      simp only [List.mem_cons, List.not_mem_nil, or_false] at hc
      rw [(hconv _ _ _ e1).1, (hconv _ _ _ e1).2] at *
      rw [(hconv _ _ _ e2).1, (hconv _ _ _ e3).1, (hconv _ _ _ e4).1, (hconv _ _ _ e5).1, (hconv _ _ _ e6).1] at hs
      rw [(hconv _ _ _ e2).2, (hconv _ _ _ e3).2, (hconv _ _ _ e4).2, (hconv _ _ _ e5).2, (hconv _ _ _ e6).2] at hsh
      rcases hc with rfl | rfl | rfl | rfl | rfl | rfl
      · exact ⟨rfl, rfl⟩
      · exact ⟨Prod.ext (by tauto) (by tauto), by tauto⟩
      · exact ⟨Prod.ext (by tauto) (by tauto), by tauto⟩
      · exact ⟨Prod.ext (by tauto) (by tauto), by tauto⟩
      · exact ⟨Prod.ext (by tauto) (by tauto), by tauto⟩
      · exact ⟨Prod.ext (by tauto) (by tauto), by tauto⟩
    intro n hn
    obtain ⟨c, hc⟩ := List.length_eq_one_iff.1 (h1 n hn)
    have hcm : c ∈ cubes.filter (fun c => decide (c.name = n)) := by rw [hc]; simp
    have hc1 := List.mem_filter.1 hcm
    have hc2 : c.name = n := by simpa using hc1.2
    exact ⟨c, hc1.1, hc2, hall c (hmem n hn c hc1.1 hc2)⟩

/-- C232 (limits).  When one input is missing and another is given twice, the second copy takes the place of the missing one: without
the condensation level, two cloud tops are accepted. -/
theorem C232_missing_refuted : ∃ (cubes : List (NamedField ℕ)) (out : NamedField ℕ), hailFractionProcess cubes = .ok out ∧
    ∀ c ∈ cubes, c.name ≠ "air_temperature_at_condensation_level" := by
  let f : String → StdUnit → NamedField ℕ := fun n u => ⟨n, u, (0, 0), [1], fun _ => 250⟩
  let cubes := [f "maximum_vertical_updraught" metrePerSecond, f "diameter_of_hail_stones" metre,
    f "air_temperature_at_convective_cloud_top" kelvin, f "air_temperature_at_convective_cloud_top" kelvin,
    f "altitude_of_rain_from_hail_falling_level" metre, f "surface_altitude" metre]
  have h : (hailFractionProcess cubes).toOption.isSome = true := by decide +kernel
  cases e : hailFractionProcess cubes with
  | error _ => rw [e] at h; exact absurd h (by simp [Except.toOption])
  | ok out => exact ⟨cubes, out, e, by decide +kernel⟩

/-- Concrete case: inputs in another order, hail size in millimetres and cloud top in Celsius. -/
example :
    let f : String → StdUnit → ℚ → NamedField ℕ := fun n u v => ⟨n, u, (0, 0), [1], fun _ => v⟩
    ((hailFractionProcess [f "surface_altitude" metre 500, f "air_temperature_at_convective_cloud_top" ⟨"temperature", 1, 27315 / 100⟩ (-20),
      f "rainfall_rate" metrePerSecond 3, f "diameter_of_hail_stones" ⟨"length", 1 / 1000, 0⟩ 1,
      f "maximum_vertical_updraught" metrePerSecond 23, f "altitude_of_rain_from_hail_falling_level" metre 400,
      f "air_temperature_at_condensation_level" kelvin 280]).toOption.map fun o => o.data [0]) = some (1 / 10) := by decide +kernel

end Improver
