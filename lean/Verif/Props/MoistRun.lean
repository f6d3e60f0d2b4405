import Verif.Model.MoistRun
import Verif.Props.HailSizeRun
import Verif.Props.LevelRun
import Verif.Props.WetBulb

/-! C260-C262: convective cloud top, condensation level and wet bulb temperature from cubes. -/

namespace Improver

/-- The inputs of the convective cloud top. -/
def Spec.cloudTopNames : List String := ["air_temperature_at_condensation_level", "air_pressure_at_condensation_level", "air_temperature"]

/-- The three inputs fit together: quantities, grid, dimensions. -/
def Spec.cloudTopFit {X : Type} (c p t : PressureField X) : Prop :=
  [c, p, t].map (fun f => f.field.unit.dimension) = ["temperature", "pressure", "temperature"] ∧
  (∀ f ∈ [p, t], f.field.place = c.field.place) ∧ p.field.shape = c.field.shape ∧ t.field.shape = c.field.shape

open Classical in
/-- The cloud top of a parcel from the condensation level (temperature `t0`, pressure `p0`) through levels (pressure, air temperature): the parcel's temperature at
the last level before the first one above the cloud base where it is colder than the air; none within 4 K of the base. -/
noncomputable def Spec.cloudTop (parcel : ℝ → ℝ) (t0 p0 : ℝ) (levels : List (ℝ × ℝ)) : Option ℝ :=
  let reached := levels.takeWhile fun l => decide (¬ (parcel l.1 < l.2 ∧ l.1 < p0))
  let top := match reached.getLast? with
    | some l => parcel l.1
    | none => t0
  if 4 ≤ t0 - top then some top else none

theorem oneField_ok {X : Type} {n : String} {cubes l : List (PressureField X)} (hp : cubes.Perm l) {f : PressureField X}
    (h : l.filter (fun c => decide (c.field.name = n)) = [f]) : oneField n cubes = .ok f := by
  unfold oneField
  rw [filterField_single hp n h]

theorem oneField_only {X : Type} {n : String} {cubes : List (PressureField X)} {f : PressureField X} (h : oneField n cubes = .ok f) :
    cubes.filter (fun c => decide (c.field.name = n)) = [f] ∧ f ∈ cubes ∧ f.field.name = n := by
  unfold oneField at h
  split at h
  · rename_i g hg
    injection h with h
    subst h
    have : g ∈ cubes.filter (fun c => decide (c.field.name = n)) := by rw [hg]; simp
    rw [List.mem_filter] at this
    exact ⟨hg, this.1, by simpa using this.2⟩
  · exact nomatch h

theorem takeWhile_map_pred {α β : Type} (g : α → β) (q : β → Bool) (l : List α) : (l.map g).takeWhile q = (l.takeWhile (q ∘ g)).map g :=
  List.takeWhile_map ..

open Classical in
theorem cloudTopValues_spec {X : Type} (solve : List ℕ → ℝ → (ℝ → ℝ) → ℝ → ℝ) (levels : List ℚ) (t p c : NamedField X) (idx : List ℕ)
    (hi : Spec.inArray idx c.shape) :
    cloudTopValues solve levels t p c idx =
      Spec.cloudTop (fun pr => parcelT (solve idx pr) (c.data idx) (p.data idx) pr) (c.data idx) (p.data idx)
        ((List.range levels.length).map fun k => (((levels.getD k 0 : ℚ) : ℝ), ((t.data (k :: idx) : ℚ) : ℝ))) := by
  have hm : idx ∈ arrayIndices c.shape := (mem_arrayIndices _ _).2 hi
  have hlt : (arrayIndices c.shape).idxOf idx < (arrayIndices c.shape).length := List.idxOf_lt_length_iff.2 hm
  have hc : (arrayIndices c.shape).getD ((arrayIndices c.shape).idxOf idx) [] = idx := by
    rw [List.getD_eq_getElem _ _ hlt, List.getElem_idxOf]
  unfold cloudTopValues Spec.cloudTop
  simp only
  rw [cctLoop_pointwise _ _ _ _ _ hlt]
  simp only [if_true, hc]
  generalize hN : (List.range levels.length) = ks
  rw [takeWhile_map_pred, takeWhile_map_pred, List.getLast?_map, List.getLast?_map]
  have e : ((fun l : ℝ × (ℕ → ℝ) => decide (¬ Spec.stopped (fun pr => parcelT (solve idx pr) (c.data idx) (p.data idx) pr) (p.data idx) l.1
        (l.2 ((arrayIndices c.shape).idxOf idx)))) ∘
        fun k : ℕ => (((levels.getD k 0 : ℚ) : ℝ), fun i : ℕ => ((t.data (k :: (arrayIndices c.shape).getD i []) : ℚ) : ℝ))) =
      ((fun l : ℝ × ℝ => decide (¬ (parcelT (solve idx l.1) (c.data idx) (p.data idx) l.1 < l.2 ∧ l.1 < (p.data idx : ℝ)))) ∘
        fun k : ℕ => (((levels.getD k 0 : ℚ) : ℝ), ((t.data (k :: idx) : ℚ) : ℝ))) := by
    funext k
    simp only [Function.comp, Spec.stopped, hc]
  rw [e]
  cases (ks.takeWhile _).getLast? with
  | none => simp only [Option.map_none]; split_ifs <;> first | rfl | linarith
  | some k => simp only [Option.map_some]; split_ifs <;> first | rfl | linarith

/-- The levels (pressure, air temperature in K) over a point. -/
noncomputable def Spec.airColumn {X : Type} (t : PressureField X) (idx : List ℕ) : List (ℝ × ℝ) :=
  (List.range t.levels.length).map fun k => (((t.levels.getD k 0 : ℚ) : ℝ), ((t.field.base (k :: idx) : ℚ) : ℝ))

/-- C260.  The three inputs may come in any order, among others, in any units of their quantities: on one grid the cloud top is made, and each point has the cloud top
of its own parcel and column. -/
theorem C260_value {X : Type} [DecidableEq X] (solve : List ℕ → ℝ → (ℝ → ℝ) → ℝ → ℝ) (c p t : PressureField X) (others cubes : List (PressureField X))
    (hp : cubes.Perm ([c, p, t] ++ others)) (hn : [c, p, t].map (fun f => f.field.name) = Spec.cloudTopNames)
    (ho : ∀ f ∈ others, f.field.name ∉ Spec.cloudTopNames) (hf : Spec.cloudTopFit c p t) :
    ∃ out, cloudTopProcess solve cubes = .ok out ∧ out.name = "air_temperature_at_convective_cloud_top" ∧ out.unit = "K" ∧ out.place = c.field.place ∧
      out.shape = c.field.shape ∧ ∀ idx, Spec.inArray idx c.field.shape → out.data idx =
        Spec.cloudTop (fun pr => parcelT (solve idx pr) (c.field.base idx) (p.field.base idx) pr) (c.field.base idx) (p.field.base idx) (Spec.airColumn t idx) := by
  obtain ⟨hu, hg, hs1, hs2⟩ := hf
  simp only [List.map_cons, List.map_nil, List.cons.injEq, and_true] at hu
  obtain ⟨u1, u2, u3⟩ := hu
  simp only [List.mem_cons, List.not_mem_nil, or_false, forall_eq_or_imp, forall_eq] at hg
  obtain ⟨g1, g2⟩ := hg
  have hn' := hn
  unfold Spec.cloudTopNames at hn
  simp only [List.map_cons, List.map_nil, List.cons.injEq, and_true] at hn
  obtain ⟨n1, n2, n3⟩ := hn
  have hnil : ∀ n ∈ Spec.cloudTopNames, others.filter (fun c => decide (c.field.name = n)) = [] := by
    intro n hn
    rw [List.filter_eq_nil_iff]
    intro f hf h
    have : f.field.name = n := by simpa using h
    exact ho f hf (this ▸ hn)
  have e1 : oneField "air_temperature_at_condensation_level" cubes = .ok c := by
    apply oneField_ok hp
    rw [List.filter_append, hnil _ (by simp [Spec.cloudTopNames])]
    simp only [List.filter, n1, n2, n3, String.reduceEq, decide_true, decide_false, List.append_nil]
  have e2 : oneField "air_pressure_at_condensation_level" cubes = .ok p := by
    apply oneField_ok hp
    rw [List.filter_append, hnil _ (by simp [Spec.cloudTopNames])]
    simp only [List.filter, n1, n2, n3, String.reduceEq, decide_true, decide_false, List.append_nil]
  have e3 : oneField "air_temperature" cubes = .ok t := by
    apply oneField_ok hp
    rw [List.filter_append, hnil _ (by simp [Spec.cloudTopNames])]
    simp only [List.filter, n1, n2, n3, String.reduceEq, decide_true, decide_false, List.append_nil]
  have m1 : spatialMatch ([c, p, t].map fun f => f.field.place) = .ok true := spatialMatch_true _ _ (by simp [g1, g2])
  unfold cloudTopProcess
  rw [e1, e2, e3]
  simp only [bind, Except.bind]
  rw [m1]
  simp only
  rw [if_neg (by simp), NamedField.convert_ok t.field kelvin u3 rfl rfl]
  simp only
  rw [NamedField.convert_ok c.field kelvin u1 rfl rfl]
  simp only
  rw [NamedField.convert_ok p.field pascal u2 rfl rfl]
  simp only
  rw [if_neg (by simp [hs1, hs2])]
  refine ⟨_, rfl, rfl, rfl, rfl, rfl, fun idx hi => ?_⟩
  exact cloudTopValues_spec solve t.levels _ _ _ idx hi

/-- C260.  The cloud top is made only from exactly one cube of each of the three names, in units of their quantities, on one grid. -/
theorem C260_complete {X : Type} [DecidableEq X] (solve : List ℕ → ℝ → (ℝ → ℝ) → ℝ → ℝ) (cubes : List (PressureField X)) (out : MaskedOut X)
    (h : cloudTopProcess solve cubes = .ok out) :
    ∃ c p t, (∀ f ∈ [c, p, t], cubes.filter (fun g => decide (g.field.name = f.field.name)) = [f]) ∧
      [c, p, t].map (fun f => f.field.name) = Spec.cloudTopNames ∧ Spec.cloudTopFit c p t := by
  unfold cloudTopProcess at h
  cases e1 : oneField "air_temperature_at_condensation_level" cubes with
  | error e => rw [e1] at h; exact nomatch h
  | ok c =>
  cases e2 : oneField "air_pressure_at_condensation_level" cubes with
  | error e => rw [e1, e2] at h; exact nomatch h
  | ok p =>
  cases e3 : oneField "air_temperature" cubes with
  | error e => rw [e1, e2, e3] at h; exact nomatch h
  | ok t =>
  rw [e1, e2, e3] at h
  simp only [bind, Except.bind] at h
  cases m : spatialMatch ([c, p, t].map fun f => f.field.place) with
  | error e => rw [m] at h; exact nomatch h
  | ok a =>
  rw [m] at h
  simp only at h
  cases a with
  | false => exact nomatch h
  | true =>
  rw [if_neg (by simp)] at h
  cases c1 : t.field.convert kelvin with
  | error e => rw [c1] at h; exact nomatch h
  | ok t' =>
  cases c2 : c.field.convert kelvin with
  | error e => rw [c1, c2] at h; exact nomatch h
  | ok c' =>
  cases c3 : p.field.convert pascal with
  | error e => rw [c1, c2, c3] at h; exact nomatch h
  | ok p' =>
  rw [c1, c2, c3] at h
  simp only at h
  by_cases hs : p'.shape ≠ c'.shape ∨ t'.shape ≠ c'.shape
  · rw [if_pos hs] at h
    exact nomatch h
  push Not at hs
  obtain ⟨d1, s1, -⟩ := convert_dimension c1
  obtain ⟨d2, s2, -⟩ := convert_dimension c2
  obtain ⟨d3, s3, -⟩ := convert_dimension c3
  obtain ⟨f1, -, b1⟩ := oneField_only e1
  obtain ⟨f2, -, b2⟩ := oneField_only e2
  obtain ⟨f3, -, b3⟩ := oneField_only e3
  have q := spatialMatch_same m
  refine ⟨c, p, t, ?_, ?_, ?_, ?_, ?_, ?_⟩
  · intro f hf
    simp only [List.mem_cons, List.not_mem_nil, or_false] at hf
    rcases hf with rfl | rfl | rfl
    · rw [b1]; exact f1
    · rw [b2]; exact f2
    · rw [b3]; exact f3
  · simp only [List.map_cons, List.map_nil, b1, b2, b3, Spec.cloudTopNames]
  · simp only [List.map_cons, List.map_nil, d1, d2, d3]
    rfl
  · intro f hf
    simp only [List.mem_cons, List.not_mem_nil, or_false] at hf
    rcases hf with rfl | rfl
    · exact q _ (by simp) _ (by simp)
    · exact q _ (by simp) _ (by simp)
  · rw [← s3, ← s2]; exact hs.1
  · rw [← s1, ← s2]; exact hs.2

/-- C260.  A cloud top that is given is at least 4 K colder than its base and is the parcel's temperature at one of the levels; where that level is above the base the
air there is not warmer than the parcel. -/
theorem C260_buoyant (parcel : ℝ → ℝ) (t0 p0 : ℝ) (levels : List (ℝ × ℝ)) (v : ℝ) (h : Spec.cloudTop parcel t0 p0 levels = some v) :
    v ≤ t0 - 4 ∧ ∃ l ∈ levels, v = parcel l.1 ∧ (l.1 < p0 → l.2 ≤ v) := by
  classical
  unfold Spec.cloudTop at h
  simp only at h
  generalize hr : (levels.takeWhile _) = r at h
  cases hl : r.getLast? with
  | none =>
    rw [hl] at h
    simp only at h
    rw [if_neg (by norm_num)] at h
    exact nomatch h
  | some l =>
    rw [hl] at h
    simp only at h
    by_cases h4 : 4 ≤ t0 - parcel l.1
    · rw [if_pos h4] at h
      injection h with h
      subst h
      have hm : l ∈ r := List.mem_of_getLast? hl
      rw [← hr] at hm
      have hq := List.all_eq_true.1 List.all_takeWhile _ hm
      simp only [decide_eq_true_eq, not_and] at hq
      refine ⟨by linarith, l, (List.takeWhile_prefix _).subset hm, rfl, fun hp => ?_⟩
      by_contra hc
      exact hq (not_le.1 hc) hp
    · rw [if_neg h4] at h
      exact nomatch h

/-- Finding: the unit of the pressure coordinate of the temperatures is not looked at, while the condensation pressure is converted to Pa. -/
theorem C260_level_unit_refuted {X : Type} [DecidableEq X] (solve : List ℕ → ℝ → (ℝ → ℝ) → ℝ → ℝ) (cubes : List (PressureField X)) (u : StdUnit) :
    cloudTopProcess solve (cubes.map fun c => { c with levelUnit := u }) = cloudTopProcess solve cubes := by
  have hex : ∀ n, oneField n (cubes.map fun c => { c with levelUnit := u }) = (oneField n cubes).map fun c => { c with levelUnit := u } := by
    intro n
    unfold oneField
    rw [List.filter_map]
    have : ((fun c : PressureField X => decide (c.field.name = n)) ∘ fun c => { c with levelUnit := u }) = fun c : PressureField X => decide (c.field.name = n) := rfl
    rw [this]
    generalize cubes.filter (fun c : PressureField X => decide (c.field.name = n)) = l
    rcases l with _ | ⟨a, _ | ⟨b, l⟩⟩ <;> rfl
  unfold cloudTopProcess
  rw [hex, hex, hex]
  cases oneField "air_temperature_at_condensation_level" cubes with
  | error e => rfl
  | ok c =>
  cases oneField "air_pressure_at_condensation_level" cubes with
  | error e => rfl
  | ok p =>
  cases oneField "air_temperature" cubes with
  | error e => rfl
  | ok t => rfl

/-- Finding: the result depends on the order of the levels, which the pressures do not decide: through a warm layer aloft a parcel rises if a higher level
comes first in the cube. -/
theorem C260_level_order_refuted : ∃ (parcel : ℝ → ℝ) (t0 p0 : ℝ) (levels : List (ℝ × ℝ)),
    (∀ a b, a < b → parcel a < parcel b) ∧ Spec.cloudTop parcel t0 p0 levels ≠ Spec.cloudTop parcel t0 p0 levels.reverse := by
  refine ⟨fun p => p, 300, 290, [(280, 400), (270, 0)], fun a b h => h, ?_⟩
  unfold Spec.cloudTop
  simp only [List.reverse_cons, List.reverse_nil, List.nil_append, List.cons_append]
  norm_num [List.takeWhile]
  exact fun h => nomatch h

/-- Inputs in other units. -/
def sampleCloudTop : List (PressureField ℕ) :=
  let f := fun (n : String) (u : StdUnit) (v : ℚ) => (⟨⟨n, u, (0, 1), [2, 2], fun _ => v⟩, [100000, 90000], pascal⟩ : PressureField ℕ)
  [f "air_temperature_at_condensation_level" ⟨"temperature", 1, 27315 / 100⟩ 12, f "air_pressure_at_condensation_level" ⟨"pressure", 100, 0⟩ 950,
   f "air_temperature" ⟨"temperature", 1, 27315 / 100⟩ 10]

example : ∃ c p t, sampleCloudTop = [c, p, t] ∧ [c, p, t].map (fun f => f.field.name) = Spec.cloudTopNames ∧ Spec.cloudTopFit c p t ∧
    Spec.inArray [1, 0] c.field.shape := by
  refine ⟨_, _, _, rfl, rfl, ⟨rfl, by simp, rfl, rfl⟩, ?_⟩
  exact .cons (by norm_num) (.cons (by norm_num) .nil)

example : Spec.cloudTop (fun p => p) 300 290 [(295, 0), (280, 100), (270, 290)] = some 280 := by
  unfold Spec.cloudTop
  norm_num [List.takeWhile]

/-! ## Condensation level -/

/-- The surface inputs of the condensation level. -/
def Spec.surfaceNames : List String := ["air_temperature", "surface_air_pressure", "relative_humidity"]

/-- C261.  The three inputs may come in any order among others: the humidity mixing ratio at each point is the relative humidity times that of saturated air there. -/
theorem C261_humidity {X : Type} (t p r : PressureField X) (others cubes : List (PressureField X)) (hp : cubes.Perm ([t, p, r] ++ others))
    (hn : [t, p, r].map (fun f => f.field.name) = Spec.surfaceNames) (ho : ∀ f ∈ others, f.field.name ∉ Spec.surfaceNames)
    (hs : t.field.shape = r.field.shape ∧ p.field.shape = r.field.shape) :
    ∃ q, humidityProcess cubes = .ok (q, t.field, p.field) ∧ q.name = "humidity_mixing_ratio" ∧ q.unit = "kg kg-1" ∧ q.place = r.field.place ∧
      q.shape = r.field.shape ∧
      ∀ idx, q.data idx = r.field.data idx * saturatedHumidity (t.field.data idx) (p.field.data idx) := by
  unfold Spec.surfaceNames at hn
  simp only [List.map_cons, List.map_nil, List.cons.injEq, and_true] at hn
  obtain ⟨n1, n2, n3⟩ := hn
  have hnil : ∀ n ∈ Spec.surfaceNames, others.filter (fun c => decide (c.field.name = n)) = [] := by
    intro n hn
    rw [List.filter_eq_nil_iff]
    intro f hf h
    have : f.field.name = n := by simpa using h
    exact ho f hf (this ▸ hn)
  have e1 : oneField "air_temperature" cubes = .ok t := by
    apply oneField_ok hp
    rw [List.filter_append, hnil _ (by simp [Spec.surfaceNames])]
    simp only [List.filter, n1, n2, n3, String.reduceEq, decide_true, decide_false, List.append_nil]
  have e2 : oneField "surface_air_pressure" cubes = .ok p := by
    apply oneField_ok hp
    rw [List.filter_append, hnil _ (by simp [Spec.surfaceNames])]
    simp only [List.filter, n1, n2, n3, String.reduceEq, decide_true, decide_false, List.append_nil]
  have e3 : oneField "relative_humidity" cubes = .ok r := by
    apply oneField_ok hp
    rw [List.filter_append, hnil _ (by simp [Spec.surfaceNames])]
    simp only [List.filter, n1, n2, n3, String.reduceEq, decide_true, decide_false, List.append_nil]
  unfold humidityProcess
  rw [e1, e2, e3]
  simp only [bind, Except.bind]
  rw [if_neg (by simp [hs.1, hs.2])]
  exact ⟨_, rfl, rfl, rfl, rfl, rfl, fun idx => mul_comm _ _⟩

/-- C261.  The condensation level of surface air: two fields on the grid of the temperature, in K and Pa, with the temperature of the dry adiabat through the surface
air at the pressure found, and, where the root finder finds a root that exists, saturated with the mixing ratio of the surface air. -/
theorem C261_level {X : Type} (solve : List ℕ → (ℝ → ℝ) → ℝ → ℝ) (t p r : PressureField X) (others cubes : List (PressureField X))
    (hp : cubes.Perm ([t, p, r] ++ others)) (hn : [t, p, r].map (fun f => f.field.name) = Spec.surfaceNames)
    (ho : ∀ f ∈ others, f.field.name ∉ Spec.surfaceNames) (hs : t.field.shape = r.field.shape ∧ p.field.shape = r.field.shape) :
    ∃ tl pl : HailOut X, metaCclProcess solve cubes = .ok (tl, pl) ∧
      (tl.name, tl.unit, tl.place, tl.shape) = ("air_temperature_at_condensation_level", "K", t.field.place, t.field.shape) ∧
      (pl.name, pl.unit, pl.place, pl.shape) = ("air_pressure_at_condensation_level", "Pa", t.field.place, t.field.shape) ∧
      ∀ idx, tl.data idx = dryTemperature (t.field.data idx) (p.field.data idx) (pl.data idx) ∧
        ((∀ (f : ℝ → ℝ) (x : ℝ), (∃ y, f y = 0) → f (solve idx f x) = 0) →
          (∃ p2, saturatedHumidity (dryTemperature (t.field.data idx) (p.field.data idx) p2) p2 =
            r.field.data idx * saturatedHumidity (t.field.data idx) (p.field.data idx)) →
          saturatedHumidity (tl.data idx) (pl.data idx) = r.field.data idx * saturatedHumidity (t.field.data idx) (p.field.data idx)) := by
  obtain ⟨q, hq, -, -, -, hqs, hqd⟩ := C261_humidity t p r others cubes hp hn ho hs
  unfold metaCclProcess cclProcess
  rw [hq]
  simp only [bind, Except.bind]
  rw [if_neg (by simp [hs.1, hs.2, hqs])]
  refine ⟨_, _, rfl, rfl, rfl, fun idx => ⟨rfl, fun hsolve hex => ?_⟩⟩
  rw [← hqd] at hex ⊢
  exact C155_saturated_there (solve idx) hsolve hex

/-- C261.  Saturated surface air is at its condensation level: the surface pressure is a root, and at it the condensation temperature is that of the air. -/
theorem C261_saturated {X : Type} (solve : List ℕ → (ℝ → ℝ) → ℝ → ℝ) (t p r : PressureField X) (others cubes : List (PressureField X))
    (hp : cubes.Perm ([t, p, r] ++ others)) (hn : [t, p, r].map (fun f => f.field.name) = Spec.surfaceNames)
    (ho : ∀ f ∈ others, f.field.name ∉ Spec.surfaceNames) (hs : t.field.shape = r.field.shape ∧ p.field.shape = r.field.shape) (idx : List ℕ)
    (ht : 0 < t.field.data idx) (hpp : 0 < p.field.data idx) (hr : r.field.data idx = 1)
    (hsolve : ∀ (f : ℝ → ℝ) (x : ℝ), f x = 0 → solve idx f x = x) (tl pl : HailOut X) (h : metaCclProcess solve cubes = .ok (tl, pl)) :
    pl.data idx = p.field.data idx ∧ tl.data idx = t.field.data idx := by
  obtain ⟨q, hq, -, -, -, hqs, hqd⟩ := C261_humidity t p r others cubes hp hn ho hs
  unfold metaCclProcess cclProcess at h
  rw [hq] at h
  simp only [bind, Except.bind] at h
  rw [if_neg (by simp [hs.1, hs.2, hqs])] at h
  injection h with h
  injection h with h1 h2
  subst h1 h2
  have ht' : (0 : ℝ) < t.field.data idx := by exact_mod_cast ht
  have hp' : (0 : ℝ) < p.field.data idx := by exact_mod_cast hpp
  have hpr : (condensationLevel (solve idx) (t.field.data idx) (p.field.data idx) (q.data idx)).1 = p.field.data idx := by
    unfold condensationLevel
    apply hsolve
    rw [hqd, hr, (C145_path ht' hp' hp' hp').2.1]
    simp
  refine ⟨hpr, ?_⟩
  show (condensationLevel (solve idx) (t.field.data idx) (p.field.data idx) (q.data idx)).2 = _
  have : (condensationLevel (solve idx) (t.field.data idx) (p.field.data idx) (q.data idx)).2 =
    dryTemperature (t.field.data idx) (p.field.data idx) (condensationLevel (solve idx) (t.field.data idx) (p.field.data idx) (q.data idx)).1 := rfl
  rw [this, hpr]
  exact (C145_path ht' hp' hp' hp').2.1

/-- The field with another unit and, unless it is the temperature, on another grid. -/
def Spec.relabelled {X : Type} (newUnit : String → StdUnit) (grid : String → X × X) (c : PressureField X) : PressureField X :=
  ⟨⟨c.field.name, newUnit c.field.name, if c.field.name = "air_temperature" then c.field.place else grid c.field.name, c.field.shape, c.field.data⟩,
    c.levels, c.levelUnit⟩

/-- Finding: neither the units nor the grids of the inputs are looked at: with any units and any places of the pressure and humidity the results are the same and
are called K, Pa and on the grid of the temperature. -/
theorem C261_units_refuted {X : Type} (solve : List ℕ → (ℝ → ℝ) → ℝ → ℝ) (cubes : List (PressureField X)) (newUnit : String → StdUnit) (grid : String → X × X) :
    metaCclProcess solve (cubes.map (Spec.relabelled newUnit grid)) = metaCclProcess solve cubes := by
  generalize hg : Spec.relabelled newUnit grid = g
  have hname : ∀ c, (g c).field.name = c.field.name := fun c => by subst hg; rfl
  have hshape : ∀ c, (g c).field.shape = c.field.shape := fun c => by subst hg; rfl
  have hdata : ∀ c, (g c).field.data = c.field.data := fun c => by subst hg; rfl
  have hplace : ∀ c, c.field.name = "air_temperature" → (g c).field.place = c.field.place := fun c h => by subst hg; exact if_pos h
  have hex : ∀ n, oneField n (cubes.map g) = (oneField n cubes).map g := by
    intro n
    unfold oneField
    rw [List.filter_map]
    have : ((fun c : PressureField X => decide (c.field.name = n)) ∘ g) = fun c : PressureField X => decide (c.field.name = n) := by
      funext c
      simp only [Function.comp, hname]
    rw [this]
    generalize cubes.filter (fun c : PressureField X => decide (c.field.name = n)) = l
    rcases l with _ | ⟨a, _ | ⟨b, l⟩⟩ <;> rfl
  unfold metaCclProcess humidityProcess
  rw [hex, hex, hex]
  cases e1 : oneField "air_temperature" cubes with
  | error e => rfl
  | ok t =>
  cases oneField "surface_air_pressure" cubes with
  | error e => rfl
  | ok p =>
  cases oneField "relative_humidity" cubes with
  | error e => rfl
  | ok r =>
  simp only [Except.map, bind, Except.bind, hshape, hdata]
  by_cases hs : t.field.shape ≠ r.field.shape ∨ p.field.shape ≠ r.field.shape
  · rw [if_pos hs, if_pos hs]
  · rw [if_neg hs, if_neg hs]
    simp only [cclProcess, hshape, hdata, hplace t (oneField_only e1).2.2]

/-- Surface inputs. -/
def sampleSurface : List (PressureField ℕ) :=
  let f := fun (n : String) (u : StdUnit) (v : ℚ) => (⟨⟨n, u, (0, 1), [2, 2], fun _ => v⟩, [], pascal⟩ : PressureField ℕ)
  [f "air_temperature" kelvin 285, f "surface_air_pressure" pascal 100000, f "relative_humidity" pureNumber 1]

example : ∃ t p r, sampleSurface = [t, p, r] ∧ [t, p, r].map (fun f => f.field.name) = Spec.surfaceNames ∧
    (t.field.shape = r.field.shape ∧ p.field.shape = r.field.shape) ∧ r.field.data [0, 0] = 1 ∧ 0 < t.field.data [0, 0] ∧ 0 < p.field.data [0, 0] :=
  ⟨_, _, _, rfl, rfl, ⟨rfl, rfl⟩, rfl, by decide +kernel, by decide +kernel⟩

/-! ## Wet bulb temperature -/

/-- The inputs of the wet bulb temperature. -/
def Spec.wetBulbNames : List String := ["air_temperature", "relative_humidity", "air_pressure"]

/-- The quantities of the three inputs, and one shape. -/
def Spec.wetBulbFit {X : Type} (t r p : NamedField X) : Prop :=
  [t, r, p].map (fun f => f.unit.dimension) = ["temperature", "1", "pressure"] ∧ r.shape = t.shape ∧ p.shape = t.shape

/-- The wet bulb temperature of air: the first of the trial temperatures whose step is within the precision, at most the twentieth (C147). -/
noncomputable def Spec.wetBulbOf (precision t r p : ℝ) : ℝ := Spec.refine (Spec.increment t p r) precision 20 t

/-- A field holds the wet bulb temperatures (K) of the air of three fields. -/
def Spec.holdsWetBulb {X : Type} (precision : ℝ) (t r p : NamedField X) (w : HailOut X) : Prop :=
  w.name = "wet_bulb_temperature" ∧ w.unit = "K" ∧ w.place = t.place ∧ w.shape = t.shape ∧
  ∀ idx, Spec.inArray idx t.shape → w.data idx = Spec.wetBulbOf precision (t.base idx) (r.base idx) (p.base idx)

theorem wetBulbField_ok {X : Type} (precision : ℝ) (t r p : NamedField X) (hf : Spec.wetBulbFit t r p) :
    ∃ w, wetBulbField precision t r p = .ok w ∧ Spec.holdsWetBulb precision t r p w := by
  obtain ⟨hu, hs1, hs2⟩ := hf
  simp only [List.map_cons, List.map_nil, List.cons.injEq, and_true] at hu
  obtain ⟨u1, u2, u3⟩ := hu
  unfold wetBulbField
  rw [NamedField.convert_ok t kelvin u1 rfl rfl, NamedField.convert_ok r pureNumber u2 rfl rfl, NamedField.convert_ok p pascal u3 rfl rfl]
  simp only [bind, Except.bind]
  rw [if_neg (by simp [hs1, hs2])]
  refine ⟨_, rfl, rfl, rfl, rfl, rfl, fun idx hi => ?_⟩
  have hm : idx ∈ arrayIndices t.shape := (mem_arrayIndices _ _).2 hi
  have hlt : (arrayIndices t.shape).idxOf idx < (arrayIndices t.shape).length := List.idxOf_lt_length_iff.2 hm
  have hc : (arrayIndices t.shape).getD ((arrayIndices t.shape).idxOf idx) [] = idx := by
    rw [List.getD_eq_getElem _ _ hlt, List.getElem_idxOf]
  simp only
  rw [C147_pointwise _ _ _ _ _ _ hlt, hc]
  rfl

theorem wetBulbField_only {X : Type} (precision : ℝ) (t r p : NamedField X) (w : HailOut X) (h : wetBulbField precision t r p = .ok w) :
    Spec.wetBulbFit t r p := by
  unfold wetBulbField at h
  cases c1 : t.convert kelvin with
  | error e => rw [c1] at h; exact nomatch h
  | ok t' =>
  cases c2 : r.convert pureNumber with
  | error e => rw [c1, c2] at h; exact nomatch h
  | ok r' =>
  cases c3 : p.convert pascal with
  | error e => rw [c1, c2, c3] at h; exact nomatch h
  | ok p' =>
  rw [c1, c2, c3] at h
  simp only [bind, Except.bind] at h
  obtain ⟨d1, s1, -⟩ := convert_dimension c1
  obtain ⟨d2, s2, -⟩ := convert_dimension c2
  obtain ⟨d3, s3, -⟩ := convert_dimension c3
  by_cases hs : r'.shape ≠ t'.shape ∨ p'.shape ≠ t'.shape
  · rw [if_pos hs] at h
    exact nomatch h
  push Not at hs
  refine ⟨?_, by rw [← s2, ← s1]; exact hs.1, by rw [← s3, ← s1]; exact hs.2⟩
  simp only [List.map_cons, List.map_nil, d1, d2, d3]
  rfl

theorem oneZ_ok {X : Type} {n : String} {cubes l : List (ZField X)} (hp : cubes.Perm l) {f : ZField X}
    (h : l.filter (fun c => decide (c.field.name = n)) = [f]) : oneZ n cubes = .ok f := by
  have := hp.filter (fun c => decide (c.field.name = n))
  rw [h] at this
  unfold oneZ
  rw [List.perm_singleton.1 this]

theorem wetBulbProcess_on {X : Type} (precision : ℝ) (t r p : ZField X) (cubes : List (ZField X)) (hp : cubes.Perm [t, r, p])
    (hn : [t, r, p].map (fun f => f.field.name) = Spec.wetBulbNames) : wetBulbProcess precision cubes = wetBulbOn precision t r p := by
  unfold Spec.wetBulbNames at hn
  simp only [List.map_cons, List.map_nil, List.cons.injEq, and_true] at hn
  obtain ⟨n1, n2, n3⟩ := hn
  have e1 : oneZ "air_temperature" cubes = .ok t := by
    apply oneZ_ok hp
    simp only [List.filter, n1, n2, n3, String.reduceEq, decide_true, decide_false]
  have e2 : oneZ "relative_humidity" cubes = .ok r := by
    apply oneZ_ok hp
    simp only [List.filter, n1, n2, n3, String.reduceEq, decide_true, decide_false]
  have e3 : oneZ "air_pressure" cubes = .ok p := by
    apply oneZ_ok hp
    simp only [List.filter, n1, n2, n3, String.reduceEq, decide_true, decide_false]
  unfold wetBulbProcess
  rw [if_neg (by rw [hp.length_eq]; simp), e1, e2, e3]
  rfl

/-- C262.  Three cubes in any order, none with a vertical coordinate or each with a single level: one field of the wet bulb temperature of every point. -/
theorem C262_single {X : Type} (precision : ℝ) (t r p : ZField X) (cubes : List (ZField X)) (hp : cubes.Perm [t, r, p])
    (hn : [t, r, p].map (fun f => f.field.name) = Spec.wetBulbNames) (hz : (∀ c ∈ [t, r, p], c.z = none) ∨ ∀ c ∈ [t, r, p], ∃ v, c.z = some (v, false))
    (hf : Spec.wetBulbFit t.field r.field p.field) :
    ∃ w, wetBulbProcess precision cubes = .ok ⟨none, [w]⟩ ∧ Spec.holdsWetBulb precision t.field r.field p.field w := by
  rw [wetBulbProcess_on precision t r p cubes hp hn]
  unfold wetBulbOn
  have hwhole : ∀ c ∈ [t, r, p], c.whole = c.field := by
    intro c hc
    unfold ZField.whole
    rcases hz with h | h
    · rw [h c hc]
    · obtain ⟨v, hv⟩ := h c hc
      rw [hv]
  have hsl : sliceInputs (⟨t.z, t.slices⟩ : LevelCube (ℚ × NamedField X)) ⟨r.z, r.slices⟩ ⟨p.z, p.slices⟩ = .ok .whole := by
    rw [C148_whole]
    rcases hz with h | h
    · exact Or.inl (Or.inl (h t (by simp)))
    · exact Or.inr ⟨h t (by simp), h r (by simp), h p (by simp)⟩
  rw [hsl]
  simp only
  rw [hwhole t (by simp), hwhole r (by simp), hwhole p (by simp)]
  obtain ⟨w, hw, hs⟩ := wetBulbField_ok precision _ _ _ hf
  rw [hw]
  exact ⟨w, rfl, hs⟩

/-- The field of one level. -/
def Spec.oneLevel {X : Type} (c : ZField X) (k : ℕ) : NamedField X :=
  ⟨c.field.name, c.field.unit, c.field.place, c.field.shape, fun idx => c.field.data (k :: idx)⟩

theorem wetBulb_levels {X : Type} (precision : ℝ) (t r p : ZField X) (v : String) (hz : ∀ c ∈ [t, r, p], c.z = some (v, true))
    (hl : ∀ c ∈ [r, p], c.levels.length = t.levels.length) :
    wetBulbOn precision t r p =
      (((List.range t.levels.length).mapM fun k => (wetBulbField precision (Spec.oneLevel t k) (Spec.oneLevel r k) (Spec.oneLevel p k)).map
        fun w => (t.levels.getD k 0, w)) >>= mergeLevels) := by
  unfold wetBulbOn
  have hsl : sliceInputs (⟨t.z, t.slices⟩ : LevelCube (ℚ × NamedField X)) ⟨r.z, r.slices⟩ ⟨p.z, p.slices⟩ =
      .ok (.slices (t.slices.zip (r.slices.zip p.slices))) := by
    rw [C148_slices]
    exact ⟨⟨v, hz t (by simp), hz r (by simp), hz p (by simp)⟩, rfl⟩
  rw [hsl]
  simp only
  have hzip : t.slices.zip (r.slices.zip p.slices) = (List.range t.levels.length).map fun k =>
      ((t.levels.getD k 0, Spec.oneLevel t k), (r.levels.getD k 0, Spec.oneLevel r k), (p.levels.getD k 0, Spec.oneLevel p k)) := by
    unfold ZField.slices
    rw [hl r (by simp), hl p (by simp), List.zip_map', List.zip_map']
    rfl
  rw [hzip, List.mapM_map]
  congr 2

/-- C262.  On levels: the result has the levels of the temperature in ascending order, and at each the wet bulb temperatures of the temperature, humidity and pressure
of that level. -/
theorem C262_levels {X : Type} (precision : ℝ) (t r p : ZField X) (cubes : List (ZField X)) (hp : cubes.Perm [t, r, p])
    (hn : [t, r, p].map (fun f => f.field.name) = Spec.wetBulbNames) (v : String) (hz : ∀ c ∈ [t, r, p], c.z = some (v, true))
    (hl : ∀ c ∈ [r, p], c.levels = t.levels) (hne : t.levels ≠ []) (hnd : t.levels.Nodup) (hf : Spec.wetBulbFit t.field r.field p.field) :
    ∃ (levels : List ℚ) (fields : List (HailOut X)), wetBulbProcess precision cubes = .ok ⟨some levels, fields⟩ ∧ levels.Perm t.levels ∧ levels.Pairwise (· < ·) ∧
      fields.length = levels.length ∧
      ∀ (j : ℕ) (z : ℚ), levels[j]? = some z → ∃ (k : ℕ) (w : HailOut X), t.levels[k]? = some z ∧ fields[j]? = some w ∧
        Spec.holdsWetBulb precision (Spec.oneLevel t k) (Spec.oneLevel r k) (Spec.oneLevel p k) w := by
  rw [wetBulbProcess_on precision t r p cubes hp hn, wetBulb_levels precision t r p v hz (fun c hc => by rw [hl c hc])]
  have hk : ∀ k, ∃ w, wetBulbField precision (Spec.oneLevel t k) (Spec.oneLevel r k) (Spec.oneLevel p k) = .ok w ∧
      Spec.holdsWetBulb precision (Spec.oneLevel t k) (Spec.oneLevel r k) (Spec.oneLevel p k) w := fun k => wetBulbField_ok precision _ _ _ hf
  choose w hw hs using hk
  have hm : (List.range t.levels.length).mapM (fun k => (wetBulbField precision (Spec.oneLevel t k) (Spec.oneLevel r k) (Spec.oneLevel p k)).map
      fun w => (t.levels.getD k 0, w)) = .ok ((List.range t.levels.length).map fun k => (t.levels.getD k 0, w k)) := by
    generalize List.range t.levels.length = ks
    induction ks with
    | nil => rfl
    | cons k ks ih =>
      rw [List.mapM_cons, ih, hw k]
      rfl
  rw [hm]
  simp only [bind, Except.bind]
  unfold mergeLevels
  have hfst : ((List.range t.levels.length).map fun k => (t.levels.getD k 0, w k)).map Prod.fst = t.levels := by
    rw [List.map_map]
    exact map_getD_range t.levels 0
  have hlen : t.levels.length ≠ 0 := fun h => hne (List.length_eq_zero_iff.1 h)
  rw [if_neg (by
    rw [hfst]
    rintro (h | h)
    · have := congrArg List.length h
      simp at this
      exact hne this
    · exact h hnd)]
  simp only
  generalize hL : ((List.range t.levels.length).map fun k => (t.levels.getD k 0, w k)) = l at hfst ⊢
  have hperm := List.perm_insertionSort (fun a b : ℚ × HailOut X => a.1 ≤ b.1) l
  have hsort := List.pairwise_insertionSort (fun a b : ℚ × HailOut X => a.1 ≤ b.1) l
  generalize hS : l.insertionSort (fun a b : ℚ × HailOut X => a.1 ≤ b.1) = srt at hperm hsort ⊢
  have hpl : (srt.map Prod.fst).Perm t.levels := hfst ▸ hperm.map Prod.fst
  refine ⟨_, _, rfl, hpl, ?_, by simp, ?_⟩
  · have h1 : (srt.map Prod.fst).Pairwise (· ≤ ·) := List.pairwise_map.2 hsort
    have h2 : (srt.map Prod.fst).Nodup := hpl.nodup_iff.2 hnd
    exact h1.imp₂ (fun a b h h' => lt_of_le_of_ne h h') h2
  · intro j z hj
    rw [List.getElem?_map] at hj
    cases hsj : srt[j]? with
    | none => rw [hsj] at hj; exact nomatch hj
    | some q =>
      rw [hsj] at hj
      have hq : q ∈ l := hperm.subset (List.mem_of_getElem? hsj)
      rw [← hL, List.mem_map] at hq
      obtain ⟨k, hk, rfl⟩ := hq
      rw [List.mem_range] at hk
      injection hj with hj
      refine ⟨k, w k, ?_, by rw [List.getElem?_map, hsj]; rfl, hs k⟩
      rw [← hj, List.getD_eq_getElem _ _ hk]
      exact List.getElem?_eq_getElem hk

/-- C262.  Saturated air keeps its temperature, whatever the units of the inputs. -/
theorem C262_saturated {X : Type} {precision : ℝ} (hprec : 0 ≤ precision) (t r p : NamedField X) (w : HailOut X) (h : Spec.holdsWetBulb precision t r p w)
    (idx : List ℕ) (hi : Spec.inArray idx t.shape) (hr : r.base idx = 1) : w.data idx = t.base idx := by
  rw [h.2.2.2.2 idx hi, hr]
  have := C147_saturated hprec 1 (fun _ => (p.base idx : ℝ)) (fun _ => ((1 : ℚ) : ℝ)) (fun _ => (t.base idx : ℝ)) 0 (by norm_num) (by norm_num)
  rw [C147_pointwise _ _ _ _ _ _ (by norm_num)] at this
  exact this

/-- C262.  Anything but one cube of each name, and three in all, is refused. -/
theorem C262_refused {X : Type} (precision : ℝ) (cubes : List (ZField X)) (out : WetOut X) (h : wetBulbProcess precision cubes = .ok out) :
    (cubes.map fun c => c.field.name).Perm Spec.wetBulbNames := by
  unfold wetBulbProcess at h
  by_cases hl : cubes.length ≠ 3
  · rw [if_pos hl] at h
    exact nomatch h
  rw [if_neg hl] at h
  push Not at hl
  have one : ∀ n f, oneZ n cubes = .ok f → n ∈ cubes.map fun c => c.field.name := by
    intro n f hf
    unfold oneZ at hf
    split at hf
    · rename_i g hg
      have : g ∈ cubes.filter (fun c => decide (c.field.name = n)) := by rw [hg]; simp
      rw [List.mem_filter] at this
      exact List.mem_map.2 ⟨g, this.1, by simpa using this.2⟩
    · exact nomatch hf
  cases e1 : oneZ "air_temperature" cubes with
  | error e => rw [e1] at h; exact nomatch h
  | ok t =>
  cases e2 : oneZ "relative_humidity" cubes with
  | error e => rw [e1, e2] at h; exact nomatch h
  | ok r =>
  cases e3 : oneZ "air_pressure" cubes with
  | error e => rw [e1, e2, e3] at h; exact nomatch h
  | ok p =>
  have hsub : Spec.wetBulbNames ⊆ cubes.map fun c => c.field.name := by
    intro n hn
    simp only [Spec.wetBulbNames, List.mem_cons, List.not_mem_nil, or_false] at hn
    rcases hn with rfl | rfl | rfl
    · exact one _ _ e1
    · exact one _ _ e2
    · exact one _ _ e3
  have hnd : Spec.wetBulbNames.Nodup := by decide
  have hsp := List.subperm_of_subset hnd hsub
  exact (hsp.perm_of_length_le (by rw [List.length_map, hl]; exact le_refl 3)).symm

/-- Finding: the grids of the humidity and the pressure, and their levels, are not looked at. -/
theorem C262_grid_refuted {X : Type} (precision : ℝ) (t r p : ZField X) (grid grid' : X × X) (levels levels' : List ℚ) (h : levels.length = r.levels.length)
    (h' : levels'.length = p.levels.length) (v : String) (hz : ∀ c ∈ [t, r, p], c.z = some (v, true)) (hl : ∀ c ∈ [r, p], c.levels.length = t.levels.length) :
    wetBulbOn precision t ⟨⟨r.field.name, r.field.unit, grid, r.field.shape, r.field.data⟩, r.z, levels⟩
      ⟨⟨p.field.name, p.field.unit, grid', p.field.shape, p.field.data⟩, p.z, levels'⟩ = wetBulbOn precision t r p := by
  rw [wetBulb_levels precision t r p v hz hl, wetBulb_levels precision t _ _ v]
  · congr 2
    funext k
    congr 1
    unfold wetBulbField
    cases (Spec.oneLevel t k).convert kelvin with
    | error e => rfl
    | ok t' =>
      simp only [NamedField.convert, Spec.oneLevel]
      by_cases d1 : r.field.unit.dimension ≠ pureNumber.dimension <;> by_cases d2 : p.field.unit.dimension ≠ pascal.dimension <;>
        simp only [d1, d2, if_true, if_false, bind, Except.bind, ne_eq, not_false_eq_true] <;> rfl
  · intro c hc
    simp only [List.mem_cons, List.not_mem_nil, or_false] at hc
    rcases hc with rfl | rfl | rfl
    · exact hz _ (by simp)
    · exact hz r (by simp)
    · exact hz p (by simp)
  · intro c hc
    simp only [List.mem_cons, List.not_mem_nil, or_false] at hc
    rcases hc with rfl | rfl
    · exact h.trans (hl r (by simp))
    · exact h'.trans (hl p (by simp))

/-- Inputs on two heights, the higher first, in other units. -/
def sampleWetBulb : List (ZField ℕ) :=
  let f := fun (n : String) (u : StdUnit) (v : ℚ) => (⟨⟨n, u, (0, 1), [2], fun _ => v⟩, some ("height", true), [20, 10]⟩ : ZField ℕ)
  [f "relative_humidity" ⟨"1", 1 / 100, 0⟩ 100, f "air_pressure" ⟨"pressure", 100, 0⟩ 1000, f "air_temperature" ⟨"temperature", 1, 27315 / 100⟩ 10]

example : ∃ t r p, sampleWetBulb.Perm [t, r, p] ∧ [t, r, p].map (fun f => f.field.name) = Spec.wetBulbNames ∧ (∀ c ∈ [t, r, p], c.z = some ("height", true)) ∧
    (∀ c ∈ [r, p], c.levels = t.levels) ∧ t.levels ≠ [] ∧ t.levels.Nodup ∧ Spec.wetBulbFit t.field r.field p.field ∧ r.field.base [0, 1] = 1 := by
  let f := fun (n : String) (u : StdUnit) (v : ℚ) => (⟨⟨n, u, (0, 1), [2], fun _ => v⟩, some ("height", true), [20, 10]⟩ : ZField ℕ)
  refine ⟨f "air_temperature" ⟨"temperature", 1, 27315 / 100⟩ 10, f "relative_humidity" ⟨"1", 1 / 100, 0⟩ 100, f "air_pressure" ⟨"pressure", 100, 0⟩ 1000,
    ?_, rfl, by simp [f], by simp [f], by simp [f], ?_, ⟨rfl, rfl, rfl⟩, by decide +kernel⟩
  · exact ((List.perm_append_comm (l₁ := [_, _]) (l₂ := [_])))
  · show ([20, 10] : List ℚ).Nodup
    decide +kernel

end Improver
