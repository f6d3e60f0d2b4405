import Verif.Model.HailSizeRun
import Verif.Props.Hail
import Verif.Props.HailRun
import Verif.Props.PrecipRun

/-! C250: hail size from its five inputs. -/

namespace Improver

/-- The names of the inputs. -/
def Spec.hailSizeNames : List String := ["air_temperature", "air_pressure_at_condensation_level", "air_temperature_at_condensation_level",
  "wet_bulb_freezing_level_altitude", "surface_altitude"]

/-- The value of a field in the base unit at an index of an array with (perhaps) more leading dimensions. -/
def Spec.baseAt {X : Type} (c : NamedField X) (shape idx : List ℕ) : ℚ := c.base (idx.drop (shape.length - c.shape.length))

/-- The column of temperatures (K) at an index. -/
def Spec.temperatureColumn {X : Type} (t : PressureField X) (idx : List ℕ) : List ℚ := (List.range t.levels.length).map fun k => t.field.base (k :: idx)

/-- The five inputs fit together: quantities, grid, dimensions. -/
def Spec.hailInputsFit {X : Type} (t p c w o : PressureField X) : Prop :=
  [t, p, c, w, o].map (fun f => f.field.unit.dimension) = ["temperature", "pressure", "temperature", "length", "length"] ∧
  (∀ f ∈ [t, p, w, o], f.field.place = c.field.place) ∧ t.field.shape = c.field.shape ∧ p.field.shape = c.field.shape ∧
  w.field.shape <:+ c.field.shape ∧ o.field.shape <:+ w.field.shape

theorem filterField_single {X : Type} {cubes l : List (PressureField X)} (hp : cubes.Perm l) (n : String) {f : PressureField X}
    (h : l.filter (fun c => decide (c.field.name = n)) = [f]) : cubes.filter (fun c => decide (c.field.name = n)) = [f] := by
  have := hp.filter (fun c => decide (c.field.name = n))
  rw [h] at this
  exact List.perm_singleton.1 this

theorem extractFields_five {X : Type} (t p c w o : PressureField X) (others cubes : List (PressureField X))
    (hp : cubes.Perm ([t, p, c, w, o] ++ others)) (hn : [t, p, c, w, o].map (fun f => f.field.name) = Spec.hailSizeNames)
    (ho : ∀ f ∈ others, f.field.name ∉ Spec.hailSizeNames) : extractFields Spec.hailSizeNames cubes = [t, p, c, w, o] := by
  unfold Spec.hailSizeNames at hn
  simp only [List.map_cons, List.map_nil, List.cons.injEq, and_true] at hn
  obtain ⟨n1, n2, n3, n4, n5⟩ := hn
  have hfil : ∀ n ∈ Spec.hailSizeNames, cubes.filter (fun c => decide (c.field.name = n)) = ([t, p, c, w, o].filter fun c => decide (c.field.name = n)) := by
    intro n hn
    have key : ∃ f, ([t, p, c, w, o].filter fun c => decide (c.field.name = n)) = [f] := by
      simp only [Spec.hailSizeNames, List.mem_cons, List.not_mem_nil, or_false] at hn
      rcases hn with rfl | rfl | rfl | rfl | rfl <;>
        simp only [List.filter, n1, n2, n3, n4, n5, String.reduceEq, decide_true, decide_false] <;> exact ⟨_, rfl⟩
    obtain ⟨f, hf⟩ := key
    rw [hf]
    apply filterField_single hp n
    have hnil : others.filter (fun c => decide (c.field.name = n)) = [] := by
      rw [List.filter_eq_nil_iff]
      intro f hf h
      have : f.field.name = n := by simpa using h
      exact ho f hf (this ▸ hn)
    rw [List.filter_append, hf, hnil, List.append_nil]
  unfold extractFields
  rw [List.flatMap_congr hfil]
  unfold Spec.hailSizeNames
  simp only [List.flatMap_cons, List.flatMap_nil, List.filter, n1, n2, n3, n4, n5, String.reduceEq, decide_true, decide_false,
    List.cons_append, List.nil_append]

/-- C250.  The five inputs may come in any order, among others, in any units of their quantities: on one grid the hail size is made, and at each point it is that of
condensation temperature (K) and pressure (Pa), the pressure of 268.15 K in the column of temperatures (K) of that point, and the wet bulb freezing level above the
ground (m). -/
theorem C250_value {X : Type} [DecidableEq X] (solve : (ℝ → ℝ) → ℝ → ℝ) (interp : List ℚ → List ℚ → Option ℚ) (t p c w o : PressureField X)
    (others cubes : List (PressureField X)) (hp : cubes.Perm ([t, p, c, w, o] ++ others))
    (hn : [t, p, c, w, o].map (fun f => f.field.name) = Spec.hailSizeNames) (ho : ∀ f ∈ others, f.field.name ∉ Spec.hailSizeNames)
    (hf : Spec.hailInputsFit t p c w o) :
    ∃ out, hailSizeProcess solve interp cubes = .ok out ∧ out.name = "diameter_of_hail_stones" ∧ out.unit = "m" ∧ out.place = c.field.place ∧
      out.shape = c.field.shape ∧
      ∀ idx, out.data idx = hailSize solve (c.field.base idx) (p.field.base idx) ((interp (Spec.temperatureColumn t idx) t.levels).map fun q : ℚ => (q : ℝ))
        (some ((Spec.baseAt w.field c.field.shape idx - Spec.baseAt o.field c.field.shape idx : ℚ) : ℝ)) := by
  obtain ⟨hu, hg, hs1, hs2, hs3, hs4⟩ := hf
  simp only [List.map_cons, List.map_nil, List.cons.injEq, and_true] at hu
  obtain ⟨u1, u2, u3, u4, u5⟩ := hu
  simp only [List.mem_cons, List.not_mem_nil, or_false, forall_eq_or_imp, forall_eq] at hg
  obtain ⟨g1, g2, g3, g4⟩ := hg
  have hex := extractFields_five t p c w o others cubes hp hn ho
  have m1 : spatialMatch ([w.field, o.field].map fun f => f.place) = .ok true := spatialMatch_true _ _ (by simp [g3, g4])
  have m2 : spatialMatch ([c.field, p.field, t.field, w.field].map fun f => f.place) = .ok true := spatialMatch_true _ _ (by simp [g1, g2, g3])
  have hck : checkHail t.field p.field c.field w.field o.field = .ok
      ⟨⟨t.field.name, kelvin, t.field.place, t.field.shape, t.field.base⟩, ⟨p.field.name, pascal, p.field.place, p.field.shape, p.field.base⟩,
        ⟨c.field.name, kelvin, c.field.place, c.field.shape, c.field.base⟩, ⟨w.field.name, metre, w.field.place, w.field.shape, w.field.base⟩,
        ⟨o.field.name, metre, o.field.place, o.field.shape, o.field.base⟩⟩ := by
    unfold checkHail
    rw [m1, m2, NamedField.convert_ok c.field kelvin u3 rfl rfl, NamedField.convert_ok p.field pascal u2 rfl rfl,
      NamedField.convert_ok t.field kelvin u1 rfl rfl, NamedField.convert_ok w.field metre u4 rfl rfl, NamedField.convert_ok o.field metre u5 rfl rfl]
    rfl
  unfold hailSizeProcess
  rw [show extractFields ["air_temperature", "air_pressure_at_condensation_level", "air_temperature_at_condensation_level", "wet_bulb_freezing_level_altitude",
      "surface_altitude"] cubes = [t, p, c, w, o] from hex]
  dsimp only
  rw [hck]
  simp only [bind, Except.bind]
  rw [if_pos]
  · refine ⟨_, rfl, rfl, rfl, rfl, rfl, fun idx => ?_⟩
    rfl
  · simp only [HailInputs.fit, hs1, hs2, decide_true, Bool.true_and, Bool.and_eq_true, List.isSuffixOf_iff_suffix]
    exact ⟨hs3, hs4⟩

/-- C250.  Whatever the inputs, sizes are between 0 and 120 mm, whole millimetres. -/
theorem C250_range {X : Type} [DecidableEq X] (solve : (ℝ → ℝ) → ℝ → ℝ) (interp : List ℚ → List ℚ → Option ℚ) (cubes : List (PressureField X)) (out : HailOut X)
    (h : hailSizeProcess solve interp cubes = .ok out) (idx : List ℕ) :
    0 ≤ out.data idx ∧ out.data idx ≤ 0.12 ∧ ∃ mm : ℤ, out.data idx = mm / 1000 := by
  have key : ∀ (i : HailInputs X) (levels : List ℚ), 0 ≤ i.value solve interp levels idx ∧ i.value solve interp levels idx ≤ 0.12 ∧
      ∃ mm : ℤ, i.value solve interp levels idx = mm / 1000 := by
    intro i levels
    unfold HailInputs.value hailSize
    simp only
    generalize hm : hailSizeMm _ _ _ = mm
    have hr := C153_range _ _ _ |>.imp (hm ▸ ·) (hm ▸ ·)
    have h1 : (0 : ℝ) ≤ mm := by exact_mod_cast hr.1
    have h2 : (mm : ℝ) ≤ 120 := by exact_mod_cast hr.2
    exact ⟨by positivity, by linarith, mm, rfl⟩
  unfold hailSizeProcess at h
  split at h
  · rename_i t p c w o _
    cases hck : checkHail t.field p.field c.field w.field o.field with
    | error e => rw [hck] at h; exact nomatch h
    | ok i =>
      rw [hck] at h
      simp only [bind, Except.bind] at h
      by_cases hf : i.fit = true
      · rw [if_pos hf] at h
        injection h with h
        subst h
        exact key i _
      · rw [if_neg hf] at h
        exact nomatch h
  · exact nomatch h

theorem filter_named_le {X : Type} (cubes : List (PressureField X)) (hnd : (cubes.map fun f => f.field.name).Nodup) (n : String) :
    cubes.filter (fun c => decide (c.field.name = n)) = [] ∨
    ∃ f, f ∈ cubes ∧ f.field.name = n ∧ cubes.filter (fun c => decide (c.field.name = n)) = [f] := by
  cases hl : cubes.filter (fun c => decide (c.field.name = n)) with
  | nil => exact Or.inl rfl
  | cons f l =>
    have hmem : ∀ g ∈ f :: l, g ∈ cubes ∧ g.field.name = n := by
      intro g hg
      rw [← hl, List.mem_filter] at hg
      exact ⟨hg.1, by simpa using hg.2⟩
    cases l with
    | nil => exact Or.inr ⟨f, (hmem f (by simp)).1, (hmem f (by simp)).2, rfl⟩
    | cons g l =>
      exfalso
      have h2 : ((cubes.filter fun c => decide (c.field.name = n)).map fun f => f.field.name).Nodup := hnd.sublist (List.filter_sublist.map _)
      rw [hl, List.map_cons, List.map_cons, (hmem f (by simp)).2, (hmem g (by simp)).2] at h2
      simp at h2

theorem convert_dimension {X : Type} {c d : NamedField X} {u : StdUnit} (h : c.convert u = .ok d) : c.unit.dimension = u.dimension ∧ d.shape = c.shape ∧ d.place = c.place := by
  unfold NamedField.convert at h
  by_cases hd : c.unit.dimension ≠ u.dimension
  · rw [if_pos hd] at h
    exact nomatch h
  · rw [if_neg hd] at h
    injection h with h
    subst h
    exact ⟨not_not.1 hd, rfl, rfl⟩

theorem spatialMatch_same {X : Type} [DecidableEq X] {l : List (X × X)} (h : spatialMatch l = .ok true) : ∀ a ∈ l, ∀ b ∈ l, a = b := by
  cases l with
  | nil => exact nomatch h
  | cons q l =>
    obtain ⟨b, hb, hiff⟩ := C181_spatial (q :: l) (by simp)
    rw [h] at hb
    injection hb with hb
    have := hiff.1 hb.symm
    intro a ha b hb
    exact Prod.ext (this a ha b hb).1 (this a ha b hb).2

/-- C250.  Of cubes with different names hail size is made only if the five inputs are among them, in units of their quantities, on one grid, with dimensions that
fit. -/
theorem C250_complete {X : Type} [DecidableEq X] (solve : (ℝ → ℝ) → ℝ → ℝ) (interp : List ℚ → List ℚ → Option ℚ) (cubes : List (PressureField X)) (out : HailOut X)
    (h : hailSizeProcess solve interp cubes = .ok out) (hnd : (cubes.map fun f => f.field.name).Nodup) :
    ∃ t p c w o, (∀ f ∈ [t, p, c, w, o], f ∈ cubes) ∧ [t, p, c, w, o].map (fun f => f.field.name) = Spec.hailSizeNames ∧ Spec.hailInputsFit t p c w o := by
  unfold hailSizeProcess at h
  split at h
  · rename_i t p c w o hex
    refine ⟨t, p, c, w, o, ?_⟩
    have hmem : (∀ f ∈ [t, p, c, w, o], f ∈ cubes) ∧ [t, p, c, w, o].map (fun f => f.field.name) = Spec.hailSizeNames := by
      unfold extractFields at hex
      simp only [List.flatMap_cons, List.flatMap_nil] at hex
      rcases filter_named_le cubes hnd "air_temperature" with e1 | ⟨f1, a1, b1, e1⟩ <;>
      rcases filter_named_le cubes hnd "air_pressure_at_condensation_level" with e2 | ⟨f2, a2, b2, e2⟩ <;>
      rcases filter_named_le cubes hnd "air_temperature_at_condensation_level" with e3 | ⟨f3, a3, b3, e3⟩ <;>
      rcases filter_named_le cubes hnd "wet_bulb_freezing_level_altitude" with e4 | ⟨f4, a4, b4, e4⟩ <;>
      rcases filter_named_le cubes hnd "surface_altitude" with e5 | ⟨f5, a5, b5, e5⟩ <;>
      rw [e1, e2, e3, e4, e5] at hex <;>
      simp only [List.nil_append, List.cons_append, List.cons.injEq, reduceCtorEq, and_false, and_true] at hex
      obtain ⟨rfl, rfl, rfl, rfl, rfl⟩ := hex
      refine ⟨by simp [a1, a2, a3, a4, a5], ?_⟩
      simp only [List.map_cons, List.map_nil, b1, b2, b3, b4, b5, Spec.hailSizeNames]
    refine ⟨hmem.1, hmem.2, ?_⟩
    cases hck : checkHail t.field p.field c.field w.field o.field with
    | error e => rw [hck] at h; exact nomatch h
    | ok i =>
      rw [hck] at h
      simp only [bind, Except.bind] at h
      by_cases hf : i.fit = true
      · unfold checkHail at hck
        cases m1 : spatialMatch ([w.field, o.field].map fun f => f.place) with
        | error e => rw [m1] at hck; exact nomatch hck
        | ok a =>
        cases m2 : spatialMatch ([c.field, p.field, t.field, w.field].map fun f => f.place) with
        | error e => rw [m1, m2] at hck; exact nomatch hck
        | ok b =>
        rw [m1, m2] at hck
        simp only [bind, Except.bind, pure, Except.pure] at hck
        have hab : a = true ∧ b = true := by
          by_contra hno
          rw [if_pos (by cases a <;> cases b <;> simp_all)] at hck
          exact nomatch hck
        obtain ⟨rfl, rfl⟩ := hab
        rw [if_neg (by simp)] at hck
        cases c1 : c.field.convert kelvin with
        | error e => rw [c1] at hck; exact nomatch hck
        | ok c' =>
        cases c2 : p.field.convert pascal with
        | error e => rw [c1, c2] at hck; exact nomatch hck
        | ok p' =>
        cases c3 : t.field.convert kelvin with
        | error e => rw [c1, c2, c3] at hck; exact nomatch hck
        | ok t' =>
        cases c4 : w.field.convert metre with
        | error e => rw [c1, c2, c3, c4] at hck; exact nomatch hck
        | ok w' =>
        cases c5 : o.field.convert metre with
        | error e => rw [c1, c2, c3, c4, c5] at hck; exact nomatch hck
        | ok o' =>
        rw [c1, c2, c3, c4, c5] at hck
        simp only [Except.ok.injEq] at hck
        subst hck
        obtain ⟨d1, s1, -⟩ := convert_dimension c1
        obtain ⟨d2, s2, -⟩ := convert_dimension c2
        obtain ⟨d3, s3, -⟩ := convert_dimension c3
        obtain ⟨d4, s4, -⟩ := convert_dimension c4
        obtain ⟨d5, s5, -⟩ := convert_dimension c5
        have q1 := spatialMatch_same m1
        have q2 := spatialMatch_same m2
        simp only [HailInputs.fit, Bool.and_eq_true, decide_eq_true_eq, List.isSuffixOf_iff_suffix, s1, s2, s3, s4, s5] at hf
        refine ⟨?_, ?_, hf.1.1.2, hf.1.1.1, hf.1.2, hf.2⟩
        · simp only [List.map_cons, List.map_nil, d1, d2, d3, d4, d5]
          rfl
        · intro f hf
          simp only [List.mem_cons, List.not_mem_nil, or_false] at hf
          have hw : w.field.place = c.field.place := q2 _ (by simp) _ (by simp)
          rcases hf with rfl | rfl | rfl | rfl
          · exact q2 _ (by simp) _ (by simp)
          · exact q2 _ (by simp) _ (by simp)
          · exact hw
          · rw [← hw]
            exact q1 _ (by simp) _ (by simp)
      · rw [if_neg hf] at h
        exact nomatch h
  · exact nomatch h

/-- C250.  No hail where the condensation level is colder than 268.15 K, and none where the wet bulb freezing level is 4400 m or more above the ground; from 3350 m on a
higher freezing level never means larger hail. -/
theorem C250_no_hail {X : Type} [DecidableEq X] (solve : (ℝ → ℝ) → ℝ → ℝ) (interp : List ℚ → List ℚ → Option ℚ) (t p c w o : PressureField X)
    (hn : [t, p, c, w, o].map (fun f => f.field.name) = Spec.hailSizeNames) (hf : Spec.hailInputsFit t p c w o) (out : HailOut X)
    (h : hailSizeProcess solve interp [t, p, c, w, o] = .ok out) (idx : List ℕ) :
    (c.field.base idx < 268.15 → out.data idx = 0) ∧
    (4400 ≤ Spec.baseAt w.field c.field.shape idx - Spec.baseAt o.field c.field.shape idx → out.data idx = 0) := by
  obtain ⟨out', h', -, -, -, -, hv⟩ := C250_value solve interp t p c w o [] [t, p, c, w, o] (by simp) hn (by simp) hf
  rw [h] at h'
  injection h' with h'
  subst h'
  rw [hv]
  constructor
  · intro hc
    apply C153_no_hail
    left
    have : ((c.field.base idx : ℚ) : ℝ) < ((268.15 : ℚ) : ℝ) := by exact_mod_cast hc
    push_cast at this
    linarith
  · intro hw
    unfold hailSize
    simp only
    have hw' : (4400 : ℝ) ≤ ((Spec.baseAt w.field c.field.shape idx - Spec.baseAt o.field c.field.shape idx : ℚ) : ℝ) := by exact_mod_cast hw
    rw [(C153_wet_bulb _ _ (by linarith : (3350 : ℝ) ≤ _) le_rfl).2.2 hw']
    simp

/-- C250.  Giving the same inputs with the wet bulb freezing level raised (from at least 3350 m above the ground) never gives larger hail. -/
theorem C250_melting {X : Type} [DecidableEq X] (solve : (ℝ → ℝ) → ℝ → ℝ) (interp : List ℚ → List ℚ → Option ℚ) (t p c w w' o : PressureField X)
    (hn : [t, p, c, w, o].map (fun f => f.field.name) = Spec.hailSizeNames) (hf : Spec.hailInputsFit t p c w o)
    (hn' : [t, p, c, w', o].map (fun f => f.field.name) = Spec.hailSizeNames) (hf' : Spec.hailInputsFit t p c w' o) (out out' : HailOut X)
    (h : hailSizeProcess solve interp [t, p, c, w, o] = .ok out) (h' : hailSizeProcess solve interp [t, p, c, w', o] = .ok out') (idx : List ℕ)
    (h1 : 3350 ≤ Spec.baseAt w.field c.field.shape idx - Spec.baseAt o.field c.field.shape idx)
    (h2 : Spec.baseAt w.field c.field.shape idx ≤ Spec.baseAt w'.field c.field.shape idx) : out'.data idx ≤ out.data idx := by
  obtain ⟨o1, e1, -, -, -, -, hv⟩ := C250_value solve interp t p c w o [] [t, p, c, w, o] (by simp) hn (by simp) hf
  obtain ⟨o2, e2, -, -, -, -, hv'⟩ := C250_value solve interp t p c w' o [] [t, p, c, w', o] (by simp) hn' (by simp) hf'
  rw [h] at e1
  rw [h'] at e2
  injection e1 with e1
  injection e2 with e2
  subst e1 e2
  rw [hv, hv']
  unfold hailSize
  simp only
  have a1 : (3350 : ℝ) ≤ ((Spec.baseAt w.field c.field.shape idx - Spec.baseAt o.field c.field.shape idx : ℚ) : ℝ) := by exact_mod_cast h1
  have a2 : ((Spec.baseAt w.field c.field.shape idx - Spec.baseAt o.field c.field.shape idx : ℚ) : ℝ) ≤
      ((Spec.baseAt w'.field c.field.shape idx - Spec.baseAt o.field c.field.shape idx : ℚ) : ℝ) := by exact_mod_cast sub_le_sub_right h2 _
  apply div_le_div_of_nonneg_right _ (by norm_num)
  exact Int.cast_le.2 (C153_wet_bulb _ _ a1 a2).1

/-- Finding: the unit of the pressure coordinate of the temperatures is not looked at, while the condensation pressure is converted to Pa: the same numbers in hPa
give the same hail as in Pa. -/
theorem C250_level_unit_refuted {X : Type} [DecidableEq X] (solve : (ℝ → ℝ) → ℝ → ℝ) (interp : List ℚ → List ℚ → Option ℚ) (cubes : List (PressureField X)) (u : StdUnit) :
    hailSizeProcess solve interp (cubes.map fun c => { c with levelUnit := u }) = hailSizeProcess solve interp cubes := by
  have hex : ∀ names, extractFields names (cubes.map fun c => { c with levelUnit := u }) = (extractFields names cubes).map fun c => { c with levelUnit := u } := by
    intro names
    unfold extractFields
    rw [List.map_flatMap]
    apply List.flatMap_congr
    intro n _
    rw [List.filter_map]
    rfl
  unfold hailSizeProcess
  rw [hex]
  generalize extractFields _ cubes = l
  rcases l with _ | ⟨t, _ | ⟨p, _ | ⟨c, _ | ⟨w, _ | ⟨o, _ | ⟨x, l⟩⟩⟩⟩⟩⟩ <;> rfl

/-- Inputs in other units: degrees Celsius and kilometres. -/
def sampleHail : List (PressureField ℕ) :=
  let f := fun (n : String) (u : StdUnit) (shape : List ℕ) (v : ℚ) => (⟨⟨n, u, (0, 1), shape, fun _ => v⟩, [100000, 90000], pascal⟩ : PressureField ℕ)
  [f "air_temperature" ⟨"temperature", 1, 27315 / 100⟩ [3, 2, 2] 10, f "air_pressure_at_condensation_level" ⟨"pressure", 100, 0⟩ [3, 2, 2] 950,
   f "air_temperature_at_condensation_level" ⟨"temperature", 1, 27315 / 100⟩ [3, 2, 2] 12, f "wet_bulb_freezing_level_altitude" ⟨"length", 1000, 0⟩ [3, 2, 2] 5,
   f "surface_altitude" metre [2, 2] 100]

example : ∃ t p c w o, sampleHail = [t, p, c, w, o] ∧ [t, p, c, w, o].map (fun f => f.field.name) = Spec.hailSizeNames ∧ Spec.hailInputsFit t p c w o ∧
    4400 ≤ Spec.baseAt w.field c.field.shape [0, 0, 0] - Spec.baseAt o.field c.field.shape [0, 0, 0] :=
  ⟨_, _, _, _, _, rfl, rfl, ⟨rfl, by simp, rfl, rfl, by decide, by decide⟩, by decide +kernel⟩

end Improver
