import Verif.Model.PhaseRun
import Verif.Props.Integration
import Verif.Props.PhaseLevel

/-! From the wet bulb temperature to the phase change level (C251). -/

namespace Improver

/-- The profile at a point in metres and degrees Celsius, whatever the units of the cube. -/
def Spec.profile (c : ProfileCube) (m i : ℕ) : List (ℚ × ℚ) :=
  (List.range c.heights.length).map fun k =>
    (c.heights.getD k 0 * c.heightUnit.scale + c.heightUnit.offset, c.data m k i * c.unit.scale + c.unit.offset - 27315 / 100)

/-- The profile at a point as stored, in degrees Celsius and with the heights in whatever unit they have. -/
def Spec.storedProfile (c : ProfileCube) (m i : ℕ) : List (ℚ × ℚ) :=
  (List.range c.heights.length).map fun k => (c.heights.getD k 0, c.data m k i * c.unit.scale + c.unit.offset - 27315 / 100)

/-- For a profile `d` from the top down: the integral of the warmth above freezing from the top to level `k + 1`, by trapezia (K m). -/
def Spec.warmth (d : List (ℚ × ℚ)) (k : ℕ) : ℚ := (((d.zip d.tail).take (k + 1)).map fun p => Spec.trapezium p.1 p.2).sum

/-- The levels below the top one with the warmth above each. -/
def Spec.warmColumn (d : List (ℚ × ℚ)) : List (ℚ × ℚ) := (List.range (d.length - 1)).map fun k => ((d.tail.getD k (0, 0)).1, Spec.warmth d k)

/-! ## Integration -/

theorem integrate_down {levels d : List (ℚ × ℚ)}
    (hm : levels.Pairwise (fun a b => a.1 < b.1) ∨ levels.Pairwise (fun a b => b.1 < a.1))
    (hperm : d.Perm levels) (hd : d.Pairwise fun a b => b.1 < a.1) (hlen : 2 ≤ d.length) :
    integrate false none none levels = .ok ((List.range (d.length - 1)).map fun k =>
      ⟨(d.tail.getD k (0, 0)).1, ((d.tail.getD k (0, 0)).1, (d.getD k (0, 0)).1), Spec.warmth d k⟩) := by
  have hd' : d.Pairwise (fun a b => Spec.before false a.1 b.1) := by simpa [Spec.before] using hd
  have hzl : (d.zip d.tail).length = d.length - 1 := by rw [List.length_zip, List.length_tail]; omega
  cases h : integrate false none none levels with
  | error e =>
    have h' : integrate false none none levels = .error .valueError := by
      unfold integrate at h ⊢
      simp only at h ⊢
      split at h <;> rename_i hh
      · rw [if_pos hh]
      · exact nomatch h
    have := (C76_refused_partial false none none levels d hm hperm hd' (by simp) (by simp)).1 h'
    rw [used_none] at this
    rw [this] at hzl
    simp at hzl
    omega
  | ok out =>
    obtain ⟨hl, hv⟩ := C76_value_partial false none none levels d out hm hperm hd' (by simp) (by simp) h
    rw [used_none] at hl hv
    congr 1
    apply List.ext_getElem?
    intro k
    rw [List.getElem?_map]
    by_cases hk : k < d.length - 1
    · have hk1 : k < d.length := by omega
      have hk2 : k < d.tail.length := by rw [List.length_tail]; exact hk
      have hz : (d.zip d.tail)[k]? = some (d[k], d.tail[k]) := by
        rw [List.getElem?_eq_getElem (by rw [hzl]; exact hk), List.getElem_zip]
      obtain ⟨o, ho, hp, hb, hval⟩ := hv k _ _ hz
      have hlt : d.tail[k].1 < d[k].1 := by
        rw [List.getElem_tail]
        exact List.pairwise_iff_getElem.1 hd k (k + 1) hk1 (by omega) (by omega)
      have e1 : d.tail.getD k (0, 0) = d.tail[k] := by rw [List.getD_eq_getElem?_getD, List.getElem?_eq_getElem hk2]; rfl
      have e2 : d.getD k (0, 0) = d[k] := by rw [List.getD_eq_getElem?_getD, List.getElem?_eq_getElem hk1]; rfl
      rw [ho, List.getElem?_range hk, Option.map_some, e1, e2]
      congr 1
      rw [min_eq_right hlt.le, max_eq_left hlt.le] at hb
      cases o
      simp only at hp hb hval
      rw [hp, hb, hval]
      rfl
    · rw [List.getElem?_eq_none (by omega), List.getElem?_eq_none (by simp; omega)]
      rfl

theorem profile_pairs (c : ProfileCube) (m i : ℕ) :
    (Spec.profile c m i).map (fun p => (p.1, (0 : ℚ))) = (c.heights.map (convertUnit c.heightUnit metre)).map fun h => (h, 0) := by
  unfold Spec.profile
  rw [List.map_map, List.map_map]
  apply List.ext_getElem
  · simp
  · intro k h1 h2
    have hk : k < c.heights.length := by simpa using h1
    simp [convertUnit, metre, List.getElem?_eq_getElem hk]

theorem column_profile {c t t' : ProfileCube} (h1 : c.convert degC = .ok t) (h2 : t.convertHeights metre = .ok t') (m i : ℕ) :
    t'.column m i = Spec.profile c m i ∧ t'.heights = c.heights.map (convertUnit c.heightUnit metre) := by
  unfold ProfileCube.convert at h1
  by_cases hd : c.unit.dimension ≠ degC.dimension
  · rw [if_pos hd] at h1; exact nomatch h1
  rw [if_neg hd] at h1
  injection h1 with h1
  subst h1
  unfold ProfileCube.convertHeights at h2
  by_cases hn : c.heights = []
  · rw [if_pos hn] at h2; exact nomatch h2
  rw [if_neg hn] at h2
  by_cases hd2 : c.heightUnit.dimension ≠ metre.dimension
  · rw [if_pos hd2] at h2; exact nomatch h2
  rw [if_neg hd2] at h2
  injection h2 with h2
  subst h2
  refine ⟨?_, rfl⟩
  unfold ProfileCube.column Spec.profile
  apply List.ext_getElem
  · simp
  · intro k h1 h2
    have hk : k < c.heights.length := by simpa using h2
    simp only [List.getElem_zip, List.getElem_map, List.getElem_range, List.getD_eq_getElem?_getD, List.getElem?_eq_getElem hk, Option.getD_some]
    simp [convertUnit, metre, degC]

/-- C251: the integral of the wet bulb temperature, in kelvin metres on the levels below the top one from the top down, is at each level the warmth above
freezing between the top and that level, whatever the units of the temperatures and heights and whichever way the levels are ordered. -/
theorem C251_integral (useModel : Bool) (c : ProfileCube) (hu : c.unit.dimension = "temperature") (hh : c.heightUnit.dimension = "length")
    (hmod : useModel = true → c.model ≠ none) (hlen : 2 ≤ c.heights.length)
    (hm : ∀ m i, (Spec.profile c m i).Pairwise (fun a b => a.1 < b.1) ∨ (Spec.profile c m i).Pairwise (fun a b => b.1 < a.1)) :
    ∃ out, wetBulbIntegral useModel c = .ok out ∧ out.name = c.name ++ "_integral" ∧ out.unit = kelvinMetre ∧ out.heightUnit = metre ∧
      out.members = c.members ∧ out.points = c.points ∧ out.model = (if useModel then c.model else none) ∧
      ∀ m i, ∀ d : List (ℚ × ℚ), d.Perm (Spec.profile c m i) → (d.Pairwise fun a b => b.1 < a.1) →
        out.heights = (Spec.warmColumn d).map (·.1) ∧ out.bounds = some ((d.zip d.tail).map fun p => (p.2.1, p.1.1)) ∧
        ∀ k, k < d.length - 1 → out.data m k i = Spec.warmth d k := by
  have hne : c.heights ≠ [] := by intro h; rw [h] at hlen; simp at hlen
  let t : ProfileCube := { c with data := fun m k i => convertUnit c.unit degC (c.data m k i), unit := degC }
  have h1 : c.convert degC = .ok t := by unfold ProfileCube.convert; rw [if_neg (by rw [hu]; decide)]
  let t' : ProfileCube := { t with heights := c.heights.map (convertUnit c.heightUnit metre), heightUnit := metre }
  have h2 : t.convertHeights metre = .ok t' := by
    unfold ProfileCube.convertHeights
    rw [if_neg hne, if_neg (by show ¬ c.heightUnit.dimension ≠ _; rw [hh]; decide)]
  have key : ∀ m i, ∀ d : List (ℚ × ℚ), d.Perm (Spec.profile c m i) → (d.Pairwise fun a b => b.1 < a.1) →
      integrate false none none (t'.heights.map fun h => (h, 0)) = .ok ((List.range (d.length - 1)).map fun k =>
        ⟨(d.tail.getD k (0, 0)).1, ((d.tail.getD k (0, 0)).1, (d.getD k (0, 0)).1), Spec.warmth (d.map fun p => (p.1, 0)) k⟩) := by
    intro m i d hp hd
    have hlen' : 2 ≤ d.length := by rw [hp.length_eq]; simpa [Spec.profile] using hlen
    have hq : ∀ {R : ℚ → ℚ → Prop}, (Spec.profile c m i).Pairwise (fun a b => R a.1 b.1) →
        ((Spec.profile c m i).map (fun p => (p.1, (0 : ℚ)))).Pairwise (fun a b => R a.1 b.1) := fun h => List.pairwise_map.2 h
    rw [show t'.heights = c.heights.map (convertUnit c.heightUnit metre) from rfl, ← profile_pairs c m i,
      integrate_down ((hm m i).imp (hq (R := fun a b => a < b)) (hq (R := fun a b => b < a))) (hp.map _) (List.pairwise_map.2 hd) (by simpa using hlen')]
    congr 1
    rw [List.length_map]
    apply List.map_congr_left
    intro k hk
    have hk' : k < d.length - 1 := by simpa using hk
    have e1 : ((d.map fun p => (p.1, (0 : ℚ))).tail.getD k (0, 0)).1 = (d.tail.getD k (0, 0)).1 := by
      rw [← List.map_tail]
      simp only [List.getD_eq_getElem?_getD, List.getElem?_map]
      cases d.tail[k]? <;> rfl
    have e2 : ((d.map fun p => (p.1, (0 : ℚ))).getD k (0, 0)).1 = (d.getD k (0, 0)).1 := by
      simp only [List.getD_eq_getElem?_getD, List.getElem?_map]
      cases d[k]? <;> rfl
    rw [e1, e2]
  have hsort : ∀ m i, ∃ d : List (ℚ × ℚ), d.Perm (Spec.profile c m i) ∧ d.Pairwise fun a b => b.1 < a.1 := by
    intro m i
    rcases hm m i with h | h
    · exact ⟨(Spec.profile c m i).reverse, List.reverse_perm _, List.pairwise_reverse.2 h⟩
    · exact ⟨_, List.Perm.refl _, h⟩
  obtain ⟨d0, hp0, hd0⟩ := hsort 0 0
  have hk0 := key 0 0 d0 hp0 hd0
  unfold wetBulbIntegral
  simp only [h1, h2, hk0, bind, Except.bind]
  rw [if_neg (by rintro ⟨a, b⟩; exact hmod a b)]
  refine ⟨_, rfl, rfl, rfl, rfl, rfl, rfl, rfl, ?_⟩
  intro m i d hp hd
  have hdl : d.length = d0.length := by rw [hp.length_eq, hp0.length_eq]; simp [Spec.profile]
  have hlen' : 2 ≤ d.length := by rw [hp.length_eq]; simpa [Spec.profile] using hlen
  have hk := key m i d hp hd
  rw [hk0] at hk
  injection hk with hk
  refine ⟨?_, ?_, ?_⟩
  · show List.map IntegOut.point _ = _
    rw [hk, List.map_map]
    unfold Spec.warmColumn
    rw [List.map_map]
    rfl
  · show some (List.map IntegOut.bounds _) = _
    rw [hk, List.map_map]
    congr 1
    apply List.ext_getElem
    · simp
    · intro k h1 h2
      have hk1 : k < d.length - 1 := by simpa using h1
      simp only [List.getElem_map, List.getElem_range, Function.comp_apply, List.getElem_zip]
      rw [List.getD_eq_getElem?_getD, List.getElem?_eq_getElem (by simp; omega), List.getD_eq_getElem?_getD, List.getElem?_eq_getElem (by omega)]
      rfl
  · intro k hkd
    show (match integrate false none none (t'.column m i) with | .ok l => (l.map IntegOut.value).getD k 0 | .error _ => 0) = _
    rw [(column_profile h1 h2 m i).1, integrate_down (hm m i) hp hd hlen']
    simp only [List.map_map, List.getD_eq_getElem?_getD, List.getElem?_map, List.getElem?_range hkd, Option.map_some, Option.getD_some]
    rfl

/-! ## The level -/

theorem warmth_nonneg_step (d : List (ℚ × ℚ)) (k : ℕ) : Spec.warmth d k ≤ Spec.warmth d (k + 1) := by
  unfold Spec.warmth
  rw [List.take_add_one (i := k + 1), List.map_append, List.sum_append]
  have : 0 ≤ (List.map (fun p => Spec.trapezium p.1 p.2) (d.zip d.tail)[k + 1]?.toList).sum := by
    apply List.sum_nonneg
    intro x hx
    obtain ⟨p, _, rfl⟩ := List.mem_map.1 hx
    unfold Spec.trapezium
    positivity
  linarith

theorem warmth_mono (d : List (ℚ × ℚ)) {j k : ℕ} (h : j ≤ k) : Spec.warmth d j ≤ Spec.warmth d k := by
  induction k, h using Nat.le_induction with
  | base => exact le_rfl
  | succ k _ ih => exact ih.trans (warmth_nonneg_step d k)

theorem levelsDown_range {c : ProfileCube} (h : c.heights.Pairwise fun a b => b < a) : levelsDown c = List.range c.heights.length := by
  unfold levelsDown
  apply List.Pairwise.insertionSort_eq
  rw [List.pairwise_iff_getElem]
  intro i j hi hj hij
  have hi' : i < c.heights.length := by simpa using hi
  have hj' : j < c.heights.length := by simpa using hj
  simp only [List.getElem_range, List.getD_eq_getElem?_getD, List.getElem?_eq_getElem hi', List.getElem?_eq_getElem hj', Option.getD_some]
  exact (List.pairwise_iff_getElem.1 h i j hi' hj' hij).le

theorem convert_self_km (c : ProfileCube) (h : c.unit = kelvinMetre) : c.convert kelvinMetre = .ok c := by
  unfold ProfileCube.convert
  rw [if_neg (by rw [h]; simp)]
  congr 1
  have : ∀ v, convertUnit kelvinMetre kelvinMetre v = v := by intro v; simp [convertUnit, kelvinMetre]
  obtain ⟨n, u, hs, hu, b, m, p, d, md⟩ := c
  simp only at h
  subst h
  simp only [this]

theorem oneProfile_perm {n : String} {cubes : List ProfileCube} {c : ProfileCube} (hc : c ∈ cubes) (hn : c.name = n)
    (hd : (cubes.map ProfileCube.name).Nodup) : oneProfile n cubes = .ok c := by
  have : cubes.filter (fun c => decide (c.name = n)) = [c] := by
    induction cubes with
    | nil => simp at hc
    | cons x cubes ih =>
      rw [List.map_cons, List.nodup_cons] at hd
      rcases List.mem_cons.1 hc with rfl | hc
      · rw [List.filter_cons_of_pos (by simpa using hn)]
        congr 1
        rw [List.filter_eq_nil_iff]
        intro y hy
        simp only [decide_eq_true_eq]
        intro e
        exact hd.1 (List.mem_map.2 ⟨y, hy, e.trans hn.symm⟩)
      · have hx : x.name ≠ n := by
          intro e
          exact hd.1 (List.mem_map.2 ⟨c, hc, hn.trans e.symm⟩)
        rw [List.filter_cons_of_neg (by simpa using hx)]
        exact ih hc hd.2
  unfold oneProfile
  rw [this]

/-- The inputs of a run: a temperature cube with its integral, orography and land mask, in any order. -/
structure Spec.PhaseInputs (useModel : Bool) (cubes : List ProfileCube) (w g o l : ProfileCube) : Prop where
  perm : cubes.Perm [w, g, o, l]
  names : w.name = "wet_bulb_temperature" ∧ o.name = "surface_altitude" ∧ l.name = "land_binary_mask"
  integral : wetBulbIntegral useModel w = .ok g
  unit : w.unit.dimension = "temperature" ∧ w.heightUnit.dimension = "length"
  model : useModel = true → w.model ≠ none
  levels : 2 ≤ w.heights.length
  ordered : ∀ m i, (Spec.profile w m i).Pairwise (fun a b => a.1 < b.1) ∨ (Spec.profile w m i).Pairwise (fun a b => b.1 < a.1)
  points : o.points = w.points ∧ l.points = w.points

theorem warmColumn_heights {d : List (ℚ × ℚ)} : (Spec.warmColumn d).map (·.1) = d.tail.map (·.1) := by
  unfold Spec.warmColumn
  rw [List.map_map]
  apply List.ext_getElem
  · simp
  · intro k h1 h2
    have hk : k < d.tail.length := by simpa using h2
    simp [List.getElem?_eq_getElem (show k + 1 < d.length by simpa using Nat.add_lt_of_lt_sub (by simpa using hk))]

theorem columnDown_eq {g : ProfileCube} {d : List (ℚ × ℚ)} {m i : ℕ} (hd : d.Pairwise fun a b => b.1 < a.1)
    (hh : g.heights = (Spec.warmColumn d).map (·.1)) (hv : ∀ k, k < d.length - 1 → g.data m k i = Spec.warmth d k) :
    levelsDown g = List.range (d.length - 1) ∧ columnDown g m i = Spec.warmColumn d := by
  have hlen : g.heights.length = d.length - 1 := by rw [hh]; simp [Spec.warmColumn]
  have hdown : g.heights.Pairwise fun a b => b < a := by
    rw [hh, warmColumn_heights]
    exact List.pairwise_map.2 (hd.sublist (List.tail_sublist d))
  have hl := levelsDown_range hdown
  rw [hlen] at hl
  refine ⟨hl, ?_⟩
  unfold columnDown
  rw [hl]
  conv_rhs => unfold Spec.warmColumn
  apply List.map_congr_left
  intro k hk
  have hk' : k < d.length - 1 := by simpa using hk
  rw [hv k hk']
  congr 1
  rw [hh]
  unfold Spec.warmColumn
  simp [List.getElem?_range hk']

/-- The run in terms of its inputs. -/
theorem phaseProcess_spec {phase label : String} {threshold : ℝ} (hph : phaseChange phase = .ok (threshold, label)) (vicinity : (ℕ → ℚ) → ℕ → ℚ)
    (lin near : (ℕ → Option ℝ) → ℕ → Option ℝ) (horizontal useModel : Bool) {cubes : List ProfileCube} {w g o l : ProfileCube}
    (h : Spec.PhaseInputs useModel cubes w g o l) :
    ∃ out w', phaseProcess phase vicinity lin near horizontal useModel cubes = .ok (out, w', g) ∧ w.convert degC = .ok w' ∧
      out.name = "altitude_of_" ++ label ++ "_level" ∧ out.unit = metre ∧ out.members = w.members ∧ out.points = w.points ∧
      ∀ top : ℚ, (∀ m i, ∃ d : List (ℚ × ℚ), d.Perm (Spec.profile w m i) ∧ (d.Pairwise fun a b => b.1 < a.1) ∧ (d.getD 0 (0, 0)).1 = top) →
      ∀ m, ∀ column : ℕ → List (ℚ × ℚ), (∀ i, ∃ d : List (ℚ × ℚ), d.Perm (Spec.profile w m i) ∧ (d.Pairwise fun a b => b.1 < a.1) ∧ column i = Spec.warmColumn d) →
        out.data m = phaseLevel w.points lin near horizontal threshold top (fun i => (o.data 0 0 i : ℝ)) (fun i => (vicinity (o.data 0 0) i : ℝ))
          (fun i => (l.data 0 0 i : ℝ)) (fun i => realColumn (column i)) (fun i => realColumn (w'.column m i)) := by
  obtain ⟨g', hg', hgn, hgu, hghu, hgm, hgp, hgmod, hgd⟩ := C251_integral useModel w h.unit.1 h.unit.2 h.model h.levels h.ordered
  obtain rfl : g' = g := by have := h.integral; rw [hg'] at this; injection this
  have hnd : (cubes.map ProfileCube.name).Nodup := by
    rw [(h.perm.map ProfileCube.name).nodup_iff]
    simp only [List.map_cons, List.map_nil, h.names.1, h.names.2.1, h.names.2.2, hgn]
    decide
  have hmem : ∀ c, c ∈ [w, g', o, l] → c ∈ cubes := fun c hc => h.perm.mem_iff.2 hc
  have e1 := oneProfile_perm (hmem w (by simp)) h.names.1 hnd
  have e2 := oneProfile_perm (n := "wet_bulb_temperature_integral") (hmem g' (by simp)) (by rw [hgn, h.names.1]; decide) hnd
  have e3 := oneProfile_perm (hmem o (by simp)) h.names.2.1 hnd
  have e4 := oneProfile_perm (hmem l (by simp)) h.names.2.2 hnd
  let w' : ProfileCube := { w with data := fun m k i => convertUnit w.unit degC (w.data m k i), unit := degC }
  have e5 : w.convert degC = .ok w' := by unfold ProfileCube.convert; rw [if_neg (by rw [h.unit.1]; decide)]
  have e6 := convert_self_km g' hgu
  have e7 : modelsAgree useModel w' g' = .ok () := by
    unfold modelsAgree
    cases useModel with
    | false => rfl
    | true =>
      rw [if_pos rfl]
      have hm := h.model rfl
      cases hw : w.model with
      | none => exact absurd hw hm
      | some x =>
        have : g'.model = some x := by rw [hgmod, if_pos rfl, hw]
        rw [this]
        simp
  obtain ⟨d0, hp0, hd0⟩ : ∃ d : List (ℚ × ℚ), d.Perm (Spec.profile w 0 0) ∧ d.Pairwise fun a b => b.1 < a.1 := by
    rcases h.ordered 0 0 with h' | h'
    · exact ⟨(Spec.profile w 0 0).reverse, List.reverse_perm _, List.pairwise_reverse.2 h'⟩
    · exact ⟨_, List.Perm.refl _, h'⟩
  have hl0 : 2 ≤ d0.length := by rw [hp0.length_eq]; simpa [Spec.profile] using h.levels
  obtain ⟨hh0, hb0, hv0⟩ := hgd 0 0 d0 hp0 hd0
  have hlev := (columnDown_eq hd0 hh0 hv0).1
  have e8 : highestOf w' g' = .ok (d0.getD 0 (0, 0)).1 := by
    unfold highestOf
    rw [if_neg]
    · rw [hb0, hlev]
      obtain ⟨x, y, r, rfl⟩ : ∃ x y r, d0 = x :: y :: r := by
        match d0, hl0 with
        | x :: y :: r, _ => exact ⟨x, y, r, rfl⟩
      simp [List.range_succ_eq_map]
    · rintro (e | e)
      · have := h.levels
        rw [show w.heights = [] from e] at this
        simp at this
      · have : (Spec.warmColumn d0).length = 0 := by rw [← List.length_map (f := (·.1)), ← hh0, e]; rfl
        simp [Spec.warmColumn] at this
        omega
  have e9 : cubes.length = 4 := by rw [h.perm.length_eq]; rfl
  unfold phaseProcess
  rw [hph]
  simp only
  rw [if_neg (by rw [e9]; simp)]
  simp only [e1, e2, e3, e4, e5, e6, e7, e8, bind, Except.bind]
  rw [if_neg (by rw [hgp, hgm, h.points.1, h.points.2]; simp [w'])]
  refine ⟨_, _, rfl, rfl, rfl, rfl, rfl, hgp, ?_⟩
  intro top htop m column hcol
  obtain ⟨d1, hp1, hd1, ht1⟩ := htop 0 0
  have hd01 : d1 = d0 := strict_perm_unique false (hp1.trans hp0.symm) (by simpa [Spec.before] using hd1) (by simpa [Spec.before] using hd0)
  subst hd01
  have hc : (fun i => realColumn (columnDown g' m i)) = fun i => realColumn (column i) := by
    funext i
    obtain ⟨d, hp, hd, hc⟩ := hcol i
    obtain ⟨hh, hb, hv⟩ := hgd m i d hp hd
    rw [hc, (columnDown_eq hd hh hv).2]
  show phaseLevel g'.points lin near horizontal threshold _ _ _ _ (fun i => realColumn (columnDown g' m i)) _ = _
  rw [hc, hgp, ht1]

theorem phaseLevel_some {n : ℕ} {lin near : (ℕ → Option ℝ) → ℕ → Option ℝ} {horizontal : Bool} {threshold highest : ℝ}
    {orog maxOrog land : ℕ → ℝ} {column wbt : ℕ → List (ℝ × ℝ)} {i : ℕ} {v : ℝ}
    (h : columnLevel threshold (orog i) (land i) highest (column i) (wbt i) = some v) :
    phaseLevel n lin near horizontal threshold highest orog maxOrog land column wbt i = some v := by
  cases horizontal with
  | true => exact (C151_fill lin near threshold highest orog maxOrog land column wbt i).1 v h
  | false => exact h

theorem profile_heights (c : ProfileCube) (m i m' i' : ℕ) : (Spec.profile c m i).map (·.1) = (Spec.profile c m' i').map (·.1) := by
  unfold Spec.profile
  rw [List.map_map, List.map_map]
  rfl

theorem same_heights {c : ProfileCube} {m i m' i' : ℕ} {d d' : List (ℚ × ℚ)} (hp : d.Perm (Spec.profile c m i)) (hd : d.Pairwise fun a b => b.1 < a.1)
    (hp' : d'.Perm (Spec.profile c m' i')) (hd' : d'.Pairwise fun a b => b.1 < a.1) : d.map (·.1) = d'.map (·.1) := by
  have hperm : (d.map (·.1)).Perm (d'.map (·.1)) := by
    refine (hp.map _).trans ?_
    rw [profile_heights c m i m' i']
    exact (hp'.map _).symm
  refine List.Perm.eq_of_pairwise (le := fun a b : ℚ => b < a) ?_ (List.pairwise_map.2 hd) (List.pairwise_map.2 hd') hperm
  intro a b _ _ h1 h2
  exact absurd h1 (not_lt.2 h2.le)

/-- The greatest value of a column of warmth is the one at its lowest level. -/
theorem warmColumn_max {d : List (ℚ × ℚ)} (hl : 2 ≤ d.length) : columnMax (realColumn (Spec.warmColumn d)) = (Spec.warmth d (d.length - 2) : ℝ) := by
  have hmem : ∀ x ∈ realColumn (Spec.warmColumn d), ∃ k, k < d.length - 1 ∧ x.2 = (Spec.warmth d k : ℝ) := by
    intro x hx
    unfold realColumn Spec.warmColumn at hx
    rw [List.map_map] at hx
    obtain ⟨k, hk, rfl⟩ := List.mem_map.1 hx
    exact ⟨k, by simpa using hk, rfl⟩
  have hlast : ∃ x ∈ realColumn (Spec.warmColumn d), x.2 = (Spec.warmth d (d.length - 2) : ℝ) := by
    refine ⟨(((d.tail.getD (d.length - 2) (0, 0)).1 : ℚ), (Spec.warmth d (d.length - 2) : ℚ)), ?_, rfl⟩
    unfold realColumn Spec.warmColumn
    rw [List.map_map]
    exact List.mem_map.2 ⟨d.length - 2, by simp; omega, rfl⟩
  have hne : realColumn (Spec.warmColumn d) ≠ [] := by
    obtain ⟨x, hx, _⟩ := hlast
    exact List.ne_nil_of_mem hx
  obtain ⟨hub, b, hb, he⟩ := columnMax_spec hne
  apply le_antisymm
  · rw [he]
    obtain ⟨k, hk, e⟩ := hmem b hb
    rw [e]
    exact_mod_cast warmth_mono d (show k ≤ d.length - 2 by omega)
  · obtain ⟨x, hx, e⟩ := hlast
    rw [← e]
    exact hub x hx

/-- C251: the run is accepted with its four inputs in any order.  At a point with the profile `d` (from the top down, in metres and degrees Celsius): if the
warmth reaches the threshold below the first level, the result is the height above the ground at which the warmth, interpolated between levels, equals the
threshold, added to the orography; with more warmth than that above the first level already it is the top of the profile; with too little warmth above the ground
a land point is missing unless filled from its surroundings, and a sea point gets the level below the sea at which the warmth extrapolated along the
line through the first five levels equals the threshold, at most 2000 m down. -/
theorem C251_level {phase label : String} {threshold : ℝ} (hph : phaseChange phase = .ok (threshold, label)) (vicinity : (ℕ → ℚ) → ℕ → ℚ)
    (lin near : (ℕ → Option ℝ) → ℕ → Option ℝ) (horizontal useModel : Bool) {cubes : List ProfileCube} {w g o l : ProfileCube}
    (h : Spec.PhaseInputs useModel cubes w g o l) :
    ∃ out w', phaseProcess phase vicinity lin near horizontal useModel cubes = .ok (out, w', g) ∧
      out.name = "altitude_of_" ++ label ++ "_level" ∧ out.unit = metre ∧ out.members = w.members ∧ out.points = w.points ∧
      ∀ m i, ∀ d : List (ℚ × ℚ), d.Perm (Spec.profile w m i) → (d.Pairwise fun a b => b.1 < a.1) →
        ((Spec.warmth d 0 : ℝ) ≤ threshold → threshold ≤ (Spec.warmth d (d.length - 2) : ℝ) →
          ∃ z, out.data m i = some ((o.data 0 0 i : ℝ) + z) ∧ Spec.onProfile (realColumn (Spec.warmColumn d)) z threshold) ∧
        (threshold < (Spec.warmth d 0 : ℝ) → out.data m i = some (((d.getD 0 (0, 0)).1 : ℝ) + (o.data 0 0 i : ℝ))) ∧
        ((Spec.warmth d (d.length - 2) : ℝ) < threshold → 1 ≤ l.data 0 0 i → horizontal = false → out.data m i = none) ∧
        ((Spec.warmth d (d.length - 2) : ℝ) < threshold → l.data 0 0 i < 1 →
          ∀ a b, fitLineR (realColumn ((Spec.storedProfile w m i).take 5)) = some (a, b) →
            (a < 0 → ∃ z ≤ 0, (Spec.warmth d (d.length - 2) : ℝ) + Spec.belowSea a b z = threshold ∧
              out.data m i = some (max z (-2000) + (o.data 0 0 i : ℝ))) ∧
            (0 ≤ a → horizontal = false → out.data m i = none)) := by
  obtain ⟨out, w', hr, hw', hn, hu, hmb, hpt, hdata⟩ := phaseProcess_spec hph vicinity lin near horizontal useModel h
  refine ⟨out, w', hr, hn, hu, hmb, hpt, ?_⟩
  intro m i d hp hd
  have hlen : 2 ≤ d.length := by rw [hp.length_eq]; simpa [Spec.profile] using h.levels
  have hsort : ∀ m i, ∃ d : List (ℚ × ℚ), d.Perm (Spec.profile w m i) ∧ d.Pairwise fun a b => b.1 < a.1 := by
    intro m i
    rcases h.ordered m i with h' | h'
    · exact ⟨(Spec.profile w m i).reverse, List.reverse_perm _, List.pairwise_reverse.2 h'⟩
    · exact ⟨_, List.Perm.refl _, h'⟩
  choose D hDp hDd using hsort
  have hDi : D m i = d := strict_perm_unique false ((hDp m i).trans hp.symm) (by simpa [Spec.before] using hDd m i) (by simpa [Spec.before] using hd)
  have hall := hdata (d.getD 0 (0, 0)).1 (fun m' i' => ⟨D m' i', hDp m' i', hDd m' i', by
    have := same_heights (hDp m' i') (hDd m' i') hp hd
    have h0 := congrArg (fun l : List ℚ => l.getD 0 0) this
    simp only [List.getD_eq_getElem?_getD, List.getElem?_map] at h0 ⊢
    cases h1 : (D m' i')[0]? <;> cases h2 : d[0]? <;> rw [h1, h2] at h0 <;> simpa using h0⟩) m (fun i => Spec.warmColumn (D m i))
    (fun i => ⟨D m i, hDp m i, hDd m i, rfl⟩)
  have hat := congrFun hall i
  obtain ⟨x, y, r, hxy⟩ : ∃ x y r, d = x :: y :: r := by
    match d, hlen with
    | x :: y :: r, _ => exact ⟨x, y, r, rfl⟩
  have hcol : realColumn (Spec.warmColumn d) = ((y.1 : ℝ), (Spec.warmth d 0 : ℝ)) :: (realColumn (Spec.warmColumn d)).tail := by
    have : (Spec.warmColumn d) = (y.1, Spec.warmth d 0) :: (Spec.warmColumn d).tail := by
      rw [hxy]
      unfold Spec.warmColumn
      simp [List.range_succ_eq_map]
    rw [this]
    rfl
  have hmem : ∀ x ∈ realColumn (Spec.warmColumn d), ∃ k, k < d.length - 1 ∧ x.2 = (Spec.warmth d k : ℝ) := by
    intro x hx
    unfold realColumn Spec.warmColumn at hx
    rw [List.map_map] at hx
    obtain ⟨k, hk, rfl⟩ := List.mem_map.1 hx
    exact ⟨k, by simpa using hk, rfl⟩
  have hne : realColumn (Spec.warmColumn d) ≠ [] := by rw [hcol]; exact List.cons_ne_nil _ _
  have hlow : (Spec.warmth d (d.length - 2) : ℝ) < threshold → ∀ b ∈ realColumn (Spec.warmColumn d), b.2 < threshold := by
    intro hlt b hb
    obtain ⟨k, hk, e⟩ := hmem b hb
    rw [e]
    refine lt_of_le_of_lt ?_ hlt
    exact_mod_cast warmth_mono d (show k ≤ d.length - 2 by omega)
  refine ⟨?_, ?_, ?_, ?_⟩
  · intro h1 h2
    obtain ⟨z, hz, hon⟩ := C150_crossing (threshold := threshold) (orog := (o.data 0 0 i : ℝ)) (land := (l.data 0 0 i : ℝ)) (highest := ((d.getD 0 (0, 0)).1 : ℝ))
      (wbt := realColumn (w'.column m i)) (a := ((y.1 : ℝ), (Spec.warmth d 0 : ℝ))) (column := (realColumn (Spec.warmColumn d)).tail) h1 (by
        rw [← hcol]
        obtain ⟨_, b, hb, he⟩ := columnMax_spec hne
        exact ⟨b, hb, by rw [← he, warmColumn_max hlen]; exact h2⟩)
    rw [← hcol] at hz hon
    refine ⟨z, ?_, hon⟩
    rw [hat]
    apply phaseLevel_some
    simp only [hDi]
    exact hz
  · intro h1
    rw [hat]
    apply phaseLevel_some
    simp only [hDi]
    apply C150_high hne
    intro b hb
    obtain ⟨k, hk, e⟩ := hmem b hb
    rw [e]
    refine lt_of_lt_of_le h1 ?_
    exact_mod_cast warmth_mono d (Nat.zero_le k)
  · intro h1 hland hhor
    rw [hat, hhor]
    show columnLevel _ _ _ _ _ _ = none
    simp only [hDi]
    exact (C150_low hne (hlow h1)).1 (by exact_mod_cast hland)
  · intro h1 hland a b hfit
    have hwc : w'.column m i = Spec.storedProfile w m i := by
      unfold ProfileCube.convert at hw'
      rw [if_neg (by rw [h.unit.1]; decide)] at hw'
      injection hw' with hw'
      subst hw'
      unfold ProfileCube.column Spec.storedProfile
      apply List.ext_getElem
      · simp
      · intro k h1 h2
        have hk : k < w.heights.length := by simpa using h2
        simp only [List.getElem_zip, List.getElem_map, List.getElem_range, List.getD_eq_getElem?_getD, List.getElem?_eq_getElem hk, Option.getD_some]
        simp [convertUnit, degC]
    have hfit' : fitLineR ((realColumn (w'.column m i)).take 5) = some (a, b) := by
      rw [hwc]
      unfold realColumn at hfit ⊢
      rw [← List.map_take]
      exact hfit
    have hC := (C150_low (threshold := threshold) (orog := (o.data 0 0 i : ℝ)) (land := (l.data 0 0 i : ℝ)) (highest := ((d.getD 0 (0, 0)).1 : ℝ))
      (wbt := realColumn (w'.column m i)) hne (hlow h1)).2 (by exact_mod_cast hland) a b hfit'
    constructor
    · intro ha
      obtain ⟨z, hz0, hz1, hz2⟩ := hC.2 ha
      rw [warmColumn_max hlen] at hz1
      refine ⟨z, hz0, hz1, ?_⟩
      rw [hat]
      apply phaseLevel_some
      simp only [hDi]
      exact hz2
    · intro ha hhor
      rw [hat, hhor]
      show columnLevel _ _ _ _ _ _ = none
      simp only [hDi]
      exact hC.1 ha

/-- With heights in metres the stored profile is the profile. -/
theorem stored_metre (c : ProfileCube) (m i : ℕ) (h : c.heightUnit = metre) : Spec.storedProfile c m i = Spec.profile c m i := by
  unfold Spec.storedProfile Spec.profile
  rw [h]
  simp [metre]

/-! ## Units -/

/-- The same cube in other units. -/
structure Spec.SameProfile (c c' : ProfileCube) : Prop where
  name : c'.name = c.name
  sizes : c'.members = c.members ∧ c'.points = c.points ∧ c'.heights.length = c.heights.length
  model : c'.model = c.model
  units : c.unit.dimension = c'.unit.dimension ∧ c.heightUnit.dimension = c'.heightUnit.dimension
  profile : ∀ m i, Spec.profile c' m i = Spec.profile c m i

/-- C251: the integral does not depend on the units in which temperatures and heights are given. -/
theorem C251_integral_units (useModel : Bool) {c c' : ProfileCube} (h : Spec.SameProfile c c') : wetBulbIntegral useModel c' = wetBulbIntegral useModel c := by
  have hnil : c'.heights = [] ↔ c.heights = [] := by rw [← List.length_eq_zero_iff, h.sizes.2.2, List.length_eq_zero_iff]
  by_cases hu : c.unit.dimension = degC.dimension
  swap
  · unfold wetBulbIntegral ProfileCube.convert
    rw [if_pos hu, if_pos (by rw [← h.units.1]; exact hu)]
    rfl
  have hu' : c'.unit.dimension = degC.dimension := by rw [← h.units.1]; exact hu
  by_cases hn : c.heights = []
  · unfold wetBulbIntegral ProfileCube.convert
    rw [if_neg (not_not.2 hu), if_neg (not_not.2 hu')]
    simp only [bind, Except.bind]
    unfold ProfileCube.convertHeights
    rw [if_pos hn, if_pos (hnil.2 hn)]
  have hn' : c'.heights ≠ [] := fun e => hn (hnil.1 e)
  by_cases hd : c.heightUnit.dimension = metre.dimension
  swap
  · unfold wetBulbIntegral ProfileCube.convert
    rw [if_neg (not_not.2 hu), if_neg (not_not.2 hu')]
    simp only [bind, Except.bind]
    unfold ProfileCube.convertHeights
    simp only
    rw [if_neg hn', if_neg hn, if_pos (by rw [← h.units.2]; exact hd), if_pos hd]
  have hd' : c'.heightUnit.dimension = metre.dimension := by rw [← h.units.2]; exact hd
  have key : ∀ x : ProfileCube, x.unit.dimension = degC.dimension → x.heights ≠ [] → x.heightUnit.dimension = metre.dimension →
      wetBulbIntegral useModel x = (do
        let levels ← integrate false none none ((Spec.profile x 0 0).map fun p => (p.1, 0))
        if useModel ∧ x.model = none then .error .keyError
        else .ok ⟨x.name ++ "_integral", kelvinMetre, levels.map IntegOut.point, metre, some (levels.map IntegOut.bounds), x.members, x.points,
          (fun m k i => match integrate false none none (Spec.profile x m i) with
            | .ok l => (l.map IntegOut.value).getD k 0
            | .error _ => 0), if useModel then x.model else none⟩) := by
    intro x hu hn hd
    have h1 : x.convert degC = .ok { x with data := fun m k i => convertUnit x.unit degC (x.data m k i), unit := degC } := by
      unfold ProfileCube.convert; rw [if_neg (not_not.2 hu)]
    have h2 : ({ x with data := fun m k i => convertUnit x.unit degC (x.data m k i), unit := degC } : ProfileCube).convertHeights metre =
        .ok { x with data := fun m k i => convertUnit x.unit degC (x.data m k i), unit := degC, heights := x.heights.map (convertUnit x.heightUnit metre), heightUnit := metre } := by
      unfold ProfileCube.convertHeights
      rw [if_neg (by exact hn), if_neg (by exact not_not.2 hd)]
    have hc := fun m i => (column_profile h1 h2 m i).1
    unfold wetBulbIntegral
    rw [h1]
    simp only [bind, Except.bind]
    rw [h2]
    simp only [hc, profile_pairs x 0 0]
    cases integrate false none none ((x.heights.map (convertUnit x.heightUnit metre)).map fun h => (h, 0)) <;> rfl
  rw [key c hu hn hd, key c' hu' hn' hd']
  simp only [h.profile, h.model, h.name, h.sizes.1, h.sizes.2.1]

/-- C251: nor does the phase change level depend on the unit of the temperatures. -/
theorem C251_temperature_unit (phase : String) (vicinity : (ℕ → ℚ) → ℕ → ℚ) (lin near : (ℕ → Option ℝ) → ℕ → Option ℝ) (horizontal useModel : Bool)
    {w g o l : ProfileCube} {u : StdUnit} (hs : u.scale ≠ 0) (hd : w.unit.dimension = u.dimension) (hw : w.name = "wet_bulb_temperature")
    {w' : ProfileCube} (hc : w.convert u = .ok w') :
    (phaseProcess phase vicinity lin near horizontal useModel [w', g, o, l]).map (·.1) =
      (phaseProcess phase vicinity lin near horizontal useModel [w, g, o, l]).map (·.1) := by
  unfold ProfileCube.convert at hc
  rw [if_neg (not_not.2 hd)] at hc
  injection hc with hc
  subst hc
  have hconv : ∀ v, convertUnit u degC (convertUnit w.unit u v) = convertUnit w.unit degC v := by
    intro v
    unfold convertUnit
    field_simp
    ring
  unfold phaseProcess
  cases phaseChange phase with
  | error e => rfl
  | ok r =>
    obtain ⟨threshold, label⟩ := r
    simp only
    rw [if_neg (by simp), if_neg (by simp)]
    have hone : ∀ n : String, n ≠ "wet_bulb_temperature" →
        oneProfile n [{ w with data := fun m k i => convertUnit w.unit u (w.data m k i), unit := u }, g, o, l] = oneProfile n [w, g, o, l] := by
      intro n hne
      unfold oneProfile
      rw [List.filter_cons_of_neg (a := w) (by simp only [decide_eq_true_eq]; rw [hw]; exact fun e => hne e.symm),
        List.filter_cons_of_neg (by simp only [decide_eq_true_eq]; rw [hw]; exact fun e => hne e.symm)]
    have hone' : oneProfile "wet_bulb_temperature" [{ w with data := fun m k i => convertUnit w.unit u (w.data m k i), unit := u }, g, o, l] =
        (oneProfile "wet_bulb_temperature" [w, g, o, l]).map fun _ => { w with data := fun m k i => convertUnit w.unit u (w.data m k i), unit := u } := by
      unfold oneProfile
      rw [List.filter_cons_of_pos (a := w) (by simpa using hw), List.filter_cons_of_pos (by simpa using hw)]
      cases List.filter (fun c : ProfileCube => decide (c.name = "wet_bulb_temperature")) [g, o, l] <;> rfl
    have hone1 : ∀ x, oneProfile "wet_bulb_temperature" [w, g, o, l] = .ok x → x = w := by
      intro x hx
      unfold oneProfile at hx
      rw [List.filter_cons_of_pos (by simpa using hw)] at hx
      cases hf : List.filter (fun c : ProfileCube => decide (c.name = "wet_bulb_temperature")) [g, o, l] with
      | nil => rw [hf] at hx; injection hx with hx; exact hx.symm
      | cons a b => rw [hf] at hx; exact nomatch hx
    rw [hone', hone _ (by decide), hone _ (by decide), hone _ (by decide)]
    cases he : oneProfile "wet_bulb_temperature" [w, g, o, l] with
    | error e => rfl
    | ok x =>
      obtain rfl := hone1 x he
      simp only [Except.map, bind, Except.bind]
      cases oneProfile "wet_bulb_temperature_integral" [x, g, o, l] with
      | error e => rfl
      | ok gi =>
      simp only
      cases oneProfile "surface_altitude" [x, g, o, l] with
      | error e => rfl
      | ok oi =>
      simp only
      cases oneProfile "land_binary_mask" [x, g, o, l] with
      | error e => rfl
      | ok li =>
      simp only
      have hcc : ({ x with data := fun m k i => convertUnit x.unit u (x.data m k i), unit := u } : ProfileCube).convert degC = x.convert degC := by
        unfold ProfileCube.convert
        simp only [hconv, hd]
      rw [hcc]

/-! ## Findings -/

/-- Finding: where the warmth within the layer below the top already exceeds the threshold the level is put at the top of the profile, although the
warmth, which is zero at the top, reaches the threshold lower down in that layer. -/
theorem C251_top_layer_refuted {phase label : String} {threshold : ℝ} (hph : phaseChange phase = .ok (threshold, label)) (vicinity : (ℕ → ℚ) → ℕ → ℚ)
    (lin near : (ℕ → Option ℝ) → ℕ → Option ℝ) (horizontal useModel : Bool) {cubes : List ProfileCube} {w g o l : ProfileCube}
    (h : Spec.PhaseInputs useModel cubes w g o l) (m i : ℕ) (a b : ℚ × ℚ) (r : List (ℚ × ℚ)) (hp : (a :: b :: r).Perm (Spec.profile w m i))
    (hd : (a :: b :: r).Pairwise fun a b => b.1 < a.1) (ht : threshold < (Spec.warmth (a :: b :: r) 0 : ℝ)) :
    ∃ out w', phaseProcess phase vicinity lin near horizontal useModel cubes = .ok (out, w', g) ∧ out.data m i = some ((a.1 : ℝ) + (o.data 0 0 i : ℝ)) ∧
      ∃ z, Spec.onProfile [((a.1 : ℝ), 0), ((b.1 : ℝ), (Spec.warmth (a :: b :: r) 0 : ℝ))] z threshold ∧ z < a.1 := by
  obtain ⟨out, w', hr, _, _, _, _, hall⟩ := C251_level hph vicinity lin near horizontal useModel h
  have hpos : 0 < threshold := by
    unfold phaseChange at hph
    split_ifs at hph <;> simp only [Except.ok.injEq, Prod.mk.injEq, reduceCtorEq] at hph <;> rw [← hph.1] <;> norm_num
  have hab : (b.1 : ℝ) < a.1 := by exact_mod_cast (List.pairwise_cons.1 hd).1 b (by simp)
  refine ⟨out, w', hr, (hall m i _ hp hd).2.1 ht, (a.1 : ℝ) + threshold / (Spec.warmth (a :: b :: r) 0 : ℝ) * ((b.1 : ℝ) - a.1), ?_, ?_⟩
  · right
    refine ⟨[], _, _, [], rfl, threshold / (Spec.warmth (a :: b :: r) 0 : ℝ), div_nonneg hpos.le (by linarith), (div_le_one (by linarith)).2 ht.le, rfl, ?_⟩
    have : (Spec.warmth (a :: b :: r) 0 : ℝ) ≠ 0 := by linarith
    simp only [zero_add, sub_zero]
    field_simp
  · have : 0 < threshold / (Spec.warmth (a :: b :: r) 0 : ℝ) := div_pos hpos (by linarith)
    nlinarith

/-- A column of wet bulb temperatures (degrees Celsius) at one point. -/
def exWetBulb (unit : StdUnit) (heights temps : List ℚ) : ProfileCube :=
  ⟨"wet_bulb_temperature", degC, heights, unit, none, 1, 1, fun _ k _ => temps.getD k 0, none⟩

/-- A field of one point. -/
def exSurface (name : String) (v : ℚ) : ProfileCube := ⟨name, metre, [], metre, none, 1, 1, fun _ _ _ => v, none⟩

/-- Kilometres. -/
def exKilometre : StdUnit := ⟨"length", 1000, 0⟩

theorem exInputs (unit : StdUnit) (hu : unit.dimension = "length") (heights temps : List ℚ) (hl : 2 ≤ heights.length) (land orog : ℚ)
    (ho : ∀ m i, (Spec.profile (exWetBulb unit heights temps) m i).Pairwise (fun a b => a.1 < b.1) ∨
      (Spec.profile (exWetBulb unit heights temps) m i).Pairwise (fun a b => b.1 < a.1)) :
    ∃ g, Spec.PhaseInputs false [exWetBulb unit heights temps, g, exSurface "surface_altitude" orog, exSurface "land_binary_mask" land]
      (exWetBulb unit heights temps) g (exSurface "surface_altitude" orog) (exSurface "land_binary_mask" land) := by
  obtain ⟨g, hg, _⟩ := C251_integral false (exWetBulb unit heights temps) rfl hu (by simp) hl ho
  exact ⟨g, List.Perm.refl _, ⟨rfl, rfl, rfl⟩, hg, ⟨rfl, hu⟩, by simp, hl, ho, rfl, rfl⟩

theorem snowSleet : phaseChange "snow-sleet" = .ok (90, "snow_falling") := by unfold phaseChange; rw [if_pos rfl]

/-- Finding: the line below the sea is fitted to the heights as stored; the same profile with its heights in kilometres gives another level. -/
theorem C251_height_unit_refuted (vicinity : (ℕ → ℚ) → ℕ → ℚ) (lin near : (ℕ → Option ℝ) → ℕ → Option ℝ) :
    ∃ w w' g o l : ProfileCube, ∃ out out' x x', Spec.SameProfile w w' ∧ Spec.PhaseInputs false [w, g, o, l] w g o l ∧ Spec.PhaseInputs false [w', g, o, l] w' g o l ∧
      phaseProcess "snow-sleet" vicinity lin near false false [w, g, o, l] = .ok (out, x, g) ∧
      phaseProcess "snow-sleet" vicinity lin near false false [w', g, o, l] = .ok (out', x', g) ∧ out.data 0 0 ≠ out'.data 0 0 := by
  have hprof : ∀ m i, Spec.profile (exWetBulb metre [0, 100] [0, -1]) m i = [(0, 0), (100, -1)] := by
    intro m i; simp [Spec.profile, exWetBulb, metre, degC, List.range_succ]
  have hprof' : ∀ m i, Spec.profile (exWetBulb exKilometre [0, 1 / 10] [0, -1]) m i = [(0, 0), (100, -1)] := by
    intro m i
    simp [Spec.profile, exWetBulb, exKilometre, degC, List.range_succ]
    norm_num
  have hst : Spec.storedProfile (exWetBulb metre [0, 100] [0, -1]) 0 0 = [(0, 0), (100, -1)] := by rw [stored_metre _ _ _ rfl, hprof]
  have hst' : Spec.storedProfile (exWetBulb exKilometre [0, 1 / 10] [0, -1]) 0 0 = [(0, 0), (1 / 10, -1)] := by
    simp [Spec.storedProfile, exWetBulb, degC, List.range_succ]
  have hs : Spec.SameProfile (exWetBulb metre [0, 100] [0, -1]) (exWetBulb exKilometre [0, 1 / 10] [0, -1]) :=
    ⟨rfl, ⟨rfl, rfl, rfl⟩, rfl, ⟨rfl, rfl⟩, fun m i => by rw [hprof, hprof']⟩
  obtain ⟨g, hg⟩ := exInputs metre rfl [0, 100] [0, -1] (by simp) 0 0 (fun m i => Or.inl (by rw [hprof]; simp))
  have hg' : Spec.PhaseInputs false [exWetBulb exKilometre [0, 1 / 10] [0, -1], g, exSurface "surface_altitude" 0, exSurface "land_binary_mask" 0]
      (exWetBulb exKilometre [0, 1 / 10] [0, -1]) g (exSurface "surface_altitude" 0) (exSurface "land_binary_mask" 0) :=
    ⟨List.Perm.refl _, ⟨rfl, rfl, rfl⟩, by rw [C251_integral_units false hs]; exact hg.integral, ⟨rfl, rfl⟩, by simp, by simp [exWetBulb],
      fun m i => Or.inl (by rw [hprof']; simp), rfl, rfl⟩
  obtain ⟨out, x, hr, _, _, _, _, hall⟩ := C251_level snowSleet vicinity lin near false false hg
  obtain ⟨out', x', hr', _, _, _, _, hall'⟩ := C251_level snowSleet vicinity lin near false false hg'
  refine ⟨_, _, g, _, _, out, out', x, x', hs, hg, hg', hr, hr', ?_⟩
  have hw0 : Spec.warmth [(100, -1), (0, 0)] 0 = 0 := by
    simp [Spec.warmth, Spec.trapezium]
  have h1 := (hall 0 0 [(100, -1), (0, 0)] (by rw [hprof]; exact List.Perm.swap _ _ _) (by simp)).2.2.2
  have h2 := (hall' 0 0 [(100, -1), (0, 0)] (by rw [hprof']; exact List.Perm.swap _ _ _) (by simp)).2.2.2
  simp only [List.length_cons, List.length_nil, hw0] at h1 h2
  rw [hst] at h1
  rw [hst'] at h2
  have f1 : fitLineR (realColumn (List.take 5 [((0 : ℚ), (0 : ℚ)), (100, -1)])) = some (-1 / 100, 0) := by
    simp [fitLineR, realColumn]
    norm_num
  have f2 : fitLineR (realColumn (List.take 5 [((0 : ℚ), (0 : ℚ)), (1 / 10, -1)])) = some (-10, 0) := by
    simp [fitLineR, realColumn]
    norm_num
  obtain ⟨z, hz0, hz1, hz⟩ := (h1 (by norm_num) (by simp [exSurface]) _ _ f1).1 (by norm_num)
  obtain ⟨z', hz0', hz1', hz'⟩ := (h2 (by norm_num) (by simp [exSurface]) _ _ f2).1 (by norm_num)
  rw [hz, hz']
  intro he
  have e1 : Spec.belowSea (-1 / 100) 0 z = z ^ 2 / 200 := by
    unfold Spec.belowSea
    have : ∫ x in z..0, max ((-1 / 100 : ℝ) * x + 0) 0 = ∫ x in z..0, ((-1 / 100 : ℝ) * x + 0) := by
      apply intervalIntegral.integral_congr
      intro x hx
      rw [Set.uIcc_of_le hz0] at hx
      simp only
      rw [max_eq_left]
      nlinarith [hx.2]
    rw [this, line_integral]
    ring
  have e2 : Spec.belowSea (-10) 0 z' = 5 * z' ^ 2 := by
    unfold Spec.belowSea
    have : ∫ x in z'..0, max ((-10 : ℝ) * x + 0) 0 = ∫ x in z'..0, ((-10 : ℝ) * x + 0) := by
      apply intervalIntegral.integral_congr
      intro x hx
      rw [Set.uIcc_of_le hz0'] at hx
      simp only
      rw [max_eq_left]
      nlinarith [hx.2]
    rw [this, line_integral]
    ring
  rw [e1] at hz1
  rw [e2] at hz1'
  push_cast at hz1 hz1'
  have b1 : -200 < z := by nlinarith
  have b2 : z < -100 := by nlinarith
  have b3 : -10 < z' := by nlinarith
  simp only [exSurface, Option.some.injEq, Rat.cast_zero, add_zero] at he
  rw [max_eq_left (by linarith), max_eq_left (by linarith)] at he
  linarith

/-- Finding: the line below the sea is fitted to the first five levels as stored; stored from the top down these are not the lowest ones, and the same
profile has no level although it has one when stored from the bottom up. -/
theorem C251_level_order_refuted (vicinity : (ℕ → ℚ) → ℕ → ℚ) (lin near : (ℕ → Option ℝ) → ℕ → Option ℝ) :
    ∃ w w' g g' o l : ProfileCube, ∃ out out' x x', (∀ m i, (Spec.profile w' m i).Perm (Spec.profile w m i)) ∧
      Spec.PhaseInputs false [w, g, o, l] w g o l ∧ Spec.PhaseInputs false [w', g', o, l] w' g' o l ∧
      phaseProcess "snow-sleet" vicinity lin near false false [w, g, o, l] = .ok (out, x, g) ∧
      phaseProcess "snow-sleet" vicinity lin near false false [w', g', o, l] = .ok (out', x', g') ∧ out.data 0 0 ≠ none ∧ out'.data 0 0 = none := by
  have hprof : ∀ m i, Spec.profile (exWetBulb metre [0, 100, 200, 300, 400, 500] [-1, -2, -2, -2, -2, -2]) m i =
      [(0, -1), (100, -2), (200, -2), (300, -2), (400, -2), (500, -2)] := by
    intro m i; simp [Spec.profile, exWetBulb, metre, degC, List.range_succ]
  have hprof' : ∀ m i, Spec.profile (exWetBulb metre [500, 400, 300, 200, 100, 0] [-2, -2, -2, -2, -2, -1]) m i =
      [(500, -2), (400, -2), (300, -2), (200, -2), (100, -2), (0, -1)] := by
    intro m i; simp [Spec.profile, exWetBulb, metre, degC, List.range_succ]
  obtain ⟨g, hg⟩ := exInputs metre rfl [0, 100, 200, 300, 400, 500] [-1, -2, -2, -2, -2, -2] (by simp) 0 0 (fun m i => Or.inl (by rw [hprof]; decide +kernel))
  obtain ⟨g', hg'⟩ := exInputs metre rfl [500, 400, 300, 200, 100, 0] [-2, -2, -2, -2, -2, -1] (by simp) 0 0 (fun m i => Or.inr (by rw [hprof']; decide +kernel))
  obtain ⟨out, x, hr, _, _, _, _, hall⟩ := C251_level snowSleet vicinity lin near false false hg
  obtain ⟨out', x', hr', _, _, _, _, hall'⟩ := C251_level snowSleet vicinity lin near false false hg'
  refine ⟨_, _, g, g', _, _, out, out', x, x', ?_, hg, hg', hr, hr', ?_⟩
  · intro m i
    rw [hprof, hprof']
    decide +kernel
  have hw0 : Spec.warmth [(500, -2), (400, -2), (300, -2), (200, -2), (100, -2), (0, -1)] 4 = 0 := by decide +kernel
  have h1 := (hall 0 0 [(500, -2), (400, -2), (300, -2), (200, -2), (100, -2), (0, -1)] (by rw [hprof]; decide +kernel) (by decide +kernel)).2.2.2
  have h2 := (hall' 0 0 [(500, -2), (400, -2), (300, -2), (200, -2), (100, -2), (0, -1)] (by rw [hprof']) (by decide +kernel)).2.2.2
  simp only [List.length_cons, List.length_nil, hw0] at h1 h2
  rw [stored_metre _ _ _ rfl, hprof] at h1
  rw [stored_metre _ _ _ rfl, hprof'] at h2
  have f1 : fitLineR (realColumn (List.take 5 [((0 : ℚ), (-1 : ℚ)), (100, -2), (200, -2), (300, -2), (400, -2), (500, -2)])) = some (-1 / 500, -7 / 5) := by
    simp [fitLineR, realColumn]
    norm_num
  have f2 : fitLineR (realColumn (List.take 5 [((500 : ℚ), (-2 : ℚ)), (400, -2), (300, -2), (200, -2), (100, -2), (0, -1)])) = some (0, -2) := by
    simp [fitLineR, realColumn]
    norm_num
  obtain ⟨z, _, _, hz⟩ := (h1 (by norm_num) (by simp [exSurface]) _ _ f1).1 (by norm_num)
  refine ⟨by rw [hz]; simp, (h2 (by norm_num) (by simp [exSurface]) _ _ f2).2 le_rfl trivial⟩

/-- Finding: the caller's temperature cube is left in degrees Celsius. -/
theorem C251_caller_refuted {phase label : String} {threshold : ℝ} (hph : phaseChange phase = .ok (threshold, label)) (vicinity : (ℕ → ℚ) → ℕ → ℚ)
    (lin near : (ℕ → Option ℝ) → ℕ → Option ℝ) (horizontal useModel : Bool) {cubes : List ProfileCube} {w g o l : ProfileCube}
    (h : Spec.PhaseInputs useModel cubes w g o l) (hu : w.unit ≠ degC) :
    ∃ out w', phaseProcess phase vicinity lin near horizontal useModel cubes = .ok (out, w', g) ∧ w' ≠ w := by
  obtain ⟨out, w', hr, hw', _⟩ := phaseProcess_spec hph vicinity lin near horizontal useModel h
  refine ⟨out, w', hr, ?_⟩
  rintro rfl
  unfold ProfileCube.convert at hw'
  rw [if_neg (by rw [h.unit.1]; decide)] at hw'
  injection hw' with hw'
  apply hu
  exact (congrArg ProfileCube.unit hw').symm

/-- C251: exactly four inputs are accepted, and each of the four names exactly once. -/
theorem C251_refused (phase : String) (vicinity : (ℕ → ℚ) → ℕ → ℚ) (lin near : (ℕ → Option ℝ) → ℕ → Option ℝ) (horizontal useModel : Bool)
    (cubes : List ProfileCube) {r : PhaseOut × ProfileCube × ProfileCube}
    (h : phaseProcess phase vicinity lin near horizontal useModel cubes = .ok r) :
    (phase = "snow-sleet" ∨ phase = "sleet-rain" ∨ phase = "hail-rain") ∧
    (cubes.map ProfileCube.name).Perm ["wet_bulb_temperature", "wet_bulb_temperature_integral", "surface_altitude", "land_binary_mask"] := by
  have hone : ∀ {n : String} {c : ProfileCube}, oneProfile n cubes = .ok c → (cubes.map ProfileCube.name).count n = 1 := by
    intro n c hc
    unfold oneProfile at hc
    cases hf : cubes.filter (fun c => decide (c.name = n)) with
    | nil => rw [hf] at hc; exact nomatch hc
    | cons a t =>
      cases t with
      | cons b t => rw [hf] at hc; exact nomatch hc
      | nil =>
        rw [List.count, List.countP_map, List.countP_eq_length_filter]
        have : cubes.filter ((fun x => x == n) ∘ ProfileCube.name) = cubes.filter (fun c => decide (c.name = n)) := by
          apply List.filter_congr
          intro x _
          exact Bool.beq_eq_decide_eq x.name n
        rw [this, hf]
        rfl
  unfold phaseProcess at h
  cases hp : phaseChange phase with
  | error e => rw [hp] at h; exact nomatch h
  | ok q =>
    rw [hp] at h
    simp only at h
    by_cases hl : cubes.length ≠ 4
    · rw [if_pos hl] at h; exact nomatch h
    rw [if_neg hl] at h
    simp only [bind, Except.bind] at h
    cases h1 : oneProfile "wet_bulb_temperature" cubes with
    | error e => rw [h1] at h; exact nomatch h
    | ok a =>
    cases h2 : oneProfile "wet_bulb_temperature_integral" cubes with
    | error e => rw [h1, h2] at h; exact nomatch h
    | ok b =>
    cases h3 : oneProfile "surface_altitude" cubes with
    | error e => rw [h1, h2, h3] at h; exact nomatch h
    | ok c =>
    cases h4 : oneProfile "land_binary_mask" cubes with
    | error e => rw [h1, h2, h3, h4] at h; exact nomatch h
    | ok d =>
    constructor
    · unfold phaseChange at hp
      by_cases e1 : phase = "snow-sleet"
      · exact Or.inl e1
      by_cases e2 : phase = "sleet-rain"
      · exact Or.inr (Or.inl e2)
      by_cases e3 : phase = "hail-rain"
      · exact Or.inr (Or.inr e3)
      rw [if_neg e1, if_neg e2, if_neg e3] at hp
      exact nomatch hp
    · have hsub : List.Subperm ["wet_bulb_temperature", "wet_bulb_temperature_integral", "surface_altitude", "land_binary_mask"] (cubes.map ProfileCube.name) := by
        apply List.subperm_of_subset (by decide)
        intro n hn
        have hpos : 0 < (cubes.map ProfileCube.name).count n := by
          simp only [List.mem_cons, List.not_mem_nil, or_false] at hn
          rcases hn with rfl | rfl | rfl | rfl
          · rw [hone h1]; decide
          · rw [hone h2]; decide
          · rw [hone h3]; decide
          · rw [hone h4]; decide
        exact List.count_pos_iff.1 hpos
      exact (hsub.perm_of_length_le (by rw [List.length_map]; simp; omega)).symm

/-- A profile whose warmth passes 90 K m between its third and second levels. -/
example (vicinity : (ℕ → ℚ) → ℕ → ℚ) (lin near : (ℕ → Option ℝ) → ℕ → Option ℝ) : ∃ g out x z,
    phaseProcess "snow-sleet" vicinity lin near true false
      [exWetBulb metre [0, 100, 200, 1000] [5, 2, 0, -5], g, exSurface "surface_altitude" 30, exSurface "land_binary_mask" 1] = .ok (out, x, g) ∧
    out.name = "altitude_of_" ++ "snow_falling" ++ "_level" ∧ out.data 0 0 = some (((30 : ℚ) : ℝ) + z) ∧
    Spec.onProfile (realColumn [(200, 0), (100, 100), (0, 450)]) z 90 := by
  have hprof : ∀ m i, Spec.profile (exWetBulb metre [0, 100, 200, 1000] [5, 2, 0, -5]) m i = [(0, 5), (100, 2), (200, 0), (1000, -5)] := by
    intro m i; simp [Spec.profile, exWetBulb, metre, degC, List.range_succ]
  obtain ⟨g, hg⟩ := exInputs metre rfl [0, 100, 200, 1000] [5, 2, 0, -5] (by simp) 1 30 (fun m i => Or.inl (by rw [hprof]; decide +kernel))
  obtain ⟨out, x, hr, hn, _, _, _, hall⟩ := C251_level snowSleet vicinity lin near true false hg
  have hw : Spec.warmth [(1000, -5), (200, 0), (100, 2), (0, 5)] 0 = 0 ∧ Spec.warmth [(1000, -5), (200, 0), (100, 2), (0, 5)] 2 = 450 := by decide +kernel
  have hc : Spec.warmColumn [(1000, -5), (200, 0), (100, 2), (0, 5)] = [(200, 0), (100, 100), (0, 450)] := by decide +kernel
  obtain ⟨z, hz, hon⟩ := (hall 0 0 [(1000, -5), (200, 0), (100, 2), (0, 5)] (by rw [hprof]; decide +kernel) (by decide +kernel)).1
    (by rw [hw.1]; norm_num) (by simp only [List.length_cons, List.length_nil, hw.2]; norm_num)
  rw [hc] at hon
  exact ⟨g, out, x, z, hr, hn, hz, hon⟩

end Improver
