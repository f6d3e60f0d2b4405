import Verif.Props.PhaseRun
import Verif.Props.CombineRun
import Verif.Props.HaloRun

/-! # Further statements about whole plugins -/

namespace Improver

theorem convert_keeps {c c' : ProfileCube} {u : StdUnit} (h : c.convert u = .ok c') : c'.heights = c.heights ∧ c'.bounds = c.bounds ∧ c'.points = c.points := by
  unfold ProfileCube.convert at h
  by_cases hc : c.unit.dimension ≠ u.dimension
  · rw [if_pos hc] at h; exact nomatch h
  · rw [if_neg hc] at h
    cases h
    exact ⟨rfl, rfl, rfl⟩

/-- An integral without bounds of its heights: the level of points that are warm at the highest level is the last height of the temperature, the highest when they are
stored upwards. -/
theorem C251_without_bounds {phase label : String} {threshold : ℝ} (hph : phaseChange phase = .ok (threshold, label)) (vicinity : (ℕ → ℚ) → ℕ → ℚ)
    (lin near : (ℕ → Option ℝ) → ℕ → Option ℝ) (horizontal useModel : Bool) {cubes : List ProfileCube} {w g : ProfileCube} {out : PhaseOut} {w' g' : ProfileCube}
    (hw : oneProfile "wet_bulb_temperature" cubes = .ok w) (hg : oneProfile "wet_bulb_temperature_integral" cubes = .ok g) (hb : g.bounds = none)
    (h : phaseProcess phase vicinity lin near horizontal useModel cubes = .ok (out, w', g')) :
    ∃ (heights : List ℚ) (top : ℚ) (o l : ProfileCube), w.heights = heights ++ [top] ∧ oneProfile "surface_altitude" cubes = .ok o ∧ oneProfile "land_binary_mask" cubes = .ok l ∧
      ∀ m, out.data m = phaseLevel g.points lin near horizontal threshold top (fun i => (o.data 0 0 i : ℝ)) (fun i => (vicinity (o.data 0 0) i : ℝ))
          (fun i => (l.data 0 0 i : ℝ)) (fun i => realColumn (columnDown g' m i)) (fun i => realColumn (w'.column m i)) := by
  unfold phaseProcess at h
  rw [hph] at h
  dsimp only at h
  by_cases hl : cubes.length ≠ 4
  · rw [if_pos hl] at h; exact nomatch h
  rw [if_neg hl, hw, hg] at h
  simp only [bind, Except.bind] at h
  cases ho : oneProfile "surface_altitude" cubes with
  | error e => rw [ho] at h; exact nomatch h
  | ok o =>
  cases hla : oneProfile "land_binary_mask" cubes with
  | error e => rw [ho, hla] at h; exact nomatch h
  | ok l =>
  rw [ho, hla] at h
  dsimp only at h
  cases hw2 : w.convert degC with
  | error e => rw [hw2] at h; exact nomatch h
  | ok w2 =>
  cases hg2 : g.convert kelvinMetre with
  | error e => rw [hw2, hg2] at h; exact nomatch h
  | ok g2 =>
  rw [hw2, hg2] at h
  dsimp only at h
  have e1 : w2.heights = w.heights := (convert_keeps hw2).1
  have e2 : g2.bounds = none := (convert_keeps hg2).2.1.trans hb
  have e3 : g2.points = g.points := (convert_keeps hg2).2.2
  cases hm : modelsAgree useModel w2 g2 with
  | error e => rw [hm] at h; exact nomatch h
  | ok _ =>
  cases hh : highestOf w2 g2 with
  | error e => rw [hm, hh] at h; exact nomatch h
  | ok top =>
  rw [hm, hh] at h
  dsimp only at h
  by_cases c3 : w2.points ≠ g2.points ∨ o.points ≠ g2.points ∨ l.points ≠ g2.points ∨ w2.members ≠ g2.members
  · rw [if_pos c3] at h; exact nomatch h
  rw [if_neg c3] at h
  cases h
  unfold highestOf at hh
  by_cases c4 : w'.heights = [] ∨ g'.heights = []
  · rw [if_pos c4] at hh; exact nomatch hh
  rw [if_neg c4, e2] at hh
  dsimp only at hh
  cases hlast : w'.heights.getLast? with
  | none => rw [hlast] at hh; exact nomatch hh
  | some t =>
    rw [hlast] at hh
    cases hh
    obtain ⟨ys, hys⟩ := List.getLast?_eq_some_iff.1 hlast
    exact ⟨ys, top, o, l, by rw [← e1, hys], rfl, rfl, fun m => by rw [← e3]⟩

/-- Not so: that with broadcasting only further cubes are broadcast.  A first cube with a realization dimension of length one is accepted with a cube of two
realizations, of which only the first is used. -/
theorem C253_single_first_refuted :
    let first := exCombineCube "a" ["realization", "rain", "x"] (exCombinePoints [0] [3, 4]) (fun _ => some 1) []
    let second := exCombineCube "b" ["realization", "rain", "x"] (exCombinePoints [0, 1] [3, 4]) (fun idx => some (10 + 10 * idx.getD 0 0)) []
    ((exCombiner.process [first, second] "c").toOption.map fun o => o.1.data [1, 1]) = some (some 11) := by
  intro first second
  decide +kernel

/-- Without a halo radius the result is the smoothed cube itself: for probabilities that of `NeighbourhoodProcessing`, for percentiles that of
`GeneratePercentilesFromANeighbourhood`, with no row or column taken off. -/
theorem C266_without_halo (m : MetaNb) (hh : m.halo = none) (order : List String → List String) (mask : Option (PointCube ℤ)) (c : NbCube) :
    (m.output = "probabilities" → (m.shape = "circular" ∨ (m.shape = "square" ∧ m.weighted = false)) →
      m.process order mask c = m.plugin.process order mask c) ∧
    (m.output = "percentiles" → m.weighted = false → ∀ out, PercNbPlugin.process ⟨m.radii, m.percentiles⟩ order c = .ok out →
      ∃ r, m.process order mask c = .ok r ∧ r.dims = out.dims ∧ r.points = out.points ∧ ∀ idx, r.data idx = some (some (out.data idx))) := by
  constructor
  · intro hout hm
    unfold MetaNb.process
    rw [(C90_options m.output m.shape false m.weighted).1.2 ⟨by rw [hout]; simp, by simp⟩]
    simp only [bind, Except.bind]
    unfold MetaNb.fields
    rw [if_pos hout, (C90_options m.output m.shape false m.weighted).2.2 hm]
    simp only [bind, Except.bind]
    cases m.plugin.process order mask c with
    | error e => rfl
    | ok whole => unfold dropHalo; rw [hh]
  · intro hout hw out ho
    unfold MetaNb.process
    rw [(C90_options m.output m.shape false m.weighted).1.2 ⟨by rw [hw]; simp, by simp⟩]
    simp only [bind, Except.bind]
    unfold MetaNb.fields
    rw [if_neg (by rw [hout]; decide), if_pos hout, ho]
    simp only [bind, Except.bind, pure, Except.pure]
    unfold dropHalo
    rw [hh]
    exact ⟨_, rfl, rfl, rfl, fun _ => rfl⟩

end Improver
