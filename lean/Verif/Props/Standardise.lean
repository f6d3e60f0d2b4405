import Verif.Model.Assembly

/-! Property theorems C192 (standardise.py). -/

namespace Improver

/-- C192: the values flagged are missing afterwards and all others are as they were; the axes and coordinates are the same,
with realization first. -/
theorem C192_status_flag {f : StatusFlag} {c r : AxisCube} (h : removeStatusFlag (some f) c = .ok r) :
    f.expected = true ∧ f.masked = false ∧ (∀ i, f.value i ≠ 0 → r.data i = none) ∧ (∀ i, f.value i = 0 → r.data i = c.data i) ∧
    (∀ a, a ∈ r.axes ↔ a ∈ c.axes ∧ a ≠ ("realization", 1)) ∧ r.coords.map AxisCoord.coord = c.coords.map AxisCoord.coord ∧
    r.coords.map AxisCoord.spans = c.coords.map (fun x => if ("realization", 1) ∈ c.axes then x.spans.filter (· ≠ "realization") else x.spans) ∧
    r.coords.map AxisCoord.isDim = c.coords.map (fun x => x.isDim && !(decide (("realization", 1) ∈ c.axes ∧ "realization" ∈ x.spans))) := by
  unfold removeStatusFlag at h
  dsimp only at h
  cases he : f.expected with
  | false => rw [he] at h; exact nomatch h
  | true =>
    cases hm : f.masked with
    | true => rw [he, hm] at h; exact nomatch h
    | false =>
      rw [he, hm] at h
      simp only [Bool.not_true, Bool.false_eq_true, if_false] at h
      by_cases hs : f.spans.filter (· ≠ "realization") ≠ (c.axes.map Prod.fst).filter (· ≠ "realization")
      · rw [if_pos hs] at h; exact nomatch h
      · rw [if_neg hs] at h
        injection h with h
        subst h
        refine ⟨rfl, rfl, fun i hi => by simp [flagData, hi], fun i hi => by simp [flagData, hi], ?_, ?_, ?_, ?_⟩
        · rintro ⟨a, n⟩
          simp only [mergeAxes, List.mem_append, List.mem_filter, decide_eq_true_eq, ne_eq, Prod.mk.injEq, not_and]
          by_cases ha : a = "realization" <;> simp [ha]
        · rw [List.map_map]
          apply List.map_congr_left
          intro x _
          simp only [Function.comp, scalarRealization]
          split <;> rfl
        · rw [List.map_map]
          apply List.map_congr_left
          intro x _
          simp only [Function.comp, scalarRealization]
          by_cases h1 : ("realization", 1) ∈ c.axes
          · by_cases h2 : "realization" ∈ x.spans
            · rw [if_pos ⟨h1, h2⟩, if_pos h1]
            · rw [if_neg (fun h => h2 h.2), if_pos h1]
              symm
              rw [List.filter_eq_self]
              intro a ha
              simp only [ne_eq, decide_not, Bool.not_eq_true', decide_eq_false_iff_not]
              rintro rfl
              exact h2 ha
          · rw [if_neg (fun h => h1 h.1), if_neg h1]
        · rw [List.map_map]
          apply List.map_congr_left
          intro x _
          simp only [Function.comp, scalarRealization]
          by_cases h1 : ("realization", 1) ∈ c.axes ∧ "realization" ∈ x.spans
          · rw [if_pos h1]; simp [h1]
          · rw [if_neg h1]; simp [h1]

/-- C192: nothing is done without the flag, and a flag of another form, or with masked values, is refused. -/
theorem C192_status_flag_refused (f : StatusFlag) (c : AxisCube) : removeStatusFlag none c = .ok c ∧
    (f.expected = false ∨ f.masked = true → removeStatusFlag (some f) c = .error .valueError) := by
  refine ⟨rfl, ?_⟩
  rintro (h | h)
  · simp [removeStatusFlag, h]
  · unfold removeStatusFlag
    cases f.expected <;> simp [h]

/-- An axis to lose: its dimension coordinate has one point, and "realization" is not part of its name. -/
def Spec.lostAxis (c : AxisCube) (a : String) : Prop :=
  ∃ x ∈ c.coords, x.isDim = true ∧ x.spans = [a] ∧ x.coord.points.length = 1 ∧ ¬ "realization".toList <:+: x.coord.name.toList

theorem collapsible_iff (c : AxisCube) (a : String) : collapsible c a = true ↔ Spec.lostAxis c a := by
  unfold collapsible Spec.lostAxis
  simp only [List.any_eq_true, Bool.and_eq_true, decide_eq_true_eq, Bool.not_eq_true', subStr, decide_eq_false_iff_not, and_assoc]

/-- C192: scalar dimensions other than realization are lost, with no value or coordinate: the data are those at the only
place along them. -/
theorem C192_collapse (c : AxisCube) :
    (∀ a, a ∈ (collapseScalars c).axes ↔ a ∈ c.axes ∧ ¬ Spec.lostAxis c a.1) ∧
    (collapseScalars c).axes.Sublist c.axes ∧
    (collapseScalars c).coords.map AxisCoord.coord = c.coords.map AxisCoord.coord ∧
    (∀ x ∈ (collapseScalars c).coords, ∀ a ∈ x.spans, ¬ Spec.lostAxis c a) ∧
    ∀ i, (∀ a, Spec.lostAxis c a → i a = 0) → (collapseScalars c).data i = c.data i := by
  refine ⟨fun a => ?_, List.filter_sublist, ?_, ?_, ?_⟩
  · simp only [collapseScalars, List.mem_filter, Bool.not_eq_true', ← Bool.not_eq_true, collapsible_iff]
  · simp only [collapseScalars, List.map_map]
    apply List.map_congr_left
    intro x _
    simp only [Function.comp, collapseCoord]
    split <;> rfl
  · intro x hx a ha
    simp only [collapseScalars, List.mem_map] at hx
    obtain ⟨y, _, rfl⟩ := hx
    unfold collapseCoord at ha
    rw [← collapsible_iff]
    split at ha
    · have := (List.mem_filter.1 ha).2
      simpa using this
    · next h =>
      intro hc
      exact h (List.any_eq_true.2 ⟨a, ha, hc⟩)
  · intro i hi
    simp only [collapseScalars]
    congr 1
    funext a
    split
    · next h => exact (hi a ((collapsible_iff c a).1 h)).symm
    · rfl

/-- C192: what depends on no lost position is not changed: the data of the result are the same wherever along lost axes they are
looked up. -/
theorem C192_collapse_data (c : AxisCube) (i j : String → ℕ) (h : ∀ a, ¬ Spec.lostAxis c a → i a = j a) :
    (collapseScalars c).data i = (collapseScalars c).data j := by
  simp only [collapseScalars]
  congr 1
  funext a
  split
  · rfl
  · next hc => exact h a fun hl => hc ((collapsible_iff c a).2 hl)

/-- C192: a coordinate to remove is gone if just one has its name, dimension coordinates included; no other coordinate is
touched. -/
theorem C192_remove (coords : List AxisCoord) (name : String) :
    ((coords.filter fun x => decide (x.coord.name = name)).length = 1 → ∀ x, x ∈ removeCoordNamed coords name ↔ x ∈ coords ∧ x.coord.name ≠ name) ∧
    ((coords.filter fun x => decide (x.coord.name = name)).length ≠ 1 → removeCoordNamed coords name = coords) := by
  unfold removeCoordNamed
  constructor
  · intro h x
    rw [if_pos h]; simp [List.mem_filter]
  · intro h; rw [if_neg h]

/-- C192: a coordinate is modified only if it is a scalar coordinate that is not one of time, by one number; then only its
points change.  A name that is not there is ignored. -/
theorem C192_modify {coords : List AxisCoord} (hn : (coords.map fun x => x.coord.name).Nodup) (name : String) (v : NewValue) :
    ((∀ x ∈ coords, x.coord.name ≠ name) → modifyCoord coords (name, v) = .ok coords) ∧
    ∀ x ∈ coords, x.coord.name = name →
      (∀ r, modifyCoord coords (name, v) = .ok r ↔ x.isDim = false ∧ x.coord.points.length = 1 ∧ timeSpec name = none ∧
        ∃ q, v = .number q ∧ r = coords.map fun y => if y.coord.name = name then withPoints [q] y else y) := by
  constructor
  · intro h
    unfold modifyCoord
    have : coords.find? (fun x => decide (x.coord.name = name)) = none := by
      rw [List.find?_eq_none]; intro x hx; simpa using h x hx
    simp only [this]
  · intro x hx hxn r
    have hf : coords.find? (fun y => decide (y.coord.name = name)) = some x := by
      cases h : coords.find? (fun y => decide (y.coord.name = name)) with
      | none =>
        rw [List.find?_eq_none] at h
        exact absurd hxn (by simpa using h x hx)
      | some y =>
        have hy := List.find?_some h
        have hym := List.mem_of_find?_eq_some h
        simp only [decide_eq_true_eq] at hy
        congr 1
        exact List.inj_on_of_nodup_map hn hym hx (hy.trans hxn.symm)
    unfold modifyCoord
    simp only [hf]
    cases hd : x.isDim with
    | true => simp
    | false =>
      simp only [Bool.false_eq_true, if_false, true_and]
      cases v with
      | list l => simp
      | number q =>
        dsimp only
        by_cases ht : (timeSpec name).isSome = true
        · rw [if_pos ht]
          constructor
          · intro h; exact nomatch h
          · rintro ⟨_, h, _⟩; rw [h] at ht; exact nomatch ht
        · rw [if_neg ht]
          by_cases hl : x.coord.points.length ≠ 1
          · rw [if_pos hl]
            constructor
            · intro h; exact nomatch h
            · rintro ⟨h, _⟩; exact absurd h hl
          · rw [if_neg hl]
            have hl := not_not.1 hl
            constructor
            · intro h
              injection h with h
              exact ⟨hl, by simpa using ht, q, rfl, h.symm⟩
            · rintro ⟨_, _, q', hq, hr⟩
              injection hq with hq
              subst hq
              rw [hr]

/-- C192: only `point: time` cell methods are discarded, the others keep their order. -/
theorem C192_cell_methods (l : List (String × List String × List String × List String)) :
    (∀ m, m ∈ discardMethods l ↔ m ∈ l ∧ m ≠ ("point", ["time"], [], [])) ∧ (discardMethods l).Sublist l := by
  refine ⟨fun m => ?_, List.filter_sublist⟩
  simp only [discardMethods, List.mem_filter, decide_eq_true_eq]

/-- A dimension coordinate of metres. -/
def exAxis (name : String) (points : List ℚ) (bounds : Option (List ℚ)) (spans : List String) (isDim : Bool) : AxisCoord :=
  ⟨⟨name, .float32, points, bounds.map fun b => (.float32, b), ⟨"m", 1, 0⟩⟩, spans, isDim⟩

/-- One realization, one height, two places. -/
def exAxisCube : AxisCube :=
  ⟨[("height", 1), ("realization", 1), ("y", 2)],
    [exAxis "height" [2] none ["height"] true, exAxis "realization" [0] none ["realization"] true,
      exAxis "y" [0, 1] none ["y"] true], fun i => some (i "y")⟩

example : (collapseScalars exAxisCube).axes = [("realization", 1), ("y", 2)] ∧
    ((collapseScalars exAxisCube).coords.map fun x => (x.coord.name, x.spans, x.isDim)) =
      [("height", [], false), ("realization", ["realization"], true), ("y", ["y"], true)] ∧
    (removeStatusFlag (some ⟨true, false, ["height", "y"], fun i => i "y"⟩) exAxisCube).toOption.map
      (fun r => (r.data (fun _ => 0), r.data (fun _ => 1))) = some (some 0, none) ∧
    (modifyCoord [exAxis "height" [2] none [] false] ("height", .number 10)).toOption =
      some [exAxis "height" [10] none [] false] := by decide +kernel

/-- Finding: removing the status flag loses a realization dimension of length one, which is otherwise kept. -/
theorem C192_realization_refuted :
    (removeStatusFlag (some ⟨true, false, ["height", "y"], fun _ => 0⟩) exAxisCube).toOption.map AxisCube.axes =
      some [("height", 1), ("y", 2)] ∧ ("realization", 1) ∈ (collapseScalars exAxisCube).axes := by decide +kernel

/-- Finding: a modified coordinate keeps its old bounds, which need not contain the new value. -/
theorem C192_bounds_refuted :
    (modifyCoord [exAxis "height" [2] (some [1, 3]) [] false] ("height", .number 10)).toOption =
      some [exAxis "height" [10] (some [1, 3]) [] false] := by decide +kernel

/-- Finding: the option to remove scalar coordinates removes the coordinate of a dimension too. -/
theorem C192_dimension_refuted :
    removeCoordNamed exAxisCube.coords "y" = exAxisCube.coords.take 2 := by decide +kernel

end Improver
