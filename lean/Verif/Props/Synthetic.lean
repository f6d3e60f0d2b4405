import Verif.Model.Synthetic
import Verif.Props.Standards
import Verif.Props.Pad
import Verif.Props.Checker
import Verif.Props.Rename

/-! C268: synthetic cubes and metadata. -/

namespace Improver

open Spec

namespace Spec

/-- Points that ascend or descend. -/
def Ordered (l : List ℚ) : Prop := l.Pairwise (· < ·) ∨ l.Pairwise (· > ·)

/-- The grids known, with the names of their y and x coordinates and their units. -/
def Grid (grid y x u : String) : Prop :=
  (grid = "latlon" ∧ y = "latitude" ∧ x = "longitude" ∧ u = "degrees") ∨
  (grid = "equalarea" ∧ y = "projection_y_coordinate" ∧ x = "projection_x_coordinate" ∧ u = "metres")

/-- The points of the first dimension: those given, or else counted from 0. -/
def numbered (given : Option (List ℚ)) (n : ℕ) : List ℚ := given.getD ((List.range n).map fun k : ℕ => (k : ℚ))

/-- Points that can be those of a dimension of length `n`. -/
def Points (l : List ℚ) (n : ℕ) : Prop := l.length = n ∧ Ordered l

/-- The realization coordinate. -/
def member (l : List ℚ) : SynthDim := ⟨"realization", l, "1", [], false⟩

/-- The vertical coordinate. -/
def level (pressure : Bool) (l : List ℚ) : SynthDim :=
  if pressure then ⟨"pressure", l, "Pa", [("positive", "down")], false⟩ else ⟨"height", l, "m", [("positive", "up")], false⟩

/-- The dimensions of a cube on the grid of `y` and `x`, from the shape of its data and the realizations and levels given. -/
def Dims (shape : List ℕ) (y x : SynthDim) (realizations levels : Option (List ℚ)) (pressure : Bool) (dims : List SynthDim) : Prop :=
  (shape.length = 2 ∧ (realizations = none ∨ levels = none) ∧ dims = [y, x]) ∨
  (∃ n ny nx, shape = [n, ny, nx] ∧ levels = none ∧ Points (numbered realizations n) n ∧ dims = [member (numbered realizations n), y, x]) ∨
  (∃ n ny nx l, shape = [n, ny, nx] ∧ realizations = none ∧ levels = some l ∧ Points l n ∧ dims = [level pressure l, y, x]) ∨
  (∃ n m ny nx l, shape = [n, m, ny, nx] ∧ levels = some l ∧ Points (numbered realizations n) n ∧ Points l m ∧
    dims = [member (numbered realizations n), level pressure l, y, x])

/-- Arguments of `generate_metadata` from which a cube of several points in each dimension can be made: times in whole seconds, time `t` and reference time `f` being those given or else the
defaults (2017-11-10 04:00 and 00:00), the period `p` in minutes. -/
structure Sound (a : MetaArgs) (t f : ℤ) (p : Option ℕ) : Prop where
  grid : a.grid = none ∨ a.grid = some "latlon" ∨ a.grid = some "equalarea"
  corner : a.corner = none ∨ ∃ y x, a.corner = some [y, x]
  attrs : "title" ∈ a.mandatory.map Prod.fst ∧ "source" ∈ a.mandatory.map Prod.fst ∧ "institution" ∈ a.mandatory.map Prod.fst
  npoints : 2 ≤ a.npoints
  dx : a.dx ≠ some 0
  dy : a.dy ≠ some 0
  levels : ∀ h, a.heights = some h → 2 ≤ h.length ∧ Ordered h
  time : a.time = some (t : ℚ) ∨ a.time = none ∧ t = 1510286400
  frt : a.frt = some (f : ℚ) ∨ a.frt = none ∧ f = 1510272000
  blend : a.blend = none
  bounds : a.bounds = none
  period : a.period = p.map fun p : ℕ => (p : ℚ)
  order : f ≤ t

/-- The spacing used when none is given. -/
def defaultSpacing (grid : Option String) : ℚ := if grid = some "equalarea" then 2000 else 1 / 50

/-- A grid axis of `n` points, in steps of `d`, from `start` or else about the origin. -/
def axis (start : Option ℚ) (d : ℚ) (n : ℕ) : List ℚ := uniform (start.getD (-(((n : ℚ) - 1) * d) / 2)) d n

/-- What the cube made must be, but for its name, units and first dimension. -/
def Made (a : MetaArgs) (time frt : ℤ) (period : Option ℕ) (first : SynthDim) (c : SynthCube) : Prop :=
  (∃ y x u, Grid (a.grid.getD "latlon") y x u ∧
    c.dims = first :: (a.heights.map (level a.pressure)).toList ++
      [⟨y, axis (a.corner.map fun l => l.getD 0 0) (a.dy.getD (defaultSpacing a.grid)) a.npoints, u, [], false⟩,
       ⟨x, axis (a.corner.map fun l => l.getD 1 0) (a.dx.getD (defaultSpacing a.grid)) a.npoints, u, [], false⟩]) ∧
  c.scalars = [] ∧ (∀ idx, c.data idx = 0) ∧
  c.times = [⟨"time", time, period.map fun p : ℕ => (time - 60 * p, time)⟩, ⟨"forecast_reference_time", frt, none⟩,
    ⟨"forecast_period", time - frt, period.map fun p : ℕ => (time - 60 * p - frt, time - frt)⟩] ∧
  ∀ k, c.attrs.lookup k = match a.mandatory.lookup k with
    | some v => some v
    | none => a.attrs.lookup k

/-- The units: those given, or else the canonical ones of the name. -/
def Units (canonical : String → Option String) (a : MetaArgs) (u : String) : Prop := a.unit = some u ∨ a.unit = none ∧ canonical a.name = some u

/-- The name of the threshold coordinate: the name of the diagnostic, without "_in_vicinity" where it ends in that. -/
def ThresholdName (name thr : String) : Prop :=
  (¬ "_in_vicinity".toList <:+: name.toList ∧ thr = name) ∨
  (name.toList = thr.toList ++ "_in_vicinity".toList ∧ ∀ p s, name.toList = p ++ "_in_vicinity".toList ++ s → p = thr.toList)

end Spec

theorem strictOrder_iff (l : List ℚ) : strictOrder l = true ↔ Spec.Ordered l := by
  unfold strictOrder Spec.Ordered
  rw [Bool.or_eq_true, decide_eq_true_iff, decide_eq_true_iff]

theorem dimCoord_iff {name : String} {points : List ℚ} {unit : String} {attrs : List (String × String)} {d : SynthDim} :
    dimCoord name points unit attrs = .ok d ↔ Spec.Ordered points ∧ d = ⟨name, points, unit, attrs, false⟩ := by
  unfold dimCoord
  by_cases h : strictOrder points = true
  · rw [if_pos h]
    constructor
    · intro e; cases e; exact ⟨(strictOrder_iff _).1 h, rfl⟩
    · rintro ⟨_, rfl⟩; rfl
  · rw [if_neg h]
    constructor
    · intro e; exact nomatch e
    · rintro ⟨h', _⟩; exact absurd ((strictOrder_iff _).2 h') h

theorem gridPoints_eq (n : ℕ) (d : ℚ) (corner : Option ℚ) :
    gridPoints n d corner = Spec.uniform (corner.getD (-(((n : ℚ) - 1) * d) / 2)) d n := by
  unfold gridPoints npLinspace Spec.uniform
  apply List.map_congr_left
  intro k hk
  have hk := List.mem_range.1 hk
  have e : (0 - (((n : ℚ) - 1) * d) / 2) = -(((n : ℚ) - 1) * d) / 2 := by ring
  rw [e]
  generalize corner.getD (-(((n : ℚ) - 1) * d) / 2) = s
  by_cases h1 : n = 1
  · subst h1
    have : k = 0 := by omega
    subst this
    simp
  · have hpos : (n : ℚ) - 1 ≠ 0 := by
      have : (2 : ℚ) ≤ n := by exact_mod_cast (by omega : 2 ≤ n)
      linarith
    rw [show s + d * ((n : ℚ) - 1) - s = d * ((n : ℚ) - 1) by ring, mul_div_cancel_right₀ _ hpos]

theorem uniform_ordered (a d : ℚ) (n : ℕ) : Spec.Ordered (Spec.uniform a d n) ↔ n ≤ 1 ∨ d ≠ 0 := by
  have hp : ∀ R : ℚ → ℚ → Prop, (∀ i j : ℕ, i < j → R (a + i * d) (a + j * d)) → (Spec.uniform a d n).Pairwise R := by
    intro R h
    unfold Spec.uniform
    rw [List.pairwise_map]
    exact List.pairwise_lt_range.imp (fun {i j} hij => h i j hij)
  constructor
  · intro h
    by_cases hn : n ≤ 1
    · exact .inl hn
    · right
      rintro rfl
      obtain ⟨m, rfl⟩ : ∃ m, n = m + 2 := ⟨n - 2, by omega⟩
      have e : ∃ l, Spec.uniform a 0 (m + 2) = a :: a :: l := by
        unfold Spec.uniform
        refine ⟨((List.range m).map Nat.succ |>.map Nat.succ).map fun k : ℕ => a + k * 0, ?_⟩
        rw [List.range_succ_eq_map, List.range_succ_eq_map]
        simp
      obtain ⟨l, e⟩ := e
      rw [e] at h
      rcases h with h | h
      · exact lt_irrefl _ ((List.pairwise_cons.1 h).1 a (by simp))
      · exact lt_irrefl _ ((List.pairwise_cons.1 h).1 a (by simp))
  · rintro (h | h)
    · left
      have : n = 0 ∨ n = 1 := by omega
      rcases this with rfl | rfl
      · exact List.Pairwise.nil
      · exact List.pairwise_singleton _ _
    · rcases lt_or_gt_of_ne h with h | h
      · right
        apply hp
        intro i j hij
        have : (i : ℚ) < j := by exact_mod_cast hij
        show _ < _
        nlinarith
      · left
        apply hp
        intro i j hij
        have : (i : ℚ) < j := by exact_mod_cast hij
        nlinarith

theorem gridNames_iff {grid : String} {g : String × String × String × ℚ} : gridNames grid = some g → Spec.Grid grid g.1 g.2.1 g.2.2.1 := by
  unfold gridNames
  by_cases h : grid = "latlon"
  · rw [if_pos h]; intro e; cases e; exact .inl ⟨h, rfl, rfl, rfl⟩
  · rw [if_neg h]
    by_cases h' : grid = "equalarea"
    · rw [if_pos h']; intro e; cases e; exact .inr ⟨h', rfl, rfl, rfl⟩
    · rw [if_neg h']; intro e; exact nomatch e

/-- **C268 (grid).** The coordinates of a known grid, from given spacings: as many points as asked for, from the corner given in steps of the spacing; no grid of several points without spacing; unknown grids
are refused. -/
theorem C268_grid (ny nx : ℕ) (grid : String) (dx dy : ℚ) (corner : Option (ℚ × ℚ)) (r : SynthDim × SynthDim) :
    constructYX ny nx grid (some dx) (some dy) corner = .ok r ↔
      ∃ y x u, Spec.Grid grid y x u ∧ (ny ≤ 1 ∨ dy ≠ 0) ∧ (nx ≤ 1 ∨ dx ≠ 0) ∧
        r = (⟨y, Spec.uniform ((corner.map Prod.fst).getD (-(((ny : ℚ) - 1) * dy) / 2)) dy ny, u, [], false⟩,
          ⟨x, Spec.uniform ((corner.map Prod.snd).getD (-(((nx : ℚ) - 1) * dx) / 2)) dx nx, u, [], false⟩) := by
  unfold constructYX
  cases hg : gridNames grid with
  | none =>
    constructor
    · intro e; exact nomatch e
    · rintro ⟨y, x, u, h, _⟩
      rcases h with ⟨h, _⟩ | ⟨h, _⟩ <;> rw [h] at hg <;> exact absurd hg (by decide)
  | some g =>
    have hgr := gridNames_iff hg
    simp only [Option.getD_some, gridPoints_eq, bind, Except.bind, pure, Except.pure]
    constructor
    · intro e
      cases hy : dimCoord g.1 (Spec.uniform ((corner.map Prod.fst).getD (-(((ny : ℚ) - 1) * dy) / 2)) dy ny) g.2.2.1 [] with
      | error z => rw [hy] at e; exact nomatch e
      | ok y =>
        cases hx : dimCoord g.2.1 (Spec.uniform ((corner.map Prod.snd).getD (-(((nx : ℚ) - 1) * dx) / 2)) dx nx) g.2.2.1 [] with
        | error z => rw [hy, hx] at e; exact nomatch e
        | ok x =>
          rw [hy, hx] at e
          obtain ⟨oy, rfl⟩ := dimCoord_iff.1 hy
          obtain ⟨ox, rfl⟩ := dimCoord_iff.1 hx
          cases e
          exact ⟨_, _, _, hgr, (uniform_ordered _ _ _).1 oy, (uniform_ordered _ _ _).1 ox, rfl⟩
    · rintro ⟨y, x, u, h, h1, h2, rfl⟩
      have e : g.1 = y ∧ g.2.1 = x ∧ g.2.2.1 = u := by
        rcases hgr with ⟨a, b, c, d⟩ | ⟨a, b, c, d⟩ <;> rcases h with ⟨a', b', c', d'⟩ | ⟨a', b', c', d'⟩
        · exact ⟨b.trans b'.symm, c.trans c'.symm, d.trans d'.symm⟩
        · exact absurd (a.symm.trans a') (by decide)
        · exact absurd (a.symm.trans a') (by decide)
        · exact ⟨b.trans b'.symm, c.trans c'.symm, d.trans d'.symm⟩
      obtain ⟨rfl, rfl, rfl⟩ := e
      rw [dimCoord_iff.2 ⟨(uniform_ordered _ _ _).2 h1, rfl⟩, dimCoord_iff.2 ⟨(uniform_ordered _ _ _).2 h2, rfl⟩]

/-- **C268 (centre).** Without a corner the grid is centred about the origin: points at the same distance from the two ends are opposite. -/
theorem C268_centred (n : ℕ) (d : ℚ) (k : ℕ) (hk : k < n) :
    (Spec.uniform (-(((n : ℚ) - 1) * d) / 2) d n).getD k 0 + (Spec.uniform (-(((n : ℚ) - 1) * d) / 2) d n).getD (n - 1 - k) 0 = 0 := by
  unfold Spec.uniform
  have h2 : n - 1 - k < n := by omega
  have e : ((n - 1 - k : ℕ) : ℚ) = (n : ℚ) - 1 - k := by
    rw [Nat.cast_sub (by omega), Nat.cast_sub (by omega)]; simp
  simp only [List.getD, List.getElem?_map, List.getElem?_range, hk, h2, Option.map_some, Option.getD_some, e]
  ring

/-- **C268 (times).** Whole seconds: the time coordinates exist just when there is a reference time (forecast reference time, blend time, or both and equal) not after the time, and the time is within its bounds;
then the forecast period is the time since the reference time, and so are its bounds. -/
theorem C268_times (time : ℤ) (bounds : Option (ℤ × ℤ)) (frt blend : Option ℤ) (r : List SynthTime) :
    scalarTimes time (bounds.map fun b => ((b.1 : ℚ), (b.2 : ℚ))) (frt.map fun f : ℤ => (f : ℚ)) (blend.map fun f : ℤ => (f : ℚ)) = .ok r ↔
      ∃ ref : ℤ, (frt = some ref ∨ frt = none) ∧ (blend = some ref ∨ blend = none) ∧ (frt ≠ none ∨ blend ≠ none) ∧ ref ≤ time ∧
        (∀ b, bounds = some b → min b.1 b.2 ≤ time ∧ time ≤ max b.1 b.2) ∧
        r = ⟨"time", time, bounds.map fun b => (min b.1 b.2, max b.1 b.2)⟩ ::
          ((frt.map fun f => (⟨"forecast_reference_time", f, none⟩ : SynthTime)).toList ++ (blend.map fun f => (⟨"blend_time", f, none⟩ : SynthTime)).toList ++
            [⟨"forecast_period", time - ref, bounds.map fun b => (min b.1 b.2 - ref, max b.1 b.2 - ref)⟩]) := by
  have hb : ∀ b, synthBounds time (bounds.map fun b => ((b.1 : ℚ), (b.2 : ℚ))) = .ok b ↔
      (∀ b, bounds = some b → min b.1 b.2 ≤ time ∧ time ≤ max b.1 b.2) ∧ b = bounds.map fun b => (min b.1 b.2, max b.1 b.2) := by
    intro b
    cases bounds with
    | none =>
      constructor
      · intro e; cases e; exact ⟨by simp, rfl⟩
      · rintro ⟨_, rfl⟩; rfl
    | some p =>
      show synthBounds time (some ((p.1 : ℚ), (p.2 : ℚ))) = .ok b ↔ _
      unfold synthBounds
      simp only [rintQ_int]
      by_cases h : time < min p.1 p.2 ∨ max p.1 p.2 < time
      · rw [if_pos h]
        constructor
        · intro e; exact nomatch e
        · rintro ⟨h', _⟩
          have := h' p rfl
          rcases h with h | h
          · exact absurd h (not_lt.2 this.1)
          · exact absurd h (not_lt.2 this.2)
      · rw [if_neg h]
        constructor
        · intro e; cases e
          refine ⟨fun q hq => ?_, rfl⟩
          cases hq
          exact ⟨not_lt.1 fun h' => h (.inl h'), not_lt.1 fun h' => h (.inr h')⟩
        · rintro ⟨_, rfl⟩; rfl
  have hr : ∀ ref : ℚ, refTime (frt.map fun f : ℤ => (f : ℚ)) (blend.map fun f : ℤ => (f : ℚ)) = .ok ref ↔
      ∃ z : ℤ, ref = z ∧ (frt = some z ∨ frt = none) ∧ (blend = some z ∨ blend = none) ∧ (frt ≠ none ∨ blend ≠ none) := by
    intro ref
    cases frt with
    | none =>
      cases blend with
      | none =>
        constructor
        · intro e; exact nomatch e
        · rintro ⟨z, _, _, _, h⟩; simp at h
      | some b =>
        constructor
        · intro e; cases e; exact ⟨b, rfl, .inr rfl, .inl rfl, .inr (by simp)⟩
        · rintro ⟨z, rfl, _, h, _⟩
          have : b = z := by simpa using h
          subst this; rfl
    | some f =>
      cases blend with
      | none =>
        constructor
        · intro e; cases e; exact ⟨f, rfl, .inl rfl, .inr rfl, .inl (by simp)⟩
        · rintro ⟨z, rfl, h, _⟩
          have : f = z := by simpa using h
          subst this; rfl
      | some b =>
        show (if (b : ℚ) ≠ (f : ℚ) then Except.error Err.valueError else .ok (f : ℚ)) = .ok ref ↔ _
        by_cases h : b = f
        · subst h
          rw [if_neg (by simp)]
          constructor
          · intro e; cases e; exact ⟨b, rfl, .inl rfl, .inl rfl, .inl (by simp)⟩
          · rintro ⟨z, rfl, h, _⟩
            have : b = z := by simpa using h
            subst this; rfl
        · rw [if_pos (by simpa using h)]
          constructor
          · intro e; exact nomatch e
          · rintro ⟨z, _, h1, h2, _⟩
            have e1 : f = z := by simpa using h1
            have e2 : b = z := by simpa using h2
            exact absurd (e2.trans e1.symm) h
  unfold scalarTimes
  simp only [bind, Except.bind, pure, Except.pure, rintQ_int]
  constructor
  · intro e
    cases hf : refTime (frt.map fun f : ℤ => (f : ℚ)) (blend.map fun f : ℤ => (f : ℚ)) with
    | error z => rw [hf] at e; exact nomatch e
    | ok ref =>
      rw [hf] at e
      obtain ⟨z, rfl, h1, h2, h3⟩ := (hr ref).1 hf
      simp only [rintQ_int] at e
      by_cases hlt : time < z
      · rw [if_pos hlt] at e; exact nomatch e
      · rw [if_neg hlt] at e
        cases hbb : synthBounds time (bounds.map fun b => ((b.1 : ℚ), (b.2 : ℚ))) with
        | error w => rw [hbb] at e; exact nomatch e
        | ok b =>
          rw [hbb] at e
          obtain ⟨h4, rfl⟩ := (hb b).1 hbb
          refine ⟨z, h1, h2, h3, not_lt.1 hlt, h4, ?_⟩
          cases e
          simp [Option.map_map, Function.comp_def, rintQ_int]
  · rintro ⟨z, h1, h2, h3, h4, h5, rfl⟩
    rw [(hr z).2 ⟨z, rfl, h1, h2, h3⟩]
    simp only [rintQ_int]
    rw [if_neg (not_lt.2 h4), (hb _).2 ⟨h5, rfl⟩]
    simp [Option.map_map, Function.comp_def, rintQ_int]

theorem leadingCoord_iff {arr : Option (List ℚ)} {n : ℕ} {name unit : String} {attrs : List (String × String)} {d : SynthDim} :
    leadingCoord arr n name unit attrs = .ok d ↔ Spec.Points (Spec.numbered arr n) n ∧ d = ⟨name, Spec.numbered arr n, unit, attrs, false⟩ := by
  unfold leadingCoord Spec.Points Spec.numbered
  cases arr with
  | none =>
    show dimCoord _ _ _ _ = _ ↔ _
    rw [dimCoord_iff]
    exact ⟨fun ⟨a, b⟩ => ⟨⟨by simp, a⟩, b⟩, fun ⟨⟨_, a⟩, b⟩ => ⟨a, b⟩⟩
  | some l =>
    show (if l.length ≠ n then _ else _) = _ ↔ _
    simp only [Option.getD_some]
    by_cases h : l.length = n
    · rw [if_neg (not_not.2 h), dimCoord_iff]
      exact ⟨fun ⟨a, b⟩ => ⟨⟨h, a⟩, b⟩, fun ⟨⟨_, a⟩, b⟩ => ⟨a, b⟩⟩
    · rw [if_pos h]
      exact ⟨fun e => (nomatch e), fun ⟨⟨a, _⟩, _⟩ => absurd a h⟩

theorem map_single_iff {α : Type} {r : Except Err α} {l : List α} : (r.map fun d => [d]) = .ok l ↔ ∃ d, r = .ok d ∧ l = [d] := by
  cases r with
  | error e => exact ⟨fun h => (nomatch h), fun ⟨_, h, _⟩ => (nomatch h)⟩
  | ok a =>
    constructor
    · intro h; cases h; exact ⟨a, rfl, rfl⟩
    · rintro ⟨d, h, rfl⟩; cases h; rfl

theorem levelCoord_iff {pressure : Bool} {h : List ℚ} {n : ℕ} {d : SynthDim} :
    levelCoord pressure h n = .ok d ↔
      Spec.Points h n ∧ d = Spec.level pressure h := by
  cases pressure
  · exact leadingCoord_iff (arr := some h) (name := "height") (unit := "m") (attrs := [("positive", "up")])
  · exact leadingCoord_iff (arr := some h) (name := "pressure") (unit := "Pa") (attrs := [("positive", "down")])

/-- **C268 (dimensions).** Just what data can be put on a grid: two dimensions; three, of realizations (those given or counted from 0) or of levels; or four, of realizations and levels. -/
theorem C268_dimensions (shape : List ℕ) (y x : SynthDim) (r h : Option (List ℚ)) (p : Bool) (dims : List SynthDim) :
    constructDims shape [y, x] r h p = .ok dims ↔ Spec.Dims shape y x r h p dims := by
  unfold constructDims Spec.Dims
  simp only [List.length_cons, List.length_nil, bind, Except.bind, pure, Except.pure]
  by_cases h1 : ¬ (0 + 1 + 1 ≤ shape.length ∧ shape.length ≤ 0 + 1 + 1 + 2)
  · rw [if_pos h1]
    constructor
    · intro e; exact nomatch e
    · rintro (⟨e, _⟩ | ⟨_, _, _, rfl, _⟩ | ⟨_, _, _, _, rfl, _⟩ | ⟨_, _, _, _, _, rfl, _⟩)
      · exact absurd (by omega) h1
      · exact absurd (by simp) h1
      · exact absurd (by simp) h1
      · exact absurd (by simp) h1
  · rw [if_neg h1]
    have hlen : shape.length = 2 ∨ shape.length = 3 ∨ shape.length = 4 := by omega
    rcases hlen with hl | hl | hl
    · -- two dimensions
      have e3 : ∀ {P : Prop}, (∃ n ny nx, shape = [n, ny, nx] ∧ P) → False := by rintro P ⟨_, _, _, rfl, _⟩; simp at hl
      by_cases h2 : r ≠ none ∧ h ≠ none
      · rw [if_pos ⟨h2.1, h2.2, by omega⟩]
        constructor
        · intro e; exact nomatch e
        · rintro (⟨_, e, _⟩ | ⟨_, _, _, rfl, _⟩ | ⟨_, _, _, _, rfl, _⟩ | ⟨_, _, _, _, _, rfl, _⟩)
          · exact absurd e (fun e => e.elim h2.1 h2.2)
          · simp at hl
          · simp at hl
          · simp at hl
      · rw [if_neg (fun e => h2 ⟨e.1, e.2.1⟩), if_neg (by omega)]
        unfold realizationDims
        rw [if_neg (by omega)]
        simp only
        have hh : ∀ i, heightDims shape (0 + 1 + 1) i h p = .ok [] := by
          intro i
          unfold heightDims
          cases h with
          | none => rfl
          | some l => exact if_neg (by omega)
        rw [hh]
        simp only [List.nil_append]
        constructor
        · intro e; cases e
          refine .inl ⟨hl, ?_, rfl⟩
          by_cases hr : r = none
          · exact .inl hr
          · exact .inr (by_contra fun hh' => h2 ⟨hr, hh'⟩)
        · rintro (⟨_, _, rfl⟩ | ⟨_, _, _, rfl, _⟩ | ⟨_, _, _, _, rfl, _⟩ | ⟨_, _, _, _, _, rfl, _⟩)
          · rfl
          · simp at hl
          · simp at hl
          · simp at hl
    · -- three
      obtain ⟨n, ny, nx, rfl⟩ : ∃ a b c, shape = [a, b, c] := List.length_eq_three.1 hl
      cases h with
      | none =>
        rw [if_neg (by simp), if_neg (by simp)]
        unfold realizationDims heightDims
        rw [if_pos (.inr ⟨rfl, rfl⟩)]
        simp only [List.getD_cons_zero]
        constructor
        · intro e
          cases hd : (leadingCoord r n "realization" "1" []).map fun d => [d] with
          | error z => rw [hd] at e; exact nomatch e
          | ok l =>
            rw [hd] at e
            obtain ⟨d, hd', rfl⟩ := map_single_iff.1 hd
            obtain ⟨h1, rfl⟩ := leadingCoord_iff.1 hd'
            cases e
            exact .inr (.inl ⟨n, ny, nx, rfl, trivial, h1, rfl⟩)
        · rintro (⟨e, _⟩ | ⟨a, b, c, he, _, h2, rfl⟩ | ⟨_, _, _, _, _, _, e, _⟩ | ⟨_, _, _, _, _, e, _⟩)
          · simp at e
          · cases he
            rw [map_single_iff.2 ⟨_, leadingCoord_iff.2 ⟨h2, rfl⟩, rfl⟩]
            rfl
          · exact nomatch e
          · simp at e
      | some l =>
        by_cases hr : r = none
        · subst hr
          rw [if_neg (by simp), if_neg (by simp)]
          unfold realizationDims heightDims
          rw [if_neg (by simp)]
          simp only [List.length_nil, List.getD_cons_zero]
          rw [if_pos (by simp)]
          constructor
          · intro e
            cases hd : (levelCoord p l n).map fun d => [d] with
            | error z => rw [hd] at e; exact nomatch e
            | ok k =>
              rw [hd] at e
              obtain ⟨d, hd', rfl⟩ := map_single_iff.1 hd
              obtain ⟨h1, rfl⟩ := levelCoord_iff.1 hd'
              cases e
              exact .inr (.inr (.inl ⟨n, ny, nx, l, rfl, trivial, rfl, h1, rfl⟩))
          · rintro (⟨e, _⟩ | ⟨_, _, _, _, e, _⟩ | ⟨a, b, c, k, he, _, hk, h2, rfl⟩ | ⟨_, _, _, _, _, e, _⟩)
            · simp at e
            · exact nomatch e
            · cases he; cases hk
              rw [map_single_iff.2 ⟨_, levelCoord_iff.2 ⟨h2, rfl⟩, rfl⟩]
              rfl
            · simp at e
        · rw [if_pos ⟨hr, by simp, by simp⟩]
          constructor
          · intro e; exact nomatch e
          · rintro (⟨e, _⟩ | ⟨_, _, _, _, e, _⟩ | ⟨_, _, _, _, _, e, _⟩ | ⟨_, _, _, _, _, e, _⟩)
            · simp at e
            · exact nomatch e
            · exact absurd e hr
            · simp at e
    · -- four
      obtain ⟨n, m, ny, nx, rfl⟩ : ∃ a b c d, shape = [a, b, c, d] := by
        match shape, hl with
        | [a, b, c, d], _ => exact ⟨a, b, c, d, rfl⟩
      rw [if_neg (by simp)]
      cases h with
      | none =>
        rw [if_pos (by simp)]
        constructor
        · intro e; exact nomatch e
        · rintro (⟨e, _⟩ | ⟨_, _, _, e, _⟩ | ⟨_, _, _, _, e, _⟩ | ⟨_, _, _, _, _, _, e, _⟩)
          · simp at e
          · simp at e
          · simp at e
          · exact nomatch e
      | some l =>
        rw [if_neg (by simp)]
        unfold realizationDims heightDims
        rw [if_pos (.inl rfl)]
        simp only [List.getD_cons_zero]
        constructor
        · intro e
          cases hd : (leadingCoord r n "realization" "1" []).map fun d => [d] with
          | error z => rw [hd] at e; exact nomatch e
          | ok q =>
            rw [hd] at e
            obtain ⟨d, hd', rfl⟩ := map_single_iff.1 hd
            obtain ⟨h1, rfl⟩ := leadingCoord_iff.1 hd'
            simp only [List.length_cons, List.length_nil, Nat.zero_add, List.getD_cons_succ, List.getD_cons_zero] at e
            rw [if_pos (by simp)] at e
            cases hk : (levelCoord p l m).map fun d => [d] with
            | error z => rw [hk] at e; exact nomatch e
            | ok k =>
              rw [hk] at e
              obtain ⟨d, hd', rfl⟩ := map_single_iff.1 hk
              obtain ⟨h2, rfl⟩ := levelCoord_iff.1 hd'
              cases e
              exact .inr (.inr (.inr ⟨n, m, ny, nx, l, rfl, rfl, h1, h2, rfl⟩))
        · rintro (⟨e, _⟩ | ⟨_, _, _, e, _⟩ | ⟨_, _, _, _, e, _⟩ | ⟨a, b, c, d, k, he, hk, h1, h2, rfl⟩)
          · simp at e
          · simp at e
          · simp at e
          · cases he; cases hk
            rw [map_single_iff.2 ⟨_, leadingCoord_iff.2 ⟨h1, rfl⟩, rfl⟩]
            simp only [List.length_cons, List.length_nil, Nat.zero_add, List.getD_cons_succ, List.getD_cons_zero]
            rw [if_pos (by simp), map_single_iff.2 ⟨_, levelCoord_iff.2 ⟨h2, rfl⟩, rfl⟩]
            rfl

theorem constructYX_lengths {ny nx : ℕ} {grid : String} {dx dy : Option ℚ} {corner : Option (ℚ × ℚ)} {r : SynthDim × SynthDim}
    (h : constructYX ny nx grid dx dy corner = .ok r) : Spec.Points r.1.points ny ∧ Spec.Points r.2.points nx ∧ ∃ u, Spec.Grid grid r.1.name r.2.name u := by
  unfold constructYX at h
  cases hg : gridNames grid with
  | none => rw [hg] at h; exact nomatch h
  | some g =>
    rw [hg] at h
    simp only [gridPoints_eq, bind, Except.bind, pure, Except.pure] at h
    cases hy : dimCoord g.1 (Spec.uniform ((corner.map Prod.fst).getD (-(((ny : ℚ) - 1) * (dy.getD g.2.2.2)) / 2)) (dy.getD g.2.2.2) ny) g.2.2.1 [] with
    | error z => rw [hy] at h; exact nomatch h
    | ok y =>
      cases hx : dimCoord g.2.1 (Spec.uniform ((corner.map Prod.snd).getD (-(((nx : ℚ) - 1) * (dx.getD g.2.2.2)) / 2)) (dx.getD g.2.2.2) nx) g.2.2.1 [] with
      | error z => rw [hy, hx] at h; exact nomatch h
      | ok x =>
        rw [hy, hx] at h
        obtain ⟨oy, rfl⟩ := dimCoord_iff.1 hy
        obtain ⟨ox, rfl⟩ := dimCoord_iff.1 hx
        cases h
        exact ⟨⟨uniform_length _ _ _, oy⟩, ⟨uniform_length _ _ _, ox⟩, _, gridNames_iff hg⟩

theorem setUpVariable_iff {shape : List ℕ} {data : List ℕ → ℚ} {name unit : String} {r : Option (List ℚ)} {o : SynthOpts} {c : SynthCube} :
    setUpVariable shape data name unit r o = .ok c ↔ 2 ≤ shape.length ∧ ∃ y x dims times,
      constructYX (shape.getD (shape.length - 2) 0) (shape.getD (shape.length - 1) 0) o.grid o.dx o.dy o.corner = .ok (y, x) ∧
      Spec.Dims shape y x r o.heights o.pressure dims ∧ scalarTimes o.time o.bounds (defaultFrt o.frt o.blend) o.blend = .ok times ∧
      c = ⟨name, unit, o.attrs, dims, [], times, data⟩ := by
  unfold setUpVariable
  by_cases hl : shape.length < 2
  · rw [if_pos hl]
    exact ⟨fun e => (nomatch e), fun ⟨h, _⟩ => absurd hl (not_lt.2 h)⟩
  · rw [if_neg hl]
    simp only [bind, Except.bind, pure, Except.pure]
    constructor
    · intro e
      refine ⟨not_lt.1 hl, ?_⟩
      cases h1 : constructYX (shape.getD (shape.length - 2) 0) (shape.getD (shape.length - 1) 0) o.grid o.dx o.dy o.corner with
      | error z => rw [h1] at e; exact nomatch e
      | ok yx =>
        rw [h1] at e
        simp only at e
        cases h2 : constructDims shape [yx.1, yx.2] r o.heights o.pressure with
        | error z => rw [h2] at e; exact nomatch e
        | ok dims =>
          rw [h2] at e
          simp only at e
          cases h3 : scalarTimes o.time o.bounds (defaultFrt o.frt o.blend) o.blend with
          | error z => rw [h3] at e; exact nomatch e
          | ok times =>
            rw [h3] at e
            cases e
            exact ⟨yx.1, yx.2, dims, times, rfl, (C268_dimensions _ _ _ _ _ _ _).1 h2, rfl, rfl⟩
    · rintro ⟨_, y, x, dims, times, h1, h2, h3, rfl⟩
      rw [h1]
      simp only
      rw [(C268_dimensions _ _ _ _ _ _ _).2 h2]
      simp only
      rw [h3]

/-- **C268 (fit).** Whatever `set_up_variable_cube` returns: it holds the data given, each dimension has a coordinate with as many points as the data have there, ascending or descending, the last two being the
y and x coordinates of the grid. -/
theorem C268_fits {shape : List ℕ} {data : List ℕ → ℚ} {name unit : String} {r : Option (List ℚ)} {o : SynthOpts} {c : SynthCube}
    (h : setUpVariable shape data name unit r o = .ok c) :
    c.name = name ∧ c.unit = unit ∧ c.data = data ∧ c.attrs = o.attrs ∧ c.dims.map (fun d => d.points.length) = shape ∧ (∀ d ∈ c.dims, Spec.Ordered d.points) ∧
      ∃ lead y x u, c.dims = lead ++ [y, x] ∧ Spec.Grid o.grid y.name x.name u := by
  obtain ⟨h2, y, x, dims, times, hyx, hd, ht, rfl⟩ := setUpVariable_iff.1 h
  obtain ⟨⟨ly, oy⟩, ⟨lx, ox⟩, u, hg⟩ := constructYX_lengths hyx
  have hlev : ∀ p l, (Spec.level p l).points = l := by intro p l; cases p <;> rfl
  refine ⟨rfl, rfl, rfl, rfl, ?_⟩
  rcases hd with ⟨hl, _, rfl⟩ | ⟨n, ny, nx, rfl, _, hp, rfl⟩ | ⟨n, ny, nx, l, rfl, _, _, hp, rfl⟩ | ⟨n, m, ny, nx, l, rfl, _, hp, hp', rfl⟩
  · obtain ⟨ny, nx, rfl⟩ := List.length_eq_two.1 hl
    have ly' : y.points.length = ny := ly
    have lx' : x.points.length = nx := lx
    refine ⟨by simp [ly', lx'], ?_, [], y, x, u, rfl, hg⟩
    intro d hd
    simp only [List.mem_cons, List.not_mem_nil, or_false] at hd
    rcases hd with rfl | rfl
    · exact oy
    · exact ox
  · have ly' : y.points.length = ny := ly
    have lx' : x.points.length = nx := lx
    refine ⟨by simp [ly', lx', Spec.member, hp.1], ?_, [_], y, x, u, rfl, hg⟩
    intro d hd
    simp only [List.mem_cons, List.not_mem_nil, or_false] at hd
    rcases hd with rfl | rfl | rfl
    · exact hp.2
    · exact oy
    · exact ox
  · have ly' : y.points.length = ny := ly
    have lx' : x.points.length = nx := lx
    refine ⟨by simp [ly', lx', hlev, hp.1], ?_, [_], y, x, u, rfl, hg⟩
    intro d hd
    simp only [List.mem_cons, List.not_mem_nil, or_false] at hd
    rcases hd with rfl | rfl | rfl
    · rw [hlev]; exact hp.2
    · exact oy
    · exact ox
  · have ly' : y.points.length = ny := ly
    have lx' : x.points.length = nx := lx
    refine ⟨by simp [ly', lx', Spec.member, hp.1, hlev, hp'.1], ?_, [_, _], y, x, u, rfl, hg⟩
    intro d hd
    simp only [List.mem_cons, List.not_mem_nil, or_false] at hd
    rcases hd with rfl | rfl | rfl | rfl
    · exact hp.2
    · rw [hlev]; exact hp'.2
    · exact oy
    · exact ox

theorem lookup_updateDict (old new : List (String × String)) (k : String) :
    (updateDict old new).lookup k = match new.lookup k with
      | some v => some v
      | none => old.lookup k := by
  unfold updateDict
  rw [List.lookup_append]
  cases hn : new.lookup k with
  | some v => rfl
  | none =>
    have hk : k ∉ new.map Prod.fst := by
      intro h
      obtain ⟨⟨k', v⟩, hm, hk'⟩ := List.mem_map.1 h
      have := List.lookup_eq_none_iff.1 hn (k', v) hm
      exact absurd hk'.symm (by simpa using this)
    show (List.filter _ old).lookup k = old.lookup k
    clear hn
    induction old with
    | nil => rfl
    | cons p old ih =>
      obtain ⟨pk, pv⟩ := p
      by_cases hp : pk ∈ new.map Prod.fst
      · rw [List.filter_cons_of_neg (by simpa using hp), List.lookup_cons]
        have : (k == pk) = false := beq_eq_false_iff_ne.2 (fun e : k = pk => hk (e ▸ hp))
        rw [this]
        exact ih
      · rw [List.filter_cons_of_pos (by simpa using hp), List.lookup_cons, List.lookup_cons]
        cases k == pk
        · exact ih
        · rfl

theorem scalarTimes_meta {a : MetaArgs} {time frt : ℤ} {period : Option ℕ} (h : Spec.Sound a time frt period) :
    scalarTimes (metaOpts a).time (metaOpts a).bounds (defaultFrt (metaOpts a).frt (metaOpts a).blend) (metaOpts a).blend = .ok
      [⟨"time", time, period.map fun p : ℕ => (time - 60 * p, time)⟩, ⟨"forecast_reference_time", frt, none⟩,
        ⟨"forecast_period", time - frt, period.map fun p : ℕ => (time - 60 * p - frt, time - frt)⟩] := by
  have ht : (metaOpts a).time = (time : ℚ) := by
    show a.time.getD 1510286400 = _
    rcases h.time with h' | ⟨h', rfl⟩
    · rw [h']; rfl
    · rw [h']; norm_num
  have hf : defaultFrt (metaOpts a).frt (metaOpts a).blend = (some frt).map fun f : ℤ => (f : ℚ) := by
    show defaultFrt a.frt a.blend = _
    unfold defaultFrt
    rcases h.frt with h' | ⟨h', rfl⟩
    · rw [h', if_neg (by simp)]; rfl
    · rw [h', if_pos ⟨rfl, h.blend⟩]; norm_num
  have hbl : (metaOpts a).blend = (none : Option ℤ).map fun f : ℤ => (f : ℚ) := h.blend
  have hb : (metaOpts a).bounds = (period.map fun p : ℕ => (time - 60 * p, time)).map fun b : ℤ × ℤ => ((b.1 : ℚ), (b.2 : ℚ)) := by
    show (match a.period with
      | some p => some (a.time.getD 1510286400 - 60 * p, a.time.getD 1510286400)
      | none => a.bounds) = _
    have ht' : a.time.getD 1510286400 = (time : ℚ) := ht
    rw [ht', h.period, h.bounds]
    cases period with
    | none => rfl
    | some p => simp
  rw [ht, hf, hbl, hb, C268_times]
  refine ⟨frt, .inl rfl, .inr rfl, .inl (by simp), h.order, ?_, ?_⟩
  · intro b hbb
    cases period with
    | none => exact nomatch hbb
    | some p =>
      have : b = (time - 60 * p, time) := by simpa using hbb.symm
      subst this
      have : (0 : ℤ) ≤ p := Int.natCast_nonneg p
      exact ⟨(min_le_right _ _), (le_max_right _ _)⟩
  · cases period with
    | none => rfl
    | some p =>
      have hp : (0 : ℤ) ≤ p := Int.natCast_nonneg p
      have h1 : min (time - 60 * (p : ℤ)) time = time - 60 * p := min_eq_left (by omega)
      have h2 : max (time - 60 * (p : ℤ)) time = time := max_eq_right (by omega)
      simp [h1, h2]

theorem meta_variable {a : MetaArgs} {time frt : ℤ} {period : Option ℕ} (h : Spec.Sound a time frt period) {l : List ℚ} (hl : 2 ≤ l.length) (ho : Spec.Ordered l)
    (hlead : a.leading = some l ∨ a.leading = none ∧ l = (List.range a.members).map fun k : ℕ => (k : ℚ)) (name unit : String) :
    ∃ y x u times, Spec.Grid (a.grid.getD "latlon") y x u ∧
      setUpVariable (synthShape a.members a.leading a.npoints a.heights) (fun _ => 0) name unit a.leading (metaOpts a) = .ok
        ⟨name, unit, updateDict a.attrs a.mandatory, Spec.member l :: (a.heights.map (Spec.level a.pressure)).toList ++
          [⟨y, Spec.axis (a.corner.map fun l => l.getD 0 0) (a.dy.getD (Spec.defaultSpacing a.grid)) a.npoints, u, [], false⟩,
           ⟨x, Spec.axis (a.corner.map fun l => l.getD 1 0) (a.dx.getD (Spec.defaultSpacing a.grid)) a.npoints, u, [], false⟩], [], times, fun _ => 0⟩ ∧
      times = [⟨"time", time, period.map fun p : ℕ => (time - 60 * p, time)⟩, ⟨"forecast_reference_time", frt, none⟩,
        ⟨"forecast_period", time - frt, period.map fun p : ℕ => (time - 60 * p - frt, time - frt)⟩] := by
  have hnum : (a.leading.map List.length).getD a.members = l.length := by
    rcases hlead with e | ⟨e, e'⟩
    · rw [e]; rfl
    · rw [e, e']; simp
  have hpts : Spec.numbered a.leading l.length = l := by
    unfold Spec.numbered
    rcases hlead with e | ⟨e, e'⟩
    · rw [e]; rfl
    · rw [e, e']; simp
  have hshape : synthShape a.members a.leading a.npoints a.heights = l.length :: ((a.heights.map List.length).toList ++ [a.npoints, a.npoints]) := by
    unfold synthShape
    rw [hnum, if_pos (by omega)]
    rfl
  have hgrid : ∃ y x u, Spec.Grid (a.grid.getD "latlon") y x u := by
    rcases h.grid with e | e | e <;> rw [e]
    · exact ⟨_, _, _, .inl ⟨rfl, rfl, rfl, rfl⟩⟩
    · exact ⟨_, _, _, .inl ⟨rfl, rfl, rfl, rfl⟩⟩
    · exact ⟨_, _, _, .inr ⟨rfl, rfl, rfl, rfl⟩⟩
  have hsp : metaSpacing (a.grid.getD "latlon") = Spec.defaultSpacing a.grid := by
    rcases h.grid with e | e | e <;> rw [e] <;> decide +kernel
  have hsp0 : Spec.defaultSpacing a.grid ≠ 0 := by
    unfold Spec.defaultSpacing
    by_cases e : a.grid = some "equalarea"
    · rw [if_pos e]; norm_num
    · rw [if_neg e]; norm_num
  have hd0 : ∀ d : Option ℚ, d ≠ some 0 → d.getD (Spec.defaultSpacing a.grid) ≠ 0 := by
    intro d hd
    cases d with
    | none => exact hsp0
    | some v => exact fun e => hd (by rw [← e]; rfl)
  obtain ⟨y, x, u, hg⟩ := hgrid
  refine ⟨y, x, u, _, hg, ?_, rfl⟩
  have hyx := (C268_grid a.npoints a.npoints (a.grid.getD "latlon") (a.dx.getD (Spec.defaultSpacing a.grid)) (a.dy.getD (Spec.defaultSpacing a.grid))
    (a.corner.map fun l => (l.getD 0 0, l.getD 1 0)) _).2 ⟨y, x, u, hg, .inr (hd0 _ h.dy), .inr (hd0 _ h.dx), rfl⟩
  simp only [Option.map_map, Function.comp_def] at hyx
  rw [setUpVariable_iff, hshape]
  refine ⟨by simp, ⟨y, Spec.axis (a.corner.map fun l => l.getD 0 0) (a.dy.getD (Spec.defaultSpacing a.grid)) a.npoints, u, [], false⟩,
    ⟨x, Spec.axis (a.corner.map fun l => l.getD 1 0) (a.dx.getD (Spec.defaultSpacing a.grid)) a.npoints, u, [], false⟩, _, _, ?_, ?_, scalarTimes_meta h, rfl⟩
  · have e1 : (l.length :: ((a.heights.map List.length).toList ++ [a.npoints, a.npoints])).getD ((l.length :: ((a.heights.map List.length).toList ++ [a.npoints, a.npoints])).length - 2) 0 = a.npoints := by
      cases a.heights <;> rfl
    have e2 : (l.length :: ((a.heights.map List.length).toList ++ [a.npoints, a.npoints])).getD ((l.length :: ((a.heights.map List.length).toList ++ [a.npoints, a.npoints])).length - 1) 0 = a.npoints := by
      cases a.heights <;> rfl
    rw [e1, e2]
    have e3 : (metaOpts a).dx = some (a.dx.getD (Spec.defaultSpacing a.grid)) := by rw [← hsp]; rfl
    have e4 : (metaOpts a).dy = some (a.dy.getD (Spec.defaultSpacing a.grid)) := by rw [← hsp]; rfl
    rw [e3, e4]
    exact hyx
  · show Spec.Dims _ _ _ a.leading a.heights a.pressure _
    cases hh : a.heights with
    | none =>
      exact .inr (.inl ⟨l.length, a.npoints, a.npoints, rfl, rfl, by rw [hpts]; exact ⟨rfl, ho⟩, by rw [hpts]; rfl⟩)
    | some hs =>
      exact .inr (.inr (.inr ⟨l.length, hs.length, a.npoints, a.npoints, hs, rfl, rfl, by rw [hpts]; exact ⟨rfl, ho⟩, ⟨rfl, (h.levels hs hh).2⟩, by rw [hpts]; rfl⟩))

theorem squeeze_none {c : SynthCube} (h : ∀ d ∈ c.dims, 2 ≤ d.points.length) (hs : c.scalars = []) :
    (squeezeCube c).name = c.name ∧ (squeezeCube c).unit = c.unit ∧ (squeezeCube c).dims = c.dims ∧ (squeezeCube c).scalars = [] ∧ (squeezeCube c).times = c.times ∧
      (squeezeCube c).attrs = c.attrs := by
  refine ⟨rfl, rfl, ?_, ?_, rfl, rfl⟩
  · show c.dims.filter _ = _
    rw [List.filter_eq_self]
    intro d hd
    have := h d hd
    exact decide_eq_true (by omega)
  · show c.scalars ++ c.dims.filter _ = []
    rw [hs, List.nil_append, List.filter_eq_nil_iff]
    intro d hd
    have := h d hd
    simp only [decide_eq_true_eq]
    omega

theorem generate_ok {canonical : String → Option String} {a : MetaArgs} {time frt : ℤ} {period : Option ℕ} (h : Spec.Sound a time frt period) {u : String} (hu : Spec.Units canonical a u)
    (ht : a.cubeType ∈ ["variable", "percentile", "probability"]) : generateMetadata canonical a = (metaCube a u).map squeezeCube := by
  unfold generateMetadata
  rw [if_neg (not_not.2 ht)]
  have h1 : ¬ (a.grid.map fun g => decide (g ∉ ["latlon", "equalarea"])) = some true := by
    rcases h.grid with e | e | e <;> rw [e] <;> decide
  have h2 : ¬ (a.corner.map fun l => decide (l.length ≠ 2)) = some true := by
    rcases h.corner with e | ⟨y, x, e⟩ <;> rw [e]
    · exact fun e => nomatch e
    · simp
  rw [if_neg h1, if_neg h2]
  have h3 : metaUnit canonical a = .ok u := by
    unfold metaUnit
    rcases hu with e | ⟨e, e'⟩
    · rw [e]
    · rw [e, e']
  rw [h3]
  have h4 : ¬ ¬ ∀ k ∈ ["title", "source", "institution"], k ∈ a.mandatory.map Prod.fst := by
    rw [not_not]
    intro k hk
    simp only [List.mem_cons, List.not_mem_nil, or_false] at hk
    rcases hk with rfl | rfl | rfl
    · exact h.attrs.1
    · exact h.attrs.2.1
    · exact h.attrs.2.2
  exact if_neg h4

/-- The rest, once the first dimension is known. -/
theorem made_of {a : MetaArgs} {time frt : ℤ} {period : Option ℕ} (h : Spec.Sound a time frt period) {first : SynthDim} (hf : 2 ≤ first.points.length) {y x u : String}
    (hg : Spec.Grid (a.grid.getD "latlon") y x u) {name unit : String} {c : SynthCube}
    (hc : c = ⟨name, unit, updateDict a.attrs a.mandatory, first :: (a.heights.map (Spec.level a.pressure)).toList ++
          [⟨y, Spec.axis (a.corner.map fun l => l.getD 0 0) (a.dy.getD (Spec.defaultSpacing a.grid)) a.npoints, u, [], false⟩,
           ⟨x, Spec.axis (a.corner.map fun l => l.getD 1 0) (a.dx.getD (Spec.defaultSpacing a.grid)) a.npoints, u, [], false⟩], [],
           [⟨"time", time, period.map fun p : ℕ => (time - 60 * p, time)⟩, ⟨"forecast_reference_time", frt, none⟩,
        ⟨"forecast_period", time - frt, period.map fun p : ℕ => (time - 60 * p - frt, time - frt)⟩], fun _ => 0⟩) :
    (squeezeCube c).name = name ∧ (squeezeCube c).unit = unit ∧ Spec.Made a time frt period first (squeezeCube c) := by
  have hlev : ∀ p l, (Spec.level p l).points = l := by intro p l; cases p <;> rfl
  have hdims : ∀ d ∈ c.dims, 2 ≤ d.points.length := by
    intro d hd
    rw [hc] at hd
    simp only [List.cons_append, List.mem_cons, List.mem_append, List.not_mem_nil, or_false] at hd
    rcases hd with rfl | hd | rfl | rfl
    · exact hf
    · cases hh : a.heights with
      | none => rw [hh] at hd; exact nomatch hd
      | some l =>
        rw [hh] at hd
        have : d = Spec.level a.pressure l := by simpa using hd
        rw [this, hlev]
        exact (h.levels l hh).1
    · show 2 ≤ (Spec.axis _ _ _).length
      unfold Spec.axis
      rw [uniform_length]; exact h.npoints
    · show 2 ≤ (Spec.axis _ _ _).length
      unfold Spec.axis
      rw [uniform_length]; exact h.npoints
  obtain ⟨e1, e2, e3, e4, e5, e6⟩ := squeeze_none hdims (by rw [hc])
  refine ⟨e1.trans (by rw [hc]), e2.trans (by rw [hc]), ⟨y, x, u, hg, e3.trans (by rw [hc])⟩, e4, ?_, e5.trans (by rw [hc]), ?_⟩
  · intro idx
    show c.data _ = 0
    rw [hc]
  · intro k
    rw [e6, hc]
    exact lookup_updateDict _ _ _

/-- **C268 (variables).** From sound arguments a variable cube is made: its first dimension holds the realizations given, or the number of members asked for counted from 0. -/
theorem C268_variable (canonical : String → Option String) (a : MetaArgs) (time frt : ℤ) (period : Option ℕ) (h : Spec.Sound a time frt period) (u : String) (hu : Spec.Units canonical a u)
    (ht : a.cubeType = "variable") (l : List ℚ) (hl : 2 ≤ l.length) (ho : Spec.Ordered l)
    (hlead : a.leading = some l ∨ a.leading = none ∧ l = (List.range a.members).map fun k : ℕ => (k : ℚ)) :
    ∃ c, generateMetadata canonical a = .ok c ∧ c.name = a.name ∧ c.unit = u ∧ Spec.Made a time frt period ⟨"realization", l, "1", [], false⟩ c := by
  obtain ⟨y, x, gu, times, hg, hset, rfl⟩ := meta_variable h hl ho hlead a.name u
  refine ⟨_, ?_, made_of h (first := Spec.member l) hl hg rfl⟩
  rw [generate_ok h hu (by rw [ht]; decide)]
  unfold metaCube
  rw [ht, if_neg (by decide), if_neg (by decide), hset]
  rfl

/-- **C268 (percentiles).** A percentile cube: the first dimension holds the percentiles given. -/
theorem C268_percentile (canonical : String → Option String) (a : MetaArgs) (time frt : ℤ) (period : Option ℕ) (h : Spec.Sound a time frt period) (u : String) (hu : Spec.Units canonical a u)
    (ht : a.cubeType = "percentile") (l : List ℚ) (hl : 2 ≤ l.length) (ho : Spec.Ordered l) (hlead : a.leading = some l) :
    ∃ c, generateMetadata canonical a = .ok c ∧ c.name = a.name ∧ c.unit = u ∧ Spec.Made a time frt period ⟨"percentile", l, "%", [], false⟩ c := by
  obtain ⟨y, x, gu, times, hg, hset, rfl⟩ := meta_variable h hl ho (.inl hlead) a.name u
  refine ⟨_, ?_, made_of h (first := ⟨"percentile", l, "%", [], false⟩) hl hg rfl⟩
  rw [generate_ok h hu (by rw [ht]; decide)]
  unfold metaCube setUpPercentile
  rw [ht, if_pos rfl, hset]
  simp only [bind, Except.bind]
  unfold renameLead sliceIfOne
  rw [hlead]
  simp only [List.cons_append]
  rw [if_pos (by rfl)]
  simp only
  rw [if_neg (by omega)]
  rfl

theorem replace_end {v name thr : List Char} (hv : v ≠ []) (h : (¬ v <:+: name ∧ thr = name) ∨ (name = thr ++ v ∧ ∀ p s, name = p ++ v ++ s → p = thr)) :
    replaceText v [] name = thr := by
  rcases h with ⟨h, rfl⟩ | ⟨rfl, h⟩
  · unfold replaceText
    rw [if_neg hv, replaceGo_none _ _ _ hv h]
  · have := replaceText_once v [] thr [] hv (by
      intro a b e
      rw [List.append_nil] at e
      exact h a b e)
    simpa using this

theorem plainThreshold_spec {name thr : String} (h : Spec.ThresholdName name thr) : plainThreshold name = thr := by
  have ho : "_in_vicinity".toList ≠ [] := by decide
  unfold plainThreshold
  rw [replace_end ho (thr := thr.toList), String.ofList_toList]
  rcases h with ⟨h, h'⟩ | h
  · exact .inl ⟨h, by rw [h']⟩
  · exact .inr h

/-- **C268 (probabilities).** A probability cube: the first dimension is the threshold coordinate, which holds the thresholds given, in the units of the diagnostic, and says on which side of them; the name says so too. -/
theorem C268_probability (canonical : String → Option String) (a : MetaArgs) (time frt : ℤ) (period : Option ℕ) (h : Spec.Sound a time frt period) (u : String) (hu : Spec.Units canonical a u)
    (ht : a.cubeType = "probability") (l : List ℚ) (hl : 2 ≤ l.length) (ho : Spec.Ordered l) (hlead : a.leading = some l) (thr : String) (hthr : Spec.ThresholdName a.name thr)
    (side : String) (hside : side = "above" ∧ a.relative ∈ ["above", "greater_than", "greater_than_or_equal_to"] ∨ side = "below" ∧ a.relative ∈ ["below", "less_than", "less_than_or_equal_to"]) :
    ∃ c, generateMetadata canonical a = .ok c ∧ c.name = "probability_of_" ++ a.name ++ "_" ++ side ++ "_threshold" ∧ c.unit = "1" ∧
      Spec.Made a time frt period ⟨thr, l, u, [("spp__relative_to_threshold", a.relative)], true⟩ c := by
  have hname : probCubeName a.relative a.name = .ok ("probability_of_" ++ a.name ++ "_" ++ side ++ "_threshold") := by
    have e : ∀ w : String, "_" ++ w ++ "_threshold" = ("_" ++ w) ++ "_threshold" := fun _ => rfl
    unfold probCubeName
    rcases hside with ⟨rfl, h'⟩ | ⟨rfl, h'⟩
    · rw [if_pos h', String.append_assoc, String.append_assoc, String.append_assoc, String.append_assoc]
      rfl
    · have hn : ¬ a.relative ∈ ["above", "greater_than", "greater_than_or_equal_to"] := by
        simp only [List.mem_cons, List.not_mem_nil, or_false] at h'
        rcases h' with e | e | e <;> rw [e] <;> decide
      rw [if_neg hn, if_pos h', String.append_assoc, String.append_assoc, String.append_assoc, String.append_assoc]
      rfl
  generalize "probability_of_" ++ a.name ++ "_" ++ side ++ "_threshold" = nm at hname
  obtain ⟨y, x, gu, times, hg, hset, rfl⟩ := meta_variable h hl ho (.inl hlead) nm "1"
  refine ⟨_, ?_, made_of h (first := ⟨thr, l, u, [("spp__relative_to_threshold", a.relative)], true⟩) hl hg rfl⟩
  rw [generate_ok h hu (by rw [ht]; decide)]
  unfold metaCube setUpProbability
  rw [ht, if_neg (by decide), if_pos rfl, hname]
  simp only [bind, Except.bind]
  rw [hset, plainThreshold_spec hthr]
  simp only
  unfold renameLead sliceIfOne
  rw [hlead]
  simp only [List.cons_append]
  rw [if_pos (by rfl)]
  simp only
  rw [if_neg (by omega)]
  rfl

/-- **C268 (refusals).** Without one of the mandatory attributes, with an unknown type or grid, a corner that is not a pair, or units that are neither given nor known, no cube is made. -/
theorem C268_refused (canonical : String → Option String) (a : MetaArgs)
    (h : a.cubeType ∉ ["variable", "percentile", "probability"] ∨ (∃ g, a.grid = some g ∧ g ≠ "latlon" ∧ g ≠ "equalarea") ∨ (∃ l, a.corner = some l ∧ l.length ≠ 2) ∨
      (a.unit = none ∧ canonical a.name = none) ∨ (∃ k ∈ ["title", "source", "institution"], k ∉ a.mandatory.map Prod.fst)) :
    ∃ e, generateMetadata canonical a = .error e := by
  unfold generateMetadata
  by_cases h1 : a.cubeType ∉ ["variable", "percentile", "probability"]
  · exact ⟨_, if_pos h1⟩
  rw [if_neg h1]
  by_cases h2 : (a.grid.map fun g => decide (g ∉ ["latlon", "equalarea"])) = some true
  · exact ⟨_, if_pos h2⟩
  rw [if_neg h2]
  by_cases h3 : (a.corner.map fun l => decide (l.length ≠ 2)) = some true
  · exact ⟨_, if_pos h3⟩
  rw [if_neg h3]
  simp only [bind, Except.bind]
  rcases h with h | ⟨g, h, hg⟩ | ⟨l, h, hl⟩ | ⟨h, h'⟩ | ⟨k, hk, hk'⟩
  · exact absurd h h1
  · refine absurd ?_ h2
    rw [h]
    simp [hg.1, hg.2]
  · refine absurd ?_ h3
    rw [h]
    simp [hl]
  · have : metaUnit canonical a = .error .valueError := by unfold metaUnit; rw [h, h']
    rw [this]
    exact ⟨_, rfl⟩
  · cases metaUnit canonical a with
    | error e => exact ⟨e, rfl⟩
    | ok u => exact ⟨_, if_pos (fun hh => hk' (hh k hk))⟩

/-- Four by four points. -/
def sampleMeta (cubeType : String) (leading : Option (List ℚ)) : MetaArgs :=
  ⟨[("title", "t"), ("source", "s"), ("institution", "i")], "air_temperature", some "K", some 60, 3, leading, cubeType, "less_than", 4, none, some 10, none, none, none, false, none, none, none, none,
    [("title", "old"), ("comment", "c")]⟩

theorem sampleMeta_sound (cubeType : String) (leading : Option (List ℚ)) : Spec.Sound (sampleMeta cubeType leading) 1510286400 1510272000 (some 60) where
  grid := .inl rfl
  corner := .inl rfl
  attrs := by simp [sampleMeta]
  npoints := by simp [sampleMeta]
  dx := by
    show some (10 : ℚ) ≠ some 0
    decide +kernel
  dy := by simp [sampleMeta]
  levels := fun h e => nomatch e
  time := .inr ⟨rfl, rfl⟩
  frt := .inr ⟨rfl, rfl⟩
  blend := rfl
  bounds := rfl
  period := by
    show some (60 : ℚ) = _
    norm_num
  order := by norm_num

/-- Beside C268_variable, C268_percentile and C268_probability: the hypotheses are met. -/
example (cubeType : String) (leading : Option (List ℚ)) : Spec.Sound (sampleMeta cubeType leading) 1510286400 1510272000 (some 60) ∧
    Spec.Units (fun _ => none) (sampleMeta cubeType leading) "K" ∧ Spec.Ordered [25, 50, 75] ∧ Spec.ThresholdName "rain_in_vicinity" "rain" := by
  refine ⟨sampleMeta_sound _ _, .inl rfl, .inl (by decide +kernel), .inr ⟨by decide +kernel, ?_⟩⟩
  · intro p s h
    have hl := congrArg List.length h
    simp only [List.length_append] at hl
    have e1 : "rain_in_vicinity".toList.length = 16 := by decide +kernel
    have e2 : "_in_vicinity".toList.length = 12 := by decide +kernel
    rw [e1, e2] at hl
    have hp : p = "rain_in_vicinity".toList.take p.length := by rw [h, List.append_assoc, List.take_left]
    have hm : "_in_vicinity".toList = ("rain_in_vicinity".toList.drop p.length).take 12 := by
      rw [h, List.append_assoc, List.drop_left, List.take_append_of_le_length (by rw [e2]), List.take_of_length_le (by rw [e2])]
    have hn : p.length = 0 ∨ p.length = 1 ∨ p.length = 2 ∨ p.length = 3 ∨ p.length = 4 := by omega
    rcases hn with hn | hn | hn | hn | hn <;> rw [hn] at hm hp
    · exact absurd hm (by decide +kernel)
    · exact absurd hm (by decide +kernel)
    · exact absurd hm (by decide +kernel)
    · exact absurd hm (by decide +kernel)
    · exact hp

/-- **C268 (finding).** A single percentile (or threshold) makes no cube at all. -/
theorem C268_single_percentile_refuted : ∃ a : MetaArgs, Spec.Sound a 1510286400 1510272000 (some 60) ∧ a.leading = some [50] ∧ a.cubeType = "percentile" ∧
    (generateMetadata (fun _ => none) a).toOption.isNone = true := by
  exact ⟨sampleMeta "percentile" (some [50]), sampleMeta_sound _ _, rfl, rfl, by decide +kernel⟩

/-- **C268 (finding).** A single realization given is lost without word: the cube made has no realization coordinate. -/
theorem C268_single_realization_refuted : ∃ a : MetaArgs, a.leading = some [5] ∧ a.cubeType = "variable" ∧
    (generateMetadata (fun _ => none) a).toOption.map (fun c => (c.dims.map SynthDim.name, c.scalars.map SynthDim.name)) = some (["latitude", "longitude"], []) :=
  ⟨sampleMeta "variable" (some [5]), rfl, rfl, by decide +kernel⟩

/-- **C268 (one kind).** Of realizations, percentiles and thresholds no two may be given together; heights go before pressures. -/
theorem C268_one_kind (r p t h q : Option (List ℚ)) :
    ((∃ o, leadingOf r p t = .ok o) ↔ ¬ (r ≠ none ∧ p ≠ none) ∧ ¬ (r ≠ none ∧ t ≠ none) ∧ ¬ (p ≠ none ∧ t ≠ none)) ∧
    (∀ o, leadingOf r p t = .ok o → (o.2 = "percentile" ↔ p ≠ none) ∧ (o.2 = "probability" ↔ t ≠ none) ∧ (o.1 = r ∨ o.1 = p ∨ o.1 = t) ∧
      (o.1 = none → r = none ∧ p = none ∧ t = none)) ∧
    (h ≠ none → heightsOf h q = (h, false)) ∧ (h = none → q ≠ none → heightsOf h q = (q, true)) ∧ heightsOf none none = (none, false) := by
  refine ⟨?_, ?_, ?_, ?_, rfl⟩
  · cases r <;> cases p <;> cases t <;> simp [leadingOf]
  · intro o ho
    cases r <;> cases p <;> cases t <;> cases ho <;> simp
  · intro hh; cases h with
    | none => exact absurd rfl hh
    | some l => rfl
  · intro hh hq
    subst hh
    cases q with
    | none => exact absurd rfl hq
    | some l => rfl

end Improver
