import Verif.Model.AdvectLayout
import Verif.Props.Nowcast

/-! C292: what advection does with cubes of any layout. -/

namespace Improver

open Spec

namespace Spec

/-- The value of a cube at the place given by the name of each dimension. -/
def fieldAt {D : Type} (c : FieldCube D) (place : String → ℕ) : D := c.data (c.dims.map fun d => place d.1)

/-- The place in row `j` and column `i`. -/
def rowColumn (j i : ℕ) : String → ℕ := fun n => if n = "y" then j else i

/-- A cube has both coordinates and at most two dimensions of more than one point. -/
def flat {D : Type} (c : FieldCube D) : Prop := c.xs ≠ none ∧ c.ys ≠ none ∧ ∀ l : List (String × ℕ), l.Sublist c.dims → (∀ d ∈ l, 1 < d.2) → l.length ≤ 2

/-- Coordinates with `nx` and `ny` points, the first two of which are `dx` and `dy` apart. -/
def spaced {D : Type} (c : FieldCube D) (nx ny : ℕ) (dx dy : ℚ) : Prop :=
  (∃ a l, c.xs = some (a :: (a + dx) :: l) ∧ l.length + 2 = nx) ∧ (∃ b l, c.ys = some (b :: (b + dy) :: l) ∧ l.length + 2 = ny)

end Spec

theorem checkInputCoords_iff {D : Type} (c : FieldCube D) (t : Bool) :
    (checkInputCoords c t = .ok () ↔ Spec.flat c ∧ (t = true → c.time ≠ none)) ∧ (checkInputCoords c t ≠ .ok () → checkInputCoords c t = .error .invalidCube) := by
  have count : (c.dims.filter fun d => decide (1 < d.2)).length ≤ 2 ↔ ∀ l : List (String × ℕ), l.Sublist c.dims → (∀ d ∈ l, 1 < d.2) → l.length ≤ 2 := by
    constructor
    · intro h l hs hl
      have : l.Sublist (c.dims.filter fun d => decide (1 < d.2)) := by
        have e : l.filter (fun d => decide (1 < d.2)) = l := List.filter_eq_self.2 fun d hd => decide_eq_true (hl d hd)
        rw [← e]; exact hs.filter _
      exact this.length_le.trans h
    · intro h
      refine h _ List.filter_sublist fun d hd => ?_
      exact of_decide_eq_true (List.mem_filter.1 hd).2
  unfold checkInputCoords Spec.flat
  rw [← count]
  by_cases h1 : (c.xs.isNone || c.ys.isNone) = true
  · rw [if_pos h1]
    refine ⟨⟨fun h => (nomatch h), ?_⟩, fun _ => rfl⟩
    rintro ⟨⟨hx, hy, -⟩, -⟩
    rw [Bool.or_eq_true, Option.isNone_iff_eq_none, Option.isNone_iff_eq_none] at h1
    rcases h1 with h1 | h1
    · exact absurd h1 hx
    · exact absurd h1 hy
  · rw [if_neg h1]
    rw [Bool.or_eq_true, Option.isNone_iff_eq_none, Option.isNone_iff_eq_none, not_or] at h1
    by_cases h2 : 2 < (c.dims.filter fun d => decide (1 < d.2)).length
    · rw [if_pos h2]
      exact ⟨⟨fun h => (nomatch h), fun h => absurd h.1.2.2 (by omega)⟩, fun _ => rfl⟩
    · rw [if_neg h2]
      by_cases h3 : (t && c.time.isNone) = true
      · rw [if_pos h3]
        rw [Bool.and_eq_true, Option.isNone_iff_eq_none] at h3
        exact ⟨⟨fun h => (nomatch h), fun h => absurd h3.2 (h.2 h3.1)⟩, fun _ => rfl⟩
      · rw [if_neg h3]
        rw [Bool.and_eq_true, Option.isNone_iff_eq_none] at h3
        exact ⟨⟨fun _ => ⟨⟨h1.1, h1.2, by omega⟩, fun ht e => h3 ⟨ht, e⟩⟩, fun _ => rfl⟩, fun h => absurd rfl h⟩

/-- **C292** (velocities): two velocity cubes are taken exactly when each has an x and a y coordinate and at most two dimensions of more than one point, and their
coordinates are the same; anything else is an invalid cube. -/
theorem C292_velocities (u v : FieldCube ℚ) :
    (makeAdvect u v = .ok (u, v) ↔ Spec.flat u ∧ Spec.flat v ∧ u.xs = v.xs ∧ u.ys = v.ys) ∧
    (makeAdvect u v ≠ .ok (u, v) → makeAdvect u v = .error .invalidCube) := by
  obtain ⟨u1, u2⟩ := checkInputCoords_iff u false
  obtain ⟨v1, v2⟩ := checkInputCoords_iff v false
  unfold makeAdvect
  by_cases hu : checkInputCoords u false = .ok ()
  · by_cases hv : checkInputCoords v false = .ok ()
    · rw [hu, hv]
      simp only [bind, Except.bind]
      by_cases he : u.xs ≠ v.xs ∨ u.ys ≠ v.ys
      · rw [if_pos he]
        exact ⟨⟨fun h => (nomatch h), fun h => by rcases he with e | e; exacts [absurd h.2.2.1 e, absurd h.2.2.2 e]⟩, fun _ => rfl⟩
      · rw [if_neg he]
        rw [not_or, not_not, not_not] at he
        exact ⟨⟨fun _ => ⟨(u1.1 hu).1, (v1.1 hv).1, he⟩, fun _ => rfl⟩, fun h => absurd rfl h⟩
    · rw [hu, v2 hv]
      exact ⟨⟨fun h => (nomatch h), fun h => absurd (v1.2 ⟨h.2.1, fun e => (nomatch e)⟩) hv⟩, fun _ => rfl⟩
  · rw [u2 hu]
    exact ⟨⟨fun h => (nomatch h), fun h => absurd (u1.2 ⟨h.1, fun e => (nomatch e)⟩) hu⟩, fun _ => rfl⟩

/-- **C292** (refused): a cube without x, y or time, with more than two dimensions of more than one point, or on other coordinates than the velocities is refused. -/
theorem C292_refused (plugin : FieldCube ℚ × FieldCube ℚ) (cube : FieldCube (Option ℚ)) (timestep : ℤ)
    (h : ¬ Spec.flat cube ∨ cube.time = none ∨ cube.xs ≠ plugin.1.xs ∨ cube.ys ≠ plugin.1.ys) : advectCube plugin cube timestep = .error .invalidCube := by
  obtain ⟨c1, c2⟩ := checkInputCoords_iff cube true
  unfold advectCube
  by_cases hc : checkInputCoords cube true = .ok ()
  · rw [hc]
    simp only [bind, Except.bind]
    rw [if_pos]
    rcases h with h | h | h
    · exact absurd (c1.1 hc).1 h
    · exact absurd h ((c1.1 hc).2 rfl)
    · exact h
  · rw [c2 hc]; rfl

theorem advectField_shift (nx ny : ℕ) (data : ℕ → ℕ → Option ℚ) (u v : ℕ → ℕ → ℚ) (t : ℤ) (y x : ℕ) (ht : t ≠ 0) (kx ky : ℕ) (hx : kx < nx) (hy : ky < ny)
    (ex : (x : ℚ) - u y x * t = kx) (ey : (y : ℚ) - v y x * t = ky) (hd : ∀ j i, j < ny → i < nx → data j i ≠ none) : advectField nx ny data u v t y x = data ky kx := by
  have tr : ∀ k : ℕ, truncInt (k : ℚ) = (k : ℤ) := by
    intro k
    unfold truncInt
    rw [if_pos (Nat.cast_nonneg k)]
    exact_mod_cast Int.floor_natCast k
  rw [advectField_cell nx ny data u v t y x ht kx ky (by unfold Spec.sourceX; rw [ex]; exact ⟨Nat.cast_nonneg _, by exact_mod_cast hx⟩)
    (by rw [ey]; exact ⟨Nat.cast_nonneg _, by exact_mod_cast hy⟩) (by unfold Spec.sourceX; rw [ex]; exact tr kx) (by rw [ey]; exact tr ky)]
  unfold Spec.sourceX
  rw [ex, ey]
  dsimp only
  rw [sub_self, sub_self, sub_zero]
  have first : advIncrement data nx ny (some 0) (kx : ℤ) (ky : ℤ) 1 1 = data ky kx := by
    rw [advIncrement_nat, if_pos ⟨hx, hy⟩]
    cases h0 : data ky kx with
    | none => rfl
    | some d => show some (0 + d * 1 * 1) = some d; congr 1; ring
  cases h0 : data ky kx with
  | none => exact absurd h0 (hd ky kx hy hx)
  | some d =>
    have more : ∀ (i j : ℕ) (a b : ℚ), a * b = 0 → advIncrement data nx ny (some d) (i : ℤ) (j : ℤ) a b = some d := by
      intro i j a b hab
      rw [advIncrement_nat]
      by_cases h : i < nx ∧ j < ny
      · rw [if_pos h]
        cases hq : data j i with
        | none => exact absurd hq (hd j i h.2 h.1)
        | some q => show some (d + q * a * b) = some d; rw [mul_assoc, hab, mul_zero, add_zero]
      · rw [if_neg h]
    rw [first, h0, more _ _ _ _ (by norm_num), more _ _ _ _ (by norm_num), more _ _ _ _ (by norm_num)]

theorem advectCube_run (u v : FieldCube ℚ) (cube : FieldCube (Option ℚ)) (timestep : ℤ) (nx ny : ℕ) (dx dy : ℚ) (hs : Spec.spaced cube nx ny dx dy) (hf : Spec.flat cube)
    (ht : cube.time ≠ none) (hux : cube.xs = u.xs) (huy : cube.ys = u.ys) :
    advectCube (u, v) cube timestep =
      (advectArray id (cube.dims.map Prod.snd) cube.data (u.dims.map Prod.snd) (v.dims.map Prod.snd) (fun idx => u.data idx / dx) (fun idx => v.data idx / dy) timestep).bind
        fun out => .ok { cube with data := out, time := cube.time.map (· + timestep) } := by
  obtain ⟨⟨a, l, hx, -⟩, ⟨b, m, hy, -⟩⟩ := hs
  unfold advectCube
  rw [(checkInputCoords_iff cube true).1.2 ⟨hf, fun _ => ht⟩]
  simp only [bind, Except.bind]
  rw [if_neg (by rintro (h | h); exacts [h hux, h huy]), hx, hy]
  have e1 : firstSpacing ((some (a :: (a + dx) :: l)).getD []) = .ok dx := by show Except.ok _ = _; congr 1; ring
  have e2 : firstSpacing ((some (b :: (b + dy) :: m)).getD []) = .ok dy := by show Except.ok _ = _; congr 1; ring
  rw [e1, e2]
  rfl

theorem flat_two {D : Type} (c : FieldCube D) (p q : String × ℕ) (hd : c.dims = [p, q]) (hx : c.xs ≠ none) (hy : c.ys ≠ none) : Spec.flat c :=
  ⟨hx, hy, fun l hl _ => by have := hl.length_le; rw [hd] at this; exact this⟩

theorem spaced_some {D : Type} {c : FieldCube D} {nx ny : ℕ} {dx dy : ℚ} (h : Spec.spaced c nx ny dx dy) : c.xs ≠ none ∧ c.ys ≠ none := by
  obtain ⟨⟨a, l, hx, -⟩, ⟨b, m, hy, -⟩⟩ := h
  exact ⟨by rw [hx]; exact fun e => (nomatch e), by rw [hy]; exact fun e => (nomatch e)⟩

theorem advectCube_two (u v : FieldCube ℚ) (cube : FieldCube (Option ℚ)) (timestep : ℤ) (nx ny : ℕ) (dx dy : ℚ) (hs : Spec.spaced cube nx ny dx dy)
    (ht : cube.time ≠ none) (hux : cube.xs = u.xs) (huy : cube.ys = u.ys) (a b : String) (m n : ℕ) (hc : cube.dims = [(a, m), (b, n)]) (hu : u.dims = [(a, m), (b, n)])
    (hv : v.dims = [(a, m), (b, n)]) (h0 : timestep ≠ 0) :
    ∃ out, advectCube (u, v) cube timestep = .ok out ∧ out.dims = cube.dims ∧ out.xs = cube.xs ∧ out.ys = cube.ys ∧ out.time = cube.time.map (· + timestep) ∧
      ∀ j i, out.data [j, i] = advectField n m (fun j i => cube.data [j, i]) (fun j i => u.data [j, i] / dx) (fun j i => v.data [j, i] / dy) timestep j i := by
  have hsome := spaced_some hs
  have arr : advectArray id (cube.dims.map Prod.snd) cube.data (u.dims.map Prod.snd) (v.dims.map Prod.snd) (fun idx => u.data idx / dx) (fun idx => v.data idx / dy) timestep =
      .ok fun idx => advectField n m (fun j i => cube.data [j, i]) (fun j i => u.data [j, i] / dx) (fun j i => v.data [j, i] / dy) timestep (idx.getD 0 0) (idx.getD 1 0) := by
    unfold advectArray
    rw [if_neg h0, hc, hu, hv]
    exact if_pos ⟨rfl, rfl⟩
  have run := advectCube_run u v cube timestep nx ny dx dy hs (flat_two cube _ _ hc hsome.1 hsome.2) ht hux huy
  rw [arr] at run
  exact ⟨_, run, rfl, rfl, rfl, rfl, fun j i => rfl⟩

/-- **C292** (rows first): for cubes stored row by row, what is at a place comes from where the velocities there take it from: at a place that the velocities reach from
`k` columns and `l` rows away, which is in the grid, is the value of the cube there. -/
theorem C292_shift (u v : FieldCube ℚ) (cube : FieldCube (Option ℚ)) (timestep : ℤ) (nx ny : ℕ) (dx dy : ℚ) (hs : Spec.spaced cube nx ny dx dy) (hdx : dx ≠ 0) (hdy : dy ≠ 0)
    (ht : cube.time ≠ none) (hux : cube.xs = u.xs) (huy : cube.ys = u.ys) (hc : cube.dims = [("y", ny), ("x", nx)]) (hu : u.dims = [("y", ny), ("x", nx)])
    (hv : v.dims = [("y", ny), ("x", nx)]) (h0 : timestep ≠ 0) :
    ∃ out, advectCube (u, v) cube timestep = .ok out ∧ out.dims = cube.dims ∧ out.xs = cube.xs ∧ out.ys = cube.ys ∧ out.time = cube.time.map (· + timestep) ∧
      ((∀ j i, j < ny → i < nx → Spec.fieldAt cube (Spec.rowColumn j i) ≠ none) →
        ∀ j i (k l : ℕ), k < nx → l < ny → Spec.fieldAt u (Spec.rowColumn j i) * timestep = ((i : ℚ) - k) * dx → Spec.fieldAt v (Spec.rowColumn j i) * timestep = ((j : ℚ) - l) * dy →
          Spec.fieldAt out (Spec.rowColumn j i) = Spec.fieldAt cube (Spec.rowColumn l k)) := by
  obtain ⟨out, run, o1, o2, o3, o4, o5⟩ := advectCube_two u v cube timestep nx ny dx dy hs ht hux huy "y" "x" ny nx hc hu hv h0
  refine ⟨out, run, o1, o2, o3, o4, ?_⟩
  have place : ∀ {D : Type} (c : FieldCube D), c.dims = [("y", ny), ("x", nx)] → ∀ j i, Spec.fieldAt c (Spec.rowColumn j i) = c.data [j, i] := by
    intro D c e j i
    unfold Spec.fieldAt
    rw [e]; rfl
  intro hd j i k l hk hl e1 e2
  rw [place _ hu] at e1
  rw [place _ hv] at e2
  rw [place _ hc]
  rw [place _ (o1.trans hc), o5]
  refine advectField_shift nx ny _ _ _ timestep j i h0 k l hk hl ?_ ?_ fun j' i' hj hi => ?_
  · rw [div_mul_eq_mul_div, e1, mul_div_assoc, div_self hdx]; ring
  · rw [div_mul_eq_mul_div, e2, mul_div_assoc, div_self hdy]; ring
  · have := hd j' i' hj hi
    rwa [place _ hc] at this

/-- **C292** (columns first): if all cubes are stored column by column nothing is refused, but the velocities are exchanged: what is at a place comes from as many rows away
as the eastward velocity has columns, and as many columns as the northward velocity has rows. -/
theorem C292_exchanged (u v : FieldCube ℚ) (cube : FieldCube (Option ℚ)) (timestep : ℤ) (nx ny : ℕ) (dx dy : ℚ) (hs : Spec.spaced cube nx ny dx dy) (hdx : dx ≠ 0) (hdy : dy ≠ 0)
    (ht : cube.time ≠ none) (hux : cube.xs = u.xs) (huy : cube.ys = u.ys) (hc : cube.dims = [("x", nx), ("y", ny)]) (hu : u.dims = [("x", nx), ("y", ny)])
    (hv : v.dims = [("x", nx), ("y", ny)]) (h0 : timestep ≠ 0) :
    ∃ out, advectCube (u, v) cube timestep = .ok out ∧ out.dims = cube.dims ∧
      ((∀ j i, j < ny → i < nx → Spec.fieldAt cube (Spec.rowColumn j i) ≠ none) →
        ∀ j i (k l : ℕ), k < nx → l < ny → Spec.fieldAt u (Spec.rowColumn j i) * timestep = ((j : ℚ) - l) * dx → Spec.fieldAt v (Spec.rowColumn j i) * timestep = ((i : ℚ) - k) * dy →
          Spec.fieldAt out (Spec.rowColumn j i) = Spec.fieldAt cube (Spec.rowColumn l k)) := by
  obtain ⟨out, run, o1, -, -, -, o5⟩ := advectCube_two u v cube timestep nx ny dx dy hs ht hux huy "x" "y" nx ny hc hu hv h0
  refine ⟨out, run, o1, ?_⟩
  have place : ∀ {D : Type} (c : FieldCube D), c.dims = [("x", nx), ("y", ny)] → ∀ j i, Spec.fieldAt c (Spec.rowColumn j i) = c.data [i, j] := by
    intro D c e j i
    unfold Spec.fieldAt
    rw [e]; rfl
  intro hd j i k l hk hl e1 e2
  rw [place _ hu] at e1
  rw [place _ hv] at e2
  rw [place _ hc]
  rw [place _ (o1.trans hc), o5]
  refine advectField_shift ny nx _ _ _ timestep i j h0 l k hl hk ?_ ?_ fun j' i' hj hi => ?_
  · rw [div_mul_eq_mul_div, e1, mul_div_assoc, div_self hdx]; ring
  · rw [div_mul_eq_mul_div, e2, mul_div_assoc, div_self hdy]; ring
  · have := hd i' j' hi hj
    rwa [place _ hc] at this

/-- **C292** (mixed): with the cube stored one way and a velocity the other, on a grid that is not square, advection over time is refused. -/
theorem C292_mixed (u v : FieldCube ℚ) (cube : FieldCube (Option ℚ)) (timestep : ℤ) (nx ny : ℕ) (dx dy : ℚ) (hs : Spec.spaced cube nx ny dx dy) (hne : nx ≠ ny)
    (ht : cube.time ≠ none) (hux : cube.xs = u.xs) (huy : cube.ys = u.ys) (hc : cube.dims = [("y", ny), ("x", nx)])
    (h : u.dims = [("x", nx), ("y", ny)] ∨ v.dims = [("x", nx), ("y", ny)]) (h0 : timestep ≠ 0) : advectCube (u, v) cube timestep = .error .valueError := by
  have hsome := spaced_some hs
  rw [advectCube_run u v cube timestep nx ny dx dy hs (flat_two cube _ _ hc hsome.1 hsome.2) ht hux huy]
  unfold advectArray
  rw [if_neg h0, hc]
  dsimp only [List.map]
  rw [if_neg]
  · rfl
  · rintro ⟨h1, h2⟩
    rcases h with h | h
    · rw [h] at h1
      have := (List.cons.inj h1).1
      exact hne this
    · rw [h] at h2
      have := (List.cons.inj h2).1
      exact hne this

/-- **C292** (another number of dimensions): a cube that passes the checks because its further dimensions have one point each is refused all the same when time passes,
and returned as it is otherwise. -/
theorem C292_extra (u v : FieldCube ℚ) (cube : FieldCube (Option ℚ)) (timestep : ℤ) (nx ny : ℕ) (dx dy : ℚ) (hs : Spec.spaced cube nx ny dx dy) (hf : Spec.flat cube)
    (ht : cube.time ≠ none) (hux : cube.xs = u.xs) (huy : cube.ys = u.ys) (hl : cube.dims.length ≠ 2) :
    (timestep ≠ 0 → advectCube (u, v) cube timestep = .error .valueError) ∧
    (timestep = 0 → ∃ out, advectCube (u, v) cube timestep = .ok out ∧ out.dims = cube.dims ∧ ∀ idx, out.data idx = cube.data idx) := by
  rw [advectCube_run u v cube timestep nx ny dx dy hs hf ht hux huy]
  unfold advectArray
  constructor
  · intro h0
    rw [if_neg h0]
    match hd : cube.dims with
    | [] => rfl
    | [_] => rfl
    | [_, _] => rw [hd] at hl; exact absurd rfl hl
    | _ :: _ :: _ :: _ => rfl
  · intro h0
    rw [if_pos h0]
    exact ⟨_, rfl, rfl, fun _ => rfl⟩

/-- A square field stored column by column, all of whose values are different, in an eastward flow of one column per second. -/
def columnField : FieldCube (Option ℚ) := ⟨[("x", 3), ("y", 3)], some [0, 1, 2], some [0, 1, 2], some 0, fun idx => some (10 * (idx.getD 1 0 : ℕ) + (idx.getD 0 0 : ℕ))⟩
def columnFlow (s : ℚ) : FieldCube ℚ := ⟨[("x", 3), ("y", 3)], some [0, 1, 2], some [0, 1, 2], none, fun _ => s⟩

/-- **C292** (order): the order of the dimensions is not checked: a field in a purely eastward flow may be moved north. -/
theorem C292_order_refuted : ¬ ∀ (u v : FieldCube ℚ) (cube out : FieldCube (Option ℚ)) (timestep : ℤ) (j i : ℕ), makeAdvect u v = .ok (u, v) →
    (∀ idx, u.data idx = 1 ∧ v.data idx = 0) → Spec.spaced cube 3 3 1 1 → timestep = 1 → j < 3 → i + 1 < 3 → advectCube (u, v) cube timestep = .ok out →
    Spec.fieldAt out (Spec.rowColumn j (i + 1)) = Spec.fieldAt cube (Spec.rowColumn j i) := by
  intro h
  have hs : Spec.spaced columnField 3 3 1 1 := ⟨⟨0, [2], by show some _ = some _; norm_num, rfl⟩, ⟨0, [2], by show some _ = some _; norm_num, rfl⟩⟩
  have hm : makeAdvect (columnFlow 1) (columnFlow 0) = .ok (columnFlow 1, columnFlow 0) := by
    rw [(C292_velocities _ _).1]
    exact ⟨flat_two _ _ _ rfl (fun e => (nomatch e)) (fun e => (nomatch e)), flat_two _ _ _ rfl (fun e => (nomatch e)) (fun e => (nomatch e)), rfl, rfl⟩
  obtain ⟨out, ho, -, hv⟩ := C292_exchanged (columnFlow 1) (columnFlow 0) columnField 1 3 3 1 1 hs one_ne_zero one_ne_zero (fun e => (nomatch e)) rfl rfl rfl rfl rfl one_ne_zero
  have h1 := h (columnFlow 1) (columnFlow 0) columnField out 1 1 0 hm (fun _ => ⟨rfl, rfl⟩) hs rfl (by decide) (by decide) ho
  have h2 := hv (fun j i _ _ e => nomatch e) 1 1 1 0 (by decide) (by decide) (by show (1 : ℚ) * ((1 : ℤ) : ℚ) = _; norm_num) (by show (0 : ℚ) * ((1 : ℤ) : ℚ) = _; norm_num)
  rw [h2] at h1
  revert h1
  decide +kernel

example : (advectCube (⟨[("y", 2), ("x", 3)], some [0, 1, 2], some [0, 1], none, fun _ => 1⟩, ⟨[("y", 2), ("x", 3)], some [0, 1, 2], some [0, 1], none, fun _ => 0⟩)
    ⟨[("y", 2), ("x", 3)], some [0, 1, 2], some [0, 1], some 7, fun idx => some (10 * (idx.getD 0 0 : ℕ) + (idx.getD 1 0 : ℕ))⟩ 1).toOption.map
      (fun o => (o.data [1, 0], o.data [1, 1], o.data [1, 2], o.time)) = some (none, some 10, some 11, some 8) := by decide +kernel

end Improver
