import Verif.Model.Nowcast
import Verif.Props.Times
import Mathlib.Tactic.LinearCombination

/-! Property theorems C91 (advection), C92 (orographic enhancement) and C94 (extrapolation forecasts). -/

namespace Improver

/-! ## Specification -/

/-- `s` lies in the domain of `n` points that starts at the first point and ends one grid length beyond the last one. -/
def Spec.inRow (s : ℚ) (n : ℕ) : Prop := 0 ≤ s ∧ s < n

/-- The grid points at `i` next to the position `s`: at or below it, and the one above. -/
def Spec.around (i : ℕ) (s : ℚ) : Prop := (i : ℚ) ≤ s + 1 ∧ s < i + 1

/-- Where the value found at `(y, x)` after `t` seconds was at the start. -/
def Spec.sourceX (u : ℕ → ℕ → ℚ) (t : ℤ) (y x : ℕ) : ℚ := x - u y x * t

/-- Adding the enhancement `e` to a rate: only where the rate is at least `thr`. -/
def Spec.oeAdd (thr e p : ℚ) : ℚ := if p < thr then p else p + e

/-- Subtracting the enhancement `e` from a rate: only where the rate is at least `thr`, and never below `thr`. -/
def Spec.oeSub (thr e p : ℚ) : ℚ := if p < thr then p else max (p - e) thr

/-- `s` is a slice of `cube` whose time is nearest to `t`, at most half an hour away. -/
def Spec.nearestSlice {D : Type} (cube : List (ℤ × D)) (t : ℤ) (s : ℤ × D) : Prop :=
  s ∈ cube ∧ (∀ q ∈ cube, |t - s.1| ≤ |t - q.1|) ∧ |t - s.1| ≤ 1800

/-! ## Helpers -/

theorem pointInBounds_iff (x y : ℚ) (nx ny : ℕ) :
    pointInBounds x y nx ny = true ↔ (0 ≤ x ∧ x < nx) ∧ (0 ≤ y ∧ y < ny) := by
  unfold pointInBounds
  simp only [Bool.and_eq_true, decide_eq_true_eq]
  tauto

theorem inRow_floor (s : ℚ) (n : ℕ) (h : Spec.inRow s n) :
    ∃ k : ℕ, truncInt s = (k : ℤ) ∧ k < n ∧ (k : ℚ) ≤ s ∧ s < k + 1 ∧
      ∀ i : ℕ, i < n → (Spec.around i s ↔ i = k ∨ i = k + 1) := by
  obtain ⟨h0, h1⟩ := h
  have hf : truncInt s = ⌊s⌋ := by unfold truncInt; rw [if_pos h0]
  have hnn : 0 ≤ ⌊s⌋ := Int.floor_nonneg.mpr h0
  have hk : ((⌊s⌋.toNat : ℕ) : ℤ) = ⌊s⌋ := Int.toNat_of_nonneg hnn
  have hkq : ((⌊s⌋.toNat : ℕ) : ℚ) = ((⌊s⌋ : ℤ) : ℚ) := by exact_mod_cast congrArg (fun z : ℤ => (z : ℚ)) hk
  have hle : ((⌊s⌋.toNat : ℕ) : ℚ) ≤ s := by rw [hkq]; exact Int.floor_le s
  have hlt : s < ((⌊s⌋.toNat : ℕ) : ℚ) + 1 := by rw [hkq]; exact Int.lt_floor_add_one s
  refine ⟨⌊s⌋.toNat, by rw [hf, hk], ?_, hle, hlt, ?_⟩
  · have : ((⌊s⌋.toNat : ℕ) : ℚ) < n := lt_of_le_of_lt hle h1
    exact_mod_cast this
  · intro i _
    unfold Spec.around
    constructor
    · rintro ⟨a, b⟩
      have h2 : (i : ℚ) < ((⌊s⌋.toNat + 2 : ℕ) : ℚ) := by push_cast; linarith
      have h3 : ((⌊s⌋.toNat : ℕ) : ℚ) < ((i + 1 : ℕ) : ℚ) := by push_cast; linarith
      have h2' : i < ⌊s⌋.toNat + 2 := by exact_mod_cast h2
      have h3' : ⌊s⌋.toNat < i + 1 := by exact_mod_cast h3
      omega
    · rintro (rfl | rfl)
      · exact ⟨by linarith, hlt⟩
      · push_cast; exact ⟨by linarith, by linarith⟩

theorem natInBounds (i j nx ny : ℕ) : pointInBounds ((i : ℤ) : ℚ) ((j : ℤ) : ℚ) nx ny = true ↔ i < nx ∧ j < ny := by
  rw [pointInBounds_iff]
  constructor
  · rintro ⟨⟨_, h1⟩, ⟨_, h2⟩⟩
    exact ⟨by exact_mod_cast h1, by exact_mod_cast h2⟩
  · rintro ⟨h1, h2⟩
    exact ⟨⟨by positivity, by exact_mod_cast h1⟩, ⟨by positivity, by exact_mod_cast h2⟩⟩

theorem advIncrement_nat (data : ℕ → ℕ → Option ℚ) (nx ny : ℕ) (acc : Option ℚ) (i j : ℕ) (xw yw : ℚ) :
    advIncrement data nx ny acc (i : ℤ) (j : ℤ) xw yw =
      if i < nx ∧ j < ny then
        (match acc, data j i with
        | some a, some d => some (a + d * xw * yw)
        | _, _ => none)
      else acc := by
  unfold advIncrement
  by_cases h : i < nx ∧ j < ny
  · rw [if_pos ((natInBounds i j nx ny).mpr h), if_pos h]; rfl
  · rw [if_neg (by rw [natInBounds]; exact h), if_neg h]

/-- The value at a point whose source is in bounds, in terms of the grid cell of the source. -/
theorem advectField_cell (nx ny : ℕ) (data : ℕ → ℕ → Option ℚ) (u v : ℕ → ℕ → ℚ) (t : ℤ) (y x : ℕ) (ht : t ≠ 0) (kx ky : ℕ)
    (hx : Spec.inRow (Spec.sourceX u t y x) nx) (hy : Spec.inRow ((y : ℚ) - v y x * t) ny)
    (hkx : truncInt (Spec.sourceX u t y x) = (kx : ℤ)) (hky : truncInt ((y : ℚ) - v y x * t) = (ky : ℤ)) :
    advectField nx ny data u v t y x =
      (let xu : ℚ := Spec.sourceX u t y x - kx
       let yu : ℚ := ((y : ℚ) - v y x * t) - ky
       let a0 := advIncrement data nx ny (some 0) (kx : ℤ) (ky : ℤ) (1 - xu) (1 - yu)
       let a1 := advIncrement data nx ny a0 (kx : ℤ) ((ky + 1 : ℕ) : ℤ) (1 - xu) yu
       let a2 := advIncrement data nx ny a1 ((kx + 1 : ℕ) : ℤ) (ky : ℤ) xu (1 - yu)
       advIncrement data nx ny a2 ((kx + 1 : ℕ) : ℤ) ((ky + 1 : ℕ) : ℤ) xu yu) := by
  have e1 : -u y x * (t : ℚ) + (x : ℚ) = Spec.sourceX u t y x := by unfold Spec.sourceX; ring
  have e2 : -v y x * (t : ℚ) + (y : ℚ) = (y : ℚ) - v y x * t := by ring
  unfold advectField
  rw [if_neg ht]
  simp only [e1, e2]
  rw [if_pos ((pointInBounds_iff _ _ _ _).mpr ⟨hx, hy⟩), hkx, hky]
  push_cast
  rfl

/-! ## C91: advection -/

/-- C91.  A time step of 0 gives the input. -/
theorem C91_no_time (nx ny : ℕ) (data : ℕ → ℕ → Option ℚ) (u v : ℕ → ℕ → ℚ) (y x : ℕ) :
    advectField nx ny data u v 0 y x = data y x := by
  unfold advectField; rw [if_pos rfl]

/-- C91.  After a time step the value at a point is missing exactly when its source is outside the domain or one of the grid points
around the source is missing. -/
theorem C91_missing (nx ny : ℕ) (data : ℕ → ℕ → Option ℚ) (u v : ℕ → ℕ → ℚ) (t : ℤ) (y x : ℕ) (ht : t ≠ 0) :
    advectField nx ny data u v t y x = none ↔
      ¬ (Spec.inRow ((x : ℚ) - u y x * t) nx ∧ Spec.inRow ((y : ℚ) - v y x * t) ny) ∨
      ∃ j i, j < ny ∧ i < nx ∧ Spec.around i ((x : ℚ) - u y x * t) ∧ Spec.around j ((y : ℚ) - v y x * t) ∧ data j i = none := by
  by_cases hb : Spec.inRow ((x : ℚ) - u y x * t) nx ∧ Spec.inRow ((y : ℚ) - v y x * t) ny
  · obtain ⟨hx, hy⟩ := hb
    obtain ⟨kx, hkx, hkxn, _, _, hax⟩ := inRow_floor _ _ hx
    obtain ⟨ky, hky, hkyn, _, _, hay⟩ := inRow_floor _ _ hy
    rw [advectField_cell nx ny data u v t y x ht kx ky hx hy hkx hky]
    simp only [advIncrement_nat]
    have hor : (¬ (Spec.inRow ((x : ℚ) - u y x * t) nx ∧ Spec.inRow ((y : ℚ) - v y x * t) ny)) ↔ False := by
      simp [hx, hy]
    rw [hor, false_or]
    have key : (∃ j i, j < ny ∧ i < nx ∧ Spec.around i ((x : ℚ) - u y x * t) ∧ Spec.around j ((y : ℚ) - v y x * t) ∧ data j i = none) ↔
        data ky kx = none ∨ (ky + 1 < ny ∧ data (ky + 1) kx = none) ∨ (kx + 1 < nx ∧ data ky (kx + 1) = none) ∨
          (ky + 1 < ny ∧ kx + 1 < nx ∧ data (ky + 1) (kx + 1) = none) := by
      constructor
      · rintro ⟨j, i, hj, hi, ha, hb, hd⟩
        rcases (hax i hi).mp ha with rfl | rfl <;> rcases (hay j hj).mp hb with rfl | rfl <;> tauto
      · rintro (h | ⟨h1, h⟩ | ⟨h1, h⟩ | ⟨h1, h2, h⟩)
        · exact ⟨ky, kx, hkyn, hkxn, (hax _ hkxn).mpr (.inl rfl), (hay _ hkyn).mpr (.inl rfl), h⟩
        · exact ⟨ky + 1, kx, h1, hkxn, (hax _ hkxn).mpr (.inl rfl), (hay _ h1).mpr (.inr rfl), h⟩
        · exact ⟨ky, kx + 1, hkyn, h1, (hax _ h1).mpr (.inr rfl), (hay _ hkyn).mpr (.inl rfl), h⟩
        · exact ⟨ky + 1, kx + 1, h1, h2, (hax _ h2).mpr (.inr rfl), (hay _ h1).mpr (.inr rfl), h⟩
    rw [key]
    by_cases h1 : kx + 1 < nx <;> by_cases h2 : ky + 1 < ny <;>
      cases h3 : data ky kx <;> cases h4 : data (ky + 1) kx <;> cases h5 : data ky (kx + 1) <;> cases h6 : data (ky + 1) (kx + 1) <;>
      simp [hkxn, hkyn, h1, h2]
  · have : advectField nx ny data u v t y x = none := by
      have e1 : -u y x * (t : ℚ) + (x : ℚ) = (x : ℚ) - u y x * t := by ring
      have e2 : -v y x * (t : ℚ) + (y : ℚ) = (y : ℚ) - v y x * t := by ring
      unfold advectField
      rw [if_neg ht]
      simp only [e1, e2]
      rw [if_neg (by rw [pointInBounds_iff]; exact hb)]
    simp [this, hb]

/-- C91.  Inside the grid the value is the bilinear interpolation of the input at the source: if the grid points around the source carry
the values of a function `a + b X + c Y + d X Y`, the result is that function at the source. -/
theorem C91_bilinear (nx ny : ℕ) (data : ℕ → ℕ → Option ℚ) (u v : ℕ → ℕ → ℚ) (t : ℤ) (y x : ℕ) (ht : t ≠ 0) (a b c d : ℚ)
    (hx : 0 ≤ (x : ℚ) - u y x * t ∧ (x : ℚ) - u y x * t ≤ nx - 1) (hy : 0 ≤ (y : ℚ) - v y x * t ∧ (y : ℚ) - v y x * t ≤ ny - 1)
    (hd : ∀ j i, j < ny → i < nx → Spec.around i ((x : ℚ) - u y x * t) → Spec.around j ((y : ℚ) - v y x * t) →
      data j i = some (a + b * i + c * j + d * i * j)) :
    advectField nx ny data u v t y x = some (a + b * ((x : ℚ) - u y x * t) + c * ((y : ℚ) - v y x * t) +
      d * ((x : ℚ) - u y x * t) * ((y : ℚ) - v y x * t)) := by
  have hx' : Spec.inRow (Spec.sourceX u t y x) nx := ⟨hx.1, by unfold Spec.sourceX; linarith [hx.2]⟩
  have hy' : Spec.inRow ((y : ℚ) - v y x * t) ny := ⟨hy.1, by linarith [hy.2]⟩
  obtain ⟨kx, hkx, hkxn, lx, ux, hax⟩ := inRow_floor _ _ hx'
  obtain ⟨ky, hky, hkyn, ly, uy, hay⟩ := inRow_floor _ _ hy'
  rw [advectField_cell nx ny data u v t y x ht kx ky hx' hy' hkx hky]
  simp only [advIncrement_nat]
  have hsx : (x : ℚ) - u y x * t = Spec.sourceX u t y x := rfl
  rw [hsx] at hd hx ⊢
  set sx := Spec.sourceX u t y x with hsxd
  set sy := (y : ℚ) - v y x * t with hsyd
  have d00 := hd ky kx hkyn hkxn ((hax _ hkxn).mpr (.inl rfl)) ((hay _ hkyn).mpr (.inl rfl))
  have edge_x : ¬ kx + 1 < nx → sx = kx := by
    intro h
    have : (nx : ℚ) ≤ kx + 1 := by exact_mod_cast not_lt.mp h
    linarith [hx.2]
  have edge_y : ¬ ky + 1 < ny → sy = ky := by
    intro h
    have : (ny : ℚ) ≤ ky + 1 := by exact_mod_cast not_lt.mp h
    linarith [hy.2]
  by_cases h1 : kx + 1 < nx <;> by_cases h2 : ky + 1 < ny
  · have d01 := hd (ky + 1) kx h2 hkxn ((hax _ hkxn).mpr (.inl rfl)) ((hay _ h2).mpr (.inr rfl))
    have d10 := hd ky (kx + 1) hkyn h1 ((hax _ h1).mpr (.inr rfl)) ((hay _ hkyn).mpr (.inl rfl))
    have d11 := hd (ky + 1) (kx + 1) h2 h1 ((hax _ h1).mpr (.inr rfl)) ((hay _ h2).mpr (.inr rfl))
    simp only [hkxn, hkyn, h1, h2, d00, d01, d10, d11, and_self, if_true]
    congr 1
    push_cast
    ring
  · have d10 := hd ky (kx + 1) hkyn h1 ((hax _ h1).mpr (.inr rfl)) ((hay _ hkyn).mpr (.inl rfl))
    simp only [hkxn, hkyn, h1, h2, d00, d10, and_self, if_true, and_false, if_false]
    congr 1
    rw [edge_y h2]
    push_cast
    ring
  · have d01 := hd (ky + 1) kx h2 hkxn ((hax _ hkxn).mpr (.inl rfl)) ((hay _ h2).mpr (.inr rfl))
    simp only [hkxn, hkyn, h1, h2, d00, d01, and_self, if_true, false_and, if_false]
    congr 1
    rw [edge_x h1]
    push_cast
    ring
  · simp only [hkxn, hkyn, h1, h2, d00, and_self, if_true, false_and, and_false, if_false]
    congr 1
    rw [edge_x h1, edge_y h2]
    ring

/-- C91.  No new extremes: values between 0 and `m` stay between 0 and `m`, everywhere. -/
theorem C91_range (nx ny : ℕ) (data : ℕ → ℕ → Option ℚ) (u v : ℕ → ℕ → ℚ) (t : ℤ) (y x : ℕ) (m q : ℚ) (hm : 0 ≤ m)
    (hd : ∀ j i p, data j i = some p → 0 ≤ p ∧ p ≤ m) (h : advectField nx ny data u v t y x = some q) : 0 ≤ q ∧ q ≤ m := by
  by_cases ht : t = 0
  · subst ht; rw [C91_no_time] at h; exact hd _ _ _ h
  have hb : Spec.inRow ((x : ℚ) - u y x * t) nx ∧ Spec.inRow ((y : ℚ) - v y x * t) ny := by
    by_contra hc
    rw [(C91_missing nx ny data u v t y x ht).mpr (.inl hc)] at h
    exact nomatch h
  obtain ⟨hx, hy⟩ := hb
  obtain ⟨kx, hkx, hkxn, lx, ux, -⟩ := inRow_floor _ _ hx
  obtain ⟨ky, hky, hkyn, ly, uy, -⟩ := inRow_floor _ _ hy
  rw [advectField_cell nx ny data u v t y x ht kx ky hx hy hkx hky] at h
  simp only [advIncrement_nat] at h
  have hsx : Spec.sourceX u t y x = (x : ℚ) - u y x * t := rfl
  rw [hsx] at h
  set p := (x : ℚ) - u y x * t - kx with hp
  set r := (y : ℚ) - v y x * t - ky with hr
  have p0 : 0 ≤ p := by rw [hp]; linarith
  have p1 : 0 ≤ 1 - p := by rw [hp]; linarith
  have r0 : 0 ≤ r := by rw [hr]; linarith
  have r1 : 0 ≤ 1 - r := by rw [hr]; linarith
  have w00 : 0 ≤ (1 - p) * (1 - r) := mul_nonneg p1 r1
  have w01 : 0 ≤ (1 - p) * r := mul_nonneg p1 r0
  have w10 : 0 ≤ p * (1 - r) := mul_nonneg p0 r1
  have w11 : 0 ≤ p * r := mul_nonneg p0 r0
  have hw : (1 - p) * (1 - r) + (1 - p) * r + p * (1 - r) + p * r = 1 := by ring
  have aux : ∀ (d w : ℚ), 0 ≤ w → 0 ≤ d ∧ d ≤ m → 0 ≤ d * w ∧ d * w ≤ m * w := fun d w hw hd =>
    ⟨mul_nonneg hd.1 hw, mul_le_mul_of_nonneg_right hd.2 hw⟩
  have m01 := mul_nonneg hm w01
  have m10 := mul_nonneg hm w10
  have m11 := mul_nonneg hm w11
  have hmw : m * ((1 - p) * (1 - r)) + m * ((1 - p) * r) + m * (p * (1 - r)) + m * (p * r) = m := by
    rw [← mul_add, ← mul_add, ← mul_add, hw, mul_one]
  cases h3 : data ky kx with
  | none =>
    rw [h3] at h
    by_cases h1 : kx + 1 < nx <;> by_cases h2 : ky + 1 < ny <;> simp [hkxn, hkyn, h1, h2] at h
  | some d00 =>
    have b00 := aux d00 _ w00 (hd _ _ _ h3)
    by_cases h1 : kx + 1 < nx <;> by_cases h2 : ky + 1 < ny
    · cases h4 : data (ky + 1) kx with
      | none => simp [hkxn, hkyn, h1, h2, h3, h4] at h
      | some d01 =>
      cases h5 : data ky (kx + 1) with
      | none => simp [hkxn, hkyn, h1, h2, h3, h4, h5] at h
      | some d10 =>
      cases h6 : data (ky + 1) (kx + 1) with
      | none => simp [hkxn, hkyn, h1, h2, h3, h4, h5, h6] at h
      | some d11 =>
      have b01 := aux d01 _ w01 (hd _ _ _ h4)
      have b10 := aux d10 _ w10 (hd _ _ _ h5)
      have b11 := aux d11 _ w11 (hd _ _ _ h6)
      simp [hkxn, hkyn, h1, h2, h3, h4, h5, h6, mul_assoc] at h
      subst h
      constructor <;> linarith
    · cases h5 : data ky (kx + 1) with
      | none => simp [hkxn, hkyn, h1, h2, h3, h5] at h
      | some d10 =>
      have b10 := aux d10 _ w10 (hd _ _ _ h5)
      simp [hkxn, hkyn, h1, h2, h3, h5, mul_assoc] at h
      subst h
      constructor <;> linarith
    · cases h4 : data (ky + 1) kx with
      | none => simp [hkxn, hkyn, h1, h2, h3, h4] at h
      | some d01 =>
      have b01 := aux d01 _ w01 (hd _ _ _ h4)
      simp [hkxn, hkyn, h1, h2, h3, h4, mul_assoc] at h
      subst h
      constructor <;> linarith
    · simp [hkxn, hkyn, h1, h2, h3, mul_assoc] at h
      subst h
      constructor <;> linarith

/-- C91, finding.  Between the last grid point and the edge of the domain the value fades to 0: a uniform field does not stay
uniform. -/
theorem C91_edge_refuted : ¬ ∀ (nx ny : ℕ) (u v : ℕ → ℕ → ℚ) (t : ℤ) (y x : ℕ) (q : ℚ),
    advectField nx ny (fun _ _ => some 1) u v t y x = some q → q = 1 := by
  intro h
  have := h 2 2 (fun _ _ => -1 / 2) (fun _ _ => 0) 1 0 1 (1 / 2) (by decide +kernel)
  norm_num at this

/-- C91, finding.  A missing grid point above the source masks the result even if the source is exactly on a valid grid point (the
weight 0 is multiplied by NaN). -/
theorem C91_zero_weight_refuted : ¬ ∀ (nx ny : ℕ) (data : ℕ → ℕ → Option ℚ) (u v : ℕ → ℕ → ℚ) (t : ℤ) (y x j i : ℕ),
    j < ny → i < nx → (x : ℚ) - u y x * t = i → (y : ℚ) - v y x * t = j → (data j i).isSome →
    advectField nx ny data u v t y x = data j i := by
  intro h
  have := h 3 1 (fun _ i => if i = 2 then none else some 1) (fun _ _ => -1) (fun _ _ => 0) 1 0 0 0 1 (by decide) (by decide) (by decide +kernel)
    (by decide +kernel) (by decide)
  revert this
  decide +kernel

/-- C91.  The advected cube is valid `timestep` seconds later; its reference time is the time of the input and its forecast period the
time step; the displacement on the grid is the velocity times the time step over the grid length. -/
theorem C91_process (vel : Velocities) (cube : NowCube) (dt : ℤ) (f : NowForecast) (h : advectProcess vel cube dt = .ok f) :
    ∃ t dx dy, cube.time = some t ∧ cube.xs = vel.xs ∧ cube.ys = vel.ys ∧ f.time = t + dt ∧ f.frt = t ∧ f.period = dt ∧
      cube.xs[1]? = (cube.xs[0]?).map (· + dx) ∧ cube.ys[1]? = (cube.ys[0]?).map (· + dy) ∧
      ∀ y x, f.data y x = advectField cube.xs.length cube.ys.length cube.data (fun y x => vel.u y x / dx) (fun y x => vel.v y x / dy) dt y x := by
  unfold advectProcess at h
  cases ht : cube.time with
  | none => rw [ht] at h; exact nomatch h
  | some t =>
    rw [ht] at h
    simp only [bind, Except.bind, pure, Except.pure] at h
    by_cases hc : cube.xs ≠ vel.xs ∨ cube.ys ≠ vel.ys
    · rw [if_pos hc] at h; exact nomatch h
    · rw [if_neg hc] at h
      have hx : cube.xs = vel.xs := by by_contra h'; exact hc (.inl h')
      have hy : cube.ys = vel.ys := by by_contra h'; exact hc (.inr h')
      have fs : ∀ (p : List ℚ) (d : ℚ), firstSpacing p = .ok d → p[1]? = (p[0]?).map (· + d) := by
        intro p d hp
        match p, hp with
        | a :: b :: _, hp =>
          injection hp with hp
          simp [← hp]
      cases h1 : firstSpacing cube.xs with
      | error e => rw [h1] at h; exact nomatch h
      | ok dx =>
      cases h2 : firstSpacing cube.ys with
      | error e => rw [h1, h2] at h; exact nomatch h
      | ok dy =>
      rw [h1, h2] at h
      injection h with h
      subst h
      exact ⟨t, dx, dy, rfl, hx, hy, rfl, rfl, rfl, fs _ _ h1, fs _ _ h2, fun _ _ => rfl⟩

/-- C91.  Cubes on another grid than the velocities, or without a time, are refused. -/
theorem C91_mismatch (vel : Velocities) (cube : NowCube) (dt : ℤ) (h : cube.time = none ∨ cube.xs ≠ vel.xs ∨ cube.ys ≠ vel.ys) :
    advectProcess vel cube dt = .error .invalidCube := by
  unfold advectProcess
  cases ht : cube.time with
  | none => rfl
  | some t =>
    rcases h with h | h
    · rw [ht] at h; exact nomatch h
    · simp only [if_pos h]

example : advectField 3 3 (fun j i => some (i + 10 * j)) (fun _ _ => 1 / 4) (fun _ _ => 1) 1 2 2 = some (7 / 4 + 10) := by decide +kernel
example : advectField 3 3 (fun j i => some (i + 10 * j)) (fun _ _ => 1) (fun _ _ => 0) 1 1 0 = none := by decide +kernel

/-! ## C92: orographic enhancement -/

/-- C92.  Adding and subtracting enhancement at one point; NaN stays NaN. -/
theorem oeCombine_spec (op : String) (thr e : ℚ) (p : Option ℚ) (h : op = "add" ∨ op = "subtract") :
    ∃ r, oeCombine op thr p e = .ok r ∧
      oeMinimum op thr p r = p.map (if op = "add" then Spec.oeAdd thr e else Spec.oeSub thr e) := by
  cases p with
  | none =>
    refine ⟨none, by simp [oeCombine, h], ?_⟩
    rcases h with rfl | rfl <;> simp [oeMinimum]
  | some p =>
    rcases h with rfl | rfl
    · by_cases hp : p < thr
      · exact ⟨some (p + 0), by simp [oeCombine, hp], by simp [oeMinimum, Spec.oeAdd, hp]⟩
      · exact ⟨some (p + e), by simp [oeCombine, hp], by simp [oeMinimum, Spec.oeAdd, hp]⟩
    · by_cases hp : p < thr
      · refine ⟨some (p - 0), by simp [oeCombine, hp], ?_⟩
        have : ¬ (p ≥ thr) := not_le.mpr hp
        simp [oeMinimum, Spec.oeSub, hp, this]
      · refine ⟨some (p - e), by simp [oeCombine, hp], ?_⟩
        have hge : p ≥ thr := not_lt.mp hp
        by_cases hr : p - e ≤ thr
        · have : max (p - e) thr = thr := max_eq_right hr
          simp [oeMinimum, Spec.oeSub, hp, this, hge, hr]
        · have : max (p - e) thr = p - e := max_eq_left (le_of_lt (not_le.mp hr))
          simp [oeMinimum, Spec.oeSub, hp, this, hge, hr]

theorem oeSelect_spec (oe : List (ℤ × (ℕ → ℕ → ℚ))) (t : ℤ) :
    (∀ e, oeSelect oe t = .ok e → ∃ s, Spec.nearestSlice oe t s ∧ s.2 = e) ∧
    ((∃ e, oeSelect oe t = .ok e) ↔ ∃ q ∈ oe, |t - q.1| ≤ 1800) := by
  by_cases hne : oe = []
  · subst hne
    have : oeSelect [] t = .error .indexError := rfl
    simp [this]
  · obtain ⟨h1, h2, -⟩ := C72_nearest oe hne "time" (.inl rfl) t 1800
    unfold oeSelect
    simp only [bind, Except.bind, pure, Except.pure]
    cases hs : extractNearest oe "time" t 1800 with
    | error e =>
      rw [hs] at h2
      refine ⟨fun e h => (nomatch h), ⟨fun ⟨_, h⟩ => (nomatch h), fun h => ?_⟩⟩
      obtain ⟨_, h'⟩ := h2.mpr h
      exact nomatch h'
    | ok s =>
      refine ⟨fun e h => ⟨s, h1 s hs, ?_⟩, ⟨fun _ => h2.mp ⟨s, hs⟩, fun _ => ⟨s.2, rfl⟩⟩⟩
      injection h

/-- C92.  The enhancement used is the one valid nearest to the time of the field, at most 30 minutes away; it is added, or subtracted
without going below the minimum rate, only where the rate reaches the minimum. -/
theorem C92_apply (op : String) (thr : ℚ) (oe : List (ℤ × (ℕ → ℕ → ℚ))) (t : ℤ) (f : ℕ → ℕ → Option ℚ) (y x : ℕ) (r : Option ℚ)
    (h : oeApply op thr oe t f y x = .ok r) :
    ∃ s, Spec.nearestSlice oe t s ∧ (op = "add" ∧ r = (f y x).map (Spec.oeAdd thr (s.2 y x)) ∨
      op = "subtract" ∧ r = (f y x).map (Spec.oeSub thr (s.2 y x))) := by
  unfold oeApply at h
  simp only [bind, Except.bind, pure, Except.pure] at h
  cases hs : oeSelect oe t with
  | error e => rw [hs] at h; exact nomatch h
  | ok e =>
    rw [hs] at h
    obtain ⟨s, hs1, hs2⟩ := (oeSelect_spec oe t).1 e hs
    refine ⟨s, hs1, ?_⟩
    rw [hs2]
    by_cases hop : op = "add" ∨ op = "subtract"
    · obtain ⟨r', h1, h2⟩ := oeCombine_spec op thr (e y x) (f y x) hop
      simp only [h1, h2] at h
      injection h with h
      rcases hop with rfl | rfl
      · exact .inl ⟨rfl, by rw [← h, if_pos rfl]⟩
      · exact .inr ⟨rfl, by rw [← h, if_neg (by decide)]⟩
    · exfalso
      cases hf : f y x with
      | none => simp [hf, oeCombine, hop] at h
      | some p =>
        have h1 : op ≠ "add" := fun h => hop (.inl h)
        have h2 : op ≠ "subtract" := fun h => hop (.inr h)
        simp [hf, oeCombine, h1, h2] at h

/-- C92.  Refused exactly when no enhancement is valid within 30 minutes, or the operation is neither "add" nor "subtract". -/
theorem C92_refused (op : String) (thr : ℚ) (oe : List (ℤ × (ℕ → ℕ → ℚ))) (t : ℤ) (f : ℕ → ℕ → Option ℚ) (y x : ℕ) :
    (∃ r, oeApply op thr oe t f y x = .ok r) ↔ (op = "add" ∨ op = "subtract") ∧ ∃ q ∈ oe, |t - q.1| ≤ 1800 := by
  constructor
  · rintro ⟨r, h⟩
    obtain ⟨s, hs, hop⟩ := C92_apply op thr oe t f y x r h
    exact ⟨by tauto, s, hs.1, hs.2.2⟩
  · rintro ⟨hop, hq⟩
    obtain ⟨e, he⟩ := (oeSelect_spec oe t).2.mpr hq
    obtain ⟨r', h1, -⟩ := oeCombine_spec op thr (e y x) (f y x) hop
    unfold oeApply
    simp only [bind, Except.bind, pure, Except.pure, he, h1]
    exact ⟨_, rfl⟩

/-- C92.  Subtracting and then adding back the same enhancement never lowers a rate, and restores it unless the rate is less than the
enhancement plus the minimum. -/
theorem C92_round_trip (thr e p : ℚ) :
    Spec.oeAdd thr e (Spec.oeSub thr e p) = (if p < thr then p else max p (thr + e)) ∧ p ≤ Spec.oeAdd thr e (Spec.oeSub thr e p) ∧
    (p < thr ∨ thr + e ≤ p → Spec.oeAdd thr e (Spec.oeSub thr e p) = p) := by
  have key : Spec.oeAdd thr e (Spec.oeSub thr e p) = if p < thr then p else max p (thr + e) := by
    unfold Spec.oeSub
    by_cases hp : p < thr
    · rw [if_pos hp, if_pos hp]; unfold Spec.oeAdd; rw [if_pos hp]
    · rw [if_neg hp, if_neg hp]
      unfold Spec.oeAdd
      rw [if_neg (not_lt.mpr (le_max_right _ _)), ← max_add_add_right]
      congr 1
      ring
  rw [key]
  refine ⟨rfl, ?_, ?_⟩
  · split
    · exact le_refl _
    · exact le_max_left _ _
  · rintro (h | h)
    · rw [if_pos h]
    · split
      · rfl
      · exact max_eq_left h

/-- C92, finding.  The round trip does not restore light rates: they are raised to the minimum plus the enhancement. -/
theorem C92_round_trip_refuted : ¬ ∀ thr e p : ℚ, 0 < thr → 0 ≤ e → Spec.oeAdd thr e (Spec.oeSub thr e p) = p := by
  intro h
  have := h (1 / 32) 1 (1 / 2) (by norm_num) (by norm_num)
  revert this
  decide +kernel

example : oeApply "subtract" (1 / 32) [(0, fun _ _ => 1), (3600, fun _ _ => 2)] 1000 (fun _ _ => some 3) 0 0 = .ok (some 2) := by
  decide +kernel
example : oeApply "subtract" (1 / 32) [(0, fun _ _ => 1), (3600, fun _ _ => 2)] 3000 (fun _ _ => some 1) 0 0 = .ok (some (1 / 32)) := by
  decide +kernel

/-! ## C94: extrapolation forecasts -/

/-- C94.  Lead times are 0, `interval`, 2 `interval`, ... up to the maximum. -/
theorem leadTimes_spec (interval maxLead : ℤ) (hi : 0 < interval) :
    ∃ l, leadTimes interval maxLead = .ok l ∧ (∀ k : ℕ, k < l.length ↔ (k : ℤ) * interval ≤ maxLead) ∧
      ∀ (k : ℕ) (m : ℤ), l[k]? = some m → m = (k : ℤ) * interval := by
  unfold leadTimes
  rw [if_neg (by omega)]
  refine ⟨_, rfl, ?_, ?_⟩
  · intro k
    rw [List.length_map, List.length_range, Int.lt_toNat, Int.lt_ceil]
    have hq : (0 : ℚ) < (interval : ℚ) := by exact_mod_cast hi
    rw [lt_div_iff₀ hq]
    have : ((k : ℤ) : ℚ) * (interval : ℚ) < ((maxLead + 1 : ℤ) : ℚ) ↔ (k : ℤ) * interval < maxLead + 1 := by
      exact_mod_cast Iff.rfl
    rw [this]
    omega
  · intro k m h
    rw [List.getElem?_map, Option.map_eq_some_iff] at h
    obtain ⟨a, ha, rfl⟩ := h
    have hl : k < _ := (List.getElem?_eq_some_iff.mp ha).1
    have := (List.getElem?_eq_some_iff.mp ha).2
    rw [List.getElem_range] at this
    rw [this]

theorem oeField_spec (op : String) (thr : ℚ) (oe : List (ℤ × (ℕ → ℕ → ℚ))) (t : ℤ) (f g : ℕ → ℕ → Option ℚ)
    (hop : op = "add" ∨ op = "subtract") (h : oeField op thr oe t f = .ok g) :
    ∃ s, Spec.nearestSlice oe t s ∧ ∀ y x, g y x = (f y x).map (if op = "add" then Spec.oeAdd thr (s.2 y x) else Spec.oeSub thr (s.2 y x)) := by
  unfold oeField at h
  simp only [bind, Except.bind, pure, Except.pure] at h
  cases hs : oeSelect oe t with
  | error e => rw [hs] at h; exact nomatch h
  | ok e =>
    rw [hs] at h
    obtain ⟨s, hs1, hs2⟩ := (oeSelect_spec oe t).1 e hs
    refine ⟨s, hs1, fun y x => ?_⟩
    injection h with h
    subst h
    obtain ⟨r', h1, h2⟩ := oeCombine_spec op thr (e y x) (f y x) hop
    simp only [h1, h2, hs2]

/-- What an extrapolation forecast to the lead time `mins` (minutes) is, without orographic enhancement (`oe = none`) or with it: the
enhancement is removed at the start and the one valid at the end is added. -/
def Spec.isForecast (thr : ℚ) (oe : Option (List (ℤ × (ℕ → ℕ → ℚ)))) (vel : Velocities) (cube : NowCube) (t : ℤ) (mins : ℤ)
    (f : NowForecast) : Prop :=
  f.frt = t ∧ f.period = 60 * mins ∧ f.time = t + 60 * mins ∧
  ∃ dx dy, cube.xs[1]? = (cube.xs[0]?).map (· + dx) ∧ cube.ys[1]? = (cube.ys[0]?).map (· + dy) ∧
  match oe with
  | none => ∀ y x, f.data y x = advectField cube.xs.length cube.ys.length cube.data (fun y x => vel.u y x / dx)
      (fun y x => vel.v y x / dy) (60 * mins) y x
  | some o => ∃ s0 s1, Spec.nearestSlice o t s0 ∧ Spec.nearestSlice o (t + 60 * mins) s1 ∧ ∀ y x,
      f.data y x = (advectField cube.xs.length cube.ys.length (fun j i => (cube.data j i).map (Spec.oeSub thr (s0.2 j i)))
        (fun y x => vel.u y x / dx) (fun y x => vel.v y x / dy) (60 * mins) y x).map (Spec.oeAdd thr (s1.2 y x))

theorem mapM_index {α β : Type} (g : α → Except Err β) (l : List α) (out : List β) (h : l.mapM g = .ok out) :
    out.length = l.length ∧ ∀ (k : ℕ) (b : β), out[k]? = some b → ∃ a, l[k]? = some a ∧ g a = .ok b := by
  induction l generalizing out with
  | nil =>
    simp only [List.mapM_nil, pure, Except.pure] at h
    injection h with h; subst h; simp
  | cons a l ih =>
    rw [List.mapM_cons] at h
    simp only [bind, Except.bind, pure, Except.pure] at h
    cases ha : g a with
    | error e => rw [ha] at h; exact nomatch h
    | ok b =>
      rw [ha] at h
      cases hl : l.mapM g with
      | error e => rw [hl] at h; exact nomatch h
      | ok out' =>
        rw [hl] at h
        injection h with h
        subst h
        obtain ⟨h1, h2⟩ := ih out' hl
        refine ⟨by simp [h1], fun k c hk => ?_⟩
        cases k with
        | zero => simp only [List.getElem?_cons_zero] at hk ⊢; injection hk with hk; exact ⟨a, rfl, by rw [ha, hk]⟩
        | succ k => simp only [List.getElem?_cons_succ] at hk ⊢; exact h2 k c hk

/-- C94.  The forecasts are at the lead times 0, `interval`, 2 `interval`, ... up to the maximum, in this order, each with the right times
and the advected data. -/
theorem C94_forecasts (thr : ℚ) (oe : Option (List (ℤ × (ℕ → ℕ → ℚ)))) (isPrecip : Bool) (vel : Velocities) (cube : NowCube)
    (interval maxLead : ℤ) (hi : 0 < interval) (out : List NowForecast)
    (h : extrapolationForecast thr oe isPrecip vel cube interval maxLead = .ok out) :
    (∀ k : ℕ, k < out.length ↔ (k : ℤ) * interval ≤ maxLead) ∧
    ∀ (k : ℕ) (f : NowForecast), out[k]? = some f →
      ∃ t, cube.time = some t ∧ Spec.isForecast thr oe vel cube t ((k : ℤ) * interval) f := by
  unfold extrapolationForecast at h
  simp only [bind, Except.bind] at h
  cases hin : extrapolationInput thr oe isPrecip cube with
  | error e => rw [hin] at h; exact nomatch h
  | ok input =>
  rw [hin] at h
  obtain ⟨l, hl, hlen, hget⟩ := leadTimes_spec interval maxLead hi
  simp only [hl] at h
  obtain ⟨ho1, ho2⟩ := mapM_index _ _ _ h
  refine ⟨fun k => by rw [ho1, hlen], fun k f hk => ?_⟩
  obtain ⟨m, hm, hf⟩ := ho2 k f hk
  have hmk := hget k m hm
  subst hmk
  unfold extrapolate at hf
  simp only [bind, Except.bind, pure, Except.pure] at hf
  cases ha : advectProcess vel input (60 * ((k : ℤ) * interval)) with
  | error e => rw [ha] at hf; exact nomatch hf
  | ok g =>
  rw [ha] at hf
  obtain ⟨t, dx, dy, ht, _, _, g1, g2, g3, g4, g5, g6⟩ := C91_process vel input _ g ha
  unfold extrapolationInput at hin
  cases oe with
  | none =>
    simp only at hin hf
    by_cases hp : isPrecip
    · rw [if_pos hp] at hin; exact nomatch hin
    · rw [if_neg hp] at hin
      injection hin with hin; subst hin
      injection hf with hf; subst hf
      exact ⟨t, ht, g2, g3, g1, dx, dy, g4, g5, g6⟩
  | some o =>
    simp only at hin hf
    cases hct : cube.time with
    | none => rw [hct] at hin; exact nomatch hin
    | some t0 =>
      rw [hct] at hin
      simp only [bind, Except.bind, pure, Except.pure] at hin
      cases hd : oeField "subtract" thr o t0 cube.data with
      | error e => rw [hd] at hin; exact nomatch hin
      | ok d =>
        rw [hd] at hin
        injection hin with hin
        subst hin
        simp only at ht g4 g5 g6
        have htt : t0 = t := by injection ht
        subst htt
        cases hd1 : oeField "add" thr o g.time g.data with
        | error e => rw [hd1] at hf; exact nomatch hf
        | ok d1 =>
          rw [hd1] at hf
          injection hf with hf
          subst hf
          obtain ⟨s0, hs0, hv0⟩ := oeField_spec "subtract" thr o t0 _ _ (.inr rfl) hd
          obtain ⟨s1, hs1, hv1⟩ := oeField_spec "add" thr o g.time _ _ (.inl rfl) hd1
          refine ⟨t0, rfl, g2, g3, g1, dx, dy, g4, g5, s0, s1, hs0, g1 ▸ hs1, fun y x => ?_⟩
          have hd' : d = fun j i => (cube.data j i).map (Spec.oeSub thr (s0.2 j i)) := by
            funext j i
            rw [hv0 j i, if_neg (by decide)]
          simp only [hv1 y x, if_pos, g6 y x, hd']

/-- C94.  A precipitation field without orographic enhancement is refused. -/
theorem C94_needs_enhancement (thr : ℚ) (vel : Velocities) (cube : NowCube) (interval maxLead : ℤ) :
    extrapolationForecast thr none true vel cube interval maxLead = .error .valueError := by
  unfold extrapolationForecast extrapolationInput
  simp [bind, Except.bind]

/-- C94.  At lead time 0 the forecast of a field without enhancement is the field itself. -/
theorem C94_start (thr : ℚ) (vel : Velocities) (cube : NowCube) (t : ℤ) (f : NowForecast)
    (h : Spec.isForecast thr none vel cube t 0 f) (y x : ℕ) : f.data y x = cube.data y x ∧ f.time = t := by
  obtain ⟨_, _, h3, dx, dy, _, _, h6⟩ := h
  refine ⟨?_, by omega⟩
  rw [h6 y x, mul_zero, C91_no_time]

/-- A reader for concrete cases: lead time and the value at one point. -/
def readForecasts (y x : ℕ) (r : Except Err (List NowForecast)) : Option (List (ℤ × ℤ × Option ℚ)) :=
  match r with
  | .ok l => some (l.map (fun f => (f.time, f.period, f.data y x)))
  | .error _ => none

example : readForecasts 0 1 (extrapolationForecast (1 / 32) (some [(0, fun _ _ => 1 / 2), (900, fun _ _ => 1)]) true
    ⟨[0, 1000, 2000], [0, 1000], fun _ _ => 1, fun _ _ => 0⟩ ⟨[0, 1000, 2000], [0, 1000], "rainfall_rate", some 0, fun _ i => some (i + 1)⟩ 5 14) =
    some [(0, 0, some 2), (300, 300, some (17 / 10)), (600, 600, some (19 / 10))] := by decide +kernel

end Improver
