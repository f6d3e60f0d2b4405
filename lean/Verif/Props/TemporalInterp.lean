import Verif.Model.TemporalInterp
import Mathlib.Tactic.Linarith
import Mathlib.Tactic.Ring
import Mathlib.Tactic.FieldSimp
import Mathlib.Tactic.Positivity
import Mathlib.Algebra.Order.Field.Basic
import Mathlib.Algebra.Order.BigOperators.Group.List

/-! C55-C58: temporal interpolation. -/

namespace Improver

theorem mem_sortedSet (l : List ℤ) (t : ℤ) : t ∈ sortedSet l ↔ t ∈ l := by
  unfold sortedSet
  rw [(List.perm_insertionSort _ _).mem_iff, List.mem_dedup]

theorem sortedSet_sorted (l : List ℤ) : (sortedSet l).Pairwise (· < ·) := by
  unfold sortedSet
  have h1 := List.pairwise_insertionSort (· ≤ ·) l.dedup
  have h2 : (l.dedup.insertionSort (· ≤ ·)).Nodup := (List.perm_insertionSort _ _).nodup_iff.2 (List.nodup_dedup l)
  exact (h1.and h2).imp (fun h => lt_of_le_of_ne h.1 h.2)

/-- Two strictly ascending lists with the same members are equal. -/
theorem ascending_ext (l l' : List ℤ) (h : l.Pairwise (· < ·)) (h' : l'.Pairwise (· < ·)) (hm : ∀ t, t ∈ l ↔ t ∈ l') : l = l' := by
  have hn : l.Nodup := h.imp (fun h => ne_of_lt h)
  have hn' : l'.Nodup := h'.imp (fun h => ne_of_lt h)
  have hp : l.Perm l' := (List.perm_ext_iff_of_nodup hn hn').2 hm
  exact List.Perm.eq_of_pairwise (le := (· < ·)) (fun a b _ _ h1 h2 => absurd h1 (not_lt.2 (le_of_lt h2))) h h' hp

theorem mem_tiLoop (step final : ℤ) (hs : 0 < step) (n : ℕ) (t : ℤ) (hn : (final - t).toNat ≤ n) (x : ℤ) :
    x ∈ tiLoop step final n t ↔ ∃ k : ℕ, x = t + (k + 1) * step ∧ x < final := by
  induction n generalizing t with
  | zero =>
    simp only [tiLoop, List.not_mem_nil, false_iff, not_exists, not_and]
    intro k hk hlt
    have : 0 ≤ (k : ℤ) * step := by positivity
    have h0 : (final - t).toNat = 0 := by omega
    nlinarith [Int.toNat_eq_zero.1 h0]
  | succ n ih =>
    unfold tiLoop
    by_cases h : t + step ≥ final
    · rw [if_pos h]
      simp only [List.not_mem_nil, false_iff, not_exists, not_and]
      intro k hk hlt
      have : 0 ≤ (k : ℤ) * step := by positivity
      nlinarith
    · rw [if_neg h, List.mem_cons, ih (t + step) (by omega)]
      constructor
      · rintro (rfl | ⟨k, hk, hlt⟩)
        · exact ⟨0, by simp, by omega⟩
        · exact ⟨k + 1, by rw [hk]; push_cast; ring, hlt⟩
      · rintro ⟨k, hk, hlt⟩
        cases k with
        | zero => left; simpa using hk
        | succ k => right; exact ⟨k, by rw [hk]; push_cast; ring, hlt⟩

/-- **C55** (shape): whatever the plugin is asked for, the times produced are strictly ascending, lie between the two inputs' times and
end with the final time. -/
theorem C55_shape (s s' : TIState) (initial final : ℤ) (hle : initial ≤ final) (ts : List ℤ)
    (h : tiTimeList s initial final = .ok (ts, s')) :
    ts.Pairwise (· < ·) ∧ (∀ t ∈ ts, initial ≤ t ∧ t ≤ final) ∧ ts.getLast? = some final := by
  have key : ∀ l : List ℤ, (∀ t ∈ l, initial ≤ t ∧ t ≤ final) → ts = sortedSet (l ++ [final]) →
      ts.Pairwise (· < ·) ∧ (∀ t ∈ ts, initial ≤ t ∧ t ≤ final) ∧ ts.getLast? = some final := by
    intro l hl hts
    subst hts
    have hsrt := sortedSet_sorted (l ++ [final])
    have hmem : ∀ t, t ∈ sortedSet (l ++ [final]) ↔ t ∈ l ∨ t = final := by
      intro t; rw [mem_sortedSet]; simp
    refine ⟨hsrt, ?_, ?_⟩
    · intro t ht
      rcases (hmem t).1 ht with h | rfl
      · exact hl t h
      · exact ⟨hle, le_refl _⟩
    · have hf : final ∈ sortedSet (l ++ [final]) := (hmem final).2 (Or.inr rfl)
      have hne : sortedSet (l ++ [final]) ≠ [] := List.ne_nil_of_mem hf
      rw [List.getLast?_eq_some_getLast hne]
      have hle2 : (sortedSet (l ++ [final])).getLast hne ≤ final := by
        rcases (hmem _).1 (List.getLast_mem hne) with h | h
        · exact (hl _ h).2
        · rw [h]
      rcases lt_or_eq_of_le hle2 with hlt | heq
      · exfalso
        rw [← List.dropLast_append_getLast hne] at hsrt hf
        rw [List.pairwise_append] at hsrt
        rcases List.mem_append.1 hf with h | h
        · have := hsrt.2.2 final h _ (List.mem_singleton.2 rfl)
          omega
        · rw [List.mem_singleton] at h; omega
      · rw [heq]
  unfold tiTimeList at h
  cases htimes : s.times with
  | some times =>
    simp only [htimes] at h
    cases hh : (times.insertionSort (· ≤ ·)).head? with
    | none => simp only [hh] at h; cases h
    | some a =>
      cases hl : (times.insertionSort (· ≤ ·)).getLast? with
      | none => simp only [hh, hl] at h; cases h
      | some b =>
        simp only [hh, hl] at h
        by_cases hb : a < initial ∨ b > final
        · rw [if_pos hb] at h; cases h
        · rw [if_neg hb] at h
          cases h
          push Not at hb
          refine key _ ?_ rfl
          have hsrt := List.pairwise_insertionSort (· ≤ ·) times
          generalize times.insertionSort (· ≤ ·) = l at *
          intro t ht
          have hne : l ≠ [] := List.ne_nil_of_mem ht
          constructor
          · cases l with
            | nil => exact absurd rfl hne
            | cons c l =>
              simp only [List.head?_cons, Option.some.injEq] at hh
              subst hh
              rcases List.mem_cons.1 ht with rfl | ht
              · exact hb.1
              · exact le_trans hb.1 ((List.pairwise_cons.1 hsrt).1 t ht)
          · rw [List.getLast?_eq_some_getLast hne, Option.some.injEq] at hl
            rw [← List.dropLast_append_getLast hne] at hsrt ht
            rw [List.pairwise_append] at hsrt
            rcases List.mem_append.1 ht with h | h
            · have := hsrt.2.2 t h _ (List.mem_singleton.2 rfl)
              omega
            · rw [List.mem_singleton] at h; omega
  | none =>
    cases hi : s.interval with
    | none =>
      simp only [htimes, hi] at h
      cases h
      exact ⟨List.pairwise_singleton _ _, by simpa using hle, rfl⟩
    | some i =>
      simp only [htimes, hi] at h
      by_cases h1 : i = 0
      · rw [if_pos h1] at h; cases h
      rw [if_neg h1] at h
      by_cases h2 : i < 0
      · rw [if_pos h2] at h; cases h
      rw [if_neg h2] at h
      by_cases h3 : (final - initial) % 86400 % (60 * i) ≠ 0
      · rw [if_pos h3] at h; cases h
      rw [if_neg h3] at h
      cases h
      refine key _ ?_ rfl
      intro t ht
      rw [mem_tiLoop _ _ (by omega) _ _ (le_refl _)] at ht
      obtain ⟨k, hk, hlt⟩ := ht
      have hi0 : 0 < i := by omega
      have : 0 ≤ (k : ℤ) * (60 * i) := by positivity
      constructor <;> nlinarith

/-- **C55** (given times): with a non-empty list of times, all within the interval, the result consists of these times and the final
time; a time outside the interval is refused. -/
theorem C55_times (times : List ℤ) (hne : times ≠ []) (initial final : ℤ) :
    ((∀ t ∈ times, initial ≤ t ∧ t ≤ final) →
      ∃ ts s', tiTimeList ⟨none, some times⟩ initial final = .ok (ts, s') ∧ ∀ t, t ∈ ts ↔ t ∈ times ∨ t = final) ∧
    ((∃ t ∈ times, t < initial ∨ final < t) → tiTimeList ⟨none, some times⟩ initial final = .error .valueError) := by
  have hp := List.perm_insertionSort (· ≤ ·) times
  have hsrt := List.pairwise_insertionSort (· ≤ ·) times
  unfold tiTimeList
  simp only
  generalize times.insertionSort (· ≤ ·) = l at *
  have hl : l ≠ [] := fun h => hne (by rw [h] at hp; exact hp.symm.eq_nil)
  obtain ⟨a, l', rfl⟩ : ∃ a l', l = a :: l' := by
    cases l with
    | nil => exact absurd rfl hl
    | cons a l' => exact ⟨a, l', rfl⟩
  simp only [List.head?_cons]
  rw [List.getLast?_eq_some_getLast hl]
  simp only
  have hlast : ∀ t ∈ a :: l', t ≤ (a :: l').getLast hl := by
    intro t ht
    rw [← List.dropLast_append_getLast hl] at hsrt ht
    rw [List.pairwise_append] at hsrt
    rcases List.mem_append.1 ht with h | h
    · exact hsrt.2.2 t h _ (List.mem_singleton.2 rfl)
    · rw [List.mem_singleton] at h; omega
  have hfirst : ∀ t ∈ a :: l', a ≤ t := by
    intro t ht
    rcases List.mem_cons.1 ht with rfl | ht
    · exact le_refl _
    · exact (List.pairwise_cons.1 hsrt).1 t ht
  constructor
  · intro h
    rw [if_neg]
    · refine ⟨_, _, rfl, ?_⟩
      intro t
      rw [mem_sortedSet, List.mem_append, hp.mem_iff, List.mem_singleton]
    · push Not
      exact ⟨(h a (hp.mem_iff.1 (by simp))).1, (h _ (hp.mem_iff.1 (List.getLast_mem hl))).2⟩
  · rintro ⟨t, ht, h⟩
    rw [if_pos]
    have h1 := hfirst t (hp.mem_iff.2 ht)
    have h2 := hlast t (hp.mem_iff.2 ht)
    omega

/-- **C55** (interval): an interval of `i` minutes that divides the time between the inputs into `n` parts gives exactly the `n` end
points of these parts. -/
theorem C55_interval (i : ℤ) (hi : 0 < i) (initial : ℤ) (n : ℕ) (hn : 1 ≤ n) :
    tiTimeList ⟨some i, none⟩ initial (initial + n * (60 * i)) =
      .ok ((List.range n).map (fun k : ℕ => initial + (k + 1) * (60 * i)), ⟨some i, none⟩) ∨ 86400 ≤ n * (60 * i) := by
  by_cases hday : 86400 ≤ n * (60 * i)
  · exact Or.inr hday
  left
  unfold tiTimeList
  simp only
  have hpos : 0 < (n : ℤ) * (60 * i) := by positivity
  have e : initial + n * (60 * i) - initial = n * (60 * i) := by ring
  rw [e, if_neg (by omega), if_neg (by omega), if_neg]
  · congr 2
    apply ascending_ext
    · exact sortedSet_sorted _
    · rw [List.pairwise_map]
      apply List.pairwise_lt_range.imp
      intro a b hab
      have : (a : ℤ) + 1 ≤ b := by exact_mod_cast hab
      nlinarith
    · intro t
      rw [mem_sortedSet, List.mem_append, mem_tiLoop _ _ (by omega) _ _ (by rw [e]), List.mem_singleton, List.mem_map]
      constructor
      · rintro (⟨k, hk, hlt⟩ | h)
        · refine ⟨k, List.mem_range.2 ?_, hk.symm⟩
          rw [hk] at hlt
          have : ((k : ℤ) + 1) * (60 * i) < n * (60 * i) := by linarith
          have := lt_of_mul_lt_mul_right this (by omega)
          omega
        · exact ⟨n - 1, List.mem_range.2 (by omega), by rw [h]; push_cast [Nat.cast_sub hn]; ring⟩
      · rintro ⟨k, hk, rfl⟩
        have hk := List.mem_range.1 hk
        by_cases hkn : k + 1 = n
        · right; rw [← hkn]; push_cast; ring
        · left
          refine ⟨k, rfl, ?_⟩
          have : (k : ℤ) + 1 < n := by omega
          nlinarith
  · rw [not_not, Int.emod_eq_of_lt (a := n * (60 * i)) (b := 86400) (by omega) (by omega)]
    exact Int.emod_eq_zero_of_dvd (dvd_mul_left _ _)

/-- **C55** (refusal): for inputs less than a day apart, an interval that does not divide the time between them is refused. -/
theorem C55_indivisible (i : ℤ) (hi : 0 < i) (initial final : ℤ) (hle : initial ≤ final) (hday : final - initial < 86400)
    (h : ¬ 60 * i ∣ final - initial) : tiTimeList ⟨some i, none⟩ initial final = .error .valueError := by
  unfold tiTimeList
  simp only
  rw [if_neg (by omega), if_neg (by omega), if_pos]
  rw [Int.emod_eq_of_lt (by omega) hday]
  exact fun h' => h (Int.dvd_of_emod_eq_zero h')

/-- **C55** (finding): for inputs a day or more apart the check is made on the remainder modulo one day: an interval that does not
divide 24 hours is accepted, and the last period is shorter than the others. -/
theorem C55_day_refuted : ∃ ts s', ¬ (60 * 420 : ℤ) ∣ 86400 - 0 ∧ tiTimeList ⟨some 420, none⟩ 0 86400 = .ok (ts, s') ∧
    ts = [25200, 50400, 75600, 86400] := by
  refine ⟨_, _, by decide, rfl, by decide +kernel⟩

/-- **C55** (finding): the list of times given to the plugin collects the final times of all calls, so that the same call can fail on
a used plugin and succeed on a fresh one. -/
theorem C55_reuse_refuted (a b c d : ℤ) (h1 : a ≤ b) (h2 : b ≤ c) (h3 : c < d) : ∃ ts s' ts2 s2,
    tiTimeList ⟨none, some [b]⟩ a d = .ok (ts, s') ∧ tiTimeList s' a c = .error .valueError ∧
    tiTimeList ⟨none, some [b]⟩ a c = .ok (ts2, s2) := by
  have e : ∀ x, tiTimeList ⟨none, some [b]⟩ a x = if b < a ∨ b > x then .error .valueError else .ok (sortedSet [b, x], ⟨none, some [b, x]⟩) := by
    intro x; rfl
  refine ⟨sortedSet [b, d], ⟨none, some [b, d]⟩, sortedSet [b, c], ⟨none, some [b, c]⟩, ?_, ?_, ?_⟩
  · rw [e, if_neg (by omega)]
  · have : ([b, d] : List ℤ).insertionSort (· ≤ ·) = [b, d] := by
      simp only [List.insertionSort, List.foldr, List.orderedInsert]
      rw [if_pos (by omega)]
    unfold tiTimeList
    simp only [this, List.head?_cons]
    have hl : ([b, d] : List ℤ).getLast? = some d := rfl
    simp only [hl]
    rw [if_pos (by omega)]
  · rw [e, if_neg (by omega)]

theorem tiLinear_left (t0 t1 : ℤ) (v0 v1 : ℚ) : tiLinear t0 t1 v0 v1 t0 = v0 := by
  simp [tiLinear]

theorem tiLinear_right (t0 t1 : ℤ) (h : t0 < t1) (v0 v1 : ℚ) : tiLinear t0 t1 v0 v1 t1 = v1 := by
  unfold tiLinear
  have : ((t1 - t0 : ℤ) : ℚ) ≠ 0 := by exact_mod_cast (by omega : t1 - t0 ≠ 0)
  rw [div_self this]; ring

theorem tiLinear_between (t0 t1 t : ℤ) (h : t0 < t1) (h0 : t0 ≤ t) (h1 : t ≤ t1) (v0 v1 : ℚ) :
    min v0 v1 ≤ tiLinear t0 t1 v0 v1 t ∧ tiLinear t0 t1 v0 v1 t ≤ max v0 v1 := by
  unfold tiLinear
  have hpos : (0 : ℚ) < ((t1 - t0 : ℤ) : ℚ) := by exact_mod_cast (by omega : 0 < t1 - t0)
  have hf0 : 0 ≤ ((t - t0 : ℤ) : ℚ) / ((t1 - t0 : ℤ) : ℚ) := by
    apply div_nonneg _ hpos.le
    exact_mod_cast (by omega : 0 ≤ t - t0)
  have hf1 : ((t - t0 : ℤ) : ℚ) / ((t1 - t0 : ℤ) : ℚ) ≤ 1 := by
    rw [div_le_one hpos]
    exact_mod_cast (by omega : t - t0 ≤ t1 - t0)
  generalize ((t - t0 : ℤ) : ℚ) / ((t1 - t0 : ℤ) : ℚ) = f at *
  rcases le_total v0 v1 with h | h
  · rw [min_eq_left h, max_eq_right h]
    constructor <;> nlinarith
  · rw [min_eq_right h, max_eq_left h]
    constructor <;> nlinarith

/-- Specification: `r` is the value at time `t` of the straight line through `(t0, v0)` and `(t1, v1)`. -/
def Spec.OnLine (t0 t1 : ℤ) (v0 v1 : ℚ) (t : ℤ) (r : ℚ) : Prop := (r - v0) * (t1 - t0) = (v1 - v0) * (t - t0)

theorem tiLinear_onLine (t0 t1 : ℤ) (h : t0 < t1) (v0 v1 : ℚ) (t : ℤ) : Spec.OnLine t0 t1 v0 v1 t (tiLinear t0 t1 v0 v1 t) := by
  unfold Spec.OnLine tiLinear
  have : ((t1 : ℚ) - t0) ≠ 0 := by
    have : (t0 : ℚ) < t1 := by exact_mod_cast h
    linarith
  push_cast
  field_simp
  ring

theorem tiTimeList_ne_nil (s s' : TIState) (a b : ℤ) (hle : a ≤ b) (ts : List ℤ) (h : tiTimeList s a b = .ok (ts, s')) : ts ≠ [] := by
  have := (C55_shape s s' a b hle ts h).2.2
  intro h; subst h; simp at this

theorem tiTimeList_eq_singleton (s s' : TIState) (a : ℤ) (ts : List ℤ) (h : tiTimeList s a a = .ok (ts, s')) : ts = [a] := by
  have := C55_shape s s' a a (le_refl _) ts h
  apply ascending_ext _ _ this.1 (List.pairwise_singleton _ _)
  intro t
  constructor
  · intro ht
    have := this.2.1 t ht
    rw [List.mem_singleton]; omega
  · intro ht
    rw [List.mem_singleton] at ht
    subst ht
    exact List.mem_of_getLast? this.2.2

/-- **C56** (linear interpolation): instantaneous diagnostics get one output for each time of the time list, on the straight line
between the two inputs, hence between the two input values; the last output has the value of the second input. -/
theorem C56_instant (s : TIState) (t0 t1 : ℤ) (hle : t0 ≤ t1) (v0 v1 : ℚ) (ts : List ℤ) (s' : TIState)
    (hts : tiTimeList s t0 t1 = .ok (ts, s')) :
    ∃ outs c0 c1, tiProcess s .instant ⟨t0, none, v0⟩ ⟨t1, none, v1⟩ = .ok (outs, s', c0, c1) ∧
      List.Forall₂ (fun t o => o.time = t ∧ o.bounds = none ∧ ∃ r, o.value = some r ∧ Spec.OnLine t0 t1 v0 v1 t r ∧
        (t0 < t1 → min v0 v1 ≤ r ∧ r ≤ max v0 v1) ∧ (t = t1 → r = v1)) ts outs ∧
      c0 = ⟨t0, none, v0⟩ ∧ c1 = ⟨t1, none, v1⟩ := by
  have hsh := C55_shape s s' t0 t1 hle ts hts
  unfold tiProcess
  simp only [hts]
  rw [if_neg (by omega), if_neg (by simp), if_neg (by simp), if_neg (by simp), if_neg (by simp)]
  by_cases h1 : ts = [t1]
  · rw [if_pos h1]
    refine ⟨_, _, _, rfl, ?_, rfl, rfl⟩
    subst h1
    refine List.Forall₂.cons ⟨rfl, rfl, v1, rfl, ?_, ?_, fun _ => rfl⟩ List.Forall₂.nil
    · unfold Spec.OnLine; ring
    · intro _; exact ⟨min_le_right _ _, le_max_right _ _⟩
  · rw [if_neg h1]
    have hlt : t0 < t1 := by
      rcases lt_or_eq_of_le hle with h | h
      · exact h
      · subst h; exact absurd (tiTimeList_eq_singleton s s' t0 ts hts) h1
    refine ⟨_, _, _, rfl, ?_, rfl, rfl⟩
    rw [if_pos trivial]
    unfold tiValues
    simp only
    have hin := hsh.2.1
    clear hsh hts h1
    induction ts with
    | nil => exact List.Forall₂.nil
    | cons t ts ih =>
      simp only [List.map_cons, List.zip_cons_cons, List.zipWith_cons_cons]
      refine List.Forall₂.cons ⟨rfl, rfl, _, rfl, tiLinear_onLine t0 t1 hlt v0 v1 t, ?_, ?_⟩ (ih (fun t ht => hin t (by simp [ht])))
      · intro _
        have := hin t (by simp)
        exact tiLinear_between t0 t1 t hlt this.1 this.2 v0 v1
      · intro h; subst h; exact tiLinear_right t0 t hlt v0 v1

theorem forall2_zipWith_bounds {ts : List ℤ} {bs : List (Option (ℤ × ℤ))} {vs : List (Option ℚ)} (hb : bs.length = ts.length)
    (hv : vs.length = ts.length) :
    (List.zipWith (fun (tb : ℤ × Option (ℤ × ℤ)) v => (⟨tb.1, tb.2, v⟩ : TIOut)) (ts.zip bs) vs).map TIOut.time = ts ∧
    (List.zipWith (fun (tb : ℤ × Option (ℤ × ℤ)) v => (⟨tb.1, tb.2, v⟩ : TIOut)) (ts.zip bs) vs).map TIOut.bounds = bs ∧
    (List.zipWith (fun (tb : ℤ × Option (ℤ × ℤ)) v => (⟨tb.1, tb.2, v⟩ : TIOut)) (ts.zip bs) vs).map TIOut.value = vs := by
  induction ts generalizing bs vs with
  | nil =>
    rw [List.length_nil, List.length_eq_zero_iff] at hb hv
    subst hb; subst hv
    exact ⟨rfl, rfl, rfl⟩
  | cons t ts ih =>
    match bs, vs, hb, hv with
    | b :: bs, v :: vs, hb, hv =>
      have := ih (bs := bs) (vs := vs) (by simpa using hb) (by simpa using hv)
      simp only [List.zip_cons_cons, List.zipWith_cons_cons, List.map_cons, this.1, this.2.1, this.2.2, and_self]

theorem tiBounds_length (t0 : ℤ) (ts : List ℤ) : (tiBounds t0 ts).length = ts.length := by
  simp [tiBounds]

/-- Specification: consecutive periods that begin at `t0` and end at the times listed. -/
def Spec.Periods : ℤ → List ℤ → List (Option (ℤ × ℤ)) → Prop
  | _, [], bs => bs = []
  | t0, t :: ts, bs => ∃ rest, bs = some (t0, t) :: rest ∧ Spec.Periods t ts rest

theorem periods_tiBounds (t0 : ℤ) (ts : List ℤ) : Spec.Periods t0 ts ((tiBounds t0 ts).map some) := by
  induction ts generalizing t0 with
  | nil => rfl
  | cons t ts ih => exact ⟨_, rfl, ih t⟩

theorem periods_eq (t0 : ℤ) (ts : List ℤ) (bs : List (Option (ℤ × ℤ))) (h : Spec.Periods t0 ts bs) : bs = (tiBounds t0 ts).map some := by
  induction ts generalizing t0 bs with
  | nil => exact h
  | cons t ts ih =>
    obtain ⟨rest, rfl, h⟩ := h
    rw [ih t rest h]
    rfl

theorem tiAmounts_const (t0 : ℤ) (r : ℚ) (ts : List ℤ) :
    tiAmounts t0 r ts (ts.map (fun _ => r)) = (tiBounds t0 ts).map (fun p => r * (p.2 - p.1)) := by
  induction ts generalizing t0 with
  | nil => rfl
  | cons t ts ih =>
    have e : tiAmounts t0 r (t :: ts) ((t :: ts).map (fun _ => r)) = ((t - t0 : ℤ) : ℚ) * ((r + r) / 2) :: tiAmounts t r ts (ts.map (fun _ => r)) := rfl
    have e2 : tiBounds t0 (t :: ts) = (t0, t) :: tiBounds t ts := rfl
    rw [e, e2, ih, List.map_cons]
    congr 1
    push_cast
    ring

/-- The shape of the outputs of period diagnostics. -/
theorem tiProcess_period (s : TIState) (kind : TIKind) (hk : kind ≠ .instant) (t0 t1 a0 b0 : ℤ) (hle : t0 ≤ t1) (v0 v1 : ℚ)
    (ts : List ℤ) (s' : TIState) (hts : tiTimeList s t0 t1 = .ok (ts, s')) :
    ∃ outs, tiProcess s kind ⟨t0, some (a0, b0), v0⟩ ⟨t1, some (t0, t1), v1⟩
        = .ok (outs, s', if ts = [t1] then ⟨t0, some (a0, b0), v0⟩ else tiInputAfter kind ⟨t0, some (a0, b0), v0⟩,
          if ts = [t1] then ⟨t1, some (t0, t1), v1⟩ else tiInputAfter kind ⟨t1, some (t0, t1), v1⟩) ∧
      outs.map TIOut.time = ts ∧ Spec.Periods t0 ts (outs.map TIOut.bounds) ∧
      (ts = [t1] → outs = [⟨t1, some (t0, t1), some v1⟩]) ∧
      (ts ≠ [t1] → t0 < t1 ∧ outs.map TIOut.value = tiValues kind ⟨t0, some (a0, b0), v0⟩ ⟨t1, some (t0, t1), v1⟩ ts) := by
  unfold tiProcess
  simp only [hts]
  rw [if_neg (by omega), if_neg (by simp), if_neg (by simp [hk]), if_neg (by simp), if_neg (by simp)]
  by_cases h1 : ts = [t1]
  · rw [if_pos h1, if_pos h1, if_pos h1]
    refine ⟨_, rfl, ?_, ?_, ?_, ?_⟩
    · rw [h1]; rfl
    · rw [h1]; exact ⟨[], rfl, rfl⟩
    · intro _; rfl
    · intro h; exact absurd h1 h
  · rw [if_neg h1, if_neg h1, if_neg h1, if_neg hk]
    refine ⟨_, rfl, ?_⟩
    have hv : (tiValues kind ⟨t0, some (a0, b0), v0⟩ ⟨t1, some (t0, t1), v1⟩ ts).length = ts.length := by
      cases kind with
      | instant => simp [tiValues]
      | max => simp [tiValues]
      | min => simp [tiValues]
      | accumulation =>
        unfold tiValues
        simp only
        split
        · simp [tiRenorm, tiAmounts, tiBounds]
        · simp
    have := forall2_zipWith_bounds (ts := ts) (bs := (tiBounds t0 ts).map some) (by rw [List.length_map, tiBounds_length]) hv
    refine ⟨this.1, ?_, fun h => absurd h h1, fun _ => ⟨?_, this.2.2⟩⟩
    · rw [this.2.1]; exact periods_tiBounds t0 ts
    · rcases lt_or_eq_of_le hle with h | h
      · exact h
      · subst h; exact absurd (tiTimeList_eq_singleton s s' t0 ts hts) h1

/-- **C56** (period maxima and minima): the outputs cover consecutive periods from the first input's time to the second's; a maximum
never exceeds the maximum over the whole period, and is the interpolated value if that does not exceed it; the last period has it.
Likewise for minima. -/
theorem C56_extremes (s : TIState) (t0 t1 a0 b0 : ℤ) (hle : t0 ≤ t1) (v0 v1 : ℚ) (ts : List ℤ) (s' : TIState)
    (hts : tiTimeList s t0 t1 = .ok (ts, s')) :
    (∃ outs c0 c1, tiProcess s .max ⟨t0, some (a0, b0), v0⟩ ⟨t1, some (t0, t1), v1⟩ = .ok (outs, s', c0, c1) ∧
      outs.map TIOut.time = ts ∧ Spec.Periods t0 ts (outs.map TIOut.bounds) ∧
      (∀ o ∈ outs, ∃ r x, o.value = some r ∧ r ≤ v1 ∧ Spec.OnLine t0 t1 v0 v1 o.time x ∧ (r = x ∨ (x > v1 ∧ r = v1)) ∧
        (o.time = t1 → r = v1))) ∧
    (∃ outs c0 c1, tiProcess s .min ⟨t0, some (a0, b0), v0⟩ ⟨t1, some (t0, t1), v1⟩ = .ok (outs, s', c0, c1) ∧
      outs.map TIOut.time = ts ∧ Spec.Periods t0 ts (outs.map TIOut.bounds) ∧
      (∀ o ∈ outs, ∃ r x, o.value = some r ∧ v1 ≤ r ∧ Spec.OnLine t0 t1 v0 v1 o.time x ∧ (r = x ∨ (x < v1 ∧ r = v1)) ∧
        (o.time = t1 → r = v1))) := by
  have hpair : ∀ (outs : List TIOut) (f : ℤ → ℚ), outs.map TIOut.time = ts → outs.map TIOut.value = ts.map (fun t => some (f t)) →
      ∀ o ∈ outs, o.value = some (f o.time) := by
    intro outs f h1 h2 o ho
    subst h1
    rw [List.map_map] at h2
    exact List.map_inj_left.1 h2 o ho
  constructor
  · obtain ⟨outs, h, h1, h2, h3, h4⟩ := tiProcess_period s .max (by decide) t0 t1 a0 b0 hle v0 v1 ts s' hts
    refine ⟨outs, _, _, h, h1, h2, ?_⟩
    intro o ho
    by_cases hs : ts = [t1]
    · rw [h3 hs, List.mem_singleton] at ho
      subst ho
      refine ⟨v1, v1, rfl, le_refl _, ?_, Or.inl rfl, fun _ => rfl⟩
      unfold Spec.OnLine; ring
    · have hv := hpair outs _ h1 (h4 hs).2 o ho
      have hlt := (h4 hs).1
      simp only at hv
      refine ⟨_, tiLinear t0 t1 v0 v1 o.time, hv, min_le_left _ _, tiLinear_onLine t0 t1 hlt v0 v1 _, ?_, ?_⟩
      · rcases le_or_gt (tiLinear t0 t1 v0 v1 o.time) v1 with h | h
        · left; exact min_eq_right h
        · right; exact ⟨h, min_eq_left h.le⟩
      · intro h; rw [h, tiLinear_right t0 t1 hlt]; exact min_self _
  · obtain ⟨outs, h, h1, h2, h3, h4⟩ := tiProcess_period s .min (by decide) t0 t1 a0 b0 hle v0 v1 ts s' hts
    refine ⟨outs, _, _, h, h1, h2, ?_⟩
    intro o ho
    by_cases hs : ts = [t1]
    · rw [h3 hs, List.mem_singleton] at ho
      subst ho
      refine ⟨v1, v1, rfl, le_refl _, ?_, Or.inl rfl, fun _ => rfl⟩
      unfold Spec.OnLine; ring
    · have hv := hpair outs _ h1 (h4 hs).2 o ho
      have hlt := (h4 hs).1
      simp only at hv
      refine ⟨_, tiLinear t0 t1 v0 v1 o.time, hv, le_max_left _ _, tiLinear_onLine t0 t1 hlt v0 v1 _, ?_, ?_⟩
      · rcases le_or_gt v1 (tiLinear t0 t1 v0 v1 o.time) with h | h
        · left; exact max_eq_right h
        · right; exact ⟨h, max_eq_left h.le⟩
      · intro h; rw [h, tiLinear_right t0 t1 hlt]; exact max_self _

/-- Amounts are non-negative, and positive in total when the last rate is positive. -/
theorem tiAmounts_nonneg (t0 : ℤ) (r0 : ℚ) (hr0 : 0 ≤ r0) (ts : List ℤ) (f : ℤ → ℚ) (hchain : (t0 :: ts).Pairwise (· ≤ ·))
    (hf : ∀ t ∈ ts, 0 ≤ f t) : ∀ a ∈ tiAmounts t0 r0 ts (ts.map f), 0 ≤ a := by
  induction ts generalizing t0 r0 with
  | nil => simp [tiAmounts, tiBounds]
  | cons t ts ih =>
    intro a ha
    have e : tiAmounts t0 r0 (t :: ts) ((t :: ts).map f) = ((t - t0 : ℤ) : ℚ) * ((r0 + f t) / 2) :: tiAmounts t (f t) ts (ts.map f) := rfl
    rw [e, List.mem_cons] at ha
    have hc := List.pairwise_cons.1 hchain
    rcases ha with rfl | ha
    · have h1 : (0 : ℚ) ≤ ((t - t0 : ℤ) : ℚ) := by
        have := hc.1 t (by simp)
        exact_mod_cast (by omega : 0 ≤ t - t0)
      have h2 := hf t (by simp)
      positivity
    · exact ih t (f t) (hf t (by simp)) hc.2 (fun x hx => hf x (by simp [hx])) a ha

/-- The sum of the amounts by the trapezoid rule on a straight line telescopes to the area under the line. -/
theorem tiAmounts_sum (t0 : ℤ) (c m : ℚ) (ts : List ℤ) (f : ℤ → ℚ) (hf : ∀ t, f t = c + m * t) :
    (tiAmounts t0 (f t0) ts (ts.map f)).sum =
      (((t0 :: ts).getLast (by simp) : ℤ) - t0 : ℚ) * (f t0 + f ((t0 :: ts).getLast (by simp))) / 2 := by
  induction ts generalizing t0 with
  | nil => simp [tiAmounts, tiBounds]
  | cons t ts ih =>
    have e : tiAmounts t0 (f t0) (t :: ts) ((t :: ts).map f) = ((t - t0 : ℤ) : ℚ) * ((f t0 + f t) / 2) :: tiAmounts t (f t) ts (ts.map f) := rfl
    rw [e, List.sum_cons, ih t, List.getLast_cons (by simp : t :: ts ≠ [])]
    generalize (t :: ts).getLast (by simp) = z
    rw [hf t0, hf t, hf z]
    push_cast
    ring

theorem tiRenorm_sum (ref : ℚ) (amounts : List ℚ) (h : amounts.sum ≠ 0) :
    tiRenorm ref amounts = amounts.map (fun a => some (a * (ref / amounts.sum))) ∧ (amounts.map (fun a => a * (ref / amounts.sum))).sum = ref := by
  constructor
  · unfold tiRenorm divFinite
    rw [if_neg h]
    rfl
  · have hm : ∀ (l : List ℚ) (c : ℚ), (l.map (fun a => a * c)).sum = l.sum * c := by
      intro l c
      induction l with
      | nil => simp
      | cons a l ih => rw [List.map_cons, List.sum_cons, List.sum_cons, ih]; ring
    rw [hm]
    field_simp

/-- **C57** (accumulations): for non-negative accumulations that are not both zero, over periods of positive length, the output
accumulations cover consecutive periods from the first input's time to the second's, are non-negative and add up to the second
input's accumulation. -/
theorem C57_total (s : TIState) (t0 t1 a0 b0 : ℤ) (hle : t0 ≤ t1) (hab : a0 < b0) (v0 v1 : ℚ) (h0 : 0 ≤ v0) (h1 : 0 ≤ v1)
    (hnz : ¬ (v0 = 0 ∧ v1 = 0)) (ts : List ℤ) (s' : TIState) (hts : tiTimeList s t0 t1 = .ok (ts, s')) :
    ∃ outs c0 c1, ∃ vs : List ℚ, tiProcess s .accumulation ⟨t0, some (a0, b0), v0⟩ ⟨t1, some (t0, t1), v1⟩ = .ok (outs, s', c0, c1) ∧
      outs.map TIOut.time = ts ∧ Spec.Periods t0 ts (outs.map TIOut.bounds) ∧ outs.map TIOut.value = vs.map some ∧
      (∀ v ∈ vs, 0 ≤ v) ∧ vs.sum = v1 := by
  obtain ⟨outs, h, e1, e2, e3, e4⟩ := tiProcess_period s .accumulation (by decide) t0 t1 a0 b0 hle v0 v1 ts s' hts
  by_cases hs : ts = [t1]
  · refine ⟨outs, _, _, [v1], h, e1, e2, ?_, by simpa using h1, by simp⟩
    rw [e3 hs]; rfl
  · obtain ⟨hlt, hv⟩ := e4 hs
    have hsh := C55_shape s s' t0 t1 hle ts hts
    have hl0 : ((b0 - a0 : ℤ) : ℚ) > 0 := by exact_mod_cast (by omega : 0 < b0 - a0)
    have hl1 : ((t1 - t0 : ℤ) : ℚ) > 0 := by exact_mod_cast (by omega : 0 < t1 - t0)
    unfold tiValues divFinite at hv
    simp only [Option.bind_some] at hv
    rw [if_neg (ne_of_gt hl0), if_neg (ne_of_gt hl1)] at hv
    simp only at hv
    have hr0 : 0 ≤ v0 / ((b0 - a0 : ℤ) : ℚ) := div_nonneg h0 hl0.le
    have hr1 : 0 ≤ v1 / ((t1 - t0 : ℤ) : ℚ) := div_nonneg h1 hl1.le
    have hrs : 0 < v0 / ((b0 - a0 : ℤ) : ℚ) + v1 / ((t1 - t0 : ℤ) : ℚ) := by
      rcases lt_or_eq_of_le h0 with h | h
      · have := div_pos h hl0; linarith
      · rcases lt_or_eq_of_le h1 with h' | h'
        · have := div_pos h' hl1; linarith
        · exact absurd ⟨h.symm, h'.symm⟩ hnz
    generalize v0 / ((b0 - a0 : ℤ) : ℚ) = r0 at *
    generalize v1 / ((t1 - t0 : ℤ) : ℚ) = r1 at *
    have hasc : (t0 :: ts).Pairwise (· ≤ ·) :=
      List.pairwise_cons.2 ⟨fun t ht => (hsh.2.1 t ht).1, hsh.1.imp (fun h => le_of_lt h)⟩
    have hlast : (t0 :: ts).getLast (by simp) = t1 := by
      have hne := tiTimeList_ne_nil s s' t0 t1 hle ts hts
      rw [List.getLast_cons hne]
      have := hsh.2.2
      rw [List.getLast?_eq_some_getLast hne] at this
      exact Option.some.inj this
    have hnn : ∀ a ∈ tiAmounts t0 r0 ts (ts.map (tiLinear t0 t1 r0 r1)), 0 ≤ a := by
      apply tiAmounts_nonneg t0 r0 hr0 ts _ hasc
      intro t ht
      have := hsh.2.1 t ht
      exact le_trans (le_min hr0 hr1) (tiLinear_between t0 t1 t hlt this.1 this.2 r0 r1).1
    have hsum : (tiAmounts t0 r0 ts (ts.map (tiLinear t0 t1 r0 r1))).sum = ((t1 : ℚ) - t0) * (r0 + r1) / 2 := by
      have := tiAmounts_sum t0 (r0 - (r1 - r0) / ((t1 - t0 : ℤ) : ℚ) * t0) ((r1 - r0) / ((t1 - t0 : ℤ) : ℚ)) ts (tiLinear t0 t1 r0 r1)
        (fun t => by unfold tiLinear; push_cast; ring)
      rw [hlast, tiLinear_left, tiLinear_right t0 t1 hlt] at this
      exact this
    have hpos : 0 < (tiAmounts t0 r0 ts (ts.map (tiLinear t0 t1 r0 r1))).sum := by
      rw [hsum]
      push_cast at hl1
      positivity
    obtain ⟨q1, q2⟩ := tiRenorm_sum v1 _ (ne_of_gt hpos)
    refine ⟨outs, _, _, _, h, e1, e2, ?_, ?_, q2⟩
    · rw [hv, q1, List.map_map]; rfl
    · intro v hv
      obtain ⟨a, ha, rfl⟩ := List.mem_map.1 hv
      exact mul_nonneg (hnn a ha) (div_nonneg h1 hpos.le)

/-- **C57** (shares): with equal rates in both inputs every output is the rate times the length of its period. -/
theorem C57_uniform (s : TIState) (t0 t1 a0 b0 : ℤ) (hle : t0 ≤ t1) (hab : a0 < b0) (r : ℚ) (hr : 0 < r) (ts : List ℤ) (s' : TIState)
    (hts : tiTimeList s t0 t1 = .ok (ts, s')) :
    ∃ outs c0 c1, tiProcess s .accumulation ⟨t0, some (a0, b0), r * (b0 - a0)⟩ ⟨t1, some (t0, t1), r * (t1 - t0)⟩ = .ok (outs, s', c0, c1) ∧
      outs.map TIOut.value = (outs.map TIOut.bounds).map (fun b => b.map (fun p => r * (p.2 - p.1))) := by
  obtain ⟨outs, h, e1, e2, e3, e4⟩ := tiProcess_period s .accumulation (by decide) t0 t1 a0 b0 hle (r * (b0 - a0)) (r * (t1 - t0)) ts s' hts
  refine ⟨outs, _, _, h, ?_⟩
  by_cases hs : ts = [t1]
  · rw [e3 hs]; rfl
  · obtain ⟨hlt, hv⟩ := e4 hs
    have hsh := C55_shape s s' t0 t1 hle ts hts
    have hl0 : ((b0 - a0 : ℤ) : ℚ) > 0 := by exact_mod_cast (by omega : 0 < b0 - a0)
    have hl1 : ((t1 - t0 : ℤ) : ℚ) > 0 := by exact_mod_cast (by omega : 0 < t1 - t0)
    unfold tiValues divFinite at hv
    simp only [Option.bind_some] at hv
    rw [if_neg (ne_of_gt hl0), if_neg (ne_of_gt hl1)] at hv
    simp only at hv
    have q0 : r * ((b0 : ℚ) - a0) / ((b0 - a0 : ℤ) : ℚ) = r := by
      push_cast at hl0 ⊢
      have := ne_of_gt hl0
      field_simp
    have q1 : r * ((t1 : ℚ) - t0) / ((t1 - t0 : ℤ) : ℚ) = r := by
      push_cast at hl1 ⊢
      have := ne_of_gt hl1
      field_simp
    rw [q0, q1] at hv
    have hconst : tiLinear t0 t1 r r = fun _ => r := by
      funext t; unfold tiLinear; ring
    have hlast : (t0 :: ts).getLast (by simp) = t1 := by
      have hne := tiTimeList_ne_nil s s' t0 t1 hle ts hts
      rw [List.getLast_cons hne]
      have := hsh.2.2
      rw [List.getLast?_eq_some_getLast hne] at this
      exact Option.some.inj this
    have hsum := tiAmounts_sum t0 r 0 ts (fun _ => r) (fun t => by ring)
    simp only [hlast] at hsum
    rw [hconst] at hv
    have hne : (tiAmounts t0 r ts (ts.map (fun _ => r))).sum ≠ 0 := by
      rw [hsum]
      push_cast at hl1
      have : ((t1 : ℚ) - t0) * (r + r) / 2 = (t1 - t0) * r := by ring
      rw [this]
      positivity
    rw [(tiRenorm_sum _ _ hne).1] at hv
    rw [hv, hsum]
    have hf : r * ((t1 : ℚ) - t0) / (((t1 : ℚ) - t0) * (r + r) / 2) = 1 := by
      push_cast at hl1
      have := ne_of_gt hl1
      field_simp
      ring
    rw [hf]
    rw [periods_eq t0 ts _ e2, tiAmounts_const, List.map_map, List.map_map]
    apply List.map_congr_left
    intro p _
    simp

/-- **C57** (finding): where neither input has any accumulation, the renormalisation divides zero by zero: as soon as there is more
than one output period, all outputs are NaN instead of zero. -/
theorem C57_dry_refuted (s : TIState) (t0 t1 a0 b0 : ℤ) (hle : t0 ≤ t1) (hab : a0 < b0) (ts : List ℤ) (s' : TIState)
    (hts : tiTimeList s t0 t1 = .ok (ts, s')) (hn : ts ≠ [t1]) :
    ∃ outs c0 c1, tiProcess s .accumulation ⟨t0, some (a0, b0), 0⟩ ⟨t1, some (t0, t1), 0⟩ = .ok (outs, s', c0, c1) ∧
      outs.map TIOut.time = ts ∧ ∀ o ∈ outs, o.value = none := by
  obtain ⟨outs, h, e1, e2, e3, e4⟩ := tiProcess_period s .accumulation (by decide) t0 t1 a0 b0 hle 0 0 ts s' hts
  refine ⟨outs, _, _, h, e1, ?_⟩
  obtain ⟨hlt, hv⟩ := e4 hn
  have hl0 : ((b0 - a0 : ℤ) : ℚ) > 0 := by exact_mod_cast (by omega : 0 < b0 - a0)
  have hl1 : ((t1 - t0 : ℤ) : ℚ) > 0 := by exact_mod_cast (by omega : 0 < t1 - t0)
  unfold tiValues divFinite at hv
  simp only [Option.bind_some] at hv
  rw [if_neg (ne_of_gt hl0), if_neg (ne_of_gt hl1)] at hv
  simp only [zero_div] at hv
  have hconst : tiLinear t0 t1 0 0 = fun _ => 0 := by
    funext t; unfold tiLinear; ring
  rw [hconst, tiAmounts_const] at hv
  have hz : ((tiBounds t0 ts).map (fun p : ℤ × ℤ => (0 : ℚ) * (p.2 - p.1))).sum = 0 := by
    generalize tiBounds t0 ts = l
    induction l with
    | nil => rfl
    | cons a l ih => rw [List.map_cons, List.sum_cons, ih]; ring
  intro o ho
  have : o.value ∈ outs.map TIOut.value := List.mem_map.2 ⟨o, ho, rfl⟩
  rw [hv] at this
  unfold tiRenorm divFinite at this
  rw [if_pos hz] at this
  simp only [Option.map_none, List.mem_map] at this
  obtain ⟨_, _, h⟩ := this
  exact h.symm

/-- **C57** (finding): interpolating accumulations replaces the data of both input cubes by rates, so that the same inputs used again
give a different result. -/
theorem C57_inputs_changed_refuted : ∃ outs outs2 s' s2 c0 c1 c2 c3,
    tiProcess ⟨some 30, none⟩ .accumulation ⟨0, some (-3600, 0), 36⟩ ⟨3600, some (0, 3600), 72⟩ = .ok (outs, s', c0, c1) ∧
    tiProcess ⟨some 30, none⟩ .accumulation c0 c1 = .ok (outs2, s2, c2, c3) ∧
    outs.map TIOut.value = [some 30, some 42] ∧ outs2.map TIOut.value = [some (1 / 120), some (7 / 600)] := by
  refine ⟨_, _, _, _, _, _, _, _, rfl, rfl, by decide +kernel, by decide +kernel⟩

/-- **C58** (solar): where the sun is down the result is 0. -/
theorem C58_sun_down (t0 t1 t : ℤ) (v0 v1 sp sn si : ℚ) (h : si ≤ 0) : tiSolar t0 t1 v0 v1 sp sn si t = some 0 := by
  unfold tiSolar
  rw [if_neg (not_lt.2 h)]

/-- **C58** (solar): with the sun up at both input times (less than a day apart) and at the interpolated time, the ratio of the value
to the sine of the elevation is on the straight line between the ratios of the inputs; hence non-negative inputs give a
non-negative result, and at the time of the second input the result is that input. -/
theorem C58_sun_up (t0 t1 t : ℤ) (h01 : t0 < t1) (hday : t1 - t0 < 86400) (h0 : t0 ≤ t) (h1 : t ≤ t1) (v0 v1 sp sn si : ℚ)
    (hsp : 0 < sp) (hsn : 0 < sn) (hsi : 0 < si) :
    ∃ r, tiSolar t0 t1 v0 v1 sp sn si t = some r ∧ Spec.OnLine t0 t1 (v0 / sp) (v1 / sn) t (r / si) ∧
      (0 ≤ v0 → 0 ≤ v1 → 0 ≤ r) ∧ (t = t1 → si = sn → r = v1) := by
  have hl1 : ((t1 - t0 : ℤ) : ℚ) > 0 := by exact_mod_cast (by omega : 0 < t1 - t0)
  have e1 : (t1 - t0) % 86400 = t1 - t0 := Int.emod_eq_of_lt (by omega) hday
  have e2 : (t - t0) % 86400 = t - t0 := Int.emod_eq_of_lt (by omega) (by omega)
  refine ⟨si * tiLinear t0 t1 (v0 / sp) (v1 / sn) t, ?_, ?_, ?_, ?_⟩
  · unfold tiSolar divFinite
    rw [if_pos hsi, if_neg hsp.ne', if_neg hsn.ne', e1, e2, if_neg hl1.ne']
    rfl
  · rw [mul_div_cancel_left₀ _ hsi.ne']
    exact tiLinear_onLine t0 t1 h01 _ _ t
  · intro a b
    have := (tiLinear_between t0 t1 t h01 h0 h1 (v0 / sp) (v1 / sn)).1
    have h2 : 0 ≤ min (v0 / sp) (v1 / sn) := le_min (div_nonneg a hsp.le) (div_nonneg b hsn.le)
    exact mul_nonneg hsi.le (le_trans h2 this)
  · intro ht hs
    subst ht; subst hs
    rw [tiLinear_right t0 t h01]
    field_simp

/-- **C58** (finding): inputs exactly one day apart make every sunlit value NaN or infinite. -/
theorem C58_one_day_refuted (t0 t : ℤ) (v0 v1 sp sn si : ℚ) (hsi : 0 < si) : tiSolar t0 (t0 + 86400) v0 v1 sp sn si t = none := by
  unfold tiSolar
  rw [if_pos hsi]
  have : (t0 + 86400 - t0) % 86400 = 0 := by omega
  rw [this]
  have : divFinite (((t - t0) % 86400 : ℤ) : ℚ) ((0 : ℤ) : ℚ) = none := by simp [divFinite]
  rw [this]
  cases divFinite v0 sp <;> cases divFinite v1 sn <;> rfl

/-- **C58** (finding): sunrise or sunset between the inputs: with the sun below the horizon at the first input time and a positive value
there, the result can be negative. -/
theorem C58_twilight_refuted : ∃ r, tiSolar 0 7200 10 0 (-1 / 10) (1 / 2) (1 / 10) 3600 = some r ∧ r < 0 :=
  ⟨-5, by decide +kernel, by norm_num⟩

/-- **C58** (day and night): the day/night method sets night points to 0 and leaves the others. -/
theorem C58_daynight (night : Bool) (v : ℚ) : (night = true → tiDayNight night v = 0) ∧ (night = false → tiDayNight night v = v) := by
  cases night <;> simp [tiDayNight]

/-- **C55** (constructor): a plugin is constructed exactly when one of interval and times is given, the method is known, and at most one
period kind is declared, with the linear method only. -/
theorem C55_constructor (interval : Option ℤ) (times : Option (List ℤ)) (method : String) (accumulation mx mn : Bool) :
    (∃ s k, tiInit interval times method accumulation mx mn = .ok (s, k)) ↔
      (interval.isSome ≠ times.isSome) ∧ method ∈ ["linear", "solar", "daynight"] ∧
      ¬ (accumulation = true ∧ mx = true) ∧ ¬ (accumulation = true ∧ mn = true) ∧ ¬ (mx = true ∧ mn = true) ∧
      ((accumulation = true ∨ mx = true ∨ mn = true) → method = "linear") := by
  unfold tiInit
  by_cases hl : method = "linear"
  · subst hl
    cases interval <;> cases times <;> cases accumulation <;> cases mx <;> cases mn <;> simp
  · by_cases hs : method = "solar" ∨ method = "daynight"
    · cases interval <;> cases times <;> cases accumulation <;> cases mx <;> cases mn <;> rcases hs with rfl | rfl <;> simp
    · push Not at hs
      cases interval <;> cases times <;> simp [hl, hs.1, hs.2]

example : tiTimeList ⟨some 60, none⟩ 0 10800 = .ok ([3600, 7200, 10800], ⟨some 60, none⟩) := by decide +kernel
example : ∃ s', tiTimeList ⟨none, some [7200, 3600]⟩ 0 10800 = .ok ([3600, 7200, 10800], s') := ⟨_, rfl⟩
example : tiAmounts 0 0 [1800, 3600] [1, 2] = [900, 2700] := by decide +kernel

end Improver
