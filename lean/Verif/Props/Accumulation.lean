import Verif.Model.Accumulation
import Verif.Props.CubeManip
import Mathlib.Data.List.Dedup
import Mathlib.Data.List.Perm.Basic
import Mathlib.Tactic.Ring
import Mathlib.Tactic.Linarith
import Mathlib.Tactic.Positivity

/-! C48: accumulations from rates. -/

namespace Improver

/-- Specification: `n` rate cubes at regular times, the `k`-th with rate `r k`. -/
def Spec.series (t0 f0 dt : ℤ) (r : ℕ → ℚ) (n : ℕ) : List RateCube :=
  (List.range n).map (fun k : ℕ => ⟨t0 + k * dt, f0 + k * dt, r k⟩)

/-- Specification: the integral over `m` intervals from the `i`-th time on of the rate that is linear between the times. -/
def Spec.trapezoid (dt : ℤ) (r : ℕ → ℚ) (i m : ℕ) : ℚ := ((List.range m).map (fun j : ℕ => (r (i + j) + r (i + j + 1)) / 2 * dt)).sum

/-- Specification: the accumulation over the `m` intervals that end at the `k`-th time. -/
def Spec.accumulation (t0 f0 dt : ℤ) (r : ℕ → ℚ) (m k : ℕ) : AccOut :=
  ⟨Spec.trapezoid dt r (k - m) m, ⟨f0 + k * dt, some (f0 + (k - m) * dt, f0 + k * dt)⟩,
    ⟨t0 + k * dt, some (t0 + (k - m) * dt, t0 + k * dt)⟩⟩

theorem sortByTime_series (t0 f0 dt : ℤ) (hdt : 0 < dt) (r : ℕ → ℚ) (n : ℕ) (cubes : List RateCube)
    (hp : cubes.Perm (Spec.series t0 f0 dt r n)) : sortByTime cubes = Spec.series t0 f0 dt r n := by
  have htot : Std.Total (fun a b : RateCube => a.time ≤ b.time) := ⟨fun a b => le_total _ _⟩
  have htr : IsTrans RateCube (fun a b => a.time ≤ b.time) := ⟨fun a b c h1 h2 => le_trans h1 h2⟩
  have hperm : (sortByTime cubes).Perm (Spec.series t0 f0 dt r n) := (List.perm_insertionSort _ _).trans hp
  apply List.Perm.eq_of_pairwise (le := fun a b : RateCube => a.time ≤ b.time) _ _ _ hperm
  · intro a b ha hb h1 h2
    have ha' := hperm.mem_iff.1 ha
    obtain ⟨i, _, rfl⟩ := List.mem_map.1 ha'
    obtain ⟨j, _, rfl⟩ := List.mem_map.1 hb
    simp only at h1 h2
    have : (i : ℤ) * dt = j * dt := by linarith
    have := mul_right_cancel₀ hdt.ne' this
    have : i = j := by exact_mod_cast this
    rw [this]
  · exact List.pairwise_insertionSort _ _
  · unfold Spec.series
    rw [List.pairwise_map]
    refine List.pairwise_lt_range.imp ?_
    intro a b hab
    simp only
    have : (a : ℤ) ≤ b := by exact_mod_cast hab.le
    nlinarith

theorem intDiff_map_range (g : ℕ → ℤ) (n : ℕ) :
    intDiff ((List.range (n + 1)).map g) = (List.range n).map (fun k => g (k + 1) - g k) := by
  induction n generalizing g with
  | zero => rfl
  | succ n ih =>
    rw [List.range_succ_eq_map, List.map_cons, List.map_map]
    have h2 := ih (g ∘ Nat.succ)
    rw [List.range_succ_eq_map, List.map_cons] at h2
    conv_lhs => rw [List.range_succ_eq_map, List.map_cons]
    unfold intDiff
    rw [h2]
    conv_rhs => rw [List.range_succ_eq_map, List.map_cons, List.map_map]
    rfl

theorem intDiff_series (t0 f0 dt : ℤ) (r : ℕ → ℚ) (n : ℕ) (hn : 2 ≤ n) :
    (intDiff ((Spec.series t0 f0 dt r n).map RateCube.time)).dedup = [dt] := by
  obtain ⟨m, rfl⟩ : ∃ m, n = m + 1 + 1 := ⟨n - 2, by omega⟩
  unfold Spec.series
  rw [List.map_map, intDiff_map_range]
  have : (List.range (m + 1)).map (fun k : ℕ => (RateCube.time ∘ fun k : ℕ => (⟨t0 + k * dt, f0 + k * dt, r k⟩ : RateCube)) (k + 1)
      - (RateCube.time ∘ fun k : ℕ => (⟨t0 + k * dt, f0 + k * dt, r k⟩ : RateCube)) k) = List.replicate (m + 1) dt := by
    rw [List.eq_replicate_iff]
    refine ⟨by simp, ?_⟩
    intro b hb
    obtain ⟨k, _, rfl⟩ := List.mem_map.1 hb
    simp only [Function.comp]
    push_cast
    ring
  rw [this]
  exact List.replicate_dedup (by omega)

theorem range_window (n m k : ℕ) (hm : m ≤ k) (hk : k < n) :
    (List.range n).filter (fun i => decide (k - m ≤ i ∧ i ≤ k)) = (List.range (m + 1)).map (fun j => k - m + j) := by
  apply List.Perm.eq_of_pairwise (le := fun a b : ℕ => a < b)
  · intro a b _ _ h1 h2; omega
  · exact List.pairwise_lt_range.filter _
  · rw [List.pairwise_map]
    exact List.pairwise_lt_range.imp (by omega)
  · rw [List.perm_ext_iff_of_nodup (List.nodup_range.filter _)
      (List.Nodup.map (fun a b h => by simpa using h) List.nodup_range)]
    intro a
    simp only [List.mem_filter, List.mem_range, decide_eq_true_eq, List.mem_map]
    constructor
    · rintro ⟨h1, h2, h3⟩
      exact ⟨a - (k - m), by omega, by omega⟩
    · rintro ⟨j, hj, rfl⟩
      omega

theorem accSubset_series (t0 f0 dt : ℤ) (hdt : 0 < dt) (r : ℕ → ℚ) (n m k : ℕ) (hm : m ≤ k) (hk : k < n) :
    accSubset (Spec.series t0 f0 dt r n) (m * dt) (f0 + k * dt)
      = (List.range (m + 1)).map (fun j : ℕ => ⟨t0 + (k - m + j : ℕ) * dt, f0 + (k - m + j : ℕ) * dt, r (k - m + j)⟩) := by
  unfold accSubset Spec.series
  rw [List.filter_map]
  have : (List.range n).filter ((fun c : RateCube => decide (f0 + k * dt - m * dt ≤ c.fp ∧ c.fp ≤ f0 + k * dt)) ∘
      fun k : ℕ => ⟨t0 + k * dt, f0 + k * dt, r k⟩) = (List.range n).filter (fun i => decide (k - m ≤ i ∧ i ≤ k)) := by
    apply List.filter_congr
    intro i _
    simp only [Function.comp, decide_eq_decide]
    have e1 : f0 + (k : ℤ) * dt - m * dt ≤ f0 + i * dt ↔ k - m ≤ i := by
      constructor
      · intro h
        by_contra hc
        have hc' : (i : ℤ) + 1 ≤ k - m := by omega
        nlinarith
      · intro h
        have : (k : ℤ) - m ≤ i := by omega
        nlinarith
    have e2 : f0 + (i : ℤ) * dt ≤ f0 + k * dt ↔ i ≤ k := by
      constructor
      · intro h
        by_contra hc
        have hc' : (k : ℤ) + 1 ≤ i := by omega
        nlinarith
      · intro h
        have : (i : ℤ) ≤ k := by omega
        nlinarith
    rw [e1, e2]
  rw [this, range_window n m k hm hk, List.map_map]
  rfl

theorem zip_tail_range {β : Type} (g : ℕ → β) (m : ℕ) :
    ((List.range (m + 1)).map g).zip ((List.range (m + 1)).map g).tail = (List.range m).map (fun j => (g j, g (j + 1))) := by
  apply List.ext_getElem
  · simp
  · intro i h1 h2
    simp

theorem foldl_add_sum {β : Type} (f : β → ℚ) (l : List β) (a : ℚ) : l.foldl (fun acc p => acc + f p) a = a + (l.map f).sum := by
  induction l generalizing a with
  | nil => simp
  | cons x l ih => rw [List.foldl_cons, ih, List.map_cons, List.sum_cons]; ring

theorem accAmount_range (dt : ℤ) (g : ℕ → RateCube) (r : ℕ → ℚ) (i m : ℕ) (hg : ∀ j, (g j).rate = r (i + j)) :
    accAmount dt ((List.range (m + 1)).map g) = Spec.trapezoid dt r i m := by
  unfold accAmount Spec.trapezoid
  rw [zip_tail_range, foldl_add_sum (fun p : RateCube × RateCube => (p.1.rate + p.2.rate) * dt * (1 / 2)), zero_add, List.map_map]
  congr 1
  apply List.map_congr_left
  intro j _
  simp only [Function.comp, hg]
  rw [← add_assoc]
  ring

theorem expand_range (dt : ℤ) (hdt : 0 < dt) (a : ℤ) (i m : ℕ) :
    expandBounds ((List.range (m + 1)).map (fun j : ℕ => (⟨a + (i + j : ℕ) * dt, none⟩ : SCoord ℤ)))
      = .ok ⟨a + (i + m : ℕ) * dt, some (a + (i : ℕ) * dt, a + (i + m : ℕ) * dt)⟩ := by
  obtain ⟨lo, hi, h, hh⟩ := C50_unbounded ((List.range (m + 1)).map (fun j : ℕ => a + (i + j : ℕ) * dt)) (by simp)
  rw [List.map_map] at h
  have h' : expandBounds ((List.range (m + 1)).map (fun j : ℕ => (⟨a + (i + j : ℕ) * dt, none⟩ : SCoord ℤ))) = .ok ⟨hi, some (lo, hi)⟩ := h
  rw [h']
  have : Spec.IsHull ((List.range (m + 1)).map (fun j : ℕ => a + (i + j : ℕ) * dt)) (a + (i : ℕ) * dt) (a + (i + m : ℕ) * dt) := by
    refine ⟨List.mem_map.2 ⟨0, by simp, by simp⟩, List.mem_map.2 ⟨m, by simp, rfl⟩, ?_⟩
    intro v hv
    obtain ⟨j, hj, rfl⟩ := List.mem_map.1 hv
    have := List.mem_range.1 hj
    have h1 : (0 : ℤ) ≤ j := by positivity
    have h2 : (j : ℤ) ≤ m := by omega
    push_cast
    constructor <;> nlinarith
  obtain ⟨h1, h2⟩ := isHull_unique hh this
  rw [h1, h2]

theorem accOne_series (t0 f0 dt : ℤ) (hdt : 0 < dt) (r : ℕ → ℚ) (n m k : ℕ) (hm : m ≤ k) (hk : k < n) :
    accOne (Spec.series t0 f0 dt r n) dt (m * dt) (f0 + k * dt) = .ok (Spec.accumulation t0 f0 dt r m k) := by
  unfold accOne
  simp only [accSubset_series t0 f0 dt hdt r n m k hm hk]
  rw [if_neg (by simp)]
  rw [List.map_map, List.map_map]
  have e1 := expand_range dt hdt t0 (k - m) m
  have e2 := expand_range dt hdt f0 (k - m) m
  have hc1 : ((fun c : RateCube => (⟨c.time, none⟩ : SCoord ℤ)) ∘ fun j : ℕ => (⟨t0 + (k - m + j : ℕ) * dt, f0 + (k - m + j : ℕ) * dt, r (k - m + j)⟩ : RateCube))
      = fun j : ℕ => (⟨t0 + (k - m + j : ℕ) * dt, none⟩ : SCoord ℤ) := rfl
  have hc2 : ((fun c : RateCube => (⟨c.fp, none⟩ : SCoord ℤ)) ∘ fun j : ℕ => (⟨t0 + (k - m + j : ℕ) * dt, f0 + (k - m + j : ℕ) * dt, r (k - m + j)⟩ : RateCube))
      = fun j : ℕ => (⟨f0 + (k - m + j : ℕ) * dt, none⟩ : SCoord ℤ) := rfl
  rw [hc1, hc2, e1, e2]
  simp only [bind, Except.bind, pure, Except.pure]
  rw [accAmount_range dt _ r (k - m) m (fun j => rfl)]
  have hkm : k - m + m = k := by omega
  unfold Spec.accumulation
  rw [hkm, Nat.cast_sub hm]

theorem checkAcc_series (t0 f0 dt : ℤ) (hdt : 0 < dt) (r : ℕ → ℚ) (n : ℕ) (hn : 2 ≤ n) (cubes : List RateCube)
    (hp : cubes.Perm (Spec.series t0 f0 dt r n)) (s : AccState) (m : ℕ) (hm : 1 ≤ m)
    (hs : s.period.getD (((Spec.series t0 f0 dt r n).map RateCube.fp).getLastD 0) = m * dt) (fps : List ℤ)
    (hf : s.fps.getD (((Spec.series t0 f0 dt r n).map RateCube.fp).filter (fun fp => decide (fp ≥ dt))) = fps) :
    checkAccInputs s cubes = .ok (Spec.series t0 f0 dt r n, dt, ⟨some (m * dt), some (fps.filter (fun fp => decide (fp ≥ m * dt)))⟩) := by
  unfold checkAccInputs
  simp only [sortByTime_series t0 f0 dt hdt r n cubes hp, intDiff_series t0 f0 dt r n hn, hs, hf]
  have h0 : dt ≠ 0 := hdt.ne'
  have h1 : ((m : ℤ) * dt).tdiv dt = m := Int.mul_tdiv_cancel _ h0
  have h2 : ((m : ℤ) * dt).tmod dt = 0 := Int.mul_tmod_left _ _
  simp only [if_neg h0, h1, h2, ne_eq, not_true, if_false]
  rw [if_neg (by omega)]
  congr 4
  by_cases ha : (fps.any (fun fp => decide (fp < m * dt))) = true
  · rw [if_pos ha]
  · rw [if_neg ha]
    congr 1
    symm
    rw [List.filter_eq_self]
    intro a hmem
    simp only [List.any_eq_true, decide_eq_true_eq, not_exists, not_and, not_lt] at ha
    simpa using ha a hmem

theorem mapM_ok {β γ : Type} (f : β → Except Err γ) (g : β → γ) (l : List β) (h : ∀ x ∈ l, f x = .ok (g x)) :
    l.mapM f = .ok (l.map g) := by
  induction l with
  | nil => rfl
  | cons a l ih =>
    rw [List.mapM_cons, h a (by simp)]
    simp only [bind, Except.bind]
    rw [ih (fun x hx => h x (by simp [hx]))]
    rfl

/-- **C48** (amounts): given regularly spaced rates in any order, an accumulation period of `m` intervals and forecast periods that
end at least `m` intervals after the first rate, every accumulation is the integral over its period of the rate taken linear between
the inputs, with bounds spanning exactly that period. -/
theorem C48_amounts (t0 f0 dt : ℤ) (hdt : 0 < dt) (hf0 : 0 ≤ f0) (r : ℕ → ℚ) (n : ℕ) (hn : 2 ≤ n) (cubes : List RateCube)
    (hp : cubes.Perm (Spec.series t0 f0 dt r n)) (m : ℕ) (hm : 1 ≤ m) (ks : List ℕ) (hks : ∀ k ∈ ks, m ≤ k ∧ k < n) :
    ∃ s', accProcess ⟨some (m * dt), some (ks.map (fun k : ℕ => f0 + k * dt))⟩ cubes
      = .ok (ks.map (Spec.accumulation t0 f0 dt r m), s') := by
  have hc := checkAcc_series t0 f0 dt hdt r n hn cubes hp ⟨some (m * dt), some (ks.map (fun k : ℕ => f0 + k * dt))⟩ m hm rfl _ rfl
  have hfil : (ks.map (fun k : ℕ => f0 + k * dt)).filter (fun fp => decide (fp ≥ m * dt)) = ks.map (fun k : ℕ => f0 + k * dt) := by
    rw [List.filter_eq_self]
    intro a ha
    obtain ⟨k, hk, rfl⟩ := List.mem_map.1 ha
    have : (m : ℤ) ≤ k := by exact_mod_cast (hks k hk).1
    simp only [ge_iff_le, decide_eq_true_eq]
    nlinarith
  unfold accProcess
  rw [hc]
  simp only [bind, Except.bind, pure, Except.pure, Option.getD_some]
  rw [hfil, List.mapM_map]
  rw [mapM_ok _ (Spec.accumulation t0 f0 dt r m) ks]
  · exact ⟨_, rfl⟩
  · intro k hk
    exact accOne_series t0 f0 dt hdt r n m k (hks k hk).1 (hks k hk).2

/-- **C48** (defaults): without period and forecast periods, rates from forecast period 0 on give a single accumulation over the
whole length. -/
theorem C48_default (t0 dt : ℤ) (hdt : 0 < dt) (r : ℕ → ℚ) (n : ℕ) (hn : 2 ≤ n) (cubes : List RateCube)
    (hp : cubes.Perm (Spec.series t0 0 dt r n)) :
    ∃ s', accProcess ⟨none, none⟩ cubes = .ok ([Spec.accumulation t0 0 dt r (n - 1) (n - 1)], s') := by
  obtain ⟨q, rfl⟩ : ∃ q, n = q + 1 := ⟨n - 1, by omega⟩
  have hlast : ((Spec.series t0 0 dt r (q + 1)).map RateCube.fp).getLastD 0 = ((q + 1 - 1 : ℕ) : ℤ) * dt := by
    unfold Spec.series
    rw [List.range_succ]
    simp [List.getLastD_eq_getLast?]
  have hc := checkAcc_series t0 0 dt hdt r (q + 1) hn cubes hp ⟨none, none⟩ (q + 1 - 1) (by omega) hlast _ rfl
  have hfil : (((Spec.series t0 0 dt r (q + 1)).map RateCube.fp).filter (fun fp => decide (fp ≥ dt))).filter
      (fun fp => decide (fp ≥ ((q + 1 - 1 : ℕ) : ℤ) * dt)) = [q].map (fun k : ℕ => (0 : ℤ) + k * dt) := by
    unfold Spec.series
    rw [List.filter_filter, List.map_map, List.range_succ, List.map_append, List.filter_append]
    have h1 : List.filter (fun a => decide (a ≥ ((q + 1 - 1 : ℕ) : ℤ) * dt) && decide (a ≥ dt))
        ((List.range q).map (RateCube.fp ∘ fun k : ℕ => (⟨t0 + k * dt, 0 + k * dt, r k⟩ : RateCube))) = [] := by
      rw [List.filter_eq_nil_iff]
      intro a ha
      obtain ⟨k, hk, rfl⟩ := List.mem_map.1 ha
      have hkq : (k : ℤ) + 1 ≤ q := by exact_mod_cast List.mem_range.1 hk
      simp only [Function.comp, Nat.add_sub_cancel, Bool.and_eq_true, decide_eq_true_eq, not_and, ge_iff_le]
      intro h
      exfalso
      nlinarith
    rw [h1]
    have hq : (1 : ℤ) ≤ q := by omega
    have h2 : dt ≤ (q : ℤ) * dt := by nlinarith
    simp [h2]
  unfold accProcess
  rw [hc]
  simp only [bind, Except.bind, pure, Except.pure, Option.getD_some, Option.getD_none]
  rw [hfil, List.mapM_map]
  rw [mapM_ok _ (Spec.accumulation t0 0 dt r (q + 1 - 1)) [q]]
  · exact ⟨_, rfl⟩
  · intro k hk
    rw [List.mem_singleton] at hk
    subst hk
    exact accOne_series t0 0 dt hdt r (k + 1) (k + 1 - 1) k (by omega) (by omega)

theorem trapezoid_add (dt : ℤ) (r : ℕ → ℚ) (i m1 m2 : ℕ) :
    Spec.trapezoid dt r i (m1 + m2) = Spec.trapezoid dt r i m1 + Spec.trapezoid dt r (i + m1) m2 := by
  unfold Spec.trapezoid
  rw [List.range_add, List.map_append, List.sum_append, List.map_map]
  congr 2
  apply List.map_congr_left
  intro j _
  simp only [Function.comp, ← add_assoc]

/-- **C48** (additivity): the accumulation over two adjacent periods is the sum of the accumulations over each. -/
theorem C48_additive (t0 f0 dt : ℤ) (hdt : 0 < dt) (hf0 : 0 ≤ f0) (r : ℕ → ℚ) (n : ℕ) (cubes : List RateCube)
    (hp : cubes.Perm (Spec.series t0 f0 dt r n)) (m1 m2 k : ℕ) (h1 : 1 ≤ m1) (h2 : 1 ≤ m2) (hk : m1 ≤ k) (hkn : k + m2 < n) :
    ∃ a b c s1 s2 s3, accProcess ⟨some (m1 * dt), some [f0 + k * dt]⟩ cubes = .ok ([a], s1) ∧
      accProcess ⟨some (m2 * dt), some [f0 + (k + m2 : ℕ) * dt]⟩ cubes = .ok ([b], s2) ∧
      accProcess ⟨some ((m1 + m2 : ℕ) * dt), some [f0 + (k + m2 : ℕ) * dt]⟩ cubes = .ok ([c], s3) ∧
      c.amount = a.amount + b.amount := by
  obtain ⟨s1, e1⟩ := C48_amounts t0 f0 dt hdt hf0 r n (by omega) cubes hp m1 h1 [k] (by simp; omega)
  obtain ⟨s2, e2⟩ := C48_amounts t0 f0 dt hdt hf0 r n (by omega) cubes hp m2 h2 [k + m2] (by simp; omega)
  obtain ⟨s3, e3⟩ := C48_amounts t0 f0 dt hdt hf0 r n (by omega) cubes hp (m1 + m2) (by omega) [k + m2] (by simp; omega)
  refine ⟨_, _, _, s1, s2, s3, e1, e2, e3, ?_⟩
  simp only [Spec.accumulation]
  rw [show k + m2 - (m1 + m2) = k - m1 by omega, trapezoid_add, show k - m1 + m1 = k + m2 - m2 by omega]

theorem trapezoid_limits (dt : ℤ) (hdt : 0 < dt) (r : ℕ → ℚ) (i m : ℕ) (lo hi : ℚ) (h : ∀ j, i ≤ j → j ≤ i + m → lo ≤ r j ∧ r j ≤ hi) :
    lo * (m * dt) ≤ Spec.trapezoid dt r i m ∧ Spec.trapezoid dt r i m ≤ hi * (m * dt) := by
  have hdt' : (0 : ℚ) < dt := by exact_mod_cast hdt
  induction m with
  | zero => simp [Spec.trapezoid]
  | succ m ih =>
    obtain ⟨h1, h2⟩ := ih (fun j hj hj' => h j hj (by omega))
    have hstep : Spec.trapezoid dt r i (m + 1) = Spec.trapezoid dt r i m + (r (i + m) + r (i + m + 1)) / 2 * dt := by
      unfold Spec.trapezoid
      rw [List.range_succ, List.map_append, List.sum_append]
      simp
    rw [hstep]
    have a := h (i + m) (by omega) (by omega)
    have b := h (i + m + 1) (by omega) (by omega)
    push_cast
    constructor <;> nlinarith

/-- **C48** (limits): rates between `lo` and `hi` give amounts between `lo` and `hi` times the period; in particular a constant rate
gives rate times period, and amounts are not negative if rates are not. -/
theorem C48_limits (t0 f0 dt : ℤ) (hdt : 0 < dt) (hf0 : 0 ≤ f0) (r : ℕ → ℚ) (n : ℕ) (hn : 2 ≤ n) (cubes : List RateCube)
    (hp : cubes.Perm (Spec.series t0 f0 dt r n)) (m : ℕ) (hm : 1 ≤ m) (ks : List ℕ) (hks : ∀ k ∈ ks, m ≤ k ∧ k < n)
    (lo hi : ℚ) (h : ∀ c ∈ cubes, lo ≤ c.rate ∧ c.rate ≤ hi) :
    ∃ out s', accProcess ⟨some (m * dt), some (ks.map (fun k : ℕ => f0 + k * dt))⟩ cubes = .ok (out, s') ∧
      ∀ a ∈ out, lo * (m * dt) ≤ a.amount ∧ a.amount ≤ hi * (m * dt) := by
  obtain ⟨s', e⟩ := C48_amounts t0 f0 dt hdt hf0 r n hn cubes hp m hm ks hks
  refine ⟨_, s', e, ?_⟩
  intro a ha
  obtain ⟨k, hk, rfl⟩ := List.mem_map.1 ha
  have hkn := hks k hk
  refine trapezoid_limits dt hdt r (k - m) m lo hi ?_
  intro j _ hj
  exact h ⟨t0 + j * dt, f0 + j * dt, r j⟩ (hp.mem_iff.2 (List.mem_map.2 ⟨j, List.mem_range.2 (by omega), rfl⟩))

/-- **C48** (irregular times): rates whose spacing is not uniform are refused. -/
theorem C48_irregular (s : AccState) (cubes : List RateCube)
    (h : ∀ dt, (intDiff ((sortByTime cubes).map RateCube.time)).dedup ≠ [dt]) : accProcess s cubes = .error .valueError := by
  unfold accProcess checkAccInputs
  simp only
  generalize (intDiff ((sortByTime cubes).map RateCube.time)).dedup = l at *
  match l with
  | [] => rfl
  | [dt] => exact absurd rfl (h dt)
  | _ :: _ :: _ => rfl

/-- **C48** (finding): a period that starts before the first rate is not refused: the amount silently covers the shorter time only.
Here rates from 900 s on give for the hour up to 3600 s an accumulation over 2700 s. -/
theorem C48_incomplete_refuted : ∃ out s', accProcess ⟨some 3600, none⟩ (Spec.series 0 900 900 (fun _ => 1) 4) = .ok ([out], s') ∧
    out.amount = 2700 ∧ out.fp = ⟨3600, some (900, 3600)⟩ := by
  refine ⟨_, _, rfl, by decide +kernel, by decide +kernel⟩

/-- **C48** (finding): period and forecast periods found in the first call stay on the plugin, so that the same input gives something
else in a later call. -/
theorem C48_reuse_refuted : ∃ out1 s1 out2 s2 out3 s3,
    accProcess ⟨none, none⟩ (Spec.series 0 0 900 (fun _ => 1) 2) = .ok (out1, s1) ∧
    accProcess s1 (Spec.series 0 0 900 (fun _ => 1) 5) = .ok (out2, s2) ∧
    accProcess ⟨none, none⟩ (Spec.series 0 0 900 (fun _ => 1) 5) = .ok (out3, s3) ∧
    out2.map AccOut.amount = [900] ∧ out3.map AccOut.amount = [3600] := by
  refine ⟨_, _, _, _, _, _, rfl, rfl, rfl, by decide +kernel, by decide +kernel⟩

example : Spec.trapezoid 900 (fun k => k) 1 2 = 3600 := by decide +kernel

end Improver
