import Verif.Model.NowcastAccum
import Verif.Props.Accumulation
import Verif.Props.PystepsNowcast
import Verif.Props.ReliabilityRun

/-! Property theorems C269 (cli/nowcast_accumulate.py). -/

namespace Improver

/-- The amount over the `P` minutes that end at minute `L`, from the forecasts of each minute at a point (`scale` turns rates into mm h-1, `fac`
metres into the units of the result): missing if one of the rates is, otherwise the sum over the minutes of the mean of the rates at both ends. -/
def Spec.minuteAmount (cubes : List RateForecast) (scale fac : ℚ) (P L y x : ℕ) (v : Option ℚ) : Prop :=
  (v = none ↔ ∃ f k, cubes[k]? = some f ∧ L ≤ k + P ∧ k ≤ L ∧ f.data y x = none) ∧
  ∀ r : ℕ → ℚ, (∀ f k, cubes[k]? = some f → L ≤ k + P → k ≤ L → f.data y x = some (r k)) →
    v = some (((List.range P).map fun j => (r (L - P + j) + r (L - P + j + 1)) / 2 * 60).sum * (scale / 3600000) * fac)

/-- Lead times of the result, in minutes and in order. -/
def Spec.accLeads (M I P : ℕ) (leads : List ℕ) : Prop := leads.Pairwise (· < ·) ∧ ∀ L, L ∈ leads ↔ I ∣ L ∧ P ≤ L ∧ L ≤ M

/-- The accumulation over the `P` minutes up to minute `L` after the analysis at `t0`. -/
def Spec.accFor (cubes : List RateForecast) (scale fac : ℚ) (t0 : ℤ) (P L : ℕ) (r : FieldAcc) : Prop :=
  r.fp = ⟨60 * L, some (60 * (L - P), 60 * L)⟩ ∧ r.time = ⟨t0 + 60 * L, some (t0 + 60 * (L - P), t0 + 60 * L)⟩ ∧
  ∀ y x, Spec.minuteAmount cubes scale fac P L y x (r.data y x)

/-- Rates at regular times. -/
def rateSeries (t0 frt dt : ℤ) (R : ℕ → RateField) (n : ℕ) : List RateForecast :=
  (List.range n).map fun k : ℕ => ⟨t0 + k * dt, none, frt, k * dt, R k⟩

theorem rateSeries_sorted (t0 frt dt : ℤ) (hdt : 0 < dt) (R : ℕ → RateField) (n : ℕ) :
    (rateSeries t0 frt dt R n).insertionSort (fun a b => a.time ≤ b.time) = rateSeries t0 frt dt R n := by
  apply List.Pairwise.insertionSort_eq
  unfold rateSeries
  rw [List.pairwise_map]
  refine List.pairwise_lt_range.imp ?_
  intro a b hab
  simp only
  have : (a : ℤ) ≤ b := by exact_mod_cast hab.le
  nlinarith

theorem rateSeries_window (t0 frt dt : ℤ) (hdt : 0 < dt) (R : ℕ → RateField) (n m k : ℕ) (hm : m ≤ k) (hk : k < n) :
    (rateSeries t0 frt dt R n).filter (fun c => decide ((k : ℤ) * dt - m * dt ≤ c.period ∧ c.period ≤ k * dt)) =
      (List.range (m + 1)).map fun j : ℕ => ⟨t0 + (k - m + j : ℕ) * dt, none, frt, (k - m + j : ℕ) * dt, R (k - m + j)⟩ := by
  unfold rateSeries
  rw [List.filter_map]
  have : (List.range n).filter ((fun c : RateForecast => decide ((k : ℤ) * dt - m * dt ≤ c.period ∧ c.period ≤ k * dt)) ∘
      fun k : ℕ => ⟨t0 + k * dt, none, frt, k * dt, R k⟩) = (List.range n).filter (fun i => decide (k - m ≤ i ∧ i ≤ k)) := by
    apply List.filter_congr
    intro i _
    simp only [Function.comp, decide_eq_decide]
    have e1 : (k : ℤ) * dt - m * dt ≤ i * dt ↔ k - m ≤ i := by
      constructor
      · intro h
        by_contra hc
        have hc' : (i : ℤ) + 1 ≤ k - m := by omega
        nlinarith
      · intro h
        have : (k : ℤ) - m ≤ i := by omega
        nlinarith
    have e2 : (i : ℤ) * dt ≤ k * dt ↔ i ≤ k := by
      constructor
      · intro h
        by_contra hc
        have hc' : (k : ℤ) + 1 ≤ i := by omega
        nlinarith
      · intro h
        have : (i : ℤ) ≤ k := by omega
        nlinarith
    rw [e1, e2]
  rw [this, range_window n m k hm hk, List.map_map]
  rfl

/-- The masked sum over the windows. -/
theorem fieldAmount_fold (dt : ℤ) (y x : ℕ) (g : ℕ → RateForecast) (m : ℕ) :
    ((List.range m).map fun j => (g j, g (j + 1))).foldl (accStep dt y x) (some 0) =
      if ∀ j < m, (g j).data y x ≠ none ∧ (g (j + 1)).data y x ≠ none then
        some (((List.range m).map fun j => (((g j).data y x).getD 0 + ((g (j + 1)).data y x).getD 0) / 2 * (dt : ℚ)).sum) else none := by
  induction m with
  | zero => simp
  | succ m ih =>
    rw [List.range_succ, List.map_append, List.foldl_append, ih]
    simp only [List.map_cons, List.map_nil, List.foldl_cons, List.foldl_nil, List.map_append, List.sum_append, List.sum_cons, List.sum_nil]
    by_cases h : ∀ j < m, (g j).data y x ≠ none ∧ (g (j + 1)).data y x ≠ none
    · rw [if_pos h]
      unfold accStep
      cases ha : (g m).data y x with
      | none =>
        rw [if_neg (fun hh => (hh m (by omega)).1 ha)]
        rfl
      | some a =>
        cases hb : (g (m + 1)).data y x with
        | none =>
          rw [if_neg (fun hh => (hh m (by omega)).2 hb)]
          rfl
        | some b =>
          rw [if_pos]
          · simp only [maskedAdd, Option.bind_some, Option.map_some, Option.getD_some]
            congr 1
            ring
          · intro j hj
            by_cases hjm : j = m
            · subst hjm; rw [ha, hb]; exact ⟨by simp, by simp⟩
            · exact h j (by omega)
    · rw [if_neg h, if_neg (fun hh => h fun j hj => hh j (by omega))]
      rfl

theorem fieldAmount_window (dt : ℤ) (y x : ℕ) (g : ℕ → RateForecast) (m : ℕ) (hm : 0 < m) :
    (fieldAmount dt ((List.range (m + 1)).map g) y x = none ↔ ∃ j ≤ m, (g j).data y x = none) ∧
    ∀ r : ℕ → ℚ, (∀ j ≤ m, (g j).data y x = some (r j)) →
      fieldAmount dt ((List.range (m + 1)).map g) y x = some (((List.range m).map fun j => (r j + r (j + 1)) / 2 * (dt : ℚ)).sum) := by
  unfold fieldAmount
  rw [zip_tail_range, fieldAmount_fold]
  constructor
  · by_cases h : ∀ j < m, (g j).data y x ≠ none ∧ (g (j + 1)).data y x ≠ none
    · rw [if_pos h]
      constructor
      · intro h'; exact nomatch h'
      · rintro ⟨j, hj, hn⟩
        exfalso
        by_cases hjm : j < m
        · exact (h j hjm).1 hn
        · have := (h (m - 1) (by omega)).2
          rw [show m - 1 + 1 = j by omega] at this
          exact this hn
    · rw [if_neg h]
      refine ⟨fun _ => ?_, fun _ => rfl⟩
      push Not at h
      obtain ⟨j, hj, hh⟩ := h
      by_cases h1 : (g j).data y x = none
      · exact ⟨j, by omega, h1⟩
      · exact ⟨j + 1, by omega, hh h1⟩
  · intro r hr
    rw [if_pos]
    · congr 2
      apply List.map_congr_left
      intro j hj
      have := List.mem_range.1 hj
      rw [hr j (by omega), hr (j + 1) (by omega)]
      rfl
    · intro j hj
      rw [hr j (by omega), hr (j + 1) (by omega)]
      exact ⟨by simp, by simp⟩

theorem fieldAccOne_series (fac : ℚ) (t0 frt dt : ℤ) (hdt : 0 < dt) (R : ℕ → RateField) (n m k : ℕ) (h0 : 0 < m) (hm : m ≤ k) (hk : k < n) :
    fieldAccOne fac (rateSeries t0 frt dt R n) dt (m * dt) (k * dt) =
      .ok ⟨⟨k * dt, some ((k - m) * dt, k * dt)⟩, ⟨t0 + k * dt, some (t0 + (k - m) * dt, t0 + k * dt)⟩, fun y x =>
        (fieldAmount dt ((List.range (m + 1)).map fun j : ℕ =>
          (⟨t0 + (k - m + j : ℕ) * dt, none, frt, (k - m + j : ℕ) * dt, R (k - m + j)⟩ : RateForecast)) y x).map fun a => a * fac⟩ := by
  unfold fieldAccOne
  simp only [rateSeries_window t0 frt dt hdt R n m k hm hk]
  rw [if_neg (by simp)]
  rw [List.map_map, List.map_map]
  have e1 := expand_range dt hdt t0 (k - m) m
  have e2 := expand_range dt hdt 0 (k - m) m
  simp only [zero_add] at e2
  have hc1 : ((fun c : RateForecast => (⟨c.time, c.timeBounds⟩ : SCoord ℤ)) ∘ fun j : ℕ =>
      (⟨t0 + (k - m + j : ℕ) * dt, none, frt, (k - m + j : ℕ) * dt, R (k - m + j)⟩ : RateForecast))
      = fun j : ℕ => (⟨t0 + (k - m + j : ℕ) * dt, none⟩ : SCoord ℤ) := rfl
  have hc2 : ((fun c : RateForecast => (⟨c.period, none⟩ : SCoord ℤ)) ∘ fun j : ℕ =>
      (⟨t0 + (k - m + j : ℕ) * dt, none, frt, (k - m + j : ℕ) * dt, R (k - m + j)⟩ : RateForecast))
      = fun j : ℕ => (⟨(k - m + j : ℕ) * dt, none⟩ : SCoord ℤ) := rfl
  rw [hc1, hc2, e1, e2]
  simp only [bind, Except.bind]
  rw [if_neg (by simp; omega)]
  have hkm : k - m + m = k := by omega
  rw [hkm, Nat.cast_sub hm]

/-- The lead times as natural numbers. -/
def leadList (M I P : ℕ) : List ℕ := ((List.range (M / I)).map fun k => (k + 1) * I).filter fun L => decide (P ≤ L)

theorem leadList_spec (M I P : ℕ) (hI : 0 < I) (hP : 0 < P) : Spec.accLeads M I P (leadList M I P) := by
  unfold leadList
  constructor
  · refine List.Pairwise.filter _ ?_
    rw [List.pairwise_map]
    refine List.pairwise_lt_range.imp ?_
    intro a b hab
    exact Nat.mul_lt_mul_of_pos_right (by omega) hI
  · intro L
    simp only [List.mem_filter, List.mem_map, List.mem_range, decide_eq_true_eq]
    constructor
    · rintro ⟨⟨k, hk, rfl⟩, hp⟩
      refine ⟨Dvd.intro_left _ rfl, hp, ?_⟩
      calc (k + 1) * I ≤ (M / I) * I := Nat.mul_le_mul_right _ hk
        _ ≤ M := Nat.div_mul_le_self _ _
    · rintro ⟨⟨q, rfl⟩, hp, hM⟩
      refine ⟨⟨q - 1, ?_, ?_⟩, hp⟩
      · have : q ≤ M / I := (Nat.le_div_iff_mul_le hI).2 (by rw [mul_comm]; exact hM)
        have : q ≠ 0 := by rintro rfl; omega
        omega
      · have : q ≠ 0 := by rintro rfl; omega
        rw [Nat.sub_add_cancel (by omega), mul_comm]

theorem accLeads_nat (M I : ℕ) (hI : 0 < I) :
    accLeads I M = .ok (((List.range (M / I)).map fun k => (k + 1) * I).map fun L : ℕ => (L : ℤ)) := by
  unfold accLeads
  rw [if_neg (by omega), ← Int.natCast_ediv, Int.toNat_natCast, List.map_map]
  congr 1

theorem times_series (t0 frt : ℤ) (R : ℕ → RateField) (n : ℕ) :
    (rateSeries t0 frt 60 R n).map RateForecast.times = Spec.series t0 0 60 (fun _ => 0) n := by
  unfold rateSeries Spec.series
  rw [List.map_map]
  apply List.map_congr_left
  intro k _
  simp [RateForecast.times]

theorem fieldAccumulate_series (fac : ℚ) (t0 frt : ℤ) (R : ℕ → RateField) (M I P : ℕ) (hM : 1 ≤ M) (hI : 0 < I) (hP : 0 < P) :
    fieldAccumulate fac ((P : ℤ) * 60) ((((List.range (M / I)).map fun k => (k + 1) * I).map fun L : ℕ => (L : ℤ)).map fun l => l * 60)
      (rateSeries t0 frt 60 R (M + 1)) =
    (leadList M I P).mapM fun k : ℕ => fieldAccOne fac (rateSeries t0 frt 60 R (M + 1)) 60 ((P : ℤ) * 60) ((k : ℤ) * 60) := by
  unfold fieldAccumulate
  have hc := checkAcc_series t0 0 60 (by norm_num) (fun _ => 0) (M + 1) (by omega) _ (List.Perm.refl _)
    ⟨some ((P : ℤ) * 60), some ((((List.range (M / I)).map fun k => (k + 1) * I).map fun L : ℕ => (L : ℤ)).map fun l => l * 60)⟩ P hP rfl _ rfl
  rw [times_series, hc]
  simp only [bind, Except.bind, Option.getD_some]
  rw [rateSeries_sorted t0 frt 60 (by norm_num) R (M + 1), List.map_map, List.filter_map, List.mapM_map]
  unfold leadList
  congr 1
  apply List.filter_congr
  intro L _
  simp only [Function.comp, decide_eq_decide]
  omega

/-- What the extrapolation gives, as rates at regular times. -/
theorem nowcast_series {thr : ℚ} {extrap : RateField → RateField → RateField → ℕ → List RateField} {M : ℕ} {c : NowcastCube} {u v : RateField}
    {oe : List (ℤ × (ℕ → ℕ → ℚ))} {cubes : List RateForecast} (he : ∀ f a b n, (extrap f a b n).length = n) (hb : c.timeBounds = none)
    (hp : c.period = none ∨ c.period = some 0) (h : pystepsNowcast thr extrap 1 M c u v oe = .ok cubes) :
    cubes.length = M + 1 ∧ cubes.map (RateForecast.inMetres c.scale) =
      rateSeries c.time (c.frt.getD c.time) 60 (fun k y x => ((cubes[k]?.map fun f => f.data y x).join).map fun v => v * c.scale / 3600000) (M + 1) := by
  obtain ⟨_, _, rate, _, _, _, hf⟩ := C190_forecasts h
  obtain ⟨hl, hg⟩ := List.forall₂_iff_get.1 hf
  have hl' : cubes.length = M + 1 := by
    rw [← hl, List.length_zipIdx, List.length_cons, he]
    simp
  refine ⟨hl', ?_⟩
  unfold rateSeries
  apply List.ext_getElem
  · simp [hl']
  intro k h1 h2
  have hk : k < cubes.length := by simpa using h1
  have hh := hg k (by rw [hl]; exact hk) hk
  obtain ⟨e1, e2, e3, e4, _⟩ := hh
  simp only [List.get_eq_getElem, List.getElem_zipIdx, Nat.zero_add] at e1 e2 e3 e4
  rw [List.getElem_map, List.getElem_map, List.getElem_range]
  have e4' : cubes[k].period = (k : ℤ) * 60 := by
    rw [e4]
    by_cases hk0 : k = 0
    · subst hk0
      rw [if_pos rfl]
      rcases hp with h | h <;> rw [h] <;> simp
    · rw [if_neg hk0]; ring
  have e3' : cubes[k].frt = c.frt.getD c.time := by rw [e3]; cases c.frt <;> rfl
  have e1' : cubes[k].time = c.time + (k : ℤ) * 60 := by rw [e1]; ring
  unfold RateForecast.inMetres
  simp only [List.getElem?_eq_getElem hk]
  rw [e1', e2, e3', e4', hb]
  rfl

/-- One accumulation of the nowcasts. -/
theorem accFor_window {cubes : List RateForecast} {scale fac : ℚ} {t0 frt : ℤ} {M P L : ℕ} (hl : cubes.length = M + 1) (hP : 0 < P) (hPL : P ≤ L)
    (hL : L ≤ M) :
    ∃ r, fieldAccOne fac (rateSeries t0 frt 60 (fun k y x => ((cubes[k]?.map fun f => f.data y x).join).map fun v => v * scale / 3600000) (M + 1)) 60
        ((P : ℤ) * 60) ((L : ℤ) * 60) = .ok r ∧ Spec.accFor cubes scale fac t0 P L r := by
  refine ⟨_, fieldAccOne_series fac t0 frt 60 (by norm_num) _ (M + 1) P L hP hPL (by omega), ?_, ?_, fun y x => ?_⟩
  · simp only [mul_comm]
  · simp only [mul_comm]
  · obtain ⟨h1, h2⟩ := fieldAmount_window 60 y x (fun j : ℕ => (⟨t0 + (L - P + j : ℕ) * 60, none, frt, (L - P + j : ℕ) * 60, fun y x =>
      ((cubes[L - P + j]?.map fun f => f.data y x).join).map fun v => v * scale / 3600000⟩ : RateForecast)) P hP
    constructor
    · rw [Option.map_eq_none_iff, h1]
      constructor
      · rintro ⟨j, hj, hn⟩
        have hlt : L - P + j < cubes.length := by omega
        refine ⟨cubes[L - P + j], L - P + j, List.getElem?_eq_getElem hlt, by omega, by omega, ?_⟩
        simp only [List.getElem?_eq_getElem hlt, Option.map_some, Option.join_some, Option.map_eq_none_iff] at hn
        exact hn
      · rintro ⟨f, k, hk, ha, hb, hn⟩
        refine ⟨k - (L - P), by omega, ?_⟩
        simp only
        rw [show L - P + (k - (L - P)) = k by omega, hk]
        simp [hn]
    · intro r hr
      have := h2 (fun j => r (L - P + j) * scale / 3600000) (by
        intro j hj
        have hlt : L - P + j < cubes.length := by omega
        simp only [List.getElem?_eq_getElem hlt, Option.map_some, Option.join_some]
        rw [hr cubes[L - P + j] (L - P + j) (List.getElem?_eq_getElem hlt) (by omega) (by omega)]
        rfl)
      simp only
      rw [this, Option.map_some]
      congr 2
      rw [← List.sum_map_mul_right]
      congr 1
      apply List.map_congr_left
      intro j _
      simp only [add_assoc]
      push_cast
      ring

/-- C269: the accumulations of nowcast-accumulate: one for each multiple of the interval that is at least the period and at most the greatest lead
time, in this order; each is the trapezoidal integral of the nowcast rates of each minute over exactly the period that ends there, missing where one
of them is, and says so in its bounds. -/
theorem C269_accumulations {thr : ℚ} {extrap : RateField → RateField → RateField → ℕ → List RateField} {fac : ℚ} {M I P : ℕ} {c : NowcastCube}
    {u v : RateField} {oe : List (ℤ × (ℕ → ℕ → ℚ))} {out : List FieldAcc} (he : ∀ f a b n, (extrap f a b n).length = n) (hI : 0 < I) (hP : 0 < P)
    (hb : c.timeBounds = none) (hp : c.period = none ∨ c.period = some 0)
    (h : nowcastAccumulate thr extrap fac M I P c u v oe = .ok out) :
    ∃ cubes leads, pystepsNowcast thr extrap 1 M c u v oe = .ok cubes ∧ Spec.accLeads M I P leads ∧
      List.Forall₂ (fun L r => Spec.accFor cubes c.scale fac c.time P L r) leads out := by
  unfold nowcastAccumulate at h
  simp only [bind, Except.bind] at h
  cases hc : pystepsNowcast thr extrap 1 M c u v oe with
  | error e => rw [hc] at h; exact nomatch h
  | ok cubes =>
    rw [hc] at h
    simp only [accLeads_nat M I hI] at h
    obtain ⟨hl, hs⟩ := nowcast_series he hb hp hc
    rw [hs] at h
    refine ⟨cubes, leadList M I P, rfl, leadList_spec M I P hI hP, ?_⟩
    rcases Nat.eq_zero_or_pos M with hM | hM
    · subst hM
      exfalso
      rw [show rateSeries c.time (c.frt.getD c.time) 60 _ (0 + 1) = [_] from rfl] at h
      exact nomatch h
    · rw [fieldAccumulate_series fac c.time _ _ M I P hM hI hP] at h
      cases hm : (leadList M I P).mapM fun k : ℕ => fieldAccOne fac (rateSeries c.time (c.frt.getD c.time) 60
          (fun k y x => ((cubes[k]?.map fun f => f.data y x).join).map fun v => v * c.scale / 3600000) (M + 1)) 60 ((P : ℤ) * 60) ((k : ℤ) * 60) with
      | error e => rw [hm] at h; exact nomatch h
      | ok l =>
        rw [hm] at h
        have hout : l = out := by
          simp only [mergeAccumulations] at h
          by_cases hn : l = []
          · rw [if_pos hn] at h; exact nomatch h
          · rw [if_neg hn] at h; injection h
        subst hout
        have hf := mapM_ok_forall₂ hm
        rw [List.forall₂_iff_get] at hf ⊢
        refine ⟨hf.1, fun i h1 h2 => ?_⟩
        have hmem : (leadList M I P).get ⟨i, h1⟩ ∈ leadList M I P := List.get_mem _ _
        obtain ⟨_, hPL, hLM⟩ := ((leadList_spec M I P hI hP).2 _).1 hmem
        obtain ⟨r, hr, hs⟩ := accFor_window (scale := c.scale) (fac := fac) (t0 := c.time) (frt := c.frt.getD c.time) hl hP hPL hLM
        have hi := hf.2 i h1 h2
        rw [hr] at hi
        injection hi with hi
        rw [← hi]
        exact hs

/-- C269: it succeeds exactly if the nowcast does and some lead time wanted is not less than the period. -/
theorem C269_succeeds {thr : ℚ} {extrap : RateField → RateField → RateField → ℕ → List RateField} {fac : ℚ} {M I P : ℕ} {c : NowcastCube}
    {u v : RateField} {oe : List (ℤ × (ℕ → ℕ → ℚ))} (he : ∀ f a b n, (extrap f a b n).length = n) (hI : 0 < I) (hP : 0 < P)
    (hb : c.timeBounds = none) (hp : c.period = none ∨ c.period = some 0) :
    (∃ out, nowcastAccumulate thr extrap fac M I P c u v oe = .ok out) ↔
      (∃ cubes, pystepsNowcast thr extrap 1 M c u v oe = .ok cubes) ∧ ∃ L, I ∣ L ∧ P ≤ L ∧ L ≤ M := by
  constructor
  · rintro ⟨out, h⟩
    obtain ⟨cubes, leads, hc, hl, hf⟩ := C269_accumulations he hI hP hb hp h
    refine ⟨⟨cubes, hc⟩, ?_⟩
    cases hf with
    | nil =>
      exfalso
      unfold nowcastAccumulate at h
      simp only [bind, Except.bind] at h
      rw [hc] at h
      simp only [accLeads_nat M I hI] at h
      revert h
      generalize fieldAccumulate fac _ _ _ = z
      cases z with
      | error e => intro h; exact nomatch h
      | ok l =>
        unfold mergeAccumulations
        by_cases hn : l = []
        · simp only [if_pos hn]; intro h; exact nomatch h
        · simp only [if_neg hn]; intro h; injection h with h; exact hn h
    | @cons L _ _ _ _ _ => exact ⟨L, (hl.2 L).1 (by simp)⟩
  · rintro ⟨⟨cubes, hc⟩, L, hd, hPL, hLM⟩
    unfold nowcastAccumulate
    simp only [bind, Except.bind, hc, accLeads_nat M I hI]
    obtain ⟨hl, hs⟩ := nowcast_series he hb hp hc
    rw [hs, fieldAccumulate_series fac c.time _ _ M I P (by omega) hI hP]
    have hex : ∀ k ∈ leadList M I P, ∃ r, fieldAccOne fac (rateSeries c.time (c.frt.getD c.time) 60
          (fun k y x => ((cubes[k]?.map fun f => f.data y x).join).map fun v => v * c.scale / 3600000) (M + 1)) 60 ((P : ℤ) * 60) ((k : ℤ) * 60) = .ok r := by
      intro k hk
      obtain ⟨_, h1, h2⟩ := ((leadList_spec M I P hI hP).2 k).1 hk
      obtain ⟨r, hr, _⟩ := accFor_window (scale := c.scale) (fac := fac) (t0 := c.time) (frt := c.frt.getD c.time) hl hP h1 h2
      exact ⟨r, hr⟩
    obtain ⟨l, hm⟩ := mapM_total _ _ hex
    rw [hm]
    simp only [mergeAccumulations]
    have hmem : L ∈ leadList M I P := ((leadList_spec M I P hI hP).2 L).2 ⟨hd, hPL, hLM⟩
    have hne : l ≠ [] := by
      rintro rfl
      have := (mapM_ok_forall₂ hm).length_eq
      rw [List.length_eq_zero_iff.1 this] at hmem
      exact absurd hmem (by simp)
    rw [if_neg hne]
    exact ⟨l, rfl⟩

/-- C269: with the period as the interval, each minute up to the last lead time is part of exactly one accumulation. -/
theorem C269_tile {M P : ℕ} (hP : 0 < P) {leads : List ℕ} (h : Spec.accLeads M P P leads) (k : ℕ) (hk : k < M / P * P) :
    ∃! L, L ∈ leads ∧ L ≤ k + P ∧ k < L := by
  refine ⟨(k / P + 1) * P, ⟨(h.2 _).2 ⟨Dvd.intro_left _ rfl, Nat.le_mul_of_pos_left _ (Nat.succ_pos _), ?_⟩, ?_, ?_⟩, ?_⟩
  · have : k / P < M / P := (Nat.div_lt_iff_lt_mul hP).2 hk
    calc (k / P + 1) * P ≤ (M / P) * P := Nat.mul_le_mul_right _ this
      _ ≤ M := Nat.div_mul_le_self _ _
  · have := Nat.div_mul_le_self k P
    rw [add_mul]; omega
  · have := Nat.lt_div_mul_add (a := k) hP
    rw [add_mul]; omega
  · rintro L ⟨hL, h1, h2⟩
    obtain ⟨q, rfl⟩ := ((h.2 L).1 hL).1
    have hq : q = k / P + 1 := by
      apply le_antisymm
      · by_contra hc
        have h3 : k / P + 2 ≤ q := by omega
        have h4 := Nat.mul_le_mul_left P h3
        have h5 := Nat.lt_div_mul_add (a := k) hP
        rw [mul_add, mul_comm P (k / P)] at h4
        omega
      · exact (Nat.div_lt_iff_lt_mul hP).2 (by rw [mul_comm]; exact h2)
    rw [hq, mul_comm]

/-- C269: rates between two values give amounts between those of steady rates. -/
theorem C269_limits {cubes : List RateForecast} {scale fac : ℚ} {P L y x : ℕ} {a : ℚ} (hs : 0 ≤ scale) (hf : 0 ≤ fac) (hPL : P ≤ L)
    (hl : L < cubes.length) (h : Spec.minuteAmount cubes scale fac P L y x (some a)) {lo hi : ℚ}
    (hr : ∀ f ∈ cubes, ∀ q, f.data y x = some q → lo ≤ q ∧ q ≤ hi) :
    lo * scale / 3600000 * (60 * P) * fac ≤ a ∧ a ≤ hi * scale / 3600000 * (60 * P) * fac := by
  have hsome : ∀ k, L ≤ k + P → k ≤ L → ∃ f q, cubes[k]? = some f ∧ f.data y x = some q ∧ lo ≤ q ∧ q ≤ hi := by
    intro k h1 h2
    have hlt : k < cubes.length := by omega
    cases hq : cubes[k].data y x with
    | none => exact absurd (h.1.2 ⟨cubes[k], k, List.getElem?_eq_getElem hlt, h1, h2, hq⟩) (by simp)
    | some q => exact ⟨cubes[k], q, List.getElem?_eq_getElem hlt, hq, hr _ (List.getElem_mem hlt) q hq⟩
  set r : ℕ → ℚ := fun k => ((cubes[k]?.map fun f => f.data y x).join).getD 0 with hrdef
  have hrk : ∀ k, L ≤ k + P → k ≤ L → lo ≤ r k ∧ r k ≤ hi := by
    intro k h1 h2
    obtain ⟨f, q, e1, e2, e3⟩ := hsome k h1 h2
    rw [hrdef]
    simp only [e1, Option.map_some, Option.join_some, e2, Option.getD_some]
    exact e3
  have ha := h.2 r (by
    intro f k e h1 h2
    obtain ⟨f', q, e1, e2, _⟩ := hsome k h1 h2
    rw [e1] at e
    injection e with e
    subst e
    rw [hrdef]
    simp only [e1, Option.map_some, Option.join_some, e2, Option.getD_some])
  injection ha with ha
  have hb := trapezoid_limits 60 (by norm_num) r (L - P) P lo hi (fun j h1 h2 => hrk j (by omega) (by omega))
  unfold Spec.trapezoid at hb
  push_cast at hb
  rw [ha]
  have hc : 0 ≤ scale / 3600000 * fac := by positivity
  constructor
  · have := mul_le_mul_of_nonneg_right hb.1 hc
    nlinarith
  · have := mul_le_mul_of_nonneg_right hb.2 hc
    nlinarith

/-- Readable parts of the accumulations. -/
def readAccs (r : Except Err (List FieldAcc)) : Option (List (SCoord ℤ × SCoord ℤ × Option ℚ)) :=
  r.toOption.map fun l => l.map fun f => (f.fp, f.time, f.data 1 2)

/-- The hypotheses of the theorems are met: rates of 3 mm/h (and enhancement of nothing) give after 2 and 4 minutes 0.1 mm each in 2 minutes. -/
theorem C269_example :
    readAccs (nowcastAccumulate (1 / 32) exStill 1000 5 2 2 exRate (fun _ _ => some 1) (fun _ _ => some 1) [(0, fun _ _ => 0)]) =
      some [(⟨120, some (0, 120)⟩, ⟨120, some (0, 120)⟩, some (1 / 10)), (⟨240, some (120, 240)⟩, ⟨240, some (120, 240)⟩, some (1 / 10))] := by
  decide +kernel

example : ∀ f a b n, (exStill f a b n).length = n := fun _ _ _ n => List.length_replicate

/-- Finding: with an interval longer than the period the minutes between the periods are in no accumulation, without a warning: of the six minutes of
this nowcast only the third and the sixth are. -/
theorem C269_gaps_refuted :
    readAccs (nowcastAccumulate (1 / 32) exStill 1000 6 3 1 exRate (fun _ _ => some 1) (fun _ _ => some 1) [(0, fun _ _ => 0)]) =
      some [(⟨180, some (120, 180)⟩, ⟨180, some (120, 180)⟩, some (1 / 20)), (⟨360, some (300, 360)⟩, ⟨360, some (300, 360)⟩, some (1 / 20))] := by
  decide +kernel

/-- Finding: an analysis with time bounds gives all accumulations the time and the bounds of the analysis (here an analysis at 3600 s with bounds of
the quarter before). -/
theorem C269_bounds_refuted :
    readAccs (nowcastAccumulate (1 / 32) exStill 1000 4 2 2 ⟨"rainfall_rate", [0, 1000], [0, 1000], 1, 3600, some (2700, 3600), none, none,
      fun _ _ => some 3⟩ (fun _ _ => some 1) (fun _ _ => some 1) [(3600, fun _ _ => 0)]) =
      some [(⟨120, some (0, 120)⟩, ⟨3600, some (2700, 3600)⟩, some (1 / 10)), (⟨240, some (120, 240)⟩, ⟨3600, some (2700, 3600)⟩, some (1 / 10))] := by
  decide +kernel

end Improver
