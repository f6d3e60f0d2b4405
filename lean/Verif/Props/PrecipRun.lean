import Verif.Model.PrecipRun
import Verif.Props.PrecipType
import Verif.Props.Checker
import Verif.Props.RefRun
import Mathlib.Data.List.Nodup

/-! ### C240-C242: which input cube is used for what in freezing rain, snow fraction, snow splitter and visibility -/

namespace Improver

/-- Specification: of the given words exactly `own` is a part of the name. -/
def Spec.onlyWord (words : List String) (own : String) (name : List Char) : Prop :=
  ∀ w ∈ words, w.toList <:+: name ↔ w = own

theorem filter_one_of_perm {C : Type} {cubes l : List C} (hp : cubes.Perm l) (p : C → Bool) {c : C} (h : l.filter p = [c]) :
    cubes.filter p = [c] := by
  have := hp.filter p
  rw [h] at this
  exact List.perm_singleton.1 this

theorem oneNameWith_perm {C : Type} (nameOf : C → List Char) {cubes l : List C} (hp : cubes.Perm l) (part : List Char) {c : C}
    (h : l.filter (fun c => hasPart part (nameOf c)) = [c]) : oneNameWith part (cubes.map nameOf) = .ok (nameOf c) := by
  unfold oneNameWith
  rw [List.filter_map]
  have : cubes.filter ((fun n => hasPart part n) ∘ nameOf) = [c] := filter_one_of_perm hp _ h
  rw [this]
  rfl

theorem oneNameWith_ok {part : List Char} {names : List (List Char)} {n : List Char} (h : oneNameWith part names = .ok n) :
    n ∈ names ∧ part <:+: n ∧ ∀ m ∈ names, part <:+: m → m = n := by
  unfold oneNameWith at h
  split at h
  · next m hm =>
    simp only [Except.ok.injEq] at h
    subst h
    have : ∀ x, x ∈ names.filter (fun n => hasPart part n) ↔ x = m := by rw [hm]; simp
    simp only [List.mem_filter, hasPart_iff] at this
    exact ⟨((this m).2 rfl).1, ((this m).2 rfl).2, fun x hx hpx => (this x).1 ⟨hx, hpx⟩⟩
  · exact nomatch h

theorem oneCubeNamed_mem {C : Type} (nameOf : C → List Char) {cubes : List C} (hn : (cubes.map nameOf).Nodup) {c : C} (hc : c ∈ cubes) :
    oneCubeNamed nameOf (nameOf c) cubes = .ok c := by
  unfold oneCubeNamed
  have : cubes.filter (fun d => decide (nameOf d = nameOf c)) = [c] := by
    induction cubes with
    | nil => exact nomatch hc
    | cons a l ih =>
      rw [List.map_cons, List.nodup_cons] at hn
      rw [List.filter_cons]
      rcases List.mem_cons.1 hc with rfl | hc'
      · rw [if_pos (by simp)]
        congr 1
        rw [List.filter_eq_nil_iff]
        intro d hd hdc
        exact hn.1 (List.mem_map.2 ⟨d, hd, by simpa using hdc⟩)
      · rw [if_neg, ih hn.2 hc']
        intro h
        have h' : nameOf a = nameOf c := by simpa using h
        exact hn.1 (List.mem_map.2 ⟨c, hc', h'.symm⟩)
  rw [this]

theorem oneCubeNamed_ok {C : Type} (nameOf : C → List Char) {n : List Char} {cubes : List C} {c : C}
    (h : oneCubeNamed nameOf n cubes = .ok c) : c ∈ cubes ∧ nameOf c = n := by
  unfold oneCubeNamed at h
  split at h
  · next m hm =>
    simp only [Except.ok.injEq] at h
    subst h
    have : m ∈ cubes.filter (fun d => decide (nameOf d = n)) := by rw [hm]; simp
    simpa using this
  · exact nomatch h

theorem spatialMatch_true {X : Type} [DecidableEq X] (p : X × X) (l : List (X × X)) (h : ∀ q ∈ l, q = p) : spatialMatch (p :: l) = .ok true := by
  obtain ⟨b, hb, hiff⟩ := C181_spatial (p :: l) (by simp)
  have hall : ∀ q ∈ p :: l, q = p := by
    intro q hq
    rcases List.mem_cons.1 hq with rfl | hq
    · rfl
    · exact h q hq
  rw [hb, hiff.2 (fun c hc d hd => by rw [hall c hc, hall d hd]; exact ⟨rfl, rfl⟩)]

/-- Specification: the probability that the temperature is below the threshold `k`. -/
def Spec.coldProbability {X T : Type} (t : ProbField X T) (k : ℕ) (r : ℤ) (i : ℕ) : ℚ :=
  if t.below then t.data r k i else 1 - t.data r k i

/-- Specification: `k` is the only threshold within 0.0027 K of the freezing point, and it is. -/
def Spec.freezingAt {X T : Type} (t : ProbField X T) (k : ℕ) : Prop :=
  k < t.thresholds.length ∧ ∀ j < t.thresholds.length,
    |t.thresholds.getD j 0 * t.unit.scale + t.unit.offset - 27315 / 100| ≤ 1 / 100000000 + 1 / 100000 * (27315 / 100) ↔ j = k

theorem range_filter_unique (n k : ℕ) (p : ℕ → Bool) (hk : k < n) (h : ∀ j < n, p j = true ↔ j = k) : (List.range n).filter p = [k] := by
  have h1 : (List.range n).filter p = (List.range n).filter (fun j => decide (j = k)) := by
    apply List.filter_congr
    intro j hj
    rw [Bool.eq_iff_iff, h j (List.mem_range.1 hj)]
    simp
  rw [h1]
  have h2 : ((List.range n).filter (fun j => decide (j = k))).Nodup := List.nodup_range.filter _
  have h3 : ∀ x, x ∈ (List.range n).filter (fun j => decide (j = k)) ↔ x ∈ [k] := by
    intro x
    simp only [List.mem_filter, List.mem_range, decide_eq_true_eq, List.mem_singleton]
    exact ⟨fun h => h.2, fun h => ⟨h ▸ hk, h⟩⟩
  exact List.perm_singleton.1 ((List.perm_ext_iff_of_nodup h2 (List.nodup_singleton k)).2 h3)

theorem isclose_freezing (u : StdUnit) (v : ℚ) : npIsclose (convertUnit u kelvin v) (27315 / 100) = true ↔
    |v * u.scale + u.offset - 27315 / 100| ≤ 1 / 100000000 + 1 / 100000 * (27315 / 100) := by
  unfold npIsclose convertUnit kelvin
  rw [decide_eq_true_iff]
  simp only [sub_zero, div_one]
  rw [abs_of_pos (show (0 : ℚ) < 27315 / 100 by norm_num)]

theorem freezingThreshold_ok {X T : Type} (t : ProbField X T) (k : ℕ) (hu : t.unit.dimension = "temperature") (hk : Spec.freezingAt t k) :
    freezingThreshold t.unit t.thresholds = .ok k := by
  unfold freezingThreshold
  rw [if_neg (show ¬ t.unit.dimension ≠ kelvin.dimension from not_not.2 hu)]
  rw [range_filter_unique _ k _ hk.1 (fun j hj => (isclose_freezing _ _).trans (hk.2 j hj))]

/-- The inputs of freezing rain, found whatever the order of the cubes. -/
theorem freezingInputs_ok {X T : Type} [DecidableEq X] [DecidableEq T] (rain sleet temp : ProbField X T) (cubes : List (ProbField X T))
    (hp : cubes.Perm [rain, sleet, temp])
    (hr : Spec.onlyWord ["rain", "sleet", "temperature"] "rain" rain.name)
    (hs : Spec.onlyWord ["rain", "sleet", "temperature"] "sleet" sleet.name)
    (ht : Spec.onlyWord ["rain", "sleet", "temperature"] "temperature" temp.name)
    (hg : sleet.place = rain.place ∧ temp.place = rain.place) (htime : sleet.time = rain.time ∧ temp.time = rain.time)
    (hu : sleet.unit.dimension = rain.unit.dimension) (hscale : rain.unit.scale ≠ 0)
    (hthr : List.Forall₂ (Spec.sameQuantity sleet.unit rain.unit) sleet.thresholds rain.thresholds)
    (htu : temp.unit.dimension = "temperature") (k : ℕ) (hk : Spec.freezingAt temp k) :
    freezingInputs cubes = .ok (rain, { sleet with unit := rain.unit, thresholds := rain.thresholds },
      { temp with below := true, data := fun r j i => if temp.below then temp.data r j i else 1 - temp.data r j i }, k) := by
  have r1 := hasPart_iff "rain".toList rain.name
  have r2 := hasPart_iff "sleet".toList rain.name
  have r3 := hasPart_iff "temperature".toList rain.name
  have s1 := hasPart_iff "rain".toList sleet.name
  have s2 := hasPart_iff "sleet".toList sleet.name
  have s3 := hasPart_iff "temperature".toList sleet.name
  have t1 := hasPart_iff "rain".toList temp.name
  have t2 := hasPart_iff "sleet".toList temp.name
  have t3 := hasPart_iff "temperature".toList temp.name
  rw [hr "rain" (by simp)] at r1; rw [hr "sleet" (by simp)] at r2; rw [hr "temperature" (by simp)] at r3
  rw [hs "rain" (by simp)] at s1; rw [hs "sleet" (by simp)] at s2; rw [hs "temperature" (by simp)] at s3
  rw [ht "rain" (by simp)] at t1; rw [ht "sleet" (by simp)] at t2; rw [ht "temperature" (by simp)] at t3
  have r1' : hasPart "rain".toList rain.name = true := r1.2 rfl
  have r2' : hasPart "sleet".toList rain.name = false := by
    rw [Bool.eq_false_iff]; exact fun h => absurd (r2.1 h) (by decide)
  have r3' : hasPart "temperature".toList rain.name = false := by
    rw [Bool.eq_false_iff]; exact fun h => absurd (r3.1 h) (by decide)
  have s1' : hasPart "rain".toList sleet.name = false := by
    rw [Bool.eq_false_iff]; exact fun h => absurd (s1.1 h) (by decide)
  have s2' : hasPart "sleet".toList sleet.name = true := s2.2 rfl
  have s3' : hasPart "temperature".toList sleet.name = false := by
    rw [Bool.eq_false_iff]; exact fun h => absurd (s3.1 h) (by decide)
  have t1' : hasPart "rain".toList temp.name = false := by
    rw [Bool.eq_false_iff]; exact fun h => absurd (t1.1 h) (by decide)
  have t2' : hasPart "sleet".toList temp.name = false := by
    rw [Bool.eq_false_iff]; exact fun h => absurd (t2.1 h) (by decide)
  have t3' : hasPart "temperature".toList temp.name = true := t3.2 rfl
  have hnd : (cubes.map fun c => c.name).Nodup := by
    rw [(hp.map _).nodup_iff]
    simp only [List.map_cons, List.map_nil, List.nodup_cons, List.mem_cons, List.not_mem_nil, or_false, not_or, not_false_eq_true,
      List.nodup_nil, and_true]
    refine ⟨⟨?_, ?_⟩, ?_⟩
    · intro h; rw [h, s1'] at r1'; exact nomatch r1'
    · intro h; rw [h, t1'] at r1'; exact nomatch r1'
    · intro h; rw [h, t2'] at s2'; exact nomatch s2'
  have n1 : oneNameWith "rain".toList (cubes.map fun c => c.name) = .ok rain.name :=
    oneNameWith_perm _ hp _ (by simp only [List.filter, r1', s1', t1'])
  have n2 : oneNameWith "sleet".toList (cubes.map fun c => c.name) = .ok sleet.name :=
    oneNameWith_perm _ hp _ (by simp only [List.filter, r2', s2', t2'])
  have n3 : oneNameWith "temperature".toList (cubes.map fun c => c.name) = .ok temp.name :=
    oneNameWith_perm _ hp _ (by simp only [List.filter, r3', s3', t3'])
  have hnames : freezingNames (cubes.map fun c => c.name) = .ok (rain.name, sleet.name, temp.name) := by
    unfold freezingNames
    rw [if_neg (not_not.2 hnd), n1, n2, n3]
    rfl
  have hthr' : sleet.thresholds.map (convertUnit sleet.unit rain.unit) = rain.thresholds := by
    have := hthr.imp (fun x y h => (convertUnit_sameQuantity sleet.unit rain.unit hscale x y).2 h)
    exact List.forall₂_eq_eq_eq ▸ (List.forall₂_map_left_iff.2 this)
  unfold freezingInputs
  rw [if_neg (by rw [hp.length_eq]; simp), hnames]
  simp only [bind, Except.bind]
  rw [oneCubeNamed_mem ProbField.name hnd (hp.mem_iff.2 (by simp)), oneCubeNamed_mem ProbField.name hnd (hp.mem_iff.2 (by simp)),
    oneCubeNamed_mem ProbField.name hnd (hp.mem_iff.2 (by simp))]
  simp only [List.map_cons, List.map_nil]
  rw [spatialMatch_true rain.place _ (by simp [hg.1, hg.2])]
  simp only
  rw [if_neg (by simp), if_neg (by simp [htime.1, htime.2]), if_neg (by simpa using hu), if_neg (by rw [hthr']; simp),
    freezingThreshold_ok temp k htu hk, hthr']
  rfl

/-- **C240** (members).  The three cubes may be given in any order, the thresholds of sleet in another unit than those of rain, the
temperature in any unit and as probabilities above or below: the result is, at every threshold and point, the mean over the
realizations of (rain + sleet) × the probability of a temperature below freezing. -/
theorem C240_realizations {X T : Type} [DecidableEq X] [DecidableEq T] (rain sleet temp : ProbField X T) (cubes : List (ProbField X T))
    (hp : cubes.Perm [rain, sleet, temp])
    (hr : Spec.onlyWord ["rain", "sleet", "temperature"] "rain" rain.name)
    (hs : Spec.onlyWord ["rain", "sleet", "temperature"] "sleet" sleet.name)
    (ht : Spec.onlyWord ["rain", "sleet", "temperature"] "temperature" temp.name)
    (hg : sleet.place = rain.place ∧ temp.place = rain.place) (htime : sleet.time = rain.time ∧ temp.time = rain.time)
    (hu : sleet.unit.dimension = rain.unit.dimension) (hscale : rain.unit.scale ≠ 0)
    (hthr : List.Forall₂ (Spec.sameQuantity sleet.unit rain.unit) sleet.thresholds rain.thresholds)
    (htu : temp.unit.dimension = "temperature") (k : ℕ) (hk : Spec.freezingAt temp k)
    (rs : List ℤ) (hne : rs ≠ []) (h1 : rain.realizations = some rs) (h2 : sleet.realizations = some rs) (h3 : temp.realizations = some rs) :
    ∃ out, freezingRainProcess cubes = .ok out ∧ out.thresholds = rain.thresholds ∧ out.unit = rain.unit ∧ out.place = rain.place ∧
      out.time = rain.time ∧ out.below = sleet.below ∧ out.realizations = none ∧
      ∀ r j i, out.data r j i =
        (rs.map fun m => (rain.data m j i + sleet.data m j i) * Spec.coldProbability temp k m i).sum / (rs.length : ℕ) := by
  have hall : rs.filter (fun m => decide (m ∈ rs)) = rs := List.filter_eq_self.2 fun a ha => decide_eq_true ha
  unfold freezingRainProcess
  rw [freezingInputs_ok rain sleet temp cubes hp hr hs ht hg htime hu hscale hthr htu k hk]
  simp only [bind, Except.bind, h1, h2, h3, and_self]
  rw [hall, if_neg hne]
  refine ⟨_, rfl, rfl, rfl, hg.1, htime.1, rfl, rfl, fun r j i => ?_⟩
  have := freezingRain_general rs rs (fun _ h => h) hne hall (fun m => rain.data m j i) (fun m => sleet.data m j i)
    (fun m => Spec.coldProbability temp k m i)
  unfold ProbField.members
  simp only
  unfold Spec.coldProbability at this ⊢
  rw [this]
  rfl

/-- **C240** (single).  The same for cubes without realizations. -/
theorem C240_single {X T : Type} [DecidableEq X] [DecidableEq T] (rain sleet temp : ProbField X T) (cubes : List (ProbField X T))
    (hp : cubes.Perm [rain, sleet, temp])
    (hr : Spec.onlyWord ["rain", "sleet", "temperature"] "rain" rain.name)
    (hs : Spec.onlyWord ["rain", "sleet", "temperature"] "sleet" sleet.name)
    (ht : Spec.onlyWord ["rain", "sleet", "temperature"] "temperature" temp.name)
    (hg : sleet.place = rain.place ∧ temp.place = rain.place) (htime : sleet.time = rain.time ∧ temp.time = rain.time)
    (hu : sleet.unit.dimension = rain.unit.dimension) (hscale : rain.unit.scale ≠ 0)
    (hthr : List.Forall₂ (Spec.sameQuantity sleet.unit rain.unit) sleet.thresholds rain.thresholds)
    (htu : temp.unit.dimension = "temperature") (k : ℕ) (hk : Spec.freezingAt temp k)
    (h1 : rain.realizations = none) (h2 : sleet.realizations = none) (h3 : temp.realizations = none) :
    ∃ out, freezingRainProcess cubes = .ok out ∧ out.thresholds = rain.thresholds ∧ out.unit = rain.unit ∧ out.place = rain.place ∧
      out.time = rain.time ∧ out.below = sleet.below ∧ out.realizations = none ∧
      ∀ r j i, out.data r j i = (rain.data r j i + sleet.data r j i) * Spec.coldProbability temp k r i := by
  unfold freezingRainProcess
  rw [freezingInputs_ok rain sleet temp cubes hp hr hs ht hg htime hu hscale hthr htu k hk]
  simp only [bind, Except.bind, h1, h2, h3]
  refine ⟨_, rfl, rfl, rfl, hg.1, htime.1, rfl, rfl, fun r j i => ?_⟩
  unfold freezingRainSingle freezingStep Spec.coldProbability
  simp

/-- **C240** (checks).  A result needs exactly three cubes of different names, one of each kind, at one place and time, equal
thresholds of rain and sleet, and a temperature threshold at the freezing point. -/
theorem C240_needs {X T : Type} [DecidableEq X] [DecidableEq T] (cubes : List (ProbField X T)) (out : ProbField X T)
    (h : freezingRainProcess cubes = .ok out) : cubes.length = 3 ∧ (cubes.map fun c => c.name).Nodup ∧
      ∃ rain ∈ cubes, ∃ sleet ∈ cubes, ∃ temp ∈ cubes,
        (∀ c ∈ cubes, "rain".toList <:+: c.name ↔ c.name = rain.name) ∧
        (∀ c ∈ cubes, "sleet".toList <:+: c.name ↔ c.name = sleet.name) ∧
        (∀ c ∈ cubes, "temperature".toList <:+: c.name ↔ c.name = temp.name) ∧
        sleet.place = rain.place ∧ temp.place = rain.place ∧ sleet.time = rain.time ∧ temp.time = rain.time ∧
        sleet.unit.dimension = rain.unit.dimension ∧
        rain.thresholds = sleet.thresholds.map (convertUnit sleet.unit rain.unit) ∧ temp.unit.dimension = "temperature" ∧
        ∃ k, Spec.freezingAt temp k := by
  unfold freezingRainProcess at h
  simp only [bind, Except.bind] at h
  cases hi : freezingInputs cubes with
  | error e => rw [hi] at h; exact nomatch h
  | ok inp =>
    clear h
    unfold freezingInputs at hi
    by_cases hlen : cubes.length ≠ 3
    · rw [if_pos hlen] at hi; exact nomatch hi
    rw [if_neg hlen] at hi
    refine ⟨not_not.1 hlen, ?_⟩
    simp only [bind, Except.bind] at hi
    cases hnm : freezingNames (cubes.map fun c => c.name) with
    | error e => rw [hnm] at hi; exact nomatch hi
    | ok nm =>
      rw [hnm] at hi
      simp only at hi
      unfold freezingNames at hnm
      by_cases hnd : ¬ (cubes.map fun c => c.name).Nodup
      · rw [if_pos hnd] at hnm; exact nomatch hnm
      rw [if_neg hnd] at hnm
      refine ⟨not_not.1 hnd, ?_⟩
      simp only [bind, Except.bind, pure, Except.pure] at hnm
      cases e1 : oneNameWith "rain".toList (cubes.map fun c => c.name) with
      | error e => rw [e1] at hnm; exact nomatch hnm
      | ok a =>
      cases e2 : oneNameWith "sleet".toList (cubes.map fun c => c.name) with
      | error e => rw [e1, e2] at hnm; exact nomatch hnm
      | ok b =>
      cases e3 : oneNameWith "temperature".toList (cubes.map fun c => c.name) with
      | error e => rw [e1, e2, e3] at hnm; exact nomatch hnm
      | ok c =>
        rw [e1, e2, e3] at hnm
        simp only [Except.ok.injEq] at hnm
        subst hnm
        simp only at hi
        cases f1 : oneCubeNamed ProbField.name a cubes with
        | error e => rw [f1] at hi; exact nomatch hi
        | ok rain =>
        cases f2 : oneCubeNamed ProbField.name b cubes with
        | error e => rw [f1, f2] at hi; exact nomatch hi
        | ok sleet =>
        cases f3 : oneCubeNamed ProbField.name c cubes with
        | error e => rw [f1, f2, f3] at hi; exact nomatch hi
        | ok temp =>
          rw [f1, f2, f3] at hi
          simp only [List.map_cons, List.map_nil] at hi
          obtain ⟨m, hm, hmm⟩ := C181_spatial [rain.place, sleet.place, temp.place] (by simp)
          rw [hm] at hi
          simp only at hi
          by_cases g1 : ¬ m = true
          · rw [if_pos g1] at hi; exact nomatch hi
          rw [if_neg g1] at hi
          by_cases g2 : ¬ (rain.time = sleet.time ∧ sleet.time = temp.time)
          · rw [if_pos g2] at hi; exact nomatch hi
          rw [if_neg g2] at hi
          by_cases g3 : sleet.unit.dimension ≠ rain.unit.dimension
          · rw [if_pos g3] at hi; exact nomatch hi
          rw [if_neg g3] at hi
          by_cases g4 : rain.thresholds ≠ sleet.thresholds.map (convertUnit sleet.unit rain.unit)
          · rw [if_pos g4] at hi; exact nomatch hi
          rw [if_neg g4] at hi
          cases f4 : freezingThreshold temp.unit temp.thresholds with
          | error e => rw [f4] at hi; exact nomatch hi
          | ok k =>
            clear hi
            obtain ⟨q1, q1'⟩ := oneCubeNamed_ok _ f1
            obtain ⟨q2, q2'⟩ := oneCubeNamed_ok _ f2
            obtain ⟨q3, q3'⟩ := oneCubeNamed_ok _ f3
            obtain ⟨_, p1, u1⟩ := oneNameWith_ok e1
            obtain ⟨_, p2, u2⟩ := oneNameWith_ok e2
            obtain ⟨_, p3, u3⟩ := oneNameWith_ok e3
            have hpl := hmm.1 (not_not.1 g1)
            have htm := not_not.1 g2
            unfold freezingThreshold at f4
            by_cases g5 : temp.unit.dimension ≠ kelvin.dimension
            · rw [if_pos g5] at f4; exact nomatch f4
            rw [if_neg g5] at f4
            refine ⟨rain, q1, sleet, q2, temp, q3, ?_, ?_, ?_, ?_, ?_, htm.1.symm, (htm.1.trans htm.2).symm, not_not.1 g3, not_not.1 g4,
              not_not.1 g5, k, ?_⟩
            · intro d hd
              rw [q1']
              exact ⟨u1 _ (List.mem_map.2 ⟨d, hd, rfl⟩), fun hd' => hd' ▸ p1⟩
            · intro d hd
              rw [q2']
              exact ⟨u2 _ (List.mem_map.2 ⟨d, hd, rfl⟩), fun hd' => hd' ▸ p2⟩
            · intro d hd
              rw [q3']
              exact ⟨u3 _ (List.mem_map.2 ⟨d, hd, rfl⟩), fun hd' => hd' ▸ p3⟩
            · have := hpl sleet.place (by simp) rain.place (by simp)
              exact Prod.ext this.1 this.2
            · have := hpl temp.place (by simp) rain.place (by simp)
              exact Prod.ext this.1 this.2
            · split at f4
              · exact nomatch f4
              · next k' hk' =>
                simp only [Except.ok.injEq] at f4
                subst f4
                have hmem : ∀ x, x ∈ (List.range temp.thresholds.length).filter
                    (fun k => npIsclose (convertUnit temp.unit kelvin (temp.thresholds.getD k 0)) (27315 / 100)) ↔ x = k' := by
                  rw [hk']; simp
                simp only [List.mem_filter, List.mem_range, isclose_freezing] at hmem
                exact ⟨((hmem k').2 rfl).1, fun j hj => ⟨fun hc => (hmem j).1 ⟨hj, hc⟩, fun hc => ((hmem j).2 hc).2⟩⟩
              · exact nomatch f4

/-- Two thresholds of 0.1 and 1 mm/h for rain, in m/h for sleet; temperature above 1, 0, -1 °C. -/
def exFreezing : List (ProbField ℕ ℕ) :=
  [⟨"probability_of_air_temperature_above_threshold".toList, (1, 2), 5, "air_temperature".toList, ⟨"temperature", 1, 27315 / 100⟩, [1, 0, -1], false,
    some [0, 1], fun r _ _ => if r = 0 then 1 / 4 else 0⟩,
   ⟨"probability_of_sleet_above_threshold".toList, (1, 2), 5, "sleet_rate".toList, ⟨"speed", 1000, 0⟩, [1 / 10000, 1 / 1000], false,
    some [0, 1], fun _ _ _ => 1 / 4⟩,
   ⟨"probability_of_rain_above_threshold".toList, (1, 2), 5, "rain_rate".toList, ⟨"speed", 1, 0⟩, [1 / 10, 1], false, some [0, 1],
    fun r k _ => if r = 0 ∧ k = 0 then 1 / 2 else 0⟩]

example : ∃ rain sleet temp : ProbField ℕ ℕ, exFreezing.Perm [rain, sleet, temp] ∧
    Spec.onlyWord ["rain", "sleet", "temperature"] "rain" rain.name ∧ Spec.onlyWord ["rain", "sleet", "temperature"] "sleet" sleet.name ∧
    Spec.onlyWord ["rain", "sleet", "temperature"] "temperature" temp.name ∧
    List.Forall₂ (Spec.sameQuantity sleet.unit rain.unit) sleet.thresholds rain.thresholds ∧ Spec.freezingAt temp 1 := by
  refine ⟨exFreezing.getD 2 ⟨[], (0, 0), 0, [], kelvin, [], false, none, fun _ _ _ => 0⟩,
    exFreezing.getD 1 ⟨[], (0, 0), 0, [], kelvin, [], false, none, fun _ _ _ => 0⟩,
    exFreezing.getD 0 ⟨[], (0, 0), 0, [], kelvin, [], false, none, fun _ _ _ => 0⟩, ?_, ?_, ?_, ?_, ?_, ?_⟩
  · exact (List.reverse_perm exFreezing).symm
  · unfold Spec.onlyWord; decide +kernel
  · unfold Spec.onlyWord; decide +kernel
  · unfold Spec.onlyWord; decide +kernel
  · unfold Spec.sameQuantity; decide +kernel
  · unfold Spec.freezingAt; decide +kernel

example : (freezingRainProcess exFreezing).toOption.map (fun o => [o.data 0 0 0, o.data 0 1 0]) = some [13 / 32, 7 / 32] ∧
    (freezingRainProcess exFreezing).toOption.map (fun o => (o.thresholds, o.unit)) = some ([1 / 10, 1], ⟨"speed", 1, 0⟩) ∧
    (freezingRainProcess exFreezing).toOption.map (fun o => (o.name, o.thresholdName)) =
      some ("probability_of_freezing_rain_above_threshold".toList, "freezing_rain_rate".toList) := by decide +kernel

/-- **C240** (refuted): one would expect rain and sleet to be two cubes; but a cube whose name holds both words serves as both, beside
a cube that is not used, and the "probability" can be above 1. -/
theorem C240_roles_refuted : ¬ ∀ (cubes : List (ProbField ℕ ℕ)) (out : ProbField ℕ ℕ), (∀ c ∈ cubes, ∀ r k i, 0 ≤ c.data r k i ∧ c.data r k i ≤ 1) →
    freezingRainProcess cubes = .ok out → ∀ r k i, out.data r k i ≤ 1 := by
  intro h
  have hok : ∃ out, freezingRainProcess
      [⟨"rain_and_sleet".toList, (0, 0), 0, [], kelvin, [0], false, none, fun _ _ _ => 1⟩,
       ⟨"temperature".toList, (0, 0), 0, [], kelvin, [27315 / 100], true, none, fun _ _ _ => 1⟩,
       ⟨"wind".toList, (7, 7), 3, [], kelvin, [0], true, none, fun _ _ _ => 1⟩] = .ok out ∧ out.data 0 0 0 = 2 := by
    have h1 : (freezingRainProcess
      [⟨"rain_and_sleet".toList, (0, 0), 0, [], kelvin, [0], false, none, fun _ _ _ => 1⟩,
       ⟨"temperature".toList, (0, 0), 0, [], kelvin, [27315 / 100], true, none, fun _ _ _ => 1⟩,
       ⟨"wind".toList, (7, 7), 3, [], kelvin, [0], true, none, fun _ _ _ => 1⟩]).toOption.map (fun (o : ProbField ℕ ℕ) => o.data 0 0 0) = some 2 := by
      decide +kernel
    revert h1
    generalize (freezingRainProcess _ : Except Err (ProbField ℕ ℕ)) = e
    cases e with
    | error e => intro h1; exact nomatch h1
    | ok o => intro h1; exact ⟨o, rfl, Option.some.inj h1⟩
  obtain ⟨out, ho, hv⟩ := hok
  have := h _ out (by
    intro c hc r k i
    simp only [List.mem_cons, List.not_mem_nil, or_false] at hc
    rcases hc with rfl | rfl | rfl <;> norm_num) ho 0 0 0
  rw [hv] at this
  norm_num at this

/-! ### C241: snow fraction and snow splitter -/

/-- **C241** (fraction).  Rain and snow may be given in either order and in different units of one quantity: the fraction is that of the
snow amount, in the unit of rain, wherever the sum is not zero. -/
theorem C241_fraction {X T : Type} [DecidableEq X] [DecidableEq T] (rain snow : TimedField X T) (cubes : List (TimedField X T))
    (hp : cubes.Perm [rain, snow]) (hr : Spec.onlyWord ["rain", "snow"] "rain" rain.name)
    (hs : Spec.onlyWord ["rain", "snow"] "snow" snow.name) (hg : snow.place = rain.place) (ht : snow.time = rain.time)
    (hm : rain.masked = false ∧ snow.masked = false) (hu : snow.unit.dimension = rain.unit.dimension) (hscale : rain.unit.scale ≠ 0)
    (n : ℕ) (grid : (ℕ → Option ℚ) → ℕ → Option ℚ) :
    ∃ out, snowFractionProcess n grid cubes = .ok out ∧
      ∀ i a, Spec.sameQuantity snow.unit rain.unit (snow.data i) a → rain.data i + a ≠ 0 → out i = some (a / (rain.data i + a)) := by
  have r1 := (hasPart_iff "rain".toList rain.name).trans (hr "rain" (by simp))
  have r2 := (hasPart_iff "snow".toList rain.name).trans (hr "snow" (by simp))
  have s1 := (hasPart_iff "rain".toList snow.name).trans (hs "rain" (by simp))
  have s2 := (hasPart_iff "snow".toList snow.name).trans (hs "snow" (by simp))
  have r1' : hasPart "rain".toList rain.name = true := r1.2 rfl
  have r2' : hasPart "snow".toList rain.name = false := by
    rw [Bool.eq_false_iff]; exact fun h => absurd (r2.1 h) (by decide)
  have s1' : hasPart "rain".toList snow.name = false := by
    rw [Bool.eq_false_iff]; exact fun h => absurd (s1.1 h) (by decide)
  have s2' : hasPart "snow".toList snow.name = true := s2.2 rfl
  have hne : rain.name ≠ snow.name := by
    intro h; rw [h, s1'] at r1'; exact nomatch r1'
  have hnd : (cubes.map TimedField.name).Nodup := by
    rw [(hp.map _).nodup_iff]
    simpa using hne
  have n1 : oneNameWith "rain".toList (cubes.map fun c => c.name) = .ok rain.name :=
    oneNameWith_perm _ hp _ (by simp only [List.filter, r1', s1'])
  have n2 : oneNameWith "snow".toList (cubes.map fun c => c.name) = .ok snow.name :=
    oneNameWith_perm _ hp _ (by simp only [List.filter, r2', s2'])
  have hin : snowFractionInputs cubes = .ok (rain, { snow with unit := rain.unit, data := fun i => convertUnit snow.unit rain.unit (snow.data i) }) := by
    unfold snowFractionInputs
    rw [if_neg (by rw [hp.length_eq]; simp), n1, n2]
    simp only [bind, Except.bind]
    rw [if_neg hne, oneCubeNamed_mem TimedField.name hnd (hp.mem_iff.2 (by simp)), oneCubeNamed_mem TimedField.name hnd (hp.mem_iff.2 (by simp))]
    simp only [List.map_cons, List.map_nil]
    rw [if_neg (by simpa using hu), spatialMatch_true rain.place _ (by simp [hg])]
    simp only
    rw [if_neg (by simp), if_neg (by simp [ht]), if_neg (by simp [hm.1, hm.2])]
  unfold snowFractionProcess
  rw [hin]
  refine ⟨_, rfl, fun i a ha h0 => ?_⟩
  unfold snowFraction interpolateMissing
  simp only
  rw [(convertUnit_sameQuantity snow.unit rain.unit hscale _ _).2 ha]
  unfold snowRatio divFinite
  rw [if_neg h0]

/-- **C241** (fraction, checks).  Without exactly two cubes, or when places, times or quantities differ or data are masked, there is no
result. -/
theorem C241_fraction_needs {X T : Type} [DecidableEq X] [DecidableEq T] (n : ℕ) (grid : (ℕ → Option ℚ) → ℕ → Option ℚ)
    (cubes : List (TimedField X T)) (out : ℕ → Option ℚ) (h : snowFractionProcess n grid cubes = .ok out) :
    cubes.length = 2 ∧ ∃ rain ∈ cubes, ∃ snow ∈ cubes, rain.name ≠ snow.name ∧ "rain".toList <:+: rain.name ∧ "snow".toList <:+: snow.name ∧
      ¬ "snow".toList <:+: rain.name ∧ ¬ "rain".toList <:+: snow.name ∧
      snow.place = rain.place ∧ snow.time = rain.time ∧ rain.masked = false ∧ snow.masked = false ∧
      snow.unit.dimension = rain.unit.dimension := by
  unfold snowFractionProcess at h
  simp only [bind, Except.bind] at h
  cases hi : snowFractionInputs cubes with
  | error e => rw [hi] at h; exact nomatch h
  | ok inp =>
    clear h
    unfold snowFractionInputs at hi
    by_cases hlen : cubes.length ≠ 2
    · rw [if_pos hlen] at hi; exact nomatch hi
    rw [if_neg hlen] at hi
    refine ⟨not_not.1 hlen, ?_⟩
    simp only [bind, Except.bind] at hi
    cases e1 : oneNameWith "rain".toList (cubes.map fun c => c.name) with
    | error e => rw [e1] at hi; exact nomatch hi
    | ok a =>
    cases e2 : oneNameWith "snow".toList (cubes.map fun c => c.name) with
    | error e => rw [e1, e2] at hi; exact nomatch hi
    | ok b =>
      rw [e1, e2] at hi
      simp only at hi
      by_cases g0 : a = b
      · rw [if_pos g0] at hi; exact nomatch hi
      rw [if_neg g0] at hi
      cases f1 : oneCubeNamed TimedField.name a cubes with
      | error e => rw [f1] at hi; exact nomatch hi
      | ok rain =>
      cases f2 : oneCubeNamed TimedField.name b cubes with
      | error e => rw [f1, f2] at hi; exact nomatch hi
      | ok snow =>
        rw [f1, f2] at hi
        simp only [List.map_cons, List.map_nil] at hi
        by_cases g3 : snow.unit.dimension ≠ rain.unit.dimension
        · rw [if_pos g3] at hi; exact nomatch hi
        rw [if_neg g3] at hi
        obtain ⟨m, hm, hmm⟩ := C181_spatial [rain.place, snow.place] (by simp)
        rw [hm] at hi
        simp only at hi
        by_cases g1 : ¬ m = true
        · rw [if_pos g1] at hi; exact nomatch hi
        rw [if_neg g1] at hi
        by_cases g2 : rain.time ≠ snow.time
        · rw [if_pos g2] at hi; exact nomatch hi
        rw [if_neg g2] at hi
        by_cases g4 : rain.masked = true ∨ snow.masked = true
        · rw [if_pos g4] at hi; exact nomatch hi
        push Not at g4
        obtain ⟨q1, q1'⟩ := oneCubeNamed_ok _ f1
        obtain ⟨q2, q2'⟩ := oneCubeNamed_ok _ f2
        obtain ⟨m1, p1, u1⟩ := oneNameWith_ok e1
        obtain ⟨m2, p2, u2⟩ := oneNameWith_ok e2
        have hpl := hmm.1 (not_not.1 g1) snow.place (by simp) rain.place (by simp)
        refine ⟨rain, q1, snow, q2, by rw [q1', q2']; exact g0, q1' ▸ p1, q2' ▸ p2, ?_, ?_, Prod.ext hpl.1 hpl.2, (not_not.1 g2).symm,
          by simpa using g4.1, by simpa using g4.2, not_not.1 g3⟩
        · rw [q1']; exact fun hc => g0 (u2 a m1 hc)
        · rw [q2']; exact fun hc => g0 (u1 b m2 hc).symm

/-- Half a millimetre of rain and 1.5 mm of snow given in metres. -/
example : (snowFractionProcess 1 (fun _ _ => none)
    [(⟨"snow".toList, ⟨"length", 1000, 0⟩, (1, 2), 3, false, fun _ => 15 / 10000⟩ : TimedField ℕ ℕ),
     ⟨"rain".toList, ⟨"length", 1, 0⟩, (1, 2), 3, false, fun _ => 1 / 2⟩]).toOption.map (fun o => o 0) = some (some (3 / 4)) := by decide +kernel

theorem oneCubeWith_perm {C : Type} (nameOf : C → List Char) {cubes l : List C} (hp : cubes.Perm l) (part : List Char) {c : C}
    (h : l.filter (fun c => hasPart part (nameOf c)) = [c]) : oneCubeWith nameOf part cubes = .ok c := by
  unfold oneCubeWith
  rw [filter_one_of_perm hp _ h]

/-- **C241** (splitter).  From rain and snow probabilities and a precipitation field on one grid, in any order and among other cubes whose
names hold none of the three words, the rain and the snow part have the unit of the precipitation and add up to it at every point. -/
theorem C241_split {X T : Type} [DecidableEq X] (rain snow precip : TimedField X T) (others cubes : List (TimedField X T))
    (hp : cubes.Perm ([rain, snow, precip] ++ others))
    (hr : Spec.onlyWord ["rain", "snow", "precipitation"] "rain" rain.name)
    (hs : Spec.onlyWord ["rain", "snow", "precipitation"] "snow" snow.name)
    (hq : Spec.onlyWord ["rain", "snow", "precipitation"] "precipitation" precip.name)
    (ho : ∀ c ∈ others, Spec.onlyWord ["rain", "snow", "precipitation"] "" c.name)
    (hg : snow.place = rain.place ∧ precip.place = rain.place) (hu : rain.unit = snow.unit) (n : ℕ)
    (h1 : ∀ i < n, rain.data i + snow.data i ≤ 1) :
    ∃ rainName snowName rs ss, snowSplitProcess true n cubes = .ok (rainName, precip.unit, rs) ∧
      snowSplitProcess false n cubes = .ok (snowName, precip.unit, ss) ∧ rs.length = n ∧ ss.length = n ∧
      ∀ i < n, rs.getD i 0 = precip.data i * ((1 + rain.data i - snow.data i) / 2) ∧
        ss.getD i 0 = precip.data i * ((1 + snow.data i - rain.data i) / 2) ∧ rs.getD i 0 + ss.getD i 0 = precip.data i := by
  have part : ∀ (own w : String) (c : TimedField X T), Spec.onlyWord ["rain", "snow", "precipitation"] own c.name →
      w ∈ ["rain", "snow", "precipitation"] → hasPart w.toList c.name = decide (w = own) := by
    intro own w c hc hw
    rw [Bool.eq_iff_iff, hasPart_iff, hc w hw, decide_eq_true_iff]
  have hfil : ∀ (w : String), w ∈ ["rain", "snow", "precipitation"] → ∀ c,
      [rain, snow, precip].filter (fun c => hasPart w.toList c.name) = [c] →
      ([rain, snow, precip] ++ others).filter (fun c => hasPart w.toList c.name) = [c] := by
    intro w hw c hc
    rw [List.filter_append, hc]
    have : others.filter (fun c => hasPart w.toList c.name) = [] := by
      rw [List.filter_eq_nil_iff]
      intro d hd
      rw [part "" w d (ho d hd) hw]
      simp only [List.mem_cons, List.not_mem_nil, or_false] at hw
      rcases hw with rfl | rfl | rfl <;> decide
    rw [this, List.append_nil]
  have a1 := part "rain" "rain" rain hr (by simp)
  have a2 := part "rain" "snow" rain hr (by simp)
  have a3 := part "rain" "precipitation" rain hr (by simp)
  have b1 := part "snow" "rain" snow hs (by simp)
  have b2 := part "snow" "snow" snow hs (by simp)
  have b3 := part "snow" "precipitation" snow hs (by simp)
  have c1 := part "precipitation" "rain" precip hq (by simp)
  have c2 := part "precipitation" "snow" precip hq (by simp)
  have c3 := part "precipitation" "precipitation" precip hq (by simp)
  simp only [String.reduceEq, decide_true, decide_false] at a1 a2 a3 b1 b2 b3 c1 c2 c3
  have e1 : oneCubeWith TimedField.name "rain".toList cubes = .ok rain :=
    oneCubeWith_perm _ hp _ (hfil "rain" (by simp) rain (by simp only [List.filter, a1, b1, c1]))
  have e2 : oneCubeWith TimedField.name "snow".toList cubes = .ok snow :=
    oneCubeWith_perm _ hp _ (hfil "snow" (by simp) snow (by simp only [List.filter, a2, b2, c2]))
  have e3 : oneCubeWith TimedField.name "precipitation".toList cubes = .ok precip :=
    oneCubeWith_perm _ hp _ (hfil "precipitation" (by simp) precip (by simp only [List.filter, a3, b3, c3]))
  have hany : ((List.range n).map fun i => (rain.data i, snow.data i, precip.data i)).any (fun p => decide (p.1 + p.2.1 > 1)) = false := by
    rw [List.any_eq_false]
    intro p hp
    obtain ⟨i, hi, rfl⟩ := List.mem_map.1 hp
    simpa using h1 i (List.mem_range.1 hi)
  have hrun : ∀ b, snowSplitProcess b n cubes = .ok (splitName b precip.name, precip.unit,
      ((List.range n).map fun i => (rain.data i, snow.data i, precip.data i)).map (fun p =>
        p.2.2 * (((if b then p.1 else p.2.1) - (if b then p.2.1 else p.1) + 1) / 2))) := by
    intro b
    unfold snowSplitProcess
    rw [e1, e2, e3]
    simp only [bind, Except.bind, List.map_cons, List.map_nil]
    rw [spatialMatch_true rain.place _ (by simp [hg.1, hg.2])]
    simp only
    rw [if_neg (by simp)]
    unfold snowSplit
    rw [hany]
    simp only [Bool.false_eq_true, if_false]
    rw [if_neg (by simpa using hu)]
    rfl
  refine ⟨_, _, _, _, hrun true, hrun false, by simp, by simp, fun i hi => ?_⟩
  have g : ∀ f : ℚ × ℚ × ℚ → ℚ, (((List.range n).map fun i => (rain.data i, snow.data i, precip.data i)).map f).getD i 0 =
      f (rain.data i, snow.data i, precip.data i) := by
    intro f
    simp [List.getD_eq_getElem?_getD, hi]
  rw [g, g]
  simp only [if_true, Bool.false_eq_true, if_false]
  refine ⟨by ring, by ring, by ring⟩

example : (snowSplitProcess true 1 [(⟨"lwe_precipitation_rate".toList, ⟨"speed", 1, 0⟩, (1, 2), 0, false, fun _ => 8⟩ : TimedField ℕ ℕ),
      ⟨"probability_of_snow_at_surface".toList, ⟨"1", 1, 0⟩, (1, 2), 0, false, fun _ => 1 / 4⟩,
      ⟨"probability_of_rain_at_surface".toList, ⟨"1", 1, 0⟩, (1, 2), 0, false, fun _ => 1 / 2⟩]).toOption =
    some ("rainfall_rate".toList, ⟨"speed", 1, 0⟩, [5]) := by decide +kernel

/-- **C241** (refuted): one would expect the parts not to depend on the unit of the probabilities; but they are not converted, so that
probabilities of 1/2 and 1/4 per cent split the precipitation as 5 : 3 instead of (nearly) in half. -/
theorem C241_percent_refuted : ¬ ∀ (rain snow precip : TimedField ℕ ℕ) (nm : List Char) (u : StdUnit) (out : List ℚ),
    rain.unit = ⟨"1", 1 / 100, 0⟩ → snow.unit = ⟨"1", 1 / 100, 0⟩ → snowSplitProcess true 1 [rain, snow, precip] = .ok (nm, u, out) →
    out.getD 0 0 = precip.data 0 * ((1 + rain.data 0 / 100 - snow.data 0 / 100) / 2) := by
  intro h
  have := h ⟨"rain".toList, ⟨"1", 1 / 100, 0⟩, (0, 0), 0, false, fun _ => 1 / 2⟩ ⟨"snow".toList, ⟨"1", 1 / 100, 0⟩, (0, 0), 0, false, fun _ => 1 / 4⟩
    ⟨"precipitation".toList, ⟨"speed", 1, 0⟩, (0, 0), 0, false, fun _ => 8⟩ "rainfall".toList ⟨"speed", 1, 0⟩ [5] rfl rfl (by decide +kernel)
  norm_num at this

/-! ### C242: visibility and cloud base from cubes -/

theorem visSeparate_perm {C : Type} (nameOf : C → List Char) (v c : C) (cubes : List C) (hp : cubes.Perm [v, c])
    (hv : "visibility_in_air".toList <:+: nameOf v) (hc : "cloud_base".toList <:+: nameOf c) (hc' : ¬ "visibility_in_air".toList <:+: nameOf c) :
    visSeparate nameOf cubes = .ok (v, c) := by
  have v1 := (hasPart_iff "visibility_in_air".toList (nameOf v)).2 hv
  have c1 := (hasPart_iff "cloud_base".toList (nameOf c)).2 hc
  have c2 : hasPart "visibility_in_air".toList (nameOf c) = false := by
    rw [Bool.eq_false_iff]; exact fun h => hc' ((hasPart_iff _ _).1 h)
  unfold visSeparate
  rw [if_neg (by rw [hp.length_eq]; simp)]
  have hcase : cubes = [v, c] ∨ cubes = [c, v] := by
    have hl := hp.length_eq
    match cubes, hl with
    | [a, b], _ =>
      have ha : a ∈ [v, c] := hp.mem_iff.1 (by simp)
      rcases List.mem_cons.1 ha with rfl | ha
      · left
        have := (List.perm_cons a).1 hp
        rw [List.perm_singleton.1 this]
      · right
        rw [List.mem_singleton] at ha
        subst ha
        have := (List.perm_cons a).1 (hp.trans (List.Perm.swap a v []))
        rw [List.perm_singleton.1 this]
  rcases hcase with rfl | rfl
  · simp only [List.foldl_cons, List.foldl_nil, visStep, v1, c1, c2, if_true, Bool.false_eq_true, if_false]
  · simp only [List.foldl_cons, List.foldl_nil, visStep, v1, c1, c2, if_true, Bool.false_eq_true, if_false]

/-- Specification: the probability of visibility below a threshold once the cloud base is taken into account, for a probability `vis`
that it is below without cloud, `cloud` that the cloud base is at the ground, and a weight of the cloud. -/
def Spec.worse (vis cloud weight : ℚ) : ℚ := max vis (cloud * weight)

/-- **C242** (value).  From a visibility and a cloud base cube in either order the result has the thresholds of the visibility; the
probability of being below each becomes the larger of it and the weighted cloud probability, and probabilities of being above are
returned as such. -/
theorem C242_value (initial first : ℚ) (v c : VisField) (cubes : List VisField) (hp : cubes.Perm [v, c])
    (hv : "visibility_in_air".toList <:+: v.name) (hc : "cloud_base".toList <:+: c.name) (hc' : ¬ "visibility_in_air".toList <:+: c.name)
    (av ac : Bool) (hav : v.above = some av) (hac : c.above = some ac) :
    ∃ out, visProcess initial first cubes = .ok out ∧ ∀ i, (out i).map Prod.fst = v.thresholds ∧
      ∀ k < v.thresholds.length, ∃ p, (out i)[k]? = some (v.thresholds.getD k 0, p) ∧
        (av = false → p = Spec.worse (v.data k i) (c.data 0 i) (visScaling initial first (v.thresholds.getD k 0))) ∧
        (av = true → 1 - p = Spec.worse (1 - v.data k i) (c.data 0 i) (visScaling initial first (v.thresholds.getD k 0))) := by
  unfold visProcess
  rw [visSeparate_perm VisField.name v c cubes hp hv hc hc']
  simp only [bind, Except.bind, hav, hac]
  refine ⟨_, rfl, fun i => ⟨?_, fun k hk => ?_⟩⟩
  · unfold visCombine
    simp only [List.map_map]
    apply List.ext_getElem
    · simp
    · intro j h1 h2
      simp [List.getD_eq_getElem?_getD, h2]
  · unfold visCombine
    simp only [List.map_map]
    refine ⟨_, by rw [List.getElem?_map, List.getElem?_range hk]; rfl, ?_, ?_⟩
    · rintro rfl; simp [Spec.worse]
    · rintro rfl; simp [Spec.worse]

/-- **C242** (checks).  A result needs exactly two cubes, both of probabilities, one named for visibility and one for the cloud base. -/
theorem C242_needs (initial first : ℚ) (cubes : List VisField) (out : ℕ → List (ℚ × ℚ)) (h : visProcess initial first cubes = .ok out) :
    cubes.length = 2 ∧ ∃ v ∈ cubes, ∃ c ∈ cubes, "visibility_in_air".toList <:+: v.name ∧ "cloud_base".toList <:+: c.name ∧
      ¬ "visibility_in_air".toList <:+: c.name ∧ v.above ≠ none ∧ c.above ≠ none := by
  unfold visProcess at h
  simp only [bind, Except.bind] at h
  cases hs : visSeparate VisField.name cubes with
  | error e => rw [hs] at h; exact nomatch h
  | ok p =>
    rw [hs] at h
    simp only at h
    unfold visSeparate at hs
    by_cases hl : cubes.length ≠ 2
    · rw [if_pos hl] at hs; exact nomatch hs
    rw [if_neg hl] at hs
    refine ⟨not_not.1 hl, ?_⟩
    have inv : ∀ (l : List VisField) (acc : Option VisField × Option VisField),
        (∀ v, acc.1 = some v → v ∈ cubes ∧ hasPart "visibility_in_air".toList v.name = true) →
        (∀ v, acc.2 = some v → v ∈ cubes ∧ hasPart "cloud_base".toList v.name = true ∧ hasPart "visibility_in_air".toList v.name = false) →
        (∀ c ∈ l, c ∈ cubes) →
        (∀ v, (l.foldl (visStep VisField.name) acc).1 = some v → v ∈ cubes ∧ hasPart "visibility_in_air".toList v.name = true) ∧
        (∀ v, (l.foldl (visStep VisField.name) acc).2 = some v →
          v ∈ cubes ∧ hasPart "cloud_base".toList v.name = true ∧ hasPart "visibility_in_air".toList v.name = false) := by
      intro l
      induction l with
      | nil => intro acc a b _; exact ⟨a, b⟩
      | cons c l ih =>
        intro acc a b hl
        rw [List.foldl_cons]
        have hc := hl c (by simp)
        refine ih _ ?_ ?_ (fun d hd => hl d (by simp [hd]))
        · intro v
          unfold visStep
          by_cases g1 : hasPart "visibility_in_air".toList c.name = true
          · rw [if_pos g1]; intro hv; cases hv; exact ⟨hc, g1⟩
          · rw [if_neg g1]
            by_cases g2 : hasPart "cloud_base".toList c.name = true
            · rw [if_pos g2]; exact a v
            · rw [if_neg g2]; exact a v
        · intro v
          unfold visStep
          by_cases g1 : hasPart "visibility_in_air".toList c.name = true
          · rw [if_pos g1]; exact b v
          · rw [if_neg g1]
            by_cases g2 : hasPart "cloud_base".toList c.name = true
            · rw [if_pos g2]; intro hv; cases hv; exact ⟨hc, g2, by simpa using g1⟩
            · rw [if_neg g2]; exact b v
    obtain ⟨i1, i2⟩ := inv cubes (none, none) (fun _ h => nomatch h) (fun _ h => nomatch h) (fun _ h => h)
    split at hs
    · next v c hvc =>
      rw [hvc] at i1 i2
      simp only [Except.ok.injEq] at hs
      subst hs
      obtain ⟨a1, a2⟩ := i1 v rfl
      obtain ⟨b1, b2, b3⟩ := i2 c rfl
      refine ⟨v, a1, c, b1, (hasPart_iff _ _).1 a2, (hasPart_iff _ _).1 b2, ?_, ?_, ?_⟩
      · intro hc; rw [(hasPart_iff _ _).2 hc] at b3; exact nomatch b3
      · intro hn; simp only at h; rw [hn] at h; exact nomatch h
      · intro hn
        simp only at h
        rw [hn] at h
        cases hva : v.above with
        | none => rw [hva] at h; exact nomatch h
        | some x => rw [hva] at h; exact nomatch h
    · exact nomatch hs

example : (visProcess (3 / 5) 5000 [⟨"cloud_base_at_ground".toList, some false, [0], fun _ _ => 1⟩,
    ⟨"visibility_in_air".toList, some true, [0, 5000], fun k _ => if k = 0 then 1 else 1 / 2⟩]).toOption.map (fun o => o 0)
      = some [(0, 2 / 5), (5000, 0)] := by decide +kernel

/-- **C242** (refuted): one would expect a cloud base given as the probability of being *above* the ground to be turned round, as the
visibility is; it is taken as it stands, so a certainly high cloud base makes the visibility certainly poor. -/
theorem C242_cloud_direction_refuted : ¬ ∀ (v c : VisField) (out : ℕ → List (ℚ × ℚ)), "visibility_in_air".toList <:+: v.name →
    "cloud_base".toList <:+: c.name → v.above = some false → c.above = some true → (∀ i, c.data 0 i = 1) → visProcess (3 / 5) 5000 [v, c] = .ok out →
    ∀ i, (out i).map Prod.snd = (List.range v.thresholds.length).map fun k => v.data k i := by
  intro h
  have hok : ∃ out, visProcess (3 / 5) 5000 [⟨"visibility_in_air".toList, some false, [5000], fun _ _ => 0⟩,
      ⟨"cloud_base".toList, some true, [0], fun _ _ => 1⟩] = .ok out ∧ out 0 = [(5000, 1)] := by
    have h1 : (visProcess (3 / 5) 5000 [⟨"visibility_in_air".toList, some false, [5000], fun _ _ => 0⟩,
      ⟨"cloud_base".toList, some true, [0], fun _ _ => 1⟩]).toOption.map (fun o => o 0) = some [(5000, 1)] := by decide +kernel
    revert h1
    generalize visProcess _ _ _ = e
    cases e with
    | error e => intro h1; exact nomatch h1
    | ok o => intro h1; exact ⟨o, rfl, Option.some.inj h1⟩
  obtain ⟨out, ho, hv⟩ := hok
  have := h _ _ out (List.infix_refl _) (List.infix_refl _) rfl rfl (fun _ => rfl) ho 0
  rw [hv] at this
  simp at this

end Improver
