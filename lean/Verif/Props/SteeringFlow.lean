import Verif.Model.SteeringFlow
import Verif.Props.PystepsNowcast
import Verif.Props.OpticalFlow

/-! C271: advection velocities from a steering flow and two radar fields. -/

namespace Improver

variable {sat : ℚ → ℚ} {thr : ℚ} {extrap : RateField → RateField → RateField → ℕ → List RateField}
  {u v : ℕ → ℕ → ℚ} {oe : List (ℤ × (ℕ → ℕ → ℚ))}

theorem orderedPair_some {cubes : List NowcastCube} {a b : NowcastCube} (h : orderedPair cubes = some (a, b)) :
    a.time ≤ b.time ∧ (cubes = [a, b] ∨ cubes = [b, a]) := by
  unfold orderedPair at h
  split at h
  next x y =>
    by_cases hxy : x.time ≤ y.time
    · rw [if_pos hxy] at h
      injection h with h
      injection h with h1 h2
      subst h1 h2
      exact ⟨hxy, .inl rfl⟩
    · rw [if_neg hxy] at h
      injection h with h
      injection h with h1 h2
      subst h1 h2
      exact ⟨by omega, .inr rfl⟩
  · exact nomatch h

/-- What the earlier cube advected to the time of the later one looks like, and what optical flow is given. -/
theorem flowPerturbation_ok {a b : NowcastCube} {p : (ℕ → ℕ → ℚ) × (ℕ → ℕ → ℚ)} (he : ∀ f x y n, (extrap f x y n).length = n)
    (hab : a.time ≤ b.time) (h : flowPerturbation sat thr extrap a b u v oe = .ok p) :
    60 ≤ b.time - a.time ∧ a.name = b.name ∧ a.xs = b.xs ∧ a.ys = b.ys ∧
    ∃ (adv : RateForecast) (spacing : ℚ) (d1 d2 : RateField), gridSpacing a.xs = .ok spacing ∧ adv.time = a.time + 60 * leadMinutes a b ∧ adv.period = 60 * leadMinutes a b ∧
      oeField "subtract" thr oe adv.time adv.data = .ok d1 ∧ oeField "subtract" thr oe b.time b.data = .ok d2 ∧
      (∃ (rate moved : RateField) (s0 s1 : ℤ × (ℕ → ℕ → ℚ)), Spec.nearestSlice oe a.time s0 ∧ Spec.nearestSlice oe adv.time s1 ∧
        (∀ y x, rate y x = (a.data y x).map fun q => Spec.oeSub thr (s0.2 y x) q * a.scale) ∧
        extrap rate (fun y x => some (u y x * (60 * leadMinutes a b) / spacing)) (fun y x => some (v y x * (60 * leadMinutes a b) / spacing)) 1 = [moved] ∧
        ∀ y x, adv.data y x = (moved y x).map fun q => Spec.oeAdd thr (s1.2 y x) (q / a.scale)) ∧
      opticalFlow sat "box" 8 20 18 ⟨a.ys.length, a.xs.length, spacing / 1000, adv.time, b.time, some adv.period, b.period,
        flowData a.scale d1, flowData b.scale d2⟩ = .ok p := by
  unfold flowPerturbation at h
  simp only [bind, Except.bind] at h
  cases h1 : pystepsNowcast thr extrap (leadMinutes a b) (leadMinutes a b) a (fun y x => some (u y x)) (fun y x => some (v y x)) oe with
  | error e => rw [h1] at h; exact nomatch h
  | ok out =>
    rw [h1] at h
    dsimp only at h
    have h0 := (nowcast_ok h1).1
    have hpos : 0 < leadMinutes a b := by
      have : 0 ≤ leadMinutes a b := Int.ediv_nonneg (by omega) (by norm_num)
      omega
    obtain ⟨s0, sp, rate, hs0, hsp, hrate, hF⟩ := C190_forecasts h1
    rw [Int.ediv_self h0, Int.toNat_one] at hF
    obtain ⟨moved, hm⟩ := List.length_eq_one_iff.1 (he rate
      (fun y x => (some (u y x)).map fun w => w * (60 * (leadMinutes a b : ℚ)) / sp)
      (fun y x => (some (v y x)).map fun w => w * (60 * (leadMinutes a b : ℚ)) / sp) 1)
    rw [hm] at hF
    cases hF with
    | cons hr0 hF =>
      cases hF with
      | @cons _ adv _ _ hr1 hF =>
        cases hF
        obtain ⟨t1, -, -, t4, s1, hs1, hd⟩ := hr1
        rw [show List.getLast? [_, adv] = some adv from rfl] at h
        dsimp only at h
        cases h2 : oeField "subtract" thr oe adv.time adv.data with
        | error e => rw [h2] at h; exact nomatch h
        | ok d1 =>
          rw [h2] at h
          dsimp only at h
          cases h3 : oeField "subtract" thr oe b.time b.data with
          | error e => rw [h3] at h; exact nomatch h
          | ok d2 =>
            rw [h3] at h
            dsimp only at h
            cases h4 : flowCompatible a b with
            | error e => rw [h4] at h; exact nomatch h
            | ok _ =>
              rw [h4] at h
              dsimp only at h
              rw [hsp] at h
              dsimp only at h
              have hcomp : a.name = b.name ∧ a.xs = b.xs ∧ a.ys = b.ys := by
                unfold flowCompatible at h4
                by_cases hn : a.name ≠ b.name
                · rw [if_pos hn] at h4; exact nomatch h4
                · rw [if_neg hn] at h4
                  by_cases hx : a.xs ≠ b.xs ∨ a.ys ≠ b.ys
                  · rw [if_pos hx] at h4; exact nomatch h4
                  · rw [not_or, not_not, not_not] at hx
                    exact ⟨not_not.1 hn, hx.1, hx.2⟩
              have hsec : 60 ≤ b.time - a.time := by
                unfold leadMinutes at hpos
                omega
              refine ⟨hsec, hcomp.1, hcomp.2.1, hcomp.2.2, adv, sp, d1, d2, hsp, ?_, ?_, h2, rfl, ⟨rate, moved, s0, s1, hs0, hs1, hrate, hm, hd⟩, h⟩
              · rw [t1]; push_cast; ring
              · rw [t4]; simp

/-- C271: velocities are given only for two fields of one name on one grid at least a minute apart; they are the steering flow plus the perturbation that
optical flow finds from the earlier field, advected with the steering flow, to the later field, at every point. -/
theorem C271_result {cubes : List NowcastCube} {uv : (ℕ → ℕ → ℚ) × (ℕ → ℕ → ℚ)} (he : ∀ f x y n, (extrap f x y n).length = n)
    (h : flowFromWinds sat thr extrap cubes u v oe = .ok uv) :
    ∃ a b p, (cubes = [a, b] ∨ cubes = [b, a]) ∧ a.time + 60 ≤ b.time ∧ a.name = b.name ∧ a.xs = b.xs ∧ a.ys = b.ys ∧
      flowPerturbation sat thr extrap a b u v oe = .ok p ∧
      (∀ y x, uv.1 y x = u y x + p.1 y x) ∧ ∀ y x, uv.2 y x = v y x + p.2 y x := by
  unfold flowFromWinds at h
  cases hp : orderedPair cubes with
  | none => rw [hp] at h; exact nomatch h
  | some q =>
    obtain ⟨a, b⟩ := q
    obtain ⟨hab, hc⟩ := orderedPair_some hp
    rw [hp] at h
    simp only [bind, Except.bind] at h
    cases hf : flowPerturbation sat thr extrap a b u v oe with
    | error e => rw [hf] at h; exact nomatch h
    | ok p =>
      rw [hf] at h
      injection h with h
      obtain ⟨h60, hn, hx, hy, -⟩ := flowPerturbation_ok he hab hf
      refine ⟨a, b, p, hc, by omega, hn, hx, hy, hf, ?_, ?_⟩
      · intro y x; rw [← h]; exact add_comm _ _
      · intro y x; rw [← h]; exact add_comm _ _

/-- C271: the order in which the two fields are given does not matter. -/
theorem C271_order {a b : NowcastCube} (h : a.time ≠ b.time) :
    flowFromWinds sat thr extrap [a, b] u v oe = flowFromWinds sat thr extrap [b, a] u v oe := by
  have : orderedPair [a, b] = orderedPair [b, a] := by
    unfold orderedPair
    dsimp only
    by_cases h1 : a.time ≤ b.time
    · rw [if_pos h1, if_neg (by omega)]
    · rw [if_neg h1, if_pos (by omega)]
  unfold flowFromWinds
  rw [this]

/-- C271: any other number of fields is refused, and so are fields of the same minute. -/
theorem C271_refused {cubes : List NowcastCube} (h : cubes.length ≠ 2) :
    flowFromWinds sat thr extrap cubes u v oe = .error .valueError ∧
    ∀ a b : NowcastCube, 0 ≤ b.time - a.time → b.time - a.time < 60 →
      flowFromWinds sat thr extrap [a, b] u v oe = .error .zeroDivision := by
  constructor
  · unfold flowFromWinds
    have : orderedPair cubes = none := by
      unfold orderedPair
      split
      · exact absurd rfl h
      · rfl
    rw [this]
  · intro a b h0 h1
    have hp : orderedPair [a, b] = some (a, b) := by
      unfold orderedPair
      dsimp only
      rw [if_pos (by omega)]
    have hl : leadMinutes a b = 0 := by
      unfold leadMinutes
      omega
    unfold flowFromWinds
    rw [hp]
    dsimp only
    unfold flowPerturbation
    rw [hl]
    unfold pystepsNowcast
    rw [if_pos rfl]
    rfl

/-- C271: the perturbation is the displacement found between the advected and the later field, over the time it is taken to have happened in: the
whole time between the fields when that is a whole number of minutes, else only the seconds that are left over.  (It is zero when a field is.) -/
theorem C271_time {a b : NowcastCube} {p : (ℕ → ℕ → ℚ) × (ℕ → ℕ → ℚ)} (he : ∀ f x y n, (extrap f x y n).length = n)
    (hab : a.time ≤ b.time) (h : flowPerturbation sat thr extrap a b u v oe = .ok p) :
    ∃ (spacing : ℚ) (dt : ℤ) (r : ℕ), gridSpacing a.xs = .ok spacing ∧
      dt = (if (b.time - a.time) % 60 = 0 then b.time - a.time else (b.time - a.time) % 60) ∧ 0 < dt ∧
      ∃ d1 d2, (p = (fun _ _ => 0, fun _ _ => 0) ∨
        p = (fun y x => (processDimensionless sat "box" a.ys.length a.xs.length 18 20 r d1 d2).1 y x * spacing / dt,
             fun y x => (processDimensionless sat "box" a.ys.length a.xs.length 18 20 r d1 d2).2 y x * spacing / dt)) := by
  obtain ⟨h60, -, -, -, adv, sp, d1, d2, hsp, ht, hpd, -, -, -, hof⟩ := flowPerturbation_ok he hab h
  obtain ⟨-, dt, r, hpos, hdt, -, -, -, -, hp⟩ := C99_checks _ _ _ _ _ _ _ hof
  refine ⟨sp, dt, r.toNat, hsp, ?_, hpos, flowData a.scale d1, flowData b.scale d2, ?_⟩
  · dsimp only at hdt
    unfold leadMinutes at ht hpd
    rcases hdt with ⟨h1, h2⟩ | ⟨h1, h2, -⟩
    · rw [if_neg (by omega)]; omega
    · injection h2 with h2
      rw [if_pos (by omega)]; omega
  · rcases hp with ⟨hp, -⟩ | hp
    · exact .inl hp
    · refine .inr (hp.trans ?_)
      dsimp only
      rw [mul_div_cancel₀ _ (by norm_num : (1000 : ℚ) ≠ 0)]

/-- C271: for fields a whole number of minutes apart the later one must be an observation: a forecast period other than zero is refused. -/
theorem C271_observation {a b : NowcastCube} {k : ℤ} (he : ∀ f x y n, (extrap f x y n).length = n) (hab : a.time ≤ b.time)
    (h60 : (b.time - a.time) % 60 = 0) (hb : b.period = some k) (hk : k ≠ 0) (p : (ℕ → ℕ → ℚ) × (ℕ → ℕ → ℚ)) :
    flowPerturbation sat thr extrap a b u v oe ≠ .ok p := by
  intro h
  obtain ⟨-, -, -, -, adv, sp, d1, d2, hsp, ht, hpd, -, -, -, hof⟩ := flowPerturbation_ok he hab h
  obtain ⟨-, dt, r, hpos, hdt, -⟩ := C99_checks _ _ _ _ _ _ _ hof
  dsimp only at hdt
  unfold leadMinutes at ht hpd
  rcases hdt with ⟨h1, h2⟩ | ⟨h1, h2, h3⟩
  · omega
  · rw [hb] at h3
    rcases h3 with h3 | h3
    · exact nomatch h3
    · injection h3 with h3; exact hk h3

/-- C271: where the advected field is the later one, the velocities are the steering flow. -/
theorem C271_match {a b : NowcastCube} {p : (ℕ → ℕ → ℚ) × (ℕ → ℕ → ℚ)} (he : ∀ f x y n, (extrap f x y n).length = n)
    (hab : a.time ≤ b.time) (hx : a.xs ≠ []) (hy : a.ys ≠ []) (hs : a.scale = b.scale) (h60 : (b.time - a.time) % 60 = 0)
    (h : flowPerturbation sat thr extrap a b u v oe = .ok p)
    (hmatch : ∀ adv out, pystepsNowcast thr extrap (leadMinutes a b) (leadMinutes a b) a (fun y x => some (u y x)) (fun y x => some (v y x)) oe = .ok out →
      out.getLast? = some adv → adv.data = b.data) (y x : ℕ) :
    perturbFlow (u y x) (some (p.1 y x)) = u y x ∧ perturbFlow (v y x) (some (p.2 y x)) = v y x := by
  have hz : p.1 y x = 0 ∧ p.2 y x = 0 := by
    unfold flowPerturbation at h
    simp only [bind, Except.bind] at h
    cases h1 : pystepsNowcast thr extrap (leadMinutes a b) (leadMinutes a b) a (fun y x => some (u y x)) (fun y x => some (v y x)) oe with
    | error e => rw [h1] at h; exact nomatch h
    | ok out =>
      have hfull := h
      rw [h1] at h
      dsimp only at h
      cases hl : out.getLast? with
      | none => rw [hl] at h; exact nomatch h
      | some adv =>
        have hd := hmatch adv out h1 hl
        rw [hl] at h
        dsimp only at h
        have ht : adv.time = b.time := by
          have h0 := (nowcast_ok h1).1
          obtain ⟨_, sp, rate, _, _, _, hF⟩ := C190_forecasts h1
          rw [Int.ediv_self h0, Int.toNat_one] at hF
          obtain ⟨moved, hm⟩ := List.length_eq_one_iff.1 (he rate
            (fun y x => (some (u y x)).map fun w => w * (60 * (leadMinutes a b : ℚ)) / sp)
            (fun y x => (some (v y x)).map fun w => w * (60 * (leadMinutes a b : ℚ)) / sp) 1)
          rw [hm] at hF
          cases hF with
          | cons hr0 hF =>
            cases hF with
            | @cons _ r1 _ _ hr1 hF =>
              cases hF
              have hl : some r1 = some adv := hl
              injection hl with hl
              subst hl
              rw [hr1.1]
              unfold leadMinutes
              push_cast
              omega
        rw [ht, hd] at h
        cases h3 : oeField "subtract" thr oe b.time b.data with
        | error e => rw [h3] at h; exact nomatch h
        | ok d2 =>
          rw [h3] at h
          dsimp only at h
          cases h4 : flowCompatible a b with
          | error e => rw [h4] at h; exact nomatch h
          | ok _ =>
            rw [h4] at h
            dsimp only at h
            cases h5 : gridSpacing a.xs with
            | error e => rw [h5] at h; exact nomatch h
            | ok s =>
              rw [h5] at h
              dsimp only at h
              exact C99_stationary sat "box" 8 20 18 _ p (List.length_pos_iff.2 hy) (List.length_pos_iff.2 hx) (by dsimp only; rw [hs]) h y x
  rw [hz.1, hz.2]
  unfold perturbFlow
  exact ⟨zero_add _, zero_add _⟩

/-- C271: the velocities are within a bounded distance of the steering flow. -/
theorem C271_bound {a b : NowcastCube} {p : (ℕ → ℕ → ℚ) × (ℕ → ℕ → ℚ)} {spacing : ℚ} (he : ∀ f x y n, (extrap f x y n).length = n)
    (hab : a.time ≤ b.time) (hx : a.xs ≠ []) (hy : a.ys ≠ []) (hsp : gridSpacing a.xs = .ok spacing) (hpos : 0 < spacing)
    (h60 : (b.time - a.time) % 60 = 0) (h : flowPerturbation sat thr extrap a b u v oe = .ok p) (y x : ℕ) :
    |perturbFlow (u y x) (some (p.1 y x)) - u y x| ≤ (boxCount a.ys.length 18 : ℚ) / 3 * spacing / (b.time - a.time) ∧
    |perturbFlow (v y x) (some (p.2 y x)) - v y x| ≤ (boxCount a.ys.length 18 : ℚ) / 3 * spacing / (b.time - a.time) := by
  obtain ⟨-, -, -, -, adv, sp, d1, d2, hsp', ht, hpd, -, -, -, hof⟩ := flowPerturbation_ok he hab h
  rw [hsp] at hsp'
  injection hsp' with hsp'
  subst hsp'
  obtain ⟨-, dt, r, hdpos, hdt, -, hr18, -, -, hp⟩ := C99_checks _ _ _ _ _ _ _ hof
  have hd : dt = b.time - a.time := by
    dsimp only at hdt
    unfold leadMinutes at ht hpd
    rcases hdt with ⟨h1, h2⟩ | ⟨h1, h2, -⟩
    · omega
    · injection h2 with h2
      omega
  have hdq : (0 : ℚ) < dt := by exact_mod_cast hdpos
  have hcast : ((b.time : ℚ) - a.time) = (dt : ℚ) := by rw [hd]; push_cast; ring
  rw [hcast]
  have e1 : perturbFlow (u y x) (some (p.1 y x)) - u y x = p.1 y x := by unfold perturbFlow; ring
  have e2 : perturbFlow (v y x) (some (p.2 y x)) - v y x = p.2 y x := by unfold perturbFlow; ring
  rw [e1, e2]
  have hh : 0 < a.ys.length := List.length_pos_iff.2 hy
  have hw : 0 < a.xs.length := List.length_pos_iff.2 hx
  rcases hp with ⟨rfl, -⟩ | rfl
  · simp only [abs_zero]
    constructor <;> positivity
  · have aux : ∀ q c : ℚ, |q| ≤ c → |q * (1000 * (spacing / 1000)) / dt| ≤ c * spacing / dt := by
      intro q c hqc
      rw [mul_div_cancel₀ _ (by norm_num : (1000 : ℚ) ≠ 0), abs_div, abs_mul, abs_of_pos hdq, abs_of_pos hpos]
      gcongr
    have hbd := C98_displacement_bound sat a.ys.length a.xs.length 18 20 hh hw (by omega)
    unfold processDimensionless
    exact ⟨aux _ _ (hbd _ _ _ _ _ y x).1, aux _ _ (hbd _ _ _ _ _ y x).2⟩

/-- Radar rates in mm/h on four by three points 2 km apart. -/
def exRadar (t : ℤ) (f : ℕ → ℕ → ℚ) : NowcastCube :=
  ⟨"rainfall_rate", [0, 2000, 4000, 6000], [0, 2000, 4000], 1, t, none, none, none, fun y x => some (f y x)⟩

/-- The run with fields `t` seconds apart. -/
def exSteered (t : ℤ) : Except Err ((ℕ → ℕ → ℚ) × (ℕ → ℕ → ℚ)) :=
  flowPerturbation (fun x => x) (1 / 32) exStill (exRadar 0 fun y x => 1 + y + x) (exRadar t fun y x => 1 + y + 2 * x)
    (fun _ _ => 3) (fun _ _ => -2) [(0, fun _ _ => 1 / 8)]

theorem exStill_length : ∀ f x y n, (exStill f x y n).length = n := fun f x y n => by simp [exStill]

example : ∃ p, exSteered 300 = .ok p := by
  have h : (exSteered 300).toOption.isSome = true := by decide +kernel
  cases hr : exSteered 300 with
  | error e => rw [hr] at h; exact nomatch h
  | ok p => exact ⟨p, rfl⟩

example : ∃ uv, flowFromWinds (fun x => x) (1 / 32) exStill [exRadar 300 fun y x => 1 + y + 2 * x, exRadar 0 fun y x => 1 + y + x]
    (fun _ _ => 3) (fun _ _ => -2) [(0, fun _ _ => 1 / 8)] = .ok uv := by
  have h : (flowFromWinds (fun x => x) (1 / 32) exStill [exRadar 300 fun y x => 1 + y + 2 * x, exRadar 0 fun y x => 1 + y + x]
    (fun _ _ => 3) (fun _ _ => -2) [(0, fun _ _ => 1 / 8)]).toOption.isSome = true := by decide +kernel
  cases hr : flowFromWinds (fun x => x) (1 / 32) exStill [exRadar 300 fun y x => 1 + y + 2 * x, exRadar 0 fun y x => 1 + y + x]
    (fun _ _ => 3) (fun _ _ => -2) [(0, fun _ _ => 1 / 8)] with
  | error e => rw [hr] at h; exact nomatch h
  | ok p => exact ⟨p, rfl⟩

/-- Finding: when the fields are not a whole number of minutes apart, the earlier one is advected for whole minutes only and the whole displacement
that is found is taken to have happened in the seconds left over: with fields 330 s apart velocities are those of 30 s, eleven times too fast
(wherever neither field is dry), although nothing is refused. -/
theorem C271_seconds_refuted : ∃ (a b : NowcastCube) (p : (ℕ → ℕ → ℚ) × (ℕ → ℕ → ℚ)), b.time - a.time = 330 ∧
    flowPerturbation (fun x => x) (1 / 32) exStill a b (fun _ _ => 3) (fun _ _ => -2) [(0, fun _ _ => 1 / 8)] = .ok p ∧
    ∃ (r : ℕ) (d1 d2 : ℕ → ℕ → ℚ), (∃ y < 3, ∃ x < 4, 1 ≤ d1 y x) ∧ (∃ y < 3, ∃ x < 4, 1 ≤ d2 y x) ∧
      ∀ y x, p.1 y x = (processDimensionless (fun x => x) "box" 3 4 18 20 r d1 d2).1 y x * 2000 / 30 := by
  have h : (exSteered 330).toOption.isSome = true := by decide +kernel
  cases hr : exSteered 330 with
  | error e => rw [hr] at h; exact nomatch h
  | ok p =>
    obtain ⟨-, -, -, -, adv, sp, d1, d2, hsp, ht, hpd, g1, g2, ⟨rate, moved, s0, s1, hs0, hs1, hrate, hm, had⟩, hof⟩ :=
      flowPerturbation_ok exStill_length (by decide) hr
    obtain ⟨-, dt, r, hpos, hdt, -, -, -, -, hp⟩ := C99_checks _ _ _ _ _ _ _ hof
    have hsp2 : sp = 2000 := by
      have : gridSpacing [0, 2000, 4000, 6000] = .ok 2000 := by decide +kernel
      have hsp : gridSpacing [0, 2000, 4000, 6000] = .ok sp := hsp
      rw [this] at hsp
      injection hsp with hsp
      exact hsp.symm
    have ht' : adv.time = 300 := ht
    have hdt' : dt = 30 := by
      dsimp only at hdt
      have hb : (exRadar 330 fun y x => 1 + y + 2 * x).time = 330 := rfl
      rw [hb, ht'] at hdt
      rcases hdt with ⟨_, h2⟩ | ⟨h1, _⟩
      · rw [h2]; rfl
      · exact absurd h1 (by decide)
    have hs0' : s0 = (0, fun _ _ => 1 / 8) := List.mem_singleton.1 hs0.1
    have hs1' : s1 = (0, fun _ _ => 1 / 8) := List.mem_singleton.1 hs1.1
    have hmv : moved = rate := by
      have : [rate] = [moved] := hm
      injection this with h _
      exact h.symm
    obtain ⟨q1, hq1, hv1⟩ := oeField_spec "subtract" _ _ _ _ _ (.inr rfl) g1
    obtain ⟨q2, hq2, hv2⟩ := oeField_spec "subtract" _ _ _ _ _ (.inr rfl) g2
    have hq1' : q1 = (0, fun _ _ => 1 / 8) := List.mem_singleton.1 hq1.1
    have hq2' : q2 = (0, fun _ _ => 1 / 8) := List.mem_singleton.1 hq2.1
    have hc1 : flowData 1 d1 2 3 = 47 / 8 := by
      unfold flowData
      rw [hv1, had, hmv, hrate, hs0', hs1', hq1']
      decide +kernel
    have hc2 : flowData 1 d2 2 3 = 71 / 8 := by
      unfold flowData
      rw [hv2, hq2']
      decide +kernel
    refine ⟨_, _, p, ?_, hr, r.toNat, flowData 1 d1, flowData 1 d2, ⟨2, by decide, 3, by decide, ?_⟩, ⟨2, by decide, 3, by decide, ?_⟩, ?_⟩
    · rfl
    · rw [hc1]; norm_num
    · rw [hc2]; norm_num
    · rcases hp with ⟨_, hp⟩ | hp
      · exfalso
        rcases hp with hp | hp
        · have : |flowData 1 d1 2 3| ≤ 1 / 100000000 := hp 2 (show 2 < 3 by decide) 3 (show 3 < 4 by decide)
          rw [hc1] at this
          norm_num [abs_of_pos] at this
        · have : |flowData 1 d2 2 3| ≤ 1 / 100000000 := hp 2 (show 2 < 3 by decide) 3 (show 3 < 4 by decide)
          rw [hc2] at this
          norm_num [abs_of_pos] at this
      · intro y x
        rw [hp, hsp2, hdt']
        dsimp only
        rw [mul_div_cancel₀ _ (by norm_num : (1000 : ℚ) ≠ 0)]
        norm_num
        rfl

end Improver
