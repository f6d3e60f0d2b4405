import Verif.Model.Times
import Verif.Props.Blend
import Verif.Props.Weights

/-! Properties C71-C75: forecast periods, times, consistency with a reference, triangular blending. -/

namespace Improver

/-! ### C71: forecast periods -/

/-- **C71** (one reference time): every forecast period is the validity time minus the reference time, and so are its
bounds. -/
theorem C71_single_reference_partial (t : TCoord) (r : ℤ) :
    calculateForecastPeriod t [r]
      = .ok ⟨t.points.map (fun p => p - r), t.bounds.map (fun b => b.map (fun q => (q.1 - r, q.2 - r)))⟩ := by
  have h : npSub1 t.points [r] = .ok (t.points.map (fun p => p - r)) := by
    unfold npSub1
    by_cases h1 : t.points.length = [r].length
    · rw [if_pos h1]
      obtain ⟨p, hp⟩ := List.length_eq_one_iff.1 h1
      rw [hp]; rfl
    · rw [if_neg h1]
  unfold calculateForecastPeriod
  rw [h]
  cases hb : t.bounds <;> simp [npSubBounds, bind, Except.bind, pure, Except.pure]

/-- **C71** (several reference times): without bounds, as many reference times as times are paired up; any other number
is refused. -/
theorem C71_several_references (points frt : List ℤ) (hf : 2 ≤ frt.length) (ht : 2 ≤ points.length) :
    (points.length = frt.length →
      calculateForecastPeriod ⟨points, none⟩ frt = .ok ⟨List.zipWith (· - ·) points frt, none⟩) ∧
    (points.length ≠ frt.length → calculateForecastPeriod ⟨points, none⟩ frt = .error .valueError) := by
  unfold calculateForecastPeriod npSub1
  constructor
  · intro h
    rw [if_pos h]; rfl
  · intro h
    simp only []
    rw [if_neg h]
    match points, frt, ht, hf with
    | a :: b :: l, c :: d :: m, _, _ => rfl

/-- **C71** (finding): with several reference times and time bounds the reference times are subtracted along the wrong axis
of the bounds: for two times the upper bound of the first uses the second reference time; for three or more the call fails. -/
theorem C71_bounds_refuted :
    (∃ (t : TCoord) (frt : List ℤ) (fp : TCoord) , calculateForecastPeriod t frt = .ok fp ∧
      ∃ tb fb, t.bounds = some tb ∧ fp.bounds = some fb ∧
        ¬ ∀ (i : ℕ) (b : ℤ × ℤ) (f : ℤ), tb[i]? = some b → frt[i]? = some f → fb[i]? = some (b.1 - f, b.2 - f)) ∧
    (∀ (points : List ℤ) (bounds : List (ℤ × ℤ)) (frt : List ℤ), 3 ≤ frt.length → ∃ e, calculateForecastPeriod ⟨points, some bounds⟩ frt = .error e) := by
  constructor
  · refine ⟨⟨[10800, 14400], some [(7200, 10800), (10800, 14400)]⟩, [0, 3600], ⟨[10800, 10800], some [(7200, 7200), (10800, 10800)]⟩,
      by decide, _, _, rfl, rfl, ?_⟩
    intro h
    have := h 0 (7200, 10800) 0 rfl rfl
    revert this; decide
  · intro points bounds frt h
    unfold calculateForecastPeriod
    cases hp : npSub1 points frt with
    | error e => exact ⟨e, rfl⟩
    | ok ps =>
      match frt, h with
      | a :: b :: c :: l, _ => exact ⟨.valueError, rfl⟩

/-- **C71** (choice): an existing forecast period is returned unless a calculation is forced; otherwise it is calculated
from the forecast reference time, or from the blend time when there is no other; contradictory reference times are refused
and so are cubes that lack what is needed. -/
theorem C71_coordinate (c : TimeMeta) (force : Bool) :
    (∀ f b, c.frt = some f → c.blendTime = some b → f ≠ b → forecastPeriodCoord c force = .error .valueError) ∧
    ((∀ f b, c.frt = some f → c.blendTime = some b → f = b) →
      (∀ fp, c.fp = some fp → force = false → forecastPeriodCoord c force = .ok fp) ∧
      ((c.fp = none ∨ force = true) →
        (∀ t f, c.time = some t → c.frt = some f → forecastPeriodCoord c force = calculateForecastPeriod t f) ∧
        (∀ t b, c.time = some t → c.frt = none → c.blendTime = some b →
          forecastPeriodCoord c force = calculateForecastPeriod t b) ∧
        (c.time = none ∨ (c.frt = none ∧ c.blendTime = none) →
          forecastPeriodCoord c force = .error .coordinateNotFound))) := by
  obtain ⟨t, f, b, fp⟩ := c
  cases f <;> cases b <;> cases t <;> cases fp <;> cases force <;>
    simp +contextual [forecastPeriodCoord]

example : forecastPeriodCoord ⟨some ⟨[7200], some [(3600, 7200)]⟩, some [0], some [0], some ⟨[1], none⟩⟩ true
    = .ok ⟨[7200], some [(3600, 7200)]⟩ := by decide

/-! ### C72: times -/

theorem argminFrom_spec {α : Type} [LinearOrder α] (pre : List α) : ∀ (xs : List α) (best : α) (bi : ℕ), bi < pre.length → pre[bi]? = some best →
    (∀ x ∈ pre, best ≤ x) → (∀ k x, k < bi → pre[k]? = some x → best < x) →
    ∃ m, argminFrom best bi pre.length xs < (pre ++ xs).length ∧ (pre ++ xs)[argminFrom best bi pre.length xs]? = some m ∧
      (∀ x ∈ pre ++ xs, m ≤ x) ∧ ∀ k x, k < argminFrom best bi pre.length xs → (pre ++ xs)[k]? = some x → m < x := by
  intro xs
  induction xs generalizing pre with
  | nil =>
    intro best bi h1 h2 h3 h4
    refine ⟨best, ?_, ?_, ?_, ?_⟩
    · simpa [argminFrom] using h1
    · simpa [argminFrom] using h2
    · simpa using h3
    · intro k x hk hx
      exact h4 k x (by simpa [argminFrom] using hk) (by simpa using hx)
  | cons a xs ih =>
    intro best bi h1 h2 h3 h4
    have hl : (pre ++ [a]).length = pre.length + 1 := by simp
    have happ : pre ++ a :: xs = (pre ++ [a]) ++ xs := by simp
    unfold argminFrom
    rw [happ, ← hl]
    by_cases hc : a < best
    · rw [if_pos hc]
      apply ih (pre ++ [a]) a pre.length
      · simp
      · simp
      · intro x hx
        rcases List.mem_append.1 hx with h | h
        · exact (lt_of_lt_of_le hc (h3 x h)).le
        · rw [List.mem_singleton.1 h]
      · intro k x hk hx
        rw [List.getElem?_append_left hk] at hx
        exact lt_of_lt_of_le hc (h3 x (List.mem_of_getElem? hx))
    · rw [if_neg hc]
      apply ih (pre ++ [a]) best bi
      · rw [hl]; omega
      · rw [List.getElem?_append_left h1]; exact h2
      · intro x hx
        rcases List.mem_append.1 hx with h | h
        · exact h3 x h
        · rw [List.mem_singleton.1 h]; exact not_lt.1 hc
      · intro k x hk hx
        rw [List.getElem?_append_left (by omega)] at hx
        exact h4 k x hk hx

theorem nearestIndex_spec (points : List ℤ) (t : ℤ) (hne : points ≠ []) :
    ∃ p, points[nearestIndex points t]? = some p ∧ (∀ q ∈ points, |p - t| ≤ |q - t|) ∧
      ∀ k q, k < nearestIndex points t → points[k]? = some q → |p - t| < |q - t| := by
  cases points with
  | nil => exact absurd rfl hne
  | cons a l =>
    have := argminFrom_spec [|a - t|] (l.map (fun p => |p - t|)) |a - t| 0 (by simp) (by simp) (by simp)
      (fun k x hk => absurd hk (by omega))
    simp only [List.length_singleton] at this
    obtain ⟨m, h1, h2, h3, h4⟩ := this
    have hidx : nearestIndex (a :: l) t = argminFrom |a - t| 0 1 (l.map (fun p => |p - t|)) := rfl
    rw [hidx]
    set i := argminFrom |a - t| 0 1 (l.map (fun p => |p - t|)) with hi
    have hmap : [|a - t|] ++ l.map (fun p => |p - t|) = (a :: l).map (fun p => |p - t|) := rfl
    rw [hmap] at h1 h2 h3 h4
    rw [List.getElem?_map] at h2
    cases hp : (a :: l)[i]? with
    | none => rw [hp] at h2; simp at h2
    | some p =>
      rw [hp] at h2
      simp only [Option.map_some, Option.some.injEq] at h2
      refine ⟨p, rfl, ?_, ?_⟩
      · intro q hq
        rw [h2]; exact h3 _ (List.mem_map.2 ⟨q, hq, rfl⟩)
      · intro k q hk hq
        rw [h2]
        exact h4 k _ hk (by rw [List.getElem?_map, hq]; rfl)

/-- **C72** (nearest time): the slice returned is one whose time is nearest to the time asked for, and no further away than
allowed; when even the nearest is further away than allowed the call is refused. -/
theorem C72_nearest {D : Type} (cube : List (ℤ × D)) (hne : cube ≠ []) (name : String)
    (hn : name = "time" ∨ name = "forecast_reference_time") (t allowed : ℤ) :
    (∀ e, extractNearest cube name t allowed = .ok e →
      e ∈ cube ∧ (∀ q ∈ cube, |t - e.1| ≤ |t - q.1|) ∧ |t - e.1| ≤ allowed) ∧
    ((∃ e, extractNearest cube name t allowed = .ok e) ↔ ∃ q ∈ cube, |t - q.1| ≤ allowed) ∧
    ((∀ q ∈ cube, allowed < |t - q.1|) → extractNearest cube name t allowed = .error .valueError) := by
  have hname : ¬ (name ≠ "time" ∧ name ≠ "forecast_reference_time") := by
    rintro ⟨a, b⟩; rcases hn with h | h
    · exact a h
    · exact b h
  obtain ⟨p, h1, h2, _⟩ := nearestIndex_spec (cube.map Prod.fst) t (by simpa using hne)
  rw [List.getElem?_map] at h1
  cases hc : cube[nearestIndex (cube.map Prod.fst) t]? with
  | none => rw [hc] at h1; simp at h1
  | some e =>
    rw [hc] at h1
    simp only [Option.map_some, Option.some.injEq] at h1
    have hmem : e ∈ cube := List.mem_of_getElem? hc
    have hmin : ∀ q ∈ cube, |t - e.1| ≤ |t - q.1| := by
      intro q hq
      have := h2 q.1 (List.mem_map.2 ⟨q, hq, rfl⟩)
      rw [← h1, abs_sub_comm, abs_sub_comm q.1] at this
      exact this
    have hval : extractNearest cube name t allowed = if |t - e.1| > allowed then .error .valueError else .ok e := by
      unfold extractNearest
      rw [if_neg hname, hc]
    rw [hval]
    by_cases hgt : |t - e.1| > allowed
    · simp only [if_pos hgt]
      refine ⟨fun e' h => (nomatch h), ⟨fun ⟨_, h⟩ => (nomatch h), fun ⟨q, hq, h⟩ => ?_⟩, fun _ => trivial⟩
      have := hmin q hq
      omega
    · simp only [if_neg hgt]
      refine ⟨fun e' h => ?_, ⟨fun _ => ⟨e, hmem, not_lt.1 hgt⟩, fun _ => ⟨e, rfl⟩⟩, fun h => ?_⟩
      · injection h with h; subst h
        exact ⟨hmem, hmin, not_lt.1 hgt⟩
      · have := h e hmem; omega

/-- **C72** (nearest time): only the two time coordinates may be used. -/
theorem C72_name {D : Type} (cube : List (ℤ × D)) (name : String) (h1 : name ≠ "time") (h2 : name ≠ "forecast_reference_time")
    (t allowed : ℤ) : extractNearest cube name t allowed = .error .valueError := by
  unfold extractNearest; rw [if_pos ⟨h1, h2⟩]

example : extractNearest [(0, "a"), (3600, "b"), (7200, "c")] "time" 3000 700 = .ok (3600, "b") := by decide
example : extractNearest [(0, "a"), (3600, "b"), (7200, "c")] "time" 3000 500 = .error .valueError := by decide

/-- **C72** (relabelling): the period ends at the point and lasts the requested number of hours; anything shorter than an
hour, or no period, is refused. -/
theorem C72_relabel (point : ℤ) :
    (∀ p, 1 ≤ p → ∃ lo, relabelToPeriod point (some p) = .ok (lo, point) ∧ point - lo = 3600 * p) ∧
    (∀ p, p < 1 → relabelToPeriod point (some p) = .error .valueError) ∧
    relabelToPeriod point none = .error .valueError := by
  unfold relabelToPeriod
  refine ⟨fun p hp => ⟨point - p * 3600, by simp only []; rw [if_neg (by omega)], by ring⟩, fun p hp => ?_, rfl⟩
  simp only []; rw [if_pos hp]

/-- **C72** (integration): each rate becomes rate times the length of its period in seconds; cubes without bounds are
refused.  Consecutive periods add up: the total is that of the mean rate over the whole. -/
theorem C72_integrate (slices : List ((ℤ × ℤ) × ℚ)) :
    integrateTime slices true = .ok (slices.map (fun s => (s.1, s.2 * ((s.1.2 - s.1.1 : ℤ) : ℚ)))) ∧
    integrateTime slices false = .error .valueError := ⟨rfl, rfl⟩

/-- **C72** (integration of a constant rate): over consecutive periods the integrals of a constant rate sum to the rate
times the whole duration. -/
theorem C72_integrate_total (r : ℚ) (t0 : ℤ) (ts : List ℤ) :
    ∃ out, integrateTime ((List.zip (t0 :: ts) ts).map (fun b => (b, r))) true = .ok out ∧
      (out.map Prod.snd).sum = r * (((t0 :: ts).getLast (by simp) - t0 : ℤ) : ℚ) := by
  refine ⟨_, (C72_integrate _).1, ?_⟩
  induction ts generalizing t0 with
  | nil => simp
  | cons t ts ih =>
    rw [List.zip_cons_cons, List.map_cons, List.map_cons, List.map_cons, List.sum_cons, ih t]
    rw [List.getLast_cons_cons]
    push_cast; ring

/-! ### C73: consistency with a reference forecast -/

/-- Specification: `y` is the value nearest to `x` in the interval. -/
def Spec.NearestIn (lo hi : Option ℚ) (x y : ℚ) : Prop :=
  ((∀ l, lo = some l → l ≤ y) ∧ (∀ u, hi = some u → y ≤ u)) ∧
  ∀ z, (∀ l, lo = some l → l ≤ z) → (∀ u, hi = some u → z ≤ u) → |y - x| ≤ |z - x|

theorem clipOpt_nearest (x : ℚ) (lo hi : Option ℚ) (h : ∀ l u, lo = some l → hi = some u → l ≤ u) :
    Spec.NearestIn lo hi x (clipOpt x lo hi) := by
  unfold Spec.NearestIn clipOpt
  cases lo with
  | none =>
    cases hi with
    | none => simp
    | some u =>
      simp only [Option.some.injEq, reduceCtorEq, false_implies, implies_true, true_and, forall_eq']
      refine ⟨min_le_right _ _, fun z _ hz => ?_⟩
      rcases le_total x u with hx | hx
      · rw [min_eq_left hx]; simp
      · rw [min_eq_right hx, abs_sub_comm u, abs_sub_comm z, abs_of_nonneg (by linarith), abs_of_nonneg (by linarith)]; linarith
  | some l =>
    cases hi with
    | none =>
      simp only [Option.some.injEq, reduceCtorEq, false_implies, implies_true, and_true, forall_eq', true_implies]
      refine ⟨le_max_right _ _, fun z hz => ?_⟩
      rcases le_total l x with hx | hx
      · rw [max_eq_left hx]; simp
      · rw [max_eq_right hx, abs_of_nonneg (by linarith), abs_of_nonneg (by linarith)]; linarith
    | some u =>
      have hlu := h l u rfl rfl
      simp only [Option.some.injEq, forall_eq']
      refine ⟨⟨le_min (le_max_right _ _) hlu, min_le_right _ _⟩, fun z hz1 hz2 => ?_⟩
      rcases le_total l x with hx | hx
      · rw [max_eq_left hx]
        rcases le_total x u with hx' | hx'
        · rw [min_eq_left hx']; simp
        · rw [min_eq_right hx', abs_sub_comm u, abs_sub_comm z, abs_of_nonneg (by linarith), abs_of_nonneg (by linarith)]; linarith
      · rw [max_eq_right hx, min_eq_left hlu, abs_of_nonneg (by linarith), abs_of_nonneg (by linarith)]; linarith

/-- Specification: the interval that the arguments demand for a reference value `r`. -/
def Spec.consistentInterval (add mul : OneOrTwo ℚ) (op : OneOrTwo String) (r : ℚ) : Option (Option ℚ × Option ℚ) :=
  match add, mul, op with
  | .one a, .one m, .one ">=" => some (some (a + m * r), none)
  | .one a, .one m, .one "<=" => some (none, some (a + m * r))
  | .two a b, .two m n, .two ">=" "<=" => some (some (a + m * r), some (b + n * r))
  | .two a b, .two m n, .two "<=" ">=" => some (some (b + n * r), some (a + m * r))
  | _, _, _ => none

theorem zip_map_map {α β γ : Type} (f : α → β) (g : α → γ) (l : List α) :
    List.zip (l.map f) (l.map g) = l.map (fun a => (f a, g a)) := by
  induction l with
  | nil => rfl
  | cons a l ih => simp [ih]

/-- **C73**: whenever a forecast is returned, every value is the one nearest to the original in the interval demanded for
its reference value: values that were already consistent are unchanged, others move exactly to the bound.  Intervals are
never empty. -/
theorem C73_nearest_consistent (add mul : OneOrTwo ℚ) (op : OneOrTwo String) (isProb : Bool) (forecast ref out : List ℚ)
    (hl : forecast.length = ref.length) (h : enforceConsistent add mul op isProb forecast ref = .ok out) :
    out.length = forecast.length ∧
    ∀ (i : ℕ) (x r : ℚ), forecast[i]? = some x → ref[i]? = some r →
      ∃ b y, Spec.consistentInterval add mul op r = some b ∧ out[i]? = some y ∧ Spec.NearestIn b.1 b.2 x y := by
  unfold enforceConsistent at h
  by_cases hp : (add ≠ .one 0 ∨ mul ≠ .one 1) ∧ isProb = true
  · rw [if_pos hp] at h; exact nomatch h
  rw [if_neg hp] at h
  -- what the bounds are
  have hb : ∀ bs, consistencyBounds add mul op ref = .ok bs →
      ∃ g : ℚ → Option ℚ × Option ℚ, bs = ref.map g ∧ (∀ r, Spec.consistentInterval add mul op r = some (g r)) ∧
        ∀ r ∈ ref, ∀ l u, (g r).1 = some l → (g r).2 = some u → l ≤ u := by
    intro bs hbs
    unfold consistencyBounds at hbs
    cases add with
    | one a =>
      cases mul with
      | two => exact nomatch hbs
      | one m =>
        cases op with
        | two => exact nomatch hbs
        | one o =>
          simp only [] at hbs
          by_cases h1 : o = ">="
          · rw [if_pos h1] at hbs; injection hbs with hbs
            refine ⟨fun r => (some (a + m * r), none), ?_, ?_, ?_⟩
            · rw [← hbs]; unfold consistencyBound; rw [List.map_map]; rfl
            · intro r; subst h1; rfl
            · intro r _ l u _ hu; simp at hu
          · rw [if_neg h1] at hbs
            by_cases h2 : o = "<="
            · rw [if_pos h2] at hbs; injection hbs with hbs
              refine ⟨fun r => (none, some (a + m * r)), ?_, ?_, ?_⟩
              · rw [← hbs]; unfold consistencyBound; rw [List.map_map]; rfl
              · intro r; subst h2; rfl
              · intro r _ l u hl _; simp at hl
            · rw [if_neg h2] at hbs; exact nomatch hbs
    | two a0 a1 =>
      cases mul with
      | one => exact nomatch hbs
      | two m0 m1 =>
        cases op with
        | one => exact nomatch hbs
        | two o0 o1 =>
          simp only [] at hbs
          unfold consistencyBound at hbs
          rw [zip_map_map, zip_map_map] at hbs
          by_cases h1 : o0 = "<=" ∧ o1 = ">="
          · rw [if_pos h1] at hbs
            by_cases h2 : (ref.map (fun a => (a1 + m1 * a, a0 + m0 * a))).any (fun p => decide (p.1 > p.2)) = true
            · rw [if_pos h2] at hbs; exact nomatch hbs
            · rw [if_neg h2] at hbs; injection hbs with hbs
              refine ⟨fun r => (some (a1 + m1 * r), some (a0 + m0 * r)), ?_, ?_, ?_⟩
              · rw [← hbs, List.map_map]; rfl
              · intro r; rw [h1.1, h1.2]; rfl
              · intro r hr l u hl hu
                simp only [Option.some.injEq] at hl hu
                rw [← hl, ← hu]
                by_contra hc
                apply h2
                rw [List.any_eq_true]
                exact ⟨_, List.mem_map.2 ⟨r, hr, rfl⟩, by simpa using hc⟩
          · rw [if_neg h1] at hbs
            by_cases h3 : o0 = ">=" ∧ o1 = "<="
            · rw [if_pos h3] at hbs
              by_cases h2 : (ref.map (fun a => (a0 + m0 * a, a1 + m1 * a))).any (fun p => decide (p.1 > p.2)) = true
              · rw [if_pos h2] at hbs; exact nomatch hbs
              · rw [if_neg h2] at hbs; injection hbs with hbs
                refine ⟨fun r => (some (a0 + m0 * r), some (a1 + m1 * r)), ?_, ?_, ?_⟩
                · rw [← hbs, List.map_map]; rfl
                · intro r; rw [h3.1, h3.2]; rfl
                · intro r hr l u hl hu
                  simp only [Option.some.injEq] at hl hu
                  rw [← hl, ← hu]
                  by_contra hc
                  apply h2
                  rw [List.any_eq_true]
                  exact ⟨_, List.mem_map.2 ⟨r, hr, rfl⟩, by simpa using hc⟩
            · rw [if_neg h3] at hbs; exact nomatch hbs
  cases hbs : consistencyBounds add mul op ref with
  | error e => rw [hbs] at h; exact nomatch h
  | ok bs =>
    rw [hbs] at h
    simp only [bind, Except.bind, pure, Except.pure] at h
    injection h with h
    obtain ⟨g, hg, hspec, hle⟩ := hb bs hbs
    subst hg
    refine ⟨by rw [← h]; simp [hl], ?_⟩
    intro i x r hx hr
    refine ⟨g r, clipOpt x (g r).1 (g r).2, hspec r, ?_, ?_⟩
    · rw [← h, List.getElem?_zipWith, hx, List.getElem?_map, hr]; rfl
    · exact clipOpt_nearest _ _ _ (hle r (List.mem_of_getElem? hr))

/-- **C73** (refusals): a linear transformation of a probability forecast, a mixture of single values and lists, unknown
operators, and contradictory bounds at any point are refused. -/
theorem C73_refusals (add mul : OneOrTwo ℚ) (op : OneOrTwo String) (isProb : Bool) (forecast ref : List ℚ)
    (hbad : (isProb = true ∧ (add ≠ .one 0 ∨ mul ≠ .one 1)) ∨ (∀ r, Spec.consistentInterval add mul op r = none) ∨
      ∃ r ∈ ref, ∃ l u, Spec.consistentInterval add mul op r = some (some l, some u) ∧ u < l) :
    enforceConsistent add mul op isProb forecast ref = .error .valueError := by
  unfold enforceConsistent
  by_cases hp : (add ≠ .one 0 ∨ mul ≠ .one 1) ∧ isProb = true
  · rw [if_pos hp]
  rw [if_neg hp]
  suffices hc : consistencyBounds add mul op ref = .error .valueError by rw [hc]; rfl
  rcases hbad with ⟨h1, h2⟩ | h | ⟨r, hr, l, u, hs, hlt⟩
  · exact absurd ⟨h2, h1⟩ hp
  · unfold consistencyBounds
    cases add with
    | one a =>
      cases mul with
      | two => rfl
      | one m =>
        cases op with
        | two => rfl
        | one o =>
          simp only []
          rw [if_neg, if_neg]
          · rintro rfl; have := h 0; simp [Spec.consistentInterval] at this
          · rintro rfl; have := h 0; simp [Spec.consistentInterval] at this
    | two a0 a1 =>
      cases mul with
      | one => rfl
      | two m0 m1 =>
        cases op with
        | one => rfl
        | two o0 o1 =>
          simp only []
          rw [if_neg, if_neg]
          · rintro ⟨rfl, rfl⟩; have := h 0; simp [Spec.consistentInterval] at this
          · rintro ⟨rfl, rfl⟩; have := h 0; simp [Spec.consistentInterval] at this
  · unfold Spec.consistentInterval at hs
    split at hs
    · simp at hs
    · simp at hs
    · rename_i a b m n
      simp only [Option.some.injEq, Prod.mk.injEq] at hs
      unfold consistencyBounds
      simp only []
      rw [if_neg (by decide), if_pos ⟨trivial, trivial⟩, if_pos]
      unfold consistencyBound
      rw [zip_map_map, List.any_eq_true]
      refine ⟨_, List.mem_map.2 ⟨r, hr, rfl⟩, ?_⟩
      rw [hs.1, hs.2]; simpa using hlt
    · rename_i a b m n
      simp only [Option.some.injEq, Prod.mk.injEq] at hs
      unfold consistencyBounds
      simp only []
      rw [if_pos ⟨trivial, trivial⟩, if_pos]
      unfold consistencyBound
      rw [zip_map_map, List.any_eq_true]
      refine ⟨_, List.mem_map.2 ⟨r, hr, rfl⟩, ?_⟩
      rw [hs.1, hs.2]; simpa using hlt
    · simp at hs

example : enforceConsistent (.two (-1) 1) (.two 1 1) (.two ">=" "<=") false [1, 5, 9] [4, 4, 4] = .ok [3, 5, 5] := by
  decide +kernel
example : enforceConsistent (.two 1 (-1)) (.two 1 1) (.two ">=" "<=") false [1, 5, 9] [4, 4, 4] = .error .valueError := by
  decide +kernel

/-! ### C74: normalisation to a reference -/

theorem foldl_add_sum' (l : List ℚ) (a : ℚ) : l.foldl (· + ·) a = a + l.sum := by
  induction l generalizing a with
  | nil => simp
  | cons b l ih => rw [List.foldl_cons, ih, List.sum_cons]; ring

/-- **C74**: normalised fields keep their proportions and add up to the reference wherever their total is not zero; where
the total and the reference are both zero every field is zero.  A zero total with a non-zero reference is refused unless it
is to be ignored, and so are fewer than two fields. -/
theorem C74_normalise (vals : List ℚ) (ref : ℚ) (ign : Bool) :
    (vals.length < 2 → normaliseToReference vals ref ign = .error .valueError) ∧
    (2 ≤ vals.length →
      (vals.sum ≠ 0 → ∃ out, normaliseToReference vals ref ign = .ok out ∧ out.length = vals.length ∧ out.sum = ref ∧
        (∀ (i : ℕ) (v : ℚ), vals[i]? = some v → ∃ o, out[i]? = some o ∧ o * vals.sum = ref * v)) ∧
      (vals.sum = 0 → ref = 0 → normaliseToReference vals ref ign = .ok (vals.map (fun _ => 0))) ∧
      (vals.sum = 0 → ref ≠ 0 → ign = false → normaliseToReference vals ref ign = .error .valueError) ∧
      (vals.sum = 0 → ref ≠ 0 → ign = true → normaliseToReference vals ref ign = .ok (vals.map (fun v => ref * v)))) := by
  unfold normaliseToReference
  constructor
  · intro h; rw [if_pos h]
  · intro h
    rw [if_neg (by omega)]
    have htot : vals.tail.foldl (· + ·) (vals.headD 0) = vals.sum := by
      cases vals with
      | nil => simp at h
      | cons a l => rw [List.tail_cons, List.headD_cons, foldl_add_sum', List.sum_cons]
    simp only [htot]
    refine ⟨?_, ?_, ?_, ?_⟩
    · intro hs
      rw [if_neg (fun hc => hs hc.1), if_neg hs]
      refine ⟨_, rfl, by simp, ?_, ?_⟩
      · have : ∀ l : List ℚ, (l.map (fun v => ref * v / vals.sum)).sum = ref * l.sum / vals.sum := by
          intro l
          induction l with
          | nil => simp
          | cons a l ih => rw [List.map_cons, List.sum_cons, ih, List.sum_cons]; ring
        rw [this, mul_div_assoc, div_self hs, mul_one]
      · intro i v hv
        refine ⟨ref * v / vals.sum, by rw [List.getElem?_map, hv]; rfl, ?_⟩
        rw [div_mul_cancel₀ _ hs]
    · intro hs hr
      rw [if_neg (fun hc => hc.2.1 hr), if_pos hs, hr]
      simp
    · intro hs hr hi
      rw [if_pos ⟨hs, hr, by rw [hi]; rfl⟩]
    · intro hs hr hi
      rw [if_neg (fun hc => by rw [hi] at hc; simp at hc), if_pos hs]
      simp

example : normaliseToReference [1, 3] 8 false = .ok [2, 6] := by decide +kernel

/-- **C74** (selection by name): the cubes are split into those with a listed name and the others, each in the given order;
without names all are selected. -/
theorem C74_split {D : Type} (cubes : List (String × D)) :
    splitByName cubes none = (cubes, []) ∧
    ∀ ns, splitByName cubes (some ns) = (cubes.filter (fun c => decide (c.1 ∈ ns)), cubes.filter (fun c => decide (c.1 ∉ ns))) := by
  refine ⟨rfl, fun ns => ?_⟩
  unfold splitByName
  simp only []
  suffices h : ∀ (acc : List (String × D) × List (String × D)),
      cubes.foldl (fun acc c => if c.1 ∈ ns then (acc.1 ++ [c], acc.2) else (acc.1, acc.2 ++ [c])) acc
        = (acc.1 ++ cubes.filter (fun c => decide (c.1 ∈ ns)), acc.2 ++ cubes.filter (fun c => decide (c.1 ∉ ns))) by
    simpa using h ([], [])
  induction cubes with
  | nil => intro acc; simp
  | cons c cs ih =>
    intro acc
    rw [List.foldl_cons, ih]
    by_cases hc : c.1 ∈ ns
    · rw [if_pos hc]; simp [hc]
    · rw [if_neg hc]; simp [hc]

/-! ### C75: triangular blending -/

/-- **C75**: blending across adjacent points gives the mean of the unmasked values weighted by a triangle of the given
half-width centred on the central point, which must be one of the points.  Points further away than the width do not count,
in whatever order the points come. -/
theorem C75_triangular (pts : List ℚ) (x : ℚ → Option ℚ) (central width : ℚ) (hw : 0 < width) (hc : central ∈ pts) :
    adjacentBlend (pts.map (fun p => (p, x p))) central width
      = .ok (maAverage (pts.map x) (pts.map (fun p => max 0 (1 - |p - central| / width)))) := by
  unfold adjacentBlend
  rw [if_neg]
  · have hfst : (pts.map (fun p => (p, x p))).map Prod.fst = pts := by
      rw [List.map_map]; exact List.map_id' pts |>.symm ▸ by simp
    rw [hfst]
    have hin : ∃ q ∈ pts, |q - central| < width := ⟨central, hc, by simpa using hw⟩
    have hout := (C21_triangular pts central width hw _).2 ⟨hin, rfl⟩
    rw [hout]
    simp only [bind, Except.bind]
    set s := (pts.map (triangle central width)).sum with hs
    have hz : List.zip pts (pts.map (fun p => triangle central width p / s))
        = pts.map (fun p => (p, triangle central width p / s)) := by
      have := zip_map_map (fun p : ℚ => p) (fun p => triangle central width p / s) pts
      simpa using this
    rw [hz, C22_order_independent pts x (fun p => triangle central width p / s) _ _ (List.Perm.refl _) (List.Perm.refl _)]
    have hpos : 0 < s := by
      have hnn : ∀ y ∈ pts.map (triangle central width), 0 ≤ y := by
        intro y hy
        obtain ⟨q, _, rfl⟩ := List.mem_map.1 hy
        unfold triangle; exact le_max_left _ _
      have h1 : triangle central width central ≤ s :=
        List.single_le_sum hnn _ (List.mem_map.2 ⟨central, hc, rfl⟩)
      have : triangle central width central = 1 := by unfold triangle; simp
      linarith
    have hscale := C22_weights_scale (pts.map x) (pts.map (triangle central width)) (1 / s) (by positivity)
    rw [List.map_map] at hscale
    have e1 : pts.map (fun p => triangle central width p / s)
        = pts.map ((fun x => 1 / s * x) ∘ triangle central width) := by
      apply List.map_congr_left
      intro p _
      simp only [Function.comp]; ring
    have e2 : pts.map (fun p => max 0 (1 - |p - central| / width)) = pts.map (triangle central width) := by
      apply List.map_congr_left
      intro p _
      rfl
    rw [e1, hscale, e2]
  · intro hall
    have := List.all_eq_true.1 hall (central, x central) (List.mem_map.2 ⟨central, hc, rfl⟩)
    simp at this

/-- **C75** (bounds): the blended value lies between the smallest and the largest of the values within the width. -/
theorem C75_between (pts : List ℚ) (x : ℚ → Option ℚ) (central width : ℚ) (hw : 0 < width) (hc : central ∈ pts) (lo hi v : ℚ)
    (hb : ∀ p ∈ pts, |p - central| < width → ∀ y, x p = some y → lo ≤ y ∧ y ≤ hi)
    (h : adjacentBlend (pts.map (fun p => (p, x p))) central width = .ok (some v)) : lo ≤ v ∧ v ≤ hi := by
  rw [C75_triangular pts x central width hw hc] at h
  injection h with h
  refine C22_blend_between _ _ ?_ lo hi v ?_ h
  · intro u hu
    obtain ⟨p, _, rfl⟩ := List.mem_map.1 hu
    exact le_max_left _ _
  · intro y u hm hu
    rw [zip_map_map] at hm
    obtain ⟨p, hp, he⟩ := List.mem_map.1 hm
    simp only [Prod.mk.injEq] at he
    refine hb p hp ?_ y he.1
    by_contra hcc
    have h1 : 1 ≤ |p - central| / width := by rw [le_div_iff₀ hw]; linarith
    have : u = 0 := by rw [← he.2]; exact max_eq_left (by linarith)
    linarith

/-- **C75** (refusals): a central point that is not among the points, and a width that is not positive, are refused. -/
theorem C75_refusals (data : List (ℚ × Option ℚ)) (central width : ℚ) :
    (central ∉ data.map Prod.fst → adjacentBlend data central width = .error .valueError) ∧
    (width ≤ 0 → ∃ e, adjacentBlend data central width = .error e) := by
  unfold adjacentBlend
  constructor
  · intro h
    rw [if_pos]
    rw [List.all_eq_true]
    intro p hp
    rw [decide_eq_true_eq]
    intro he
    exact h (List.mem_map.2 ⟨p, hp, he⟩)
  · intro h
    by_cases hc : data.all (fun p => decide (p.1 ≠ central)) = true
    · exact ⟨_, by rw [if_pos hc]⟩
    · obtain ⟨e, he⟩ := C21_triangular_bad_width (data.map Prod.fst) central width h
      exact ⟨e, by rw [if_neg hc, he]; rfl⟩

example : adjacentBlend [(1, some 10), (3, some 30), (2, some 20), (9, some 500)] 2 2 = .ok (some 20) := by decide +kernel

end Improver
