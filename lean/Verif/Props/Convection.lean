import Verif.Model.Convection
import Mathlib.Tactic.Linarith
import Mathlib.Tactic.NormNum
import Mathlib.Tactic.FieldSimp

/-! Properties of the convection ratio and of the shower condition cube (C168). -/

namespace Improver

/-- The cubes hold exactly one cube of the name, and it converts to m s-1 with the values `x`. -/
def Spec.onlyRate (cubes : List CompCube) (name : String) (x : List ℚ) : Prop :=
  ∃ pre c post k, cubes = pre ++ c :: post ∧ c.name = name ∧ (∀ d ∈ pre ++ post, d.name ≠ name) ∧
    c.toSI = some k ∧ x = c.data.map (· * k)

theorem filter_single {α : Type} {p : α → Bool} {l : List α} {c : α} :
    l.filter p = [c] ↔ ∃ pre post, l = pre ++ c :: post ∧ p c = true ∧ ∀ d ∈ pre ++ post, p d = false := by
  constructor
  · intro h
    induction l with
    | nil => simp at h
    | cons a l ih =>
      by_cases ha : p a = true
      · rw [List.filter_cons_of_pos ha] at h
        injection h with h1 h2
        subst h1
        refine ⟨[], l, rfl, ha, fun d hd => ?_⟩
        have := List.filter_eq_nil_iff.1 h2 d (by simpa using hd)
        simpa using this
      · rw [List.filter_cons_of_neg ha] at h
        obtain ⟨pre, post, rfl, hc, hd⟩ := ih h
        refine ⟨a :: pre, post, rfl, hc, fun d hd' => ?_⟩
        rw [List.cons_append, List.mem_cons] at hd'
        rcases hd' with rfl | hd'
        · simpa using ha
        · exact hd d hd'
  · rintro ⟨pre, post, rfl, hc, hd⟩
    have h1 : pre.filter p = [] := List.filter_eq_nil_iff.2 fun d h => by simp [hd d (by simp [h])]
    have h2 : post.filter p = [] := List.filter_eq_nil_iff.2 fun d h => by simp [hd d (by simp [h])]
    rw [List.filter_append, h1, List.filter_cons_of_pos hc, h2]
    rfl

theorem getRate_ok (cubes : List CompCube) (name : String) (x : List ℚ) :
    getRate cubes name = .ok x ↔ Spec.onlyRate cubes name x := by
  unfold getRate Spec.onlyRate
  constructor
  · intro h
    split at h
    · rename_i c hc
      obtain ⟨pre, post, e, h1, h2⟩ := filter_single.1 hc
      cases hk : c.toSI with
      | none => rw [hk] at h; exact nomatch h
      | some k =>
        rw [hk] at h
        injection h with h
        exact ⟨pre, c, post, k, e, by simpa using h1, fun d hd => by simpa using h2 d hd, hk, h.symm⟩
    · exact nomatch h
  · rintro ⟨pre, c, post, k, e, h1, h2, hk, rfl⟩
    have : cubes.filter (fun c => decide (c.name = name)) = [c] :=
      filter_single.2 ⟨pre, post, e, by simpa using h1, fun d hd => by simpa using h2 d hd⟩
    rw [this]
    dsimp only
    rw [hk]

theorem getRate_err (cubes : List CompCube) (name : String) :
    (∃ x, getRate cubes name = .ok x) ∨ getRate cubes name = .error .valueError := by
  unfold getRate
  split
  · rename_i c _
    cases c.toSI with
    | none => exact .inr rfl
    | some k => exact .inl ⟨_, rfl⟩
  · exact .inr rfl

/-- C168: the ratio is computed exactly when there is one convective and one stratiform cube, both in units of
rate; any other input is a ValueError. -/
theorem C168_inputs (cubes : List CompCube) :
    (∀ r, convectionRatios cubes = .ok r ↔ ∃ c d,
      Spec.onlyRate cubes "lwe_convective_precipitation_rate" c ∧
      Spec.onlyRate cubes "lwe_stratiform_precipitation_rate" d ∧ r = List.zipWith convectiveRatio c d) ∧
    ((∃ r, convectionRatios cubes = .ok r) ∨ convectionRatios cubes = .error .valueError) := by
  generalize hn1 : "lwe_convective_precipitation_rate" = n1
  generalize hn2 : "lwe_stratiform_precipitation_rate" = n2
  unfold convectionRatios
  rw [hn1, hn2]
  simp only [bind, Except.bind, pure, Except.pure]
  rcases getRate_err cubes n1 with ⟨c, hc⟩ | hc
  · rcases getRate_err cubes n2 with ⟨d, hd⟩ | hd
    · rw [hc, hd]
      dsimp only
      refine ⟨fun r => ⟨fun h => ?_, ?_⟩, .inl ⟨_, rfl⟩⟩
      · injection h with h
        exact ⟨c, d, (getRate_ok _ _ _).1 hc, (getRate_ok _ _ _).1 hd, h.symm⟩
      · rintro ⟨c', d', h1, h2, rfl⟩
        rw [(getRate_ok _ _ _).2 h1] at hc
        rw [(getRate_ok _ _ _).2 h2] at hd
        injection hc with hc
        injection hd with hd
        rw [hc, hd]
    · rw [hc, hd]
      dsimp only
      refine ⟨fun r => ⟨fun h => (nomatch h), ?_⟩, .inr rfl⟩
      rintro ⟨c', d', h1, h2, rfl⟩
      rw [(getRate_ok _ _ _).2 h2] at hd
      exact nomatch hd
  · rw [hc]
    dsimp only
    refine ⟨fun r => ⟨fun h => (nomatch h), ?_⟩, .inr rfl⟩
    rintro ⟨c', d', h1, h2, rfl⟩
    rw [(getRate_ok _ _ _).2 h1] at hc
    exact nomatch hc

theorem dryClose (c d : ℚ) : npIsclose (c + d) 0 (1 / 100000) (1 / 1000000000) = true ↔ |c + d| ≤ 1e-9 := by
  unfold npIsclose
  rw [decide_eq_true_iff, abs_zero, mul_zero, add_zero, sub_zero]
  norm_num

/-- C168: the ratio is masked exactly where the precipitation is not above 1e-9 m s-1 in size; elsewhere it is the
share of the convective part. -/
theorem C168_ratio (c d : ℚ) :
    (|c + d| ≤ 1e-9 → convectiveRatio c d = none) ∧
    (1e-9 < |c + d| → ∃ r, convectiveRatio c d = some r ∧ r * (c + d) = c) := by
  unfold convectiveRatio
  dsimp only
  constructor
  · intro h
    rw [if_pos ((dryClose c d).2 h)]
  · intro h
    rw [if_neg (by rw [dryClose]; exact not_le.2 h)]
    refine ⟨_, rfl, ?_⟩
    have : c + d ≠ 0 := by
      intro h0
      rw [h0, abs_zero] at h
      norm_num at h
    rw [div_mul_cancel₀ _ this]

/-- C168: for rates that are not negative the ratio is a fraction; it grows with the convective part and falls with
the other, and the ratios of the two parts add to one. -/
theorem C168_fraction {c d r : ℚ} (hc : 0 ≤ c) (hd : 0 ≤ d) (h : convectiveRatio c d = some r) :
    0 ≤ r ∧ r ≤ 1 ∧ (r = 0 ↔ c = 0) ∧ (r = 1 ↔ d = 0) ∧ convectiveRatio d c = some (1 - r) := by
  have hgt : 1e-9 < |c + d| := by
    by_contra hle
    rw [(C168_ratio c d).1 (not_lt.1 hle)] at h
    exact nomatch h
  obtain ⟨r', hr', hm⟩ := (C168_ratio c d).2 hgt
  rw [hr', Option.some.injEq] at h
  subst h
  rw [abs_of_nonneg (by linarith)] at hgt
  have hpos : 0 < c + d := lt_trans (by norm_num) hgt
  have hr : r' = c / (c + d) := by rw [eq_div_iff hpos.ne']; exact hm
  refine ⟨by rw [hr]; positivity, ?_, ?_, ?_, ?_⟩
  · rw [hr, div_le_one hpos]; linarith
  · constructor
    · intro h0; rw [h0] at hm; linarith
    · intro h0; rw [hr, h0, zero_div]
  · constructor
    · intro h0; rw [h0] at hm; linarith
    · intro h0; rw [hr, div_eq_one_iff_eq hpos.ne']; linarith
  · obtain ⟨s, hs, hsm⟩ := (C168_ratio d c).2 (by rw [abs_of_nonneg (by linarith)]; linarith)
    rw [hs, Option.some.injEq]
    have : s = d / (c + d) := by rw [eq_div_iff hpos.ne']; linarith
    rw [this, hr, eq_sub_iff_add_eq, ← add_div, add_comm, div_self hpos.ne']

theorem C168_monotone {c c' d d' r r' : ℚ} (hc : 0 ≤ c) (hd' : 0 ≤ d') (h1 : c ≤ c') (h2 : d' ≤ d)
    (h : convectiveRatio c d = some r) (h' : convectiveRatio c' d' = some r') : r ≤ r' := by
  have key : ∀ {a b s : ℚ}, 0 ≤ a → 0 ≤ b → convectiveRatio a b = some s → 0 < a + b ∧ s * (a + b) = a := by
    intro a b s ha hb hs
    have hgt : 1e-9 < |a + b| := by
      by_contra hle
      rw [(C168_ratio a b).1 (not_lt.1 hle)] at hs
      exact nomatch hs
    obtain ⟨s', hs', hm⟩ := (C168_ratio a b).2 hgt
    rw [hs', Option.some.injEq] at hs
    subst hs
    rw [abs_of_nonneg (by linarith)] at hgt
    exact ⟨lt_trans (by norm_num) hgt, hm⟩
  obtain ⟨p1, e1⟩ := key hc (hd'.trans h2) h
  obtain ⟨p2, e2⟩ := key (hc.trans h1) hd' h'
  have a1 : r = c / (c + d) := by rw [eq_div_iff p1.ne']; exact e1
  have a2 : r' = c' / (c' + d') := by rw [eq_div_iff p2.ne']; exact e2
  rw [a1, a2, div_le_div_iff₀ p1 p2]
  nlinarith [mul_le_mul h1 h2 hd' (hc.trans h1)]

/-- One convective and one stratiform cube, the first in mm h-1. -/
example : convectionRatios
    [⟨"lwe_stratiform_precipitation_rate", some 1, [1 / 1000000, 0]⟩,
      ⟨"lwe_convective_precipitation_rate", some (1 / 3600000), [54 / 5, 0]⟩] = .ok [some (3 / 4), none] := by
  decide +kernel

/-! ### The shower condition cube -/

theorem makeShower_cases (cube : ShowerCube) (b : Bool) :
    (∃ e, findThreshold (cube.coords.map Prod.fst) = .error e ∧
      makeShowerCube cube b = (.error .coordinateNotFound,
        if b then { cube with name := "probability_of_shower_condition_above_threshold" } else cube)) ∨
    (∃ t n, findThreshold (cube.coords.map Prod.fst) = .ok t ∧
      cube.coords.find? (fun c => decide (c.1 = t)) = some n ∧
      ((∃ p, n.2.1 = [p]) → ∃ out, makeShowerCube cube b = (.ok out, if b then out else cube) ∧
        out = { cube with name := "probability_of_shower_condition_above_threshold", coords := cube.coords.map fun c => if c.1 = t then showerCoord c else c }) ∧
      ((¬ ∃ p, n.2.1 = [p]) → makeShowerCube cube b = (.error .valueError,
        if b then { cube with name := "probability_of_shower_condition_above_threshold" } else cube))) := by
  generalize hnm : "probability_of_shower_condition_above_threshold" = nm
  unfold makeShowerCube
  rw [hnm]
  dsimp only
  cases h : findThreshold (cube.coords.map Prod.fst) with
  | error e => exact .inl ⟨e, rfl, rfl⟩
  | ok t =>
    right
    have hmem : t ∈ cube.coords.map Prod.fst := by
      unfold findThreshold at h
      split at h
      · rename_i c hc
        injection h with h
        subst h
        have : c ∈ (cube.coords.map Prod.fst).filter (fun c => decide (c.name = "threshold")) := by rw [hc]; simp
        exact (List.mem_filter.1 this).1
      · split at h
        · rename_i c hc
          injection h with h
          subst h
          exact List.mem_of_find?_eq_some hc
        · exact nomatch h
    obtain ⟨c, hc, hct⟩ := List.mem_map.1 hmem
    cases hf : cube.coords.find? (fun c => decide (c.1 = t)) with
    | none =>
      have := List.find?_eq_none.1 hf c hc
      rw [decide_eq_true_iff] at this
      exact absurd hct this
    | some n =>
      obtain ⟨nc, np, nu⟩ := n
      refine ⟨t, (nc, np, nu), rfl, hf, ?_, ?_⟩
      · rintro ⟨p, hp⟩
        dsimp only at hp
        subst hp
        dsimp only
        rw [hf]
        dsimp only
        exact ⟨_, rfl, rfl⟩
      · intro hn
        dsimp only at hn
        dsimp only
        rw [hf]
        match np, hn with
        | [], _ => rfl
        | [p], hn => exact absurd ⟨p, rfl⟩ hn
        | _ :: _ :: _, _ => rfl

/-- C168: a cube with a threshold coordinate of one value becomes the probability of the shower condition above the
threshold 1 (dimensionless); every other coordinate, the data, and — unless the change is made in place — the
cube passed in stay as they are. -/
theorem C168_shower (cube out left : ShowerCube) (b : Bool) (h : makeShowerCube cube b = (.ok out, left)) :
    out.name = "probability_of_shower_condition_above_threshold" ∧ out.data = cube.data ∧
    out.coords.length = cube.coords.length ∧ left = (if b then out else cube) ∧
    ∃ t, findThreshold (cube.coords.map Prod.fst) = .ok t ∧
      ∀ (i : ℕ) (c : NamedCoord × List ℚ × String), cube.coords[i]? = some c →
        (c.1 = t → out.coords[i]? = some (⟨"shower_condition", some "threshold", t.relative⟩, [1], "1")) ∧
        (c.1 ≠ t → out.coords[i]? = some c) := by
  rcases makeShower_cases cube b with ⟨e, -, he⟩ | ⟨t, n, ht, -, h1, h2⟩
  · rw [he, Prod.mk.injEq] at h
    exact nomatch h.1
  · by_cases hp : ∃ p, n.2.1 = [p]
    · obtain ⟨o, ho, rfl⟩ := h1 hp
      rw [ho, Prod.mk.injEq] at h
      obtain ⟨ha, hb⟩ := h
      injection ha with ha
      subst ha
      refine ⟨rfl, rfl, ?_, hb.symm, t, ht, fun i c hc => ⟨fun e => ?_, fun e => ?_⟩⟩
      · dsimp only; rw [List.length_map]
      · dsimp only
        rw [List.getElem?_map, hc, Option.map_some, if_pos e, ← e]
        rfl
      · dsimp only
        rw [List.getElem?_map, hc, Option.map_some, if_neg e]
    · rw [h2 hp, Prod.mk.injEq] at h
      exact nomatch h.1

/-- C168: the conversion fails exactly when there is no threshold coordinate (CoordinateNotFoundError) or it does
not have exactly one value (ValueError). -/
theorem C168_shower_fails (cube : ShowerCube) (b : Bool) (e : Err) :
    (makeShowerCube cube b).1 = .error e ↔
      (e = .coordinateNotFound ∧ ∀ t, findThreshold (cube.coords.map Prod.fst) ≠ .ok t) ∨
      (e = .valueError ∧ ∃ t n, findThreshold (cube.coords.map Prod.fst) = .ok t ∧
        cube.coords.find? (fun c => decide (c.1 = t)) = some n ∧ n.2.1.length ≠ 1) := by
  rcases makeShower_cases cube b with ⟨e', h', he⟩ | ⟨t, n, ht, hn, h1, h2⟩
  · rw [he, h']
    dsimp only
    constructor
    · intro h
      injection h with h
      exact .inl ⟨h.symm, fun t ht => (nomatch ht)⟩
    · rintro (⟨rfl, -⟩ | ⟨-, t, n, ht, -⟩)
      · rfl
      · exact nomatch ht
  · by_cases hp : ∃ p, n.2.1 = [p]
    · obtain ⟨o, ho, -⟩ := h1 hp
      rw [ho]
      dsimp only
      constructor
      · intro h; exact nomatch h
      · rintro (⟨-, h⟩ | ⟨-, t', n', ht', hn', hl⟩)
        · exact absurd ht (h t)
        · rw [ht] at ht'
          injection ht' with ht'
          subst ht'
          rw [hn, Option.some.injEq] at hn'
          subst hn'
          obtain ⟨p, hp⟩ := hp
          rw [hp] at hl
          exact absurd rfl hl
    · rw [h2 hp]
      dsimp only
      constructor
      · intro h
        injection h with h
        exact .inr ⟨h.symm, t, n, ht, hn, fun hl => hp (List.length_eq_one_iff.1 hl)⟩
      · rintro (⟨-, h⟩ | ⟨rfl, -⟩)
        · exact absurd ht (h t)
        · rfl

/-- C168 finding: a call that fails with `in_place` has already renamed the caller's cube. -/
theorem C168_failed_call_renames (cube : ShowerCube) (e : Err) (h : (makeShowerCube cube true).1 = .error e) :
    (makeShowerCube cube true).2.name = "probability_of_shower_condition_above_threshold" ∧
    (makeShowerCube cube false).2 = cube := by
  constructor
  · rcases makeShower_cases cube true with ⟨e', -, he⟩ | ⟨t, n, -, -, h1, h2⟩
    · rw [he]; rfl
    · by_cases hp : ∃ p, n.2.1 = [p]
      · obtain ⟨o, ho, -⟩ := h1 hp
        rw [ho] at h
        exact nomatch h
      · rw [h2 hp]; rfl
  · rcases makeShower_cases cube false with ⟨e', -, he⟩ | ⟨t, n, -, -, h1, h2⟩
    · rw [he]; rfl
    · by_cases hp : ∃ p, n.2.1 = [p]
      · obtain ⟨o, ho, -⟩ := h1 hp
        rw [ho]; rfl
      · rw [h2 hp]; rfl

example : makeShowerCube ⟨"probability_of_x_above_threshold",
    [(⟨"time", none, none⟩, [5], "s"), (⟨"x", some "threshold", some "above"⟩, [1 / 2], "m")], [1 / 4]⟩ false =
    (.ok ⟨"probability_of_shower_condition_above_threshold",
      [(⟨"time", none, none⟩, [5], "s"), (⟨"shower_condition", some "threshold", some "above"⟩, [1], "1")], [1 / 4]⟩,
    ⟨"probability_of_x_above_threshold",
    [(⟨"time", none, none⟩, [5], "s"), (⟨"x", some "threshold", some "above"⟩, [1 / 2], "m")], [1 / 4]⟩) := by
  decide +kernel

example : (makeShowerCube ⟨"a", [(⟨"x", some "threshold", none⟩, [1, 2], "m")], []⟩ true).1 = .error .valueError := by
  decide +kernel

end Improver
