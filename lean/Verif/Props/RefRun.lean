import Verif.Model.RefRun
import Verif.Props.Times
import Verif.Lemmas.ListAux
import Mathlib.Algebra.BigOperators.Ring.List

namespace Improver

/-! ### C236: the command enforce-consistent-forecasts -/

/-- A value of one unit in another of the same kind: both stand for the same physical quantity. -/
def Spec.sameQuantity (u v : StdUnit) (x y : ℚ) : Prop := x * u.scale + u.offset = y * v.scale + v.offset

/-- The options give one or two bounds. -/
def Spec.options {α : Type} : List α → Option (OneOrTwo α)
  | [a] => some (.one a)
  | [a, b] => some (.two a b)
  | _ => none

/-- One interval is demanded for each reference value and none is empty. -/
def Spec.goodBounds (add mul : OneOrTwo ℚ) (ops : OneOrTwo String) (ref : List ℚ) : Prop :=
  ∀ r ∈ ref, ∃ b, Spec.consistentInterval add mul ops r = some b ∧ ∀ l u, b = (some l, some u) → l ≤ u

theorem enforceConsistent_iff (add mul : OneOrTwo ℚ) (ops : OneOrTwo String) (isProb : Bool) (fc ref : List ℚ) (hne : ref ≠ []) :
    (∃ out, enforceConsistent add mul ops isProb fc ref = .ok out) ↔
      (isProb = true → add = .one 0 ∧ mul = .one 1) ∧ Spec.goodBounds add mul ops ref := by
  constructor
  · rintro ⟨out, h⟩
    by_contra hc
    have hbad : (isProb = true ∧ (add ≠ .one 0 ∨ mul ≠ .one 1)) ∨ (∀ r, Spec.consistentInterval add mul ops r = none) ∨
        ∃ r ∈ ref, ∃ l u, Spec.consistentInterval add mul ops r = some (some l, some u) ∧ u < l := by
      by_cases h1 : isProb = true → add = .one 0 ∧ mul = .one 1
      · right
        have h2 : ¬ Spec.goodBounds add mul ops ref := fun g => hc ⟨h1, g⟩
        unfold Spec.goodBounds at h2
        push Not at h2
        obtain ⟨r, hr, h2⟩ := h2
        by_cases h3 : ∀ r, Spec.consistentInterval add mul ops r = none
        · exact Or.inl h3
        · right
          have h4 : ∃ b, Spec.consistentInterval add mul ops r = some b := by
            push Not at h3
            obtain ⟨r', h3⟩ := h3
            unfold Spec.consistentInterval at h3 ⊢
            split at h3
            · exact ⟨_, rfl⟩
            · exact ⟨_, rfl⟩
            · exact ⟨_, rfl⟩
            · exact ⟨_, rfl⟩
            · exact absurd rfl h3
          obtain ⟨b, hb⟩ := h4
          obtain ⟨l, u, rfl, hlt⟩ := h2 b hb
          exact ⟨r, hr, l, u, hb, hlt⟩
      · left
        push Not at h1
        refine ⟨h1.1, ?_⟩
        by_cases ha : add = .one 0
        · exact Or.inr (h1.2 ha)
        · exact Or.inl ha
    rw [C73_refusals add mul ops isProb fc ref hbad] at h
    exact nomatch h
  · rintro ⟨h1, h2⟩
    unfold enforceConsistent
    rw [if_neg (by rintro ⟨h, hp⟩; obtain ⟨ha, hm⟩ := h1 hp; rcases h with h | h; exacts [h ha, h hm])]
    suffices hc : ∃ bs, consistencyBounds add mul ops ref = .ok bs by
      obtain ⟨bs, hbs⟩ := hc
      rw [hbs]
      exact ⟨_, rfl⟩
    obtain ⟨r0, hr0⟩ := List.exists_mem_of_ne_nil _ hne
    obtain ⟨b0, hb0, -⟩ := h2 r0 hr0
    unfold Spec.goodBounds Spec.consistentInterval at h2
    unfold Spec.consistentInterval at hb0
    unfold consistencyBounds
    split at hb0
    · exact ⟨_, rfl⟩
    · exact ⟨_, rfl⟩
    · rename_i a b m n
      simp only []
      rw [if_neg (by decide), if_pos ⟨trivial, trivial⟩, if_neg]
      · exact ⟨_, rfl⟩
      · unfold consistencyBound
        rw [zip_map_map, List.any_eq_true]
        rintro ⟨p, hp, hlt⟩
        obtain ⟨r, hr, rfl⟩ := List.mem_map.1 hp
        obtain ⟨b', hb', hle⟩ := h2 r hr
        have := hle _ _ (Option.some.inj hb').symm
        simp only [gt_iff_lt, decide_eq_true_eq] at hlt
        exact absurd this (not_le.2 hlt)
    · rename_i a b m n
      simp only []
      rw [if_pos ⟨trivial, trivial⟩, if_neg]
      · exact ⟨_, rfl⟩
      · unfold consistencyBound
        rw [zip_map_map, List.any_eq_true]
        rintro ⟨p, hp, hlt⟩
        obtain ⟨r, hr, rfl⟩ := List.mem_map.1 hp
        obtain ⟨b', hb', hle⟩ := h2 r hr
        have := hle _ _ (Option.some.inj hb').symm
        simp only [gt_iff_lt, decide_eq_true_eq] at hlt
        exact absurd this (not_le.2 hlt)
    · exact nomatch hb0

theorem convertUnit_sameQuantity (u v : StdUnit) (hv : v.scale ≠ 0) (x y : ℚ) : convertUnit u v x = y ↔ Spec.sameQuantity u v x y := by
  unfold convertUnit Spec.sameQuantity
  rw [div_eq_iff hv]
  constructor <;> intro h <;> linarith

theorem oneOrTwo_eq {α : Type} (l : List α) : oneOrTwo l = Spec.options l := by
  unfold oneOrTwo Spec.options
  rfl

/-- The two cubes told apart: the reference has the name, the forecast another. -/
theorem pair_split (cubes : List RefCube) (name : String) (f r : RefCube) :
    (cubes.length = 2 ∧ cubes.filter (fun c => decide (some name = none ∨ some name = some c.name)) = [r] ∧
      cubes.filter (fun c => ¬ decide (some name = none ∨ some name = some c.name)) = [f]) ↔
    (cubes = [f, r] ∨ cubes = [r, f]) ∧ r.name = name ∧ f.name ≠ name := by
  have hp : (fun c : RefCube => decide (some name = none ∨ some name = some c.name)) = fun c => decide (c.name = name) := by
    funext c
    simp only [reduceCtorEq, Option.some.injEq, false_or, eq_comm]
  have hq : (fun c : RefCube => decide (¬ decide (some name = none ∨ some name = some c.name) = true)) = fun c => !decide (c.name = name) := by
    funext c
    by_cases h : c.name = name
    · simp [h]
    · simp [h, Ne.symm h]
  rw [hp, hq]
  constructor
  · rintro ⟨hl, h1, h2⟩
    match cubes, hl with
    | [a, b], _ =>
      by_cases ha : a.name = name <;> by_cases hb : b.name = name <;>
        simp only [List.filter_cons, List.filter_nil, ha, hb, decide_true, decide_false, if_true, if_false, Bool.not_true, Bool.not_false,
          Bool.false_eq_true, List.cons.injEq, and_true, reduceCtorEq, and_false] at h1 h2
      · subst h1 h2
        exact ⟨Or.inr rfl, ha, hb⟩
      · subst h1 h2
        exact ⟨Or.inl rfl, hb, ha⟩
  · rintro ⟨rfl | rfl, hr, hf⟩ <;> simp [List.filter_cons, hr, hf]

/-- C236.  The command gives the forecast, under its own name and in its own unit, with each value the nearest to it in the interval demanded for the
reference in the forecast's unit; it warns exactly if a value moved by more than the limit.  It does so exactly for two cubes, one of them (in
either place) of the reference's name, of the same kind of unit and as many values, one or two bounds in every option, no empty interval, and
for probabilities only the reference itself as one bound. -/
theorem C236_result (cubes : List RefCube) (name : String) (add mul : List ℚ) (ops : List String) (warnAt : Option ℚ)
    (hscale : ∀ c ∈ cubes, c.unit.scale ≠ 0) :
    (∀ out warn, enforceCommand cubes (some name) add mul ops warnAt = .ok (out, warn) →
      ∃ f r a m o ref, (cubes = [f, r] ∨ cubes = [r, f]) ∧ r.name = name ∧ f.name ≠ name ∧
        Spec.options add = some a ∧ Spec.options mul = some m ∧ Spec.options ops = some o ∧
        List.Forall₂ (Spec.sameQuantity r.unit f.unit) r.values ref ∧
        out.name = f.name ∧ out.unit = f.unit ∧ out.isProb = f.isProb ∧ out.coords = f.coords ∧ out.values.length = f.values.length ∧
        (∀ (i : ℕ) (x q : ℚ), f.values[i]? = some x → ref[i]? = some q →
          ∃ b y, Spec.consistentInterval a m o q = some b ∧ out.values[i]? = some y ∧ Spec.NearestIn b.1 b.2 x y) ∧
        (warn = true ↔ ∃ w, warnAt = some w ∧ ∃ (i : ℕ) (x y : ℚ), f.values[i]? = some x ∧ out.values[i]? = some y ∧ w < |y - x|)) ∧
    (∀ f r a m o ref, (cubes = [f, r] ∨ cubes = [r, f]) → r.name = name → f.name ≠ name →
        Spec.options add = some a → Spec.options mul = some m → Spec.options ops = some o → add.length = mul.length → mul.length = ops.length →
        r.unit.dimension = f.unit.dimension → r.values.length = f.values.length → r.values ≠ [] →
        List.Forall₂ (Spec.sameQuantity r.unit f.unit) r.values ref →
        ((∃ res, enforceCommand cubes (some name) add mul ops warnAt = .ok res) ↔
          (f.isProb = true → a = .one 0 ∧ m = .one 1) ∧ Spec.goodBounds a m o ref)) := by
  have hopen : ∀ f r, (cubes = [f, r] ∨ cubes = [r, f]) → r.name = name → f.name ≠ name →
      add.length = mul.length → mul.length = ops.length → ops.length < 3 →
      enforceCommand cubes (some name) add mul ops warnAt = match oneOrTwo add, oneOrTwo mul, oneOrTwo ops with
        | some a, some m, some o => enforceProcess a m o warnAt f r
        | _, _, _ => .error .indexError := by
    intro f r h1 h2 h3 h4 h5 h6
    obtain ⟨g0, g1, g2⟩ := (pair_split cubes name f r).2 ⟨h1, h2, h3⟩
    unfold enforceCommand
    rw [if_neg (by simp [h4, h5, h6]), if_neg (by simp [g0]), g1, g2]
    rfl
  have hforall : ∀ (u v : StdUnit) (l ref : List ℚ), v.scale ≠ 0 → (List.Forall₂ (Spec.sameQuantity u v) l ref ↔ l.map (convertUnit u v) = ref) := by
    intro u v l ref hv
    rw [← List.forall₂_eq_eq_eq, List.forall₂_map_left_iff]
    constructor <;> intro h <;> refine h.imp fun a b h => ?_
    · exact (convertUnit_sameQuantity u v hv a b).2 h
    · exact (convertUnit_sameQuantity u v hv a b).1 h
  constructor
  · intro out warn h
    by_cases hlen : add.length = mul.length ∧ mul.length = ops.length ∧ ops.length < 3
    swap
    · unfold enforceCommand at h
      rw [if_pos hlen] at h
      exact nomatch h
    by_cases h2 : cubes.length = 2
    swap
    · unfold enforceCommand at h
      rw [if_neg (not_not.2 hlen), if_pos h2] at h
      exact nomatch h
    have hsplit : ∃ f r, (cubes = [f, r] ∨ cubes = [r, f]) ∧ r.name = name ∧ f.name ≠ name := by
      unfold enforceCommand at h
      rw [if_neg (not_not.2 hlen), if_neg (not_not.2 h2)] at h
      split at h
      · rename_i r f hr hf
        exact ⟨f, r, (pair_split cubes name f r).1 ⟨h2, hr, hf⟩⟩
      · exact nomatch h
    obtain ⟨f, r, hc, hr, hf⟩ := hsplit
    rw [hopen f r hc hr hf hlen.1 hlen.2.1 hlen.2.2, oneOrTwo_eq, oneOrTwo_eq, oneOrTwo_eq] at h
    cases ha : Spec.options add with
    | none => rw [ha] at h; exact nomatch h
    | some a =>
    cases hm : Spec.options mul with
    | none => rw [ha, hm] at h; exact nomatch h
    | some m =>
    cases ho : Spec.options ops with
    | none => rw [ha, hm, ho] at h; exact nomatch h
    | some o =>
      rw [ha, hm, ho] at h
      dsimp only at h
      have hfs : f.unit.scale ≠ 0 := hscale f (by rcases hc with rfl | rfl <;> simp)
      unfold enforceProcess at h
      by_cases hd : r.unit.dimension ≠ f.unit.dimension
      · rw [if_pos hd] at h; exact nomatch h
      rw [if_neg hd] at h
      dsimp only at h
      by_cases hl : (r.values.map (convertUnit r.unit f.unit)).length ≠ f.values.length ∨ (r.values.map (convertUnit r.unit f.unit)).length = 0
      · rw [if_pos hl] at h; exact nomatch h
      rw [if_neg hl] at h
      push Not at hl
      cases he : enforceConsistent a m o f.isProb f.values (r.values.map (convertUnit r.unit f.unit)) with
      | error e => rw [he] at h; exact nomatch h
      | ok vals =>
        rw [he] at h
        simp only [bind, Except.bind, pure, Except.pure, Except.ok.injEq, Prod.mk.injEq] at h
        obtain ⟨rfl, rfl⟩ := h
        obtain ⟨hlv, hv⟩ := C73_nearest_consistent a m o f.isProb f.values _ vals hl.1.symm he
        refine ⟨f, r, a, m, o, _, hc, hr, hf, rfl, rfl, rfl, (hforall _ _ _ _ hfs).2 rfl, rfl, rfl, rfl, rfl, hlv, hv, ?_⟩
        cases warnAt with
        | none => simp
        | some w =>
          dsimp only
          rw [List.any_eq_true]
          constructor
          · rintro ⟨d, hd, hw⟩
            obtain ⟨i, hi⟩ := List.mem_iff_getElem?.1 hd
            rw [List.getElem?_zipWith] at hi
            cases hx : f.values[i]? with
            | none => rw [hx] at hi; cases hy : vals[i]? <;> rw [hy] at hi <;> exact nomatch hi
            | some x =>
              cases hy : vals[i]? with
              | none => rw [hy] at hi; exact nomatch hi
              | some y =>
                rw [hx, hy] at hi
                have := Option.some.inj hi
                subst this
                exact ⟨w, rfl, i, x, y, hx, hy, by simpa using hw⟩
          · rintro ⟨w', hw', i, x, y, hx, hy, hlt⟩
            cases hw'
            refine ⟨|y - x|, ?_, by simpa using hlt⟩
            rw [List.mem_iff_getElem?]
            exact ⟨i, by rw [List.getElem?_zipWith, hx, hy]⟩
  · intro f r a m o ref hc hr hf ha hm ho h1 h2 hd hlv hne href
    have hfs : f.unit.scale ≠ 0 := hscale f (by rcases hc with rfl | rfl <;> simp)
    have h3 : ops.length < 3 := by
      unfold Spec.options at ho
      split at ho
      · simp
      · simp
      · exact nomatch ho
    rw [hopen f r hc hr hf h1 h2 h3, oneOrTwo_eq, oneOrTwo_eq, oneOrTwo_eq, ha, hm, ho]
    dsimp only
    unfold enforceProcess
    rw [if_neg (not_not.2 hd)]
    dsimp only
    rw [(hforall _ _ _ _ hfs).1 href]
    have hrl : ref.length = f.values.length := by rw [← href.length_eq, hlv]
    have hr0 : ref ≠ [] := by
      rintro rfl
      have := href.length_eq
      simp at this
      exact hne this
    rw [if_neg (by push Not; exact ⟨hrl, by simpa using hr0⟩), ← enforceConsistent_iff a m o f.isProb f.values ref hr0]
    cases enforceConsistent a m o f.isProb f.values ref with
    | error e =>
      simp only [bind, Except.bind]
      exact ⟨fun ⟨_, h⟩ => (nomatch h), fun ⟨_, h⟩ => (nomatch h)⟩
    | ok vals =>
      simp only [bind, Except.bind, pure, Except.pure]
      exact ⟨fun _ => ⟨_, rfl⟩, fun _ => ⟨_, rfl⟩⟩

/-- C236.  The order of the two cubes does not matter. -/
theorem C236_order (a b : RefCube) (name : String) (add mul : List ℚ) (ops : List String) (warnAt : Option ℚ) :
    enforceCommand [a, b] (some name) add mul ops warnAt = enforceCommand [b, a] (some name) add mul ops warnAt := by
  unfold enforceCommand
  have e : ∀ x : RefCube, decide (some name = none ∨ some name = some x.name) = decide (x.name = name) := by
    intro c
    simp only [reduceCtorEq, Option.some.injEq, false_or, eq_comm]
  simp only [List.length_cons, List.length_nil, List.filter_cons, List.filter_nil, e]
  by_cases ha : a.name = name <;> by_cases hb : b.name = name <;> simp [ha, hb]

/-- C236.  No name of the reference, not exactly two cubes, two cubes of the name or none, and options of different or other numbers are refused. -/
theorem C236_refused (cubes : List RefCube) (name : Option String) (add mul : List ℚ) (ops : List String) (warnAt : Option ℚ)
    (h : name = none ∨ cubes.length ≠ 2 ∨ (∀ c ∈ cubes, some c.name = name) ∨ (∀ c ∈ cubes, some c.name ≠ name) ∨
      add.length ≠ mul.length ∨ mul.length ≠ ops.length ∨ ops.length = 0 ∨ 2 < ops.length) :
    ∀ res, enforceCommand cubes name add mul ops warnAt ≠ .ok res := by
  intro res hres
  unfold enforceCommand at hres
  by_cases hlen : add.length = mul.length ∧ mul.length = ops.length ∧ ops.length < 3
  swap
  · rw [if_pos hlen] at hres
    exact nomatch hres
  by_cases h2 : cubes.length = 2
  swap
  · rw [if_neg (not_not.2 hlen), if_pos h2] at hres
    exact nomatch hres
  rw [if_neg (not_not.2 hlen), if_neg (not_not.2 h2)] at hres
  split at hres
  · rename_i r f hr hf
    rcases h with rfl | h | h | h | h | h | h | h
    · have : f ∈ cubes.filter (fun c => ¬ decide ((none : Option String) = none ∨ none = some c.name)) := by rw [hf]; simp
      simp at this
    · exact h h2
    · have : f ∈ cubes.filter (fun c => ¬ decide (name = none ∨ name = some c.name)) := by rw [hf]; simp
      rw [List.mem_filter] at this
      have h3 := h f this.1
      simp [h3] at this
    · have : r ∈ cubes.filter (fun c => decide (name = none ∨ name = some c.name)) := by rw [hr]; simp
      rw [List.mem_filter] at this
      have h3 := h r this.1
      cases name with
      | none =>
        have : f ∈ cubes.filter (fun c => ¬ decide ((none : Option String) = none ∨ none = some c.name)) := by rw [hf]; simp
        simp at this
      | some n =>
        simp only [reduceCtorEq, false_or, decide_eq_true_eq] at this
        exact h3 this.2.symm
    · exact h hlen.1
    · exact h hlen.2.1
    · have : ops = [] := by simpa using h
      subst this
      split at hres
      · rename_i h4
        exact nomatch h4
      · exact nomatch hres
    · omega
  · exact nomatch hres

/-- C236 (limits).  Probabilities are refused with two bounds, even if both bounds are the reference itself. -/
theorem C236_probability_refuted (f r : RefCube) (name : String) (hr : r.name = name) (hf : f.name ≠ name) (hp : f.isProb = true) (ops : List String)
    (warnAt : Option ℚ) : ∀ res, enforceCommand [f, r] (some name) [0, 0] [1, 1] ops warnAt ≠ .ok res := by
  intro res hres
  by_cases hlen : ops.length = 2
  · match ops, hlen with
    | [o, p], _ =>
      obtain ⟨g0, g1, g2⟩ := (pair_split [f, r] name f r).2 ⟨Or.inl rfl, hr, hf⟩
      unfold enforceCommand at hres
      rw [if_neg (by simp), if_neg (by simp), g1, g2] at hres
      dsimp only [oneOrTwo] at hres
      unfold enforceProcess at hres
      by_cases hd : r.unit.dimension ≠ f.unit.dimension
      · rw [if_pos hd] at hres; exact nomatch hres
      rw [if_neg hd] at hres
      dsimp only at hres
      by_cases hl : (r.values.map (convertUnit r.unit f.unit)).length ≠ f.values.length ∨ (r.values.map (convertUnit r.unit f.unit)).length = 0
      · rw [if_pos hl] at hres; exact nomatch hres
      rw [if_neg hl, C73_refusals _ _ _ _ _ _ (Or.inl ⟨hp, Or.inl (by simp)⟩)] at hres
      exact nomatch hres
  · exact C236_refused [f, r] (some name) [0, 0] [1, 1] ops warnAt (by
      right; right; right; right; right; left
      simpa using fun h => hlen h.symm) res hres

/-- Concrete case: a temperature in kelvin kept within 2 K below and 1 K above a reference in Celsius, given first. -/
example : ((enforceCommand [⟨"wet_bulb", ⟨"temperature", 1, 27315 / 100⟩, false, [], [0, 0, 10]⟩, ⟨"temperature", ⟨"temperature", 1, 0⟩, false, [], [270, 273, 290]⟩]
    (some "wet_bulb") [1, -2] [1, 1] ["<=", ">="] (some 4)).toOption.map fun r => (r.1.name, r.1.values, r.2))
    = some ("temperature", [27115 / 100, 273, 28415 / 100], true) := by decide +kernel

/-! ### C237: the command normalise-to-reference -/

/-- The value of the normalised field: in proportion to the field, with the total made the reference; where the total is zero the reference times the
field. -/
def Spec.normalised (ref total v : ℚ) : ℚ := if total = 0 then ref * v else ref * v / total

/-- A cube with other values. -/
def Spec.withValues (c : RefCube) (values : List ℚ) : RefCube := { c with values := values }

/-- The fields fit the reference: as many dimension coordinates, the same ones (unless the reference is a probability), as many values. -/
structure Spec.fitsReference (reference c : RefCube) : Prop where
  number : c.coords.length = reference.coords.length
  coords : reference.isProb = false → ∀ d ∈ c.coords, d ∈ reference.coords
  values : c.values.length = reference.values.length

theorem normaliseToReference_spec (vals : List ℚ) (h2 : 2 ≤ vals.length) (ref : ℚ) (ign : Bool) (col : List ℚ) :
    normaliseToReference vals ref ign = .ok col ↔
      (vals.sum = 0 → ref ≠ 0 → ign = true) ∧ col = vals.map (Spec.normalised ref vals.sum) := by
  unfold normaliseToReference
  rw [if_neg (by omega)]
  dsimp only
  have htot : vals.tail.foldl (· + ·) (vals.headD 0) = vals.sum := by
    match vals, h2 with
    | v :: vs, _ => rw [foldl_add_sum']; simp
  rw [htot]
  unfold Spec.normalised
  by_cases h0 : vals.sum = 0
  · by_cases hr : ref = 0
    · rw [if_neg (fun h => h.2.1 hr)]
      simp only [h0, hr, if_true, Except.ok.injEq]
      simp [eq_comm]
    · cases ign with
      | true =>
        rw [if_neg (by simp)]
        simp only [h0, if_true, Except.ok.injEq]
        simp [eq_comm]
      | false =>
        rw [if_pos ⟨h0, hr, rfl⟩]
        simp [h0, hr]
  · rw [if_neg (fun h => h0 h.1)]
    simp only [h0, if_false, Except.ok.injEq]
    simp [eq_comm]

/-- C237.  The command gives the field of the name asked for, in proportion to its values and normalised with the total over all fields but the
reference.  It does so exactly if one cube has the reference's name, at least two others fit it, one of these has the name asked for, and no zero
total meets a reference that is not zero (unless that is to be ignored). -/
theorem C237_result (cubes : List RefCube) (refName returnName : String) (ign : Bool) (out : RefCube) :
    normaliseCommand cubes refName returnName ign = .ok out ↔
      ∃ reference c, cubes.filter (fun k => decide (k.name = refName)) = [reference] ∧
        (cubes.filter fun k => decide (k.name ≠ refName ∧ k.name = returnName)) = [c] ∧
        2 ≤ (cubes.filter fun k => decide (k.name ≠ refName)).length ∧
        (∀ k ∈ cubes, k.name ≠ refName → Spec.fitsReference reference k) ∧
        (∀ i < reference.values.length, ((cubes.filter fun k => decide (k.name ≠ refName)).map fun k => k.values.getD i 0).sum = 0 →
          reference.values.getD i 0 ≠ 0 → ign = true) ∧
        out = Spec.withValues c ((List.range reference.values.length).map fun i =>
          Spec.normalised (reference.values.getD i 0) (((cubes.filter fun k => decide (k.name ≠ refName)).map fun k => k.values.getD i 0).sum)
            (c.values.getD i 0)) := by
  have hsplit : splitByName (cubes.map fun c => (c.name, c)) (some [refName]) =
      ((cubes.filter fun k => decide (k.name = refName)).map fun c => (c.name, c), (cubes.filter fun k => decide (k.name ≠ refName)).map fun c => (c.name, c)) := by
    rw [(C74_split _).2, List.filter_map, List.filter_map]
    congr 3
    · funext c; simp
    · funext c; simp
  unfold normaliseCommand
  rw [hsplit]
  have hff : (cubes.filter fun k => decide (k.name ≠ refName ∧ k.name = returnName))
      = (cubes.filter fun k => decide (k.name ≠ refName)).filter fun k => decide (k.name = returnName) := by
    rw [List.filter_filter]
    congr 1
    funext k
    simp [Bool.and_comm]
  rw [hff]
  have hfit : ∀ reference, (∀ k ∈ cubes, k.name ≠ refName → Spec.fitsReference reference k) ↔ ∀ k ∈ (cubes.filter fun k => decide (k.name ≠ refName)), Spec.fitsReference reference k := by
    intro reference
    simp only [List.mem_filter, decide_eq_true_eq, and_imp]
  simp only [hfit]
  generalize (cubes.filter fun k => decide (k.name ≠ refName)) = inputs
  cases hrf : (cubes.filter fun k => decide (k.name = refName)) with
  | nil =>
    simp only [List.map_nil]
    exact ⟨fun h => (nomatch h), fun ⟨_, _, h, _⟩ => (nomatch h)⟩
  | cons reference rest =>
    cases rest with
    | cons r2 rest =>
      simp only [List.map_cons]
      refine ⟨fun h => (nomatch h), ?_⟩
      rintro ⟨_, _, h, _⟩
      simp at h
    | nil =>
      simp only [List.map_cons, List.map_nil, List.map_map]
      have hid : (Prod.snd ∘ fun c : RefCube => (c.name, c)) = id := rfl
      rw [hid, List.map_id]
      have hex : ∀ P : RefCube → RefCube → Prop, (∃ r c, [reference] = [r] ∧ P r c) ↔ ∃ c, P reference c := by
        intro P
        constructor
        · rintro ⟨r, c, h, hp⟩
          have : reference = r := by simpa using h
          subst this
          exact ⟨c, hp⟩
        · rintro ⟨c, hp⟩; exact ⟨reference, c, rfl, hp⟩
      rw [hex]
      unfold normaliseProcess
      simp only [bind, Except.bind, pure, Except.pure]
      by_cases h2 : inputs.length < 2
      · rw [if_pos h2]
        exact ⟨fun h => (nomatch h), fun ⟨_, _, h, _⟩ => by omega⟩
      rw [if_neg h2]
      by_cases hn : inputs.any (fun c => decide (c.coords.length ≠ reference.coords.length)) = true
      · rw [if_pos hn]
        refine ⟨fun h => (nomatch h), ?_⟩
        rintro ⟨_, _, _, h, _⟩
        obtain ⟨k, hk, hkn⟩ := List.any_eq_true.1 hn
        exact absurd (h k hk).number (by simpa using hkn)
      rw [if_neg hn]
      by_cases hc : inputs.any (fun c => !coordsOn reference c) = true ∧ ¬ reference.isProb = true
      · rw [if_pos hc]
        refine ⟨fun h => (nomatch h), ?_⟩
        rintro ⟨_, _, _, h, _⟩
        obtain ⟨k, hk, hkn⟩ := List.any_eq_true.1 hc.1
        have := (h k hk).coords (by simpa using hc.2)
        have h3 : coordsOn reference k = true := by
          unfold coordsOn
          rw [List.all_eq_true]
          intro d hd
          exact List.contains_iff_mem.2 (this d hd)
        rw [h3] at hkn
        exact absurd hkn (by simp)
      rw [if_neg hc]
      by_cases hv : inputs.any (fun c => decide (c.values.length ≠ reference.values.length)) = true
      · rw [if_pos hv]
        refine ⟨fun h => (nomatch h), ?_⟩
        rintro ⟨_, _, _, h, _⟩
        obtain ⟨k, hk, hkn⟩ := List.any_eq_true.1 hv
        exact absurd (h k hk).values (by simpa using hkn)
      rw [if_neg hv]
      have hfits : ∀ k ∈ inputs, Spec.fitsReference reference k := by
        intro k hk
        refine ⟨?_, ?_, ?_⟩
        · by_contra h
          exact hn (List.any_eq_true.2 ⟨k, hk, by simpa using h⟩)
        · intro hp d hd
          by_contra h
          refine hc ⟨List.any_eq_true.2 ⟨k, hk, ?_⟩, by simp [hp]⟩
          rw [Bool.not_eq_true', ← Bool.not_eq_true]
          intro hon
          unfold coordsOn at hon
          exact h (List.contains_iff_mem.1 (List.all_eq_true.1 hon d hd))
        · by_contra h
          exact hv (List.any_eq_true.2 ⟨k, hk, by simpa using h⟩)
      set total := fun i : ℕ => (inputs.map fun k => k.values.getD i 0).sum with htot
      have hlen2 : ∀ i : ℕ, 2 ≤ (inputs.map fun k => k.values.getD i 0).length := by intro i; rw [List.length_map]; omega
      by_cases hz : ∀ i < reference.values.length, total i = 0 → reference.values.getD i 0 ≠ 0 → ign = true
      · rw [mapM_ok_of_forall _ (fun i => (inputs.map fun k => k.values.getD i 0).map (Spec.normalised (reference.values.getD i 0) (total i))) _
          (fun i hi => (normaliseToReference_spec _ (hlen2 i) _ _ _).2 ⟨hz i (List.mem_range.1 hi), rfl⟩)]
        dsimp only
        have hcube : (inputs.zipIdx.map fun p => ({ p.1 with values := ((List.range reference.values.length).map fun i =>
            (inputs.map fun k => k.values.getD i 0).map (Spec.normalised (reference.values.getD i 0) (total i))).map fun col => col.getD p.2 0 } : RefCube))
            = inputs.map fun c => Spec.withValues c ((List.range reference.values.length).map fun i =>
                Spec.normalised (reference.values.getD i 0) (total i) (c.values.getD i 0)) := by
          apply List.ext_getElem (by simp)
          intro j h3 h4
          have hj : j < inputs.length := by simpa using h4
          simp only [List.getElem_map, List.getElem_zipIdx, List.map_map, Function.comp, Nat.zero_add, Spec.withValues]
          congr 1
          apply List.map_congr_left
          intro i _
          simp [List.getElem?_eq_getElem hj]
        rw [hcube, List.filter_map]
        have hcomp : ((fun c : RefCube => decide (c.name = returnName)) ∘ fun c : RefCube => Spec.withValues c ((List.range reference.values.length).map fun i =>
                Spec.normalised (reference.values.getD i 0) (total i) (c.values.getD i 0))) = fun c => decide (c.name = returnName) := rfl
        rw [hcomp]
        cases hret : inputs.filter fun c => decide (c.name = returnName) with
        | nil =>
          simp only [List.map_nil]
          refine ⟨fun h => (nomatch h), ?_⟩
          rintro ⟨_, h, _⟩
          simp at h
        | cons c rest =>
          cases rest with
          | cons c2 rest =>
            simp only [List.map_cons]
            refine ⟨fun h => (nomatch h), ?_⟩
            rintro ⟨_, h, _⟩
            simp at h
          | nil =>
            simp only [List.map_cons, List.map_nil, Except.ok.injEq]
            constructor
            · rintro rfl
              exact ⟨c, rfl, by omega, hfits, hz, rfl⟩
            · rintro ⟨c', h, _, _, _, rfl⟩
              have : c = c' := by simpa using h
              subst this
              rfl
      · cases hm : (List.range reference.values.length).mapM fun i =>
          normaliseToReference (inputs.map fun c => c.values.getD i 0) (reference.values.getD i 0) ign with
        | error e =>
          dsimp only
          exact ⟨fun h => (nomatch h), fun ⟨_, _, _, _, h, _⟩ => absurd h hz⟩
        | ok cols =>
          exfalso
          apply hz
          intro i hi
          have hfa := mapM_ok_forall _ _ _ hm
          rw [List.forall₂_iff_get] at hfa
          have h4 := hfa.2 i (by simpa using hi) (by have := hfa.1; simp at this; omega)
          simp only [List.get_eq_getElem, List.getElem_range] at h4
          exact ((normaliseToReference_spec _ (hlen2 i) _ _ _).1 h4).1

/-- C237.  The fields the command gives for the names of all inputs add up to the reference wherever their total is not zero, or the reference is. -/
theorem C237_total (cubes : List RefCube) (refName : String) (ign : Bool) (reference : RefCube) (hr : cubes.filter (fun k => decide (k.name = refName)) = [reference])
    (outs : List RefCube)
    (h : List.Forall₂ (fun k out => normaliseCommand cubes refName k.name ign = .ok out) (cubes.filter fun k => decide (k.name ≠ refName)) outs)
    (i : ℕ) (hi : i < reference.values.length)
    (hne : ((cubes.filter fun k => decide (k.name ≠ refName)).map fun k => k.values.getD i 0).sum ≠ 0 ∨ reference.values.getD i 0 = 0) :
    (outs.map fun o => o.values.getD i 0).sum = reference.values.getD i 0 := by
  have key : outs.map (fun o => o.values.getD i 0) = (cubes.filter fun k => decide (k.name ≠ refName)).map fun k =>
      Spec.normalised (reference.values.getD i 0) ((cubes.filter fun k => decide (k.name ≠ refName)).map fun k => k.values.getD i 0).sum (k.values.getD i 0) := by
    have hin : ∀ k ∈ (cubes.filter fun k => decide (k.name ≠ refName)), ∀ out, normaliseCommand cubes refName k.name ign = .ok out →
        out.values.getD i 0 = Spec.normalised (reference.values.getD i 0) ((cubes.filter fun k => decide (k.name ≠ refName)).map fun k => k.values.getD i 0).sum (k.values.getD i 0) := by
      intro k hk out ho
      obtain ⟨r, c, h1, h2, _, _, _, rfl⟩ := (C237_result ..).1 ho
      rw [hr] at h1
      have : reference = r := by simpa using h1
      subst this
      have hkc : k = c := by
        have : k ∈ (cubes.filter fun k' => decide (k'.name ≠ refName ∧ k'.name = k.name)) := by
          rw [List.mem_filter] at hk ⊢
          exact ⟨hk.1, by simpa using hk.2⟩
        rw [h2] at this
        simpa using this
      subst hkc
      unfold Spec.withValues
      dsimp only
      rw [List.getD_eq_getElem _ _ (by simpa using hi)]
      simp
    revert h hin
    generalize hl : (cubes.filter fun k => decide (k.name ≠ refName)) = l
    intro h hin
    generalize (l.map fun k => k.values.getD i 0).sum = t at hin ⊢
    clear hl hne
    induction h with
    | nil => rfl
    | cons h1 _ ih =>
      rw [List.map_cons, List.map_cons, hin _ List.mem_cons_self _ h1, ih fun k hk => hin k (List.mem_cons_of_mem _ hk)]
  rw [key]
  generalize (cubes.filter fun k => decide (k.name ≠ refName)) = l at hne ⊢
  generalize ht : (l.map fun k => k.values.getD i 0).sum = t at hne ⊢
  unfold Spec.normalised
  by_cases h0 : t = 0
  · rcases hne with hne | hne
    · exact absurd h0 hne
    · rw [hne]
      simp
  · simp only [h0, if_false]
    have : (fun k : RefCube => reference.values.getD i 0 * k.values.getD i 0 / t) = fun k => (reference.values.getD i 0 / t) * k.values.getD i 0 := by
      funext k; ring
    rw [this, List.sum_map_mul_left, ht]
    field_simp

/-- C237 (limits).  Units are not looked at: a reference in millimetres is matched by fields in metres with its numbers unchanged, so that the total
is not the amount of the reference. -/
theorem C237_units_refuted : ∃ (cubes : List RefCube) (reference : RefCube) (a b : RefCube), reference ∈ cubes ∧ reference.name = "total" ∧
    normaliseCommand cubes "total" "rain" false = .ok a ∧ normaliseCommand cubes "total" "snow" false = .ok b ∧ a.unit = b.unit ∧
    reference.unit.dimension = a.unit.dimension ∧
    ¬ Spec.sameQuantity reference.unit a.unit (reference.values.getD 0 0) (a.values.getD 0 0 + b.values.getD 0 0) := by
  refine ⟨[⟨"rain", ⟨"length", 1, 0⟩, false, [], [1]⟩, ⟨"snow", ⟨"length", 1, 0⟩, false, [], [3]⟩, ⟨"total", ⟨"length", 1 / 1000, 0⟩, false, [], [8]⟩],
    ⟨"total", ⟨"length", 1 / 1000, 0⟩, false, [], [8]⟩, ⟨"rain", ⟨"length", 1, 0⟩, false, [], [2]⟩, ⟨"snow", ⟨"length", 1, 0⟩, false, [], [6]⟩,
    by simp, rfl, by decide +kernel, by decide +kernel, rfl, rfl, ?_⟩
  unfold Spec.sameQuantity
  decide +kernel

end Improver
