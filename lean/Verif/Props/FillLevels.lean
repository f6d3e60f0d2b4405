import Verif.Model.Extraction
import Mathlib.Data.List.Basic
import Mathlib.Data.List.Chain
import Mathlib.Tactic.Linarith
import Mathlib.Tactic.Positivity

/-! Properties of the filling of missing levels before a level is extracted (C175). -/

namespace Improver

theorem fillFrom_length (inc : ℚ) (last : Option ℚ) (col : List (Option ℚ)) :
    (fillFrom inc last col).length = col.length := by
  induction col generalizing last with
  | nil => rfl
  | cons x col ih => cases x <;> simp [fillFrom, ih]

theorem fillFrom_some {inc : ℚ} {last : Option ℚ} {col : List (Option ℚ)} {i : ℕ} {v : ℚ}
    (h : col[i]? = some (some v)) : (fillFrom inc last col)[i]? = some (some v) := by
  induction col generalizing last i with
  | nil => exact nomatch h
  | cons x col ih =>
    cases i with
    | zero =>
      rw [List.getElem?_cons_zero, Option.some.injEq] at h
      subst h
      rfl
    | succ i =>
      rw [List.getElem?_cons_succ] at h
      cases x with
      | none => rw [fillFrom, List.getElem?_cons_succ]; exact ih h
      | some w => rw [fillFrom, List.getElem?_cons_succ]; exact ih h

theorem fillFrom_zero {inc : ℚ} {last : Option ℚ} {col : List (Option ℚ)} (h : col[0]? = some none) :
    (fillFrom inc last col)[0]? = some (last.map (· + inc)) := by
  cases col with
  | nil => exact nomatch h
  | cons x col =>
    rw [List.getElem?_cons_zero, Option.some.injEq] at h
    subst h
    rfl

theorem fillFrom_succ {inc : ℚ} {last : Option ℚ} {col : List (Option ℚ)} {i : ℕ} (h : col[i + 1]? = some none) :
    (fillFrom inc last col)[i + 1]? = ((fillFrom inc last col)[i]?).map (Option.map (· + inc)) := by
  induction col generalizing last i with
  | nil => exact nomatch h
  | cons x col ih =>
    rw [List.getElem?_cons_succ] at h
    cases i with
    | zero =>
      cases x with
      | none => rw [fillFrom, List.getElem?_cons_succ, fillFrom_zero h]; rfl
      | some w => rw [fillFrom, List.getElem?_cons_succ, fillFrom_zero h]; rfl
    | succ i =>
      cases x with
      | none => rw [fillFrom, List.getElem?_cons_succ, List.getElem?_cons_succ]; exact ih h
      | some w => rw [fillFrom, List.getElem?_cons_succ, List.getElem?_cons_succ]; exact ih h

theorem fillFrom_run {inc : ℚ} {last : Option ℚ} {col : List (Option ℚ)} {j : ℕ} {v : ℚ}
    (h : col[j]? = some (some v)) (n : ℕ) (hn : ∀ k, 1 ≤ k → k ≤ n → col[j + k]? = some none) :
    (fillFrom inc last col)[j + n]? = some (some (v + n * inc)) := by
  induction n with
  | zero => simpa using fillFrom_some h
  | succ n ih =>
    have := hn (n + 1) (by omega) le_rfl
    rw [← Nat.add_assoc] at this ⊢
    rw [fillFrom_succ this, ih fun k h1 h2 => hn k h1 (by omega)]
    simp only [Option.map_some]
    congr 2
    push_cast
    ring

theorem fillFrom_missing {inc : ℚ} {col : List (Option ℚ)} (n : ℕ) (hn : ∀ k, k ≤ n → col[k]? = some none) :
    (fillFrom inc none col)[n]? = some none := by
  induction n with
  | zero => rw [fillFrom_zero (hn 0 le_rfl)]; rfl
  | succ n ih =>
    rw [fillFrom_succ (hn (n + 1) le_rfl), ih fun k hk => hn k (by omega)]
    rfl

theorem reverse_get {α : Type} (l : List α) {i : ℕ} (h : i < l.length) : l.reverse[l.length - 1 - i]? = l[i]? := by
  rw [List.getElem?_reverse (by omega)]
  congr 1
  omega

theorem down_get {inc : ℚ} {col : List (Option ℚ)} {i : ℕ} (h : i < col.length) :
    (oneWayFill inc true col)[i]? = (fillFrom (-inc) none col.reverse)[col.length - 1 - i]? := by
  unfold oneWayFill
  rw [if_pos rfl]
  have hl : (fillFrom (-inc) none col.reverse).length = col.length := by rw [fillFrom_length, List.length_reverse]
  rw [List.getElem?_reverse (by rw [hl]; exact h), hl]

theorem down_some {inc : ℚ} {col : List (Option ℚ)} {i : ℕ} {v : ℚ} (h : col[i]? = some (some v)) :
    (oneWayFill inc true col)[i]? = some (some v) := by
  have hi : i < col.length := by
    by_contra hc
    rw [List.getElem?_eq_none (by omega)] at h
    exact nomatch h
  rw [down_get hi]
  exact fillFrom_some (by rw [reverse_get col hi, h])

theorem down_run {inc : ℚ} {col : List (Option ℚ)} {i j : ℕ} {v : ℚ} (hij : i < j) (h : col[j]? = some (some v))
    (hn : ∀ k, i ≤ k → k < j → col[k]? = some none) :
    (oneWayFill inc true col)[i]? = some (some (v - ((j : ℚ) - i) * inc)) := by
  have hj : j < col.length := by
    by_contra hc
    rw [List.getElem?_eq_none (by omega)] at h
    exact nomatch h
  rw [down_get (by omega)]
  have h1 : col.reverse[col.length - 1 - j]? = some (some v) := by rw [reverse_get col hj, h]
  have := fillFrom_run (inc := -inc) (last := none) h1 (j - i) fun k hk hk' => by
    have hm := hn (j - k) (by omega) (by omega)
    rw [← reverse_get col (by omega : j - k < col.length)] at hm
    rw [← hm]
    congr 1
    omega
  rw [show col.length - 1 - i = col.length - 1 - j + (j - i) by omega, this]
  congr 2
  rw [Nat.cast_sub hij.le]
  ring

theorem down_missing {inc : ℚ} {col : List (Option ℚ)} {i : ℕ} (hi : i < col.length)
    (hn : ∀ k, i ≤ k → k < col.length → col[k]? = some none) : (oneWayFill inc true col)[i]? = some none := by
  rw [down_get hi]
  refine fillFrom_missing _ fun k hk => ?_
  rw [List.getElem?_reverse (by omega)]
  exact hn _ (by omega) (by omega)

theorem fillColumn_keeps {inc : ℚ} {col : List (Option ℚ)} {i : ℕ} {v : ℚ}
    (h : (oneWayFill inc true col)[i]? = some (some v)) : (fillColumn inc col)[i]? = some (some v) := by
  unfold fillColumn
  dsimp only
  split
  · exact h
  · unfold oneWayFill at h ⊢
    rw [if_neg (by decide)]
    exact fillFrom_some h

/-- C175: values that are there stay; a missing value becomes the next one above in the column less the increment for
each level between, or if there is none above the last one below plus the increment for each level between; a column
without values stays as it is. -/
theorem C175_values (inc : ℚ) (col : List (Option ℚ)) (i : ℕ) (hi : i < col.length) :
    (∀ v, col[i]? = some (some v) → (fillColumn inc col)[i]? = some (some v)) ∧
    (∀ j v, i < j → col[j]? = some (some v) → (∀ k, i ≤ k → k < j → col[k]? = some none) →
      (fillColumn inc col)[i]? = some (some (v - ((j : ℚ) - i) * inc))) ∧
    (∀ j v, j < i → col[j]? = some (some v) → (∀ k, j < k → k < col.length → col[k]? = some none) →
      (fillColumn inc col)[i]? = some (some (v + ((i : ℚ) - j) * inc))) ∧
    ((∀ k, k < col.length → col[k]? = some none) → (fillColumn inc col)[i]? = some none) := by
  refine ⟨fun v h => fillColumn_keeps (down_some h), fun j v hij h hn => fillColumn_keeps (down_run hij h hn),
    fun j v hij h hn => ?_, fun h => ?_⟩
  · have hmiss : (oneWayFill inc true col)[i]? = some none :=
      down_missing hi fun k h1 h2 => hn k (by omega) h2
    unfold fillColumn
    dsimp only
    have hall : ¬ (oneWayFill inc true col).all Option.isSome = true := by
      rw [List.all_eq_true]
      intro hc
      have := hc none (List.mem_of_getElem? hmiss)
      exact nomatch this
    rw [if_neg hall]
    have hup := fillFrom_run (inc := inc) (last := none) (down_some (inc := inc) h) (i - j) fun k hk hk' =>
      down_missing (by omega) fun m h1 h2 => hn m (by omega) h2
    unfold oneWayFill at hup ⊢
    rw [if_neg (show ¬ (false = true) by decide)]
    rw [show j + (i - j) = i by omega, Nat.cast_sub hij.le] at hup
    exact hup
  · have hmiss : ∀ k, k < col.length → (oneWayFill inc true col)[k]? = some none :=
      fun k hk => down_missing hk fun m _ h2 => h m h2
    unfold fillColumn
    dsimp only
    split
    · exact hmiss i hi
    · conv_lhs => unfold oneWayFill
      rw [if_neg (show ¬ (false = true) by decide)]
      exact fillFrom_missing i fun k hk => hmiss k (by omega)

theorem fillColumn_length (inc : ℚ) (col : List (Option ℚ)) : (fillColumn inc col).length = col.length := by
  have h : ∀ b c, (oneWayFill inc b c).length = c.length := by
    intro b c
    unfold oneWayFill
    split
    · rw [List.length_reverse, fillFrom_length, List.length_reverse]
    · rw [fillFrom_length]
  unfold fillColumn
  dsimp only
  split
  · exact h _ _
  · rw [h, h]

/-- C175: where the missing levels are the lowest or highest ones and the values run in the direction of the increment,
the filled column is complete and runs in that direction throughout. -/
theorem C175_monotone (inc : ℚ) (hinc : 0 < inc) (a b : ℕ) (vals : List ℚ) (hv : vals ≠ []) (hs : vals.Pairwise (· < ·)) :
    ∃ r : List ℚ, fillColumn inc (List.replicate a none ++ vals.map some ++ List.replicate b none) = r.map some ∧
      r.Pairwise (· < ·) := by
  set col := List.replicate a none ++ vals.map some ++ List.replicate b none with hcol
  have hlen : col.length = a + vals.length + b := by simp [hcol]; omega
  have hpos : 0 < vals.length := List.length_pos_of_ne_nil hv
  have hlow : ∀ k, k < a → col[k]? = some none := by
    intro k hk
    rw [hcol, List.append_assoc, List.getElem?_append_left (by simpa using hk), List.getElem?_replicate, if_pos hk]
  have hmid : ∀ k (hk : k < vals.length), col[a + k]? = some (some vals[k]) := by
    intro k hk
    rw [hcol, List.getElem?_append_left (by simp; omega), List.getElem?_append_right (by simp), List.length_replicate,
      Nat.add_sub_cancel_left, List.getElem?_map, List.getElem?_eq_getElem hk]
    rfl
  have hhigh : ∀ k, a + vals.length ≤ k → k < col.length → col[k]? = some none := by
    intro k hk hk'
    rw [hcol, List.getElem?_append_right (by simpa using hk), List.getElem?_replicate, if_pos]
    simp
    omega
  -- the value at each index
  let f : ℕ → ℚ := fun i => if i < a then vals[0] - ((a : ℚ) - i) * inc
    else if h : i - a < vals.length then vals[i - a] else vals[vals.length - 1] + ((i : ℚ) - (a + vals.length - 1 : ℕ)) * inc
  have hf : ∀ i, i < col.length → (fillColumn inc col)[i]? = some (some (f i)) := by
    intro i hi
    obtain ⟨h1, h2, h3, _⟩ := C175_values inc col i hi
    by_cases hia : i < a
    · have := h2 a vals[0] hia (hmid 0 hpos) fun k _ hk => hlow k hk
      simp only [f]
      rw [if_pos hia, this]
    · by_cases him : i - a < vals.length
      · have := h1 vals[i - a] (by rw [← hmid (i - a) him]; congr 1; omega)
        simp only [f]
        rw [if_neg hia, dif_pos him, this]
      · have := h3 (a + (vals.length - 1)) vals[vals.length - 1] (by omega) (hmid _ (by omega)) fun k hk hk' => hhigh k (by omega) hk'
        simp only [f]
        have e : a + (vals.length - 1) = a + vals.length - 1 := by omega
        rw [if_neg hia, dif_neg him, this, e]
  have hstep : ∀ i, i + 1 < col.length → f i < f (i + 1) := by
    intro i hi
    simp only [f]
    by_cases h1 : i + 1 < a
    · rw [if_pos h1, if_pos (by omega)]
      push_cast
      nlinarith
    · rw [if_neg h1]
      by_cases h2 : i < a
      · have : i + 1 = a := by omega
        rw [if_pos h2, dif_pos (by omega)]
        have e : (a : ℚ) = i + 1 := by exact_mod_cast this.symm
        have e2 : vals[i + 1 - a]'(by omega) = vals[0] := by congr 1; omega
        rw [e2, e]
        nlinarith
      · rw [if_neg h2]
        by_cases h3 : i + 1 - a < vals.length
        · rw [dif_pos h3, dif_pos (by omega)]
          exact List.pairwise_iff_getElem.1 hs _ _ (by omega) h3 (by omega)
        · rw [dif_neg h3]
          by_cases h4 : i - a < vals.length
          · rw [dif_pos h4]
            have e : vals[i - a] = vals[vals.length - 1] := by congr 1; omega
            have e2 : ((i + 1 : ℕ) : ℚ) = ((a + vals.length - 1 : ℕ) : ℚ) + 1 := by
              have : i + 1 = (a + vals.length - 1) + 1 := by omega
              rw [this]; push_cast; ring
            rw [e, e2]
            linarith
          · rw [dif_neg h4]
            push_cast
            nlinarith
  refine ⟨(List.range col.length).map f, ?_, ?_⟩
  · apply List.ext_getElem?
    intro i
    by_cases hi : i < col.length
    · rw [hf i hi, List.map_map, List.getElem?_map, List.getElem?_range hi]
      rfl
    · rw [List.getElem?_eq_none (by rw [fillColumn_length]; omega), List.getElem?_eq_none (by simp; omega)]
  · rw [List.pairwise_map]
    have hmono : ∀ n i, i + n + 1 < col.length → f i < f (i + n + 1) := by
      intro n
      induction n with
      | zero => exact fun i h => hstep i h
      | succ n ih => exact fun i h => (ih i (by omega)).trans (hstep _ h)
    rw [List.pairwise_iff_getElem]
    intro i j hi hj hij
    rw [List.getElem_range, List.getElem_range]
    have := hmono (j - i - 1) i (by rw [List.length_range] at hj; omega)
    rwa [show i + (j - i - 1) + 1 = j by omega] at this

theorem fillFrom_neg (inc : ℚ) (last : Option ℚ) (col : List (Option ℚ)) :
    fillFrom (-inc) (last.map (- ·)) (col.map (Option.map (- ·))) = (fillFrom inc last col).map (Option.map (- ·)) := by
  induction col generalizing last with
  | nil => rfl
  | cons x col ih =>
    cases x with
    | none =>
      have e : (last.map (- ·)).map (· + -inc) = (last.map (· + inc)).map (- ·) := by
        cases last with
        | none => rfl
        | some v => simp only [Option.map_some]; congr 1; ring
      rw [List.map_cons, Option.map_none, fillFrom, fillFrom, e, ih, List.map_cons]
    | some v =>
      have := ih (some v)
      rw [Option.map_some] at this
      rw [List.map_cons, Option.map_some, fillFrom, fillFrom, this, List.map_cons, Option.map_some]

theorem fillColumn_neg (inc : ℚ) (col : List (Option ℚ)) :
    fillColumn (-inc) (col.map (Option.map (- ·))) = (fillColumn inc col).map (Option.map (- ·)) := by
  have h : ∀ b c, oneWayFill (-inc) b (c.map (Option.map (- ·))) = (oneWayFill inc b c).map (Option.map (- ·)) := by
    intro b c
    unfold oneWayFill
    split
    · rw [List.map_reverse, ← fillFrom_neg (-inc) none c.reverse, List.map_reverse]
      rfl
    · exact fillFrom_neg inc none c
  unfold fillColumn
  dsimp only
  rw [h, h]
  have e : ((oneWayFill inc true col).map (Option.map fun x : ℚ => -x)).all Option.isSome = (oneWayFill inc true col).all Option.isSome := by
    rw [List.all_map]
    congr 1
    funext x
    cases x <;> rfl
  rw [e]
  split <;> rfl

/-- C175: the same for falling values and a negative increment. -/
theorem C175_falling (inc : ℚ) (hinc : inc < 0) (a b : ℕ) (vals : List ℚ) (hv : vals ≠ []) (hs : vals.Pairwise (· > ·)) :
    ∃ r : List ℚ, fillColumn inc (List.replicate a none ++ vals.map some ++ List.replicate b none) = r.map some ∧
      r.Pairwise (· > ·) := by
  obtain ⟨r, hr, hp⟩ := C175_monotone (-inc) (by linarith) a b (vals.map (- ·)) (by simpa using hv)
    (by rw [List.pairwise_map]; exact hs.imp fun h => neg_lt_neg h)
  refine ⟨r.map (- ·), ?_, ?_⟩
  · have := fillColumn_neg (-inc) (List.replicate a none ++ (vals.map (- ·)).map some ++ List.replicate b none)
    rw [neg_neg, hr] at this
    simp only [List.map_append, List.map_replicate, Option.map_none, List.map_map] at this ⊢
    have e : ((Option.map fun x : ℚ => -x) ∘ some ∘ fun x : ℚ => -x) = some := by
      funext x; simp
    rw [e] at this
    rw [this]
    rfl
  · rw [List.pairwise_map]
    exact hp.imp fun h => neg_lt_neg h

/-- C175 finding: with a gap between values the filled column need not be in order: 1, two missing, 1.01 with an increment
of 0.01 gives 1, 0.99, 1, 1.01. -/
theorem C175_gap_refuted : fillColumn (1 / 100) [some 1, none, none, some (101 / 100)] =
    [some 1, some (99 / 100), some 1, some (101 / 100)] := by decide +kernel

/-- C175: the increment is a positive power of ten where values grow along the column, that is where they grow with the
coordinate and it increases, or neither; and the same with the other sign otherwise. -/
theorem C175_increment (positive increasing : Bool) (digits : ℤ) :
    (positive = increasing → fillIncrement positive increasing digits = 1 / 10 ^ digits) ∧
    (positive ≠ increasing → fillIncrement positive increasing digits = -(1 / 10 ^ digits)) := by
  unfold fillIncrement
  constructor
  · intro h
    rw [if_pos h, one_mul, zpow_neg, one_div]
  · intro h
    rw [if_neg h, zpow_neg, one_div, neg_one_mul]

example : fillColumn (1 / 100) [none, none, some 5, some 7, none] =
    [some (498 / 100), some (499 / 100), some 5, some 7, some (701 / 100)] := by decide +kernel

end Improver
