import Verif.Model.ECC
import Verif.Lemmas.Sorting
import Verif.Lemmas.ListAux
import Mathlib.Data.List.Dedup

/-! Property theorems C09–C12, C16–C18 (ensemble copula coupling). -/

namespace Improver

theorem eccRanking_perm (ro : Bool) (rnd raw : List ℚ) (h : rnd.length = raw.length) :
    (eccRanking ro rnd raw).Perm (List.range raw.length) := by
  unfold eccRanking
  split_ifs
  · rw [← h]; exact argsort_perm rnd
  · have := argsort_perm (lexsort rnd raw)
    rwa [(lexsort_perm rnd raw).length_eq, List.length_range] at this

theorem choose_perm_ok {idx : List ℕ} {arr : List ℚ} (h : idx.Perm (List.range arr.length)) :
    choose idx arr = .ok (idx.map (fun k => arr.getD k 0)) := by
  have h1 : idx.length = arr.length := by simpa using h.length_eq
  have h2 : idx.any (fun k => decide (k > arr.length - 1)) = false := by
    rw [List.any_eq_false]
    intro k hk
    have := List.mem_range.1 (h.mem_iff.1 hk)
    simp; omega
  unfold choose
  rw [if_neg (by simpa using h1), h2]; rfl

/-- **C09.** For any number of members, raw values (with ties), random numbers and either ordering mode, the
reordering succeeds and the output values are exactly the calibrated values, with multiplicity. -/
theorem C09_reorder_is_permutation (ro : Bool) (rnd raw cal : List ℚ) (h1 : rnd.length = raw.length)
    (h2 : cal.length = raw.length) :
    ∃ out, rankEccPoint ro rnd raw cal = .ok out ∧ out.Perm cal := by
  have hp := eccRanking_perm ro rnd raw h1
  rw [← h2] at hp
  exact ⟨_, choose_perm_ok hp, map_getD_perm cal 0 hp⟩

/-- **C09.** A different number of members and percentiles is an error, never a silent misassignment. -/
theorem C09_length_mismatch (ro : Bool) (rnd raw cal : List ℚ) (h1 : rnd.length = raw.length)
    (h2 : cal.length ≠ raw.length) : rankEccPoint ro rnd raw cal = .error .valueError := by
  have hp := (eccRanking_perm ro rnd raw h1).length_eq
  rw [List.length_range] at hp
  unfold rankEccPoint choose
  rw [if_pos (by rw [hp]; exact fun h => h2 h.symm)]

theorem rankEcc_getD {rnd raw cal out : List ℚ} (h2 : cal.length = raw.length)
    (h : rankEccPoint false rnd raw cal = .ok out) {k : ℕ} (hk : k < raw.length) :
    ∃ a, a < raw.length ∧ (lexsort rnd raw).getD a 0 = k ∧ out.getD k 0 = cal.getD a 0 := by
  have hlp := lexsort_perm rnd raw
  have hp : (argsort (lexsort rnd raw)).Perm (List.range raw.length) := by
    have := argsort_perm (lexsort rnd raw)
    rwa [hlp.length_eq, List.length_range] at this
  have hp' := hp
  rw [← h2] at hp'
  have ho : rankEccPoint false rnd raw cal
      = .ok ((argsort (lexsort rnd raw)).map (fun k => cal.getD k 0)) := by
    unfold rankEccPoint eccRanking
    simpa using choose_perm_ok hp'
  rw [ho] at h
  injection h with h
  subst h
  have hl : (argsort (lexsort rnd raw)).length = raw.length := by simpa using hp.length_eq
  refine ⟨(argsort (lexsort rnd raw)).getD k 0, ?_, argsort_inverse hlp hk, ?_⟩
  · rw [List.getD_eq_getElem _ _ (by omega)]
    exact List.mem_range.1 (hp.mem_iff.1 (List.getElem_mem _))
  · rw [List.getD_eq_getElem _ _ (by simpa [hl] using hk),
      List.getD_eq_getElem (argsort (lexsort rnd raw)) _ (by omega), List.getElem_map]

theorem lexsort_index_lt {rnd raw : List ℚ} {a b : ℕ} (ha : a < raw.length)
    (h : ¬ lexLe rnd raw ((lexsort rnd raw).getD b 0) ((lexsort rnd raw).getD a 0)) : a ≤ b := by
  by_contra hab
  push Not at hab
  apply h
  have hl : (lexsort rnd raw).length = raw.length := by simpa using (lexsort_perm rnd raw).length_eq
  rw [List.getD_eq_getElem _ _ (by omega), List.getD_eq_getElem _ _ (by omega)]
  exact List.pairwise_iff_getElem.1 (lexsort_sorted rnd raw) b a _ _ hab

/-- **C10.** With ascending calibrated percentiles, the output follows the rank order of the raw members, and
raw ties are ordered by the random numbers: if member `i` is below member `j`, or they tie and `i` drew the
smaller random number, then the reordered member `i` does not exceed the reordered member `j`. -/
theorem C10_rank_order_transferred (rnd raw cal out : List ℚ) (h2 : cal.length = raw.length)
    (hasc : cal.Pairwise (· ≤ ·)) (h : rankEccPoint false rnd raw cal = .ok out) (i j : ℕ)
    (hi : i < raw.length) (hj : j < raw.length)
    (hij : raw.getD i 0 < raw.getD j 0 ∨
      (raw.getD i 0 = raw.getD j 0 ∧ rnd.getD i 0 < rnd.getD j 0)) :
    out.getD i 0 ≤ out.getD j 0 := by
  obtain ⟨a, ha, ea, oa⟩ := rankEcc_getD h2 h hi
  obtain ⟨b, hb, eb, ob⟩ := rankEcc_getD h2 h hj
  have hab : a ≤ b := by
    apply lexsort_index_lt ha
    rw [ea, eb]
    unfold lexLe
    rintro (g | ⟨g, g'⟩) <;> rcases hij with f | ⟨f, f'⟩ <;> linarith
  rw [oa, ob]
  rcases hab.eq_or_lt with rfl | hlt
  · exact le_rfl
  · rw [List.getD_eq_getElem _ _ (by omega), List.getD_eq_getElem _ _ (by omega)]
    exact List.pairwise_iff_getElem.1 hasc a b _ _ hlt

/-- **C10.** Where the raw values are pairwise distinct the random numbers have no influence. -/
theorem C10_independent_of_random (rnd rnd' raw cal : List ℚ)
    (hd : ∀ i j, i < raw.length → j < raw.length → raw.getD i 0 = raw.getD j 0 → i = j) :
    rankEccPoint false rnd raw cal = rankEccPoint false rnd' raw cal := by
  have key : lexsort rnd raw = lexsort rnd' raw := by
    have weak : ∀ r, (lexsort r raw).Pairwise (fun i j => raw.getD i 0 ≤ raw.getD j 0) := by
      intro r
      refine (lexsort_sorted r raw).imp ?_
      rintro a b (h | ⟨h, -⟩)
      · exact h.le
      · exact h.le
    have hp : (lexsort rnd raw).Perm (lexsort rnd' raw) :=
      (lexsort_perm rnd raw).trans (lexsort_perm rnd' raw).symm
    refine List.Perm.eq_of_pairwise ?_ (weak rnd) (weak rnd') hp
    intro a b ha hb h1 h2
    have ha' := List.mem_range.1 ((lexsort_perm rnd raw).mem_iff.1 ha)
    have hb' := List.mem_range.1 ((lexsort_perm rnd' raw).mem_iff.1 hb)
    exact hd a b ha' hb' (le_antisymm h1 h2)
  unfold rankEccPoint eccRanking
  simp [key]

example : (rankEccPoint false [1/2, 1/3, 1/5] [7, 3, 7] [10, 20, 30]).toOption = some [30, 10, 20] := by
  decide +kernel
example : (rankEccPoint true [1/2, 1/3, 1/5] [7, 3, 7] [10, 20, 30]).toOption = some [30, 20, 10] := by
  decide +kernel

/-! ### C11 -/

/-- **C11.** Recycling: one member per percentile, member `k` holds the data of raw member `k mod n`, numbers
run consecutively from the first raw number; with equal counts the ensemble is returned as it is.  Realization
numbers are distinct because `realization` is a dimension coordinate. -/
theorem C11_recycle {α : Type} (plen : ℕ) (raw : List (ℤ × α)) (hp : 0 < plen) (hr : raw ≠ [])
    (hn : (raw.map (·.1)).Nodup) :
    ∃ out, recycleRaw plen raw = .ok out ∧ out.length = plen ∧
      (plen = raw.length → out = raw) ∧
      (∀ k (hk : k < out.length) (hm : k % raw.length < raw.length) (h0 : 0 < raw.length),
        (out[k]).2 = (raw[k % raw.length]).2 ∧
        (plen ≠ raw.length → (out[k]).1 = (raw[0]).1 + (k : ℤ))) := by
  have hl : 0 < raw.length := List.length_pos_iff.2 hr
  by_cases he : plen = raw.length
  · refine ⟨raw, by simp [recycleRaw, he], he.symm, fun _ => rfl, ?_⟩
    intro k hk hm h0
    refine ⟨?_, fun h => absurd he h⟩
    have : k % raw.length = k := Nat.mod_eq_of_lt hk
    simp [this]
  · let g : ℕ → ℤ := fun index => (raw.map (·.1)).getD (index % raw.length) 0
    have e1 : (List.range plen).mapM (recyclePick (raw.map (·.1))) = .ok ((List.range plen).map g) := by
      apply mapM_ok_of_forall
      intro k hk
      have hm : k % raw.length < raw.length := Nat.mod_lt _ hl
      have : (raw.map (·.1))[k % (raw.map (·.1)).length]? = some (g k) := by
        simp [g, hm]
      unfold recyclePick; rw [this]
    obtain ⟨p', rfl⟩ : ∃ p', plen = p' + 1 := ⟨plen - 1, by omega⟩
    have e2 : (List.range (p' + 1)).map g = g 0 :: (List.range p').map (g ∘ Nat.succ) := by
      rw [List.range_succ_eq_map, List.map_cons, List.map_map]
    have hg0 : g 0 = (raw[0]).1 := by simp [g, List.getElem?_eq_getElem, hl]
    let d : α := (raw[0]).2
    let outf : ℤ × ℤ → ℤ × α := fun x => (x.2, ((raw.find? (fun s => s.1 = x.1)).map (·.2)).getD d)
    have find_eq : ∀ i (hi : i < raw.length), raw.find? (fun s => s.1 = (raw[i]).1) = some raw[i] := by
      intro i hi
      rw [List.find?_eq_some_iff_getElem]
      refine ⟨by simp, i, hi, rfl, ?_⟩
      intro j hj
      simp only [Bool.not_eq_eq_eq_not, Bool.not_true, decide_eq_false_iff_not]
      intro h
      have := (List.nodup_iff_getElem?_ne_getElem?.1 hn) j i hj (by simpa using hi)
      apply this
      have hj' : j < raw.length := lt_trans hj hi
      simp only [List.getElem?_map, List.getElem?_eq_getElem hi, List.getElem?_eq_getElem hj', Option.map_some]
      rw [h]
    have e3 : (List.zip ((List.range (p' + 1)).map g) ((List.range (p' + 1)).map (fun k : ℕ => g 0 + (k : ℤ)))).mapM
        (recycleExtract raw)
        = .ok ((List.zip ((List.range (p' + 1)).map g)
            ((List.range (p' + 1)).map (fun k : ℕ => g 0 + (k : ℤ)))).map outf) := by
      apply mapM_ok_of_forall
      rintro ⟨r, idx⟩ hx
      have hr1 := (List.of_mem_zip hx).1
      obtain ⟨k, -, rfl⟩ := List.mem_map.1 hr1
      have hm : k % raw.length < raw.length := Nat.mod_lt _ hl
      have : g k = (raw[k % raw.length]).1 := by simp [g, hm]
      have hf := find_eq _ hm
      rw [← this] at hf
      simp only [recycleExtract, outf, hf, Option.map_some, Option.getD_some]
    refine ⟨(List.zip ((List.range (p' + 1)).map g)
            ((List.range (p' + 1)).map (fun k : ℕ => g 0 + (k : ℤ)))).map outf, ?_, ?_, fun h => absurd h he, ?_⟩
    · unfold recycleRaw
      rw [if_neg he]
      simp only [bind, Except.bind]
      rw [e1]
      have : firstOf ((List.range (p' + 1)).map g) = .ok (g 0) := by rw [e2]; rfl
      simp only [this]
      exact e3
    · simp
    · intro k hk hm h0
      have hk' : k < p' + 1 := by simpa using hk
      have hg : g k = (raw[k % raw.length]).1 := by simp [g, hm]
      have hf := find_eq _ hm
      rw [← hg] at hf
      refine ⟨?_, fun _ => ?_⟩
      · simp [outf, hf]
      · simp [outf, hg0]

example : (recycleRaw 5 [(12, "a"), (13, "b")]).toOption
    = some [(12, "a"), (13, "b"), (14, "a"), (15, "b"), (16, "a")] := by decide +kernel

/-! ### C12 and C18 -/

/-- **C12.** `choose_set_of_percentiles(n)` is the list `100·k/(n+1)`, `k = 1..n`. -/
theorem C12_percentiles_equally_partition (n : ℕ) :
    chooseSetOfPercentiles n = (List.range n).map (fun k : ℕ => 100 * ((k : ℚ) + 1) / ((n : ℚ) + 1)) := by
  unfold chooseSetOfPercentiles npLinspace
  rw [List.map_map]
  apply List.map_congr_left
  intro k hk
  have hk := List.mem_range.1 hk
  have hn : (n : ℚ) + 1 ≠ 0 := by positivity
  simp only [Function.comp]
  by_cases h1 : n = 1
  · subst h1
    have : k = 0 := by omega
    subst this; norm_num
  · have hn1 : (n : ℚ) - 1 ≠ 0 := by
      intro h; apply h1; have : (n : ℚ) = 1 := by linarith
      exact_mod_cast this
    rw [add_comm 1 (n : ℚ)]
    field_simp
    ring

/-- The `k`-th of the equally spaced percentiles. -/
theorem pct_mem {n : ℕ} {p : ℚ} (hp : p ∈ (List.range n).map (fun k : ℕ => 100 * ((k : ℚ) + 1) / ((n : ℚ) + 1))) :
    0 < p ∧ p < 100 := by
  obtain ⟨k, hk, rfl⟩ := List.mem_map.1 hp
  have hk : k < n := List.mem_range.1 hk
  have hkq : (k : ℚ) + 1 ≤ n := by exact_mod_cast hk
  have hn : (0 : ℚ) < (n : ℚ) + 1 := by positivity
  have hk0 : (0 : ℚ) ≤ k := by positivity
  constructor
  · positivity
  · rw [div_lt_iff₀ hn]; linarith

theorem pct_sorted (n : ℕ) :
    ((List.range n).map (fun k : ℕ => 100 * ((k : ℚ) + 1) / ((n : ℚ) + 1))).Pairwise (· < ·) := by
  rw [List.pairwise_map]
  refine (List.pairwise_lt_range (n := n)).imp ?_
  intro a b hab
  have hn : (0 : ℚ) < (n : ℚ) + 1 := by positivity
  have : (a : ℚ) < b := by exact_mod_cast hab
  apply div_lt_div_of_pos_right _ hn
  linarith

/-- **C12.** They are `n` strictly increasing values strictly between 0 and 100, symmetric about 50. -/
theorem C12_percentiles_increasing_symmetric (n : ℕ) :
    (chooseSetOfPercentiles n).length = n ∧ (chooseSetOfPercentiles n).Pairwise (· < ·) ∧
    (∀ p ∈ chooseSetOfPercentiles n, 0 < p ∧ p < 100) ∧
    (∀ k, k < n → (chooseSetOfPercentiles n).getD k 0 + (chooseSetOfPercentiles n).getD (n - 1 - k) 0 = 100) := by
  rw [C12_percentiles_equally_partition]
  refine ⟨by simp, pct_sorted n, fun p hp => pct_mem hp, ?_⟩
  intro k hk
  have hk2 : n - 1 - k < n := by omega
  have hn : (0 : ℚ) < (n : ℚ) + 1 := by positivity
  have hc : ((n - 1 - k : ℕ) : ℚ) = (n : ℚ) - 1 - k := by
    have : n - 1 - k + 1 + k = n := by omega
    have h' : ((n - 1 - k : ℕ) : ℚ) + 1 + k = n := by exact_mod_cast this
    linarith
  rw [List.getD_eq_getElem _ _ (by simpa using hk), List.getD_eq_getElem _ _ (by simpa using hk2)]
  simp only [List.getElem_map, List.getElem_range, hc]
  field_simp
  ring

theorem npDiff_const (d : ℚ) (l : List ℚ) (a : ℚ) (n : ℕ)
    (h : l = (List.range n).map (fun k : ℕ => a + (k : ℚ) * d)) : ∀ x ∈ npDiff l, x = d := by
  induction n generalizing l a with
  | zero => subst h; simp [npDiff]
  | succ n ih =>
    rw [List.range_succ_eq_map, List.map_cons, List.map_map] at h
    cases n with
    | zero => subst h; simp [npDiff]
    | succ n =>
      have h' := h
      rw [List.range_succ_eq_map, List.map_cons] at h
      intro x hx
      rw [h] at hx
      simp only [npDiff, List.mem_cons] at hx
      rcases hx with rfl | hx
      · simp
      · refine ih _ (a + d) ?_ x hx
        rw [List.range_succ_eq_map, List.map_cons]
        congr 1
        · simp
        · rw [List.map_map, List.map_map]
          apply List.map_congr_left
          intro k _
          simp only [Function.comp, Nat.succ_eq_add_one]
          push_cast; ring

theorem npDiff_length (l : List ℚ) : (npDiff l).length = l.length - 1 := by
  induction l with
  | nil => rfl
  | cons a l ih =>
    cases l with
    | nil => rfl
    | cons b l => simp only [npDiff, List.length_cons] at ih ⊢; omega

theorem npMinMax_const {l : List ℚ} {d : ℚ} (h : ∀ x ∈ l, x = d) (hl : l ≠ []) :
    npMax l = .ok d ∧ npMin l = .ok d := by
  cases l with
  | nil => exact absurd rfl hl
  | cons a l =>
    have ha : a = d := h a (by simp)
    subst ha
    have h' : ∀ x ∈ l, x = a := fun x hx => h x (by simp [hx])
    clear h hl
    simp only [npMax, npMin]
    induction l with
    | nil => simp
    | cons b l ih =>
      have hb : b = a := h' b (by simp)
      subst hb
      simp only [List.foldl_cons, max_self, min_self]
      exact ih (fun x hx => h' x (by simp [hx]))

theorem rebadge_coords {P : List ℚ} (hsorted : P.Pairwise (· < ·)) (hmem : ∀ p ∈ P, 0 < p ∧ p < 100) :
    npSort (npUnique (P ++ [0, 100])) = 0 :: (P ++ [100]) := by
  have h0 : (0 : ℚ) ∉ P := fun h => lt_irrefl _ (hmem 0 h).1
  have h100 : (100 : ℚ) ∉ P := fun h => lt_irrefl _ (hmem 100 h).2
  have hnd : (P ++ [0, 100]).Nodup := by
    rw [List.nodup_append]
    refine ⟨hsorted.imp (fun h => h.ne), by norm_num, ?_⟩
    intro a ha b hb hab
    subst hab
    rcases List.mem_cons.1 hb with rfl | hb
    · exact h0 ha
    · rw [List.mem_singleton] at hb; subst hb; exact h100 ha
  have hs : (0 :: (P ++ [100])).Pairwise (· ≤ ·) := by
    rw [List.pairwise_cons, List.pairwise_append]
    refine ⟨?_, hsorted.imp (fun h => h.le), by simp, ?_⟩
    · intro a ha
      rcases List.mem_append.1 ha with ha | ha
      · exact (hmem a ha).1.le
      · rw [List.mem_singleton] at ha; subst ha; norm_num
    · intro a ha b hb
      rw [List.mem_singleton] at hb; subst hb; exact (hmem a ha).2.le
  unfold npUnique
  rw [List.Nodup.dedup hnd, npSort_of_sorted (npSort_sorted _)]
  apply eq_of_perm_sorted _ (npSort_sorted _) hs
  refine (npSort_perm _).trans ?_
  have : (P ++ [0, 100] : List ℚ) = P ++ ([0] ++ [100]) := rfl
  rw [this, ← List.append_assoc]
  have h2 : (0 :: (P ++ [100]) : List ℚ) = ([0] ++ P) ++ [100] := rfl
  rw [h2]
  exact (List.perm_append_comm).append_right _

theorem npDiff_nonneg : ∀ {l : List ℚ}, l.Pairwise (· ≤ ·) → ∀ x ∈ npDiff l, 0 ≤ x
  | [], _ => by simp [npDiff]
  | [_], _ => by simp [npDiff]
  | a :: b :: l, h => by
    intro x hx
    rw [List.pairwise_cons] at h
    simp only [npDiff, List.mem_cons] at hx
    rcases hx with rfl | hx
    · have := h.1 b (by simp); linarith
    · exact npDiff_nonneg h.2 x hx

theorem foldl_min_ge (e : ℚ) (l : List ℚ) (m : ℚ) (he : m ≤ e) (hl : ∀ x ∈ l, m ≤ x) : m ≤ l.foldl min e := by
  induction l generalizing e with
  | nil => exact he
  | cons a l ih => exact ih _ (le_min he (hl a (by simp))) (fun x hx => hl x (by simp [hx]))

/-- **C12.** A cube on the default percentiles is always accepted for rebadging; it gets realization numbers
`0..n-1` (or the numbers supplied), and its data are neither changed nor reordered. -/
theorem C12_rebadge_accepts {α : Type} (n : ℕ) (data : List α)
    (numbers : Option (List ℚ)) (hnum : ∀ l, numbers = some l → l.length = n) :
    (rebadgePercentiles ⟨chooseSetOfPercentiles n, data, false⟩ numbers).1
      = .ok ⟨numbers.getD ((List.range n).map (fun k : ℕ => (k : ℚ))), data, false⟩ := by
  have hN : (0 : ℚ) < (n : ℚ) + 1 := by positivity
  set P := chooseSetOfPercentiles n with hP
  have hP' := C12_percentiles_equally_partition n
  have hlen : P.length = n := (C12_percentiles_increasing_symmetric n).1
  have hsorted : P.Pairwise (· < ·) := (C12_percentiles_increasing_symmetric n).2.1
  have hmem := (C12_percentiles_increasing_symmetric n).2.2.1
  have hcoords := rebadge_coords hsorted hmem
  have harith : (0 :: (P ++ [100]) : List ℚ)
      = (List.range (n + 2)).map (fun k : ℕ => 0 + (k : ℚ) * (100 / ((n : ℚ) + 1))) := by
    rw [List.range_succ, List.map_append, List.range_succ_eq_map, List.map_cons, List.map_map, hP, hP']
    simp only [List.cons_append]
    congr 1
    · simp
    · congr 1
      · apply List.map_congr_left
        intro k _
        simp only [Function.comp, Nat.succ_eq_add_one]
        push_cast; field_simp; ring
      · simp only [List.map_cons, List.map_nil]
        congr 1
        push_cast; field_simp; ring
  have hd := npDiff_const _ _ _ _ harith
  have hne : npDiff (0 :: (P ++ [100])) ≠ [] := by
    intro h
    have := npDiff_length (0 :: (P ++ [100]))
    rw [h] at this
    simp at this
  obtain ⟨hmx, hmn⟩ := npMinMax_const hd hne
  have hclose : npIsclose (100 / ((n : ℚ) + 1)) (100 / ((n : ℚ) + 1)) = true := by
    simp only [npIsclose, sub_self, abs_zero, decide_eq_true_eq]
    positivity
  have hnl : (numbers.getD ((List.range n).map (fun k : ℕ => (k : ℚ)))).length = n := by
    cases hh : numbers with
    | none => simp
    | some l => simpa using hnum l hh
  unfold rebadgePercentiles
  simp only [hcoords, hmx, hmn, hclose, hlen, hnl, not_true, if_false, ne_eq]
  simp

theorem infix_mem_npDiff {a b : ℚ} : ∀ {l : List ℚ}, [a, b] <:+: l → b - a ∈ npDiff l
  | [], h => by simpa using h.length_le
  | [x], h => by have := h.length_le; simp at this
  | x :: y :: l, h => by
    rw [List.infix_cons_iff] at h
    rcases h with h | h
    · obtain ⟨t, ht⟩ := h
      simp only [List.cons_append, List.nil_append, List.cons.injEq] at ht
      obtain ⟨rfl, rfl, -⟩ := ht
      simp [npDiff]
    · exact List.mem_cons_of_mem _ (infix_mem_npDiff h)

/-- **C12.** Only (nearly) equally spaced percentiles are accepted: for ascending percentiles inside (0, 100)
any two gaps between consecutive values, counting from 0 and up to 100, differ by at most `1e-8 + 1e-5` times
the gap. -/
theorem C12_rebadge_rejects_uneven {α : Type} (points : List ℚ) (data : List α) (numbers : Option (List ℚ))
    (out : PCube α) (hs : points.Pairwise (· < ·)) (hr : ∀ p ∈ points, 0 < p ∧ p < 100)
    (hok : (rebadgePercentiles ⟨points, data, false⟩ numbers).1 = .ok out) (a b c d : ℚ)
    (h1 : [a, b] <:+: 0 :: (points ++ [100])) (h2 : [c, d] <:+: 0 :: (points ++ [100])) :
    |(b - a) - (d - c)| ≤ 1/100000000 + 1/100000 * (b - a) := by
  have h0 : (0 : ℚ) ∉ points := fun h => lt_irrefl _ (hr 0 h).1
  have h100 : (100 : ℚ) ∉ points := fun h => lt_irrefl _ (hr 100 h).2
  have hcoords := rebadge_coords hs hr
  have m1 := infix_mem_npDiff h1
  have m2 := infix_mem_npDiff h2
  unfold rebadgePercentiles at hok
  simp only [hcoords] at hok
  have hsorted : (0 :: (points ++ [100])).Pairwise (· ≤ ·) := by
    rw [← hcoords]; exact npSort_sorted _
  have hpos : 0 ≤ b - a := by
    have := hsorted.sublist h1.sublist
    simp at this; linarith
  cases hD : npDiff (0 :: (points ++ [100])) with
  | nil => rw [hD] at m1; simp at m1
  | cons e es =>
    rw [hD] at m1 m2
    simp only [hD, npMax, npMin] at hok
    have hmin := foldl_min_le e es
    have hmax := foldl_le_max e es
    have hall : ∀ x ∈ e :: es, es.foldl min e ≤ x ∧ x ≤ es.foldl max e := by
      intro x hx
      rcases List.mem_cons.1 hx with rfl | hx
      · exact ⟨hmin.1, hmax.1⟩
      · exact ⟨hmin.2 x hx, hmax.2 x hx⟩
    have hmn0 : 0 ≤ es.foldl min e := by
      have : ∀ x ∈ npDiff (0 :: (points ++ [100])), 0 ≤ x := npDiff_nonneg hsorted
      rw [hD] at this
      exact foldl_min_ge e es 0 (this e (by simp)) (fun x hx => this x (by simp [hx]))
    generalize es.foldl min e = mn at *
    generalize es.foldl max e = mx at *
    by_cases hc : npIsclose mx mn = true
    · simp only [npIsclose, decide_eq_true_eq] at hc
      rw [abs_of_nonneg hmn0] at hc
      have := (abs_le.1 hc).2
      have b1 := hall _ m1
      have b2 := hall _ m2
      rw [abs_le]
      constructor <;> linarith [b1.1, b1.2, b2.1, b2.2]
    · rw [if_pos hc] at hok
      cases hok

/-- **C12.** A list of realization numbers of the wrong length is refused, and the caller's cube is then left alone. -/
theorem C12_rebadge_wrong_count {α : Type} (c : PCube α) (l : List ℚ) (hl : l.length ≠ c.points.length) :
    rebadgePercentiles c (some l) = (.error .valueError, c) := by
  unfold rebadgePercentiles
  simp only [Option.getD_some]
  split
  · split_ifs <;> rfl
  · rfl

/-- **C12 (finding).** When a realization coordinate already exists the call fails, but the caller's cube has
lost its percentile values by then: they are overwritten by realization numbers. -/
theorem C12_failed_rebadge_corrupts_input :
    ∃ c : PCube ℕ, (rebadgePercentiles c none).1.toOption = none ∧ (rebadgePercentiles c none).2.points ≠ c.points :=
  ⟨⟨[25, 50, 75], [1, 2, 3], true⟩, by decide +kernel⟩

example : chooseSetOfPercentiles 3 = [25, 50, 75] := by decide +kernel
example : (rebadgePercentiles ⟨[25, 50, 75], ["a", "b", "c"], false⟩ none).1.toOption
    = some ⟨[0, 1, 2], ["a", "b", "c"], false⟩ := by decide +kernel
example : (rebadgePercentiles ⟨[10, 50, 90], ["a", "b", "c"], false⟩ none).1.toOption = none := by decide +kernel

/-- **C18.** Rebadged realizations: same multiset of values, ascending, one per percentile. -/
theorem C18_values_sorted_and_preserved (o : Bool) (data : List ℚ) :
    (rebadgeRealizations o data).2.Perm data ∧ (rebadgeRealizations o data).2.Pairwise (· ≤ ·) ∧
    (rebadgeRealizations o data).1.length = data.length :=
  ⟨npSort_perm _, npSort_sorted _, by cases o <;> simp [rebadgeRealizations]⟩

/-- **C18.** The percentiles are strictly increasing and strictly inside (0, 100), in both conventions. -/
theorem C18_percentiles_increasing (o : Bool) (data : List ℚ) :
    (rebadgeRealizations o data).1.Pairwise (· < ·) ∧
    ∀ p ∈ (rebadgeRealizations o data).1, 0 < p ∧ p < 100 := by
  cases o
  · simp only [rebadgeRealizations, Bool.false_eq_true, if_false]
    exact ⟨pct_sorted _, fun p hp => pct_mem hp⟩
  · simp only [rebadgeRealizations, if_true]
    constructor
    · rw [List.pairwise_map]
      refine (List.pairwise_lt_range (n := data.length)).imp_of_mem ?_
      intro a b ha hb hab
      have hn : (0 : ℚ) < (data.length : ℚ) := by
        have := List.mem_range.1 ha
        exact_mod_cast (by omega : 0 < data.length)
      have : (a : ℚ) < b := by exact_mod_cast hab
      apply div_lt_div_of_pos_right _ hn
      linarith
    · intro p hp
      obtain ⟨k, hk, rfl⟩ := List.mem_map.1 hp
      have hk := List.mem_range.1 hk
      have hn : (0 : ℚ) < (data.length : ℚ) := by exact_mod_cast (by omega : 0 < data.length)
      have hkq : (k : ℚ) + 1 ≤ data.length := by exact_mod_cast hk
      have hk0 : (0 : ℚ) ≤ k := by positivity
      constructor
      · positivity
      · rw [div_lt_iff₀ hn]; linarith

/-- **C18.** The default convention is the one of `choose_set_of_percentiles`, so the result can be rebadged
back to realizations (C12). -/
theorem C18_default_matches_choose_set (data : List ℚ) :
    (rebadgeRealizations false data).1 = chooseSetOfPercentiles data.length := by
  rw [C12_percentiles_equally_partition]; rfl

example : rebadgeRealizations true [5, 1] = ([25, 75], [1, 5]) := by decide +kernel

/-! ### C17 -/

/-- **C17, full statement.** `rank_ecc` succeeds for any number of validity times.  It is false: -/
def Spec.RankEccHandlesAllTimes : Prop :=
  ∀ (ro : Bool) (rnd : Option ℤ → ℕ → List ℚ) (seed : Option ℤ) (slices : List (List ℚ × List ℚ)),
    (∀ s t, ∀ p ∈ slices, (rnd s t).length = p.1.length) → (∀ p ∈ slices, p.2.length = p.1.length) →
    ∃ outs, rankEcc ro rnd seed slices = .ok outs

/-- **C17 (finding).** Two or more validity times always raise a `TypeError`, with or without a seed, whatever
the data: `int(RandomState)`. -/
theorem C17_multi_time_refuted (ro : Bool) (rnd : Option ℤ → ℕ → List ℚ) (seed : Option ℤ)
    (s1 s2 : List ℚ × List ℚ) (rest : List (List ℚ × List ℚ))
    (h1 : ∀ s t, (rnd s t).length = s1.1.length) (h2 : s1.2.length = s1.1.length) :
    rankEcc ro rnd seed (s1 :: s2 :: rest) = .error .typeError := by
  obtain ⟨raw, cal⟩ := s1
  obtain ⟨raw2, cal2⟩ := s2
  unfold rankEcc
  cases seed with
  | none =>
    obtain ⟨out, ho, -⟩ := C09_reorder_is_permutation ro (rnd none 0) raw cal (h1 _ _) h2
    simp [rankEccLoop, seedStep, bind, Except.bind, ho]
  | some n =>
    obtain ⟨out, ho, -⟩ := C09_reorder_is_permutation ro (rnd (some n) 0) raw cal (h1 _ _) h2
    simp [rankEccLoop, seedStep, bind, Except.bind, ho]

theorem C17_full_statement_refuted : ¬ Spec.RankEccHandlesAllTimes := by
  intro h
  obtain ⟨outs, ho⟩ := h false (fun _ _ => [0]) none [([1], [1]), ([1], [1])] (by simp) (by simp)
  rw [C17_multi_time_refuted false (fun _ _ => [0]) none ([1], [1]) ([1], [1]) [] (by simp) (by simp)] at ho
  cases ho

/-- **C17.** What does hold: at most one validity time is always handled, and seeding is deterministic in the
seed by construction of `rnd`. -/
theorem C17_single_time_partial (ro : Bool) (rnd : Option ℤ → ℕ → List ℚ) (seed : Option ℤ)
    (raw cal : List ℚ) (h1 : ∀ s t, (rnd s t).length = raw.length) (h2 : cal.length = raw.length) :
    ∃ out, rankEcc ro rnd seed [(raw, cal)] = .ok [out] ∧ out.Perm cal := by
  unfold rankEcc
  cases seed with
  | none =>
    obtain ⟨out, ho, hp⟩ := C09_reorder_is_permutation ro (rnd none 0) raw cal (h1 _ _) h2
    exact ⟨out, by simp [rankEccLoop, seedStep, bind, Except.bind, ho, pure, Except.pure], hp⟩
  | some n =>
    obtain ⟨out, ho, hp⟩ := C09_reorder_is_permutation ro (rnd (some n) 0) raw cal (h1 _ _) h2
    exact ⟨out, by simp [rankEccLoop, seedStep, bind, Except.bind, ho, pure, Except.pure], hp⟩

/-! ### C16 -/

/-- **C16.** For every distribution other than the truncated normal, answers depend only on the constructor
arguments and the current location and scale, after any history of calls. -/
theorem C16_reusable_partial {β : Type} (dist : List ℚ → ℚ → ℚ → β) (shape : List ℚ)
    (calls : List (ℚ × ℚ)) :
    locScaleRun dist ⟨false, shape⟩ calls = calls.map (fun c => dist shape c.1 c.2) := by
  induction calls with
  | nil => rfl
  | cons c rest ih =>
    obtain ⟨l, s⟩ := c
    simp only [locScaleRun, locScaleCall, rescaleShape, List.map_cons]
    simp [ih]

/-- **C16 (finding).** For the truncated normal the second call with the same location and scale uses shape
parameters rescaled twice: `((a - μ)/σ - μ)/σ` instead of `(a - μ)/σ`. -/
theorem C16_truncnorm_second_call_refuted (a b μ σ : ℚ) :
    locScaleRun (fun sh _ _ => sh) ⟨true, [a, b]⟩ [(μ, σ), (μ, σ)]
      = [[(a - μ) / σ, (b - μ) / σ], [((a - μ) / σ - μ) / σ, ((b - μ) / σ - μ) / σ]] := by
  simp [locScaleRun, locScaleCall, rescaleShape]

/-- Concrete witness: truncation at 0, location 2, scale 1: the lower shape parameter is -2 on the first call
and -4 on the second. -/
theorem C16_truncnorm_witness_refuted :
    locScaleRun (fun sh _ _ => sh) ⟨true, [0]⟩ [(2, 1), (2, 1)] = [[-2], [-4]] := by decide +kernel

/-- **C16.** The first call on a truncated normal plugin is right. -/
theorem C16_first_call_partial {β : Type} (dist : List ℚ → ℚ → ℚ → β) (shape : List ℚ) (l s : ℚ) :
    (locScaleCall dist ⟨true, shape⟩ l s).1 = dist (shape.map (fun v => (v - l) / s)) l s := rfl

end Improver
