import Verif.Model.TopoZones
import Mathlib.Algebra.BigOperators.Group.List.Basic
import Mathlib.Tactic.Linarith
import Mathlib.Tactic.Ring
import Mathlib.Tactic.FieldSimp
import Mathlib.Tactic.NormNum

/-! Properties of topographic zone weights (C159) and of orography band masks and land masks (C160). -/

namespace Improver

/-- Bands that follow one another without gap or overlap, each not empty. -/
def Spec.contiguous (bands : List (ℚ × ℚ)) : Prop :=
  (∀ b ∈ bands, b.1 < b.2) ∧ ∀ (i : ℕ) (a b : ℚ × ℚ), bands[i]? = some a → bands[i + 1]? = some b → a.2 = b.1

/-- The point lies in the band: above its lower and not above its upper bound. -/
def Spec.inBand (h : ℚ) (b : ℚ × ℚ) : Prop := b.1 < h ∧ h ≤ b.2

/-- The weight a band gives itself: 1 at its middle, falling linearly to one half at both ends. -/
def Spec.ownWeight (h : ℚ) (b : ℚ × ℚ) : ℚ := 1 - |h - (b.1 + b.2) / 2| / (b.2 - b.1)

theorem zoneWeight_eq {h : ℚ} {b : ℚ × ℚ} (hb : Spec.inBand h b) : zoneWeight h b = Spec.ownWeight h b := by
  obtain ⟨lo, hi⟩ := b
  obtain ⟨h1, h2⟩ := hb
  dsimp only at h1 h2
  obtain ⟨d, rfl⟩ : ∃ d, hi = lo + d := ⟨hi - lo, by ring⟩
  have hlt : 0 < d := by linarith
  have hne : d ≠ 0 := hlt.ne'
  unfold zoneWeight npInterp Spec.ownWeight
  dsimp only [List.length_cons, List.length_nil, List.getD]
  simp only [List.getElem?_cons_zero, List.getElem?_cons_succ, Option.getD_some, Nat.add_one_sub_one, zero_add,
    Nat.reduceAdd, Nat.reduceSub]
  rw [if_neg (not_lt.mpr h2), if_neg (by linarith)]
  rcases lt_trichotomy h ((lo + (lo + d)) / 2) with hm | hm | hm
  · have e : List.takeWhile (fun a => decide (a ≤ h)) [lo, (lo + (lo + d)) / 2, lo + d] = [lo] := by
      rw [List.takeWhile_cons_of_pos (by simpa using h1.le), List.takeWhile_cons_of_neg (by simpa using hm)]
    rw [e]
    dsimp only [List.length_cons, List.length_nil]
    simp only [zero_add, Nat.sub_self, List.getElem?_cons_zero, List.getElem?_cons_succ, Option.getD_some]
    rw [if_neg (by norm_num), if_neg (by linarith), abs_of_neg (by linarith)]
    rw [show (lo + (lo + d)) / 2 - lo = d / 2 by ring, show lo + d - lo = d by ring]
    field_simp
    ring
  · have e : List.takeWhile (fun a => decide (a ≤ h)) [lo, (lo + (lo + d)) / 2, lo + d] = [lo, (lo + (lo + d)) / 2] := by
      rw [List.takeWhile_cons_of_pos (by simpa using h1.le), List.takeWhile_cons_of_pos (by simpa using hm.ge),
        List.takeWhile_cons_of_neg (by simpa using (by linarith : h < lo + d))]
    rw [e]
    dsimp only [List.length_cons, List.length_nil]
    simp only [zero_add, Nat.reduceAdd, Nat.add_one_sub_one, List.getElem?_cons_zero, List.getElem?_cons_succ, Option.getD_some]
    rw [if_neg (by norm_num), if_pos hm.symm, hm]
    simp
  · rcases h2.lt_or_eq with h2' | h2'
    · have e : List.takeWhile (fun a => decide (a ≤ h)) [lo, (lo + (lo + d)) / 2, lo + d] = [lo, (lo + (lo + d)) / 2] := by
        rw [List.takeWhile_cons_of_pos (by simpa using h1.le), List.takeWhile_cons_of_pos (by simpa using hm.le),
          List.takeWhile_cons_of_neg (by simpa using h2')]
      rw [e]
      dsimp only [List.length_cons, List.length_nil]
      simp only [zero_add, Nat.reduceAdd, Nat.add_one_sub_one, List.getElem?_cons_zero, List.getElem?_cons_succ, Option.getD_some]
      rw [if_neg (by norm_num), if_neg (by linarith), abs_of_pos (by linarith)]
      rw [show lo + d - (lo + (lo + d)) / 2 = d / 2 by ring, show lo + d - lo = d by ring]
      field_simp
      ring
    · have e : List.takeWhile (fun a => decide (a ≤ h)) [lo, (lo + (lo + d)) / 2, lo + d] = [lo, (lo + (lo + d)) / 2, lo + d] := by
        rw [List.takeWhile_cons_of_pos (by simpa using h1.le), List.takeWhile_cons_of_pos (by simpa using hm.le),
          List.takeWhile_cons_of_pos (by simpa using h2'.ge), List.takeWhile_nil]
      rw [e]
      dsimp only [List.length_cons, List.length_nil]
      simp only [zero_add, Nat.reduceAdd, Nat.add_one_sub_one, List.getElem?_cons_zero, List.getElem?_cons_succ, Option.getD_some]
      rw [if_pos trivial, abs_of_pos (by linarith), h2', show lo + d - lo = d by ring]
      field_simp
      ring

/-! ### The loop -/

theorem zoneLoop_outside (m : ℕ) (h : ℚ) (bs : List (ℚ × ℚ)) (hout : ∀ b ∈ bs, ¬ Spec.inBand h b) (k : ℕ) (w : ℕ → ℚ) :
    zoneLoop m h k bs w = w := by
  induction bs generalizing k w with
  | nil => rfl
  | cons b t ih =>
    show zoneLoop m h (k + 1) t (zoneStep m h w k b) = w
    have : zoneStep m h w k b = w := if_neg (hout b List.mem_cons_self)
    rw [this]
    exact ih (fun b hb => hout b (List.mem_cons_of_mem _ hb)) _ _

theorem zoneLoop_one (m : ℕ) (h : ℚ) (bs : List (ℚ × ℚ)) (j : ℕ) (b : ℚ × ℚ) (hj : bs[j]? = some b)
    (honly : ∀ (i : ℕ) (c : ℚ × ℚ), bs[i]? = some c → Spec.inBand h c → i = j) (k : ℕ) (w : ℕ → ℚ) :
    zoneLoop m h k bs w = zoneStep m h w (k + j) b := by
  induction bs generalizing k w j with
  | nil => nomatch hj
  | cons a t ih =>
    show zoneLoop m h (k + 1) t (zoneStep m h w k a) = _
    cases j with
    | zero =>
      have e : a = b := by simpa using hj
      subst e
      rw [zoneLoop_outside]
      · rfl
      · intro c hc hin
        obtain ⟨i, hi, rfl⟩ := List.mem_iff_getElem.mp hc
        have := honly (i + 1) t[i] (by simpa using hi) hin
        omega
    | succ j =>
      have : zoneStep m h w k a = w := by
        refine if_neg fun hin => ?_
        have := honly 0 a rfl hin
        omega
      rw [this, ih j (by simpa using hj)]
      · congr 1; omega
      · intro i c hc hin
        have := honly (i + 1) c (by simpa using hc) hin
        omega

theorem contiguous_order {bands : List (ℚ × ℚ)} (hc : Spec.contiguous bands) {i j : ℕ} {a b : ℚ × ℚ} (hij : i < j)
    (ha : bands[i]? = some a) (hb : bands[j]? = some b) : a.2 ≤ b.1 := by
  induction j generalizing b with
  | zero => omega
  | succ j ih =>
    have hlen := (List.getElem?_eq_some_iff.mp hb).1
    have hcj : bands[j]? = some bands[j] := List.getElem?_eq_getElem (by omega)
    have e := hc.2 j _ _ hcj hb
    rcases (show i < j ∨ i = j by omega) with h | h
    · have h1 := ih h hcj
      have h2 := hc.1 bands[j] (List.getElem_mem _)
      linarith
    · subst h
      rw [hcj] at ha
      rw [← Option.some.inj ha, e]

/-- With contiguous bands a height is in at most one. -/
theorem contiguous_unique {bands : List (ℚ × ℚ)} (hc : Spec.contiguous bands) {i j : ℕ} {a b : ℚ × ℚ} {h : ℚ}
    (ha : bands[i]? = some a) (hb : bands[j]? = some b) (hia : Spec.inBand h a) (hib : Spec.inBand h b) : i = j := by
  rcases lt_trichotomy i j with hl | he | hl
  · have := contiguous_order hc hl ha hb
    linarith [hia.2, hib.1]
  · exact he
  · have := contiguous_order hc hl hb ha
    linarith [hib.2, hia.1]

/-- With contiguous bands a height above the lowest and not above the highest bound is in some band. -/
theorem contiguous_cover {bands : List (ℚ × ℚ)} (hc : Spec.contiguous bands) {h : ℚ} {a z : ℚ × ℚ}
    (ha : bands.head? = some a) (hz : bands.getLast? = some z) (h1 : a.1 < h) (h2 : h ≤ z.2) :
    ∃ (j : ℕ) (b : ℚ × ℚ), bands[j]? = some b ∧ Spec.inBand h b := by
  induction bands generalizing a with
  | nil => nomatch ha
  | cons c t ih =>
    have e : c = a := by simpa using ha
    subst e
    rcases le_or_gt h c.2 with hle | hgt
    · exact ⟨0, c, rfl, h1, hle⟩
    · cases t with
      | nil =>
        have e : c = z := by simpa using hz
        subst e
        linarith
      | cons d t =>
        have hct : Spec.contiguous (d :: t) :=
          ⟨fun b hb => hc.1 b (List.mem_cons_of_mem _ hb), fun i a b ha hb => hc.2 (i + 1) a b (by simpa using ha) (by simpa using hb)⟩
        have hcd := hc.2 0 c d rfl rfl
        obtain ⟨j, b, hb, hin⟩ := ih hct rfl (by rw [← hz, List.getLast?_cons_cons]) (by linarith)
        exact ⟨j + 1, b, by simpa using hb, hin⟩

/-- The weights the plugin should give a height in band `j` of `n`. -/
def Spec.zoneShare (n : ℕ) (h : ℚ) (j : ℕ) (b : ℚ × ℚ) (k : ℕ) : ℚ :=
  let mid := (b.1 + b.2) / 2
  if k = j then (if (h < mid ∧ j = 0) ∨ (mid < h ∧ j + 1 = n) then 1 else Spec.ownWeight h b)
  else if k + 1 = j ∧ h < mid then 1 - Spec.ownWeight h b
  else if k = j + 1 ∧ mid < h then 1 - Spec.ownWeight h b
  else 0

/-- With contiguous bands a point on land in band `j` has its own weight there and the rest in the band next to the half it is
in; the outer halves of the outermost bands have all of it. -/
theorem C159_weights {bands : List (ℚ × ℚ)} (hc : Spec.contiguous bands) {h : ℚ} {j : ℕ} {b : ℚ × ℚ} {land : Option Bool}
    (hland : land ≠ some false) (hj : bands[j]? = some b) (hin : Spec.inBand h b) :
    topoWeights bands land h = (List.range bands.length).map fun k => some (Spec.zoneShare bands.length h j b k) := by
  have hlen := (List.getElem?_eq_some_iff.mp hj).1
  unfold topoWeights
  dsimp only
  refine List.map_congr_left fun k hk => ?_
  rw [if_neg hland, zoneLoop_one _ _ _ j b hj (fun i c hc' hin' => contiguous_unique hc hc' hj hin' hin), zero_add]
  congr 1
  unfold zoneStep
  rw [if_pos (show b.1 < h ∧ h ≤ b.2 from hin), zoneWeight_eq hin]
  unfold upperBand lowerBand Spec.zoneShare
  dsimp only
  generalize Spec.ownWeight h b = o
  generalize (b.1 + b.2) / 2 = mid
  rcases lt_trichotomy h mid with hm | hm | hm
  · rw [if_neg (by intro hx; exact absurd hm (not_lt.mpr (le_of_lt hx))), if_pos hm]
    have hm' : ¬ mid < h := not_lt.mpr hm.le
    by_cases h0 : j = 0
    · rw [if_pos h0]
      simp only [Function.update_apply, hm, hm', h0, and_true, and_false, false_and, or_false, if_true, if_false]
      by_cases hk0 : k = 0
      · simp [hk0]
      · simp [hk0]
    · rw [if_neg h0]
      simp only [Function.update_apply, hm, hm', h0, and_true, and_false, false_and, or_false, if_true, if_false]
      by_cases hkj : k = j
      · simp [hkj, show ¬ j = j - 1 by omega]
      · by_cases hk1 : k + 1 = j
        · subst hk1; simp
        · simp [hkj, hk1, show ¬ k = j - 1 by omega]
  · have hm1 : ¬ h < mid := by linarith
    have hm2 : ¬ mid < h := by linarith
    rw [if_neg hm2, if_neg hm1]
    simp only [Function.update_apply, hm1, hm2, and_false, false_and, or_false, if_false]
  · have hm' : ¬ h < mid := not_lt.mpr hm.le
    rw [if_pos hm, if_neg hm']
    have hmax : j = bands.length - 1 ↔ j + 1 = bands.length := by omega
    by_cases h0 : j + 1 = bands.length
    · rw [if_pos (hmax.2 h0)]
      simp only [Function.update_apply, hm, hm', h0, and_true, and_false, false_and, false_or, if_true, if_false]
      by_cases hkj : k = j
      · simp [hkj]
      · have : ¬ k = bands.length := by have := List.mem_range.mp hk; omega
        simp [hkj, this]
    · rw [if_neg (mt hmax.1 h0)]
      simp only [Function.update_apply, hm, hm', h0, and_true, and_false, false_and, false_or, if_true, if_false]
      by_cases hkj : k = j
      · simp [hkj]
      · simp [hkj]

theorem ownWeight_bounds {h : ℚ} {b : ℚ × ℚ} (hin : Spec.inBand h b) : 1 / 2 ≤ Spec.ownWeight h b ∧ Spec.ownWeight h b ≤ 1 := by
  obtain ⟨h1, h2⟩ := hin
  unfold Spec.ownWeight
  have hw : 0 < b.2 - b.1 := by linarith
  have ha : |h - (b.1 + b.2) / 2| ≤ (b.2 - b.1) / 2 := by rw [abs_le]; constructor <;> linarith
  constructor
  · have : |h - (b.1 + b.2) / 2| / (b.2 - b.1) ≤ 1 / 2 := by rw [div_le_iff₀ hw]; linarith
    linarith
  · have := div_nonneg (abs_nonneg (h - (b.1 + b.2) / 2)) hw.le
    linarith

theorem sum_single (n : ℕ) (j : ℕ) (a : ℚ) :
    ((List.range n).map fun k => if k = j then a else 0).sum = if j < n then a else 0 := by
  induction n with
  | zero => simp
  | succ n ih =>
    rw [List.range_succ, List.map_append, List.sum_append, ih]
    by_cases h1 : j < n
    · simp [h1, show ¬ n = j by omega, show j < n + 1 by omega]
    · by_cases h2 : n = j
      · simp [h2]
      · simp [h1, h2, show ¬ j < n + 1 by omega]

/-- A height in band `j` is shared between that band and at most one neighbour. -/
theorem zoneShare_split {n j : ℕ} {h : ℚ} {b : ℚ × ℚ} (hj : j < n) :
    (∀ k < n, Spec.zoneShare n h j b k = if k = j then 1 else 0) ∨
    ∃ l < n, (l + 1 = j ∨ l = j + 1) ∧ ∀ k < n, Spec.zoneShare n h j b k =
      (if k = j then Spec.ownWeight h b else 0) + if k = l then 1 - Spec.ownWeight h b else 0 := by
  unfold Spec.zoneShare
  dsimp only
  rcases lt_trichotomy h ((b.1 + b.2) / 2) with hm | hm | hm
  · have hm' : ¬ (b.1 + b.2) / 2 < h := not_lt.mpr hm.le
    by_cases h0 : j = 0
    · left
      intro k hkn
      by_cases hk : k = j
      · simp [hk, hm, h0]
      · simp [hk, hm', show ¬ k + 1 = j by omega]
    · right
      refine ⟨j - 1, by omega, Or.inl (by omega), fun k hkn => ?_⟩
      by_cases hk : k = j
      · simp [hk, h0, hm', show ¬ j = j - 1 by omega]
      · by_cases hk1 : k + 1 = j
        · subst hk1; simp [hm]
        · simp [hk, hk1, hm', show ¬ k = j - 1 by omega]
  · left
    intro k hkn
    have e : Spec.ownWeight h b = 1 := by unfold Spec.ownWeight; rw [hm]; simp
    have hm1 : ¬ h < (b.1 + b.2) / 2 := by linarith
    have hm2 : ¬ (b.1 + b.2) / 2 < h := by linarith
    by_cases hk : k = j
    · simp [hk, hm1, hm2, e]
    · simp [hk, hm1, hm2]
  · have hm' : ¬ h < (b.1 + b.2) / 2 := not_lt.mpr hm.le
    by_cases h0 : j + 1 = n
    · left
      intro k hkn
      by_cases hk : k = j
      · simp [hk, hm, h0]
      · by_cases hk1 : k = j + 1
        · omega
        · simp [hk, hm', hk1]
    · right
      refine ⟨j + 1, by omega, Or.inr rfl, fun k hkn => ?_⟩
      by_cases hk : k = j
      · simp [hk, h0, hm']
      · by_cases hk1 : k = j + 1
        · simp [hk1, hm, hm']
        · simp [hk, hk1, hm']

/-- For land points between the lowest and the highest bound the weights add up to one, each is between 0 and 1, only a band
and a neighbour of it have any, and the band the point is in has at least half. -/
theorem C159_sum_one {bands : List (ℚ × ℚ)} (hc : Spec.contiguous bands) {h : ℚ} {a z : ℚ × ℚ} {land : Option Bool}
    (hland : land ≠ some false) (ha : bands.head? = some a) (hz : bands.getLast? = some z) (h1 : a.1 < h) (h2 : h ≤ z.2) :
    ∃ w : List ℚ, topoWeights bands land h = w.map some ∧ w.length = bands.length ∧ w.sum = 1 ∧
      (∀ x ∈ w, 0 ≤ x ∧ x ≤ 1) ∧
      ∃ (j : ℕ) (b : ℚ × ℚ), bands[j]? = some b ∧ Spec.inBand h b ∧ (∃ x, w[j]? = some x ∧ 1 / 2 ≤ x) ∧
        ∃ l, (l + 1 = j ∨ l = j ∨ l = j + 1) ∧ ∀ (k : ℕ) (x : ℚ), w[k]? = some x → x ≠ 0 → k = j ∨ k = l := by
  obtain ⟨j, b, hj, hin⟩ := contiguous_cover hc ha hz h1 h2
  have hlen := (List.getElem?_eq_some_iff.mp hj).1
  obtain ⟨o1, o2⟩ := ownWeight_bounds hin
  refine ⟨(List.range bands.length).map (Spec.zoneShare bands.length h j b), ?_, by simp, ?_⟩
  · rw [C159_weights hc hland hj hin, List.map_map]; rfl
  have get : ∀ (k : ℕ) (x : ℚ), ((List.range bands.length).map (Spec.zoneShare bands.length h j b))[k]? = some x →
      k < bands.length ∧ x = Spec.zoneShare bands.length h j b k := by
    intro k x hx
    rw [List.getElem?_map] at hx
    obtain ⟨y, hy, e⟩ := Option.map_eq_some_iff.mp hx
    obtain ⟨hk, e'⟩ := List.getElem?_eq_some_iff.mp hy
    rw [List.getElem_range] at e'
    rw [List.length_range] at hk
    subst e'
    exact ⟨hk, e.symm⟩
  have getj : ((List.range bands.length).map (Spec.zoneShare bands.length h j b))[j]? =
      some (Spec.zoneShare bands.length h j b j) := by
    rw [List.getElem?_map, List.getElem?_range hlen]; rfl
  rcases zoneShare_split (h := h) (b := b) hlen with hs | ⟨l, hl, hlj, hs⟩
  · refine ⟨?_, ?_, j, b, hj, hin, ⟨_, getj, ?_⟩, j, Or.inr (Or.inl rfl), ?_⟩
    · rw [List.map_congr_left fun k hk => hs k (List.mem_range.mp hk), sum_single, if_pos hlen]
    · intro x hx
      obtain ⟨k, hk, rfl⟩ := List.mem_map.mp hx
      rw [hs k (List.mem_range.mp hk)]
      split_ifs <;> norm_num
    · rw [hs j hlen, if_pos rfl]; norm_num
    · intro k x hx hne
      obtain ⟨hk, e⟩ := get k x hx
      rw [hs k hk] at e
      by_contra hcon
      rw [if_neg (fun h => hcon (Or.inl h))] at e
      exact hne e
  · have hne : j ≠ l := by omega
    refine ⟨?_, ?_, j, b, hj, hin, ⟨_, getj, ?_⟩, l, by omega, ?_⟩
    · rw [List.map_congr_left fun k hk => hs k (List.mem_range.mp hk), List.sum_map_add, sum_single, sum_single, if_pos hlen,
        if_pos hl]
      ring
    · intro x hx
      obtain ⟨k, hk, rfl⟩ := List.mem_map.mp hx
      rw [hs k (List.mem_range.mp hk)]
      by_cases e1 : k = j
      · rw [if_pos e1, if_neg (by omega)]; constructor <;> linarith
      · rw [if_neg e1]
        by_cases e2 : k = l
        · rw [if_pos e2]; constructor <;> linarith
        · rw [if_neg e2]; norm_num
    · rw [hs j hlen, if_pos rfl, if_neg hne]; linarith
    · intro k x hx hx0
      obtain ⟨hk, e⟩ := get k x hx
      rw [hs k hk] at e
      by_contra hcon
      rw [if_neg (fun h => hcon (Or.inl h)), if_neg (fun h => hcon (Or.inr h))] at e
      exact hx0 (by rw [e]; norm_num)

/-- At the bound two bands share, the formulae of both give one half to each. -/
theorem C159_joins {lo mid hi : ℚ} (h1 : lo < mid) (h2 : mid < hi) :
    Spec.ownWeight mid (lo, mid) = 1 / 2 ∧ Spec.ownWeight mid (mid, hi) = 1 / 2 := by
  unfold Spec.ownWeight
  dsimp only
  constructor
  · rw [abs_of_pos (by linarith)]
    obtain ⟨d, rfl⟩ : ∃ d, mid = lo + d := ⟨mid - lo, by ring⟩
    have : d ≠ 0 := by linarith
    rw [show lo + d - lo = d by ring]
    field_simp
    ring
  · rw [abs_of_neg (by linarith)]
    obtain ⟨d, rfl⟩ : ∃ d, hi = mid + d := ⟨hi - mid, by ring⟩
    have : d ≠ 0 := by linarith
    rw [show mid + d - mid = d by ring]
    field_simp
    ring

/-- Sea points are masked in every band; points of no band have no weight in any. -/
theorem C159_outside (bands : List (ℚ × ℚ)) (h : ℚ) :
    topoWeights bands (some false) h = bands.map (fun _ => none) ∧
    ∀ land, land ≠ some false → (∀ b ∈ bands, ¬ Spec.inBand h b) → topoWeights bands land h = bands.map fun _ => some 0 := by
  have e : ∀ (x : Option ℚ), (List.range bands.length).map (fun _ => x) = bands.map fun _ => x := by
    intro x
    rw [List.map_const', List.map_const', List.length_range]
  constructor
  · unfold topoWeights
    simp only [if_true]
    exact e none
  · intro land hland hout
    unfold topoWeights
    simp only [if_neg hland, zoneLoop_outside _ _ _ hout]
    exact e (some 0)

/-- The plugin warns exactly when some height lies above every bound of every band or below every one. -/
theorem C159_warns (bands : List (ℚ × ℚ)) (heights : List ℚ) :
    zoneWarns bands heights = true ↔
      ∃ h ∈ heights, (∀ b ∈ bands, b.1 < h ∧ b.2 < h) ∨ ∀ b ∈ bands, h < b.1 ∧ h < b.2 := by
  have key : ∀ (P : ℚ → Prop) [DecidablePred P], ((bands.flatMap fun b => [b.1, b.2]).all fun e => decide (P e)) = true ↔
      ∀ b ∈ bands, P b.1 ∧ P b.2 := by
    intro P _
    simp only [List.all_eq_true, List.mem_flatMap, decide_eq_true_eq, List.mem_cons, List.not_mem_nil, or_false]
    constructor
    · intro h b hb
      exact ⟨h _ ⟨b, hb, Or.inl rfl⟩, h _ ⟨b, hb, Or.inr rfl⟩⟩
    · rintro h x ⟨b, hb, rfl | rfl⟩
      · exact (h b hb).1
      · exact (h b hb).2
  unfold zoneWarns
  dsimp only
  rw [Bool.or_eq_true, List.any_eq_true, List.any_eq_true]
  constructor
  · rintro (⟨h, hh, ha⟩ | ⟨h, hh, ha⟩)
    · exact ⟨h, hh, Or.inl ((key fun e => e < h).1 ha)⟩
    · exact ⟨h, hh, Or.inr ((key fun e => h < e).1 ha)⟩
  · rintro ⟨h, hh, ha | ha⟩
    · exact Or.inl ⟨h, hh, (key fun e => e < h).2 ha⟩
    · exact Or.inr ⟨h, hh, (key fun e => h < e).2 ha⟩

/-- "Without a warning all land points have weights that sum to one" is false: a point at the lowest bound itself is in no band
and none is raised. -/
theorem C159_lowest_bound_refuted : zoneWarns defaultBands [-500, 50] = false ∧
    topoWeights defaultBands none (-500) = defaultBands.map (fun _ => some 0) := by decide +kernel

/-- It also fails, without a warning, in a gap between bands. -/
theorem C159_gap_refuted : zoneWarns [(0, 50), (100, 150)] [75] = false ∧
    topoWeights [(0, 50), (100, 150)] none 75 = [some 0, some 0] := by decide +kernel

/-- The default bands are contiguous. -/
theorem C159_default_bands : Spec.contiguous defaultBands := by
  refine ⟨by decide +kernel, ?_⟩
  have key : ∀ i ∈ List.range 12, ∀ a ∈ defaultBands[i]?.toList, ∀ b ∈ defaultBands[i + 1]?.toList, a.2 = b.1 := by
    decide +kernel
  intro i a b ha hb
  have hi : i < 12 := (List.getElem?_eq_some_iff.mp ha).1
  exact key i (List.mem_range.mpr hi) a (by rw [ha]; simp) b (by rw [hb]; simp)

example : topoWeights [(0, 50), (50, 200), (200, 250)] (some true) 65 = [some (2 / 5), some (3 / 5), some 0] := by
  decide +kernel

/-! ## Masks -/

/-- For contiguous bands the masks of a land point between the outer bounds are one in exactly one band: the one it is in. -/
theorem C160_masks {bands : List (ℚ × ℚ)} (hc : Spec.contiguous bands) {h : ℚ} {j : ℕ} {b : ℚ × ℚ} {land : Option Bool}
    (hland : land ≠ some false) (hj : bands[j]? = some b) (hin : Spec.inBand h b) :
    bandMasks (some bands) land h = .ok ((List.range bands.length).map fun k => if k = j then 1 else 0) := by
  unfold bandMasks
  dsimp only
  congr 1
  apply List.ext_getElem?
  intro k
  rw [List.getElem?_map, List.getElem?_map]
  by_cases hk : k < bands.length
  · rw [List.getElem?_eq_getElem hk, List.getElem?_range hk]
    simp only [Option.map_some]
    congr 1
    unfold bandMask
    dsimp only
    rw [if_neg hland]
    by_cases e : k = j
    · subst e
      rw [List.getElem?_eq_getElem hk] at hj
      rw [Option.some.inj hj, if_pos rfl, if_pos (show h > b.1 ∧ h ≤ b.2 from hin)]
    · rw [if_neg e, if_neg]
      intro hin'
      exact e (contiguous_unique hc (List.getElem?_eq_getElem hk) hj hin' hin)
  · rw [List.getElem?_eq_none (by omega), List.getElem?_eq_none (by simp; omega)]
    rfl

/-- In general: each mask is 0 or 1, 1 exactly for land points of the band; masks and weights agree in that a masked-in band
has at least half the weight. -/
theorem C160_mask (land : Option Bool) (h : ℚ) (b : ℚ × ℚ) :
    (bandMask land h b = 1 ↔ land ≠ some false ∧ Spec.inBand h b) ∧ (bandMask land h b = 0 ∨ bandMask land h b = 1) := by
  unfold bandMask Spec.inBand
  dsimp only
  by_cases hl : land = some false
  · rw [if_pos hl]; simp [hl]
  · rw [if_neg hl]
    by_cases hb : h > b.1 ∧ h ≤ b.2
    · rw [if_pos hb]; exact ⟨⟨fun _ => ⟨hl, hb⟩, fun _ => rfl⟩, Or.inr rfl⟩
    · rw [if_neg hb]; exact ⟨⟨fun hx => by norm_num at hx, fun hx => absurd hx.2 hb⟩, Or.inl rfl⟩

/-- Bounds are accepted exactly as a pair of numbers. -/
theorem C160_bounds (bounds : List (Option ℚ)) :
    maskBoundsOk bounds = .ok () ↔ ∃ lo hi, bounds = [some lo, some hi] := by
  unfold maskBoundsOk
  by_cases h1 : bounds.any (·.isNone) = true
  · rw [if_pos h1]
    refine ⟨fun h => (nomatch h), ?_⟩
    rintro ⟨lo, hi, rfl⟩
    simp at h1
  · rw [if_neg h1]
    by_cases h2 : bounds.length ≠ 2
    · rw [if_pos h2]
      refine ⟨fun h => (nomatch h), ?_⟩
      rintro ⟨lo, hi, rfl⟩
      simp at h2
    · rw [if_neg h2]
      push Not at h2
      obtain ⟨x, y, rfl⟩ := List.length_eq_two.mp h2
      refine ⟨fun _ => ?_, fun _ => rfl⟩
      cases x with
      | none => simp at h1
      | some x =>
        cases y with
        | none => simp at h1
        | some y => exact ⟨x, y, rfl⟩

/-- The corrected land mask is 1 for fractions of at least one half and 0 below; correcting again changes nothing. -/
theorem C160_land_mask (x : ℚ) :
    (1 / 2 ≤ x → correctLandSea x = 1) ∧ (x < 1 / 2 → correctLandSea x = 0) ∧
    correctLandSea (correctLandSea x) = correctLandSea x := by
  have e1 : 1 / 2 ≤ x → correctLandSea x = 1 := by
    intro h
    unfold correctLandSea
    dsimp only
    rw [if_neg (not_lt.mpr h), if_pos (by linarith)]
  have e2 : x < 1 / 2 → correctLandSea x = 0 := by
    intro h
    unfold correctLandSea
    dsimp only
    rw [if_pos h, if_neg (by norm_num)]
  refine ⟨e1, e2, ?_⟩
  rcases le_or_gt (1 / 2) x with h | h
  · rw [e1 h]; decide +kernel
  · rw [e2 h]; decide +kernel

example : bandMasks (some [(0, 50), (50, 100)]) (some true) 50 = .ok [1, 0] := by decide +kernel

end Improver
