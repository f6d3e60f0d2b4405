import Verif.Model.Blend
import Verif.Lemmas.NpInterp
import Verif.Lemmas.Sorting

/-! Properties C22 and C23: weighted blending of fields and of percentiles. -/

namespace Improver

/-! ### C22 -/

/-- Contributing pairs: the unmasked values with their weights. -/
def Spec.unmasked (vals : List (Option ℚ)) (w : List ℚ) : List (ℚ × ℚ) :=
  (vals.zip w).filterMap (fun p => p.1.map (fun x => (x, p.2)))

theorem maAverage_eq (vals : List (Option ℚ)) (w : List ℚ) :
    maAverage vals w =
      if ((Spec.unmasked vals w).map Prod.snd).sum = 0 then none
      else some (((Spec.unmasked vals w).map (fun p => p.2 * p.1)).sum / ((Spec.unmasked vals w).map Prod.snd).sum) := by
  have h1 : ∀ l : List (Option ℚ × ℚ), (l.map numTerm).sum
      = ((l.filterMap (fun p => p.1.map (fun x => (x, p.2)))).map (fun p => p.2 * p.1)).sum := by
    intro l
    induction l with
    | nil => rfl
    | cons a l ih =>
      obtain ⟨v, u⟩ := a
      cases v with
      | none => simpa [numTerm, denTerm] using ih
      | some x => simpa [numTerm, denTerm] using ih
  have h2 : ∀ l : List (Option ℚ × ℚ), (l.map denTerm).sum
      = ((l.filterMap (fun p => p.1.map (fun x => (x, p.2)))).map Prod.snd).sum := by
    intro l
    induction l with
    | nil => rfl
    | cons a l ih =>
      obtain ⟨v, u⟩ := a
      cases v with
      | none => simpa [numTerm, denTerm] using ih
      | some x => simpa [numTerm, denTerm] using ih
  unfold maAverage Spec.unmasked
  simp only [h1, h2]

theorem weighted_sum_between {l : List (ℚ × ℚ)} (hw : ∀ p ∈ l, 0 ≤ p.2) {lo hi : ℚ}
    (hb : ∀ p ∈ l, 0 < p.2 → lo ≤ p.1 ∧ p.1 ≤ hi) :
    lo * (l.map Prod.snd).sum ≤ (l.map (fun p => p.2 * p.1)).sum ∧
    (l.map (fun p => p.2 * p.1)).sum ≤ hi * (l.map Prod.snd).sum := by
  induction l with
  | nil => simp
  | cons a l ih =>
    obtain ⟨h1, h2⟩ := ih (fun p hp => hw p (List.mem_cons_of_mem _ hp))
      (fun p hp => hb p (List.mem_cons_of_mem _ hp))
    have ha := hw a (List.mem_cons_self ..)
    have hab : lo * a.2 ≤ a.2 * a.1 ∧ a.2 * a.1 ≤ hi * a.2 := by
      rcases ha.eq_or_lt with h | h
      · rw [← h]; simp
      · obtain ⟨h3, h4⟩ := hb a (List.mem_cons_self ..) h
        constructor
        · rw [mul_comm lo]; exact mul_le_mul_of_nonneg_left h3 ha
        · rw [mul_comm hi]; exact mul_le_mul_of_nonneg_left h4 ha
    simp only [List.map_cons, List.sum_cons, mul_add]
    exact ⟨add_le_add hab.1 h1, add_le_add hab.2 h2⟩

/-- **C22** (convexity): with non-negative weights the blended value lies between any bounds on the unmasked values
of non-zero weight. -/
theorem C22_blend_between (vals : List (Option ℚ)) (w : List ℚ) (hw : ∀ x ∈ w, 0 ≤ x) (lo hi v : ℚ)
    (hb : ∀ x u, (some x, u) ∈ vals.zip w → 0 < u → lo ≤ x ∧ x ≤ hi) (h : maAverage vals w = some v) :
    lo ≤ v ∧ v ≤ hi := by
  rw [maAverage_eq] at h
  have hmem : ∀ p ∈ Spec.unmasked vals w, (some p.1, p.2) ∈ vals.zip w := by
    intro p hp
    obtain ⟨q, hq, hqp⟩ := List.mem_filterMap.1 hp
    obtain ⟨o, u⟩ := q
    cases o with
    | none => simp at hqp
    | some x => simp only [Option.map_some, Option.some.injEq] at hqp; subst hqp; exact hq
  have hnn : ∀ p ∈ Spec.unmasked vals w, 0 ≤ p.2 := fun p hp => hw _ (List.of_mem_zip (hmem p hp)).2
  obtain ⟨h1, h2⟩ := weighted_sum_between hnn (fun p hp h0 => hb p.1 p.2 (hmem p hp) h0)
  by_cases h0 : ((Spec.unmasked vals w).map Prod.snd).sum = 0
  · rw [if_pos h0] at h; cases h
  · rw [if_neg h0] at h
    injection h with h
    have hpos : 0 < ((Spec.unmasked vals w).map Prod.snd).sum :=
      lt_of_le_of_ne (List.sum_nonneg (by
        intro x hx; obtain ⟨p, hp, rfl⟩ := List.mem_map.1 hx; exact hnn p hp)) (Ne.symm h0)
    rw [← h]
    exact ⟨(le_div_iff₀ hpos).2 h1, (div_le_iff₀ hpos).2 h2⟩

/-- **C22** (masking): with non-negative weights the blended value is masked exactly where every unmasked input has
zero weight. -/
theorem C22_masked_iff (vals : List (Option ℚ)) (w : List ℚ) (hw : ∀ x ∈ w, 0 ≤ x) :
    maAverage vals w = none ↔ ∀ x u, (some x, u) ∈ vals.zip w → u = 0 := by
  rw [maAverage_eq]
  have hmem : ∀ x u, (some x, u) ∈ vals.zip w ↔ (x, u) ∈ Spec.unmasked vals w := by
    intro x u
    unfold Spec.unmasked
    rw [List.mem_filterMap]
    constructor
    · intro h; exact ⟨_, h, rfl⟩
    · rintro ⟨⟨o, u'⟩, h, h'⟩
      cases o with
      | none => simp at h'
      | some y =>
        simp only [Option.map_some, Option.some.injEq, Prod.mk.injEq] at h'
        obtain ⟨rfl, rfl⟩ := h'
        exact h
  have hnn : ∀ p ∈ Spec.unmasked vals w, 0 ≤ p.2 := fun p hp =>
    hw _ (List.of_mem_zip ((hmem p.1 p.2).2 hp)).2
  have hz : ((Spec.unmasked vals w).map Prod.snd).sum = 0 ↔ ∀ p ∈ Spec.unmasked vals w, p.2 = 0 := by
    constructor
    · intro h p hp
      have hle := List.single_le_sum (l := (Spec.unmasked vals w).map Prod.snd) (by
        intro x hx; obtain ⟨q, hq, rfl⟩ := List.mem_map.1 hx; exact hnn q hq) p.2 (List.mem_map.2 ⟨p, hp, rfl⟩)
      exact le_antisymm (by linarith) (hnn p hp)
    · intro h
      apply List.sum_eq_zero
      intro x hx
      obtain ⟨q, hq, rfl⟩ := List.mem_map.1 hx
      exact h q hq
  constructor
  · intro h x u hxu
    by_cases h0 : ((Spec.unmasked vals w).map Prod.snd).sum = 0
    · exact hz.1 h0 _ ((hmem x u).1 hxu)
    · rw [if_neg h0] at h; cases h
  · intro h
    rw [if_pos (hz.2 (fun p hp => h p.1 p.2 ((hmem _ _).2 hp)))]

/-- **C22** (reproduction): when all unmasked inputs with non-zero weight agree the blend is that value, or masked. -/
theorem C22_blend_constant (vals : List (Option ℚ)) (w : List ℚ) (hw : ∀ x ∈ w, 0 ≤ x) (c : ℚ)
    (hc : ∀ x u, (some x, u) ∈ vals.zip w → 0 < u → x = c) (v : ℚ) (h : maAverage vals w = some v) : v = c := by
  obtain ⟨h1, h2⟩ := C22_blend_between vals w hw c c v
    (fun x u hm hu => ⟨(hc x u hm hu).ge, (hc x u hm hu).le⟩) h
  exact le_antisymm h2 h1

/-- **C22** (scale): multiplying all weights by a positive constant changes nothing. -/
theorem C22_weights_scale (vals : List (Option ℚ)) (w : List ℚ) (c : ℚ) (hc : 0 < c) :
    maAverage vals (w.map (fun x => c * x)) = maAverage vals w := by
  have hz : vals.zip (w.map (fun x => c * x)) = (vals.zip w).map (fun p => (p.1, c * p.2)) := by
    rw [List.zip_map_right]; rfl
  have h1 : ∀ l : List (Option ℚ × ℚ),
      ((l.map (fun p => (p.1, c * p.2))).map numTerm).sum
      = c * (l.map numTerm).sum := by
    intro l
    induction l with
    | nil => simp
    | cons a l ih =>
      obtain ⟨o, u⟩ := a
      cases o with
      | none => simpa [numTerm, denTerm] using ih
      | some x => simp only [List.map_cons, List.sum_cons, ih, numTerm, denTerm]; ring
  have h2 : ∀ l : List (Option ℚ × ℚ),
      ((l.map (fun p => (p.1, c * p.2))).map denTerm).sum
      = c * (l.map denTerm).sum := by
    intro l
    induction l with
    | nil => simp
    | cons a l ih =>
      obtain ⟨o, u⟩ := a
      cases o with
      | none => simpa [numTerm, denTerm] using ih
      | some x => simp only [List.map_cons, List.sum_cons, ih, numTerm, denTerm]; ring
  unfold maAverage
  simp only [hz, h1, h2]
  by_cases h0 : ((vals.zip w).map denTerm).sum = 0
  · rw [if_pos h0, if_pos (by rw [h0, mul_zero])]
  · rw [if_neg h0, if_neg (mul_ne_zero hc.ne' h0), mul_div_mul_left _ _ hc.ne']

theorem sortByCoord_perm {α : Type} (l : List (ℚ × α)) : (sortByCoord l).Perm l := List.perm_insertionSort _ _

theorem sortByCoord_of_fun {α : Type} (l : List (ℚ × α)) (pts : List ℚ) (f : ℚ → α)
    (h : l.Perm (pts.map (fun p => (p, f p)))) : sortByCoord l = (npSort pts).map (fun p => (p, f p)) := by
  have hT : Std.Total (fun a b : ℚ × α => a.1 ≤ b.1) := ⟨fun _ _ => le_total _ _⟩
  have hI : IsTrans (ℚ × α) (fun a b : ℚ × α => a.1 ≤ b.1) := ⟨fun _ _ _ => le_trans⟩
  have hp : (sortByCoord l).Perm ((npSort pts).map (fun p => (p, f p))) :=
    (sortByCoord_perm l).trans (h.trans ((npSort_perm pts).symm.map _))
  refine List.Perm.eq_of_pairwise (le := fun a b : ℚ × α => a.1 ≤ b.1) ?_ (List.pairwise_insertionSort _ _) ?_ hp
  · intro a b ha hb hab hba
    have ha' := hp.subset ha
    obtain ⟨p, _, rfl⟩ := List.mem_map.1 ha'
    obtain ⟨q, _, rfl⟩ := List.mem_map.1 hb
    have : p = q := le_antisymm hab hba
    rw [this]
  · exact List.pairwise_map.2 (npSort_sorted pts)

theorem maAverage_perm (pts qts : List ℚ) (h : pts.Perm qts) (x : ℚ → Option ℚ) (w : ℚ → ℚ) :
    maAverage (pts.map x) (pts.map w) = maAverage (qts.map x) (qts.map w) := by
  unfold maAverage
  simp only [List.zip_map', List.map_map]
  rw [(h.map (numTerm ∘ fun a => (x a, w a))).sum_eq, (h.map (denTerm ∘ fun a => (x a, w a))).sum_eq]

/-- **C22** (order independence): with one value `x p` and one weight `w p` per blend coordinate point `p`, listed in any
two orders, the blend is the weighted average that pairs every value with the weight of the same point. -/
theorem C22_order_independent (pts : List ℚ) (x : ℚ → Option ℚ) (w : ℚ → ℚ) (data : List (ℚ × Option ℚ))
    (weights : List (ℚ × ℚ)) (hd : data.Perm (pts.map (fun p => (p, x p))))
    (hw : weights.Perm (pts.map (fun p => (p, w p)))) :
    weightedBlend data (some weights) = .ok (maAverage (pts.map x) (pts.map w)) := by
  unfold weightedBlend
  simp only []
  rw [sortByCoord_of_fun data pts x hd, sortByCoord_of_fun weights pts w hw]
  rw [if_neg (by simp)]
  congr 1
  simp only [List.map_map]
  exact maAverage_perm (npSort pts) pts (npSort_perm pts) x w

/-- **C22** (no weights cube): the blend is the plain mean of the unmasked values. -/
theorem C22_equal_weights (data : List (ℚ × Option ℚ)) :
    weightedBlend data none = .ok (
      let xs := data.filterMap Prod.snd
      if xs = [] then none else some (xs.sum / (xs.length : ℚ))) := by
  unfold weightedBlend
  simp only []
  congr 1
  set d := sortByCoord data with hd
  have hperm : d.Perm data := sortByCoord_perm data
  have hfm : (d.filterMap Prod.snd).Perm (data.filterMap Prod.snd) := hperm.filterMap _
  have hu : ∀ (l : List (ℚ × Option ℚ)) (c : ℚ),
      Spec.unmasked (l.map Prod.snd) (l.map (fun _ => c)) = (l.filterMap Prod.snd).map (fun x => (x, c)) := by
    intro l c
    unfold Spec.unmasked
    rw [List.zip_map']
    induction l with
    | nil => rfl
    | cons a l ih =>
      obtain ⟨p, o⟩ := a
      cases o with
      | none => simpa [numTerm, denTerm] using ih
      | some x => simpa [numTerm, denTerm] using ih
  rw [maAverage_eq, hu]
  simp only [List.map_map]
  have hs1 : ∀ (l : List ℚ) (c : ℚ), (l.map (Prod.snd ∘ fun x : ℚ => (x, c))).sum = l.length * c := by
    intro l c
    induction l with
    | nil => simp
    | cons a l ih => simp only [List.map_cons, List.sum_cons, ih, List.length_cons]; push_cast; simp; ring
  have hs2 : ∀ (l : List ℚ) (c : ℚ), (l.map ((fun p : ℚ × ℚ => p.2 * p.1) ∘ fun x : ℚ => (x, c))).sum = c * l.sum := by
    intro l c
    induction l with
    | nil => simp
    | cons a l ih => simp only [List.map_cons, List.sum_cons, ih, Function.comp]; ring
  rw [hs1, hs2, hfm.length_eq, hfm.sum_eq]
  by_cases he : data.filterMap Prod.snd = []
  · rw [he]; simp
  · have hlen : 0 < (data.filterMap Prod.snd).length := List.length_pos_iff.2 he
    have hdl : (data.filterMap Prod.snd).length ≤ d.length := by
      rw [hperm.length_eq]; exact List.length_filterMap_le _ _
    have hq : ((d.length : ℕ) : ℚ) ≠ 0 := by
      have : 0 < d.length := by omega
      positivity
    have hq2 : (((data.filterMap Prod.snd).length : ℕ) : ℚ) ≠ 0 := by positivity
    rw [if_neg (mul_ne_zero hq2 (one_div_ne_zero hq)), if_neg he]
    congr 1
    field_simp

/-- C22 (finding): the points of the weights cube are never compared with those of the data: weights for cycles 5 and
9 are silently applied to cycles 1 and 2, in order of rank. -/
theorem C22_points_not_checked :
    weightedBlend [(1, some 10), (2, some 20)] (some [(9, 3/4), (5, 1/4)]) = .ok (some (35/2)) := by decide +kernel

example : weightedBlend [(2, some 20), (1, some 10), (3, none)] (some [(1, 1/4), (3, 1/2), (2, 1/4)])
    = .ok (some 15) := by decide +kernel
example : weightedBlend [(2, some 20), (1, some 10), (3, none)] none = .ok (some 15) := by decide +kernel

/-! ### C23 percentile blending -/

theorem flatten_length_const {rows : List (List ℚ)} {n : ℕ} (h : ∀ r ∈ rows, r.length = n) :
    rows.flatten.length = rows.length * n := by
  induction rows with
  | nil => simp
  | cons a l ih =>
    rw [List.flatten_cons, List.length_append, h a (List.mem_cons_self ..),
      ih (fun r hr => h r (List.mem_cons_of_mem _ hr)), List.length_cons, Nat.succ_mul, Nat.add_comm]

theorem combinedCdf_length (rows : List (List ℚ)) (p w : List ℚ) :
    (combinedCdf rows p w).length = rows.length * p.length := by
  unfold combinedCdf
  rw [List.length_flatMap]
  simp [List.map_const']

/-- **C23** (valid distribution): whatever the weights, blended percentile values are non-decreasing in percentile and
within the range of the input values. -/
theorem C23_ordered_and_bounded (rows : List (List ℚ)) (p w : List ℚ) (hr : rows ≠ [])
    (hlen : ∀ r ∈ rows, r.length = p.length) (hp0 : p ≠ []) (hp : p.Pairwise (· ≤ ·)) (lo hi : ℚ)
    (hb : ∀ r ∈ rows, ∀ x ∈ r, lo ≤ x ∧ x ≤ hi) :
    (blendPercentiles rows p w).length = p.length ∧
    (blendPercentiles rows p w).Pairwise (· ≤ ·) ∧
    ∀ x ∈ blendPercentiles rows p w, lo ≤ x ∧ x ≤ hi := by
  unfold blendPercentiles
  simp only []
  have hrl : 0 < rows.length := List.length_pos_iff.2 hr
  have hpl : 0 < p.length := List.length_pos_iff.2 hp0
  have hprobs := npSort_sorted (combinedCdf rows p w)
  have hthres := npSort_sorted rows.flatten
  have hl1 : (npSort (combinedCdf rows p w)).length = rows.length * p.length := by
    rw [npSort_length, combinedCdf_length]
  have hl2 : (npSort rows.flatten).length = rows.length * p.length := by
    rw [npSort_length, flatten_length_const hlen]
  have hpos : 0 < rows.length * p.length := Nat.mul_pos hrl hpl
  have hmem : ∀ i, i < rows.length * p.length → lo ≤ (npSort rows.flatten).getD i 0 ∧
      (npSort rows.flatten).getD i 0 ≤ hi := by
    intro i hi'
    rw [List.getD_eq_getElem _ _ (by omega)]
    have hm := (npSort_perm rows.flatten).subset (List.getElem_mem (by omega : i < (npSort rows.flatten).length))
    obtain ⟨r, hr', hx⟩ := List.mem_flatten.1 hm
    exact hb r hr' _ hx
  refine ⟨by simp, ?_, ?_⟩
  · rw [List.pairwise_map]
    exact hp.imp (fun hab => npInterp_mono hprobs (by omega) (by omega) hthres hab)
  · intro x hx
    obtain ⟨q, _, rfl⟩ := List.mem_map.1 hx
    obtain ⟨h1, h2⟩ := npInterp_range hprobs (by omega) (hl2.trans hl1.symm) hthres q
    exact ⟨le_trans (hmem 0 hpos).1 h1, le_trans h2 (hmem _ (by omega)).2⟩

/-- `l` with every element repeated `m` times, in order. -/
def Spec.repeatEach (m : ℕ) (l : List ℚ) : List ℚ := l.flatMap (fun x => List.replicate m x)

theorem repeatEach_sorted {m : ℕ} {l : List ℚ} (h : l.Pairwise (· < ·)) :
    (Spec.repeatEach m l).Pairwise (· ≤ ·) := by
  induction l with
  | nil => exact List.Pairwise.nil
  | cons a l ih =>
    obtain ⟨h1, h2⟩ := List.pairwise_cons.1 h
    unfold Spec.repeatEach
    rw [List.flatMap_cons]
    apply List.pairwise_append.2
    refine ⟨List.pairwise_replicate.2 (.inr le_rfl), ih h2, ?_⟩
    intro x hx y hy
    obtain ⟨z, hz, hyz⟩ := List.mem_flatMap.1 hy
    rw [List.eq_of_mem_replicate hx, List.eq_of_mem_replicate hyz]
    exact (h1 z hz).le

theorem repeatEach_perm (m : ℕ) (l : List ℚ) : (Spec.repeatEach m l).Perm (List.replicate m l).flatten := by
  induction m with
  | zero => simp [Spec.repeatEach]
  | succ m ih =>
    rw [List.replicate_succ, List.flatten_cons]
    have : (Spec.repeatEach (m + 1) l).Perm (l ++ Spec.repeatEach m l) := by
      clear ih
      unfold Spec.repeatEach
      induction l with
      | nil => simp
      | cons a l ih =>
        simp only [List.flatMap_cons, List.replicate_succ, List.cons_append]
        apply List.Perm.cons
        refine (ih.append_left _).trans ?_
        rw [← List.append_assoc, ← List.append_assoc]
        exact List.perm_append_comm.append_right _
    exact this.trans (ih.append_left _)

theorem repeatEach_length (m : ℕ) (l : List ℚ) : (Spec.repeatEach m l).length = m * l.length := by
  rw [(repeatEach_perm m l).length_eq]; simp

theorem repeatEach_getD {m : ℕ} {l : List ℚ} {k : ℕ} (hk : k < l.length) {i : ℕ} (hi : i < m) :
    (Spec.repeatEach m l).getD (k * m + i) 0 = l.getD k 0 := by
  induction l generalizing k with
  | nil => simp at hk
  | cons a l ih =>
    unfold Spec.repeatEach
    rw [List.flatMap_cons]
    cases k with
    | zero =>
      rw [List.getD_append _ _ _ _ (by simpa using hi), List.getD_eq_getElem _ _ (by simpa using hi)]
      simp
    | succ k =>
      rw [List.getD_append_right _ _ _ _ (by simp; nlinarith)]
      have e : (k + 1) * m + i - (List.replicate m a).length = k * m + i := by
        rw [List.length_replicate, Nat.succ_mul]; omega
      rw [e]
      have := ih (k := k) (by simpa using hk)
      rw [List.getD_cons_succ]
      exact this

/-- **C23** (reproduction): blending any number of copies of one strictly increasing set of percentile values, with
weights that sum to one, returns that set. -/
theorem C23_identical_inputs (p v w : List ℚ) (m : ℕ) (hm : 0 < m) (hl : v.length = p.length)
    (hp : p.Pairwise (· < ·)) (hv : v.Pairwise (· < ·)) (hw : w.length = m) (hs : w.sum = 1) :
    blendPercentiles (List.replicate m v) p w = v := by
  have hvs : v.Pairwise (· ≤ ·) := hv.imp le_of_lt
  have hstrict : ∀ k, k + 1 < v.length → v.getD k 0 < v.getD (k + 1) 0 := by
    intro k hk
    rw [List.getD_eq_getElem _ _ hk, List.getD_eq_getElem _ _ (by omega)]
    exact List.pairwise_iff_getElem.1 hv k (k + 1) _ _ (by omega)
  have hpstrict : ∀ k, k + 1 < p.length → p.getD k 0 < p.getD (k + 1) 0 := by
    intro k hk
    rw [List.getD_eq_getElem _ _ hk, List.getD_eq_getElem _ _ (by omega)]
    exact List.pairwise_iff_getElem.1 hp k (k + 1) _ _ (by omega)
  have hrow : ∀ i, i < m → (List.replicate m v).getD i [] = v := by
    intro i hi
    rw [List.getD_eq_getElem _ _ (by simpa using hi)]; simp
  have hent : ∀ j k, j < m → k < p.length → combinedCdfEntry (List.replicate m v) p w j k = p.getD k 0 := by
    intro j k hj hk
    unfold combinedCdfEntry
    rw [List.length_replicate]
    have : (List.range m).map (fun i : ℕ => (if i = j then p.getD k 0 else
        npInterp ((List.replicate m v).getD i []) p (((List.replicate m v).getD j []).getD k 0)) * w.getD i 0)
        = (List.range m).map (fun i : ℕ => p.getD k 0 * w.getD i 0) := by
      apply List.map_congr_left
      intro i hi
      rw [hrow i (List.mem_range.1 hi), hrow j hj]
      by_cases h : i = j
      · rw [if_pos h]
      · rw [if_neg h, npInterp_at hvs (by omega) (fun h => hstrict k h)]
    rw [this]
    have hmul : ∀ (l : List ℕ) (c : ℚ) (f : ℕ → ℚ), (l.map (fun i => c * f i)).sum = c * (l.map f).sum := by
      intro l c f
      induction l with
      | nil => simp
      | cons a l ih => simp [ih, mul_add]
    rw [hmul, ← hw, map_getD_range, hs, mul_one]
  have hcdf : combinedCdf (List.replicate m v) p w = (List.replicate m p).flatten := by
    unfold combinedCdf
    rw [List.length_replicate]
    have h1 : ∀ j ∈ List.range m, (List.range p.length).map
        (fun k : ℕ => combinedCdfEntry (List.replicate m v) p w j k) = p := by
      intro j hj
      conv_rhs => rw [← map_getD_range p 0]
      apply List.map_congr_left
      intro k hk
      exact hent j k (List.mem_range.1 hj) (List.mem_range.1 hk)
    rw [List.flatMap_congr (g := fun _ => p) h1]
    clear hrow hent h1 hw hs hm
    induction m with
    | zero => rfl
    | succ m ih => rw [List.range_succ, List.flatMap_append, ih, List.replicate_succ', List.flatten_append]; simp
  have hprobs : npSort (combinedCdf (List.replicate m v) p w) = Spec.repeatEach m p := by
    rw [hcdf]
    exact eq_of_perm_sorted ((npSort_perm _).trans (repeatEach_perm m p).symm) (npSort_sorted _) (repeatEach_sorted hp)
  have hthres : npSort (List.replicate m v).flatten = Spec.repeatEach m v :=
    eq_of_perm_sorted ((npSort_perm _).trans (repeatEach_perm m v).symm) (npSort_sorted _) (repeatEach_sorted hv)
  unfold blendPercentiles
  simp only [hprobs, hthres]
  conv_rhs => rw [← map_getD_range v 0]
  apply List.ext_getElem
  · simp [hl]
  · intro k h1 h2
    have hk : k < p.length := by simpa using h1
    rw [List.getElem_map, List.getElem_map, List.getElem_range]
    have hidx : k * m + (m - 1) < (Spec.repeatEach m p).length := by
      rw [repeatEach_length]
      have : (k + 1) * m ≤ p.length * m := Nat.mul_le_mul_right m (by omega)
      rw [Nat.succ_mul] at this
      rw [Nat.mul_comm m]
      omega
    have hx : p[k] = (Spec.repeatEach m p).getD (k * m + (m - 1)) 0 := by
      rw [repeatEach_getD hk (by omega), List.getD_eq_getElem _ _ hk]
    rw [hx, npInterp_at (repeatEach_sorted hp) hidx, repeatEach_getD (by omega) (by omega)]
    intro hlt
    have e : k * m + (m - 1) + 1 = (k + 1) * m + 0 := by rw [Nat.succ_mul]; omega
    have hk1 : k + 1 < p.length := by
      rw [repeatEach_length, e, Nat.mul_comm m] at hlt
      by_contra hc
      have : p.length * m ≤ (k + 1) * m := Nat.mul_le_mul_right m (by omega)
      omega
    rw [e, repeatEach_getD hk (by omega), repeatEach_getD hk1 hm]
    exact hpstrict k hk1

/-- C23 (finding): with repeated percentile values (e.g. a dry lower part of a rainfall distribution, or a capped upper
part) blending two identical inputs changes them: the median drops from 5 to 10/3. -/
theorem C23_ties_refuted :
    blendPercentiles [[0, 5, 5], [0, 5, 5]] [10, 50, 90] [1/2, 1/2] = [0, 10/3, 5] := by decide +kernel

example : blendPercentiles [[0, 5, 7], [1, 5, 9]] [10, 50, 90] [1/2, 1/2] = [0, 5, 9] := by decide +kernel

/-- **C23** (order independence): listing the inputs (with their weights) in another order does not change the blend. -/
theorem C23_order_independent (rows : List (List ℚ)) (p w : List ℚ) (hlw : w.length = rows.length)
    (σ : List ℕ) (hσ : σ.Perm (List.range rows.length)) :
    blendPercentiles (σ.map (fun i => rows.getD i [])) p (σ.map (fun i => w.getD i 0)) = blendPercentiles rows p w := by
  have hlen : σ.length = rows.length := by simpa using hσ.length_eq
  have hnd : σ.Nodup := hσ.nodup_iff.2 List.nodup_range
  set rows' := σ.map (fun i => rows.getD i []) with hrows'
  set w' := σ.map (fun i => w.getD i 0) with hw'
  have hl' : rows'.length = rows.length := by simp [hrows', hlen]
  have hg : ∀ j, j < rows.length → rows'.getD j [] = rows.getD (σ.getD j 0) [] := by
    intro j hj
    rw [List.getD_eq_getElem _ _ (by omega), List.getD_eq_getElem σ _ (by omega)]
    simp [hrows']
  have hgw : ∀ j, j < rows.length → w'.getD j 0 = w.getD (σ.getD j 0) 0 := by
    intro j hj
    rw [List.getD_eq_getElem _ _ (by simp [hw', hlen, hj]), List.getD_eq_getElem σ _ (by omega)]
    simp [hw']
  have hσr : (List.range rows.length).map (fun j : ℕ => σ.getD j 0) = σ := by
    rw [← hlen]; exact map_getD_range σ 0
  have hent : ∀ j k, j < rows.length →
      combinedCdfEntry rows' p w' j k = combinedCdfEntry rows p w (σ.getD j 0) k := by
    intro j k hj
    unfold combinedCdfEntry
    rw [hl']
    have h1 : (List.range rows.length).map (fun i : ℕ =>
        (if i = j then p.getD k 0 else npInterp (rows'.getD i []) p ((rows'.getD j []).getD k 0)) * w'.getD i 0)
        = (List.range rows.length).map ((fun i : ℕ => (if i = σ.getD j 0 then p.getD k 0 else
          npInterp (rows.getD i []) p ((rows.getD (σ.getD j 0) []).getD k 0)) * w.getD i 0)
            ∘ (fun i : ℕ => σ.getD i 0)) := by
      apply List.map_congr_left
      intro i hi
      have hi' := List.mem_range.1 hi
      rw [hg i hi', hg j hj, hgw i hi']
      simp only [Function.comp]
      have hiff : (i = j) ↔ (σ.getD i 0 = σ.getD j 0) := by
        rw [List.getD_eq_getElem σ _ (by omega), List.getD_eq_getElem σ _ (by omega)]
        exact (List.Nodup.getElem_inj_iff hnd).symm
      by_cases h : i = j
      · rw [if_pos h, if_pos (hiff.1 h)]
      · rw [if_neg h, if_neg (fun h' => h (hiff.2 h'))]
    rw [h1, ← List.map_map, hσr]
    exact (hσ.map _).sum_eq
  have hc : (combinedCdf rows' p w').Perm (combinedCdf rows p w) := by
    unfold combinedCdf
    rw [hl']
    have h1 : (List.range rows.length).flatMap (fun j : ℕ =>
        (List.range p.length).map (fun k : ℕ => combinedCdfEntry rows' p w' j k))
        = σ.flatMap (fun j : ℕ => (List.range p.length).map (fun k : ℕ => combinedCdfEntry rows p w j k)) := by
      conv_rhs => rw [← hσr]
      rw [List.flatMap_map]
      apply List.flatMap_congr
      intro j hj
      apply List.map_congr_left
      intro k _
      exact hent j k (List.mem_range.1 hj)
    rw [h1]
    exact hσ.flatMap_right _
  have hf : rows'.flatten.Perm rows.flatten :=
    (map_getD_perm rows [] hσ).flatten
  unfold blendPercentiles
  simp only []
  have e1 : npSort (combinedCdf rows' p w') = npSort (combinedCdf rows p w) :=
    eq_of_perm_sorted ((npSort_perm _).trans (hc.trans (npSort_perm _).symm)) (npSort_sorted _) (npSort_sorted _)
  have e2 : npSort rows'.flatten = npSort rows.flatten :=
    eq_of_perm_sorted ((npSort_perm _).trans (hf.trans (npSort_perm _).symm)) (npSort_sorted _) (npSort_sorted _)
  rw [e1, e2]

/-- C23: `_normalise_weights` leaves weights at a point with sum one or zero total. -/
theorem C23_weights_normalised (w : List ℚ) (h : 0 < w.sum) : (normaliseAtPoint false w).sum = 1 := by
  unfold normaliseAtPoint
  simp only [Bool.false_eq_true, if_false, gt_iff_lt, h, if_true]
  have : ∀ (l : List ℚ) (s : ℚ), (l.map (fun x => x / s)).sum = l.sum / s := by
    intro l s
    induction l with
    | nil => simp
    | cons a l ih => simp [ih, add_div]
  rw [this]; exact div_self h.ne'

/-- C23: where the weights do not have a positive sum they become zero. -/
theorem C23_weights_zero (w : List ℚ) (h : w.sum ≤ 0) : ∀ x ∈ normaliseAtPoint false w, x = 0 := by
  intro x hx
  unfold normaliseAtPoint at hx
  rw [if_neg (by simp)] at hx
  obtain ⟨y, _, rfl⟩ := List.mem_map.1 hx
  exact if_neg (not_lt.2 h)

end Improver
