import Verif.Model.RainForests
import Verif.Lemmas.Sorting
import Verif.Lemmas.Interp
import Verif.Lemmas.Rescale
import Verif.Props.Interp
import Verif.Props.Checker

/-! Property theorems C186–C189 (rainforest_calibration.py). -/

namespace Improver

/-! ## C186: binning -/

theorem countP_eq_imp {α : Type} {p q : α → Bool} : ∀ {l : List α}, (∀ a ∈ l, p a = true → q a = true) →
    l.countP p = l.countP q → ∀ a ∈ l, q a = true → p a = true
  | [], _, _ => by simp
  | b :: l, h, hc => by
    have hle : l.countP p ≤ l.countP q := List.countP_mono_left fun a ha => h a (by simp [ha])
    rw [List.countP_cons, List.countP_cons] at hc
    have hb := h b (by simp)
    intro a ha hq
    rcases List.mem_cons.1 ha with rfl | ha
    · by_contra hp
      rw [if_neg hp, if_pos hq] at hc; omega
    · refine countP_eq_imp (fun a ha => h a (by simp [ha])) ?_ a ha hq
      by_cases hp : p b = true
      · rw [if_pos hp, if_pos (hb hp)] at hc; omega
      · rw [if_neg hp] at hc; split at hc <;> omega

theorem digitize_same {bins : List ℚ} {x y : ℚ} (h : digitize bins x = digitize bins y) (hx : x ∉ bins) (hy : y ∉ bins) :
    ∀ t ∈ bins, x ≤ t ↔ y ≤ t := by
  have key : ∀ {x y : ℚ}, x ≤ y → x ∉ bins → y ∉ bins → digitize bins x = digitize bins y → ∀ t ∈ bins, x ≤ t ↔ y ≤ t := by
    intro x y hxy hx hy h t ht
    have hxt : x ≠ t := fun e => hx (e ▸ ht)
    have := countP_eq_imp (l := bins) (p := fun b => decide (b ≤ x)) (q := fun b => decide (b ≤ y))
      (fun a _ ha => by simp only [decide_eq_true_eq] at ha ⊢; linarith) h t ht
    simp only [decide_eq_true_eq] at this
    constructor
    · intro hle
      by_contra hn
      exact hxt (le_antisymm hle (this (by linarith)))
    · intro hle; linarith
  rcases le_total x y with hle | hle
  · exact key hle hx hy h
  · intro t ht; exact (key hle hy hx h.symm t ht).symm

theorem mem_npUnique {l : List ℚ} {x : ℚ} : x ∈ npUnique l ↔ x ∈ l := by
  unfold npUnique; rw [(npSort_perm _).mem_iff, List.mem_dedup]

theorem RfTree.eval_same {x y : List ℚ} : ∀ {t : RfTree}, (∀ s ∈ t.splits, x.getD s.1 0 ≤ s.2 ↔ y.getD s.1 0 ≤ s.2) →
    t.eval x = t.eval y
  | .leaf _, _ => rfl
  | .node f c lo hi, h => by
    unfold RfTree.eval
    rw [RfTree.eval_same (t := lo) fun s hs => h s (by simp [RfTree.splits, hs]),
      RfTree.eval_same (t := hi) fun s hs => h s (by simp [RfTree.splits, hs])]
    simp only [h (f, c) (by simp [RfTree.splits])]

/-- A value of `x` is at a threshold of the models. -/
def Spec.onSplit (models : List Forest) (x : List ℚ) : Prop :=
  ∃ F ∈ models, ∃ T ∈ F.trees, ∃ s ∈ T.splits, x.getD s.1 0 = s.2

theorem predict_same {models : List Forest} {nf : ℕ} {x y : List ℚ}
    (hf : ∀ F ∈ models, ∀ T ∈ F.trees, ∀ s ∈ T.splits, s.1 < nf) (hx : ¬ Spec.onSplit models x)
    (hy : ¬ Spec.onSplit models y) (h : binRow (featureSplits models nf) x = binRow (featureSplits models nf) y) :
    ∀ F ∈ models, F.predict x = F.predict y := by
  intro F hF
  unfold Forest.predict
  congr 2
  apply List.map_congr_left
  intro T hT
  apply RfTree.eval_same
  intro s hs
  have hlt := hf F hF T hT s hs
  have hmem : ∀ v, v ∈ (featureSplits models nf).getD s.1 [] ↔
      ∃ F ∈ models, ∃ T ∈ F.trees, (s.1, v) ∈ T.splits := by
    intro v
    simp only [featureSplits, List.getD_eq_getElem?_getD, List.getElem?_map]
    rw [List.getElem?_range hlt]
    simp only [Option.map_some, Option.getD_some, mem_npUnique, List.mem_map, List.mem_filter, List.mem_flatMap,
      decide_eq_true_eq]
    constructor
    · rintro ⟨⟨a, b⟩, ⟨⟨T, ⟨F, hF, hT⟩, hs⟩, e1⟩, e2⟩
      simp only at e1 e2; subst e1; subst e2
      exact ⟨F, hF, T, hT, hs⟩
    · rintro ⟨F, hF, T, hT, hs⟩
      exact ⟨(s.1, v), ⟨⟨T, ⟨F, hF, hT⟩, hs⟩, rfl⟩, rfl⟩
  have hd : digitize ((featureSplits models nf).getD s.1 []) (x.getD s.1 0) =
      digitize ((featureSplits models nf).getD s.1 []) (y.getD s.1 0) := by
    have := congrArg (fun l => l[s.1]?) h
    have hlen : s.1 < (featureSplits models nf).length := by simpa [featureSplits] using hlt
    simp only [binRow, List.getElem?_mapIdx, List.getElem?_eq_getElem hlen, Option.map_some, Option.some.injEq] at this
    rw [List.getD_eq_getElem _ _ hlen]; exact this
  refine digitize_same hd ?_ ?_ s.2 ((hmem _).2 ⟨F, hF, T, hT, hs⟩)
  · intro hm
    obtain ⟨F, hF, T, hT, hs⟩ := (hmem _).1 hm
    exact hx ⟨F, hF, T, hT, _, hs, rfl⟩
  · intro hm
    obtain ⟨F, hF, T, hT, hs⟩ := (hmem _).1 hm
    exact hy ⟨F, hF, T, hT, _, hs, rfl⟩

theorem maxAcc_length : ∀ (m : ℕ) (l : List ℕ), (maxAcc m l).length = l.length
  | _, [] => rfl
  | m, a :: l => by simp [maxAcc, maxAcc_length]

theorem maxAcc_spec : ∀ (l : List ℕ) (m i : ℕ), i < l.length →
    ((maxAcc m l).getD i 0 = m ∨ ∃ j ≤ i, l.getD j 0 = (maxAcc m l).getD i 0) ∧ m ≤ (maxAcc m l).getD i 0 ∧
      ∀ j ≤ i, l.getD j 0 ≤ (maxAcc m l).getD i 0
  | [], _, _, h => by simp at h
  | a :: l, m, 0, _ => by
    simp only [maxAcc, List.getD_cons_zero, Nat.le_zero]
    refine ⟨?_, le_max_left _ _, ?_⟩
    · rcases le_total a m with h | h
      · exact .inl (max_eq_left h)
      · exact .inr ⟨0, rfl, by simp [max_eq_right h]⟩
    · rintro j rfl; simp
  | a :: l, m, i + 1, h => by
    obtain ⟨h1, h2, h3⟩ := maxAcc_spec l (max m a) i (by simpa using h)
    simp only [maxAcc, List.getD_cons_succ]
    refine ⟨?_, (le_max_left _ _).trans h2, ?_⟩
    · rcases h1 with h1 | ⟨j, hj, h1⟩
      · rcases le_total a m with hh | hh
        · rw [max_eq_left hh] at h1 ⊢; exact .inl h1
        · rw [max_eq_right hh] at h1 ⊢; exact .inr ⟨0, by omega, by simpa using h1.symm⟩
      · exact .inr ⟨j + 1, by omega, by simpa using h1⟩
    · intro j hj
      cases j with
      | zero => simpa using (le_max_right m a).trans h2
      | succ j => simpa using h3 j (by omega)

theorem predictRows_mem {sorted : List (List ℕ)} {i : ℕ} :
    i ∈ predictRows sorted ↔ i < sorted.length ∧ (i = 0 ∨ sorted.getD i [] ≠ sorted.getD (i - 1) []) := by
  simp [predictRows]

theorem fillInds_spec {sorted : List (List ℕ)} {n i : ℕ} (hn : sorted.length = n) (hi : i < n) :
    (fillInds n (predictRows sorted)).getD i 0 ∈ predictRows sorted ∧
      sorted.getD ((fillInds n (predictRows sorted)).getD i 0) [] = sorted.getD i [] := by
  unfold fillInds
  set R := predictRows sorted with hR
  set g : ℕ → ℕ := fun i => if i ∈ R then i else 0 with hg
  have hget : ∀ j, j < n → ((List.range n).map g).getD j 0 = g j := by
    intro j hj
    rw [List.getD_eq_getElem _ _ (by simpa using hj)]; simp
  obtain ⟨h1, -, h3⟩ := maxAcc_spec ((List.range n).map g) 0 i (by simpa using hi)
  set v := (maxAcc 0 ((List.range n).map g)).getD i 0 with hv
  have h0 : 0 ∈ R := predictRows_mem.2 ⟨by omega, .inl rfl⟩
  have hvR : v ∈ R ∧ v ≤ i := by
    rcases h1 with h1 | ⟨j, hj, h1⟩
    · rw [h1]; exact ⟨h0, Nat.zero_le _⟩
    · rw [hget j (by omega)] at h1
      rw [← h1]
      simp only [hg]
      split
      · next h => exact ⟨h, hj⟩
      · exact ⟨h0, Nat.zero_le _⟩
  refine ⟨hvR.1, ?_⟩
  have hno : ∀ d, v + d ≤ i → sorted.getD v [] = sorted.getD (v + d) [] := by
    intro d
    induction d with
    | zero => intro _; rfl
    | succ d ih =>
      intro hd
      rw [ih (by omega)]
      by_contra hne
      have hm : v + (d + 1) ∈ R := predictRows_mem.2 ⟨by omega, .inr fun e => hne (by simpa using e.symm)⟩
      have := h3 (v + (d + 1)) hd
      rw [hget _ (by omega)] at this
      simp only [hg, if_pos hm] at this
      omega
  have := hno (i - v) (by omega)
  rwa [show v + (i - v) = i by omega] at this

theorem binnedLoop_eq {n : ℕ} {data : List (List ℚ)} {rows fill rev : List ℕ} {models : List Forest}
    {out : Forest → List ℚ} (hf : fill.length = n) (hr : rev.length = n)
    (h : ∀ F ∈ models, ∀ full : List ℚ, full.length = n →
      rev.map (fun i => (fill.map fun i => (setRows full rows (data.map F.predict)).getD i 0).getD i 0) = out F) :
    ∀ full : List ℚ, full.length = n → binnedLoop data rows fill rev full models = models.map out := by
  induction models with
  | nil => intro _ _; rfl
  | cons F rest ih =>
    intro full hfull
    unfold binnedLoop
    dsimp only
    rw [h F (by simp) full hfull, List.map_cons]
    congr 1
    apply ih (fun G hG => h G (by simp [hG]))
    rw [← h F (by simp) full hfull]; simpa using hr

theorem lexsortRows_perm (rows : List (List ℕ)) : (lexsortRows rows).Perm (List.range rows.length) :=
  List.perm_insertionSort _ _

/-- C186: with `bin_data` the models are evaluated for one row of each group of rows with the same bins and the answer is
used for the whole group; wherever no feature value is exactly at a threshold of the models, the result is what evaluating
every row gives, for every model, every number of rows and whatever the arrays held before. -/
theorem C186_binning_keeps_predictions {models : List Forest} {nf : ℕ} {input : List (List ℚ)} {junk : List ℚ}
    (hf : ∀ F ∈ models, ∀ T ∈ F.trees, ∀ s ∈ T.splits, s.1 < nf) (hne : input ≠ []) (hj : junk.length = input.length)
    (hs : ∀ x ∈ input, ¬ Spec.onSplit models x) :
    evaluateBinned models (featureSplits models nf) junk input =
      .ok (models.map fun F => input.map fun x => npClip (F.link (F.trees.map (RfTree.eval x))) 0 1) := by
  unfold evaluateBinned
  rw [if_neg hne]
  dsimp only
  congr 1
  set n := input.length with hn
  set binned := input.map (binRow (featureSplits models nf)) with hb
  have hbl : binned.length = n := by simp [hb, hn]
  set σ := lexsortRows binned with hσ
  have hp : σ.Perm (List.range n) := hbl ▸ lexsortRows_perm binned
  have hσl : σ.length = n := by simpa using hp.length_eq
  have hσlt : ∀ i, i < n → σ.getD i 0 < n := by
    intro i hi
    rw [List.getD_eq_getElem _ _ (by omega)]
    exact List.mem_range.1 (hp.mem_iff.1 (List.getElem_mem _))
  set sorted := σ.map fun i => binned.getD i [] with hsd
  have hsl : sorted.length = n := by simp [hsd, hσl]
  have hsg : ∀ i, i < n → sorted.getD i [] = binRow (featureSplits models nf) (input.getD (σ.getD i 0) []) := by
    intro i hi
    have := hσlt i hi
    rw [List.getD_eq_getElem (σ.map _) _ (by simpa [hσl] using hi)]
    rw [List.getElem_map, ← List.getD_eq_getElem _ 0, List.getD_eq_getElem binned _ (by omega)]
    simp only [hb, List.getElem_map]
    rw [List.getD_eq_getElem input [] (hn ▸ this)]
  refine binnedLoop_eq (n := n) ?_ ?_ ?_ junk hj
  · simp [fillInds, maxAcc_length]
  · rw [(argsort_perm σ).length_eq]; simpa using hσl
  intro F hF full hfull
  have hal : (argsort σ).length = n := by rw [(argsort_perm σ).length_eq]; simpa using hσl
  apply List.ext_getElem
  · simpa using hal
  intro k hk1 hk2
  have hk : k < n := by simpa using hk2
  have hak : (argsort σ).getD k 0 < n := by
    rw [List.getD_eq_getElem _ _ (by omega)]
    have := List.mem_range.1 ((argsort_perm σ).mem_iff.1 (List.getElem_mem (l := argsort σ) (n := k) (by omega)))
    omega
  rw [List.getElem_map, ← List.getD_eq_getElem (argsort σ) 0]
  rw [List.getElem_map]
  set i := (argsort σ).getD k 0 with hi
  have hfl : (fillInds n (predictRows sorted)).length = n := by simp [fillInds, maxAcc_length]
  rw [List.getD_eq_getElem (List.map _ _) _ (by simpa [hfl] using hak), List.getElem_map,
    ← List.getD_eq_getElem (fillInds n (predictRows sorted)) 0]
  obtain ⟨hv1, hv2⟩ := fillInds_spec hsl hak
  set v := (fillInds n (predictRows sorted)).getD i 0 with hv
  have hvn : v < n := by have := (predictRows_mem.1 hv1).1; omega
  have hset : (setRows full (predictRows sorted)
      (((predictRows sorted).map fun i => input.getD (σ.getD i 0) []).map F.predict)).getD v 0 =
      F.predict (input.getD (σ.getD v 0) []) := by
    unfold setRows
    rw [List.getD_eq_getElem _ _ (by simpa [hfull] using hvn), List.getElem_map, List.getElem_range, if_pos hv1]
    have hx := List.idxOf_lt_length_iff.2 hv1
    rw [List.getD_eq_getElem _ _ (by simpa using hx)]
    simp only [List.getElem_map, List.getElem_idxOf]
  rw [hset]
  have hσk : σ.getD i 0 = k := argsort_inverse hp hk
  rw [hsg v hvn, hsg i hak, hσk] at hv2
  have hgk : input.getD k [] = input[k]'(by omega) := List.getD_eq_getElem _ _ (by omega)
  have hvi : σ.getD v 0 < input.length := by have := hσlt v hvn; omega
  rw [predict_same hf (hs _ ?_) (hs _ ?_) hv2 F hF, hgk]
  · rfl
  · rw [List.getD_eq_getElem _ _ hvi]; exact List.getElem_mem _
  · rw [hgk]; exact List.getElem_mem _

/-- Without `bin_data`. -/
theorem C186_plain (models : List Forest) (input : List (List ℚ)) {m k : ℕ} (hm : m < models.length) (hk : k < input.length) :
    (evaluatePlain models input)[m]?.bind (·[k]?) =
      some (npClip ((models[m]).link ((models[m]).trees.map (RfTree.eval input[k]))) 0 1) := by
  simp [evaluatePlain, hm, hk, Forest.predict]

/-- Two features, splits at 1 and 3. -/
def exForest : Forest := ⟨[.node 0 1 (.leaf 0) (.node 1 3 (.leaf (1 / 2)) (.leaf 1))], List.sum⟩

example : (∀ F ∈ [exForest], ∀ T ∈ F.trees, ∀ s ∈ T.splits, s.1 < 2) ∧
    ∀ x ∈ [[2, 4], [0, 4], [2, 2], [5 / 2, 5]], ¬ Spec.onSplit [exForest] x := by
  refine ⟨by decide +kernel, ?_⟩
  intro x hx
  rintro ⟨F, hF, T, hT, s, hs, h⟩
  revert h
  revert x F T s
  simp only [List.mem_singleton]
  intro x hx F rfl T hT s hs
  simp only [exForest, List.mem_singleton] at hT; subst hT
  simp only [RfTree.splits, List.append_nil, List.nil_append, List.mem_cons, List.not_mem_nil, or_false] at hs
  rcases hs with rfl | rfl <;>
    (simp only [List.mem_cons, List.not_mem_nil, or_false] at hx; rcases hx with rfl | rfl | rfl | rfl <;> decide +kernel)

example : (evaluateBinned [exForest] (featureSplits [exForest] 2) [9, 9, 9, 9] [[2, 4], [0, 4], [2, 2], [5 / 2, 5]]).toOption =
    some [[1, 0, 1 / 2, 1]] := by decide +kernel

/-- Finding: `np.digitize` puts a value equal to a threshold in the bin above it and LightGBM sends it below, so with
`bin_data` such a row gets the probability of another row: here the rows 1 and 2 with a single split at 1, of probabilities
1/4 and 3/4, both get that of the first in order. -/
theorem C186_equal_refuted :
    let F : Forest := ⟨[.node 0 1 (.leaf (1 / 4)) (.leaf (3 / 4))], List.sum⟩
    (evaluateBinned [F] (featureSplits [F] 1) [0, 0] [[1], [2]]).toOption = some [[1 / 4, 1 / 4]] ∧
    (evaluateBinned [F] (featureSplits [F] 1) [0, 0] [[2], [1]]).toOption = some [[3 / 4, 3 / 4]] ∧
    evaluatePlain [F] [[1], [2]] = [[1 / 4, 3 / 4]] := by decide +kernel

/-- Finding: no rows are an error with `bin_data` only. -/
theorem C186_empty (models : List Forest) (splits : List (List ℚ)) (junk : List ℚ) :
    evaluateBinned models splits junk [] = .error .indexError ∧ evaluatePlain models [] = models.map fun _ => [] := by
  simp [evaluateBinned, evaluatePlain]

/-! ## C187: probabilities that decrease -/

theorem tailMax_cons (a b : ℚ) (l : List ℚ) :
    tailMax (a :: b :: l) = max a ((tailMax (b :: l)).getD 0 0) :: tailMax (b :: l) := by
  have hne : tailMax (b :: l) ≠ [] := by
    cases l with
    | nil => simp [tailMax]
    | cons c l => simp only [tailMax]; split <;> simp
  conv_lhs => unfold tailMax
  cases h : tailMax (b :: l) with
  | nil => exact absurd h hne
  | cons m r => simp

theorem tailMax_length : ∀ l : List ℚ, (tailMax l).length = l.length
  | [] => rfl
  | [_] => rfl
  | a :: b :: l => by rw [tailMax_cons, List.length_cons, tailMax_length (b :: l)]; simp

theorem tailMax_spec : ∀ (l : List ℚ) (k : ℕ), k < l.length →
    (∃ j, k ≤ j ∧ j < l.length ∧ (tailMax l).getD k 0 = l.getD j 0) ∧
      ∀ j, k ≤ j → j < l.length → l.getD j 0 ≤ (tailMax l).getD k 0
  | [], _, h => by simp at h
  | [a], k, h => by
    have : k = 0 := by simpa using h
    subst this
    refine ⟨⟨0, le_rfl, by simp, by simp [tailMax]⟩, ?_⟩
    intro j _ hj
    have : j = 0 := by simpa using hj
    subst this; simp [tailMax]
  | a :: b :: l, 0, _ => by
    obtain ⟨⟨j, _, hj, h1⟩, h2⟩ := tailMax_spec (b :: l) 0 (by simp)
    rw [tailMax_cons, List.getD_cons_zero]
    constructor
    · rcases le_total a ((tailMax (b :: l)).getD 0 0) with h | h
      · exact ⟨j + 1, Nat.zero_le _, by simpa using hj, by rw [max_eq_right h, h1, List.getD_cons_succ]⟩
      · exact ⟨0, le_rfl, by simp, by rw [max_eq_left h, List.getD_cons_zero]⟩
    · intro j _ hj
      cases j with
      | zero => simp
      | succ j => rw [List.getD_cons_succ]; exact (h2 j (Nat.zero_le _) (by simpa using hj)).trans (le_max_right _ _)
  | a :: b :: l, k + 1, h => by
    obtain ⟨⟨j, hk, hj, h1⟩, h2⟩ := tailMax_spec (b :: l) k (by simpa using h)
    rw [tailMax_cons, List.getD_cons_succ]
    constructor
    · exact ⟨j + 1, by omega, by simpa using hj, by rw [h1, List.getD_cons_succ]⟩
    · intro j hk hj
      cases j with
      | zero => omega
      | succ j => rw [List.getD_cons_succ]; exact h2 j (by omega) (by simpa using hj)

theorem minAccQ_length : ∀ (m : ℚ) (l : List ℚ), (minAccQ m l).length = l.length
  | _, [] => rfl
  | m, a :: l => by simp [minAccQ, minAccQ_length]

theorem minAccQ_spec : ∀ (l : List ℚ) (m : ℚ) (k : ℕ), k < l.length →
    ((minAccQ m l).getD k 0 = m ∨ ∃ j ≤ k, (minAccQ m l).getD k 0 = l.getD j 0) ∧ (minAccQ m l).getD k 0 ≤ m ∧
      ∀ j ≤ k, (minAccQ m l).getD k 0 ≤ l.getD j 0
  | [], _, _, h => by simp at h
  | a :: l, m, 0, _ => by
    simp only [minAccQ, List.getD_cons_zero, Nat.le_zero]
    refine ⟨?_, min_le_left _ _, ?_⟩
    · rcases le_total m a with h | h
      · exact .inl (min_eq_left h)
      · exact .inr ⟨0, rfl, by simp [min_eq_right h]⟩
    · rintro j rfl; simp
  | a :: l, m, k + 1, h => by
    obtain ⟨h1, h2, h3⟩ := minAccQ_spec l (min m a) k (by simpa using h)
    simp only [minAccQ, List.getD_cons_succ]
    refine ⟨?_, h2.trans (min_le_left _ _), ?_⟩
    · rcases h1 with h1 | ⟨j, hj, h1⟩
      · rcases le_total m a with hh | hh
        · rw [min_eq_left hh] at h1 ⊢; exact .inl h1
        · rw [min_eq_right hh] at h1 ⊢; exact .inr ⟨0, by omega, by simpa using h1⟩
      · exact .inr ⟨j + 1, by omega, by simpa using h1⟩
    · intro j hj
      cases j with
      | zero => simpa using h2.trans (min_le_right m a)
      | succ j => simpa using h3 j (by omega)

theorem runMin_length (l : List ℚ) : (runMin l).length = l.length := by
  cases l <;> simp [runMin, minAccQ_length]

theorem runMin_spec (l : List ℚ) (k : ℕ) (hk : k < l.length) :
    (∃ j ≤ k, (runMin l).getD k 0 = l.getD j 0) ∧ ∀ j ≤ k, (runMin l).getD k 0 ≤ l.getD j 0 := by
  cases l with
  | nil => simp at hk
  | cons a l =>
    cases k with
    | zero => exact ⟨⟨0, le_rfl, by simp [runMin]⟩, by
        intro j hj; obtain rfl : j = 0 := (by omega); simp [runMin]⟩
    | succ k =>
      obtain ⟨h1, h2, h3⟩ := minAccQ_spec l a k (by simpa using hk)
      simp only [runMin, List.getD_cons_succ]
      constructor
      · rcases h1 with h1 | ⟨j, hj, h1⟩
        · exact ⟨0, by omega, by simpa using h1⟩
        · exact ⟨j + 1, by omega, by simpa using h1⟩
      · intro j hj
        cases j with
        | zero => simpa using h2
        | succ j => simpa using h3 j (by omega)

theorem makeDecreasing_length (p : List ℚ) : (makeDecreasing p).length = p.length := by
  simp [makeDecreasing, tailMax_length, runMin_length]

theorem makeDecreasing_getD {p : List ℚ} {k : ℕ} (hk : k < p.length) :
    (makeDecreasing p).getD k 0 = ((tailMax p).getD k 0 + (runMin p).getD k 0) / 2 := by
  have h1 : k < (tailMax p).length := by rw [tailMax_length]; exact hk
  have h2 : k < (runMin p).length := by rw [runMin_length]; exact hk
  rw [List.getD_eq_getElem _ _ (by rw [makeDecreasing_length]; exact hk), List.getD_eq_getElem _ _ h1,
    List.getD_eq_getElem _ _ h2]
  simp only [makeDecreasing, List.getElem_zipWith]; ring

/-- C187: each probability becomes the mean of the largest at this and later thresholds and the smallest at this and earlier
ones. -/
theorem C187_value (p : List ℚ) : (makeDecreasing p).length = p.length ∧ ∀ k < p.length, ∃ M m,
    IsGreatest {v | ∃ j, k ≤ j ∧ p[j]? = some v} M ∧ IsLeast {v | ∃ j ≤ k, p[j]? = some v} m ∧
      (makeDecreasing p)[k]? = some ((M + m) / 2) := by
  refine ⟨makeDecreasing_length p, fun k hk => ⟨(tailMax p).getD k 0, (runMin p).getD k 0, ?_, ?_, ?_⟩⟩
  · obtain ⟨⟨j, h1, h2, h3⟩, h4⟩ := tailMax_spec p k hk
    refine ⟨⟨j, h1, ?_⟩, ?_⟩
    · rw [h3, List.getD_eq_getElem _ _ h2, List.getElem?_eq_getElem h2]
    · rintro v ⟨j, h1, h2⟩
      obtain ⟨hj, rfl⟩ := List.getElem?_eq_some_iff.1 h2
      have := h4 j h1 hj
      rwa [List.getD_eq_getElem _ _ hj] at this
  · obtain ⟨⟨j, h1, h3⟩, h4⟩ := runMin_spec p k hk
    refine ⟨⟨j, h1, ?_⟩, ?_⟩
    · rw [h3, List.getD_eq_getElem _ _ (by omega), List.getElem?_eq_getElem (by omega)]
    · rintro v ⟨j, h1, h2⟩
      obtain ⟨hj, rfl⟩ := List.getElem?_eq_some_iff.1 h2
      have := h4 j h1
      rwa [List.getD_eq_getElem _ _ hj] at this
  · rw [← makeDecreasing_getD hk, List.getD_eq_getElem _ _ (by rw [makeDecreasing_length]; exact hk),
      List.getElem?_eq_getElem]

theorem tailMax_anti {p : List ℚ} {i j : ℕ} (hij : i ≤ j) (hj : j < p.length) :
    (tailMax p).getD j 0 ≤ (tailMax p).getD i 0 := by
  obtain ⟨⟨a, h1, h2, h3⟩, _⟩ := tailMax_spec p j hj
  rw [h3]; exact (tailMax_spec p i (by omega)).2 a (by omega) h2

theorem runMin_anti {p : List ℚ} {i j : ℕ} (hij : i ≤ j) (hj : j < p.length) :
    (runMin p).getD j 0 ≤ (runMin p).getD i 0 := by
  obtain ⟨⟨a, h1, h3⟩, _⟩ := runMin_spec p i (by omega)
  rw [h3]; exact (runMin_spec p j hj).2 a (by omega)

/-- C187: the probabilities do not increase along the thresholds. -/
theorem C187_decreasing (p : List ℚ) : (makeDecreasing p).Pairwise (· ≥ ·) := by
  rw [List.pairwise_iff_getElem]
  intro i j hi hj hij
  have hjp : j < p.length := by rwa [makeDecreasing_length] at hj
  have h1 := tailMax_anti hij.le hjp
  have h2 := runMin_anti hij.le hjp
  have e1 := makeDecreasing_getD hjp
  have e2 := makeDecreasing_getD (p := p) (k := i) (by omega)
  rw [List.getD_eq_getElem _ _ hj] at e1
  rw [List.getD_eq_getElem _ _ hi] at e2
  rw [e1, e2, ge_iff_le]; linarith

/-- C187: they stay within the range of the probabilities given. -/
theorem C187_range {p : List ℚ} {lo hi : ℚ} (h : ∀ v ∈ p, lo ≤ v ∧ v ≤ hi) : ∀ v ∈ makeDecreasing p, lo ≤ v ∧ v ≤ hi := by
  intro v hv
  obtain ⟨k, hk, rfl⟩ := List.getElem_of_mem hv
  have hkp : k < p.length := by rwa [makeDecreasing_length] at hk
  have e := makeDecreasing_getD hkp
  rw [List.getD_eq_getElem _ _ hk] at e
  obtain ⟨⟨a, _, ha, h1⟩, _⟩ := tailMax_spec p k hkp
  obtain ⟨⟨b, hb, h2⟩, _⟩ := runMin_spec p k hkp
  rw [e, h1, h2, List.getD_eq_getElem _ _ ha, List.getD_eq_getElem _ _ (by omega)]
  have h3 := h _ (List.getElem_mem ha)
  have h4 := h _ (List.getElem_mem (show b < p.length by omega))
  constructor <;> linarith

/-- C187: probabilities that do not increase are left as they are. -/
theorem C187_identity {p : List ℚ} (h : p.Pairwise (· ≥ ·)) : makeDecreasing p = p := by
  apply List.ext_getElem (makeDecreasing_length p)
  intro k hk hkp
  have e := makeDecreasing_getD hkp
  rw [List.getD_eq_getElem _ _ hk] at e
  have hg : ∀ i j, i ≤ j → j < p.length → p.getD j 0 ≤ p.getD i 0 := by
    intro i j hij hj
    rcases hij.eq_or_lt with rfl | hlt
    · exact le_rfl
    · rw [List.getD_eq_getElem _ _ hj, List.getD_eq_getElem _ _ (by omega)]
      exact List.pairwise_iff_getElem.1 h i j _ _ hlt
  obtain ⟨⟨a, h1, ha, h2⟩, h3⟩ := tailMax_spec p k hkp
  obtain ⟨⟨b, hb, h4⟩, h5⟩ := runMin_spec p k hkp
  have e1 : (tailMax p).getD k 0 = p.getD k 0 := le_antisymm (h2 ▸ hg k a h1 ha) (h3 k le_rfl hkp)
  have e2 : (runMin p).getD k 0 = p.getD k 0 := le_antisymm (h5 k le_rfl) (h4 ▸ hg b k hb hkp)
  rw [e, e1, e2, List.getD_eq_getElem _ _ hkp]; ring

/-- C187: doing it again changes nothing. -/
theorem C187_idempotent (p : List ℚ) : makeDecreasing (makeDecreasing p) = makeDecreasing p :=
  C187_identity (C187_decreasing p)

example : makeDecreasing [9 / 10, 1 / 2, 7 / 10, 1 / 5, 3 / 10] = [9 / 10, 3 / 5, 3 / 5, 1 / 4, 1 / 4] := by decide +kernel

/-! ## C188: probabilities at the output thresholds -/

theorem getD_map_neg (l : List ℚ) (i : ℕ) : (l.map fun v => -v).getD i 0 = -l.getD i 0 := by
  simp only [List.getD_eq_getElem?_getD, List.getElem?_map]
  cases l[i]? <;> simp

theorem fastInterpX_neg (xp fp : List ℚ) (x : ℚ) : fastInterpX xp (fp.map fun v => -v) x = -fastInterpX xp fp x := by
  unfold fastInterpX
  simp only [getD_map_neg, List.length_map]
  split_ifs <;> ring

theorem pairwise_neg {fp : List ℚ} (h : fp.Pairwise (· ≥ ·)) : (fp.map fun v => -v).Pairwise (· ≤ ·) := by
  rw [List.pairwise_map]; exact h.imp fun h => by simpa using h

theorem fastInterpX_anti {xp fp : List ℚ} (hl : fp.length = xp.length) (hn : 0 < xp.length) (hf : fp.Pairwise (· ≥ ·))
    {x y : ℚ} (hxy : x ≤ y) : fastInterpX xp fp y ≤ fastInterpX xp fp x := by
  have := fastInterpX_mono (xp := xp) (fp := fp.map fun v => -v) (by simpa using hl) hn (pairwise_neg hf) hxy
  rw [fastInterpX_neg, fastInterpX_neg] at this; linarith

theorem fastInterpX_within {xp fp : List ℚ} (hl : fp.length = xp.length) (hn : 0 < xp.length) (hf : fp.Pairwise (· ≥ ·))
    {lo hi : ℚ} (hb : ∀ v ∈ fp, lo ≤ v ∧ v ≤ hi) (x : ℚ) : lo ≤ fastInterpX xp fp x ∧ fastInterpX xp fp x ≤ hi := by
  have := fastInterpX_range (xp := xp) (fp := fp.map fun v => -v) (by simpa using hl) hn (pairwise_neg hf) x
  rw [fastInterpX_neg, getD_map_neg, getD_map_neg, List.length_map] at this
  have h1 := hb (fp.getD 0 0) (by rw [List.getD_eq_getElem _ _ (by omega)]; exact List.getElem_mem _)
  have h2 := hb (fp.getD (fp.length - 1) 0) (by rw [List.getD_eq_getElem _ _ (by omega)]; exact List.getElem_mem _)
  constructor <;> linarith [this.1, this.2]

/-- `v` is the value at `t` of the piecewise linear function through the points `(xs[i], ys[i])`, constant outside them. -/
def Spec.onPolyline (xs ys : List ℚ) (t v : ℚ) : Prop :=
  (t ≤ xs.getD 0 0 → v = ys.getD 0 0) ∧ (xs.getD (xs.length - 1) 0 ≤ t → v = ys.getD (xs.length - 1) 0) ∧
  ∀ i, i + 1 < xs.length → xs.getD i 0 ≤ t → t ≤ xs.getD (i + 1) 0 →
    v = ys.getD i 0 + (t - xs.getD i 0) / (xs.getD (i + 1) 0 - xs.getD i 0) * (ys.getD (i + 1) 0 - ys.getD i 0)

theorem fastInterpX_polyline {xp fp : List ℚ} (hl : fp.length = xp.length) (hn : 0 < xp.length) (hs : Spec.Separated xp)
    (t : ℚ) : Spec.onPolyline xp fp t (fastInterpX xp fp t) := by
  have hp := interpEps_pos
  have hat : ∀ k, k < xp.length → fastInterpX xp fp (xp.getD k 0) = fp.getD k 0 := by
    intro k hk
    refine fastInterpX_at hk (fun i hi => ?_) (fun h0 => ?_)
    · have := hs.lt hi hk; linarith
    · have := hs.lt (show k - 1 < k by omega) hk; linarith
  refine ⟨fun h => ?_, fun h => ?_, fun i hi h1 h2 => ?_⟩
  · exact fastInterpX_zero (ss_unique (Nat.zero_le _) (by simp) fun _ => h)
  · rcases h.eq_or_lt with h | h
    · rw [← h]; exact hat _ (by omega)
    · rw [fastInterpX_last (x := t) (xp := xp) (fp := fp), hl]
      all_goals have hss : searchsortedLeft xp t = xp.length := ss_unique le_rfl (fun i hi => by
          rcases Nat.lt_or_ge i (xp.length - 1) with hlt | hge
          · have := hs.lt hlt (by omega); linarith
          · obtain rfl : i = xp.length - 1 := by omega
            exact h) (fun h => absurd h (lt_irrefl _))
      · omega
      · exact hss
  · rcases h1.eq_or_lt with h1 | h1
    · rw [← h1, hat _ (by omega)]; simp
    · have hss : searchsortedLeft xp t = i + 1 := ss_unique hi.le (fun j hj => by
          rcases Nat.lt_or_ge j i with hlt | hge
          · have := hs.lt hlt (by omega); linarith
          · obtain rfl : j = i := by omega
            exact h1) (fun _ => h2)
      unfold fastInterpX
      have hg := hs.lt (show i < i + 1 by omega) hi
      simp only [hss]
      rw [if_neg (by omega), if_neg (by omega), if_pos (by simp only [Nat.add_sub_cancel]; linarith)]
      simp only [Nat.add_sub_cancel]

/-- The thresholds are those of the models (to the tolerance of the code). -/
def Spec.sameThresholds (model out : List ℚ) : Prop :=
  model.length = out.length ∧ ∀ p ∈ model.zip out, npIsclose p.1 p.2 = true

theorem same_iff (model out : List ℚ) :
    (model.length = out.length ∧ (List.zipWith (fun a b => npIsclose a b) model out).all id = true) ↔
      Spec.sameThresholds model out := by
  unfold Spec.sameThresholds
  rw [← List.map_uncurry_zip_eq_zipWith, List.all_map]
  simp only [List.all_eq_true, Function.comp, id, Function.uncurry]

theorem ensemble_cases {lower : ℚ} {model probs out r : List ℚ} (h : ensembleDistribution lower model probs out = .ok r) :
    out ≠ [] ∧ ∃ p, (Spec.sameThresholds model out ∧ p = probs ∨ ¬ Spec.sameThresholds model out ∧
      p = makeDecreasing (out.map (fastInterpX (lower :: model) (1 :: probs)))) ∧
      r = if npIsclose (out.getD 0 0) lower then 1 :: p.tail else p := by
  cases out with
  | nil => exact nomatch h
  | cons o rest =>
    refine ⟨by simp, ?_⟩
    unfold ensembleDistribution at h
    dsimp only at h
    injection h with h
    by_cases hs : Spec.sameThresholds model (o :: rest)
    · exact ⟨_, .inl ⟨hs, rfl⟩, by rw [← h, if_pos ((same_iff _ _).2 hs)]; rfl⟩
    · exact ⟨_, .inr ⟨hs, rfl⟩, by rw [← h, if_neg fun e => hs ((same_iff _ _).1 e)]; rfl⟩

theorem ensemble_props {lower : ℚ} {model p out r : List ℚ} (hp : p.length = model.length) (h01 : ∀ v ∈ p, 0 ≤ v ∧ v ≤ 1)
    (h : ensembleDistribution lower model (makeDecreasing p) out = .ok r) :
    r.length = out.length ∧ (∀ v ∈ r, 0 ≤ v ∧ v ≤ 1) ∧ r.Pairwise (· ≥ ·) := by
  obtain ⟨hne, q, hq, hr⟩ := ensemble_cases h
  have hd := C187_decreasing p
  have hb := C187_range h01
  have hlen : q.length = out.length := by
    rcases hq with ⟨hs, rfl⟩ | ⟨_, rfl⟩
    · rw [makeDecreasing_length, hp]; exact hs.1
    · rw [makeDecreasing_length, List.length_map]
  have hqb : ∀ v ∈ q, 0 ≤ v ∧ v ≤ 1 := by
    rcases hq with ⟨_, rfl⟩ | ⟨_, rfl⟩
    · exact hb
    · apply C187_range
      intro v hv
      obtain ⟨t, _, rfl⟩ := List.mem_map.1 hv
      apply fastInterpX_within (by simp [makeDecreasing_length, hp]) (by simp)
      · exact List.pairwise_cons.2 ⟨fun v hv => (hb v hv).2, hd⟩
      · intro v hv
        rcases List.mem_cons.1 hv with rfl | hv
        · norm_num
        · exact hb v hv
  have hqd : q.Pairwise (· ≥ ·) := by
    rcases hq with ⟨_, rfl⟩ | ⟨_, rfl⟩
    · exact hd
    · exact C187_decreasing _
  have hout : 0 < out.length := List.length_pos_iff.2 hne
  cases q with
  | nil => simp at hlen; omega
  | cons a q =>
    rw [hr]
    split
    · refine ⟨by simpa using hlen, ?_, ?_⟩
      · intro v hv
        rcases List.mem_cons.1 hv with rfl | hv
        · norm_num
        · exact hqb v (List.mem_cons_of_mem _ hv)
      · exact List.pairwise_cons.2 ⟨fun v hv => (hqb v (List.mem_cons_of_mem _ hv)).2, (List.pairwise_cons.1 hqd).2⟩
    · exact ⟨hlen, hqb, hqd⟩

theorem calibrated_ok {lower : ℚ} {model out r : List ℚ} {ps : List (List ℚ)}
    (h : calibratedProbabilities lower model out ps = .ok r) : ∃ dists,
      List.Forall₂ (fun p d => ensembleDistribution lower model (makeDecreasing p) out = .ok d) ps dists ∧
      r = (List.range out.length).map fun k => meanOf (dists.map fun d => d.getD k 0) := by
  unfold calibratedProbabilities at h
  simp only [bind, Except.bind] at h
  split at h
  · exact nomatch h
  next dists he => exact ⟨dists, mapM_ok_forall₂ he, by injection h with h; exact h.symm⟩

theorem calibrated_of {lower : ℚ} {model out : List ℚ} {ps dists : List (List ℚ)}
    (h : List.Forall₂ (fun p d => ensembleDistribution lower model (makeDecreasing p) out = .ok d) ps dists) :
    calibratedProbabilities lower model out ps =
      .ok ((List.range out.length).map fun k => meanOf (dists.map fun d => d.getD k 0)) := by
  unfold calibratedProbabilities
  rw [mapM_of_forall₂ h]; rfl

theorem meanOf_mono {α : Type} {l : List α} {f g : α → ℚ} (h : ∀ a ∈ l, f a ≤ g a) : meanOf (l.map f) ≤ meanOf (l.map g) := by
  unfold meanOf
  rw [List.length_map, List.length_map]
  exact div_le_div_of_nonneg_right (List.sum_le_sum h) (by positivity)

theorem meanOf_const {α : Type} {l : List α} (hl : l ≠ []) (c : ℚ) : meanOf (l.map fun _ => c) = c := by
  have : (l.length : ℚ) ≠ 0 := by have := List.length_pos_iff.2 hl; positivity
  unfold meanOf
  rw [List.length_map, List.map_const', List.sum_replicate, nsmul_eq_mul]
  field_simp

theorem forall₂_right {α β : Type} {R : α → β → Prop} {l : List α} {m : List β} (h : List.Forall₂ R l m) :
    ∀ b ∈ m, ∃ a ∈ l, R a b := by
  induction h with
  | nil => simp
  | cons h _ ih =>
    intro b hb
    rcases List.mem_cons.1 hb with rfl | hb
    · exact ⟨_, by simp, h⟩
    · obtain ⟨a, ha, hr⟩ := ih b hb; exact ⟨a, by simp [ha], hr⟩

/-- C188: for all predictions of the models (between 0 and 1, one for each model threshold, for at least one realization)
the calibrated probabilities are between 0 and 1 and do not increase from one output threshold to the next, one for each
output threshold. -/
theorem C188_valid_distribution {lower : ℚ} {model out r : List ℚ} {ps : List (List ℚ)} (hne : ps ≠ [])
    (hl : ∀ p ∈ ps, p.length = model.length) (h01 : ∀ p ∈ ps, ∀ v ∈ p, 0 ≤ v ∧ v ≤ 1)
    (h : calibratedProbabilities lower model out ps = .ok r) :
    r.length = out.length ∧ (∀ v ∈ r, 0 ≤ v ∧ v ≤ 1) ∧ r.Pairwise (· ≥ ·) := by
  obtain ⟨dists, hd, rfl⟩ := calibrated_ok h
  have hprops : ∀ d ∈ dists, d.length = out.length ∧ (∀ v ∈ d, 0 ≤ v ∧ v ≤ 1) ∧ d.Pairwise (· ≥ ·) := by
    intro d hdm
    obtain ⟨p, hp, he⟩ := forall₂_right hd d hdm
    exact ensemble_props (hl p hp) (h01 p hp) he
  have hdne : dists ≠ [] := by rintro rfl; exact hne (by cases hd; rfl)
  refine ⟨by simp, ?_, ?_⟩
  · intro v hv
    obtain ⟨k, hk, rfl⟩ := List.mem_map.1 hv
    have hk := List.mem_range.1 hk
    have hb : ∀ d ∈ dists, 0 ≤ d.getD k 0 ∧ d.getD k 0 ≤ 1 := by
      intro d hd
      obtain ⟨h1, h2, _⟩ := hprops d hd
      rw [List.getD_eq_getElem _ _ (by omega)]; exact h2 _ (List.getElem_mem _)
    constructor
    · exact (meanOf_const hdne 0).symm.le.trans (meanOf_mono fun d hd => (hb d hd).1)
    · exact (meanOf_mono fun d hd => (hb d hd).2).trans (meanOf_const hdne 1).le
  · rw [List.pairwise_map]
    have := List.pairwise_lt_range (n := out.length)
    refine (List.Pairwise.and_mem.1 this).imp ?_
    rintro i j ⟨hi, hj, hij⟩
    have hj := List.mem_range.1 hj
    apply meanOf_mono
    intro d hd
    obtain ⟨h1, _, h3⟩ := hprops d hd
    rw [List.getD_eq_getElem _ _ (by omega), List.getD_eq_getElem _ _ (by omega)]
    exact List.pairwise_iff_getElem.1 h3 i j _ _ hij

/-- C188: there is an answer exactly when there are output thresholds. -/
theorem C188_succeeds (lower : ℚ) (model out : List ℚ) {ps : List (List ℚ)} (hne : ps ≠ []) :
    (∃ r, calibratedProbabilities lower model out ps = .ok r) ↔ out ≠ [] := by
  constructor
  · rintro ⟨r, h⟩
    obtain ⟨dists, hd, _⟩ := calibrated_ok h
    cases hd with
    | nil => exact absurd rfl hne
    | cons h' _ => exact (ensemble_cases h').1
  · intro ho
    have : ∀ p, ∃ d, ensembleDistribution lower model (makeDecreasing p) out = .ok d := by
      intro p
      cases out with
      | nil => exact absurd rfl ho
      | cons o rest => exact ⟨_, rfl⟩
    choose f hf using this
    refine ⟨_, calibrated_of (dists := ps.map f) ?_⟩
    rw [List.forall₂_map_right_iff]
    exact List.forall₂_same.2 fun p _ => hf p

/-- C188: the probability for the ensemble is the mean of those each realization has on its own. -/
theorem C188_mean_of_realizations {lower : ℚ} {model out r : List ℚ} {ps : List (List ℚ)}
    (h : calibratedProbabilities lower model out ps = .ok r) : ∃ rs,
      List.Forall₂ (fun p d => calibratedProbabilities lower model out [p] = .ok d) ps rs ∧
      ∀ k < out.length, r[k]? = some ((rs.map fun d => d.getD k 0).sum / ps.length) := by
  obtain ⟨dists, hd, rfl⟩ := calibrated_ok h
  refine ⟨dists.map fun d => (List.range out.length).map fun k => meanOf ([d].map fun d => d.getD k 0), ?_, ?_⟩
  · rw [List.forall₂_map_right_iff]
    exact hd.imp fun p d h => calibrated_of (.cons h .nil)
  · intro k hk
    rw [List.getElem?_map, List.getElem?_range hk]
    simp only [Option.map_some, Option.some.injEq]
    unfold meanOf
    rw [List.length_map, hd.length_eq, List.map_map]
    congr 2
    apply List.map_congr_left
    intro d _
    simp only [Function.comp, List.getD_eq_getElem?_getD, List.getElem?_map, List.getElem?_range hk]
    simp

/-- C188: for one realization and ascending output thresholds, that are not those of the models, the probabilities are
those of the linear interpolation between the models' probabilities (made to decrease), with probability 1 at the lower
bound of the distribution. -/
theorem C188_interpolated {lower : ℚ} {model out p : List ℚ} (hp : p.length = model.length) (h01 : ∀ v ∈ p, 0 ≤ v ∧ v ≤ 1)
    (hs : Spec.Separated (lower :: model)) (ho : out.Pairwise (· ≤ ·)) (hne : out ≠ [])
    (hm : ¬ Spec.sameThresholds model out) (hlow : npIsclose (out.getD 0 0) lower = true → out.getD 0 0 = lower) :
    ∃ r, calibratedProbabilities lower model out [p] = .ok r ∧
      List.Forall₂ (Spec.onPolyline (lower :: model) (1 :: makeDecreasing p)) out r := by
  set f := fastInterpX (lower :: model) (1 :: makeDecreasing p) with hf
  have hlen : (1 :: makeDecreasing p).length = (lower :: model).length := by simp [makeDecreasing_length, hp]
  have hdec : (1 :: makeDecreasing p).Pairwise (· ≥ ·) :=
    List.pairwise_cons.2 ⟨fun v hv => (C187_range h01 v hv).2, C187_decreasing p⟩
  have hid : makeDecreasing (out.map f) = out.map f := by
    apply C187_identity
    rw [List.pairwise_map]
    exact ho.imp fun h => fastInterpX_anti hlen (by simp) hdec h
  have he : ensembleDistribution lower model (makeDecreasing p) out = .ok (out.map f) := by
    obtain ⟨o, rest, rfl⟩ := List.exists_cons_of_ne_nil hne
    unfold ensembleDistribution
    dsimp only
    rw [if_neg fun e => hm ((same_iff _ _).1 e), hid]
    congr 1
    split
    · next hc =>
      have : o = lower := hlow hc
      rw [List.map_cons, List.tail_cons, this]
      congr 1
      have := (fastInterpX_polyline hlen (by simp) hs lower).1 (by simp)
      rw [hf, this]; simp
    · rfl
  refine ⟨_, calibrated_of (.cons he .nil), ?_⟩
  have : ((List.range out.length).map fun k => meanOf ([out.map f].map fun d => d.getD k 0)) = out.map f := by
    apply List.ext_getElem (by simp)
    intro k h1 h2
    have hk : k < out.length := by simpa using h2
    simp [meanOf, hk]
  rw [this, List.forall₂_map_right_iff]
  exact List.forall₂_same.2 fun t _ => fastInterpX_polyline hlen (by simp) hs t

/-- C188: at the model thresholds themselves nothing is interpolated, and an output threshold at the lower bound has
probability 1. -/
theorem C188_model_thresholds {lower : ℚ} {model p : List ℚ} (hne : model ≠ [])
    (hlow : npIsclose (model.getD 0 0) lower = false) (hp : p.length = model.length) :
    calibratedProbabilities lower model model [p] = .ok (makeDecreasing p) := by
  have hs : Spec.sameThresholds model model := ⟨rfl, by
    intro q hq
    have : q.1 = q.2 := by
      obtain ⟨a, b⟩ := q
      have := List.mem_iff_getElem.1 hq
      obtain ⟨i, hi, he⟩ := this
      simp only [List.getElem_zip, Prod.mk.injEq] at he
      exact he.1.symm.trans he.2
    unfold npIsclose
    rw [this, decide_eq_true_eq, sub_self, abs_zero]; positivity⟩
  have he : ensembleDistribution lower model (makeDecreasing p) model = .ok (makeDecreasing p) := by
    obtain ⟨o, rest, rfl⟩ := List.exists_cons_of_ne_nil hne
    unfold ensembleDistribution
    dsimp only
    rw [if_pos ((same_iff _ _).2 hs)]
    have : npIsclose o lower = false := hlow
    rw [this]; rfl
  rw [calibrated_of (.cons he .nil)]
  congr 1
  apply List.ext_getElem (by simp [makeDecreasing_length, hp])
  intro k h1 h2
  have hk : k < (makeDecreasing p).length := h2
  simp [meanOf, hk]

/-- C188: an output threshold at the lower bound has probability 1, whatever the models say. -/
theorem C188_lower_bound_is_certain {lower : ℚ} {model rest r : List ℚ} {ps : List (List ℚ)} (hne : ps ≠ [])
    (hb : 0 ≤ lower) (h : calibratedProbabilities lower model (lower :: rest) ps = .ok r) : r[0]? = some 1 := by
  obtain ⟨dists, hd, rfl⟩ := calibrated_ok h
  have hdne : dists ≠ [] := by rintro rfl; exact hne (by cases hd; rfl)
  have h1 : ∀ d ∈ dists, d.getD 0 0 = 1 := by
    intro d hdm
    obtain ⟨p, _, he⟩ := forall₂_right hd d hdm
    obtain ⟨_, q, _, hr⟩ := ensemble_cases he
    have hc : npIsclose ((lower :: rest).getD 0 0) lower = true := by
      unfold npIsclose
      rw [decide_eq_true_eq, List.getD_cons_zero, sub_self, abs_zero]; positivity
    rw [hr, if_pos hc]; rfl
  rw [List.getElem?_map, List.getElem?_range (by simp), Option.map_some]
  rw [List.map_congr_left h1, meanOf_const hdne]

example : (calibratedProbabilities 0 [1, 2, 3] [0, 1 / 2, 2, 5] [[1 / 2, 6 / 10, 1 / 10], [1, 1 / 2, 1 / 4]]).toOption =
    some [1, 71 / 80, 21 / 40, 7 / 40] := by decide +kernel

example : Spec.Separated [0, 1, 2, 3] ∧ ¬ Spec.sameThresholds [1, 2, 3] [0, 1 / 2, 2, 5] ∧
    npIsclose 0 0 = true := by
  refine ⟨?_, fun h => absurd h.1 (by decide), by decide +kernel⟩
  unfold Spec.Separated
  decide +kernel

/-- Finding: descending output thresholds are accepted, and the probabilities, which should rise along them, are flattened:
the same forecast has 0.55 at both thresholds in descending order, 0.9 and 0.2 in ascending order. -/
theorem C188_descending_refuted :
    (calibratedProbabilities 0 [1, 2, 3] [1, 2] [[9 / 10, 2 / 10, 0]]).toOption = some [9 / 10, 2 / 10] ∧
    (calibratedProbabilities 0 [1, 2, 3] [2, 1] [[9 / 10, 2 / 10, 0]]).toOption = some [11 / 20, 11 / 20] := by
  decide +kernel

/-- Finding: the test for the lower bound has an absolute tolerance of 1e-8, so a first threshold of 8e-9 m s-1 (0.03 mm/h)
gets probability 1 where the models say 0.25. -/
theorem C188_lower_bound_refuted :
    (calibratedProbabilities 0 [8 / 1000000000, 1 / 1000000] [8 / 1000000000, 1 / 1000000] [[1 / 4, 1 / 10]]).toOption =
      some [1, 1 / 10] := by decide +kernel

/-- Finding: beyond the last model threshold the probability stays what it is there, however high the threshold. -/
theorem C188_beyond_last :
    (calibratedProbabilities 0 [1, 2] [1, 2, 1000000] [[1 / 2, 1 / 4]]).toOption = some [1 / 2, 1 / 4, 1 / 4] := by
  decide +kernel

/-! ## C189: lead times and features -/

theorem nearest_fold (h : ℚ) : ∀ (rest : List ℚ) (b : ℚ), rest.Pairwise (· < ·) → (∀ x ∈ rest, b < x) →
    let r := rest.foldl (fun best x => if |x - h| < |best - h| then x else best) b
    r ∈ b :: rest ∧ ∀ x ∈ b :: rest, |r - h| ≤ |x - h| ∧ (|x - h| = |r - h| → r ≤ x)
  | [], b, _, _ => by simp
  | y :: rest, b, hp, hb => by
    dsimp only
    rw [List.foldl_cons]
    have hp' := List.pairwise_cons.1 hp
    by_cases hc : |y - h| < |b - h|
    · rw [if_pos hc]
      obtain ⟨h1, h2⟩ := nearest_fold h rest y hp'.2 hp'.1
      refine ⟨List.mem_cons_of_mem _ h1, fun x hx => ?_⟩
      rcases List.mem_cons.1 hx with rfl | hx
      · have := (h2 y (by simp)).1
        exact ⟨by linarith, fun e => by linarith⟩
      · exact h2 x hx
    · rw [if_neg hc]
      obtain ⟨h1, h2⟩ := nearest_fold h rest b hp'.2 fun x hx => hb x (by simp [hx])
      refine ⟨?_, fun x hx => ?_⟩
      · rcases List.mem_cons.1 h1 with h1 | h1
        · rw [h1]; simp
        · simp [h1]
      · rcases List.mem_cons.1 hx with rfl | hx
        · exact h2 _ (by simp)
        · rcases List.mem_cons.1 hx with rfl | hx
          · obtain ⟨h3, h4⟩ := h2 b (by simp)
            have hby := hb x (by simp)
            refine ⟨h3.trans (not_lt.1 hc), fun e => ?_⟩
            exact (h4 (le_antisymm ((not_lt.1 hc).trans e.le) h3)).trans hby.le
          · exact h2 x (by simp [hx])

/-- C189: the models used are those of the lead time nearest to the forecast's, the shorter one if two are as near; with no
models at all there is an error. -/
theorem C189_nearest_lead_time {leads : List ℚ} (ha : leads.Pairwise (· < ·)) (hours : ℚ) :
    (leads = [] → modelLeadTime leads hours = .error .valueError) ∧
    (leads ≠ [] → ∃ r ∈ leads, modelLeadTime leads hours = .ok r ∧
      ∀ x ∈ leads, |r - hours| ≤ |x - hours| ∧ (|x - hours| = |r - hours| → r ≤ x)) := by
  refine ⟨by rintro rfl; simp [modelLeadTime], fun hne => ?_⟩
  unfold modelLeadTime
  by_cases hm : hours ∈ leads
  · refine ⟨hours, hm, by rw [if_pos hm], fun x _ => ?_⟩
    rw [sub_self, abs_zero]
    refine ⟨abs_nonneg _, fun e => ?_⟩
    have := abs_eq_zero.1 e
    linarith
  · rw [if_neg hm]
    obtain ⟨l, rest, rfl⟩ := List.exists_cons_of_ne_nil hne
    have hp := List.pairwise_cons.1 ha
    obtain ⟨h1, h2⟩ := nearest_fold hours rest l hp.2 hp.1
    exact ⟨_, h1, rfl, h2⟩

example : (modelLeadTime [24, 48, 72] 36).toOption = some 24 ∧ (modelLeadTime [24, 48, 72] 37).toOption = some 48 ∧
    [(24 : ℚ), 48, 72].Pairwise (· < ·) := by decide +kernel

instance : Std.Total nameLe := ⟨fun a b => String.le_total a.name b.name⟩
instance : IsTrans FeatCube nameLe := ⟨fun _ _ _ h g => String.le_trans h g⟩

/-- C189: the columns of the array given to the models are in alphabetical order of the names of the features, whatever the
order of the cubes. -/
theorem C189_order_of_cubes {a b : List FeatCube} (hp : a.Perm b) : featuresArray a = featuresArray b := by
  unfold featuresArray
  have hn : (a.map FeatCube.name).Nodup ↔ (b.map FeatCube.name).Nodup := (hp.map _).nodup_iff
  by_cases h : (a.map FeatCube.name).Nodup
  · rw [if_neg (not_not.2 h), if_neg (not_not.2 (hn.1 h))]
    have : a.insertionSort nameLe = b.insertionSort nameLe := by
      refine List.Perm.eq_of_pairwise ?_ (List.pairwise_insertionSort _ _) (List.pairwise_insertionSort _ _)
        (((List.perm_insertionSort _ _).trans hp).trans (List.perm_insertionSort _ _).symm)
      intro x y hx hy h1 h2
      have hx := (List.perm_insertionSort _ _).mem_iff.1 hx
      have hy := hp.mem_iff.2 ((List.perm_insertionSort _ _).mem_iff.1 hy)
      exact List.inj_on_of_nodup_map h hx hy (String.le_antisymm h1 h2)
    rw [this]
  · rw [if_pos h, if_pos fun e => h (hn.2 e)]

/-- C189: row by row, the values of the features at the same place in the flattened data. -/
theorem C189_columns {features : List FeatCube} {rows : List (List ℚ)} (h : featuresArray features = .ok rows) :
    ∃ order : List FeatCube, order.Perm features ∧ order.Pairwise (fun a b => a.name ≤ b.name ∧ a.name ≠ b.name) ∧
      (∀ c ∈ features, c.ravel.length = rows.length) ∧
      ∀ k < rows.length, rows[k]? = some (order.map fun c => c.ravel.getD k 0) := by
  unfold featuresArray at h
  by_cases hnd : (features.map FeatCube.name).Nodup
  · rw [if_neg (not_not.2 hnd)] at h
    refine ⟨features.insertionSort nameLe, List.perm_insertionSort _ _, ?_, ?_⟩
    · have h1 : (features.insertionSort nameLe).Pairwise nameLe := List.pairwise_insertionSort _ _
      have h2 : (features.insertionSort nameLe).Pairwise fun a b => a.name ≠ b.name := by
        have := ((List.perm_insertionSort nameLe features).map FeatCube.name).nodup_iff.2 hnd
        rw [List.nodup_iff_pairwise_ne, List.pairwise_map] at this
        exact this
      exact (h1.and h2).imp id
    · have hmem : ∀ c ∈ features, c.ravel ∈ (features.insertionSort nameLe).map FeatCube.ravel := fun c hc =>
        List.mem_map_of_mem ((List.perm_insertionSort _ _).mem_iff.2 hc)
      generalize hC : (features.insertionSort nameLe).map FeatCube.ravel = C at *
      cases C with
      | nil => exact nomatch h
      | cons c rest =>
        dsimp only at h
        by_cases hl : (rest.all fun d => decide (d.length = c.length)) = true
        · rw [if_pos hl] at h
          injection h with h
          subst h
          simp only [List.length_map, List.length_range]
          constructor
          · intro e he
            rcases List.mem_cons.1 (hmem e he) with h | h
            · rw [h]
            · simpa using List.all_eq_true.1 hl _ h
          · intro k hk
            rw [List.getElem?_map, List.getElem?_range hk, Option.map_some, ← hC, List.map_map]
            rfl
        · rw [if_neg hl] at h; exact nomatch h
  · rw [if_pos hnd] at h; exact nomatch h

theorem realizationCoords_eq {cubes : List FeatCube} (hn : (cubes.map FeatCube.name).Nodup) :
    realizationCoords cubes = cubes.filterMap fun c => (c.coords.lookup "realization").map fun r => (c.name, r) := by
  unfold realizationCoords
  suffices h : ∀ (cubes : List FeatCube) (acc : List (String × List ℚ)), (cubes.map FeatCube.name).Nodup →
      (∀ e ∈ acc, ∀ c ∈ cubes, e.1 ≠ c.name) →
      cubes.foldl recordRealization acc =
        acc ++ cubes.filterMap fun c => (c.coords.lookup "realization").map fun r => (c.name, r) by
    simpa using h cubes [] hn (by simp)
  intro cubes
  induction cubes with
  | nil => simp
  | cons c cubes ih =>
    intro acc hn hd
    rw [List.map_cons, List.nodup_cons] at hn
    rw [List.foldl_cons, List.filterMap_cons]
    cases hr : c.coords.lookup "realization" with
    | none =>
      have hstep : recordRealization acc c = acc := by unfold recordRealization; rw [hr]
      rw [hstep]
      exact ih acc hn.2 fun e he d hd' => hd e he d (by simp [hd'])
    | some r =>
      have hany : acc.any (fun e => decide (e.1 = c.name)) = false := by
        rw [List.any_eq_false]
        intro e he
        simpa using hd e he c (by simp)
      have hstep : recordRealization acc c = acc ++ [(c.name, r)] := by
        unfold recordRealization; rw [hr]; simp only [hany, Bool.false_eq_true, if_false]
      rw [hstep, ih _ hn.2 ?_, List.append_assoc]; rfl
      intro e he d hd'
      rcases List.mem_append.1 he with he | he
      · exact hd e he d (by simp [hd'])
      · rw [List.mem_singleton] at he
        subst he
        intro h
        have h : c.name = d.name := h
        exact hn.1 (h ▸ List.mem_map_of_mem hd')

/-- The coordinates of the dimensions other than realization are the same in all cubes. -/
def Spec.sameGrid (cubes : List FeatCube) : Prop :=
  ∀ c ∈ cubes, ∀ d ∈ c.dims, d ≠ "realization" → ∀ e ∈ cubes, e.coords.lookup d = c.coords.lookup d

theorem dimsAgree_iff (cubes : List FeatCube) : dimsAgree cubes = true ↔ Spec.sameGrid cubes := by
  unfold dimsAgree Spec.sameGrid
  simp only [List.all_eq_true, Bool.or_eq_true, decide_eq_true_eq, ne_eq]
  constructor
  · intro h c hc d hd hne e he
    rcases h c hc d hd with h | h
    · exact absurd h hne
    · exact h e he
  · intro h c hc d hd
    by_cases hne : d = "realization"
    · exact .inl hne
    · exact .inr fun e he => h c hc d hd hne e he

/-- What alignment does to a cube: one with realizations is kept, others are repeated for each realization along a new
leading dimension. -/
def Spec.broadcast (r : List ℚ) (c d : FeatCube) : Prop :=
  (c.coords.lookup "realization" = some r ∧ d = c) ∨
  (c.coords.lookup "realization" = none ∧ d.name = c.name ∧ d.dims = "realization" :: c.dims ∧
    d.coords.lookup "realization" = some r ∧ (∀ k, k ≠ "realization" → d.coords.lookup k = c.coords.lookup k) ∧
    ∀ j i, d.data (j :: i) = c.data i)

theorem addRealization_broadcast {r : List ℚ} {c : FeatCube}
    (h : ∀ s, c.coords.lookup "realization" = some s → s = r) : Spec.broadcast r c (addRealization r c) := by
  unfold addRealization Spec.broadcast
  cases hr : c.coords.lookup "realization" with
  | some s => left; simp [h s hr]
  | none =>
    right
    refine ⟨rfl, by simp, by simp, by simp [List.lookup_cons], ?_, fun j i => by simp⟩
    intro k hk
    simp [List.lookup_cons, beq_eq_false_iff_ne.2 hk]

/-- C189: features and forecast are aligned exactly when their grids and their realizations (for those that have any) are
the same (all names being different); afterwards all have the realizations, `[0]` if there were none. -/
theorem C189_alignment {features : List FeatCube} {forecast : FeatCube}
    (hn : ((features ++ [forecast]).map FeatCube.name).Nodup) :
    (∃ fs fc, alignFeatures features forecast = .ok (fs, fc) ∧ ∃ r,
      (r = [0] ∨ ∃ c ∈ features ++ [forecast], c.coords.lookup "realization" = some r) ∧
      List.Forall₂ (Spec.broadcast r) features fs ∧ Spec.broadcast r forecast fc) ∧
      Spec.sameGrid (features ++ [forecast]) ∧
      (∀ c ∈ features ++ [forecast], ∀ d ∈ features ++ [forecast], ∀ r s, c.coords.lookup "realization" = some r →
        d.coords.lookup "realization" = some s → r = s) ∨
    alignFeatures features forecast = .error .valueError ∧
      (¬ Spec.sameGrid (features ++ [forecast]) ∨
      ∃ c ∈ features ++ [forecast], ∃ d ∈ features ++ [forecast], ∃ r s, c.coords.lookup "realization" = some r ∧
        d.coords.lookup "realization" = some s ∧ r ≠ s) := by
  set cubes := features ++ [forecast] with hc
  have hb : ∀ r, (∀ c ∈ cubes, ∀ s, c.coords.lookup "realization" = some s → s = r) →
      List.Forall₂ (Spec.broadcast r) features (features.map (addRealization r)) ∧
      Spec.broadcast r forecast (addRealization r forecast) := by
    intro r h
    constructor
    · rw [List.forall₂_map_right_iff]
      exact List.forall₂_same.2 fun c hcm => addRealization_broadcast (h c (by simp [hc, hcm]))
    · exact addRealization_broadcast (h forecast (by simp [hc]))
  unfold alignFeatures
  rw [← hc]
  dsimp only
  cases hd : dimsAgree cubes with
  | false =>
    right
    exact ⟨rfl, .inl fun h => by rw [(dimsAgree_iff cubes).2 h] at hd; exact nomatch hd⟩
  | true =>
    have hg := (dimsAgree_iff cubes).1 hd
    simp only [Bool.not_true, Bool.false_eq_true, if_false]
    have hmem : ∀ n r, (n, r) ∈ realizationCoords cubes ↔ ∃ c ∈ cubes, c.coords.lookup "realization" = some r ∧ c.name = n := by
      intro n r
      rw [realizationCoords_eq hn, List.mem_filterMap]
      simp only [Option.map_eq_some_iff, Prod.mk.injEq]
      constructor
      · rintro ⟨c, hcm, s, h1, h2, h3⟩
        exact ⟨c, hcm, h3 ▸ h1, h2⟩
      · rintro ⟨c, hcm, h1, h2⟩
        exact ⟨c, hcm, r, h1, h2, rfl⟩
    cases hR : realizationCoords cubes with
    | nil =>
      left
      have hnone : ∀ c ∈ cubes, ∀ s, c.coords.lookup "realization" ≠ some s := by
        intro c hcm s hs
        have := (hmem c.name s).2 ⟨c, hcm, hs, rfl⟩
        rw [hR] at this; simp at this
      refine ⟨⟨_, _, rfl, [0], .inl rfl, hb [0] fun c hcm s hs => absurd hs (hnone c hcm s)⟩, hg, ?_⟩
      intro c hcm d _ r s h _
      exact absurd h (hnone c hcm r)
    | cons e rest =>
      dsimp only
      obtain ⟨c0, hc0, h0, _⟩ := (hmem e.1 e.2).1 (by rw [hR]; simp)
      by_cases hall : (rest.all fun x => decide (x.2 = e.2)) = true
      · left
        have heq : ∀ c ∈ cubes, ∀ s, c.coords.lookup "realization" = some s → s = e.2 := by
          intro c hcm s hs
          have := (hmem c.name s).2 ⟨c, hcm, hs, rfl⟩
          rw [hR] at this
          rcases List.mem_cons.1 this with h | h
          · rw [← h]
          · simpa using List.all_eq_true.1 hall _ h
        rw [if_pos hall]
        refine ⟨⟨_, _, rfl, e.2, .inr ⟨c0, hc0, h0⟩, hb e.2 heq⟩, hg, ?_⟩
        intro c hcm d hdm r s h1 h2
        rw [heq c hcm r h1, heq d hdm s h2]
      · right
        rw [if_neg hall]
        refine ⟨rfl, .inr ?_⟩
        rw [Bool.not_eq_true, List.all_eq_false] at hall
        obtain ⟨x, hx, hne⟩ := hall
        obtain ⟨c1, hc1, h1, _⟩ := (hmem x.1 x.2).1 (by rw [hR]; simp [hx])
        exact ⟨c1, hc1, c0, hc0, _, _, h1, h0, by simpa using hne⟩

/-- A feature with rows 0, 10 and columns 0, 1. -/
def exFeature (name : String) (dims : List String) (real : List ℚ) (data : List ℕ → ℚ) : FeatCube :=
  ⟨name, dims, (if real = [] then [] else [("realization", real)]) ++ [("y", [0, 10]), ("x", [0, 1])], data⟩

example : (alignFeatures [exFeature "b" ["y", "x"] [] fun i => i.getD 0 0 * 10 + i.getD 1 0]
      (exFeature "a" ["realization", "y", "x"] [3, 4] fun i => i.getD 0 0)).toOption.map
      (fun p => (p.1.map fun c => (c.dims, c.ravel), p.2.ravel)) =
    some ([(["realization", "y", "x"], [0, 1, 10, 11, 0, 1, 10, 11])], [0, 0, 0, 0, 1, 1, 1, 1]) ∧
    (featuresArray [exFeature "b" ["y", "x"] [] fun i => i.getD 0 0 * 10 + i.getD 1 0,
      exFeature "a" ["y", "x"] [] fun i => i.getD 0 0]).toOption = some [[0, 0], [0, 1], [1, 10], [1, 11]] := by
  decide +kernel

/-- Finding: the order of the dimensions is never compared: two features with the same value everywhere, one with dimensions
y, x and one with x, y, are aligned without an error and given to the models at each other's points. -/
theorem C189_dim_order_refuted :
    let a := exFeature "a" ["y", "x"] [] fun i => i.getD 0 0 * 10 + i.getD 1 0
    let b := exFeature "b" ["x", "y"] [] fun i => i.getD 1 0 * 10 + i.getD 0 0
    (∀ y x, a.data [y, x] = b.data [x, y]) ∧
    (alignFeatures [a, b] (exFeature "c" ["y", "x"] [] fun _ => 0)).toOption.map
      (fun p => (featuresArray p.1).toOption) = some (some [[0, 0], [1, 10], [10, 1], [11, 11]]) := by
  refine ⟨fun y x => rfl, by decide +kernel⟩

/-- Finding: realizations are kept by the name of the cube, so when a feature has the name of the forecast (the forecast
itself is usually a feature) the feature's realizations are never looked at. -/
theorem C189_same_name_refuted :
    (alignFeatures [exFeature "a" ["realization", "y", "x"] [0, 1] fun _ => 0]
      (exFeature "a" ["realization", "y", "x"] [2, 3] fun _ => 0)).toOption.isSome = true ∧
    (alignFeatures [exFeature "b" ["realization", "y", "x"] [0, 1] fun _ => 0]
      (exFeature "a" ["realization", "y", "x"] [2, 3] fun _ => 0)).toOption.isSome = false ∧
    (alignFeatures [exFeature "a" ["realization", "y", "x"] [0, 1] fun _ => 0, exFeature "b" ["realization", "y", "x"] [2, 3]
      fun _ => 0] (exFeature "a" ["realization", "y", "x"] [2, 3] fun _ => 0)).toOption.isSome = true := by decide +kernel

end Improver
