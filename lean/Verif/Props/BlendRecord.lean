import Verif.Model.BlendRun
import Verif.Props.BlendRun
import Verif.Props.Attributes
import Mathlib.Data.Nat.Digits.Lemmas

/-! Properties of records of runs (C184). -/

namespace Improver

/-! ### Numbers as texts -/

theorem digitVal_digitChar {d : ℕ} (h : d < 10) : digitVal (Nat.digitChar d) = some d := by
  have : ∀ d < 10, digitVal (Nat.digitChar d) = some d := by decide
  exact this d h

theorem digitChar_ne {d : ℕ} (h : d < 10) : Nat.digitChar d ≠ '.' ∧ Nat.digitChar d ≠ ':' ∧ Nat.digitChar d ≠ '\n' := by
  have : ∀ d < 10, Nat.digitChar d ≠ '.' ∧ Nat.digitChar d ≠ ':' ∧ Nat.digitChar d ≠ '\n' := by decide
  exact this d h

theorem mapM_digits {l : List ℕ} (h : ∀ d ∈ l, d < 10) : (l.map Nat.digitChar).mapM digitVal = some l := by
  induction l with
  | nil => rfl
  | cons a l ih =>
    rw [List.map_cons, List.mapM_cons, digitVal_digitChar (h a (List.mem_cons_self ..)),
      ih fun d hd => h d (List.mem_cons_of_mem _ hd)]
    rfl

theorem parse_decimal (k : ℕ) : parseNat (decimal k) = some k := by
  unfold decimal
  by_cases hk : k = 0
  · rw [if_pos hk, hk]; rfl
  · rw [if_neg hk]
    have hd : ∀ d ∈ (Nat.digits 10 k).reverse, d < 10 := by
      intro d hd
      exact Nat.digits_lt_base (by norm_num) (List.mem_reverse.1 hd)
    unfold parseNat
    rw [if_neg, mapM_digits hd, Option.map_some, List.foldl_reverse]
    · congr 1
      have : ∀ l : List ℕ, l.foldr (fun x a => a * 10 + x) 0 = Nat.ofDigits 10 l := by
        intro l
        induction l with
        | nil => rfl
        | cons a l ih => rw [List.foldr_cons, ih, Nat.ofDigits_cons]; omega
      rw [this, Nat.ofDigits_digits]
    · intro h
      rw [List.map_eq_nil_iff, List.reverse_eq_nil_iff, Nat.digits_eq_nil_iff_eq_zero] at h
      exact hk h

theorem decimal_chars {k : ℕ} {c : Char} (h : c ∈ decimal k) : c ≠ '.' ∧ c ≠ ':' ∧ c ≠ '\n' := by
  unfold decimal at h
  by_cases hk : k = 0
  · rw [if_pos hk, List.mem_singleton] at h
    subst h
    decide
  · rw [if_neg hk] at h
    obtain ⟨d, hd, rfl⟩ := List.mem_map.1 h
    exact digitChar_ne (Nat.digits_lt_base (by norm_num) (List.mem_reverse.1 hd))

theorem formatMilli_chars {k : ℕ} {c : Char} (h : c ∈ formatMilli k) : c ≠ ':' ∧ c ≠ '\n' := by
  unfold formatMilli at h
  rcases List.mem_append.1 h with h | h
  · exact (decimal_chars h).2
  · simp only [List.mem_cons, List.not_mem_nil, or_false] at h
    rcases h with rfl | rfl | rfl | rfl
    · decide
    · exact (digitChar_ne (Nat.mod_lt _ (by norm_num))).2
    · exact (digitChar_ne (Nat.mod_lt _ (by norm_num))).2
    · exact (digitChar_ne (Nat.mod_lt _ (by norm_num))).2

theorem parse_formatMilli (other : Text → Option ℚ) (k : ℕ) : parseFloat other (formatMilli k) = some ((k : ℚ) / 1000) := by
  have h1 : splitAt '.' (formatMilli k) = [decimal (k / 1000),
      [Nat.digitChar (k / 100 % 10), Nat.digitChar (k / 10 % 10), Nat.digitChar (k % 10)]] := by
    unfold formatMilli
    rw [splitAt_append fun h => (decimal_chars h).1 rfl, splitAt_none]
    intro h
    simp only [List.mem_cons, List.not_mem_nil, or_false] at h
    rcases h with h | h | h
    · exact (digitChar_ne (Nat.mod_lt _ (by norm_num))).1 h.symm
    · exact (digitChar_ne (Nat.mod_lt _ (by norm_num))).1 h.symm
    · exact (digitChar_ne (Nat.mod_lt _ (by norm_num))).1 h.symm
  have h2 : parseNat [Nat.digitChar (k / 100 % 10), Nat.digitChar (k / 10 % 10), Nat.digitChar (k % 10)] =
      some ((k / 100 % 10 * 10 + k / 10 % 10) * 10 + k % 10) := by
    unfold parseNat
    rw [if_neg (by simp)]
    have := mapM_digits (l := [k / 100 % 10, k / 10 % 10, k % 10]) (by
      intro d hd
      simp only [List.mem_cons, List.not_mem_nil, or_false] at hd
      omega)
    simp only [List.map_cons, List.map_nil] at this
    rw [this]
    simp
  unfold parseFloat
  rw [h1]
  dsimp only
  rw [parse_decimal, h2]
  dsimp only
  congr 1
  have h3 : ((k / 100 % 10 * 10 + k / 10 % 10) * 10 + k % 10) = k % 1000 := by omega
  rw [h3]
  have h4 : (k : ℚ) = 1000 * ((k / 1000 : ℕ) : ℚ) + ((k % 1000 : ℕ) : ℚ) := by
    exact_mod_cast (Nat.div_add_mod k 1000).symm
  rw [h4]
  simp only [List.length_cons, List.length_nil]
  norm_num
  have e1 : (1000 * (k / 1000) + k % 1000) / 1000 = k / 1000 := by omega
  have e2 : (1000 * (k / 1000) + k % 1000) % 1000 = k % 1000 := by omega
  ring_nf

/-! ### Lines and records -/

theorem splitLast_append {s t : Text} (ht : ':' ∉ t) : splitLast (s ++ ':' :: t) = (s, t) := by
  have hr : ∀ c ∈ t.reverse, decide (c ≠ ':') = true := by
    intro c hc
    rw [decide_eq_true_eq]
    rintro rfl
    exact ht (List.mem_reverse.1 hc)
  have e : (s ++ ':' :: t).reverse = t.reverse ++ ':' :: s.reverse := by simp
  unfold splitLast
  rw [if_pos (by simp), e]
  congr 1
  · rw [List.dropWhile_append_of_pos hr, List.dropWhile_cons_of_neg (by simp)]
    simp
  · rw [List.takeWhile_append_of_pos hr, List.takeWhile_cons_of_neg (by simp)]
    simp

/-- A record: what comes from which model and cycle, and its weight in thousandths, written with three decimals. -/
def Spec.record (r : Text × ℕ) : Text := r.1 ++ ':' :: formatMilli r.2

/-- The record after a blend with a weight: the same model and cycle, the product rounded to thousandths. -/
def Spec.weighted (u : ℚ) (r s : Text × ℕ) : Prop := s.1 = r.1 ∧ Spec.nearestEven (s.2 : ℤ) (r.2 * u)

theorem updateLine_record (other : Text → Option ℚ) {u : ℚ} (hu : 0 ≤ u) (r : Text × ℕ) :
    updateLine other u (Spec.record r) = .ok (Spec.record (r.1, (rintQ (r.2 * u)).toNat)) ∧
      Spec.weighted u r (r.1, (rintQ (r.2 * u)).toNat) := by
  have hnn : 0 ≤ (r.2 : ℚ) * u := mul_nonneg (Nat.cast_nonneg _) hu
  have hr : 0 ≤ rintQ (r.2 * u) := by
    have := rintQ_near ((r.2 : ℚ) * u)
    rw [abs_le] at this
    have h : (-1 : ℚ) < rintQ (r.2 * u) := by linarith [this.2]
    have : (-1 : ℤ) < rintQ (r.2 * u) := by exact_mod_cast h
    omega
  constructor
  · unfold updateLine Spec.record
    rw [splitLast_append fun h => (formatMilli_chars h).1 rfl]
    dsimp only
    rw [parse_formatMilli]
    dsimp only
    unfold formatWeight
    rw [if_neg (by
      rw [not_lt]
      exact mul_nonneg (div_nonneg (Nat.cast_nonneg _) (by norm_num)) hu)]
    congr 5
    congr 1
    ring
  · refine ⟨rfl, ?_⟩
    rw [nearestEven_iff]
    exact Int.toNat_of_nonneg hr

theorem sortTexts_perm (l : List Text) : (sortTexts l).Perm l := List.perm_insertionSort _ _

theorem sortTexts_sorted (l : List Text) : (sortTexts l).Pairwise fun a b => a = b ∨ Spec.textBefore a b :=
  (List.pairwise_insertionSort (fun a b : Text => textLe a b = true) l).imp fun h => textLe_before.1 h

theorem record_line {r : Text × ℕ} (h : '\n' ∉ r.1) : '\n' ∉ Spec.record r := by
  unfold Spec.record
  intro hc
  rcases List.mem_append.1 hc with hc | hc
  · exact h hc
  · rcases List.mem_cons.1 hc with hc | hc
    · exact absurd hc (by decide)
    · exact (formatMilli_chars hc).2 rfl

theorem updateRecord_spec (other : Text → Option ℚ) {u : ℚ} (hu : 0 ≤ u) (recs : List (Text × ℕ)) (hne : recs ≠ [])
    (hl : ∀ r ∈ recs, '\n' ∉ r.1) :
    updateRecord other u (joinWith '\n' (recs.map Spec.record)) =
      .ok (joinWith '\n' (sortTexts (recs.map fun r => Spec.record (r.1, (rintQ (r.2 * u)).toNat)))) := by
  unfold updateRecord
  rw [splitAt_join (by simpa using hne) (by
    intro w hw
    obtain ⟨r, hr, rfl⟩ := List.mem_map.1 hw
    exact record_line (hl r hr))]
  have : (recs.map Spec.record).mapM (updateLine other u) =
      .ok (recs.map fun r => Spec.record (r.1, (rintQ (r.2 * u)).toNat)) := by
    apply forall₂_mapM
    rw [List.forall₂_map_left_iff, List.forall₂_map_right_iff, List.forall₂_same]
    intro r _
    exact (updateLine_record other hu r).1
  rw [this]
  rfl

/-- C184: after a blend each record of a slice still names its model and cycle, with its weight times the weight of the slice
to three decimals; the records are one to a line, in alphabetical order. -/
theorem C184_update (other : Text → Option ℚ) {u : ℚ} (hu : 0 ≤ u) (recs : List (Text × ℕ)) (hne : recs ≠ [])
    (hl : ∀ r ∈ recs, '\n' ∉ r.1) :
    ∃ out lines, List.Forall₂ (Spec.weighted u) recs out ∧ lines.Perm (out.map Spec.record) ∧
      lines.Pairwise (fun a b => a = b ∨ Spec.textBefore a b) ∧
      updateRecord other u (joinWith '\n' (recs.map Spec.record)) = .ok (joinWith '\n' lines) := by
  refine ⟨recs.map fun r => (r.1, (rintQ (r.2 * u)).toNat), _, ?_, ?_, ?_, updateRecord_spec other hu recs hne hl⟩
  · rw [List.forall₂_map_right_iff, List.forall₂_same]
    intro r _
    exact (updateLine_record other hu r).2
  · rw [List.map_map]
    exact sortTexts_perm _
  · exact sortTexts_sorted _

example : updateRecord (fun _ => none) (1 / 2) "uk_det:20171110T0000Z:0.250\nuk_det:20171109T1800Z:0.750".toList =
    .ok "uk_det:20171109T1800Z:0.375\nuk_det:20171110T0000Z:0.125".toList := by decide +kernel

/-- C184: a record without a weight is an error. -/
theorem C184_no_weight (other : Text → Option ℚ) (u : ℚ) (before after : Text) (line : Text) (hl : '\n' ∉ line)
    (h : parseFloat other (splitLast line).2 = none) :
    ∃ e, updateRecord other u (joinWith '\n' (splitAt '\n' before ++ line :: splitAt '\n' after)) = .error e := by
  unfold updateRecord
  rw [splitAt_join (by simp) (by
    intro w hw
    rcases List.mem_append.1 hw with hw | hw
    · exact splitAt_mem hw
    · rcases List.mem_cons.1 hw with rfl | hw
      · exact hl
      · exact splitAt_mem hw)]
  simp only [bind, Except.bind]
  cases hm : (splitAt '\n' before ++ line :: splitAt '\n' after).mapM (updateLine other u) with
  | error e => exact ⟨e, rfl⟩
  | ok r =>
    exfalso
    obtain ⟨i, hi⟩ : ∃ i, (splitAt '\n' before ++ line :: splitAt '\n' after)[i]? = some line :=
      List.mem_iff_getElem?.1 (by simp)
    have hf := mapM_forall₂ hm
    obtain ⟨hlen, hget⟩ := List.forall₂_iff_get.1 hf
    obtain ⟨hi1, hi2⟩ := List.getElem?_eq_some_iff.1 hi
    have := hget i hi1 (by omega)
    rw [List.get_eq_getElem, hi2] at this
    unfold updateLine at this
    rw [h] at this
    exact nomatch this

example : parseFloat (fun _ => none) (splitLast "uk_det:20171110T0000Z:".toList).2 = none := by decide +kernel

/-! ### The attribute -/

theorem splitAt_both (sep : Char) (s t : Text) : splitAt sep (s ++ sep :: t) = splitAt sep s ++ splitAt sep t := by
  induction s with
  | nil => simp [splitAt]
  | cons c s ih =>
    rw [List.cons_append, splitAt, splitAt]
    by_cases hc : c = sep
    · rw [if_pos hc, if_pos hc, ih, List.cons_append]
    · rw [if_neg hc, if_neg hc, ih]
      cases hs : splitAt sep s with
      | nil => exact absurd hs (splitAt_ne_nil sep s)
      | cons w r => rfl

theorem splitAt_joined (sep : Char) {l : List Text} (hl : l ≠ []) : splitAt sep (joinWith sep l) = l.flatMap (splitAt sep) := by
  induction l with
  | nil => exact absurd rfl hl
  | cons w l ih =>
    cases l with
    | nil => rw [joinWith]; simp
    | cons v l =>
      rw [joinWith, splitAt_both, ih (by simp), ← List.flatMap_cons]
      simp

theorem textLe_antisymm {a b : Text} (h1 : textLe a b = true) (h2 : textLe b a = true) : a = b := by
  induction a generalizing b with
  | nil =>
    cases b with
    | nil => rfl
    | cons _ _ => exact nomatch h2
  | cons x a ih =>
    cases b with
    | nil => exact nomatch h1
    | cons y b =>
      rw [textLe] at h1 h2
      by_cases hxy : x.toNat < y.toNat
      · rw [if_neg (by omega), if_neg (by omega)] at h2; exact nomatch h2
      · rw [if_neg hxy] at h1
        by_cases he : x.toNat = y.toNat
        · rw [if_pos he] at h1
          rw [if_neg (by omega), if_pos he.symm] at h2
          rw [Char.toNat_inj.1 he, ih h1 h2]
        · rw [if_neg he] at h1; exact nomatch h1

/-- C184: the attribute has exactly the lines of the records of all slices, and does not depend on the order of these. -/
theorem C184_attribute (points : List Text) (hne : points ≠ []) :
    (splitAt '\n' (recordAttribute points false)).Perm (points.flatMap (splitAt '\n')) ∧
    ∀ others, others.Perm points → recordAttribute others false = recordAttribute points false := by
  unfold recordAttribute
  dsimp only
  constructor
  · rw [if_neg (by simp), splitAt_joined]
    · exact (sortTexts_perm points).flatMap_right _
    · intro h
      have := (sortTexts_perm points).length_eq
      rw [h] at this
      exact hne (List.length_eq_zero_iff.1 this.symm)
  · intro others hp
    rw [if_neg (by simp), if_neg (by simp)]
    congr 1
    refine List.Perm.eq_of_pairwise (le := fun a b : Text => textLe a b = true) ?_ (List.pairwise_insertionSort _ _)
      (List.pairwise_insertionSort _ _) ((sortTexts_perm others).trans (hp.trans (sortTexts_perm points).symm))
    intro a b _ _ h1 h2
    exact textLe_antisymm h1 h2

/-- C184: without weights, the attribute names every model and cycle of the records once, in alphabetical order, each on a
line ending with a colon. -/
theorem C184_discard (points : List Text) (hne : points ≠ []) :
    (splitAt '\n' (recordAttribute points true)).Pairwise Spec.textBefore ∧
    ∀ line, line ∈ splitAt '\n' (recordAttribute points true) ↔
      ∃ p ∈ points, ∃ l ∈ splitAt '\n' p, line = (splitLast l).1 ++ [':'] := by
  have hnl : ∀ l : Text, '\n' ∉ l → '\n' ∉ (splitLast l).1 ++ [':'] := by
    intro l hl hc
    rcases List.mem_append.1 hc with hc | hc
    · unfold splitLast at hc
      by_cases h : ':' ∈ l
      · rw [if_pos h] at hc
        dsimp only at hc
        rw [List.mem_reverse] at hc
        exact hl (List.mem_reverse.1 ((List.dropWhile_sublist _).subset (List.mem_of_mem_tail hc)))
      · rw [if_neg h] at hc
        exact hl hc
    · exact absurd (List.mem_singleton.1 hc) (by decide)
  have hdata : (((points.flatMap (splitAt '\n')).map fun p => (splitLast p).1 ++ [':']).dedup) ≠ [] := by
    obtain ⟨p, l, rfl⟩ := List.exists_cons_of_ne_nil hne
    intro h
    rw [List.dedup_eq_nil, List.map_eq_nil_iff, List.flatMap_eq_nil_iff] at h
    exact splitAt_ne_nil '\n' p (h p (List.mem_cons_self ..))
  have hsplit : splitAt '\n' (recordAttribute points true) =
      sortTexts (((points.flatMap (splitAt '\n')).map fun p => (splitLast p).1 ++ [':']).dedup) := by
    unfold recordAttribute
    dsimp only
    rw [if_pos rfl, splitAt_join]
    · intro h
      have := (sortTexts_perm (((points.flatMap (splitAt '\n')).map fun p => (splitLast p).1 ++ [':']).dedup)).length_eq
      rw [h] at this
      exact hdata (List.length_eq_zero_iff.1 this.symm)
    · intro w hw
      rw [(sortTexts_perm _).mem_iff, List.mem_dedup] at hw
      obtain ⟨l, hl, rfl⟩ := List.mem_map.1 hw
      obtain ⟨p, _, hlp⟩ := List.mem_flatMap.1 hl
      exact hnl l (splitAt_mem hlp)
  rw [hsplit]
  constructor
  · have hnd : (sortTexts (((points.flatMap (splitAt '\n')).map fun p => (splitLast p).1 ++ [':']).dedup)).Nodup :=
      (sortTexts_perm _).nodup_iff.2 (List.nodup_dedup _)
    have := (sortTexts_sorted (((points.flatMap (splitAt '\n')).map fun p => (splitLast p).1 ++ [':']).dedup)).and hnd
    exact this.imp fun h => h.1.resolve_left h.2
  · intro line
    rw [(sortTexts_perm _).mem_iff, List.mem_dedup]
    constructor
    · intro h
      obtain ⟨l, hl, rfl⟩ := List.mem_map.1 h
      obtain ⟨p, hp, hlp⟩ := List.mem_flatMap.1 hl
      exact ⟨p, hp, l, hlp, rfl⟩
    · rintro ⟨p, hp, l, hlp, rfl⟩
      exact List.mem_map.2 ⟨l, List.mem_flatMap.2 ⟨p, hp, hlp⟩, rfl⟩

example : recordAttribute ["b:2:0.5\na:1:0.2".toList, "a:1:0.3".toList] true = "a:1:\nb:2:".toList ∧
    recordAttribute ["b:2:0.5".toList, "a:1:0.3".toList] false = "a:1:0.3\nb:2:0.5".toList := by decide +kernel

/-! ### The records of a blend -/

theorem find_point (u : ℚ → ℚ) {l : List ℚ} {p : ℚ} (hp : p ∈ l) :
    (l.map fun p => (p, u p)).find? (fun x => decide (x.1 = p)) = some (p, u p) := by
  induction l with
  | nil => exact absurd hp List.not_mem_nil
  | cons a l ih =>
    rw [List.map_cons, List.find?_cons]
    by_cases ha : a = p
    · subst ha; simp
    · rw [decide_eq_false ha]
      rcases List.mem_cons.1 hp with h | h
      · exact absurd h.symm ha
      · exact ih h

/-- C184: the attribute of a blend has one line for each record of each slice with weight, its weight times that of the
slice, and no line of a slice without weight, whatever the order of the slices. -/
theorem C184_blend (other : Text → Option ℚ) (m : WtsMethod) (pts : List ℚ) (hnd : pts.Nodup) (h2 : 2 ≤ pts.length)
    (recs : ℚ → List (Text × ℕ)) (hr : ∀ p ∈ pts, recs p ≠ [] ∧ ∀ r ∈ recs p, '\n' ∉ r.1) (slices : List (ℚ × Text))
    (hs : slices.Perm (pts.map fun p => (p, joinWith '\n' ((recs p).map Spec.record)))) (w : List (ℚ × ℚ))
    (hw : blendWeights m (pts.insertionSort (· ≤ ·)) = .ok w) :
    ∃ (u : ℚ → ℚ) (out : ℚ → List (Text × ℕ)) (r : Text),
      w = (pts.insertionSort (· ≤ ·)).map (fun p => (p, u p)) ∧ (∀ p ∈ pts, 0 ≤ u p) ∧ (pts.map u).sum = 1 ∧
      (∀ p ∈ pts, List.Forall₂ (Spec.weighted (u p)) (recs p) (out p)) ∧ blendRecords other m slices = .ok r ∧
      (splitAt '\n' r).Perm ((pts.filter fun p => decide (u p ≠ 0)).flatMap fun p => (out p).map Spec.record) := by
  change blendWeights m (npSort pts) = .ok w at hw
  change ∃ (u : ℚ → ℚ) (out : ℚ → List (Text × ℕ)) (r : Text), w = (npSort pts).map (fun p => (p, u p)) ∧ _
  have hperm := npSort_perm pts
  have hsnd : (npSort pts).Nodup := hperm.nodup_iff.2 hnd
  obtain ⟨u, hform, hnn, hsum, _⟩ := C183_blend m 0 pts hnd h2 (fun _ => []) (fun _ _ => rfl) _ (List.Perm.refl _) w hw
  change w = (npSort pts).map (fun p => (p, u p)) at hform
  let out : ℚ → List (Text × ℕ) := fun p => (recs p).map fun r => (r.1, (rintQ (r.2 * u p)).toNat)
  let text : ℚ → Text := fun p => joinWith '\n' (sortTexts ((out p).map Spec.record))
  have hcube : sortByCoord slices = (npSort pts).map fun p => (p, joinWith '\n' ((recs p).map Spec.record)) :=
    sortByCoord_of_fun slices pts _ hs
  have hkw := keepWeighted_map (npSort pts) u fun p => joinWith '\n' ((recs p).map Spec.record)
  rw [← hform] at hkw
  have hupd : updateRecords other w (((npSort pts).filter fun p => decide (u p ≠ 0)).map
      fun p => (p, joinWith '\n' ((recs p).map Spec.record))) =
      .ok (((npSort pts).filter fun p => decide (u p ≠ 0)).map text) := by
    unfold updateRecords
    apply forall₂_mapM
    rw [List.forall₂_map_left_iff, List.forall₂_map_right_iff, List.forall₂_same]
    intro p hp
    have hps := (List.mem_filter.1 hp).1
    have hpp := hperm.mem_iff.1 hps
    have hf : w.find? (fun x => decide (x.1 = p)) = some (p, u p) := by
      rw [hform]
      exact find_point u hps
    dsimp only
    rw [hf]
    dsimp only
    rw [updateRecord_spec other (hnn p hpp) (recs p) (hr p hpp).1 (hr p hpp).2]
    simp only [text, out, List.map_map]
    rfl
  have hk0 : ((npSort pts).filter fun p => decide (u p ≠ 0)) ≠ [] := by
    intro h
    have : ((npSort pts).map u).sum = 0 := by
      rw [← sum_drop_zero _ u u fun p _ h => h, h]; rfl
    rw [(hperm.map u).sum_eq, hsum] at this
    exact one_ne_zero this
  refine ⟨u, out, recordAttribute (((npSort pts).filter fun p => decide (u p ≠ 0)).map text) false, hform, hnn, hsum, ?_, ?_, ?_⟩
  · intro p hp
    rw [List.forall₂_map_right_iff, List.forall₂_same]
    intro r _
    exact (updateLine_record other (hnn p hp) r).2
  · unfold blendRecords
    dsimp only
    rw [hcube]
    have hfst : ((npSort pts).map fun p => (p, joinWith '\n' ((recs p).map Spec.record))).map Prod.fst = npSort pts := by
      rw [List.map_map]; exact List.map_id _
    have hS2 : 2 ≤ (npSort pts).length := by rw [hperm.length_eq]; exact h2
    generalize hS : npSort pts = S at *
    match S, hS2 with
    | [], h => simp at h
    | [_], h => simp at h
    | a :: b :: t, _ =>
      simp only [List.map_cons] at hfst hkw ⊢
      simp only [bind, Except.bind]
      rw [hfst, hw]
      dsimp only
      rw [hkw]
      match hK : (a :: b :: t).filter fun p => decide (u p ≠ 0), hk0 with
      | [], h => exact absurd rfl h
      | p :: k, _ =>
        rw [hK] at hupd
        simp only [List.map_cons] at hupd ⊢
        rw [hupd]
  · refine ((C184_attribute _ (by simpa using hk0)).1).trans ?_
    rw [List.flatMap_map]
    refine (List.Perm.flatMap_right _ (hperm.filter _)).trans ?_
    refine List.Perm.flatMap_left _ ?_
    intro p hp
    have hpp := (List.mem_filter.1 hp).1
    show (splitAt '\n' (joinWith '\n' (sortTexts ((out p).map Spec.record)))).Perm _
    have hne : (out p).map Spec.record ≠ [] := by
      simp only [out, ne_eq, List.map_eq_nil_iff]
      exact (hr p hpp).1
    rw [splitAt_join]
    · exact sortTexts_perm _
    · intro h
      have := (sortTexts_perm ((out p).map Spec.record)).length_eq
      rw [h] at this
      exact hne (List.length_eq_zero_iff.1 this.symm)
    · intro x hx
      rw [(sortTexts_perm _).mem_iff] at hx
      obtain ⟨r, hrm, rfl⟩ := List.mem_map.1 hx
      apply record_line
      simp only [out] at hrm
      obtain ⟨q, hq, rfl⟩ := List.mem_map.1 hrm
      exact (hr p hpp).2 q hq

example : blendRecords (fun _ => none) (.linear (some 3) (some 0))
    [(8, "c:1.000".toList), (2, "a:1.000".toList), (5, "b:0.400\nd:0.600".toList)] =
    .ok "a:0.667\nb:0.133\nd:0.200".toList := by decide +kernel

/-- C184: a single slice keeps its record as it is. -/
theorem C184_single (other : Text → Option ℚ) (m : WtsMethod) (p : ℚ) (r : Text) :
    blendRecords other m [(p, r)] = .ok r := rfl

/-- C184: if the weights recorded for each slice have sum one, so have those of the blend, but for half a thousandth for each
record. -/
theorem C184_total (pts : List ℚ) (u : ℚ → ℚ) (hsum : (pts.map u).sum = 1)
    (recs out : ℚ → List (Text × ℕ)) (ho : ∀ p ∈ pts, List.Forall₂ (Spec.weighted (u p)) (recs p) (out p))
    (h1 : ∀ p ∈ pts, ((recs p).map Prod.snd).sum = 1000) :
    |((((pts.flatMap out).map Prod.snd).sum : ℕ) : ℚ) - 1000| ≤ ((pts.flatMap out).length : ℚ) / 2 := by
  have one : ∀ (c : ℚ) (a b : List (Text × ℕ)), List.Forall₂ (Spec.weighted c) a b →
      |(((b.map Prod.snd).sum : ℕ) : ℚ) - c * (((a.map Prod.snd).sum : ℕ) : ℚ)| ≤ (b.length : ℚ) / 2 := by
    intro c a b h
    induction h with
    | nil => simp
    | @cons r s a b hrs _ ih =>
      have h2 := hrs.2.1
      simp only [List.map_cons, List.sum_cons, List.length_cons]
      push_cast at h2 ⊢
      rw [abs_le] at h2 ih ⊢
      constructor <;> linarith [h2.1, h2.2, ih.1, ih.2]
  have all : ∀ l : List ℚ, (∀ p ∈ l, p ∈ pts) →
      |((((l.flatMap out).map Prod.snd).sum : ℕ) : ℚ) - 1000 * (l.map u).sum| ≤ ((l.flatMap out).length : ℚ) / 2 := by
    intro l
    induction l with
    | nil => intro _; simp
    | cons p l ih =>
      intro hl
      have ih' := ih fun q hq => hl q (List.mem_cons_of_mem _ hq)
      have hp := hl p (List.mem_cons_self ..)
      have h3 := one (u p) _ _ (ho p hp)
      rw [h1 p hp] at h3
      rw [List.flatMap_cons, List.map_append, List.sum_append, List.length_append, List.map_cons, List.sum_cons]
      push_cast at h3 ih' ⊢
      rw [abs_le] at h3 ih' ⊢
      constructor <;> linarith [h3.1, h3.2, ih'.1, ih'.2]
  have := all pts fun p hp => hp
  rw [hsum, mul_one] at this
  exact this

/-- C184 finding: weights are stored with three decimals, so that a source that did take part can be recorded with weight
zero, and the weights of a blend need not have sum one. -/
theorem C184_rounding_refuted :
    updateRecord (fun _ => none) (1 / 4) "a:1:0.001\nb:1:0.999".toList = .ok "a:1:0.000\nb:1:0.250".toList ∧
    blendRecords (fun _ => none) (.nonlinear (some 1) false) [(1, "a:1.000".toList), (2, "b:1.000".toList), (3, "c:1.000".toList)] =
      .ok "a:0.333\nb:0.333\nc:0.333".toList := by decide +kernel

/-- C184: each cube's record is the one it came with or, if it has none, its model and cycle with weight one; that is an
error if the attribute with the model is not named, or not there. -/
theorem C184_store (named : Bool) (cubes : List RunCube) :
    (∀ r, storeRecords named cubes = .ok r ↔
      (named = true ∨ ∀ c ∈ cubes, c.record ≠ none) ∧
      List.Forall₂ (fun c t => c.record = some t ∨
        c.record = none ∧ ∃ m, c.modelId = some m ∧ t = m ++ ':' :: c.cycle ++ ":1.000".toList) cubes r) := by
  intro r
  unfold storeRecords
  have hrec : ∀ (c : RunCube) (t : Text), runRecord c = .ok t ↔ (c.record = some t ∨
        c.record = none ∧ ∃ m, c.modelId = some m ∧ t = m ++ ':' :: c.cycle ++ ":1.000".toList) := by
    intro c t
    have hf : ':' :: formatWeight 1 = ":1.000".toList := by decide +kernel
    unfold runRecord
    rw [hf]
    cases c.record with
    | some x => simp [Except.ok.injEq]
    | none =>
      cases c.modelId with
      | none => simp
      | some m =>
        simp only [Except.ok.injEq, reduceCtorEq, Option.some.injEq, false_or, true_and, exists_eq_left']
        exact eq_comm
  by_cases hc : (!named && cubes.any fun c => c.record.isNone) = true
  · rw [if_pos hc]
    rw [Bool.and_eq_true, List.any_eq_true] at hc
    obtain ⟨h1, c, hcm, h2⟩ := hc
    constructor
    · intro h; exact nomatch h
    · rintro ⟨h | h, _⟩
      · rw [h] at h1; exact nomatch h1
      · exact absurd (Option.isNone_iff_eq_none.1 h2) (h c hcm)
  · rw [if_neg hc]
    constructor
    · intro h
      refine ⟨?_, (mapM_forall₂ h).imp fun c t h => (hrec c t).1 h⟩
      cases named with
      | true => exact Or.inl rfl
      | false =>
        refine Or.inr fun c hcm hn => hc ?_
        rw [Bool.and_eq_true, List.any_eq_true]
        exact ⟨rfl, c, hcm, by rw [hn]; rfl⟩
    · rintro ⟨_, h⟩
      exact forall₂_mapM (h.imp fun c t h => (hrec c t).2 h)

example : storeRecords true [⟨some "uk:20200101T0000Z:0.5".toList, none, []⟩, ⟨none, some "nc".toList, "20200101T0100Z".toList⟩] =
    .ok ["uk:20200101T0000Z:0.5".toList, "nc:20200101T0100Z:1.000".toList] := by decide +kernel

end Improver
