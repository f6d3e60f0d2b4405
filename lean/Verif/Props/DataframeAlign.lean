import Verif.Props.DataframeFill
import Verif.Lemmas.ListAux
import Verif.Lemmas.Sorting

/-!
C196-C197: static columns of calibration tables, and the alignment of forecasts and truths.
-/

namespace Improver

/-! ## Static columns -/

theorem firstSeen_append {α : Type} [DecidableEq α] (l : List α) (a : α) :
    firstSeen (l ++ [a]) = if a ∈ l then firstSeen l else firstSeen l ++ [a] := by
  induction l with
  | nil => simp [firstSeen]
  | cons b l ih =>
    simp only [List.cons_append, firstSeen]
    rw [ih]
    by_cases hb : a = b
    · subst hb
      rw [if_pos (by simp : a ∈ a :: l)]
      by_cases hl : a ∈ l
      · rw [if_pos hl]
      · rw [if_neg hl]; simp
    · by_cases hl : a ∈ l
      · rw [if_pos hl, if_pos (List.mem_cons_of_mem _ hl)]
      · rw [if_neg hl, if_neg (by simp [hb, hl])]
        simp [hb]

/-- The last of the values as they are first seen: it is new where it is first seen, and none after it is. -/
theorem firstSeen_last {α : Type} [DecidableEq α] (l : List α) (v : α) (h : (firstSeen l).getLast? = some v) :
    ∃ a b, l = a ++ v :: b ∧ v ∉ a ∧ ∀ x ∈ b, x ∈ a ++ [v] := by
  induction l using List.reverseRecOn with
  | nil => simp [firstSeen] at h
  | append_singleton l w ih =>
    rw [firstSeen_append] at h
    by_cases hw : w ∈ l
    · rw [if_pos hw] at h
      obtain ⟨a, b, rfl, h1, h2⟩ := ih h
      refine ⟨a, b ++ [w], by simp, h1, ?_⟩
      intro x hx
      rcases List.mem_append.1 hx with hx | hx
      · exact h2 x hx
      · rw [List.mem_singleton] at hx
        subst hx
        rcases List.mem_append.1 hw with hw | hw
        · exact List.mem_append_left _ hw
        · rcases List.mem_cons.1 hw with rfl | hw
          · simp
          · exact h2 x hw
    · rw [if_neg hw, List.getLast?_concat, Option.some.injEq] at h
      subst h
      exact ⟨l, [], by simp, hw, by simp⟩

/-- C196: nothing but the columns named changes, and no row is moved, added or lost. -/
theorem C196_rest_kept (cols : List String) (df : List DfRow) :
    List.Forall₂ (fun r r' => r'.key = r.key ∧ r'.value = r.value ∧ ∀ c, c ∉ cols → r'.static c = r.static c) df
      (ensureConsistent cols df) := by
  unfold ensureConsistent
  split
  · rw [List.forall₂_map_right_iff, List.forall₂_same]
    exact fun r _ => ⟨rfl, rfl, fun c hc => if_neg hc⟩
  · rw [List.forall₂_same]
    exact fun r _ => ⟨rfl, rfl, fun c hc => rfl⟩

/-- C196: if in one of the columns two sites have different numbers of values, then after the correction every site has one
value in each of the columns: the one among its values that came up last as a new one. -/
theorem C196_corrected (cols : List String) (df : List DfRow) (c0 : String) (hc0 : c0 ∈ cols) (a b : DfRow) (ha : a ∈ df)
    (hb : b ∈ df) (hab : uniqueCount df c0 a.site ≠ uniqueCount df c0 b.site) :
    ∀ c ∈ cols, ∀ r ∈ ensureConsistent cols df, ∃ u w, siteValues df c r.site = u ++ r.static c :: w ∧ r.static c ∉ u ∧
      (∀ x ∈ w, x ∈ u ++ [r.static c]) ∧ ∀ r' ∈ ensureConsistent cols df, r'.site = r.site → r'.static c = r.static c := by
  have hfix : (cols.any fun c => decide ((firstSeen ((firstSeen (df.map DfRow.site)).map (uniqueCount df c))).length > 1)) =
      true := by
    rw [List.any_eq_true]
    refine ⟨c0, hc0, ?_⟩
    rw [decide_eq_true_eq]
    by_contra hno
    rw [firstSeen_short] at hno
    exact hab (hno _ (List.mem_map_of_mem ((mem_firstSeen _ _).2 (List.mem_map_of_mem ha))) _
      (List.mem_map_of_mem ((mem_firstSeen _ _).2 (List.mem_map_of_mem hb))))
  unfold ensureConsistent
  rw [if_pos hfix]
  intro c hc r hr
  obtain ⟨q, hq, rfl⟩ := List.mem_map.1 hr
  have hne : siteValues df c q.site ≠ [] := by
    have : q.static c ∈ siteValues df c q.site := List.mem_map.2 ⟨q, List.mem_filter.2 ⟨hq, by simp⟩, rfl⟩
    intro h; rw [h] at this; simp at this
  have hsome : ∃ v, (firstSeen (siteValues df c q.site)).getLast? = some v := by
    cases hl : (firstSeen (siteValues df c q.site)).getLast? with
    | some v => exact ⟨v, rfl⟩
    | none =>
      rw [List.getLast?_eq_none_iff] at hl
      obtain ⟨x, hx⟩ := List.exists_mem_of_ne_nil _ hne
      rw [← mem_firstSeen, hl] at hx
      simp at hx
  obtain ⟨v, hv⟩ := hsome
  have hval : ∀ q' : DfRow, q'.site = q.site → (withLast cols df q').static c = v := by
    intro q' h
    simp only [withLast, if_pos hc, h, hv, Option.join_some]
  obtain ⟨u, w, h1, h2, h3⟩ := firstSeen_last _ v hv
  refine ⟨u, w, ?_, ?_, ?_, ?_⟩
  · rw [hval q rfl]; exact h1
  · rw [hval q rfl]; exact h2
  · rw [hval q rfl]; exact h3
  · intro r' hr' hs
    obtain ⟨q', _, rfl⟩ := List.mem_map.1 hr'
    rw [hval q rfl, hval q' hs]

/-- C196: if in every one of the columns all sites have the same number of values, nothing is changed. -/
theorem C196_unchanged (cols : List String) (df : List DfRow)
    (h : ∀ c ∈ cols, ∀ a ∈ df, ∀ b ∈ df, uniqueCount df c a.site = uniqueCount df c b.site) :
    ensureConsistent cols df = df := by
  unfold ensureConsistent
  rw [if_neg]
  rw [List.any_eq_true]
  rintro ⟨c, hc, hd⟩
  rw [decide_eq_true_eq] at hd
  refine absurd hd ?_
  rw [firstSeen_short]
  intro x hx y hy
  obtain ⟨s, hs, rfl⟩ := List.mem_map.1 hx
  obtain ⟨t, ht, rfl⟩ := List.mem_map.1 hy
  obtain ⟨a, ha, rfl⟩ := List.mem_map.1 ((mem_firstSeen _ _).1 hs)
  obtain ⟨b, hb, rfl⟩ := List.mem_map.1 ((mem_firstSeen _ _).1 ht)
  exact h c hc a ha b hb

/-- A site that moves while another stays: corrected. -/
example : (ensureConsistent ["altitude"] [exRow "1" 0 0 0 10, exRow "1" 60 0 0 11, exRow "2" 0 0 0 20]).map
    (fun r => r.static "altitude") = [some (.num 11), some (.num 11), some (.num 20)] := by decide +kernel

/-- C196: when all sites (here the only one) have moved, nothing is corrected, and a site keeps two altitudes. -/
theorem C196_all_moved_refuted : ∃ df : List DfRow, ∃ r ∈ ensureConsistent ["altitude"] df,
    ∃ r' ∈ ensureConsistent ["altitude"] df, r.site = r'.site ∧ r.static "altitude" ≠ r'.static "altitude" := by
  refine ⟨[exRow "1" 0 0 0 10, exRow "1" 60 0 0 11], exRow "1" 0 0 0 10, ?_, exRow "1" 60 0 0 11, ?_, rfl, by decide⟩
  · rw [C196_unchanged _ _ (by decide)]; simp
  · rw [C196_unchanged _ _ (by decide)]; simp

/-- C196: the value kept need not be the most recent: a site that moves and moves back keeps the place in between. -/
theorem C196_most_recent_refuted : (ensureConsistent ["altitude"]
    [exRow "1" 0 0 0 10, exRow "1" 60 0 0 11, exRow "1" 120 0 0 10, exRow "2" 0 0 0 20]).map
      (fun r => r.static "altitude") = [some (.num 11), some (.num 11), some (.num 11), some (.num 20)] := by decide +kernel

end Improver
