import Verif.Model.ModalCode
import Mathlib.Data.List.Perm.Basic
import Mathlib.Tactic.Linarith
import Mathlib.Data.Rat.Defs

/-! C47: the modal category of a period. -/

namespace Improver

/-- Specification: `r` is the most frequent value of `l`, the highest such value in a tie. -/
def Spec.IsMode (l : List ℤ) (r : ℤ) : Prop :=
  r ∈ l ∧ ∀ v ∈ l, l.count v ≤ l.count r ∧ (l.count v = l.count r → v ≤ r)

/-- Specification: `c'` stands for `c` once groups are formed: the lowest code of its group in `data`, or `c` if it has no group. -/
def Spec.Grouped (leaves : List (Option String × ℤ)) (data : List ℤ) (c c' : ℤ) : Prop :=
  (∃ g, (some g, c) ∈ leaves ∧ (some g, c') ∈ leaves ∧ c' ∈ data ∧ ∀ d ∈ data, (some g, d) ∈ leaves → c' ≤ d) ∨
  ((∀ g, (some g, c) ∉ leaves) ∧ c' = c)

/-- Specification: no value makes up three tenths of the list. -/
def Spec.NoneSignificant (l : List ℤ) : Prop := ∀ v ∈ l, 10 * l.count v < 3 * l.length

theorem modeFold (l : List ℤ) (u : List ℤ) (hs : u.Pairwise (· < ·)) (b : ℤ × ℕ) :
    let r := u.foldl (modeStep l) b
    (r = b ∧ ∀ v ∈ u, l.count v ≤ b.2) ∨
    (r.1 ∈ u ∧ r.2 = l.count r.1 ∧ b.2 < r.2 ∧ ∀ v ∈ u, l.count v ≤ r.2 ∧ (l.count v = r.2 → r.1 ≤ v)) := by
  induction u generalizing b with
  | nil => left; simp
  | cons a u ih =>
    rw [List.pairwise_cons] at hs
    simp only [List.foldl_cons]
    by_cases hc : l.count a > b.2
    · have hst : modeStep l b a = (a, l.count a) := if_pos hc
      rw [hst]
      rcases ih hs.2 (a, l.count a) with ⟨h1, h2⟩ | ⟨h1, h2, h3, h4⟩
      · right
        rw [h1]
        refine ⟨by simp, rfl, hc, ?_⟩
        intro v hv
        rcases List.mem_cons.1 hv with rfl | hv
        · exact ⟨le_refl _, fun _ => le_refl _⟩
        · exact ⟨h2 v hv, fun _ => (hs.1 v hv).le⟩
      · right
        refine ⟨by simp [h1], h2, lt_trans hc h3, ?_⟩
        intro v hv
        rcases List.mem_cons.1 hv with rfl | hv
        · refine ⟨h3.le, fun he => ?_⟩
          simp only at h3
          omega
        · exact h4 v hv
    · have hst : modeStep l b a = b := if_neg hc
      rw [hst]
      rcases ih hs.2 b with ⟨h1, h2⟩ | ⟨h1, h2, h3, h4⟩
      · left
        refine ⟨h1, fun v hv => ?_⟩
        rcases List.mem_cons.1 hv with rfl | hv
        · omega
        · exact h2 v hv
      · right
        refine ⟨by simp [h1], h2, h3, ?_⟩
        intro v hv
        rcases List.mem_cons.1 hv with rfl | hv
        · exact ⟨by omega, fun he => by omega⟩
        · exact h4 v hv

theorem sortedDedup (l : List ℤ) : (l.dedup.insertionSort (· ≤ ·)).Pairwise (· < ·) := by
  have h1 : (l.dedup.insertionSort (· ≤ ·)).Pairwise (· ≤ ·) := List.pairwise_insertionSort _ _
  have h2 : (l.dedup.insertionSort (· ≤ ·)).Nodup := (List.perm_insertionSort _ _).nodup_iff.2 (List.nodup_dedup l)
  exact (h1.and h2).imp (fun h => lt_of_le_of_ne h.1 h.2)

theorem mem_sortedDedup (l : List ℤ) (v : ℤ) : v ∈ l.dedup.insertionSort (· ≤ ·) ↔ v ∈ l := by
  rw [(List.perm_insertionSort _ _).mem_iff, List.mem_dedup]

theorem statsMode_spec (l : List ℤ) (hl : l ≠ []) :
    (statsMode l).1 ∈ l ∧ (statsMode l).2 = l.count (statsMode l).1 ∧
      ∀ v ∈ l, l.count v ≤ (statsMode l).2 ∧ (l.count v = (statsMode l).2 → (statsMode l).1 ≤ v) := by
  have h := modeFold l _ (sortedDedup l) (0, 0)
  change (statsMode l = (0, 0) ∧ _) ∨ _ at h
  rcases h with ⟨_, h2⟩ | ⟨h1, h2, _, h4⟩
  · exfalso
    obtain ⟨a, ha⟩ := List.exists_mem_of_ne_nil l hl
    have := h2 a ((mem_sortedDedup l a).2 ha)
    have h0 := List.count_pos_iff.2 ha
    simp only at this
    omega
  · exact ⟨(mem_sortedDedup l _).1 h1, h2, fun v hv => h4 v ((mem_sortedDedup l v).2 hv)⟩

theorem count_reflect (m : ℤ) (l : List ℤ) (v : ℤ) : (l.map (fun c => m - c)).count (m - v) = l.count v := by
  induction l with
  | nil => rfl
  | cons a l ih => simp [List.count_cons, ih]

/-- The mode of the reflected codes, reflected back, is the mode with ties going to the highest code. -/
theorem reflectedMode (m : ℤ) (l : List ℤ) (hl : l ≠ []) :
    Spec.IsMode l (m - (statsMode (l.map (fun c => m - c))).1) ∧
      (statsMode (l.map (fun c => m - c))).2 = l.count (m - (statsMode (l.map (fun c => m - c))).1) := by
  obtain ⟨h1, h2, h3⟩ := statsMode_spec (l.map (fun c => m - c)) (by simpa using hl)
  generalize statsMode (l.map (fun c => m - c)) = r at *
  obtain ⟨x, hx, hxe⟩ := List.mem_map.1 h1
  have hr : m - r.1 = x := by omega
  have hc : r.2 = l.count x := by rw [h2, ← hxe, count_reflect]
  rw [hr]
  refine ⟨⟨hx, ?_⟩, hc⟩
  intro v hv
  have := h3 (m - v) (List.mem_map.2 ⟨v, hv, rfl⟩)
  rw [count_reflect] at this
  refine ⟨hc ▸ this.1, fun he => ?_⟩
  have := this.2 (by rw [hc]; exact he)
  omega

theorem isMode_unique {l : List ℤ} {r s : ℤ} (h1 : Spec.IsMode l r) (h2 : Spec.IsMode l s) : r = s := by
  have a := h1.2 s h2.1
  have b := h2.2 r h1.1
  have he : l.count s = l.count r := le_antisymm a.1 b.1
  exact le_antisymm (b.2 he.symm) (a.2 he)

theorem codesMin_le (codes : List ℤ) (c : ℤ) (h : c ∈ codes) : codesMin codes ≤ c := by
  have key : ∀ (l : List ℤ) (a : ℤ), l.foldl min a ≤ a ∧ ∀ c ∈ l, l.foldl min a ≤ c := by
    intro l
    induction l with
    | nil => intro a; simp
    | cons b l ih =>
      intro a
      simp only [List.foldl_cons]
      have := ih (min a b)
      refine ⟨le_trans this.1 (min_le_left _ _), ?_⟩
      intro c hc
      rcases List.mem_cons.1 hc with rfl | hc
      · exact le_trans this.1 (min_le_right _ _)
      · exact this.2 c hc
  exact (key codes _).2 c h

/-! ### Day and night -/

theorem unify_none (m : List (ℤ × ℤ)) (c : ℤ) (h : ∀ dn ∈ m, dn.2 ≠ c) : unifyDayNight m c = c := by
  unfold unifyDayNight
  induction m with
  | nil => rfl
  | cons dn m ih =>
    rw [List.foldl_cons, if_neg (fun he => h dn (by simp) he.symm)]
    exact ih (fun x hx => h x (by simp [hx]))

/-- **C47** (day and night): night codes count as their day codes and other codes as themselves, provided night codes are distinct
and no day code is itself a night code. -/
theorem C47_day_night (m : List (ℤ × ℤ)) (hn : (m.map Prod.snd).Nodup) (hd : ∀ a ∈ m, ∀ b ∈ m, a.1 ≠ b.2) (c : ℤ) :
    (∀ d, (d, c) ∈ m → unifyDayNight m c = d) ∧ ((∀ d, (d, c) ∉ m) → unifyDayNight m c = c) := by
  constructor
  · intro d hd'
    obtain ⟨l1, l2, rfl⟩ := List.append_of_mem hd'
    have h1 : ∀ dn ∈ l1, dn.2 ≠ c := by
      intro dn hdn he
      rw [List.map_append, List.map_cons, List.nodup_append] at hn
      exact hn.2.2 dn.2 (List.mem_map.2 ⟨dn, hdn, rfl⟩) c (by simp) he
    have h2 : ∀ dn ∈ l2, dn.2 ≠ d := fun dn hdn he => hd (d, c) (by simp) dn (by simp [hdn]) he.symm
    have e1 := unify_none l1 c h1
    have e2 := unify_none l2 d h2
    unfold unifyDayNight at *
    rw [List.foldl_append, List.foldl_cons, e1, if_pos rfl, e2]
  · intro h
    exact unify_none m c (fun dn hdn he => h dn.1 (by rw [← he]; exact hdn))

/-! ### Groups -/

theorem groupInsert_mem (gs : List (String × List ℤ)) (g h : String) (c x : ℤ) :
    (∃ cs, (h, cs) ∈ groupInsert gs g c ∧ x ∈ cs) ↔ (∃ cs, (h, cs) ∈ gs ∧ x ∈ cs) ∨ (h = g ∧ x = c) := by
  induction gs with
  | nil => simp [groupInsert]
  | cons a gs ih =>
    obtain ⟨k, ks⟩ := a
    unfold groupInsert
    by_cases hk : k = g
    · rw [if_pos hk]
      subst hk
      constructor
      · rintro ⟨cs, hm, hx⟩
        rcases List.mem_cons.1 hm with hm | hm
        · simp only [Prod.mk.injEq] at hm
          obtain ⟨rfl, rfl⟩ := hm
          rcases List.mem_append.1 hx with hx | hx
          · exact Or.inl ⟨ks, by simp, hx⟩
          · exact Or.inr ⟨rfl, by simpa using hx⟩
        · exact Or.inl ⟨cs, by simp [hm], hx⟩
      · rintro (⟨cs, hm, hx⟩ | ⟨rfl, rfl⟩)
        · rcases List.mem_cons.1 hm with hm | hm
          · simp only [Prod.mk.injEq] at hm
            obtain ⟨rfl, rfl⟩ := hm
            exact ⟨cs ++ [c], by simp, by simp [hx]⟩
          · exact ⟨cs, by simp [hm], hx⟩
        · exact ⟨ks ++ [x], by simp, by simp⟩
    · rw [if_neg hk]
      constructor
      · rintro ⟨cs, hm, hx⟩
        rcases List.mem_cons.1 hm with hm | hm
        · simp only [Prod.mk.injEq] at hm
          obtain ⟨rfl, rfl⟩ := hm
          exact Or.inl ⟨cs, by simp, hx⟩
        · rcases ih.1 ⟨cs, hm, hx⟩ with ⟨cs', h1, h2⟩ | h
          · exact Or.inl ⟨cs', by simp [h1], h2⟩
          · exact Or.inr h
      · rintro (⟨cs, hm, hx⟩ | hr)
        · rcases List.mem_cons.1 hm with hm | hm
          · simp only [Prod.mk.injEq] at hm
            obtain ⟨rfl, rfl⟩ := hm
            exact ⟨cs, by simp, hx⟩
          · obtain ⟨cs', h1, h2⟩ := ih.2 (Or.inl ⟨cs, hm, hx⟩)
            exact ⟨cs', by simp [h1], h2⟩
        · obtain ⟨cs', h1, h2⟩ := ih.2 (Or.inr hr)
          exact ⟨cs', by simp [h1], h2⟩

theorem groupInsert_keys (gs : List (String × List ℤ)) (g : String) (c : ℤ) (h : (gs.map Prod.fst).Nodup) :
    ((groupInsert gs g c).map Prod.fst).Nodup ∧ ∀ k ∈ (groupInsert gs g c).map Prod.fst, k ∈ gs.map Prod.fst ∨ k = g := by
  induction gs with
  | nil => simp [groupInsert]
  | cons a gs ih =>
    obtain ⟨k, ks⟩ := a
    simp only [List.map_cons, List.nodup_cons] at h
    unfold groupInsert
    by_cases hk : k = g
    · rw [if_pos hk]
      simp only [List.map_cons, List.nodup_cons]
      exact ⟨h, fun x hx => Or.inl hx⟩
    · rw [if_neg hk]
      have := ih h.2
      simp only [List.map_cons, List.nodup_cons]
      refine ⟨⟨fun hm => ?_, this.1⟩, ?_⟩
      · rcases this.2 k hm with h' | h'
        · exact h.1 h'
        · exact hk h'
      · intro x hx
        rcases List.mem_cons.1 hx with rfl | hx
        · left; simp
        · rcases this.2 x hx with h' | h'
          · left; simp [h']
          · right; exact h'

theorem codeGroups_spec (leaves : List (Option String × ℤ)) :
    ((codeGroups leaves).map Prod.fst).Nodup ∧
      ∀ g x, (∃ cs, (g, cs) ∈ codeGroups leaves ∧ x ∈ cs) ↔ (some g, x) ∈ leaves := by
  have key : ∀ (l : List (Option String × ℤ)) (gs : List (String × List ℤ)), (gs.map Prod.fst).Nodup →
      ((l.foldl codeGroupsStep gs).map Prod.fst).Nodup ∧ ∀ g x, (∃ cs, (g, cs) ∈ l.foldl codeGroupsStep gs ∧ x ∈ cs) ↔
        (∃ cs, (g, cs) ∈ gs ∧ x ∈ cs) ∨ (some g, x) ∈ l := by
    intro l
    induction l with
    | nil => intro gs h; exact ⟨h, by simp⟩
    | cons a l ih =>
      intro gs h
      obtain ⟨o, c⟩ := a
      cases o with
      | none =>
        have := ih gs h
        refine ⟨this.1, fun g x => ?_⟩
        rw [List.foldl_cons]
        simp only [codeGroupsStep]
        rw [this.2 g x]
        simp
      | some k =>
        have hk := groupInsert_keys gs k c h
        have := ih (groupInsert gs k c) hk.1
        refine ⟨this.1, fun g x => ?_⟩
        rw [List.foldl_cons]
        simp only [codeGroupsStep]
        rw [this.2 g x, groupInsert_mem]
        simp only [List.mem_cons, Prod.mk.injEq, Option.some.injEq]
        constructor
        · rintro ((h | ⟨rfl, rfl⟩) | h)
          · exact Or.inl h
          · exact Or.inr (Or.inl ⟨rfl, rfl⟩)
          · exact Or.inr (Or.inr h)
        · rintro (h | ⟨rfl, rfl⟩ | h)
          · exact Or.inl (Or.inl h)
          · exact Or.inl (Or.inr ⟨rfl, rfl⟩)
          · exact Or.inr h
  have := key leaves [] (by simp)
  refine ⟨this.1, fun g x => ?_⟩
  rw [show codeGroups leaves = leaves.foldl codeGroupsStep [] from rfl, this.2 g x]
  simp

/-- What one group replacement does. -/
theorem groupReplace_spec (data codes : List ℤ) :
    ∃ f : ℤ → ℤ, groupReplace data codes = data.map f ∧ (∀ c, c ∉ codes → f c = c) ∧
      ∀ c ∈ data, c ∈ codes → f c ∈ data ∧ f c ∈ codes ∧ ∀ d ∈ data, d ∈ codes → f c ≤ d := by
  unfold groupReplace
  have hmem : ∀ x, x ∈ (data.filter (fun c => c ∈ codes)).insertionSort (· ≤ ·) ↔ x ∈ data ∧ x ∈ codes := by
    intro x
    rw [(List.perm_insertionSort _ _).mem_iff]
    simp
  have hsort : ((data.filter (fun c => c ∈ codes)).insertionSort (· ≤ ·)).Pairwise (· ≤ ·) := List.pairwise_insertionSort _ _
  generalize (data.filter (fun c => c ∈ codes)).insertionSort (· ≤ ·) = s at *
  cases s with
  | nil =>
    refine ⟨id, by simp, fun _ _ => rfl, fun c hc hcc => ?_⟩
    exact absurd ((hmem c).2 ⟨hc, hcc⟩) (by simp)
  | cons d s =>
    refine ⟨fun c => if c ∈ codes then d else c, rfl, fun c hc => if_neg hc, fun c hc hcc => ?_⟩
    have hd := (hmem d).1 (by simp)
    simp only [if_pos hcc]
    refine ⟨hd.1, hd.2, fun e he hec => ?_⟩
    rcases List.mem_cons.1 ((hmem e).2 ⟨he, hec⟩) with h | h
    · exact h ▸ le_refl _
    · exact (List.pairwise_cons.1 hsort).1 e h

/-- Replacing by several pairwise disjoint groups replaces each code by the lowest present code of its group. -/
theorem groupFold (gs : List (String × List ℤ)) (hdis : gs.Pairwise (fun a b => ∀ x ∈ a.2, x ∉ b.2)) (data : List ℤ) :
    ∃ f : ℤ → ℤ, gs.foldl (fun d g => groupReplace d g.2) data = data.map f ∧
      (∀ c, (∀ g ∈ gs, c ∉ g.2) → f c = c) ∧
      ∀ g ∈ gs, ∀ c ∈ data, c ∈ g.2 → f c ∈ data ∧ f c ∈ g.2 ∧ ∀ d ∈ data, d ∈ g.2 → f c ≤ d := by
  induction gs generalizing data with
  | nil => exact ⟨id, by simp, fun _ _ => rfl, by simp⟩
  | cons a gs ih =>
    rw [List.pairwise_cons] at hdis
    obtain ⟨f1, e1, h1, h2⟩ := groupReplace_spec data a.2
    obtain ⟨f2, e2, h3, h4⟩ := ih hdis.2 (groupReplace data a.2)
    refine ⟨f2 ∘ f1, ?_, ?_, ?_⟩
    · rw [List.foldl_cons, e2, e1, List.map_map]
    · intro c hc
      have := h1 c (hc a (by simp))
      simp only [Function.comp]
      rw [this]
      exact h3 c (fun g hg => hc g (by simp [hg]))
    · intro g hg c hc hcg
      simp only [Function.comp]
      rcases List.mem_cons.1 hg with rfl | hg
      · have hf := h2 c hc hcg
        have : f2 (f1 c) = f1 c := h3 _ (fun g' hg' => hdis.1 g' hg' _ hf.2.1)
        rw [this]
        exact hf
      · have hca : c ∉ a.2 := fun hca => hdis.1 g hg c hca hcg
        rw [h1 c hca]
        have hmem : ∀ d, d ∈ g.2 → (d ∈ groupReplace data a.2 ↔ d ∈ data) := by
          intro d hdg
          have hda : d ∉ a.2 := fun hda => hdis.1 g hg d hda hdg
          rw [e1]
          constructor
          · intro hm
            obtain ⟨x, hx, hxe⟩ := List.mem_map.1 hm
            by_cases hxa : x ∈ a.2
            · exact absurd (hxe ▸ (h2 x hx hxa).2.1) hda
            · rw [h1 x hxa] at hxe
              exact hxe ▸ hx
          · intro hm
            exact List.mem_map.2 ⟨d, hm, h1 d hda⟩
        have hf := h4 g hg c ((hmem c hcg).2 hc) hcg
        exact ⟨(hmem _ hf.2.1).1 hf.1, hf.2.1, fun d hd hdg => hf.2.2 d ((hmem d hdg).2 hd) hdg⟩

theorem codeGroups_disjoint (leaves : List (Option String × ℤ)) (h : (leaves.map Prod.snd).Nodup) :
    (codeGroups leaves).Pairwise (fun a b => ∀ x ∈ a.2, x ∉ b.2) := by
  obtain ⟨hk, hm⟩ := codeGroups_spec leaves
  have hk' : (codeGroups leaves).Pairwise (fun a b => a.1 ≠ b.1) := List.pairwise_map.1 hk
  refine List.Pairwise.imp_of_mem ?_ hk'
  intro a b ha hb hab x hxa hxb
  have h1 := (hm a.1 x).1 ⟨a.2, ha, hxa⟩
  have h2 := (hm b.1 x).1 ⟨b.2, hb, hxb⟩
  have := List.inj_on_of_nodup_map h h1 h2 rfl
  simp only [Prod.mk.injEq, Option.some.injEq, and_true] at this
  exact hab this

theorem groupedMode_spec (m : ℤ) (leaves : List (Option String × ℤ)) (hl : (leaves.map Prod.snd).Nodup) (data : List ℤ)
    (hd : data ≠ []) : ∃ data2, List.Forall₂ (Spec.Grouped leaves data) data data2 ∧
      Spec.IsMode data2 (groupedMode m (codeGroups leaves) data) := by
  obtain ⟨f, e, h1, h2⟩ := groupFold (codeGroups leaves) (codeGroups_disjoint leaves hl) data
  obtain ⟨_, hm⟩ := codeGroups_spec leaves
  refine ⟨data.map f, ?_, ?_⟩
  · rw [List.forall₂_map_right_iff, List.forall₂_same]
    intro c hc
    by_cases hg : ∃ g, (some g, c) ∈ leaves
    · obtain ⟨g, hg⟩ := hg
      obtain ⟨cs, hcs, hcc⟩ := (hm g c).2 hg
      have := h2 _ hcs c hc hcc
      exact Or.inl ⟨g, hg, (hm g _).1 ⟨cs, hcs, this.2.1⟩, this.1, fun d hd' hdl => by
        obtain ⟨cs', hcs', hdc⟩ := (hm g d).2 hdl
        have hcd := codeGroups_spec leaves
        have hk' : (codeGroups leaves).Pairwise (fun a b => a.1 ≠ b.1) := List.pairwise_map.1 hcd.1
        have hinj := List.inj_on_of_nodup_map hcd.1 hcs hcs' rfl
        simp only [Prod.mk.injEq, true_and] at hinj
        exact this.2.2 d hd' (hinj ▸ hdc)⟩
    · push Not at hg
      refine Or.inr ⟨hg, h1 c ?_⟩
      intro g hgm hcg
      exact hg g.1 ((hm g.1 c).1 ⟨g.2, hgm, hcg⟩)
  · unfold groupedMode
    simp only
    rw [e]
    exact (reflectedMode m (data.map f) (by simpa using hd)).1

/-! ### The category -/

theorem modeAggregator_spec (m unset : ℤ) (d : List ℤ) (hd : d ≠ []) :
    (Spec.NoneSignificant d ∧ modeAggregator m unset d = unset) ∨ (¬ Spec.NoneSignificant d ∧ Spec.IsMode d (modeAggregator m unset d)) := by
  obtain ⟨h1, h2⟩ := reflectedMode m d hd
  unfold modeAggregator
  simp only
  generalize statsMode (d.map (fun c => m - c)) = r at *
  have hkey : (r.2 : ℚ) < 3 / 10 * d.length ↔ 10 * r.2 < 3 * d.length := by
    constructor
    · intro h
      have : (10 * r.2 : ℚ) < 3 * d.length := by linarith
      exact_mod_cast this
    · intro h
      have : (10 * r.2 : ℚ) < 3 * d.length := by exact_mod_cast h
      linarith
  by_cases hc : (r.2 : ℚ) < 3 / 10 * d.length
  · left
    rw [if_pos hc]
    refine ⟨fun v hv => ?_, by omega⟩
    have := (h1.2 v hv).1
    have := hkey.1 hc
    omega
  · right
    rw [if_neg hc]
    refine ⟨fun hns => hc (hkey.2 ?_), h1⟩
    rw [h2]
    exact hns _ h1.1

/-- **C47** (the mode): if some category covers at least three tenths of the period, the result is the most frequent category, the
highest code in a tie. -/
theorem C47_mode (leaves : List (Option String × ℤ)) (dn : List (ℤ × ℤ)) (data : List ℤ) (hd : data ≠ [])
    (hc : ∀ c ∈ data.map (unifyDayNight dn), c ∈ leaves.map Prod.snd) (hs : ¬ Spec.NoneSignificant (data.map (unifyDayNight dn))) :
    Spec.IsMode (data.map (unifyDayNight dn)) (modalCategory leaves dn data) := by
  have hd' : data.map (unifyDayNight dn) ≠ [] := by simpa using hd
  unfold modalCategory
  simp only
  generalize data.map (unifyDayNight dn) = d at *
  have hnot : ∀ c ∈ d, c ≠ codesMin (leaves.map Prod.snd) - 100 := by
    intro c hcd he
    have := codesMin_le _ _ (hc c hcd)
    omega
  rcases modeAggregator_spec (codesMax (leaves.map Prod.snd) + 1) (codesMin (leaves.map Prod.snd) - 100) d hd' with h | h
  · exact absurd h.1 hs
  · match d, h, hnot with
    | [c], h, hnot =>
      simp only
      rw [if_neg (hnot c (by simp))]
      exact ⟨by simp, by simp⟩
    | a :: b :: d, h, hnot =>
      simp only
      rw [if_neg (hnot _ h.2.1)]
      exact h.2
    | [], _, _ => exact absurd rfl hd'

/-- **C47** (groups): if no category covers three tenths of the period, the result is the mode after each code is replaced by the
lowest code of its group that occurs in the period. -/
theorem C47_grouped (leaves : List (Option String × ℤ)) (hl : (leaves.map Prod.snd).Nodup) (dn : List (ℤ × ℤ)) (data : List ℤ)
    (hd : data ≠ []) (hs : Spec.NoneSignificant (data.map (unifyDayNight dn))) :
    ∃ data2, List.Forall₂ (Spec.Grouped leaves (data.map (unifyDayNight dn))) (data.map (unifyDayNight dn)) data2 ∧
      Spec.IsMode data2 (modalCategory leaves dn data) := by
  have hd' : data.map (unifyDayNight dn) ≠ [] := by simpa using hd
  unfold modalCategory
  simp only
  generalize data.map (unifyDayNight dn) = d at *
  rcases modeAggregator_spec (codesMax (leaves.map Prod.snd) + 1) (codesMin (leaves.map Prod.snd) - 100) d hd' with h | h
  · match d, h, hs with
    | [c], h, hs =>
      have := hs c (by simp)
      simp at this
    | a :: b :: d, h, hs =>
      simp only
      rw [if_pos h.2]
      exact groupedMode_spec _ leaves hl _ (by simp)
    | [], _, _ => exact absurd rfl hd'
  · exact absurd hs h.1

theorem grouped_functional (leaves : List (Option String × ℤ)) (hl : (leaves.map Prod.snd).Nodup) (data : List ℤ) (c a b : ℤ)
    (ha : Spec.Grouped leaves data c a) (hb : Spec.Grouped leaves data c b) : a = b := by
  rcases ha with ⟨g, h1, h2, h3, h4⟩ | ⟨h1, h2⟩ <;> rcases hb with ⟨g', h1', h2', h3', h4'⟩ | ⟨h1', h2'⟩
  · have := List.inj_on_of_nodup_map hl h1 h1' rfl
    simp only [Prod.mk.injEq, Option.some.injEq, and_true] at this
    subst this
    exact le_antisymm (h4 b h3' h2') (h4' a h3 h2)
  · exact absurd h1 (h1' g)
  · exact absurd h1' (h1 g')
  · rw [h2, h2']

theorem isMode_perm {l l' : List ℤ} (h : l.Perm l') {r : ℤ} (hr : Spec.IsMode l r) : Spec.IsMode l' r := by
  refine ⟨h.mem_iff.1 hr.1, fun v hv => ?_⟩
  rw [← h.count_eq, ← h.count_eq]
  exact hr.2 v (h.mem_iff.2 hv)

/-- **C47** (what is returned): the result always is a category of the period (night codes counted as day codes). -/
theorem C47_occurs (leaves : List (Option String × ℤ)) (hl : (leaves.map Prod.snd).Nodup) (dn : List (ℤ × ℤ)) (data : List ℤ)
    (hd : data ≠ []) (hc : ∀ c ∈ data.map (unifyDayNight dn), c ∈ leaves.map Prod.snd) :
    modalCategory leaves dn data ∈ data.map (unifyDayNight dn) := by
  by_cases hs : Spec.NoneSignificant (data.map (unifyDayNight dn))
  · obtain ⟨data2, h1, h2⟩ := C47_grouped leaves hl dn data hd hs
    obtain ⟨i, hi, hie⟩ := List.getElem_of_mem h2.1
    have hlen := h1.length_eq
    have := h1.get (i := i) (by omega) hi
    simp only [List.get_eq_getElem] at this
    rw [hie] at this
    rcases this with ⟨g, _, _, h3, _⟩ | ⟨_, h3⟩
    · exact h3
    · rw [h3]; exact List.getElem_mem _
  · exact (C47_mode leaves dn data hd hc hs).1

/-- **C47** (order): the result does not depend on the order of the times. -/
theorem C47_order (leaves : List (Option String × ℤ)) (hl : (leaves.map Prod.snd).Nodup) (dn : List (ℤ × ℤ)) (data data' : List ℤ)
    (hd : data ≠ []) (hc : ∀ c ∈ data.map (unifyDayNight dn), c ∈ leaves.map Prod.snd) (hp : data.Perm data') :
    modalCategory leaves dn data = modalCategory leaves dn data' := by
  have hd' : data' ≠ [] := fun h => hd (by subst h; exact hp.eq_nil)
  have hp' := hp.map (unifyDayNight dn)
  have hc' : ∀ c ∈ data'.map (unifyDayNight dn), c ∈ leaves.map Prod.snd := fun c h => hc c (hp'.mem_iff.2 h)
  by_cases hs : Spec.NoneSignificant (data.map (unifyDayNight dn))
  · have hs' : Spec.NoneSignificant (data'.map (unifyDayNight dn)) := by
      intro v hv
      rw [← hp'.count_eq, ← hp'.length_eq]
      exact hs v (hp'.mem_iff.2 hv)
    obtain ⟨e1, h1, h2⟩ := C47_grouped leaves hl dn data hd hs
    obtain ⟨e2, h3, h4⟩ := C47_grouped leaves hl dn data' hd' hs'
    have hg : ∀ c c', Spec.Grouped leaves (data.map (unifyDayNight dn)) c c' ↔ Spec.Grouped leaves (data'.map (unifyDayNight dn)) c c' := by
      intro c c'
      unfold Spec.Grouped
      simp only [hp'.mem_iff]
    have h3' : List.Forall₂ (Spec.Grouped leaves (data.map (unifyDayNight dn))) (data'.map (unifyDayNight dn)) e2 :=
      h3.imp (fun a b h => (hg a b).2 h)
    obtain ⟨e3, h5, h6⟩ := List.perm_comp_forall₂ hp'.symm h1
    have hee : e3 = e2 :=
      List.right_unique_forall₂' (fun a b c ha hb => grouped_functional leaves hl _ a b c ha hb) h5 h3'
    subst hee
    exact isMode_unique h2 (isMode_perm h6 h4)
  · have hs' : ¬ Spec.NoneSignificant (data'.map (unifyDayNight dn)) := by
      intro h
      apply hs
      intro v hv
      rw [hp'.count_eq, hp'.length_eq]
      exact h v (hp'.mem_iff.1 hv)
    exact isMode_unique (isMode_perm hp' (C47_mode leaves dn data hd hc hs)) (C47_mode leaves dn data' hd' hc' hs')

/-- A small tree: codes 1..5, the codes 3, 4 and 5 forming the group "wet", 2 the day variant of 0. -/
def modalLeaves : List (Option String × ℤ) := [(none, 0), (none, 1), (none, 2), (some "wet", 3), (some "wet", 4), (some "wet", 5)]

example : ∀ c ∈ [0, 1, 3].map (unifyDayNight [(2, 0)]), c ∈ modalLeaves.map Prod.snd := by decide
example : (modalLeaves.map Prod.snd).Nodup := by decide
-- a tie between 1 and 2 (0 counts as 2) goes to the higher code
example : modalCategory modalLeaves [(2, 0)] [1, 0, 1, 2] = 2 := by decide +kernel
-- no category covers three tenths of these ten times, so that the group "wet" (6 of 10) decides, with its lowest code present
example : modalCategory modalLeaves [(2, 0)] [1, 1, 4, 4, 5, 5, 2, 2, 4, 5] = 5 := by decide +kernel
example : modalCategory modalLeaves [(2, 0)] [1, 1, 4, 4, 5, 5, 2, 2, 3, 3] = 3 := by decide +kernel
example : Spec.NoneSignificant ([1, 1, 4, 4, 5, 5, 2, 2, 3, 3].map (unifyDayNight [(2, 0)])) := by
  unfold Spec.NoneSignificant; decide +kernel

end Improver
