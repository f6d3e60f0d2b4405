import Verif.Model.Sorting

namespace Improver

theorem npSort_perm (l : List ℚ) : (npSort l).Perm l := List.perm_insertionSort _ _

theorem npSort_sorted (l : List ℚ) : (npSort l).Pairwise (· ≤ ·) :=
  List.pairwise_insertionSort _ _

theorem npSort_length (l : List ℚ) : (npSort l).length = l.length := (npSort_perm l).length_eq

theorem npSort_of_sorted {l : List ℚ} (h : l.Pairwise (· ≤ ·)) : npSort l = l :=
  List.Pairwise.insertionSort_eq h

/-- Two ascending lists with the same multiset of values are equal. -/
theorem eq_of_perm_sorted {l m : List ℚ} (h : l.Perm m) (hl : l.Pairwise (· ≤ ·)) (hm : m.Pairwise (· ≤ ·)) :
    l = m := List.Perm.eq_of_pairwise' hl hm h

theorem argsort_perm {α : Type} [LinearOrder α] [Inhabited α] (keys : List α) :
    (argsort keys).Perm (List.range keys.length) := List.perm_insertionSort _ _

theorem argsort_sorted {α : Type} [LinearOrder α] [Inhabited α] (keys : List α) :
    (argsort keys).Pairwise (fun i j => keys.getD i default ≤ keys.getD j default) := by
  haveI : Std.Total (fun i j : ℕ => keys.getD i default ≤ keys.getD j default) := ⟨fun _ _ => le_total _ _⟩
  haveI : IsTrans ℕ (fun i j : ℕ => keys.getD i default ≤ keys.getD j default) := ⟨fun _ _ _ => le_trans⟩
  exact List.pairwise_insertionSort _ _

theorem lexsort_perm (s p : List ℚ) : (lexsort s p).Perm (List.range p.length) :=
  List.perm_insertionSort _ _

theorem lexsort_sorted (s p : List ℚ) : (lexsort s p).Pairwise (lexLe s p) := by
  haveI : Std.Total (lexLe s p) := ⟨fun i j => by
    unfold lexLe
    rcases lt_trichotomy (p.getD i 0) (p.getD j 0) with h | h | h
    · exact .inl (.inl h)
    · rcases le_total (s.getD i 0) (s.getD j 0) with h' | h'
      · exact .inl (.inr ⟨h, h'⟩)
      · exact .inr (.inr ⟨h.symm, h'⟩)
    · exact .inr (.inl h)⟩
  haveI : IsTrans ℕ (lexLe s p) := ⟨fun i j k => by
    unfold lexLe
    rintro (h | ⟨h, h'⟩) (g | ⟨g, g'⟩)
    · exact .inl (h.trans g)
    · exact .inl (g ▸ h)
    · exact .inl (h ▸ g)
    · exact .inr ⟨h.trans g, h'.trans g'⟩⟩
  exact List.pairwise_insertionSort _ _

theorem map_getD_range {α : Type} (l : List α) (d : α) :
    (List.range l.length).map (fun k => l.getD k d) = l := by
  apply List.ext_getElem
  · simp
  · intro i h1 h2
    simp [List.getElem?_eq_getElem h2]

/-- Reindexing a list by a permutation of its indices permutes its values. -/
theorem map_getD_perm {α : Type} (l : List α) (d : α) {idx : List ℕ} (h : idx.Perm (List.range l.length)) :
    (idx.map (fun k => l.getD k d)).Perm l := by
  conv_rhs => rw [← map_getD_range l d]
  exact h.map _

/-- `argsort` of a permutation of `0..n-1` is its inverse. -/
theorem argsort_inverse {σ : List ℕ} {n : ℕ} (h : σ.Perm (List.range n)) {k : ℕ} (hk : k < n) :
    σ.getD ((argsort σ).getD k 0) 0 = k := by
  have hl : σ.length = n := by simpa using h.length_eq
  have hp : ((argsort σ).map (fun k => σ.getD k 0)).Perm (List.range n) :=
    (map_getD_perm σ 0 (argsort_perm σ)).trans h
  have hs : ((argsort σ).map (fun k => σ.getD k 0)).Pairwise (· ≤ ·) := by
    rw [List.pairwise_map]; exact argsort_sorted σ
  have he : (argsort σ).map (fun k => σ.getD k 0) = List.range n :=
    List.Perm.eq_of_pairwise' (r := (· ≤ ·)) hs (by
      have := List.pairwise_lt_range (n := n)
      exact this.imp (fun h => le_of_lt h)) hp
  have hal : (argsort σ).length = n := by rw [(argsort_perm σ).length_eq]; simpa using hl
  have : ((argsort σ).map (fun k => σ.getD k 0)).getD k 0 = k := by
    rw [he]; simp [hk]
  rw [List.getD_eq_getElem _ _ (by simpa [hal] using hk)] at this
  rw [List.getD_eq_getElem (argsort σ) _ (by rw [hal]; exact hk)]
  simpa using this

end Improver
