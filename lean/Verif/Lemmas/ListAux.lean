import Verif.Basic

/-! List helpers. -/

namespace Improver

theorem foldl_min_le (d : ℚ) (ds : List ℚ) : ds.foldl min d ≤ d ∧ ∀ x ∈ ds, ds.foldl min d ≤ x := by
  induction ds generalizing d with
  | nil => simp
  | cons e ds ih =>
    simp only [List.foldl_cons, List.mem_cons]
    have := ih (min d e)
    refine ⟨this.1.trans (min_le_left _ _), ?_⟩
    rintro x (rfl | hx)
    · exact this.1.trans (min_le_right _ _)
    · exact this.2 x hx

theorem foldl_le_max (d : ℚ) (ds : List ℚ) : d ≤ ds.foldl max d ∧ ∀ x ∈ ds, x ≤ ds.foldl max d := by
  induction ds generalizing d with
  | nil => simp
  | cons e ds ih =>
    simp only [List.foldl_cons, List.mem_cons]
    have := ih (max d e)
    refine ⟨(le_max_left _ _).trans this.1, ?_⟩
    rintro x (rfl | hx)
    · exact (le_max_right _ _).trans this.1
    · exact this.2 x hx

theorem mapM_ok_forall {α β : Type} (f : α → Except Err β) (l : List α) (out : List β)
    (h : l.mapM f = .ok out) : List.Forall₂ (fun a b => f a = .ok b) l out := by
  induction l generalizing out with
  | nil =>
    have : out = [] := by simpa [pure, Except.pure] using h.symm
    subst this; exact .nil
  | cons a l ih =>
    rw [List.mapM_cons] at h
    cases ha : f a with
    | error e => rw [ha] at h; cases h
    | ok b =>
      rw [ha] at h
      cases hl : l.mapM f with
      | error e => simp [hl, bind, Except.bind] at h
      | ok bs =>
        simp only [hl, bind, Except.bind, pure, Except.pure] at h
        injection h with h; subst h
        exact .cons ha (ih bs hl)

theorem mapM_ok_of_forall {α β : Type} (f : α → Except Err β) (g : α → β) (l : List α)
    (h : ∀ a ∈ l, f a = .ok (g a)) : l.mapM f = .ok (l.map g) := by
  induction l with
  | nil => rfl
  | cons a l ih =>
    rw [List.mapM_cons, h a (by simp), ih (fun b hb => h b (by simp [hb]))]
    rfl

end Improver
