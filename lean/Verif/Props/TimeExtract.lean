import Verif.Model.TimeExtract

/-! C295: choosing cubes by time. -/

namespace Improver

namespace Spec

/-- Two times fall in the same hour of the clock. -/
def SameHour (s t : ℤ) : Prop := ∃ h : ℤ, (3600 * h ≤ s ∧ s < 3600 * (h + 1)) ∧ 3600 * h ≤ t ∧ t < 3600 * (h + 1)

/-- The start of an hour of the clock. -/
def HourStart (t h : ℤ) : Prop := 3600 ∣ h ∧ h ≤ t ∧ t < h + 3600

/-- The time by which a cell is placed in a range: its later bound, or its point. -/
def Placed (c : ClockCell) (t : ℤ) : Prop := (∃ a b, c.bound = some (a, b) ∧ (t = a ∨ t = b) ∧ a ≤ t ∧ b ≤ t) ∨ (c.bound = none ∧ t = c.point)

end Spec

theorem wholeHour_spec (t : ℤ) : 3600 * wholeHour t ≤ t ∧ t < 3600 * (wholeHour t + 1) := by unfold wholeHour; omega

/-- C295 (one time): the times that fit are those of the same hour of the clock. -/
theorem C295_same_hour (start : ℤ) (c : ClockCell) : timeConstraint start none c = true ↔ Spec.SameHour start c.point := by
  unfold timeConstraint
  rw [decide_eq_true_iff]
  have h1 := wholeHour_spec start
  have h2 := wholeHour_spec c.point
  constructor
  · intro e; rw [e] at h2; exact ⟨wholeHour start, h1, e ▸ wholeHour_spec c.point⟩
  · rintro ⟨h, h3, h4⟩; unfold wholeHour; omega

/-- C295 (range): those from the start of the first hour to before the start of the last, both by the clock; periods are placed by their end. -/
theorem C295_range (start limit hs hl : ℤ) (h1 : Spec.HourStart start hs) (h2 : Spec.HourStart limit hl) (c : ClockCell) (t : ℤ) (ht : Spec.Placed c t) :
    timeConstraint start (some limit) c = true ↔ hs ≤ t ∧ t < hl := by
  obtain ⟨⟨a, rfl⟩, h3, h4⟩ := h1
  obtain ⟨⟨b, rfl⟩, h5, h6⟩ := h2
  have key : ∀ t, (wholeHour start ≤ wholeHour t ∧ wholeHour t < wholeHour limit) ↔ (3600 * a ≤ t ∧ t < 3600 * b) := by
    intro t; unfold wholeHour; omega
  unfold timeConstraint
  dsimp only
  rw [decide_eq_true_iff]
  rcases ht with ⟨p, q, e, hpq, hp, hq⟩ | ⟨e, rfl⟩
  · rw [e]
    have : max p q = t := by omega
    dsimp only
    rw [this]
    exact key t
  · rw [e]
    exact key c.point

/-- C295 (found): a cube is returned just if one cube, and no other, has times that fit; it holds those times, in their order, with their data. -/
theorem C295_found {D : Type} (fits : ClockCell → Bool) (cubes : List (TimedSlices D)) (out : TimedSlices D) :
    extractCubeAtTime fits cubes = some out ↔
      ∃ before c after, cubes = before ++ c :: after ∧ (∀ d ∈ before ++ after, ∀ s ∈ d, fits s.1 = false) ∧ out = c.filter (fun s => fits s.1) ∧ out ≠ [] := by
  have hnil : ∀ l : List (TimedSlices D), ((l.map fun c => c.filter fun s => fits s.1).filter fun c => !c.isEmpty) = [] ↔ ∀ d ∈ l, ∀ s ∈ d, fits s.1 = false := by
    intro l
    rw [List.filter_eq_nil_iff]
    constructor
    · intro h d hd s hs
      have := h _ (List.mem_map.2 ⟨d, hd, rfl⟩)
      by_contra hf
      have hm : s ∈ d.filter fun s => fits s.1 := List.mem_filter.2 ⟨hs, by simpa using hf⟩
      cases he : d.filter fun s => fits s.1 with
      | nil => rw [he] at hm; exact nomatch hm
      | cons x y => rw [he] at this; exact this rfl
    · intro h c hc
      obtain ⟨d, hd, rfl⟩ := List.mem_map.1 hc
      have : d.filter (fun s => fits s.1) = [] := List.filter_eq_nil_iff.2 fun s hs => by simp [h d hd s hs]
      rw [this]
      simp
  have hone : ∀ l : List (TimedSlices D), ((l.map fun c => c.filter fun s => fits s.1).filter fun c => !c.isEmpty) = [out] ↔
      ∃ before c after, l = before ++ c :: after ∧ (∀ d ∈ before ++ after, ∀ s ∈ d, fits s.1 = false) ∧ out = c.filter (fun s => fits s.1) ∧ out ≠ [] := by
    intro l
    induction l with
    | nil =>
      constructor
      · intro h; exact nomatch h
      · rintro ⟨b, c, a, h, -⟩; exact absurd h (by simp)
    | cons d l ih =>
      cases hd : d.filter fun s => fits s.1 with
      | nil =>
        rw [List.map_cons, hd, List.filter_cons_of_neg (by simp), ih]
        have hdn : ∀ s ∈ d, fits s.1 = false := fun s hs => by simpa using List.filter_eq_nil_iff.1 hd s hs
        constructor
        · rintro ⟨b, c, a, rfl, h1, h2⟩
          refine ⟨d :: b, c, a, rfl, ?_, h2⟩
          intro e he
          rcases List.mem_cons.1 (List.cons_append ▸ he) with rfl | he
          · exact hdn
          · exact h1 e he
        · rintro ⟨b, c, a, h, h1, h2, h3⟩
          cases b with
          | nil =>
            obtain ⟨rfl, rfl⟩ := List.cons.inj h
            rw [hd] at h2
            exact absurd h2 h3
          | cons e b =>
            obtain ⟨rfl, rfl⟩ := List.cons.inj h
            exact ⟨b, c, a, rfl, fun x hx => h1 x (List.mem_cons_of_mem _ hx), h2, h3⟩
      | cons x y =>
        rw [List.map_cons, hd, List.filter_cons_of_pos (by simp)]
        constructor
        · intro h
          obtain ⟨h1, h2⟩ := List.cons.inj h
          exact ⟨[], d, l, rfl, (hnil l).1 h2, by rw [hd, h1], by rw [← h1]; simp⟩
        · rintro ⟨b, c, a, h, h1, h2, h3⟩
          cases b with
          | nil =>
            obtain ⟨rfl, rfl⟩ := List.cons.inj h
            rw [(hnil l).2 (by simpa using h1), h2, hd]
          | cons e b =>
            obtain ⟨rfl, rfl⟩ := List.cons.inj h
            have : d.filter (fun s => fits s.1) = [] := List.filter_eq_nil_iff.2 fun s hs => by
              have := h1 d (.head _) s hs
              simp [this]
            rw [hd] at this
            exact nomatch this
  rw [← hone]
  unfold extractCubeAtTime
  split
  · next c h => rw [h]; simp
  · next h =>
    constructor
    · intro e; exact nomatch e
    · intro e; exact absurd e (h out)

/-- C295 (finding): a cube for another time of the hour is returned as that for the time asked for: asked for 03:15, one finds 03:45. -/
theorem C295_minutes_refuted : ∃ (start : ℤ) (cubes : List (TimedSlices ℕ)) (out : TimedSlices ℕ), extractCubeAtTime (timeConstraint start none) cubes = some out ∧
    ∀ s ∈ out, s.1.point ≠ start :=
  ⟨11700, [[(⟨13500, none⟩, 1)], [(⟨18000, none⟩, 2)]], [(⟨13500, none⟩, 1)], by decide +kernel, by decide +kernel⟩

/-- C295 (finding): a time in the range asked for is not found if it is in the hour in which the range ends. -/
theorem C295_range_refuted : ∃ (start limit t : ℤ), start ≤ t ∧ t < limit ∧ timeConstraint start (some limit) ⟨t, none⟩ = false :=
  ⟨10800, 23400, 22500, by decide, by decide, by decide +kernel⟩

/-! A case: half-hourly periods, from 03:00 to 06:00. -/

example : extractCubeAtTime (timeConstraint 10800 (some 21600)) [[(⟨9000, some (7200, 9000)⟩, 1), (⟨10800, some (9000, 10800)⟩, 2), (⟨21600, some (19800, 21600)⟩, 3)], [(⟨0, none⟩, 4)]] =
    some [(⟨10800, some (9000, 10800)⟩, 2)] := by decide +kernel

example : Spec.HourStart 11700 10800 ∧ Spec.Placed ⟨10800, some (9000, 10800)⟩ 10800 := ⟨⟨⟨3, by norm_num⟩, by norm_num, by norm_num⟩, .inl ⟨_, _, rfl, .inr rfl, by norm_num, le_refl _⟩⟩

end Improver
