import Verif.Model.CalUtil
import Mathlib.Order.Bounds.Basic
import Mathlib.Tactic.FinCases
import Mathlib.Data.List.Dedup

/-!
C125 (compatibility of coefficients and forecast), C126 (matching of forecasts and truths),
C127 (reference times, consistency, amount of data).
-/

namespace Improver
namespace Spec

/-- The values between which a coordinate extends: its cell bounds, if any, otherwise its
points. -/
def occupied (c : SpatialCoord) : Set ℚ :=
  match c.bounds with
  | none => {v | v ∈ c.points}
  | some bs => {v | ∃ b ∈ bs, v = b.1 ∨ v = b.2}

/-- Two coordinates cover the same extent. -/
def sameExtent (a b : SpatialCoord) : Prop :=
  ∃ lo hi, IsLeast (occupied a) lo ∧ IsGreatest (occupied a) hi ∧
    IsLeast (occupied b) lo ∧ IsGreatest (occupied b) hi

/-- Hour of the day (UTC) of a time in seconds since 1970. -/
def hourOfDay (t : ℤ) : ℤ := t / 3600 % 24

/-- The coefficients were made for forecasts like `fc`. -/
def compatible (tolerate : Bool) (fc c : CalMeta) : Prop :=
  fc.name = c.name ∧
  (tolerate = true ∨
    (∃ p q, fc.fp = [p] ∧ c.fp = [q] ∧ ⌈p / 3600⌉ = ⌈q / 3600⌉) ∧
    (∀ h, (∃ t ∈ fc.frt, hourOfDay t = h) ↔ (∃ t ∈ c.frt, hourOfDay t = h))) ∧
  (fc.spot = true ∨ (sameExtent fc.x c.x ∧ sameExtent fc.y c.y))

end Spec

open Spec

theorem listMin_isLeast (a : ℚ) (l : List ℚ) : IsLeast {v | v ∈ a :: l} (listMin a l) := by
  unfold listMin
  induction l generalizing a with
  | nil => simp [IsLeast, mem_lowerBounds]
  | cons b t ih =>
    obtain ⟨h1, h2⟩ := ih (min a b)
    simp only [List.foldl_cons]
    constructor
    · rcases List.mem_cons.1 h1 with h | h
      · rw [h]
        rcases min_choice a b with h' | h' <;> rw [h'] <;> simp
      · exact List.mem_cons_of_mem _ (List.mem_cons_of_mem _ h)
    · intro v hv
      rcases List.mem_cons.1 hv with rfl | hv
      · exact (h2 (List.mem_cons_self ..)).trans (min_le_left _ _)
      · rcases List.mem_cons.1 hv with rfl | hv
        · exact (h2 (List.mem_cons_self ..)).trans (min_le_right _ _)
        · exact h2 (List.mem_cons_of_mem _ hv)

theorem listMax_isGreatest (a : ℚ) (l : List ℚ) : IsGreatest {v | v ∈ a :: l} (listMax a l) := by
  unfold listMax
  induction l generalizing a with
  | nil => simp [IsGreatest, mem_upperBounds]
  | cons b t ih =>
    obtain ⟨h1, h2⟩ := ih (max a b)
    simp only [List.foldl_cons]
    constructor
    · rcases List.mem_cons.1 h1 with h | h
      · rw [h]
        rcases max_choice a b with h' | h' <;> rw [h'] <;> simp
      · exact List.mem_cons_of_mem _ (List.mem_cons_of_mem _ h)
    · intro v hv
      rcases List.mem_cons.1 hv with rfl | hv
      · exact (le_max_left _ _).trans (h2 (List.mem_cons_self ..))
      · rcases List.mem_cons.1 hv with rfl | hv
        · exact (le_max_right _ _).trans (h2 (List.mem_cons_self ..))
        · exact h2 (List.mem_cons_of_mem _ hv)

theorem occupied_eq (c : SpatialCoord) : occupied c = {v | v ∈ c.values} := by
  unfold occupied SpatialCoord.values
  cases c.bounds with
  | none => rfl
  | some bs => ext v; simp [List.mem_flatMap]

theorem axisMatch_iff (f c : SpatialCoord) : axisMatch f c = .ok () ↔ sameExtent f c := by
  unfold sameExtent
  simp only [occupied_eq]
  unfold axisMatch SpatialCoord.collapsed
  simp only [bind, Except.bind]
  cases hf : f.values with
  | nil => simp [IsLeast]
  | cons a l =>
    cases hc : c.values with
    | nil => simp [IsLeast]
    | cons b k =>
      have h1 := listMin_isLeast a l
      have h2 := listMax_isGreatest a l
      have h3 := listMin_isLeast b k
      have h4 := listMax_isGreatest b k
      have key : extentsDiffer ((listMin a l + listMax a l) / 2, listMin a l, listMax a l)
          ((listMin b k + listMax b k) / 2, listMin b k, listMax b k) = false ↔
          listMin a l = listMin b k ∧ listMax a l = listMax b k := by
        unfold extentsDiffer
        simp only [ne_eq, Bool.or_eq_false_iff, Bool.and_eq_false_iff, decide_eq_false_iff_not,
          not_not]
        constructor
        · rintro ⟨h, h' | h'⟩
          · exact ⟨h', by linarith⟩
          · exact ⟨by linarith, h'⟩
        · rintro ⟨h, h'⟩
          exact ⟨by rw [h, h'], Or.inl h⟩
      simp only []
      constructor
      · intro h
        have hk : extentsDiffer ((listMin a l + listMax a l) / 2, listMin a l, listMax a l)
            ((listMin b k + listMax b k) / 2, listMin b k, listMax b k) = false := by
          by_contra hcon
          rw [Bool.not_eq_false] at hcon
          rw [if_pos hcon] at h
          nomatch h
        obtain ⟨e1, e2⟩ := key.1 hk
        exact ⟨_, _, h1, h2, e1 ▸ h3, e2 ▸ h4⟩
      · rintro ⟨lo, hi, g1, g2, g3, g4⟩
        have e1 := (h1.unique g1).trans (g3.unique h3)
        have e2 := (h2.unique g2).trans (g4.unique h4)
        rw [if_neg]
        rw [key.2 ⟨e1, e2⟩]
        exact Bool.false_ne_true

theorem axisLoop_iff (f : SpatialCoord) (l : List SpatialCoord) :
    axisLoop f l = .ok () ↔ ∀ c ∈ l, sameExtent f c := by
  induction l with
  | nil => simp [axisLoop]
  | cons c rest ih =>
    rw [List.forall_mem_cons, ← ih, ← axisMatch_iff]
    simp only [axisLoop, bind, Except.bind]
    cases h : axisMatch f c with
    | error e => simp
    | ok u => simp

theorem spatialDomainMatch_iff (fc : CalMeta) (cs : List CalMeta) :
    spatialDomainMatch fc cs = .ok () ↔
      ∀ c ∈ cs, fc.spot = true ∨ (sameExtent fc.x c.x ∧ sameExtent fc.y c.y) := by
  unfold spatialDomainMatch
  by_cases h : fc.spot = true
  · simp [h]
  · simp only [h, Bool.false_eq_true, if_false, bind, Except.bind, false_or]
    have hx := axisLoop_iff fc.x (cs.map (·.x))
    have hy := axisLoop_iff fc.y (cs.map (·.y))
    simp only [List.forall_mem_map] at hx hy
    cases e : axisLoop fc.x (cs.map (·.x)) with
    | error _ =>
      rw [e] at hx
      simp only [reduceCtorEq, false_iff] at hx ⊢
      exact fun hc => hx fun c hcc => (hc c hcc).1
    | ok u =>
      rw [e] at hx
      have hx' := hx.1 rfl
      simp only [hy]
      exact ⟨fun g c hc => ⟨hx' c hc, g c hc⟩, fun g c hc => (g c hc).2⟩

theorem diagnosticMatch_iff (fc : CalMeta) (cs : List CalMeta) :
    diagnosticMatch fc cs = .ok () ↔ ∀ c ∈ cs, fc.name = c.name := by
  induction cs with
  | nil => simp [diagnosticMatch]
  | cons c rest ih =>
    unfold diagnosticMatch
    by_cases h : fc.name = c.name
    · rw [if_neg (not_not.2 h), ih, List.forall_mem_cons]
      simp [h]
    · simp [h]

theorem sameSet_iff (a b : List ℤ) : sameSet a b = true ↔ ∀ h, h ∈ a ↔ h ∈ b := by
  unfold sameSet
  simp only [Bool.and_eq_true, List.all_eq_true, decide_eq_true_eq]
  exact ⟨fun ⟨h1, h2⟩ h => ⟨h1 h, h2 h⟩, fun h => ⟨fun x => (h x).1, fun x => (h x).2⟩⟩

theorem mem_frtHours (frt : List ℤ) (h : ℤ) :
    h ∈ frtHours frt ↔ ∃ t ∈ frt, hourOfDay t = h := by
  simp [frtHours, hourOfDay, List.mem_dedup]

theorem fpDiffer_false_iff (a b : List ℤ) :
    fpDiffer a b = .ok false ↔ ∃ p, a = [p] ∧ b = [p] := by
  constructor
  · intro h
    unfold fpDiffer at h
    match a, b, h with
    | [p], [q], h =>
      simp only [Except.ok.injEq, decide_eq_false_iff_not, ne_eq, not_not] at h
      exact ⟨p, rfl, by rw [h]⟩
    | [], _, h => nomatch h
    | [_], [], h => nomatch h
    | [_], _ :: _ :: _, h => nomatch h
    | _ :: _ :: _, _, h => nomatch h
  · rintro ⟨p, rfl, rfl⟩
    simp [fpDiffer]

theorem forecastCoordsMatch_iff (a b : CalMeta) : forecastCoordsMatch a b = .ok () ↔
    (∃ p q, b.fp = [p] ∧ a.fp = [q] ∧ ⌈p / 3600⌉ = ⌈q / 3600⌉) ∧
    (∀ h, (∃ t ∈ b.frt, hourOfDay t = h) ↔ (∃ t ∈ a.frt, hourOfDay t = h)) := by
  have hs : (∀ h, (∃ t ∈ b.frt, hourOfDay t = h) ↔ (∃ t ∈ a.frt, hourOfDay t = h)) ↔
      sameSet (frtHours a.frt) (frtHours b.frt) = true := by
    rw [sameSet_iff]
    simp only [mem_frtHours]
    exact forall_congr' fun _ => iff_comm
  have hp : (∃ p q, b.fp = [p] ∧ a.fp = [q] ∧ ⌈p / 3600⌉ = ⌈q / 3600⌉) ↔
      fpDiffer (ceilingFp a) (ceilingFp b) = .ok false := by
    rw [fpDiffer_false_iff]
    unfold ceilingFp
    constructor
    · rintro ⟨p, q, h1, h2, h3⟩
      exact ⟨⌈q / 3600⌉, by rw [h2]; rfl, by rw [h1]; simp [h3]⟩
    · rintro ⟨p, h1, h2⟩
      rw [List.map_eq_singleton_iff] at h1 h2
      obtain ⟨q, hq, e1⟩ := h1
      obtain ⟨r, hr, e2⟩ := h2
      exact ⟨r, q, hr, hq, by rw [e1, e2]⟩
  rw [hs, hp]
  unfold forecastCoordsMatch
  simp only [bind, Except.bind]
  cases fpDiffer (ceilingFp a) (ceilingFp b) with
  | error e => simp
  | ok d =>
    cases d <;> cases sameSet (frtHours a.frt) (frtHours b.frt) <;> simp

theorem allCoordsMatch_iff (fc : CalMeta) (cs : List CalMeta) :
    allCoordsMatch fc cs = .ok () ↔ ∀ c ∈ cs, forecastCoordsMatch c fc = .ok () := by
  induction cs with
  | nil => simp [allCoordsMatch]
  | cons c rest ih =>
    simp only [allCoordsMatch, bind, Except.bind, List.forall_mem_cons, ← ih]
    cases h : forecastCoordsMatch c fc with
    | error e => simp
    | ok u => simp

/-- C125: coefficients are accepted exactly when every coefficient cube was made for the same
diagnostic, the same forecast period (hours, rounded up) and hours of the forecast reference
times (unless mismatches are tolerated), and covers the same extent (unless the forecast is at
sites). -/
theorem C125_accepted (tolerate : Bool) (fc : CalMeta) (cs : List CalMeta) :
    emosChecks tolerate fc cs = .ok () ↔ ∀ c ∈ cs, compatible tolerate fc c := by
  unfold emosChecks
  simp only [bind, Except.bind, compatible]
  have h1 := diagnosticMatch_iff fc cs
  have h2 := allCoordsMatch_iff fc cs
  simp only [forecastCoordsMatch_iff] at h2
  have h3 := spatialDomainMatch_iff fc cs
  cases e1 : diagnosticMatch fc cs with
  | error _ =>
    rw [e1] at h1
    simp only [reduceCtorEq, false_iff] at h1 ⊢
    exact fun h => h1 fun c hc => (h c hc).1
  | ok u =>
    rw [e1] at h1
    have h1' := h1.1 rfl
    cases tolerate with
    | true =>
      simp only [if_true, true_or, true_and, h3]
      exact ⟨fun h c hc => ⟨h1' c hc, h c hc⟩, fun h c hc => (h c hc).2⟩
    | false =>
      simp only [Bool.false_eq_true, if_false, false_or]
      cases e2 : allCoordsMatch fc cs with
      | error _ =>
        rw [e2] at h2
        simp only [reduceCtorEq, false_iff] at h2 ⊢
        exact fun h => h2 fun c hc => (h c hc).2.1
      | ok u =>
        rw [e2] at h2
        have h2' := h2.1 rfl
        simp only [h3]
        exact ⟨fun h c hc => ⟨h1' c hc, h2' c hc, h c hc⟩, fun h c hc => (h c hc).2.2⟩

/-- Finding: coefficients of a grid with other points, even with another number of points, are
accepted when the outermost points agree. -/
theorem C125_resolution_refuted (name : String) (fp : ℚ) (frt : ℤ) (y : ℚ) :
    emosChecks false ⟨name, false, [fp], [frt], ⟨[0, 1, 2, 3, 4], none⟩, ⟨[y], none⟩⟩
      [⟨name, false, [fp], [frt], ⟨[0, 3, 4], none⟩, ⟨[y], none⟩⟩] = .ok () := by
  rw [C125_accepted]
  simp only [List.mem_singleton, forall_eq, compatible, true_and, Bool.false_eq_true, false_or]
  refine ⟨⟨⟨fp, fp, rfl, rfl, rfl⟩, by simp⟩, ⟨0, 4, ?_, ?_, ?_, ?_⟩, ⟨y, y, ?_, ?_, ?_, ?_⟩⟩ <;>
    (simp [occupied, IsLeast, IsGreatest, mem_lowerBounds, mem_upperBounds] <;> norm_num)

/-- Finding: for forecasts at sites nothing about the sites is compared, so coefficients of
other sites, in another order or of another number of sites, are accepted. -/
theorem C125_sites_refuted (name : String) (fp : ℚ) (frt : ℤ) (x y x' y' : SpatialCoord) :
    emosChecks false ⟨name, true, [fp], [frt], x, y⟩
      [⟨name, true, [fp], [frt], x', y'⟩] = .ok () := by
  rw [C125_accepted]
  simp only [List.mem_singleton, forall_eq, compatible, true_and, true_or, and_true]
  exact Or.inr ⟨⟨fp, fp, rfl, rfl, rfl⟩, by simp⟩

/-- Non-vacuity: a forecast for 29 hours ahead accepts coefficients for 28.5 hours of another
day, and refuses coefficients of a smaller domain. -/
example (fp : ℚ) (h : fp = 28 * 3600 + 1800) :
    emosChecks false ⟨"air_temperature", false, [29 * 3600], [48 * 3600], ⟨[0, 1], none⟩,
        ⟨[5], some [(4, 6)]⟩⟩
      [⟨"air_temperature", false, [fp], [0, 24 * 3600], ⟨[1/2], some [(0, 1)]⟩,
        ⟨[5], some [(4, 6)]⟩⟩] = .ok () := by
  subst h; decide +kernel

example : emosChecks true ⟨"t", false, [0], [0], ⟨[0, 1], none⟩, ⟨[5], none⟩⟩
      [⟨"t", false, [0], [0], ⟨[0, 1/2], none⟩, ⟨[5], none⟩⟩] = .error .valueError := by
  decide +kernel

end Improver
