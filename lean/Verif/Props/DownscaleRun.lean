import Verif.Model.DownscaleRun
import Verif.Model.WindDown
import Verif.Props.VicinityRun
import Verif.Props.LevelRun
import Verif.Props.CombineRun
import Verif.Props.ThresholdRun
import Verif.Props.EvRun

/-! C272: wind downscaling of whole cubes. -/

namespace Improver
namespace Spec

/-- Vertical coordinates known to wind downscaling. -/
def isVertical (z : String) : Prop := z = "height" ∨ z = "model_level_number"

/-- A wind speed as iris makes cubes: its dimensions differ, dimension coordinates have no repeated points, and it has one vertical coordinate, which is not
one of the horizontal ones. -/
structure WindReady {α : Type} (c : WindIn α) (z : String) : Prop where
  nodup : c.dims.Nodup
  vertical : isVertical z
  only : ∀ n, isVertical n → n ∈ c.dims ++ c.scalars → n = z
  points : ∀ n ∈ c.dims, (c.points n).Nodup

/-- The speeds of the column through a place. -/
def windProfile {α : Type} (c : PointCube α) (z : String) (a : String → ℕ) : List α :=
  (List.range (c.points z).length).map fun k => placeValue c.toDimCube (along a z k)

/-- The corrected speed at a place: the correction of the column through it, at its level. -/
def downscaled {α : Type} (f : ℕ → ℕ → List ℚ → List α → List α) (c : WindIn α) (z : String) (a : String → ℕ) (v : α) : Prop :=
  v = (f (a c.yName) (a c.xName) (c.points z) (windProfile c.toPointCube z a)).getD (a z) (placeValue c.toDimCube a)

/-- Place `b` of the result stands at the coordinates of place `a` of the input: times (and realizations) are in ascending order in the result. -/
def sameSpot {α : Type} (c : WindIn α) (a b : String → ℕ) : Prop :=
  ∀ n ∈ c.dims, if n = "time" ∨ n = "realization" then (npSort (c.points n))[b n]? = (c.points n)[a n]? else b n = a n

/-- What the plugin accepts: y, x (x right after y) and the vertical, with time as a further dimension (of two times or more) or as a scalar; named as in
the ancillaries; no speed that is missing or negative. -/
def windAccepted {α : Type} (bad : α → Bool) (ancY ancX : String) (c : WindIn α) (z : String) : Prop :=
  z ∈ c.dims ∧ c.yName ∈ c.dims ∧ c.xName ∈ c.dims ∧ c.yName = ancY ∧ c.xName = ancX ∧ c.dims.idxOf c.xName = c.dims.idxOf c.yName + 1 ∧
    ("time" ∈ c.dims ∧ c.dims.length = 4 ∧ (c.points "time").length ≠ 1 ∨ "time" ∉ c.dims ∧ c.dims.length = 3 ∧ "time" ∈ c.scalars) ∧
    ∀ a : String → ℕ, Inside c.toPointCube c.dims a → bad (placeValue c.toDimCube a) = false

end Spec

theorem theVertical_ready {α : Type} {c : WindIn α} {z : String} (h : Spec.WindReady c z) (hz : z ∈ c.dims ++ c.scalars) :
    theVertical (c.dims ++ c.scalars) = some z := by
  unfold theVertical
  cases hf : (c.dims ++ c.scalars).find? fun n => decide (n = "height" ∨ n = "model_level_number") with
  | none =>
    rw [List.find?_eq_none] at hf
    exact absurd (decide_eq_true (show z = "height" ∨ z = "model_level_number" from h.vertical)) (hf z hz)
  | some n =>
    have h1 : n = "height" ∨ n = "model_level_number" := by simpa using List.find?_some hf
    rw [h.only n h1 (List.mem_of_find?_eq_some hf)]

theorem theVertical_some {α : Type} {c : WindIn α} {z n : String} (h : Spec.WindReady c z) (hz : theVertical (c.dims ++ c.scalars) = some n) : n = z := by
  have h1 : n = "height" ∨ n = "model_level_number" := by simpa using List.find?_some hz
  exact h.only n h1 (List.mem_of_find?_eq_some hz)

/-- All indices of a cube are its places. -/
theorem any_places {α : Type} (c : PointCube α) (hn : c.dims.Nodup) (bad : α → Bool) :
    (arrayIndices c.shape).any (fun idx => bad (c.data idx)) = false ↔
      ∀ a : String → ℕ, Spec.Inside c c.dims a → bad (Spec.placeValue c.toDimCube a) = false := by
  rw [List.any_eq_false]
  unfold PointCube.shape
  constructor
  · intro h a ha
    have := h (c.dims.map a) ((mem_arrayIndices _ _).2 (index_of_place ha))
    unfold Spec.placeValue
    simpa using this
  · intro h idx hidx
    obtain ⟨a, rfl, ha⟩ := place_of_index hn ((mem_arrayIndices _ _).1 hidx)
    have := h a ha
    unfold Spec.placeValue at this
    simpa using this

/-- **C272 (what is accepted).** The plugin gives a result exactly for the winds described by `windAccepted`. -/
theorem C272_accepted {α : Type} (f : ℕ → ℕ → List ℚ → List α → List α) (bad : α → Bool) (ancY ancX : String) (c : WindIn α) (z : String)
    (h : Spec.WindReady c z) : (∃ out, downscaleOne f bad ancY ancX c = .ok out) ↔ Spec.windAccepted bad ancY ancX c z := by
  unfold Spec.windAccepted downscaleOne
  by_cases hz : z ∈ c.dims
  · rw [theVertical_ready h (List.mem_append_left _ hz)]
    simp only
    rw [← any_places c.toPointCube h.nodup bad]
    by_cases h1 : downscaleAxes c z = false
    · rw [if_pos h1]
      constructor
      · rintro ⟨out, ho⟩; exact nomatch ho
      · rintro ⟨-, hy, hx, -, -, -, ht, -⟩
        exfalso
        unfold downscaleAxes at h1
        rcases ht with ⟨ht, hl, -⟩ | ⟨ht, hl, -⟩ <;> simp [hy, hx, hz, ht, hl] at h1
    rw [if_neg h1]
    have hax : c.yName ∈ c.dims ∧ c.xName ∈ c.dims ∧ ("time" ∈ c.dims ∧ c.dims.length = 4 ∨ "time" ∉ c.dims ∧ c.dims.length = 3) := by
      unfold downscaleAxes at h1
      by_cases ht : "time" ∈ c.dims <;> simp [ht] at h1 <;> simp [ht, h1]
    by_cases h2 : c.yName ≠ ancY ∨ c.xName ≠ ancX ∨ c.dims.idxOf c.xName ≠ c.dims.idxOf c.yName + 1
    · rw [if_pos h2]
      constructor
      · rintro ⟨out, ho⟩; exact nomatch ho
      · rintro ⟨-, -, -, e1, e2, e3, -⟩
        rcases h2 with h2 | h2 | h2
        · exact absurd e1 h2
        · exact absurd e2 h2
        · exact absurd e3 h2
    rw [if_neg h2]
    push Not at h2
    by_cases h3 : "time" ∉ c.dims ∧ "time" ∉ c.scalars
    · rw [if_pos h3]
      constructor
      · rintro ⟨out, ho⟩; exact nomatch ho
      · rintro ⟨-, -, -, -, -, -, ht | ht, -⟩
        · exact absurd ht.1 h3.1
        · exact absurd ht.2.2 h3.2
    rw [if_neg h3]
    by_cases h4 : (arrayIndices c.toPointCube.shape).any (fun idx => bad (c.data idx)) = true
    · rw [if_pos h4]
      constructor
      · rintro ⟨out, ho⟩; exact nomatch ho
      · rintro ⟨-, -, -, -, -, -, -, e⟩
        rw [e] at h4; exact nomatch h4
    rw [if_neg h4]
    by_cases h5 : "time" ∈ c.dims ∧ (c.points "time").length = 1
    · rw [if_pos h5]
      constructor
      · rintro ⟨out, ho⟩; exact nomatch ho
      · rintro ⟨-, -, -, -, -, -, ht | ht, -⟩
        · exact absurd h5.2 ht.2.2
        · exact absurd h5.1 ht.1
    rw [if_neg h5]
    constructor
    · rintro -
      refine ⟨hz, hax.1, hax.2.1, h2.1, h2.2.1, h2.2.2, ?_, by simpa using h4⟩
      rcases hax.2.2 with ⟨ht, hl⟩ | ⟨ht, hl⟩
      · exact Or.inl ⟨ht, hl, fun e => h5 ⟨ht, e⟩⟩
      · exact Or.inr ⟨ht, hl, by by_contra hs; exact h3 ⟨ht, hs⟩⟩
    · intro _; exact ⟨_, rfl⟩
  · constructor
    · rintro ⟨out, ho⟩
      exfalso
      cases hv : theVertical (c.dims ++ c.scalars) with
      | none => rw [hv] at ho; exact nomatch ho
      | some n =>
        rw [hv, theVertical_some h hv] at ho
        simp only at ho
        rw [if_pos (by unfold downscaleAxes; simp [hz])] at ho
        exact nomatch ho
    · intro hh; exact absurd hh.1 hz

theorem windColumn_at {α : Type} {c : PointCube α} (hn : c.dims.Nodup) {z : String} (hz : z ∈ c.dims) (a : String → ℕ) :
    windColumn c z (c.dims.map a) = Spec.windProfile c z a := by
  unfold windColumn Spec.windProfile Spec.placeValue
  apply List.map_congr_left
  intro k _
  rw [map_set_named hn hz]

/-- **C272 (values, plugin).** An accepted wind keeps its dimensions, and at every place (found by its coordinates) the result is the corrected column through
that place. -/
theorem C272_values {α : Type} (f : ℕ → ℕ → List ℚ → List α → List α) (bad : α → Bool) (ancY ancX : String) (c : WindIn α) (z : String)
    (h : Spec.WindReady c z) (hr : "realization" ∉ c.dims) (out : PointCube α) (ho : downscaleOne f bad ancY ancX c = .ok out) :
    out.dims = c.dims ∧ (∀ n ∈ c.dims, out.points n = if n = "time" then npSort (c.points n) else c.points n) ∧
      ∀ a b : String → ℕ, Spec.Inside c.toPointCube c.dims a → Spec.sameSpot c a b → Spec.downscaled f c z a (Spec.placeValue out.toDimCube b) := by
  obtain ⟨hz, hy, hx, -⟩ := (C272_accepted f bad ancY ancX c z h).1 ⟨out, ho⟩
  unfold downscaleOne at ho
  rw [theVertical_ready h (List.mem_append_left _ hz)] at ho
  simp only at ho
  have he : out = downscaledCube f c z := by
    by_cases h1 : downscaleAxes c z = false
    · rw [if_pos h1] at ho; exact nomatch ho
    rw [if_neg h1] at ho
    by_cases h2 : c.yName ≠ ancY ∨ c.xName ≠ ancX ∨ c.dims.idxOf c.xName ≠ c.dims.idxOf c.yName + 1
    · rw [if_pos h2] at ho; exact nomatch ho
    rw [if_neg h2] at ho
    by_cases h3 : "time" ∉ c.dims ∧ "time" ∉ c.scalars
    · rw [if_pos h3] at ho; exact nomatch ho
    rw [if_neg h3] at ho
    by_cases h4 : (arrayIndices c.toPointCube.shape).any (fun idx => bad (c.data idx)) = true
    · rw [if_pos h4] at ho; exact nomatch ho
    rw [if_neg h4] at ho
    by_cases h5 : "time" ∈ c.dims ∧ (c.points "time").length = 1
    · rw [if_pos h5] at ho; exact nomatch ho
    rw [if_neg h5] at ho
    exact (Except.ok.inj ho).symm
  subst he
  refine ⟨rfl, ?_, ?_⟩
  · intro n hn
    unfold downscaledCube
    simp only
    by_cases ht : "time" ∈ c.dims
    · rw [if_pos ht]; simp
    · rw [if_neg ht]
      have : n ≠ "time" := fun e => ht (e ▸ hn)
      simp [this]
  · intro a b ha hb
    unfold Spec.downscaled
    have hplace : sortedPlace c.dims (if "time" ∈ c.dims then ["time"] else []) c.points (c.dims.map b) = c.dims.map a := by
      apply sortedPlace_named
      · intro n hn
        by_cases ht : "time" ∈ c.dims
        · rw [if_pos ht, List.mem_singleton] at hn
          subst hn
          have := hb _ ht
          rw [if_pos (Or.inl rfl)] at this
          exact argsort_index (h.points _ ht) (ha _ ht) this
        · rw [if_neg ht] at hn; exact absurd hn (List.not_mem_nil)
      · intro n hn hno
        have h1 : n ≠ "time" := by
          intro e
          apply hno
          rw [if_pos (e ▸ hn), e]; exact List.mem_singleton.2 rfl
        have h2 : n ≠ "realization" := fun e => hr (e ▸ hn)
        have := hb n hn
        rwa [if_neg (by rintro (e | e); exacts [h1 e, h2 e])] at this
    show (downscaledCube f c z).data ((downscaledCube f c z).dims.map b) = _
    unfold downscaledCube
    simp only
    rw [hplace]
    unfold windCorrectedAt
    rw [getD_map_idxOf hy, getD_map_idxOf hx, getD_map_idxOf hz, windColumn_at h.nodup hz]
    rfl

theorem member_ready {α : Type} {c : WindIn α} {z : String} (h : Spec.WindReady c z) (i : ℕ) : Spec.WindReady (c.member i) z where
  nodup := h.nodup.erase _
  vertical := h.vertical
  only := by
    intro n hn hm
    apply h.only n hn
    have hm' : n ∈ c.dims.erase "realization" ++ "realization" :: c.scalars := hm
    rw [List.mem_append, List.mem_cons] at hm'
    rcases hm' with hm' | rfl | hm'
    · exact List.mem_append_left _ (List.mem_of_mem_erase hm')
    · exfalso; rcases hn with e | e <;> exact absurd e (by decide)
    · exact List.mem_append_right _ hm'
  points := fun n hn => h.points n (List.mem_of_mem_erase hn)

theorem member_at {α : Type} {c : WindIn α} (hn : c.dims.Nodup) (hr : "realization" ∈ c.dims) (i : ℕ) (a : String → ℕ) :
    Spec.placeValue (c.member i).toDimCube a = Spec.placeValue c.toDimCube (Spec.along a "realization" i) :=
  sliceAt_at c.toPointCube hn hr i a

theorem along_swap {a : String → ℕ} {d e : String} (h : d ≠ e) (i j : ℕ) : Spec.along (Spec.along a d i) e j = Spec.along (Spec.along a e j) d i := by
  funext n
  unfold Spec.along
  by_cases h1 : n = d
  · subst h1; simp [h]
  · simp [h1]

theorem along_self (a : String → ℕ) (d : String) : Spec.along a d (a d) = a := by
  funext n
  unfold Spec.along
  by_cases h1 : n = d
  · subst h1; simp
  · simp [h1]

/-- **C272 (values, command).** With realizations as a dimension, all of them are corrected, each by its own columns; the result is led by realization, and at
every place (found by its coordinates) it is the corrected column through that place. -/
theorem C272_members {α : Type} (f : ℕ → ℕ → List ℚ → List α → List α) (bad : α → Bool) (ancY ancX : String) (c : WindIn α) (z : String)
    (h : Spec.WindReady c z) (hr : "realization" ∈ c.dims) (hy : c.yName ≠ "realization") (hx : c.xName ≠ "realization") (out : PointCube α)
    (ho : downscaleCommand f bad ancY ancX none c = .ok out) :
    out.dims = "realization" :: c.dims.erase "realization" ∧
      (∀ n ∈ c.dims, out.points n = if n = "time" ∨ n = "realization" then npSort (c.points n) else c.points n) ∧
      ∀ a b : String → ℕ, Spec.Inside c.toPointCube c.dims a → Spec.sameSpot c a b → Spec.downscaled f c z a (Spec.placeValue out.toDimCube b) := by
  have ho' : downscaleMembers f bad ancY ancX c = .ok out := by
    unfold downscaleCommand at ho
    simp only [bind, Except.bind] at ho
    cases hd : downscaleMembers f bad ancY ancX c with
    | error e => rw [hd] at ho; exact nomatch ho
    | ok r => rw [hd] at ho; exact ho
  unfold downscaleMembers at ho'
  rw [if_pos hr] at ho'
  cases hm : (List.range (c.points "realization").length).mapM fun i => downscaleOne f bad ancY ancX (c.member i) with
  | error e => rw [hm] at ho'; exact nomatch ho'
  | ok outs =>
  rw [hm] at ho'
  cases outs with
  | nil => exact nomatch ho'
  | cons o t =>
  have he : out = mergeWindMembers (c.points "realization") o (o :: t) := (Except.ok.inj ho').symm
  clear ho ho'
  have hf := mapM_ok_forall₂ hm
  have hlen : (o :: t).length = (c.points "realization").length := by rw [← hf.length_eq, List.length_range]
  have hget : ∀ i, i < (c.points "realization").length → downscaleOne f bad ancY ancX (c.member i) = .ok ((o :: t).getD i o) := by
    intro i hi
    have h1 : i < (List.range (c.points "realization").length).length := by rw [List.length_range]; exact hi
    have h2 : i < (o :: t).length := by rw [hlen]; exact hi
    have := hf.get h1 h2
    simp only [List.get_eq_getElem, List.getElem_range] at this
    rw [this, List.getD_eq_getElem _ _ h2]
  have hre : "realization" ∉ c.dims.erase "realization" := h.nodup.not_mem_erase
  have hvr : z ≠ "realization" := by rcases h.vertical with e | e <;> rw [e] <;> decide
  have h0 : downscaleOne f bad ancY ancX (c.member 0) = .ok o := by
    have := hget 0 (by rw [← hlen]; simp)
    rwa [List.getD_cons_zero] at this
  obtain ⟨hd0, hp0, -⟩ := C272_values f bad ancY ancX (c.member 0) z (member_ready h 0) hre o h0
  have hd0' : o.dims = c.dims.erase "realization" := hd0
  subst he
  refine ⟨by show "realization" :: o.dims = _; rw [hd0'], ?_, ?_⟩
  · intro n hn
    show (if n = "realization" then npSort (c.points "realization") else o.points n) = _
    by_cases hnr : n = "realization"
    · rw [if_pos hnr, if_pos (Or.inr hnr), hnr]
    · rw [if_neg hnr, hp0 n ((List.mem_erase_of_ne hnr).2 hn)]
      by_cases hnt : n = "time"
      · rw [if_pos hnt, if_pos (Or.inl hnt)]; rfl
      · rw [if_neg hnt, if_neg (by rintro (e | e); exacts [hnt e, hnr e])]; rfl
  · intro a b ha hb
    have hbr := hb _ hr
    rw [if_pos (Or.inr rfl)] at hbr
    have hi := argsort_index (h.points _ hr) (ha _ hr) hbr
    have hv := hget _ (ha _ hr)
    obtain ⟨hd, -, hval⟩ := C272_values f bad ancY ancX (c.member (a "realization")) z (member_ready h _) hre _ hv
    have hd' : ((o :: t).getD (a "realization") o).dims = c.dims.erase "realization" := hd
    have key := hval a b (fun n hn => ha n (List.mem_of_mem_erase hn)) (fun n hn => hb n (List.mem_of_mem_erase hn))
    have hprof : Spec.windProfile (c.member (a "realization")).toPointCube z a = Spec.windProfile c.toPointCube z a := by
      unfold Spec.windProfile
      apply List.map_congr_left
      intro k _
      rw [member_at h.nodup hr, along_swap hvr, along_self]
    unfold Spec.downscaled at key ⊢
    rw [hprof, member_at h.nodup hr, along_self] at key
    have e : Spec.placeValue (mergeWindMembers (c.points "realization") o (o :: t)).toDimCube b =
        Spec.placeValue ((o :: t).getD (a "realization") o).toDimCube b := by
      show ((o :: t).getD ((argsort (c.points "realization")).getD (b "realization") 0) o).data (o.dims.map b) = _
      rw [hi, hd0', ← hd']
      rfl
    rw [e, key]
    rfl

/-- **C272 (without realizations).** A wind without realizations is corrected as it is; a scalar realization becomes a leading dimension of length one. -/
theorem C272_single {α : Type} (f : ℕ → ℕ → List ℚ → List α → List α) (bad : α → Bool) (ancY ancX : String) (c : WindIn α) (hr : "realization" ∉ c.dims) :
    ("realization" ∉ c.scalars → downscaleCommand f bad ancY ancX none c = downscaleOne f bad ancY ancX c) ∧
    ∀ r, "realization" ∈ c.scalars → c.points "realization" = [r] → ∀ out, downscaleOne f bad ancY ancX c = .ok out →
      ∃ res, downscaleCommand f bad ancY ancX none c = .ok res ∧ res.dims = "realization" :: out.dims ∧ res.points "realization" = [r] ∧
        ∀ idx, res.data (0 :: idx) = out.data idx := by
  constructor
  · intro hs
    unfold downscaleCommand downscaleMembers
    rw [if_neg hr, if_neg hs]
    simp only [bind, Except.bind]
    cases downscaleOne f bad ancY ancX c <;> rfl
  · intro r hs hp out ho
    refine ⟨mergeWindMembers (c.points "realization") out [out], ?_, rfl, ?_, ?_⟩
    · unfold downscaleCommand downscaleMembers
      rw [if_neg hr, if_pos hs, ho]
      rfl
    · unfold mergeWindMembers
      simp only [if_pos]
      rw [hp]
      exact npSort_of_sorted (by simp)
    · intro idx
      unfold mergeWindMembers
      simp only [List.getD_cons_zero, List.drop_one, List.tail_cons]
      rw [hp]
      have : ((argsort [r]).getD 0 0) = 0 := argsort_index (p := [r]) (by simp) (by simp) (by rw [npSort_of_sorted (by simp)])
      rw [this]
      rfl

/-- **C272 (one bad speed).** A speed that is missing or negative anywhere, at any time or level and in any realization, stops the whole command. -/
theorem C272_bad_speed {α : Type} (f : ℕ → ℕ → List ℚ → List α → List α) (bad : α → Bool) (ancY ancX : String) (level : Option (ℚ × StdUnit)) (c : WindIn α)
    (z : String) (h : Spec.WindReady c z) (a : String → ℕ) (ha : Spec.Inside c.toPointCube c.dims a) (hb : bad (Spec.placeValue c.toDimCube a) = true)
    (out : PointCube α) : downscaleCommand f bad ancY ancX level c ≠ .ok out := by
  intro ho
  unfold downscaleCommand at ho
  simp only [bind, Except.bind] at ho
  cases hd : downscaleMembers f bad ancY ancX c with
  | error e => rw [hd] at ho; exact nomatch ho
  | ok r =>
  clear ho
  unfold downscaleMembers at hd
  by_cases hr : "realization" ∈ c.dims
  · rw [if_pos hr] at hd
    cases hm : (List.range (c.points "realization").length).mapM fun i => downscaleOne f bad ancY ancX (c.member i) with
    | error e => rw [hm] at hd; exact nomatch hd
    | ok outs =>
      obtain ⟨o, hoo⟩ := mapM_each hm (a "realization") (List.mem_range.2 (ha _ hr))
      obtain ⟨-, -, -, -, -, -, -, hall⟩ := (C272_accepted f bad ancY ancX _ z (member_ready h _)).1 ⟨o, hoo⟩
      have := hall a (fun n hn => ha n (List.mem_of_mem_erase hn))
      rw [member_at h.nodup hr, along_self, hb] at this
      exact nomatch this
  · rw [if_neg hr] at hd
    have : ∃ o, downscaleOne f bad ancY ancX c = .ok o := by
      cases ho : downscaleOne f bad ancY ancX c with
      | ok o => exact ⟨o, rfl⟩
      | error e =>
        rw [ho] at hd
        by_cases hs : "realization" ∈ c.scalars
        · rw [if_pos hs] at hd; exact nomatch hd
        · rw [if_neg hs] at hd; exact nomatch hd
    obtain ⟨-, -, -, -, -, -, -, hall⟩ := (C272_accepted f bad ancY ancX _ z h).1 this
    rw [hall a ha] at hb
    exact nomatch hb

/-- **C272 (one level).** A level asked for gives the slice of the whole result at that height, compared in the unit it was asked in; a height that is not
there is refused. -/
theorem C272_level {α : Type} (f : ℕ → ℕ → List ℚ → List α → List α) (bad : α → Bool) (ancY ancX : String) (v : ℚ) (u : StdUnit) (c : WindIn α)
    (full : PointCube α) (hfull : downscaleCommand f bad ancY ancX none c = .ok full) (hd : full.dims.Nodup) (hh : "height" ∈ full.dims) :
    (∀ i, ((full.points "height").map (convertUnit c.heightUnit u)).Nodup → (full.points "height")[i]?.map (convertUnit c.heightUnit u) = some v →
      ∃ out, downscaleCommand f bad ancY ancX (some (v, u)) c = .ok out ∧ out.dims = full.dims.erase "height" ∧
        ∀ a, Spec.placeValue out.toDimCube a = Spec.placeValue full.toDimCube (Spec.along a "height" i)) ∧
    ((∀ p ∈ full.points "height", convertUnit c.heightUnit u p ≠ v) → downscaleCommand f bad ancY ancX (some (v, u)) c = .error .valueError) := by
  have hm : downscaleMembers f bad ancY ancX c = .ok full := by
    unfold downscaleCommand at hfull
    simp only [bind, Except.bind] at hfull
    cases hd : downscaleMembers f bad ancY ancX c with
    | error e => rw [hd] at hfull; exact nomatch hfull
    | ok r => rw [hd] at hfull; exact hfull
  have hc : downscaleCommand f bad ancY ancX (some (v, u)) c = pickHeight c.heightUnit u v full := by
    unfold downscaleCommand
    rw [hm]
    rfl
  rw [hc]
  unfold pickHeight
  rw [if_neg (not_not.2 hh)]
  constructor
  · intro i hn hi
    have hi' : ((full.points "height").map (convertUnit c.heightUnit u))[i]? = some v := by rw [List.getElem?_map]; exact hi
    obtain ⟨hlt, hget⟩ := List.getElem?_eq_some_iff.1 hi'
    have hidx : ((full.points "height").map (convertUnit c.heightUnit u)).idxOf? v = some i := by
      rw [List.idxOf?_eq_some_iff]
      refine ⟨hlt, ?_, ?_⟩
      · simp [hget]
      · intro j hj
        have : ¬ ((full.points "height").map (convertUnit c.heightUnit u))[j] = v := by
          intro e
          have := (hn.getElem_inj_iff (hi := hj.trans hlt) (hj := hlt)).1 (e.trans hget.symm)
          omega
        simpa using this
    rw [hidx]
    exact ⟨_, rfl, rfl, fun a => sliceAt_at full hd hh i a⟩
  · intro hno
    have hidx : ((full.points "height").map (convertUnit c.heightUnit u)).idxOf? v = none := by
      rw [List.idxOf?_eq_none_iff]
      intro hmem
      obtain ⟨p, hp, e⟩ := List.mem_map.1 hmem
      exact hno p hp e
    rw [hidx]

namespace Spec

/-- The correction of Howard and Clark for the column of a grid point, with the ancillaries there. -/
noncomputable def howardClark (anc : ℕ → ℕ → WindAncil) (ppres modres : ℝ) (y x : ℕ) (heights : List ℚ) (speeds : List ℝ) : List ℝ :=
  (rcHcColumn (anc y x) ppres modres ((heights.map fun q : ℚ => (q : ℝ)).zip speeds)).map Prod.snd

end Spec

theorem rcHcColumn_nonneg (w : WindAncil) (ppres modres : ℝ) (col : List (ℝ × ℝ)) : ∀ v ∈ (rcHcColumn w ppres modres col).map Prod.snd, 0 ≤ v := by
  intro v hv
  unfold rcHcColumn at hv
  simp only [List.map_map, List.mem_map, Function.comp] at hv
  obtain ⟨p, -, rfl⟩ := hv
  split
  · exact le_refl _
  · rename_i hlt; exact not_lt.1 hlt

theorem rcHcColumn_length (w : WindAncil) (ppres modres : ℝ) (col : List (ℝ × ℝ)) : (rcHcColumn w ppres modres col).length = col.length := by
  unfold rcHcColumn
  simp only [List.length_map]
  unfold baseColumn
  split
  · unfold roughColumn; split <;> simp
  · rfl

/-- **C272 (no negative speeds).** Whatever the wind, the ancillaries and the number of realizations and times, every downscaled speed is at least 0. -/
theorem C272_nonnegative (anc : ℕ → ℕ → WindAncil) (ppres modres : ℝ) (bad : ℝ → Bool) (ancY ancX : String) (c : WindIn ℝ) (z : String)
    (h : Spec.WindReady c z) (hr : "realization" ∈ c.dims) (hy : c.yName ≠ "realization") (hx : c.xName ≠ "realization") (out : PointCube ℝ)
    (hz : z ∈ c.dims)
    (ho : downscaleCommand (Spec.howardClark anc ppres modres) bad ancY ancX none c = .ok out) (a b : String → ℕ) (ha : Spec.Inside c.toPointCube c.dims a)
    (hb : Spec.sameSpot c a b) : 0 ≤ Spec.placeValue out.toDimCube b := by
  have key := (C272_members _ bad ancY ancX c z h hr hy hx out ho).2.2 a b ha hb
  unfold Spec.downscaled at key
  have hl : a z < (Spec.howardClark anc ppres modres (a c.yName) (a c.xName) (c.points z) (Spec.windProfile c.toPointCube z a)).length := by
    unfold Spec.howardClark Spec.windProfile
    rw [List.length_map, rcHcColumn_length]
    simp only [List.length_zip, List.length_map, List.length_range, min_self]
    exact ha z hz
  rw [key, List.getD_eq_getElem _ _ hl]
  apply rcHcColumn_nonneg
  exact List.getElem_mem hl

/-- **C272, finding (heights are numbers).** The unit of the heights is not looked at, and a wind on model levels is downscaled with the level numbers for
heights in metres: any correction sees the same numbers. -/
theorem C272_heights_refuted :
    (∀ (f : ℕ → ℕ → List ℚ → List ℚ → List ℚ) (bad : ℚ → Bool) (ancY ancX : String) (c : WindIn ℚ) (u : StdUnit),
      downscaleCommand f bad ancY ancX none { c with heightUnit := u } = downscaleCommand f bad ancY ancX none c) ∧
    ∃ (c : WindIn ℚ) (out : PointCube ℚ), Spec.WindReady c "model_level_number" ∧ c.points "model_level_number" = [1, 2] ∧
      downscaleCommand (fun _ _ hs _ => hs) (fun v => decide (v < 0)) "y" "x" none c = .ok out ∧ out.data [0, 0, 0] = 1 ∧ out.data [1, 0, 0] = 2 := by
  refine ⟨fun _ _ _ _ _ _ => rfl, ?_⟩
  let c : WindIn ℚ := ⟨⟨⟨["model_level_number", "y", "x"], fun _ => 5⟩, fun n => if n = "model_level_number" then [1, 2] else [0]⟩, "y", "x", ["time"],
    ⟨"m", 1, 0⟩⟩
  have hrun : ((downscaleCommand (fun _ _ hs _ => hs) (fun v => decide (v < 0)) "y" "x" none c).toOption.map fun o => (o.data [0, 0, 0], o.data [1, 0, 0])) =
      some (1, 2) := by decide +kernel
  obtain ⟨out, h1, h2⟩ := result_of_map hrun
  simp only [Prod.mk.injEq] at h2
  refine ⟨c, out, ⟨by decide +kernel, Or.inr rfl, ?_, ?_⟩, by decide +kernel, h1, h2.1, h2.2⟩
  · intro n hn hm
    rcases hn with rfl | rfl
    · exact absurd hm (by decide +kernel)
    · rfl
  · have : ∀ n ∈ ["model_level_number", "y", "x"], ((fun n => if n = "model_level_number" then [1, 2] else [0] : String → List ℚ) n).Nodup := by decide +kernel
    exact this

namespace Spec

/-- A wind of two realizations (in descending order), two levels, one row of two points. -/
def downscaleExample : WindIn ℚ := ⟨⟨⟨["realization", "height", "y", "x"], fun idx => 100 * idx.getD 0 0 + 10 * idx.getD 1 0 + idx.getD 3 0⟩,
  fun n => if n = "realization" then [7, 3] else if n = "height" then [10, 20] else if n = "x" then [0, 1] else [0]⟩, "y", "x", ["time"], ⟨"m", 1, 0⟩⟩

end Spec

/-- The hypotheses of C272 hold for a wind of two realizations; they come out in ascending order. -/
example : Spec.WindReady Spec.downscaleExample "height" ∧ ∃ out, downscaleCommand (fun (y x : ℕ) (hs us : List ℚ) => (hs.zip us).map fun p => p.1 + p.2 + (y : ℚ) + 1000 * (x : ℚ))
    (fun v => decide (v < 0)) "y" "x" none Spec.downscaleExample = .ok out ∧ out.points "realization" = [3, 7] ∧ out.data [0, 1, 0, 1] = 1131 ∧
      out.data [1, 0, 0, 0] = 10 := by
  constructor
  · refine ⟨by decide +kernel, Or.inl rfl, ?_, ?_⟩
    · intro n hn hm
      rcases hn with rfl | rfl
      · rfl
      · exact absurd hm (by decide +kernel)
    · have : ∀ n ∈ ["realization", "height", "y", "x"], (Spec.downscaleExample.points n).Nodup := by decide +kernel
      exact this
  · have hrun : ((downscaleCommand (fun (y x : ℕ) (hs us : List ℚ) => (hs.zip us).map fun p => p.1 + p.2 + (y : ℚ) + 1000 * (x : ℚ)) (fun v => decide (v < 0)) "y" "x" none
        Spec.downscaleExample).toOption.map fun o => (o.points "realization", o.data [0, 1, 0, 1], o.data [1, 0, 0, 0])) = some ([3, 7], 1131, 10) := by
      decide +kernel
    obtain ⟨out, h1, h2⟩ := result_of_map hrun
    simp only [Prod.mk.injEq] at h2
    exact ⟨out, h1, h2.1, h2.2.1, h2.2.2⟩

end Improver
