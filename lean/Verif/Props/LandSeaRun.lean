import Verif.Model.LandSeaRun
import Verif.Props.LandSea

/-! # Land and sea points over a history of calls, and the regrid command -/

namespace Improver

/-- What the cache holds for a plugin is what would be computed for this call. -/
def cacheRight {α : Type} (inst : ℕ) (c : AdjustCall α) (k : MatchCache) : Prop :=
  ∀ sel m, k.lookup (inst, sel) = some m → getMatches c sel = some m

theorem lookup_filter_key (l : MatchCache) (key key' : ℕ × Bool) :
    (l.filter fun e => decide (e.1 ≠ key)).lookup key' = if key' = key then none else l.lookup key' := by
  induction l with
  | nil => by_cases h : key' = key <;> simp [h]
  | cons e l ih =>
    obtain ⟨a, m⟩ := e
    by_cases ha : a = key
    · rw [List.filter_cons_of_neg (by simp [ha]), ih]
      by_cases h : key' = key
      · rw [if_pos h, if_pos h]
      · rw [if_neg h, if_neg h, List.lookup_cons, beq_eq_false_iff_ne.2 (by rw [ha]; exact h)]
    · rw [List.filter_cons_of_pos (by simpa using ha), List.lookup_cons, List.lookup_cons, ih]
      by_cases h : key' = key
      · rw [if_pos h, if_pos h, beq_eq_false_iff_ne.2 (by rw [h]; exact fun e => ha e.symm)]
      · rw [if_neg h, if_neg h]

theorem lookup_take (l : MatchCache) (n : ℕ) (key : ℕ × Bool) (m : Matches) (h : (l.take n).lookup key = some m) : l.lookup key = some m := by
  induction l generalizing n with
  | nil => simp at h
  | cons e l ih =>
    cases n with
    | zero => simp at h
    | succ n =>
      obtain ⟨a, v⟩ := e
      rw [List.take_succ_cons, List.lookup_cons] at h
      rw [List.lookup_cons]
      by_cases hk : key == a
      · rw [hk] at h ⊢; exact h
      · rw [Bool.not_eq_true] at hk
        rw [hk] at h ⊢; exact ih n h

theorem cached_right {α : Type} {inst : ℕ} {c : AdjustCall α} {k : MatchCache} (hk : cacheRight inst c k) (sel : Bool) :
    (cachedMatches k (inst, sel) (getMatches c sel)).1 = getMatches c sel ∧ cacheRight inst c (cachedMatches k (inst, sel) (getMatches c sel)).2 := by
  unfold cachedMatches
  cases h : k.lookup (inst, sel) with
  | some m =>
    refine ⟨(hk sel m h).symm, ?_⟩
    intro sel' m' h'
    dsimp only at h'
    rw [List.lookup_cons, lookup_filter_key] at h'
    by_cases e : (inst, sel') = (inst, sel)
    · rw [e] at h'
      simp only [beq_self_eq_true] at h'
      rw [(Prod.mk.inj e).2, ← Option.some.inj h']
      exact hk sel m h
    · rw [beq_eq_false_iff_ne.2 e, if_neg e] at h'
      exact hk sel' m' h'
  | none =>
    cases hf : getMatches c sel with
    | none => exact ⟨rfl, hk⟩
    | some m =>
      refine ⟨rfl, ?_⟩
      intro sel' m' h'
      have h' := lookup_take _ 2 _ _ h'
      rw [List.lookup_cons] at h'
      by_cases e : (inst, sel') = (inst, sel)
      · rw [e] at h'
        simp only [beq_self_eq_true] at h'
        rw [(Prod.mk.inj e).2, ← Option.some.inj h', hf]
      · rw [beq_eq_false_iff_ne.2 e] at h'
        exact hk sel' m' h'

theorem correctCached_right {α : Type} {inst : ℕ} {c : AdjustCall α} {k : MatchCache} (hk : cacheRight inst c k) (near out : ℕ → ℕ → α) (sel : Bool) :
    (correctCached inst c near sel out k).1 = correctWhere c.h c.w c.r c.fill c.inLand c.outLand near sel out ∧
      cacheRight inst c (correctCached inst c near sel out k).2 := by
  obtain ⟨h1, h2⟩ := cached_right hk sel
  unfold correctCached
  generalize cachedMatches k (inst, sel) (getMatches c sel) = p at h1 h2
  obtain ⟨o, k'⟩ := p
  dsimp only at h1 h2
  subst h1
  unfold getMatches correctWhere
  by_cases hu : (gridPts c.h c.w).filter (fun q => c.inLand q.1 q.2 == sel) = []
  · simp only [hu, if_true]
    exact ⟨trivial, h2⟩
  · simp only [if_neg hu]
    refine ⟨?_, h2⟩
    funext y x
    unfold fillMatches
    dsimp only
    by_cases hc : c.outLand y x = sel ∧ c.inLand y x ≠ sel ∧ inVicinity c.h c.w c.r c.fill c.inLand sel y x = true
    · rw [if_pos (decide_eq_true hc), if_pos hc, if_neg hc.2.1]
    · rw [if_neg (by simpa using hc), if_neg hc]

theorem adjustSlices_right {α : Type} {inst : ℕ} {c : AdjustCall α} (l : List (ℕ → ℕ → α)) {k : MatchCache} (hk : cacheRight inst c k) :
    (adjustSlices inst c l k).1 = l.map (adjustLandSea c.h c.w c.r c.fill c.inLand c.outLand) := by
  induction l generalizing k with
  | nil => rfl
  | cons near rest ih =>
    unfold adjustSlices
    obtain ⟨s1, s2⟩ := correctCached_right hk near near false
    obtain ⟨t1, t2⟩ := correctCached_right s2 near (correctCached inst c near false near k).1 true
    rw [List.map_cons, ← ih t2]
    dsimp only
    rw [t1, s1]
    rfl

/-- Whatever calls were made before, by this or other plugins that share the cache, refused or not, each call gives what it would give alone. -/
theorem C275_history {α : Type} (calls : List (ℕ × AdjustCall α)) (cache : MatchCache) :
    adjustHistory calls cache = calls.map fun e =>
      if e.2.sameGrid then .ok (e.2.slices.map (adjustLandSea e.2.h e.2.w e.2.r e.2.fill e.2.inLand e.2.outLand)) else .error .valueError := by
  induction calls generalizing cache with
  | nil => rfl
  | cons e rest ih =>
    obtain ⟨inst, c⟩ := e
    unfold adjustHistory
    rw [List.map_cons, ← ih]
    dsimp only
    congr 1
    unfold adjustCall
    by_cases hs : c.sameGrid = true
    · rw [if_pos hs, if_pos hs]
      dsimp only
      rw [adjustSlices_right c.slices (by intro sel m h; exact nomatch h)]
    · rw [if_neg hs, if_neg hs]

/-- The value `v` that a place must have: unchanged when the types agree or no point of the right type is in the vicinity, and otherwise the value of a nearest
point of the right type. -/
def Spec.landSeaValue {α : Type} (c : AdjustCall α) (f : ℕ → ℕ → α) (y x : ℕ) (v : α) : Prop :=
  (c.inLand y x = c.outLand y x → v = f y x) ∧
  ((¬ ∃ i j, i < c.h ∧ j < c.w ∧ Spec.near c.r y i ∧ Spec.near c.r x j ∧ c.inLand i j = c.outLand y x) → v = f y x) ∧
  (c.inLand y x ≠ c.outLand y x → (∃ i j, i < c.h ∧ j < c.w ∧ Spec.near c.r y i ∧ Spec.near c.r x j ∧ c.inLand i j = c.outLand y x) →
    ∃ i j, i < c.h ∧ j < c.w ∧ c.inLand i j = c.outLand y x ∧ v = f i j ∧
      ∀ i' j', i' < c.h → j' < c.w → c.inLand i' j' = c.outLand y x → idxDist (i, j) (y, x) ≤ idxDist (i', j') (y, x))

/-- In every history, the `n`th call on equal grids gives a field for each field of its cube, and each value follows from the masks of this very call. -/
theorem C275_values {α : Type} (calls : List (ℕ × AdjustCall α)) (cache : MatchCache) (n : ℕ) (inst : ℕ) (c : AdjustCall α)
    (hn : calls[n]? = some (inst, c)) (hs : c.sameGrid = true) :
    ∃ res, (adjustHistory calls cache)[n]? = some (.ok res) ∧ res.length = c.slices.length ∧
      ∀ (k : ℕ) (f out : ℕ → ℕ → α), c.slices[k]? = some f → res[k]? = some out → ∀ y x, y < c.h → x < c.w → Spec.landSeaValue c f y x (out y x) := by
  rw [C275_history, List.getElem?_map, hn]
  refine ⟨c.slices.map (adjustLandSea c.h c.w c.r c.fill c.inLand c.outLand), ?_, List.length_map _, ?_⟩
  · show some (if _ then _ else _) = _
    rw [if_pos hs]
  · intro k f out hf ho y x hy hx
    rw [List.getElem?_map, hf] at ho
    cases ho
    exact C105_adjust c.h c.w c.r c.fill c.inLand c.outLand f y x hy hx

/-- Two calls of the same plugin with opposite masks: the second is not answered from the first. -/
example : let a : AdjustCall ℕ := ⟨true, 1, 2, 1, 0, fun _ x => decide (x = 0), fun _ _ => true, [fun _ x => 10 + x]⟩
    let b : AdjustCall ℕ := ⟨true, 1, 2, 1, 0, fun _ x => decide (x = 1), fun _ _ => true, [fun _ x => 20 + x]⟩
    (adjustHistory [(7, a), (7, b)] []).map (fun r => r.toOption.map fun l => l.map fun f => [f 0 0, f 0 1]) =
      [some [[10, 10]], some [[21, 21]]] := by
  decide +kernel

/-! ## The command -/

/-- The modes that use a land mask. -/
def Spec.maskModes : List String := ["nearest-with-mask", "nearest-with-mask-2", "bilinear-with-mask-2"]

/-- The modes that do not. -/
def Spec.plainModes : List String := ["bilinear", "nearest", "nearest-2", "bilinear-2"]

/-- Without a mask: iris for "bilinear" and "nearest", the newer regridder for the others; neither a vicinity nor a mask is passed. -/
theorem C276_plain {M C : Type} (j : RegridJob M C) (hm : j.mask = none) :
    (j.mode = "bilinear" → regridCommand j = j.bilinear) ∧ (j.mode = "nearest" → regridCommand j = j.nearest) ∧
    (j.mode = "nearest-2" ∨ j.mode = "bilinear-2" → regridCommand j = j.newer j.mode none none) ∧
    (j.mode ∉ Spec.plainModes → regridCommand j = .error .valueError) := by
  obtain ⟨mode, mask, vicinity, covers, nearest, bilinear, adjust, newer⟩ := j
  dsimp only at hm ⊢
  subst hm
  refine ⟨?_, ?_, ?_, ?_⟩
  · rintro rfl
    have hb : irisBase (⟨"bilinear", none, vicinity, covers, nearest, bilinear, adjust, newer⟩ : RegridJob M C) = bilinear :=
      if_neg (by dsimp only; decide +kernel)
    show (irisBase _ >>= fun c => .ok c) = bilinear
    rw [hb]
    cases bilinear <;> rfl
  · rintro rfl
    have hb : irisBase (⟨"nearest", none, vicinity, covers, nearest, bilinear, adjust, newer⟩ : RegridJob M C) = nearest :=
      if_pos (by dsimp only; decide +kernel)
    show (irisBase _ >>= fun c => .ok c) = nearest
    rw [hb]
    cases nearest <;> rfl
  · rintro (rfl | rfl) <;> rfl
  · intro hn
    unfold regridCommand
    rw [if_neg (by simp [maskUnwanted])]
    have : regridLandSeaInit mode false vicinity = .error .valueError := by
      cases h : regridLandSeaInit mode false vicinity with
      | ok v =>
        exfalso
        rcases (C107_init mode false vicinity).1 ⟨v, h⟩ with h' | h'
        · exact hn h'
        · exact Bool.noConfusion h'.2
      | error e =>
        unfold regridLandSeaInit at h
        cases hr : requiresLandmask mode with
        | none => rw [hr] at h; cases h; rfl
        | some b =>
          rw [hr] at h
          cases b
          · exact nomatch h
          · cases h; rfl
    show (regridLandSeaInit mode false vicinity >>= _) = _
    rw [this]
    rfl

/-- With a mask: refused unless the mode uses one and the mask covers the source; then the mask and the vicinity are used. -/
theorem C276_masked {M C : Type} (j : RegridJob M C) (m : M) (hm : j.mask = some m) :
    (j.mode ∉ Spec.maskModes → regridCommand j = .error .valueError) ∧
    (j.mode ∈ Spec.maskModes → j.covers m = .ok false → regridCommand j = .error .valueError) ∧
    (j.mode = "nearest-with-mask" → j.covers m = .ok true → regridCommand j = j.nearest >>= j.adjust j.vicinity m) ∧
    (j.mode = "nearest-with-mask-2" ∨ j.mode = "bilinear-with-mask-2" → j.covers m = .ok true →
      regridCommand j = j.newer j.mode (some j.vicinity) (some m)) := by
  obtain ⟨mode, mask, vicinity, covers, nearest, bilinear, adjust, newer⟩ := j
  dsimp only at hm ⊢
  subst hm
  have key : ∀ b : Bool, covers m = .ok b → ∀ mode, mode ∈ Spec.maskModes →
      regridCommand (⟨mode, some m, vicinity, covers, nearest, bilinear, adjust, newer⟩ : RegridJob M C) =
        if b then regridDispatch ⟨mode, some m, vicinity, covers, nearest, bilinear, adjust, newer⟩ (some vicinity) else .error .valueError := by
    intro b hb mode hmode
    unfold regridCommand
    have hw : maskUnwanted (⟨mode, some m, vicinity, covers, nearest, bilinear, adjust, newer⟩ : RegridJob M C) = false := by
      unfold Spec.maskModes at hmode
      simp only [List.mem_cons, List.not_mem_nil, or_false] at hmode
      rcases hmode with rfl | rfl | rfl <;> rfl
    have hr : requiresLandmask mode = some true := by
      unfold Spec.maskModes at hmode
      simp only [List.mem_cons, List.not_mem_nil, or_false] at hmode
      rcases hmode with rfl | rfl | rfl <;> decide
    rw [hw, if_neg (by decide)]
    have hi : regridLandSeaInit mode (some m).isSome vicinity = .ok (some vicinity) := by
      unfold regridLandSeaInit; rw [hr]; rfl
    dsimp only
    rw [hi]
    have hcov : coverChecked (⟨mode, some m, vicinity, covers, nearest, bilinear, adjust, newer⟩ : RegridJob M C) = if b then .ok () else .error .valueError := by
      unfold coverChecked
      dsimp only
      rw [hr]
      dsimp only
      rw [hb]
      rfl
    show (coverChecked _ >>= fun _ => _) = _
    rw [hcov]
    cases b <;> rfl
  refine ⟨?_, ?_, ?_, ?_⟩
  · intro hn
    unfold regridCommand
    rw [if_pos]
    unfold maskUnwanted
    unfold Spec.maskModes at hn
    simp only [List.mem_cons, List.not_mem_nil, or_false, not_or] at hn
    simp [hn.1, hn.2.1, hn.2.2]
  · intro hmode hc
    rw [key false hc mode hmode]
    rfl
  · rintro rfl hc
    rw [key true hc _ (by unfold Spec.maskModes; decide), if_pos rfl]
    have hb : irisBase (⟨"nearest-with-mask", some m, vicinity, covers, nearest, bilinear, adjust, newer⟩ : RegridJob M C) = nearest :=
      if_pos (by dsimp only; decide +kernel)
    show (irisBase _ >>= fun c => adjust vicinity m c) = _
    rw [hb]
  · rintro (rfl | rfl) hc <;> rw [key true hc _ (by unfold Spec.maskModes; decide)] <;> rfl

example : regridCommand (⟨"nearest-with-mask", some 1, 25000, fun m => .ok (m == 1), .ok 5, .ok 6, fun v m c => .ok (c + m + if v = 25000 then 100 else 0),
    fun _ _ _ => .error .valueError⟩ : RegridJob ℕ ℕ) = .ok 106 := by decide +kernel

end Improver
