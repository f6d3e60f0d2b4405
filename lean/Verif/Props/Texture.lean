import Verif.Model.Texture
import Verif.Props.Nbhood
import Mathlib.Tactic.Positivity

/-! Property C67: texture of binary fields. -/

namespace Improver

/-- Specification: number of the (up to four) neighbours of `(y, x)` inside the grid whose value is zero. -/
def Spec.dryNeighbours (h w : ℕ) (f : ℕ → ℕ → ℚ) (y x : ℕ) : ℚ :=
  (if 0 < y ∧ f (y - 1) x = 0 then 1 else 0) + (if y + 1 < h ∧ f (y + 1) x = 0 then 1 else 0)
    + (if 0 < x ∧ f y (x - 1) = 0 then 1 else 0) + (if x + 1 < w ∧ f y (x + 1) = 0 then 1 else 0)

/-- Specification: a field of zeros and ones on the grid. -/
def Spec.Binary (h w : ℕ) (f : ℕ → ℕ → ℚ) : Prop := ∀ y x, y < h → x < w → f y x = 0 ∨ f y x = 1

theorem textureBinary_iff (h w : ℕ) (f : ℕ → ℕ → ℚ) : textureBinary h w f = true ↔ Spec.Binary h w f := by
  unfold textureBinary Spec.Binary
  simp only [List.all_eq_true, List.mem_range, decide_eq_true_eq]
  exact ⟨fun h1 y x hy hx => h1 y hy x hx, fun h1 y hy x hx => h1 y x hy hx⟩

/-- Edge padding: index of the neighbour before. -/
theorem binary_step {a b : ℚ} (ha : a = 0 ∨ a = 1) (hb : b = 1) : |b - a| = if a = 0 then 1 else 0 := by
  subst hb
  rcases ha with rfl | rfl
  · norm_num
  · norm_num

/-- **C67** (transitions): a wet cell has as many transitions as dry neighbours on the grid, a dry cell none. -/
theorem C67_transitions (h w : ℕ) (f : ℕ → ℕ → ℚ) (hb : Spec.Binary h w f) (y x : ℕ) (hy : y < h) (hx : x < w) :
    textureTransitions h w f y x = if f y x = 1 then Spec.dryNeighbours h w f y x else 0 := by
  unfold textureTransitions
  simp only []
  rcases hb y x hy hx with h0 | h1
  · rw [h0, if_neg (lt_irrefl _), if_neg (by norm_num)]
  rw [if_pos (by rw [h1]; norm_num), if_pos h1]
  have hc : ∀ a b, edgePad h w f a b = f (min (a - 1) (h - 1)) (min (b - 1) (w - 1)) := fun _ _ => rfl
  have ey : min (y + 1 - 1) (h - 1) = y := by omega
  have ex : min (x + 1 - 1) (w - 1) = x := by omega
  have c0 : edgePad h w f (y + 1) (x + 1) = f y x := by rw [hc, ey, ex]
  -- the four neighbours
  have left : |edgePad h w f (y + 1) (x + 1) - edgePad h w f (y + 1) x| = if 0 < x ∧ f y (x - 1) = 0 then 1 else 0 := by
    rw [c0, hc, ey]
    by_cases h2 : 0 < x
    · rw [show min (x - 1) (w - 1) = x - 1 by omega, binary_step (hb y (x - 1) hy (by omega)) h1]
      simp only [h2, true_and]
    · rw [show min (x - 1) (w - 1) = x by omega, sub_self, abs_zero, if_neg (fun h => h2 h.1)]
  have right : |edgePad h w f (y + 1) (x + 1 + 1) - edgePad h w f (y + 1) (x + 1)|
      = if x + 1 < w ∧ f y (x + 1) = 0 then 1 else 0 := by
    rw [c0, hc, ey, abs_sub_comm]
    by_cases h2 : x + 1 < w
    · rw [show min (x + 1 + 1 - 1) (w - 1) = x + 1 by omega, binary_step (hb y (x + 1) hy h2) h1]
      simp only [h2, true_and]
    · rw [show min (x + 1 + 1 - 1) (w - 1) = x by omega, sub_self, abs_zero, if_neg (fun h => h2 h.1)]
  have up : |edgePad h w f (y + 1) (x + 1) - edgePad h w f y (x + 1)| = if 0 < y ∧ f (y - 1) x = 0 then 1 else 0 := by
    rw [c0, hc, ex]
    by_cases h2 : 0 < y
    · rw [show min (y - 1) (h - 1) = y - 1 by omega, binary_step (hb (y - 1) x (by omega) hx) h1]
      simp only [h2, true_and]
    · rw [show min (y - 1) (h - 1) = y by omega, sub_self, abs_zero, if_neg (fun h => h2 h.1)]
  have down : |edgePad h w f (y + 1 + 1) (x + 1) - edgePad h w f (y + 1) (x + 1)|
      = if y + 1 < h ∧ f (y + 1) x = 0 then 1 else 0 := by
    rw [c0, hc, ex, abs_sub_comm]
    by_cases h2 : y + 1 < h
    · rw [show min (y + 1 + 1 - 1) (h - 1) = y + 1 by omega, binary_step (hb (y + 1) x h2 hx) h1]
      simp only [h2, true_and]
    · rw [show min (y + 1 + 1 - 1) (h - 1) = y by omega, sub_self, abs_zero, if_neg (fun h => h2 h.1)]
  rw [left, right, up, down]
  unfold Spec.dryNeighbours
  ring

theorem dryNeighbours_bounds (h w : ℕ) (f : ℕ → ℕ → ℚ) (y x : ℕ) :
    0 ≤ Spec.dryNeighbours h w f y x ∧ Spec.dryNeighbours h w f y x ≤ 4 := by
  have key : ∀ (p : Prop) [Decidable p], (0:ℚ) ≤ (if p then 1 else 0) ∧ (if p then 1 else 0) ≤ (1:ℚ) := by
    intro p _; by_cases hp : p
    · rw [if_pos hp]; norm_num
    · rw [if_neg hp]; norm_num
  unfold Spec.dryNeighbours
  have a := key (0 < y ∧ f (y - 1) x = 0)
  have b := key (y + 1 < h ∧ f (y + 1) x = 0)
  have c := key (0 < x ∧ f y (x - 1) = 0)
  have d := key (x + 1 < w ∧ f y (x + 1) = 0)
  constructor
  · linarith [a.1, b.1, c.1, d.1]
  · linarith [a.2, b.2, c.2, d.2]

theorem windowSum_mono {h w r : ℕ} {f g : ℕ → ℕ → ℚ} {y x : ℕ} (hfg : ∀ i j, i < h → j < w → f i j ≤ g i j) :
    Spec.windowSum h w r r f y x ≤ Spec.windowSum h w r r g y x := by
  unfold Spec.windowSum
  apply Finset.sum_le_sum
  intro i hi
  apply Finset.sum_le_sum
  intro j hj
  by_cases h1 : Spec.near r y i ∧ Spec.near r x j
  · rw [if_pos h1, if_pos h1]; exact hfg i j (Finset.mem_range.1 hi) (Finset.mem_range.1 hj)
  · rw [if_neg h1, if_neg h1]

theorem windowSum_congr {h w r : ℕ} {f g : ℕ → ℕ → ℚ} {y x : ℕ} (hfg : ∀ i j, i < h → j < w → f i j = g i j) :
    Spec.windowSum h w r r f y x = Spec.windowSum h w r r g y x :=
  le_antisymm (windowSum_mono fun i j hi hj => (hfg i j hi hj).le) (windowSum_mono fun i j hi hj => (hfg i j hi hj).ge)

theorem windowSum_ge_self {h w r : ℕ} {f : ℕ → ℕ → ℚ} {y x : ℕ} (hy : y < h) (hx : x < w)
    (hf : ∀ i j, i < h → j < w → 0 ≤ f i j) : f y x ≤ Spec.windowSum h w r r f y x := by
  unfold Spec.windowSum
  have hnn : ∀ i ∈ Finset.range h, ∀ j ∈ Finset.range w, 0 ≤ (if Spec.near r y i ∧ Spec.near r x j then f i j else 0) := by
    intro i hi j hj
    by_cases h1 : Spec.near r y i ∧ Spec.near r x j
    · rw [if_pos h1]; exact hf i j (Finset.mem_range.1 hi) (Finset.mem_range.1 hj)
    · rw [if_neg h1]
  have h1 := Finset.single_le_sum (f := fun i => ∑ j ∈ Finset.range w,
    if Spec.near r y i ∧ Spec.near r x j then f i j else 0) (fun i hi => Finset.sum_nonneg (hnn i hi)) (Finset.mem_range.2 hy)
  refine le_trans ?_ h1
  have h2 := Finset.single_le_sum (f := fun j => if Spec.near r y y ∧ Spec.near r x j then f y j else 0)
    (hnn y (Finset.mem_range.2 hy)) (Finset.mem_range.2 hx)
  refine le_trans ?_ h2
  rw [if_pos ⟨⟨by omega, by omega⟩, ⟨by omega, by omega⟩⟩]

theorem windowSum_four {h w r : ℕ} {f : ℕ → ℕ → ℚ} {y x : ℕ} :
    Spec.windowSum h w r r (fun i j => 4 * f i j) y x = 4 * Spec.windowSum h w r r f y x := by
  unfold Spec.windowSum
  rw [Finset.mul_sum]
  apply Finset.sum_congr rfl
  intro i _
  rw [Finset.mul_sum]
  apply Finset.sum_congr rfl
  intro j _
  by_cases h1 : Spec.near r y i ∧ Spec.near r x j
  · rw [if_pos h1, if_pos h1]
  · rw [if_neg h1, if_neg h1, mul_zero]

/-- **C67** (ratio): at a wet cell the ratio is the number of transitions of the wet cells of the neighbourhood over four
times their number, and lies in [0, 1]; at a dry cell it is one. -/
theorem C67_ratio (h w r : ℕ) (f : ℕ → ℕ → ℚ) (hb : Spec.Binary h w f) (y x : ℕ) (hy : y < h) (hx : x < w) :
    ∃ v, textureRatio h w r f y x = .ok v ∧ 0 ≤ v ∧ v ≤ 1 ∧ (f y x = 0 → v = 1) ∧
      (f y x = 1 → 0 < Spec.windowSum h w r r f y x ∧
        v = Spec.windowSum h w r r (fun i j => if f i j = 1 then Spec.dryNeighbours h w f i j else 0) y x
          / (4 * Spec.windowSum h w r r f y x)) := by
  unfold textureRatio
  rw [C27_sum_exact h w r _ f y x hy hx, C27_sum_exact h w r _ (textureTransitions h w f) y x hy hx]
  simp only [bind, Except.bind, pure, Except.pure, if_true]
  have hw : Spec.windowSum h w r r (fun i j => textureTransitions h w f i j) y x
      = Spec.windowSum h w r r (fun i j => if f i j = 1 then Spec.dryNeighbours h w f i j else 0) y x :=
    windowSum_congr fun i j hi hj => C67_transitions h w f hb i j hi hj
  have hnn : ∀ i j, i < h → j < w → 0 ≤ f i j := by
    intro i j hi hj; rcases hb i j hi hj with e | e <;> rw [e] <;> norm_num
  rcases hb y x hy hx with h0 | h1
  · refine ⟨1, ?_, by norm_num, le_rfl, fun _ => rfl, fun e => ?_⟩
    · rw [if_neg (by rw [h0]; norm_num)]
    · rw [h0] at e; norm_num at e
  · have hpos : 0 < Spec.windowSum h w r r f y x := by
      have := windowSum_ge_self (r := r) hy hx hnn
      rw [h1] at this; linarith
    have hle : Spec.windowSum h w r r (fun i j => if f i j = 1 then Spec.dryNeighbours h w f i j else 0) y x
        ≤ 4 * Spec.windowSum h w r r f y x := by
      rw [← windowSum_four]
      apply windowSum_mono
      intro i j hi hj
      rcases hb i j hi hj with e | e
      · rw [if_neg (by rw [e]; norm_num), e]; norm_num
      · rw [if_pos e, e]; linarith [(dryNeighbours_bounds h w f i j).2]
    have hge : 0 ≤ Spec.windowSum h w r r (fun i j => if f i j = 1 then Spec.dryNeighbours h w f i j else 0) y x := by
      have : Spec.windowSum h w r r (fun _ _ => 0) y x = 0 := windowSum_zero_of (fun _ _ _ _ _ _ => rfl)
      refine le_trans this.ge (windowSum_mono ?_)
      intro i j hi hj
      by_cases e : f i j = 1
      · rw [if_pos e]; exact (dryNeighbours_bounds h w f i j).1
      · simp only [if_neg e, le_refl]
    refine ⟨_, rfl, ?_⟩
    rw [if_pos (by rw [h1]; norm_num), hw]
    refine ⟨div_nonneg hge (by linarith), (div_le_one (by linarith)).2 hle, fun e => ?_, fun _ => ⟨hpos, rfl⟩⟩
    rw [h1] at e; norm_num at e

example : textureRatio 3 3 1 (fun i j => if i = 1 ∧ j = 1 then 1 else 0) 1 1 = .ok 1 := by decide +kernel
example : textureRatio 3 3 1 (fun i j => if j = 1 then 1 else 0) 1 1 = .ok (1 / 2) := by decide +kernel

theorem textureMember_ok (h w r : ℕ) (thr : ℚ) (f : ℕ → ℕ → ℚ) (y x : ℕ) (v : ℚ) (hv : textureRatio h w r f y x = .ok v) :
    textureMember h w r thr f y x = .ok (if v > thr then 1 else 0) := by
  unfold textureMember
  rw [hv]
  simp only [bind, Except.bind]
  unfold truthValue CmpOp.eval
  rw [if_pos rfl]
  simp only [decide_eq_true_eq]

theorem texture_mapM (h w r : ℕ) (thr : ℚ) (y x : ℕ) (hy : y < h) (hx : x < w) (fs : List (ℕ → ℕ → ℚ))
    (hb : ∀ f ∈ fs, Spec.Binary h w f) :
    ∃ ratios : List ℚ, List.Forall₂ (fun f v => textureRatio h w r f y x = .ok v) fs ratios ∧
      fs.mapM (fun f => textureMember h w r thr f y x) = .ok (ratios.map (fun v => if v > thr then 1 else 0)) := by
  induction fs with
  | nil => exact ⟨[], .nil, rfl⟩
  | cons f fs ih =>
    obtain ⟨rs, h1, h2⟩ := ih (fun g hg => hb g (List.mem_cons_of_mem _ hg))
    obtain ⟨v, hv, _⟩ := C67_ratio h w r f (hb f (List.mem_cons_self ..)) y x hy hx
    refine ⟨v :: rs, .cons hv h1, ?_⟩
    rw [List.mapM_cons, textureMember_ok h w r thr f y x v hv, h2]
    rfl

theorem sum_indicator (thr : ℚ) (l : List ℚ) :
    (l.map (fun v => if v > thr then (1:ℚ) else 0)).sum = ((l.countP (fun v => decide (v > thr)) : ℕ) : ℚ) := by
  induction l with
  | nil => simp
  | cons a l ih =>
    rw [List.map_cons, List.sum_cons, ih, List.countP_cons]
    by_cases h : a > thr
    · rw [if_pos h, if_pos (by simpa using h)]; push_cast; ring
    · rw [if_neg h, if_neg (by simpa using h)]; push_cast; ring

/-- **C67** (result): for binary data with exactly one matching threshold, the texture is the fraction of realizations whose
ratio exceeds the textural threshold. -/
theorem C67_fraction (h w r : ℕ) (dthr tthr : ℚ) (cube : List (ℚ × List (ℕ → ℕ → ℚ)))
    (hb : ∀ e ∈ cube, ∀ f ∈ e.2, Spec.Binary h w f) (y x : ℕ) (hy : y < h) (hx : x < w) (e : ℚ × List (ℕ → ℕ → ℚ))
    (he : cube.filter (fun e => npIsclose e.1 dthr) = [e]) (hne : e.2 ≠ []) :
    ∃ ratios : List ℚ, List.Forall₂ (fun f v => textureRatio h w r f y x = .ok v) e.2 ratios ∧
      textureProcess h w r dthr tthr cube y x
        = .ok (((ratios.countP (fun v => decide (v > tthr)) : ℕ) : ℚ) / e.2.length) ∧
      ∃ p, textureProcess h w r dthr tthr cube y x = .ok p ∧ 0 ≤ p ∧ p ≤ 1 := by
  have hem : e ∈ cube := by
    have : e ∈ cube.filter (fun e => npIsclose e.1 dthr) := by rw [he]; exact List.mem_singleton.2 rfl
    exact (List.mem_filter.1 this).1
  obtain ⟨rs, h1, h2⟩ := texture_mapM h w r tthr y x hy hx e.2 (hb e hem)
  have hlen : e.2.length = rs.length := h1.length_eq
  have hval : textureProcess h w r dthr tthr cube y x
        = .ok (((rs.countP (fun v => decide (v > tthr)) : ℕ) : ℚ) / e.2.length) := by
    unfold textureProcess
    rw [if_neg, he]
    · simp only []
      rw [h2]
      simp only [bind, Except.bind, pure, Except.pure]
      rw [sum_indicator, List.length_map, hlen]
    · simp only [List.any_eq_true, Bool.not_eq_true', not_exists, not_and]
      intro a ha f hf hc
      rw [(textureBinary_iff h w f).2 (hb a ha f hf)] at hc
      exact Bool.noConfusion hc
  refine ⟨rs, h1, hval, _, hval, div_nonneg (Nat.cast_nonneg _) (Nat.cast_nonneg _), ?_⟩
  have hpos : (0:ℚ) < e.2.length := by
    have := List.length_pos_iff.2 hne
    exact_mod_cast this
  rw [div_le_one hpos, hlen]
  exact_mod_cast List.countP_le_length

/-- **C67** (refusals): data other than zeros and ones, in any threshold or realization, and a threshold that is not
present are refused. -/
theorem C67_refusals (h w r : ℕ) (dthr tthr : ℚ) (cube : List (ℚ × List (ℕ → ℕ → ℚ))) (y x : ℕ)
    (hbad : (∃ e ∈ cube, ∃ f ∈ e.2, ¬ Spec.Binary h w f) ∨ ∀ e ∈ cube, npIsclose e.1 dthr = false) :
    textureProcess h w r dthr tthr cube y x = .error .valueError := by
  unfold textureProcess
  by_cases hc : cube.any (fun e => e.2.any (fun f => !textureBinary h w f)) = true
  · rw [if_pos hc]
  · rw [if_neg hc]
    rcases hbad with ⟨e, he, f, hf, hn⟩ | hno
    · exfalso
      apply hc
      rw [List.any_eq_true]
      refine ⟨e, he, List.any_eq_true.2 ⟨f, hf, ?_⟩⟩
      rw [Bool.not_eq_true']
      by_contra h1
      exact hn ((textureBinary_iff h w f).1 (by simpa using h1))
    · have : cube.filter (fun e => npIsclose e.1 dthr) = [] := by
        rw [List.filter_eq_nil_iff]
        intro e he
        rw [hno e he]; decide
      rw [this]

example : textureProcess 3 3 1 (1 / 2) (2 / 5)
    [(1 / 2, [fun i j => if j = 1 then 1 else 0, fun _ _ => 1]), (1, [fun _ _ => 0, fun _ _ => 0])] 1 1 = .ok (1 / 2) := by
  decide +kernel
example : textureProcess 1 1 1 1 (2 / 5) [(1, [fun _ _ => 1 / 3])] 0 0 = .error .valueError := by decide +kernel

end Improver
