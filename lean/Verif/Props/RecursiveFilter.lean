import Verif.Model.RecursiveFilter
import Verif.Props.Pad

/-! Properties C28, C40, C41: the recursive filter and the orographic smoothing coefficients. -/

namespace Improver

/-! ### One line -/

theorem fwd_bounds {s g : ℕ → ℚ} {n : ℕ} {lo hi : ℚ} (hs : ∀ i, i + 1 < n → 0 ≤ s i ∧ s i ≤ 1)
    (hg : ∀ i, i < n → lo ≤ g i ∧ g i ≤ hi) : ∀ i, i < n → lo ≤ recurseForward s g i ∧ recurseForward s g i ≤ hi
  | 0, h => hg 0 h
  | i + 1, h => by
    obtain ⟨s0, s1⟩ := hs i h
    obtain ⟨g0, g1⟩ := hg (i + 1) h
    obtain ⟨r0, r1⟩ := fwd_bounds hs hg i (by omega)
    simp only [recurseForward]
    constructor <;> nlinarith

theorem bwdAux_bounds {s g : ℕ → ℚ} {n : ℕ} {lo hi : ℚ} (hs : ∀ i, i + 1 < n → 0 ≤ s i ∧ s i ≤ 1)
    (hg : ∀ i, i < n → lo ≤ g i ∧ g i ≤ hi) :
    ∀ k, k < n → lo ≤ recurseBackwardAux n s g k ∧ recurseBackwardAux n s g k ≤ hi
  | 0, h => hg (n - 1) (by omega)
  | k + 1, h => by
    obtain ⟨s0, s1⟩ := hs (n - 1 - (k + 1)) (by omega)
    obtain ⟨g0, g1⟩ := hg (n - 1 - (k + 1)) (by omega)
    obtain ⟨r0, r1⟩ := bwdAux_bounds hs hg k (by omega)
    simp only [recurseBackwardAux]
    constructor <;> nlinarith

theorem bwd_bounds {s g : ℕ → ℚ} {n : ℕ} {lo hi : ℚ} (hs : ∀ i, i + 1 < n → 0 ≤ s i ∧ s i ≤ 1)
    (hg : ∀ i, i < n → lo ≤ g i ∧ g i ≤ hi) (i : ℕ) (hi' : i < n) :
    lo ≤ recurseBackward n s g i ∧ recurseBackward n s g i ≤ hi :=
  bwdAux_bounds hs hg _ (by omega)

theorem fwd_mono {s g g' : ℕ → ℚ} {n : ℕ} (hs : ∀ i, i + 1 < n → 0 ≤ s i ∧ s i ≤ 1)
    (hg : ∀ i, i < n → g i ≤ g' i) : ∀ i, i < n → recurseForward s g i ≤ recurseForward s g' i
  | 0, h => hg 0 h
  | i + 1, h => by
    obtain ⟨s0, s1⟩ := hs i h
    have g0 := hg (i + 1) h
    have r0 := fwd_mono hs hg i (by omega)
    simp only [recurseForward]
    nlinarith

theorem bwdAux_mono {s g g' : ℕ → ℚ} {n : ℕ} (hs : ∀ i, i + 1 < n → 0 ≤ s i ∧ s i ≤ 1)
    (hg : ∀ i, i < n → g i ≤ g' i) : ∀ k, k < n → recurseBackwardAux n s g k ≤ recurseBackwardAux n s g' k
  | 0, h => hg (n - 1) (by omega)
  | k + 1, h => by
    obtain ⟨s0, s1⟩ := hs (n - 1 - (k + 1)) (by omega)
    have g0 := hg (n - 1 - (k + 1)) (by omega)
    have r0 := bwdAux_mono hs hg k (by omega)
    simp only [recurseBackwardAux]
    nlinarith

theorem fwd_linear (s g g' : ℕ → ℚ) (a b : ℚ) : ∀ i,
    recurseForward s (fun i => a * g i + b * g' i) i = a * recurseForward s g i + b * recurseForward s g' i
  | 0 => rfl
  | i + 1 => by simp only [recurseForward, fwd_linear s g g' a b i]; ring

theorem bwdAux_linear (n : ℕ) (s g g' : ℕ → ℚ) (a b : ℚ) : ∀ k,
    recurseBackwardAux n s (fun i => a * g i + b * g' i) k
      = a * recurseBackwardAux n s g k + b * recurseBackwardAux n s g' k
  | 0 => rfl
  | k + 1 => by simp only [recurseBackwardAux, bwdAux_linear n s g g' a b k]; ring

theorem fwd_const (s : ℕ → ℚ) (g : ℕ → ℚ) (c : ℚ) (n : ℕ) (hg : ∀ i, i < n → g i = c) :
    ∀ i, i < n → recurseForward s g i = c
  | 0, h => hg 0 h
  | i + 1, h => by
    simp only [recurseForward, fwd_const s g c n hg i (by omega), hg (i + 1) h]; ring

theorem bwdAux_const (s : ℕ → ℚ) (g : ℕ → ℚ) (c : ℚ) (n : ℕ) (hg : ∀ i, i < n → g i = c) :
    ∀ k, k < n → recurseBackwardAux n s g k = c
  | 0, h => hg (n - 1) (by omega)
  | k + 1, h => by
    simp only [recurseBackwardAux, bwdAux_const s g c n hg k (by omega), hg (n - 1 - (k + 1)) (by omega)]; ring

theorem fwd_zero (s g : ℕ → ℚ) (n : ℕ) (hs : ∀ i, i + 1 < n → s i = 0) : ∀ i, i < n → recurseForward s g i = g i
  | 0, _ => rfl
  | i + 1, h => by simp only [recurseForward, hs i h]; ring

theorem bwdAux_zero (s g : ℕ → ℚ) (n : ℕ) (hs : ∀ i, i + 1 < n → s i = 0) :
    ∀ k, k < n → recurseBackwardAux n s g k = g (n - 1 - k)
  | 0, _ => rfl
  | k + 1, h => by simp only [recurseBackwardAux, hs (n - 1 - (k + 1)) (by omega)]; ring

/-! ### The plane -/

/-- Specification: the x-coefficients of an `h × w` grid (there are `h × (w-1)` of them) and the y-coefficients
(`(h-1) × w`) lie in `[0, m]`. -/
def Spec.coeffsIn (h w : ℕ) (m : ℚ) (cx cy : ℕ → ℕ → ℚ) : Prop :=
  (∀ y x, y < h → x + 1 < w → 0 ≤ cx y x ∧ cx y x ≤ m) ∧ (∀ y x, y + 1 < h → x < w → 0 ≤ cy y x ∧ cy y x ≤ m)

theorem smoothX_bounds {h w : ℕ} {cx f : ℕ → ℕ → ℚ} {lo hi : ℚ}
    (hc : ∀ y x, y < h → x + 1 < w → 0 ≤ cx y x ∧ cx y x ≤ 1)
    (hf : ∀ y x, y < h → x < w → lo ≤ f y x ∧ f y x ≤ hi) :
    ∀ y x, y < h → x < w → lo ≤ smoothX w cx f y x ∧ smoothX w cx f y x ≤ hi := by
  intro y x hy hx
  exact bwd_bounds (fun i hi' => hc y i hy hi') (fwd_bounds (fun i hi' => hc y i hy hi') (fun i hi' => hf y i hy hi')) x hx

theorem smoothY_bounds {h w : ℕ} {cy f : ℕ → ℕ → ℚ} {lo hi : ℚ}
    (hc : ∀ y x, y + 1 < h → x < w → 0 ≤ cy y x ∧ cy y x ≤ 1)
    (hf : ∀ y x, y < h → x < w → lo ≤ f y x ∧ f y x ≤ hi) :
    ∀ y x, y < h → x < w → lo ≤ smoothY h cy f y x ∧ smoothY h cy f y x ≤ hi := by
  intro y x hy hx
  exact bwd_bounds (fun i hi' => hc i x hi' hx) (fwd_bounds (fun i hi' => hc i x hi' hx) (fun i hi' => hf i x hi' hx)) y hy

theorem run_bounds {h w : ℕ} {cx cy : ℕ → ℕ → ℚ} {lo hi : ℚ} (hc : Spec.coeffsIn h w 1 cx cy) :
    ∀ (k : ℕ) (f : ℕ → ℕ → ℚ), (∀ y x, y < h → x < w → lo ≤ f y x ∧ f y x ≤ hi) →
    ∀ y x, y < h → x < w → lo ≤ runRecursion h w cx cy k f y x ∧ runRecursion h w cx cy k f y x ≤ hi
  | 0, _, hf => hf
  | k + 1, _, hf => run_bounds hc k _ (smoothY_bounds hc.2 (smoothX_bounds hc.1 hf))

theorem run_mono {h w : ℕ} {cx cy : ℕ → ℕ → ℚ} (hc : Spec.coeffsIn h w 1 cx cy) :
    ∀ (k : ℕ) (f f' : ℕ → ℕ → ℚ), (∀ y x, y < h → x < w → f y x ≤ f' y x) →
    ∀ y x, y < h → x < w → runRecursion h w cx cy k f y x ≤ runRecursion h w cx cy k f' y x
  | 0, _, _, hf => hf
  | k + 1, f, f', hf => by
    apply run_mono hc k
    have h1 : ∀ y x, y < h → x < w → smoothX w cx f y x ≤ smoothX w cx f' y x := fun y x hy hx =>
      bwdAux_mono (fun i hi' => hc.1 y i hy hi')
        (fwd_mono (fun i hi' => hc.1 y i hy hi') (fun i hi' => hf y i hy hi')) _ (by omega)
    exact fun y x hy hx => bwdAux_mono (fun i hi' => hc.2 i x hi' hx)
        (fwd_mono (fun i hi' => hc.2 i x hi' hx) (fun i hi' => h1 i x hi' hx)) _ (by omega)

theorem smoothX_linear (w : ℕ) (cx f f' : ℕ → ℕ → ℚ) (a b : ℚ) :
    smoothX w cx (fun y x => a * f y x + b * f' y x) = fun y x => a * smoothX w cx f y x + b * smoothX w cx f' y x := by
  funext y x
  simp only [smoothX, recurseBackward]
  have : recurseForward (cx y) (fun x => a * f y x + b * f' y x)
      = fun i => a * recurseForward (cx y) (f y) i + b * recurseForward (cx y) (f' y) i := by
    funext i; exact fwd_linear _ _ _ a b i
  rw [this]; exact bwdAux_linear _ _ _ _ a b _

theorem smoothY_linear (h : ℕ) (cy f f' : ℕ → ℕ → ℚ) (a b : ℚ) :
    smoothY h cy (fun y x => a * f y x + b * f' y x) = fun y x => a * smoothY h cy f y x + b * smoothY h cy f' y x := by
  funext y x
  simp only [smoothY, recurseBackward]
  have : recurseForward (fun i => cy i x) (fun i => a * f i x + b * f' i x)
      = fun i => a * recurseForward (fun i => cy i x) (fun i => f i x) i
        + b * recurseForward (fun i => cy i x) (fun i => f' i x) i := by
    funext i; exact fwd_linear _ _ _ a b i
  rw [this]; exact bwdAux_linear _ _ _ _ a b _

theorem run_linear (h w : ℕ) (cx cy : ℕ → ℕ → ℚ) (a b : ℚ) : ∀ (k : ℕ) (f f' : ℕ → ℕ → ℚ),
    runRecursion h w cx cy k (fun y x => a * f y x + b * f' y x)
      = fun y x => a * runRecursion h w cx cy k f y x + b * runRecursion h w cx cy k f' y x
  | 0, _, _ => rfl
  | k + 1, f, f' => by
    simp only [runRecursion]
    rw [smoothX_linear, smoothY_linear, run_linear h w cx cy a b k]

theorem run_const {h w : ℕ} (cx cy : ℕ → ℕ → ℚ) (c : ℚ) :
    ∀ (k : ℕ) (f : ℕ → ℕ → ℚ), (∀ y x, y < h → x < w → f y x = c) →
    ∀ y x, y < h → x < w → runRecursion h w cx cy k f y x = c
  | 0, _, hf => hf
  | k + 1, f, hf => by
    apply run_const cx cy c k
    have h1 : ∀ y x, y < h → x < w → smoothX w cx f y x = c := fun y x hy hx =>
      bwdAux_const _ _ c w (fwd_const _ _ c w (fun i hi' => hf y i hy hi')) _ (by omega)
    exact fun y x hy hx => bwdAux_const _ _ c h (fwd_const _ _ c h (fun i hi' => h1 i x hi' hx)) _ (by omega)

theorem run_zero {h w : ℕ} {cx cy : ℕ → ℕ → ℚ} (hx : ∀ y x, y < h → x + 1 < w → cx y x = 0)
    (hy : ∀ y x, y + 1 < h → x < w → cy y x = 0) :
    ∀ (k : ℕ) (f : ℕ → ℕ → ℚ) (y x : ℕ), y < h → x < w → runRecursion h w cx cy k f y x = f y x
  | 0, _, _, _, _, _ => rfl
  | k + 1, f, y, x, hy', hx' => by
    simp only [runRecursion]
    rw [run_zero hx hy k _ y x hy' hx']
    have h1 : ∀ y x, y < h → x < w → smoothX w cx f y x = f y x := fun y x hy hx' => by
      simp only [smoothX, recurseBackward]
      rw [bwdAux_zero _ _ w (fun i hi' => hx y i hy hi') _ (by omega)]
      have e : w - 1 - (w - 1 - x) = x := by omega
      rw [e, fwd_zero _ _ w (fun i hi' => hx y i hy hi') _ hx']
    simp only [smoothY, recurseBackward]
    rw [bwdAux_zero _ _ h (fun i hi' => hy i x hi' hx') _ (by omega)]
    have e : h - 1 - (h - 1 - y) = y := by omega
    rw [e, fwd_zero _ _ h (fun i hi' => hy i x hi' hx') _ hy', h1 y x hy' hx']

theorem pad_coeffs {h w e : ℕ} {cx cy : ℕ → ℕ → ℚ} {m : ℚ} (hh : 2 ≤ h) (hw : 2 ≤ w) (hc : Spec.coeffsIn h w m cx cy)
    (H W : ℕ) :
    Spec.coeffsIn H W m (npPad2 h (w - 1) e e .symmetric cx) (npPad2 (h - 1) w e e .symmetric cy) := by
  constructor
  · intro y x _ _
    obtain ⟨i, j, hi, hj, he⟩ := C29_symmetric_values h (w - 1) e e cx (by omega) (by omega) y x
    rw [he]; exact hc.1 i j hi (by omega)
  · intro y x _ _
    obtain ⟨i, j, hi, hj, he⟩ := C29_symmetric_values (h - 1) w e e cy (by omega) (by omega) y x
    rw [he]; exact hc.2 i j (by omega) hj

/-- **C28** (range): with coefficients in `[0, 1]` — in particular in the accepted range `[0, 1/2]` — every filtered value
lies within any bounds of the input field, for every grid, halo and number of iterations. -/
theorem C28_range (h w e k : ℕ) (cx cy f : ℕ → ℕ → ℚ) (lo hi : ℚ) (hh : 2 ≤ h) (hw : 2 ≤ w)
    (hc : Spec.coeffsIn h w 1 cx cy) (hf : ∀ y x, y < h → x < w → lo ≤ f y x ∧ f y x ≤ hi)
    (y x : ℕ) (hy : y < h) (hx : x < w) :
    lo ≤ filterSlice h w e k cx cy f y x ∧ filterSlice h w e k cx cy f y x ≤ hi := by
  unfold filterSlice
  apply run_bounds (pad_coeffs hh hw hc _ _) k
  · intro a b _ _
    obtain ⟨i, j, hi, hj, he⟩ := C29_symmetric_values h w (2 * e) (2 * e) f (by omega) (by omega) a b
    rw [he]; exact hf i j hi hj
  · omega
  · omega

/-- **C28** (constants): a constant field is left unchanged, whatever the coefficients. -/
theorem C28_constant (h w e k : ℕ) (cx cy f : ℕ → ℕ → ℚ) (c : ℚ) (hf : ∀ y x, y < h → x < w → f y x = c)
    (y x : ℕ) (hy : y < h) (hx : x < w) : filterSlice h w e k cx cy f y x = c := by
  unfold filterSlice
  apply run_const
  · intro a b _ _
    obtain ⟨i, j, hi, hj, he⟩ := C29_symmetric_values h w (2 * e) (2 * e) f (by omega) (by omega) a b
    rw [he]; exact hf i j hi hj
  · omega
  · omega

/-- **C28** (identity): with all coefficients zero the field is returned unchanged. -/
theorem C28_identity (h w e k : ℕ) (cx cy f : ℕ → ℕ → ℚ) (hh : 2 ≤ h) (hw : 2 ≤ w)
    (hx0 : ∀ y x, y < h → x + 1 < w → cx y x = 0) (hy0 : ∀ y x, y + 1 < h → x < w → cy y x = 0)
    (y x : ℕ) (hy : y < h) (hx : x < w) : filterSlice h w e k cx cy f y x = f y x := by
  unfold filterSlice
  rw [run_zero]
  · exact npPad2_inner h w (2 * e) (2 * e) .symmetric f y x hy hx
  · intro a b _ _
    obtain ⟨i, j, hi, hj, he⟩ := C29_symmetric_values h (w - 1) (2 * e) (2 * e) cx (by omega) (by omega) a b
    rw [he]; exact hx0 i j hi (by omega)
  · intro a b _ _
    obtain ⟨i, j, hi, hj, he⟩ := C29_symmetric_values (h - 1) w (2 * e) (2 * e) cy (by omega) (by omega) a b
    rw [he]; exact hy0 i j (by omega) hj
  · omega
  · omega

/-- **C28** (monotone): a field that is at least another everywhere is at least it everywhere after filtering. -/
theorem C28_monotone (h w e k : ℕ) (cx cy f f' : ℕ → ℕ → ℚ) (hh : 2 ≤ h) (hw : 2 ≤ w)
    (hc : Spec.coeffsIn h w 1 cx cy) (hf : ∀ y x, y < h → x < w → f y x ≤ f' y x)
    (y x : ℕ) (hy : y < h) (hx : x < w) :
    filterSlice h w e k cx cy f y x ≤ filterSlice h w e k cx cy f' y x := by
  unfold filterSlice
  apply run_mono (pad_coeffs hh hw hc _ _) k
  · intro a b _ _
    exact hf _ _ (symIndex_lt h _ a (by omega)) (symIndex_lt w _ b (by omega))
  · omega
  · omega

/-- **C28** (linear): filtering commutes with linear combinations of fields (e.g. complements of probabilities and
weighted averages). -/
theorem C28_linear (h w e k : ℕ) (cx cy f f' : ℕ → ℕ → ℚ) (a b : ℚ) (y x : ℕ) :
    filterSlice h w e k cx cy (fun y x => a * f y x + b * f' y x) y x
      = a * filterSlice h w e k cx cy f y x + b * filterSlice h w e k cx cy f' y x := by
  unfold filterSlice
  have : npPad2 h w (2 * e) (2 * e) .symmetric (fun y x => a * f y x + b * f' y x)
      = fun y x => a * npPad2 h w (2 * e) (2 * e) .symmetric f y x + b * npPad2 h w (2 * e) (2 * e) .symmetric f' y x := by
    funext y x; rfl
  rw [this, run_linear]

/-- **C28** (validation): a coefficient above one half makes the plugin fail with `ValueError`. -/
theorem C28_large_rejected (its : Option ℤ) (e : ℕ) (g : Grid2) (mask : Option (ℕ → ℕ → Bool)) (c1 c2 : CoeffCube)
    (hbig : (∃ y x, y < c1.h ∧ x < c1.w ∧ 1 / 2 < c1.data y x) ∨ (∃ y x, y < c2.h ∧ x < c2.w ∧ 1 / 2 < c2.data y x)) :
    recursiveFilterProcess its e g mask c1 c2 = .error .valueError := by
  have key : ∀ (c : CoeffCube) (b : Bool), (∃ y x, y < c.h ∧ x < c.w ∧ 1 / 2 < c.data y x) →
      validateCoefficient g.xs g.ys c b = .error .valueError := by
    rintro c b ⟨y, x, hy, hx, hv⟩
    have ha : anyAboveHalf c = true := by
      unfold anyAboveHalf
      simp only [List.any_eq_true, List.mem_range, decide_eq_true_eq]
      exact ⟨y, hy, x, hx, hv⟩
    unfold validateCoefficient
    by_cases hn : c.name ≠ (if b then "smoothing_coefficient_x" else "smoothing_coefficient_y")
    · rw [if_pos hn]
    · rw [if_neg hn, if_pos ha]
  have other : ∀ (c : CoeffCube) (b : Bool), validateCoefficient g.xs g.ys c b = .ok () ∨
      validateCoefficient g.xs g.ys c b = .error .valueError := by
    intro c b
    unfold validateCoefficient
    split_ifs <;> simp
  have hval : validateCoefficients g.xs g.ys c1 c2 = .error .valueError := by
    unfold validateCoefficients
    by_cases hlt : c2.name < c1.name
    · simp only [if_pos hlt]
      rcases hbig with h1 | h2
      · rcases other c2 true with ho | ho <;> simp [bind, Except.bind, ho, key c1 false h1]
      · simp [bind, Except.bind, key c2 true h2]
    · simp only [if_neg hlt]
      rcases hbig with h1 | h2
      · simp [bind, Except.bind, key c1 true h1]
      · rcases other c1 true with ho | ho <;> simp [bind, Except.bind, ho, key c2 false h2]
  unfold recursiveFilterProcess
  rw [hval]; rfl

/-- **C28** (validation): a non-positive number of iterations is refused by the constructor, and a plugin without one always
fails. -/
theorem C28_iterations (k : ℤ) (e : ℕ) (g : Grid2) (mask : Option (ℕ → ℕ → Bool)) (c1 c2 : CoeffCube) :
    (recursiveFilterInit (some k) = .error .valueError ↔ k < 1) ∧
    ∃ err, recursiveFilterProcess none e g mask c1 c2 = .error err := by
  constructor
  · unfold recursiveFilterInit
    by_cases h : k < 1 <;> simp [h]
  · unfold recursiveFilterProcess
    cases h : validateCoefficients g.xs g.ys c1 c2 with
    | error e => exact ⟨e, rfl⟩
    | ok p => exact ⟨.typeError, by cases mask <;> rfl⟩

/-- A 2×3 example used below: `cx` is 2×2, `cy` is 1×3. -/
example : Spec.coeffsIn 2 3 1 (fun _ _ => 1/2) (fun _ _ => 1/4) := by
  constructor <;> intros <;> norm_num

example : filterSlice 2 2 0 1 (fun _ _ => 1/2) (fun _ _ => 0) (fun y x => if y = 0 ∧ x = 0 then 1 else 0) 0 1 = 1/2 := by
  decide +kernel

/-! ### C40: masked points -/

/-- **C40** (partial): without a halo (`edge_width = 0`), the filtered values at the unmasked points do not depend on the
data under the mask, for any mask, grid, coefficients and number of iterations.  The full property is for every edge
width; with a halo it is false, see `C40_halo_leak_refuted`. -/
theorem C40_mask_isolated_partial (h w k : ℕ) (cx cy f f' : ℕ → ℕ → ℚ) (mask : ℕ → ℕ → Bool) (hh : 2 ≤ h) (hw : 2 ≤ w)
    (hf : ∀ y x, y < h → x < w → mask y x = false → f y x = f' y x)
    (y x : ℕ) (hy : y < h) (hx : x < w) (hm : mask y x = false) :
    filterSlice h w 0 k (zeroMaskedX mask cx) (zeroMaskedY mask cy) f y x
      = filterSlice h w 0 k (zeroMaskedX mask cx) (zeroMaskedY mask cy) f' y x := by
  have pad0 : ∀ (a b : ℕ) (g : ℕ → ℕ → ℚ) (i j : ℕ), i < a → j < b → npPad2 a b 0 0 .symmetric g i j = g i j := by
    intro a b g i j hi hj
    exact npPad2_inner a b 0 0 .symmetric g i j hi hj
  -- general statement about runRecursion
  have run : ∀ (cx' cy' : ℕ → ℕ → ℚ),
      (∀ y x, y < h → x + 1 < w → mask y x = true ∨ mask y (x + 1) = true → cx' y x = 0) →
      (∀ y x, y + 1 < h → x < w → mask y x = true ∨ mask (y + 1) x = true → cy' y x = 0) →
      ∀ (k : ℕ) (f f' : ℕ → ℕ → ℚ), (∀ y x, y < h → x < w → mask y x = false → f y x = f' y x) →
      ∀ y x, y < h → x < w → mask y x = false → runRecursion h w cx' cy' k f y x = runRecursion h w cx' cy' k f' y x := by
    intro cx' cy' hcx hcy k
    -- one line
    have line : ∀ (n : ℕ) (s g g' : ℕ → ℚ) (m : ℕ → Bool), (∀ i, i + 1 < n → m i = true ∨ m (i + 1) = true → s i = 0) →
        (∀ i, i < n → m i = false → g i = g' i) →
        ∀ i, i < n → m i = false → recurseBackward n s (recurseForward s g) i = recurseBackward n s (recurseForward s g') i := by
      intro n s g g' m hs hg
      have f1 : ∀ i, i < n → m i = false → recurseForward s g i = recurseForward s g' i := by
        intro i
        induction i with
        | zero => exact hg 0
        | succ i ih =>
          intro hi hmi
          simp only [recurseForward]
          rw [hg (i + 1) hi hmi]
          cases hmm : m i with
          | true => rw [hs i hi (.inl hmm)]; ring
          | false => rw [ih (by omega) hmm]
      have f2 : ∀ k, k < n → m (n - 1 - k) = false →
          recurseBackwardAux n s (recurseForward s g) k = recurseBackwardAux n s (recurseForward s g') k := by
        intro k
        induction k with
        | zero => intro hn hmk; exact f1 (n - 1) (by omega) hmk
        | succ k ih =>
          intro hk hmk
          simp only [recurseBackwardAux]
          rw [f1 _ (by omega) hmk]
          cases hmm : m (n - 1 - k) with
          | true =>
            have : n - 1 - (k + 1) + 1 = n - 1 - k := by omega
            rw [hs (n - 1 - (k + 1)) (by omega) (.inr (by rw [this]; exact hmm))]; ring
          | false => rw [ih (by omega) hmm]
      intro i hi hmi
      apply f2 _ (by omega)
      have : n - 1 - (n - 1 - i) = i := by omega
      rw [this]; exact hmi
    induction k with
    | zero => intro f f' hf; exact hf
    | succ k ih =>
      intro f f' hf
      simp only [runRecursion]
      apply ih
      have h1 : ∀ y x, y < h → x < w → mask y x = false → smoothX w cx' f y x = smoothX w cx' f' y x := by
        intro y x hy hx hm
        exact line w (cx' y) (f y) (f' y) (mask y) (fun i hi => hcx y i hy hi) (fun i hi => hf y i hy hi) x hx hm
      intro y x hy hx hm
      exact line h (fun i => cy' i x) (fun i => smoothX w cx' f i x) (fun i => smoothX w cx' f' i x) (fun i => mask i x)
        (fun i hi => hcy i x hi hx) (fun i hi => h1 i x hi hx) y hy hm
  unfold filterSlice
  simp only [Nat.mul_zero, Nat.add_zero]
  apply run _ _ _ _ k _ _ _ y x hy hx hm
  · intro y x hy hx hmm
    rw [pad0 h (w - 1) _ y x hy (by omega)]
    unfold zeroMaskedX
    rcases hmm with h1 | h1 <;> simp [h1]
  · intro y x hy hx hmm
    rw [pad0 (h - 1) w _ y x (by omega) hx]
    unfold zeroMaskedY
    rcases hmm with h1 | h1 <;> simp [h1]
  · intro y x hy hx hmm
    rw [pad0 h w _ y x hy hx, pad0 h w _ y x hy hx]
    exact hf y x hy hx hmm

/-- C40 (finding): on a 2×3 grid with the point (0,0) masked and halo width 2 (`edge_width = 1`), two iterations with all
coefficients 1/2: the filtered value at the unmasked point (1,0) is 0 when the datum under the mask is 0 and positive when
it is 1 (all other data zero): the masked value leaks through the halo, where the coefficients are not aligned with the
mirrored data. -/
theorem C40_halo_leak_refuted :
    let mask : ℕ → ℕ → Bool := fun y x => y == 0 && x == 0
    let f : ℚ → ℕ → ℕ → ℚ := fun v y x => if y = 0 ∧ x = 0 then v else 0
    filterSlice 2 3 1 2 (zeroMaskedX mask (fun _ _ => 1/2)) (zeroMaskedY mask (fun _ _ => 1/2)) (f 0) 1 0 = 0 ∧
    filterSlice 2 3 1 2 (zeroMaskedX mask (fun _ _ => 1/2)) (zeroMaskedY mask (fun _ _ => 1/2)) (f 1) 1 0
      = 8379 / 524288 := by
  decide +kernel

example : zeroMaskedX (fun y x => y == 0 && x == 0) (fun _ _ => 1/2) 0 0 = 0 ∧
    zeroMaskedX (fun y x => y == 0 && x == 0) (fun _ _ => 1/2) 1 0 = 1/2 := by decide +kernel

/-! ### C41: effect on the caller's coefficients -/

/-- **C41** (partial): filtering an unmasked cube leaves the data of the caller's coefficient cubes unchanged, so that
filtering any sequence of unmasked cubes with the same coefficients gives the same results as with fresh copies.  For masked
cubes this is false, see `C41_coefficients_overwritten_refuted`. -/
theorem C41_coefficients_unchanged_partial (its : Option ℤ) (e : ℕ) (g : Grid2) (c1 c2 : CoeffCube) (r : FilterResult)
    (h : recursiveFilterProcess its e g none c1 c2 = .ok r) :
    (r.cx = c1.data ∧ r.cy = c2.data) ∨ (r.cx = c2.data ∧ r.cy = c1.data) := by
  unfold recursiveFilterProcess at h
  cases hv : validateCoefficients g.xs g.ys c1 c2 with
  | error err => rw [hv] at h; cases h
  | ok p =>
    rw [hv] at h
    have hp : p = (c1, c2) ∨ p = (c2, c1) := by
      unfold validateCoefficients at hv
      by_cases hlt : c2.name < c1.name
      · simp only [if_pos hlt, bind, Except.bind, pure, Except.pure] at hv
        split at hv <;> [cases hv; skip]
        split at hv <;> [cases hv; skip]
        injection hv with hv; exact .inr hv.symm
      · simp only [if_neg hlt, bind, Except.bind, pure, Except.pure] at hv
        split at hv <;> [cases hv; skip]
        split at hv <;> [cases hv; skip]
        injection hv with hv; exact .inl hv.symm
    cases its with
    | none => cases h
    | some k =>
      simp only [bind, Except.bind] at h
      injection h with h
      subst h
      rcases hp with rfl | rfl
      · exact .inl ⟨rfl, rfl⟩
      · exact .inr ⟨rfl, rfl⟩

/-- Example coefficient cubes on the 2×3 grid with rows 0, 1 and columns 0, 1, 2. -/
def exCoeffX : CoeffCube := ⟨"smoothing_coefficient_x", 2, 2, fun _ _ => 1/2, [0, 1], [1/2, 3/2]⟩
def exCoeffY : CoeffCube := ⟨"smoothing_coefficient_y", 1, 3, fun _ _ => 1/2, [1/2], [0, 1, 2]⟩
def exGrid (f : ℕ → ℕ → ℚ) : Grid2 := ⟨2, 3, f, [0, 1], [0, 1, 2]⟩

/-- Observations of a successful filter run. -/
def filterObs (r : Except Err FilterResult) (y x : ℕ) : Option (ℚ × ℚ) :=
  match r with
  | .ok r => some (r.data y x, r.cx y x)
  | .error _ => none

/-- C41 (finding): filtering a masked cube writes zeros into the caller's coefficients; filtering an unmasked cube afterwards
with the same coefficient cubes gives a different answer from filtering it first. -/
theorem C41_coefficients_overwritten_refuted :
    let mask : ℕ → ℕ → Bool := fun y x => y == 0 && x == 0
    let f : ℕ → ℕ → ℚ := fun _ x => x
    let first := recursiveFilterProcess (some 1) 0 (exGrid f) (some mask) exCoeffX exCoeffY
    let before := recursiveFilterProcess (some 1) 0 (exGrid f) none exCoeffX exCoeffY
    let after := match first with
      | .ok r => recursiveFilterProcess (some 1) 0 (exGrid f) none { exCoeffX with data := r.cx } { exCoeffY with data := r.cy }
      | .error e => .error e
    filterObs first 0 0 = some (0, 0) ∧ filterObs before 0 0 = some (7/16, 1/2) ∧ filterObs after 0 0 = some (0, 0) := by
  decide +kernel

/-! ### C42: orographic smoothing coefficients -/

theorem npMin_le {l : List ℚ} {m : ℚ} (h : npMin l = .ok m) : ∀ x ∈ l, m ≤ x := by
  cases l with
  | nil => cases h
  | cons a l =>
    injection h with h
    subst h
    intro x hx
    rcases List.mem_cons.1 hx with rfl | hx
    · exact (foldl_min_le _ l).1
    · exact (foldl_min_le _ l).2 x hx

theorem le_npMax {l : List ℚ} {m : ℚ} (h : npMax l = .ok m) : ∀ x ∈ l, x ≤ m := by
  cases l with
  | nil => cases h
  | cons a l =>
    injection h with h
    subst h
    intro x hx
    rcases List.mem_cons.1 hx with rfl | hx
    · exact (foldl_le_max _ l).1
    · exact (foldl_le_max _ l).2 x hx

/-- What scaling returns: a common affine function of the gradient magnitudes. -/
theorem scaleCoefficients_spec {minG maxG : ℚ} {xs ys : List ℚ} {ox oy : List (Option ℚ)}
    (h : scaleCoefficients minG maxG xs ys = .ok (ox, oy)) :
    ∃ mn mx, (∀ v ∈ xs ++ ys, mn ≤ |v| ∧ |v| ≤ mx) ∧
      ox = xs.map (fun v => if mx - mn = 0 then none else some ((|v| - mn) / (mx - mn) * (maxG - minG) + minG)) ∧
      oy = ys.map (fun v => if mx - mn = 0 then none else some ((|v| - mn) / (mx - mn) * (maxG - minG) + minG)) := by
  unfold scaleCoefficients at h
  cases h1 : npMin (xs.map abs) with
  | error e => rw [h1] at h; cases h
  | ok mn1 =>
    cases h2 : npMin (ys.map abs) with
    | error e => rw [h1, h2] at h; cases h
    | ok mn2 =>
      cases h3 : npMax (xs.map abs) with
      | error e => rw [h1, h2, h3] at h; cases h
      | ok mx1 =>
        cases h4 : npMax (ys.map abs) with
        | error e => rw [h1, h2, h3, h4] at h; cases h
        | ok mx2 =>
          rw [h1, h2, h3, h4] at h
          simp only [bind, Except.bind, pure, Except.pure] at h
          injection h with h
          injection h with ha hb
          refine ⟨min mn1 mn2, max mx1 mx2, ?_, ha.symm, hb.symm⟩
          intro v hv
          rcases List.mem_append.1 hv with hv | hv
          · exact ⟨le_trans (min_le_left _ _) (npMin_le h1 _ (List.mem_map_of_mem hv)),
              le_trans (le_npMax h3 _ (List.mem_map_of_mem hv)) (le_max_left _ _)⟩
          · exact ⟨le_trans (min_le_right _ _) (npMin_le h2 _ (List.mem_map_of_mem hv)),
              le_trans (le_npMax h4 _ (List.mem_map_of_mem hv)) (le_max_right _ _)⟩

/-- **C42.** The generated coefficients lie between the two configured limits, hence in `[0, 1/2]`: they are always accepted
by the recursive filter's range check. -/
theorem C42_in_limits (minG maxG : ℚ) (hinit : orogCoeffInit minG maxG = .ok ()) (xs ys : List ℚ)
    (ox oy : List (Option ℚ)) (h : scaleCoefficients minG maxG xs ys = .ok (ox, oy)) (c : ℚ) (hc : some c ∈ ox ++ oy) :
    min minG maxG ≤ c ∧ c ≤ max minG maxG ∧ 0 ≤ c ∧ c ≤ 1 / 2 := by
  have hlim : (0 ≤ minG ∧ minG ≤ 1/2) ∧ (0 ≤ maxG ∧ maxG ≤ 1/2) := by
    unfold orogCoeffInit at hinit
    by_cases h1 : minG < 0 ∨ minG > 1 / 2
    · rw [if_pos h1] at hinit; cases hinit
    · rw [if_neg h1] at hinit
      by_cases h2 : maxG < 0 ∨ maxG > 1 / 2
      · rw [if_pos h2] at hinit; cases hinit
      · push Not at h1 h2; exact ⟨h1, h2⟩
  obtain ⟨mn, mx, hb, rfl, rfl⟩ := scaleCoefficients_spec h
  rw [← List.map_append] at hc
  obtain ⟨v, hv, hvc⟩ := List.mem_map.1 hc
  by_cases h0 : mx - mn = 0
  · rw [if_pos h0] at hvc; cases hvc
  · rw [if_neg h0] at hvc
    injection hvc with hvc
    obtain ⟨b1, b2⟩ := hb v hv
    have hpos : 0 < mx - mn := lt_of_le_of_ne (by linarith) (Ne.symm h0)
    have t0 : 0 ≤ (|v| - mn) / (mx - mn) := div_nonneg (by linarith) hpos.le
    have t1 : (|v| - mn) / (mx - mn) ≤ 1 := by rw [div_le_one hpos]; linarith
    have lo : min minG maxG ≤ c := by
      rw [← hvc]
      rcases le_total minG maxG with hh | hh
      · rw [min_eq_left hh]; nlinarith
      · rw [min_eq_right hh]; nlinarith
    have hi : c ≤ max minG maxG := by
      rw [← hvc]
      rcases le_total minG maxG with hh | hh
      · rw [max_eq_right hh]; nlinarith
      · rw [max_eq_left hh]; nlinarith
    refine ⟨lo, hi, le_trans (le_min hlim.1.1 hlim.2.1) lo, le_trans hi (max_le hlim.1.2 hlim.2.2)⟩

/-- **C42** (monotone): when the limit for steep slopes is the smaller one (the default), a steeper gradient never gets a
larger coefficient, across both directions. -/
theorem C42_antitone (minG maxG : ℚ) (hle : maxG ≤ minG) (xs ys : List ℚ) (ox oy : List (Option ℚ))
    (h : scaleCoefficients minG maxG xs ys = .ok (ox, oy)) (i j : ℕ) (hi : i < (xs ++ ys).length)
    (hj : j < (xs ++ ys).length) (hij : |(xs ++ ys)[i]| ≤ |(xs ++ ys)[j]|) (ci cj : ℚ)
    (hci : (ox ++ oy)[i]? = some (some ci)) (hcj : (ox ++ oy)[j]? = some (some cj)) : cj ≤ ci := by
  obtain ⟨mn, mx, hb, rfl, rfl⟩ := scaleCoefficients_spec h
  rw [← List.map_append] at hci hcj
  rw [List.getElem?_map, List.getElem?_eq_getElem hi] at hci
  rw [List.getElem?_map, List.getElem?_eq_getElem hj] at hcj
  simp only [Option.map_some, Option.some.injEq] at hci hcj
  by_cases h0 : mx - mn = 0
  · rw [if_pos h0] at hci; cases hci
  · rw [if_neg h0] at hci hcj
    injection hci with hci
    injection hcj with hcj
    obtain ⟨b1, b2⟩ := hb _ (List.getElem_mem hi)
    have hpos : 0 < mx - mn := lt_of_le_of_ne (by linarith) (Ne.symm h0)
    have : (|(xs ++ ys)[i]| - mn) / (mx - mn) ≤ (|(xs ++ ys)[j]| - mn) / (mx - mn) :=
      div_le_div_of_nonneg_right (by linarith) hpos.le
    rw [← hci, ← hcj]; nlinarith

/-- C42 (finding): over an orography whose gradients all have the same magnitude (for example a flat one) every coefficient
is NaN. -/
theorem C42_uniform_gradient_refuted (minG maxG g : ℚ) (n m : ℕ) :
    scaleCoefficients minG maxG (List.replicate (n + 1) g) (List.replicate (m + 1) g)
      = .ok (List.replicate (n + 1) none, List.replicate (m + 1) none) := by
  have hmin : ∀ k, npMin ((List.replicate (k + 1) g).map abs) = .ok |g| := by
    intro k
    rw [List.map_replicate, List.replicate_succ]
    simp only [npMin]
    congr 1
    induction k with
    | zero => rfl
    | succ k ih => rw [List.replicate_succ, List.foldl_cons, min_self]; exact ih
  have hmax : ∀ k, npMax ((List.replicate (k + 1) g).map abs) = .ok |g| := by
    intro k
    rw [List.map_replicate, List.replicate_succ]
    simp only [npMax]
    congr 1
    induction k with
    | zero => rfl
    | succ k ih => rw [List.replicate_succ, List.foldl_cons, max_self]; exact ih
  unfold scaleCoefficients
  rw [hmin, hmin, hmax, hmax]
  simp only [bind, Except.bind, pure, Except.pure, max_self, min_self, sub_self, if_true]
  simp [List.map_replicate]

example : scaleCoefficients (1/2) 0 [1, -3, 0] [2, 4] = .ok ([some (3/8), some (1/8), some (1/2)], [some (1/4), some 0]) := by
  decide +kernel

end Improver
