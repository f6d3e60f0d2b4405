import Verif.Model.ProbManip
import Verif.Spec.Threshold

/-! Property theorems C07, C08. -/

namespace Improver

/-- A cube name mentions a threshold direction only once and with no other "above"/"below" in it, as in
`probability_of_X_above_threshold`. -/
def Spec.UniformName (n : List NameTok) : Prop := NameTok.above ∉ n ∨ NameTok.below ∉ n

theorem invertName_involutive (n : List NameTok) (h : Spec.UniformName n) :
    invertName (invertName n) = n := by
  have e1 : ∀ n : List NameTok, NameTok.above ∉ n → (n.map NameTok.toAbove).map NameTok.toBelow = n := by
    intro n hn
    rw [List.map_map]
    conv_rhs => rw [← List.map_id n]
    apply List.map_congr_left
    intro t ht
    cases t <;> simp_all [NameTok.toAbove, NameTok.toBelow]
  have e2 : ∀ n : List NameTok, NameTok.below ∉ n → (n.map NameTok.toBelow).map NameTok.toAbove = n := by
    intro n hn
    rw [List.map_map]
    conv_rhs => rw [← List.map_id n]
    apply List.map_congr_left
    intro t ht
    cases t <;> simp_all [NameTok.toAbove, NameTok.toBelow]
  unfold invertName
  by_cases ha : NameTok.above ∈ n
  · have hb := h.resolve_left (not_not.2 ha)
    have : NameTok.above ∉ n.map NameTok.toBelow := by
      intro hm; obtain ⟨t, -, ht⟩ := List.mem_map.1 hm; cases t <;> simp [NameTok.toBelow] at ht
    simp only [ha, if_true, this, if_false, e2 n hb]
  · simp only [ha, if_false]
    by_cases hb : NameTok.below ∈ n
    · have : NameTok.above ∈ n.map NameTok.toAbove := List.mem_map.2 ⟨_, hb, rfl⟩
      simp only [this, if_true, e1 n ha]
    · have idn : n.map NameTok.toAbove = n := by
        conv_rhs => rw [← List.map_id n]
        apply List.map_congr_left
        intro t ht; cases t <;> simp_all [NameTok.toAbove]
      rw [idn]; simp only [ha, if_false, idn]

theorem invert_ok (o : CmpOp) (n : List NameTok) (d : List ℚ) :
    invertProbabilities ⟨true, o.spp, n, d⟩
      = .ok ⟨true, o.inverse.spp, invertName n, d.map (fun p => 1 - p)⟩ := by
  cases o <;> simp [invertProbabilities, CmpOp.spp, CmpOp.inverse]

/-- **C07.** Inverting twice restores probabilities, inequality and name, for every cube with a recognised
inequality whose name has a single kind of direction word. -/
theorem C07_invert_involutive (o : CmpOp) (n : List NameTok) (d : List ℚ) (hn : Spec.UniformName n) :
    (invertProbabilities ⟨true, o.spp, n, d⟩ >>= invertProbabilities) = .ok ⟨true, o.spp, n, d⟩ := by
  rw [invert_ok]
  simp only [bind, Except.bind]
  rw [invert_ok, invertName_involutive n hn]
  have : o.inverse.inverse = o := by cases o <;> rfl
  simp [this, List.map_map, Function.comp_def]

example : invertProbabilities ⟨true, "greater_than", [.other "probability_of_x_", .above, .other "_threshold"], [1/4, 0]⟩
    = .ok ⟨true, "less_than_or_equal_to", [.other "probability_of_x_", .below, .other "_threshold"], [3/4, 1]⟩ := by
  decide +kernel

/-- **Finding (C07).** A diagnostic whose own name contains "above" (thresholded below) is misnamed by the
inversion: the result claims "below" although its inequality is "greater_than", and inverting back does not
restore the name. -/
theorem C07_name_refuted :
    ∃ c c' c'' : ProbCube, invertProbabilities c = .ok c' ∧ invertProbabilities c' = .ok c'' ∧
      c'.inequality = "greater_than" ∧ NameTok.above ∉ c'.name ∧ c''.name ≠ c.name :=
  ⟨⟨true, "less_than_or_equal_to", [.other "probability_of_height_", .above, .other "_ground_", .below, .other "_threshold"], [1/4]⟩,
   _, _, rfl, rfl, by decide, by decide, by decide⟩

/-- **C07.** The inverse operator is the logical complement of the comparison. -/
theorem C07_inverse_is_complement (o : CmpOp) (x t : ℚ) :
    Spec.holds o.inverse x t ↔ ¬ Spec.holds o x t := by
  cases o <;> simp [Spec.holds, CmpOp.inverse]

/-- **C07.** Inversion complements every probability. -/
theorem C07_invert_complements (c c' : ProbCube) (h : invertProbabilities c = .ok c') :
    c'.data = c.data.map (fun p => 1 - p) := by
  unfold invertProbabilities at h
  split_ifs at h with h1
  split at h
  · injection h with h; subst h; rfl
  · cases h

/-- Kind of inequality string. -/
def Spec.aboveStr (s : String) : Prop := s = "greater_than" ∨ s = "greater_than_or_equal_to"
def Spec.belowStr (s : String) : Prop := s = "less_than" ∨ s = "less_than_or_equal_to"

/-- **C07.** `to_threshold_inequality` reaches the target for every recognised inequality, returns the cube
untouched when it is of the target kind already, and is idempotent. -/
theorem C07_to_threshold_inequality (o : CmpOp) (n : List NameTok) (d : List ℚ) (above : Bool) :
    ∃ c', toThresholdInequality ⟨true, o.spp, n, d⟩ above = .ok c' ∧
      (above = true → Spec.aboveStr c'.inequality) ∧ (above = false → Spec.belowStr c'.inequality) ∧
      ((Spec.isAbove o ↔ above = true) → c' = ⟨true, o.spp, n, d⟩) ∧
      toThresholdInequality c' above = .ok c' := by
  cases o <;> cases above <;>
    simp [toThresholdInequality, invert_ok, CmpOp.spp, CmpOp.inverse, Spec.aboveStr, Spec.belowStr, Spec.isAbove,
      invertProbabilities]

/-- **C07.** No threshold coordinate: `ValueError`. -/
theorem C07_no_threshold (c : ProbCube) (a : Bool) (h : c.hasThreshold = false) :
    invertProbabilities c = .error .valueError ∧ toThresholdInequality c a = .error .valueError := by
  simp [invertProbabilities, toThresholdInequality, h]

/-! ### C08 -/

/-- Probabilities fall with the threshold (exceedance) or rise with it (below). -/
def Spec.MonotoneProbs (above : Bool) (cube : List (ℚ × ℚ)) : Prop :=
  ∀ a ∈ cube, ∀ b ∈ cube, a.1 ≤ b.1 → if above then b.2 ≤ a.2 else a.2 ≤ b.2

theorem extract_mem {cube : List (ℚ × ℚ)} {t : ℚ} {e : ℚ × ℚ} (h : extractThreshold cube t = .ok e) :
    e ∈ cube ∧ |e.1 - t| ≤ 1/100000 + 1/100000 * |t| ∧
    ∀ e' ∈ cube, |e'.1 - t| ≤ 1/100000 + 1/100000 * |t| → e' = e := by
  unfold extractThreshold at h
  split at h
  · cases h
  · rename_i e0 hf
    injection h with h; subst h
    have hm : ∀ x, x ∈ cube.filter (fun e => npIsclose e.1 t (1 / 100000) (1 / 100000)) ↔ x = e0 := by
      rw [hf]; simp
    simp only [List.mem_filter, npIsclose, decide_eq_true_eq] at hm
    refine ⟨((hm e0).2 rfl).1, ((hm e0).2 rfl).2, fun e' he' hc => (hm e').1 ⟨he', hc⟩⟩
  · cases h

/-- The threshold matched to the lower value never lies above the one matched to the upper value. -/
theorem extract_ordered {cube : List (ℚ × ℚ)} {a b : ℚ} {ea eb : ℚ × ℚ} (hab : a ≤ b)
    (h1 : extractThreshold cube a = .ok ea) (h2 : extractThreshold cube b = .ok eb) : ea.1 ≤ eb.1 := by
  obtain ⟨m1, c1, u1⟩ := extract_mem h1
  obtain ⟨m2, c2, u2⟩ := extract_mem h2
  by_contra hlt
  push Not at hlt
  have n1 : ¬ |eb.1 - a| ≤ 1/100000 + 1/100000 * |a| := fun h => by rw [u1 eb m2 h] at hlt; linarith
  have n2 : ¬ |ea.1 - b| ≤ 1/100000 + 1/100000 * |b| := fun h => by rw [u2 ea m1 h] at hlt; linarith
  push Not at n1 n2
  rw [abs_le] at c1 c2
  rw [lt_abs] at n1 n2
  rcases n1 with n1 | n1 <;> rcases n2 with n2 | n2 <;> linarith [c1.1, c1.2, c2.1, c2.2]

/-- **C08.** Between-threshold probabilities of a monotone probability cube lie in `[0,1]`. -/
theorem C08_between_in_unit_interval (cube : List (ℚ × ℚ)) (above : Bool) (ranges : List (ℚ × ℚ))
    (out : List ℚ) (hp : ∀ e ∈ cube, 0 ≤ e.2 ∧ e.2 ≤ 1) (hm : Spec.MonotoneProbs above cube)
    (h : occurrenceBetween ranges cube above = .ok out) :
    out.length = ranges.length ∧ ∀ v ∈ out, 0 ≤ v ∧ v ≤ 1 := by
  have one : ∀ r v, betweenOne cube above r = .ok v → 0 ≤ v ∧ v ≤ 1 := by
    intro r v hv
    unfold betweenOne at hv
    cases h1 : extractThreshold cube (min r.1 r.2) with
    | error e => rw [h1] at hv; cases hv
    | ok ea =>
      cases h2 : extractThreshold cube (max r.1 r.2) with
      | error e => rw [h1, h2] at hv; cases hv
      | ok eb =>
        rw [h1, h2] at hv
        injection hv with hv
        subst hv
        have o := extract_ordered (min_le_max) h1 h2
        obtain ⟨m1, -, -⟩ := extract_mem h1
        obtain ⟨m2, -, -⟩ := extract_mem h2
        have mm := hm ea m1 eb m2 o
        have b1 := hp ea m1
        have b2 := hp eb m2
        cases above <;> simp [betweenMultiplier] at mm ⊢ <;> constructor <;> linarith [b1.1, b1.2, b2.1, b2.2]
  unfold occurrenceBetween at h
  cases hi : betweenInit ranges with
  | error e => rw [hi] at h; cases h
  | ok rs =>
    have : rs = ranges := by
      unfold betweenInit at hi; split_ifs at hi; injection hi with hi; exact hi.symm
    subst this
    rw [hi] at h
    replace h : rs.mapM (betweenOne cube above) = .ok out := h
    clear hi
    induction rs generalizing out with
    | nil => 
      have : out = [] := by simpa [pure, Except.pure] using h.symm
      subst this; simp
    | cons r rs ih =>
      rw [List.mapM_cons] at h
      cases hr : betweenOne cube above r with
      | error e => rw [hr] at h; cases h
      | ok v =>
        rw [hr] at h
        cases hrs : rs.mapM (betweenOne cube above) with
        | error e => simp [hrs, bind, Except.bind] at h
        | ok vs =>
          simp only [hrs, bind, Except.bind, pure, Except.pure] at h
          injection h with h; subst h
          have := ih vs hrs
          refine ⟨by simp [this.1], ?_⟩
          intro w hw
          rcases List.mem_cons.1 hw with rfl | hw
          · exact one r _ hr
          · exact this.2 w hw

/-- **C08.** Adjacent intervals add up to the enclosing interval. -/
theorem C08_between_additive (cube : List (ℚ × ℚ)) (above : Bool) (a b c p q r : ℚ) (hab : a ≤ b)
    (hbc : b ≤ c) (h1 : betweenOne cube above (a, b) = .ok p) (h2 : betweenOne cube above (b, c) = .ok q)
    (h3 : betweenOne cube above (a, c) = .ok r) : p + q = r := by
  unfold betweenOne at h1 h2 h3
  simp only [min_eq_left hab, max_eq_right hab, min_eq_left hbc, max_eq_right hbc,
    min_eq_left (hab.trans hbc), max_eq_right (hab.trans hbc)] at h1 h2 h3
  cases ha : extractThreshold cube a with
  | error e => rw [ha] at h1; cases h1
  | ok ea =>
    cases hb : extractThreshold cube b with
    | error e => rw [hb] at h2; cases h2
    | ok eb =>
      cases hc : extractThreshold cube c with
      | error e => rw [hb, hc] at h2; cases h2
      | ok ec =>
        rw [ha, hb] at h1; rw [hb, hc] at h2; rw [ha, hc] at h3
        injection h1 with h1; injection h2 with h2; injection h3 with h3
        subst h1; subst h2; subst h3; ring

/-- **C08.** The exceedance form and the complementary non-exceedance form give the same answer. -/
theorem C08_between_above_below_agree (cube : List (ℚ × ℚ)) (r : ℚ × ℚ) :
    betweenOne (cube.map (fun e => (e.1, 1 - e.2))) false r = betweenOne cube true r := by
  have ex : ∀ t, extractThreshold (cube.map (fun e => (e.1, 1 - e.2))) t
      = (extractThreshold cube t).map (fun e => (e.1, 1 - e.2)) := by
    intro t
    unfold extractThreshold
    rw [List.filter_map]
    have : ((fun e : ℚ × ℚ => npIsclose e.1 t (1 / 100000) (1 / 100000)) ∘ fun e : ℚ × ℚ => (e.1, 1 - e.2))
        = (fun e : ℚ × ℚ => npIsclose e.1 t (1 / 100000) (1 / 100000)) := rfl
    rw [this]
    generalize cube.filter (fun e => npIsclose e.1 t (1 / 100000) (1 / 100000)) = l
    match l with
    | [] => rfl
    | [e] => rfl
    | e :: f :: l => rfl
  unfold betweenOne
  rw [ex, ex]
  cases extractThreshold cube (min r.1 r.2) with
  | error e => rfl
  | ok ea =>
    cases extractThreshold cube (max r.1 r.2) with
    | error e => rfl
    | ok eb =>
      simp only [Except.map, bind, Except.bind, pure, Except.pure, betweenMultiplier]
      congr 1
      simp

/-- No threshold of the cube is close to `t` (numpy closeness with `atol = rtol = 1e-5`). -/
def Spec.unavailable (cube : List (ℚ × ℚ)) (t : ℚ) : Prop :=
  ∀ e ∈ cube, 1/100000 + 1/100000 * |t| < |e.1 - t|

theorem extract_unavailable {cube : List (ℚ × ℚ)} {t : ℚ} (h : Spec.unavailable cube t) :
    extractThreshold cube t = .error .valueError := by
  have : cube.filter (fun e => npIsclose e.1 t (1 / 100000) (1 / 100000)) = [] := by
    rw [List.filter_eq_nil_iff]
    intro e he
    simp only [npIsclose, decide_eq_true_eq, not_le]
    exact h e he
  unfold extractThreshold; rw [this]

/-- **C08.** A range with an unavailable end point, or not increasing by 1e-5, never yields a result,
wherever it stands in the list of ranges. -/
theorem C08_between_rejects (cube : List (ℚ × ℚ)) (above : Bool) (ranges : List (ℚ × ℚ)) (r : ℚ × ℚ)
    (hr : r ∈ ranges)
    (h : Spec.unavailable cube r.1 ∨ Spec.unavailable cube r.2 ∨ r.2 - r.1 < 1/100000) :
    ∃ e, occurrenceBetween ranges cube above = .error e := by
  unfold occurrenceBetween betweenInit
  by_cases hb : ranges.any (fun r => decide (r.2 - r.1 < 1 / 100000)) = true
  · rw [if_pos hb]; exact ⟨_, rfl⟩
  · rw [if_neg hb]
    have hlt : ¬ r.2 - r.1 < 1/100000 := by
      intro hc; exact hb (List.any_eq_true.2 ⟨r, hr, decide_eq_true hc⟩)
    have hle : r.1 ≤ r.2 := by
      push Not at hlt
      have : (0:ℚ) < 1/100000 := by norm_num
      linarith
    have h1 : ∃ e, betweenOne cube above r = .error e := by
      unfold betweenOne
      rw [min_eq_left hle, max_eq_right hle]
      rcases h with h | h | h
      · rw [extract_unavailable h]; exact ⟨_, rfl⟩
      · rw [extract_unavailable h]
        cases extractThreshold cube r.1 with
        | error e => exact ⟨_, rfl⟩
        | ok e => exact ⟨_, rfl⟩
      · exact absurd h hlt
    show ∃ e, ranges.mapM (betweenOne cube above) = .error e
    clear hb
    induction ranges with
    | nil => cases hr
    | cons a l ih =>
      rw [List.mapM_cons]
      rcases List.mem_cons.1 hr with rfl | hr
      · obtain ⟨e, he⟩ := h1; rw [he]; exact ⟨_, rfl⟩
      · obtain ⟨e, he⟩ := ih hr
        cases betweenOne cube above a with
        | error e => exact ⟨_, rfl⟩
        | ok v => rw [he]; exact ⟨_, rfl⟩

example : (occurrenceBetween [(1, 3), (2, 3)] [(1, 9/10), (2, 1/2), (3, 1/10)] true).toOption
    = some [4/5, 2/5] := by decide +kernel
example : Spec.MonotoneProbs true [(1, 9/10), (2, 1/2), (3, 1/10)] := by
  unfold Spec.MonotoneProbs; simp; norm_num

end Improver
