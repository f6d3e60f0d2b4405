import Verif.Lemmas.Threshold

/-! Property theorems C01–C06 and C36: `improver.threshold.Threshold`. -/

namespace Improver

/-- **C01.** Any truth value produced is in `[0,1]`, for every operator, threshold, bounds and datum. -/
theorem C01_truth_value_in_unit_interval (op : CmpOp) (thr lo hi x v : ℚ)
    (h : truthValue op thr (lo, hi) x = .ok v) : 0 ≤ v ∧ v ≤ 1 := by
  rcases truthValue_ok_cases h with rfl | ⟨h0, h1, h2⟩
  · rw [truthValue_crisp] at h
    injection h with h; subst h
    split_ifs <;> norm_num
  · rw [truthValue_fuzzy h0 h1 h2] at h
    injection h with h; subst h
    have := exceed_mem lo thr hi x
    split_ifs <;> constructor <;> linarith [this.1, this.2]

example : truthValue .gt 6 (9/2, 15/2) 7 = .ok (5/6) := by decide +kernel
example : truthValue .le 6 (9/2, 15/2) 5 = .ok (5/6) := by decide +kernel

/-- **C01 (totality).** A truth value *is* produced whenever the bounds coincide or strictly bracket the
threshold. -/
theorem C01_truth_value_defined (op : CmpOp) (thr lo hi x : ℚ)
    (hb : lo = hi ∨ (lo < thr ∧ thr < hi)) : ∃ v, truthValue op thr (lo, hi) x = .ok v := by
  rcases hb with rfl | ⟨h1, h2⟩
  · exact ⟨_, truthValue_crisp⟩
  · exact ⟨_, truthValue_fuzzy (by linarith) (by linarith) (by linarith)⟩

/-- **Finding (C01/C05).** Bounds accepted by the constructor that touch the threshold on one side make every
call fail with `ValueError` (both `np.where` branches are evaluated), whatever the data. -/
theorem C01_one_sided_bounds_always_fail (op : CmpOp) (thr lo hi x : ℚ) (h : lo < hi)
    (ht : thr = lo ∨ thr = hi) : truthValue op thr (lo, hi) x = .error .valueError := by
  have h0 : lo ≠ hi := h.ne
  rcases ht with rfl | rfl
  · unfold truthValue; simp only [h0, if_false]; simp [rescale]; rfl
  · unfold truthValue; simp only [h0, if_false]; simp [rescale, h0]; rfl

example : checkFuzzyBounds [5] [(5, 7)] = .ok () := by decide +kernel

/-- **C02.** Monotone in the data in the direction of the operator. -/
theorem C02_truth_monotone_in_data (op : CmpOp) (thr lo hi x y vx vy : ℚ)
    (hb : lo ≤ thr ∧ thr ≤ hi) (hxy : x ≤ y)
    (hx : truthValue op thr (lo, hi) x = .ok vx) (hy : truthValue op thr (lo, hi) y = .ok vy) :
    (Spec.isAbove op → vx ≤ vy) ∧ (¬ Spec.isAbove op → vy ≤ vx) := by
  rcases truthValue_ok_cases hx with rfl | ⟨h0, h1, h2⟩
  · rw [truthValue_crisp] at hx hy
    injection hx with hx; injection hy with hy; subst hx; subst hy
    cases op <;> simp only [Spec.isAbove, CmpOp.eval, decide_eq_true_eq, not_true, not_false_iff,
      false_implies, true_implies, and_true, true_and] <;> split_ifs <;>
      first | (exfalso; linarith) | norm_num
  · have l1 : lo < thr := lt_of_le_of_ne hb.1 h1
    have l2 : thr < hi := lt_of_le_of_ne hb.2 h2
    rw [truthValue_fuzzy h0 h1 h2] at hx hy
    injection hx with hx; injection hy with hy; subst hx; subst hy
    have := exceed_mono l1 l2 hxy
    cases op <;> simp [Spec.isAbove, CmpOp.lessThan] <;> linarith

/-- **C02.** For thresholds sharing a fuzzy factor in `(0,1]` (1 = no fuzziness), an exceedance probability
never increases with the threshold. -/
theorem C02_truth_antitone_in_threshold (op : CmpOp) (hop : Spec.isAbove op) (f t₁ t₂ x v₁ v₂ : ℚ)
    (hf0 : 0 < f) (hf1 : f ≤ 1) (hz : f = 1 ∨ (t₁ ≠ 0 ∧ t₂ ≠ 0)) (ht : t₁ ≤ t₂)
    (h₁ : truthValue op t₁ (fuzzyBound f t₁) x = .ok v₁)
    (h₂ : truthValue op t₂ (fuzzyBound f t₂) x = .ok v₂) : v₂ ≤ v₁ := by
  by_cases hf : f = 1
  · subst hf
    have fb : ∀ t : ℚ, fuzzyBound 1 t = (t, t) := by
      intro t; unfold fuzzyBound; simp only; split_ifs <;> ext <;> ring
    rw [fb, truthValue_crisp] at h₁ h₂
    injection h₁ with h₁; injection h₂ with h₂; subst h₁; subst h₂
    cases op <;> simp only [Spec.isAbove] at hop <;> simp only [CmpOp.eval, decide_eq_true_eq] <;>
      split_ifs <;> first | (exfalso; linarith) | norm_num
  · have hf' : f < 1 := lt_of_le_of_ne hf1 hf
    obtain ⟨n1, n2⟩ := hz.resolve_left hf
    -- every fuzzy bound is symmetric with half-width |t| (1 - f)
    have key : ∀ t v : ℚ, t ≠ 0 → truthValue op t (fuzzyBound f t) x = .ok v →
        v = npClip ((x - (t - |t| * (1 - f))) / (2 * (|t| * (1 - f)))) 0 1 := by
      intro t v tn hv
      have wpos : 0 < |t| * (1 - f) := mul_pos (abs_pos.2 tn) (by linarith)
      have fb : fuzzyBound f t = (t - |t| * (1 - f), t + |t| * (1 - f)) := by
        unfold fuzzyBound; simp only
        split_ifs with s
        · rw [abs_of_neg s]; ext <;> simp <;> ring
        · push Not at s; rw [abs_of_nonneg s]; ext <;> simp <;> ring
      rw [fb, truthValue_fuzzy (by linarith) (by linarith) (by linarith)] at hv
      injection hv with hv
      have ol : op.lessThan = false := by cases op <;> simp_all [Spec.isAbove, CmpOp.lessThan]
      rw [ol] at hv
      simp only [Bool.false_eq_true, if_false] at hv
      rw [← hv, exceed_eq_spec (by linarith) (by linarith), spec_sym wpos]
    rw [key t₁ v₁ n1 h₁, key t₂ v₂ n2 h₂]
    have g : 0 < 1 - f := by linarith
    rcases lt_or_gt_of_ne n1 with s1 | s1 <;> rcases lt_or_gt_of_ne n2 with s2 | s2
    · rw [abs_of_neg s1, abs_of_neg s2]
      by_cases hx : x ≤ 0
      · apply npClip_mono
        rw [div_le_div_iff₀ (by nlinarith) (by nlinarith)]
        nlinarith [mul_nonneg (mul_nonneg g.le (neg_nonneg.2 hx)) (sub_nonneg.2 ht)]
      · push Not at hx
        rw [npClip_of_ge (x := (x - (t₁ - -t₁ * (1 - f))) / _) (by norm_num)]
        · exact (npClip_mem (by norm_num)).2
        · rw [le_div_iff₀ (by nlinarith)]; nlinarith
    · rw [abs_of_neg s1, abs_of_pos s2]
      by_cases hx : x ≤ 0
      · rw [npClip_of_le (x := (x - (t₂ - t₂ * (1 - f))) / _) (by norm_num)]
        · exact (npClip_mem (by norm_num)).1
        · apply div_nonpos_of_nonpos_of_nonneg <;> nlinarith
      · push Not at hx
        rw [npClip_of_ge (x := (x - (t₁ - -t₁ * (1 - f))) / _) (by norm_num)]
        · exact (npClip_mem (by norm_num)).2
        · rw [le_div_iff₀ (by nlinarith)]; nlinarith
    · linarith
    · rw [abs_of_pos s1, abs_of_pos s2]
      by_cases hx : x ≤ 0
      · rw [npClip_of_le (x := (x - (t₂ - t₂ * (1 - f))) / _) (by norm_num)]
        · exact (npClip_mem (by norm_num)).1
        · apply div_nonpos_of_nonpos_of_nonneg <;> nlinarith
      · push Not at hx
        apply npClip_mono
        rw [div_le_div_iff₀ (by nlinarith) (by nlinarith)]
        nlinarith [mul_nonneg (mul_nonneg g.le hx.le) (sub_nonneg.2 ht)]

example : truthValue .gt (-2) (fuzzyBound (3/4) (-2)) (-1) = .ok 1
    ∧ truthValue .gt (-1) (fuzzyBound (3/4) (-1)) (-1) = .ok (1/2) := by decide +kernel

/-- **C03.** With strictly bracketing bounds the truth value is the piecewise-linear membership function
(0 up to `lo`, 1/2 at `thr`, 1 from `hi`), complemented for below-type operators. -/
theorem C03_fuzzy_truth_is_membership (op : CmpOp) (thr lo hi x : ℚ) (h1 : lo < thr) (h2 : thr < hi) :
    (Spec.isAbove op → truthValue op thr (lo, hi) x = .ok (Spec.exceedance lo thr hi x)) ∧
    (¬ Spec.isAbove op → truthValue op thr (lo, hi) x = .ok (1 - Spec.exceedance lo thr hi x)) := by
  rw [truthValue_fuzzy (by linarith) (by linarith) (by linarith), exceed_eq_spec h1 h2]
  cases op <;> simp [Spec.isAbove, CmpOp.lessThan]

/-- **C03.** Anchor values of the membership function. -/
theorem C03_anchors (thr lo hi : ℚ) (h1 : lo < thr) (h2 : thr < hi) :
    (∀ x ≤ lo, truthValue .gt thr (lo, hi) x = .ok 0) ∧
    truthValue .gt thr (lo, hi) thr = .ok (1 / 2) ∧
    (∀ x, hi ≤ x → truthValue .gt thr (lo, hi) x = .ok 1) := by
  have e := fun x => (C03_fuzzy_truth_is_membership .gt thr lo hi x h1 h2).1 trivial
  refine ⟨fun x hx => ?_, ?_, fun x hx => ?_⟩
  · rw [e]; simp [Spec.exceedance, hx]
  · rw [e]; simp [Spec.exceedance, h1.not_ge, h2.not_ge]
  · rw [e]
    have : ¬ x ≤ lo := by linarith
    simp [Spec.exceedance, hx, this]

/-- **C03.** With equal bounds the truth value is the indicator of the comparison. -/
theorem C03_crisp_truth_is_indicator (op : CmpOp) (thr b x : ℚ) :
    (Spec.holds op x thr → truthValue op thr (b, b) x = .ok 1) ∧
    (¬ Spec.holds op x thr → truthValue op thr (b, b) x = .ok 0) := by
  rw [truthValue_crisp]
  cases op <;> simp [Spec.holds, CmpOp.eval]

/-- **C04.** Collapsing realizations gives the mean of the truth values over exactly the unmasked members
(after `fill_masked`), masked iff there is none. -/
theorem C04_collapse_is_mean_of_unmasked (op : CmpOp) (thr lo hi : ℚ) (fill : Option ℚ)
    (members : List MVal) (hb : lo = hi ∨ (lo < thr ∧ thr < hi)) :
    ∃ f : ℚ → ℚ, (∀ x, truthValue op thr (lo, hi) x = .ok (f x)) ∧
      thresholdPoint op thr (lo, hi) fill members
        = .ok (Spec.meanOfUnmasked f (members.map (fillMasked fill))) := by
  choose f hf using fun x => C01_truth_value_defined op thr lo hi x hb
  refine ⟨f, hf, ?_⟩
  unfold thresholdPoint
  rw [accumulateTruth_eq hf]
  simp only [Spec.meanOfUnmasked]
  show Except.ok _ = _
  congr 1
  simp only [zero_add, List.length_eq_zero_iff, List.map_eq_nil_iff, List.length_map]

/-- **C04.** Collapsed probabilities are in `[0,1]`, and masked exactly when all members are masked. -/
theorem C04_collapse_in_unit_interval_and_mask (op : CmpOp) (thr lo hi : ℚ) (members : List MVal)
    (r : Option ℚ) (h : thresholdPoint op thr (lo, hi) none members = .ok r)
    (hb : lo = hi ∨ (lo < thr ∧ thr < hi)) :
    (∀ v, r = some v → 0 ≤ v ∧ v ≤ 1) ∧ (r = none ↔ ∀ m ∈ members, m.masked = true) := by
  obtain ⟨f, hf, h'⟩ := C04_collapse_is_mean_of_unmasked op thr lo hi none members hb
  have idm : members.map (fillMasked none) = members := by
    have : fillMasked none = id := by funext m; rfl
    rw [this, List.map_id]
  rw [h', idm] at h
  injection h with h
  constructor
  · intro v hv
    rw [hv] at h
    unfold Spec.meanOfUnmasked at h
    simp only at h
    split_ifs at h with hn
    injection h with h
    have hall : ∀ y ∈ (members.filter (fun m => !m.masked)).map (fun m => f m.val), 0 ≤ y ∧ y ≤ 1 := by
      intro y hy
      obtain ⟨m, -, rfl⟩ := List.mem_map.1 hy
      exact C01_truth_value_in_unit_interval op thr lo hi m.val _ (hf m.val)
    revert hall hn h
    generalize (members.filter (fun m => !m.masked)).map (fun m => f m.val) = l
    intro hn h hall
    have lp : (0 : ℚ) < l.length := by
      have := List.length_pos_iff.2 hn; exact_mod_cast this
    have s0 : 0 ≤ l.sum := List.sum_nonneg (fun y hy => (hall y hy).1)
    have s1 : l.sum ≤ l.length := by
      have := List.sum_le_card_nsmul l 1 (fun y hy => (hall y hy).2)
      simpa using this
    subst h
    exact ⟨div_nonneg s0 lp.le, (div_le_one lp).2 s1⟩
  · rw [← h]
    simp [Spec.meanOfUnmasked, List.filter_eq_nil_iff]

/-- **C04.** The collapsed value does not depend on the order of the realizations. -/
theorem C04_collapse_order_independent (op : CmpOp) (thr lo hi : ℚ) (fill : Option ℚ)
    (m₁ m₂ : List MVal) (hp : m₁.Perm m₂) (hb : lo = hi ∨ (lo < thr ∧ thr < hi)) :
    thresholdPoint op thr (lo, hi) fill m₁ = thresholdPoint op thr (lo, hi) fill m₂ := by
  obtain ⟨f, hf, h1⟩ := C04_collapse_is_mean_of_unmasked op thr lo hi fill m₁ hb
  obtain ⟨g, hg, h2⟩ := C04_collapse_is_mean_of_unmasked op thr lo hi fill m₂ hb
  have : f = g := by
    funext x; have := (hf x).symm.trans (hg x); injection this
  subst this
  rw [h1, h2]
  have hp' := ((hp.map (fillMasked fill)).filter (fun m => !m.masked)).map (fun m => f m.val)
  unfold Spec.meanOfUnmasked
  simp only [hp'.sum_eq, hp'.length_eq]
  congr 1
  have : (List.map (fun m => f m.val) (List.filter (fun m => !m.masked) (List.map (fillMasked fill) m₁)) = [])
      ↔ (List.map (fun m => f m.val) (List.filter (fun m => !m.masked) (List.map (fillMasked fill) m₂)) = []) := by
    rw [← List.length_eq_zero_iff, ← List.length_eq_zero_iff, hp'.length_eq]
  simp only [this]

/-- **C04** (filling): with `fill_masked` every member counts, the masked ones with the fill value, and nothing stays masked. -/
theorem C04_fill_masked (op : CmpOp) (thr lo hi fill : ℚ) (members : List MVal) (hm : members ≠ [])
    (hb : lo = hi ∨ (lo < thr ∧ thr < hi)) :
    ∃ f : ℚ → ℚ, (∀ x, truthValue op thr (lo, hi) x = .ok (f x)) ∧
      thresholdPoint op thr (lo, hi) (some fill) members
        = .ok (some ((members.map (fun m => f (if m.masked then fill else m.val))).sum / members.length)) := by
  obtain ⟨f, hf, h⟩ := C04_collapse_is_mean_of_unmasked op thr lo hi (some fill) members hb
  refine ⟨f, hf, ?_⟩
  rw [h]
  unfold Spec.meanOfUnmasked
  have hall : (members.map (fillMasked (some fill))).filter (fun m => !m.masked) = members.map (fillMasked (some fill)) := by
    rw [List.filter_eq_self]
    intro m hm'
    obtain ⟨a, _, rfl⟩ := List.mem_map.1 hm'
    cases ha : a.masked <;> simp [fillMasked, ha]
  have hval : (members.map (fillMasked (some fill))).map (fun m => f m.val)
      = members.map (fun m => f (if m.masked then fill else m.val)) := by
    rw [List.map_map]
    apply List.map_congr_left
    intro m _
    cases ha : m.masked <;> simp [fillMasked, ha]
  simp only [hall, hval]
  rw [if_neg (by simpa using hm), List.length_map]

example : thresholdPoint .ge 6 (6, 6) none [⟨7, false⟩, ⟨9, true⟩, ⟨5, false⟩] = .ok (some (1/2)) := by
  decide +kernel
example : thresholdPoint .ge 6 (6, 6) none [⟨7, true⟩, ⟨9, true⟩] = .ok none := by decide +kernel
example : thresholdPoint .ge 6 (6, 6) (some 0) [⟨7, true⟩, ⟨9, false⟩] = .ok (some (1/2)) := by
  decide +kernel

/-- **C05.** A fuzzy factor outside `(0,1)`, or with a zero threshold, is rejected. -/
theorem C05_init_rejects_factor (vs : List ℚ) (f : ℚ) (opStr : String)
    (h : ¬ (0 < f ∧ f < 1) ∨ (0 : ℚ) ∈ vs) :
    Threshold.init (.values vs) (some f) opStr = .error .valueError := by
  by_cases h' : 0 < f ∧ f < 1
  · have := h.resolve_left (not_not.2 h')
    simp [Threshold.init, setThresholds, this, h', bind, Except.bind]
  · simp [Threshold.init, setThresholds, h', bind, Except.bind]

/-- **C05.** A fuzzy factor together with a config in which every threshold has bounds is rejected. -/
theorem C05_init_rejects_factor_with_bounds (es : List (ℚ × Option (ℚ × ℚ))) (f : ℚ) (opStr : String)
    (hb : ∀ e ∈ es, e.2.isSome) :
    Threshold.init (.config es) (some f) opStr = .error .valueError := by
  have loop : ∀ (es : List (ℚ × Option (ℚ × ℚ))) (a : List ℚ) (bs : List (ℚ × ℚ)),
      (∀ e ∈ es, e.2.isSome) →
      ∃ a' bs', es.foldlM setThresholdsStep (a, some bs) = .ok (a', some bs') := by
    intro es
    induction es with
    | nil => intro a bs _; exact ⟨a, bs, rfl⟩
    | cons e es ih =>
      intro a bs h
      obtain ⟨t, ob⟩ := e
      cases ob with
      | none => simp at h
      | some b' =>
        simp only [List.foldlM_cons]
        exact ih _ _ (fun e he => h e (List.mem_cons_of_mem _ he))
  obtain ⟨a', bs', hl⟩ := loop es [] [] hb
  have hs : setThresholds (.config es) = .ok (a', some bs') := hl
  unfold Threshold.init
  rw [hs]
  rfl

/-- **C05.** Configured bounds that do not bracket their threshold are rejected. -/
theorem C05_check_rejects_non_bracketing (ts : List ℚ) (bs : List (ℚ × ℚ)) (t : ℚ) (b : ℚ × ℚ)
    (hm : (t, b) ∈ ts.zip bs) (h : t < b.1 ∨ b.2 < t) : checkFuzzyBounds ts bs = .error .valueError := by
  unfold checkFuzzyBounds
  have : (ts.zip bs).any (fun tb => decide (tb.2.1 > tb.1 ∨ tb.2.2 < tb.1)) = true := by
    rw [List.any_eq_true]
    exact ⟨_, hm, by simpa using h⟩
  rw [this]; rfl

/-- **C05.** Every accepted plugin brackets each threshold; strictly so when a fuzzy factor was given. -/
theorem C05_accepted_bounds_bracket (args : ThresholdArgs) (ff : Option ℚ) (opStr : String)
    (p : ThresholdPlugin) (h : Threshold.init args ff opStr = .ok p) :
    ∀ tb ∈ p.thresholds.zip p.bounds,
      tb.2.1 ≤ tb.1 ∧ tb.1 ≤ tb.2.2 ∧ (ff.isSome → tb.2.1 < tb.1 ∧ tb.1 < tb.2.2) := by
  unfold Threshold.init at h
  cases hs : setThresholds args with
  | error e => rw [hs] at h; cases h
  | ok r =>
    obtain ⟨ts, fb⟩ := r
    rw [hs] at h
    have zipmap : ∀ (g : ℚ → ℚ × ℚ) (l : List ℚ), ∀ tb ∈ l.zip (l.map g), tb.1 ∈ l ∧ tb.2 = g tb.1 := by
      intro g l
      induction l with
      | nil => simp
      | cons a l ih =>
        intro tb htb
        simp only [List.map_cons, List.zip_cons_cons, List.mem_cons] at htb
        rcases htb with rfl | htb
        · simp
        · have := ih tb htb; exact ⟨List.mem_cons_of_mem _ this.1, this.2⟩
    cases ff with
    | none =>
      cases fb with
      | none =>
        cases hd : CmpOp.decode opStr with
        | error e => simp [hd, bind, Except.bind] at h
        | ok op =>
          simp only [hd, bind, Except.bind, pure, Except.pure] at h
          injection h with h; subst h
          intro tb htb
          obtain ⟨-, e⟩ := zipmap _ _ tb htb
          rw [e]; unfold fuzzyBound; simp only
          split_ifs <;> simp <;> linarith
      | some bs =>
        cases hc : checkFuzzyBounds ts bs with
        | error e => simp [hc, bind, Except.bind] at h
        | ok u =>
          cases hd : CmpOp.decode opStr with
          | error e => simp [hc, hd, bind, Except.bind] at h
          | ok op =>
            simp only [hc, hd, bind, Except.bind, pure, Except.pure] at h
            injection h with h; subst h
            intro tb htb
            unfold checkFuzzyBounds at hc
            split_ifs at hc with hany
            simp only [List.any_eq_true, not_exists, not_and] at hany
            have := hany tb htb
            simp only [gt_iff_lt, decide_eq_true_eq, not_or, not_lt] at this
            exact ⟨this.1, this.2, by simp⟩
    | some f =>
      cases fb with
      | some bs => simp [bind, Except.bind] at h
      | none =>
        by_cases h1 : 0 < f ∧ f < 1
        · by_cases h2 : (0 : ℚ) ∈ ts
          · simp [h1, h2, bind, Except.bind] at h
          · cases hd : CmpOp.decode opStr with
            | error e => simp [h1, h2, hd, bind, Except.bind] at h
            | ok op =>
              simp only [h1, h2, hd, bind, Except.bind, pure, Except.pure, Option.isSome_none,
                Bool.false_eq_true, and_self, not_true, if_false] at h
              injection h with h; subst h
              intro tb htb
              obtain ⟨m, e⟩ := zipmap _ _ tb htb
              have nz : tb.1 ≠ 0 := fun hz => h2 (hz ▸ m)
              have st : tb.2.1 < tb.1 ∧ tb.1 < tb.2.2 := by
                rw [e]; unfold fuzzyBound; simp only
                split_ifs with s
                · constructor <;> simp only <;> nlinarith [h1.1, h1.2]
                · have : 0 < tb.1 := lt_of_le_of_ne (not_lt.1 s) nz.symm
                  constructor <;> simp only <;> nlinarith [h1.1, h1.2]
              exact ⟨st.1.le, st.2.le, fun _ => st⟩
        · simp [h1, bind, Except.bind] at h

example : (Threshold.init (.values [-2, 6]) (some (3/4)) "GT").toOption
    = some ⟨[-2, 6], [(-5/2, -3/2), (9/2, 15/2)], .gt⟩ := by decide +kernel
example : (Threshold.init (.config [(280, some (278, 282))]) none "<=").toOption
    = some ⟨[280], [(278, 282)], .le⟩ := by decide +kernel

/-- **Finding (C05).** A config mixing bounds and "None": bounds given before the last "None" are silently
dropped, and bounds after a "None" raise `AttributeError`. -/
theorem C05_mixed_config :
    setThresholds (.config [(280, some (278, 282)), (290, none)]) = .ok ([280, 290], none) ∧
    setThresholds (.config [(280, none), (290, some (288, 292))]) = .error .attributeError := by
  constructor <;> rfl

/-- **C06 refuted.** A plugin collapsing percentiles succeeds on a percentile cube when fresh, but fails on a
(fresh) percentile cube after having processed one before. -/
theorem C06_reuse_refuted :
    (Threshold.collapseStep (some .percentile) .percentile).1 = .ok .deterministic ∧
    (Threshold.collapseStep (Threshold.runHistory (some .percentile) [.percentile]) .percentile).1
      = .error .coordinateNotFound := by
  constructor <;> decide

/-- **C06 (partial).** Plugins not collapsing percentiles behave the same after any history.
Missing: plugins with `collapse_coord="percentile"` (refuted above). -/
theorem C06_reuse_partial (s : CollapseState) (hs : s ≠ some .percentile) (history : List CubeKind)
    (c : CubeKind) :
    (Threshold.collapseStep (Threshold.runHistory s history) c).1 = (Threshold.collapseStep s c).1 := by
  have : Threshold.runHistory s history = s := by
    induction history with
    | nil => rfl
    | cons d ds ih =>
      have e : (Threshold.collapseStep s d).2.1 = s := by
        unfold Threshold.collapseStep; simp only [hs, if_false]; split_ifs <;> rfl
      rw [Threshold.runHistory, e, ih]
  rw [this]

example : (some CubeKind.realization : CollapseState) ≠ some .percentile := by decide

/-- **C36 refuted.** With threshold units and no collapse coordinate the caller's cube is converted in place. -/
theorem C36_input_unchanged_refuted :
    ∃ (conv : String → String → ℚ → ℚ) (cube : UCube),
      (Threshold.unitsStep conv (some "celsius") false cube).2.2 ≠ cube :=
  ⟨fun _ _ x => x - 27315 / 100, ⟨"K", [280]⟩, by decide +kernel⟩

/-- **C36 (partial).** The caller's cube is unchanged when a coordinate is collapsed or no threshold units are
given; and the reported threshold units are always those of the input.  Missing: non-collapsing use with
threshold units (refuted above). -/
theorem C36_input_unchanged_partial (conv : String → String → ℚ → ℚ) (tu : Option String)
    (collapsing : Bool) (cube : UCube) (h : collapsing = true ∨ tu = none) :
    (Threshold.unitsStep conv tu collapsing cube).2.2 = cube ∧
    (Threshold.unitsStep conv tu collapsing cube).1 = cube.units := by
  rcases h with rfl | rfl
  · simp [Threshold.unitsStep]
  · simp [Threshold.unitsStep]

end Improver
