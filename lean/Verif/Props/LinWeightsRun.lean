import Verif.Model.LinWeightsRun
import Verif.Props.Weights
import Verif.Props.ReliabilityRun
import Verif.Props.ThresholdRun

/-! C259: `ChooseWeightsLinear` for all its inputs. -/

namespace Improver

namespace Spec

/-- `w` is the table read at `x`: linear between neighbouring points, constant beyond both ends. -/
def TableReads (points weights : List ℚ) (x w : ℚ) : Prop :=
  (x ≤ points.getD 0 0 → w = weights.getD 0 0) ∧ (points.getD (points.length - 1) 0 ≤ x → w = weights.getD (weights.length - 1) 0) ∧
    ∀ k, k + 1 < points.length → points.getD k 0 ≤ x → x ≤ points.getD (k + 1) 0 →
      w = weights.getD k 0 + (weights.getD (k + 1) 0 - weights.getD k 0) * ((x - points.getD k 0) / (points.getD (k + 1) 0 - points.getD k 0))

/-- A table that can be used for a coordinate of unit `u`: as many weights as points, two at least, ascending points, no negative weight; a unit, if given, of
the same quantity. -/
structure UsableTable (t : LinTable) (u : StdUnit) : Prop where
  lengths : t.points.length = t.weights.length
  two : 2 ≤ t.points.length
  ascending : t.points.Pairwise (· < ·)
  nonneg : ∀ w ∈ t.weights, 0 ≤ w
  unit : ∀ v, t.unit = some v → v.dimension = u.dimension ∧ 0 < v.scale ∧ 0 < u.scale

/-- A value of the coordinate in the unit of the table. -/
def inTableUnit (t : LinTable) (u : StdUnit) (x : ℚ) : ℚ :=
  match t.unit with
  | none => x
  | some v => convertUnit u v x

end Spec

theorem tableReads_nonneg {points weights : List ℚ} (hl : points.length = weights.length) (h2 : 2 ≤ points.length) (hw : ∀ w ∈ weights, 0 ≤ w) {x w : ℚ}
    (h : Spec.TableReads points weights x w) : 0 ≤ w := by
  have hnn : ∀ k, 0 ≤ weights.getD k 0 := by
    intro k
    by_cases hk : k < weights.length
    · rw [List.getD_eq_getElem _ _ hk]; exact hw _ (List.getElem_mem hk)
    · rw [List.getD_eq_default _ _ (not_lt.1 hk)]
  by_cases h0 : x ≤ points.getD 0 0
  · rw [h.1 h0]; exact hnn _
  have key : ∀ n, n < points.length → points.getD n 0 ≤ x ∨ ∃ k, k + 1 ≤ n ∧ points.getD k 0 ≤ x ∧ x ≤ points.getD (k + 1) 0 := by
    intro n
    induction n with
    | zero => intro _; exact Or.inl (not_le.1 h0).le
    | succ n ih =>
      intro hn
      rcases ih (by omega) with e | ⟨k, k1, k2⟩
      · by_cases hx : points.getD (n + 1) 0 ≤ x
        · exact Or.inl hx
        · exact Or.inr ⟨n, le_refl _, e, (not_le.1 hx).le⟩
      · exact Or.inr ⟨k, by omega, k2⟩
  rcases key (points.length - 1) (by omega) with e | ⟨k, k1, k2, k3⟩
  · rw [h.2.1 e]; exact hnn _
  · rw [h.2.2 k (by omega) k2 k3]
    generalize points.getD k 0 = p at k2
    generalize points.getD (k + 1) 0 = q at k3
    have ha := hnn k
    have hb := hnn (k + 1)
    generalize weights.getD k 0 = a at ha
    generalize weights.getD (k + 1) 0 = b at hb
    have hr0 : 0 ≤ (x - p) / (q - p) := div_nonneg (by linarith) (by linarith)
    have hr1 : (x - p) / (q - p) ≤ 1 := div_le_one_of_le₀ (by linarith) (by linarith)
    generalize (x - p) / (q - p) = r at hr0 hr1
    nlinarith [mul_nonneg hb hr0, mul_nonneg ha (sub_nonneg.2 hr1)]

theorem convert_affine (v u : StdUnit) (p : ℚ) : convertUnit v u p = v.scale / u.scale * p + (v.offset - u.offset) / u.scale := by
  unfold convertUnit
  ring

theorem getD_map_lin (l : List ℚ) (f : ℚ → ℚ) {k : ℕ} (hk : k < l.length) : (l.map f).getD k 0 = f (l.getD k 0) := by
  rw [List.getD_eq_getElem _ _ (by simpa using hk), List.getD_eq_getElem _ _ hk, List.getElem_map]

/-- Reading is not changed by the unit of the points. -/
theorem linRaw_reads {t : LinTable} {u : StdUnit} (h : Spec.UsableTable t u) :
    ∃ pts, linPoints t u = .ok pts ∧ ∀ x, ∃ w, chooseLinearRaw pts t.weights x = .ok w ∧ Spec.TableReads t.points t.weights (Spec.inTableUnit t u x) w := by
  have base : ∀ (pts : List ℚ), pts.length = t.weights.length → pts.Pairwise (· < ·) → 2 ≤ pts.length → ∀ x, ∃ w, chooseLinearRaw pts t.weights x = .ok w ∧
      Spec.TableReads pts t.weights x w := by
    intro pts hl ha h2 x
    obtain ⟨c1, c2, c3⟩ := C38_ascending_table pts t.weights hl ha h2 x
    have hex : ∃ w, chooseLinearRaw pts t.weights x = .ok w := by
      unfold chooseLinearRaw
      rw [if_neg (not_not.2 hl), if_neg (by intro e; rw [e] at h2; simp at h2)]
      exact ⟨_, rfl⟩
    obtain ⟨w, hw⟩ := hex
    refine ⟨w, hw, ?_, ?_, ?_⟩
    · intro e; have := hw.symm.trans (c1 e); cases this; rfl
    · intro e; have := hw.symm.trans (c2 e); cases this; rfl
    · intro k k1 k2 k3; have := hw.symm.trans (c3 k k1 k2 k3); cases this; rfl
  cases hu : t.unit with
  | none =>
    refine ⟨t.points, by unfold linPoints; rw [hu], fun x => ?_⟩
    unfold Spec.inTableUnit
    rw [hu]
    exact base t.points h.lengths h.ascending h.two x
  | some v =>
    obtain ⟨hd, hv, hus⟩ := h.unit v hu
    refine ⟨t.points.map (convertUnit v u), by unfold linPoints; rw [hu]; exact if_neg (not_not.2 hd), fun x => ?_⟩
    have hα : 0 < v.scale / u.scale := div_pos hv hus
    have hmono : ∀ p q : ℚ, convertUnit v u p ≤ convertUnit v u q ↔ p ≤ q := by
      intro p q
      rw [convert_affine, convert_affine, add_le_add_iff_right, mul_le_mul_iff_right₀ hα]
    obtain ⟨w, w1, w2, w3, w4⟩ := base (t.points.map (convertUnit v u)) (by rw [List.length_map]; exact h.lengths)
      (by
        rw [List.pairwise_map]
        refine h.ascending.imp ?_
        intro p q hpq
        exact lt_of_not_ge fun e => absurd ((hmono q p).1 e) (not_le.2 hpq)) (by rw [List.length_map]; exact h.two) x
    have hx : x = convertUnit v u (Spec.inTableUnit t u x) := by
      unfold Spec.inTableUnit
      rw [hu]
      unfold convertUnit
      field_simp
      ring
    have h2 := h.two
    refine ⟨w, w1, ?_, ?_, ?_⟩
    · intro e
      refine w2 ?_
      rw [getD_map_lin _ _ (by omega), hx]
      exact (hmono _ _).2 e
    · intro e
      refine w3 ?_
      rw [List.length_map, getD_map_lin _ _ (by omega), hx]
      exact (hmono _ _).2 e
    · intro k k1 k2 k3
      have := w4 k (by rw [List.length_map]; exact k1) (by rw [getD_map_lin _ _ (by omega), hx]; exact (hmono _ _).2 k2)
        (by rw [getD_map_lin _ _ k1, hx]; exact (hmono _ _).2 k3)
      rw [this, getD_map_lin _ _ k1, getD_map_lin _ _ (by omega)]
      congr 2
      conv_lhs => rw [hx]
      rw [convert_affine, convert_affine v u (t.points.getD k 0), convert_affine v u (t.points.getD (k + 1) 0)]
      rw [add_sub_add_right_eq_sub, add_sub_add_right_eq_sub, ← mul_sub, ← mul_sub, mul_div_mul_left _ _ hα.ne']

theorem linRow_reads {config : List (String × LinTable)} {c : LinInput} {k : String} {t : LinTable} (hk : c.keys = [k]) (ht : config.lookup k = some t)
    (h : Spec.UsableTable t c.unit) :
    ∃ ws, linRow config c = .ok (k, ws) ∧ ws.length = c.points.length ∧
      ∀ i < c.points.length, Spec.TableReads t.points t.weights (Spec.inTableUnit t c.unit (c.points.getD i 0)) (ws.getD i 0) := by
  obtain ⟨pts, hp, hr⟩ := linRaw_reads h
  choose f hf1 hf2 using hr
  refine ⟨c.points.map f, ?_, by simp, ?_⟩
  · unfold linRow
    rw [hk]
    simp only
    rw [ht]
    simp only [bind, Except.bind]
    rw [hp]
    simp only
    rw [mapM_of_forall₂' (m := c.points.map f) (List.forall₂_map_right_iff.2 (List.forall₂_same.2 fun x _ => hf1 x))]
  · intro i hi
    rw [getD_map_lin _ _ hi]
    exact hf2 _

theorem normaliseRows_ok (n : ℕ) (rows : List (String × List ℚ)) (h0 : rows ≠ []) (hpos : ∀ i < n, ∀ r ∈ rows, 0 ≤ r.2.getD i 0)
    (hsum : ∀ i < n, (rows.map fun r => r.2.getD i 0).sum ≠ 0) :
    normaliseRows n rows = .ok ((List.range rows.length).map fun j => ((rows.getD j ("", [])).1,
      (List.range n).map fun i => (rows.getD j ("", [])).2.getD i 0 / (rows.map fun r => r.2.getD i 0).sum)) := by
  unfold normaliseRows
  have hc : ((List.range n).mapM fun i => normaliseWeights (rows.map fun r => r.2.getD i 0)) =
      .ok ((List.range n).map fun i => (rows.map fun r => r.2.getD i 0).map fun x => x / (rows.map fun r => r.2.getD i 0).sum) := by
    apply mapM_of_forall₂'
    rw [List.forall₂_map_right_iff, List.forall₂_same]
    intro i hi
    have hi' := List.mem_range.1 hi
    refine (C20_normalise_iff _ _).2 ⟨fun e => h0 (List.map_eq_nil_iff.1 e), ?_, hsum i hi', rfl⟩
    intro x hx
    obtain ⟨r, hr, rfl⟩ := List.mem_map.1 hx
    exact hpos i hi' r hr
  simp only [bind, Except.bind]
  rw [hc]
  simp only [Except.ok.injEq]
  apply List.map_congr_left
  intro j hj
  have hj' := List.mem_range.1 hj
  rw [List.map_map]
  congr 1
  apply List.map_congr_left
  intro i _
  simp only [Function.comp]
  rw [List.getD_eq_getElem _ _ (by simpa using hj'), List.getElem_map, List.getElem_map, List.getD_eq_getElem _ _ hj']

/-- **C259** (result): with a usable table for every input, different keys, points of the weighting coordinate that are the same in all inputs if it is a
dimension (as many in all otherwise), and at every point some weight that is positive, each input gets at each of its points the weight its own table gives
there (read in the unit of the table), divided by the sum of those of all inputs; the result holds each key once. -/
theorem C259_result (order : List (String × List ℚ) → List (String × List ℚ)) (ho : ∀ l, (order l).Perm l) (config : List (String × LinTable))
    (hconfig : ∀ e ∈ config, e.2.points.length = e.2.weights.length) (inputs : List LinInput) (h0 : inputs ≠ [])
    (hkeys : (inputs.map LinInput.keys).Nodup)
    (htables : ∀ c ∈ inputs, ∃ k t, c.keys = [k] ∧ config.lookup k = some t ∧ Spec.UsableTable t c.unit)
    (n : ℕ) (hn : ∀ c ∈ inputs, c.points.length = n)
    (hmerge : ∀ c ∈ inputs, ∀ d ∈ inputs, c.isDim = d.isDim ∧ c.unit = d.unit ∧ (c.isDim = true → c.points = d.points))
    (hpos : ∀ i < n, ∃ c ∈ inputs, ∃ k t, c.keys = [k] ∧ config.lookup k = some t ∧
      ∀ w, Spec.TableReads t.points t.weights (Spec.inTableUnit t c.unit (c.points.getD i 0)) w → 0 < w) :
    ∃ (out : List (String × List ℚ)) (raw : LinInput → ℕ → ℚ), linWeightsProcess order config inputs = .ok out ∧
      (out.map fun r => [r.1]).Perm (inputs.map LinInput.keys) ∧
      (∀ c ∈ inputs, ∀ k t, c.keys = [k] → config.lookup k = some t → ∀ i < n,
        Spec.TableReads t.points t.weights (Spec.inTableUnit t c.unit (c.points.getD i 0)) (raw c i)) ∧
      ∀ c ∈ inputs, ∀ k, c.keys = [k] → ∃ ws, (k, ws) ∈ out ∧ ws.length = n ∧
        ∀ i < n, ws.getD i 0 = raw c i / (inputs.map fun d => raw d i).sum := by
  set g : LinInput → String × List ℚ := fun c => (linRow config c).toOption.getD ("", []) with hg
  have hrow : ∀ c ∈ inputs, ∃ k t, c.keys = [k] ∧ config.lookup k = some t ∧ Spec.UsableTable t c.unit ∧ linRow config c = .ok (g c) ∧ (g c).1 = k ∧
      ∀ i < n, Spec.TableReads t.points t.weights (Spec.inTableUnit t c.unit (c.points.getD i 0)) ((g c).2.getD i 0) := by
    intro c hc
    obtain ⟨k, t, h1, h2, h3⟩ := htables c hc
    obtain ⟨ws, w1, w2, w3⟩ := linRow_reads h1 h2 h3
    have hgc : g c = (k, ws) := by rw [hg]; simp only; rw [w1]; rfl
    refine ⟨k, t, h1, h2, h3, by rw [hgc]; exact w1, by rw [hgc], ?_⟩
    intro i hi
    rw [hgc]
    exact w3 i (by rw [hn c hc]; exact hi)
  have hrows : inputs.mapM (linRow config) = .ok (inputs.map g) := by
    apply mapM_of_forall₂'
    rw [List.forall₂_map_right_iff, List.forall₂_same]
    intro c hc
    obtain ⟨k, t, _, _, _, h4, _⟩ := hrow c hc
    exact h4
  have hcheck : checkLinConfig config = .ok () := by
    unfold checkLinConfig
    rw [if_pos]
    rw [List.all_eq_true]
    intro e he
    simpa using hconfig e he
  have hmergeOk : checkMergeLin inputs = .ok () := by
    unfold checkMergeLin
    rw [if_neg (not_or.2 ⟨h0, not_not.2 hkeys⟩), if_pos]
    rw [List.all_eq_true]
    intro c hc
    rw [List.all_eq_true]
    intro d hd
    have := hmerge c hc d hd
    simp only [decide_eq_true_eq]
    exact ⟨this.1, this.2.1, by rw [hn c hc, hn d hd], this.2.2⟩
  have hhead : (inputs.map fun c => c.points.length).headD 0 = n := by
    cases hi : inputs with
    | nil => exact absurd hi h0
    | cons c l => exact hn c (by rw [hi]; simp)
  have hnonneg : ∀ i < n, ∀ r ∈ inputs.map g, 0 ≤ r.2.getD i 0 := by
    intro i hi r hr
    obtain ⟨c, hc, rfl⟩ := List.mem_map.1 hr
    obtain ⟨k, t, _, _, h3, _, _, h6⟩ := hrow c hc
    exact tableReads_nonneg h3.lengths h3.two h3.nonneg (h6 i hi)
  have hsum : ∀ i < n, ((inputs.map g).map fun r => r.2.getD i 0).sum ≠ 0 := by
    intro i hi
    obtain ⟨c, hc, k, t, e1, e2, e3⟩ := hpos i hi
    obtain ⟨k', t', h1, h2, _, _, _, h6⟩ := hrow c hc
    have : k' = k := by rw [h1] at e1; simpa using e1
    subst this
    have : t' = t := by rw [h2] at e2; simpa using e2
    subst this
    have hp := e3 _ (h6 i hi)
    apply ne_of_gt
    refine lt_of_lt_of_le hp (List.single_le_sum ?_ _ ?_)
    · intro x hx
      obtain ⟨r, hr, rfl⟩ := List.mem_map.1 hx
      exact hnonneg i hi r hr
    · exact List.mem_map.2 ⟨g c, List.mem_map.2 ⟨c, hc, rfl⟩, rfl⟩
  have hnorm := normaliseRows_ok n (inputs.map g) (fun e => h0 (List.map_eq_nil_iff.1 e)) hnonneg hsum
  refine ⟨order ((List.range (inputs.map g).length).map fun j => (((inputs.map g).getD j ("", [])).1,
      (List.range n).map fun i => ((inputs.map g).getD j ("", [])).2.getD i 0 / ((inputs.map g).map fun r => r.2.getD i 0).sum)), fun c i => (g c).2.getD i 0, ?_, ?_, ?_, ?_⟩
  · unfold linWeightsProcess
    simp only [bind, Except.bind]
    rw [hcheck]
    simp only
    rw [hrows]
    simp only
    rw [hmergeOk]
    simp only
    rw [hhead, hnorm]
  · refine ((ho _).map _).trans ?_
    rw [List.map_map]
    apply List.Perm.of_eq
    apply List.ext_getElem
    · simp
    intro j h1 h2
    simp only [List.length_map, List.length_range] at h1
    simp only [List.getElem_map, List.getElem_range, Function.comp]
    rw [List.getD_eq_getElem _ _ (by simpa using h1), List.getElem_map]
    obtain ⟨k, t, e1, _, _, _, e5, _⟩ := hrow inputs[j] (List.getElem_mem _)
    rw [e1, e5]
  · intro c hc k t e1 e2 i hi
    obtain ⟨k', t', h1, h2, _, _, _, h6⟩ := hrow c hc
    have : k' = k := by rw [h1] at e1; simpa using e1
    subst this
    have : t' = t := by rw [h2] at e2; simpa using e2
    subst this
    exact h6 i hi
  · intro c hc k e1
    obtain ⟨k', t', h1, h2, _, _, h5, h6⟩ := hrow c hc
    have : k' = k := by rw [h1] at e1; simpa using e1
    subst this
    obtain ⟨j, hj, rfl⟩ := List.mem_iff_getElem.1 hc
    refine ⟨(List.range n).map fun i => (g inputs[j]).2.getD i 0 / ((inputs.map g).map fun r => r.2.getD i 0).sum, ?_, by simp, ?_⟩
    · refine (ho _).mem_iff.2 (List.mem_map.2 ⟨j, by simpa using hj, ?_⟩)
      rw [List.getD_eq_getElem _ _ (by simpa using hj), List.getElem_map, h5]
    · intro i hi
      rw [List.getD_eq_getElem _ _ (by simpa using hi), List.getElem_map, List.getElem_range, List.map_map]
      rfl

/-- **C259** (sum): whatever is returned, the weights of all inputs at each point are not negative and have sum one. -/
theorem C259_normalised (order : List (String × List ℚ) → List (String × List ℚ)) (ho : ∀ l, (order l).Perm l) (config : List (String × LinTable))
    (inputs : List LinInput) (out : List (String × List ℚ)) (h : linWeightsProcess order config inputs = .ok out) (c : LinInput) (hc : c ∈ inputs) :
    out.length = inputs.length ∧ ∀ i < c.points.length, (∀ r ∈ out, 0 ≤ r.2.getD i 0) ∧ (out.map fun r => r.2.getD i 0).sum = 1 := by
  unfold linWeightsProcess at h
  simp only [bind, Except.bind] at h
  cases h1 : checkLinConfig config with
  | error e => rw [h1] at h; exact nomatch h
  | ok _ =>
  rw [h1] at h
  simp only at h
  cases h2 : inputs.mapM (linRow config) with
  | error e => rw [h2] at h; exact nomatch h
  | ok rows =>
  rw [h2] at h
  simp only at h
  cases h3 : checkMergeLin inputs with
  | error e => rw [h3] at h; exact nomatch h
  | ok _ =>
  rw [h3] at h
  simp only at h
  have hlen : rows.length = inputs.length := (mapM_ok_forall _ _ _ h2).length_eq.symm
  have hn : (inputs.map fun c => c.points.length).headD 0 = c.points.length := by
    unfold checkMergeLin at h3
    by_cases g0 : inputs = [] ∨ ¬ (inputs.map LinInput.keys).Nodup
    · rw [if_pos g0] at h3; exact nomatch h3
    rw [if_neg g0] at h3
    by_cases g1 : (inputs.all fun c => inputs.all fun d => decide (c.isDim = d.isDim ∧ c.unit = d.unit ∧ c.points.length = d.points.length ∧ (c.isDim → c.points = d.points))) = true
    swap
    · rw [if_neg g1] at h3; exact nomatch h3
    rw [List.all_eq_true] at g1
    cases hi : inputs with
    | nil => exact absurd (Or.inl hi) g0
    | cons d l =>
      have hd : d ∈ inputs := by rw [hi]; simp
      have := List.all_eq_true.1 (g1 d hd) c hc
      simp only [decide_eq_true_eq] at this
      exact this.2.2.1
  rw [hn] at h
  cases h4 : normaliseRows c.points.length rows with
  | error e => rw [h4] at h; exact nomatch h
  | ok res =>
  rw [h4] at h
  cases h
  unfold normaliseRows at h4
  simp only [bind, Except.bind] at h4
  cases h5 : ((List.range c.points.length).mapM fun i => normaliseWeights (rows.map fun r => r.2.getD i 0)) with
  | error e => rw [h5] at h4; exact nomatch h4
  | ok cols =>
  rw [h5] at h4
  simp only [Except.ok.injEq] at h4
  have hres : (order res).length = inputs.length := by rw [(ho res).length_eq, ← h4]; simp [hlen]
  refine ⟨hres, ?_⟩
  intro i hi
  have hf := mapM_ok_forall _ _ _ h5
  have hcl : cols.length = c.points.length := by rw [← hf.length_eq, List.length_range]
  have hi' : i < cols.length := by rw [hcl]; exact hi
  have hcol := (List.forall₂_iff_get.1 hf).2 i (by simpa using hi) hi'
  simp only [List.get_eq_getElem, List.getElem_range] at hcol
  obtain ⟨c1, c2, c3, c4⟩ := (C20_normalise_iff _ _).1 hcol
  have hvals : (res.map fun r => r.2.getD i 0) = cols[i] := by
    apply List.ext_getElem
    · rw [← h4, c4]; simp
    intro j j1 j2
    rw [List.getElem_map]
    have hj : j < rows.length := by rw [← h4] at j1; simpa using j1
    have : res[j]'(by simpa using j1) = ((rows.getD j ("", [])).1, cols.map fun col => col.getD j 0) := by
      subst h4
      simp
    rw [this]
    simp only
    rw [List.getD_eq_getElem _ _ (by simpa using hi'), List.getElem_map, List.getD_eq_getElem _ _ j2]
  constructor
  · intro r hr
    have hr' : r ∈ res := (ho res).mem_iff.1 hr
    have : r.2.getD i 0 ∈ cols[i] := by rw [← hvals]; exact List.mem_map.2 ⟨r, hr', rfl⟩
    rw [c4] at this
    obtain ⟨x, hx, e⟩ := List.mem_map.1 this
    rw [← e]
    refine div_nonneg (c2 x hx) (List.sum_nonneg c2)
  · rw [((ho res).map _).sum_eq, hvals, c4]
    have : (fun x : ℚ => x / (rows.map fun r => r.2.getD i 0).sum) = fun x => (rows.map fun r => r.2.getD i 0).sum⁻¹ * x := by
      funext x; rw [div_eq_inv_mul]
    rw [this, List.sum_map_mul_left, List.map_id', inv_mul_cancel₀ c3]

/-- **C259** (refused): no input, an input of several models or of a model without a table, two inputs of one model, a table (used or not) with other numbers of
points and weights, a used table in a unit of another quantity, and inputs that differ in the points of a weighting dimension are refused. -/
theorem C259_refused (order : List (String × List ℚ) → List (String × List ℚ)) (config : List (String × LinTable)) (inputs : List LinInput)
    (h : inputs = [] ∨ ¬ (inputs.map LinInput.keys).Nodup ∨ (∃ e ∈ config, e.2.points.length ≠ e.2.weights.length) ∨
      (∃ c ∈ inputs, ∀ k, c.keys = [k] → ∀ t, config.lookup k = some t → ∃ v, t.unit = some v ∧ v.dimension ≠ c.unit.dimension) ∨
      ∃ c ∈ inputs, ∃ d ∈ inputs, c.isDim = true ∧ c.points ≠ d.points) :
    ∀ out, linWeightsProcess order config inputs ≠ .ok out := by
  intro out hout
  unfold linWeightsProcess at hout
  simp only [bind, Except.bind] at hout
  cases h1 : checkLinConfig config with
  | error e => rw [h1] at hout; exact nomatch hout
  | ok _ =>
  rw [h1] at hout
  simp only at hout
  cases h2 : inputs.mapM (linRow config) with
  | error e => rw [h2] at hout; exact nomatch hout
  | ok rows =>
  rw [h2] at hout
  simp only at hout
  cases h3 : checkMergeLin inputs with
  | error e => rw [h3] at hout; exact nomatch hout
  | ok _ =>
  unfold checkMergeLin at h3
  by_cases g0 : inputs = [] ∨ ¬ (inputs.map LinInput.keys).Nodup
  · rw [if_pos g0] at h3; exact nomatch h3
  rw [if_neg g0] at h3
  rcases h with h | h | ⟨e, he, hne⟩ | ⟨c, hc, hno⟩ | ⟨c, hc, d, hd, hdim, hne⟩
  · exact g0 (Or.inl h)
  · exact g0 (Or.inr h)
  · unfold checkLinConfig at h1
    by_cases g1 : (config.all fun e => decide (e.2.points.length = e.2.weights.length)) = true
    · have := List.all_eq_true.1 g1 e he
      exact hne (by simpa using this)
    · rw [if_neg g1] at h1; exact nomatch h1
  · obtain ⟨r, hr⟩ := mapM_each h2 c hc
    unfold linRow at hr
    match hk : c.keys with
    | [] => rw [hk] at hr; exact nomatch hr
    | _ :: _ :: _ => rw [hk] at hr; exact nomatch hr
    | [k] =>
      rw [hk] at hr
      simp only at hr
      cases hl : config.lookup k with
      | none => rw [hl] at hr; exact nomatch hr
      | some t =>
        rw [hl] at hr
        obtain ⟨v, v1, v2⟩ := hno k hk t hl
        simp only [bind, Except.bind] at hr
        unfold linPoints at hr
        rw [v1] at hr
        simp only at hr
        rw [if_pos v2] at hr
        exact nomatch hr
  · by_cases g1 : (inputs.all fun c => inputs.all fun d => decide (c.isDim = d.isDim ∧ c.unit = d.unit ∧ c.points.length = d.points.length ∧ (c.isDim → c.points = d.points))) = true
    · have := List.all_eq_true.1 (List.all_eq_true.1 g1 c hc) d hd
      simp only [decide_eq_true_eq] at this
      exact hne (this.2.2.2 hdim)
    · rw [if_neg g1] at h3; exact nomatch h3

/-- Tables and inputs that meet the hypotheses of `C259_result`: one table in hours, for coordinates in seconds. -/
def linSampleConfig : List (String × LinTable) :=
  [("uk_det", ⟨[0, 10], [1, 0], some ⟨"time", 3600, 0⟩⟩), ("uk_ens", ⟨[0, 36000], [0, 1], none⟩)]

def linSampleInputs : List LinInput := [⟨["uk_ens"], [0, 18000], ⟨"time", 1, 0⟩, true⟩, ⟨["uk_det"], [0, 18000], ⟨"time", 1, 0⟩, true⟩]

example : (∀ e ∈ linSampleConfig, e.2.points.length = e.2.weights.length) ∧ (linSampleInputs.map LinInput.keys).Nodup ∧
    (∀ c ∈ linSampleInputs, ∃ k t, c.keys = [k] ∧ linSampleConfig.lookup k = some t ∧ Spec.UsableTable t c.unit) ∧
    (∀ c ∈ linSampleInputs, ∀ d ∈ linSampleInputs, c.isDim = d.isDim ∧ c.unit = d.unit ∧ (c.isDim = true → c.points = d.points)) ∧
    (linWeightsProcess id linSampleConfig linSampleInputs).toOption = some [("uk_ens", [0, 1 / 2]), ("uk_det", [1, 1 / 2])] := by
  refine ⟨by decide +kernel, by decide +kernel, ?_, by decide +kernel, by decide +kernel⟩
  intro c hc
  simp only [linSampleInputs, List.mem_cons, List.not_mem_nil, or_false] at hc
  rcases hc with rfl | rfl
  · exact ⟨"uk_ens", ⟨[0, 36000], [0, 1], none⟩, rfl, by decide, by decide +kernel, by decide +kernel, by decide +kernel, by decide +kernel, fun _ e => nomatch e⟩
  · refine ⟨"uk_det", ⟨[0, 10], [1, 0], some ⟨"time", 3600, 0⟩⟩, rfl, by decide, by decide +kernel, by decide +kernel, by decide +kernel, by decide +kernel, ?_⟩
    intro v e
    cases e
    exact ⟨rfl, by norm_num, by norm_num⟩

/-- Weights at a point where every table gives nothing are refused, not set to zero. -/
example :
    (linWeightsProcess id [("a", ⟨[0, 10], [1, 0], none⟩), ("b", ⟨[0, 10], [1, 0], none⟩)]
      [⟨["a"], [0, 12], ⟨"time", 1, 0⟩, true⟩, ⟨["b"], [0, 12], ⟨"time", 1, 0⟩, true⟩]).toOption = none := by
  decide +kernel

end Improver
