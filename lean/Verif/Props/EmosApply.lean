import Verif.Props.Emos

/-!
C123, C124: training by point and application of EMOS coefficients.
-/

namespace Improver

open Spec

/-! ### C123: training at each point -/

theorem filter_index {α : Type} (p : α → Bool) (l : List α) (i : ℕ) (hi : i < l.length)
    (h : ∀ j (hj : j < l.length), p l[j] = true ↔ j = i) : l.filter p = [l[i]] := by
  induction l generalizing i with
  | nil => simp at hi
  | cons x t ih =>
    cases i with
    | zero =>
      have h0 : p x = true := (h 0 (by simp)).2 rfl
      have ht : t.filter p = [] := by
        rw [List.filter_eq_nil_iff]
        intro y hy
        obtain ⟨j, hj, rfl⟩ := List.getElem_of_mem hy
        intro hp
        have := (h (j + 1) (by simpa using hj)).1 (by simpa using hp)
        omega
      simp [h0, ht]
    | succ k =>
      have h0 : ¬ p x = true := fun hp => by
        have := (h 0 (by simp)).1 (by simpa using hp); omega
      have := ih k (by simpa using hi) (fun j hj => by
        have := h (j + 1) (by simpa using hj)
        simpa using this)
      simp [h0, this]

theorem isclose_self (a : ℚ) : npIsclose a a = true := by
  unfold npIsclose
  simp
  positivity

theorem mapM_okMap {α β ε : Type} (f : α → Except ε β) (g : α → β) (l : List α)
    (h : ∀ x ∈ l, f x = .ok (g x)) : l.mapM f = .ok (l.map g) := by
  induction l with
  | nil => rfl
  | cons x t ih =>
    rw [List.mapM_cons, h x (List.mem_cons_self ..), ih fun y hy => h y (List.mem_cons_of_mem _ hy)]
    rfl

theorem mapM_error {α β ε : Type} (f : α → Except ε β) (l : List α) (x : α) (hx : x ∈ l)
    (h : ∃ e, f x = .error e) : ∃ e, l.mapM f = .error e := by
  induction l with
  | nil => simp at hx
  | cons y t ih =>
    rw [List.mapM_cons]
    cases hy : f y with
    | error e => exact ⟨e, rfl⟩
    | ok v =>
      rcases List.mem_cons.1 hx with rfl | hx
      · obtain ⟨e, he⟩ := h; rw [he] at hy; cases hy
      · obtain ⟨e, he⟩ := ih hx
        exact ⟨e, by rw [he]; rfl⟩

namespace Spec

/-- Two positions are told apart by the comparison of coordinates (default tolerances of
`np.isclose`). -/
def apart {α β : Type} (s : SiteData α) (t : SiteData β) : Prop :=
  1 / 100000000 + 1 / 100000 * |t.y| < |s.y - t.y| ∨
    1 / 100000000 + 1 / 100000 * |t.x| < |s.x - t.x|

end Spec

theorem sitesAt_self {α β : Type} (preds : List (SiteData α)) (t : SiteData β) (i : ℕ)
    (hi : i < preds.length) (hy : preds[i].y = t.y) (hx : preds[i].x = t.x)
    (hap : ∀ j (hj : j < preds.length), j ≠ i → apart preds[j] t) :
    sitesAt preds t.y t.x = [preds[i]] := by
  unfold sitesAt
  apply filter_index _ _ i hi
  intro j hj
  constructor
  · intro h
    by_contra hne
    rw [Bool.and_eq_true] at h
    unfold npIsclose at h
    simp only [decide_eq_true_eq] at h
    rcases hap j hj hne with h' | h' <;> linarith [h.1, h.2]
  · rintro rfl
    rw [hy, hx, isclose_self, isclose_self]; rfl

open Classical in
/-- C123: when the predictors are given at the sites of the truths, in the same order, and
different sites are told apart, the coefficients of each site are those of minimising the score
over the data of that site alone, starting from its guess; a site without any observation keeps
its guess. -/
theorem C123_site_coefficients {α β : Type}
    (mini : List ℝ → α → List (Option ℝ) → β → List ℝ) (guesses : List (List ℝ))
    (truths : List (SiteData (List (Option ℝ)))) (vars : List β) (preds : List (SiteData α))
    (hg : guesses.length = truths.length) (hv : vars.length = truths.length)
    (hp : preds.length = truths.length)
    (hpos : ∀ i (h : i < truths.length) (h' : i < preds.length),
      preds[i].y = truths[i].y ∧ preds[i].x = truths[i].x)
    (hap : ∀ i j (h : i < truths.length) (h' : j < preds.length), j ≠ i →
      apart preds[j] truths[i]) :
    ∃ out, pointByPoint mini guesses truths vars preds = .ok out ∧
      out.length = truths.length ∧
      ∀ i (h : i < truths.length) (hg' : i < guesses.length) (hv' : i < vars.length)
        (hp' : i < preds.length),
        out[i]? = some (if ∀ y ∈ truths[i].data, y = none then guesses[i]
          else mini guesses[i] preds[i].data truths[i].data vars[i]) := by
  let z := (truths.zip vars).zip guesses
  have hz : z.length = truths.length := by simp [z, hg, hv]
  have hzi : ∀ i (h : i < truths.length) (hg' : i < guesses.length) (hv' : i < vars.length)
      (hz' : i < z.length), z[i] = ((truths[i], vars[i]), guesses[i]) := by
    intro i h hg' hv' hz'
    simp [z, List.getElem_zip]
  have hstep : ∀ i (h : i < truths.length) (hg' : i < guesses.length) (hv' : i < vars.length)
      (hp' : i < preds.length),
      pointCoeffs mini guesses[i] truths[i].data vars[i]
        (sitesAt preds truths[i].y truths[i].x) = .ok (if ∀ y ∈ truths[i].data, y = none
          then guesses[i] else mini guesses[i] preds[i].data truths[i].data vars[i]) := by
    intro i h hg' hv' hp'
    rw [sitesAt_self preds truths[i] i hp' (hpos i h hp').1 (hpos i h hp').2
      (fun j hj hne => hap i j h hj hne)]
    unfold pointCoeffs
    have hall : (truths[i].data.all Option.isNone = true) ↔ ∀ y ∈ truths[i].data, y = none := by
      simp [List.all_eq_true]
    by_cases hc : ∀ y ∈ truths[i].data, y = none
    · simp only [hall.2 hc, if_true, if_pos hc]
    · rw [if_neg hc]
      have : ¬ truths[i].data.all Option.isNone = true := fun h => hc (hall.1 h)
      simp [this]
  -- a total function agreeing with the step on the members of the list
  let F : (SiteData (List (Option ℝ)) × β) × List ℝ → Except String (List ℝ) := fun t =>
    pointCoeffs mini t.2 t.1.1.data t.1.2 (sitesAt preds t.1.1.y t.1.1.x)
  let G : (SiteData (List (Option ℝ)) × β) × List ℝ → List ℝ := fun t =>
    match F t with | .ok r => r | .error _ => []
  have hFG : ∀ t ∈ z, F t = .ok (G t) := by
    intro t ht
    obtain ⟨i, hi, rfl⟩ := List.getElem_of_mem ht
    have hi' : i < truths.length := hz ▸ hi
    have e := hstep i hi' (hg ▸ hi') (hv ▸ hi') (hp ▸ hi')
    have e2 := (congrArg F (hzi i hi' (hg ▸ hi') (hv ▸ hi') hi)).trans e
    simp only [G, e2]
  refine ⟨z.map G, mapM_okMap F G z hFG, by simp [hz], ?_⟩
  intro i h hg' hv' hp'
  have hi : i < z.length := hz ▸ h
  rw [List.getElem?_map, List.getElem?_eq_getElem hi]
  simp only [Option.map_some, Option.some.injEq]
  have e := hstep i h hg' hv' hp'
  have e2 := (congrArg F (hzi i h hg' hv' hi)).trans e
  simp only [G, e2]

/-- Finding: two sites closer than the tolerance of the comparison (for instance two stations
at the same coordinates) make the training fail, if one of them has an observation. -/
theorem C123_close_sites_refuted {α β : Type}
    (mini : List ℝ → α → List (Option ℝ) → β → List ℝ) (guesses : List (List ℝ))
    (truths : List (SiteData (List (Option ℝ)))) (vars : List β) (preds : List (SiteData α))
    (hg : guesses.length = truths.length) (hv : vars.length = truths.length)
    (i : ℕ) (hi : i < truths.length) (hobs : ∃ y ∈ truths[i].data, y ≠ none)
    (p q : SiteData α) (hpq : [p, q].Sublist preds)
    (hp : ¬ apart p truths[i]) (hq : ¬ apart q truths[i]) :
    ∃ e, pointByPoint mini guesses truths vars preds = .error e := by
  unfold pointByPoint
  have hz : i < ((truths.zip vars).zip guesses).length := by simp [hg, hv, hi]
  apply mapM_error _ _ _ (List.getElem_mem hz)
  simp only [List.getElem_zip]
  have hclose : ∀ s : SiteData α, ¬ apart s truths[i] →
      (npIsclose s.y truths[i].y && npIsclose s.x truths[i].x) = true := by
    intro s hs
    unfold apart at hs
    push Not at hs
    unfold npIsclose
    simp only [Bool.and_eq_true, decide_eq_true_eq]
    exact ⟨by linarith [hs.1], by linarith [hs.2]⟩
  have hsub := hpq.filter (fun s => npIsclose s.y truths[i].y && npIsclose s.x truths[i].x)
  simp only [List.filter_cons, hclose p hp, hclose q hq, if_true, List.filter_nil] at hsub
  unfold sitesAt
  set l := preds.filter fun s => npIsclose s.y truths[i].y && npIsclose s.x truths[i].x
  have hl : 2 ≤ l.length := by simpa using hsub.length_le
  have hall : ¬ truths[i].data.all Option.isNone = true := by
    obtain ⟨y, hy, hne⟩ := hobs
    intro h
    rw [List.all_eq_true] at h
    exact hne (by simpa using h y hy)
  match l, hl with
  | a :: b :: t, _ =>
    refine ⟨"ValueError: all the input array dimensions must match", ?_⟩
    unfold pointCoeffs
    simp only [hall, Bool.false_eq_true, if_false, reduceCtorEq]

/-- The hypotheses of `C123_site_coefficients` are met by two sites, one without observations. -/
example (mini : List ℝ → ℕ → List (Option ℝ) → ℕ → List ℝ) :
    ∃ out, pointByPoint mini [[0, 1, 0, 1], [0, 2, 0, 1]]
        [⟨50, 1, [some 3, none]⟩, ⟨51, 2, [none, none]⟩] [7, 8] [⟨50, 1, 70⟩, ⟨51, 2, 80⟩] = .ok out ∧
      out[1]? = some [0, 2, 0, 1] ∧ out[0]? = some (mini [0, 1, 0, 1] 70 [some 3, none] 7) := by
  obtain ⟨out, h, -, h2⟩ := C123_site_coefficients mini [[0, 1, 0, 1], [0, 2, 0, 1]]
    [⟨50, 1, [some 3, none]⟩, ⟨51, 2, [none, none]⟩] [7, 8] [⟨50, 1, 70⟩, ⟨51, 2, 80⟩] rfl rfl rfl
    (by intro i h _
        have : i = 0 ∨ i = 1 := by simp at h; omega
        rcases this with rfl | rfl <;> simp)
    (by intro i j h h' hne
        have h1 : i = 0 ∨ i = 1 := by simp at h; omega
        have h2 : j = 0 ∨ j = 1 := by simp at h'; omega
        rcases h1 with rfl | rfl <;> rcases h2 with rfl | rfl
        · exact absurd rfl hne
        · left; norm_num
        · left; norm_num
        · exact absurd rfl hne)
  refine ⟨out, h, ?_, ?_⟩
  · have := h2 1 (by simp) (by simp) (by simp) (by simp)
    simpa using this
  · have := h2 0 (by simp) (by simp) (by simp) (by simp)
    simpa using this

/-! ### C124: application -/

namespace Spec

/-- Value of a coefficient at a point. -/
def valueAt : CoefData → ℕ → ℝ
  | .scalar r, _ => r
  | .field l, i => l.getD i 0

/-- The coefficient has a value for each of `n` points. -/
def fits : CoefData → ℕ → Prop
  | .scalar _, _ => True
  | .field l, n => l.length = n

/-- Ensemble mean. -/
noncomputable def average (xs : List ℝ) : ℝ := xs.sum / xs.length

/-- Sample variance. -/
noncomputable def sampleVar (xs : List ℝ) : ℝ :=
  (xs.map fun x => (x - average xs) ^ 2).sum / (xs.length - 1)

/-- The values of the members at a point. -/
def atPoint (members : List (List ℝ)) (i : ℕ) : List ℝ := members.map fun m => m.getD i 0

end Spec

theorem expand_ok (c : CoefData) (n : ℕ) (h : fits c n) :
    c.expand n = .ok ((List.range n).map (valueAt c)) := by
  cases c with
  | scalar r =>
    simp only [CoefData.expand, Except.ok.injEq]
    apply List.ext_getElem <;> simp [valueAt]
  | field l =>
    have hl : l.length = n := h
    simp only [CoefData.expand, hl, if_true, Except.ok.injEq]
    apply List.ext_getElem
    · simp [hl]
    · intro i h1 h2
      simp [valueAt, List.getD_eq_getElem?_getD, List.getElem?_eq_getElem h1]

theorem zipWith_map_map {α β γ δ : Type} (f : β → γ → δ) (g : α → β) (h : α → γ) (l : List α) :
    List.zipWith f (l.map g) (l.map h) = l.map fun x => f (g x) (h x) := by
  induction l with
  | nil => rfl
  | cons x t ih => simp [ih]

theorem betaFor_perm (b : String → CoefData) (preds : List PredCube)
    (hnd : (preds.map PredCube.name).Nodup) (beta : List (String × CoefData))
    (hb : beta.Perm (preds.map fun q => (q.name, b q.name))) (q : PredCube) (hq : q ∈ preds) :
    betaFor beta q.name = .ok (b q.name) := by
  unfold betaFor
  have h1 : (beta.filter fun e => e.1 == q.name).Perm
      ((preds.map fun q => (q.name, b q.name)).filter fun e => e.1 == q.name) := hb.filter _
  have h2 : (preds.map fun q => (q.name, b q.name)).filter (fun e => e.1 == q.name)
      = [(q.name, b q.name)] := by
    obtain ⟨i, hi, rfl⟩ := List.getElem_of_mem hq
    rw [filter_index _ _ i (by simpa using hi)]
    · simp
    · intro j hj
      simp only [List.getElem_map, beq_iff_eq]
      have hj' : j < preds.length := by simpa using hj
      constructor
      · intro h
        exact (List.Nodup.getElem_inj_iff hnd (hi := by simpa using hj') (hj := by simpa using hi)).1
          (by simpa using h)
      · rintro rfl; rfl
  rw [h2] at h1
  rw [List.perm_singleton.1 h1]

theorem addTerms_ok (b : String → CoefData) (beta : List (String × CoefData)) (n : ℕ)
    (f : ℕ → ℝ) (preds : List PredCube)
    (hb : ∀ q ∈ preds, betaFor beta q.name = .ok (b q.name))
    (hf : ∀ q ∈ preds, fits (b q.name) n) (hd : ∀ q ∈ preds, q.data.length = n) :
    addTerms beta n ((List.range n).map f) preds = .ok ((List.range n).map fun i =>
      f i + (List.zipWith (fun x w => w * x) (preds.map fun q => q.data.getD i 0)
        (preds.map fun q => valueAt (b q.name) i)).sum) := by
  induction preds generalizing f with
  | nil => simp [addTerms]
  | cons q t ih =>
    have hq : q ∈ q :: t := List.mem_cons_self ..
    unfold addTerms
    have e : betaTerm beta n q = .ok ((List.range n).map fun i =>
        valueAt (b q.name) i * q.data.getD i 0) := by
      unfold betaTerm
      simp only [hb q hq, expand_ok _ n (hf q hq),
        expand_ok (.field q.data) n (show fits (.field q.data) n from hd q hq), zipWith_map_map]
      rfl
    simp only [e, zipWith_map_map]
    rw [ih (fun i => f i + valueAt (b q.name) i * q.data.getD i 0)
      (fun r hr => hb r (List.mem_cons_of_mem _ hr)) (fun r hr => hf r (List.mem_cons_of_mem _ hr))
      (fun r hr => hd r (List.mem_cons_of_mem _ hr))]
    congr 1
    apply List.map_congr_left
    intro i _
    simp only [List.map_cons, List.zipWith_cons_cons, List.sum_cons, zipWith_map_map]
    ring

/-- C124: with the ensemble mean as predictor, the location at each point is the regression that
was trained: `alpha` plus, for the ensemble mean and every static predictor, its value times the
coefficient trained under its name, in whatever order predictors and coefficients are given. -/
theorem C124_location_mean (fcName : String) (n : ℕ) (members : List (List ℝ))
    (extra : List PredCube) (alpha : CoefData) (b : String → CoefData)
    (beta : List (String × CoefData))
    (hnd : (fcName :: extra.map PredCube.name).Nodup)
    (hb : beta.Perm ((fcName :: extra.map PredCube.name).map fun nm => (nm, b nm)))
    (ha : fits alpha n) (hf : ∀ nm ∈ fcName :: extra.map PredCube.name, fits (b nm) n)
    (hd : ∀ q ∈ extra, q.data.length = n) :
    locationFromMean fcName n members extra alpha beta = .ok ((List.range n).map fun i =>
      location .mean (valueAt alpha i)
        ((fcName :: extra.map PredCube.name).map fun nm => valueAt (b nm) i)
        (average (atPoint members i) :: extra.map fun q => q.data.getD i 0)) := by
  let preds : List PredCube := ⟨fcName, ensMean n members⟩ :: extra
  have hnm : preds.map PredCube.name = fcName :: extra.map PredCube.name := rfl
  have hpl : beta.Perm (preds.map fun q => (q.name, b q.name)) := by
    rw [← hnm, List.map_map] at hb; exact hb
  have hlen : preds.length = beta.length := by rw [hpl.length_eq]; simp
  unfold locationFromMean
  simp only
  rw [if_neg (by rw [not_not]; exact hlen)]
  have hz : (List.replicate n (0:ℝ)) = (List.range n).map fun _ => (0:ℝ) := by
    apply List.ext_getElem <;> simp
  rw [hz, addTerms_ok b beta n (fun _ => 0) preds
    (fun q hq => betaFor_perm b preds (by rw [hnm]; exact hnd) beta hpl q hq)
    (fun q hq => hf _ (by rw [← hnm]; exact List.mem_map_of_mem hq))
    (by intro q hq
        rcases List.mem_cons.1 hq with rfl | hq
        · simp [ensMean]
        · exact hd q hq)]
  simp only [expand_ok alpha n ha, zipWith_map_map, Except.ok.injEq]
  apply List.map_congr_left
  intro i hi
  have hi' : i < n := by simpa using hi
  have hm : (ensMean n members).getD i 0 = average (atPoint members i) := by
    unfold ensMean average atPoint
    rw [List.getD_eq_getElem?_getD, List.getElem?_map, List.getElem?_range hi']
    simp
  simp only [location, reduceCtorEq, if_false, preds, List.map_cons, List.map_map, hm,
    Function.comp_def, List.zipWith_cons_cons, List.sum_cons, zipWith_map_map]
  ring

/-- C124: a predictor whose name was not used in the training is an error. -/
theorem C124_unknown_predictor (fcName : String) (n : ℕ) (members : List (List ℝ))
    (extra : List PredCube) (alpha : CoefData) (beta : List (String × CoefData))
    (q : PredCube) (hq : q ∈ extra) (hn : ∀ e ∈ beta, e.1 ≠ q.name) :
    ∃ e, locationFromMean fcName n members extra alpha beta = .error e := by
  unfold locationFromMean
  simp only
  split_ifs with h
  · exact ⟨_, rfl⟩
  · have herr : ∀ (preds : List PredCube) acc, q ∈ preds →
        ∃ e, addTerms beta n acc preds = .error e := by
      intro preds
      induction preds with
      | nil => intro _ h; simp at h
      | cons r t ih =>
        intro acc hm
        unfold addTerms
        cases hr : betaTerm beta n r with
        | error e => exact ⟨e, rfl⟩
        | ok v =>
          rcases List.mem_cons.1 hm with rfl | hm
          · have hnil : beta.filter (fun b => b.1 == q.name) = [] := by
              rw [List.filter_eq_nil_iff]
              intro e he
              simpa using hn e he
            unfold betaTerm betaFor at hr
            rw [hnil] at hr
            cases hr
          · exact ih _ hm
    obtain ⟨e, he⟩ := herr (⟨fcName, ensMean n members⟩ :: extra) (List.replicate n 0)
      (List.mem_cons_of_mem _ hq)
    rw [he]
    exact ⟨e, rfl⟩

/-- Finding: when a static predictor has the name of the forecast and there are two points, each
of the two coefficients is applied to one point (to both predictors) instead of to its
predictor. -/
theorem C124_duplicate_name_refuted (b1 b2 x1 x2 z1 z2 : ℝ) :
    locationFromMean "t" 2 [[x1, x2]] [⟨"t", [z1, z2]⟩] (.scalar 0)
        [("t", .scalar b1), ("t", .scalar b2)]
      = .ok [b1 * x1 + b1 * z1, b2 * x2 + b2 * z2] := by
  simp [locationFromMean, addTerms, betaTerm, betaFor, CoefData.expand, ensMean, List.range_succ]

/-- The members at a point, for the realizations option. -/
theorem locationReal_shared (n i : ℕ) (members : List (List ℝ)) (a : ℝ) (bs : List ℝ)
    (h : bs.length = members.length) :
    locationRealAt n i members a (.shared bs) = .ok (location .realizations a bs (atPoint members i)) := by
  unfold locationRealAt betaRow
  simp only [List.length_map, h, ne_eq, not_true_eq_false, if_false, Except.ok.injEq, location,
    if_true, atPoint, List.zipWith_map_right]
  congr 3
  funext x b; ring

/-- C124: with the realizations as predictors and shared coefficients. -/
theorem C124_location_realizations (n : ℕ) (members : List (List ℝ)) (alpha : CoefData)
    (bs : List ℝ) (h : bs.length = members.length) (ha : fits alpha n) :
    locationFromRealizations n members alpha (.shared bs) = .ok ((List.range n).map fun i =>
      location .realizations (valueAt alpha i) bs (atPoint members i)) := by
  unfold locationFromRealizations
  simp only [expand_ok alpha n ha]
  apply mapM_okMap
  intro i hi
  have hi' : i < n := by simpa using hi
  rw [locationReal_shared _ _ _ _ _ h]
  simp [hi', List.getD_eq_getElem?_getD, List.getElem?_range]

/-- C124: with the realizations as predictors and coefficients for each site. -/
theorem C124_location_realizations_sites (n : ℕ) (members : List (List ℝ)) (alpha : CoefData)
    (rows : List (List ℝ)) (h : rows.length = members.length) (h1 : rows.length ≠ 1 ∨ n = 1)
    (ha : fits alpha n) :
    locationFromRealizations n members alpha (.perPoint rows) = .ok ((List.range n).map fun i =>
      location .realizations (valueAt alpha i) (atPoint rows i) (atPoint members i)) := by
  unfold locationFromRealizations
  simp only [expand_ok alpha n ha]
  apply mapM_okMap
  intro i hi
  have hi' : i < n := by simpa using hi
  have hc : ¬ (rows.length = 1 ∧ n ≠ 1) := by tauto
  have hrow : betaRow (.perPoint rows) n i = .ok (rows.map fun r => r.getD i 0 * r.getD i 0) := by
    unfold betaRow
    exact if_neg hc
  have hv : ((List.range n).map (valueAt alpha)).getD i 0 = valueAt alpha i := by
    simp [hi', List.getD_eq_getElem?_getD, List.getElem?_range]
  unfold locationRealAt
  simp only [hrow, hv, List.length_map, h, ne_eq, not_true_eq_false, if_false, Except.ok.injEq,
    location, if_true, atPoint, List.zipWith_map_right, List.zipWith_map_left]
  congr 3
  funext x b; ring

/-- Finding: coefficients trained at several sites from a single realization cannot be
applied. -/
theorem C124_single_realization_refuted (n : ℕ) (hn : 1 < n) (members : List (List ℝ))
    (alpha : CoefData) (row : List ℝ) :
    ∃ e, locationFromRealizations n members alpha (.perPoint [row]) = .error e := by
  unfold locationFromRealizations
  cases alpha.expand n with
  | error e => exact ⟨e, rfl⟩
  | ok a =>
    apply mapM_error _ _ 0 (by simp; omega)
    have hrow : betaRow (.perPoint [row]) n 0 = .error "ValueError: hstack" := by
      unfold betaRow
      exact if_pos ⟨rfl, by omega⟩
    unfold locationRealAt
    rw [hrow]
    exact ⟨_, rfl⟩

/-- C124: the scale at each point is the square root of the trained regression on the sample
variance of the members. -/
theorem C124_scale (n : ℕ) (members : List (List ℝ)) (gamma delta : CoefData)
    (hm : 1 < members.length) (hg : fits gamma n) (hd : fits delta n) :
    scaleParameter n members gamma delta = .ok ((List.range n).map fun i =>
      some (Real.sqrt (spread (valueAt gamma i) (valueAt delta i)
        (sampleVar (atPoint members i))))) := by
  unfold scaleParameter ensVar
  simp only [expand_ok gamma n hg, expand_ok delta n hd, if_neg (not_le.2 hm), Except.ok.injEq]
  apply List.map_congr_left
  intro i hi
  have hi' : i < n := by simpa using hi
  simp only [List.getD_eq_getElem?_getD, List.getElem?_map, List.getElem?_range hi',
    Option.map_some, Option.getD_some, spread, sampleVar, average, atPoint, List.map_map,
    Function.comp_def, List.length_map]
  congr 2
  ring

/-- C124: the scale never becomes negative, grows with the ensemble variance, and does not
depend on the signs of `gamma` and `delta`. -/
theorem C124_scale_monotone (g d v w : ℝ) (h : v ≤ w) :
    0 ≤ Real.sqrt (spread g d v) ∧ Real.sqrt (spread g d v) ≤ Real.sqrt (spread g d w) ∧
      Real.sqrt (spread (-g) (-d) v) = Real.sqrt (spread g d v) := by
  refine ⟨Real.sqrt_nonneg _, Real.sqrt_le_sqrt ?_, by simp [spread]⟩
  unfold spread
  have := mul_le_mul_of_nonneg_left h (sq_nonneg d)
  linarith

/-- Finding: with a single realization the scale is NaN everywhere. -/
theorem C124_scale_single_refuted (n : ℕ) (m : List ℝ) (gamma delta : CoefData)
    (hg : fits gamma n) (hd : fits delta n) :
    scaleParameter n [m] gamma delta = .ok (List.replicate n none) := by
  unfold scaleParameter ensVar
  simp [expand_ok gamma n hg, expand_ok delta n hd]

/-- C124: with the default coefficients the calibrated distribution has the mean and the
standard deviation of the ensemble. -/
theorem C124_default_is_raw (fcName : String) (n : ℕ) (members : List (List ℝ))
    (hm : 1 < members.length) :
    locationFromMean fcName n members [] (.scalar 0) [(fcName, .scalar 1)]
        = .ok ((List.range n).map fun i => average (atPoint members i)) ∧
      scaleParameter n members (.scalar 0) (.scalar 1) = .ok ((List.range n).map fun i =>
        some (Real.sqrt (sampleVar (atPoint members i)))) := by
  constructor
  · rw [C124_location_mean fcName n members [] (.scalar 0) (fun _ => .scalar 1)
      [(fcName, .scalar 1)] (by simp) (by simp) trivial (by intro nm _; exact trivial) (by simp)]
    simp [location, valueAt]
  · rw [C124_scale n members (.scalar 0) (.scalar 1) hm trivial trivial]
    simp [spread, valueAt]

/-- The hypotheses of `C124_location_mean` are met with coefficients in another order and one
value of `alpha` for each site. -/
example : locationFromMean "t" 2 [[1, 2], [3, 6]] [⟨"orog", [10, 20]⟩] (.field [1, 2])
    [("orog", .scalar 3), ("t", .field [5, 7])] = .ok [41, 90] := by
  rw [C124_location_mean "t" 2 [[1, 2], [3, 6]] [⟨"orog", [10, 20]⟩] (.field [1, 2])
    (fun s => if s = "t" then .field [5, 7] else .scalar 3) _ (by decide) ?_ rfl ?_ (by simp)]
  · simp [List.range_succ, location, valueAt, average, atPoint]
    norm_num
  · simp only [List.map_cons, List.map_nil, if_true]
    exact List.Perm.swap _ _ _
  · intro nm _
    by_cases h : nm = "t"
    · subst h; simp [fits]
    · simp [h, fits]

end Improver
