import Verif.Model.EmosSites
import Verif.Props.EmosApply
import Verif.Props.OrogCoeff

/-! C286: coefficients estimated point by point and the points at which they are stored. -/

namespace Improver

namespace Spec

open Classical in
/-- Coefficients of one point from its own predictors, variance and observations: the minimum from its own initial guess, or the guess if nothing was
observed. -/
noncomputable def ownCoefficients {α β : Type} (mini : List ℝ → α → List (Option ℝ) → β → List ℝ) (g : α → List (Option ℝ) → List ℝ)
    (pred : α) (var : β) (obs : List (Option ℝ)) : List ℝ :=
  if ∀ y ∈ obs, y = none then g pred obs else mini (g pred obs) pred obs var

/-- Coordinate values told apart by the comparison of coordinates. -/
def apartValues (a b : ℚ) : Prop := 1 / 100000000 + 1 / 100000 * |b| < |a - b|

/-- Different values of a coordinate are told apart. -/
def apartAxis (l : List ℚ) : Prop := ∀ i j, i < l.length → j < l.length → i ≠ j → apartValues (l.getD i 0) (l.getD j 0)

end Spec

open Spec

theorem pointGuess_single {α : Type} (g : α → List (Option ℝ) → List ℝ) (preds : List (SiteData α)) (t : SiteData (List (Option ℝ))) (s : SiteData α)
    (h : sitesAt preds t.y t.x = [s]) : pointGuess g preds t = .ok (g s.data t.data) := by
  unfold pointGuess
  rw [h]

theorem pointCoeffs_single {α β : Type} (mini : List ℝ → α → List (Option ℝ) → β → List ℝ) (g : α → List (Option ℝ) → List ℝ) (s : SiteData α) (v : β)
    (obs : List (Option ℝ)) : pointCoeffs mini (g s.data obs) obs v [s] = .ok (ownCoefficients mini g s.data v obs) := by
  unfold pointCoeffs ownCoefficients
  have hall : (obs.all Option.isNone = true) ↔ ∀ y ∈ obs, y = none := by simp [List.all_eq_true]
  by_cases hc : ∀ y ∈ obs, y = none
  · simp only [hall.2 hc, if_true, if_pos hc]
  · rw [if_neg hc]
    have : ¬ obs.all Option.isNone = true := fun h => hc (hall.1 h)
    simp [this]

theorem mapM_byIndex {α β ε : Type} (f : α → Except ε β) (l : List α) (F : ℕ → β) (h : ∀ i (hi : i < l.length), f l[i] = .ok (F i)) :
    l.mapM f = .ok ((List.range l.length).map F) := by
  induction l generalizing F with
  | nil => rfl
  | cons a t ih =>
    have h0 := h 0 (by simp)
    have hs := ih (fun i => F (i + 1)) (fun i hi => h (i + 1) (by simpa using hi))
    simp only [List.getElem_cons_zero] at h0
    rw [List.mapM_cons, h0, hs]
    simp only [bind, Except.bind, pure, Except.pure, List.length_cons, List.range_succ_eq_map, List.map_cons, List.map_map]
    rfl

theorem mapM_sameLength {α β ε : Type} (f : α → Except ε β) (l : List α) (out : List β) (h : l.mapM f = .ok out) : out.length = l.length := by
  induction l generalizing out with
  | nil =>
    rw [List.mapM_nil] at h
    cases h
    rfl
  | cons a t ih =>
    rw [List.mapM_cons] at h
    simp only [bind, Except.bind, pure, Except.pure] at h
    cases ha : f a with
    | error e => rw [ha] at h; exact nomatch h
    | ok b =>
      rw [ha] at h
      dsimp only at h
      cases ht : t.mapM f with
      | error e => rw [ht] at h; exact nomatch h
      | ok bs =>
        rw [ht] at h
        dsimp only at h
        cases h
        simp [ih bs ht]

/-- The training when the forecast at the position of truth `i` is number `σ i`: predictors are those of this position, the variance is that of forecast
`i`. -/
theorem trainPoints_eq {α β : Type} (mini : List ℝ → α → List (Option ℝ) → β → List ℝ) (g : α → List (Option ℝ) → List ℝ)
    (truths : List (SiteData (List (Option ℝ)))) (fcs : List (SiteData (α × β))) (hlen : fcs.length = truths.length) (σ : ℕ → ℕ)
    (hσ : ∀ i (hi : i < truths.length), ∃ hs : σ i < fcs.length, fcs[σ i].y = truths[i].y ∧ fcs[σ i].x = truths[i].x ∧
      ∀ j (hj : j < fcs.length), j ≠ σ i → apart fcs[j] truths[i]) :
    ∃ out, trainPoints mini g truths fcs = .ok out ∧ out.length = truths.length ∧
      ∀ i (hi : i < truths.length) (hf : i < fcs.length) (hs : σ i < fcs.length),
        out[i]? = some (ownCoefficients mini g fcs[σ i].data.1 fcs[i].data.2 truths[i].data) := by
  set preds := fcs.map fun f => (⟨f.y, f.x, f.data.1⟩ : SiteData α) with hpreds
  have hpl : preds.length = fcs.length := by simp [hpreds]
  have hpg : ∀ j (hj : j < fcs.length) (hj' : j < preds.length), preds[j] = ⟨fcs[j].y, fcs[j].x, fcs[j].data.1⟩ := by
    intro j hj hj'
    simp [hpreds]
  have hsite : ∀ i (hi : i < truths.length) (hs : σ i < fcs.length),
      sitesAt preds truths[i].y truths[i].x = [⟨fcs[σ i].y, fcs[σ i].x, fcs[σ i].data.1⟩] := by
    intro i hi hs
    obtain ⟨hs', hy, hx, hap⟩ := hσ i hi
    have hs2 : σ i < preds.length := by rw [hpl]; exact hs'
    rw [sitesAt_self preds truths[i] (σ i) hs2 (by rw [hpg _ hs' hs2]; exact hy) (by rw [hpg _ hs' hs2]; exact hx) ?_, hpg _ hs' hs2]
    intro j hj hne
    have hj' : j < fcs.length := by rw [← hpl]; exact hj
    rw [hpg j hj' hj]
    exact hap j hj' hne
  have hguess : ∀ i (hi : i < truths.length) (hs : σ i < fcs.length),
      pointGuess g preds truths[i] = .ok (g fcs[σ i].data.1 truths[i].data) := by
    intro i hi hs
    exact pointGuess_single g preds truths[i] _ (hsite i hi hs)
  let G : ℕ → List ℝ := fun i => match pointGuess g preds (truths.getD i ⟨0, 0, []⟩) with | .ok r => r | .error _ => []
  have hG : ∀ i (hi : i < truths.length) (hs : σ i < fcs.length), G i = g fcs[σ i].data.1 truths[i].data := by
    intro i hi hs
    simp only [G]
    rw [List.getD_eq_getElem _ _ hi, hguess i hi hs]
  have hgs : truths.mapM (pointGuess g preds) = .ok ((List.range truths.length).map G) := by
    apply mapM_byIndex
    intro i hi
    obtain ⟨hs, -⟩ := hσ i hi
    rw [hguess i hi hs, hG i hi hs]
  set guesses := (List.range truths.length).map G with hguesses
  set vars := fcs.map fun f => f.data.2 with hvars
  have hz : ((truths.zip vars).zip guesses).length = truths.length := by simp [hguesses, hvars, hlen]
  let F : (SiteData (List (Option ℝ)) × β) × List ℝ → Except String (List ℝ) := fun t =>
    pointCoeffs mini t.2 t.1.1.data t.1.2 (sitesAt preds t.1.1.y t.1.1.x)
  let O : ℕ → List ℝ := fun i => match (((truths.zip vars).zip guesses)[i]?).map F with | some (.ok r) => r | _ => []
  have hstep : ∀ i (hi : i < truths.length) (hf : i < fcs.length) (hs : σ i < fcs.length) (hzi : i < ((truths.zip vars).zip guesses).length),
      F ((truths.zip vars).zip guesses)[i] = .ok (ownCoefficients mini g fcs[σ i].data.1 fcs[i].data.2 truths[i].data) := by
    intro i hi hf hs hzi
    have e : ((truths.zip vars).zip guesses)[i] = ((truths[i], fcs[i].data.2), g fcs[σ i].data.1 truths[i].data) := by
      simp [List.getElem_zip, hvars, hguesses, hG i hi hs]
    rw [e]
    simp only [F]
    rw [hsite i hi hs]
    exact pointCoeffs_single mini g ⟨fcs[σ i].y, fcs[σ i].x, fcs[σ i].data.1⟩ _ _
  have hO : ∀ i (hi : i < truths.length) (hf : i < fcs.length) (hs : σ i < fcs.length),
      O i = ownCoefficients mini g fcs[σ i].data.1 fcs[i].data.2 truths[i].data := by
    intro i hi hf hs
    have hzi : i < ((truths.zip vars).zip guesses).length := by rw [hz]; exact hi
    simp only [O]
    rw [List.getElem?_eq_getElem hzi, Option.map_some, hstep i hi hf hs hzi]
  have hrun : ((truths.zip vars).zip guesses).mapM F = .ok ((List.range ((truths.zip vars).zip guesses).length).map O) := by
    apply mapM_byIndex
    intro i hzi
    have hi : i < truths.length := by rw [← hz]; exact hzi
    have hf : i < fcs.length := by rw [hlen]; exact hi
    obtain ⟨hs, -⟩ := hσ i hi
    rw [hstep i hi hf hs hzi, hO i hi hf hs]
  refine ⟨(List.range ((truths.zip vars).zip guesses).length).map O, ?_, ?_, ?_⟩
  · unfold trainPoints
    simp only [bind, Except.bind]
    rw [← hpreds, hgs]
    exact hrun
  · simp only [List.length_map, List.length_range]; exact hz
  · intro i hi hf hs
    have hzi : i < ((truths.zip vars).zip guesses).length := by rw [hz]; exact hi
    rw [List.getElem?_map, List.getElem?_range hzi, Option.map_some, hO i hi hf hs]

/-! ### Sites -/

/-- C286 (sites in any order): if the forecast at the position of truth number `i` is number `σ i`, then at the position of forecast number `i` stand
coefficients from the observations of truth number `i`, the predictors of forecast `σ i` and the variance of forecast `i`. -/
theorem C286_any_order {α β : Type} (mini : List ℝ → α → List (Option ℝ) → β → List ℝ) (g : α → List (Option ℝ) → List ℝ)
    (truths : List (SiteData (List (Option ℝ)))) (fcs : List (SiteData (α × β))) (hlen : fcs.length = truths.length) (σ : ℕ → ℕ)
    (hσ : ∀ i (hi : i < truths.length), ∃ hs : σ i < fcs.length, fcs[σ i].y = truths[i].y ∧ fcs[σ i].x = truths[i].x ∧
      ∀ j (hj : j < fcs.length), j ≠ σ i → apart fcs[j] truths[i]) :
    ∃ out, trainSites mini g truths fcs = .ok out ∧ out.length = fcs.length ∧
      ∀ i (hi : i < truths.length) (hf : i < fcs.length) (hs : σ i < fcs.length),
        out[i]? = some ⟨fcs[i].y, fcs[i].x, ownCoefficients mini g fcs[σ i].data.1 fcs[i].data.2 truths[i].data⟩ := by
  obtain ⟨out, ho, hl, hv⟩ := trainPoints_eq mini g truths fcs hlen σ hσ
  have hl' : out.length = fcs.length := hl.trans hlen.symm
  refine ⟨List.zipWith (fun (f : SiteData (α × β)) c => (⟨f.y, f.x, c⟩ : SiteData (List ℝ))) fcs out, ?_, ?_, ?_⟩
  · unfold trainSites
    simp only [bind, Except.bind]
    rw [ho]
    simp only [hl', ne_eq, not_true_eq_false, if_false]
  · simp [hl']
  · intro i hi hf hs
    rw [List.getElem?_zipWith, hv i hi hf hs, List.getElem?_eq_getElem hf]

/-- C286: with the sites of the truths in the order of the forecasts, and different sites told apart, the coefficients at each site are those from its own
predictors, variance and observations. -/
theorem C286_same_order {α β : Type} (mini : List ℝ → α → List (Option ℝ) → β → List ℝ) (g : α → List (Option ℝ) → List ℝ)
    (truths : List (SiteData (List (Option ℝ)))) (fcs : List (SiteData (α × β))) (hlen : fcs.length = truths.length)
    (hpos : ∀ i (hi : i < truths.length) (hf : i < fcs.length), fcs[i].y = truths[i].y ∧ fcs[i].x = truths[i].x)
    (hap : ∀ i j (hi : i < truths.length) (hj : j < fcs.length), j ≠ i → apart fcs[j] truths[i]) :
    ∃ out, trainSites mini g truths fcs = .ok out ∧ out.length = fcs.length ∧
      ∀ i (hi : i < truths.length) (hf : i < fcs.length),
        out[i]? = some ⟨fcs[i].y, fcs[i].x, ownCoefficients mini g fcs[i].data.1 fcs[i].data.2 truths[i].data⟩ := by
  obtain ⟨out, h, hl, hv⟩ := C286_any_order mini g truths fcs hlen id
    (fun i hi => ⟨by rw [hlen]; exact hi, (hpos i hi _).1, (hpos i hi _).2, fun j hj hne => hap i j hi hj hne⟩)
  exact ⟨out, h, hl, fun i hi hf => hv i hi hf hf⟩

/-- Finding: nothing compares the order of the sites.  For two stations listed in one order by the forecasts and in the other by the truths, each station gets
coefficients from the observations and the predictors of the other one and from its own variance. -/
theorem C286_order_refuted {α β : Type} (mini : List ℝ → α → List (Option ℝ) → β → List ℝ) (g : α → List (Option ℝ) → List ℝ)
    (f1 f2 : SiteData (α × β)) (o1 o2 : List (Option ℝ)) (h12 : apart f1 f2) (h21 : apart f2 f1) :
    trainSites mini g [⟨f2.y, f2.x, o2⟩, ⟨f1.y, f1.x, o1⟩] [f1, f2] =
      .ok [⟨f1.y, f1.x, ownCoefficients mini g f2.data.1 f1.data.2 o2⟩, ⟨f2.y, f2.x, ownCoefficients mini g f1.data.1 f2.data.2 o1⟩] := by
  obtain ⟨out, h, hl, hv⟩ := C286_any_order mini g [⟨f2.y, f2.x, o2⟩, ⟨f1.y, f1.x, o1⟩] [f1, f2] rfl (fun i => 1 - i) (by
    intro i hi
    have h2 : i = 0 ∨ i = 1 := by simp at hi; omega
    rcases h2 with rfl | rfl
    · refine ⟨by simp, rfl, rfl, ?_⟩
      intro j hj hne
      have : j = 0 := by simp at hj; omega
      subst this
      exact h12
    · refine ⟨by simp, rfl, rfl, ?_⟩
      intro j hj hne
      have : j = 1 := by simp at hj; omega
      subst this
      exact h21)
  have e0 := hv 0 (by simp) (by simp) (by simp)
  have e1 := hv 1 (by simp) (by simp) (by simp)
  rw [h]
  congr 1
  apply List.ext_getElem?
  intro i
  match i with
  | 0 => exact e0
  | 1 => exact e1
  | n + 2 => rw [List.getElem?_eq_none (by rw [hl]; simp), List.getElem?_eq_none (by simp)]

/-- C286: no coefficients come out if there are fewer sites in the truths than in the forecasts. -/
theorem C286_fewer_truths {α β : Type} (mini : List ℝ → α → List (Option ℝ) → β → List ℝ) (g : α → List (Option ℝ) → List ℝ)
    (truths : List (SiteData (List (Option ℝ)))) (fcs : List (SiteData (α × β))) (hlen : truths.length < fcs.length) (out : List (SiteData (List ℝ))) :
    trainSites mini g truths fcs ≠ .ok out := by
  intro h
  unfold trainSites at h
  simp only [bind, Except.bind] at h
  cases ht : trainPoints mini g truths fcs with
  | error e => rw [ht] at h; exact nomatch h
  | ok o =>
    rw [ht] at h
    dsimp only at h
    have hle : o.length ≤ truths.length := by
      unfold trainPoints at ht
      simp only [bind, Except.bind] at ht
      cases hg : truths.mapM (pointGuess g (fcs.map fun f => (⟨f.y, f.x, f.data.1⟩ : SiteData α))) with
      | error e => rw [hg] at ht; exact nomatch ht
      | ok gs =>
        rw [hg] at ht
        dsimp only at ht
        unfold pointByPoint at ht
        have := mapM_sameLength _ _ _ ht
        rw [this]
        simp only [List.length_zip]
        omega
    rw [if_pos (by omega)] at h
    exact nomatch h

/-- The hypotheses of `C286_same_order` are met by two stations, one of them without observations. -/
example (mini : List ℝ → ℕ → List (Option ℝ) → ℕ → List ℝ) (g : ℕ → List (Option ℝ) → List ℝ) :
    ∃ out, trainSites mini g [⟨50, 1, [some 3, none]⟩, ⟨51, 2, [none, none]⟩] [⟨50, 1, 70, 7⟩, ⟨51, 2, 80, 8⟩] = .ok out ∧ out.length = 2 := by
  obtain ⟨out, h, hl, -⟩ := C286_same_order mini g [⟨50, 1, [some 3, none]⟩, ⟨51, 2, [none, none]⟩] [⟨50, 1, 70, 7⟩, ⟨51, 2, 80, 8⟩] rfl
    (by intro i h _
        have : i = 0 ∨ i = 1 := by simp at h; omega
        rcases this with rfl | rfl <;> simp)
    (by intro i j h h' hne
        have h1 : i = 0 ∨ i = 1 := by simp at h; omega
        have h2 : j = 0 ∨ j = 1 := by simp at h'; omega
        rcases h1 with rfl | rfl <;> rcases h2 with rfl | rfl
        · exact absurd rfl hne
        · left; norm_num
        · left; norm_num
        · exact absurd rfl hne)
  exact ⟨out, h, hl⟩

/-! ### Grids -/

theorem points_length {V : Type} (c : Field2 V) : c.points.length = c.ys.length * c.xs.length := by
  unfold Field2.points
  simp

theorem points_yFirst {V : Type} (c : Field2 V) (hc : c.xFirst = false) (k : ℕ) (hk : k < c.points.length) :
    c.points[k] = ⟨c.ys.getD (k / c.xs.length) 0, c.xs.getD (k % c.xs.length) 0, fieldValueAt c (k / c.xs.length) (k % c.xs.length)⟩ := by
  unfold Field2.points fieldValueAt
  simp [hc]

theorem points_xFirst {V : Type} (c : Field2 V) (hc : c.xFirst = true) (k : ℕ) (hk : k < c.points.length) :
    c.points[k] = ⟨c.ys.getD (k % c.ys.length) 0, c.xs.getD (k / c.ys.length) 0, fieldValueAt c (k % c.ys.length) (k / c.ys.length)⟩ := by
  unfold Field2.points fieldValueAt
  simp [hc]

theorem apart_of_axes {α β : Type} (ys xs : List ℚ) (hys : apartAxis ys) (hxs : apartAxis xs) (i j i' j' : ℕ) (hi : i < ys.length) (hj : j < xs.length)
    (hi' : i' < ys.length) (hj' : j' < xs.length) (hne : ¬ (i = i' ∧ j = j')) (s : SiteData α) (t : SiteData β) (hsy : s.y = ys.getD i 0)
    (hsx : s.x = xs.getD j 0) (hty : t.y = ys.getD i' 0) (htx : t.x = xs.getD j' 0) : apart s t := by
  unfold apart
  rw [hsy, hsx, hty, htx]
  by_cases h : i = i'
  · right
    exact hxs j j' hj hj' (fun e => hne ⟨h, e⟩)
  · left
    exact hys i i' hi hi' h

theorem index_eq (n k k' : ℕ) (hd : k / n = k' / n) (hm : k % n = k' % n) : k = k' := by
  rw [← Nat.div_add_mod k n, ← Nat.div_add_mod k' n, hd, hm]

/-- Training of a grid whose fields have the same order of dimensions, before the coefficients are given a shape. -/
theorem trainPoints_grid {α β : Type} (mini : List ℝ → α → List (Option ℝ) → β → List ℝ) (g : α → List (Option ℝ) → List ℝ)
    (truth : Field2 (List (Option ℝ))) (fc : Field2 (α × β)) (hys : truth.ys = fc.ys) (hxs : truth.xs = fc.xs) (ho : truth.xFirst = fc.xFirst)
    (hay : apartAxis fc.ys) (hax : apartAxis fc.xs) :
    ∃ out, trainPoints mini g truth.points fc.points = .ok out ∧ out.length = fc.ys.length * fc.xs.length ∧
      ∀ k (hi : k < truth.points.length) (hf : k < fc.points.length),
        out[k]? = some (ownCoefficients mini g fc.points[k].data.1 fc.points[k].data.2 truth.points[k].data) := by
  have hl : fc.points.length = truth.points.length := by rw [points_length, points_length, hys, hxs]
  obtain ⟨out, h1, h2, h3⟩ := trainPoints_eq mini g truth.points fc.points hl id (by
    intro k hk
    have hk' : k < fc.points.length := by rw [hl]; exact hk
    have hkn : k < fc.ys.length * fc.xs.length := by rw [points_length] at hk'; exact hk'
    refine ⟨hk', ?_⟩
    have hxp : 0 < fc.xs.length := by
      rcases Nat.eq_zero_or_pos fc.xs.length with h | h
      · rw [h] at hkn; omega
      · exact h
    have hyp : 0 < fc.ys.length := by
      rcases Nat.eq_zero_or_pos fc.ys.length with h | h
      · rw [h] at hkn; omega
      · exact h
    cases hb : fc.xFirst with
    | false =>
      rw [hb] at ho
      simp only [id_eq]
      rw [points_yFirst truth ho k hk, points_yFirst fc hb k hk']
      refine ⟨by rw [hys, hxs], by rw [hxs], ?_⟩
      intro j hj hne
      have hjn : j < fc.ys.length * fc.xs.length := by rw [points_length] at hj; exact hj
      rw [points_yFirst fc hb j hj]
      refine apart_of_axes fc.ys fc.xs hay hax (j / fc.xs.length) (j % fc.xs.length) (k / fc.xs.length) (k % fc.xs.length) ?_ (Nat.mod_lt _ hxp) ?_
        (Nat.mod_lt _ hxp) ?_ _ _ rfl rfl (by rw [hys, hxs]) (by rw [hxs])
      · exact (Nat.div_lt_iff_lt_mul hxp).2 hjn
      · exact (Nat.div_lt_iff_lt_mul hxp).2 hkn
      · rintro ⟨a, b⟩
        exact hne (index_eq _ _ _ a b)
    | true =>
      rw [hb] at ho
      simp only [id_eq]
      rw [points_xFirst truth ho k hk, points_xFirst fc hb k hk']
      refine ⟨by rw [hys], by rw [hxs, hys], ?_⟩
      intro j hj hne
      have hjn : j < fc.ys.length * fc.xs.length := by rw [points_length] at hj; exact hj
      rw [points_xFirst fc hb j hj]
      refine apart_of_axes fc.ys fc.xs hay hax (j % fc.ys.length) (j / fc.ys.length) (k % fc.ys.length) (k / fc.ys.length) (Nat.mod_lt _ hyp) ?_
        (Nat.mod_lt _ hyp) ?_ ?_ _ _ rfl rfl (by rw [hys]) (by rw [hxs, hys])
      · exact (Nat.div_lt_iff_lt_mul hyp).2 (by rw [Nat.mul_comm]; exact hjn)
      · exact (Nat.div_lt_iff_lt_mul hyp).2 (by rw [Nat.mul_comm]; exact hkn)
      · rintro ⟨a, b⟩
        exact hne (index_eq _ _ _ b a))
  refine ⟨out, h1, ?_, fun k hi hf => h3 k hi hf hf⟩
  rw [h2, points_length, hys, hxs]

/-- C286 (grids): with truths and forecasts on one grid with the same order of dimensions - y first, or any order on a grid with as many rows as columns -
the coefficients at each point are those from its own predictors, variance and observations. -/
theorem C286_grid {α β : Type} (mini : List ℝ → α → List (Option ℝ) → β → List ℝ) (g : α → List (Option ℝ) → List ℝ)
    (truth : Field2 (List (Option ℝ))) (fc : Field2 (α × β)) (hys : truth.ys = fc.ys) (hxs : truth.xs = fc.xs) (ho : truth.xFirst = fc.xFirst)
    (hsq : fc.xFirst = true → fc.ys.length = fc.xs.length) (hay : apartAxis fc.ys) (hax : apartAxis fc.xs) :
    ∃ out, trainGrid mini g truth fc = .ok out ∧ out.ys = fc.ys ∧ out.xs = fc.xs ∧ out.xFirst = fc.xFirst ∧
      ∀ y x, y < fc.ys.length → x < fc.xs.length →
        fieldValueAt out y x = ownCoefficients mini g (fieldValueAt fc y x).1 (fieldValueAt fc y x).2 (fieldValueAt truth y x) := by
  obtain ⟨out, h1, h2, h3⟩ := trainPoints_grid mini g truth fc hys hxs ho hay hax
  refine ⟨⟨fc.xFirst, fc.ys, fc.xs, fun i j => out.getD (i * fc.xs.length + j) []⟩, ?_, rfl, rfl, rfl, ?_⟩
  · unfold trainGrid
    simp only [bind, Except.bind]
    rw [h1]
    dsimp only
    rw [if_neg (by rw [h2]; simp), if_neg (fun h => h.2 (hsq h.1))]
  · intro y x hy hx
    have hl : fc.points.length = truth.points.length := by rw [points_length, points_length, hys, hxs]
    cases hb : fc.xFirst with
    | false =>
      rw [hb] at ho
      have hk : y * fc.xs.length + x < fc.points.length := by
        rw [points_length]
        calc y * fc.xs.length + x < y * fc.xs.length + fc.xs.length := by omega
          _ = (y + 1) * fc.xs.length := by ring
          _ ≤ fc.ys.length * fc.xs.length := Nat.mul_le_mul_right _ hy
      have hd : (y * fc.xs.length + x) / fc.xs.length = y := by
        rw [Nat.mul_comm, Nat.mul_add_div (by omega), Nat.div_eq_of_lt hx, Nat.add_zero]
      have hm : (y * fc.xs.length + x) % fc.xs.length = x := by
        rw [Nat.mul_comm, Nat.mul_add_mod, Nat.mod_eq_of_lt hx]
      have e := h3 (y * fc.xs.length + x) (by rw [← hl]; exact hk) hk
      rw [points_yFirst fc hb _ hk, points_yFirst truth ho _ (by rw [← hl]; exact hk), hxs, hd, hm] at e
      conv_lhs => unfold fieldValueAt
      simp only [Bool.false_eq_true, if_false]
      rw [List.getD_eq_getElem?_getD, e]
      rfl
    | true =>
      rw [hb] at ho
      have hs := hsq hb
      have hk : x * fc.xs.length + y < fc.points.length := by
        rw [points_length]
        calc x * fc.xs.length + y < x * fc.xs.length + fc.xs.length := by omega
          _ = (x + 1) * fc.xs.length := by ring
          _ ≤ fc.ys.length * fc.xs.length := by rw [hs]; exact Nat.mul_le_mul_right _ hx
      have hd : (x * fc.xs.length + y) / fc.xs.length = x := by
        rw [Nat.mul_comm, Nat.mul_add_div (by omega), Nat.div_eq_of_lt (by omega), Nat.add_zero]
      have hm : (x * fc.xs.length + y) % fc.xs.length = y := by
        rw [Nat.mul_comm, Nat.mul_add_mod, Nat.mod_eq_of_lt (by omega)]
      have e := h3 (x * fc.xs.length + y) (by rw [← hl]; exact hk) hk
      rw [points_xFirst fc hb _ hk, points_xFirst truth ho _ (by rw [← hl]; exact hk), hys, hs, hd, hm] at e
      conv_lhs => unfold fieldValueAt
      simp only [if_true]
      rw [List.getD_eq_getElem?_getD, e]
      rfl

/-- Finding: forecasts with x before y are refused - after the whole training - unless the grid has as many rows as columns. -/
theorem C286_x_first_refuted {α β : Type} (mini : List ℝ → α → List (Option ℝ) → β → List ℝ) (g : α → List (Option ℝ) → List ℝ)
    (truth : Field2 (List (Option ℝ))) (fc : Field2 (α × β)) (hb : fc.xFirst = true) (hne : fc.ys.length ≠ fc.xs.length) (out : Field2 (List ℝ)) :
    trainGrid mini g truth fc ≠ .ok out := by
  intro h
  unfold trainGrid at h
  simp only [bind, Except.bind] at h
  cases ht : trainPoints mini g truth.points fc.points with
  | error e => rw [ht] at h; exact nomatch h
  | ok o =>
    rw [ht] at h
    dsimp only at h
    by_cases hl : o.length ≠ fc.ys.length * fc.xs.length
    · rw [if_pos hl] at h
      exact nomatch h
    · rw [if_neg hl, if_pos ⟨hb, hne⟩] at h
      exact nomatch h

/-- Finding: nothing compares the order of the dimensions.  If the truths have x before y and the forecasts y before x, on a grid with as many rows as columns,
each point gets coefficients from the observations and the predictors of its mirror image (row and column exchanged) and from its own variance. -/
theorem C286_mixed_refuted {α β : Type} (mini : List ℝ → α → List (Option ℝ) → β → List ℝ) (g : α → List (Option ℝ) → List ℝ)
    (truth : Field2 (List (Option ℝ))) (fc : Field2 (α × β)) (hys : truth.ys = fc.ys) (hxs : truth.xs = fc.xs) (ht : truth.xFirst = true)
    (hf : fc.xFirst = false) (hs : fc.ys.length = fc.xs.length) (hay : apartAxis fc.ys) (hax : apartAxis fc.xs) :
    ∃ out, trainGrid mini g truth fc = .ok out ∧
      ∀ y x, y < fc.ys.length → x < fc.xs.length →
        fieldValueAt out y x = ownCoefficients mini g (fieldValueAt fc x y).1 (fieldValueAt fc y x).2 (fieldValueAt truth x y) := by
  have hl : fc.points.length = truth.points.length := by rw [points_length, points_length, hys, hxs]
  have hn : fc.points.length = fc.xs.length * fc.xs.length := by rw [points_length, hs]
  have hlt : ∀ y x, y < fc.xs.length → x < fc.xs.length → y * fc.xs.length + x < fc.points.length := by
    intro y x hy hx
    rw [hn]
    calc y * fc.xs.length + x < y * fc.xs.length + fc.xs.length := by omega
      _ = (y + 1) * fc.xs.length := by ring
      _ ≤ fc.xs.length * fc.xs.length := Nat.mul_le_mul_right _ hy
  have hd : ∀ y x, x < fc.xs.length → (y * fc.xs.length + x) / fc.xs.length = y := by
    intro y x hx
    rw [Nat.mul_comm, Nat.mul_add_div (by omega), Nat.div_eq_of_lt hx, Nat.add_zero]
  have hm : ∀ y x, x < fc.xs.length → (y * fc.xs.length + x) % fc.xs.length = x := by
    intro y x hx
    rw [Nat.mul_comm, Nat.mul_add_mod, Nat.mod_eq_of_lt hx]
  have hbound : ∀ k, k < fc.points.length → k / fc.xs.length < fc.xs.length ∧ k % fc.xs.length < fc.xs.length := by
    intro k hk
    rw [hn] at hk
    have hp : 0 < fc.xs.length := by
      rcases Nat.eq_zero_or_pos fc.xs.length with h | h
      · rw [h] at hk; omega
      · exact h
    exact ⟨(Nat.div_lt_iff_lt_mul hp).2 hk, Nat.mod_lt _ hp⟩
  obtain ⟨out, h1, h2, h3⟩ := trainPoints_eq mini g truth.points fc.points hl (fun k => (k % fc.xs.length) * fc.xs.length + k / fc.xs.length) (by
    intro k hk
    have hk' : k < fc.points.length := by rw [hl]; exact hk
    obtain ⟨b1, b2⟩ := hbound k hk'
    have hσ := hlt _ _ b2 b1
    refine ⟨hσ, ?_⟩
    rw [points_xFirst truth ht k hk, points_yFirst fc hf _ hσ, hd _ _ b1, hm _ _ b1]
    refine ⟨by rw [hys, hs], by rw [hxs, hys, hs], ?_⟩
    intro j hj hne
    obtain ⟨c1, c2⟩ := hbound j hj
    rw [points_yFirst fc hf j hj]
    refine apart_of_axes fc.ys fc.xs hay hax (j / fc.xs.length) (j % fc.xs.length) (k % fc.xs.length) (k / fc.xs.length) (by rw [hs]; exact c1) c2
      (by rw [hs]; exact b2) b1 ?_ _ _ rfl rfl (by rw [hys, hs]) (by rw [hxs, hys, hs])
    rintro ⟨a, b⟩
    apply hne
    apply index_eq fc.xs.length
    · rw [hd _ _ b1]; exact a
    · rw [hm _ _ b1]; exact b)
  have hlen : out.length = fc.ys.length * fc.xs.length := by rw [h2, points_length, hys, hxs]
  refine ⟨⟨fc.xFirst, fc.ys, fc.xs, fun i j => out.getD (i * fc.xs.length + j) []⟩, ?_, ?_⟩
  · unfold trainGrid
    simp only [bind, Except.bind]
    rw [h1]
    dsimp only
    rw [if_neg (by rw [hlen]; simp), if_neg (fun h => h.2 hs)]
  · intro y x hy hx
    rw [hs] at hy
    have hk := hlt y x hy hx
    have e := h3 _ (by rw [← hl]; exact hk) hk (by rw [hd _ _ hx, hm _ _ hx]; exact hlt x y hx hy)
    simp only [points_yFirst fc hf, points_xFirst truth ht, hd _ _ hx, hm _ _ hx, hd _ _ hy, hm _ _ hy, hys, hs] at e
    conv_lhs => unfold fieldValueAt
    simp only [hf, Bool.false_eq_true, if_false]
    rw [List.getD_eq_getElem?_getD, e]
    rfl

/-- The hypotheses of `C286_grid` are met by a grid of two rows and three columns. -/
example (mini : List ℝ → ℕ → List (Option ℝ) → ℕ → List ℝ) (g : ℕ → List (Option ℝ) → List ℝ) :
    ∃ out, trainGrid mini g ⟨false, [0, 1], [5, 6, 7], fun i j => [some ((i : ℝ) + j)]⟩ ⟨false, [0, 1], [5, 6, 7], fun i j => (i + j, i * j)⟩ = .ok out ∧
      fieldValueAt out 1 2 = mini (g 3 [some ((1 : ℕ) + (2 : ℕ))]) 3 [some ((1 : ℕ) + (2 : ℕ))] 2 := by
  obtain ⟨out, h, -, -, -, hv⟩ := C286_grid mini g ⟨false, [0, 1], [5, 6, 7], fun i j => [some ((i : ℝ) + j)]⟩
    ⟨false, [0, 1], [5, 6, 7], fun i j => (i + j, i * j)⟩ rfl rfl rfl (by simp)
    (by intro i j hi hj hne
        have h1 : i = 0 ∨ i = 1 := by simp at hi; omega
        have h2 : j = 0 ∨ j = 1 := by simp at hj; omega
        unfold apartValues
        rcases h1 with rfl | rfl <;> rcases h2 with rfl | rfl <;> first | exact absurd rfl hne | norm_num)
    (by intro i j hi hj hne
        have h1 : i = 0 ∨ i = 1 ∨ i = 2 := by simp at hi; omega
        have h2 : j = 0 ∨ j = 1 ∨ j = 2 := by simp at hj; omega
        unfold apartValues
        rcases h1 with rfl | rfl | rfl <;> rcases h2 with rfl | rfl | rfl <;> first | exact absurd rfl hne | norm_num)
  refine ⟨out, h, ?_⟩
  rw [hv 1 2 (by simp) (by simp)]
  unfold ownCoefficients fieldValueAt
  simp

end Improver
