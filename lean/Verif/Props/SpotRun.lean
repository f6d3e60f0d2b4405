import Verif.Model.SpotRun
import Verif.Props.Spot
import Verif.Props.Interp
import Verif.Props.ProbPerc
import Verif.Props.NbhoodPerc
import Verif.Lemmas.ListAux

/-! Properties of `SpotManipulation` (the command `spot-extract`). -/

namespace Improver

/-! ### The run in steps -/

theorem spotRun_iff (o : SpotOpts) (nb : NeighbourCube) (ids : String → Option (List String)) (name : String) (kind : SpotKind) (rz : RealDim)
    (src : SpotSource) (extra : List LapseGrid) (out : SpotField) (ws : List SpotWarning) :
    spotManipulation o nb ids name kind rz src extra = .ok (out, ws) ↔
      ∃ sites f p r, spotValues o nb ids src = .ok sites ∧ spotCollapse o.collapse ⟨name, kind, rz, sites⟩ = .ok f ∧ spotAsk o f = .ok p ∧
        spotAdjust o nb src extra p.1 = .ok r ∧ out = r.1 ∧ ws = p.2 ++ r.2 := by
  unfold spotManipulation
  simp only [bind, Except.bind]
  cases h1 : spotValues o nb ids src with
  | error e => simp
  | ok sites =>
    simp only []
    cases h2 : spotCollapse o.collapse ⟨name, kind, rz, sites⟩ with
    | error e => simp [h2]
    | ok f =>
      simp only []
      cases h3 : spotAsk o f with
      | error e =>
        simp only [reduceCtorEq, false_iff]
        rintro ⟨s, f', p, r, hs, hf, hp, -⟩
        injection hs with hs
        subst hs
        rw [h2] at hf
        injection hf with hf
        subst hf
        rw [h3] at hp
        exact nomatch hp
      | ok p =>
        simp only []
        cases h4 : spotAdjust o nb src extra p.1 with
        | error e =>
          simp only [reduceCtorEq, false_iff]
          rintro ⟨s, f', p', r, hs, hf, hp, hr, -⟩
          injection hs with hs
          subst hs
          rw [h2] at hf
          injection hf with hf
          subst hf
          rw [h3] at hp
          injection hp with hp
          subst hp
          rw [h4] at hr
          exact nomatch hr
        | ok r =>
          simp only [Except.ok.injEq, Prod.mk.injEq]
          constructor
          · rintro ⟨rfl, rfl⟩
            exact ⟨sites, f, p, r, rfl, h2, h3, h4, rfl, rfl⟩
          · rintro ⟨s, f', p', r', hs, hf, hp, hr, h5, h6⟩
            subst hs
            rw [h2] at hf
            injection hf with hf
            subst hf
            rw [h3] at hp
            injection hp with hp
            subst hp
            rw [h4] at hr
            injection hr with hr
            subst hr
            exact ⟨h5.symm, h6.symm⟩

/-- What the collapse does to a site. -/
def collapseSite (collapse : Bool) (s : List (List ℚ)) : List (List ℚ) := if collapse then [meanOfMembers s] else s

/-- The realization coordinate after the collapse. -/
def rzAfter (collapse : Bool) (rz : RealDim) : RealDim := if collapse then .absent else rz

theorem spotCollapse_ok {collapse : Bool} {g f : SpotField} (h : spotCollapse collapse g = .ok f) :
    f = ⟨g.name, g.kind, rzAfter collapse g.realization, g.sites.map (collapseSite collapse)⟩ ∧
    (collapse = true → g.realization ≠ .absent) := by
  unfold spotCollapse at h
  cases collapse with
  | false =>
    simp only [Bool.not_false, if_true, Except.ok.injEq] at h
    subst h
    refine ⟨?_, by simp⟩
    have : g.sites.map (collapseSite false) = g.sites := by
      have : (collapseSite false) = id := by funext s; rfl
      rw [this, List.map_id]
    rw [this]
    rfl
  | true =>
    simp only [Bool.not_true, Bool.false_eq_true, if_false] at h
    cases hr : g.realization with
    | absent => rw [hr] at h; exact nomatch h
    | scalar =>
      rw [hr] at h
      injection h with h
      subst h
      exact ⟨rfl, by simp⟩
    | dim =>
      rw [hr] at h
      injection h with h
      subst h
      exact ⟨rfl, by simp⟩

/-- What the extraction of percentiles does to a site. -/
def askSite (o : SpotOpts) (kind : SpotKind) (rz : RealDim) (s : List (List ℚ)) : Except Err (List (List ℚ)) :=
  match o.percentiles with
  | .many ps => if ps = [] then .ok s else
    match kind with
    | .percentiles points => sitePercentiles o.table points ps s
    | .probabilities (some a) ts => siteFromProbs o a ts ps s
    | .probabilities none _ => .error .notImplemented
    | .plain => if rz = .dim then .ok (siteFromMembers ps s) else .ok s
  | _ => .ok s

/-- What the values are afterwards. -/
def askKind (o : SpotOpts) (kind : SpotKind) (rz : RealDim) : SpotKind :=
  match o.percentiles with
  | .many ps => if ps = [] then kind else
    match kind with
    | .percentiles points => .percentiles (if ps.all (fun p => points.contains p) then
        (keptPercentiles points ps).map (fun i => points.getD i 0) else ps)
    | .probabilities _ _ => .percentiles ps
    | .plain => if rz = .dim then .percentiles ps else .plain
  | _ => kind

/-- The warning about deterministic data. -/
def askWarns (o : SpotOpts) (kind : SpotKind) (rz : RealDim) : List SpotWarning :=
  match o.percentiles with
  | .many ps => if ps ≠ [] ∧ kind = .plain ∧ rz ≠ .dim ∧ o.suppress = false then [.notProbabilistic] else []
  | _ => []

theorem mapM_pure_id {α : Type} (l : List α) : l.mapM (fun a => (Except.ok a : Except Err α)) = .ok l := by
  induction l with
  | nil => rfl
  | cons a l ih => rw [List.mapM_cons, ih]; rfl

theorem spotAsk_ok {o : SpotOpts} {f : SpotField} {p : SpotField × List SpotWarning} (h : spotAsk o f = .ok p) :
    f.sites.mapM (askSite o f.kind f.realization) = .ok p.1.sites ∧ p.1.kind = askKind o f.kind f.realization ∧
      p.2 = askWarns o f.kind f.realization ∧ p.1.name = f.name := by
  unfold spotAsk at h
  cases hp : o.percentiles with
  | nothing =>
    rw [hp] at h
    injection h with h
    subst h
    have e : askSite o f.kind f.realization = fun s => .ok s := by funext s; simp [askSite, hp]
    rw [e, mapM_pure_id]
    exact ⟨rfl, by simp [askKind, hp], by simp [askWarns, hp], rfl⟩
  | one q =>
    rw [hp] at h
    dsimp only at h
    by_cases hq : q = 0
    · rw [if_pos hq] at h
      injection h with h
      subst h
      have e : askSite o f.kind f.realization = fun s => .ok s := by funext s; simp [askSite, hp]
      rw [e, mapM_pure_id]
      exact ⟨rfl, by simp [askKind, hp], by simp [askWarns, hp], rfl⟩
    · rw [if_neg hq] at h; exact nomatch h
  | many ps =>
    rw [hp] at h
    dsimp only at h
    by_cases hps : ps = []
    · rw [if_pos hps] at h
      injection h with h
      subst h
      have e : askSite o f.kind f.realization = fun s => .ok s := by funext s; simp [askSite, hp, hps]
      rw [e, mapM_pure_id]
      exact ⟨rfl, by simp [askKind, hp, hps], by simp [askWarns, hp, hps], rfl⟩
    · rw [if_neg hps] at h
      unfold spotPercentiles at h
      cases hk : f.kind with
      | percentiles points =>
        rw [hk] at h
        simp only [bind, Except.bind] at h
        have e : askSite o (.percentiles points) f.realization = sitePercentiles o.table points ps := by
          funext s; simp [askSite, hp, hps]
        rw [e]
        cases hs : f.sites.mapM (sitePercentiles o.table points ps) with
        | error e => rw [hs] at h; exact nomatch h
        | ok sites =>
          rw [hs] at h
          simp only [Except.ok.injEq] at h
          subst h
          exact ⟨rfl, by simp [askKind, hp, hps], by simp [askWarns, hp], rfl⟩
      | probabilities above ts =>
        rw [hk] at h
        simp only [] at h
        cases above with
        | none => exact nomatch h
        | some a =>
          simp only [bind, Except.bind] at h
          have e : askSite o (.probabilities (some a) ts) f.realization = siteFromProbs o a ts ps := by
            funext s; simp [askSite, hp, hps]
          rw [e]
          cases hs : f.sites.mapM (siteFromProbs o a ts ps) with
          | error e => rw [hs] at h; exact nomatch h
          | ok sites =>
            rw [hs] at h
            simp only [Except.ok.injEq] at h
            subst h
            exact ⟨rfl, by simp [askKind, hp, hps], by simp [askWarns, hp], rfl⟩
      | plain =>
        rw [hk] at h
        simp only [] at h
        cases hr : f.realization with
        | dim =>
          rw [hr] at h
          simp only [Except.ok.injEq] at h
          subst h
          have e : askSite o .plain .dim = fun s => .ok (siteFromMembers ps s) := by
            funext s; simp [askSite, hp, hps]
          rw [e, mapM_ok_of_forall _ (siteFromMembers ps) _ (fun _ _ => rfl)]
          exact ⟨rfl, by simp [askKind, hp, hps], by simp [askWarns, hp], rfl⟩
        | absent =>
          rw [hr] at h
          simp only [Except.ok.injEq] at h
          subst h
          have e : askSite o .plain .absent = fun s => .ok s := by funext s; simp [askSite, hp]
          rw [e, mapM_pure_id]
          exact ⟨rfl, by simp [askKind, hp, hk], by cases hsu : o.suppress <;> simp [askWarns, hp, hps, hsu], rfl⟩
        | scalar =>
          rw [hr] at h
          simp only [Except.ok.injEq] at h
          subst h
          have e : askSite o .plain .scalar = fun s => .ok s := by funext s; simp [askSite, hp]
          rw [e, mapM_pure_id]
          exact ⟨rfl, by simp [askKind, hp, hk], by cases hsu : o.suppress <;> simp [askWarns, hp, hps, hsu], rfl⟩

/-- The lapse rate used at a site with neighbour `c`: from the cube if there is exactly one, otherwise the fixed one; `none`: no adjustment. -/
def Spec.rateAt (o : SpotOpts) (extra : List LapseGrid) (c : NbOut) : Option ℚ :=
  if o.applyLapse = false then none
  else match extra with
    | [l] => some (l.rate c.yIndex c.xIndex)
    | _ => o.fixed

/-- All values of a site moved by the same amount. -/
def Spec.moved (d : ℚ) (s : List (List ℚ)) : List (List ℚ) := s.map (fun row => row.map (fun t => t + d))

/-- The adjustment of a site. -/
def Spec.adjusted (o : SpotOpts) (extra : List LapseGrid) (c : NbOut) (s : List (List ℚ)) : List (List ℚ) :=
  match Spec.rateAt o extra c with
  | none => s
  | some rate => Spec.moved (lapseAdjust rate c.displacement) s

theorem spotLapse_ok {method : String} {nb : NeighbourCube} {grid : AxisId × AxisId} {lapse : Option LapseGrid} {fixed : Option ℚ} {f r : SpotField}
    (h : spotLapse method nb grid lapse fixed f = .ok r) :
    ∃ cols, extractCoordinates nb method = .ok cols ∧ f.sites.length = cols.length ∧ r.kind = f.kind ∧ r.name = f.name ∧
      f.kind.isProbability = false ∧ (f.name = "air_temperature" ∨ f.name = "feels_like_temperature") ∧
      ((∃ v, fixed = some v ∧ r.sites = List.zipWith (fun s (c : NbOut) => adjustSite v c.displacement s) f.sites cols) ∨
       (∃ l, fixed = none ∧ lapse = some l ∧ r.sites =
          List.zipWith (fun s (c : NbOut) => adjustSite (l.rate c.yIndex c.xIndex) c.displacement s) f.sites cols)) := by
  unfold spotLapse at h
  simp only [bind, Except.bind] at h
  cases hc : spotLapseCheck ⟨f.kind.isProbability, ["air_temperature", "feels_like_temperature"].contains f.name,
    lapse.map (fun l => (l.named, l.hasHeight, l.sameHeight)), fixed,
    decide (checkGridMatch (lapseGrids nb grid lapse) = .ok ())⟩ with
  | error e => rw [hc] at h; exact nomatch h
  | ok u =>
    rw [hc] at h
    have hprob : f.kind.isProbability = false := by
      cases hp : f.kind.isProbability with
      | false => rfl
      | true => rw [hp] at hc; simp [spotLapseCheck] at hc
    have hname : f.name = "air_temperature" ∨ f.name = "feels_like_temperature" := by
      cases hp : ["air_temperature", "feels_like_temperature"].contains f.name with
      | true => simpa using hp
      | false => rw [hp, hprob] at hc; simp [spotLapseCheck] at hc
    simp only [] at h
    cases hx : extractCoordinates nb method with
    | error e => rw [hx] at h; exact nomatch h
    | ok cols =>
      rw [hx] at h
      simp only [] at h
      refine ⟨cols, rfl, ?_⟩
      have hzip : ∀ (rates : List ℚ) (g : NbOut → ℚ), rates = cols.map g →
          List.zipWith (fun s (c : ℚ × ℚ) => adjustSite c.1 c.2 s) f.sites (rates.zip (cols.map NbOut.displacement)) =
          List.zipWith (fun s (c : NbOut) => adjustSite (g c) c.displacement s) f.sites cols := by
        rintro rates g rfl
        rw [List.zip_map', List.zipWith_map_right]
      cases fixed with
      | some v =>
        simp only [] at h
        by_cases hl : f.sites.length ≠ cols.length
        · rw [if_pos hl] at h; exact nomatch h
        · rw [if_neg hl] at h
          simp only [Except.ok.injEq] at h
          subst h
          exact ⟨not_not.1 hl, rfl, rfl, hprob, hname, Or.inl ⟨v, rfl, hzip _ (fun _ => v) rfl⟩⟩
      | none =>
        cases lapse with
        | none => exact nomatch h
        | some l =>
          simp only [] at h
          cases hr : spotExtract nb method l.grid l.ny l.nx l.rate with
          | error e => rw [hr] at h; exact nomatch h
          | ok rates =>
            rw [hr] at h
            simp only [] at h
            by_cases hl : f.sites.length ≠ cols.length
            · rw [if_pos hl] at h; exact nomatch h
            · rw [if_neg hl] at h
              simp only [Except.ok.injEq] at h
              subst h
              obtain ⟨-, cols', hx', -, hrates⟩ := (C84_value nb method l.grid l.ny l.nx l.rate rates).1 hr
              rw [hx] at hx'
              injection hx' with hx'
              subst hx'
              exact ⟨not_not.1 hl, rfl, rfl, hprob, hname, Or.inr ⟨l, rfl, rfl, hzip _ (fun c => l.rate c.yIndex c.xIndex) hrates⟩⟩

/-- The warning about a missing lapse rate. -/
def lapseWarns (o : SpotOpts) (extra : List LapseGrid) : List SpotWarning :=
  if o.applyLapse = true ∧ extra.length ≠ 1 ∧ o.fixed = none ∧ o.suppress = false then [.noLapseRate] else []

theorem spotAdjust_ok {o : SpotOpts} {nb : NeighbourCube} {src : SpotSource} {extra : List LapseGrid} {f : SpotField} {r : SpotField × List SpotWarning}
    {cols : List NbOut} (hc : extractCoordinates nb (methodName o.land o.similarAltitude) = .ok cols)
    (hlen : f.sites.length = cols.length) (h : spotAdjust o nb src extra f = .ok r) :
    r.1.kind = f.kind ∧ r.1.name = f.name ∧ r.2 = lapseWarns o extra ∧
      r.1.sites = List.zipWith (fun s c => Spec.adjusted o extra c s) f.sites cols := by
  have hid : ∀ (l : List (List (List ℚ))) (cs : List NbOut), l.length = cs.length → l = List.zipWith (fun s (_ : NbOut) => s) l cs := by
    intro l
    induction l with
    | nil => intro cs _; rfl
    | cons a l ih =>
      intro cs hcs
      cases cs with
      | nil => simp at hcs
      | cons c cs => rw [List.zipWith_cons_cons, ← ih cs (by simpa using hcs)]
  unfold spotAdjust at h
  by_cases hl : o.applyLapse = true
  · rw [if_neg (by simp [hl])] at h
    have key : ∀ (lapse : Option LapseGrid) (fixed : Option ℚ) (g : AxisId × AxisId) (q : SpotField),
        spotLapse (methodName o.land o.similarAltitude) nb g lapse fixed f = .ok q →
        (∀ v, fixed = some v → ∀ c, Spec.rateAt o extra c = some v) →
        (∀ l, fixed = none → lapse = some l → ∀ c : NbOut, Spec.rateAt o extra c = some (l.rate c.yIndex c.xIndex)) →
        q.kind = f.kind ∧ q.name = f.name ∧ q.sites = List.zipWith (fun s c => Spec.adjusted o extra c s) f.sites cols := by
      intro lapse fixed g q hq h1 h2
      obtain ⟨cols', hc', -, hk, hn, -, -, hs⟩ := spotLapse_ok hq
      rw [hc] at hc'
      injection hc' with hc'
      subst hc'
      refine ⟨hk, hn, ?_⟩
      rcases hs with ⟨v, hv, hs⟩ | ⟨l, hv, hl', hs⟩
      · rw [hs]
        congr 1
        funext s c
        unfold Spec.adjusted
        rw [h1 v hv c]
        rfl
      · rw [hs]
        congr 1
        funext s c
        unfold Spec.adjusted
        rw [h2 l hv hl' c]
        rfl
    have noRate : o.fixed = none → extra.length ≠ 1 → ∀ c, Spec.rateAt o extra c = none := by
      intro hf he c
      unfold Spec.rateAt
      rw [if_neg (by simp [hl])]
      rcases extra with _ | ⟨l, _ | ⟨l', t⟩⟩
      · exact hf
      · simp at he
      · exact hf
    have wide : ∀ v, o.fixed = some v → extra.length ≠ 1 → ∀ c, Spec.rateAt o extra c = some v := by
      intro v hf he c
      unfold Spec.rateAt
      rw [if_neg (by simp [hl])]
      rcases extra with _ | ⟨l, _ | ⟨l', t⟩⟩
      · exact hf
      · simp at he
      · exact hf
    by_cases he : extra.length = 1
    · obtain ⟨l, rfl⟩ := List.length_eq_one_iff.1 he
      dsimp only at h
      cases hq : spotLapse (methodName o.land o.similarAltitude) nb (src.gridOf nb) (some l) none f with
      | error e => rw [hq] at h; exact nomatch h
      | ok q =>
        rw [hq] at h
        simp only [Except.map, Except.ok.injEq] at h
        subst h
        obtain ⟨a, b, c⟩ := key (some l) none _ q hq (fun v hv => nomatch hv) (fun l' _ hl' c => by
          injection hl' with hl'
          subst hl'
          unfold Spec.rateAt
          rw [if_neg (by simp [hl])])
        exact ⟨a, b, by simp [lapseWarns], c⟩
    · cases hf : o.fixed with
      | some v =>
        rw [hf] at h
        have h' : (spotLapse (methodName o.land o.similarAltitude) nb (src.gridOf nb) none (some v) f).map
            (fun r => (r, ([] : List SpotWarning))) = .ok r := by
          rcases extra with _ | ⟨l, _ | ⟨l', t⟩⟩
          · exact h
          · simp at he
          · exact h
        cases hq : spotLapse (methodName o.land o.similarAltitude) nb (src.gridOf nb) none (some v) f with
        | error e => rw [hq] at h'; exact nomatch h'
        | ok q =>
          rw [hq] at h'
          simp only [Except.map, Except.ok.injEq] at h'
          subst h'
          obtain ⟨a, b, c⟩ := key none (some v) _ q hq (fun w hw c => by injection hw with hw; subst hw; exact wide v hf he c)
            (fun l' hn => nomatch hn)
          exact ⟨a, b, by simp [lapseWarns, hf], c⟩
      | none =>
        rw [hf] at h
        have h' : (Except.ok (f, if o.suppress then [] else [SpotWarning.noLapseRate]) : Except Err _) = .ok r := by
          rcases extra with _ | ⟨l, _ | ⟨l', t⟩⟩
          · exact h
          · simp at he
          · exact h
        injection h' with h'
        subst h'
        refine ⟨rfl, rfl, ?_, ?_⟩
        · cases hsu : o.suppress <;> simp [lapseWarns, hl, he, hf, hsu]
        · have : (fun (s : List (List ℚ)) c => Spec.adjusted o extra c s) = fun s (_ : NbOut) => s := by
            funext s c
            unfold Spec.adjusted
            rw [noRate hf he c]
          rw [this]
          exact hid _ _ hlen
  · rw [if_pos (by simpa using hl)] at h
    injection h with h
    subst h
    have hl' : o.applyLapse = false := by simpa using hl
    refine ⟨rfl, rfl, by simp [lapseWarns, hl'], ?_⟩
    have : (fun (s : List (List ℚ)) c => Spec.adjusted o extra c s) = fun s (_ : NbOut) => s := by
      funext s c
      unfold Spec.adjusted Spec.rateAt
      rw [if_pos hl']
    rw [this]
    exact hid _ _ hlen

/-- A run on gridded data, site by site. -/
theorem gridRun_ok {o : SpotOpts} {nb : NeighbourCube} {ids : String → Option (List String)} {name : String} {kind : SpotKind} {rz : RealDim}
    {g : AxisId × AxisId} {ny nx : ℕ} {data : ℕ → ℕ → List (List ℚ)} {extra : List LapseGrid} {out : SpotField} {ws : List SpotWarning}
    (h : spotManipulation o nb ids name kind rz (.grid g ny nx data) extra = .ok (out, ws)) :
    ∃ cols, extractCoordinates nb (methodName o.land o.similarAltitude) = .ok cols ∧ nb.grid = g ∧
      (∀ c ∈ cols, c.yIndex < ny ∧ c.xIndex < nx) ∧ out.name = name ∧ out.kind = askKind o kind (rzAfter o.collapse rz) ∧
      ws = askWarns o kind (rzAfter o.collapse rz) ++ lapseWarns o extra ∧
      (o.collapse = true → rz ≠ .absent) ∧
      List.Forall₂ (fun c v => ∃ s, askSite o kind (rzAfter o.collapse rz) (collapseSite o.collapse (data c.yIndex c.xIndex)) = .ok s ∧
        v = Spec.adjusted o extra c s) cols out.sites := by
  obtain ⟨sites, f, p, r, h1, h2, h3, h4, rfl, rfl⟩ := (spotRun_iff ..).1 h
  obtain ⟨hg, cols, hc, hin, rfl⟩ := (C84_value nb _ g ny nx data sites).1 h1
  obtain ⟨rfl, hrz⟩ := spotCollapse_ok h2
  obtain ⟨ha, hk, hw, hn⟩ := spotAsk_ok h3
  simp only [] at ha hk hw hn hrz
  have hF := mapM_ok_forall _ _ _ ha
  have hlen : p.1.sites.length = cols.length := by rw [← hF.length_eq]; simp
  obtain ⟨hk2, hn2, hw2, hs2⟩ := spotAdjust_ok hc hlen h4
  refine ⟨cols, hc, hg, hin, hn2.trans hn, hk2.trans hk, by rw [hw, hw2], hrz, ?_⟩
  rw [hs2, List.forall₂_iff_get]
  refine ⟨by simp [hlen], ?_⟩
  intro i hi hi'
  have hi1 : i < p.1.sites.length := by omega
  rw [List.forall₂_iff_get] at hF
  have := hF.2 i (by simpa using hi) hi1
  refine ⟨p.1.sites[i], by simpa using this, by simp⟩

/-! ### C225 -/

/-- The options all off. -/
def Spec.noOpts : SpotOpts := ⟨false, none, false, false, .nothing, false, false, false, false, none, none⟩

/-- A grid of two rows and three columns. -/
def Spec.someGrid : AxisId × AxisId := (⟨[0, 1], "y", "s", "m"⟩, ⟨[0, 1, 2], "x", "s", "m"⟩)

/-- Two sites. -/
def Spec.someNbs : NeighbourCube := ⟨Spec.someGrid, [("nearest", [⟨2, 0, 10, 100⟩, ⟨1, 1, -20, 50⟩])]⟩

/-- A lapse rate cube on that grid. -/
def Spec.someLapse : LapseGrid := ⟨true, true, true, Spec.someGrid, 2, 3, fun j i => (j : ℚ) - i⟩

/-- **C225.** The result at a site depends only on the forecast at its neighbour: two runs whose forecasts agree there agree at the site. -/
theorem C225_local {o : SpotOpts} {nb : NeighbourCube} {ids : String → Option (List String)} {name : String} {kind : SpotKind} {rz : RealDim}
    {g : AxisId × AxisId} {ny nx : ℕ} {data data' : ℕ → ℕ → List (List ℚ)} {extra : List LapseGrid} {out out' : SpotField} {ws ws' : List SpotWarning}
    (h : spotManipulation o nb ids name kind rz (.grid g ny nx data) extra = .ok (out, ws))
    (h' : spotManipulation o nb ids name kind rz (.grid g ny nx data') extra = .ok (out', ws'))
    {cols : List NbOut} (hc : extractCoordinates nb (methodName o.land o.similarAltitude) = .ok cols) (i : ℕ) (hi : i < cols.length)
    (hd : data cols[i].yIndex cols[i].xIndex = data' cols[i].yIndex cols[i].xIndex) :
    out.sites.length = cols.length ∧ out'.sites.length = cols.length ∧ out.sites[i]? = out'.sites[i]? ∧
      out.kind = out'.kind ∧ ws = ws' := by
  obtain ⟨c1, e1, -, -, -, k1, w1, -, f1⟩ := gridRun_ok h
  obtain ⟨c2, e2, -, -, -, k2, w2, -, f2⟩ := gridRun_ok h'
  rw [hc] at e1 e2
  injection e1 with e1
  injection e2 with e2
  subst e1
  subst e2
  rw [List.forall₂_iff_get] at f1 f2
  refine ⟨f1.1.symm, f2.1.symm, ?_, k1.trans k2.symm, w1.trans w2.symm⟩
  obtain ⟨s1, a1, b1⟩ := f1.2 i hi (by have := f1.1; omega)
  obtain ⟨s2, a2, b2⟩ := f2.2 i hi (by have := f2.1; omega)
  simp only [List.get_eq_getElem] at a1 a2 b1 b2
  rw [hd, a2] at a1
  injection a1 with a1
  subst a1
  rw [List.getElem?_eq_getElem (by have := f1.1; omega), List.getElem?_eq_getElem (by have := f2.1; omega), b1, b2]

/-- **C225.** Without further options the result is the forecast at the neighbours, without warnings, and the run succeeds exactly if the
neighbour cube was made on this grid with the chosen method and its indices are inside the grid. -/
theorem C225_plain (o : SpotOpts) (nb : NeighbourCube) (ids : String → Option (List String)) (name : String) (kind : SpotKind) (rz : RealDim)
    (g : AxisId × AxisId) (ny nx : ℕ) (data : ℕ → ℕ → List (List ℚ)) (extra : List LapseGrid) (out : SpotField) (ws : List SpotWarning)
    (hcol : o.collapse = false) (hp : o.percentiles = .nothing) (hl : o.applyLapse = false) :
    spotManipulation o nb ids name kind rz (.grid g ny nx data) extra = .ok (out, ws) ↔
      nb.grid = g ∧ ws = [] ∧ ∃ cols, extractCoordinates nb (methodName o.land o.similarAltitude) = .ok cols ∧
        (∀ c ∈ cols, c.yIndex < ny ∧ c.xIndex < nx) ∧ out = ⟨name, kind, rz, cols.map (fun c => data c.yIndex c.xIndex)⟩ := by
  rw [spotRun_iff]
  have e1 : ∀ f, spotCollapse o.collapse f = .ok f := by intro f; rw [hcol]; rfl
  have e2 : ∀ f, spotAsk o f = .ok (f, []) := by intro f; unfold spotAsk; rw [hp]
  have e3 : ∀ s f, spotAdjust o nb s extra f = .ok (f, []) := by intro s f; unfold spotAdjust; rw [hl]; rfl
  constructor
  · rintro ⟨sites, f, p, r, h1, h2, h3, h4, rfl, rfl⟩
    rw [e1] at h2
    injection h2 with h2
    subst h2
    rw [e2] at h3
    injection h3 with h3
    subst h3
    rw [e3] at h4
    injection h4 with h4
    subst h4
    obtain ⟨a, cols, b, c, rfl⟩ := (C84_value nb _ g ny nx data sites).1 h1
    exact ⟨a, rfl, cols, b, c, rfl⟩
  · rintro ⟨a, rfl, cols, b, c, rfl⟩
    exact ⟨_, _, _, _, (C84_value nb _ g ny nx data _).2 ⟨a, cols, b, c, rfl⟩, e1 _, e2 _, e3 _ _, rfl, rfl⟩

/-- **C225.** With lapse rates all values of a site are moved by the adjustment for its displacement: by the lapse rate at the neighbour if exactly one
cube of lapse rates is given, otherwise by the fixed one; without either nothing moves.  The same run without the option also succeeds. -/
theorem C225_lapse {o : SpotOpts} {nb : NeighbourCube} {ids : String → Option (List String)} {name : String} {kind : SpotKind} {rz : RealDim}
    {g : AxisId × AxisId} {ny nx : ℕ} {data : ℕ → ℕ → List (List ℚ)} {extra : List LapseGrid} {out : SpotField} {ws : List SpotWarning}
    (hl : o.applyLapse = true) (h : spotManipulation o nb ids name kind rz (.grid g ny nx data) extra = .ok (out, ws)) :
    ∃ out0 ws0 cols, spotManipulation { o with applyLapse := false } nb ids name kind rz (.grid g ny nx data) extra = .ok (out0, ws0) ∧
      extractCoordinates nb (methodName o.land o.similarAltitude) = .ok cols ∧ out.kind = out0.kind ∧ out.sites.length = cols.length ∧
      out0.sites.length = cols.length ∧
      ∀ i (hi : i < cols.length), out.sites[i]? = out0.sites[i]?.map (Spec.moved
        (match extra, o.fixed with
          | [l], _ => lapseAdjust (l.rate cols[i].yIndex cols[i].xIndex) cols[i].displacement
          | _, some v => lapseAdjust v cols[i].displacement
          | _, none => 0)) := by
  obtain ⟨cols, hc, hg, hin, -, hk, -, hrz, hF⟩ := gridRun_ok h
  obtain ⟨sites, f, p, r, h1, h2, h3, h4, rfl, rfl⟩ := (spotRun_iff ..).1 h
  have h0 : spotManipulation { o with applyLapse := false } nb ids name kind rz (.grid g ny nx data) extra = .ok (p.1, p.2 ++ []) :=
    (spotRun_iff ..).2 ⟨sites, f, p, (p.1, []), h1, h2, h3, rfl, rfl, rfl⟩
  obtain ⟨cols0, hc0, -, -, -, hk0, -, -, hF0⟩ := gridRun_ok h0
  have : extractCoordinates nb (methodName o.land o.similarAltitude) = .ok cols0 := hc0
  rw [hc] at this
  injection this with this
  subst this
  refine ⟨p.1, _, cols, h0, hc, ?_, hF.length_eq.symm, hF0.length_eq.symm, ?_⟩
  · rw [hk, hk0]; rfl
  · intro i hi
    rw [List.forall₂_iff_get] at hF hF0
    obtain ⟨s1, a1, b1⟩ := hF.2 i hi (by have := hF.1; omega)
    obtain ⟨s2, a2, b2⟩ := hF0.2 i hi (by have := hF0.1; omega)
    simp only [List.get_eq_getElem] at a1 a2 b1 b2
    have a2' : askSite o kind (rzAfter o.collapse rz) (collapseSite o.collapse (data cols[i].yIndex cols[i].xIndex)) = .ok s2 := a2
    rw [a1] at a2'
    injection a2' with a2'
    subst a2'
    have b2' : p.1.sites[i]'(by have := hF0.1; omega) = s1 := b2
    rw [List.getElem?_eq_getElem (by have := hF.1; omega), List.getElem?_eq_getElem (by have := hF0.1; omega), b1, b2', Option.map_some]
    congr 1
    unfold Spec.adjusted Spec.rateAt
    rw [if_neg (by simp [hl])]
    have hz : ∀ t : List (List ℚ), t = Spec.moved 0 t := by
      intro t
      simp [Spec.moved]
    rcases extra with _ | ⟨l, _ | ⟨l', t⟩⟩
    · cases o.fixed with
      | none => exact hz _
      | some v => rfl
    · rfl
    · cases o.fixed with
      | none => exact hz _
      | some v => rfl

/-- **C225.** With the collapse of realizations (and no percentiles and lapse rates) a site has one row: of each value the mean over the members at its
neighbour; the realizations are gone.  Without realizations it is refused. -/
theorem C225_collapse (o : SpotOpts) (nb : NeighbourCube) (ids : String → Option (List String)) (name : String) (kind : SpotKind) (rz : RealDim)
    (g : AxisId × AxisId) (ny nx : ℕ) (data : ℕ → ℕ → List (List ℚ)) (extra : List LapseGrid) (hcol : o.collapse = true)
    (hp : o.percentiles = .nothing) (hl : o.applyLapse = false) (n k : ℕ) (hn : 0 < n)
    (hd : ∀ j i, (data j i).length = n ∧ ∀ m ∈ data j i, m.length = k) :
    (∀ out ws, spotManipulation o nb ids name kind rz (.grid g ny nx data) extra = .ok (out, ws) →
      rz ≠ .absent ∧ ws = [] ∧ out.name = name ∧ out.kind = kind ∧ out.realization = .absent ∧
      ∃ cols, extractCoordinates nb (methodName o.land o.similarAltitude) = .ok cols ∧
        List.Forall₂ (fun (c : NbOut) v => ∃ row : List ℚ, v = [row] ∧ row.length = k ∧
          ∀ j < k, n * row.getD j 0 = ((data c.yIndex c.xIndex).map fun m => m.getD j 0).sum) cols out.sites) ∧
    (rz = .absent → ∀ r, spotManipulation o nb ids name kind rz (.grid g ny nx data) extra ≠ .ok r) := by
  constructor
  · intro out ws h
    obtain ⟨sites, f, p, r, h1, h2, h3, h4, rfl, rfl⟩ := (spotRun_iff ..).1 h
    obtain ⟨hg, cols, hc, hin, rfl⟩ := (C84_value nb _ g ny nx data sites).1 h1
    obtain ⟨rfl, hrz⟩ := spotCollapse_ok h2
    unfold spotAsk at h3
    rw [hp] at h3
    have := Except.ok.inj h3
    subst this
    unfold spotAdjust at h4
    rw [hl] at h4
    have := Except.ok.inj h4
    subst this
    refine ⟨hrz hcol, rfl, rfl, rfl, by simp [rzAfter, hcol], cols, hc, ?_⟩
    dsimp only
    rw [List.map_map, List.forall₂_map_right_iff, List.forall₂_same]
    intro c _
    obtain ⟨hlen, hm⟩ := hd c.yIndex c.xIndex
    have hhead : ((data c.yIndex c.xIndex).headD []).length = k := by
      cases hdd : data c.yIndex c.xIndex with
      | nil => rw [hdd] at hlen; simp at hlen; omega
      | cons m ms => exact hm m (by rw [hdd]; simp)
    refine ⟨meanOfMembers (data c.yIndex c.xIndex), by simp [collapseSite, hcol], ?_, ?_⟩
    · unfold meanOfMembers
      rw [List.length_map, List.length_range, hhead]
    · intro j hj
      unfold meanOfMembers
      rw [List.getD_eq_getElem _ _ (by rw [List.length_map, List.length_range, hhead]; exact hj), List.getElem_map, List.getElem_range, hlen]
      have : (n : ℚ) ≠ 0 := by exact_mod_cast hn.ne'
      field_simp
  · rintro hr ⟨out, ws⟩ h
    obtain ⟨sites, f, p, r, h1, h2, -⟩ := (spotRun_iff ..).1 h
    exact (spotCollapse_ok h2).2 hcol hr

example : (spotManipulation { Spec.noOpts with collapse := true } Spec.someNbs (fun _ => none) "air_temperature" .plain .dim
      (.grid Spec.someGrid 2 3 (fun j i => [[280 + j, 1], [282 + (i : ℚ), 2]])) []).toOption.map (fun r => r.1.sites) =
    some [[[282, 3 / 2]], [[282, 3 / 2]]] := by decide +kernel

/-! ### C226 -/

/-- The result at site `i` is `q` of the forecast at its neighbour. -/
def Spec.siteGets (nb : NeighbourCube) (o : SpotOpts) (data : ℕ → ℕ → List (List ℚ)) (out : SpotField)
    (q : List (List ℚ) → List (List ℚ) → Prop) : Prop :=
  ∃ cols, extractCoordinates nb (methodName o.land o.similarAltitude) = .ok cols ∧
    List.Forall₂ (fun (c : NbOut) v => q (data c.yIndex c.xIndex) v) cols out.sites

/-- The run with percentiles and without collapse and lapse rates, site by site. -/
theorem askRun {o : SpotOpts} {nb : NeighbourCube} {ids : String → Option (List String)} {name : String} {kind : SpotKind} {rz : RealDim}
    {g : AxisId × AxisId} {ny nx : ℕ} {data : ℕ → ℕ → List (List ℚ)} {extra : List LapseGrid} {out : SpotField} {ws : List SpotWarning}
    (hcol : o.collapse = false) (hl : o.applyLapse = false)
    (h : spotManipulation o nb ids name kind rz (.grid g ny nx data) extra = .ok (out, ws)) :
    out.kind = askKind o kind rz ∧ Spec.siteGets nb o data out (fun s v => askSite o kind rz s = .ok v) := by
  obtain ⟨cols, hc, -, -, -, hk, -, -, hF⟩ := gridRun_ok h
  rw [hcol] at hk hF
  refine ⟨hk, cols, hc, hF.imp ?_⟩
  rintro c v ⟨s, hs, rfl⟩
  have : Spec.adjusted o extra c s = s := by
    unfold Spec.adjusted Spec.rateAt
    rw [if_pos hl]
  rw [this]
  exact hs

theorem filter_range_getD (points row : List ℚ) (hlen : row.length = points.length) (t : ℚ → Bool) :
    ((List.range points.length).filter (fun i => t (points.getD i 0))).map (fun i => row.getD i 0) =
      ((points.zip row).filter (fun q => t q.1)).map Prod.snd := by
  induction points generalizing row with
  | nil => simp
  | cons a points ih =>
    cases row with
    | nil => simp at hlen
    | cons b row =>
      have e := ih row (by simpa using hlen)
      rw [List.length_cons, List.range_succ_eq_map, List.zip_cons_cons, List.filter_cons, List.filter_cons]
      have e' : (((List.range points.length).map Nat.succ).filter (fun i => t ((a :: points).getD i 0))).map (fun i => (b :: row).getD i 0) =
          ((points.zip row).filter (fun q => t q.1)).map Prod.snd := by
        rw [← e, List.filter_map, List.map_map]
        rfl
      by_cases ht : t a = true
      · rw [if_pos (by simpa using ht), if_pos (by simpa using ht), List.map_cons, List.map_cons, e']
        rfl
      · rw [if_neg (by simpa using ht), if_neg (by simpa using ht), e']

/-- **C226.** If all the percentiles asked for are there (and no other percentile is within rounding of one), the result has exactly those, in the order
of the forecast, with unchanged values. -/
theorem C226_extracted {o : SpotOpts} {nb : NeighbourCube} {ids : String → Option (List String)} {name : String} {points ps : List ℚ} {rz : RealDim}
    {g : AxisId × AxisId} {ny nx : ℕ} {data : ℕ → ℕ → List (List ℚ)} {extra : List LapseGrid} {out : SpotField} {ws : List SpotWarning}
    (hcol : o.collapse = false) (hl : o.applyLapse = false) (hp : o.percentiles = .many ps) (hne : ps ≠ [])
    (hsub : ∀ p ∈ ps, p ∈ points) (hsep : ∀ q ∈ points, ∀ p ∈ ps, npIsclose q p = true ↔ q = p)
    (hlen : ∀ j i, ∀ row ∈ data j i, row.length = points.length)
    (h : spotManipulation o nb ids name (.percentiles points) rz (.grid g ny nx data) extra = .ok (out, ws)) :
    out.kind = .percentiles (points.filter (fun q => decide (q ∈ ps))) ∧
      Spec.siteGets nb o data out (fun s v => v = s.map (fun row => ((points.zip row).filter (fun q => decide (q.1 ∈ ps))).map Prod.snd)) := by
  obtain ⟨hk, cols, hc, hF⟩ := askRun hcol hl h
  have hall : ps.all (fun p => points.contains p) = true := by simpa using hsub
  have ht : ∀ q ∈ points, (XTest.close ps).holds q = decide (q ∈ ps) := by
    intro q hq
    rw [Bool.eq_iff_iff]
    simp only [XTest.holds, List.any_eq_true, decide_eq_true_eq]
    constructor
    · rintro ⟨p, hp, hpc⟩
      rw [(hsep q hq p hp).1 hpc]
      exact hp
    · intro hm
      exact ⟨q, hm, (hsep q hq q hm).2 rfl⟩
  have hrow : ∀ row : List ℚ, row.length = points.length → (keptPercentiles points ps).map (fun i => row.getD i 0) =
      ((points.zip row).filter (fun q => decide (q.1 ∈ ps))).map Prod.snd := by
    intro row hr
    unfold keptPercentiles
    rw [filter_range_getD points row hr]
    congr 1
    refine List.filter_congr ?_
    rintro ⟨a, b⟩ hq
    exact ht a (List.of_mem_zip hq).1
  constructor
  · rw [hk]
    unfold askKind
    rw [hp]
    simp only []
    rw [if_neg hne, if_pos hall, hrow points rfl]
    congr 1
    have : points.zip points = points.map (fun a => (a, a)) := by
      rw [List.zip_eq_zipWith, List.zipWith_self]
    rw [this, List.filter_map, List.map_map]
    exact (List.map_id _).trans rfl
  · refine ⟨cols, hc, hF.imp ?_⟩
    intro c v hv
    unfold askSite at hv
    rw [hp] at hv
    simp only [] at hv
    rw [if_neg hne] at hv
    unfold sitePercentiles at hv
    rw [if_pos hall] at hv
    injection hv with hv
    rw [← hv]
    refine List.map_congr_left ?_
    intro row hr
    exact hrow row (hlen _ _ row hr)

/-- **C226.** Otherwise they are interpolated between the ECC bounds of the diagnostic: the result has exactly the percentiles asked for, in their order,
and at each site every one of the values is within the bounds and increases with the percentile. -/
theorem C226_resampled {o : SpotOpts} {nb : NeighbourCube} {ids : String → Option (List String)} {name : String} {points ps : List ℚ} {rz : RealDim}
    {g : AxisId × AxisId} {ny nx : ℕ} {data : ℕ → ℕ → List (List ℚ)} {extra : List LapseGrid} {out : SpotField} {ws : List SpotWarning} {lo hi : ℚ}
    (hcol : o.collapse = false) (hl : o.applyLapse = false) (hp : o.percentiles = .many ps) (hne : ps ≠ [])
    (hsub : ¬ ∀ p ∈ ps, p ∈ points) (htab : o.table = some (lo, hi)) (hlh : lo ≤ hi)
    (hasc : ∀ j i, ∀ row ∈ data j i, row.Pairwise (· ≤ ·))
    (h : spotManipulation o nb ids name (.percentiles points) rz (.grid g ny nx data) extra = .ok (out, ws)) :
    out.kind = .percentiles ps ∧
      Spec.siteGets nb o data out (fun s v => v.length = s.length ∧ ∀ row ∈ v, row.length = ps.length ∧ (∀ x ∈ row, lo ≤ x ∧ x ≤ hi) ∧
        ∀ i j (hi : i < ps.length) (hj : j < ps.length), ps[i] ≤ ps[j] → row.getD i 0 ≤ row.getD j 0) := by
  obtain ⟨hk, cols, hc, hF⟩ := askRun hcol hl h
  have hall : ¬ ps.all (fun p => points.contains p) = true := by simpa using hsub
  constructor
  · rw [hk]
    unfold askKind
    rw [hp]
    simp only []
    rw [if_neg hne, if_neg hall]
  · refine ⟨cols, hc, hF.imp ?_⟩
    intro c v hv
    unfold askSite at hv
    rw [hp] at hv
    simp only [] at hv
    rw [if_neg hne] at hv
    unfold sitePercentiles at hv
    rw [if_neg hall, htab] at hv
    by_cases hr : ps.any (fun p => decide (p < 0) || decide (p > 100)) = true
    · rw [if_pos hr] at hv; exact nomatch hv
    · rw [if_neg hr] at hv
      obtain ⟨a, b⟩ := C13_resampled_ordered_and_bounded false lo hi hlh points _ ps v (hasc _ _) hv
      exact ⟨a, fun row hrow => ⟨(b row hrow).1, (b row hrow).2.2.2 rfl, (b row hrow).2.1⟩⟩

/-- **C226.** From probabilities: the result has exactly the percentiles asked for; at each site the values increase with the percentile and are between the
bounds of the diagnostic (unless the option to exceed them is set, then between the bounds and the thresholds). -/
theorem C226_probabilities {o : SpotOpts} {nb : NeighbourCube} {ids : String → Option (List String)} {name : String} {above : Option Bool} {ts ps : List ℚ}
    {rz : RealDim} {g : AxisId × AxisId} {ny nx : ℕ} {data : ℕ → ℕ → List (List ℚ)} {extra : List LapseGrid} {out : SpotField} {ws : List SpotWarning}
    {lo hi : ℚ} (hcol : o.collapse = false) (hl : o.applyLapse = false) (hp : o.percentiles = .many ps) (hne : ps ≠ [])
    (hskip : o.skipBounds = false) (htab : o.table = some (lo, hi)) (hlh : lo ≤ hi) (hts : ts.Pairwise (· ≤ ·)) (hps : ps.Pairwise (· ≤ ·))
    (h : spotManipulation o nb ids name (.probabilities above ts) rz (.grid g ny nx data) extra = .ok (out, ws)) :
    above ≠ none ∧ out.kind = .percentiles ps ∧
      Spec.siteGets nb o data out (fun s v => v.length = s.length ∧ ∀ row ∈ v, row.length = ps.length ∧ row.Pairwise (· ≤ ·) ∧
        (∀ x ∈ row, (∃ l ∈ lo :: ts, l ≤ x) ∧ ∃ u ∈ hi :: ts, x ≤ u) ∧ (o.ignoreBounds = false → ∀ x ∈ row, lo ≤ x ∧ x ≤ hi)) := by
  have hab : above ≠ none := by
    rintro rfl
    obtain ⟨sites, f, p, r, h1, h2, h3, h4, -⟩ := (spotRun_iff ..).1 h
    obtain ⟨rfl, -⟩ := spotCollapse_ok h2
    unfold spotAsk at h3
    rw [hp] at h3
    simp only [] at h3
    rw [if_neg hne] at h3
    exact nomatch h3
  obtain ⟨hk, cols, hc, hF⟩ := askRun hcol hl h
  obtain ⟨a, rfl⟩ := Option.ne_none_iff_exists'.1 hab
  refine ⟨hab, ?_, cols, hc, hF.imp ?_⟩
  · rw [hk]
    unfold askKind
    rw [hp]
    simp only []
    rw [if_neg hne]
  · intro c v hv
    unfold askSite at hv
    rw [hp] at hv
    simp only [] at hv
    rw [if_neg hne] at hv
    unfold siteFromProbs at hv
    rw [hskip, htab] at hv
    simp only [Bool.false_eq_true, if_false] at hv
    have hm := mapM_ok_forall _ _ _ hv
    refine ⟨hm.length_eq.symm, ?_⟩
    intro row hrow
    obtain ⟨i, hiv, rfl⟩ := List.getElem_of_mem hrow
    rw [List.forall₂_iff_get] at hm
    have hsrc := hm.2 i (by have := hm.1; omega) hiv
    simp only [List.get_eq_getElem] at hsrc
    generalize (data c.yIndex c.xIndex)[i]'(by have := hm.1; omega) = src at hsrc
    exact C14_percentiles_ordered_and_bounded o.ignoreBounds a lo hi hlh ts src ps _ hts hps hsrc

/-- **C226.** From members: one row of percentiles per site, each between the smallest and the largest member there, increasing with the percentile. -/
theorem C226_members {o : SpotOpts} {nb : NeighbourCube} {ids : String → Option (List String)} {name : String} {ps : List ℚ}
    {g : AxisId × AxisId} {ny nx : ℕ} {data : ℕ → ℕ → List (List ℚ)} {extra : List LapseGrid} {out : SpotField} {ws : List SpotWarning}
    (hcol : o.collapse = false) (hl : o.applyLapse = false) (hp : o.percentiles = .many ps) (hne : ps ≠ [])
    (hps : ∀ p ∈ ps, 0 ≤ p ∧ p ≤ 100) (hdata : ∀ j i, data j i ≠ [] ∧ ∀ m ∈ data j i, m.length = 1)
    (h : spotManipulation o nb ids name .plain .dim (.grid g ny nx data) extra = .ok (out, ws)) :
    out.kind = .percentiles ps ∧ out.realization = .absent ∧
      Spec.siteGets nb o data out (fun s v => ∃ row, v = [row] ∧ row.length = ps.length ∧
        (∀ lo hi, (∀ m ∈ s, ∀ x ∈ m, lo ≤ x ∧ x ≤ hi) → ∀ x ∈ row, lo ≤ x ∧ x ≤ hi) ∧
        ∀ i j (hi : i < ps.length) (hj : j < ps.length), ps[i] ≤ ps[j] → row.getD i 0 ≤ row.getD j 0) := by
  obtain ⟨hk, cols, hc, hF⟩ := askRun hcol hl h
  refine ⟨?_, ?_, cols, hc, hF.imp ?_⟩
  rotate_left
  · obtain ⟨sites, f, p, r, h1, h2, h3, h4, rfl, rfl⟩ := (spotRun_iff ..).1 h
    obtain ⟨rfl, -⟩ := spotCollapse_ok h2
    unfold spotAdjust at h4
    rw [hl] at h4
    have := Except.ok.inj h4
    subst this
    unfold spotAsk at h3
    rw [hp] at h3
    dsimp only at h3
    rw [if_neg hne] at h3
    unfold spotPercentiles at h3
    rw [hcol] at h3
    have := Except.ok.inj h3
    subst this
    rfl
  rotate_left
  · rw [hk]
    unfold askKind
    rw [hp]
    simp only []
    rw [if_neg hne, if_pos trivial]
  · intro c v hv
    unfold askSite at hv
    rw [hp] at hv
    simp only [] at hv
    rw [if_neg hne, if_pos trivial] at hv
    injection hv with hv
    refine ⟨_, hv.symm, by simp, ?_, ?_⟩
    · intro lo hi hb x hx
      obtain ⟨p, hp', rfl⟩ := List.mem_map.1 hx
      refine npPercentile_mem_range _ (by simpa using (hdata _ _).1) p (hps p hp').1 (hps p hp').2 ?_
      intro v hv
      obtain ⟨m, hm, rfl⟩ := List.mem_map.1 hv
      refine hb m hm _ ?_
      have := (hdata _ _).2 m hm
      rw [List.getD_eq_getElem _ _ (by omega)]
      exact List.getElem_mem _
    · intro i j hi hj hij
      rw [List.getD_eq_getElem _ _ (by simpa using hi), List.getD_eq_getElem _ _ (by simpa using hj), List.getElem_map, List.getElem_map]
      exact npPercentile_mono _ (by simpa using (hdata _ _).1) (hps _ (List.getElem_mem _)).1 hij (hps _ (List.getElem_mem _)).2

-- C225: data, collapse and percentiles, with a cube of lapse rates and a fixed rate.
example : (spotManipulation { Spec.noOpts with applyLapse := true } Spec.someNbs (fun _ => none) "air_temperature" .plain .dim
      (.grid Spec.someGrid 2 3 (fun j i => [[280 + j], [282 + (i : ℚ)]])) [Spec.someLapse]).toOption.map (fun r => r.1.sites) =
    some [[[260], [264]], [[281], [283]]] := by decide +kernel

example : (spotManipulation { Spec.noOpts with applyLapse := true, fixed := some (1 / 10) } Spec.someNbs (fun _ => none) "air_temperature" .plain .dim
      (.grid Spec.someGrid 2 3 (fun j i => [[280 + j], [282 + (i : ℚ)]])) []).toOption.map (fun r => r.1.sites) =
    some [[[281], [285]], [[279], [281]]] := by decide +kernel

-- C226: the four ways.
example : (spotManipulation { Spec.noOpts with percentiles := .many [90, 50] } Spec.someNbs (fun _ => none) "air_temperature" (.percentiles [10, 50, 90]) .absent
      (.grid Spec.someGrid 2 3 (fun j i => [[280, 281 + j, 282 + (i : ℚ)]])) []).toOption.map (fun r => (r.1.kind, r.1.sites)) =
    some (.percentiles [50, 90], [[[281, 284]], [[282, 283]]]) := by decide +kernel

example : (∀ q ∈ [(10 : ℚ), 50, 90], ∀ p ∈ [(90 : ℚ), 50], npIsclose q p = true ↔ q = p) := by decide +kernel

example : (spotManipulation { Spec.noOpts with percentiles := .many [30], table := some (200, 300) } Spec.someNbs (fun _ => none) "air_temperature"
      (.percentiles [10, 50, 90]) .absent (.grid Spec.someGrid 2 3 (fun j i => [[280, 281 + j, 282 + (i : ℚ)]])) []).toOption.map
      (fun r => (r.1.kind, r.1.sites)) = some (.percentiles [30], [[[561 / 2]], [[281]]]) := by decide +kernel

example : (spotManipulation { Spec.noOpts with percentiles := .many [25, 50], table := some (200, 300) } Spec.someNbs (fun _ => none) "probability"
      (.probabilities (some true) [280, 290]) .absent (.grid Spec.someGrid 2 3 (fun _ _ => [[3 / 4, 1 / 4]])) []).toOption.map
      (fun r => (r.1.kind, r.1.sites)) = some (.percentiles [25, 50], [[[280, 285]], [[280, 285]]]) := by decide +kernel

example : (spotManipulation { Spec.noOpts with percentiles := .many [50, 100] } Spec.someNbs (fun _ => none) "air_temperature"
      .plain .dim (.grid Spec.someGrid 2 3 (fun j i => [[280], [282 + (i : ℚ)], [281 + (j : ℚ)]])) []).toOption.map
      (fun r => (r.1.kind, r.1.sites)) = some (.percentiles [50, 100], [[[281, 284]], [[282, 283]]]) := by decide +kernel

/-- **C226.** With the bounds skipped the bounds of the diagnostic have no effect on percentiles from probabilities: the run does the same whatever the
table says, and a missing entry is no error. -/
theorem C226_skip (o : SpotOpts) (nb : NeighbourCube) (ids : String → Option (List String)) (name : String) (above : Option Bool) (ts : List ℚ) (rz : RealDim)
    (src : SpotSource) (extra : List LapseGrid) (hskip : o.skipBounds = true) (table : Option (ℚ × ℚ)) :
    spotManipulation o nb ids name (.probabilities above ts) rz src extra =
      spotManipulation { o with table := table } nb ids name (.probabilities above ts) rz src extra := by
  have h1 : ∀ f : SpotField, f.kind = .probabilities above ts → spotAsk o f = spotAsk { o with table := table } f := by
    intro f hf
    unfold spotAsk spotPercentiles
    have h2 : ∀ a ps, siteFromProbs o a ts ps = siteFromProbs { o with table := table } a ts ps := by
      intro a ps
      funext site
      unfold siteFromProbs
      simp only [hskip, if_true]
    rw [hf]
    simp only [h2]
  unfold spotManipulation
  simp only [bind, Except.bind]
  have e1 : spotValues { o with table := table } nb ids src = spotValues o nb ids src := rfl
  rw [e1]
  cases spotValues o nb ids src with
  | error e => rfl
  | ok sites =>
    dsimp only
    cases hc : spotCollapse o.collapse ⟨name, .probabilities above ts, rz, sites⟩ with
    | error e => rfl
    | ok f =>
      dsimp only
      rw [h1 f (by rw [(spotCollapse_ok hc).1])]
      rfl

example : (spotManipulation { Spec.noOpts with percentiles := .many [25, 50], skipBounds := true } Spec.someNbs (fun _ => none) "probability"
      (.probabilities (some true) [280, 290]) .absent (.grid Spec.someGrid 2 3 (fun _ _ => [[1, 0]])) []).toOption.map
      (fun r => (r.1.kind, r.1.sites)) = some (.percentiles [25, 50], [[[565 / 2, 285]], [[565 / 2, 285]]]) := by decide +kernel

/-- **C226.** The documented single number is refused (`'float' object is not iterable`), except zero, which is ignored. -/
theorem C226_single_refuted (o : SpotOpts) (nb : NeighbourCube) (ids : String → Option (List String)) (name : String) (kind : SpotKind) (rz : RealDim)
    (src : SpotSource) (extra : List LapseGrid) (p : ℚ) (ho : o.percentiles = .one p) :
    (p ≠ 0 → ∀ r, spotManipulation o nb ids name kind rz src extra ≠ .ok r) ∧
    (p = 0 → spotManipulation o nb ids name kind rz src extra = spotManipulation { o with percentiles := .nothing } nb ids name kind rz src extra) := by
  constructor
  · rintro hp ⟨out, ws⟩ h
    obtain ⟨sites, f, q, r, h1, h2, h3, -⟩ := (spotRun_iff ..).1 h
    unfold spotAsk at h3
    rw [ho] at h3
    simp only [] at h3
    rw [if_neg hp] at h3
    exact nomatch h3
  · intro hp
    have e : ∀ f, spotAsk o f = spotAsk { o with percentiles := .nothing } f := by
      intro f
      unfold spotAsk
      rw [ho]
      simp only []
      rw [if_pos hp]
    unfold spotManipulation
    simp only [e]
    rfl

/-- **C226.** The two options about ECC bounds do nothing when percentiles are resampled: values outside the bounds are refused either way. -/
theorem C226_bounds_refuted :
    ((spotManipulation { Spec.noOpts with percentiles := .many [30], table := some (281, 300), ignoreBounds := true } Spec.someNbs (fun _ => none)
      "air_temperature" (.percentiles [10, 50, 90]) .absent (.grid Spec.someGrid 2 3 (fun _ _ => [[280, 281, 282]])) []).toOption = none) ∧
    ((spotManipulation { Spec.noOpts with percentiles := .many [30], table := none, skipBounds := true } Spec.someNbs (fun _ => none)
      "air_temperature" (.percentiles [10, 50, 90]) .absent (.grid Spec.someGrid 2 3 (fun _ _ => [[280, 281, 282]])) []).toOption = none) ∧
    ((spotManipulation { Spec.noOpts with percentiles := .many [50], table := some (281, 300), ignoreBounds := true } Spec.someNbs (fun _ => none)
      "p" (.probabilities (some false) [280, 290]) .absent (.grid Spec.someGrid 2 3 (fun _ _ => [[0, 1]])) []).toOption ≠ none) ∧
    ((spotManipulation { Spec.noOpts with percentiles := .many [50], table := none, skipBounds := true } Spec.someNbs (fun _ => none)
      "p" (.probabilities (some false) [280, 290]) .absent (.grid Spec.someGrid 2 3 (fun _ _ => [[0, 1]])) []).toOption ≠ none) := by
  decide +kernel

/-! ### C227 -/

/-- **C227.** The two warnings: that percentiles of a deterministic forecast were asked for, exactly if they were and warnings are not suppressed; that no lapse
rate was found, exactly if the correction is on, there is neither one cube of rates nor a fixed rate and warnings are not suppressed. -/
theorem C227_warnings {o : SpotOpts} {nb : NeighbourCube} {ids : String → Option (List String)} {name : String} {kind : SpotKind} {rz : RealDim}
    {g : AxisId × AxisId} {ny nx : ℕ} {data : ℕ → ℕ → List (List ℚ)} {extra : List LapseGrid} {out : SpotField} {ws : List SpotWarning}
    (h : spotManipulation o nb ids name kind rz (.grid g ny nx data) extra = .ok (out, ws)) :
    (SpotWarning.notProbabilistic ∈ ws ↔ o.suppress = false ∧ kind = .plain ∧ (rz = .dim → o.collapse = true) ∧
      ∃ ps, ps ≠ [] ∧ o.percentiles = .many ps) ∧
    (SpotWarning.noLapseRate ∈ ws ↔ o.suppress = false ∧ o.applyLapse = true ∧ extra.length ≠ 1 ∧ o.fixed = none) ∧ ws.Nodup := by
  obtain ⟨cols, -, -, -, -, -, hw, -⟩ := gridRun_ok h
  have hrz : rzAfter o.collapse rz ≠ .dim ↔ (rz = .dim → o.collapse = true) := by
    unfold rzAfter
    cases o.collapse <;> simp
  have ha : (SpotWarning.notProbabilistic ∈ askWarns o kind (rzAfter o.collapse rz) ↔ o.suppress = false ∧ kind = .plain ∧
      (rz = .dim → o.collapse = true) ∧ ∃ ps, ps ≠ [] ∧ o.percentiles = .many ps) ∧
      SpotWarning.noLapseRate ∉ askWarns o kind (rzAfter o.collapse rz) ∧ (askWarns o kind (rzAfter o.collapse rz)).Nodup := by
    unfold askWarns
    cases hp : o.percentiles with
    | nothing => simp
    | one p => simp
    | many ps =>
      simp only []
      split_ifs with hc
      · refine ⟨⟨fun _ => ⟨hc.2.2.2, hc.2.1, hrz.1 hc.2.2.1, ps, hc.1, rfl⟩, fun _ => by simp⟩, by simp, by simp⟩
      · refine ⟨⟨fun hm => by simp at hm, ?_⟩, by simp, by simp⟩
        rintro ⟨h1, h2, h3, qs, h4, h5⟩
        injection h5 with h5
        subst h5
        exact absurd ⟨h4, h2, hrz.2 h3, h1⟩ hc
  have hb : (SpotWarning.noLapseRate ∈ lapseWarns o extra ↔ o.suppress = false ∧ o.applyLapse = true ∧ extra.length ≠ 1 ∧ o.fixed = none) ∧
      SpotWarning.notProbabilistic ∉ lapseWarns o extra ∧ (lapseWarns o extra).Nodup := by
    unfold lapseWarns
    split_ifs with hc
    · exact ⟨⟨fun _ => ⟨hc.2.2.2, hc.1, hc.2.1, hc.2.2.1⟩, fun _ => by simp⟩, by simp, by simp⟩
    · refine ⟨⟨fun hm => by simp at hm, ?_⟩, by simp, by simp⟩
      rintro ⟨h1, h2, h3, h4⟩
      exact absurd ⟨h2, h3, h4, h1⟩ hc
  rw [hw]
  refine ⟨?_, ?_, ?_⟩
  · rw [List.mem_append, ha.1]
    exact ⟨fun hm => hm.resolve_right hb.2.1, Or.inl⟩
  · rw [List.mem_append, hb.1]
    exact ⟨fun hm => hm.resolve_left ha.2.1, Or.inr⟩
  · rw [List.nodup_append]
    refine ⟨ha.2.2, hb.2.2, ?_⟩
    intro a h1 b h2 hab
    subst hab
    cases a with
    | notProbabilistic => exact hb.2.1 h2
    | noLapseRate => exact ha.2.1 h1

/-- **C227.** A forecast already at sites is refused with either of the lapse rate options. -/
theorem C227_spots_lapse (o : SpotOpts) (nb : NeighbourCube) (ids : String → Option (List String)) (name : String) (kind : SpotKind) (rz : RealDim)
    (sids : String → Option (List String)) (data : List (List (List ℚ))) (extra : List LapseGrid)
    (h : o.applyLapse = true ∨ o.fixed ≠ none) :
    spotManipulation o nb ids name kind rz (.spots sids data) extra = .error .notImplemented := by
  have : (o.applyLapse || o.fixed.isSome) = true := by
    rcases h with h | h
    · simp [h]
    · simp [Option.isSome_iff_ne_none, h]
  unfold spotManipulation spotValues
  simp only [bind, Except.bind]
  rw [if_pos this]

/-- **C227.** A forecast already at sites, without other options: without an identifying coordinate it is returned unchanged; with one the result keeps, in
their order, exactly the sites whose identifier is in the neighbour cube and set, and an empty result or a missing coordinate is an error. -/
theorem C227_subset (o : SpotOpts) (nb : NeighbourCube) (ids : String → Option (List String)) (name : String) (kind : SpotKind) (rz : RealDim)
    (sids : String → Option (List String)) (data : List (List (List ℚ))) (extra : List LapseGrid)
    (hl : o.applyLapse = false) (hf : o.fixed = none) (hcol : o.collapse = false) (hp : o.percentiles = .nothing) :
    (o.subset = none → spotManipulation o nb ids name kind rz (.spots sids data) extra = .ok (⟨name, kind, rz, data⟩, [])) ∧
    (∀ c, o.subset = some c → (ids c = none ∨ sids c = none) →
      spotManipulation o nb ids name kind rz (.spots sids data) extra = .error .valueError) ∧
    (∀ c wanted own, o.subset = some c → ids c = some wanted → sids c = some own →
      spotManipulation o nb ids name kind rz (.spots sids data) extra =
        (let kept := ((own.zip data).filter (fun s => decide (s.1 ∈ wanted ∧ s.1 ≠ "None"))).map Prod.snd
         if kept = [] then .error .valueError else .ok (⟨name, kind, rz, kept⟩, []))) := by
  have e1 : ∀ f, spotCollapse o.collapse f = .ok f := by intro f; rw [hcol]; rfl
  have e2 : ∀ f, spotAsk o f = .ok (f, []) := by intro f; unfold spotAsk; rw [hp]
  have e3 : ∀ s f, spotAdjust o nb s extra f = .ok (f, []) := by intro s f; unfold spotAdjust; rw [hl]; rfl
  have e0 : ∀ v, spotValues o nb ids (.spots sids data) = v → spotManipulation o nb ids name kind rz (.spots sids data) extra =
      (match v with | .error e => .error e | .ok sites => .ok (⟨name, kind, rz, sites⟩, [])) := by
    rintro v rfl
    unfold spotManipulation
    simp only [bind, Except.bind]
    cases spotValues o nb ids (.spots sids data) with
    | error e => rfl
    | ok sites => simp only [e1, e2, e3, List.append_nil]
  have hno : ¬ (o.applyLapse || o.fixed.isSome) = true := by simp [hl, hf]
  refine ⟨?_, ?_, ?_⟩
  · intro hs
    refine e0 (.ok data) ?_
    unfold spotValues
    simp only []
    rw [if_neg hno, hs]
  · intro c hs hm
    refine e0 (.error .valueError) ?_
    unfold spotValues
    simp only []
    rw [if_neg hno, hs]
    simp only []
    cases hi : ids c with
    | none => rfl
    | some w =>
      rcases hm with hm | hm
      · rw [hm] at hi; exact nomatch hi
      · simp only [hm]
  · intro c wanted own hs hw ho
    have hfil : (own.zip data).filter (fun s => decide (s.1 ∈ wanted.filter (fun i => i != "None"))) =
        (own.zip data).filter (fun s => decide (s.1 ∈ wanted ∧ s.1 ≠ "None")) := by
      refine List.filter_congr ?_
      intro s _
      rw [Bool.eq_iff_iff]
      simp only [decide_eq_true_eq, List.mem_filter, bne_iff_ne, ne_eq]
    have hv : spotValues o nb ids (.spots sids data) = (subsetSites wanted (own.zip data)).map (fun l => l.map Prod.snd) := by
      unfold spotValues
      simp only []
      rw [if_neg hno, hs]
      simp only [hw, ho]
    rw [e0 _ hv]
    unfold subsetSites
    dsimp only
    rw [hfil]
    by_cases hk : (own.zip data).filter (fun s => decide (s.1 ∈ wanted ∧ s.1 ≠ "None")) = []
    · rw [hk]
      rfl
    · rw [if_neg (by simpa using hk), if_neg (by simpa using hk)]
      rfl

/-- **C227.** With exactly one cube of lapse rates a fixed rate is ignored without a word (the adjustment itself refuses both together). -/
theorem C227_cube_wins (o : SpotOpts) (nb : NeighbourCube) (ids : String → Option (List String)) (name : String) (kind : SpotKind) (rz : RealDim)
    (g : AxisId × AxisId) (ny nx : ℕ) (data : ℕ → ℕ → List (List ℚ)) (l : LapseGrid) (v : Option ℚ) :
    spotManipulation { o with fixed := v } nb ids name kind rz (.grid g ny nx data) [l] =
      spotManipulation { o with fixed := none } nb ids name kind rz (.grid g ny nx data) [l] := rfl

/-- **C227.** Probabilities and anything that is not an air or feels-like temperature are refused if a lapse rate would be applied. -/
theorem C227_not_temperature {o : SpotOpts} {nb : NeighbourCube} {ids : String → Option (List String)} {name : String} {kind : SpotKind} {rz : RealDim}
    {g : AxisId × AxisId} {ny nx : ℕ} {data : ℕ → ℕ → List (List ℚ)} {extra : List LapseGrid} {out : SpotField} {ws : List SpotWarning}
    (hl : o.applyLapse = true) (hx : extra.length = 1 ∨ o.fixed ≠ none)
    (h : spotManipulation o nb ids name kind rz (.grid g ny nx data) extra = .ok (out, ws)) :
    (name = "air_temperature" ∨ name = "feels_like_temperature") ∧ ∀ above ts, out.kind ≠ .probabilities above ts := by
  suffices hs : (name = "air_temperature" ∨ name = "feels_like_temperature") ∧ out.kind.isProbability = false by
    refine ⟨hs.1, ?_⟩
    intro above ts hk
    rw [hk] at hs
    exact nomatch hs.2
  obtain ⟨sites, f, p, r, h1, h2, h3, h4, rfl, rfl⟩ := (spotRun_iff ..).1 h
  obtain ⟨rfl, -⟩ := spotCollapse_ok h2
  obtain ⟨-, -, -, hn⟩ := spotAsk_ok h3
  simp only [] at hn
  have key : ∀ (lapse : Option LapseGrid) (fixed : Option ℚ) (q : SpotField),
      spotLapse (methodName o.land o.similarAltitude) nb g lapse fixed p.1 = .ok q →
      (name = "air_temperature" ∨ name = "feels_like_temperature") ∧ q.kind.isProbability = false := by
    intro lapse fixed q hq
    obtain ⟨_, -, -, hk, -, hpb, hnm, -⟩ := spotLapse_ok hq
    rw [hn] at hnm
    exact ⟨hnm, by rw [hk]; exact hpb⟩
  unfold spotAdjust at h4
  rw [if_neg (by simp [hl])] at h4
  simp only [SpotSource.gridOf] at h4
  split at h4
  · rename_i l
    cases hq : spotLapse (methodName o.land o.similarAltitude) nb g (some l) none p.1 with
    | error e => rw [hq] at h4; exact nomatch h4
    | ok q =>
      rw [hq] at h4
      injection h4 with h4
      subst h4
      exact key _ _ q hq
  · rename_i v _ hfix
    cases hq : spotLapse (methodName o.land o.similarAltitude) nb g none (some v) p.1 with
    | error e => rw [hq] at h4; exact nomatch h4
    | ok q =>
      rw [hq] at h4
      injection h4 with h4
      subst h4
      exact key _ _ q hq
  · rename_i hne hfix
    rcases hx with hx | hx
    · obtain ⟨l, rfl⟩ := List.length_eq_one_iff.1 hx
      exact absurd rfl (hne l)
    · exact absurd hfix hx

example : (spotManipulation { Spec.noOpts with percentiles := .many [50], applyLapse := true } Spec.someNbs (fun _ => none) "wind_speed" .plain .absent
      (.grid Spec.someGrid 2 3 (fun _ _ => [[3]])) []).toOption.map Prod.snd = some [.notProbabilistic, .noLapseRate] := by decide +kernel

example : (spotManipulation { Spec.noOpts with subset := some "wmo_id" } Spec.someNbs (fun _ => some ["03002", "None"]) "wind_speed" .plain .absent
      (.spots (fun _ => some ["None", "03002", "03005"]) [[[1]], [[2]], [[3]]]) []).toOption.map (fun r => r.1.sites) = some [[[2]]] := by decide +kernel

example : (spotManipulation { Spec.noOpts with applyLapse := true, fixed := some 1 } Spec.someNbs (fun _ => none) "wind_speed" .plain .absent
      (.grid Spec.someGrid 2 3 (fun _ _ => [[3]])) []).toOption = none := by decide +kernel

end Improver
