import Verif.Model.TreeInputs
import Verif.Props.TreeCheckRun

/-!
C207 (inputs a decision tree accepts and uses), C208 (inputs of a decision tree are for one time and period), C209 (reference
times of the result of a decision tree).
-/

namespace Improver
namespace Spec

/-- A deterministic node asks for the diagnostic. -/
def AsksPlain (t : RawTree) (key : String) (n : RawNode) (d : String) : Prop :=
  (key, RawEntry.node n) ∈ t.entries ∧ n.deterministic = true ∧ d ∈ Spec.diagnostics n

/-- A node asks for probabilities of the diagnostic to be above or below a threshold. -/
def Asks (target : Option ℚ) (t : RawTree) (key : String) (n : RawNode) (d : String) (thr : Thr) (side : String) : Prop :=
  (key, RawEntry.node n) ∈ t.entries ∧ n.deterministic = false ∧
    (d, thr, side) ∈ (Spec.diagnostics n).zip (((items n.diagThresholds).map (scaled target)).zip (items n.conditions))

/-- A threshold within 1 % of the one asked for; for zero, within 10⁻¹². -/
def close (asked p : ℚ) : Prop :=
  if |asked| < 1 / 10 ^ 12 then |p| ≤ 1 / 10 ^ 12 else |p - asked| ≤ |asked| / 100

/-- An input that has the probabilities: `tc` is its threshold coordinate and `v` the threshold in its units. -/
def Has (conv : String → String → ℚ → Option ℚ) (c : TreeCube) (d : String) (thr : Thr) (side : String) (tc : TiThreshold)
    (v : ℚ) : Prop :=
  c.name = d ∧ c.threshold = some tc ∧ conv thr.units tc.units thr.value = some v ∧ tc.side = some side ∧
    ∃ p ∈ tc.points, close v p

end Spec

open Spec

instance (a p : ℚ) : Decidable (Spec.close a p) := by unfold Spec.close; infer_instance

theorem closeThreshold_iff (asked p : ℚ) : closeThreshold asked p = true ↔ close asked p := by
  unfold closeThreshold close npIsclose
  have h12 : (1 : ℚ) / 10 ^ 12 = 1 / 1000000000000 := by norm_num
  rw [h12]
  by_cases h : |asked| < 1 / 1000000000000
  · rw [if_pos h, if_pos h, decide_eq_true_eq]
    simp
  · rw [if_neg h, if_neg h, decide_eq_true_eq, zero_add, one_div, inv_mul_eq_div]

/-! ## Requests -/

/-- One request: key, node, diagnostic, and threshold with sense unless the node is deterministic. -/
structure TiReq where
  key : String
  node : RawNode
  diagnostic : String
  ask : Option (Thr × String)

/-- The requests of an entry. -/
def entryReqs (e : DoneEntry) : List TiReq :=
  match e.entry with
  | .leaf _ => []
  | .node n =>
    if n.deterministic then n.diagnostics.map fun d => ⟨e.name, n, d, none⟩
    else (e.asks n).map fun a => ⟨e.name, n, a.1, some a.2⟩

/-- What has been gathered before and now. -/
def TiState.add (a b : TiState) : TiState :=
  ⟨a.used ++ b.used, a.optional ++ b.optional, a.missing ++ b.missing, a.named || b.named⟩

theorem TiState.add_empty (a : TiState) : a.add ⟨[], [], [], false⟩ = a := by
  simp [TiState.add]

theorem TiState.empty_add (a : TiState) : TiState.add ⟨[], [], [], false⟩ a = a := by
  simp [TiState.add]

theorem TiState.add_assoc (a b c : TiState) : (a.add b).add c = a.add (b.add c) := by
  simp [TiState.add, List.append_assoc, Bool.or_assoc]

/-- What one request gathers. -/
def reqOutcome (conv : String → String → ℚ → Option ℚ) (cubes : List TreeCube) (r : TiReq) : Except Err TiState :=
  match r.ask with
  | none => .ok (takePlain cubes r.key r.node ⟨[], [], [], false⟩ r.diagnostic)
  | some a => (takeThreshold conv cubes r.key r.node ⟨[], [], [], false⟩ r.diagnostic a.1 a.2).map Prod.fst

theorem takePlain_add (cubes : List TreeCube) (key : String) (n : RawNode) (s : TiState) (d : String) :
    takePlain cubes key n s d = s.add (takePlain cubes key n ⟨[], [], [], false⟩ d) := by
  unfold takePlain
  cases cubes.filter fun c => decide (c.name = d) with
  | nil => by_cases h : n.ifMissing = none <;> simp [h, TiState.add]
  | cons c cs => simp [TiState.add]

theorem takeThreshold_add (conv : String → String → ℚ → Option ℚ) (cubes : List TreeCube) (key : String) (n : RawNode)
    (s : TiState) (d : String) (thr : Thr) (side : String) :
    (takeThreshold conv cubes key n s d thr side).map Prod.fst =
      ((takeThreshold conv cubes key n ⟨[], [], [], false⟩ d thr side).map Prod.fst).map s.add := by
  unfold takeThreshold
  cases cubes.filter fun c => decide (c.name = d) with
  | nil => by_cases h : n.ifMissing = none <;> simp [h, TiState.add, Except.map]
  | cons c cs =>
    dsimp only
    cases c.threshold with
    | none => rfl
    | some t =>
      dsimp only
      cases conv thr.units t.units thr.value with
      | none => rfl
      | some v =>
        dsimp only
        cases (c :: cs).filterMap (partAtThreshold t.name v side) with
        | nil => simp [TiState.add, Except.map]
        | cons x xs => simp [TiState.add, Except.map]

/-- The sum of what requests gather. -/
def gatherAll (l : List TiState) : TiState := l.foldr TiState.add ⟨[], [], [], false⟩

theorem gatherAll_append (a b : List TiState) : gatherAll (a ++ b) = (gatherAll a).add (gatherAll b) := by
  induction a with
  | nil => exact (TiState.empty_add _).symm
  | cons x a ih =>
    show x.add (gatherAll (a ++ b)) = (x.add (gatherAll a)).add (gatherAll b)
    rw [ih, TiState.add_assoc]

theorem takeAll_eq (conv : String → String → ℚ → Option ℚ) (cubes : List TreeCube) (key : String) (n : RawNode)
    (as : List (String × Thr × String)) (s : TiState) :
    (takeAll conv cubes key n s as).map Prod.fst =
      ((as.map fun a => (⟨key, n, a.1, some a.2⟩ : TiReq)).mapM (reqOutcome conv cubes)).map fun l => s.add (gatherAll l) := by
  induction as generalizing s with
  | nil => simp [takeAll, Except.map, pure, Except.pure, gatherAll, TiState.add_empty]
  | cons a as ih =>
    have h := takeThreshold_add conv cubes key n s a.1 a.2.1 a.2.2
    rw [List.map_cons, List.mapM_cons]
    have hreq : reqOutcome conv cubes ⟨key, n, a.1, some a.2⟩ =
      (takeThreshold conv cubes key n ⟨[], [], [], false⟩ a.1 a.2.1 a.2.2).map Prod.fst := rfl
    rw [hreq]
    unfold takeAll
    simp only [bind, Except.bind, pure, Except.pure]
    cases h0 : takeThreshold conv cubes key n ⟨[], [], [], false⟩ a.1 a.2.1 a.2.2 with
    | error e =>
      rw [h0] at h
      cases hs : takeThreshold conv cubes key n s a.1 a.2.1 a.2.2 with
      | error e' => rw [hs] at h; exact h
      | ok r => rw [hs] at h; nomatch h
    | ok r0 =>
      rw [h0] at h
      cases hs : takeThreshold conv cubes key n s a.1 a.2.1 a.2.2 with
      | error e' => rw [hs] at h; nomatch h
      | ok r =>
        rw [hs] at h
        have hr : r.1 = s.add r0.1 := Except.ok.inj h
        have ih' := ih r.1
        dsimp only [Except.map] at ih' ⊢
        cases hm : (as.map fun a => (⟨key, n, a.1, some a.2⟩ : TiReq)).mapM (reqOutcome conv cubes) with
        | error e =>
          rw [hm] at ih'
          cases ht : takeAll conv cubes key n r.1 as with
          | error e' => rw [ht] at ih'; exact ih'
          | ok x => rw [ht] at ih'; nomatch ih'
        | ok l =>
          rw [hm] at ih'
          cases ht : takeAll conv cubes key n r.1 as with
          | error e' => rw [ht] at ih'; nomatch ih'
          | ok x =>
            rw [ht] at ih'
            have hx : x.1 = r.1.add (gatherAll l) := Except.ok.inj ih'
            show Except.ok x.1 = Except.ok (s.add (r0.1.add (gatherAll l)))
            rw [hx, hr, TiState.add_assoc]

theorem takePlain_fold (conv : String → String → ℚ → Option ℚ) (cubes : List TreeCube) (key : String) (n : RawNode)
    (ds : List String) (s : TiState) :
    .ok (ds.foldl (takePlain cubes key n) s) =
      ((ds.map fun d => (⟨key, n, d, none⟩ : TiReq)).mapM (reqOutcome conv cubes)).map fun l => s.add (gatherAll l) := by
  have hm := mapM_ok_of_forall (reqOutcome conv cubes) (fun r : TiReq => takePlain cubes r.key r.node ⟨[], [], [], false⟩ r.diagnostic)
    (ds.map fun d => (⟨key, n, d, none⟩ : TiReq)) (by
      intro r hr
      obtain ⟨d, _, rfl⟩ := List.mem_map.1 hr
      rfl)
  rw [hm]
  apply congrArg Except.ok
  clear hm
  induction ds generalizing s with
  | nil => exact (TiState.add_empty s).symm
  | cons d ds ih =>
    rw [List.foldl_cons, ih, takePlain_add]
    exact TiState.add_assoc _ _ _

theorem takeEntry_eq (conv : String → String → ℚ → Option ℚ) (cubes : List TreeCube) (s : TiState) (e : DoneEntry) :
    takeEntry conv cubes s e = ((entryReqs e).mapM (reqOutcome conv cubes)).map fun l => s.add (gatherAll l) := by
  unfold takeEntry entryReqs
  cases e.entry with
  | leaf l => exact congrArg Except.ok (TiState.add_empty s).symm
  | node n =>
    dsimp only
    cases n.deterministic with
    | true => exact takePlain_fold conv cubes e.name n n.diagnostics s
    | false =>
      have h := takeAll_eq conv cubes e.name n (e.asks n) s
      simp only [Bool.false_eq_true, if_false, bind, Except.bind]
      rw [← h]
      cases takeAll conv cubes e.name n s (e.asks n) <;> rfl

theorem takeEntries_eq (conv : String → String → ℚ → Option ℚ) (cubes : List TreeCube) (tree : List DoneEntry) (s : TiState) :
    tree.foldlM (takeEntry conv cubes) s =
      ((tree.flatMap entryReqs).mapM (reqOutcome conv cubes)).map fun l => s.add (gatherAll l) := by
  induction tree generalizing s with
  | nil => exact congrArg Except.ok (TiState.add_empty s).symm
  | cons e tree ih =>
    rw [List.foldlM_cons, takeEntry_eq, List.flatMap_cons, List.mapM_append]
    simp only [bind, Except.bind, pure, Except.pure]
    cases (entryReqs e).mapM (reqOutcome conv cubes) with
    | error x => rfl
    | ok l =>
      dsimp only [Except.map]
      rw [ih]
      cases (tree.flatMap entryReqs).mapM (reqOutcome conv cubes) with
      | error x => rfl
      | ok l' =>
        dsimp only [Except.map]
        rw [gatherAll_append, TiState.add_assoc]

/-! ## What a request gathers -/

theorem filter_named (cubes : List TreeCube) (hnd : (cubes.map TreeCube.name).Nodup) (d : String) :
    (∀ c, c ∈ cubes → c.name = d → (cubes.filter fun c => decide (c.name = d)) = [c]) ∧
    ((∀ c ∈ cubes, c.name ≠ d) → (cubes.filter fun c => decide (c.name = d)) = []) := by
  constructor
  · induction cubes with
    | nil => intro c hc; simp at hc
    | cons x l ih =>
      intro c hc hn
      rw [List.map_cons, List.nodup_cons] at hnd
      rcases List.mem_cons.1 hc with rfl | hc
      · rw [List.filter_cons_of_pos (by simpa using hn)]
        congr 1
        rw [List.filter_eq_nil_iff]
        intro y hy
        simp only [decide_eq_true_eq]
        intro hy'
        exact hnd.1 (List.mem_map.2 ⟨y, hy, hy'.trans hn.symm⟩)
      · rw [List.filter_cons_of_neg]
        · exact ih hnd.2 c hc hn
        · simp only [decide_eq_true_eq]
          intro hx
          exact hnd.1 (List.mem_map.2 ⟨c, hc, hn.trans hx.symm⟩)
  · intro h
    rw [List.filter_eq_nil_iff]
    simpa using h

/-- The probabilities in a part: the input and the thresholds kept. -/
def isPartOf (conv : String → String → ℚ → Option ℚ) (c : TreeCube) (d : String) (thr : Thr) (side : String) (sl : TreeSlice) :
    Prop :=
  ∃ tc v, Has conv c d thr side tc v ∧ sl = ⟨c, tc.points.filter (closeThreshold v)⟩

/-- The outcome of a request that fails nothing. -/
def goodOutcome (conv : String → String → ℚ → Option ℚ) (cubes : List TreeCube) (r : TiReq) (s : TiState) : Prop :=
  s.missing = [] ∧
  (((∀ c ∈ cubes, c.name ≠ r.diagnostic) ∧ r.node.ifMissing ≠ none ∧ s.used = [] ∧ s.optional = [r.key] ∧ s.named = false) ∨
   (∃ c ∈ cubes, c.name = r.diagnostic ∧ s.optional = [] ∧
     match r.ask with
     | none => s.used = [⟨c, c.points⟩] ∧ s.named = false
     | some a => ∃ tc v, Has conv c r.diagnostic a.1 a.2 tc v ∧ s.used = [⟨c, tc.points.filter (closeThreshold v)⟩] ∧
        s.named = decide (tc.name = "threshold")))

theorem reqOutcome_good (conv : String → String → ℚ → Option ℚ) (cubes : List TreeCube)
    (hnd : (cubes.map TreeCube.name).Nodup) (r : TiReq) (s : TiState) :
    (reqOutcome conv cubes r = .ok s ∧ s.missing = []) ↔ goodOutcome conv cubes r s := by
  obtain ⟨f1, f2⟩ := filter_named cubes hnd r.diagnostic
  unfold goodOutcome reqOutcome
  obtain ⟨su, so, sm, sn⟩ := s
  by_cases hex : ∃ c ∈ cubes, c.name = r.diagnostic
  · obtain ⟨c, hc, hn⟩ := hex
    have hfil := f1 c hc hn
    have huniq : ∀ c' ∈ cubes, c'.name = r.diagnostic → c' = c := by
      intro c' hc' hn'
      have := f1 c' hc' hn'
      rw [hfil] at this
      exact (List.cons.inj this).1.symm
    cases ha : r.ask with
    | none =>
      dsimp only
      unfold takePlain
      rw [hfil]
      simp only [List.nil_append, List.map_cons, List.map_nil, Except.ok.injEq, TiState.mk.injEq]
      constructor
      · rintro ⟨⟨rfl, rfl, rfl, rfl⟩, _⟩
        exact ⟨rfl, Or.inr ⟨c, hc, hn, rfl, rfl, rfl⟩⟩
      · rintro ⟨rfl, ⟨h, _⟩ | ⟨c', hc', hn', rfl, h1, h2⟩⟩
        · exact absurd hn (h c hc)
        · obtain rfl := huniq c' hc' hn'
          exact ⟨⟨h1.symm, rfl, rfl, h2.symm⟩, rfl⟩
    | some a =>
      dsimp only
      unfold takeThreshold
      rw [hfil]
      dsimp only
      have hrhs : ∀ P : TreeCube → Prop, (∃ c' ∈ cubes, c'.name = r.diagnostic ∧ P c') ↔ P c := by
        intro P
        constructor
        · rintro ⟨c', hc', hn', hp⟩
          rw [← huniq c' hc' hn']; exact hp
        · intro hp; exact ⟨c, hc, hn, hp⟩
      rw [hrhs]
      have hno : ¬ ∀ c ∈ cubes, c.name ≠ r.diagnostic := fun h => h c hc hn
      cases ht : c.threshold with
      | none =>
        constructor
        · rintro ⟨h, _⟩; nomatch h
        · rintro ⟨_, ⟨h, _⟩ | ⟨_, tc, v, hh, _⟩⟩
          · exact absurd h hno
          · have := hh.2.1; rw [ht] at this; nomatch this
      | some t =>
        dsimp only
        cases hv : conv a.1.units t.units a.1.value with
        | none =>
          constructor
          · rintro ⟨h, _⟩; nomatch h
          · rintro ⟨_, ⟨h, _⟩ | ⟨_, tc, v, hh, _⟩⟩
            · exact absurd h hno
            · have h1 := hh.2.1; rw [ht] at h1
              obtain rfl := Option.some.inj h1
              have h2 := hh.2.2.1; rw [hv] at h2; nomatch h2
        | some v =>
          dsimp only
          rw [List.filterMap_cons, List.filterMap_nil]
          have hpart : partAtThreshold t.name v a.2 c = if t.side = some a.2 then
              keptPart c (t.points.filter (closeThreshold v)) else none := by
            unfold partAtThreshold
            rw [ht]
            simp
          rw [hpart]
          have hkey : ∀ tc v', Has conv c r.diagnostic a.1 a.2 tc v' → tc = t ∧ v' = v := by
            intro tc v' hh
            have h1 := hh.2.1; rw [ht] at h1
            obtain rfl := Option.some.inj h1
            have h2 := hh.2.2.1; rw [hv] at h2
            exact ⟨rfl, (Option.some.inj h2).symm⟩
          by_cases hside : t.side = some a.2
          · rw [if_pos hside]
            cases hp : t.points.filter (closeThreshold v) with
            | nil =>
              constructor
              · rintro ⟨h, hm⟩
                have := Except.ok.inj h
                injection this with _ _ h3 _
                rw [hm] at h3
                nomatch h3
              · rintro ⟨_, ⟨h, _⟩ | ⟨_, tc, v', hh, _⟩⟩
                · exact absurd h hno
                · obtain ⟨rfl, rfl⟩ := hkey _ _ hh
                  obtain ⟨p, hp1, hp2⟩ := hh.2.2.2.2
                  have : p ∈ tc.points.filter (closeThreshold v') := List.mem_filter.2 ⟨hp1, (closeThreshold_iff _ _).2 hp2⟩
                  rw [hp] at this
                  nomatch this
            | cons p ps =>
              have hhas : Has conv c r.diagnostic a.1 a.2 t v := by
                refine ⟨hn, ht, hv, hside, p, ?_⟩
                have : p ∈ t.points.filter (closeThreshold v) := by rw [hp]; simp
                exact ⟨(List.mem_filter.1 this).1, (closeThreshold_iff _ _).1 (List.mem_filter.1 this).2⟩
              rw [show keptPart c (p :: ps) = some ⟨c, p :: ps⟩ by simp [keptPart]]
              simp only [Except.map, List.nil_append, Except.ok.injEq, TiState.mk.injEq, Bool.false_or]
              constructor
              · rintro ⟨⟨rfl, rfl, rfl, rfl⟩, _⟩
                exact ⟨rfl, Or.inr ⟨rfl, t, v, hhas, by rw [hp], rfl⟩⟩
              · rintro ⟨rfl, ⟨h, _⟩ | ⟨rfl, tc, v', hh, h1, h2⟩⟩
                · exact absurd h hno
                · obtain ⟨rfl, rfl⟩ := hkey _ _ hh
                  rw [hp] at h1
                  exact ⟨⟨h1.symm, rfl, rfl, h2.symm⟩, rfl⟩
          · rw [if_neg hside]
            constructor
            · rintro ⟨h, hm⟩
              have := Except.ok.inj h
              injection this with _ _ h3 _
              rw [hm] at h3
              nomatch h3
            · rintro ⟨_, ⟨h, _⟩ | ⟨_, tc, v', hh, _⟩⟩
              · exact absurd h hno
              · obtain ⟨rfl, rfl⟩ := hkey _ _ hh
                exact absurd hh.2.2.2.1 hside
  · have hno : ∀ c ∈ cubes, c.name ≠ r.diagnostic := fun c hc hn => hex ⟨c, hc, hn⟩
    have hfil := f2 hno
    have hrhs : ∀ P : TreeCube → Prop, ¬ (∃ c' ∈ cubes, c'.name = r.diagnostic ∧ P c') := by
      rintro P ⟨c', hc', hn', _⟩
      exact hno c' hc' hn'
    simp only [hrhs, or_false]
    have hout : (match r.ask with
        | none => .ok (takePlain cubes r.key r.node ⟨[], [], [], false⟩ r.diagnostic)
        | some a => (takeThreshold conv cubes r.key r.node ⟨[], [], [], false⟩ r.diagnostic a.1 a.2).map Prod.fst) =
        (.ok (if r.node.ifMissing = none then ⟨[], [], [r.diagnostic], false⟩ else ⟨[], [r.key], [], false⟩) :
          Except Err TiState) := by
      cases r.ask with
      | none =>
        dsimp only
        unfold takePlain
        rw [hfil]
        rfl
      | some a =>
        dsimp only
        unfold takeThreshold
        rw [hfil]
        rfl
    rw [hout]
    by_cases hm : r.node.ifMissing = none
    · rw [if_pos hm]
      constructor
      · rintro ⟨h, hmm⟩
        have := Except.ok.inj h
        injection this with _ _ h3 _
        rw [hmm] at h3
        nomatch h3
      · rintro ⟨_, _, h, _⟩
        exact absurd hm h
    · rw [if_neg hm]
      simp only [Except.ok.injEq, TiState.mk.injEq]
      constructor
      · rintro ⟨⟨rfl, rfl, rfl, rfl⟩, _⟩
        exact ⟨rfl, hno, hm, rfl, rfl, rfl⟩
      · rintro ⟨rfl, _, _, rfl, rfl, rfl⟩
        exact ⟨⟨rfl, rfl, rfl, rfl⟩, rfl⟩

/-! ## C207 -/

/-- The reasons for which a request can be met. -/
def canMeet (conv : String → String → ℚ → Option ℚ) (cubes : List TreeCube) (r : TiReq) : Prop :=
  ((∀ c ∈ cubes, c.name ≠ r.diagnostic) ∧ r.node.ifMissing ≠ none) ∨
  (∃ c ∈ cubes, c.name = r.diagnostic ∧ ∀ a, r.ask = some a → ∃ tc v, Has conv c r.diagnostic a.1 a.2 tc v)

theorem exists_good (conv : String → String → ℚ → Option ℚ) (cubes : List TreeCube) (r : TiReq) :
    (∃ s, goodOutcome conv cubes r s) ↔ canMeet conv cubes r := by
  unfold goodOutcome canMeet
  constructor
  · rintro ⟨s, _, ⟨h1, h2, _⟩ | ⟨c, hc, hn, _, h⟩⟩
    · exact Or.inl ⟨h1, h2⟩
    · refine Or.inr ⟨c, hc, hn, fun a ha => ?_⟩
      rw [ha] at h
      obtain ⟨tc, v, hh, _⟩ := h
      exact ⟨tc, v, hh⟩
  · rintro (⟨h1, h2⟩ | ⟨c, hc, hn, h⟩)
    · exact ⟨⟨[], [r.key], [], false⟩, rfl, Or.inl ⟨h1, h2, rfl, rfl, rfl⟩⟩
    · cases ha : r.ask with
      | none => exact ⟨⟨[⟨c, c.points⟩], [], [], false⟩, rfl, Or.inr ⟨c, hc, hn, rfl, rfl, rfl⟩⟩
      | some a =>
        obtain ⟨tc, v, hh⟩ := h a ha
        exact ⟨⟨[⟨c, tc.points.filter (closeThreshold v)⟩], [], [], decide (tc.name = "threshold")⟩, rfl,
          Or.inr ⟨c, hc, hn, rfl, tc, v, hh, rfl, rfl⟩⟩

theorem gatherAll_missing (l : List TiState) : (gatherAll l).missing = [] ↔ ∀ s ∈ l, s.missing = [] := by
  induction l with
  | nil => simp [gatherAll]
  | cons a l ih =>
    show a.missing ++ (gatherAll l).missing = [] ↔ _
    rw [List.append_eq_nil_iff, ih, List.forall_mem_cons]

theorem mem_gatherAll_used (l : List TiState) (x : TreeSlice) : x ∈ (gatherAll l).used ↔ ∃ s ∈ l, x ∈ s.used := by
  induction l with
  | nil => simp [gatherAll]
  | cons a l ih =>
    show x ∈ a.used ++ (gatherAll l).used ↔ _
    rw [List.mem_append, ih]
    simp

theorem mem_gatherAll_optional (l : List TiState) (x : String) : x ∈ (gatherAll l).optional ↔ ∃ s ∈ l, x ∈ s.optional := by
  induction l with
  | nil => simp [gatherAll]
  | cons a l ih =>
    show x ∈ a.optional ++ (gatherAll l).optional ↔ _
    rw [List.mem_append, ih]
    simp

theorem gatherAll_named (l : List TiState) : (gatherAll l).named = true ↔ ∃ s ∈ l, s.named = true := by
  induction l with
  | nil => simp [gatherAll]
  | cons a l ih =>
    show (a.named || (gatherAll l).named) = true ↔ _
    rw [Bool.or_eq_true, ih]
    simp

theorem prepare_iff (conv : String → String → ℚ → Option ℚ) (target : Option ℤ) (tree : List DoneEntry)
    (cubes : List TreeCube) (hnd : (cubes.map TreeCube.name).Nodup) (used : List TreeSlice) (optional : List String)
    (named : Bool) :
    prepareInputs conv target tree cubes = .ok (used, optional, named) ↔
      (∃ tpl, coincidence target cubes = .ok tpl) ∧ ∃ l, List.Forall₂ (goodOutcome conv cubes) (tree.flatMap entryReqs) l ∧
        used = (gatherAll l).used ∧ optional = (gatherAll l).optional ∧ named = (gatherAll l).named := by
  unfold prepareInputs
  simp only [bind, Except.bind]
  cases hc : coincidence target cubes with
  | error e => simp
  | ok tpl =>
    simp only [Except.ok.injEq, exists_eq', true_and]
    rw [takeEntries_eq]
    have hfor : ∀ (rs : List TiReq) (l : List TiState),
        (List.Forall₂ (fun r s => reqOutcome conv cubes r = .ok s) rs l ∧ ∀ s ∈ l, s.missing = []) ↔
          List.Forall₂ (goodOutcome conv cubes) rs l := by
      intro rs l
      constructor
      · rintro ⟨h1, h2⟩
        induction h1 with
        | nil => exact .nil
        | cons h _ ih =>
          rw [List.forall_mem_cons] at h2
          exact .cons ((reqOutcome_good conv cubes hnd _ _).1 ⟨h, h2.1⟩) (ih h2.2)
      · intro h
        induction h with
        | nil => exact ⟨.nil, by simp⟩
        | cons h _ ih =>
          obtain ⟨h1, h2⟩ := (reqOutcome_good conv cubes hnd _ _).2 h
          exact ⟨.cons h1 ih.1, List.forall_mem_cons.2 ⟨h2, ih.2⟩⟩
    constructor
    · intro h
      cases hm : (tree.flatMap entryReqs).mapM (reqOutcome conv cubes) with
      | error e => rw [hm] at h; nomatch h
      | ok l =>
        rw [hm] at h
        simp only [Except.map, TiState.empty_add] at h
        by_cases hmiss : (gatherAll l).missing ≠ []
        · rw [if_pos hmiss] at h; nomatch h
        · rw [if_neg hmiss] at h
          push Not at hmiss
          have hinj := Except.ok.inj h
          simp only [Prod.mk.injEq] at hinj
          exact ⟨l, (hfor _ _).1 ⟨mapM_ok_forall₂ hm, (gatherAll_missing l).1 hmiss⟩, hinj.1.symm, hinj.2.1.symm, hinj.2.2.symm⟩
    · rintro ⟨l, h, rfl, rfl, rfl⟩
      obtain ⟨h1, h2⟩ := (hfor _ _).2 h
      rw [mapM_of_forall₂ h1]
      simp only [Except.map, TiState.empty_add]
      rw [if_neg (by rw [(gatherAll_missing l).2 h2]; simp)]

/-- The requests of a tree are what its nodes ask for. -/
theorem mem_reqs (target : Option ℚ) (t : RawTree) (r : TiReq) :
    r ∈ (t.entries.map (doneOf target)).flatMap entryReqs ↔
      (r.ask = none ∧ AsksPlain t r.key r.node r.diagnostic) ∨
      (∃ a, r.ask = some a ∧ Asks target t r.key r.node r.diagnostic a.1 a.2) := by
  unfold AsksPlain Asks
  rw [List.mem_flatMap]
  constructor
  · rintro ⟨x, hx, hm⟩
    obtain ⟨⟨s, e⟩, he, rfl⟩ := List.mem_map.1 hx
    cases e with
    | leaf l => simp [doneOf, entryReqs] at hm
    | node n =>
      cases hd : n.deterministic with
      | true =>
        simp only [doneOf, entryReqs, hd, if_true, List.mem_map] at hm
        obtain ⟨d, hd', rfl⟩ := hm
        exact Or.inl ⟨rfl, he, hd, by rw [← diagnostics_eq]; exact hd'⟩
      | false =>
        simp only [doneOf, entryReqs, hd, Bool.false_eq_true, if_false, List.mem_map] at hm
        obtain ⟨a, ha, rfl⟩ := hm
        refine Or.inr ⟨a.2, rfl, he, hd, ?_⟩
        unfold DoneEntry.asks at ha
        simp only [entryThr, hd, Bool.false_eq_true, if_false, expandNested_eq, items_nestMap, diagnostics_eq] at ha
        exact ha
  · rintro (⟨h1, he, hd, hm⟩ | ⟨a, h1, he, hd, hm⟩)
    · refine ⟨_, List.mem_map.2 ⟨_, he, rfl⟩, ?_⟩
      simp only [doneOf, entryReqs, hd, if_true, List.mem_map]
      refine ⟨r.diagnostic, by rw [diagnostics_eq]; exact hm, ?_⟩
      obtain ⟨k, n, d, ask⟩ := r
      simp only at h1
      rw [h1]
    · refine ⟨_, List.mem_map.2 ⟨_, he, rfl⟩, ?_⟩
      simp only [doneOf, entryReqs, hd, Bool.false_eq_true, if_false, List.mem_map]
      refine ⟨(r.diagnostic, a.1, a.2), ?_, ?_⟩
      · unfold DoneEntry.asks
        simp only [entryThr, hd, Bool.false_eq_true, if_false, expandNested_eq, items_nestMap, diagnostics_eq]
        exact hm
      · obtain ⟨k, n, d, ask⟩ := r
        simp only at h1
        rw [h1]

theorem forall₂_exists {α β : Type} (R : α → β → Prop) (l : List α) : (∃ r, List.Forall₂ R l r) ↔ ∀ a ∈ l, ∃ b, R a b := by
  induction l with
  | nil => simp
  | cons a l ih =>
    rw [List.forall_mem_cons, ← ih]
    constructor
    · rintro ⟨r, h⟩
      cases h with
      | cons h1 h2 => exact ⟨⟨_, h1⟩, ⟨_, h2⟩⟩
    · rintro ⟨⟨b, hb⟩, ⟨r, hr⟩⟩
      exact ⟨b :: r, .cons hb hr⟩

/-- **C207** (acceptance): inputs of different names, which are for the same time and period, are accepted exactly if for each
deterministic node each diagnostic is there, and for each other node each diagnostic is there with a threshold within 1 % of
the one asked for (in the units of the input) and the right sense; nodes with if_diagnostic_missing may do without a
diagnostic, but if it is there it must have the threshold. -/
theorem C207_accepted (conv : String → String → ℚ → Option ℚ) (target : Option ℤ) (period : Option ℚ) (t : RawTree)
    (cubes : List TreeCube) (hnd : (cubes.map TreeCube.name).Nodup) :
    (∃ r, prepareInputs conv target (t.entries.map (doneOf period)) cubes = .ok r) ↔
      (∃ tpl, coincidence target cubes = .ok tpl) ∧
      (∀ key n d, AsksPlain t key n d → n.ifMissing ≠ none ∨ ∃ c ∈ cubes, c.name = d) ∧
      (∀ key n d thr side, Asks period t key n d thr side →
        (n.ifMissing ≠ none ∧ ∀ c ∈ cubes, c.name ≠ d) ∨ ∃ c ∈ cubes, ∃ tc v, Has conv c d thr side tc v) := by
  have hprep : (∃ r, prepareInputs conv target (t.entries.map (doneOf period)) cubes = .ok r) ↔
      (∃ tpl, coincidence target cubes = .ok tpl) ∧
        ∀ r ∈ (t.entries.map (doneOf period)).flatMap entryReqs, canMeet conv cubes r := by
    simp only [← exists_good]
    rw [← forall₂_exists]
    constructor
    · rintro ⟨⟨a, b, c⟩, h⟩
      obtain ⟨h1, l, h2, _⟩ := (prepare_iff conv target _ cubes hnd a b c).1 h
      exact ⟨h1, l, h2⟩
    · rintro ⟨h1, l, h2⟩
      exact ⟨_, (prepare_iff conv target _ cubes hnd _ _ _).2 ⟨h1, l, h2, rfl, rfl, rfl⟩⟩
  rw [hprep]
  apply and_congr Iff.rfl
  constructor
  · intro h
    refine ⟨fun key n d ha => ?_, fun key n d thr side ha => ?_⟩
    · rcases h ⟨key, n, d, none⟩ ((mem_reqs period t _).2 (Or.inl ⟨rfl, ha⟩)) with ⟨_, h2⟩ | ⟨c, hc, hn, _⟩
      · exact Or.inl h2
      · exact Or.inr ⟨c, hc, hn⟩
    · rcases h ⟨key, n, d, some (thr, side)⟩ ((mem_reqs period t _).2 (Or.inr ⟨_, rfl, ha⟩)) with ⟨h1, h2⟩ | ⟨c, hc, _, h3⟩
      · exact Or.inl ⟨h2, h1⟩
      · exact Or.inr ⟨c, hc, h3 _ rfl⟩
  · rintro ⟨h1, h2⟩ r hr
    rcases (mem_reqs period t r).1 hr with ⟨ha, hp⟩ | ⟨a, ha, hp⟩
    · by_cases hex : ∃ c ∈ cubes, c.name = r.diagnostic
      · obtain ⟨c, hc, hn⟩ := hex
        exact Or.inr ⟨c, hc, hn, fun a h => by rw [ha] at h; nomatch h⟩
      · rcases h1 _ _ _ hp with h | h
        · exact Or.inl ⟨fun c hc hn => hex ⟨c, hc, hn⟩, h⟩
        · exact absurd h hex
    · rcases h2 _ _ _ _ _ hp with ⟨h3, h4⟩ | ⟨c, hc, tc, v, hh⟩
      · exact Or.inl ⟨h4, h3⟩
      · refine Or.inr ⟨c, hc, hh.1, fun b hb => ?_⟩
        rw [ha] at hb
        obtain rfl := Option.some.inj hb
        exact ⟨tc, v, hh⟩

/-- **C207** (what is taken): of accepted inputs, those parts are used that a node asks for: whole inputs for deterministic
nodes, and for the others the thresholds close to the one asked for; the nodes to be bypassed are those of which an input is
not there. -/
theorem C207_taken (conv : String → String → ℚ → Option ℚ) (target : Option ℤ) (period : Option ℚ) (t : RawTree)
    (cubes : List TreeCube) (hnd : (cubes.map TreeCube.name).Nodup) (used : List TreeSlice) (optional : List String)
    (named : Bool) (h : prepareInputs conv target (t.entries.map (doneOf period)) cubes = .ok (used, optional, named)) :
    (∀ c ps, ⟨c, ps⟩ ∈ used ↔ c ∈ cubes ∧
      ((ps = c.points ∧ ∃ key n, AsksPlain t key n c.name) ∨
       ∃ key n thr side tc v, Asks period t key n c.name thr side ∧ Has conv c c.name thr side tc v ∧
        ps = tc.points.filter fun p => decide (close v p))) ∧
    (∀ key, key ∈ optional ↔ ∃ n d, (AsksPlain t key n d ∨ ∃ thr side, Asks period t key n d thr side) ∧
      ∀ c ∈ cubes, c.name ≠ d) ∧
    (named = true ↔ ∃ key n d thr side, Asks period t key n d thr side ∧ ∃ c ∈ cubes, c.name = d ∧
      ∃ tc, c.threshold = some tc ∧ tc.name = "threshold") := by
  obtain ⟨_, l, hl, rfl, rfl, rfl⟩ := (prepare_iff conv target _ cubes hnd _ _ _).1 h
  have hfilter : ∀ (tc : TiThreshold) (v : ℚ), tc.points.filter (closeThreshold v) =
      tc.points.filter fun p => decide (close v p) := by
    intro tc v
    apply List.filter_congr
    intro p _
    rw [Bool.eq_iff_iff, closeThreshold_iff, decide_eq_true_eq]
  have hleft : ∀ r ∈ (t.entries.map (doneOf period)).flatMap entryReqs, ∃ s ∈ l, goodOutcome conv cubes r s := by
    clear h
    revert hl
    generalize (t.entries.map (doneOf period)).flatMap entryReqs = rs
    intro hl
    induction hl with
    | nil => simp
    | cons h1 _ ih =>
      intro r hr
      rcases List.mem_cons.1 hr with rfl | hr
      · exact ⟨_, by simp, h1⟩
      · obtain ⟨s, hs, hg⟩ := ih r hr
        exact ⟨s, List.mem_cons_of_mem _ hs, hg⟩
  have hright : ∀ s ∈ l, ∃ r ∈ (t.entries.map (doneOf period)).flatMap entryReqs, goodOutcome conv cubes r s := by
    clear h hleft
    revert hl
    generalize (t.entries.map (doneOf period)).flatMap entryReqs = rs
    intro hl
    induction hl with
    | nil => simp
    | cons h1 _ ih =>
      intro s hs
      rcases List.mem_cons.1 hs with rfl | hs
      · exact ⟨_, by simp, h1⟩
      · obtain ⟨r, hr, hg⟩ := ih s hs
        exact ⟨r, List.mem_cons_of_mem _ hr, hg⟩
  refine ⟨fun c ps => ?_, fun key => ?_, ?_⟩
  · rw [mem_gatherAll_used]
    constructor
    · rintro ⟨s, hs, hm⟩
      obtain ⟨r, hr, hg⟩ := hright s hs
      obtain ⟨_, ⟨_, _, hu, _⟩ | ⟨c', hc', hn', _, hask⟩⟩ := hg
      · rw [hu] at hm; nomatch hm
      · rcases (mem_reqs period t r).1 hr with ⟨ha, hp⟩ | ⟨a, ha, hp⟩
        · rw [ha] at hask
          rw [hask.1] at hm
          have heq := List.mem_singleton.1 hm
          injection heq with e1 e2
          subst e1
          exact ⟨hc', Or.inl ⟨e2, r.key, r.node, by rw [hn']; exact hp⟩⟩
        · rw [ha] at hask
          obtain ⟨tc, v, hh, hu, _⟩ := hask
          rw [hu] at hm
          have heq := List.mem_singleton.1 hm
          injection heq with e1 e2
          subst e1
          exact ⟨hc', Or.inr ⟨r.key, r.node, a.1, a.2, tc, v, by rw [hn']; exact hp, by rw [hn']; exact hh, by rw [e2, hfilter]⟩⟩
    · rintro ⟨hc, ⟨rfl, key, n, hp⟩ | ⟨key, n, thr, side, tc, v, hp, hh, rfl⟩⟩
      · obtain ⟨s, hs, _, ⟨hno, _⟩ | ⟨c', hc', hn', _, hask⟩⟩ := hleft ⟨key, n, c.name, none⟩
          ((mem_reqs period t _).2 (Or.inl ⟨rfl, hp⟩))
        · exact absurd rfl (hno c hc)
        · have hcc : c' = c := List.inj_on_of_nodup_map hnd hc' hc hn'
          subst hcc
          exact ⟨s, hs, by rw [hask.1]; simp⟩
      · obtain ⟨s, hs, _, ⟨hno, _⟩ | ⟨c', hc', hn', _, tc', v', hh', hu, _⟩⟩ := hleft ⟨key, n, c.name, some (thr, side)⟩
          ((mem_reqs period t _).2 (Or.inr ⟨_, rfl, hp⟩))
        · exact absurd rfl (hno c hc)
        · have hcc : c' = c := List.inj_on_of_nodup_map hnd hc' hc hn'
          subst hcc
          have e1 : tc' = tc := Option.some.inj (hh'.2.1.symm.trans hh.2.1)
          subst e1
          have e2 : v' = v := Option.some.inj (hh'.2.2.1.symm.trans hh.2.2.1)
          subst e2
          exact ⟨s, hs, by rw [hu, hfilter]; simp⟩
  · rw [mem_gatherAll_optional]
    constructor
    · rintro ⟨s, hs, hm⟩
      obtain ⟨r, hr, hg⟩ := hright s hs
      obtain ⟨_, ⟨hno, _, _, ho, _⟩ | ⟨_, _, _, ho, _⟩⟩ := hg
      · rw [ho] at hm
        obtain rfl := List.mem_singleton.1 hm
        refine ⟨r.node, r.diagnostic, ?_, hno⟩
        rcases (mem_reqs period t r).1 hr with ⟨_, hp⟩ | ⟨a, _, hp⟩
        · exact Or.inl hp
        · exact Or.inr ⟨a.1, a.2, hp⟩
      · rw [ho] at hm; nomatch hm
    · rintro ⟨n, d, hp, hno⟩
      have hr : ∃ ask, (⟨key, n, d, ask⟩ : TiReq) ∈ (t.entries.map (doneOf period)).flatMap entryReqs := by
        rcases hp with hp | ⟨thr, side, hp⟩
        · exact ⟨none, (mem_reqs period t _).2 (Or.inl ⟨rfl, hp⟩)⟩
        · exact ⟨some (thr, side), (mem_reqs period t _).2 (Or.inr ⟨_, rfl, hp⟩)⟩
      obtain ⟨ask, hr⟩ := hr
      obtain ⟨s, hs, _, ⟨_, _, _, ho, _⟩ | ⟨c', hc', hn', _⟩⟩ := hleft _ hr
      · exact ⟨s, hs, by rw [ho]; simp⟩
      · exact absurd hn' (hno c' hc')
  · rw [gatherAll_named]
    constructor
    · rintro ⟨s, hs, hm⟩
      obtain ⟨r, hr, hg⟩ := hright s hs
      obtain ⟨_, ⟨_, _, _, _, hf⟩ | ⟨c', hc', hn', _, hask⟩⟩ := hg
      · rw [hf] at hm; nomatch hm
      · rcases (mem_reqs period t r).1 hr with ⟨ha, hp⟩ | ⟨a, ha, hp⟩
        · rw [ha] at hask
          rw [hask.2] at hm; nomatch hm
        · rw [ha] at hask
          obtain ⟨tc, v, hh, _, hnm⟩ := hask
          rw [hm] at hnm
          exact ⟨r.key, r.node, r.diagnostic, a.1, a.2, hp, c', hc', hn', tc, hh.2.1, by simpa using hnm.symm⟩
    · rintro ⟨key, n, d, thr, side, hp, c, hc, hn, tc, htc, hname⟩
      obtain ⟨s, hs, _, ⟨hno, _⟩ | ⟨c', hc', hn', _, tc', v', hh', _, hnm⟩⟩ := hleft ⟨key, n, d, some (thr, side)⟩
        ((mem_reqs period t _).2 (Or.inr ⟨_, rfl, hp⟩))
      · exact absurd hn (hno c hc)
      · have hcc : c' = c := List.inj_on_of_nodup_map hnd hc' hc (hn'.trans hn.symm)
        subst hcc
        have e1 : tc' = tc := Option.some.inj (hh'.2.1.symm.trans htc)
        subst e1
        exact ⟨s, hs, by rw [hnm]; simpa using hname⟩

end Improver
