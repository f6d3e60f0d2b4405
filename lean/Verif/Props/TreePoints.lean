import Verif.Props.TreeCheckRun
import Mathlib.Order.WellFounded
import Mathlib.Data.Fintype.Card
import Mathlib.Order.Preorder.Finite

/-!
C205: a checked decision tree gives every point a category.
-/

namespace Improver
namespace Spec

/-- `a` is a destination of the decision node `b`. -/
def LeadsTo (t : RawTree) (b a : String) : Prop :=
  ∃ n, (b, RawEntry.node n) ∈ t.entries ∧ (n.ifTrue = .name a ∨ n.ifFalse = .name a)

/-- No way through the tree leads back. -/
def NoWayBack (t : RawTree) : Prop := ∀ a, ¬ Relation.TransGen (LeadsTo t) a a

end Spec

open Spec

theorem atPoint_get (t : RawTree) (value : String → ℕ → DTExpr) (s : String) :
    (t.atPoint value).get s = (rawGet t.entries s).map fun e => e.atPoint (value s) := by
  unfold RawTree.atPoint DTree.get rawGet
  induction t.entries with
  | nil => rfl
  | cons x l ih =>
    rw [List.map_cons]
    by_cases hx : x.1 = s
    · rw [List.find?_cons_of_pos (by simpa using hx), List.find?_cons_of_pos (by simpa using hx), ← hx]
      rfl
    · rw [List.find?_cons_of_neg (by simpa using hx), List.find?_cons_of_neg (by simpa using hx)]
      exact ih

theorem atPoint_nodeOk (target : Option ℚ) (t : RawTree) (name : String) (n : RawNode) (h : NodeChecked target t name n)
    (h1 : n.thresholds ≠ []) (h2 : n.fields.length ≤ 2) (h3 : n.ifTrue ≠ n.ifFalse) (value : ℕ → DTExpr) :
    Spec.NodeOk (n.atPoint value) := by
  have hf : n.fields ≠ [] := by
    intro hf
    have := h.count
    rw [hf] at this
    exact h1 (List.length_eq_zero_iff.1 this)
  refine ⟨h.comparator, ?_, ?_, h3⟩
  · intro hnil
    have := congrArg List.length hnil
    simp only [RawNode.atPoint, List.length_map, List.length_zipIdx, List.length_zip, List.length_nil] at this
    have a := List.length_pos_of_ne_nil h1
    have b := List.length_pos_of_ne_nil hf
    omega
  · show n.combination = "AND" ∨ n.combination = "OR" ∨ n.combination = "" ∧ _
    by_cases h5 : n.fields.length = 2
    · rcases h.two h5 with h6 | h6
      · exact Or.inl h6
      · exact Or.inr (Or.inl h6)
    · refine Or.inr (Or.inr ⟨h.notTwo h5, ?_⟩)
      simp only [RawNode.atPoint, List.length_map, List.length_zipIdx, List.length_zip]
      have a := List.length_pos_of_ne_nil h1
      have b := List.length_pos_of_ne_nil hf
      omega

/-- On finitely many names a relation without ways back ends. -/
theorem ends_of_noWayBack (names : List String) (r : String → String → Prop) (h : ∀ a, ¬ Relation.TransGen r a a) :
    WellFounded fun a b : {s : String // s ∈ names} => r b.1 a.1 := by
  have hfin : Finite {s : String // s ∈ names} := by
    have : Finite {s : String // s ∈ names.toFinset} := inferInstance
    exact Finite.of_injective (fun x : {s : String // s ∈ names} => (⟨x.1, by simpa using x.2⟩ : {s // s ∈ names.toFinset}))
      (fun x y hxy => by
        have := congrArg Subtype.val hxy
        exact Subtype.ext this)
  let R : {s : String // s ∈ names} → {s : String // s ∈ names} → Prop := fun a b => Relation.TransGen r b.1 a.1
  have : IsTrans _ R := ⟨fun a b c h1 h2 => h2.trans h1⟩
  have : Std.Irrefl R := ⟨fun a ha => h a.1 ha⟩
  have hw : WellFounded R := Finite.wellFounded_of_trans_of_irrefl R
  exact Subrelation.wf (fun hr => Relation.TransGen.single hr) hw

/-- **C205**: if the check accepts a tree, the tree starts with a decision node, no way through it leads back, and each decision
node has one or two fields, a value to test against and two different destinations, then every point gets a category, whatever
the data: that of the leaf to which the walk through the tree leads. -/
theorem C205_every_point (target : Option ℚ) (t : RawTree) (hnd : (t.entries.map Prod.fst).Nodup)
    (hchk : ∃ det prob, checkTree target t = .ok (.inputs det prob)) (s : String) (n : RawNode) (rest : List (String × RawEntry))
    (hstart : t.entries = (s, .node n) :: rest) (hback : NoWayBack t)
    (hnodes : ∀ name n, (name, RawEntry.node n) ∈ t.entries →
      n.thresholds ≠ [] ∧ n.fields.length ≤ 2 ∧ n.ifTrue ≠ n.ifFalse)
    (value : String → ℕ → DTExpr) :
    ∃ c, categoryAtPoint (t.atPoint value) (.name s) = .ok (some c) ∧
      Spec.Reaches (t.atPoint value) (.name s) c ∧
      ∃ name l, (name, RawEntry.leaf l) ∈ t.entries ∧ l.value = .int c := by
  have hc := (C204_accepted target t hnd).1 hchk
  have hget : ∀ name e, (name, e) ∈ t.entries → (t.atPoint value).get name = some (e.atPoint (value name)) := by
    intro name e he
    rw [atPoint_get, (rawGet_iff t.entries hnd name e).2 he]
    rfl
  have hok : Spec.TreeOk (t.atPoint value) := by
    intro name dn fl hg
    rw [atPoint_get] at hg
    rw [Option.map_eq_some_iff] at hg
    obtain ⟨e, he, hd⟩ := hg
    rw [rawGet_iff t.entries hnd] at he
    cases e with
    | leaf l => nomatch hd
    | node rn =>
      have hdn : rn.atPoint (value name) = dn := by
        unfold RawEntry.atPoint at hd
        injection hd
      rw [← hdn]
      obtain ⟨h1, h2, h3⟩ := hnodes name rn he
      exact atPoint_nodeOk target t name rn (hc.nodes name rn he) h1 h2 h3 _
  have hwf := ends_of_noWayBack (t.entries.map Prod.fst) (LeadsTo t) hback
  have hreach : ∀ x : {a : String // a ∈ t.entries.map Prod.fst}, ∃ c, Spec.Reaches (t.atPoint value) (.name x.1) c ∧
      ∃ name l, (name, RawEntry.leaf l) ∈ t.entries ∧ l.value = .int c := by
    intro x
    induction x using hwf.induction with
    | _ x ih =>
      obtain ⟨name, hname⟩ := x
      obtain ⟨⟨nm, e⟩, he, hnm⟩ := List.mem_map.1 hname
      dsimp only at hnm
      subst hnm
      cases e with
      | leaf l =>
        obtain ⟨c, hl⟩ := (hc.leaves nm l he).value
        refine ⟨c, Spec.Reaches.leaf nm c l.ifNight [l.unreachable] ?_, nm, l, he, hl⟩
        rw [hget nm _ he]
        simp only [RawEntry.atPoint, hl]
      | node rn =>
        have hg := hget nm _ he
        have hstep : ∀ d, d = rn.ifTrue ∨ d = rn.ifFalse → ∃ c, Spec.Reaches (t.atPoint value) d c ∧
            ∃ name l, (name, RawEntry.leaf l) ∈ t.entries ∧ l.value = .int c := by
          intro d hd
          obtain ⟨s', e', rfl, hs'⟩ := (hc.nodes nm rn he).destinations d hd
          exact ih ⟨s', List.mem_map.2 ⟨_, hs', rfl⟩⟩ ⟨rn, he, hd.imp Eq.symm Eq.symm⟩
        by_cases hp : Spec.passes (rn.atPoint (value nm))
        · obtain ⟨c, h1, h2⟩ := hstep rn.ifTrue (Or.inl rfl)
          exact ⟨c, Spec.Reaches.yes nm _ _ c hg hp h1, h2⟩
        · obtain ⟨c, h1, h2⟩ := hstep rn.ifFalse (Or.inr rfl)
          exact ⟨c, Spec.Reaches.no nm _ _ c hg hp h1, h2⟩
  obtain ⟨c, hr, hl⟩ := hreach ⟨s, by rw [hstart]; simp⟩
  obtain ⟨o, ho, hoc⟩ := C43_walk (t.atPoint value) hok s _ _ (hget s (.node n) (by rw [hstart]; simp))
  refine ⟨c, ?_, hr, hl⟩
  rw [ho, (hoc c).2 hr]

/-! ## Examples -/

/-- A node that tests a probability of rain. -/
def rainNode (fields : List (NestItem FieldItem)) (combination : String) (yes no : String) : RawNode :=
  ⟨fields, fields.map fun _ => .one "above", fields.map fun _ => .one ⟨1 / 10, "mm", some 3600⟩, fields.map fun _ => some (1 / 2),
    ">=", combination, .name yes, .name no, none, false, []⟩

/-- A leaf. -/
def plainLeaf (c : ℤ) : RawLeaf := ⟨.int c, none, false, none, []⟩

/-- The diagnostic of the examples. -/
def rainField : NestItem FieldItem := .one (.diagnostic "probability_of_rain_above_threshold")

/-- A tree with two decision nodes; the second tests a difference of two probabilities. -/
def smallTree : RawTree :=
  ⟨some ["name"],
    [("Rain", .node (rainNode [rainField] "" "Heavy" "Dry")),
     ("Heavy", .node ⟨[.many [.diagnostic "probability_of_rain_above_threshold", .other,
        .diagnostic "probability_of_snow_above_threshold"]], [.many ["above", "above"]],
        [.many [⟨1, "mm", some 3600⟩, ⟨1, "cm", none⟩]], [some 0], ">", "", .name "Wet", .name "Snow", some "if_true", false, []⟩),
     ("Dry", .leaf ⟨.int 1, some "Night", false, none, []⟩),
     ("Night", .leaf ⟨.int 0, none, false, none, []⟩),
     ("Wet", .leaf ⟨.int 12, none, false, some "rain", []⟩),
     ("Snow", .leaf ⟨.int 24, none, false, some "rain", []⟩)]⟩

/-- The check accepts the example, and lists its inputs with thresholds for 3 hours. -/
example : checkTree (some 10800) smallTree = .ok (.inputs []
    [("probability_of_rain_above_threshold", "mm", [3 / 10, 3]), ("probability_of_snow_above_threshold", "cm", [1])]) := by
  decide +kernel

/-- The other conditions of C205 hold for it. -/
example : NoWayBack smallTree ∧ ∀ name n, (name, RawEntry.node n) ∈ smallTree.entries →
    n.thresholds ≠ [] ∧ n.fields.length ≤ 2 ∧ n.ifTrue ≠ n.ifFalse := by
  have hstep : ∀ b a, LeadsTo smallTree b a → (b = "Rain" ∧ a ≠ "Rain") ∨ (b = "Heavy" ∧ a ≠ "Heavy" ∧ a ≠ "Rain") := by
    rintro b a ⟨n, hn, ha⟩
    simp only [smallTree, List.mem_cons, Prod.mk.injEq, List.not_mem_nil, or_false, RawEntry.node.injEq, reduceCtorEq,
      and_false] at hn
    rcases hn with ⟨rfl, rfl⟩ | ⟨rfl, rfl⟩
    · refine Or.inl ⟨rfl, ?_⟩
      rcases ha with ha | ha <;> (injection ha with ha; subst ha; decide)
    · refine Or.inr ⟨rfl, ?_⟩
      rcases ha with ha | ha <;> (injection ha with ha; subst ha; decide)
  refine ⟨?_, ?_⟩
  · have hrain : ∀ a b, Relation.TransGen (LeadsTo smallTree) a b → b ≠ "Rain" := by
      intro a b h
      cases h with
      | single h => rcases hstep _ _ h with h | h; exacts [h.2, h.2.2]
      | tail _ h => rcases hstep _ _ h with h | h; exacts [h.2, h.2.2]
    have hheavy : ∀ b, Relation.TransGen (LeadsTo smallTree) "Heavy" b → b ≠ "Heavy" := by
      intro b h
      rcases Relation.TransGen.tail'_iff.1 h with ⟨c, h1, h2⟩
      rcases hstep _ _ h2 with ⟨rfl, hb⟩ | ⟨rfl, hb, _⟩
      · rcases Relation.reflTransGen_iff_eq_or_transGen.1 h1 with h3 | h3
        · exact absurd h3 (by decide)
        · exact absurd rfl (hrain _ _ h3)
      · exact hb
    intro a h
    obtain ⟨c, h1, h2⟩ := Relation.TransGen.head'_iff.1 h
    rcases hstep _ _ h1 with ⟨rfl, _⟩ | ⟨rfl, _⟩
    · exact hrain _ _ h rfl
    · exact hheavy _ h rfl
  · intro name n hn
    simp only [smallTree, List.mem_cons, Prod.mk.injEq, List.not_mem_nil, or_false, RawEntry.node.injEq, reduceCtorEq,
      and_false] at hn
    rcases hn with ⟨_, rfl⟩ | ⟨_, rfl⟩ <;> exact ⟨by decide, by decide, by decide⟩

/-- C205, what the check does not find: a tree with a way back is accepted, and a point that always passes gets no category. -/
theorem C205_way_back_refuted :
    let t : RawTree := ⟨some ["name"], [("Rain", .node (rainNode [rainField] "" "Again" "Dry")),
      ("Again", .node (rainNode [rainField] "" "Rain" "Dry")), ("Dry", .leaf (plainLeaf 1))]⟩
    (∃ det prob, checkTree (some 3600) t = .ok (.inputs det prob)) ∧
    categoryAtPoint (t.atPoint fun _ _ => ⟨1, []⟩) (.name "Rain") = .ok none :=
  ⟨⟨[], [("probability_of_rain_above_threshold", "mm", [1 / 10])], by decide +kernel⟩, by decide +kernel⟩

/-- C205, what the check does not find: nodes that lead to each other but to which no way leads from the start are accepted. -/
theorem C205_island_refuted :
    let t : RawTree := ⟨some ["name"], [("Rain", .node (rainNode [rainField] "" "Wet" "Dry")),
      ("A", .node (rainNode [rainField] "" "B" "Dry")), ("B", .node (rainNode [rainField] "" "A" "Dry")),
      ("Dry", .leaf (plainLeaf 1)), ("Wet", .leaf (plainLeaf 12))]⟩
    (∃ det prob, checkTree (some 3600) t = .ok (.inputs det prob)) ∧ ¬ Relation.ReflTransGen (LeadsTo t) "Rain" "A" := by
  refine ⟨⟨[], [("probability_of_rain_above_threshold", "mm", [1 / 10])], by decide +kernel⟩, ?_⟩
  intro h
  have key : ∀ x y, Relation.ReflTransGen (LeadsTo ⟨some ["name"], [("Rain", .node (rainNode [rainField] "" "Wet" "Dry")),
      ("A", .node (rainNode [rainField] "" "B" "Dry")), ("B", .node (rainNode [rainField] "" "A" "Dry")),
      ("Dry", .leaf (plainLeaf 1)), ("Wet", .leaf (plainLeaf 12))]⟩) x y → x = "Rain" → y ∈ ["Rain", "Wet", "Dry"] := by
    intro x y h hx
    induction h with
    | refl => rw [hx]; decide
    | tail _ h ih =>
      obtain ⟨n, hn, ha⟩ := h
      simp only [List.mem_cons, Prod.mk.injEq, List.not_mem_nil, or_false, RawEntry.node.injEq, reduceCtorEq,
        and_false] at hn
      rcases hn with ⟨rfl, rfl⟩ | ⟨rfl, rfl⟩ | ⟨rfl, rfl⟩
      · rcases ha with ha | ha <;> (injection ha with ha; subst ha; decide)
      · exact absurd ih (by decide)
      · exact absurd ih (by decide)
  exact absurd (key _ _ h rfl) (by decide)

/-- C205, what the check does not find: a node whose destinations are the same is accepted, and points that pass it get no
category. -/
theorem C205_same_branches_refuted :
    let t : RawTree := ⟨some ["name"], [("Rain", .node (rainNode [rainField] "" "Dry" "Dry")), ("Dry", .leaf (plainLeaf 1))]⟩
    (∃ det prob, checkTree (some 3600) t = .ok (.inputs det prob)) ∧
    categoryAtPoint (t.atPoint fun _ _ => ⟨1, []⟩) (.name "Rain") = .ok none :=
  ⟨⟨[], [("probability_of_rain_above_threshold", "mm", [1 / 10])], by decide +kernel⟩, by decide +kernel⟩

/-- C205, what the check does not find: a node with three fields is accepted only without a combination, with which it cannot be
processed. -/
theorem C205_three_fields_refuted :
    let t : RawTree := ⟨some ["name"], [("Rain", .node (rainNode [rainField, rainField, rainField] "" "Wet" "Dry")),
      ("Dry", .leaf (plainLeaf 1)), ("Wet", .leaf (plainLeaf 12))]⟩
    (∃ det prob, checkTree (some 3600) t = .ok (.inputs det prob)) ∧
    categoryAtPoint (t.atPoint fun _ _ => ⟨1, []⟩) (.name "Rain") = .error .runtimeError :=
  ⟨⟨[], [("probability_of_rain_above_threshold", "mm", [1 / 10])], by decide +kernel⟩, by decide +kernel⟩

/-- **C205** (missing inputs): a node that may do without its inputs is passed over to the destination it names for this case, and no other
node is passed over. -/
theorem C205_missing_way (t : RawTree) (hnd : (t.entries.map Prod.fst).Nodup) (name : String) (n : RawNode)
    (hmem : (name, RawEntry.node n) ∈ t.entries) (value : String → ℕ → DTExpr) :
    (n.ifMissing = some "if_true" → (t.atPoint value).alternative name = .ok n.ifTrue) ∧
    (n.ifMissing = some "if_false" → (t.atPoint value).alternative name = .ok n.ifFalse) ∧
    (n.ifMissing = none → (t.atPoint value).alternative name = .error .keyError) := by
  have hget : (t.atPoint value).get name = some (.node (n.atPoint (value name)) [n.deterministic]) := by
    rw [atPoint_get, (rawGet_iff t.entries hnd name (.node n)).2 hmem]
    rfl
  unfold DTree.alternative
  rw [hget]
  refine ⟨?_, ?_, ?_⟩ <;> intro h <;> simp [RawNode.atPoint, h]

/-- A tree with a node that may do without its input. -/
def tpTree : RawTree := ⟨some ["name"], [("Rain", .node { rainNode [rainField] "" "Wet" "Dry" with ifMissing := some "if_false" }),
  ("Dry", .leaf (plainLeaf 1)), ("Wet", .leaf (plainLeaf 12))]⟩

/-- C205_missing_way has cases. -/
example : (tpTree.atPoint (fun _ _ => ⟨1, []⟩)).alternative "Rain" = .ok (.name "Dry") :=
  (C205_missing_way tpTree (by decide) "Rain" { rainNode [rainField] "" "Wet" "Dry" with ifMissing := some "if_false" }
    (by simp [tpTree]) _).2.1 rfl

end Improver
