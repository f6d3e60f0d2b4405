import Verif.Model.DecisionTree
import Mathlib.Data.List.Sort
import Mathlib.Data.String.Basic

/-!
Model of the check of decision trees, improver/categorical/utilities.py:43-94 and 186-556.

A tree is an ordered dictionary: the keys of its meta entry (if there is one) and its other entries, whose names are
different.  Entries have all the keys that are read without a default.  Lists are nested at most once.  A node named
"deterministic" (utilities.py:389) is left out.
-/

namespace Improver

/-- An item of a list in a node: a value, or a list of values. -/
inductive NestItem (α : Type) where
  | one (a : α)
  | many (l : List α)
deriving DecidableEq

/-- An item of the diagnostic fields: the name of a diagnostic, or an operator or a number (utilities.py:253-271
`is_variable`). -/
inductive FieldItem where
  | diagnostic (name : String)
  | other
deriving DecidableEq

/-- A diagnostic threshold as it is written: value, units and, for accumulations, the period it is for. -/
structure RawThr where
  value : ℚ
  units : String
  period : Option ℚ
deriving DecidableEq

/-- A diagnostic threshold with units (an `AuxCoord`). -/
structure Thr where
  value : ℚ
  units : String
deriving DecidableEq

/-- A decision node.  `thresholds` are the values tested against (probability_thresholds, or thresholds for deterministic
nodes), `none` for one that is not a number; `unknown` are keys that no node has. -/
structure RawNode where
  fields : List (NestItem FieldItem)
  conditions : List (NestItem String)
  diagThresholds : List (NestItem RawThr)
  thresholds : List (Option ℚ)
  comparator : String
  combination : String
  ifTrue : Tgt
  ifFalse : Tgt
  ifMissing : Option String
  deterministic : Bool
  unknown : List String
deriving DecidableEq

/-- The value of a leaf: an integer or something else. -/
inductive LeafVal where
  | int (n : ℤ)
  | text (s : String)
deriving DecidableEq

/-- A leaf. -/
structure RawLeaf where
  value : LeafVal
  ifNight : Option String
  unreachable : Bool
  group : Option String
  unknown : List String
deriving DecidableEq

/-- An entry of the tree. -/
inductive RawEntry where
  | node (n : RawNode)
  | leaf (l : RawLeaf)
deriving DecidableEq

/-- The tree. -/
structure RawTree where
  metaKeys : Option (List String)
  entries : List (String × RawEntry)
deriving DecidableEq

/-- What is found to be wrong. -/
inductive TreeIssue where
  | noMeta | metaMissing | metaUnexpected | duplicateLeaves
  | leafKey | unreachableLeaf | reachableLeaf | leafValue | nightTarget | nightNotLeaf | nightOfNight | loneGroup
  | nodeKey | unreachableNode | missingKey | combination | combinationUnused | comparator | destination | bareCode
  | diagnosticCondition | nesting | nonNumeric | thresholdCount
deriving DecidableEq

/-- utilities.py:123-142 `expand_nested_lists`. -/
def expandNested {α : Type} (l : List (NestItem α)) : List α :=
  l.flatMap fun x => match x with
    | .one a => [a]
    | .many as => as

/-- The names among the items of a list. -/
def itemName : FieldItem → Option String
  | .diagnostic n => some n
  | .other => none

/-- utilities.py:274-291 `get_parameter_names` on nested lists. -/
def parameterNames (fields : List (NestItem FieldItem)) : List (NestItem String) :=
  fields.filterMap fun x => match x with
    | .one a => (itemName a).map NestItem.one
    | .many as => some (.many (as.filterMap itemName))

/-- utilities.py:229-231: names of all diagnostics of a node. -/
def RawNode.diagnostics (n : RawNode) : List String := (expandNested n.fields).filterMap itemName

/-- utilities.py:70-86, one threshold; a target period of 0 is as good as none. -/
def makeThreshold (target : Option ℚ) (t : RawThr) : Except Err Thr :=
  match t.period with
  | none => .ok ⟨t.value, t.units⟩
  | some p =>
    match target with
    | none => .error .valueError
    | some q =>
      if q = 0 then .error .valueError
      else if p = 0 then .error .zeroDivision
      else .ok ⟨t.value * q / p, t.units⟩

/-- utilities.py:71-72, an item; an empty list has no first item. -/
def makeItem (target : Option ℚ) : NestItem RawThr → Except Err (NestItem Thr)
  | .one t => do
    let t ← makeThreshold target t
    .ok (.one t)
  | .many ts => if ts = [] then .error .indexError else do
    let ts ← ts.mapM (makeThreshold target)
    .ok (.many ts)

/-- utilities.py:70-86 for all thresholds of a node. -/
def makeThresholds (target : Option ℚ) (ts : List (NestItem RawThr)) : Except Err (List (NestItem Thr)) :=
  if ts = [] then .error .indexError else ts.mapM (makeItem target)

/-- An entry with the thresholds made for it; deterministic nodes have none. -/
structure DoneEntry where
  name : String
  entry : RawEntry
  thresholds : List (NestItem Thr)
deriving DecidableEq

/-- utilities.py:88-93, one entry. -/
def updateEntry (target : Option ℚ) (e : String × RawEntry) : Except Err DoneEntry :=
  match e.2 with
  | .leaf l => .ok ⟨e.1, .leaf l, []⟩
  | .node n =>
    if n.deterministic then .ok ⟨e.1, .node n, []⟩
    else do
      let ts ← makeThresholds target n.diagThresholds
      .ok ⟨e.1, .node n, ts⟩

/-- utilities.py:43-94 `update_tree_thresholds`. -/
def updateThresholds (target : Option ℚ) (entries : List (String × RawEntry)) : Except Err (List DoneEntry) :=
  entries.mapM (updateEntry target)

/-- utilities.py:372-381. -/
def metaIssues : Option (List String) → List TreeIssue
  | none => [.noMeta]
  | some keys =>
    (if "name" ∈ keys then [] else [.metaMissing]) ++ (if keys.all fun k => decide (k = "name") then [] else [.metaUnexpected])

/-- The destinations an entry names. -/
def entryTargets : RawEntry → List String
  | .node n => [n.ifTrue, n.ifFalse].filterMap fun t => match t with
    | .name s => some s
    | .code _ => none
  | .leaf l => l.ifNight.toList

/-- utilities.py:383-388. -/
def allTargets (entries : List (String × RawEntry)) : List String := entries.flatMap fun e => entryTargets e.2

/-- utilities.py:396: the value of a leaf. -/
def leafValue : RawEntry → Option LeafVal
  | .leaf l => some l.value
  | .node _ => none

/-- utilities.py:396: values of all leaves. -/
def leafValues (entries : List (String × RawEntry)) : List LeafVal := entries.filterMap fun e => leafValue e.2

/-- utilities.py:395-402. -/
def duplicateIssues (entries : List (String × RawEntry)) : List TreeIssue :=
  if (leafValues entries).Nodup then [] else [.duplicateLeaves]

/-- A dictionary access. -/
def rawGet (entries : List (String × RawEntry)) (name : String) : Option RawEntry :=
  (entries.find? fun e => decide (e.1 = name)).map Prod.snd

/-- utilities.py:424-440. -/
def nightIssues (entries : List (String × RawEntry)) : Option String → List TreeIssue
  | none => []
  | some s => match rawGet entries s with
    | none => [.nightTarget]
    | some (.node _) => [.nightNotLeaf]
    | some (.leaf l) => if l.ifNight = none then [] else [.nightOfNight]

/-- Is the entry a leaf of the group? -/
def inGroup (g : String) : RawEntry → Bool
  | .leaf l => decide (l.group = some g)
  | .node _ => false

/-- utilities.py:441-451. -/
def groupIssues (entries : List (String × RawEntry)) : Option String → List TreeIssue
  | none => []
  | some g => if (entries.filter fun e => inGroup g e.2).length = 1 then [.loneGroup] else []

/-- utilities.py:419-422. -/
def leafValueIssues : LeafVal → List TreeIssue
  | .int _ => []
  | .text _ => [.leafValue]

/-- utilities.py:405-451, a leaf. -/
def leafIssues (entries : List (String × RawEntry)) (name : String) (l : RawLeaf) : List TreeIssue :=
  l.unknown.map (fun _ => .leafKey) ++
  (if l.unreachable ∨ name ∈ allTargets entries then [] else [.unreachableLeaf]) ++
  (if l.unreachable ∧ name ∈ allTargets entries then [.reachableLeaf] else []) ++
  leafValueIssues l.value ++ nightIssues entries l.ifNight ++ groupIssues entries l.group

/-- utilities.py:462-471. -/
def missingIssues : Option String → List TreeIssue
  | none => []
  | some k => if k = "if_true" ∨ k = "if_false" then [] else [.missingKey]

/-- utilities.py:473-487. -/
def combinationIssues (n : RawNode) : List TreeIssue :=
  if n.fields.length = 2 then (if n.combination = "AND" ∨ n.combination = "OR" then [] else [.combination])
  else if n.combination = "" then [] else [.combinationUnused]

/-- utilities.py:496-510, one destination. -/
def destinationIssues (entries : List (String × RawEntry)) : Tgt → List TreeIssue
  | .name s => if s ∈ entries.map Prod.fst then [] else [.destination]
  | .code _ => [.bareCode]

/-- One condition. -/
def sideIssues (s : String) : List TreeIssue := if s = "below" ∨ s = "above" then [] else [.diagnosticCondition]

/-- utilities.py:521-526 when the first item is not a list: a list is no condition. -/
def flatConditionIssues : NestItem String → List TreeIssue
  | .one s => sideIssues s
  | .many _ => [.diagnosticCondition]

/-- utilities.py:517-526 when the first item is a list: a text is taken for a list of characters. -/
def nestedConditionIssues : NestItem String → List TreeIssue
  | .one s => s.toList.map fun _ => .diagnosticCondition
  | .many l => l.flatMap sideIssues

/-- utilities.py:514-526. -/
def conditionIssues (conditions : List (NestItem String)) : Except Err (List TreeIssue) :=
  match conditions with
  | [] => .error .indexError
  | .one s :: rest => .ok ((.one s :: rest).flatMap flatConditionIssues)
  | .many l :: rest => .ok ((.many l :: rest).flatMap nestedConditionIssues)

/-- utilities.py:330-340 at one position: all texts, or lists of the same length. -/
def sameNesting {α β γ : Type} : NestItem α → NestItem β → NestItem γ → Bool
  | .one _, .one _, .one _ => true
  | .many a, .many b, .many c => decide (a.length = b.length ∧ b.length = c.length)
  | _, _, _ => false

/-- `all(map(_checker, zip(*lists)))`. -/
def zipNesting {α β γ : Type} : List (NestItem α) → List (NestItem β) → List (NestItem γ) → Bool
  | a :: as, b :: bs, c :: cs => sameNesting a b c && zipNesting as bs cs
  | _, _, _ => true

/-- utilities.py:315-342 `_check_nested_list_consistency`. -/
def consistentNesting {α β γ : Type} (as : List (NestItem α)) (bs : List (NestItem β)) (cs : List (NestItem γ)) : Bool :=
  decide (as.length = bs.length ∧ bs.length = cs.length) && zipNesting as bs cs

/-- utilities.py:511-536. -/
def diagnosticIssues (n : RawNode) (ts : List (NestItem Thr)) : Except Err (List TreeIssue) :=
  if n.deterministic then .ok []
  else do
    let c ← conditionIssues n.conditions
    .ok (c ++ if consistentNesting (parameterNames n.fields) n.conditions ts then [] else [.nesting])

/-- utilities.py:538-551. -/
def countIssues (n : RawNode) : List TreeIssue :=
  (if n.thresholds.all Option.isSome then [] else [.nonNumeric]) ++
  (if n.thresholds.length = (parameterNames n.fields).length then [] else [.thresholdCount])

/-- utilities.py:489-494. -/
def comparatorIssues (n : RawNode) : List TreeIssue :=
  if n.comparator ∈ ["<=", "<", ">", ">="] then [] else [.comparator]

/-- utilities.py:452-551, a decision node. -/
def nodeIssues (entries : List (String × RawEntry)) (start name : String) (n : RawNode) (ts : List (NestItem Thr)) :
    Except Err (List TreeIssue) := do
  let d ← diagnosticIssues n ts
  .ok (n.unknown.map (fun _ => .nodeKey) ++
    (if name = start ∨ name ∈ allTargets entries then [] else [.unreachableNode]) ++
    missingIssues n.ifMissing ++ combinationIssues n ++ comparatorIssues n ++
    destinationIssues entries n.ifTrue ++ destinationIssues entries n.ifFalse ++ d ++ countIssues n)

/-- utilities.py:404-551, one entry. -/
def entryIssues (entries : List (String × RawEntry)) (start : String) (e : DoneEntry) : Except Err (List TreeIssue) :=
  match e.entry with
  | .leaf l => .ok (leafIssues entries e.name l)
  | .node n => nodeIssues entries start e.name n e.thresholds

/-! ## Inputs needed -/

/-- utilities.py:226-239: what an entry needs of a diagnostic: itself, or probabilities for a threshold. -/
def entryNeeds (e : DoneEntry) : List (String × Option Thr) :=
  match e.entry with
  | .leaf _ => []
  | .node n =>
    if n.deterministic then n.diagnostics.map fun d => (d, none)
    else (n.diagnostics.zip (expandNested e.thresholds)).map fun p => (p.1, some p.2)

/-- Distinct values in ascending order, as `sorted(set(…))`. -/
def sortedOnce {α : Type} [LinearOrder α] (l : List α) : List α := l.dedup.insertionSort (· ≤ ·)

/-- The thresholds needed of a diagnostic. -/
def thresholdsOf (needs : List (String × Option Thr)) (d : String) : List Thr :=
  needs.filterMap fun x => if x.1 = d then x.2 else none

/-- utilities.py:241-244: the line for a diagnostic: units and thresholds. -/
def requirementLine (needs : List (String × Option Thr)) (d : String) : Except Err (String × String × List ℚ) :=
  match (thresholdsOf needs d).map Thr.units with
  | [] => .error .valueError
  | u :: us => if us.all fun x => decide (x = u) then .ok (d, u, sortedOnce ((thresholdsOf needs d).map Thr.value))
    else .error .valueError

/-- utilities.py:204-250 `interrogate_decision_tree`: the deterministic inputs, sorted, and the lines for probabilities. -/
def interrogate (entries : List DoneEntry) : Except Err (List String × List (String × String × List ℚ)) := do
  let needs := entries.flatMap entryNeeds
  let lines ← (sortedOnce ((needs.filter fun x => x.2.isSome).map Prod.fst)).mapM (requirementLine needs)
  .ok (((needs.filter fun x => x.2.isNone).map Prod.fst).insertionSort (· ≤ ·), lines)

/-- The result of the check. -/
inductive TreeReport where
  | inputs (deterministic : List String) (probabilities : List (String × String × List ℚ))
  | issues (l : List TreeIssue)
deriving DecidableEq

/-- utilities.py:345-556 `check_tree`. -/
def checkTree (target : Option ℚ) (t : RawTree) : Except Err TreeReport :=
  match t.entries with
  | [] => .error .indexError
  | first :: rest => do
    let done ← updateThresholds target (first :: rest)
    let each ← done.mapM (entryIssues (first :: rest) first.1)
    let issues := metaIssues t.metaKeys ++ duplicateIssues (first :: rest) ++ each.flatten
    if issues = [] then do
      let r ← interrogate done
      .ok (.inputs r.1 r.2)
    else .ok (.issues issues)

/-! ## The tree at a point -/

/-- A node at a point: `value i` is the expression that field `i` of the node stands for there, with the values of the inputs
at its thresholds (decision_tree.py:382-425). -/
def RawNode.atPoint (value : ℕ → DTExpr) (n : RawNode) : DNode :=
  ⟨((n.fields.zip n.thresholds).zipIdx).map fun c => (value c.2, c.1.2.getD 0), n.comparator, n.combination, n.ifTrue,
    n.ifFalse, n.ifMissing.map fun k => decide (k = "if_true")⟩

/-- An entry at a point; a value of a leaf that is not an integer is no category.  (The boolean keys are taken to be given.) -/
def RawEntry.atPoint (value : ℕ → DTExpr) : RawEntry → DEntry
  | .node n => .node (n.atPoint value) [n.deterministic]
  | .leaf l => .leaf (match l.value with | .int c => c | .text _ => 0) l.ifNight [l.unreachable]

/-- The tree at a point (decision_tree.py:130-132); `value` by node and field. -/
def RawTree.atPoint (value : String → ℕ → DTExpr) (t : RawTree) : DTree :=
  t.entries.map fun e => (e.1, e.2.atPoint (value e.1))

end Improver
