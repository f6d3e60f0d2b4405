import Verif.Basic

/-! Model of `improver/categorical/decision_tree.py` and of the parts of `improver/categorical/utilities.py` it uses, at one
grid point. -/

namespace Improver

/-- The arithmetic operators of a diagnostic expression (`operator_map`, decision_tree.py:685-690). -/
inductive ArithOp where
  | add | sub | mul | div
  deriving DecidableEq, Repr

/-- `operator_map[op_str]` (decision_tree.py:685-690, 718-719). -/
def ArithOp.app : ArithOp → ℚ → ℚ → ℚ
  | .add, a, b => a + b
  | .sub, a, b => a - b
  | .mul, a, b => a * b
  | .div, a, b => a / b

/-- A diagnostic expression at a point: a first operand and further (operator, operand) pairs.  Operands are the values at the
point of the extracted cubes, or literal numbers.  (`create_condition_chain` only builds flat lists.) -/
structure DTExpr where
  first : ℚ
  rest : List (ArithOp × ℚ)
  deriving DecidableEq, Repr

/-- The `while` loop of decision_tree.py:705-727 for one operator `o`: the leftmost occurrence of `o` is replaced by its value
until none is left, which amounts to one pass from left to right. -/
def collapseOp (o : ArithOp) : ℚ → List (ArithOp × ℚ) → DTExpr
  | v, [] => ⟨v, []⟩
  | v, (o', w) :: rest =>
    if o' = o then collapseOp o (o.app v w) rest
    else let r := collapseOp o w rest; ⟨v, (o', r.first) :: r.rest⟩

/-- `evaluate_extract_expression` (decision_tree.py:665-730) of a flat expression: the operators are applied in the order
`/`, `*`, `+`, `-`. -/
def evalExpr (e : DTExpr) : ℚ :=
  let e1 := collapseOp .div e.first e.rest
  let e2 := collapseOp .mul e1.first e1.rest
  let e3 := collapseOp .add e2.first e2.rest
  (collapseOp .sub e3.first e3.rest).first

/-- `compare_array_to_threshold` (decision_tree.py:633-663). -/
def compareToThreshold (v : ℚ) (comparator : String) (thr : ℚ) : Except Err Bool :=
  if comparator = "<" then .ok (decide (v < thr))
  else if comparator = ">" then .ok (decide (v > thr))
  else if comparator = "<=" then .ok (decide (v ≤ thr))
  else if comparator = ">=" then .ok (decide (v ≥ thr))
  else .error .valueError

/-- `_invert_comparator` with the table `INVERTIBLE_CONDITIONS` (decision_tree.py:49-66, 330-336). -/
def invertComparator (c : String) : Except Err String :=
  if c = ">=" then .ok "<"
  else if c = ">" then .ok "<="
  else if c = "OR" then .ok "AND"
  else if c = "" then .ok ""
  else if c = "<" then .ok ">="
  else if c = "<=" then .ok ">"
  else if c = "AND" then .ok "OR"
  else .error .keyError

/-- Destination of a branch: the name of a node, or a bare category code. -/
inductive Tgt where
  | name (s : String)
  | code (c : ℤ)
  deriving DecidableEq, Repr

/-- A decision node: conditions (expression, threshold), comparator, combination, destinations, and the optional
`if_diagnostic_missing` entry (`some true` = "if_true", `some false` = "if_false"). -/
structure DNode where
  conds : List (DTExpr × ℚ)
  comparator : String
  combination : String
  ifTrue : Tgt
  ifFalse : Tgt
  ifMissing : Option Bool := none
  deriving DecidableEq

/-- An entry of the tree: a decision node or a leaf with its code and optional night leaf. `flags` are the boolean entries
(`deterministic`, `is_unreachable`), which `isinstance(value, int)` counts as integers. -/
inductive DEntry where
  | node (n : DNode) (flags : List Bool)
  | leaf (code : ℤ) (ifNight : Option String) (flags : List Bool)
  deriving DecidableEq

/-- The tree without its meta entry, in order (`self.queries`). -/
abbrev DTree := List (String × DEntry)

/-- A dictionary access. -/
def DTree.get (q : DTree) (s : String) : Option DEntry := (q.find? (fun e => e.1 = s)).map Prod.snd

/-- `graph` (decision_tree.py:818-823): neighbours of a vertex; codes are not keys of the graph. -/
def DTree.neighbours (q : DTree) : Tgt → Option (List Tgt)
  | .code _ => none
  | .name s =>
    match q.get s with
    | none => none
    | some (.leaf c _ _) => some [.code c]
    | some (.node n _) => some [n.ifTrue, n.ifFalse]

/-- `find_all_routes` (decision_tree.py:503-546), with fuel; `categoryAtPoint` gives it enough fuel for any tree. -/
def findRoutes (q : DTree) : ℕ → Tgt → Tgt → List Tgt → List (List Tgt)
  | 0, _, _, _ => []
  | f + 1, start, target, route =>
    let route := route ++ [start]
    if start = target then [route]
    else
      match q.neighbours start with
      | none => []
      | some ns => (ns.filter (fun n => decide (n ∉ route))).flatMap (fun n => findRoutes q f n target route)

/-- A condition chain of one node: conditions, comparator, combination (`create_condition_chain`, decision_tree.py:357-427). -/
structure DChain where
  conds : List (DTExpr × ℚ)
  comparator : String
  combination : String
  deriving DecidableEq

/-- Chain of node `n` when the route goes on to `next` (decision_tree.py:841-851): inverted if `next` is the `if_false`
destination. -/
def chainOf (n : DNode) (next : Tgt) : Except Err DChain :=
  if n.ifFalse = next then do
    let c ← invertComparator n.comparator
    let b ← invertComparator n.combination
    return ⟨n.conds, c, b⟩
  else .ok ⟨n.conds, n.comparator, n.combination⟩

/-- The conditions of a route (decision_tree.py:838-851); leaves contribute none. -/
def routeChains (q : DTree) : List Tgt → Except Err (List DChain)
  | a :: b :: l => do
    let rest ← routeChains q (b :: l)
    match a with
    | .code _ => .error .keyError
    | .name s =>
      match q.get s with
      | none => .error .keyError
      | some (.leaf _ _ _) => return rest
      | some (.node n _) => do
        let c ← chainOf n b
        return c :: rest
  | _ => .ok []

/-- Combination of two truth values (decision_tree.py:787-796). -/
def combineTruth (comb : String) (a b : Bool) : Except Err Bool :=
  if comb = "AND" then .ok (a && b)
  else if comb = "OR" then .ok (a || b)
  else .error .runtimeError

/-- The loop over further conditions of one chain (decision_tree.py:775-796). -/
def evalCondsLoop (comparator comb : String) : Bool → List (DTExpr × ℚ) → Except Err Bool
  | res, [] => .ok res
  | res, c :: cs => do
    let new ← compareToThreshold (evalExpr c.1) comparator c.2
    let res' ← combineTruth comb res new
    evalCondsLoop comparator comb res' cs

/-- `evaluate_condition_chain` of one node's chain (decision_tree.py:732-797). -/
def evalChain (c : DChain) : Except Err Bool :=
  match c.conds with
  | [] => .error .indexError
  | e :: es => do
    let r ← compareToThreshold (evalExpr e.1) c.comparator e.2
    evalCondsLoop c.comparator c.combination r es

/-- The loop over the further chains of a route, combined with AND. -/
def evalRouteLoop : Bool → List DChain → Except Err Bool
  | res, [] => .ok res
  | res, c :: cs => do
    let new ← evalChain c
    evalRouteLoop (res && new) cs

/-- `evaluate_condition_chain(cubes, [conditions, "AND"])` (decision_tree.py:852-857): a route without conditions (the start node is
a leaf) is an `IndexError`. -/
def evalRoute : List DChain → Except Err Bool
  | [] => .error .indexError
  | c :: cs => do
    let r ← evalChain c
    evalRouteLoop r cs

/-- Integer entries of one tree entry (decision_tree.py:825-829). -/
def entryCodes : DEntry → List ℤ
  | .leaf c _ fl => c :: fl.map (fun b => if b then 1 else 0)
  | .node n fl =>
    (match n.ifTrue with | .code c => [c] | .name _ => []) ++ (match n.ifFalse with | .code c => [c] | .name _ => [])
      ++ fl.map (fun b => if b then 1 else 0)

/-- `defined_categories` (decision_tree.py:825-829). -/
def definedCategories (q : DTree) : List ℤ := q.flatMap (fun e => entryCodes e.2)

/-- One route: the category is set where all conditions hold (decision_tree.py:837-857). -/
def applyRoute (q : DTree) (code : ℤ) (acc : Option ℤ) (route : List Tgt) : Except Err (Option ℤ) := do
  let chains ← routeChains q route
  let b ← evalRoute chains
  return if b then some code else acc

/-- One category (decision_tree.py:834-857). -/
def applyCategory (q : DTree) (start : Tgt) (acc : Option ℤ) (code : ℤ) : Except Err (Option ℤ) :=
  (findRoutes q (q.length + 2) start (.code code) []).foldlM (applyRoute q code) acc

/-- The loops of `process` (decision_tree.py:825-857): the category at the point, `none` when it stays masked. -/
def categoryAtPoint (q : DTree) (start : Tgt) : Except Err (Option ℤ) :=
  (definedCategories q).foldlM (applyCategory q start) none

/-! ### Optional nodes with missing data -/

/-- Replace a destination equal to `m`. -/
def redirectTgt (m : String) (alt t : Tgt) : Tgt := if t = .name m then alt else t

/-- The inner loop of `remove_optional_missing` (decision_tree.py:494-498). -/
def redirectEntry (m : String) (alt : Tgt) : DEntry → DEntry
  | .node n fl => .node { n with ifTrue := redirectTgt m alt n.ifTrue, ifFalse := redirectTgt m alt n.ifFalse } fl
  | e => e

/-- Alternative destination of a node with missing data (decision_tree.py:491-492). -/
def DTree.alternative (q : DTree) (m : String) : Except Err Tgt :=
  match q.get m with
  | some (.node n _) =>
    match n.ifMissing with
    | some true => .ok n.ifTrue
    | some false => .ok n.ifFalse
    | none => .error .keyError
  | _ => .error .keyError

/-- `remove_optional_missing` (decision_tree.py:472-501): tree and start node afterwards (both are stored on the plugin, and the
nodes are those of the dictionary the caller passed). -/
def removeMissing : List String → DTree × Tgt → Except Err (DTree × Tgt)
  | [], s => .ok s
  | m :: ms, (q, start) => do
    let alt ← q.alternative m
    removeMissing ms (q.map (fun e => (e.1, redirectEntry m alt e.2)), redirectTgt m alt start)

/-! ### Day and night -/

/-- `day_night_map` (categorical/utilities.py:559-573). -/
def nightTarget (q : DTree) (e : String × DEntry) : Except Err (Option (ℤ × ℤ)) :=
  match e.2 with
  | .leaf c (some nt) _ =>
    match q.get nt with
    | some (.leaf c' _ _) => .ok (some (c, c'))
    | _ => .error .keyError
  | _ => .ok none

/-- Insertion of a key into a dictionary: a later value replaces an earlier one in place. -/
def dictInsert (d : List (ℤ × ℤ)) (kv : ℤ × ℤ) : List (ℤ × ℤ) :=
  if d.any (fun e => e.1 = kv.1) then d.map (fun e => if e.1 = kv.1 then kv else e) else d ++ [kv]

def dayNightMap (q : DTree) : Except Err (List (ℤ × ℤ)) := do
  let l ← q.mapM (nightTarget q)
  return (l.filterMap id).foldl dictInsert []

/-- `update_daynight` (categorical/utilities.py:145-183) at one point: the replacements are made one after the other. -/
def updateDayNight (isDay : Bool) (m : List (ℤ × ℤ)) (code : ℤ) : ℤ :=
  m.foldl (fun c kv => if c = kv.1 then (if isDay then c else kv.2) else c) code

end Improver
