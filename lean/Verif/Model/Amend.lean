import Verif.Basic
import Mathlib.Data.List.Sort
import Mathlib.Data.List.Dedup

/-!
Models of improver/metadata/amend.py, improver/metadata/utilities.py (attributes), improver/metadata/constants/attributes.py,
improver/utilities/copy_attributes.py, improver/utilities/flatten.py and improver/utilities/common_input_handle.py.

A text is a list of characters.  An attribute is a text or some other object, of which only equality and the text
Python makes of it (`render`, a parameter) matter.  The formatting of the current time is the parameter `clock`; its result
is taken to have no backslash, so that `re.sub` inserts it as it is.
-/

namespace Improver

/-- A text. -/
abbrev Text := List Char

/-- The value of an attribute. -/
inductive AttrVal where
  | text (s : Text)
  | other (id : ℕ)
deriving DecidableEq

/-- Python: `str(v)`. -/
def AttrVal.str (render : ℕ → Text) : AttrVal → Text
  | .text s => s
  | .other n => render n

/-- A dictionary of attributes, in order of insertion. -/
abbrev AttrDict := List (String × AttrVal)

/-- Python: `d[k] = v`. -/
def AttrDict.set : AttrDict → String → AttrVal → AttrDict
  | [], k, v => [(k, v)]
  | e :: d, k, v => if e.1 = k then (k, v) :: d else e :: AttrDict.set d k v

/-- Python: `d.pop(k, None)`. -/
def AttrDict.pop (d : AttrDict) (k : String) : AttrDict := d.filter fun e => decide (e.1 ≠ k)

/-- Python: `d.get(k)`. -/
def AttrDict.get (d : AttrDict) (k : String) : Option AttrVal := (d.find? fun e => decide (e.1 = k)).map Prod.snd

/-- Python: `d.update(e)`. -/
def AttrDict.update (d e : AttrDict) : AttrDict := e.foldl (fun d kv => AttrDict.set d kv.1 kv.2) d

/-! ## Python's `format` -/

/-- `s.removeprefix(p)` if `s` starts with `p`. -/
def afterPrefix : Text → Text → Option Text
  | [], s => some s
  | _ :: _, [] => none
  | p :: ps, c :: s => if p = c then afterPrefix ps s else none

/-- Python: `s.format(*args, now=...)`, `clock` being the formatting of `now` if it is given; the second argument is the
replacement field being read, backwards.  Only the fields `{}` and `{now:...}` are modelled: others are a KeyError, nested
ones a ValueError. -/
def formatText (clock : Option (Text → Text)) : List Text → Option Text → Text → Except Err Text
  | _, none, [] => .ok []
  | _, some _, [] => .error .valueError
  | args, none, '{' :: '{' :: s => (formatText clock args none s).map ('{' :: ·)
  | args, none, '}' :: '}' :: s => (formatText clock args none s).map ('}' :: ·)
  | args, none, '{' :: s => formatText clock args (some []) s
  | _, none, '}' :: _ => .error .valueError
  | args, none, c :: s => (formatText clock args none s).map (c :: ·)
  | args, some [], '}' :: s =>
    match args with
    | [] => .error .indexError
    | a :: args => (formatText clock args none s).map (a ++ ·)
  | args, some (f :: fs), '}' :: s =>
    match clock, afterPrefix "now:".toList (f :: fs).reverse with
    | some t, some spec => (formatText clock args none s).map (t spec ++ ·)
    | _, _ => .error .keyError
  | _, some _, '{' :: _ => .error .valueError
  | args, some f, c :: s => formatText clock args (some (c :: f)) s

/-! ## Amending attributes -/

/-- Whether the text starts with the word. -/
def startsWith (p s : Text) : Bool := (afterPrefix p s).isSome

/-- Python: `p in s` for a word that is not empty. -/
def containsText (p : Text) : Text → Bool
  | [] => false
  | c :: s => startsWith p (c :: s) || containsText p s

/-- The text up to its last `}`. -/
def upToBrace (s : Text) : Text := (s.reverse.dropWhile fun c => decide (c ≠ '}')).reverse

/-- The text after its last `}`. -/
def afterBrace (s : Text) : Text := (s.reverse.takeWhile fun c => decide (c ≠ '}')).reverse

/-- The last part of the text that starts with the word. -/
def lastFrom (p : Text) : Text → Option Text
  | [] => none
  | c :: s => (lastFrom p s).or (if startsWith p (c :: s) then some (c :: s) else none)

/-- amend.py:39-45: group 1 of `re.match(".*({now:.*}).*", value, re.DOTALL)`.  Both `.*` are greedy: the group goes from
the last `{now:` that has a `}` after it to the last `}`. -/
def nowGroup (value : Text) : Option Text := lastFrom "{now:".toList (upToBrace value)

/-- amend.py:48: `re.sub("({now:.*})", now, line)` on one line (`.` does not match a line end here). -/
def subLine (now : Text) : Text → Text
  | [] => []
  | c :: s =>
    match afterPrefix "{now:".toList (c :: s) with
    | some r => if '}' ∈ r then now ++ afterBrace r else c :: subLine now s
    | none => c :: subLine now s

/-- `s.split(sep)`. -/
def splitAt (sep : Char) : Text → List Text
  | [] => [[]]
  | c :: s =>
    if c = sep then [] :: splitAt sep s
    else match splitAt sep s with
      | [] => [[c]]
      | w :: rest => (c :: w) :: rest

/-- `sep.join(words)`. -/
def joinWith (sep : Char) : List Text → Text
  | [] => []
  | [w] => w
  | w :: rest => w ++ sep :: joinWith sep rest

/-- amend.py:48: `re.sub("({now:.*})", now, value)`. -/
def subNow (now value : Text) : Text := joinWith '\n' ((splitAt '\n' value).map (subLine now))

/-- amend.py:45-48: the value with the current time filled in. -/
def fillNow (clock : Text → Text) (value : Text) : Except Err Text :=
  match nowGroup value with
  | none => .ok value
  | some g => (formatText (some clock) [] none g).map fun now => subNow now value

/-- amend.py:39-56: the new value of an attribute, `none` if it is removed. -/
def amendValue (clock : Text → Text) (render : ℕ → Text) (old : Option AttrVal) : AttrVal → Except Err (Option AttrVal)
  | .other _ => .error .typeError
  | .text value => do
    let value ← fillNow clock value
    if value = "remove".toList then .ok none
    else if containsText "{}".toList value then do
      let s ← formatText none [(old.map (AttrVal.str render)).getD []] none value
      .ok (some (.text s))
    else .ok (some (.text value))

/-- amend.py:20-56 `amend_attributes`: the outcome and the attributes as left. -/
def amendAttributes (clock : Text → Text) (render : ℕ → Text) : AttrDict → AttrDict → Except Err Unit × AttrDict
  | [], d => (.ok (), d)
  | e :: changes, d =>
    match amendValue clock render (AttrDict.get d e.1) e.2 with
    | .error err => (.error err, d)
    | .ok none => amendAttributes clock render changes (AttrDict.pop d e.1)
    | .ok (some v) => amendAttributes clock render changes (AttrDict.set d e.1 v)

/-- amend.py:59-81 `set_history_attribute`; `stamp` is the time as text.  (`+=` on a history that is not a text is a
TypeError.) -/
def setHistory (stamp value : Text) (append : Bool) (d : AttrDict) : Except Err AttrDict :=
  let new := stamp ++ ": ".toList ++ value
  match append, AttrDict.get d "history" with
  | true, some (.text h) => .ok (AttrDict.set d "history" (.text (h ++ "; ".toList ++ new)))
  | true, some (.other _) => .error .typeError
  | _, _ => .ok (AttrDict.set d "history" (.text new))

/-- Python's `<=` of texts: by code points. -/
def textLe : Text → Text → Bool
  | [], _ => true
  | _ :: _, [] => false
  | a :: s, b :: t => if a.toNat < b.toNat then true else if a.toNat = b.toNat then textLe s t else false

/-- amend.py:110: the words of the attribute of one cube. -/
def modelWords (attr : String) (c : AttrDict) : Except Err (List Text) :=
  match AttrDict.get c attr with
  | some (.text s) => .ok (splitAt ' ' s)
  | _ => .error .attributeError

/-- amend.py:84-111 `update_model_id_attr_attribute`: the value for the key (a value that is not a text has no `split`). -/
def updateModelId (cubes : List AttrDict) (attr : String) : Except Err Text :=
  if cubes.any fun c => (AttrDict.get c attr).isNone then .error .attributeError
  else do
    let words ← cubes.mapM (modelWords attr)
    .ok (joinWith ' ' ((words.flatten.dedup).insertionSort fun a b => textLe a b = true))

/-- copy_attributes.py:28-52 `CopyAttributes.process` for one cube: outcome and attributes as left. -/
def copyAttributes (clock : Text → Text) (render : ℕ → Text) (names : List String) (template d : AttrDict) :
    Except Err Unit × AttrDict :=
  match names.mapM fun k => (AttrDict.get template k).map fun v => (k, v) with
  | none => (.error .keyError, d)
  | some l => amendAttributes clock render (AttrDict.update [] l) d

/-! ## Mandatory attributes -/

/-- attributes.py:7-13 `MANDATORY_ATTRIBUTE_DEFAULTS`. -/
def mandatoryDefaults : AttrDict :=
  [("title", .text "unknown".toList), ("source", .text "IMPROVER".toList), ("institution", .text "unknown".toList)]

/-- utilities.py:120-122: the value of an attribute on all cubes, if there is only one. -/
def commonValue (cubes : List AttrDict) (attr : String) : Option AttrVal :=
  match (cubes.map fun c => AttrDict.get c attr).dedup with
  | [some v] => some v
  | _ => none

/-- utilities.py:119-128: the loop over attributes. -/
def gatherAttributes (cubes : List AttrDict) (required : List String) : List String → AttrDict → Except Err AttrDict
  | [], d => .ok d
  | a :: rest, d =>
    match commonValue cubes a with
    | some v => gatherAttributes cubes required rest (AttrDict.set d a v)
    | none => if a ∈ required then .error .valueError else gatherAttributes cubes required rest d

/-- utilities.py:96-129 `generate_mandatory_attributes` (an empty text as model attribute counts as none). -/
def generateMandatory (cubes : List AttrDict) (modelId : Option String) : Except Err AttrDict :=
  let required := match modelId with
    | none => []
    | some m => if m = "" then [] else [m]
  gatherAttributes cubes required (mandatoryDefaults.map Prod.fst ++ required) mandatoryDefaults

/-- utilities.py:62-71, 84-90 `create_new_diagnostic_cube`: the attributes of the new cube, and the dictionary of mandatory
attributes of the caller as left. -/
def newCubeAttributes (mandatory : AttrDict) (optional : Option AttrDict) : Except Err AttrDict × AttrDict :=
  let d := match optional with
    | none => mandatory
    | some o => AttrDict.update mandatory o
  if (mandatoryDefaults.map Prod.fst).any fun a => (AttrDict.get d a).isNone then (.error .valueError, d) else (.ok d, d)

/-- utilities.py:217-249 `get_model_id_attr`. -/
def modelIdOf (cubes : List AttrDict) (attr : String) : Except Err AttrVal :=
  if cubes.any fun c => (AttrDict.get c attr).isNone then .error .valueError
  else match (cubes.map fun c => AttrDict.get c attr).dedup with
    | [some v] => .ok v
    | _ => .error .valueError

/-! ## Nested inputs -/

/-- A nested collection (lists, tuples, cube lists to any depth); texts and bytes are leaves. -/
inductive Nest (α : Type) where
  | leaf (a : α)
  | node (l : List (Nest α))

/-- flatten.py:10-30 `flatten`. -/
def Nest.flatten {α : Type} : Nest α → List α
  | .leaf a => [a]
  | .node l => l.attach.flatMap fun x => x.1.flatten
decreasing_by
  have := List.sizeOf_lt_of_mem x.2
  simp_wf
  omega

/-- common_input_handle.py:12-35 `as_cubelist`; `isCube` tells cubes from other objects. -/
def asCubelist {α : Type} (isCube : α → Bool) (args : List (Nest α)) : Except Err (List α) :=
  let cubes := (Nest.node args).flatten
  if cubes.any fun c => !isCube c then .error .typeError
  else if cubes.length = 0 then .error .valueError
  else .ok cubes

/-- common_input_handle.py:38-62 `as_cube`; `merge` is iris's `merge_cube`, `none` when it fails. -/
def asCube {α : Type} (isCube : α → Bool) (merge : List α → Option α) (args : List (Nest α)) : Except Err α := do
  let cubes ← asCubelist isCube args
  match cubes with
  | [c] => .ok c
  | _ =>
    match merge cubes with
    | some c => .ok c
    | none => .error .valueError

end Improver
