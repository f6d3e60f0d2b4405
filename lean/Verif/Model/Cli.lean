import Verif.Model.Amend
import Verif.Model.ProbName

/-!
Model of the command line, improver/cli/__init__.py:84-303 (objects passed as text, converters), 308-361 (output), 432-455
(brackets) and 483-512 (execution of nested commands), and of the title of results, improver/__init__.py:48-84.

The parser of single commands (clize) and profiling are not modelled.
-/

namespace Improver

/-- A value on the way through commands: text, a path, an object, None, an object hidden under a text (`ObjectAsStr`) or a list
(a nested command, or the arguments that a dry run returns). -/
inductive PyVal (O : Type) where
  | text (s : String)
  | path (s : String)
  | object (o : O)
  | nothing
  | wrapped (name : String) (original : PyVal O)
  | nested (l : List (PyVal O))

variable {O : Type}

/-! ## Brackets -/

/-- cli/__init__.py:441-453, the loop: position, arguments of the innermost open bracket, and those of the brackets around it.
An error is the position in its message. -/
def unbracketGo : List String → ℕ → List (PyVal O) → List (List (PyVal O)) → Except ℕ (List (PyVal O))
  | [], _, out, [] => .ok out
  | [], i, _, _ :: _ => .error i
  | a :: rest, i, out, stack =>
    if a = "[" then unbracketGo rest (i + 1) [] (out :: stack)
    else if a = "]" then
      match stack with
      | [] => .error i
      | top :: stack => unbracketGo rest (i + 1) (top ++ [.nested out]) stack
    else unbracketGo rest (i + 1) (out ++ [.text a]) stack

/-- cli/__init__.py:432-455 `unbracket`. -/
def unbracket (args : List String) : Except ℕ (List (PyVal O)) := unbracketGo args 0 [] []

/-! ## Execution -/

/-- cli/__init__.py:492-496 and 89-96: what is handed to a command: text stays, paths become text, and objects are hidden under
a text; `nameOf` makes it. -/
def asArgument (nameOf : PyVal O → String) : PyVal O → PyVal O
  | .text s => .text s
  | .wrapped n v => .wrapped n v
  | .path s => .text s
  | .object o => .wrapped (nameOf (.object o)) (.object o)
  | .nothing => .wrapped (nameOf .nothing) .nothing
  | .nested l => .wrapped (nameOf (.nested l)) (.nested l)

/-- cli/__init__.py:498-505: a command with its arguments ready; a dry run does nothing. -/
def callCommand {S : Type} (dispatch : List (PyVal O) → S → Except Err (PyVal O) × S) (dry : Bool) (args : List (PyVal O))
    (w : S) : Except Err (PyVal O) × S :=
  if dry then (.ok (.nested args), w) else dispatch args w

mutual
/-- cli/__init__.py:486-491: one argument; a list is a nested command. -/
def executeArg {S : Type} (dispatch : List (PyVal O) → S → Except Err (PyVal O) × S) (nameOf : PyVal O → String) (dry : Bool) :
    PyVal O → S → Except Err (PyVal O) × S
  | .nested l, w =>
    match executeArgs dispatch nameOf dry l w with
    | (.error e, w) => (.error e, w)
    | (.ok args, w) => callCommand dispatch dry args w
  | .text s, w => (.ok (.text s), w)
  | .path s, w => (.ok (.path s), w)
  | .object o, w => (.ok (.object o), w)
  | .nothing, w => (.ok .nothing, w)
  | .wrapped n v, w => (.ok (.wrapped n v), w)
/-- cli/__init__.py:486-496: the arguments one after the other. -/
def executeArgs {S : Type} (dispatch : List (PyVal O) → S → Except Err (PyVal O) × S) (nameOf : PyVal O → String) (dry : Bool) :
    List (PyVal O) → S → Except Err (List (PyVal O)) × S
  | [], w => (.ok [], w)
  | a :: as, w =>
    match executeArg dispatch nameOf dry a w with
    | (.error e, w) => (.error e, w)
    | (.ok v, w) =>
      match executeArgs dispatch nameOf dry as w with
      | (.error e, w) => (.error e, w)
      | (.ok vs, w) => (.ok (asArgument nameOf v :: vs), w)
end

/-- cli/__init__.py:483-512 `execute_command`; what is printed is not modelled. -/
def executeCommand {S : Type} (dispatch : List (PyVal O) → S → Except Err (PyVal O) × S) (nameOf : PyVal O → String)
    (dry : Bool) (args : List (PyVal O)) (w : S) : Except Err (PyVal O) × S :=
  executeArg dispatch nameOf dry (.nested args) w

/-! ## Conversion and output -/

/-- `getattr(obj, "original_object", obj)`. -/
def originalOf : PyVal O → PyVal O
  | .wrapped _ v => v
  | v => v

/-- cli/__init__.py:116-119 `maybe_coerce_with`. -/
def coerceWith (converter : String → Except Err (PyVal O)) (v : PyVal O) : Except Err (PyVal O) :=
  match originalOf v with
  | .text s => converter s
  | .wrapped n _ => converter n
  | v => .ok v

/-- cli/__init__.py:190-201 `comma_separated_list`: the items, if a text is given. -/
def commaList (s : List Char) : List (List Char) := splitAt ',' s

/-- cli/__init__.py:289-300: each constraint must select one cube (a ConstraintMismatchError is a value
error here). -/
def constrained {C : Type} (cubes : List C) (constraints : List (C → Bool)) : Except Err (List C) :=
  constraints.mapM fun p =>
    match cubes.filter p with
    | [c] => .ok c
    | _ => .error .valueError

/-- cli/__init__.py:350-358 `with_output` on the result of a command: `truthy` is how Python takes the result in a condition,
`save` writes a file. -/
def withOutput {S : Type} (truthy : PyVal O → Bool) (save : PyVal O → String → S → Except Err Unit × S) (output : String)
    (passThrough : Bool) (result : PyVal O) (w : S) : Except Err (PyVal O) × S :=
  if output ≠ "" ∧ truthy result = true then
    match save result output w with
    | (.error e, w) => (.error e, w)
    | (.ok _, w) =>
      if passThrough then
        (.ok (match result with
          | .wrapped n v => .wrapped n v
          | v => .wrapped output v), w)
      else (.ok .nothing, w)
  else (.ok result, w)

/-! ## Titles -/

/-- improver/__init__.py:66-84 `post_processed_title`; the title attribute, if there is one. -/
def postTitle (title : Option (List Char)) : Option (List Char) :=
  match title with
  | none => none
  | some t =>
    if t ≠ "unknown".toList ∧ ¬ hasPart "Post-Processed".toList t then some ("Post-Processed ".toList ++ t) else some t

end Improver
