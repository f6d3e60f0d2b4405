import Verif.Model.Cli
import Verif.Props.Attributes
import Verif.Props.Checker

/-!
C210 (brackets on the command line), C211 (execution of nested commands), C212 (pipelines and files), C213 (titles).
-/

namespace Improver
namespace Spec

variable {O : Type}

mutual
/-- An argument as it is written: a nested command between brackets. -/
def write : PyVal O → List String
  | .text s => [s]
  | .nested l => "[" :: (writeAll l ++ ["]"])
  | _ => []
/-- Arguments as they are written. -/
def writeAll : List (PyVal O) → List String
  | [] => []
  | a :: as => write a ++ writeAll as
end

mutual
/-- Words other than brackets, and nested commands of them. -/
def CmdWords : PyVal O → Prop
  | .text s => s ≠ "[" ∧ s ≠ "]"
  | .nested l => CmdWordsAll l
  | _ => False
/-- All are. -/
def CmdWordsAll : List (PyVal O) → Prop
  | [] => True
  | a :: as => CmdWords a ∧ CmdWordsAll as
end

/-- How many of the first `j` words are `b`. -/
def among (b : String) (args : List String) (j : ℕ) : ℕ := (args.take j).count b

end Spec

open Spec

variable {O : Type}

theorem writeAll_append (a b : List (PyVal O)) : writeAll (a ++ b) = writeAll a ++ writeAll b := by
  induction a with
  | nil => rfl
  | cons x a ih => simp [writeAll, ih, List.append_assoc]

theorem wordsAll_append (a b : List (PyVal O)) : CmdWordsAll (a ++ b) ↔ CmdWordsAll a ∧ CmdWordsAll b := by
  induction a with
  | nil => simp [CmdWordsAll]
  | cons x a ih => simp [CmdWordsAll, ih, and_assoc]

mutual
theorem unbracket_word (a : PyVal O) (h : CmdWords a) (rest : List String) (i : ℕ) (out : List (PyVal O))
    (stack : List (List (PyVal O))) :
    unbracketGo (write a ++ rest) i out stack = unbracketGo rest (i + (write a).length) (out ++ [a]) stack := by
  match a, h with
  | .text s, h =>
    simp only [write, List.cons_append, List.nil_append, unbracketGo, if_neg h.1, if_neg h.2, List.length_singleton]
  | .nested l, h =>
    have ih := unbracket_words l h ("]" :: rest) (i + 1) [] (out :: stack)
    simp only [write, List.cons_append, List.append_assoc, List.nil_append, unbracketGo, if_true]
    rw [ih]
    simp only [List.nil_append, unbracketGo]
    rw [if_neg (by decide), if_pos trivial]
    congr 1
    simp only [List.length_cons, List.length_append, List.length_nil]
    omega
theorem unbracket_words (l : List (PyVal O)) (h : CmdWordsAll l) (rest : List String) (i : ℕ) (out : List (PyVal O))
    (stack : List (List (PyVal O))) :
    unbracketGo (writeAll l ++ rest) i out stack = unbracketGo rest (i + (writeAll l).length) (out ++ l) stack := by
  match l, h with
  | [], _ => simp [writeAll]
  | a :: as, h =>
    rw [writeAll, List.append_assoc, unbracket_word a h.1, unbracket_words as h.2]
    simp [List.append_assoc, Nat.add_assoc]
end

/-- What has been read: the arguments of the open brackets. -/
def writeOpen : List (List (PyVal O)) → List String
  | [] => []
  | l :: stack => writeOpen stack ++ writeAll l ++ ["["]

theorem unbracketGo_ok (args : List String) (i : ℕ) (out : List (PyVal O)) (stack : List (List (PyVal O)))
    (res : List (PyVal O)) (h : unbracketGo args i out stack = .ok res) (ho : CmdWordsAll out) (hs : ∀ l ∈ stack, CmdWordsAll l) :
    CmdWordsAll res ∧ writeAll res = writeOpen stack ++ writeAll out ++ args := by
  induction args generalizing i out stack with
  | nil =>
    cases stack with
    | nil =>
      obtain rfl := Except.ok.inj h
      exact ⟨ho, by simp [writeOpen]⟩
    | cons l stack => nomatch h
  | cons a args ih =>
    unfold unbracketGo at h
    by_cases ha : a = "["
    · rw [if_pos ha] at h
      obtain ⟨h1, h2⟩ := ih _ _ _ h trivial (fun l hl => (List.mem_cons.1 hl).elim (fun e => e ▸ ho) (hs l))
      refine ⟨h1, ?_⟩
      rw [h2, ha]
      simp [writeOpen, writeAll]
    · rw [if_neg ha] at h
      by_cases hb : a = "]"
      · rw [if_pos hb] at h
        cases stack with
        | nil => nomatch h
        | cons top stack =>
          obtain ⟨h1, h2⟩ := ih _ _ _ h ((wordsAll_append _ _).2 ⟨hs top (by simp), ho, trivial⟩)
            (fun l hl => hs l (List.mem_cons_of_mem _ hl))
          refine ⟨h1, ?_⟩
          rw [h2, hb, writeAll_append]
          simp [writeOpen, writeAll, write]
      · rw [if_neg hb] at h
        obtain ⟨h1, h2⟩ := ih _ _ _ h ((wordsAll_append _ _).2 ⟨ho, ⟨ha, hb⟩, trivial⟩) hs
        refine ⟨h1, ?_⟩
        rw [h2, writeAll_append]
        simp [writeAll, write]

/-- **C210** (nesting): words with brackets are read as the nested commands exactly that are written so. -/
theorem C210_nested (args : List String) (res : List (PyVal O)) :
    unbracket args = .ok res ↔ CmdWordsAll res ∧ writeAll res = args := by
  constructor
  · intro h
    have := unbracketGo_ok args 0 [] [] res h trivial (by simp)
    simpa [writeOpen, writeAll] using this
  · rintro ⟨h1, rfl⟩
    have := unbracket_words res h1 [] 0 [] []
    rw [List.append_nil] at this
    unfold unbracket
    rw [this]
    rfl

theorem unbracketGo_error (args : List String) (i k : ℕ) (out : List (PyVal O)) (stack : List (List (PyVal O))) :
    unbracketGo args i out stack = .error k ↔ ∃ m, k = i + m ∧
      (∀ j ≤ m, among "]" args j ≤ stack.length + among "[" args j) ∧
      ((args[m]? = some "]" ∧ among "]" args m = stack.length + among "[" args m) ∨
       (m = args.length ∧ among "]" args m < stack.length + among "[" args m)) := by
  induction args generalizing i out stack with
  | nil =>
    cases stack with
    | nil => simp [unbracketGo, among]
    | cons l stack =>
      simp only [unbracketGo, Except.error.injEq, List.length_nil, among, List.take_nil, List.count_nil, List.length_cons]
      constructor
      · rintro rfl
        exact ⟨0, rfl, fun _ _ => by omega, Or.inr ⟨rfl, by omega⟩⟩
      · rintro ⟨m, rfl, _, ⟨h, _⟩ | ⟨rfl, _⟩⟩
        · simp at h
        · rfl
  | cons a args ih =>
    have hstep : ∀ b j, among b (a :: args) (j + 1) = (if a = b then 1 else 0) + among b args j := by
      intro b j
      unfold among
      rw [List.take_succ_cons, List.count_cons]
      simp only [beq_iff_eq]
      omega
    have hzero : ∀ b, among b (a :: args) 0 = 0 := fun b => rfl
    have key : ∀ (n' : ℕ) (P : Prop), (P ↔ ∃ m, k = i + 1 + m ∧ (∀ j ≤ m, among "]" args j ≤ n' + among "[" args j) ∧
        ((args[m]? = some "]" ∧ among "]" args m = n' + among "[" args m) ∨
         (m = args.length ∧ among "]" args m < n' + among "[" args m))) →
        (n' + (if a = "]" then 1 else 0) = stack.length + if a = "[" then 1 else 0) →
        (P ↔ ∃ m, k = i + m ∧ (∀ j ≤ m, among "]" (a :: args) j ≤ stack.length + among "[" (a :: args) j) ∧
        (((a :: args)[m]? = some "]" ∧ among "]" (a :: args) m = stack.length + among "[" (a :: args) m) ∨
         (m = (a :: args).length ∧ among "]" (a :: args) m < stack.length + among "[" (a :: args) m))) := by
      intro n' P hP hn
      rw [hP]
      constructor
      · rintro ⟨m, rfl, h1, h2⟩
        refine ⟨m + 1, by omega, fun j hj => ?_, ?_⟩
        · cases j with
          | zero => rw [hzero, hzero]; omega
          | succ j =>
            have := h1 j (by omega)
            rw [hstep, hstep]
            omega
        · rw [hstep, hstep, List.getElem?_cons_succ, List.length_cons]
          rcases h2 with ⟨h2, h3⟩ | ⟨h2, h3⟩
          · exact Or.inl ⟨h2, by omega⟩
          · exact Or.inr ⟨by omega, by omega⟩
      · rintro ⟨m, rfl, h1, h2⟩
        cases m with
        | zero =>
          exfalso
          rw [hzero, hzero] at h2
          rcases h2 with ⟨h2, h3⟩ | ⟨h2, h3⟩
          · rw [List.getElem?_cons_zero] at h2
            have ha := Option.some.inj h2
            rw [if_pos ha, if_neg (by rw [ha]; decide)] at hn
            omega
          · simp at h2
        | succ m =>
          refine ⟨m, by omega, fun j hj => ?_, ?_⟩
          · have := h1 (j + 1) (by omega)
            rw [hstep, hstep] at this
            omega
          · rw [hstep, hstep, List.getElem?_cons_succ, List.length_cons] at h2
            rcases h2 with ⟨h2, h3⟩ | ⟨h2, h3⟩
            · exact Or.inl ⟨h2, by omega⟩
            · exact Or.inr ⟨by omega, by omega⟩
    unfold unbracketGo
    by_cases ha : a = "["
    · rw [if_pos ha]
      refine key (stack.length + 1) _ (ih _ _ _) ?_
      rw [if_pos ha, if_neg (by rw [ha]; decide)]
    · rw [if_neg ha]
      by_cases hb : a = "]"
      · rw [if_pos hb]
        cases stack with
        | nil =>
          simp only [Except.error.injEq]
          constructor
          · rintro rfl
            refine ⟨0, rfl, fun j hj => ?_, Or.inl ⟨by rw [hb]; rfl, rfl⟩⟩
            obtain rfl : j = 0 := by omega
            rw [hzero]; omega
          · rintro ⟨m, rfl, h1, _⟩
            cases m with
            | zero => rfl
            | succ m =>
              have := h1 1 (by omega)
              rw [hstep, hstep, if_pos hb, if_neg ha] at this
              simp [among] at this
        | cons top stack =>
          refine key stack.length _ (ih _ _ _) ?_
          rw [if_neg ha, if_pos hb]
          simp
      · rw [if_neg hb]
        refine key stack.length _ (ih _ _ _) ?_
        rw [if_neg ha, if_neg hb]

/-- **C210** (mismatch): an error names the first closing bracket that closes nothing, or the end if a bracket is open there. -/
theorem C210_mismatch (args : List String) (k : ℕ) :
    unbracket (O := O) args = .error k ↔
      (∀ j ≤ k, among "]" args j ≤ among "[" args j) ∧
      ((args[k]? = some "]" ∧ among "]" args k = among "[" args k) ∨
       (k = args.length ∧ among "]" args k < among "[" args k)) := by
  unfold unbracket
  rw [unbracketGo_error]
  simp

/-- C210 has cases. -/
example : unbracket (O := Unit) ["foo", "[", "bar", "[", "a", "]", "b", "]", "-o", "z"] =
    .ok [.text "foo", .nested [.text "bar", .nested [.text "a"], .text "b"], .text "-o", .text "z"] ∧
    unbracket (O := Unit) ["a", "]", "[", "b", "]"] = .error 1 ∧ unbracket (O := Unit) ["[", "a", "[", "b", "]"] = .error 5 := by
  refine ⟨rfl, rfl, rfl⟩

/-! ## Execution -/

/-- A dispatcher that also keeps the list of its calls. -/
def logged {S : Type} (dispatch : List (PyVal O) → S → Except Err (PyVal O) × S) (args : List (PyVal O))
    (w : S × List (List (PyVal O))) : Except Err (PyVal O) × (S × List (List (PyVal O))) :=
  ((dispatch args w.1).1, ((dispatch args w.1).2, w.2 ++ [args]))

mutual
/-- How many commands there are in an argument. -/
def commands : PyVal O → ℕ
  | .nested l => commandsAll l + 1
  | _ => 0
/-- How many commands there are in arguments. -/
def commandsAll : List (PyVal O) → ℕ
  | [] => 0
  | a :: as => commands a + commandsAll as
end

theorem executeArgs_cons {S : Type} (D : List (PyVal O) → S → Except Err (PyVal O) × S) (nameOf : PyVal O → String) (dry : Bool)
    (a : PyVal O) (as vs : List (PyVal O)) (w w' : S) :
    executeArgs D nameOf dry (a :: as) w = (.ok vs, w') ↔
      ∃ v w1 vs', executeArg D nameOf dry a w = (.ok v, w1) ∧ executeArgs D nameOf dry as w1 = (.ok vs', w') ∧
        vs = asArgument nameOf v :: vs' := by
  rw [executeArgs]
  rcases h1 : executeArg D nameOf dry a w with ⟨_ | v, w1⟩
  · simp
  · dsimp only
    rcases h2 : executeArgs D nameOf dry as w1 with ⟨_ | vs', w2⟩
    · dsimp only
      constructor
      · intro h; nomatch h
      · rintro ⟨v', w1', vs'', h, h', _⟩
        cases h
        rw [h2] at h'
        nomatch h'
    · dsimp only
      constructor
      · intro h
        cases h
        exact ⟨v, w1, vs', rfl, h2, rfl⟩
      · rintro ⟨v', w1', vs'', h, h', rfl⟩
        cases h
        rw [h2] at h'
        cases h'
        rfl

theorem executeCommand_iff {S : Type} (D : List (PyVal O) → S → Except Err (PyVal O) × S) (nameOf : PyVal O → String) (dry : Bool)
    (args : List (PyVal O)) (r : PyVal O) (w w' : S) :
    executeCommand D nameOf dry args w = (.ok r, w') ↔
      ∃ vs w1, executeArgs D nameOf dry args w = (.ok vs, w1) ∧ callCommand D dry vs w1 = (.ok r, w') := by
  unfold executeCommand
  rw [executeArg]
  rcases h1 : executeArgs D nameOf dry args w with ⟨_ | vs, w1⟩
  · simp
  · simp

theorem executeArgs_append {S : Type} (D : List (PyVal O) → S → Except Err (PyVal O) × S) (nameOf : PyVal O → String) (dry : Bool)
    (as bs vs : List (PyVal O)) (w w' : S) :
    executeArgs D nameOf dry (as ++ bs) w = (.ok vs, w') ↔
      ∃ vs1 w1 vs2, executeArgs D nameOf dry as w = (.ok vs1, w1) ∧ executeArgs D nameOf dry bs w1 = (.ok vs2, w') ∧
        vs = vs1 ++ vs2 := by
  induction as generalizing vs w with
  | nil =>
    rw [List.nil_append, executeArgs]
    constructor
    · intro h; exact ⟨[], w, vs, rfl, h, rfl⟩
    · rintro ⟨vs1, w1, vs2, h1, h2, rfl⟩
      simp only [Prod.mk.injEq, Except.ok.injEq] at h1
      obtain ⟨rfl, rfl⟩ := h1
      exact h2
  | cons a as ih =>
    rw [List.cons_append, executeArgs_cons]
    constructor
    · rintro ⟨v, w1, vs', h1, h2, rfl⟩
      obtain ⟨vs1, w2, vs2, h3, h4, rfl⟩ := (ih _ _).1 h2
      exact ⟨asArgument nameOf v :: vs1, w2, vs2, (executeArgs_cons ..).2 ⟨v, w1, vs1, h1, h3, rfl⟩, h4, rfl⟩
    · rintro ⟨vs1, w2, vs2, h1, h4, rfl⟩
      obtain ⟨v, w1, vs', h5, h6, rfl⟩ := (executeArgs_cons ..).1 h1
      exact ⟨v, w1, vs' ++ vs2, h5, (ih _ _).2 ⟨vs', w2, vs2, h6, h4, rfl⟩, rfl⟩

/-- **C211** (results in their places): a command with a nested command among its arguments is run after the nested one, and gets
its result in its place; the arguments before it are made ready earlier and those after it later. -/
theorem C211_in_place {S : Type} (D : List (PyVal O) → S → Except Err (PyVal O) × S) (nameOf : PyVal O → String)
    (pre inner post : List (PyVal O)) (r : PyVal O) (w w' : S) :
    executeCommand D nameOf false (pre ++ .nested inner :: post) w = (.ok r, w') ↔
      ∃ before w1 result w2 after w3,
        executeArgs D nameOf false pre w = (.ok before, w1) ∧
        executeCommand D nameOf false inner w1 = (.ok result, w2) ∧
        executeArgs D nameOf false post w2 = (.ok after, w3) ∧
        D (before ++ asArgument nameOf result :: after) w3 = (.ok r, w') := by
  rw [executeCommand_iff]
  constructor
  · rintro ⟨vs, w3, h1, h2⟩
    obtain ⟨before, w1, vs2, h3, h4, rfl⟩ := (executeArgs_append ..).1 h1
    obtain ⟨v, w2, after, h5, h6, rfl⟩ := (executeArgs_cons ..).1 h4
    exact ⟨before, w1, v, w2, after, w3, h3, h5, h6, h2⟩
  · rintro ⟨before, w1, v, w2, after, w3, h3, h5, h6, h2⟩
    exact ⟨_, w3, (executeArgs_append ..).2 ⟨before, w1, _, h3, (executeArgs_cons ..).2 ⟨v, w2, after, h5, h6, rfl⟩, rfl⟩, h2⟩

/-- **C211** (other arguments): a command without nested ones is run once, with its words as they are, paths as text and objects
hidden under a text. -/
theorem C211_plain {S : Type} (D : List (PyVal O) → S → Except Err (PyVal O) × S) (nameOf : PyVal O → String)
    (args : List (PyVal O)) (w : S) (h : ∀ a ∈ args, ∀ l, a ≠ .nested l) :
    executeArgs D nameOf false args w = (.ok (args.map (asArgument nameOf)), w) ∧
    executeCommand D nameOf false args w = D (args.map (asArgument nameOf)) w ∧
    (∀ s, asArgument nameOf (.text s : PyVal O) = .text s) ∧ (∀ s, asArgument nameOf (.path s : PyVal O) = .text s) ∧
    (∀ o, asArgument nameOf (.object o) = .wrapped (nameOf (.object o)) (.object o)) := by
  have key : executeArgs D nameOf false args w = (.ok (args.map (asArgument nameOf)), w) := by
    induction args with
    | nil => rw [executeArgs]; rfl
    | cons a args ih =>
      rw [List.forall_mem_cons] at h
      refine (executeArgs_cons ..).2 ⟨a, w, _, ?_, ih h.2, rfl⟩
      cases a with
      | nested l => exact absurd rfl (h.1 l)
      | text s => rw [executeArg]
      | path s => rw [executeArg]
      | object o => rw [executeArg]
      | nothing => rw [executeArg]
      | wrapped n v => rw [executeArg]
  refine ⟨key, ?_, fun _ => rfl, fun _ => rfl, fun _ => rfl⟩
  unfold executeCommand
  rw [executeArg, key]
  rfl

mutual
theorem executeArg_count {S : Type} (D : List (PyVal O) → S → Except Err (PyVal O) × S) (nameOf : PyVal O → String)
    (a : PyVal O) (w : S) (log : List (List (PyVal O))) :
    ∃ r w' calls, executeArg (logged D) nameOf false a (w, log) = (r, (w', log ++ calls)) ∧
      (∀ v, r = .ok v → calls.length = commands a) ∧
      (∀ e, r = .error e → ∃ prior last w0, calls = prior ++ [last] ∧ D last w0 = (.error e, w')) := by
  match a with
  | .nested l =>
    obtain ⟨r, w', calls, h1, h2, h3⟩ := executeArgs_count D nameOf l w log
    rw [executeArg, h1]
    cases r with
    | error e => exact ⟨.error e, w', calls, rfl, nofun, fun e' he => h3 e' (by rw [Except.error.inj he])⟩
    | ok vs =>
      refine ⟨(D vs w').1, (D vs w').2, calls ++ [vs], ?_, fun v _ => ?_, fun e he => ?_⟩
      · simp [callCommand, logged]
      · rw [List.length_append, h2 vs rfl, commands]; rfl
      · exact ⟨calls, vs, w', rfl, by rw [← he]⟩
  | .text s => exact ⟨.ok (.text s), w, [], by rw [executeArg, List.append_nil], fun _ _ => rfl, nofun⟩
  | .path s => exact ⟨.ok (.path s), w, [], by rw [executeArg, List.append_nil], fun _ _ => rfl, nofun⟩
  | .object o => exact ⟨.ok (.object o), w, [], by rw [executeArg, List.append_nil], fun _ _ => rfl, nofun⟩
  | .nothing => exact ⟨.ok .nothing, w, [], by rw [executeArg, List.append_nil], fun _ _ => rfl, nofun⟩
  | .wrapped n v => exact ⟨.ok (.wrapped n v), w, [], by rw [executeArg, List.append_nil], fun _ _ => rfl, nofun⟩
theorem executeArgs_count {S : Type} (D : List (PyVal O) → S → Except Err (PyVal O) × S) (nameOf : PyVal O → String)
    (as : List (PyVal O)) (w : S) (log : List (List (PyVal O))) :
    ∃ r w' calls, executeArgs (logged D) nameOf false as (w, log) = (r, (w', log ++ calls)) ∧
      (∀ v, r = .ok v → calls.length = commandsAll as) ∧
      (∀ e, r = .error e → ∃ prior last w0, calls = prior ++ [last] ∧ D last w0 = (.error e, w')) := by
  match as with
  | [] => exact ⟨.ok [], w, [], by rw [executeArgs, List.append_nil], fun _ _ => rfl, nofun⟩
  | a :: as =>
    obtain ⟨r, w1, calls, h1, h2, h3⟩ := executeArg_count D nameOf a w log
    rw [executeArgs, h1]
    cases r with
    | error e => exact ⟨.error e, w1, calls, rfl, nofun, fun e' he => h3 e' (by rw [Except.error.inj he])⟩
    | ok v =>
      obtain ⟨r', w2, calls', g1, g2, g3⟩ := executeArgs_count D nameOf as w1 (log ++ calls)
      simp only [g1]
      cases r' with
      | error e =>
        refine ⟨.error e, w2, calls ++ calls', by rw [List.append_assoc], nofun, fun e' he => ?_⟩
        obtain ⟨prior, last, w0, e1, e2⟩ := g3 e rfl
        exact ⟨calls ++ prior, last, w0, by rw [e1, List.append_assoc], by rw [e2, Except.error.inj he]⟩
      | ok vs =>
        refine ⟨.ok (asArgument nameOf v :: vs), w2, calls ++ calls', by rw [List.append_assoc], fun _ _ => ?_, nofun⟩
        rw [List.length_append, h2 v rfl, g2 vs rfl, commandsAll]
end

/-- **C211** (each once, and nothing after a failure): if all goes well each command is run once, the outermost one last; if not,
the error is that of the last command run, after which nothing is changed. -/
theorem C211_each_once {S : Type} (D : List (PyVal O) → S → Except Err (PyVal O) × S) (nameOf : PyVal O → String)
    (args : List (PyVal O)) (w : S) :
    ∃ r w' calls, executeCommand (logged D) nameOf false args (w, []) = (r, (w', calls)) ∧
      (∀ v, r = .ok v → calls.length = commandsAll args + 1) ∧
      (∀ e, r = .error e → ∃ prior last w0, calls = prior ++ [last] ∧ D last w0 = (.error e, w')) := by
  obtain ⟨r, w', calls, h1, h2, h3⟩ := executeArg_count D nameOf (.nested args) w []
  exact ⟨r, w', calls, h1, h2, h3⟩

mutual
theorem executeArg_logged {S : Type} (D : List (PyVal O) → S → Except Err (PyVal O) × S) (nameOf : PyVal O → String)
    (dry : Bool) (a : PyVal O) (w : S) (log : List (List (PyVal O))) :
    ((executeArg (logged D) nameOf dry a (w, log)).1, (executeArg (logged D) nameOf dry a (w, log)).2.1) =
      executeArg D nameOf dry a w := by
  match a with
  | .nested l =>
    have ih := executeArgs_logged D nameOf dry l w log
    rw [executeArg, executeArg]
    rcases h1 : executeArgs (logged D) nameOf dry l (w, log) with ⟨r, w1, log1⟩
    rw [h1] at ih
    rw [← ih]
    cases r with
    | error e => rfl
    | ok vs => cases dry <;> rfl
  | .text s => rw [executeArg, executeArg]
  | .path s => rw [executeArg, executeArg]
  | .object o => rw [executeArg, executeArg]
  | .nothing => rw [executeArg, executeArg]
  | .wrapped n v => rw [executeArg, executeArg]
theorem executeArgs_logged {S : Type} (D : List (PyVal O) → S → Except Err (PyVal O) × S) (nameOf : PyVal O → String)
    (dry : Bool) (as : List (PyVal O)) (w : S) (log : List (List (PyVal O))) :
    ((executeArgs (logged D) nameOf dry as (w, log)).1, (executeArgs (logged D) nameOf dry as (w, log)).2.1) =
      executeArgs D nameOf dry as w := by
  match as with
  | [] => rw [executeArgs, executeArgs]
  | a :: as =>
    have ih := executeArg_logged D nameOf dry a w log
    rw [executeArgs, executeArgs]
    rcases h1 : executeArg (logged D) nameOf dry a (w, log) with ⟨r, w1, log1⟩
    rw [h1] at ih
    rw [← ih]
    cases r with
    | error e => rfl
    | ok v =>
      have ih2 := executeArgs_logged D nameOf dry as w1 log1
      dsimp only
      rcases h2 : executeArgs (logged D) nameOf dry as (w1, log1) with ⟨r2, w2, log2⟩
      rw [h2] at ih2
      rw [← ih2]
      cases r2 <;> rfl
end

/-- C211: keeping the list of calls changes nothing else. -/
theorem C211_logged {S : Type} (D : List (PyVal O) → S → Except Err (PyVal O) × S) (nameOf : PyVal O → String)
    (args : List (PyVal O)) (w : S) :
    ((executeCommand (logged D) nameOf false args (w, [])).1, (executeCommand (logged D) nameOf false args (w, [])).2.1) =
      executeCommand D nameOf false args w :=
  executeArg_logged D nameOf false _ w []

mutual
theorem executeArg_dry {S : Type} (D : List (PyVal O) → S → Except Err (PyVal O) × S) (nameOf : PyVal O → String)
    (a : PyVal O) (w : S) : ∃ v, executeArg D nameOf true a w = (.ok v, w) := by
  match a with
  | .nested l =>
    obtain ⟨vs, h⟩ := executeArgs_dry D nameOf l w
    rw [executeArg, h]
    exact ⟨_, rfl⟩
  | .text s => exact ⟨_, by rw [executeArg]⟩
  | .path s => exact ⟨_, by rw [executeArg]⟩
  | .object o => exact ⟨_, by rw [executeArg]⟩
  | .nothing => exact ⟨_, by rw [executeArg]⟩
  | .wrapped n v => exact ⟨_, by rw [executeArg]⟩
theorem executeArgs_dry {S : Type} (D : List (PyVal O) → S → Except Err (PyVal O) × S) (nameOf : PyVal O → String)
    (as : List (PyVal O)) (w : S) : ∃ vs, executeArgs D nameOf true as w = (.ok vs, w) := by
  match as with
  | [] => exact ⟨[], by rw [executeArgs]⟩
  | a :: as =>
    obtain ⟨v, h⟩ := executeArg_dry D nameOf a w
    obtain ⟨vs, h2⟩ := executeArgs_dry D nameOf as w
    exact ⟨_, (executeArgs_cons ..).2 ⟨v, w, vs, h, h2, rfl⟩⟩
end

/-- **C211** (dry run): a dry run runs no command, whatever the dispatcher does, and cannot fail. -/
theorem C211_dry {S : Type} (D : List (PyVal O) → S → Except Err (PyVal O) × S) (nameOf : PyVal O → String)
    (args : List (PyVal O)) (w : S) : ∃ v, executeCommand (logged D) nameOf true args (w, []) = (.ok v, (w, [])) :=
  executeArg_dry (logged D) nameOf _ _

/-- A dispatcher for the example: the first word is the result, and "bad" fails. -/
def echoDispatch (args : List (PyVal ℕ)) (w : ℕ) : Except Err (PyVal ℕ) × ℕ :=
  match args with
  | .text "bad" :: _ => (.error .valueError, w)
  | _ => (.ok (.object args.length), w + 1)

/-- C211 has cases: of three commands the second fails. -/
example : (executeCommand (logged echoDispatch) (fun _ => "x") false
    [.text "outer", .nested [.text "one", .text "a"], .nested [.text "bad"], .nested [.text "three"]] (0, [])) =
      (.error .valueError, (1, [[.text "one", .text "a"], [.text "bad"]])) := rfl

/-- C211 has cases: the outer command gets the results in their places. -/
example : (executeCommand (logged echoDispatch) (fun _ => "x") false
    [.text "outer", .nested [.text "one", .text "a"], .text "b"] (0, [])) =
      (.ok (.object 3), (2, [[.text "one", .text "a"], [.text "outer", .wrapped "x" (.object 2), .text "b"]])) := rfl

/-! ## Conversion and output -/

/-- The value an argument stands for to a command that reads files. -/
def readArgument {S : Type} (load : S → String → Except Err (PyVal O)) (w : S) (v : PyVal O) : Except Err (PyVal O) :=
  coerceWith (load w) v

/-- **C212** (objects in place of files): an object handed to a command is used as it is, without a file being read, while a text
is read as a file. -/
theorem C212_objects (converter : String → Except Err (PyVal O)) (nameOf : PyVal O → String) (v : PyVal O) :
    (∀ s, v = .text s → coerceWith converter (asArgument nameOf v) = converter s) ∧
    (∀ s, v = .path s → coerceWith converter (asArgument nameOf v) = converter s) ∧
    (∀ o, v = .object o → coerceWith converter (asArgument nameOf v) = .ok (.object o)) ∧
    (v = .nothing → coerceWith converter (asArgument nameOf v) = .ok .nothing) := by
  refine ⟨?_, ?_, ?_, ?_⟩
  · rintro s rfl; rfl
  · rintro s rfl; rfl
  · rintro o rfl; rfl
  · rintro rfl; rfl

/-- **C212** (output): a result is saved exactly if a file name is given and the result is not empty; then nothing is returned, or
with pass_through_output the result under the name of the file. -/
theorem C212_output {S : Type} (truthy : PyVal O → Bool) (save : PyVal O → String → S → Except Err Unit × S) (output : String)
    (pass : Bool) (o : O) (w : S) :
    (output = "" ∨ truthy (.object o) = false → withOutput truthy save output pass (.object o) w = (.ok (.object o), w)) ∧
    (output ≠ "" → truthy (.object o) = true →
      (∀ w', save (.object o) output w = (.ok (), w') →
        withOutput truthy save output pass (.object o) w =
          (.ok (if pass = true then .wrapped output (.object o) else .nothing), w')) ∧
      (∀ e w', save (.object o) output w = (.error e, w') →
        withOutput truthy save output pass (.object o) w = (.error e, w'))) := by
  constructor
  · intro h
    unfold withOutput
    rw [if_neg]
    rintro ⟨h1, h2⟩
    rcases h with h | h
    · exact h1 h
    · rw [h] at h2; nomatch h2
  · intro h1 h2
    constructor
    · intro w' hs
      unfold withOutput
      rw [if_pos ⟨h1, h2⟩, hs]
      cases pass <;> rfl
    · intro e w' hs
      unfold withOutput
      rw [if_pos ⟨h1, h2⟩, hs]

/-- **C212** (output of a named result): a result that already stands for a file keeps its name when it is passed through. -/
theorem C212_output_named {S : Type} (truthy : PyVal O → Bool) (save : PyVal O → String → S → Except Err Unit × S) (output n : String)
    (v : PyVal O) (w w' : S) (ho : output ≠ "") (ht : truthy (.wrapped n v) = true) (hs : save (.wrapped n v) output w = (.ok (), w')) :
    withOutput truthy save output true (.wrapped n v) w = (.ok (.wrapped n v), w') := by
  unfold withOutput
  rw [if_pos ⟨ho, ht⟩, hs]
  rfl

/-- **C212** (pipelines and files): a command given the result of a nested command does the same as one given the file in which
the result was saved, if it reads its arguments as files, reading the saved file gives the result, and no other argument of it
is read differently after the file was written. -/
theorem C212_pipeline {S : Type} (load : S → String → Except Err (PyVal O)) (nameOf : PyVal O → String)
    (D : List (PyVal O) → S → Except Err (PyVal O) × S) (body : List (Except Err (PyVal O)) → Except Err (PyVal O))
    (pre inner post : List (PyVal O)) (file : String) (o : O) (w w1 w2 : S)
    (hbody : ∀ args w, D args w = (body (args.map (readArgument load w)), w))
    (hpre : ∀ a ∈ pre, ∀ l, a ≠ .nested l) (hpost : ∀ a ∈ post, ∀ l, a ≠ .nested l)
    (hinner : executeCommand D nameOf false inner w = (.ok (.object o), w1))
    (hsaved : load w2 file = .ok (.object o))
    (hother : ∀ a ∈ pre ++ post, readArgument load w2 (asArgument nameOf a) = readArgument load w1 (asArgument nameOf a)) :
    (executeCommand D nameOf false (pre ++ .nested inner :: post) w).1 =
      (executeCommand D nameOf false (pre ++ .text file :: post) w2).1 := by
  have hplain : ∀ a ∈ pre ++ .text file :: post, ∀ l, a ≠ .nested l := by
    intro a ha l
    simp only [List.mem_append, List.mem_cons] at ha
    rcases ha with ha | rfl | ha
    · exact hpre a ha l
    · exact nofun
    · exact hpost a ha l
  have e1 := (C211_plain D nameOf pre w hpre).1
  have e2 := (C211_plain D nameOf post w1 hpost).1
  have hl : executeArgs D nameOf false (pre ++ .nested inner :: post) w =
      (.ok (pre.map (asArgument nameOf) ++ asArgument nameOf (.object o) :: post.map (asArgument nameOf)), w1) :=
    (executeArgs_append ..).2 ⟨_, w, _, e1, (executeArgs_cons ..).2 ⟨_, w1, _, hinner, e2, rfl⟩, rfl⟩
  have h1 : executeCommand D nameOf false (pre ++ .nested inner :: post) w =
      D (pre.map (asArgument nameOf) ++ asArgument nameOf (.object o) :: post.map (asArgument nameOf)) w1 := by
    unfold executeCommand
    rw [executeArg, hl]
    rfl
  rw [h1, (C211_plain D nameOf _ w2 hplain).2.1, hbody, hbody]
  simp only
  congr 1
  simp only [List.map_append, List.map_cons, List.map_map]
  have hp : ∀ l : List (PyVal O), (∀ a ∈ l, a ∈ pre ++ post) →
      l.map (readArgument load w1 ∘ asArgument nameOf) = l.map (readArgument load w2 ∘ asArgument nameOf) := by
    intro l hl'
    refine List.map_congr_left fun a ha => ?_
    exact (hother a (hl' a ha)).symm
  rw [hp pre (fun a ha => by simp [ha]), hp post (fun a ha => by simp [ha])]
  congr 2
  show Except.ok (PyVal.object o) = load w2 file
  rw [hsaved]

/-- Files of the example: at most the file "f". -/
def oneFile (w : Option ℕ) (name : String) : Except Err (PyVal ℕ) :=
  match w with
  | some n => if name = "f" then .ok (.object n) else .error .valueError
  | none => .error .valueError

/-- A command of the example: an object among the arguments makes 10 more than it, none makes 1. -/
def tenMore (l : List (Except Err (PyVal ℕ))) : Except Err (PyVal ℕ) :=
  match l with
  | [_, .ok (.object n), _] => .ok (.object (n + 10))
  | _ => .ok (.object 1)

/-- The conditions of C212_pipeline can be met, and the result depends on the nested command. -/
example : (executeCommand (fun args w => (tenMore (args.map (readArgument oneFile w)), w)) (fun _ => "x") false
      ([.text "outer"] ++ .nested [.text "inner"] :: [.text "b"]) none).1 =
    (executeCommand (fun args w => (tenMore (args.map (readArgument oneFile w)), w)) (fun _ => "x") false
      ([.text "outer"] ++ .text "f" :: [.text "b"]) (some 1)).1 ∧
    (executeCommand (fun args w => (tenMore (args.map (readArgument oneFile w)), w)) (fun _ => "x") false
      ([.text "outer"] ++ .text "f" :: [.text "b"]) (some 1)).1 = .ok (.object 11) :=
  ⟨C212_pipeline oneFile _ _ tenMore _ _ _ "f" 1 none none (some 1) (fun _ _ => rfl) (by simp) (by simp) rfl rfl
    (by
      intro a ha
      simp only [List.cons_append, List.nil_append, List.mem_cons, List.not_mem_nil, or_false] at ha
      rcases ha with rfl | rfl <;> rfl), rfl⟩

/-- **C212 refuted** (nested commands with output): a nested command that saves its result, without pass_through_output, hands
None to the command around it instead of the result. -/
theorem C212_saved_refuted :
    ∃ (truthy : PyVal ℕ → Bool) (save : PyVal ℕ → String → ℕ → Except Err Unit × ℕ),
      (withOutput truthy save "out.nc" false (.object 7) 0).1 = .ok .nothing ∧
      coerceWith (fun _ => .error .valueError) (asArgument (fun _ => "") (.nothing : PyVal ℕ)) = .ok .nothing :=
  ⟨fun _ => true, fun _ _ w => (.ok (), w + 1), rfl, rfl⟩

/-- **C212** (pass-through): with pass_through_output the command around gets the result itself. -/
theorem C212_pass_through {S : Type} (truthy : PyVal O → Bool) (save : PyVal O → String → S → Except Err Unit × S)
    (output : String) (o : O) (w w' : S) (ho : output ≠ "") (ht : truthy (.object o) = true)
    (hs : save (.object o) output w = (.ok (), w')) (nameOf : PyVal O → String) (converter : String → Except Err (PyVal O)) :
    ∃ v, withOutput truthy save output true (.object o) w = (.ok v, w') ∧
      coerceWith converter (asArgument nameOf v) = .ok (.object o) :=
  ⟨.wrapped output (.object o), by rw [((C212_output truthy save output true o w).2 ho ht).1 w' hs]; rfl, rfl⟩

/-- **C212** (constraints): the cubes chosen from a list are one for each constraint, in the order of the constraints, and each
is the only cube of the list that meets it. -/
theorem C212_constrained {C : Type} (cubes : List C) (constraints : List (C → Bool)) (res : List C) :
    constrained cubes constraints = .ok res ↔ List.Forall₂ (fun p c => cubes.filter p = [c]) constraints res := by
  unfold constrained
  constructor
  · intro h
    have := mapM_ok_forall₂ h
    revert this
    apply List.Forall₂.imp
    intro p c hpc
    split at hpc
    · rename_i x hx
      rw [hx, Except.ok.inj hpc]
    · nomatch hpc
  · intro h
    refine mapM_of_forall₂ (h.imp ?_)
    intro p c hpc
    rw [hpc]

/-- **C212** (lists): items without commas are found again in the text that joins them with commas. -/
theorem C212_comma_list (items : List (List Char)) (hne : items ≠ []) (h : ∀ x ∈ items, ',' ∉ x) :
    commaList (joinWith ',' items) = items := splitAt_join hne h

/-! ## Titles -/

/-- **C213**: however many plugins a cube goes through, its title is marked once, and not at all if it is missing, the default or
already marked. -/
theorem C213_marked_once (n : ℕ) (t : List Char) :
    postTitle none = none ∧
    (t = "unknown".toList ∨ "Post-Processed".toList <:+: t → postTitle^[n] (some t) = some t) ∧
    (t ≠ "unknown".toList → ¬ "Post-Processed".toList <:+: t →
      postTitle^[n + 1] (some t) = some ("Post-Processed ".toList ++ t)) := by
  have hstay : ∀ t : List Char, t = "unknown".toList ∨ "Post-Processed".toList <:+: t → postTitle (some t) = some t := by
    intro t h
    unfold postTitle
    dsimp only
    rw [if_neg]
    rintro ⟨h1, h2⟩
    rcases h with h | h
    · exact h1 h
    · exact h2 ((hasPart_iff _ _).2 h)
  have hiter : ∀ (n : ℕ) (t : List Char), t = "unknown".toList ∨ "Post-Processed".toList <:+: t →
      postTitle^[n] (some t) = some t := by
    intro n t h
    induction n with
    | zero => rfl
    | succ n ih => rw [Function.iterate_succ_apply, hstay t h, ih]
  refine ⟨rfl, hiter n t, fun h1 h2 => ?_⟩
  rw [Function.iterate_succ_apply]
  have h3 : postTitle (some t) = some ("Post-Processed ".toList ++ t) := by
    unfold postTitle
    dsimp only
    rw [if_pos ⟨h1, fun h => h2 ((hasPart_iff _ _).1 h)⟩]
  rw [h3]
  refine hiter n _ (Or.inr ⟨[], ' ' :: t, ?_⟩)
  generalize t = t'
  rfl

/-- C213 has cases. -/
example : postTitle^[3] (some "MOGREPS-UK Model Forecast".toList) = some "Post-Processed MOGREPS-UK Model Forecast".toList ∧
    postTitle^[3] (some "unknown".toList) = some "unknown".toList := by decide +kernel

end Improver
