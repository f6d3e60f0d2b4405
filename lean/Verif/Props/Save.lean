import Verif.Model.Standards
import Mathlib.Data.List.Basic
import Mathlib.Data.List.Forall2
import Mathlib.Tactic.Linarith
import Mathlib.Tactic.NormNum

/-! Properties of saving cubes to files (C170). -/

namespace Improver

/-- The list is an interleaving of the other two. -/
inductive Spec.Shuffle {α : Type} : List α → List α → List α → Prop
  | nil : Spec.Shuffle [] [] []
  | left {a l r m} : Spec.Shuffle l r m → Spec.Shuffle (a :: l) r (a :: m)
  | right {a l r m} : Spec.Shuffle l r m → Spec.Shuffle l (a :: r) (a :: m)

/-- The step reads or changes the file. -/
def Spec.touches : FileStep → String → Prop
  | .create p, x => x = p
  | .append p _, x => x = p
  | .rename p q, x => x = p ∨ x = q

theorem run_untouched {s : FileStep} {x : String} (h : ¬ Spec.touches s x) (fs : Files) : s.run fs x = fs x := by
  cases s with
  | create p => exact if_neg h
  | append p b => exact if_neg h
  | rename p q =>
    unfold Spec.touches at h
    push Not at h
    unfold FileStep.run
    dsimp only
    cases hp : fs p with
    | none => rfl
    | some c =>
      dsimp only
      rw [if_neg h.2, if_neg h.1]

theorem runSteps_untouched {l : List FileStep} {x : String} (h : ∀ s ∈ l, ¬ Spec.touches s x) (fs : Files) :
    runSteps fs l x = fs x := by
  induction l generalizing fs with
  | nil => rfl
  | cons s l ih =>
    unfold runSteps at ih ⊢
    rw [List.foldl_cons, ih (fun t ht => h t (List.mem_cons_of_mem _ ht)), run_untouched (h s List.mem_cons_self)]

theorem tmp_ne (f : String) : f ++ ".tmp" ≠ f := by
  intro h
  have := congrArg String.length h
  rw [String.length_append] at this
  have h4 : ".tmp".length = 4 := by decide +kernel
  omega

theorem tmp_inj {f g : String} (h : f ++ ".tmp" = g ++ ".tmp") : f = g := by
  have := congrArg String.toList h
  rw [String.toList_append, String.toList_append] at this
  exact String.toList_inj.1 (List.append_cancel_right this)

/-- The state of a save in progress: nothing has been done, the temporary file holds what has been written so far,
or everything is in place. -/
inductive Spec.Stage (fs0 : Files) (f : String) (bytes : List ℕ) : List FileStep → Files → Prop
  | start {fs} : fs f = fs0 f → Spec.Stage fs0 f bytes (saveSteps f bytes) fs
  | writing {fs} (done todo) : fs f = fs0 f → fs (f ++ ".tmp") = some done → bytes = done ++ todo →
      Spec.Stage fs0 f bytes (todo.map (.append (f ++ ".tmp")) ++ [.rename (f ++ ".tmp") f]) fs
  | finished {fs} : fs f = some bytes → fs (f ++ ".tmp") = none → Spec.Stage fs0 f bytes [] fs

theorem stage_file {fs0 : Files} {f : String} {bytes : List ℕ} {l : List FileStep} {fs : Files}
    (h : Spec.Stage fs0 f bytes l fs) : fs f = fs0 f ∨ fs f = some bytes := by
  cases h with
  | start h => exact .inl h
  | writing _ _ h _ _ => exact .inl h
  | finished h _ => exact .inr h

theorem stage_step {fs0 : Files} {f : String} {bytes : List ℕ} {s : FileStep} {l : List FileStep} {fs : Files}
    (h : Spec.Stage fs0 f bytes (s :: l) fs) : Spec.Stage fs0 f bytes l (s.run fs) := by
  generalize hm : s :: l = m at h
  cases h with
  | start h =>
    unfold saveSteps at hm
    rw [List.cons_append, List.cons.injEq] at hm
    obtain ⟨rfl, rfl⟩ := hm
    refine .writing [] bytes ?_ ?_ rfl
    · unfold FileStep.run
      dsimp only
      rw [if_neg (tmp_ne f).symm, h]
    · unfold FileStep.run
      dsimp only
      rw [if_pos rfl]
  | writing done todo h1 h2 h3 =>
    cases todo with
    | nil =>
      rw [List.map_nil, List.nil_append, List.cons.injEq] at hm
      obtain ⟨rfl, rfl⟩ := hm
      rw [List.append_nil] at h3
      refine .finished ?_ ?_
      · unfold FileStep.run
        dsimp only
        rw [h2]
        dsimp only
        rw [if_pos rfl, h3]
      · unfold FileStep.run
        dsimp only
        rw [h2]
        dsimp only
        rw [if_neg (tmp_ne f), if_pos rfl]
    | cons b todo =>
      rw [List.map_cons, List.cons_append, List.cons.injEq] at hm
      obtain ⟨rfl, rfl⟩ := hm
      refine .writing (done ++ [b]) todo ?_ ?_ (by rw [h3]; simp)
      · unfold FileStep.run
        dsimp only
        rw [if_neg (tmp_ne f).symm, h1]
      · unfold FileStep.run
        dsimp only
        rw [if_pos rfl, h2]
        rfl
  | finished _ _ => exact nomatch hm

theorem stage_env {fs0 : Files} {f : String} {bytes : List ℕ} {l : List FileStep} {fs : Files} {s : FileStep}
    (h : Spec.Stage fs0 f bytes l fs) (h1 : ¬ Spec.touches s f) (h2 : ¬ Spec.touches s (f ++ ".tmp")) :
    Spec.Stage fs0 f bytes l (s.run fs) := by
  cases h with
  | start h => exact .start (by rw [run_untouched h1, h])
  | writing d t a b c => exact .writing d t (by rw [run_untouched h1, a]) (by rw [run_untouched h2, b]) c
  | finished a b => exact .finished (by rw [run_untouched h1, a]) (by rw [run_untouched h2, b])

theorem stage_run {fs0 : Files} {f : String} {bytes : List ℕ} {pre post env m : List FileStep} {fs : Files}
    (hm : Spec.Shuffle pre env m) (h : Spec.Stage fs0 f bytes (pre ++ post) fs)
    (henv : ∀ s ∈ env, ¬ Spec.touches s f ∧ ¬ Spec.touches s (f ++ ".tmp")) :
    Spec.Stage fs0 f bytes post (runSteps fs m) := by
  induction hm generalizing fs with
  | nil => exact h
  | left _ ih => exact ih (stage_step h) henv
  | right _ ih =>
    exact ih (stage_env h (henv _ List.mem_cons_self).1 (henv _ List.mem_cons_self).2)
      (fun s hs => henv s (List.mem_cons_of_mem _ hs))

/-- C170: a save cut off after any number of steps, while other processes do anything at all with other files in
any order, leaves the target with either its old content or the complete new one; never a part. -/
theorem C170_atomic (fs : Files) (f : String) (bytes : List ℕ) {pre env m : List FileStep}
    (hpre : pre <+: saveSteps f bytes) (hm : Spec.Shuffle pre env m)
    (henv : ∀ s ∈ env, ¬ Spec.touches s f ∧ ¬ Spec.touches s (f ++ ".tmp")) :
    runSteps fs m f = fs f ∨ runSteps fs m f = some bytes := by
  obtain ⟨post, hpost⟩ := hpre
  exact stage_file (stage_run (post := post) hm (by rw [hpost]; exact .start rfl) henv)

/-- C170: a save that runs to its end leaves the new content in place and no temporary file, whatever other
processes do with other files, and even if an earlier save was cut off and left a temporary file behind. -/
theorem C170_complete (fs : Files) (f : String) (bytes : List ℕ) {env m : List FileStep}
    (hm : Spec.Shuffle (saveSteps f bytes) env m)
    (henv : ∀ s ∈ env, ¬ Spec.touches s f ∧ ¬ Spec.touches s (f ++ ".tmp")) :
    runSteps fs m f = some bytes ∧ runSteps fs m (f ++ ".tmp") = none := by
  have := stage_run (fs0 := fs) (bytes := bytes) (post := []) hm (by rw [List.append_nil]; exact .start rfl) henv
  generalize hl : ([] : List FileStep) = l at this
  cases this with
  | start _ => unfold saveSteps at hl; simp at hl
  | writing _ _ _ _ _ => simp at hl
  | finished a b => exact ⟨a, b⟩

/-- C170: a save touches no files but the target and its temporary file. -/
theorem C170_others (f x : String) (bytes : List ℕ) (h1 : x ≠ f) (h2 : x ≠ f ++ ".tmp") :
    ∀ s ∈ saveSteps f bytes, ¬ Spec.touches s x := by
  intro s hs
  unfold saveSteps at hs
  rw [List.mem_append, List.mem_cons, List.mem_map, List.mem_singleton] at hs
  rcases hs with (rfl | ⟨b, _, rfl⟩) | rfl
  · exact h2
  · exact h2
  · rintro (h | h)
    · exact h2 h
    · exact h1 h

/-- C170: two saves at the same time, each cut off anywhere, keep both targets whole, provided that neither target
is the other's target or temporary file. -/
theorem C170_two_saves (fs : Files) {f g : String} (hfg : f ≠ g) (h1 : f ≠ g ++ ".tmp") (h2 : g ≠ f ++ ".tmp")
    (a b : List ℕ) {pre pre' m : List FileStep} (hp : pre <+: saveSteps f a) (hp' : pre' <+: saveSteps g b)
    (hm : Spec.Shuffle pre pre' m) :
    (runSteps fs m f = fs f ∨ runSteps fs m f = some a) ∧ (runSteps fs m g = fs g ∨ runSteps fs m g = some b) := by
  have swap : ∀ {l r m : List FileStep}, Spec.Shuffle l r m → Spec.Shuffle r l m := by
    intro l r m h
    induction h with
    | nil => exact .nil
    | left _ ih => exact .right ih
    | right _ ih => exact .left ih
  constructor
  · refine C170_atomic fs f a hp hm fun s hs => ⟨?_, ?_⟩
    · exact C170_others g f b hfg h1 s (hp'.subset hs)
    · exact C170_others g _ b h2.symm (fun e => hfg (tmp_inj e)) s (hp'.subset hs)
  · refine C170_atomic fs g b hp' (swap hm) fun s hs => ⟨?_, ?_⟩
    · exact C170_others f g a hfg.symm h2 s (hp.subset hs)
    · exact C170_others f _ a h1.symm (fun e => hfg (tmp_inj e.symm)) s (hp.subset hs)

/-- C170 finding: two saves to the same target share the temporary file; one schedule leaves a file that is
neither's (here a save of [1, 2] and one of [3]). -/
theorem C170_same_target_refuted : ∃ m, Spec.Shuffle (saveSteps "f" [1, 2]) (saveSteps "f" [3]) m ∧
    runSteps (fun _ => none) m "f" = some [2, 3] := by
  refine ⟨[.create "f.tmp", .append "f.tmp" 1, .create "f.tmp", .append "f.tmp" 2, .append "f.tmp" 3,
    .rename "f.tmp" "f", .rename "f.tmp" "f"], ?_, by decide +kernel⟩
  have e : ∀ b, saveSteps "f" b = .create "f.tmp" :: (b.map (.append "f.tmp") ++ [.rename "f.tmp" "f"]) := fun b => rfl
  rw [e, e]
  exact .left (.left (.right (.left (.right (.left (.right .nil))))))

/-! ### Before anything is written -/

/-- The cube may be saved: standard types and units, and known units. -/
def Spec.saveable (c : StdCube) : Prop := checkStandards c = .ok () ∧ c.unit ≠ none

theorem checkStandards_methods (c : StdCube) (ms : List String) :
    checkStandards { c with cellMethods := ms } = checkStandards c := rfl

theorem prepare_ok (srt : List String → List String) (cubes : List StdCube) :
    ((prepareCubes srt cubes).1 = .ok () ↔ ∀ c ∈ cubes, Spec.saveable c) ∧
    ((prepareCubes srt cubes).1 = .ok () ∨ (prepareCubes srt cubes).1 = .error .valueError) ∧
    ((prepareCubes srt cubes).1 = .ok () → (prepareCubes srt cubes).2 = cubes.map fun c =>
      { c with cellMethods := srt c.cellMethods, attributes := c.attributes.filter fun a => a.1 ≠ "least_significant_digit" }) := by
  generalize hl : "least_significant_digit" = lsd
  induction cubes with
  | nil => exact ⟨by simp [prepareCubes], .inl rfl, fun _ => rfl⟩
  | cons c rest ih =>
    obtain ⟨ih1, ih2, ih3⟩ := ih
    rw [prepareCubes, hl]
    dsimp only
    rw [checkStandards_methods]
    have hdich : checkStandards c = .ok () ∨ checkStandards c = .error .valueError := by
      unfold checkStandards
      dsimp only
      split
      · exact .inr rfl
      · exact .inl rfl
    rcases hdich with h | h
    · rw [h]
      dsimp only
      by_cases hu : c.unit = none
      · rw [if_pos hu]
        refine ⟨⟨fun h => (nomatch h), fun h' => absurd hu (h' c List.mem_cons_self).2⟩, .inr rfl, fun h => (nomatch h)⟩
      · rw [if_neg hu]
        dsimp only
        refine ⟨?_, ih2, fun h' => ?_⟩
        · rw [ih1, List.forall_mem_cons]
          exact ⟨fun h' => ⟨⟨h, hu⟩, h'⟩, fun h' => h'.2⟩
        · rw [List.map_cons, ih3 h']
    · rw [h]
      dsimp only
      refine ⟨⟨fun h => (nomatch h), fun h' => ?_⟩, .inr rfl, fun h => (nomatch h)⟩
      have := (h' c List.mem_cons_self).1
      rw [h] at this
      exact nomatch this

/-- C170: files are touched exactly when there are cubes, all of them saveable, and the compression level is one of
0 to 9; the steps are then those of one atomic save of what is written. -/
theorem C170_checks (srt : List String → List String) (write : List StdCube → Option (List ℕ) → List ℕ)
    (cubes : List StdCube) (filename : String) (level : ℤ) (steps : List FileStep) :
    (saveNetcdf srt write cubes filename level).1 = .ok steps ↔
      (cubes ≠ [] ∧ (∀ c ∈ cubes, Spec.saveable c) ∧ 0 ≤ level ∧ level ≤ 9) ∧
      ∃ left chunks, steps = saveSteps filename (write left chunks) ∧
        left = cubes.map (fun c => { c with cellMethods := srt c.cellMethods, attributes := c.attributes.filter fun a => a.1 ≠ "least_significant_digit" }) ∧
        chunks = chunkSizes left := by
  obtain ⟨h1, h2, h3⟩ := prepare_ok srt cubes
  generalize hl : "least_significant_digit" = lsd at *
  unfold saveNetcdf
  dsimp only
  rcases h2 with h | h
  · rw [h]
    dsimp only
    have hs := h1.1 h
    by_cases hc : cubes = []
    · rw [if_pos hc]
      exact ⟨fun h => (nomatch h), fun h' => absurd hc h'.1.1⟩
    · rw [if_neg hc]
      by_cases hv : level < 0 ∨ 9 < level
      · rw [if_pos hv]
        refine ⟨fun h => (nomatch h), fun h' => ?_⟩
        omega
      · rw [if_neg hv]
        push Not at hv
        constructor
        · intro he
          injection he with he
          exact ⟨⟨hc, hs, hv.1, hv.2⟩, _, _, he.symm, h3 h, rfl⟩
        · rintro ⟨-, left, chunks, rfl, rfl, rfl⟩
          dsimp only
          rw [h3 h]
  · rw [h]
    dsimp only
    refine ⟨fun h => (nomatch h), fun h' => ?_⟩
    rw [h1.2 h'.1.2.1] at h
    exact nomatch h

theorem chunkSizes_first (c : StdCube) (rest : List StdCube) (ch : List ℕ) (h : chunkSizes (c :: rest) = some ch) :
    2 ≤ c.shape.length ∧ ch = List.replicate (c.shape.length - 2) 1 ++ c.shape.drop (c.shape.length - 2) := by
  unfold chunkSizes at h
  dsimp only at h
  by_cases h1 : (rest.all fun d => decide (d.shape.take 2 = c.shape.take 2)) = true
  · rw [if_pos h1] at h
    by_cases h2 : c.shape.length ≥ 2
    · rw [if_pos h2, Option.some.injEq] at h
      exact ⟨h2, h.symm⟩
    · rw [if_neg h2] at h; exact nomatch h
  · rw [if_neg h1] at h; exact nomatch h

/-- C170: when all cubes have one shape without empty dimensions the chunks have as many dimensions, cover whole
horizontal slices and exceed no dimension. -/
theorem C170_chunks {cubes : List StdCube} {ch : List ℕ} (h : chunkSizes cubes = some ch) {s : List ℕ}
    (hs : ∀ c ∈ cubes, c.shape = s) (hpos : ∀ n ∈ s, 0 < n) :
    ch.length = s.length ∧ ch.drop (s.length - 2) = s.drop (s.length - 2) ∧ List.Forall₂ (· ≤ ·) ch s := by
  cases cubes with
  | nil => exact nomatch h
  | cons c rest =>
    obtain ⟨h2, rfl⟩ := chunkSizes_first c rest ch h
    have e := hs c List.mem_cons_self
    rw [e] at h2 ⊢
    refine ⟨?_, ?_, ?_⟩
    · rw [List.length_append, List.length_replicate, List.length_drop]; omega
    · rw [List.drop_append_of_le_length (by rw [List.length_replicate]), List.drop_eq_nil_of_le (by rw [List.length_replicate]),
        List.nil_append]
    · have key : ∀ (l : List ℕ), (∀ n ∈ l, 0 < n) → List.Forall₂ (· ≤ ·) (List.replicate l.length 1) l := by
        intro l hl
        induction l with
        | nil => exact .nil
        | cons n l ih => exact .cons (hl n List.mem_cons_self) (ih fun m hm => hl m (List.mem_cons_of_mem _ hm))
      have hk := key (s.take (s.length - 2)) fun n hn => hpos n (List.mem_of_mem_take hn)
      rw [List.length_take, min_eq_left (by omega)] at hk
      have := List.rel_append hk (List.forall₂_same.2 fun x (_ : x ∈ s.drop (s.length - 2)) => le_refl x)
      dsimp only at this
      rw [List.take_append_drop] at this
      exact this

/-- C170 finding: only the first two dimensions are compared, so with three or more dimensions the chunks can be
larger than a later cube. -/
theorem C170_chunks_refuted (c : StdCube) :
    chunkSizes [{ c with shape := [3, 4, 20, 20] }, { c with shape := [3, 4, 10, 10] }] = some [1, 1, 20, 20] := rfl

/-- A cube that may be saved. -/
def exSaveCube : StdCube :=
  ⟨"rain", .float32, [1], [⟨"time", .int 64, [0], none, ⟨"time since 1970-01-01", 1, 0⟩⟩], some ⟨"length", 1, 0⟩, [], [], [1]⟩

example : Spec.saveable exSaveCube := by
  constructor
  · decide +kernel
  · decide

example : (saveNetcdf id (fun _ _ => [7]) [exSaveCube] "f" 10).1 = .error .valueError ∧
    (saveNetcdf id (fun _ _ => [7]) [{ exSaveCube with dtype := .float64 }] "f" 1).1 = .error .valueError := ⟨rfl, rfl⟩

end Improver
