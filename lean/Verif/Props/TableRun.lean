import Verif.Model.TableRun
import Verif.Props.PrecipType
import Verif.Props.WholeBlend
import Verif.Props.ThresholdRun
import Verif.Props.RfRun

/-! C257: `ExtractValueFromTable` on cubes with named dimensions. -/

namespace Improver

namespace Spec

/-- `l` is the label used for `v`: the greatest that does not exceed `v` (by 1e-5 or more), or the least of all if there is none. -/
def LabelFor (labels : List ℚ) (v l : ℚ) : Prop :=
  l ∈ labels ∧ (∀ m ∈ labels, m < v + 1 / 100000 → m ≤ l) ∧ (l < v + 1 / 100000 ∨ ∀ m ∈ labels, l ≤ m)

/-- `w` is what the table says of a column value and a row value: NaN if one is NaN, else the entry at the labels for them, NaN if it has none. -/
def TableSays (t : TableData) (column row w : Option ℚ) : Prop :=
  match column, row with
  | some c, some r => ∃ lc lr, LabelFor (t.map Prod.fst) c lc ∧ LabelFor (t.flatMap fun k => k.2.map Prod.fst) r lr ∧
      ∃ rows, (lc, rows) ∈ t ∧ w = rows.lookup lr
  | _, _ => w = none

end Spec

theorem perm_two {α : Type} {a b c d : α} (h : [a, b].Perm [c, d]) : (a = c ∧ b = d) ∨ (a = d ∧ b = c) := by
  have ha := h.mem_iff.1 (List.mem_cons_self (a := a) (l := [b]))
  rw [List.mem_cons, List.mem_singleton] at ha
  rcases ha with e | e
  · subst e
    exact Or.inl ⟨rfl, by simpa using (List.perm_cons a).1 h⟩
  · subst e
    have h2 : [a, b].Perm [a, c] := h.trans (List.Perm.swap _ _ _)
    exact Or.inr ⟨rfl, by simpa using (List.perm_cons a).1 h2⟩

theorem labelFor_unique {labels : List ℚ} {v l m : ℚ} (h1 : Spec.LabelFor labels v l) (h2 : Spec.LabelFor labels v m) : l = m := by
  obtain ⟨a1, a2, a3⟩ := h1
  obtain ⟨b1, b2, b3⟩ := h2
  rcases a3 with a3 | a3
  · rcases b3 with b3 | b3
    · exact le_antisymm (b2 l a1 a3) (a2 m b1 b3)
    · exact le_antisymm (b2 l a1 a3) (b3 l a1)
  · rcases b3 with b3 | b3
    · exact le_antisymm (a3 m b1) (a2 m b1 b3)
    · exact le_antisymm (a3 m b1) (b3 l a1)

theorem labelFor_index {labels : List ℚ} (hne : labels ≠ []) (v : ℚ) :
    Spec.LabelFor labels v ((labels.insertionSort (· ≤ ·)).getD (nearestLowerIndex (labels.insertionSort (· ≤ ·)) v) 0) := by
  have hp := List.perm_insertionSort (· ≤ ·) labels
  have hs : (labels.insertionSort (· ≤ ·)).Pairwise (· ≤ ·) := List.pairwise_insertionSort _ _
  generalize hS : labels.insertionSort (· ≤ ·) = S at hp hs ⊢
  have hS0 : S ≠ [] := fun e => hne (by rw [e] at hp; exact hp.symm.eq_nil)
  obtain ⟨h1, h2, h3⟩ := C66_index S hS0 hs v
  generalize nearestLowerIndex S v = i at h1 h2 h3
  unfold tableTol at h2 h3
  refine ⟨?_, ?_, ?_⟩
  · rw [List.getD_eq_getElem _ _ h1]
    exact hp.mem_iff.1 (List.getElem_mem h1)
  · intro m hm hlt
    obtain ⟨j, hj, rfl⟩ := List.mem_iff_getElem.1 (hp.mem_iff.2 hm)
    by_cases hij : i < j
    · have := h2 j hj hij
      rw [List.getD_eq_getElem _ _ hj] at this
      exact absurd hlt (not_lt.2 this)
    · have := getD_le_of_sorted hs (not_lt.1 hij) h1
      rwa [List.getD_eq_getElem _ _ hj] at this
  · by_cases h0 : 0 < i
    · exact Or.inl (h3 h0)
    · right
      intro m hm
      obtain ⟨j, hj, rfl⟩ := List.mem_iff_getElem.1 (hp.mem_iff.2 hm)
      have := getD_le_of_sorted hs (show i ≤ j by omega) hj
      rwa [List.getD_eq_getElem _ _ hj] at this

theorem lookupAt_says (t : TableData) (hn : (t.map Prod.fst).Nodup) (ht : t ≠ []) (hr : tableRows t ≠ []) (c r : Option ℚ) :
    Spec.TableSays t c r (lookupAt t c r) := by
  cases c with
  | none => rfl
  | some c =>
  cases r with
  | none => rfl
  | some r =>
  have hc0 : t.map Prod.fst ≠ [] := fun e => ht (List.map_eq_nil_iff.1 e)
  have h1 := labelFor_index hc0 c
  have h2 := labelFor_index hr r
  obtain ⟨⟨lc, rows⟩, hm, he⟩ := List.mem_map.1 h1.1
  refine ⟨_, (((tableRows t).insertionSort (· ≤ ·)).getD (nearestLowerIndex ((tableRows t).insertionSort (· ≤ ·)) r) 0), h1, ?_, rows, ?_, ?_⟩
  · exact ⟨List.mem_dedup.1 h2.1, fun m hm => h2.2.1 m (List.mem_dedup.2 hm), h2.2.2.imp id fun h m hm => h m (List.mem_dedup.2 hm)⟩
  · rw [← he]; exact hm
  · show Option.join (some (tableEntry t _ _)) = _
    rw [← he]
    show (t.lookup lc).bind _ = _
    rw [lookup_of_nodup hn hm]
    rfl

/-- **C257** (result): with one cube of the row name and one other of the same dimensions (in any order) and points, in either order, the result has the
dimensions of the column cube in its order, the unit of the table and the new name if there is one, and at every place it is what the table says of the
values of the two cubes there. -/
theorem C257_result (rowName : String) (newName : Option String) (t : TableData) (unit : String) (cubes : List LookupCube) (row column : LookupCube)
    (hcubes : cubes.Perm [row, column]) (hrow : row.name = rowName) (hcol : column.name ≠ rowName)
    (hn : row.dims.Nodup) (ho : column.others.Nodup) (hdis : ∀ n ∈ column.others, n ∉ column.dims) (ht : "threshold" ∉ column.dims ++ column.others)
    (hd : row.dims.Perm column.dims) (hp : ∀ n ∈ column.dims, row.points n = column.points n)
    (hlabels : (t.map Prod.fst).Nodup) (hentries : ∃ k ∈ t, k.2 ≠ []) :
    ∃ after out, tableProcess rowName newName t (some unit) cubes = .ok (after, out) ∧ out.dims = column.dims ∧
      (∀ n ∈ out.dims, out.points n = column.points n) ∧ out.unit = unit ∧ out.name = newName.getD rowName ∧
      ∀ a, Spec.TableSays t (Spec.placeValue column.toDimCube a) (Spec.placeValue row.toDimCube a) (Spec.placeValue out.toDimCube a) := by
  have hpair : rowAndColumn rowName cubes = .ok (row, column) := by
    have hlen := hcubes.length_eq
    match cubes, hlen with
    | [a, b], _ =>
      rcases perm_two hcubes with ⟨rfl, rfl⟩ | ⟨rfl, rfl⟩
      · unfold rowAndColumn
        simp only
        rw [if_pos hrow, if_neg hcol]
      · unfold rowAndColumn
        simp only
        rw [if_neg hcol, if_pos hrow]
  have hnames : (column.dims ++ column.others).Nodup :=
    List.nodup_append.2 ⟨hd.nodup_iff.1 hn, ho, fun a ha b hb e => hdis b hb (e ▸ ha)⟩
  obtain ⟨k, k1, k2, k3, k4⟩ := reorder_at row.toPointCube hn (column.dims ++ column.others) hnames ht
  have hkd : k.dims = column.dims := by
    rw [k2, List.filter_append, List.filter_eq_self.2, List.filter_eq_nil_iff.2, List.filter_eq_nil_iff.2]
    · simp
    · intro x hx
      simp [hd.mem_iff.1 hx]
    · intro x hx e
      exact hdis x hx (hd.mem_iff.1 (by simpa using e))
    · intro x hx
      simp [hd.mem_iff.2 hx]
  obtain ⟨e, he, he2⟩ := hentries
  have ht0 : t ≠ [] := List.ne_nil_of_mem he
  have hr0 : tableRows t ≠ [] := by
    obtain ⟨x, hx⟩ := List.exists_mem_of_ne_nil _ he2
    exact List.ne_nil_of_mem (List.mem_dedup.2 (List.mem_flatMap.2 ⟨e, he, List.mem_map.2 ⟨x, hx, rfl⟩⟩))
  have hshape : column.shape = LookupCube.shape ⟨k, row.name, row.unit, row.others⟩ := by
    unfold LookupCube.shape
    simp only [hkd, k3]
    exact List.map_congr_left fun n hn => by rw [hp n hn]
  refine ⟨⟨k, row.name, row.unit, row.others⟩,
    ⟨⟨⟨k.dims, fun idx => lookupAt t (column.data idx) (k.data idx)⟩, k.points⟩, newName.getD row.name, unit, row.others⟩, ?_, hkd, ?_, rfl, by rw [hrow], ?_⟩
  · unfold tableProcess
    rw [hpair]
    simp only
    unfold tableOn
    simp only [bind, Except.bind]
    rw [k1]
    simp only
    unfold lookupResult checkTable
    rw [if_neg (not_not.2 hshape), if_pos hlabels]
    simp only [bind, Except.bind]
    rw [if_neg (fun h => h.1.elim ht0 hr0)]
  · intro n hn
    rw [show (LookupCube.toPointCube _).points n = k.points n from rfl, k3]
    exact hp n (hkd ▸ hn)
  · intro a
    have := lookupAt_says t hlabels ht0 hr0 (Spec.placeValue column.toDimCube a) (Spec.placeValue k.toDimCube a)
    rw [k4] at this
    have e2 : Spec.placeValue k.toDimCube a = k.data (column.dims.map a) := by
      unfold Spec.placeValue
      rw [hkd]
    show Spec.TableSays t _ _ (lookupAt t (column.data (k.dims.map a)) (k.data (k.dims.map a)))
    rw [hkd, ← e2, k4]
    exact this

/-- **C257** (refused): two cubes exactly are taken, one and only one of the row name; cubes of the same dimensions but other numbers of points, a table
without unit, without entries or with two columns of one label are refused. -/
theorem C257_refused (rowName : String) (newName : Option String) (t : TableData) (unit : Option String) (cubes : List LookupCube)
    (h : cubes.length ≠ 2 ∨ (cubes.filter fun c => decide (c.name = rowName)).length ≠ 1 ∨ unit = none ∨ ¬ (t.map Prod.fst).Nodup ∨
      ∃ row column, cubes.Perm [row, column] ∧ row.name = rowName ∧ column.name ≠ rowName ∧ row.dims.Nodup ∧ row.dims = column.dims ∧
        column.others = [] ∧ "threshold" ∉ column.dims ∧
        ((∃ n ∈ column.dims, (row.points n).length ≠ (column.points n).length) ∨ ((∀ n ∈ row.dims, row.points n ≠ []) ∧ ∀ k ∈ t, k.2 = []))) :
    ∀ out, tableProcess rowName newName t unit cubes ≠ .ok out := by
  intro out hout
  unfold tableProcess at hout
  cases h1 : rowAndColumn rowName cubes with
  | error e => rw [h1] at hout; exact nomatch hout
  | ok rc =>
  obtain ⟨row, column⟩ := rc
  rw [h1] at hout
  simp only at hout
  unfold tableOn at hout
  simp only [bind, Except.bind] at hout
  cases h2 : row.toPointCube.reorder (column.dims ++ column.others) with
  | error e => rw [h2] at hout; exact nomatch hout
  | ok k =>
  rw [h2] at hout
  simp only at hout
  have hfacts : cubes.Perm [row, column] ∧ row.name = rowName ∧ column.name ≠ rowName := by
    match cubes, h1 with
    | [a, b], h1 =>
      unfold rowAndColumn at h1
      simp only at h1
      by_cases ha : a.name = rowName
      · rw [if_pos ha] at h1
        by_cases hb : b.name = rowName
        · rw [if_pos hb] at h1; exact nomatch h1
        · rw [if_neg hb] at h1; cases h1; exact ⟨List.Perm.refl _, ha, hb⟩
      · rw [if_neg ha] at h1
        by_cases hb : b.name = rowName
        · rw [if_pos hb] at h1; cases h1; exact ⟨List.Perm.swap _ _ _, hb, ha⟩
        · rw [if_neg hb] at h1; exact nomatch h1
    | [], h1 => exact nomatch h1
    | [_], h1 => exact nomatch h1
    | _ :: _ :: _ :: _, h1 => exact nomatch h1
  obtain ⟨f1, f2, f3⟩ := hfacts
  cases hu : unit with
  | none => rw [hu] at hout; exact nomatch hout
  | some u =>
  rw [hu] at hout
  simp only at hout
  unfold lookupResult checkTable at hout
  by_cases hs : column.shape ≠ LookupCube.shape ⟨k, row.name, row.unit, row.others⟩
  · rw [if_pos hs] at hout; exact nomatch hout
  rw [if_neg hs] at hout
  by_cases hl : (t.map Prod.fst).Nodup
  swap
  · rw [if_neg hl] at hout; exact nomatch hout
  rw [if_pos hl] at hout
  simp only [bind, Except.bind] at hout
  rcases h with h | h | h | h | ⟨row', column', e1, e2, e3, e4, e5, e6, e7, e8⟩
  · exact h (f1.length_eq)
  · apply h
    rw [(f1.filter _).length_eq, List.filter_cons_of_pos (by simp [f2]), List.filter_cons_of_neg (by simp [f3])]
    rfl
  · rw [hu] at h; exact nomatch h
  · exact h hl
  · have hsame : row' = row ∧ column' = column := by
      have hperm := e1.symm.trans f1
      rcases perm_two hperm with ⟨e, e'⟩ | ⟨e, e'⟩
      · exact ⟨e, e'⟩
      · exact absurd (e ▸ e2) f3
    obtain ⟨rfl, rfl⟩ := hsame
    obtain ⟨k', k1, k2, k3, _⟩ := reorder_at row'.toPointCube e4 (column'.dims ++ column'.others)
      (by rw [e6, List.append_nil, ← e5]; exact e4) (by rw [e6, List.append_nil]; exact e7)
    rw [h2] at k1
    cases k1
    have hkd : k.dims = column'.dims := by
      rw [k2, e6, List.append_nil, e5, List.filter_eq_self.2 (fun x hx => by simp [hx]), List.filter_eq_nil_iff.2 (fun x hx => by simp [hx]), List.append_nil]
    have hs' := not_not.1 hs
    unfold LookupCube.shape at hs'
    simp only [hkd, k3] at hs'
    rcases e8 with ⟨n, hn, hne⟩ | ⟨hne, hem⟩
    · exact hne ((List.map_inj_left.1 hs' n hn).symm)
    · rw [if_pos] at hout
      · exact nomatch hout
      · refine ⟨Or.inr ?_, ?_⟩
        · unfold tableRows
          rw [List.dedup_eq_nil, List.flatMap_eq_nil_iff]
          intro x hx
          rw [hem x hx]
          rfl
        · unfold LookupCube.shape
          simp only [hkd, k3]
          intro e
          obtain ⟨n, hn, h0⟩ := List.mem_map.1 e
          exact hne n (e5 ▸ hn) (List.length_eq_zero_iff.1 h0)

/-- A table for the statements below: rows 0 and 10, columns 1 and 2. -/
def tableSample : TableData := [(2, [(10, 4), (0, 3)]), (1, [(0, 1), (10, 2)])]

/-- A cube for the statements below. -/
def lookupSample (name unit : String) (dims : List String) (points : String → List ℚ) (data : List ℕ → Option ℚ) : LookupCube :=
  ⟨⟨⟨dims, data⟩, points⟩, name, unit, []⟩

/-- The hypotheses of `C257_result` are met, by cubes of two dimensions in other orders. -/
example : ∃ row column : LookupCube, row.name = "wind" ∧ column.name ≠ "wind" ∧ row.dims = ["x", "y"] ∧ column.dims = ["y", "x"] ∧ row.dims.Nodup ∧
    row.dims.Perm column.dims ∧ (tableSample.map Prod.fst).Nodup ∧ (∃ k ∈ tableSample, k.2 ≠ []) ∧
    ((tableProcess "wind" none tableSample (some "1") [column, row]).toOption.map fun o => (o.2.dims, o.2.data [0, 0], o.2.data [0, 1], o.2.data [1, 0])) =
      some (["y", "x"], some 1, some 4, none) := by
  refine ⟨lookupSample "wind" "m s-1" ["x", "y"] (fun _ => [0, 1]) (fun idx => if idx = [0, 0] then some 9 else if idx = [1, 0] then some 11 else some 0),
    lookupSample "ratio" "1" ["y", "x"] (fun _ => [0, 1]) (fun idx => if idx = [0, 0] then some 0 else if idx = [0, 1] then some 2 else none),
    rfl, by decide +kernel, rfl, rfl, by decide +kernel, by decide +kernel, by decide +kernel, ⟨_, List.mem_cons_self, by decide +kernel⟩, by decide +kernel⟩

/-- **Finding.** The row cube of the caller is left with its dimensions reordered. -/
theorem C257_input_changed_refuted :
    ∃ (row column after out : LookupCube), row.dims = ["x", "y"] ∧ tableProcess "wind" none tableSample (some "1") [column, row] = .ok (after, out) ∧
      after.dims = ["y", "x"] := by
  let row := lookupSample "wind" "m s-1" ["x", "y"] (fun _ => [0, 1]) (fun _ => some 9)
  let column := lookupSample "ratio" "1" ["y", "x"] (fun _ => [0, 1]) (fun _ => some 1)
  have hrun : ((tableProcess "wind" none tableSample (some "1") [column, row]).toOption.map fun o => o.1.dims) = some ["y", "x"] := by decide +kernel
  obtain ⟨o, h1, h2⟩ := result_of_map hrun
  exact ⟨row, column, o.1, o.2, rfl, h1, h2⟩

/-- **Finding.** Only the shapes are compared: cubes on different grids, or of dimensions of different names, are combined. -/
theorem C257_grid_refuted :
    ∃ (row column after out : LookupCube), row.dims = ["y", "x"] ∧ column.dims = ["latitude", "x"] ∧ row.points "x" = [0, 1] ∧ column.points "x" = [5, 6] ∧
      tableProcess "wind" none tableSample (some "1") [column, row] = .ok (after, out) ∧ out.dims = ["x", "y"] := by
  let row := lookupSample "wind" "m s-1" ["y", "x"] (fun _ => [0, 1]) (fun _ => some 9)
  let column := lookupSample "ratio" "1" ["latitude", "x"] (fun _ => [5, 6]) (fun _ => some 1)
  have hrun : ((tableProcess "wind" none tableSample (some "1") [column, row]).toOption.map fun o => o.2.dims) = some ["x", "y"] := by decide +kernel
  obtain ⟨o, h1, h2⟩ := result_of_map hrun
  exact ⟨row, column, o.1, o.2, rfl, rfl, rfl, rfl, h1, h2⟩

/-- **Finding.** The units of the inputs are not looked at: the result is the same whatever they are. -/
theorem C257_units (rowName : String) (newName : Option String) (t : TableData) (unit : Option String) (row column : LookupCube) (u v : String) :
    (tableProcess rowName newName t unit [⟨column.toPointCube, column.name, u, column.others⟩, ⟨row.toPointCube, row.name, v, row.others⟩]).toOption.map Prod.snd =
      (tableProcess rowName newName t unit [column, row]).toOption.map Prod.snd := by
  have key : ∀ (k : PointCube (Option ℚ)) (a b : LookupCube) (w1 w2 w : String),
      lookupResult newName t w ⟨k, a.name, w1, a.others⟩ ⟨b.toPointCube, b.name, w2, b.others⟩ = lookupResult newName t w ⟨k, a.name, a.unit, a.others⟩ b :=
    fun _ _ _ _ _ _ => rfl
  have run : ∀ (a b : LookupCube) (w1 w2 : String),
      (tableOn newName t unit ⟨a.toPointCube, a.name, w1, a.others⟩ ⟨b.toPointCube, b.name, w2, b.others⟩).toOption.map Prod.snd =
      (tableOn newName t unit a b).toOption.map Prod.snd := by
    intro a b w1 w2
    unfold tableOn
    simp only [bind, Except.bind]
    cases a.toPointCube.reorder (b.dims ++ b.others) with
    | error e => rfl
    | ok k =>
      cases unit with
      | none => rfl
      | some w =>
        simp only
        rw [key]
        cases lookupResult newName t w ⟨k, a.name, a.unit, a.others⟩ b <;> rfl
  unfold tableProcess
  by_cases h1 : column.name = rowName
  · by_cases h2 : row.name = rowName
    · simp [rowAndColumn, h1, h2]
    · simp only [rowAndColumn, if_pos h1, if_neg h2]
      exact run column row u v
  · by_cases h2 : row.name = rowName
    · simp only [rowAndColumn, if_pos h2, if_neg h1]
      exact run row column v u
    · simp [rowAndColumn, h1, h2]

end Improver
