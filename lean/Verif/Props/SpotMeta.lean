import Verif.Model.SpotMeta
import Verif.Lemmas.ListAux

/-! C294: what spot extraction says about its sites. -/

namespace Improver

namespace Spec

/-- The value of a coordinate where the named dimensions are at the given places. -/
def atCell {V : Type} (c : GridCoord V) (yName xName : String) (p : ℕ × ℕ) : V :=
  c.point (c.dims.map fun d => if d.1 = yName then p.1 else if d.1 = xName then p.2 else 0)

/-- Its bounds there. -/
def boundAtCell {V : Type} (c : GridCoord V) (yName xName : String) (b : List ℕ → V × V) (p : ℕ × ℕ) : V × V :=
  b (c.dims.map fun d => if d.1 = yName then p.1 else if d.1 = xName then p.2 else 0)

/-- A coordinate of the neighbour cube is marked as that of the site identifiers. -/
def Marked (c : LabelCoord) : Prop := "unique_site_identifier" ∈ c.attrs

end Spec

theorem spotDescription_ok {V : Type} {cells : List (ℕ × ℕ)} {aux : List (GridCoord V)} {labels : List LabelCoord} {diagnostic neighbours : List (String × String)} {title : Option String}
    {out : SpotDescription V} (h : spotDescription cells aux labels diagnostic neighbours title = .ok out) :
    (aux.filter fun c => decide (1 < c.dims.length)).mapM (siteCoord cells) = .ok out.sited ∧
      out.scalars = aux.filter (fun c => decide (c.dims.length ≤ 1 ∧ (c.dims.map Prod.snd).prod = 1)) ∧ out.ids = uniqueSiteId labels ∧
      spotAttributes diagnostic neighbours title = .ok out.attrs := by
  unfold spotDescription spotCoords at h
  simp only [bind, Except.bind, pure, Except.pure] at h
  cases hm : (aux.filter fun c => decide (1 < c.dims.length)).mapM (siteCoord cells) with
  | error e => rw [hm] at h; exact nomatch h
  | ok s =>
    rw [hm] at h
    dsimp only at h
    cases ha : spotAttributes diagnostic neighbours title with
    | error e => rw [ha] at h; exact nomatch h
    | ok a => rw [ha] at h; cases h; exact ⟨rfl, rfl, rfl, rfl⟩

theorem siteCoord_ok {V : Type} {cells : List (ℕ × ℕ)} {c : GridCoord V} {s : SiteCoord V} :
    siteCoord cells c = .ok s ↔ ∃ d e, c.dims = [d, e] ∧ (∀ p ∈ cells, p.1 < d.2 ∧ p.2 < e.2) ∧
      s = ⟨c.name, cells.map fun p => c.point [p.1, p.2], c.bound.map fun b => cells.map fun p => b [p.1, p.2]⟩ := by
  unfold siteCoord
  split
  · next d e hd =>
    by_cases hc : ∀ p ∈ cells, p.1 < d.2 ∧ p.2 < e.2
    · rw [if_pos hc]
      constructor
      · intro h; cases h; exact ⟨d, e, hd, hc, rfl⟩
      · rintro ⟨_, _, -, -, rfl⟩; rfl
    · rw [if_neg hc]
      constructor
      · intro h; exact nomatch h
      · rintro ⟨d', e', h, hc', -⟩
        rw [hd] at h; cases h; exact absurd hc' hc
  · next hn =>
    constructor
    · intro h; exact nomatch h
    · rintro ⟨d, e, h, -⟩; exact absurd h (hn d e)

/-- C294 (accepted): just if the neighbour cube names its grid and every coordinate of several dimensions has two that hold all the cells of the sites. -/
theorem C294_accepted {V : Type} (cells : List (ℕ × ℕ)) (aux : List (GridCoord V)) (labels : List LabelCoord) (diagnostic neighbours : List (String × String)) (title : Option String) :
    (∃ out, spotDescription cells aux labels diagnostic neighbours title = .ok out) ↔ neighbours.lookup "model_grid_hash" ≠ none ∧
      ∀ c ∈ aux, 2 ≤ c.dims.length → ∃ d e, c.dims = [d, e] ∧ ∀ p ∈ cells, p.1 < d.2 ∧ p.2 < e.2 := by
  constructor
  · rintro ⟨out, h⟩
    obtain ⟨hm, -, -, ha⟩ := spotDescription_ok h
    refine ⟨?_, ?_⟩
    · intro hn
      unfold spotAttributes at ha
      rw [hn] at ha
      exact nomatch ha
    · intro c hc h2
      have hf : c ∈ aux.filter fun c => decide (1 < c.dims.length) := List.mem_filter.2 ⟨hc, decide_eq_true h2⟩
      have hall := mapM_ok_forall _ _ _ hm
      obtain ⟨i, hi, e⟩ := List.mem_iff_getElem.1 hf
      have hl := hall.length_eq
      have hk := hall.get hi (by omega)
      rw [List.get_eq_getElem, e] at hk
      obtain ⟨d, e', h1, h2, -⟩ := siteCoord_ok.1 hk
      exact ⟨d, e', h1, h2⟩
  · rintro ⟨hn, hc⟩
    have hm : (aux.filter fun c => decide (1 < c.dims.length)).mapM (siteCoord cells) = .ok ((aux.filter fun c => decide (1 < c.dims.length)).map fun c =>
        ⟨c.name, cells.map fun p => c.point [p.1, p.2], c.bound.map fun b => cells.map fun p => b [p.1, p.2]⟩) := by
      apply mapM_ok_of_forall
      intro c h
      obtain ⟨h1, h2⟩ := List.mem_filter.1 h
      obtain ⟨d, e, h3, h4⟩ := hc c h1 (of_decide_eq_true h2)
      exact siteCoord_ok.2 ⟨d, e, h3, h4, rfl⟩
    unfold spotDescription spotCoords spotAttributes
    cases hl : neighbours.lookup "model_grid_hash" with
    | none => exact absurd hl hn
    | some v => simp only [hm, bind, Except.bind, pure, Except.pure]; exact ⟨_, rfl⟩

theorem lookup_filter_out (l : List (String × String)) (gone : List String) (k : String) :
    (l.filter fun p => decide (p.1 ∉ gone)).lookup k = if k ∈ gone then none else l.lookup k := by
  induction l with
  | nil => simp
  | cons p l ih =>
    obtain ⟨q, w⟩ := p
    by_cases hq : q ∈ gone
    · rw [List.filter_cons_of_neg (by simpa using hq), ih]
      by_cases hk : k ∈ gone
      · rw [if_pos hk, if_pos hk]
      · rw [if_neg hk, if_neg hk, List.lookup_cons]
        have : (k == q) = false := beq_eq_false_iff_ne.2 fun e => hk (e ▸ hq)
        rw [this]
    · rw [List.filter_cons_of_pos (by simpa using hq), List.lookup_cons, List.lookup_cons, ih]
      by_cases hkq : k = q
      · subst hkq
        simp [hq]
      · rw [beq_eq_false_iff_ne.2 hkq]

/-- C294 (attributes): the title given, or else "unknown"; the grid of the neighbour cube; none of the three grid attributes; and otherwise the attributes of the diagnostic. -/
theorem C294_attributes {V : Type} (cells : List (ℕ × ℕ)) (aux : List (GridCoord V)) (labels : List LabelCoord) (diagnostic neighbours : List (String × String)) (title : Option String)
    (out : SpotDescription V) (h : spotDescription cells aux labels diagnostic neighbours title = .ok out) :
    out.attrs.lookup "title" = some (title.getD "unknown") ∧ out.attrs.lookup "model_grid_hash" = neighbours.lookup "model_grid_hash" ∧
      (∀ k ∈ ["mosg__grid_type", "mosg__grid_version", "mosg__grid_domain"], out.attrs.lookup k = none) ∧
      ∀ k, k ∉ ["title", "model_grid_hash", "mosg__grid_type", "mosg__grid_version", "mosg__grid_domain"] → out.attrs.lookup k = diagnostic.lookup k := by
  obtain ⟨-, -, -, ha⟩ := spotDescription_ok h
  unfold spotAttributes at ha
  cases hl : neighbours.lookup "model_grid_hash" with
  | none => rw [hl] at ha; exact nomatch ha
  | some v =>
    rw [hl] at ha
    have ha := Except.ok.inj ha
    rw [← ha]
    have hf := lookup_filter_out diagnostic ["mosg__grid_type", "mosg__grid_version", "mosg__grid_domain"]
    refine ⟨?_, ?_, ?_, ?_⟩
    · rw [List.lookup_cons, beq_self_eq_true]
    · rw [List.lookup_cons, show (("model_grid_hash" : String) == "title") = false by decide, List.lookup_cons, beq_self_eq_true]
    · intro k hk
      have h1 : (k == "title") = false := by
        simp only [List.mem_cons, List.not_mem_nil, or_false] at hk
        rcases hk with rfl | rfl | rfl <;> decide
      have h2 : (k == "model_grid_hash") = false := by
        simp only [List.mem_cons, List.not_mem_nil, or_false] at hk
        rcases hk with rfl | rfl | rfl <;> decide
      rw [List.lookup_cons, h1, List.lookup_cons, h2, hf, if_pos hk]
    · intro k hk
      have h1 : (k == "title") = false := beq_eq_false_iff_ne.2 fun e => hk (by rw [e]; exact .head _)
      have h2 : (k == "model_grid_hash") = false := beq_eq_false_iff_ne.2 fun e => hk (by rw [e]; exact .tail _ (.head _))
      rw [List.lookup_cons, h1, List.lookup_cons, h2, hf, if_neg (fun h => hk (List.mem_cons_of_mem _ (List.mem_cons_of_mem _ h)))]

/-- C294 (identifiers): those of the coordinate marked as such, under its name; none if no coordinate, or more than one, is marked. -/
theorem C294_identifiers {V : Type} (cells : List (ℕ × ℕ)) (aux : List (GridCoord V)) (before after : List LabelCoord) (diagnostic neighbours : List (String × String)) (title : Option String)
    (hb : ∀ c ∈ before, ¬ Spec.Marked c) (out : SpotDescription V) :
    (∀ c, Spec.Marked c → (∀ d ∈ after, ¬ Spec.Marked d) → spotDescription cells aux (before ++ c :: after) diagnostic neighbours title = .ok out → out.ids = some (c.points, c.name)) ∧
    (∀ c, Spec.Marked c → (∃ d ∈ after, Spec.Marked d) → spotDescription cells aux (before ++ c :: after) diagnostic neighbours title = .ok out → out.ids = none) ∧
    (spotDescription cells aux before diagnostic neighbours title = .ok out → out.ids = none) := by
  have hnil : ∀ l : List LabelCoord, (∀ c ∈ l, ¬ Spec.Marked c) → (l.filter fun c => decide ("unique_site_identifier" ∈ c.attrs)) = [] := fun l hl =>
    List.filter_eq_nil_iff.2 fun c hc h => hl c hc (of_decide_eq_true (p := "unique_site_identifier" ∈ c.attrs) h)
  have hcons : ∀ (c : LabelCoord) (l : List LabelCoord), Spec.Marked c →
      ((c :: l).filter fun c => decide ("unique_site_identifier" ∈ c.attrs)) = c :: l.filter fun c => decide ("unique_site_identifier" ∈ c.attrs) := by
    intro c l hc
    exact List.filter_cons_of_pos (by simpa [Spec.Marked] using hc)
  refine ⟨?_, ?_, ?_⟩
  · intro c hc ha h
    rw [(spotDescription_ok h).2.2.1]
    unfold uniqueSiteId
    rw [List.filter_append, hnil _ hb, hcons c after hc, hnil _ ha]
    rfl
  · rintro c hc ⟨d, hd, hdm⟩ h
    rw [(spotDescription_ok h).2.2.1]
    unfold uniqueSiteId
    rw [List.filter_append, hnil _ hb, hcons c after hc]
    cases hf : after.filter fun c => decide ("unique_site_identifier" ∈ c.attrs) with
    | nil => exact absurd (decide_eq_true (p := "unique_site_identifier" ∈ d.attrs) hdm) (List.filter_eq_nil_iff.1 hf d hd)
    | cons _ _ => rfl
  · intro h
    rw [(spotDescription_ok h).2.2.1]
    unfold uniqueSiteId
    rw [hnil _ hb]

/-- C294 (one value): the coordinates kept as they are are just those of one value along at most one dimension. -/
theorem C294_scalars {V : Type} (cells : List (ℕ × ℕ)) (aux : List (GridCoord V)) (labels : List LabelCoord) (diagnostic neighbours : List (String × String)) (title : Option String)
    (out : SpotDescription V) (h : spotDescription cells aux labels diagnostic neighbours title = .ok out) (c : GridCoord V) :
    c ∈ out.scalars ↔ c ∈ aux ∧ (c.dims = [] ∨ ∃ n, c.dims = [(n, 1)]) := by
  rw [(spotDescription_ok h).2.1, List.mem_filter]
  refine and_congr_right fun _ => ?_
  rw [decide_eq_true_iff]
  match c.dims with
  | [] => simp
  | [(n, k)] => simp
  | _ :: _ :: _ => simp

/-- C294 (sites): a coordinate stored on rows and columns is on the spot cube under its name, with its points and bounds at the cells of the sites. -/
theorem C294_sites {V : Type} (cells : List (ℕ × ℕ)) (aux : List (GridCoord V)) (labels : List LabelCoord) (diagnostic neighbours : List (String × String)) (title : Option String)
    (out : SpotDescription V) (h : spotDescription cells aux labels diagnostic neighbours title = .ok out) (c : GridCoord V) (hc : c ∈ aux) (yName xName : String) (ny nx : ℕ)
    (hne : yName ≠ xName) (hd : c.dims = [(yName, ny), (xName, nx)]) :
    ∃ s ∈ out.sited, s.name = c.name ∧ s.points = cells.map (Spec.atCell c yName xName) ∧ s.bounds = c.bound.map fun b => cells.map (Spec.boundAtCell c yName xName b) := by
  have hf : c ∈ aux.filter fun c => decide (1 < c.dims.length) := List.mem_filter.2 ⟨hc, by rw [hd]; rfl⟩
  have hall := mapM_ok_forall _ _ _ (spotDescription_ok h).1
  obtain ⟨i, hi, e⟩ := List.mem_iff_getElem.1 hf
  have hl := hall.length_eq
  have hk := hall.get hi (by omega)
  rw [List.get_eq_getElem, e] at hk
  obtain ⟨_, _, -, -, hs⟩ := siteCoord_ok.1 hk
  refine ⟨_, List.get_mem out.sited ⟨i, by omega⟩, ?_, ?_, ?_⟩
  · rw [hs]
  · rw [hs]
    refine List.map_congr_left fun p _ => ?_
    unfold Spec.atCell
    rw [hd]
    simp [hne.symm]
  · rw [hs]
    cases c.bound with
    | none => rfl
    | some b =>
      refine congrArg some (List.map_congr_left fun p _ => ?_)
      unfold Spec.boundAtCell
      rw [hd]
      simp [hne.symm]

/-- C294 (nothing else): every coordinate of the sites is one of the diagnostic with two dimensions. -/
theorem C294_only {V : Type} (cells : List (ℕ × ℕ)) (aux : List (GridCoord V)) (labels : List LabelCoord) (diagnostic neighbours : List (String × String)) (title : Option String)
    (out : SpotDescription V) (h : spotDescription cells aux labels diagnostic neighbours title = .ok out) :
    out.sited.map SiteCoord.name = (aux.filter fun c => decide (c.dims.length = 2)).map GridCoord.name := by
  have hall := mapM_ok_forall _ _ _ (spotDescription_ok h).1
  have he : (aux.filter fun c => decide (1 < c.dims.length)) = aux.filter fun c => decide (c.dims.length = 2) := by
    refine List.filter_congr fun c hc => ?_
    by_cases h2 : 1 < c.dims.length
    · obtain ⟨d, e, hd, -⟩ := ((C294_accepted ..).1 ⟨out, h⟩).2 c hc h2
      rw [hd]
      rfl
    · rw [decide_eq_false h2, decide_eq_false (by omega)]
  rw [← he]
  clear he h
  generalize (aux.filter fun c => decide (1 < c.dims.length)) = l at hall ⊢
  generalize out.sited = m at hall ⊢
  induction hall with
  | nil => rfl
  | cons h1 _ ih =>
    obtain ⟨_, _, -, -, rfl⟩ := siteCoord_ok.1 h1
    rw [List.map_cons, List.map_cons, ih]

/-- The coordinate and the cells of the case below: a coordinate stored by columns, and one site at the second column of the first row. -/
def columnCoord : GridCoord ℕ := ⟨"surface_pressure", [("x", 2), ("y", 2)], fun idx => 10 * idx.getD 0 0 + idx.getD 1 0, none⟩

/-- C294 (finding): a coordinate stored by columns is read as though it were stored by rows, where the values of the diagnostic are those of the cells: its points are those of other cells. -/
theorem C294_order_refuted : ¬ ∀ (cells : List (ℕ × ℕ)) (aux : List (GridCoord ℕ)) (labels : List LabelCoord) (diagnostic neighbours : List (String × String)) (title : Option String)
    (out : SpotDescription ℕ), spotDescription cells aux labels diagnostic neighbours title = .ok out →
    ∀ c ∈ aux, (∃ ny nx, c.dims = [("y", ny), ("x", nx)] ∨ c.dims = [("x", nx), ("y", ny)]) → ∃ s ∈ out.sited, s.name = c.name ∧ s.points = cells.map (Spec.atCell c "y" "x") := by
  intro h
  obtain ⟨s, hs, -, hp⟩ := h [(0, 1)] [columnCoord] [] [] [("model_grid_hash", "g")] none ⟨[], [⟨"surface_pressure", [1], none⟩], none, _⟩ rfl columnCoord (.head _) ⟨2, 2, .inr rfl⟩
  rw [List.mem_singleton] at hs
  subst hs
  exact absurd hp (by decide +kernel)

/-! A case: a coordinate on rows and columns, a scalar one, identifiers and attributes. -/

example : ∃ out, spotDescription [(0, 1), (1, 0)] [⟨"altitude_of_cell", [("y", 2), ("x", 2)], fun idx => 10 * idx.getD 0 0 + idx.getD 1 0, none⟩, ⟨"height", [], fun _ => 7, none⟩]
      [⟨"wmo_id", [], ["03002", "03003"]⟩, ⟨"met_office_site_id", ["unique_site_identifier"], ["a", "b"]⟩] [("source", "s"), ("mosg__grid_type", "standard"), ("title", "old")]
      [("model_grid_hash", "g")] (some "Spot values") = .ok out ∧ out.ids = some (["a", "b"], "met_office_site_id") ∧ out.sited.map (fun s => (s.name, s.points)) = [("altitude_of_cell", [1, 10])] ∧
    out.scalars.map GridCoord.name = ["height"] ∧ out.attrs.lookup "title" = some "Spot values" ∧ out.attrs.lookup "mosg__grid_type" = none ∧ out.attrs.lookup "source" = some "s" :=
  ⟨_, rfl, by decide +kernel, by decide +kernel, by decide +kernel, by decide +kernel, by decide +kernel, by decide +kernel⟩

end Improver
