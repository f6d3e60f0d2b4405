import Verif.Model.StandardiseRun
import Verif.Props.Standardise
import Verif.Props.Standards
import Verif.Props.Amend

/-! C270: `StandardiseMetadata` as a whole. -/

namespace Improver

/-! ### Coordinates -/

/-- The coordinate with one point of the type given. -/
def Spec.withValue (v : ℚ) (t : NpType) (y : AxisCoord) : AxisCoord :=
  ⟨⟨y.coord.name, t, [v], y.coord.bounds, y.coord.unit⟩, y.spans, y.isDim⟩

/-- What becomes of a coordinate that values were given for. -/
def Spec.withGiven (given : Option (NewValue × NpType)) (y : AxisCoord) : AxisCoord :=
  match given with
  | some (.number v, t) => Spec.withValue v t y
  | _ => y

/-- When a value may be given: one number, for a coordinate that has one point, is no dimension coordinate and is not one of time. -/
def Spec.mayGive (given : Option (NewValue × NpType)) (y : AxisCoord) : Prop :=
  match given with
  | none => True
  | some (.number _, _) => y.isDim = false ∧ y.coord.points.length = 1 ∧ timeSpec y.coord.name = none
  | some (.list _, _) => False

/-- The effect of one entry on a coordinate. -/
def giveOne (m : String × NewValue × NpType) (y : AxisCoord) : AxisCoord :=
  if y.coord.name = m.1 then Spec.withGiven (some m.2) y else y

theorem modifyTyped_iff {coords : List AxisCoord} (hn : (coords.map fun x => x.coord.name).Nodup) (m : String × NewValue × NpType)
    (r : List AxisCoord) : modifyTyped coords m = .ok r ↔
      (∀ y ∈ coords, y.coord.name = m.1 → Spec.mayGive (some m.2) y) ∧
      r = coords.map (giveOne m) := by
  obtain ⟨k, v, t⟩ := m
  have hm := C192_modify hn k v
  unfold modifyTyped
  simp only [bind, Except.bind]
  by_cases hx : ∃ x ∈ coords, x.coord.name = k
  · obtain ⟨x, hx, hxk⟩ := hx
    have h2 := hm.2 x hx hxk
    have uniq : ∀ y ∈ coords, y.coord.name = k → y = x := fun y hy hyk =>
      List.inj_on_of_nodup_map hn hy hx (hyk.trans hxk.symm)
    cases v with
    | list l =>
      constructor
      · intro h
        cases h3 : modifyCoord coords (k, .list l) with
        | error e => rw [h3] at h; exact nomatch h
        | ok cs =>
          obtain ⟨_, _, _, q, hq, _⟩ := (h2 cs).1 h3
          exact nomatch hq
      · intro h
        exact (h.1 x hx hxk).elim
    | number q =>
      have he : (coords.map fun y => if y.coord.name = k then withPoints [q] y else y).map (retype k t) =
          coords.map (giveOne (k, .number q, t)) := by
        rw [List.map_map]
        refine List.map_congr_left fun y _ => ?_
        show retype k t (if y.coord.name = k then withPoints [q] y else y) = (if y.coord.name = k then _ else _)
        by_cases hk : y.coord.name = k
        · rw [if_pos hk, if_pos hk]
          unfold retype
          rw [if_pos (show (withPoints [q] y).coord.name = k from hk)]
          rfl
        · rw [if_neg hk, if_neg hk]
          unfold retype
          rw [if_neg hk]
      constructor
      · intro h
        cases h3 : modifyCoord coords (k, .number q) with
        | error e => rw [h3] at h; exact nomatch h
        | ok cs =>
          rw [h3] at h
          injection h with h
          obtain ⟨h4, h5, h6, q', hq, hr⟩ := (h2 cs).1 h3
          injection hq with hq
          subst hq
          refine ⟨fun y hy hyk => ?_, ?_⟩
          · have := uniq y hy hyk
            subst this
            exact ⟨h4, h5, by rw [hyk]; exact h6⟩
          · rw [← h, hr]; exact he
      · rintro ⟨h, hr⟩
        obtain ⟨h4, h5, h6⟩ := h x hx hxk
        rw [hxk] at h6
        rw [(h2 _).2 ⟨h4, h5, h6, q, rfl, rfl⟩]
        dsimp only
        rw [hr, ← he]
  · have hx' : ∀ x ∈ coords, x.coord.name ≠ k := fun x hm hk => hx ⟨x, hm, hk⟩
    rw [hm.1 hx']
    dsimp only
    have e1 : coords.map (retype k t) = coords := by
      conv_rhs => rw [← List.map_id coords]
      refine List.map_congr_left fun y hy => ?_
      unfold retype
      rw [if_neg (hx' y hy)]; rfl
    have e2 : coords.map (giveOne (k, v, t)) = coords := by
      conv_rhs => rw [← List.map_id coords]
      refine List.map_congr_left fun y hy => ?_
      unfold giveOne
      rw [if_neg (hx' y hy)]; rfl
    rw [e1, e2]
    constructor
    · intro h
      injection h with h
      exact ⟨fun y hy hyk => absurd hyk (hx' y hy), h.symm⟩
    · rintro ⟨_, hr⟩
      rw [hr]

theorem withGiven_name (g : Option (NewValue × NpType)) (y : AxisCoord) : (Spec.withGiven g y).coord.name = y.coord.name := by
  unfold Spec.withGiven
  split <;> rfl

theorem modifyAll_iff {ms : List (String × NewValue × NpType)} (hk : (ms.map Prod.fst).Nodup) {coords : List AxisCoord}
    (hn : (coords.map fun x => x.coord.name).Nodup) (r : List AxisCoord) : modifyAll ms coords = .ok r ↔
      (∀ y ∈ coords, Spec.mayGive (ms.lookup y.coord.name) y) ∧
      r = coords.map fun y => Spec.withGiven (ms.lookup y.coord.name) y := by
  induction ms generalizing coords with
  | nil =>
    have e : (coords.map fun y => Spec.withGiven (([] : List (String × NewValue × NpType)).lookup y.coord.name) y) = coords := by
      conv_rhs => rw [← List.map_id coords]
      exact List.map_congr_left fun y _ => rfl
    rw [e]
    constructor
    · intro h
      injection h with h
      exact ⟨fun y _ => trivial, h.symm⟩
    · rintro ⟨_, h⟩
      rw [h]; rfl
  | cons m ms ih =>
    rw [List.map_cons, List.nodup_cons] at hk
    have hno : ms.lookup m.1 = none := by
      rw [List.lookup_eq_none_iff]
      intro e he
      rw [bne_iff_ne]
      intro h
      exact hk.1 (h ▸ List.mem_map_of_mem he)
    have hl : ∀ y : AxisCoord, (m :: ms).lookup y.coord.name = if y.coord.name = m.1 then some m.2 else ms.lookup y.coord.name := by
      intro y
      obtain ⟨k, v⟩ := m
      by_cases h : y.coord.name = k
      · rw [if_pos h, h, List.lookup_cons_self]
      · rw [if_neg h, List.lookup_cons, beq_eq_false_iff_ne.2 h]
    have hg : ∀ y : AxisCoord, (giveOne m y).coord.name = y.coord.name := by
      intro y
      unfold giveOne
      by_cases h : y.coord.name = m.1
      · rw [if_pos h]; exact withGiven_name _ _
      · rw [if_neg h]
    have hn' : ((coords.map (giveOne m)).map fun x => x.coord.name) = coords.map fun x => x.coord.name := by
      rw [List.map_map]
      exact List.map_congr_left fun y _ => hg y
    have e : (coords.map (giveOne m)).map (fun y => Spec.withGiven (ms.lookup y.coord.name) y) =
        coords.map fun y => Spec.withGiven ((m :: ms).lookup y.coord.name) y := by
      rw [List.map_map]
      refine List.map_congr_left fun y _ => ?_
      show Spec.withGiven (ms.lookup (giveOne m y).coord.name) (giveOne m y) = _
      rw [hl, hg]
      unfold giveOne
      by_cases h : y.coord.name = m.1
      · rw [if_pos h, if_pos h, h, hno]; rfl
      · rw [if_neg h, if_neg h]
    show (do let cs ← modifyTyped coords m; modifyAll ms cs) = .ok r ↔ _
    simp only [bind, Except.bind]
    constructor
    · intro h
      cases h1 : modifyTyped coords m with
      | error e => rw [h1] at h; exact nomatch h
      | ok cs =>
        rw [h1] at h
        obtain ⟨h2, rfl⟩ := (modifyTyped_iff hn m cs).1 h1
        obtain ⟨h3, h4⟩ := (ih hk.2 (by rw [hn']; exact hn)).1 h
        refine ⟨fun y hy => ?_, by rw [h4, e]⟩
        rw [hl]
        by_cases hm : y.coord.name = m.1
        · rw [if_pos hm]; exact h2 y hy hm
        · rw [if_neg hm]
          have := h3 _ (List.mem_map_of_mem hy)
          rw [hg] at this
          unfold giveOne at this
          rw [if_neg hm] at this
          exact this
    · rintro ⟨h, hr⟩
      rw [(modifyTyped_iff hn m _).2 ⟨fun y hy hm => by have := h y hy; rw [hl, if_pos hm] at this; exact this, rfl⟩]
      dsimp only
      rw [(ih hk.2 (by rw [hn']; exact hn)).2]
      refine ⟨fun y hy => ?_, by rw [hr, e]⟩
      obtain ⟨z, hz, rfl⟩ := List.mem_map.1 hy
      rw [hg]
      unfold giveOne
      by_cases hm : z.coord.name = m.1
      · rw [hm, hno]; trivial
      · rw [if_neg hm]
        have := h z hz
        rw [hl, if_neg hm] at this
        exact this

theorem remove_fold {coords : List AxisCoord} (hn : (coords.map fun x => x.coord.name).Nodup) (names : List String) :
    names.foldl removeCoordNamed coords = coords.filter fun x => decide (x.coord.name ∉ names) := by
  induction names generalizing coords with
  | nil => simp
  | cons k names ih =>
    have h1 : removeCoordNamed coords k = coords.filter fun x => decide (x.coord.name ≠ k) := by
      unfold removeCoordNamed
      by_cases h : (coords.filter fun x => decide (x.coord.name = k)).length = 1
      · rw [if_pos h]
      · rw [if_neg h]
        symm
        rw [List.filter_eq_self]
        intro x hx
        rw [decide_eq_true_eq]
        intro hk
        apply h
        have : (coords.filter fun x => decide (x.coord.name = k)) = [x] := by
          refine filter_one hn hx hk
        rw [this]; rfl
    rw [List.foldl_cons, h1, ih (hn.sublist (List.filter_sublist.map _)), List.filter_filter]
    refine List.filter_congr fun x _ => ?_
    simp only [List.mem_cons, not_or, Bool.decide_and, Bool.and_comm]
where
  filter_one {coords : List AxisCoord} (hn : (coords.map fun x => x.coord.name).Nodup) {x : AxisCoord} (hx : x ∈ coords) {k : String}
      (hk : x.coord.name = k) : (coords.filter fun x => decide (x.coord.name = k)) = [x] := by
    induction coords with
    | nil => exact nomatch hx
    | cons a l ih =>
      rw [List.map_cons, List.nodup_cons] at hn
      rw [List.filter_cons]
      rcases List.mem_cons.1 hx with rfl | hx
      · rw [if_pos (by simpa using hk)]
        congr 1
        rw [List.filter_eq_nil_iff]
        intro y hy
        rw [decide_eq_true_eq]
        intro hyk
        exact hn.1 (by rw [hk, ← hyk]; exact List.mem_map_of_mem (f := fun x : AxisCoord => x.coord.name) hy)
      · rw [if_neg, ih hn.2 hx]
        rw [decide_eq_true_eq]
        intro hak
        exact hn.1 (by rw [hak, ← hk]; exact List.mem_map_of_mem (f := fun x : AxisCoord => x.coord.name) hx)

theorem withGiven_spans (g : Option (NewValue × NpType)) (y : AxisCoord) :
    (Spec.withGiven g y).spans = y.spans ∧ (Spec.withGiven g y).isDim = y.isDim ∧ (Spec.withGiven g y).coord.bounds = y.coord.bounds ∧
    (Spec.withGiven g y).coord.unit = y.coord.unit := by
  unfold Spec.withGiven
  split <;> exact ⟨rfl, rfl, rfl, rfl⟩

/-- C270: the coordinates of the result are, in the same order, those of the input that are not to be removed, each with the value given for it if
there is one and then with the mandatory type and unit; values given for coordinates that are removed or not there do nothing, and what may
not be modified is refused. -/
theorem C270_coords {cast : NpType → ℚ → ℚ} {o : StdOptions} (hk : (o.modify.map Prod.fst).Nodup) {coords : List AxisCoord}
    (hn : (coords.map fun x => x.coord.name).Nodup) (r : List AxisCoord) :
    coordsRun cast o coords = .ok r ↔
      List.Forall₂ (fun a b => Spec.mayGive (o.modify.lookup a.coord.name) a ∧
          standardAxis cast (Spec.withGiven (o.modify.lookup a.coord.name) a) = .ok b)
        (coords.filter fun x => decide (x.coord.name ∉ o.remove)) r := by
  have hn' : ((coords.filter fun x => decide (x.coord.name ∉ o.remove)).map fun x => x.coord.name).Nodup :=
    hn.sublist (List.filter_sublist.map _)
  unfold coordsRun
  rw [remove_fold hn]
  generalize coords.filter (fun x => decide (x.coord.name ∉ o.remove)) = l at hn' ⊢
  simp only [bind, Except.bind]
  constructor
  · intro h
    cases h1 : modifyAll o.modify l with
    | error e => rw [h1] at h; exact nomatch h
    | ok cs =>
      rw [h1] at h
      obtain ⟨h2, rfl⟩ := (modifyAll_iff hk hn' cs).1 h1
      have h3 := mapM_forall₂ h
      rw [List.forall₂_map_left_iff] at h3
      clear h h1 hn'
      induction h3 with
      | nil => exact .nil
      | cons hx _ ih =>
        exact .cons ⟨h2 _ List.mem_cons_self, hx⟩ (ih fun y hy => h2 y (List.mem_cons_of_mem _ hy))
  · intro h
    have h2 : ∀ y ∈ l, Spec.mayGive (o.modify.lookup y.coord.name) y := by
      clear hn'
      induction h with
      | nil => exact fun y hy => nomatch hy
      | cons hx _ ih =>
        intro y hy
        rcases List.mem_cons.1 hy with rfl | hy
        · exact hx.1
        · exact ih y hy
    rw [(modifyAll_iff hk hn' _).2 ⟨h2, rfl⟩]
    dsimp only
    refine forall₂_mapM ?_
    rw [List.forall₂_map_left_iff]
    exact h.imp fun _ _ hx => hx.2

theorem toRequired_length {cast : NpType → ℚ → ℚ} {old req : NpType} {l r : List ℚ} (h : toRequired cast old req l = .ok r) :
    r.length = l.length := by
  have key : ∀ (t u : NpType) (m : List ℚ), (asType cast t u m).length = m.length := by
    intro t u m
    unfold asType
    split
    · exact List.length_map _
    · rfl
  unfold toRequired at h
  by_cases hi : req.isInt = true
  · rw [if_pos hi] at h
    simp only [bind, Except.bind] at h
    cases hr : roundClose l with
    | error e => rw [hr] at h; exact nomatch h
    | ok m =>
      rw [hr] at h
      injection h with h
      rw [← h, key]
      unfold roundClose at hr
      dsimp only at hr
      split at hr
      · injection hr with hr
        rw [← hr, List.length_map]
      · exact nomatch hr
  · rw [if_neg hi] at h
    injection h with h
    rw [← h, key]

theorem convertTime_plain {c : StdCoord} (h : timeSpec c.name = none) : convertTime c = .ok c := by
  unfold convertTime
  rw [h]

theorem standardCoord_shape {cast : NpType → ℚ → ℚ} {c d : StdCoord} (h : standardCoord cast c = .ok d) :
    d.name = c.name ∧ d.points.length = c.points.length := by
  unfold standardCoord at h
  simp only [bind, Except.bind] at h
  cases h1 : convertTime c with
  | error e => rw [h1] at h; exact nomatch h
  | ok c' =>
    rw [h1] at h
    dsimp only at h
    obtain ⟨hn, -⟩ := convertTime_unit h1
    have hlen : c'.points.length = c.points.length := by
      unfold convertTime at h1
      cases ht : timeSpec c.name with
      | none => rw [ht] at h1; injection h1 with h1; rw [h1]
      | some s =>
        rw [ht] at h1
        dsimp only at h1
        by_cases hu : checkUnits c = true
        · rw [if_pos hu] at h1; injection h1 with h1; rw [h1]
        · rw [if_neg hu] at h1
          by_cases hd : c.unit.dimension ≠ s.2.dimension
          · rw [if_pos hd] at h1; exact nomatch h1
          · rw [if_neg hd] at h1
            injection h1 with h1
            rw [← h1]
            exact List.length_map _
    cases h2 : toRequired cast c'.dtype (requiredType c') c'.points with
    | error e => rw [h2] at h; exact nomatch h
    | ok p =>
      rw [h2] at h
      dsimp only at h
      have hp := toRequired_length h2
      cases hb : c'.bounds with
      | none =>
        rw [hb] at h
        injection h with h
        subst h
        exact ⟨hn, hp.trans hlen⟩
      | some b =>
        rw [hb] at h
        dsimp only at h
        cases h3 : toRequired cast b.1 (requiredType c') b.2 with
        | error e => rw [h3] at h; exact nomatch h
        | ok bs =>
          rw [h3] at h
          injection h with h
          subst h
          exact ⟨hn, hp.trans hlen⟩

theorem standardAxis_shape {cast : NpType → ℚ → ℚ} {a b : AxisCoord} (h : standardAxis cast a = .ok b) :
    standardCoord cast a.coord = .ok b.coord ∧ b.spans = a.spans ∧ b.isDim = a.isDim ∧ b.coord.name = a.coord.name ∧
    b.coord.points.length = a.coord.points.length := by
  unfold standardAxis at h
  simp only [bind, Except.bind] at h
  cases h1 : standardCoord cast a.coord with
  | error e => rw [h1] at h; exact nomatch h
  | ok c =>
    rw [h1] at h
    injection h with h
    subst h
    obtain ⟨h2, h3⟩ := standardCoord_shape h1
    exact ⟨rfl, rfl, rfl, h2, h3⟩

theorem standardAxis_of {cast : NpType → ℚ → ℚ} {a b : AxisCoord} (h : standardCoord cast a.coord = .ok b.coord) (hs : b.spans = a.spans)
    (hd : b.isDim = a.isDim) : standardAxis cast a = .ok b := by
  unfold standardAxis
  simp only [bind, Except.bind]
  rw [h]
  dsimp only
  rw [← hs, ← hd]

theorem standard_value_again {cast : NpType → ℚ → ℚ} (hc : Spec.stores cast) {v : ℚ} {t : NpType} {a b : AxisCoord}
    (ht : timeSpec a.coord.name = none) (h : standardAxis cast (Spec.withValue v t a) = .ok b) :
    standardAxis cast (Spec.withValue v t b) = .ok b := by
  obtain ⟨h1, hs, hd, hn, -⟩ := standardAxis_shape h
  have hn : b.coord.name = a.coord.name := hn
  refine standardAxis_of (a := Spec.withValue v t b) ?_ rfl rfl
  have ha : timeSpec (Spec.withValue v t a).coord.name = none := ht
  have hb : timeSpec (Spec.withValue v t b).coord.name = none := by
    show timeSpec b.coord.name = none
    rw [hn]; exact ht
  have req : ∀ y : AxisCoord, timeSpec y.coord.name = none → requiredType (Spec.withValue v t y).coord = requiredPlain t := by
    intro y hy
    unfold requiredType
    rw [show (Spec.withValue v t y).coord.name = y.coord.name from rfl, hy]
    rfl
  unfold standardCoord at h1 ⊢
  simp only [bind, Except.bind] at h1 ⊢
  rw [convertTime_plain ha] at h1
  rw [convertTime_plain hb]
  dsimp only at h1 ⊢
  rw [req a ht] at h1
  rw [req b hb]
  rw [show (Spec.withValue v t a).coord.dtype = t from rfl, show (Spec.withValue v t a).coord.points = [v] from rfl] at h1
  rw [show (Spec.withValue v t b).coord.dtype = t from rfl, show (Spec.withValue v t b).coord.points = [v] from rfl]
  cases h2 : toRequired cast t (requiredPlain t) [v] with
  | error e => rw [h2] at h1; exact nomatch h1
  | ok p =>
    rw [h2] at h1
    dsimp only at h1 ⊢
    rw [show (Spec.withValue v t a).coord.bounds = a.coord.bounds from rfl] at h1
    rw [show (Spec.withValue v t b).coord.bounds = b.coord.bounds from rfl]
    cases hbd : a.coord.bounds with
    | none =>
      rw [hbd] at h1
      injection h1 with h1
      have : b.coord.bounds = none := by rw [← h1]
      have hu : (Spec.withValue v t b).coord.unit = (Spec.withValue v t a).coord.unit := by
        show b.coord.unit = _
        rw [← h1]
      have hn2 : (Spec.withValue v t b).coord.name = (Spec.withValue v t a).coord.name := hn
      rw [this]
      dsimp only
      rw [hu, hn2, ← h1]
    | some bd =>
      rw [hbd] at h1
      dsimp only at h1
      cases h3 : toRequired cast bd.1 (requiredPlain t) bd.2 with
      | error e => rw [h3] at h1; exact nomatch h1
      | ok bs =>
        rw [h3] at h1
        injection h1 with h1
        have : b.coord.bounds = some (requiredPlain t, bs) := by rw [← h1]
        rw [this]
        dsimp only
        rw [toRequired_idem hc h3]
        dsimp only
        have hu : (Spec.withValue v t b).coord.unit = (Spec.withValue v t a).coord.unit := by
          show b.coord.unit = _
          rw [← h1]
        have hn2 : (Spec.withValue v t b).coord.name = (Spec.withValue v t a).coord.name := hn
        rw [hu, hn2, ← h1]

/-- A coordinate once standardised is standardised to itself, with the same value given again. -/
theorem coord_again {cast : NpType → ℚ → ℚ} (hc : Spec.stores cast) {ms : List (String × NewValue × NpType)} {a b : AxisCoord}
    (hm : Spec.mayGive (ms.lookup a.coord.name) a) (h : standardAxis cast (Spec.withGiven (ms.lookup a.coord.name) a) = .ok b) :
    Spec.mayGive (ms.lookup b.coord.name) b ∧ standardAxis cast (Spec.withGiven (ms.lookup b.coord.name) b) = .ok b := by
  obtain ⟨h1, hs, hd, hn, hl⟩ := standardAxis_shape h
  rw [withGiven_name] at hn
  rw [(withGiven_spans _ _).2.1] at hd
  rw [hn]
  cases hg : ms.lookup a.coord.name with
  | none =>
    rw [hg] at h1
    exact ⟨trivial, standardAxis_of (standardCoord_idem hc h1) rfl rfl⟩
  | some g =>
    obtain ⟨v, t⟩ := g
    rw [hg] at hm h hl
    cases v with
    | list l => exact hm.elim
    | number q =>
      obtain ⟨m1, m2, m3⟩ := hm
      refine ⟨⟨hd.trans m1, hl, by rw [hn]; exact m3⟩, ?_⟩
      exact standard_value_again hc m3 h

theorem coordsRun_again {cast : NpType → ℚ → ℚ} (hc : Spec.stores cast) {o : StdOptions} (hk : (o.modify.map Prod.fst).Nodup)
    {coords r : List AxisCoord} (hn : (coords.map fun x => x.coord.name).Nodup) (h : coordsRun cast o coords = .ok r) :
    coordsRun cast o r = .ok r := by
  have hF := (C270_coords hk hn r).1 h
  have hnames : (r.map fun x => x.coord.name) = (coords.filter fun x => decide (x.coord.name ∉ o.remove)).map fun x => x.coord.name := by
    clear h hn
    generalize (coords.filter fun x => decide (x.coord.name ∉ o.remove)) = l at hF ⊢
    induction hF with
    | nil => rfl
    | cons hx _ ih =>
      obtain ⟨-, -, -, hn, -⟩ := standardAxis_shape hx.2
      rw [withGiven_name] at hn
      rw [List.map_cons, List.map_cons, ih, hn]
  have hnr : (r.map fun x => x.coord.name).Nodup := by
    rw [hnames]
    exact hn.sublist (List.filter_sublist.map _)
  have hkeep : (r.filter fun x => decide (x.coord.name ∉ o.remove)) = r := by
    rw [List.filter_eq_self]
    intro x hx
    have : x.coord.name ∈ r.map fun x => x.coord.name := List.mem_map_of_mem (f := fun x : AxisCoord => x.coord.name) hx
    rw [hnames] at this
    obtain ⟨y, hy, he⟩ := List.mem_map.1 this
    rw [← he]
    exact (List.mem_filter.1 hy).2
  rw [C270_coords hk hnr, hkeep, List.forall₂_same]
  intro x hx
  obtain ⟨a, _, ha⟩ := forall₂_mem_right hF x hx
  exact coord_again hc ha.1 ha.2

/-! ### Attributes -/

theorem set_same {d : AttrDict} {k : String} {v : AttrVal} (h : AttrDict.get d k = some v) : AttrDict.set d k v = d := by
  induction d with
  | nil => exact nomatch h
  | cons e d ih =>
    unfold AttrDict.set
    unfold AttrDict.get at h
    rw [List.find?_cons] at h
    by_cases he : e.1 = k
    · rw [decide_eq_true he] at h
      have h : e.2 = v := by injection h
      rw [if_pos he, ← he, ← h]
    · rw [decide_eq_false he] at h
      rw [if_neg he, ih h]

theorem pop_same {d : AttrDict} {k : String} (h : AttrDict.get d k = none) : AttrDict.pop d k = d := by
  unfold AttrDict.pop
  rw [List.filter_eq_self]
  intro e he
  unfold AttrDict.get at h
  rw [Option.map_eq_none_iff, List.find?_eq_none] at h
  simpa using h e he

/-- A change that says which value the attribute is to have, whatever it was: no "{}" and no "{now:...}". -/
def Spec.fixedChange (v : AttrVal) : Prop := ∃ s, v = .text s ∧ ¬ "{now:".toList <:+: s ∧ ¬ "{}".toList <:+: s

/-- The value it is to have. -/
def Spec.fixedValue (v : AttrVal) : Option AttrVal := if v = .text "remove".toList then none else some v

theorem fixed_change (clock : Text → Text) (render : ℕ → Text) (old : Option AttrVal) {v : AttrVal} (h : Spec.fixedChange v) :
    Spec.Change clock render old v (Spec.fixedValue v) := by
  obtain ⟨s, rfl, h1, h2⟩ := h
  unfold Spec.fixedValue
  by_cases hr : s = "remove".toList
  · rw [if_pos (by rw [hr]), hr]
    exact .remove
  · rw [if_neg (fun h => hr (by injection h))]
    exact .plain h1 h2 hr

theorem amend_noop {clock : Text → Text} {render : ℕ → Text} {changes d : AttrDict} (hf : ∀ e ∈ changes, Spec.fixedChange e.2)
    (hd : ∀ e ∈ changes, AttrDict.get d e.1 = Spec.fixedValue e.2) : amendAttributes clock render changes d = (.ok (), d) := by
  induction changes with
  | nil => rfl
  | cons e changes ih =>
    have h1 := amendValue_change (fixed_change clock render (AttrDict.get d e.1) (hf e List.mem_cons_self))
    have hg := hd e List.mem_cons_self
    have ih := ih (fun x hx => hf x (List.mem_cons_of_mem _ hx)) (fun x hx => hd x (List.mem_cons_of_mem _ hx))
    unfold amendAttributes
    rw [h1]
    cases hv : Spec.fixedValue e.2 with
    | none =>
      rw [hv] at hg
      dsimp only
      rw [pop_same hg]; exact ih
    | some v =>
      rw [hv] at hg
      dsimp only
      rw [set_same hg]; exact ih

theorem keys_value {changes : AttrDict} (hk : (changes.map Prod.fst).Nodup) :
    ∃ want : String → Option AttrVal, ∀ e ∈ changes, want e.1 = Spec.fixedValue e.2 := by
  refine ⟨fun k => (changes.lookup k).bind Spec.fixedValue, fun e he => ?_⟩
  induction changes with
  | nil => exact nomatch he
  | cons x l ih =>
    rw [List.map_cons, List.nodup_cons] at hk
    obtain ⟨k, v⟩ := x
    rcases List.mem_cons.1 he with rfl | he
    · show (List.lookup k ((k, v) :: l)).bind Spec.fixedValue = _
      rw [List.lookup_cons_self]; rfl
    · have hm := List.mem_map_of_mem (f := Prod.fst) he
      have : e.1 ≠ k := fun h => hk.1 (by rw [h] at hm; exact hm)
      show (List.lookup e.1 ((k, v) :: l)).bind Spec.fixedValue = _
      rw [List.lookup_cons, beq_eq_false_iff_ne.2 this]
      exact ih hk.2 he

theorem amendOutcome_again {clock : Text → Text} {render : ℕ → Text} {changes d d' : AttrDict} (hk : (changes.map Prod.fst).Nodup)
    (hf : ∀ e ∈ changes, Spec.fixedChange e.2) (h : amendOutcome clock render changes d = .ok d') :
    amendOutcome clock render changes d' = .ok d' ∧
    ∀ k, AttrDict.get d' k = match changes.lookup k with | some v => Spec.fixedValue v | none => AttrDict.get d k := by
  obtain ⟨want, hw⟩ := keys_value hk
  have hA := C176_amend (clock := clock) (render := render) (d := d) (want := want) hk
    (fun e he => by rw [hw e he]; exact fixed_change _ _ _ (hf e he))
  unfold amendOutcome at h
  rw [hA.1] at h
  injection h with h
  rw [h] at hA
  constructor
  · unfold amendOutcome
    rw [amend_noop hf fun e he => by rw [hA.2, if_pos (List.mem_map_of_mem he), hw e he]]
  · intro k
    rw [hA.2]
    cases hl : changes.lookup k with
    | none =>
      rw [if_neg]
      intro hm
      obtain ⟨e, he, hek⟩ := List.mem_map.1 hm
      rw [List.lookup_eq_none_iff] at hl
      have := hl e he
      rw [bne_iff_ne] at this
      exact this hek.symm
    | some v =>
      have hm : (k, v) ∈ changes := by
        rw [List.lookup_eq_some_iff] at hl
        obtain ⟨l₁, l₂, rfl, -⟩ := hl
        simp
      rw [if_pos (List.mem_map_of_mem (f := Prod.fst) hm)]
      exact hw _ hm

/-! ### The whole plugin -/

theorem collapse_names (c : AxisCube) : ((collapseScalars c).coords.map fun x => x.coord.name) = c.coords.map fun x => x.coord.name := by
  have h := (C192_collapse c).2.2.1
  have := congrArg (List.map StdCoord.name) h
  rw [List.map_map, List.map_map] at this
  exact this

theorem flag_names {flag : Option StatusFlag} {c g : AxisCube} (h : removeStatusFlag flag c = .ok g) :
    (g.coords.map fun x => x.coord.name) = c.coords.map fun x => x.coord.name := by
  unfold removeStatusFlag at h
  cases flag with
  | none => injection h with h; rw [h]
  | some f =>
    dsimp only at h
    split at h
    · exact nomatch h
    split at h
    · exact nomatch h
    split at h
    · exact nomatch h
    injection h with h
    rw [← h, List.map_map]
    refine List.map_congr_left fun x _ => ?_
    show (scalarRealization c.axes x).coord.name = _
    unfold scalarRealization
    split <;> rfl

theorem collapse_nothing {c : AxisCube} (h : ∀ a, collapsible c a = false) : collapseScalars c = c := by
  have hf : collapsible c = fun _ => false := funext h
  unfold collapseScalars
  rw [hf]
  obtain ⟨axes, coords, data⟩ := c
  have h1 : (axes.filter fun _ => !false) = axes := by rw [List.filter_eq_self]; intro _ _; rfl
  have h2 : coords.map (collapseCoord fun _ => false) = coords := by
    conv_rhs => rw [← List.map_id coords]
    refine List.map_congr_left fun x _ => ?_
    unfold collapseCoord
    rw [if_neg]
    · rfl
    · rw [Bool.not_eq_true, List.any_eq_false]
      intro _ _ h; exact nomatch h
  dsimp only
  rw [h1, h2]
  rfl

theorem collapsed_none {c : AxisCube} {x : AxisCoord} (hx : x ∈ (collapseScalars c).coords) (hd : x.isDim = true) (a : String)
    (hs : x.spans = [a]) (hl : x.coord.points.length = 1) : subStr "realization" x.coord.name = true := by
  unfold collapseScalars at hx
  obtain ⟨y, hy, rfl⟩ := List.mem_map.1 hx
  unfold collapseCoord at hd hs hl ⊢
  by_cases hg : y.spans.any (collapsible c) = true
  · rw [if_pos hg] at hd; exact nomatch hd
  · rw [if_neg hg] at hd hs hl ⊢
    by_contra hr
    apply hg
    rw [hs]
    rw [List.any_cons, List.any_nil, Bool.or_false]
    unfold collapsible
    rw [List.any_eq_true]
    refine ⟨y, hy, ?_⟩
    rw [hd, hs, hl, Bool.not_eq_true] at *
    simp [hr]

theorem standardiseRun_parts {clock : Text → Text} {render : ℕ → Text} {cast : NpType → ℚ → ℚ} {o : StdOptions} {c r : StdWhole} :
    standardiseRun clock render cast o c = .ok r ↔ ∃ g p coords attrs, removeStatusFlag c.flag c.grid = .ok g ∧
      convertWhole o.newUnit c.unit c.dtype (collapseScalars g).data = .ok p ∧
      coordsRun cast o (collapseScalars g).coords = .ok coords ∧ amendOutcome clock render o.attributes c.attributes = .ok attrs ∧
      r = ⟨chosenName o c.name, requiredPlain p.2.1, p.1, ⟨(collapseScalars g).axes, coords, standardData cast p.2.1 p.2.2⟩, none,
        discardMethods c.methods, attrs⟩ := by
  unfold standardiseRun
  simp only [bind, Except.bind]
  constructor
  · intro h
    cases h1 : removeStatusFlag c.flag c.grid with
    | error e => rw [h1] at h; exact nomatch h
    | ok g =>
      rw [h1] at h
      dsimp only at h
      cases h2 : convertWhole o.newUnit c.unit c.dtype (collapseScalars g).data with
      | error e => rw [h2] at h; exact nomatch h
      | ok p =>
        rw [h2] at h
        dsimp only at h
        cases h3 : coordsRun cast o (collapseScalars g).coords with
        | error e => rw [h3] at h; exact nomatch h
        | ok cs =>
          rw [h3] at h
          dsimp only at h
          cases h4 : amendOutcome clock render o.attributes c.attributes with
          | error e => rw [h4] at h; exact nomatch h
          | ok attrs =>
            rw [h4] at h
            injection h with h
            exact ⟨g, p, cs, attrs, rfl, h2, h3, rfl, h.symm⟩
  · rintro ⟨g, p, cs, attrs, h1, h2, h3, h4, rfl⟩
    rw [h1]
    dsimp only
    rw [h2]
    dsimp only
    rw [h3]
    dsimp only
    rw [h4]

/-- The unit of the result: the one asked for, or the unit of the input. -/
def Spec.unitAfter (o : StdOptions) (c : StdWhole) : StdUnit := o.newUnit.getD c.unit

/-- A value of the input as it is in the result: in the new unit, and in single precision if it was, or by the conversion became, double precision. -/
def Spec.valueAfter (cast : NpType → ℚ → ℚ) (o : StdOptions) (c : StdWhole) (v : ℚ) : ℚ :=
  if Spec.unitAfter o c = c.unit then (if c.dtype = .float64 then cast .float32 v else v)
  else if c.dtype = .float64 ∨ c.dtype.isInt = true then cast .float32 (convertUnit c.unit (Spec.unitAfter o c) v)
  else convertUnit c.unit (Spec.unitAfter o c) v

theorem standardData_at (cast : NpType → ℚ → ℚ) (t : NpType) (data : (String → ℕ) → Option ℚ) (i : String → ℕ) :
    standardData cast t data i = (data i).map fun v => if t = .float64 then cast .float32 v else v := by
  unfold standardData
  by_cases h : t = .float64
  · subst h
    rw [if_pos (by decide)]
    exact congrArg (fun f => Option.map f (data i)) (funext fun v => (if_pos rfl).symm)
  · rw [if_neg (not_not.2 ((requiredPlain_eq t).2 h))]
    have : (fun v => if t = .float64 then cast .float32 v else v) = id := funext fun v => if_neg h
    rw [this, Option.map_id]; rfl

/-- C270: what standardising a cube gives: the name and unit asked for (the old ones if none are), at every place the value of the input there
after the values with a status flag were made missing, in that unit and in single precision if it was double precision (or an integer that had to be
converted); the redundant cell methods are gone.  A unit of another kind is refused. -/
theorem C270_result {clock : Text → Text} {render : ℕ → Text} {cast : NpType → ℚ → ℚ} {o : StdOptions} {c r : StdWhole}
    (h : standardiseRun clock render cast o c = .ok r) :
    r.name = (if o.newName = "" then c.name else o.newName) ∧ r.unit = Spec.unitAfter o c ∧ r.unit.dimension = c.unit.dimension ∧
    r.flag = none ∧ (∀ m, m ∈ r.methods ↔ m ∈ c.methods ∧ m ≠ ("point", ["time"], [], [])) ∧ r.methods.Sublist c.methods ∧
    r.dtype = (if c.dtype = .float64 ∨ (Spec.unitAfter o c ≠ c.unit ∧ c.dtype.isInt = true) then .float32 else c.dtype) ∧
    amendOutcome clock render o.attributes c.attributes = .ok r.attributes ∧
    ∃ g, removeStatusFlag c.flag c.grid = .ok g ∧ (∀ a, a ∈ r.grid.axes ↔ a ∈ g.axes ∧ ¬ Spec.lostAxis g a.1) ∧
      coordsRun cast o (collapseScalars g).coords = .ok r.grid.coords ∧
      ∀ i, (∀ a, Spec.lostAxis g a → i a = 0) → r.grid.data i = (g.data i).map (Spec.valueAfter cast o c) := by
  obtain ⟨g, p, cs, attrs, h1, h2, h3, h4, rfl⟩ := standardiseRun_parts.1 h
  have hc := C192_collapse g
  have hp : p.1 = Spec.unitAfter o c ∧ p.1.dimension = c.unit.dimension ∧
      p.2.1 = (if Spec.unitAfter o c = c.unit then c.dtype else if c.dtype.isInt = true then .float64 else c.dtype) ∧
      ∀ i, p.2.2 i = ((collapseScalars g).data i).map
        (fun v => if Spec.unitAfter o c = c.unit then v else convertUnit c.unit (Spec.unitAfter o c) v) := by
    unfold convertWhole at h2
    unfold Spec.unitAfter
    cases hu : o.newUnit with
    | none =>
      rw [hu] at h2
      injection h2 with h2
      rw [← h2]
      refine ⟨rfl, rfl, (if_pos rfl).symm, fun i => ?_⟩
      have : (fun v => if (none : Option StdUnit).getD c.unit = c.unit then v else convertUnit c.unit ((none : Option StdUnit).getD c.unit) v) = id :=
        funext fun v => if_pos rfl
      rw [this, Option.map_id]; rfl
    | some u =>
      rw [hu] at h2
      dsimp only at h2
      by_cases he : c.unit = u
      · rw [if_pos he] at h2
        injection h2 with h2
        rw [← h2]
        refine ⟨he, rfl, (if_pos he.symm).symm, fun i => ?_⟩
        have : (fun v => if (some u).getD c.unit = c.unit then v else convertUnit c.unit ((some u).getD c.unit) v) = id :=
          funext fun v => if_pos he.symm
        rw [this, Option.map_id]; rfl
      · rw [if_neg he] at h2
        by_cases hd : c.unit.dimension ≠ u.dimension
        · rw [if_pos hd] at h2; exact nomatch h2
        · rw [if_neg hd] at h2
          injection h2 with h2
          rw [← h2]
          have he' : ¬ (some u).getD c.unit = c.unit := fun h => he h.symm
          refine ⟨rfl, (not_not.1 hd).symm, (if_neg he').symm, fun i => ?_⟩
          refine congrArg (fun f => Option.map f _) (funext fun v => (if_neg he').symm)
  obtain ⟨p1, p2, p3, p4⟩ := hp
  refine ⟨rfl, p1, p2, rfl, (C192_cell_methods _).1, (C192_cell_methods _).2, ?_, h4, g, h1, hc.1, h3, fun i hi => ?_⟩
  · show requiredPlain p.2.1 = _
    rw [p3]
    cases hdt : c.dtype <;> by_cases hu : Spec.unitAfter o c = c.unit <;> simp [hu, requiredPlain, NpType.isFloat, NpType.isInt]
  · show standardData cast p.2.1 p.2.2 i = _
    rw [standardData_at, p4, hc.2.2.2.2 i hi, Option.map_map, p3]
    refine congrArg (fun f => Option.map f _) (funext fun v => ?_)
    show (if _ = NpType.float64 then cast .float32 _ else _) = _
    unfold Spec.valueAfter
    cases hdt : c.dtype <;> by_cases hu : Spec.unitAfter o c = c.unit <;> simp [hu, NpType.isInt]

/-- C270: whatever the options, the result meets the mandatory standards: any cube with its type and coordinates passes the check made before saving. -/
theorem C270_standards {clock : Text → Text} {render : ℕ → Text} {cast : NpType → ℚ → ℚ} {o : StdOptions} {c r : StdWhole}
    (h : standardiseRun clock render cast o c = .ok r) {q : StdCube} (hd : q.dtype = r.dtype)
    (hq : q.coords = r.grid.coords.map AxisCoord.coord) : checkStandards q = .ok () := by
  obtain ⟨g, p, cs, attrs, h1, h2, h3, h4, rfl⟩ := standardiseRun_parts.1 h
  rw [(C171_check_iff _).1]
  refine ⟨by rw [hd]; exact (requiredPlain_eq _).1 (requiredPlain_idem _).symm, fun x hx => (coord_checks x).1 ?_⟩
  rw [hq] at hx
  obtain ⟨y, hy, rfl⟩ := List.mem_map.1 hx
  unfold coordsRun at h3
  simp only [bind, Except.bind] at h3
  cases hm : modifyAll o.modify (o.remove.foldl removeCoordNamed (collapseScalars g).coords) with
  | error e => rw [hm] at h3; exact nomatch h3
  | ok l =>
    rw [hm] at h3
    obtain ⟨a, _, ha⟩ := forall₂_mem_right (mapM_forall₂ h3) y hy
    exact standardCoord_checks (standardAxis_shape ha).1

/-- C270: standardising the result again with the same options changes nothing, when no attribute is written in terms of its old value or of the time. -/
theorem C270_again {clock : Text → Text} {render : ℕ → Text} {cast : NpType → ℚ → ℚ} (hc : Spec.stores cast) {o : StdOptions} {c r : StdWhole}
    (hn : (c.grid.coords.map fun x => x.coord.name).Nodup) (hk : (o.modify.map Prod.fst).Nodup)
    (ha : (o.attributes.map Prod.fst).Nodup) (hf : ∀ e ∈ o.attributes, Spec.fixedChange e.2)
    (h : standardiseRun clock render cast o c = .ok r) : standardiseRun clock render cast o r = .ok r := by
  obtain ⟨g, p, cs, attrs, h1, h2, h3, h4, rfl⟩ := standardiseRun_parts.1 h
  have hng : ((collapseScalars g).coords.map fun x => x.coord.name).Nodup := by
    rw [collapse_names, flag_names h1]; exact hn
  have hcol : collapseScalars ⟨(collapseScalars g).axes, cs, standardData cast p.2.1 p.2.2⟩ =
      ⟨(collapseScalars g).axes, cs, standardData cast p.2.1 p.2.2⟩ := by
    apply collapse_nothing
    intro a
    unfold collapsible
    rw [List.any_eq_false]
    intro x hx hx'
    simp only [Bool.and_eq_true, decide_eq_true_eq, Bool.not_eq_true'] at hx'
    obtain ⟨⟨⟨x1, x2⟩, x3⟩, x4⟩ := hx'
    have hF := (C270_coords hk hng cs).1 h3
    obtain ⟨y, hy, hm, hy2⟩ := forall₂_mem_right hF x hx
    obtain ⟨-, s1, s2, s3, s4⟩ := standardAxis_shape hy2
    rw [(withGiven_spans _ _).1] at s1
    rw [(withGiven_spans _ _).2.1] at s2
    rw [withGiven_name] at s3
    have hdim : y.isDim = true := by rw [← s2]; exact x1
    have hnone : o.modify.lookup y.coord.name = none := by
      cases hl : o.modify.lookup y.coord.name with
      | none => rfl
      | some v =>
        obtain ⟨v, t⟩ := v
        rw [hl] at hm
        cases v with
        | list l => exact hm.elim
        | number q => rw [hm.1] at hdim; exact nomatch hdim
    rw [hnone] at s4
    have := collapsed_none (List.mem_filter.1 hy).1 hdim a (by rw [← s1]; exact x2) (by rw [← x3, s4]; rfl)
    rw [← s3, x4] at this
    exact nomatch this
  have hpu : convertWhole o.newUnit p.1 (requiredPlain p.2.1) (standardData cast p.2.1 p.2.2) =
      .ok (p.1, requiredPlain p.2.1, standardData cast p.2.1 p.2.2) := by
    unfold convertWhole at h2 ⊢
    cases hu : o.newUnit with
    | none => rfl
    | some u =>
      rw [hu] at h2
      dsimp only at h2 ⊢
      rw [if_pos]
      by_cases he : c.unit = u
      · rw [if_pos he] at h2
        injection h2 with h2
        rw [← h2]; exact he
      · rw [if_neg he] at h2
        by_cases hd : c.unit.dimension ≠ u.dimension
        · rw [if_pos hd] at h2; exact nomatch h2
        · rw [if_neg hd] at h2
          injection h2 with h2
          rw [← h2]
  refine standardiseRun_parts.2 ⟨_, (p.1, requiredPlain p.2.1, standardData cast p.2.1 p.2.2), cs, attrs, rfl, ?_, ?_, ?_, ?_⟩
  · dsimp only
    rw [hcol]
    exact hpu
  · dsimp only
    rw [hcol]
    exact coordsRun_again hc hk hng h3
  · exact (amendOutcome_again ha hf h4).1
  · dsimp only
    rw [hcol, requiredPlain_idem]
    have e1 : chosenName o (chosenName o c.name) = chosenName o c.name := by
      unfold chosenName
      split <;> rfl
    have e2 : discardMethods (discardMethods c.methods) = discardMethods c.methods := by
      unfold discardMethods
      rw [List.filter_filter]
      simp only [Bool.and_self]
    have e3 : standardData cast (requiredPlain p.2.1) (standardData cast p.2.1 p.2.2) = standardData cast p.2.1 p.2.2 := by
      conv_lhs => unfold standardData
      rw [requiredPlain_idem, if_neg (not_not.2 rfl)]
      rfl
    rw [e1, e2, e3]

/-- A temperature in degrees Celsius, double precision, at one height and two places, with a `point: time` cell method. -/
def exStdWhole : StdWhole :=
  ⟨"air_temperature", .float64, ⟨"temperature", 1, 27315 / 100⟩,
    ⟨[("height", 1), ("y", 2)], [exAxis "height" [2] none ["height"] true, exAxis "y" [0, 1] none ["y"] true,
      exAxis "model_level" [3] none [] false], fun i => some (i "y")⟩,
    some ⟨true, false, ["height", "y"], fun i => i "y"⟩, [("point", ["time"], [], []), ("mean", ["time"], [], [])],
    [("source", .text ['U', 'M']), ("title", .text ['T'])]⟩

/-- Rename, convert to kelvin, remove the model level, set the height to 1.5, remove the title. -/
def exStdOptions : StdOptions :=
  ⟨"screen_temperature", some ⟨"temperature", 1, 0⟩, ["model_level"],
    [("height", .number (3 / 2), .float64), ("model_level", .number 4, .int 64)],
    [("title", .text "remove".toList), ("source", .text ['I', 'M'])]⟩

/-- The run of the example. -/
def exStdRun : Option StdWhole := (standardiseRun (fun s => s) (fun _ => []) (fun _ v => v) exStdOptions exStdWhole).toOption

example : exStdRun.map (fun r => (r.name, r.unit.offset, r.grid.axes)) = some ("screen_temperature", 0, [("y", 2)]) ∧
    exStdRun.map (fun r => r.dtype) = some .float32 ∧
    exStdRun.map (fun r => r.grid.coords.map fun x => (x.coord.name, x.coord.points, x.isDim)) =
      some [("height", [3 / 2], false), ("y", [0, 1], true)] ∧
    exStdRun.map (fun r => (r.grid.data (fun _ => 0), r.grid.data (fun _ => 1))) = some (some (27315 / 100), none) ∧
    exStdRun.map (fun r => r.methods.map fun m => (m.1, m.2.1)) = some [("mean", ["time"])] ∧
    exStdRun.map (fun r => r.attributes) = some [("source", .text ['I', 'M'])] :=
  ⟨by decide +kernel, by decide +kernel, by decide +kernel, by decide +kernel, by decide +kernel, by decide +kernel⟩

example : (exStdWhole.grid.coords.map fun x => x.coord.name).Nodup ∧ (exStdOptions.modify.map Prod.fst).Nodup ∧
    (exStdOptions.attributes.map Prod.fst).Nodup ∧ (∀ e ∈ exStdOptions.attributes, Spec.fixedChange e.2) ∧
    Spec.stores (fun t v => match t with | .int _ => (⌊v⌋ : ℚ) | _ => v) := by
  refine ⟨by decide +kernel, by decide +kernel, by decide +kernel, ?_, ?_, fun b v => ⟨_, rfl⟩⟩
  · intro e he
    simp only [exStdOptions, List.mem_cons, List.not_mem_nil, or_false] at he
    rcases he with rfl | rfl
    · exact ⟨_, rfl, by decide +kernel, by decide +kernel⟩
    · exact ⟨_, rfl, by decide +kernel, by decide +kernel⟩
  · intro t v
    cases t with
    | int b => simp
    | _ => rfl

/-- The same cube without flag, with one attribute that is to be extended. -/
def exExtend : StdOptions := ⟨"", none, [], [], [("source", .text ("{}".toList ++ ['!']))]⟩

/-- Finding: an attribute written with "{}" is extended each time, so that standardising the result again does change it. -/
theorem C270_again_refuted : ∃ (o : StdOptions) (c r r2 : StdWhole), (∀ e ∈ o.attributes, ∃ s, e.2 = .text s) ∧
    standardiseRun (fun s => s) (fun _ => []) (fun _ v => v) o c = .ok r ∧
    standardiseRun (fun s => s) (fun _ => []) (fun _ v => v) o r = .ok r2 ∧ r2.attributes ≠ r.attributes := by
  have h1 : ((standardiseRun (fun s => s) (fun _ => []) (fun _ v => v) exExtend exStdWhole).toOption.map fun r => r.attributes) =
      some [("source", .text ['U', 'M', '!']), ("title", .text ['T'])] := by decide +kernel
  have h2 : (((standardiseRun (fun s => s) (fun _ => []) (fun _ v => v) exExtend exStdWhole).toOption.bind fun r =>
      (standardiseRun (fun s => s) (fun _ => []) (fun _ v => v) exExtend r).toOption).map fun r => r.attributes) =
      some [("source", .text ['U', 'M', '!', '!']), ("title", .text ['T'])] := by decide +kernel
  cases hr : standardiseRun (fun s => s) (fun _ => []) (fun _ v => v) exExtend exStdWhole with
  | error e => rw [hr] at h1; exact nomatch h1
  | ok r =>
    rw [hr] at h1 h2
    cases hr2 : standardiseRun (fun s => s) (fun _ => []) (fun _ v => v) exExtend r with
    | error e => rw [show (Except.ok r : Except Err StdWhole).toOption = some r from rfl, Option.bind_some, hr2] at h2; exact nomatch h2
    | ok r2 =>
      rw [show (Except.ok r : Except Err StdWhole).toOption = some r from rfl, Option.bind_some, hr2] at h2
      refine ⟨exExtend, exStdWhole, r, r2, ?_, hr, hr2, ?_⟩
      · intro e he
        simp only [exExtend, List.mem_singleton] at he
        subst he
        exact ⟨_, rfl⟩
      · intro he
        have h1 : some r.attributes = _ := h1
        have h2 : some r2.attributes = _ := h2
        rw [← he, h2] at h1
        revert h1
        decide +kernel

/-- C270: a value given for a coordinate that is not a time replaces its points, stored in single precision; bounds and unit stay. -/
theorem C270_given {cast : NpType → ℚ → ℚ} {a b : AxisCoord} {v : ℚ} (ht : timeSpec a.coord.name = none)
    (h : standardAxis cast (Spec.withGiven (some (.number v, .float64)) a) = .ok b) :
    b.coord.points = [cast .float32 v] ∧ b.coord.dtype = .float32 ∧ b.coord.unit = a.coord.unit ∧ b.coord.name = a.coord.name ∧
    b.spans = a.spans ∧ b.isDim = a.isDim ∧
    b.coord.bounds = a.coord.bounds.map fun x => (.float32, if x.1 = .float32 then x.2 else x.2.map (cast .float32)) := by
  obtain ⟨h1, s1, s2, s3, -⟩ := standardAxis_shape h
  have hw : (Spec.withGiven (some (.number v, .float64)) a).coord = ⟨a.coord.name, .float64, [v], a.coord.bounds, a.coord.unit⟩ := rfl
  rw [hw] at h1
  have hreq : ∀ c : StdCoord, c = ⟨a.coord.name, .float64, [v], a.coord.bounds, a.coord.unit⟩ → requiredType c = .float32 := by
    rintro c rfl
    unfold requiredType
    dsimp only
    rw [ht]; rfl
  unfold standardCoord at h1
  simp only [bind, Except.bind] at h1
  rw [convertTime_plain (c := ⟨a.coord.name, .float64, [v], a.coord.bounds, a.coord.unit⟩) ht] at h1
  dsimp only at h1
  rw [hreq _ rfl] at h1
  have e : ∀ (t : NpType) (l : List ℚ), toRequired cast t .float32 l = .ok (if t = .float32 then l else l.map (cast .float32)) := by
    intro t l
    unfold toRequired
    rw [if_neg (by decide)]
    unfold asType
    by_cases h : t = .float32
    · rw [if_pos h, if_neg (not_not.2 h)]
    · rw [if_neg h, if_pos h]
  rw [e] at h1
  dsimp only at h1
  rw [if_neg (by decide)] at h1
  cases hb : a.coord.bounds with
  | none =>
    rw [hb] at h1
    injection h1 with h1
    rw [← h1]
    exact ⟨rfl, rfl, rfl, rfl, s1, s2, rfl⟩
  | some x =>
    rw [hb] at h1
    dsimp only at h1
    rw [e] at h1
    injection h1 with h1
    rw [← h1]
    exact ⟨rfl, rfl, rfl, rfl, s1, s2, rfl⟩

end Improver
