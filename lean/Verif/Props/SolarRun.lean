import Verif.Model.SolarRun
import Verif.Props.Solar
import Verif.Props.Attributes

/-! # Clear sky radiation and solar time of whole grids -/

namespace Improver

theorem trimShape_two (a b : ℕ) : trimShape [a, b] = [a, b] := by
  unfold trimShape
  split
  · rename_i h; cases h
  · rfl

theorem fitIndex_two {a b j i : ℕ} (hj : j < a) (hi : i < b) : fitIndex [a, b] [j, i] = [j, i] := by
  unfold fitIndex
  simp only [List.length_cons, List.length_nil, Nat.sub_self, List.drop_zero, List.zipWith_cons_cons, List.zipWith_nil_right]
  congr 1
  · by_cases h : a = 1
    · rw [if_pos h]; omega
    · rw [if_neg h]
  · congr 1
    by_cases h : b = 1
    · rw [if_pos h]; omega
    · rw [if_neg h]

theorem used_two {X : Type} {f : SunField X} {a b j i : ℕ} (hs : f.shape = [a, b]) (hj : j < a) (hi : i < b) : f.used j i = f.data [j, i] := by
  unfold SunField.used
  rw [hs, trimShape_two, fitIndex_two hj hi]
  rfl

theorem fits_two {X : Type} {g : SunGrid X} {f : SunField X} {a b : ℕ} (hs : f.shape = [a, b]) :
    f.fits g = true ↔ (a = g.ny ∨ a = 1) ∧ (b = g.nx ∨ b = 1) := by
  unfold SunField.fits fitsShape
  rw [hs, trimShape_two]
  simp

theorem sunAttributes_ok (target : AttrDict) (title : Option Text) : ∃ attrs, sunAttributes target title = .ok attrs ∧
    AttrDict.get attrs "source" = some (.text "IMPROVER".toList) ∧
    AttrDict.get attrs "title" = title.map AttrVal.text ∧
    AttrDict.get attrs "institution" = some ((AttrDict.get target "institution").getD (.text "unknown".toList)) ∧
    ∀ k, k ∉ ["title", "source", "institution"] → AttrDict.get attrs k = none := by
  obtain ⟨h1, h2⟩ := C177_mandatory [target] none
  obtain ⟨r, hr⟩ := h2.2 (by rintro k ⟨h, -⟩; cases h)
  have hi : AttrDict.get r "institution" = some ((AttrDict.get target "institution").getD (.text "unknown".toList)) := by
    obtain ⟨a1, a2, -⟩ := h1 r hr "institution"
    cases hv : AttrDict.get target "institution" with
    | some v => exact a1 (Or.inl (by simp)) v ⟨by simp, by simpa using hv⟩
    | none =>
      rw [a2 (by simp) (by rintro v ⟨-, h⟩; have := h target (by simp); rw [hv] at this; cases this)]
      rfl
  have hn : ∀ k, k ∉ ["title", "source", "institution"] → AttrDict.get r k = none := fun k hk => (h1 r hr k).2.2 hk (by rintro ⟨h, -⟩; cases h)
  unfold sunAttributes
  rw [hr]
  cases title with
  | some t =>
    refine ⟨_, rfl, ?_, ?_, ?_, ?_⟩
    · rw [set_get, if_neg (by decide), set_get, if_pos rfl]
    · rw [set_get, if_pos rfl]; rfl
    · rw [set_get, if_neg (by decide), set_get, if_neg (by decide), hi]
    · intro k hk
      rw [set_get, if_neg (by rintro rfl; simp at hk), set_get, if_neg (by rintro rfl; simp at hk), hn k hk]
  | none =>
    refine ⟨_, rfl, ?_, ?_, ?_, ?_⟩
    · rw [pop_get, if_neg (by decide), set_get, if_pos rfl]
    · rw [pop_get, if_pos rfl]; rfl
    · rw [pop_get, if_neg (by decide), set_get, if_neg (by decide), hi]
    · intro k hk
      rw [pop_get, if_neg (by rintro rfl; simp at hk), set_get, if_neg (by rintro rfl; simp at hk), hn k hk]

/-- A field on the coordinates of the target, stored as (y, x). -/
def Spec.onTarget {X : Type} (g : SunGrid X) (f : SunField X) : Prop := f.xCoord = g.xCoord ∧ f.yCoord = g.yCoord ∧ f.shape = [g.ny, g.nx]

/-- A target stored as (y, x) with latitudes between the poles. -/
def Spec.earthly {X : Type} (g : SunGrid X) : Prop := g.shape = [g.ny, g.nx] ∧ ∀ j < g.ny, ∀ i < g.nx, -90 ≤ (g.latLon j i).1 ∧ (g.latLon j i).1 ≤ 90

theorem sunField_grid {X : Type} [DecidableEq X] {g : SunGrid X} {preset : ℝ} {o : Option (SunField X)} (hg : g.shape = [g.ny, g.nx])
    (h : ∀ f, o = some f → Spec.onTarget g f) : ∃ f, sunField g preset o = .ok f ∧ f.shape = [g.ny, g.nx] ∧
      (∀ j i, f.data [j, i] = (o.map fun f => f.data [j, i]).getD preset) ∧ (o = none → f.data = fun _ => preset) ∧ ∀ f', o = some f' → f' = f := by
  cases o with
  | none => exact ⟨_, rfl, hg, fun _ _ => rfl, fun _ => rfl, by rintro _ ⟨⟩⟩
  | some f =>
    obtain ⟨hx, hy, hs⟩ := h f rfl
    refine ⟨f, if_pos ⟨hx, hy⟩, hs, fun _ _ => rfl, (by rintro ⟨⟩), by rintro _ ⟨⟩; rfl⟩

theorem timesOk {time period spacing : ℤ} (h0 : spacing ≠ 0) : (∃ ts, irradianceTimes time period spacing = .ok ts) ↔ spacing ∣ period * 60 := by
  unfold irradianceTimes
  rw [if_neg h0]
  by_cases h : period * 60 % spacing ≠ 0
  · rw [if_pos h]
    exact ⟨fun h' => (nomatch h'.choose_spec), fun hd => absurd (Int.emod_eq_zero_of_dvd hd) h⟩
  · rw [if_neg h]
    exact ⟨fun _ => Int.dvd_of_emod_eq_zero (not_not.1 h), fun _ => ⟨_, rfl⟩⟩

/-- On a grid stored as (y, x), with fields on the same grid or none, and a period of whole steps, the result is given on the coordinates of the target; its
value at each place is the radiation of that place, with the altitude and turbidity of that place, or 0 and 3 without a field. -/
theorem C274_value {X : Type} [DecidableEq X] {yday : ℤ → ℤ} (hy : Spec.calendar yday) {g : SunGrid X} (hg : Spec.earthly g)
    {altitude turbidity : Option (SunField X)} (ha : ∀ f, altitude = some f → Spec.onTarget g f) (ht : ∀ f, turbidity = some f → Spec.onTarget g f)
    (time : ℤ) {period spacing : ℤ} (hp : 0 ≤ period) (hs : 0 < spacing) (hd : spacing ∣ period * 60) (title : Option Text) :
    ∃ c, clearSkyProcess yday g time period altitude turbidity spacing title = .ok c ∧ c.xCoord = g.xCoord ∧ c.yCoord = g.yCoord ∧
      ∀ j < g.ny, ∀ i < g.nx, clearSkyRadiation yday (g.latLon j i).1 (g.latLon j i).2 (altitude.map fun f => f.data [j, i])
        (turbidity.map fun f => f.data [j, i]) time period spacing = .ok (c.data j i) := by
  obtain ⟨alt, h1, s1, v1, -, -⟩ := sunField_grid (preset := 0) hg.1 ha
  obtain ⟨turb, h2, s2, v2, -, -⟩ := sunField_grid (preset := 3) hg.1 ht
  obtain ⟨ts, hts⟩ := (timesOk (time := time) (by omega : spacing ≠ 0)).2 hd
  obtain ⟨attrs, hat, -⟩ := sunAttributes_ok g.attrs title
  refine ⟨radiationCube yday g alt turb time period spacing attrs, ?_, rfl, rfl, ?_⟩
  · unfold clearSkyProcess
    rw [h1, h2]
    dsimp only
    unfold radiationFrom
    rw [hts, hat]
    dsimp only
    rw [if_neg, if_neg]
    · rintro ⟨-, h⟩
      rw [(fits_two s1).2 ⟨Or.inl rfl, Or.inl rfl⟩, (fits_two s2).2 ⟨Or.inl rfl, Or.inl rfl⟩] at h
      exact Bool.noConfusion h
    · rintro ⟨-, j, hj, i, hi, h⟩
      obtain ⟨l1, l2⟩ := hg.2 j hj i hi
      rcases h with h | h <;> linarith
  · intro j hj i hi
    obtain ⟨l1, l2⟩ := hg.2 j hj i hi
    obtain ⟨n, hn⟩ := hd
    have hn0 : 0 ≤ n := by
      by_contra hc
      have := mul_neg_of_pos_of_neg hs (not_le.mp hc)
      omega
    obtain ⟨m, rfl⟩ := Int.eq_ofNat_of_zero_le hn0
    show _ = Except.ok (radiationAt _ _ _ _ _ _ _ _)
    unfold radiationAt
    rw [used_two s1 hj hi, used_two s2 hj hi, radiation_eq hy l1 l2 m hs hn, radiation_eq hy l1 l2 m hs hn, v1, v2]
    rfl

/-- So every value is between 0 and 1413 W m-2 over the whole period. -/
theorem C274_range {X : Type} [DecidableEq X] {yday : ℤ → ℤ} (hy : Spec.calendar yday) {g : SunGrid X} (hg : Spec.earthly g)
    {altitude turbidity : Option (SunField X)} (ha : ∀ f, altitude = some f → Spec.onTarget g f ∧ ∀ idx, -17000 ≤ f.data idx)
    (ht : ∀ f, turbidity = some f → Spec.onTarget g f) (time : ℤ) {period spacing : ℤ} (hp : 0 ≤ period) (hs : 0 < spacing) (title : Option Text) {c : SunCube X}
    (h : clearSkyProcess yday g time period altitude turbidity spacing title = .ok c) :
    ∀ j < g.ny, ∀ i < g.nx, 0 ≤ c.data j i ∧ c.data j i ≤ 1413 * (3600 * period) := by
  have hd : spacing ∣ period * 60 := by
    rw [← timesOk (time := time) (by omega)]
    obtain ⟨alt, h1, -⟩ := sunField_grid (preset := 0) hg.1 fun f e => (ha f e).1
    obtain ⟨turb, h2, -⟩ := sunField_grid (preset := 3) hg.1 ht
    unfold clearSkyProcess at h
    rw [h1, h2] at h
    dsimp only at h
    unfold radiationFrom at h
    cases hts : irradianceTimes time period spacing with
    | ok ts => exact ⟨ts, rfl⟩
    | error e => rw [hts] at h; exact nomatch h
  intro j hj i hi
  obtain ⟨c', h', -, -, v⟩ := C274_value hy hg (fun f e => (ha f e).1) ht time hp hs hd title
  rw [h] at h'
  cases h'
  obtain ⟨l1, l2⟩ := hg.2 j hj i hi
  obtain ⟨r, e, r1, r2, -⟩ := C165_radiation (lon := (g.latLon j i).2) (turbidity := turbidity.map fun f => f.data [j, i]) hy l1 l2
    (altitude := altitude.map fun f => f.data [j, i]) (by
      intro a e
      cases altitude with
      | none => exact nomatch e
      | some f => cases e; exact (ha f rfl).2 _) (time := time) hp hs hd
  rw [v j hj i hi] at e
  cases e
  exact ⟨r1, r2⟩

/-- The rest of the result: the time is the given one, and its bounds the period that ends there, in whole seconds; the vertical coordinate is "altitude" without
altitudes or with altitudes that are all 0 (to within 1e-8), and "height" otherwise; the source is IMPROVER, the title is the one given or none, the institution is
that of the target, and there are no other attributes. -/
theorem C274_metadata {X : Type} [DecidableEq X] {yday : ℤ → ℤ} {g : SunGrid X} {altitude turbidity : Option (SunField X)}
    {time period spacing : ℤ} {title : Option Text} {c : SunCube X} (h : clearSkyProcess yday g time period altitude turbidity spacing title = .ok c) :
    (∀ s : ℤ, time = s * 1000000 → c.time = s ∧ c.bounds = some (s - 3600 * period, s)) ∧
    (c.vertical = some "altitude" ∨ c.vertical = some "height") ∧
    (altitude = none → c.vertical = some "altitude") ∧
    (∀ f, altitude = some f → (c.vertical = some "altitude" ↔ ∀ idx, List.Forall₂ (· < ·) idx f.shape → |f.data idx| ≤ 1e-8)) ∧
    AttrDict.get c.attrs "source" = some (.text "IMPROVER".toList) ∧
    AttrDict.get c.attrs "title" = title.map AttrVal.text ∧
    AttrDict.get c.attrs "institution" = some ((AttrDict.get g.attrs "institution").getD (.text "unknown".toList)) ∧
    ∀ k, k ∉ ["title", "source", "institution"] → AttrDict.get c.attrs k = none := by
  unfold clearSkyProcess at h
  cases h1 : sunField g 0 altitude with
  | error e => rw [h1] at h; exact nomatch h
  | ok alt =>
    cases h2 : sunField g 3 turbidity with
    | error e => rw [h1, h2] at h; exact nomatch h
    | ok turb =>
      rw [h1, h2] at h
      dsimp only at h
      unfold radiationFrom at h
      cases hts : irradianceTimes time period spacing with
      | error e => rw [hts] at h; exact nomatch h
      | ok ts =>
        obtain ⟨attrs, hat, a1, a2, a3, a4⟩ := sunAttributes_ok g.attrs title
        rw [hts, hat] at h
        dsimp only at h
        by_cases c1 : sunRefused g ts
        · rw [if_pos c1] at h; exact nomatch h
        · rw [if_neg c1] at h
          by_cases c2 : ts ≠ [] ∧ (alt.fits g && turb.fits g) = false
          · rw [if_pos c2] at h; exact nomatch h
          · rw [if_neg c2] at h
            cases h
            refine ⟨?_, ?_, ?_, ?_, a1, a2, a3, a4⟩
            · rintro s rfl
              have e1 : wholeSeconds (s * 1000000) = s := Int.mul_tdiv_cancel _ (by decide)
              refine ⟨e1, ?_⟩
              show some (wholeSeconds _, wholeSeconds _) = _
              rw [e1, show s * 1000000 - period * 3600000000 = (s - 3600 * period) * 1000000 by ring]
              unfold wholeSeconds
              rw [Int.mul_tdiv_cancel _ (by decide)]
            · show some (sunVertical alt) = _ ∨ some (sunVertical alt) = _
              unfold sunVertical
              by_cases q : ∀ idx, alt.inside idx → |alt.data idx| ≤ 1e-8
              · rw [if_pos q]; exact Or.inl rfl
              · rw [if_neg q]; exact Or.inr rfl
            · rintro rfl
              cases h1
              show some (sunVertical _) = _
              unfold sunVertical
              rw [if_pos]
              intro idx _
              norm_num
            · rintro f rfl
              unfold sunField at h1
              dsimp only at h1
              by_cases q : f.xCoord = g.xCoord ∧ f.yCoord = g.yCoord
              · rw [if_pos q] at h1
                cases h1
                show some (sunVertical alt) = _ ↔ _
                unfold sunVertical
                by_cases q : ∀ idx, alt.inside idx → |alt.data idx| ≤ 1e-8
                · rw [if_pos q]; exact ⟨fun _ => q, fun _ => rfl⟩
                · rw [if_neg q]
                  refine ⟨fun e => ?_, fun e => absurd e q⟩
                  have := Option.some.inj e
                  exact absurd this (by decide)
              · rw [if_neg q] at h1; exact nomatch h1

/-- Refused: a field whose coordinates are not those of the target; a spacing of 0 and a period that is not a number of whole steps. -/
theorem C274_refused {X : Type} [DecidableEq X] {yday : ℤ → ℤ} {g : SunGrid X} {altitude turbidity : Option (SunField X)}
    {time period spacing : ℤ} {title : Option Text}
    (h : (∃ f, (altitude = some f ∨ turbidity = some f) ∧ ¬ (f.xCoord = g.xCoord ∧ f.yCoord = g.yCoord)) ∨ spacing = 0 ∨ ¬ spacing ∣ period * 60) :
    ∃ e, clearSkyProcess yday g time period altitude turbidity spacing title = .error e := by
  unfold clearSkyProcess
  cases h1 : sunField g 0 altitude with
  | error e => exact ⟨e, rfl⟩
  | ok alt =>
    cases h2 : sunField g 3 turbidity with
    | error e => exact ⟨e, rfl⟩
    | ok turb =>
      dsimp only
      rcases h with ⟨f, h | h, hn⟩ | h
      · subst h
        unfold sunField at h1
        dsimp only at h1
        rw [if_neg hn] at h1
        exact nomatch h1
      · subst h
        unfold sunField at h2
        dsimp only at h2
        rw [if_neg hn] at h2
        exact nomatch h2
      · unfold radiationFrom
        cases hts : irradianceTimes time period spacing with
        | error e => exact ⟨_, rfl⟩
        | ok ts =>
          exfalso
          rcases h with rfl | h
          · unfold irradianceTimes at hts
            rw [if_pos rfl] at hts
            exact nomatch hts
          · by_cases h0 : spacing = 0
            · unfold irradianceTimes at hts
              rw [if_pos h0] at hts
              exact nomatch hts
            · exact h ((timesOk h0).1 ⟨ts, hts⟩)

/-- With fields on the coordinates of the target, the kind of the refusal: a spacing of 0 divides by zero, and a spacing that does not divide the period is a bad value. -/
theorem C274_spacing_error {X : Type} [DecidableEq X] {yday : ℤ → ℤ} {g : SunGrid X} {altitude turbidity : Option (SunField X)}
    {time period spacing : ℤ} {title : Option Text}
    (hf : ∀ f, altitude = some f ∨ turbidity = some f → f.xCoord = g.xCoord ∧ f.yCoord = g.yCoord) :
    (spacing = 0 → clearSkyProcess yday g time period altitude turbidity spacing title = .error .zeroDivision) ∧
    (spacing ≠ 0 → ¬ spacing ∣ period * 60 → clearSkyProcess yday g time period altitude turbidity spacing title = .error .valueError) := by
  have ok : ∀ (preset : ℝ) (o : Option (SunField X)), (∀ f, o = some f → f.xCoord = g.xCoord ∧ f.yCoord = g.yCoord) → ∃ f, sunField g preset o = .ok f := by
    intro preset o ho
    cases o with
    | none => exact ⟨_, rfl⟩
    | some f => exact ⟨f, if_pos (ho f rfl)⟩
  obtain ⟨alt, h1⟩ := ok 0 altitude fun f e => hf f (Or.inl e)
  obtain ⟨turb, h2⟩ := ok 3 turbidity fun f e => hf f (Or.inr e)
  have run : ∀ e, irradianceTimes time period spacing = .error e →
      clearSkyProcess yday g time period altitude turbidity spacing title = .error (timesError spacing) := by
    intro e he
    unfold clearSkyProcess
    rw [h1, h2]
    dsimp only
    unfold radiationFrom
    rw [he]
  constructor
  · intro h0
    cases hts : irradianceTimes time period spacing with
    | error e => rw [run e hts]; unfold timesError; rw [if_pos h0]
    | ok ts => unfold irradianceTimes at hts; rw [if_pos h0] at hts; exact nomatch hts
  · intro h0 hd
    cases hts : irradianceTimes time period spacing with
    | error e => rw [run e hts]; unfold timesError; rw [if_neg h0]
    | ok ts => exact absurd ((timesOk h0).1 ⟨ts, hts⟩) hd

/-- Not so: that the altitudes are found by their coordinates.  Only the coordinates are compared, not the order in which the data are stored: a field stored as
(x, y) is refused unless the grid is a square, and on a square the altitude at each place is that of the place with x and y exchanged. -/
theorem C274_order_refuted {X : Type} [DecidableEq X] {yday : ℤ → ℤ} (hy : Spec.calendar yday) {g : SunGrid X} (hg : Spec.earthly g) (h1 : 1 < g.ny) (h1' : 1 < g.nx)
    {f : SunField X} (hf : f.xCoord = g.xCoord ∧ f.yCoord = g.yCoord ∧ f.shape = [g.nx, g.ny]) (time : ℤ) {period spacing : ℤ} (hp : 0 ≤ period) (hs : 0 < spacing)
    (hd : spacing ∣ period * 60) (title : Option Text) :
    (g.nx ≠ g.ny → clearSkyProcess yday g time period (some f) none spacing title = .error .valueError) ∧
    (g.nx = g.ny → ∃ c, clearSkyProcess yday g time period (some f) none spacing title = .ok c ∧
      ∀ j < g.ny, ∀ i < g.nx, clearSkyRadiation yday (g.latLon j i).1 (g.latLon j i).2 (some (f.data [j, i])) none time period spacing = .ok (c.data j i)) := by
  constructor
  · intro hne
    unfold clearSkyProcess sunField
    dsimp only
    rw [if_pos ⟨hf.1, hf.2.1⟩]
    dsimp only
    unfold radiationFrom
    have hts : irradianceTimes time period spacing = .ok ((List.range ((period * 60 / spacing) + 1).toNat).map fun i : ℕ =>
        time - period * 3600000000 + i * (spacing * 60000000)) := by
      unfold irradianceTimes
      rw [if_neg (by omega), if_neg (not_not.2 (Int.emod_eq_zero_of_dvd hd))]
    rw [hts]
    dsimp only
    rw [if_neg, if_pos]
    · have hq : 0 ≤ period * 60 / spacing := Int.ediv_nonneg (by omega) (by omega)
      refine ⟨?_, ?_⟩
      · intro e
        have := congrArg List.length e
        rw [List.length_map, List.length_range] at this
        simp at this
        omega
      · have : f.fits g = false := by
          rw [← Bool.not_eq_true, fits_two hf.2.2]
          omega
        rw [this]; rfl
    · rintro ⟨-, j, hj, i, hi, h⟩
      obtain ⟨l1, l2⟩ := hg.2 j hj i hi
      rcases h with h | h <;> linarith
  · intro he
    obtain ⟨c, h, -, -, v⟩ := C274_value hy hg (altitude := some f) (turbidity := none)
      (by rintro _ ⟨⟩; exact ⟨hf.1, hf.2.1, by rw [hf.2.2, he]⟩) (by rintro _ ⟨⟩) time hp hs hd title
    exact ⟨c, h, v⟩

/-- Not so: that a period of negative length is refused.  With a positive spacing that divides it, the radiation is 0 everywhere, and the bounds of the time are in the
wrong order; even latitudes are then not looked at. -/
theorem C274_negative_refuted {X : Type} [DecidableEq X] (yday : ℤ → ℤ) (g : SunGrid X) (s : ℤ) {period spacing : ℤ} (hp : period < 0) (hs : 0 < spacing)
    (hd : spacing ∣ period * 60) (title : Option Text) :
    ∃ c, clearSkyProcess yday g (s * 1000000) period none none spacing title = .ok c ∧ (∀ j i, c.data j i = 0) ∧
      ∃ lower upper, c.bounds = some (lower, upper) ∧ upper < lower := by
  have hq : period * 60 / spacing + 1 ≤ 0 := by
    have : period * 60 / spacing < 0 := Int.ediv_neg_of_neg_of_pos (by omega) hs
    omega
  have hts : ∀ time, irradianceTimes time period spacing = .ok [] := by
    intro time
    unfold irradianceTimes
    rw [if_neg (by omega), if_neg (not_not.2 (Int.emod_eq_zero_of_dvd hd)), Int.toNat_of_nonpos hq]
    rfl
  obtain ⟨attrs, hat, -⟩ := sunAttributes_ok g.attrs title
  have hok : clearSkyProcess yday g (s * 1000000) period none none spacing title = .ok (radiationCube yday g ⟨g.xCoord, g.yCoord, g.shape, fun _ => 0⟩
      ⟨g.xCoord, g.yCoord, g.shape, fun _ => 3⟩ (s * 1000000) period spacing attrs) := by
    unfold clearSkyProcess sunField
    dsimp only
    unfold radiationFrom
    rw [hts, hat]
    dsimp only
    rw [if_neg (fun h => h.1 rfl), if_neg (fun h => h.1 rfl)]
  refine ⟨_, hok, ?_, ?_⟩
  · intro j i
    show radiationAt _ _ _ _ _ _ _ _ = 0
    unfold radiationAt clearSkyRadiation
    rw [hts]
    rfl
  · refine ⟨_, _, (C274_metadata hok).1 s rfl |>.2, ?_⟩
    linarith

/-- Solar time on the coordinates of the target: at each place the time of day from 0 up to 24, four minutes later for each degree to the east; the time is given
without bounds. -/
theorem C274_solar_time {X : Type} (yday : ℤ → ℤ) (g : SunGrid X) (s : ℤ) (title : Option Text) :
    ∃ c, solarTimeProcess yday g (s * 1000000) title = .ok c ∧ c.xCoord = g.xCoord ∧ c.yCoord = g.yCoord ∧ c.time = s ∧ c.bounds = none ∧ c.vertical = none ∧
      AttrDict.get c.attrs "source" = some (.text "IMPROVER".toList) ∧ AttrDict.get c.attrs "title" = title.map AttrVal.text ∧
      ∀ j i, 0 ≤ c.data j i ∧ c.data j i < 24 ∧ ∃ k : ℤ, 60 * c.data j i =
        60 * hourOfDay (s * 1000000) + 4 * (g.latLon j i).2 + Spec.spencer (dayOfYear yday (s * 1000000)) + 1440 * k := by
  obtain ⟨attrs, hat, a1, a2, -⟩ := sunAttributes_ok g.attrs title
  unfold solarTimeProcess
  rw [hat]
  refine ⟨_, rfl, rfl, rfl, Int.mul_tdiv_cancel _ (by decide), rfl, rfl, a1, a2, ?_⟩
  intro j i
  dsimp only
  obtain ⟨-, -, r, ⟨k, hk⟩, -⟩ := C161_solar_time (g.latLon j i).2 (dayOfYear yday (s * 1000000)) (hourOfDay (s * 1000000))
  refine ⟨r.1, r.2, k, ?_⟩
  rw [hk, ← C161_spencer]
  ring

/-! A grid that meets the hypotheses, with altitudes and a calendar. -/

example : Spec.calendar (fun n => n % 365 + 1) := fun n => by
  have := Int.emod_nonneg n (by decide : (365 : ℤ) ≠ 0)
  have := Int.emod_lt_of_pos n (by decide : (0 : ℤ) < 365)
  constructor <;> dsimp only <;> omega

def sunExample : SunGrid ℕ := ⟨1, 2, 3, 2, [2, 3], fun j i => (50 + j, -5 + i), [("institution", .text "Met Office".toList)]⟩

def sunAltitudes : SunField ℕ := ⟨1, 2, [2, 3], fun idx => 100 * idx.getD 0 0 + idx.getD 1 0⟩

example : Spec.earthly sunExample ∧ Spec.onTarget sunExample sunAltitudes ∧ (30 : ℤ) ∣ 3 * 60 := by
  refine ⟨⟨rfl, ?_⟩, ⟨rfl, rfl, rfl⟩, by decide⟩
  intro j hj i _
  have hj : j < 2 := hj
  have h2 : ((j : ℕ) : ℝ) < 2 := by exact_mod_cast hj
  have h0 : (0 : ℝ) ≤ j := Nat.cast_nonneg j
  show (-90 : ℝ) ≤ 50 + j ∧ (50 + j : ℝ) ≤ 90
  constructor <;> linarith

example : ∃ c, clearSkyProcess (fun n => n % 365 + 1) sunExample (86400 * 1000000) 3 (some sunAltitudes) none 30 none = .ok c ∧ c.vertical = some "height" ∧
    c.bounds = some (75600, 86400) := by
  obtain ⟨c, h, -⟩ := C274_value (yday := fun n => n % 365 + 1) (fun n => by
      have := Int.emod_nonneg n (by decide : (365 : ℤ) ≠ 0)
      have := Int.emod_lt_of_pos n (by decide : (0 : ℤ) < 365)
      constructor <;> dsimp only <;> omega) (g := sunExample) (by
      refine ⟨rfl, ?_⟩
      intro j hj i _
      have hj : j < 2 := hj
      have h2 : ((j : ℕ) : ℝ) < 2 := by exact_mod_cast hj
      have h0 : (0 : ℝ) ≤ j := Nat.cast_nonneg j
      show (-90 : ℝ) ≤ 50 + j ∧ (50 + j : ℝ) ≤ 90
      constructor <;> linarith) (altitude := some sunAltitudes) (turbidity := none) (by rintro _ ⟨⟩; exact ⟨rfl, rfl, rfl⟩) (by rintro _ ⟨⟩)
    (86400 * 1000000) (period := 3) (spacing := 30) (by decide) (by decide) (by decide) none
  obtain ⟨m1, m2, -, m4, -⟩ := C274_metadata h
  refine ⟨c, h, ?_, (m1 86400 rfl).2⟩
  rcases m2 with e | e
  · exfalso
    have := (m4 _ rfl).1 e [1, 0] (by simp [sunAltitudes])
    simp [sunAltitudes] at this
    norm_num at this
  · exact e

end Improver
