import Verif.Props.EmosApply
import Verif.Props.EmosResult
import Verif.Props.Extraction
import Verif.Props.Hail
import Verif.Props.LapseRun

/-! Further statements about regression predictors (C124), calibrated output (C130), the reading of constraints (C174),
hail sizes (C153), the rising parcel (C154) and lapse rates (C231). -/

namespace Improver

open Spec

/-! ## C124 -/

/-- Finding: when `n` predictors, the ensemble mean among them, share one name and there are `n` points, the coefficients are
dealt out over the points: each point uses one coefficient for all its predictors. -/
theorem C124_same_names_refuted (nm : String) (n : ℕ) (hn : 2 ≤ n) (members : List (List ℝ)) (extra : List PredCube)
    (hx : ∀ q ∈ extra, q.name = nm ∧ q.data.length = n) (bs : List ℝ) (hb : bs.length = n) (he : extra.length + 1 = n) :
    locationFromMean nm n members extra (.scalar 0) (bs.map fun b => (nm, .scalar b)) = .ok ((List.range n).map fun i =>
      bs.getD i 0 * (average (atPoint members i) + (extra.map fun q => q.data.getD i 0).sum)) := by
  have hfor : betaFor (bs.map fun b => (nm, CoefData.scalar b)) nm = .ok (.field bs) := by
    unfold betaFor
    have hf : (bs.map fun b => (nm, CoefData.scalar b)).filter (fun b => b.1 == nm) = bs.map fun b => (nm, CoefData.scalar b) := by
      rw [List.filter_eq_self]
      intro b hb
      obtain ⟨x, _, rfl⟩ := List.mem_map.1 hb
      simp
    have hm : ∀ g : String × CoefData → Option ℝ, (∀ b, g (nm, .scalar b) = some b) → ∀ l : List ℝ,
        (l.map fun b => (nm, CoefData.scalar b)).mapM g = some l := by
      intro g hg l
      induction l with
      | nil => rfl
      | cons x l ih => rw [List.map_cons, List.mapM_cons, ih, hg]; rfl
    rw [hf]
    obtain ⟨x, y, l, rfl⟩ : ∃ x y l, bs = x :: y :: l := by
      match bs, hb with
      | [], h => simp at h; omega
      | [_], h => simp at h; omega
      | x :: y :: l, _ => exact ⟨x, y, l, rfl⟩
    have := fun g hg => hm g hg (x :: y :: l)
    simp only [List.map_cons] at this ⊢
    rw [this _ (fun b => rfl)]
  let preds : List PredCube := ⟨nm, ensMean n members⟩ :: extra
  have hname : ∀ q ∈ preds, q.name = nm := by
    intro q hq
    rcases List.mem_cons.1 hq with rfl | hq
    · rfl
    · exact (hx q hq).1
  unfold locationFromMean
  simp only
  rw [if_neg (by simp; omega)]
  have hz : (List.replicate n (0:ℝ)) = (List.range n).map fun _ => (0:ℝ) := by
    apply List.ext_getElem <;> simp
  rw [hz, addTerms_ok (fun _ => .field bs) _ n (fun _ => 0) preds
    (fun q hq => by rw [hname q hq]; exact hfor)
    (fun q hq => hb)
    (by intro q hq
        rcases List.mem_cons.1 hq with rfl | hq
        · simp [ensMean]
        · exact (hx q hq).2)]
  simp only [expand_ok (.scalar 0) n trivial, zipWith_map_map, Except.ok.injEq]
  apply List.map_congr_left
  intro i hi
  have hi' : i < n := by simpa using hi
  have hm : (ensMean n members).getD i 0 = average (atPoint members i) := by
    unfold ensMean average atPoint
    rw [List.getD_eq_getElem?_getD, List.getElem?_map, List.getElem?_range hi']
    simp
  have hs : ∀ l : List PredCube, (l.map fun q => valueAt (.field bs) i * q.data.getD i 0).sum =
      bs.getD i 0 * (l.map fun q => q.data.getD i 0).sum := by
    intro l
    induction l with
    | nil => simp
    | cons q l ih => simp only [List.map_cons, List.sum_cons, ih]; simp only [valueAt]; ring
  rw [hs]
  simp only [preds, List.map_cons, List.sum_cons, hm, valueAt]
  ring

example (x1 x2 x3 : ℝ) : locationFromMean "t" 3 [[x1, x2, x3]] [⟨"t", [1, 2, 3]⟩, ⟨"t", [4, 5, 6]⟩] (.scalar 0)
    ([7, 8, 9].map fun b => ("t", .scalar b)) = .ok ((List.range 3).map fun i =>
      ([7, 8, 9] : List ℝ).getD i 0 * (average (atPoint [[x1, x2, x3]] i) +
        (([⟨"t", [1, 2, 3]⟩, ⟨"t", [4, 5, 6]⟩] : List PredCube).map fun q => q.data.getD i 0).sum)) :=
  C124_same_names_refuted "t" 3 (by norm_num) _ _ (by simp) _ rfl rfl

/-! ## C130 -/

/-- C130: a forecast with a percentile coordinate is a percentile forecast whatever its name; otherwise its name decides. -/
theorem C130_input_type (perc : Bool) (name : String) :
    (inputType perc name = .percentiles ↔ perc = true) ∧
    (inputType perc name = .probabilities ↔ perc = false ∧ "probability_of".isPrefixOf name = true) ∧
    (inputType perc name = .realizations ↔ perc = false ∧ "probability_of".isPrefixOf name = false) := by
  unfold inputType
  cases perc <;> cases "probability_of".isPrefixOf name <;> simp

/-- C130: a negative scale at a point that counts is refused whenever no point that counts has the scale zero, however many points
are masked. -/
theorem C130_negative_scale (d : EmosDist) (loc scale : List (Option ℝ)) (ps : List ℝ) (p : ℝ) (hp : p ∈ ps) (i : ℕ) (m s : ℝ)
    (hm : loc[i]? = some (some m)) (hs : scale[i]? = some (some s)) (hneg : s < 0) (hz : ∀ x, some x ∈ scale → x ≠ 0) :
    ∃ e, toPercentiles d loc scale ps = .error e := by
  have hz' : (filledOne scale).any (fun s => decide (s = 0)) = false := by
    rw [List.any_eq_false]
    intro x hx
    obtain ⟨o, ho, rfl⟩ := List.mem_map.1 hx
    cases o with
    | none => simp
    | some v => simpa using hz v ho
  have hrow : checkedRow d (filledOne loc) (filledOne scale) p = .error .valueError := by
    unfold checkedRow percentileRow
    simp only [hz', Bool.false_eq_true, if_false]
    rw [if_pos]
    rw [List.any_eq_true]
    refine ⟨none, ?_, rfl⟩
    rw [List.mem_iff_getElem?]
    refine ⟨i, ?_⟩
    rw [List.getElem?_zipWith]
    unfold filledOne
    rw [List.getElem?_map, List.getElem?_map, hm, hs]
    simp only [Option.map_some, Option.getD_some, frozenPpf]
    rw [if_neg (fun h => absurd h.1 (not_lt.mpr hneg.le))]
  have hall : ∀ l : List ℝ, p ∈ l → ∃ e, l.mapM (checkedRow d (filledOne loc) (filledOne scale)) = .error e := by
    intro l hl
    induction l with
    | nil => simp at hl
    | cons x l ih =>
      rw [List.mapM_cons]
      rcases List.mem_cons.1 hl with rfl | hl
      · rw [hrow]; exact ⟨_, rfl⟩
      · obtain ⟨e, he⟩ := ih hl
        cases hx : checkedRow d (filledOne loc) (filledOne scale) x with
        | error e' => exact ⟨e', rfl⟩
        | ok v => rw [he]; exact ⟨e, rfl⟩
  obtain ⟨e, he⟩ := hall ps hp
  unfold toPercentiles
  rw [he]
  exact ⟨e, rfl⟩

example : ∃ e, toPercentiles .norm [none, some 1] [none, some (-1)] [50] = .error e :=
  C130_negative_scale _ _ _ _ 50 (by simp) 1 1 (-1) rfl rfl (by norm_num) (by simp)

/-! ## C174 -/

/-- C174: a list of units must be as long as the list of constraints. -/
theorem C174_units_count (rd : Readers) (constraints us : List String) (r : Constraints × Bool)
    (h : parseConstraints rd constraints (some us) = .ok r) : us.length = constraints.length := by
  unfold parseConstraints at h
  simp only at h
  by_cases he : us.length ≠ constraints.length
  · rw [if_pos he] at h; exact nomatch h
  · exact not_not.1 he

/-- C174: the unit "None", however it is capitalised, is no unit; any other is recorded, without blanks around it, for the
coordinate of its constraint and for no other. -/
theorem C174_unit (rd : Readers) (c u : String) (acc : Constraints) {r : Constraints}
    (h : readPair rd c none acc = .ok r) :
    readPair rd c (some u) acc = .ok (if u.toLower = "none" then r else
      { r with units := keySet r.units (String.ofList (stripBlanks ((splitEq c.toList).map (·.1) |>.getD []))) (String.ofList (stripBlanks u.toList)) }) := by
  unfold readPair at h ⊢
  cases hs : splitEq c.toList with
  | none => rw [hs] at h; exact nomatch h
  | some kv =>
    obtain ⟨k, v⟩ := kv
    rw [hs] at h
    simp only at h ⊢
    cases hr : readConstraint rd (String.ofList (stripBlanks k)) (String.ofList (stripBlanks v)) acc with
    | error e => rw [hr] at h; exact nomatch h
    | ok a =>
      rw [hr] at h
      simp only at h ⊢
      injection h with h
      subst h
      by_cases hu : u.toLower = "none"
      · rw [if_pos hu, if_pos hu]
      · rw [if_neg hu, if_neg hu]; rfl

/-- C174: the constraints are read in the order they are given, each with its own unit; the first that cannot be read is an
error. -/
theorem C174_read_in_order (rd : Readers) (a b : List (String × Option String)) (acc : Constraints) :
    readPairs rd (a ++ b) acc = (readPairs rd a acc >>= readPairs rd b) ∧
    (∀ p, readPairs rd [p] acc = readPair rd p.1 p.2 acc) ∧ readPairs rd [] acc = .ok acc := by
  refine ⟨?_, ?_, rfl⟩
  · induction a generalizing acc with
    | nil => rfl
    | cons p a ih =>
      rw [List.cons_append, readPairs, readPairs]
      cases readPair rd p.1 p.2 acc with
      | error e => rfl
      | ok r => exact ih r
  · intro p
    rw [readPairs]
    cases readPair rd p.1 p.2 acc <;> rfl

example : (readPair exReaders "height = 0.01" (some "NONE") ⟨[], [], none, [], []⟩).toOption.map (·.units) = some [] ∧
    (readPair exReaders "height = 0.01" (some " km") ⟨[], [], none, [], []⟩).toOption.map (·.units) = some [("height", "km")] := by
  decide +kernel

/-! ## C153 -/

/-- The size (mm) given for a size, by the height (m) of the wet bulb freezing level; each class of sizes by its lower end. -/
def Spec.reducedClasses : List (ℝ × ℝ × List (ℤ × ℤ)) :=
  [(3350, 3550, [(5, 5), (10, 10), (20, 15), (25, 25), (50, 50), (75, 65), (100, 75)]),
   (3550, 3750, [(10, 5), (20, 10), (25, 20), (50, 20), (75, 25), (100, 30)]),
   (3750, 3950, [(20, 5), (25, 10), (50, 15), (75, 15), (100, 15)]),
   (3950, 4150, [(25, 5), (50, 10), (75, 10), (100, 10)]),
   (4150, 4400, [(75, 5), (100, 5)])]

/-- The value of the last class whose lower end is not above the size, 0 below all classes. -/
def Spec.classOf (l : List (ℤ × ℤ)) (size : ℤ) : ℤ := ((l.filter fun c => decide (c.1 ≤ size)).getLast?.map (·.2)).getD 0

theorem bisect_heights_between {w : ℝ} {lo hi : ℤ} {k : ℕ} (h1 : (lo : ℝ) ≤ w) (h2 : w < hi)
    (hk : ∀ x ∈ hailHeights, x ≤ lo ∨ hi ≤ x) (hl : (hailHeights.filter fun x => decide (x ≤ lo)).length = k) :
    bisectRight hailHeights w = k := by
  rw [← hl]
  unfold bisectRight
  congr 1
  apply List.filter_congr
  intro x hx
  rw [decide_eq_decide]
  constructor
  · intro h
    rcases hk x hx with h' | h'
    · exact h'
    · have : (hi : ℝ) ≤ x := by exact_mod_cast h'
      linarith
  · intro h
    have : (x : ℝ) ≤ lo := by exact_mod_cast h
    linarith

theorem reduced_rows : ∀ s ∈ List.range 121,
    tableAt hailUpdated 0 (hailGroups.filter fun k => decide (k ≤ (s : ℤ))).length =
      Spec.classOf [(5, 5), (10, 10), (20, 15), (25, 25), (50, 50), (75, 65), (100, 75)] s ∧
    tableAt hailUpdated 1 (hailGroups.filter fun k => decide (k ≤ (s : ℤ))).length =
      Spec.classOf [(10, 5), (20, 10), (25, 20), (50, 20), (75, 25), (100, 30)] s ∧
    tableAt hailUpdated 2 (hailGroups.filter fun k => decide (k ≤ (s : ℤ))).length =
      Spec.classOf [(20, 5), (25, 10), (50, 15), (75, 15), (100, 15)] s ∧
    tableAt hailUpdated 3 (hailGroups.filter fun k => decide (k ≤ (s : ℤ))).length =
      Spec.classOf [(25, 5), (50, 10), (75, 10), (100, 10)] s ∧
    tableAt hailUpdated 4 (hailGroups.filter fun k => decide (k ≤ (s : ℤ))).length =
      Spec.classOf [(75, 5), (100, 5)] s := by decide +kernel

/-- C153: between 3350 m and 4400 m the size found is replaced by the size of its class for that height. -/
theorem C153_reduced (v h : Option ℝ) (w : ℝ) (c : ℝ × ℝ × List (ℤ × ℤ)) (hc : c ∈ Spec.reducedClasses)
    (h1 : c.1 ≤ w) (h2 : w < c.2.1) :
    hailSizeMm v h (some w) = Spec.classOf c.2.2 (hailSizeMm v h none) := by
  obtain ⟨s, hs, hsr⟩ : ∃ s : ℕ, hailSizeMm v h none = (s : ℤ) ∧ s < 121 := by
    have := C153_range v h none
    exact ⟨(hailSizeMm v h none).toNat, by omega, by omega⟩
  have hw : w ≥ 3300 := by
    simp only [Spec.reducedClasses, List.mem_cons, List.not_mem_nil, or_false] at hc
    rcases hc with rfl | rfl | rfl | rfl | rfl <;> simp only at h1 <;> linarith
  have hval : hailSizeMm v h (some w) = updatedHail (s : ℤ) w := by
    rw [← hs]
    unfold hailSizeMm
    dsimp only
    rw [if_pos hw]
  have hr := reduced_rows s (List.mem_range.mpr hsr)
  rw [hval, hs]
  unfold updatedHail
  rw [bisect_int]
  simp only [Spec.reducedClasses, List.mem_cons, List.not_mem_nil, or_false] at hc
  rcases hc with rfl | rfl | rfl | rfl | rfl <;> simp only at h1 h2
  · rw [bisect_heights_between (lo := 3350) (hi := 3550) (k := 1) (by exact_mod_cast h1) (by exact_mod_cast h2) (by decide) (by decide)]
    exact hr.1
  · rw [bisect_heights_between (lo := 3550) (hi := 3750) (k := 2) (by exact_mod_cast h1) (by exact_mod_cast h2) (by decide) (by decide)]
    exact hr.2.1
  · rw [bisect_heights_between (lo := 3750) (hi := 3950) (k := 3) (by exact_mod_cast h1) (by exact_mod_cast h2) (by decide) (by decide)]
    exact hr.2.2.1
  · rw [bisect_heights_between (lo := 3950) (hi := 4150) (k := 4) (by exact_mod_cast h1) (by exact_mod_cast h2) (by decide) (by decide)]
    exact hr.2.2.2.1
  · rw [bisect_heights_between (lo := 4150) (hi := 4400) (k := 5) (by exact_mod_cast h1) (by exact_mod_cast h2) (by decide) (by decide)]
    exact hr.2.2.2.2

example : Spec.classOf [(5, 5), (10, 10), (20, 15), (25, 25), (50, 50), (75, 65), (100, 75)] 15 = 10 := by decide

/-! ## C154 -/

/-- C154: the parcel leaves the cloud base saturated, rises dry-adiabatically to the level and is then warmed by the heat of
the moisture that condenses; what is left is exactly saturated at the level's pressure unless nothing condenses. -/
theorem C154_parcel (solve : (ℝ → ℝ) → ℝ → ℝ) (cclT cclP p : ℝ)
    (ht : dryTemperature cclT cclP p < 1341)
    (hroot : let f := fun qs => qsatDifferential qs (dryTemperature cclT cclP p) (saturatedHumidity cclT cclP) p
      f (solve f (saturatedHumidity cclT cclP)) = 0) :
    ∃ q', q' ≤ saturatedHumidity cclT cclP ∧
      parcelT solve cclT cclP p = dryTemperature cclT cclP p +
        latentHeat (dryTemperature cclT cclP p) / 1005 * (saturatedHumidity cclT cclP - q') ∧
      (q' = saturatedHumidity (parcelT solve cclT cclP p) p ∨ parcelT solve cclT cclP p = dryTemperature cclT cclP p) := by
  have hb := C146_budget solve (q := saturatedHumidity cclT cclP) (p := p) ht
  refine ⟨(adjustLatent solve (dryTemperature cclT cclP p) (saturatedHumidity cclT cclP) p).2, hb.2.2, ?_, ?_⟩
  · unfold parcelT; linarith [hb.2.1]
  · by_cases hc : (adjustLatent solve (dryTemperature cclT cclP p) (saturatedHumidity cclT cclP) p).1 ≠ dryTemperature cclT cclP p
    · exact Or.inl (C146_saturated_after solve hroot (Or.inl hc))
    · exact Or.inr (not_not.1 hc)

/-! ## C231 -/

/-- The plugin itself refuses limits that are not in order and negative radii and heights, whatever it is given. -/
theorem C231_limits (c : LapseCfg) (hc : ¬ (c.minRate ≤ c.maxRate ∧ 0 ≤ c.radius ∧ 0 ≤ c.maxHeightDiff)) (t : UnitGrid) (y x : String) (o : UnitGrid)
    (mask : DimCube Bool) (size : String → ℕ) : lapseProcess c t y x o mask size = .error .valueError := by
  have h := (C79_config c).2 fun h => hc ((C79_config c).1.1 h)
  unfold lapseProcess
  rw [h]
  rfl

/-- Such limits. -/
example : ¬ ((1 : ℚ) ≤ 0 ∧ (0 : ℤ) ≤ 1 ∧ (0 : ℚ) ≤ 1) := by norm_num

end Improver
