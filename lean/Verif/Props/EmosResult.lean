import Verif.Props.EmosOutput
import Mathlib.Data.List.Dedup

/-!
C128 (calibrated percentiles), C129 (calibrated probabilities), C130 (sea points keep the raw
forecast; arguments of ApplyEMOS).
-/

open MeasureTheory ProbabilityTheory Set

namespace Improver
open Spec

/-! ### C128: percentiles -/

/-- The value at one point, for scale at least zero. -/
noncomputable def pctAt (d : EmosDist) (m s p : ℝ) : ℝ := (frozenPpf d m s (p / 100)).getD m

theorem frozenPpf_zero (d : EmosDist) (m q : ℝ) : frozenPpf d m 0 q = none := by
  simp [frozenPpf]

theorem percentileRow_eq (d : EmosDist) (hd : proper d) (loc scale : List ℝ)
    (hs : ∀ s ∈ scale, 0 ≤ s) (p : ℝ) (h0 : 0 < p) (h1 : p < 100) :
    percentileRow d loc scale p = List.zipWith (fun m s => some (pctAt d m s p)) loc scale := by
  unfold percentileRow
  by_cases hz : scale.any (fun s => decide (s = 0)) = true
  · simp only [hz, if_true]
    clear hz hs
    induction loc generalizing scale with
    | nil => simp
    | cons m ms ih =>
      cases scale with
      | nil => simp
      | cons s ss => simp [ih ss, pctAt]
  · simp only [hz, Bool.false_eq_true, if_false]
    have hpos : ∀ s ∈ scale, 0 < s := by
      intro s hm
      refine lt_of_le_of_ne (hs s hm) fun h => hz ?_
      rw [List.any_eq_true]
      exact ⟨s, hm, by simp [h.symm]⟩
    clear hz hs
    induction loc generalizing scale with
    | nil => simp
    | cons m ms ih =>
      cases scale with
      | nil => simp
      | cons s ss =>
        obtain ⟨x, hx, _⟩ := frozenPpf_eq m s (hpos s (List.mem_cons_self ..)) d hd (p / 100)
          (by linarith) (by linarith)
        simp only [List.zipWith_cons_cons, pctAt, hx, Option.getD_some]
        rw [ih ss fun s hm => hpos s (List.mem_cons_of_mem _ hm)]
        simp [pctAt]

theorem checkedRow_eq (d : EmosDist) (hd : proper d) (loc scale : List ℝ)
    (hs : ∀ s ∈ scale, 0 ≤ s) (p : ℝ) (h0 : 0 < p) (h1 : p < 100) :
    checkedRow d loc scale p = .ok (List.zipWith (fun m s => OutVal.val (pctAt d m s p)) loc scale) := by
  unfold checkedRow
  rw [percentileRow_eq d hd loc scale hs p h0 h1, if_neg]
  · rw [List.map_zipWith]; rfl
  · rw [List.any_eq_true]
    rintro ⟨x, hx, hn⟩
    rw [List.mem_iff_getElem?] at hx
    obtain ⟨i, hi⟩ := hx
    rw [List.getElem?_zipWith] at hi
    split at hi
    · simp only [Option.some.injEq] at hi
      rw [← hi] at hn; simp at hn
    · simp at hi

/-- Value at a point: masked where a parameter is masked. -/
noncomputable def cellOf (f : ℝ → ℝ → OutVal) (l s : Option ℝ) : OutVal :=
  match l, s with
  | some m, some s => f m s
  | _, _ => .masked

theorem masked_zip (f : ℝ → ℝ → OutVal) (loc scale : List (Option ℝ)) :
    maskedWhere (paramMask loc scale) (List.zipWith f (filledOne loc) (filledOne scale))
      = List.zipWith (cellOf f) loc scale := by
  induction loc generalizing scale with
  | nil => simp [maskedWhere, paramMask, filledOne]
  | cons l ls ih =>
    cases scale with
    | nil => simp [maskedWhere, paramMask, filledOne]
    | cons s ss =>
      have h := ih ss
      unfold maskedWhere paramMask filledOne at h ⊢
      simp only [List.zipWith_cons_cons, List.map_cons, h]
      cases l <;> cases s <;> simp [cellOf]

theorem toPercentiles_eq (d : EmosDist) (hd : proper d) (loc scale : List (Option ℝ))
    (hs : ∀ s, some s ∈ scale → 0 ≤ s) (ps : List ℝ) (hp : ∀ p ∈ ps, 0 < p ∧ p < 100) :
    toPercentiles d loc scale ps =
      .ok (ps.map fun p => List.zipWith (cellOf fun m s => OutVal.val (pctAt d m s p)) loc scale) := by
  have hs' : ∀ s ∈ filledOne scale, 0 ≤ s := by
    intro s hm
    obtain ⟨x, hx, rfl⟩ := List.mem_map.1 hm
    cases x with
    | none => simp
    | some v => exact hs v hx
  have hrows : ∀ l : List ℝ, (∀ p ∈ l, 0 < p ∧ p < 100) →
      l.mapM (checkedRow d (filledOne loc) (filledOne scale)) = .ok (l.map fun p =>
        List.zipWith (fun m s => OutVal.val (pctAt d m s p)) (filledOne loc) (filledOne scale)) := by
    intro l hl
    induction l with
    | nil => rfl
    | cons p t ih =>
      rw [List.mapM_cons, checkedRow_eq d hd _ _ hs' p (hl p (List.mem_cons_self ..)).1
        (hl p (List.mem_cons_self ..)).2, ih fun q hq => hl q (List.mem_cons_of_mem _ hq)]
      rfl
  unfold toPercentiles
  rw [hrows ps hp]
  simp only [bind, Except.bind, List.map_map, Function.comp_def, masked_zip]

/-- C128: for every requested percentile and every point with spread, the value is in the support
of the calibrated distribution of the point and is not exceeded with the requested probability;
without spread it is the location; masked points stay masked. -/
theorem C128_percentiles (d : EmosDist) (hd : proper d) (loc scale : List (Option ℝ))
    (hs : ∀ s, some s ∈ scale → 0 ≤ s) (ps : List ℝ) (hp : ∀ p ∈ ps, 0 < p ∧ p < 100) :
    ∃ rows, toPercentiles d loc scale ps = .ok rows ∧ rows.length = ps.length ∧
      ∀ (k : ℕ) p row, ps[k]? = some p → rows[k]? = some row →
        ∀ (i : ℕ) l s, loc[i]? = some l → scale[i]? = some s →
          match l, s with
          | some m, some s =>
            (0 < s → ∃ x, row[i]? = some (OutVal.val x) ∧ x ∈ support d ∧
              cdf (law d m s) x = p / 100) ∧
            (s = 0 → row[i]? = some (OutVal.val m))
          | _, _ => row[i]? = some OutVal.masked := by
  refine ⟨_, toPercentiles_eq d hd loc scale hs ps hp, by simp, ?_⟩
  intro k p row hk hrow i l s hl hsc
  rw [List.getElem?_map, hk] at hrow
  obtain rfl := Option.some.inj hrow
  have hpp := hp p (List.mem_of_getElem? hk)
  have hcell : (List.zipWith (cellOf fun m s => OutVal.val (pctAt d m s p)) loc scale)[i]?
      = some (cellOf (fun m s => OutVal.val (pctAt d m s p)) l s) := by
    rw [List.getElem?_zipWith, hl, hsc]
  cases l with
  | none => exact hcell
  | some m =>
    cases s with
    | none => exact hcell
    | some s =>
      refine ⟨fun h => ?_, fun h => ?_⟩
      · obtain ⟨x, hx, h1, h2⟩ := frozenPpf_eq m s h d hd (p / 100) (by linarith) (by linarith)
        refine ⟨x, ?_, h1, h2⟩
        rw [hcell]; simp [cellOf, pctAt, hx]
      · rw [hcell]; simp [cellOf, pctAt, h, frozenPpf_zero]

/-- C128: percentiles increase. -/
theorem C128_increasing (d : EmosDist) (m s p q x y : ℝ)
    (hx : cdf (law d m s) x = p / 100) (hy : cdf (law d m s) y = q / 100) (h : p < q) : x < y := by
  by_contra hcon
  have := monotone_cdf (law d m s) (not_lt.1 hcon)
  rw [hx, hy] at this
  linarith

/-- Non-vacuity: a truncated and a normal distribution, with masked and spreadless points. -/
example : ∃ rows, toPercentiles (.truncnorm (some 0) none) [some 1, none, some 3] [some 2, none, some 0]
    [10, 50] = .ok rows ∧ rows.length = 2 := by
  obtain ⟨rows, h, hl, _⟩ := C128_percentiles (.truncnorm (some 0) none) trivial
    [some 1, none, some 3] [some 2, none, some 0]
    (by intro s hs; simp at hs; rcases hs with rfl | rfl <;> norm_num) [10, 50]
    (by intro p hp; simp at hp; rcases hp with rfl | rfl <;> norm_num)
  exact ⟨rows, h, hl⟩

/-- Finding: a spreadless point with a negative location gets a negative percentile although the
distribution is truncated at zero. -/
theorem C128_spreadless_refuted (m : ℝ) (hm : m < 0) :
    toPercentiles (.truncnorm (some 0) none) [some m] [some 0] [50] = .ok [[.val m]] ∧
      m ∉ support (.truncnorm (some 0) none) := by
  constructor
  · rw [toPercentiles_eq (.truncnorm (some 0) none) trivial _ _ (by simp) _ (by simp; norm_num)]
    simp [cellOf, pctAt, frozenPpf_zero]
  · simp [support, hm]

/-! ### C129: probabilities -/

theorem convert_id (l : List (Option ℝ)) : convertParams 1 0 l = l := by
  unfold convertParams
  simp

/-- Value at one point. -/
noncomputable def probAt (d : EmosDist) (above : Bool) (m s t : ℝ) : OutVal :=
  outOf (if above then frozenSf d m s t else frozenCdf d m s t)

theorem toProbabilities_eq (d : EmosDist) (above : Bool) (f o : ℝ) (loc scale : List (Option ℝ))
    (ts : List ℝ) : toProbabilities d above f o loc scale ts =
      ts.map fun t => List.zipWith (cellOf fun m s => probAt d above m s t)
        (convertParams f o loc) (convertParams f o scale) := by
  unfold toProbabilities probabilityRow
  simp only [masked_zip, probAt]

/-- C129: when parameters and thresholds have the same units, each value is the probability,
under the calibrated distribution of the point, of exceeding (or not exceeding) the threshold. -/
theorem C129_probabilities (d : EmosDist) (hd : proper d) (above : Bool)
    (loc scale : List (Option ℝ)) (ts : List ℝ) (k : ℕ) (t : ℝ) (i : ℕ) (m s : ℝ)
    (hk : ts[k]? = some t) (hl : loc[i]? = some (some m)) (hsc : scale[i]? = some (some s))
    (hs : 0 < s) :
    ((toProbabilities d above 1 0 loc scale ts)[k]?.bind (·[i]?)) =
      some (OutVal.val ((law d m s).real (if above then Ioi t else Iic t))) := by
  rw [toProbabilities_eq, convert_id, convert_id, List.getElem?_map, hk]
  simp only [Option.map_some, Option.bind_some, List.getElem?_zipWith, hl, hsc, cellOf, probAt]
  cases above with
  | true => simp [frozenSf_eq m s hs d hd, outOf]
  | false =>
    haveI := law_prob m s hs d hd
    simp [frozenCdf_eq m s hs d hd, outOf, cdf_eq_real]

/-- C129: these values are probabilities, decrease with the threshold (for exceeding it), and the
two directions add up to one. -/
theorem C129_valid (d : EmosDist) (hd : proper d) (m s : ℝ) (hs : 0 < s) (t u : ℝ) (h : t ≤ u) :
    0 ≤ (law d m s).real (Ioi t) ∧ (law d m s).real (Ioi t) ≤ 1 ∧
    (law d m s).real (Ioi u) ≤ (law d m s).real (Ioi t) ∧
    (law d m s).real (Ioi t) + (law d m s).real (Iic t) = 1 := by
  haveI := law_prob m s hs d hd
  refine ⟨measureReal_nonneg, measureReal_le_one, measureReal_mono (Ioi_subset_Ioi h), ?_⟩
  rw [real_Ioi m s hs d hd, cdf_eq_real]; ring

/-- C129: masked points stay masked. -/
theorem C129_masked (d : EmosDist) (above : Bool) (f o : ℝ)
    (loc scale : List (Option ℝ)) (ts : List ℝ) (k : ℕ) (t : ℝ) (i : ℕ) (l s : Option ℝ)
    (hk : ts[k]? = some t) (hl : loc[i]? = some l) (hsc : scale[i]? = some s)
    (hn : l = none ∨ s = none) :
    ((toProbabilities d above f o loc scale ts)[k]?.bind (·[i]?)) = some OutVal.masked := by
  rw [toProbabilities_eq, List.getElem?_map, hk]
  simp only [Option.map_some, Option.bind_some, List.getElem?_zipWith, convertParams,
    List.getElem?_map, hl, hsc]
  rcases hn with rfl | rfl
  · simp [cellOf]
  · cases l <;> simp [cellOf]

/-- C129: a change of units by a factor (metres to millimetres, say) gives the probability that
the value, expressed in the units of the threshold, exceeds it. -/
theorem C129_units_factor (above : Bool) (f : ℝ) (hf : 0 < f)
    (loc scale : List (Option ℝ)) (ts : List ℝ) (k : ℕ) (t : ℝ) (i : ℕ) (m s : ℝ)
    (hk : ts[k]? = some t) (hl : loc[i]? = some (some m)) (hsc : scale[i]? = some (some s))
    (hs : 0 < s) :
    ((toProbabilities .norm above f 0 loc scale ts)[k]?.bind (·[i]?)) =
      some (OutVal.val ((law .norm m s).real (if above then {x | t < f * x} else {x | f * x ≤ t}))) := by
  rw [toProbabilities_eq, List.getElem?_map, hk]
  simp only [Option.map_some, Option.bind_some, List.getElem?_zipWith, convertParams,
    List.getElem?_map, hl, hsc, cellOf, probAt, add_zero]
  have hfs : 0 < f * s := mul_pos hf hs
  have hc : cdf (law .norm (f * m) (f * s)) t = cdf (law .norm m s) (t / f) := by
    simp only [law]
    rw [cdf_gaussian _ _ _ hfs, cdf_gaussian _ _ _ hs]
    congr 1
    field_simp
  have e1 : {x : ℝ | t < f * x} = Ioi (t / f) := by
    ext x; simp only [mem_setOf_eq, mem_Ioi]; rw [div_lt_iff₀ hf, mul_comm]
  have e2 : {x : ℝ | f * x ≤ t} = Iic (t / f) := by
    ext x; simp only [mem_setOf_eq, mem_Iic]; rw [le_div_iff₀ hf, mul_comm]
  cases above with
  | true =>
    simp only [if_true, e1, real_Ioi m s hs .norm trivial]
    rw [frozenSf_eq _ _ hfs .norm trivial, real_Ioi _ _ hfs .norm trivial, hc]
    rfl
  | false =>
    haveI := law_prob m s hs .norm trivial
    simp only [Bool.false_eq_true, if_false, e2]
    rw [frozenCdf_eq _ _ hfs .norm trivial, hc, cdf_eq_real]
    rfl

/-- Finding: the scale is converted like a temperature, so for a forecast in kelvin and
thresholds in celsius every point with a standard deviation up to 273.15 K gets NaN. -/
theorem C129_celsius_refuted (d : EmosDist) (above : Bool)
    (loc scale : List (Option ℝ)) (ts : List ℝ) (k : ℕ) (t : ℝ) (i : ℕ) (m s : ℝ)
    (hk : ts[k]? = some t) (hl : loc[i]? = some (some m)) (hsc : scale[i]? = some (some s))
    (hs : s ≤ 273.15) :
    ((toProbabilities d above 1 (-273.15) loc scale ts)[k]?.bind (·[i]?)) = some OutVal.nan := by
  rw [toProbabilities_eq, List.getElem?_map, hk]
  have h : ¬ 0 < 1 * s + -273.15 := by norm_num at *; linarith
  simp only [Option.map_some, Option.bind_some, List.getElem?_zipWith, convertParams,
    List.getElem?_map, hl, hsc, cellOf, probAt, frozenSf, frozenCdf, if_neg h, ite_self, outOf]

/-- Finding: where the ensemble has no spread (and `gamma` is 0) the probabilities are NaN, although
percentiles are given there. -/
theorem C129_spreadless_refuted (d : EmosDist) (above : Bool) (m t : ℝ) :
    toProbabilities d above 1 0 [some m] [some 0] [t] = [[.nan]] := by
  rw [toProbabilities_eq, convert_id, convert_id]
  simp [cellOf, probAt, frozenSf, frozenCdf, outOf]

/-- Non-vacuity of C129: at a threshold equal to the location the probability is one half. -/
example (m : ℝ) : toProbabilities .norm true 1 0 [some m] [some 1] [m] = [[.val (1/2)]] := by
  have h : normCdf 0 = 1 / 2 := by
    have := normCdf_neg 0
    rw [neg_zero] at this
    linarith
  rw [toProbabilities_eq, convert_id, convert_id]
  simp [cellOf, probAt, frozenSf, outOf, h]
  norm_num

/-! ### C130: land and sea -/

theorem maskSea_get (mask : List Bool) (l : List ℝ) (i : ℕ) (b : Bool) (x : ℝ)
    (hb : mask[i]? = some b) (hx : l[i]? = some x) :
    (maskSea (some mask) l)[i]? = some (if b then some x else none) := by
  simp [maskSea, List.getElem?_zipWith, hb, hx]

theorem mergeRow_get (cal : List OutVal) (raw : List ℝ) (i : ℕ) (c : OutVal) (r : ℝ)
    (hc : cal[i]? = some c) (hr : raw[i]? = some r) :
    (mergeRow cal raw)[i]? = some (c.orRaw r) := by
  simp [mergeRow, List.getElem?_zipWith, hc, hr]

theorem mergeRow_none (cal : List OutVal) (raw : List ℝ) (hl : cal.length = raw.length)
    (h : ∀ v ∈ cal, v ≠ .masked) : mergeRow cal raw = cal := by
  unfold mergeRow
  induction cal generalizing raw with
  | nil => simp
  | cons c cs ih =>
    cases raw with
    | nil => simp at hl
    | cons r rs =>
      simp only [List.zipWith_cons_cons, ih rs (by simpa using hl)
        fun v hv => h v (List.mem_cons_of_mem _ hv)]
      have := h c (List.mem_cons_self ..)
      cases c <;> simp [OutVal.orRaw] at this ⊢

/-- Merging, whether or not anything is masked. -/
theorem mergeLandSea_eq (cal : List (List OutVal)) (raw : List (List ℝ))
    (hl : cal.length = raw.length)
    (hr : ∀ (k : ℕ) c r, cal[k]? = some c → raw[k]? = some r → c.length = r.length) :
    mergeLandSea true cal raw = .ok (List.zipWith mergeRow cal raw) := by
  unfold mergeLandSea
  rw [if_neg (by simp)]
  by_cases h : cal.any (fun r => r.any OutVal.isMasked) = true
  · rw [if_pos h]
  · rw [if_neg h]
    congr 1
    symm
    refine List.ext_getElem? fun k => ?_
    rw [List.getElem?_zipWith]
    rcases hc : cal[k]? with _ | c
    · simp
    · rcases hrr : raw[k]? with _ | r
      · rw [List.getElem?_eq_none_iff] at hrr
        obtain ⟨hk, _⟩ := List.getElem?_eq_some_iff.1 hc
        omega
      · simp only [Option.some.injEq]
        refine mergeRow_none c r (hr k c r hc hrr) fun v hv hm => h ?_
        rw [List.any_eq_true]
        refine ⟨c, List.mem_of_getElem? hc, ?_⟩
        rw [List.any_eq_true]
        exact ⟨v, hv, by rw [hm]; rfl⟩

/-- The general statement: `g t m s` is the calibrated value. -/
theorem merged_get {τ : Type} (g : τ → ℝ → ℝ → OutVal) (hg : ∀ t m s, g t m s ≠ .masked)
    (n : ℕ) (loc scale : List ℝ) (mask : List Bool) (ts : List τ) (raw : List (List ℝ))
    (hloc : loc.length = n) (hsc : scale.length = n) (hm : mask.length = n)
    (hraw : raw.length = ts.length) (hrow : ∀ r ∈ raw, r.length = n) :
    ∃ rows, mergeLandSea true (ts.map fun t => List.zipWith (cellOf (g t))
        (maskSea (some mask) loc) (maskSea (some mask) scale)) raw = .ok rows ∧
      ∀ (k i : ℕ) t r (m s : ℝ) b v, ts[k]? = some t → raw[k]? = some r → loc[i]? = some m →
        scale[i]? = some s → mask[i]? = some b → r[i]? = some v →
        (rows[k]?.bind (·[i]?)) = some (if b then g t m s else .val v) := by
  refine ⟨_, mergeLandSea_eq _ _ (by simp [hraw]) ?_, ?_⟩
  · intro k c r hc hr
    rw [List.getElem?_map] at hc
    obtain ⟨t, _, rfl⟩ := Option.map_eq_some_iff.1 hc
    rw [hrow r (List.mem_of_getElem? hr)]
    simp [maskSea, hloc, hsc, hm]
  · intro k i t r m s b v ht hr hl hs hb hv
    rw [List.getElem?_zipWith, List.getElem?_map, ht, hr]
    simp only [Option.map_some, Option.bind_some]
    have hc : (List.zipWith (cellOf (g t)) (maskSea (some mask) loc) (maskSea (some mask) scale))[i]?
        = some (if b then g t m s else .masked) := by
      rw [List.getElem?_zipWith, maskSea_get mask loc i b m hb hl, maskSea_get mask scale i b s hb hs]
      cases b <;> simp [cellOf]
    rw [mergeRow_get _ _ i _ v hc hv]
    cases b with
    | false => simp [OutVal.orRaw]
    | true =>
      simp only [if_true]
      have := hg t m s
      cases hh : g t m s <;> simp [hh, OutVal.orRaw] at this ⊢

/-- C130: with a land-sea mask, a percentile forecast keeps its values at sea points and gets over
land exactly the values it would get without the mask. -/
theorem C130_percentiles (d : EmosDist) (hd : proper d) (n : ℕ) (loc scale : List ℝ)
    (mask : List Bool) (ps : List ℝ) (raw : List (List ℝ)) (hloc : loc.length = n)
    (hsc : scale.length = n) (hm : mask.length = n) (hraw : raw.length = ps.length)
    (hrow : ∀ r ∈ raw, r.length = n) (hs : ∀ s ∈ scale, 0 ≤ s) (hp : ∀ p ∈ ps, 0 < p ∧ p < 100) :
    ∃ cal rows, applyPercentiles d loc scale none ps raw none = .ok cal ∧
      applyPercentiles d loc scale (some mask) ps raw none = .ok rows ∧
      ∀ (k i : ℕ) b r v, mask[i]? = some b → raw[k]? = some r → r[i]? = some v →
        (rows[k]?.bind (·[i]?)) = if b then cal[k]?.bind (·[i]?) else some (OutVal.val v) := by
  have hA : toPercentiles d (maskSea none loc) (maskSea none scale) ps = .ok (ps.map fun p =>
      List.zipWith (cellOf fun m s => OutVal.val (pctAt d m s p)) (maskSea none loc) (maskSea none scale)) :=
    toPercentiles_eq d hd _ _ (fun s hs' => by
      simp only [maskSea, List.mem_map, Option.some.injEq, exists_eq_right] at hs'
      exact hs s hs') ps hp
  have hB := toPercentiles_eq d hd (maskSea (some mask) loc) (maskSea (some mask) scale)
    (fun s hs' => by
      simp only [maskSea] at hs'
      rw [List.mem_iff_getElem?] at hs'
      obtain ⟨i, hi⟩ := hs'
      rw [List.getElem?_zipWith] at hi
      split at hi
      · rename_i b x _ hx
        cases b with
        | false => simp at hi
        | true =>
          simp only [if_true, Option.some.injEq] at hi
          exact hi ▸ hs x (List.mem_of_getElem? hx)
      · simp at hi) ps hp
  obtain ⟨rows, hrows, hget⟩ := merged_get (fun p m s => OutVal.val (pctAt d m s p)) (by simp) n
    loc scale mask ps raw hloc hsc hm hraw hrow
  refine ⟨ps.map fun p => List.zipWith (cellOf fun m s => OutVal.val (pctAt d m s p))
    (maskSea none loc) (maskSea none scale), rows, ?_, ?_, ?_⟩
  · unfold applyPercentiles
    simp only [hA, bind, Except.bind]
  · unfold applyPercentiles
    simp only [hB, bind, Except.bind, decide_true]
    exact hrows
  · intro k i b r v hb hr hv
    have hi : i < n := by
      rw [← hm]; exact (List.getElem?_eq_some_iff.1 hb).1
    have hk : k < ps.length := by
      rw [← hraw]; exact (List.getElem?_eq_some_iff.1 hr).1
    rw [hget k i ps[k] r loc[i] scale[i] b v (List.getElem?_eq_getElem hk) hr
      (List.getElem?_eq_getElem (by omega)) (List.getElem?_eq_getElem (by omega)) hb hv]
    cases b with
    | false => simp
    | true =>
      simp [maskSea, List.getElem?_map, List.getElem?_eq_getElem hk, List.getElem?_zipWith,
        List.getElem?_eq_getElem (show i < loc.length by omega),
        List.getElem?_eq_getElem (show i < scale.length by omega), cellOf]

/-- C130: other percentiles than those of the forecast cannot be combined with a land-sea mask. -/
theorem C130_other_percentiles (d : EmosDist) (hd : proper d) (loc scale : List ℝ)
    (mask : List Bool) (ps qs : List ℝ) (raw : List (List ℝ)) (hne : qs ≠ []) (hq : qs ≠ ps)
    (hs : ∀ s ∈ scale, 0 ≤ s) (hp : ∀ p ∈ qs, 0 < p ∧ p < 100) :
    applyPercentiles d loc scale (some mask) ps raw (some qs) = .error .valueError := by
  obtain ⟨q, l, rfl⟩ := List.exists_cons_of_ne_nil hne
  unfold applyPercentiles
  simp only
  rw [toPercentiles_eq d hd _ _ (fun s hs' => by
      simp only [maskSea] at hs'
      rw [List.mem_iff_getElem?] at hs'
      obtain ⟨i, hi⟩ := hs'
      rw [List.getElem?_zipWith] at hi
      split at hi
      · rename_i b x _ hx
        cases b with
        | false => simp at hi
        | true =>
          simp only [if_true, Option.some.injEq] at hi
          exact hi ▸ hs x (List.mem_of_getElem? hx)
      · simp at hi) (q :: l) hp]
  simp [bind, Except.bind, mergeLandSea, hq]

/-- C130: the same for probability forecasts. -/
theorem C130_probabilities (d : EmosDist) (above : Bool) (f o : ℝ) (n : ℕ) (loc scale : List ℝ)
    (mask : List Bool) (ts : List ℝ) (raw : List (List ℝ)) (hloc : loc.length = n)
    (hsc : scale.length = n) (hm : mask.length = n) (hraw : raw.length = ts.length)
    (hrow : ∀ r ∈ raw, r.length = n) :
    ∃ cal rows, applyProbabilities d above f o loc scale none ts raw = .ok cal ∧
      applyProbabilities d above f o loc scale (some mask) ts raw = .ok rows ∧
      ∀ (k i : ℕ) b r v, mask[i]? = some b → raw[k]? = some r → r[i]? = some v →
        (rows[k]?.bind (·[i]?)) = if b then cal[k]?.bind (·[i]?) else some (OutVal.val v) := by
  have hconv : ∀ l : List ℝ, ∀ land, convertParams f o (maskSea land l)
      = maskSea land (l.map fun x => f * x + o) := by
    intro l land
    cases land with
    | none => simp [convertParams, maskSea]
    | some mk =>
      unfold convertParams maskSea
      simp only [List.map_zipWith, List.zipWith_map_right]
      congr 1
      funext b x
      cases b <;> rfl
  obtain ⟨rows, hrows, hget⟩ := merged_get (fun t m s => probAt d above m s t)
    (by
      intro t m s
      unfold probAt outOf
      split <;> simp) n
    (loc.map fun x => f * x + o) (scale.map fun x => f * x + o) mask ts raw (by simpa) (by simpa)
    hm hraw hrow
  refine ⟨toProbabilities d above f o (maskSea none loc) (maskSea none scale) ts, rows, rfl, ?_, ?_⟩
  · unfold applyProbabilities
    simp only [toProbabilities_eq, hconv]
    exact hrows
  · intro k i b r v hb hr hv
    have hi : i < n := by
      rw [← hm]; exact (List.getElem?_eq_some_iff.1 hb).1
    have hk : k < ts.length := by
      rw [← hraw]; exact (List.getElem?_eq_some_iff.1 hr).1
    have h1 : i < loc.length := by omega
    have h2 : i < scale.length := by omega
    rw [hget k i ts[k] r (f * loc[i] + o) (f * scale[i] + o) b v (List.getElem?_eq_getElem hk) hr
      (by simp [h1]) (by simp [h2]) hb hv]
    cases b with
    | false => simp
    | true =>
      simp only [toProbabilities_eq, hconv]
      simp [maskSea, List.getElem?_map, List.getElem?_eq_getElem hk,
        List.getElem?_zipWith, List.getElem?_eq_getElem h1, List.getElem?_eq_getElem h2, cellOf]

/-- Non-vacuity of C130: one land and one sea point. -/
example : ∃ rows, applyPercentiles .norm [1, 2] [1, 1] (some [true, false]) [50] [[7, 8]] none
    = .ok rows ∧ (rows[0]?.bind (·[1]?)) = some (OutVal.val 8) := by
  obtain ⟨cal, rows, _, h, hg⟩ := C130_percentiles .norm trivial 2 [1, 2] [1, 1] [true, false] [50]
    [[7, 8]] rfl rfl rfl rfl (by simp) (by simp) (by simp; norm_num)
  exact ⟨rows, h, by simpa using hg 0 1 false [7, 8] 8 rfl rfl rfl⟩

/-- C130: a land-sea mask is refused exactly when a probability template changes the type of the
forecast; without a template the type is kept. -/
theorem C130_types (t : FcType) (template land : Bool) :
    outputType t template land =
      if land = true ∧ template = true ∧ t ≠ .probabilities then .error .valueError
      else .ok (if template then .probabilities else t) := by
  cases t <;> cases template <;> cases land <;> rfl

/-- C130: percentile and probability forecasts need a positive number of realizations. -/
theorem C130_realizations_count (t : FcType) (count : Option ℕ) :
    needRealizations t count = .ok () ↔ t = .realizations ∨ ∃ k, count = some k ∧ 0 < k := by
  unfold needRealizations
  by_cases h : t = .realizations
  · simp [h]
  · rw [if_neg h]
    cases count with
    | none => simp [h]
    | some k =>
      cases k with
      | zero => simp [h]
      | succ k => simp [h]

/-- C130: an attribute is used exactly when all coefficient cubes have it with the same value;
an optional attribute may also be absent from all. -/
theorem C130_attribute (optional : Bool) (l : List (Option String)) (v : Option String) :
    getAttribute optional l = .ok v ↔
      (∃ a, v = some a ∧ l ≠ [] ∧ ∀ x ∈ l, x = some a) ∨
      (v = none ∧ optional = true ∧ ∀ x ∈ l, x = none) := by
  have hnil : l.filterMap id = [] ↔ ∀ x ∈ l, x = none := by
    rw [List.filterMap_eq_nil_iff]; rfl
  unfold getAttribute
  simp only
  by_cases h0 : l.filterMap id = []
  · rw [if_pos h0]
    have hall := hnil.1 h0
    have hno : ¬ ∃ a, v = some a ∧ l ≠ [] ∧ ∀ x ∈ l, x = some a := by
      rintro ⟨a, _, hne, hx⟩
      obtain ⟨y, t, rfl⟩ := List.exists_cons_of_ne_nil hne
      have := hx y (List.mem_cons_self ..)
      rw [hall y (List.mem_cons_self ..)] at this
      nomatch this
    cases optional with
    | true => simp only [if_true, Except.ok.injEq, hno, false_or, true_and]; tauto
    | false => simp [hno]
  · rw [if_neg h0]
    have hx0 : ¬ ∀ x ∈ l, x = none := fun h => h0 (hnil.2 h)
    have key : ((l.filterMap id).dedup.length = 1 ∧ (l.filterMap id).length = l.length) ↔
        ∃ a, l ≠ [] ∧ ∀ x ∈ l, x = some a := by
      constructor
      · rintro ⟨h1, h2⟩
        obtain ⟨a, ha⟩ := List.length_eq_one_iff.1 h1
        refine ⟨a, fun h => h0 (by rw [h]; rfl), fun x hx => ?_⟩
        have hsome : ∀ m : List (Option String), (m.filterMap id).length = m.length →
            ∀ x ∈ m, ∃ b, x = some b := by
          intro m
          induction m with
          | nil => simp
          | cons y t ih =>
            intro hlen x hx
            cases y with
            | none =>
              have := List.length_filterMap_le id t
              rw [List.filterMap_cons_none rfl, List.length_cons] at hlen
              omega
            | some b =>
              rcases List.mem_cons.1 hx with rfl | hx
              · exact ⟨b, rfl⟩
              · exact ih (by simpa using hlen) x hx
        obtain ⟨b, rfl⟩ := hsome l h2 x hx
        have hb : b ∈ (l.filterMap id).dedup := by
          rw [List.mem_dedup, List.mem_filterMap]; exact ⟨some b, hx, rfl⟩
        rw [ha, List.mem_singleton] at hb
        rw [hb]
      · rintro ⟨a, hne, hx⟩
        have hl : l = List.replicate l.length (some a) := List.eq_replicate_iff.2 ⟨rfl, hx⟩
        have hf : l.filterMap id = List.replicate l.length a := by
          rw [hl]; simp
        have hpos : l.length ≠ 0 := by simpa using hne
        rw [hf]
        exact ⟨by rw [List.replicate_dedup hpos]; rfl, by simp⟩
    by_cases hc : (l.filterMap id).dedup.length = 1 ∧ (l.filterMap id).length = l.length
    · rw [if_pos hc]
      obtain ⟨a, hne, hx⟩ := key.1 hc
      have hh : (l.filterMap id).head? = some a := by
        obtain ⟨y, t, rfl⟩ := List.exists_cons_of_ne_nil hne
        rw [hx y (List.mem_cons_self ..)]; rfl
      rw [hh, Except.ok.injEq]
      constructor
      · rintro rfl; exact Or.inl ⟨a, rfl, hne, hx⟩
      · rintro (⟨b, rfl, _, hb⟩ | ⟨_, _, hb⟩)
        · obtain ⟨y, t, rfl⟩ := List.exists_cons_of_ne_nil hne
          rw [← hx y (List.mem_cons_self ..), hb y (List.mem_cons_self ..)]
        · exact absurd hb hx0
    · rw [if_neg hc]
      simp only [reduceCtorEq, false_iff]
      rintro (⟨a, _, hne, hx⟩ | ⟨_, _, hb⟩)
      · exact hc (key.2 ⟨a, hne, hx⟩)
      · exact hx0 hb

end Improver
