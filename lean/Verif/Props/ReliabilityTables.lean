import Mathlib.Data.List.Chain
import Verif.Model.Reliability
import Verif.Lemmas.NpInterp
import Mathlib.Data.List.GetD

/-! Properties C32 and C34: construction and aggregation of reliability tables. -/

namespace Improver

/-! ### The bins -/

/-- Specification of a list of probability bins (lower, upper): ascending lower edges, every upper edge is the value just
before the next lower edge (expressed with the two `nextafter` functions), from 0 to 1. -/
structure Spec.Bins (up down : ℚ → ℚ) (bins : List (ℚ × ℚ)) : Prop where
  first : (bins.headD (0, 0)).1 = 0
  last : (bins.getLastD (0, 0)).2 = 1
  chain : bins.IsChain (fun a b => a.1 < b.1 ∧ (a.2 = down b.1 ∨ b.1 = up a.2))
  lower : ∀ b ∈ bins, b.1 ≤ 1

theorem mid_chain (up down : ℚ → ℚ) (n' : ℕ) (sl su : Bool) (hn : 0 < n') (hup : sl = true → up svTol < 1 / n') :
    ((List.range n').map (middleBin up down n' sl su)).IsChain
      (fun a b => a.1 < b.1 ∧ (a.2 = down b.1 ∨ b.1 = up a.2)) := by
  rw [List.isChain_iff_getElem]
  intro i hi
  simp only [List.length_map, List.length_range] at hi
  simp only [List.getElem_map, List.getElem_range]
  have hq : (0 : ℚ) < n' := by exact_mod_cast hn
  have e2 : middleBin up down n' sl su (i + 1) = (((i + 1 : ℕ) : ℚ) / n',
      (middleBin up down n' sl su (i + 1)).2) := by
    unfold middleBin; simp
  constructor
  · rw [e2]
    simp only [middleBin]
    by_cases h : i = 0 ∧ sl = true
    · rw [if_pos h, h.1]
      have := hup h.2
      simpa using this
    · rw [if_neg h]
      apply div_lt_div_of_pos_right _ hq
      push_cast; linarith
  · left
    rw [e2]
    simp only [middleBin]
    rw [if_neg (by omega)]

theorem svTol_pos : 0 < svTol := by unfold svTol; norm_num

/-- **C32** (the bins): for every accepted number of bins (up to 500000) and choice of single-value end bins there are that
many bins, in ascending order, covering [0, 1] without overlap and with no float between one bin and the next.  `up` and
`down` are the float32 `nextafter` functions; only the size of one step at 1e-6 is used. -/
theorem C32_bins (up down : ℚ → ℚ) (hup : svTol < up svTol ∧ up svTol < 2 * svTol) (n : ℕ) (hn : n ≤ 500000)
    (sl su : Bool) (bins : List (ℚ × ℚ)) (h : defineBins up down n sl su = .ok bins) :
    bins.length = n ∧ Spec.Bins up down bins := by
  unfold defineBins at h
  by_cases hc : (sl && su && decide (n ≤ 2)) = true
  · rw [if_pos hc] at h; cases h
  rw [if_neg hc] at h
  simp only [] at h
  generalize hn' : (if (sl && su) = true then n - 2 else if (sl || su) = true then n - 1 else n) = n' at h
  by_cases h0 : n' = 0
  · rw [if_pos h0] at h; cases h
  rw [if_neg h0] at h
  injection h with h
  have hpos : 0 < n' := Nat.pos_of_ne_zero h0
  have hq : (1 : ℚ) ≤ n' := by exact_mod_cast hpos
  have hle : n' ≤ n := by rw [← hn']; split_ifs <;> omega
  have hq2 : (n' : ℚ) ≤ 500000 := by exact_mod_cast le_trans hle hn
  have hinv : 2 * svTol ≤ 1 / (n' : ℚ) := by
    rw [le_div_iff₀ (by linarith)]
    unfold svTol; linarith
  have hmid := mid_chain up down n' sl su hpos (fun _ => lt_of_lt_of_le hup.2 hinv)
  have hone : (1 : ℚ) / n' ≤ 1 := by rw [div_le_one (by linarith)]; exact hq
  have htol1 : svTol < 1 := by unfold svTol; norm_num
  have hhead : ∀ k, k < n' → ((middleBin up down n' sl su k).1 ≤ 1 - 1 / n' ∨
      (sl = true ∧ k = 0 ∧ (middleBin up down n' sl su k).1 = up svTol)) := by
    intro k hk
    unfold middleBin
    by_cases hk0 : k = 0 ∧ sl = true
    · right; exact ⟨hk0.2, hk0.1, by simp [hk0]⟩
    · left
      simp only []
      rw [if_neg hk0]
      have : (k : ℚ) + 1 ≤ n' := by exact_mod_cast hk
      rw [div_le_iff₀ (by linarith)]
      have : (1 - 1 / (n' : ℚ)) * n' = n' - 1 := by field_simp
      rw [this]; linarith
  have hlow1 : ∀ k, k < n' → (middleBin up down n' sl su k).1 ≤ 1 := by
    intro k hk
    rcases hhead k hk with h1 | ⟨_, _, h1⟩
    · have : (0 : ℚ) < 1 / n' := by positivity
      linarith
    · rw [h1]; unfold svTol at hup ⊢; linarith
  have hlowU : ∀ k, k < n' → (middleBin up down n' sl su k).1 < 1 - svTol := by
    intro k hk
    rcases hhead k hk with h1 | ⟨_, _, h1⟩
    · have := svTol_pos; linarith
    · rw [h1]; have : 2 * svTol < 1 - svTol := by unfold svTol; norm_num
      linarith
  obtain ⟨p, rfl⟩ : ∃ p, n' = p + 1 := ⟨n' - 1, by omega⟩
  have hfirst : (middleBin up down (p + 1) sl su 0).1 = if sl = true then up svTol else 0 := by
    unfold middleBin; cases sl <;> simp
  have hlast : (middleBin up down (p + 1) sl su p).2 = if su = true then down (1 - svTol) else 1 := by
    unfold middleBin; simp
  have hmidlast : ((List.range (p + 1)).map (middleBin up down (p + 1) sl su)).getLast? = some (middleBin up down (p + 1) sl su p) := by
    rw [List.range_succ]; simp
  have hmidhead : ((List.range (p + 1)).map (middleBin up down (p + 1) sl su)).head? = some (middleBin up down (p + 1) sl su 0) := by
    rw [List.range_succ_eq_map]; simp
  have hnlen : n = p + 1 + (if sl = true then 1 else 0) + (if su = true then 1 else 0) := by
    cases sl <;> cases su <;> simp at hn' hc ⊢ <;> omega
  subst h
  refine ⟨?_, ?_, ?_, ?_, ?_⟩
  · rw [hnlen]
    cases sl <;> cases su <;> simp <;> omega
  · cases sl with
    | true => simp
    | false =>
      simp only [Bool.false_eq_true, if_false, List.nil_append] at hfirst ⊢
      rw [List.headD_eq_head?_getD, List.head?_append, hmidhead]
      simpa using hfirst
  · cases su with
    | true => simp
    | false =>
      simp only [Bool.false_eq_true, if_false, List.append_nil] at hlast ⊢
      rw [List.getLastD_eq_getLast?, List.getLast?_append, hmidlast]
      simpa using hlast
  · rw [List.isChain_append, List.isChain_append]
    refine ⟨⟨?_, hmid, ?_⟩, ?_, ?_⟩
    · cases sl <;> simp
    · intro x hx y hy
      rw [hmidhead] at hy
      cases sl with
      | false => simp at hx
      | true =>
        simp only [if_true, List.getLast?_singleton, Option.mem_def, Option.some.injEq] at hx hy
        subst hx; subst hy
        rw [hfirst]
        have := svTol_pos
        refine ⟨by simp; linarith [hup.1], .inr (by simp)⟩
    · cases su <;> simp
    · intro x hx y hy
      rw [List.getLast?_append, hmidlast] at hx
      cases su with
      | false => simp at hy
      | true =>
        simp only [if_true, List.head?_cons, Option.mem_def, Option.some.injEq, Option.some_or] at hx hy
        subst hx; subst hy
        exact ⟨hlowU p (by omega), .inl (by rw [hlast]; simp)⟩
  · intro b hb
    rcases List.mem_append.1 hb with hb | hb
    · rcases List.mem_append.1 hb with hb | hb
      · cases sl with
        | false => simp at hb
        | true => simp only [if_true, List.mem_singleton] at hb; rw [hb]; norm_num
      · obtain ⟨k, hk, rfl⟩ := List.mem_map.1 hb
        exact hlow1 k (List.mem_range.1 hk)
    · cases su with
      | false => simp at hb
      | true =>
        simp only [if_true, List.mem_singleton] at hb
        rw [hb]; have := svTol_pos; simp only []; linarith

example : defineBins (fun x => x + 1/10000000) (fun x => x - 1/10000000) 4 true true
    = .ok [(0, 1/1000000), (11/10000000, 1/2 - 1/10000000), (1/2, 1 - 11/10000000), (1 - 1/1000000, 1)] := by decide +kernel

/-! ### Edges and the bin of a value -/

theorem edges_length (bins : List (ℚ × ℚ)) : (binEdges bins).length = bins.length + 1 := by simp [binEdges]

theorem edges_getD (bins : List (ℚ × ℚ)) (i : ℕ) (hi : i < bins.length) : (binEdges bins).getD i 0 = bins[i].1 := by
  unfold binEdges
  rw [List.getD_eq_getElem _ _ (by simp; omega), List.getElem_append_left (by simpa using hi)]
  simp

theorem edges_getD_last (bins : List (ℚ × ℚ)) : (binEdges bins).getD bins.length 0 = (bins.getLastD (0, 0)).2 + svTol := by
  unfold binEdges
  rw [List.getD_eq_getElem _ _ (by simp), List.getElem_append_right (by simp)]
  simp

/-- Specification: value `v` belongs to bin `b`: at or above its lower edge and below the next one (the end of the last bin is
the tolerance above 1). -/
def Spec.inBin (bins : List (ℚ × ℚ)) (b : ℕ) (v : ℚ) : Prop :=
  (binEdges bins).getD b 0 ≤ v ∧ v < (binEdges bins).getD (b + 1) 0

instance (bins : List (ℚ × ℚ)) (b : ℕ) (v : ℚ) : Decidable (Spec.inBin bins b v) := by unfold Spec.inBin; infer_instance

theorem chain_fst_lt {up down : ℚ → ℚ} {bins : List (ℚ × ℚ)} (hb : Spec.Bins up down bins) (i : ℕ) (hi : i < bins.length) :
    (binEdges bins).getD i 0 < (binEdges bins).getD (i + 1) 0 := by
  rw [edges_getD _ _ hi]
  by_cases h : i + 1 < bins.length
  · rw [edges_getD _ _ h]
    exact (List.isChain_iff_getElem.1 hb.chain i h).1
  · have : i + 1 = bins.length := by omega
    rw [this, edges_getD_last, hb.last]
    have h1 := hb.lower _ (List.getElem_mem hi)
    have := svTol_pos
    linarith

theorem edges_mono {up down : ℚ → ℚ} {bins : List (ℚ × ℚ)} (hb : Spec.Bins up down bins) (i j : ℕ) (hij : i ≤ j)
    (hj : j ≤ bins.length) : (binEdges bins).getD i 0 ≤ (binEdges bins).getD j 0 := by
  induction j with
  | zero => have : i = 0 := by omega
            rw [this]
  | succ j ih =>
    rcases Nat.lt_or_ge i (j + 1) with h | h
    · exact le_trans (ih (by omega) (by omega)) (chain_fst_lt hb j (by omega)).le
    · have : i = j + 1 := by omega
      rw [this]

/-- Bins do not overlap. -/
theorem inBin_unique {up down : ℚ → ℚ} {bins : List (ℚ × ℚ)} (hb : Spec.Bins up down bins) {a b : ℕ} {v : ℚ}
    (ha : a < bins.length) (hbl : b < bins.length) (h1 : Spec.inBin bins a v) (h2 : Spec.inBin bins b v) : a = b := by
  rcases lt_trichotomy a b with h | h | h
  · have := edges_mono hb (a + 1) b h (by omega)
    linarith [h1.2, h2.1]
  · exact h
  · have := edges_mono hb (b + 1) a h (by omega)
    linarith [h2.2, h1.1]

/-- The index computed for a value below the last edge and at or above the first. -/
theorem binIndex_inBin {up down : ℚ → ℚ} {bins : List (ℚ × ℚ)} (hb : Spec.Bins up down bins) (hne : bins ≠ []) {v : ℚ}
    (h0 : 0 ≤ v) (h1 : v < 1 + svTol) :
    binIndex (binEdges bins) (some v) < bins.length ∧ Spec.inBin bins (binIndex (binEdges bins) (some v)) v := by
  have hlen : 0 < bins.length := List.length_pos_iff.2 hne
  have hc : (binEdges bins).takeWhile (fun e => decide (e ≤ v)) = (binEdges bins).takeWhile (fun a => decide (a ≤ v)) := rfl
  have hk : ((binEdges bins).takeWhile (fun e => decide (e ≤ v))).length = cntLe (binEdges bins) v := rfl
  have hfirst : (binEdges bins).getD 0 0 = 0 := by
    rw [edges_getD _ _ hlen]
    have := hb.first
    cases bins with
    | nil => exact absurd rfl hne
    | cons a l => simpa using this
  have hpos : cntLe (binEdges bins) v ≠ 0 := by
    intro h
    have := cntLe_lt_val (xp := binEdges bins) (x := v) (by rw [h, edges_length]; omega)
    rw [h, hfirst] at this
    linarith
  have hle := cntLe_le (binEdges bins) v
  have hlt : cntLe (binEdges bins) v < (binEdges bins).length := by
    by_contra hcon
    have heq : cntLe (binEdges bins) v = (binEdges bins).length := by omega
    have := cntLe_le_val (xp := binEdges bins) (x := v) (i := bins.length) (by rw [heq, edges_length]; omega)
    rw [edges_getD_last, hb.last] at this
    linarith
  unfold binIndex
  simp only [hk]
  rw [if_neg hpos]
  rw [edges_length] at hlt
  refine ⟨by omega, ?_, ?_⟩
  · exact cntLe_le_val (by omega)
  · have := cntLe_lt_val (xp := binEdges bins) (x := v) (by rw [edges_length]; omega)
    have e : cntLe (binEdges bins) v - 1 + 1 = cntLe (binEdges bins) v := by omega
    rw [e]; exact this

/-- The index of a NaN or an out-of-range value is the discarded one. -/
theorem binIndex_out {up down : ℚ → ℚ} {bins : List (ℚ × ℚ)} (hb : Spec.Bins up down bins) (hne : bins ≠ []) (v : Option ℚ)
    (hv : ∀ x, v = some x → x < 0 ∨ 1 + svTol ≤ x) : binIndex (binEdges bins) v = bins.length := by
  have hlen : 0 < bins.length := List.length_pos_iff.2 hne
  cases v with
  | none => simp [binIndex, edges_length]
  | some x =>
    have hk : ((binEdges bins).takeWhile (fun e => decide (e ≤ x))).length = cntLe (binEdges bins) x := rfl
    unfold binIndex
    simp only [hk]
    have hfirst : (binEdges bins).getD 0 0 = 0 := by
      rw [edges_getD _ _ hlen]
      have := hb.first
      cases bins with
      | nil => exact absurd rfl hne
      | cons a l => simpa using this
    rcases hv x rfl with h | h
    · have : cntLe (binEdges bins) x = 0 := by
        apply cntLe_unique (by omega)
        · intro i hi; omega
        · intro _; rw [hfirst]; exact h
      rw [if_pos this, edges_length]; omega
    · have : cntLe (binEdges bins) x = bins.length + 1 := by
        apply cntLe_unique (by rw [edges_length])
        · intro i hi
          refine le_trans (edges_mono hb i bins.length (by omega) le_rfl) ?_
          rw [edges_getD_last, hb.last]; exact h
        · intro h'; rw [edges_length] at h'; omega
      rw [this, if_neg (by omega)]; omega

/-- Specification: the table entry of bin `b` for one forecast (NaN = `none`) and truth. -/
def Spec.entry (bins : List (ℚ × ℚ)) (b : ℕ) (v : Option ℚ) (truth : ℚ) : RelEntry :=
  match v with
  | none => RelEntry.zero
  | some x => if Spec.inBin bins b x then ⟨if npIsclose truth 1 then 1 else 0, x, 1⟩ else RelEntry.zero

theorem populate_spec {up down : ℚ → ℚ} {bins : List (ℚ × ℚ)} (hb : Spec.Bins up down bins) (hne : bins ≠ [])
    (v : Option ℚ) (truth : ℚ) :
    populateBins (binEdges bins) v truth = (List.range bins.length).map (fun b => Spec.entry bins b v truth) := by
  unfold populateBins
  rw [edges_length, Nat.add_sub_cancel]
  apply List.map_congr_left
  intro b hbm
  rw [List.mem_range] at hbm
  by_cases hv : ∀ x, v = some x → x < 0 ∨ 1 + svTol ≤ x
  · rw [binIndex_out hb hne v hv, if_neg (by omega)]
    cases v with
    | none => rfl
    | some x =>
      simp only [Spec.entry]
      rw [if_neg]
      intro hin
      have h0 := edges_mono hb 0 b (by omega) (by omega)
      have h1 := edges_mono hb (b + 1) bins.length (by omega) le_rfl
      rw [edges_getD_last, hb.last] at h1
      have hfirst : (binEdges bins).getD 0 0 = 0 := by
        rw [edges_getD _ _ (by omega)]
        have := hb.first
        cases bins with
        | nil => exact absurd rfl hne
        | cons a l => simpa using this
      rw [hfirst] at h0
      rcases hv x rfl with h | h <;> linarith [hin.1, hin.2]
  · push Not at hv
    obtain ⟨x, rfl, h0, h1⟩ := hv
    obtain ⟨hi, hin⟩ := binIndex_inBin hb hne h0 h1
    simp only [Spec.entry]
    by_cases he : b = binIndex (binEdges bins) (some x)
    · have hin' : Spec.inBin bins b x := he ▸ hin
      rw [if_pos he, if_pos hin']; rfl
    · rw [if_neg he, if_neg (fun h => he (inBin_unique hb hbm hi h hin))]

/-- **C32** (every forecast in exactly one bin): a forecast probability in [0, 1] belongs to exactly one bin, and the table of
one forecast has count 1 and probability sum equal to the forecast there and zeros elsewhere. -/
theorem C32_exactly_one (up down : ℚ → ℚ) (bins : List (ℚ × ℚ)) (hb : Spec.Bins up down bins) (hne : bins ≠ [])
    (v : ℚ) (h0 : 0 ≤ v) (h1 : v ≤ 1) (truth : ℚ) :
    ∃ b, b < bins.length ∧ Spec.inBin bins b v ∧ (∀ b', b' < bins.length → Spec.inBin bins b' v → b' = b) ∧
      populateBins (binEdges bins) (some v) truth = (List.range bins.length).map (fun k =>
        if k = b then ⟨if npIsclose truth 1 then 1 else 0, v, 1⟩ else RelEntry.zero) := by
  have hv1 : v < 1 + svTol := by have := svTol_pos; linarith
  obtain ⟨hi, hin⟩ := binIndex_inBin hb hne h0 hv1
  refine ⟨_, hi, hin, fun b' hb' h => inBin_unique hb hb' hi h hin, ?_⟩
  rw [populate_spec hb hne]
  apply List.map_congr_left
  intro k hk
  rw [List.mem_range] at hk
  simp only [Spec.entry]
  by_cases he : k = binIndex (binEdges bins) (some v)
  · rw [if_pos he, if_pos (he ▸ hin)]
  · rw [if_neg he, if_neg (fun h => he (inBin_unique hb hk hi h hin))]

/-- **C32** (within the published bounds): if the forecast is representable (no float lies strictly between a lower edge and
`down` of it, nor between `up x` and `x`), it lies within the published bounds of its bin. -/
theorem C32_within_bounds (up down : ℚ → ℚ) (bins : List (ℚ × ℚ)) (hb : Spec.Bins up down bins)
    (v : ℚ) (h1 : v ≤ 1) (hdown : ∀ e, v < e → v ≤ down e) (hup : ∀ e, v < up e → v ≤ e)
    (b : ℕ) (hlt : b < bins.length) (hin : Spec.inBin bins b v) : bins[b].1 ≤ v ∧ v ≤ bins[b].2 := by
  obtain ⟨i1, i2⟩ := hin
  rw [edges_getD _ _ hlt] at i1
  refine ⟨i1, ?_⟩
  by_cases h : b + 1 < bins.length
  · rw [edges_getD _ _ h] at i2
    rcases (List.isChain_iff_getElem.1 hb.chain b h).2 with h' | h'
    · rw [h']; exact hdown _ i2
    · rw [h'] at i2; exact hup _ i2
  · have hl := hb.last
    have : bins.getLastD (0, 0) = bins[b] := by
      rw [List.getLastD_eq_getLast?, List.getLast?_eq_getElem?]
      have : bins.length - 1 = b := by omega
      rw [this, List.getElem?_eq_getElem hlt]; rfl
    rw [this] at hl
    rw [hl]; exact h1

/-! ### Accumulation over times -/

/-- Specification: the samples that count at a point: truth not masked and forecast in the bin. -/
def Spec.counted (bins : List (ℚ × ℚ)) (b : ℕ) (s : RelSample) : Bool :=
  !s.masked && (match s.forecast with | none => false | some x => decide (Spec.inBin bins b x))

/-- Specification: entry of bin `b` for a set of samples: number of counted samples whose truth is 1, sum of the counted
forecasts, number of counted samples. -/
def Spec.tableEntry (bins : List (ℚ × ℚ)) (samples : List RelSample) (b : ℕ) : RelEntry :=
  let c := samples.filter (Spec.counted bins b)
  ⟨((c.filter (fun s => npIsclose s.truth 1)).length : ℚ), (c.map (fun s => s.forecast.getD 0)).sum, (c.length : ℚ)⟩

theorem sampleTable_spec {up down : ℚ → ℚ} {bins : List (ℚ × ℚ)} (hb : Spec.Bins up down bins) (hne : bins ≠ [])
    (s : RelSample) : sampleTable (binEdges bins) s = (List.range bins.length).map (Spec.tableEntry bins [s]) := by
  unfold sampleTable
  by_cases hm : s.masked = true
  · rw [if_pos hm, edges_length, Nat.add_sub_cancel]
    apply List.ext_getElem
    · simp
    · intro i h1 h2
      simp [Spec.tableEntry, Spec.counted, hm, RelEntry.zero]
  · rw [if_neg hm, populate_spec hb hne]
    apply List.map_congr_left
    intro b _
    have hm' : s.masked = false := by simpa using hm
    cases hf : s.forecast with
    | none =>
      have hc : Spec.counted bins b s = false := by simp [Spec.counted, hm', hf]
      simp [Spec.tableEntry, List.filter_cons, hc, Spec.entry, RelEntry.zero]
    | some x =>
      by_cases hin : Spec.inBin bins b x
      · have hc : Spec.counted bins b s = true := by simp [Spec.counted, hm', hf, hin]
        simp only [Spec.tableEntry, List.filter_cons, hc, Spec.entry, hin, hf, if_true, List.filter_nil, List.map_cons,
          List.map_nil, Option.getD_some, List.sum_cons, List.sum_nil, add_zero, List.length_singleton, Nat.cast_one]
        by_cases ht : npIsclose s.truth 1 = true
        · rw [if_pos ht, if_pos ht]; rfl
        · rw [if_neg ht, if_neg ht]; rfl
      · have hc : Spec.counted bins b s = false := by simp [Spec.counted, hm', hf, hin]
        simp [Spec.tableEntry, List.filter_cons, hc, Spec.entry, hin, RelEntry.zero]

theorem tableEntry_append (bins : List (ℚ × ℚ)) (b : ℕ) (l1 l2 : List RelSample) :
    Spec.tableEntry bins (l1 ++ l2) b = RelEntry.add (Spec.tableEntry bins l1 b) (Spec.tableEntry bins l2 b) := by
  simp [Spec.tableEntry, RelEntry.add, List.filter_append]

theorem addTables_map (n : ℕ) (f g : ℕ → RelEntry) :
    addTables ((List.range n).map f) ((List.range n).map g) = (List.range n).map (fun b => RelEntry.add (f b) (g b)) := by
  unfold addTables
  apply List.ext_getElem
  · simp
  · intro i h1 h2; simp

theorem addSample_data {up down : ℚ → ℚ} {bins : List (ℚ × ℚ)} (hb : Spec.Bins up down bins) (hne : bins ≠ [])
    (st : RelState) (s : RelSample) (hs : s.masked = true → s.sliceMasked = true) :
    (addSample (binEdges bins) st s).data = addTables st.data (sampleTable (binEdges bins) s) := by
  unfold addSample
  by_cases h : s.sliceMasked = true
  · rw [if_pos h]
  · rw [if_neg h]
    have : ¬ s.masked = true := fun hm => h (hs hm)
    simp only [sampleTable]
    rw [if_neg this]

/-- **C32** (the table): the data of the constructed table are, for each bin, the number of unmasked samples in the bin with
true observation, the sum of the forecasts of the unmasked samples in the bin, and their number. -/
theorem C32_table (up down : ℚ → ℚ) (bins : List (ℚ × ℚ)) (hb : Spec.Bins up down bins) (hne : bins ≠ [])
    (samples : List RelSample) (hs : ∀ s ∈ samples, s.masked = true → s.sliceMasked = true) (st : RelState)
    (h : constructTable (binEdges bins) samples = .ok st) :
    st.data = (List.range bins.length).map (Spec.tableEntry bins samples) := by
  cases samples with
  | nil => cases h
  | cons s rest =>
    simp only [constructTable] at h
    injection h with h
    have key : ∀ (rest done : List RelSample) (st : RelState), (∀ s ∈ rest, s.masked = true → s.sliceMasked = true) →
        st.data = (List.range bins.length).map (Spec.tableEntry bins done) →
        (rest.foldl (addSample (binEdges bins)) st).data
          = (List.range bins.length).map (Spec.tableEntry bins (done ++ rest)) := by
      intro rest
      induction rest with
      | nil => intro done st _ h; simpa using h
      | cons s rest ih =>
        intro done st hs h
        rw [List.foldl_cons]
        have e : done ++ s :: rest = (done ++ [s]) ++ rest := by simp
        rw [e]
        apply ih _ _ (fun s' hs' => hs s' (List.mem_cons_of_mem _ hs'))
        rw [addSample_data hb hne st s (hs s (by simp)), h, sampleTable_spec hb hne, addTables_map]
        apply List.map_congr_left
        intro b _
        rw [tableEntry_append]
    rw [← h]
    have := key rest [s] ⟨sampleTable (binEdges bins) s, s.masked⟩ (fun s' hs' => hs s' (List.mem_cons_of_mem _ hs'))
      (sampleTable_spec hb hne s)
    simpa using this

/-- **C32** (order): the data of the table do not depend on the order of the times. -/
theorem C32_order_data (up down : ℚ → ℚ) (bins : List (ℚ × ℚ)) (hb : Spec.Bins up down bins) (hne : bins ≠ [])
    (l1 l2 : List RelSample) (hp : l1.Perm l2) (hs : ∀ s ∈ l1, s.masked = true → s.sliceMasked = true) (st1 st2 : RelState)
    (h1 : constructTable (binEdges bins) l1 = .ok st1) (h2 : constructTable (binEdges bins) l2 = .ok st2) :
    st1.data = st2.data := by
  rw [C32_table up down bins hb hne l1 hs st1 h1,
    C32_table up down bins hb hne l2 (fun s hsm => hs s (hp.mem_iff.2 hsm)) st2 h2]
  apply List.map_congr_left
  intro b _
  unfold Spec.tableEntry
  have hf := hp.filter (Spec.counted bins b)
  simp only []
  rw [(hf.filter _).length_eq, hf.length_eq, (hf.map _).sum_eq]

/-- **C32** (counts): observation counts never exceed forecast counts and neither is negative. -/
theorem C32_obs_le (bins : List (ℚ × ℚ)) (samples : List RelSample) (b : ℕ) :
    0 ≤ (Spec.tableEntry bins samples b).obs ∧ (Spec.tableEntry bins samples b).obs ≤ (Spec.tableEntry bins samples b).fc := by
  unfold Spec.tableEntry
  simp only []
  exact ⟨by positivity, by exact_mod_cast List.length_filter_le _ _⟩

/-- **C32** (total): the forecast counts add up to the number of unmasked samples whose forecast is in [0, 1] (more exactly up
to the tolerance above 1). -/
theorem C32_total (up down : ℚ → ℚ) (bins : List (ℚ × ℚ)) (hb : Spec.Bins up down bins) (hne : bins ≠ [])
    (samples : List RelSample) :
    ((List.range bins.length).map (fun b => (Spec.tableEntry bins samples b).fc)).sum
      = ((samples.filter (fun s => !s.masked &&
          (match s.forecast with | none => false | some x => decide (0 ≤ x ∧ x < 1 + svTol)))).length : ℚ) := by
  have one : ∀ (n k : ℕ), ((List.range n).map (fun b => if b = k then (1 : ℚ) else 0)).sum = if k < n then 1 else 0 := by
    intro n k
    induction n with
    | zero => simp
    | succ n ih =>
      rw [List.range_succ, List.map_append, List.sum_append, ih]
      rcases lt_trichotomy k n with h | h | h
      · rw [if_pos h, if_pos (by omega)]; simp; omega
      · subst h; simp
      · rw [if_neg (by omega), if_neg (by omega)]; simp; omega
  induction samples with
  | nil => simp [Spec.tableEntry]
  | cons s l ih =>
    have e : ∀ b, (Spec.tableEntry bins (s :: l) b).fc = (Spec.tableEntry bins [s] b).fc + (Spec.tableEntry bins l b).fc := by
      intro b
      have := tableEntry_append bins b [s] l
      rw [List.singleton_append] at this
      rw [this]; rfl
    simp only [e, List.sum_map_add]
    rw [ih]
    have hsingle : ((List.range bins.length).map (fun b => (Spec.tableEntry bins [s] b).fc)).sum
        = if (!s.masked && (match s.forecast with | none => false | some x => decide (0 ≤ x ∧ x < 1 + svTol))) = true
          then 1 else 0 := by
      have hfc : ∀ b, (Spec.tableEntry bins [s] b).fc = if Spec.counted bins b s = true then 1 else 0 := by
        intro b
        simp only [Spec.tableEntry]
        by_cases h : Spec.counted bins b s = true <;> simp [h]
      simp only [hfc]
      unfold Spec.counted
      cases hm : s.masked with
      | true => simp
      | false =>
        cases hf : s.forecast with
        | none => simp
        | some x =>
          simp only [Bool.not_false, Bool.true_and, decide_eq_true_eq]
          by_cases hx : 0 ≤ x ∧ x < 1 + svTol
          · rw [if_pos hx]
            obtain ⟨hi, hin⟩ := binIndex_inBin hb hne hx.1 hx.2
            have : ∀ b ∈ List.range bins.length, (if Spec.inBin bins b x then (1 : ℚ) else 0)
                = if b = binIndex (binEdges bins) (some x) then 1 else 0 := by
              intro b hbm
              rw [List.mem_range] at hbm
              by_cases h : b = binIndex (binEdges bins) (some x)
              · rw [if_pos h, if_pos (h ▸ hin)]
              · rw [if_neg h, if_neg (fun h' => h (inBin_unique hb hbm hi h' hin))]
            rw [List.map_congr_left this, one, if_pos hi]
          · rw [if_neg hx]
            apply List.sum_eq_zero
            intro y hy
            obtain ⟨b, hbm, rfl⟩ := List.mem_map.1 hy
            rw [List.mem_range] at hbm
            rw [if_neg]
            intro hin
            apply hx
            have h0 := edges_mono hb 0 b (by omega) (by omega)
            have h1 := edges_mono hb (b + 1) bins.length (by omega) le_rfl
            rw [edges_getD_last, hb.last] at h1
            have hfirst : (binEdges bins).getD 0 0 = 0 := by
              rw [edges_getD _ _ (by omega)]
              have := hb.first
              cases bins with
              | nil => exact absurd rfl hne
              | cons a l => simpa using this
            rw [hfirst] at h0
            exact ⟨by linarith [hin.1], by linarith [hin.2]⟩
    rw [hsingle, List.filter_cons]
    split_ifs with h
    · rw [List.length_cons]; push_cast; ring
    · ring

/-- **C32** (mask, partial): when every truth slice has some masked point (or at least those after the first), the table is
masked at a point exactly when the truth was masked there at every time.  In general this is false and depends on the order of
the times, see `C32_mask_order_refuted`. -/
theorem C32_mask_partial (edges : List ℚ) (samples : List RelSample) (hs : ∀ s ∈ samples.tail, s.sliceMasked = true)
    (st : RelState) (h : constructTable edges samples = .ok st) :
    st.masked = true ↔ ∀ s ∈ samples, s.masked = true := by
  cases samples with
  | nil => cases h
  | cons s rest =>
    simp only [constructTable] at h
    injection h with h
    rw [← h]
    have key : ∀ (rest : List RelSample) (st : RelState), (∀ s ∈ rest, s.sliceMasked = true) →
        ((rest.foldl (addSample edges) st).masked = true ↔ st.masked = true ∧ ∀ s ∈ rest, s.masked = true) := by
      intro rest
      induction rest with
      | nil => intro st _; simp
      | cons s rest ih =>
        intro st hs
        rw [List.foldl_cons, ih _ (fun s' hs' => hs s' (List.mem_cons_of_mem _ hs'))]
        have : (addSample edges st s).masked = (st.masked && s.masked) := by
          unfold addSample; rw [if_pos (hs s (by simp))]
        rw [this]
        simp [and_assoc]
    rw [key rest _ hs]
    simp

/-- C32 (finding): a point whose truth is masked at one time and valid at another, in a slice without any masked point: the
table is masked at that point when the masked time comes first and not masked when it comes second. -/
theorem C32_mask_order_refuted :
    let edges := binEdges [(0, 1/2), (1/2, 1)]
    let a : RelSample := ⟨some (1/4), 0, true, true⟩
    let b : RelSample := ⟨some (3/4), 1, false, false⟩
    (constructTable edges [a, b]).toOption.map RelState.masked = some true ∧
    (constructTable edges [b, a]).toOption.map RelState.masked = some false ∧
    (constructTable edges [a, b]).toOption.map RelState.data = (constructTable edges [b, a]).toOption.map RelState.data := by
  decide +kernel

example : (constructTable (binEdges [(0, 1/2), (1/2, 1)])
      [⟨some (1/4), 0, false, false⟩, ⟨some (1/2), 1, false, false⟩, ⟨some 1, 0, false, false⟩, ⟨none, 0, false, false⟩]).toOption.map RelState.data
    = some [⟨0, 1/4, 1⟩, ⟨1, 3/2, 2⟩] := by decide +kernel

/-! ### C34: aggregation -/

/-- Specification: a table's forecast reference time lies within its bounds. -/
def Spec.wfTable (t : RelTable) : Prop := t.lower ≤ t.frt ∧ t.frt ≤ t.upper

theorem addTables_assoc (a b c : List RelEntry) : addTables (addTables a b) c = addTables a (addTables b c) := by
  unfold addTables
  induction a generalizing b c with
  | nil => simp
  | cons x a ih =>
    cases b with
    | nil => simp
    | cons y b =>
      cases c with
      | nil => simp
      | cons z c =>
        simp only [List.zipWith_cons_cons]
        rw [ih]
        congr 1
        simp only [RelEntry.add]
        congr 1 <;> ring

theorem unify_assoc (a b c : RelTable) : unifyTables (unifyTables a b) c = unifyTables a (unifyTables b c) := by
  unfold unifyTables
  simp only [addTables_assoc]
  congr 1
  · exact max_assoc _ _ _
  · have h1 : min a.frt b.frt ≤ max a.frt b.frt := min_le_max
    have h2 : min b.frt c.frt ≤ max b.frt c.frt := min_le_max
    have e1 : min (max a.frt b.frt) (min a.frt b.frt) = min a.frt b.frt := min_eq_right h1
    have e2 : min (max b.frt c.frt) (min b.frt c.frt) = min b.frt c.frt := min_eq_right h2
    calc min (min (max a.frt b.frt) c.frt) (min (min (min a.frt b.frt) (min a.lower b.lower)) c.lower)
        = min (min (max a.frt b.frt) (min a.frt b.frt)) (min c.frt (min (min a.lower b.lower) c.lower)) := by ac_rfl
      _ = min (min (max b.frt c.frt) (min b.frt c.frt)) (min a.frt (min (min a.lower b.lower) c.lower)) := by
          rw [e1, e2]; ac_rfl
      _ = _ := by ac_rfl
  · have h : max (max a.frt b.frt) (max a.frt b.frt) = max a.frt b.frt := max_self _
    have h' : max (max b.frt c.frt) (max b.frt c.frt) = max b.frt c.frt := max_self _
    calc max (max (max a.frt b.frt) c.frt) (max (max (max a.frt b.frt) (max a.upper b.upper)) c.upper)
        = max (max (max a.frt b.frt) (max a.frt b.frt)) (max c.frt (max (max a.upper b.upper) c.upper)) := by ac_rfl
      _ = max (max (max b.frt c.frt) (max b.frt c.frt)) (max a.frt (max (max a.upper b.upper) c.upper)) := by
          rw [h, h']; ac_rfl
      _ = _ := by ac_rfl

theorem foldl_unify (a b : RelTable) (l : List RelTable) :
    l.foldl unifyTables (unifyTables a b) = unifyTables a (l.foldl unifyTables b) := by
  induction l generalizing b with
  | nil => rfl
  | cons c l ih => rw [List.foldl_cons, unify_assoc, ih, List.foldl_cons]

theorem frtOk_cons {a b : RelTable} {l : List RelTable} : frtBoundsOk (a :: b :: l) = true ↔
    a.upper < b.lower ∧ frtBoundsOk (b :: l) = true := by
  simp [frtBoundsOk]

/-- With well-formed tables a successful check puts the tables in strictly ascending, pairwise disjoint order. -/
theorem frtOk_pairwise : ∀ {l : List RelTable}, (∀ t ∈ l, Spec.wfTable t) → frtBoundsOk l = true →
    l.Pairwise (fun a b => a.upper < b.lower)
  | [], _, _ => List.Pairwise.nil
  | [a], _, _ => by simp
  | a :: b :: l, hw, h => by
    obtain ⟨h1, h2⟩ := frtOk_cons.1 h
    have hp := frtOk_pairwise (l := b :: l) (fun t ht => hw t (List.mem_cons_of_mem _ ht)) h2
    refine List.pairwise_cons.2 ⟨?_, hp⟩
    intro c hc
    rcases List.mem_cons.1 hc with rfl | hc
    · exact h1
    · have h3 := (List.pairwise_cons.1 hp).1 c hc
      have hb := hw b (by simp)
      unfold Spec.wfTable at hb
      linarith [hb.1, hb.2]

theorem pairwise_frtOk : ∀ {l : List RelTable}, l.Pairwise (fun a b => a.upper < b.lower) → frtBoundsOk l = true
  | [], _ => rfl
  | [a], _ => rfl
  | a :: b :: l, h => by
    obtain ⟨h1, h2⟩ := List.pairwise_cons.1 h
    exact frtOk_cons.2 ⟨h1 b (by simp), pairwise_frtOk h2⟩

/-- **C34** (overlaps are refused): if two of the tables have overlapping forecast reference time bounds, aggregation fails. -/
theorem C34_overlap_refused (l : List RelTable) (hw : ∀ t ∈ l, Spec.wfTable t) (i j : ℕ) (hij : i < j) (hj : j < l.length)
    (hov : l[i].lower ≤ l[j].upper ∧ l[j].lower ≤ l[i].upper) : aggregateTables l = .error .valueError := by
  have hno : ¬ frtBoundsOk l = true := by
    intro h
    have := List.pairwise_iff_getElem.1 (frtOk_pairwise hw h) i j (by omega) hj hij
    linarith [hov.2]
  match l, hno with
  | [], hno => exact absurd rfl hno
  | [a], hno => exact absurd rfl hno
  | a :: b :: l, hno => simp only [aggregateTables]; rw [if_neg hno]

/-- Specification: bin-wise sum of tables with `n` bins. -/
def Spec.sumEntry (l : List RelTable) (b : ℕ) : RelEntry :=
  ⟨(l.map (fun t => (t.entries.getD b RelEntry.zero).obs)).sum, (l.map (fun t => (t.entries.getD b RelEntry.zero).psum)).sum,
    (l.map (fun t => (t.entries.getD b RelEntry.zero).fc)).sum⟩

theorem fold_entries (n : ℕ) : ∀ (l : List RelTable) (t : RelTable), t.entries.length = n → (∀ t ∈ l, t.entries.length = n) →
    (l.foldl unifyTables t).entries = (List.range n).map (Spec.sumEntry (t :: l))
  | [], t, ht, _ => by
    apply List.ext_getElem
    · simpa using ht
    · intro i h1 h2
      have hi : i < t.entries.length := h1
      simp only [List.foldl_nil, Spec.sumEntry, List.getElem_map, List.getElem_range, List.map_cons, List.map_nil,
        List.sum_cons, List.sum_nil, add_zero, List.getD_eq_getElem _ _ hi]
  | a :: l, t, ht, hl => by
    rw [List.foldl_cons]
    have ha := hl a (by simp)
    have hlen : (unifyTables t a).entries.length = n := by simp [unifyTables, addTables, ht, ha]
    rw [fold_entries n l _ hlen (fun t ht => hl t (List.mem_cons_of_mem _ ht))]
    apply List.map_congr_left
    intro b hb
    rw [List.mem_range] at hb
    have e : (unifyTables t a).entries.getD b RelEntry.zero
        = RelEntry.add (t.entries.getD b RelEntry.zero) (a.entries.getD b RelEntry.zero) := by
      rw [List.getD_eq_getElem _ _ (by omega), List.getD_eq_getElem _ _ (by omega), List.getD_eq_getElem _ _ (by omega)]
      simp [unifyTables, addTables]
    unfold Spec.sumEntry
    simp only [List.map_cons, List.sum_cons, e, RelEntry.add]
    congr 1 <;> ring

/-- **C34** (sum): tables in ascending order without overlap are added bin by bin, and the resulting reference time is the
latest one. -/
theorem C34_sum (l : List RelTable) (n : ℕ) (hne : l ≠ []) (hlen : ∀ t ∈ l, t.entries.length = n)
    (hord : l.Pairwise (fun a b => a.upper < b.lower)) :
    ∃ t, aggregateTables l = .ok t ∧ t.entries = (List.range n).map (Spec.sumEntry l) ∧
      (∀ u ∈ l, u.frt ≤ t.frt) ∧ (∃ u ∈ l, t.frt = u.frt) := by
  have hfrt : ∀ (l : List RelTable) (t : RelTable), (t.frt ≤ (l.foldl unifyTables t).frt ∧
      ∀ u ∈ l, u.frt ≤ (l.foldl unifyTables t).frt) ∧ ∃ u ∈ t :: l, (l.foldl unifyTables t).frt = u.frt := by
    intro l
    induction l with
    | nil => intro t; simp
    | cons a l ih =>
      intro t
      rw [List.foldl_cons]
      obtain ⟨⟨h1, h2⟩, u, hu, he⟩ := ih (unifyTables t a)
      have hta : (unifyTables t a).frt = max t.frt a.frt := rfl
      rw [hta] at h1
      refine ⟨⟨le_trans (le_max_left _ _) h1, ?_⟩, ?_⟩
      · intro u hu
        rcases List.mem_cons.1 hu with rfl | hu
        · exact le_trans (le_max_right _ _) h1
        · exact h2 u hu
      · rcases List.mem_cons.1 hu with rfl | hu
        · rw [he, hta]
          rcases max_choice t.frt a.frt with h | h
          · exact ⟨t, by simp, h⟩
          · exact ⟨a, by simp, h⟩
        · exact ⟨u, by simp [hu], he⟩
  match l, hne with
  | [t], _ =>
    refine ⟨t, rfl, ?_, by simp, t, by simp⟩
    exact fold_entries n [] t (hlen t (by simp)) (by simp)
  | t :: a :: l, _ =>
    refine ⟨(a :: l).foldl unifyTables t, ?_, ?_, ?_, ?_⟩
    · simp only [aggregateTables]; rw [if_pos (pairwise_frtOk hord)]
    · exact fold_entries n (a :: l) t (hlen t (by simp)) (fun u hu => hlen u (List.mem_cons_of_mem _ hu))
    · obtain ⟨⟨h1, h2⟩, _⟩ := hfrt (a :: l) t
      intro u hu
      rcases List.mem_cons.1 hu with rfl | hu
      · exact h1
      · exact h2 u hu
    · exact (hfrt (a :: l) t).2

/-- **C34** (grouping): aggregating two consecutive groups of tables and then the two results gives the same table, counts and
reference time bounds included, as aggregating everything at once. -/
theorem C34_grouping (l1 l2 : List RelTable) (h1 : l1 ≠ []) (h2 : l2 ≠ []) (hw : ∀ t ∈ l1 ++ l2, Spec.wfTable t)
    (hord : (l1 ++ l2).Pairwise (fun a b => a.upper < b.lower)) :
    ∃ t1 t2 t, aggregateTables l1 = .ok t1 ∧ aggregateTables l2 = .ok t2 ∧ aggregateTables [t1, t2] = .ok t ∧
      aggregateTables (l1 ++ l2) = .ok t := by
  -- aggregate of a non-empty ordered list
  have agg : ∀ (t : RelTable) (l : List RelTable), (t :: l).Pairwise (fun a b => a.upper < b.lower) →
      aggregateTables (t :: l) = .ok (l.foldl unifyTables t) := by
    intro t l h
    cases l with
    | nil => rfl
    | cons a l => simp only [aggregateTables]; rw [if_pos (pairwise_frtOk h)]
  -- bounds of the result
  have bnd : ∀ (l : List RelTable) (t : RelTable) (U : ℚ), (∀ u ∈ t :: l, Spec.wfTable u) → (∀ u ∈ t :: l, u.upper < U) →
      (l.foldl unifyTables t).upper < U := by
    intro l
    induction l with
    | nil => intro t U _ h; exact h t (by simp)
    | cons a l ih =>
      intro t U hwf h
      rw [List.foldl_cons]
      have ht := hwf t (by simp)
      have ha := hwf a (by simp)
      have ht' := h t (by simp)
      have ha' := h a (by simp)
      unfold Spec.wfTable at ht ha
      apply ih
      · intro u hu
        rcases List.mem_cons.1 hu with rfl | hu
        · unfold Spec.wfTable unifyTables
          simp only []
          exact ⟨le_trans (min_le_left _ _) (le_trans (min_le_left _ _) (le_max_left _ _)), le_max_left _ _⟩
        · exact hwf u (by simp [hu])
      · intro u hu
        rcases List.mem_cons.1 hu with rfl | hu
        · unfold unifyTables
          simp only [max_lt_iff]
          exact ⟨⟨by linarith [ht.2], by linarith [ha.2]⟩, ht', ha'⟩
        · exact h u (by simp [hu])
  have bndL : ∀ (l : List RelTable) (t : RelTable) (L : ℚ), (∀ u ∈ t :: l, Spec.wfTable u) → (∀ u ∈ t :: l, L < u.lower) →
      L < (l.foldl unifyTables t).lower := by
    intro l
    induction l with
    | nil => intro t U _ h; exact h t (by simp)
    | cons a l ih =>
      intro t U hwf h
      rw [List.foldl_cons]
      have ht := hwf t (by simp)
      have ha := hwf a (by simp)
      have ht' := h t (by simp)
      have ha' := h a (by simp)
      unfold Spec.wfTable at ht ha
      apply ih
      · intro u hu
        rcases List.mem_cons.1 hu with rfl | hu
        · unfold Spec.wfTable unifyTables
          simp only []
          exact ⟨le_trans (min_le_left _ _) (le_trans (min_le_left _ _) (le_max_left _ _)), le_max_left _ _⟩
        · exact hwf u (by simp [hu])
      · intro u hu
        rcases List.mem_cons.1 hu with rfl | hu
        · unfold unifyTables
          simp only [lt_min_iff]
          exact ⟨⟨by linarith [ht.1], by linarith [ha.1]⟩, ht', ha'⟩
        · exact h u (by simp [hu])
  obtain ⟨a, m1, rfl⟩ := List.exists_cons_of_ne_nil h1
  obtain ⟨b, m2, rfl⟩ := List.exists_cons_of_ne_nil h2
  obtain ⟨p1, p2, p3⟩ := List.pairwise_append.1 hord
  have hlt : (m1.foldl unifyTables a).upper < (m2.foldl unifyTables b).lower := by
    apply bndL m2 b _ (fun u hu => hw u (List.mem_append_right _ hu))
    intro u hu
    apply bnd m1 a _ (fun v hv => hw v (List.mem_append_left _ hv))
    intro v hv
    exact p3 v hv u hu
  refine ⟨_, _, unifyTables (m1.foldl unifyTables a) (m2.foldl unifyTables b), agg a m1 p1, agg b m2 p2, ?_, ?_⟩
  · rw [agg _ _ (by simpa using hlt)]; rfl
  · rw [List.cons_append, agg a _ (by simpa using hord), List.foldl_append, List.foldl_cons, foldl_unify]

/-- C34 (finding): two tables without overlap are aggregated in chronological order but refused, as if overlapping, in the
opposite order. -/
theorem C34_order_refuted :
    let a : RelTable := ⟨[⟨1, 2, 3⟩], 10, 0, 10⟩
    let b : RelTable := ⟨[⟨1, 1, 2⟩], 30, 20, 30⟩
    aggregateTables [a, b] = .ok ⟨[⟨2, 3, 5⟩], 30, 0, 30⟩ ∧ aggregateTables [b, a] = .error .valueError := by decide +kernel

end Improver
