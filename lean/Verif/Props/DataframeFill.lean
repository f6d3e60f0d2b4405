import Verif.Model.Dataframe
import Mathlib.Tactic

/-!
C193-C196: training dates, selection of forecasts, missing entries and static columns of calibration tables.
-/

namespace Improver

/-! ## Lists -/

theorem mem_firstSeen {α : Type} [DecidableEq α] (l : List α) (a : α) : a ∈ firstSeen l ↔ a ∈ l := by
  induction l with
  | nil => simp [firstSeen]
  | cons b l ih =>
    simp only [firstSeen, List.mem_cons, List.mem_filter, decide_eq_true_eq, ih]
    by_cases h : a = b <;> simp [h]

theorem nodup_firstSeen {α : Type} [DecidableEq α] (l : List α) : (firstSeen l).Nodup := by
  induction l with
  | nil => simp [firstSeen]
  | cons b l ih =>
    simp only [firstSeen, List.nodup_cons, List.mem_filter, decide_eq_true_eq]
    exact ⟨fun h => h.2 rfl, ih.filter _⟩

theorem firstSeen_const {α : Type} [DecidableEq α] (l : List α) (v : α) (hl : l ≠ []) (h : ∀ a ∈ l, a = v) :
    firstSeen l = [v] := by
  induction l with
  | nil => exact absurd rfl hl
  | cons b l ih =>
    have hb : b = v := h b (by simp)
    subst hb
    simp only [firstSeen, List.cons.injEq, true_and, List.filter_eq_nil_iff, decide_eq_true_eq, not_not]
    intro a ha
    exact h a (List.mem_cons_of_mem _ ((mem_firstSeen _ _).1 ha))

theorem find_key_iff {ρ κ : Type} [DecidableEq κ] (key : ρ → κ) (l : List ρ) (hl : (l.map key).Nodup) (k : κ) (r : ρ) :
    l.find? (fun x => decide (key x = k)) = some r ↔ r ∈ l ∧ key r = k := by
  induction l with
  | nil => simp
  | cons a l ih =>
    rw [List.map_cons, List.nodup_cons] at hl
    rw [List.find?_cons]
    by_cases ha : key a = k
    · simp only [ha, decide_true, Option.some.injEq, List.mem_cons]
      constructor
      · rintro rfl; exact ⟨.inl rfl, ha⟩
      · rintro ⟨h | h, hk⟩
        · exact h.symm
        · exact absurd (List.mem_map.2 ⟨r, h, hk.trans ha.symm⟩) hl.1
    · simp only [ha, decide_false, List.mem_cons, ih hl.2]
      constructor
      · rintro ⟨h, hk⟩; exact ⟨.inr h, hk⟩
      · rintro ⟨h | h, hk⟩
        · exact absurd (h ▸ hk) ha
        · exact ⟨h, hk⟩

theorem mem_dropDupLast {ρ κ : Type} [DecidableEq κ] (key : ρ → κ) (l : List ρ) :
    ∀ r ∈ dropDupLast key l, r ∈ l := by
  induction l with
  | nil => simp [dropDupLast]
  | cons a l ih =>
    intro r hr
    unfold dropDupLast at hr
    by_cases h : key a ∈ l.map key
    · rw [if_pos h] at hr; exact List.mem_cons_of_mem _ (ih r hr)
    · rw [if_neg h] at hr
      rcases List.mem_cons.1 hr with rfl | hr
      · simp
      · exact List.mem_cons_of_mem _ (ih r hr)

theorem dropDupLast_nodup {ρ κ : Type} [DecidableEq κ] (key : ρ → κ) (l : List ρ) :
    ((dropDupLast key l).map key).Nodup := by
  induction l with
  | nil => simp [dropDupLast]
  | cons a l ih =>
    unfold dropDupLast
    by_cases h : key a ∈ l.map key
    · rw [if_pos h]; exact ih
    · rw [if_neg h, List.map_cons, List.nodup_cons]
      refine ⟨fun hm => h ?_, ih⟩
      obtain ⟨r, hr, he⟩ := List.mem_map.1 hm
      exact List.mem_map.2 ⟨r, mem_dropDupLast key l r hr, he⟩

theorem dropDupLast_find {ρ κ : Type} [DecidableEq κ] (key : ρ → κ) (l : List ρ) (k : κ) :
    (dropDupLast key l).find? (fun x => decide (key x = k)) = l.reverse.find? fun x => decide (key x = k) := by
  induction l with
  | nil => rfl
  | cons a l ih =>
    unfold dropDupLast
    rw [List.reverse_cons, List.find?_append]
    by_cases hm : key a ∈ l.map key
    · rw [if_pos hm, ih]
      by_cases hk : key a = k
      · obtain ⟨r, hr, he⟩ := List.mem_map.1 hm
        cases hf : l.reverse.find? (fun x => decide (key x = k)) with
        | some x => rfl
        | none =>
          exact absurd (List.find?_eq_none.1 hf r (List.mem_reverse.2 hr)) (by simp [he, hk])
      · simp [hk]
    · rw [if_neg hm, List.find?_cons]
      by_cases hk : key a = k
      · cases hf : l.reverse.find? (fun x => decide (key x = k)) with
        | some x =>
          refine absurd (List.mem_map.2 ⟨x, List.mem_reverse.1 (List.mem_of_find?_eq_some hf), ?_⟩) hm
          have := List.find?_some hf
          rw [decide_eq_true_eq] at this
          rw [this, hk]
        | none => simp [hk]
      · simp only [hk, decide_false]
        rw [ih]; simp [hk]

/-! ## Training dates -/

/-- C193: there are as many dates as asked for, each a day after the one before and at the time of day at which the forecast
is valid; the last is before the cycle and not more than a day before it. -/
theorem C193_training_dates (cycle period : ℤ) (length : ℕ) :
    (trainingDates cycle period length).length = length ∧
    (∀ k, k + 1 < length →
      (trainingDates cycle period length).getD (k + 1) 0 = (trainingDates cycle period length).getD k 0 + 86400) ∧
    (∀ d ∈ trainingDates cycle period length, d < cycle ∧ d % 86400 = (cycle + period) % 86400 ∧
      cycle - 86400 * length ≤ d) ∧
    (0 < length → ∃ d ∈ trainingDates cycle period length, cycle - 86400 ≤ d) := by
  have key : ∀ k, k < length → (trainingDates cycle period length).getD k 0 =
      cycle + period - 86400 - period / 86400 * 86400 - ((length : ℤ) - 1 - k) * 86400 := by
    intro k hk
    simp [trainingDates, List.getD_eq_getElem?_getD, hk]
  refine ⟨by simp [trainingDates], ?_, ?_, ?_⟩
  · intro k hk
    rw [key _ hk, key k (by omega)]
    push_cast; ring
  · intro d hd
    simp only [trainingDates, List.mem_map, List.mem_range] at hd
    obtain ⟨k, hk, rfl⟩ := hd
    have hk' : (k : ℤ) ≤ length - 1 := by omega
    have h0 : (0 : ℤ) ≤ k := by omega
    refine ⟨by omega, by omega, by omega⟩
  · intro h0
    refine ⟨_, List.mem_map.2 ⟨length - 1, List.mem_range.2 (by omega), rfl⟩, ?_⟩
    have : ((length - 1 : ℕ) : ℤ) = length - 1 := by omega
    rw [this]; omega

/-- Three days of training for a 30 hour forecast of the cycle at noon on day 10. -/
example : trainingDates (10 * 86400 + 43200) (30 * 3600) 3 =
    [7 * 86400 + 64800, 8 * 86400 + 64800, 9 * 86400 + 64800] := by decide

/-- The last date is the latest of its time of day before the cycle: no day is left out. -/
theorem C193_training_dates_latest (cycle period d : ℤ) (length : ℕ) (hl : 0 < length)
    (hd : d % 86400 = (cycle + period) % 86400) (hc : d < cycle) (hr : cycle - 86400 * length ≤ d) :
    d ∈ trainingDates cycle period length := by
  simp only [trainingDates, List.mem_map, List.mem_range]
  have h2 : (cycle + period - 86400 - period / 86400 * 86400 - d) % 86400 = 0 := by omega
  obtain ⟨q, hq⟩ : ∃ q, cycle + period - 86400 - period / 86400 * 86400 - d = 86400 * q :=
    ⟨_, (Int.mul_ediv_cancel' (Int.dvd_of_emod_eq_zero h2)).symm⟩
  have hq0 : 0 ≤ q := by omega
  have hq1 : q ≤ length - 1 := by
    have : 86400 * q < 86400 * length := by omega
    omega
  refine ⟨length - 1 - q.toNat, by omega, ?_⟩
  have : ((length - 1 - q.toNat : ℕ) : ℤ) = length - 1 - q := by omega
  rw [this]; omega

example : (8 * 86400 + 64800 : ℤ) % 86400 = (10 * 86400 + 43200 + 30 * 3600) % 86400 := by decide

/-! ## Selection -/

/-- What is asked of a forecast: experiment, forecast period. -/
def Asked (experiment : Option String) (period : ℤ) (x : FcEntry) : Prop :=
  (∀ e, experiment = some e → e ≠ "" → x.experiment = e) ∧ x.period = period

instance (experiment : Option String) (period : ℤ) : DecidablePred (Asked experiment period) := fun x =>
  match experiment with
  | none => decidable_of_iff (x.period = period) (by simp [Asked])
  | some e => decidable_of_iff ((e ≠ "" → x.experiment = e) ∧ x.period = period) (by simp [Asked])

theorem asked_filter (experiment : Option String) (period : ℤ) (entries : List FcEntry) :
    (ofExperiment experiment entries).filter
        (fun x => decide (x.period = period)) = entries.filter fun x => decide (Asked experiment period x) := by
  cases experiment with
  | none => exact List.filter_congr fun x _ => by simp [Asked]
  | some e =>
    by_cases he : e = ""
    · simp only [ofExperiment, if_pos he]
      exact List.filter_congr fun x _ => by simp [Asked, he]
    · simp only [ofExperiment, if_neg he, List.filter_filter]
      exact List.filter_congr fun x _ => by simp [Asked, he, and_comm]

theorem firstSeen_short {α : Type} [DecidableEq α] (l : List α) :
    ¬ (firstSeen l).length > 1 ↔ ∀ a ∈ l, ∀ b ∈ l, a = b := by
  constructor
  · intro h a ha b hb
    rw [← mem_firstSeen] at ha hb
    match hf : firstSeen l with
    | [] => rw [hf] at ha; simp at ha
    | [c] => rw [hf] at ha hb; simp at ha hb; rw [ha, hb]
    | c :: d :: t => rw [hf] at h; simp at h
  · intro h
    cases l with
    | nil => simp [firstSeen]
    | cons a l => rw [firstSeen_const (a :: l) a (by simp) fun b hb => h b hb a (by simp)]; simp

/-- C194: the selection succeeds exactly if the forecasts asked for are of one experiment, percentiles are only asked for if
there are any, and percentiles, as they are first seen, are close to equally spaced quantiles; then it gives exactly the
forecasts of that experiment, period and, if given, percentiles, in their order. -/
theorem C194_selection (experiment : Option String) (period : ℤ) (percentiles : List ℚ) (isPercentile : Bool)
    (entries : List FcEntry) (rows : List DfRow) :
    selectForecasts experiment period percentiles isPercentile entries = .ok rows ↔
      (∀ a ∈ entries, Asked experiment period a → ∀ b ∈ entries, Asked experiment period b →
        a.experiment = b.experiment) ∧
      (percentiles ≠ [] → isPercentile = true) ∧
      rows = ((entries.filter fun x => decide (Asked experiment period x)).map FcEntry.row).filter
        (fun r => decide (percentiles = [] ∨ ∃ p ∈ percentiles, |r.rep - p| ≤ 1 / 100000000 + 1 / 100000 * |p|)) ∧
      (isPercentile = true → quantileCheck rows = .ok ()) := by
  unfold selectForecasts
  simp only [bind, Except.bind]
  rw [asked_filter]
  have hone : (¬ (firstSeen ((entries.filter fun x => decide (Asked experiment period x)).map
      FcEntry.experiment)).length > 1) ↔ (∀ a ∈ entries, Asked experiment period a → ∀ b ∈ entries,
        Asked experiment period b → a.experiment = b.experiment) := by
    rw [firstSeen_short]
    simp only [List.forall_mem_map, List.mem_filter, decide_eq_true_eq]
    exact ⟨fun h a ha qa b hb qb => h a ⟨ha, qa⟩ b ⟨hb, qb⟩, fun h a ha b hb => h a ha.1 ha.2 b hb.1 hb.2⟩
  by_cases h1 : (firstSeen ((entries.filter fun x => decide (Asked experiment period x)).map
      FcEntry.experiment)).length > 1
  · rw [if_pos h1]
    exact ⟨fun h => (nomatch h), fun h => absurd h1 (hone.2 h.1)⟩
  · rw [if_neg h1]
    have hone' := hone.1 h1
    by_cases hp : percentiles = []
    · subst hp
      simp only [if_true, ne_eq, not_true_eq_false, false_implies, true_or, decide_true, List.filter_true, true_and]
      cases isPercentile with
      | false =>
        simp only [Bool.false_eq_true, if_false, false_implies, and_true, Except.ok.injEq]
        exact ⟨fun h => ⟨hone', h.symm⟩, fun h => h.2.symm⟩
      | true =>
        simp only [if_true, true_implies]
        constructor
        · intro h
          cases hq : quantileCheck (List.map FcEntry.row
              (List.filter (fun x => decide (Asked experiment period x)) entries)) with
          | error e => rw [hq] at h; exact nomatch h
          | ok u => rw [hq] at h; obtain rfl := Except.ok.inj h; exact ⟨hone', rfl, hq⟩
        · rintro ⟨_, rfl, hq⟩; rw [hq]
    · have hn : ∀ r : DfRow, nearAny percentiles r =
          decide (percentiles = [] ∨ ∃ p ∈ percentiles, |r.rep - p| ≤ 1 / 100000000 + 1 / 100000 * |p|) := by
        intro r
        simp only [nearAny, hp, false_or]
        rw [Bool.eq_iff_iff, List.any_eq_true, decide_eq_true_eq]
        simp only [npIsclose, decide_eq_true_eq]
      have hn' : nearAny percentiles = fun r => decide (percentiles = [] ∨
          ∃ p ∈ percentiles, |r.rep - p| ≤ 1 / 100000000 + 1 / 100000 * |p|) := funext hn
      simp only [if_neg hp, hn']
      cases isPercentile with
      | false => exact ⟨fun h => (nomatch h), fun h => (nomatch h.2.1 hp)⟩
      | true =>
        simp only [if_true, true_implies, implies_true, true_and]
        constructor
        · intro h
          generalize hr : List.filter _ (List.map FcEntry.row _) = rs at h ⊢
          cases hq : quantileCheck rs with
          | error e => rw [hq] at h; exact nomatch h
          | ok u => rw [hq] at h; obtain rfl := Except.ok.inj h; exact ⟨hone', rfl, hq⟩
        · rintro ⟨_, rfl, hq⟩; rw [hq]

/-- C194: the check of percentiles is the one for quantiles: of `n` different percentiles the one seen first is close to
`100 / (n + 1)`, the next to twice that and so on. -/
theorem C194_quantiles (rows : List DfRow) :
    quantileCheck rows = .ok () ↔ ∀ i (h : i < (firstSeen (rows.map DfRow.rep)).length),
      |(chooseSetOfPercentiles (firstSeen (rows.map DfRow.rep)).length).getD i 0 -
        (firstSeen (rows.map DfRow.rep))[i]| ≤ 1 / 100000000 + 1 / 100000 * |(firstSeen (rows.map DfRow.rep))[i]| := by
  unfold quantileCheck
  generalize firstSeen (rows.map DfRow.rep) = seen
  have hlen : (chooseSetOfPercentiles seen.length).length = seen.length := by
    simp [chooseSetOfPercentiles, npLinspace]
  simp only
  by_cases h : (List.zipWith (fun e s => npIsclose e s) (chooseSetOfPercentiles seen.length) seen).all id = true
  · rw [if_pos h]
    simp only [true_iff]
    intro i hi
    rw [List.all_eq_true] at h
    have := h _ (List.getElem_mem (l := List.zipWith (fun e s => npIsclose e s) (chooseSetOfPercentiles seen.length) seen)
      (n := i) (by simp [hlen, hi]))
    simp only [List.getElem_zipWith, id, npIsclose, decide_eq_true_eq] at this
    rw [List.getD_eq_getElem _ _ (by rw [hlen]; exact hi)]
    exact this
  · rw [if_neg h]
    refine ⟨fun h => (nomatch h), fun hall => absurd ?_ h⟩
    rw [List.all_eq_true]
    intro b hb
    obtain ⟨i, hi, rfl⟩ := List.getElem_of_mem hb
    have hi' : i < seen.length := by simpa [hlen] using hi
    simp only [List.getElem_zipWith, id, npIsclose, decide_eq_true_eq]
    have := hall i hi'
    rwa [List.getD_eq_getElem _ _ (by rw [hlen]; exact hi')] at this

/-- A row for examples. -/
def exRow (site : String) (time : ℤ) (rep v alt : ℚ) : DfRow :=
  ⟨site, time, rep, some v, fun c => if c = "altitude" then some (.num alt) else none⟩

/-- Of two experiments and two periods, one of each is kept, and the percentile 50 of 50 alone is a quantile. -/
example : (selectForecasts (some "a") 3600 [] true
    [⟨exRow "1" 0 50 7 0, 3600, "a"⟩, ⟨exRow "1" 0 50 8 0, 7200, "a"⟩, ⟨exRow "1" 0 50 9 0, 3600, "b"⟩]).toOption.map
      (List.map DfRow.value) = some [some 7] := by decide +kernel

/-- Without a choice of experiment there are two. -/
example : (selectForecasts none 3600 [] true
    [⟨exRow "1" 0 50 7 0, 3600, "a"⟩, ⟨exRow "1" 0 50 9 0, 3600, "b"⟩]).toOption.isNone = true := by decide +kernel

/-- C194: quantiles must be seen in ascending order: the same two forecasts pass in one order and fail in the other. -/
theorem C194_order_matters_refuted :
    quantileCheck [exRow "1" 0 (100 / 3) 0 0, exRow "1" 0 (200 / 3) 0 0] = .ok () ∧
    quantileCheck [exRow "1" 0 (200 / 3) 0 0, exRow "1" 0 (100 / 3) 0 0] = .error .valueError := by
  constructor <;> decide +kernel

/-! ## Filling one column -/

/-- Each missing value is the last before it that is there. -/
def ffill (last : Option DfVal) : List (Option DfVal) → List (Option DfVal)
  | [] => []
  | v :: l => v.or last :: ffill (v.or last) l

/-- The last value there is, `last` if there is none. -/
def lastOf (last : Option DfVal) : List (Option DfVal) → Option DfVal
  | [] => last
  | v :: l => lastOf (v.or last) l

theorem ffillBy_block (s : String) (vs : List (Option DfVal)) :
    ∀ (last : String → Option DfVal) (rest : List (String × Option DfVal)),
    ffillBy last (vs.map (fun v => (s, v)) ++ rest) =
      ffill (last s) vs ++ ffillBy (Function.update last s (lastOf (last s) vs)) rest := by
  induction vs with
  | nil => intro last rest; simp [ffill, lastOf]
  | cons v vs ih =>
    intro last rest
    simp only [List.map_cons, List.cons_append, ffillBy, ffill, lastOf]
    rw [ih]
    simp

theorem bfill_append (a b : List (Option DfVal)) (x : DfVal) (h : a.getLast? = some (some x)) :
    bfill (a ++ b) = bfill a ++ bfill b := by
  induction a with
  | nil => simp at h
  | cons v a ih =>
    cases a with
    | nil =>
      simp only [List.getLast?_singleton, Option.some.injEq] at h
      subst h
      simp [bfill]
    | cons w a =>
      rw [List.getLast?_cons_cons] at h
      have e : bfill (v :: (w :: a) ++ b) = v.or ((bfill (w :: a ++ b)).head?.join) :: bfill (w :: a ++ b) := rfl
      rw [e, ih h]
      simp [bfill]

theorem ffill_last (vs : List (Option DfVal)) : ∀ (last : Option DfVal), vs ≠ [] →
    (ffill last vs).getLast? = some (lastOf last vs) := by
  induction vs with
  | nil => intro last h; exact absurd rfl h
  | cons v vs ih =>
    intro last _
    cases vs with
    | nil => rfl
    | cons w vs =>
      have := ih (v.or last) (by simp)
      simp only [ffill, List.getLast?_cons_cons] at this ⊢
      exact this

theorem lastOf_isSome (vs : List (Option DfVal)) : ∀ (last : Option DfVal),
    (∃ v ∈ vs, v.isSome = true) ∨ last.isSome = true → (lastOf last vs).isSome = true := by
  induction vs with
  | nil => intro last h; simpa [lastOf] using h
  | cons v vs ih =>
    intro last h
    apply ih
    rcases h with ⟨w, hw, hs⟩ | h
    · rcases List.mem_cons.1 hw with rfl | hw
      · right; cases w with
        | none => simp at hs
        | some a => rfl
      · exact .inl ⟨w, hw, hs⟩
    · right
      cases v with
      | none => simpa using h
      | some a => rfl

/-- Filling of the values of one site. -/
def siteFill (vs : List (Option DfVal)) : List (Option DfVal) := bfill (ffill none vs)

theorem ffill_length (vs : List (Option DfVal)) : ∀ last, (ffill last vs).length = vs.length := by
  induction vs with
  | nil => intro _; rfl
  | cons v vs ih => intro last; simp [ffill, ih]

theorem bfill_length (vs : List (Option DfVal)) : (bfill vs).length = vs.length := by
  induction vs with
  | nil => rfl
  | cons v vs ih => simp [bfill, ih]

theorem siteFill_length (vs : List (Option DfVal)) : (siteFill vs).length = vs.length := by
  rw [siteFill, bfill_length, ffill_length]

/-- The whole column, if each site has a value. -/
theorem fill_blocks (val : String → List (Option DfVal)) (sites : List String) (hn : sites.Nodup) :
    ∀ (last : String → Option DfVal), (∀ s ∈ sites, last s = none) →
    (∀ s ∈ sites, ∃ v ∈ val s, v.isSome = true) →
    bfill (ffillBy last (sites.flatMap fun s => (val s).map fun v => (s, v))) = sites.flatMap fun s => siteFill (val s) := by
  induction sites with
  | nil => intro _ _ _; rfl
  | cons s sites ih =>
    intro last h0 hv
    rw [List.nodup_cons] at hn
    rw [List.flatMap_cons, ffillBy_block, List.flatMap_cons, h0 s (by simp)]
    obtain ⟨v, hv1, hv2⟩ := hv s (by simp)
    have hne : val s ≠ [] := by rintro h; rw [h] at hv1; simp at hv1
    obtain ⟨x, hx⟩ := Option.isSome_iff_exists.1 (lastOf_isSome (val s) none (.inl ⟨v, hv1, hv2⟩))
    rw [bfill_append _ _ x (by rw [ffill_last _ _ hne, hx]), ih hn.2]
    · rfl
    · intro t ht
      rw [Function.update_of_ne (by rintro rfl; exact hn.1 ht)]
      exact h0 t (List.mem_cons_of_mem _ ht)
    · exact fun t ht => hv t (List.mem_cons_of_mem _ ht)

theorem ffill_missing (vs : List (Option DfVal)) (h : ∀ v ∈ vs, v = none) : ffill none vs = vs := by
  induction vs with
  | nil => rfl
  | cons v vs ih =>
    obtain rfl := h v (by simp)
    simp only [ffill, Option.or_none]
    rw [ih fun w hw => h w (List.mem_cons_of_mem _ hw)]

theorem bfill_missing (vs : List (Option DfVal)) (h : ∀ v ∈ vs, v = none) : bfill vs = vs := by
  induction vs with
  | nil => rfl
  | cons v vs ih =>
    obtain rfl := h v (by simp)
    have ht : ∀ w ∈ vs, w = none := fun w hw => h w (List.mem_cons_of_mem _ hw)
    simp only [bfill]
    rw [ih ht]
    cases vs with
    | nil => rfl
    | cons w vs => rw [ht w (by simp)]; rfl

theorem ffillBy_missing (xs : List (String × Option DfVal)) (h : ∀ x ∈ xs, x.2 = none) :
    ∀ last : String → Option DfVal, (∀ s, last s = none) → ffillBy last xs = xs.map Prod.snd := by
  induction xs with
  | nil => intro _ _; rfl
  | cons x xs ih =>
    intro last hl
    have hx := h x (by simp)
    simp only [ffillBy, List.map_cons, hx, hl, Option.or_none]
    rw [ih (fun y hy => h y (List.mem_cons_of_mem _ hy))]
    intro s
    by_cases hs : s = x.1
    · subst hs; simp
    · rw [Function.update_of_ne hs, hl]

/-! What filling does to the values of a site. -/

theorem ffill_get (vs : List (Option DfVal)) : ∀ (last : Option DfVal) (i : ℕ) (h : i < vs.length),
    (ffill last vs)[i]'(by rw [ffill_length]; exact h) = lastOf last (vs.take (i + 1)) := by
  induction vs with
  | nil => intro _ i h; simp at h
  | cons v vs ih =>
    intro last i h
    cases i with
    | zero => simp [ffill, lastOf]
    | succ i =>
      simp only [ffill, List.getElem_cons_succ, List.take_succ_cons, lastOf]
      exact ih _ i (by simpa using h)

theorem lastOf_eq (vs : List (Option DfVal)) : ∀ last : Option DfVal,
    lastOf last vs = ((vs.filterMap id).getLast?).or last := by
  induction vs with
  | nil => intro last; simp [lastOf]
  | cons v vs ih =>
    intro last
    simp only [lastOf]
    rw [ih]
    cases v with
    | none => simp
    | some a =>
      have e : (some a :: vs).filterMap id = a :: vs.filterMap id := by simp
      rw [e, List.getLast?_cons]
      cases (vs.filterMap id).getLast? <;> simp

theorem bfill_get (vs : List (Option DfVal)) : ∀ (i : ℕ) (h : i < vs.length),
    (bfill vs)[i]'(by rw [bfill_length]; exact h) = ((vs.drop i).filterMap id).head? := by
  have hd : ∀ vs : List (Option DfVal), (bfill vs).head?.join = (vs.filterMap id).head? := by
    intro vs
    induction vs with
    | nil => rfl
    | cons v vs ih =>
      simp only [bfill, List.head?_cons, Option.join_some]
      cases v with
      | none => simpa using ih
      | some a => simp
  intro i h
  induction vs generalizing i with
  | nil => simp at h
  | cons v vs ih =>
    cases i with
    | zero =>
      simp only [bfill, List.getElem_cons_zero, List.drop_zero, hd]
      cases v with
      | none => simp
      | some a => simp
    | succ i =>
      simp only [bfill, List.getElem_cons_succ, List.drop_succ_cons]
      exact ih i (by simpa using h)

/-- Each value of a site is, after filling, the last one up to it that is there, else the first one that is there. -/
theorem siteFill_get (vs : List (Option DfVal)) (i : ℕ) (h : i < vs.length) :
    (siteFill vs)[i]'(by rw [siteFill_length]; exact h) =
      (((vs.take (i + 1)).filterMap id).getLast?).or ((vs.filterMap id).head?) := by
  unfold siteFill
  have h' : i < (ffill none vs).length := by rw [ffill_length]; exact h
  rw [bfill_get _ i h', List.drop_eq_getElem_cons h', ffill_get vs none i h, lastOf_eq]
  cases hl : (((vs.take (i + 1)).filterMap id).getLast?) with
  | some x => simp
  | none =>
    rw [List.getLast?_eq_none_iff] at hl
    simp only [Option.none_or, List.filterMap_cons, id]
    have e : vs.filterMap id = (vs.drop (i + 1)).filterMap id := by
      conv_lhs => rw [← List.take_append_drop (i + 1) vs, List.filterMap_append, hl, List.nil_append]
    have key : ∀ (l : List (Option DfVal)) (n : ℕ), (l.take n).filterMap id = [] →
        (((ffill none l).drop n).filterMap id).head? = ((l.drop n).filterMap id).head? := by
      intro l
      induction l with
      | nil => intro n _; simp [ffill]
      | cons v l ih =>
        intro n hn
        cases n with
        | zero =>
          have : ∀ (l : List (Option DfVal)), ((ffill none l).filterMap id).head? = (l.filterMap id).head? := by
            intro l
            induction l with
            | nil => rfl
            | cons v l ih =>
              cases v with
              | none => simpa [ffill] using ih
              | some a => simp [ffill]
          simpa using this (v :: l)
        | succ n =>
          rw [List.take_succ_cons] at hn
          cases v with
          | some a => simp at hn
          | none =>
            simp only [ffill, Option.or_none, List.drop_succ_cons]
            exact ih n (by simpa using hn)
    have := key vs (i + 1) hl
    rw [← e] at this
    exact this

/-! ## Filling a frame -/

/-- The columns of a combination in the order of `DfRow.key`. -/
def comboKey (k : String × ℤ × ℚ) : ℤ × ℚ × String := (k.2.1, k.2.2, k.1)

theorem rowAt_find (df : List DfRow) (k : String × ℤ × ℚ) :
    rowAt df k = ((df.find? fun r => decide (r.key = comboKey k)).getD ⟨k.1, k.2.1, k.2.2, none, fun _ => none⟩) := by
  have e : (fun r : DfRow => decide (r.site = k.1 ∧ r.time = k.2.1 ∧ r.rep = k.2.2)) =
      fun r => decide (r.key = comboKey k) := by
    funext r
    simp only [DfRow.key, comboKey, Prod.mk.injEq]
    congr 1
    exact propext ⟨fun h => ⟨h.2.1, h.2.2, h.1⟩, fun h => ⟨h.2.2, h.1, h.2.1⟩⟩
  unfold rowAt
  rw [e]
  cases df.find? fun r => decide (r.key = comboKey k) <;> rfl

theorem rowAt_key (df : List DfRow) (k : String × ℤ × ℚ) : (rowAt df k).key = comboKey k := by
  rw [rowAt_find]
  cases h : df.find? fun r => decide (r.key = comboKey k) with
  | none => rfl
  | some r => simpa using List.find?_some h

theorem rowAt_site (df : List DfRow) (k : String × ℤ × ℚ) : (rowAt df k).site = k.1 := by
  have := rowAt_key df k
  simp only [DfRow.key, comboKey, Prod.mk.injEq] at this
  exact this.2.2

theorem rowAt_value (df : List DfRow) (k : String × ℤ × ℚ) :
    (rowAt df k).value = (df.find? fun r => decide (r.key = comboKey k)).bind DfRow.value := by
  rw [rowAt_find]
  cases df.find? fun r => decide (r.key = comboKey k) <;> rfl

theorem rowAt_mem (df : List DfRow) (hn : (df.map DfRow.key).Nodup) (r : DfRow) (hr : r ∈ df) :
    rowAt df (r.site, r.time, r.rep) = r := by
  rw [rowAt_find, (find_key_iff DfRow.key df hn (comboKey (r.site, r.time, r.rep)) r).2 ⟨hr, rfl⟩]
  rfl

theorem mem_combinations (df : List DfRow) (k : String × ℤ × ℚ) :
    k ∈ combinations df ↔ k.1 ∈ df.map DfRow.site ∧ k.2.1 ∈ df.map DfRow.time ∧ k.2.2 ∈ df.map DfRow.rep := by
  obtain ⟨s, t, p⟩ := k
  simp only [combinations, List.mem_flatMap, mem_firstSeen]
  constructor
  · rintro ⟨s', hs, t', ht, h⟩
    obtain ⟨p', hp, h⟩ := List.mem_map.1 h
    obtain ⟨rfl, rfl, rfl⟩ := h
    exact ⟨hs, ht, (mem_firstSeen _ _).1 hp⟩
  · rintro ⟨hs, ht, hp⟩
    exact ⟨s, hs, t, ht, List.mem_map.2 ⟨p, (mem_firstSeen _ _).2 hp, rfl⟩⟩

theorem nodup_combinations (df : List DfRow) : (combinations df).Nodup := by
  unfold combinations
  rw [List.nodup_flatMap]
  refine ⟨fun s _ => ?_, (nodup_firstSeen _).imp fun {a b} hab => ?_⟩
  · rw [List.nodup_flatMap]
    refine ⟨fun t _ => ?_, (nodup_firstSeen _).imp fun {a b} hab => ?_⟩
    · exact (nodup_firstSeen _).map fun p q h => by simpa using h
    · intro x hx hy
      obtain ⟨_, _, rfl⟩ := List.mem_map.1 hx
      obtain ⟨_, _, h⟩ := List.mem_map.1 hy
      simp only [Prod.mk.injEq] at h
      exact hab h.2.1.symm
  · intro x hx hy
    obtain ⟨_, _, hx⟩ := List.mem_flatMap.1 hx
    obtain ⟨_, _, rfl⟩ := List.mem_map.1 hx
    obtain ⟨_, _, hy⟩ := List.mem_flatMap.1 hy
    obtain ⟨_, _, h⟩ := List.mem_map.1 hy
    simp only [Prod.mk.injEq] at h
    exact hab h.1.symm

theorem ffillBy_length (xs : List (String × Option DfVal)) : ∀ last, (ffillBy last xs).length = xs.length := by
  induction xs with
  | nil => intro _; rfl
  | cons x xs ih => intro last; simp [ffillBy, ih]

theorem fillStatic_length (rows : List DfRow) (c : String) : (fillStatic rows c).length = rows.length := by
  rw [fillStatic, bfill_length, ffillBy_length, List.length_map]

theorem fillMissing_ok (cols : List String) (df out : List DfRow) (hne : df ≠ []) (h : fillMissing cols df = .ok out) :
    (df.map DfRow.key).Nodup ∧
      out = ((combinations df).map (rowAt df)).mapIdx (withFilled cols ((combinations df).map (rowAt df))) := by
  unfold fillMissing at h
  rw [if_neg hne] at h
  by_cases hn : (df.map DfRow.key).Nodup
  · rw [if_neg (not_not.2 hn)] at h
    exact ⟨hn, (Except.ok.inj h).symm⟩
  · rw [if_pos hn] at h
    exact nomatch h

theorem out_get (cols : List String) (df : List DfRow) (r' : DfRow)
    (h : r' ∈ ((combinations df).map (rowAt df)).mapIdx (withFilled cols ((combinations df).map (rowAt df)))) :
    ∃ i, ∃ hi : i < (combinations df).length,
      r' = withFilled cols ((combinations df).map (rowAt df)) i (rowAt df (combinations df)[i]) := by
  obtain ⟨i, hi, rfl⟩ := List.getElem_of_mem h
  have hi' : i < (combinations df).length := by simpa using hi
  exact ⟨i, hi', by simp⟩

theorem ffillBy_keep (xs : List (String × Option DfVal)) : ∀ (last : String → Option DfVal) (i : ℕ) (h : i < xs.length)
    (v : DfVal), xs[i].2 = some v → (ffillBy last xs)[i]'(by rw [ffillBy_length]; exact h) = some v := by
  induction xs with
  | nil => intro _ i h; simp at h
  | cons x xs ih =>
    intro last i h v hv
    cases i with
    | zero => simp only [List.getElem_cons_zero] at hv; simp [ffillBy, hv]
    | succ i => exact ih _ i (by simpa using h) v (by simpa using hv)

theorem fillStatic_keep (rows : List DfRow) (c : String) (i : ℕ) (h : i < rows.length) (v : DfVal)
    (hv : rows[i].static c = some v) : (fillStatic rows c)[i]'(by rw [fillStatic_length]; exact h) = some v := by
  have hx : i < (rows.map fun r => (r.site, r.static c)).length := by simpa using h
  have := ffillBy_keep (rows.map fun r => (r.site, r.static c)) (fun _ => none) i hx v (by simpa using hv)
  have hy : i < (ffillBy (fun _ => none) (rows.map fun r => (r.site, r.static c))).length := by
    rw [ffillBy_length]; exact hx
  unfold fillStatic
  rw [bfill_get _ i hy, List.drop_eq_getElem_cons hy, this]
  simp

/-- C195: filling succeeds on frames without repeated rows, and then has exactly one row for every combination of a site, a
time and a percentile or realization of the frame.  A row that was there keeps its value and its columns (missing ones may be
filled); a new row has no value. -/
theorem C195_fill (cols : List String) (df out : List DfRow) (hne : df ≠ []) (h : fillMissing cols df = .ok out) :
    (df.map DfRow.key).Nodup ∧ (out.map DfRow.key).Nodup ∧
    (∀ s t p, (t, p, s) ∈ out.map DfRow.key ↔
      s ∈ df.map DfRow.site ∧ t ∈ df.map DfRow.time ∧ p ∈ df.map DfRow.rep) ∧
    (∀ r ∈ df, ∃ r' ∈ out, r'.key = r.key ∧ r'.value = r.value ∧
      (∀ c v, r.static c = some v → r'.static c = some v) ∧ ∀ c, c ∉ cols → r'.static c = r.static c) ∧
    (∀ r' ∈ out, r'.key ∉ df.map DfRow.key → r'.value = none) := by
  obtain ⟨hn, rfl⟩ := fillMissing_ok cols df out hne h
  have hk : (((combinations df).map (rowAt df)).mapIdx (withFilled cols ((combinations df).map (rowAt df)))).map DfRow.key =
      (combinations df).map comboKey := by
    apply List.ext_getElem (by simp)
    intro i h1 h2
    simp only [List.getElem_map, List.getElem_mapIdx]
    exact rowAt_key df _
  have hinj : Function.Injective comboKey := by
    rintro ⟨a, b, c⟩ ⟨a', b', c'⟩ h
    simp only [comboKey, Prod.mk.injEq] at h
    obtain ⟨rfl, rfl, rfl⟩ := h
    rfl
  refine ⟨hn, ?_, ?_, ?_, ?_⟩
  · rw [hk]; exact (nodup_combinations df).map hinj
  · intro s t p
    rw [hk]
    rw [show (t, p, s) = comboKey (s, t, p) from rfl, List.mem_map_of_injective hinj, mem_combinations]
  · intro r hr
    have hm : (r.site, r.time, r.rep) ∈ combinations df := (mem_combinations _ _).2
      ⟨List.mem_map_of_mem hr, List.mem_map_of_mem hr, List.mem_map_of_mem hr⟩
    obtain ⟨i, hi, he⟩ := List.getElem_of_mem hm
    have hrow : rowAt df (combinations df)[i] = r := by rw [he]; exact rowAt_mem df hn r hr
    have hi' : i < ((combinations df).map (rowAt df)).length := by simpa using hi
    refine ⟨withFilled cols ((combinations df).map (rowAt df)) i r, ?_, rfl, rfl, ?_, ?_⟩
    · rw [List.mem_iff_getElem]
      exact ⟨i, by simpa using hi, by simp [hrow]⟩
    · intro c v hv
      simp only [withFilled]
      by_cases hc : c ∈ cols
      · rw [if_pos hc, List.getD_eq_getElem _ _ (by rw [fillStatic_length]; exact hi')]
        exact fillStatic_keep _ c i hi' v (by simpa [hrow] using hv)
      · rw [if_neg hc]; exact hv
    · intro c hc
      simp only [withFilled, if_neg hc]
  · intro r' hr' hnot
    obtain ⟨i, hi, rfl⟩ := out_get cols df r' hr'
    show (rowAt df (combinations df)[i]).value = none
    rw [rowAt_value]
    have hkey : (rowAt df (combinations df)[i]).key ∉ df.map DfRow.key := hnot
    rw [rowAt_key] at hkey
    cases hf : df.find? fun r => decide (r.key = comboKey (combinations df)[i]) with
    | none => rfl
    | some r =>
      refine absurd (List.mem_map.2 ⟨r, List.mem_of_find?_eq_some hf, ?_⟩) hkey
      simpa using List.find?_some hf

/-- The values of a column at a site, for all times and percentiles or realizations in the order they are first seen; missing
where there is no row. -/
def siteColumn (df : List DfRow) (c s : String) : List (Option DfVal) :=
  (firstSeen (df.map DfRow.time)).flatMap fun t => (firstSeen (df.map DfRow.rep)).map fun p => (rowAt df (s, t, p)).static c

theorem column_blocks (df : List DfRow) (c : String) :
    ((combinations df).map (rowAt df)).map (fun r => (r.site, r.static c)) =
      (firstSeen (df.map DfRow.site)).flatMap fun s => (siteColumn df c s).map fun v => (s, v) := by
  simp only [combinations, siteColumn, List.map_flatMap, List.map_map]
  congr 1
  funext s
  congr 1
  funext t
  apply List.map_congr_left
  intro p _
  simp only [Function.comp]
  rw [rowAt_site]

theorem siteColumn_some (df : List DfRow) (hn : (df.map DfRow.key).Nodup) (c : String) (r : DfRow) (hr : r ∈ df) :
    r.static c ∈ siteColumn df c r.site := by
  unfold siteColumn
  rw [List.mem_flatMap]
  refine ⟨r.time, (mem_firstSeen _ _).2 (List.mem_map_of_mem hr), List.mem_map.2 ⟨r.rep,
    (mem_firstSeen _ _).2 (List.mem_map_of_mem hr), ?_⟩⟩
  rw [rowAt_mem df hn r hr]

theorem fillStatic_blocks (df : List DfRow) (hn : (df.map DfRow.key).Nodup) (c : String)
    (hv : ∀ s ∈ df.map DfRow.site, ∃ r ∈ df, r.site = s ∧ (r.static c).isSome = true) :
    fillStatic ((combinations df).map (rowAt df)) c =
      (firstSeen (df.map DfRow.site)).flatMap fun s => siteFill (siteColumn df c s) := by
  unfold fillStatic
  rw [column_blocks]
  apply fill_blocks _ _ (nodup_firstSeen _) _ (fun _ _ => rfl)
  intro s hs
  obtain ⟨r, hr, rfl, h⟩ := hv s ((mem_firstSeen _ _).1 hs)
  exact ⟨_, siteColumn_some df hn c r hr, h⟩

/-- C195: if every site has a value of the column somewhere, the column after filling is made site by site: see
`C195_nearest` for what is filled in. -/
theorem C195_by_site (cols : List String) (df out : List DfRow) (hne : df ≠ []) (h : fillMissing cols df = .ok out)
    (c : String) (hc : c ∈ cols) (hv : ∀ s ∈ df.map DfRow.site, ∃ r ∈ df, r.site = s ∧ (r.static c).isSome = true) :
    out.map (fun r => r.static c) = (firstSeen (df.map DfRow.site)).flatMap fun s => siteFill (siteColumn df c s) := by
  obtain ⟨hn, rfl⟩ := fillMissing_ok cols df out hne h
  rw [← fillStatic_blocks df hn c hv]
  apply List.ext_getElem (by simp [fillStatic_length])
  intro i h1 h2
  simp only [List.getElem_map, List.getElem_mapIdx, withFilled, if_pos hc]
  exact List.getD_eq_getElem _ _ h2

/-- C195: a missing value of a site gets the last value before it, or else the first one there is; others stay. -/
theorem C195_nearest (vs : List (Option DfVal)) (i : ℕ) (h : i < vs.length) :
    (siteFill vs).length = vs.length ∧ (siteFill vs)[i]? = some ((((vs.take (i + 1)).filterMap id).getLast?).or
      ((vs.filterMap id).head?)) := by
  refine ⟨siteFill_length vs, ?_⟩
  rw [List.getElem?_eq_getElem (by rw [siteFill_length]; exact h), siteFill_get vs i h]

theorem forall₂_flatMap {α β γ : Type} {R : β → γ → Prop} (l : List α) (f : α → List β) (g : α → List γ)
    (h : ∀ a ∈ l, List.Forall₂ R (f a) (g a)) : List.Forall₂ R (l.flatMap f) (l.flatMap g) := by
  induction l with
  | nil => exact .nil
  | cons a l ih =>
    rw [List.flatMap_cons, List.flatMap_cons]
    exact List.rel_append (h a (by simp)) (ih fun b hb => h b (List.mem_cons_of_mem _ hb))

theorem siteFill_from (vs : List (Option DfVal)) (hv : ∃ v ∈ vs, v.isSome = true) :
    ∀ w ∈ siteFill vs, ∃ x, w = some x ∧ some x ∈ vs := by
  intro w hw
  obtain ⟨i, hi, rfl⟩ := List.getElem_of_mem hw
  rw [siteFill_length] at hi
  rw [siteFill_get vs i hi]
  cases h1 : ((vs.take (i + 1)).filterMap id).getLast? with
  | some x =>
    refine ⟨x, rfl, ?_⟩
    have := List.mem_of_getLast? h1
    rw [List.mem_filterMap] at this
    obtain ⟨y, hy, he⟩ := this
    have he' : y = some x := he
    exact List.mem_of_mem_take (he' ▸ hy)
  | none =>
    cases h2 : (vs.filterMap id).head? with
    | some x =>
      refine ⟨x, rfl, ?_⟩
      have := List.mem_of_head? h2
      rw [List.mem_filterMap] at this
      obtain ⟨y, hy, he⟩ := this
      have he' : y = some x := he
      exact he' ▸ hy
    | none =>
      rw [List.head?_eq_none_iff, List.filterMap_eq_nil_iff] at h2
      obtain ⟨v, hv, hs⟩ := hv
      have := h2 v hv
      simp only [id] at this
      rw [this] at hs
      simp at hs

/-- C195: if every site has a value of the column somewhere, then after filling every row has one, and it is a value of its
own site. -/
theorem C195_own_site (cols : List String) (df out : List DfRow) (hne : df ≠ []) (h : fillMissing cols df = .ok out)
    (c : String) (hc : c ∈ cols) (hv : ∀ s ∈ df.map DfRow.site, ∃ r ∈ df, r.site = s ∧ (r.static c).isSome = true) :
    ∀ r' ∈ out, ∃ r ∈ df, r.site = r'.site ∧ r.static c = r'.static c ∧ (r'.static c).isSome = true := by
  obtain ⟨hn, rfl⟩ := fillMissing_ok cols df out hne h
  have hf : List.Forall₂ (fun (k : String × ℤ × ℚ) (v : Option DfVal) => ∃ r ∈ df, r.site = k.1 ∧ r.static c = v ∧
      v.isSome = true) (combinations df) (fillStatic ((combinations df).map (rowAt df)) c) := by
    rw [fillStatic_blocks df hn c hv]
    apply forall₂_flatMap
    intro s hs
    obtain ⟨r0, hr0, rfl, h0⟩ := hv s ((mem_firstSeen _ _).1 hs)
    rw [List.forall₂_iff_get]
    refine ⟨?_, ?_⟩
    · rw [siteFill_length, siteColumn]
      simp [List.length_flatMap]
    · intro i h1 h2
      obtain ⟨x, hx, hmem⟩ := siteFill_from (siteColumn df c r0.site) ⟨_, siteColumn_some df hn c r0 hr0, h0⟩ _
        (List.get_mem (siteFill (siteColumn df c r0.site)) ⟨i, h2⟩)
      have hs1 : (List.get (List.flatMap (fun t => List.map (fun p => (r0.site, t, p))
          (firstSeen (df.map DfRow.rep))) (firstSeen (df.map DfRow.time))) ⟨i, h1⟩).1 = r0.site := by
        have := List.get_mem (List.flatMap (fun t => List.map (fun p => (r0.site, t, p))
          (firstSeen (df.map DfRow.rep))) (firstSeen (df.map DfRow.time))) ⟨i, h1⟩
        rw [List.mem_flatMap] at this
        obtain ⟨t, _, hm⟩ := this
        obtain ⟨p, _, he⟩ := List.mem_map.1 hm
        rw [← he]
      rw [hs1, hx]
      unfold siteColumn at hmem
      rw [List.mem_flatMap] at hmem
      obtain ⟨t, _, hm⟩ := hmem
      obtain ⟨p, _, he⟩ := List.mem_map.1 hm
      rw [rowAt_find] at he
      cases hfi : df.find? fun r => decide (r.key = comboKey (r0.site, t, p)) with
      | none => rw [hfi] at he; simp at he
      | some r =>
        rw [hfi] at he
        refine ⟨r, List.mem_of_find?_eq_some hfi, ?_, he, rfl⟩
        have := List.find?_some hfi
        simp only [decide_eq_true_eq, DfRow.key, comboKey, Prod.mk.injEq] at this
        exact this.2.2
  intro r' hr'
  obtain ⟨i, hi, rfl⟩ := out_get cols df r' hr'
  have hi' : i < (fillStatic ((combinations df).map (rowAt df)) c).length := by
    rw [fillStatic_length]; simpa using hi
  obtain ⟨r, hr, h1, h2, h3⟩ := (List.forall₂_iff_get.1 hf).2 i hi hi'
  have e : (withFilled cols ((combinations df).map (rowAt df)) i (rowAt df (combinations df)[i])).static c =
      (fillStatic ((combinations df).map (rowAt df)) c).get ⟨i, hi'⟩ := by
    simp only [withFilled, if_pos hc]
    exact List.getD_eq_getElem _ _ hi'
  refine ⟨r, hr, ?_, ?_, ?_⟩
  · rw [h1]
    exact (rowAt_site df _).symm
  · rw [e, h2]
  · rw [e]; exact h3

/-- Two sites, two times, one row missing: it is added with the altitude of its site. -/
example : (fillMissing ["altitude"] [exRow "1" 0 0 5 10, exRow "1" 60 0 6 10, exRow "2" 60 0 7 20]).toOption.map
    (List.map fun r => (r.site, r.time, r.value, r.static "altitude")) =
    some [("1", 0, some 5, some (.num 10)), ("1", 60, some 6, some (.num 10)), ("2", 0, none, some (.num 20)),
      ("2", 60, some 7, some (.num 20))] := by decide +kernel

/-- C195: a site without any value of a column gets the one of the next site. -/
theorem C195_other_site_refuted : ∃ df out : List DfRow, fillMissing ["altitude"] df = .ok out ∧
    ∃ r ∈ out, r.site = "1" ∧ r.static "altitude" = some (.num 20) ∧ ∀ x ∈ df, x.site = "1" → x.static "altitude" = none := by
  refine ⟨[⟨"1", 0, 0, some 5, fun _ => none⟩, exRow "2" 0 0 7 20], _, rfl, ?_⟩
  refine ⟨_, List.mem_cons_self, rfl, by decide +kernel, ?_⟩
  intro x hx hs
  simp only [List.mem_cons, List.not_mem_nil, or_false] at hx
  rcases hx with rfl | rfl
  · rfl
  · simp [exRow] at hs

end Improver
