import Verif.Props.Integration
import Verif.Lemmas.ListAux

/-! C78-C82: lapse rates, their application to gridded and spot temperatures, and height adjustment at spots. -/

namespace Improver

/-! ### C78: the adjustment -/

/-- C78.  Up to the limit the lapse rate applies to the whole difference; the excess beyond the limit is adjusted with the
environmental lapse rate. -/
theorem C78_piecewise (lapse d L : ℚ) (hL : 0 ≤ L) :
    (|d| ≤ L → lapseAdjust lapse d L = lapse * d) ∧
    (L < d → lapseAdjust lapse d L = lapse * L + (-65 / 10000) * (d - L)) ∧
    (d < -L → lapseAdjust lapse d L = -(lapse * L) + (-65 / 10000) * (d + L)) := by
  refine ⟨fun h => ?_, fun h => ?_, fun h => ?_⟩
  · have h1 : ¬ d > L := by have := (abs_le.1 h).2; linarith
    have h2 : ¬ d < -L := by have := (abs_le.1 h).1; linarith
    simp [lapseAdjust, h1, h2]; ring
  · have h1 : d > L := h
    have h2 : ¬ d < -L := by linarith
    have h3 : max (d - L) 0 = d - L := max_eq_left (by linarith)
    simp [lapseAdjust, h1, h2, h3, ELR]; ring
  · have h1 : ¬ d > L := by linarith
    have h2 : d < -L := h
    have h3 : min (d + L) 0 = d + L := min_eq_left (by linarith)
    simp [lapseAdjust, h1, h2, h3, ELR]; ring

/-- Closed form used below. -/
theorem lapseAdjust_eq (lapse d L : ℚ) (hL : 0 ≤ L) :
    lapseAdjust lapse d L = (lapse + 65 / 10000) * npClip d (-L) L + (-65 / 10000) * d := by
  obtain ⟨h1, h2, h3⟩ := C78_piecewise lapse d L hL
  unfold npClip
  rcases le_or_gt d L with ha | ha
  · rcases le_or_gt (-L) d with hb | hb
    · rw [h1 (abs_le.2 ⟨hb, ha⟩), max_eq_left hb, min_eq_left ha]; ring
    · rw [h3 hb, max_eq_right hb.le, min_eq_left (by linarith)]; ring
  · rw [h2 ha, max_eq_left (by linarith), min_eq_right ha.le]; ring

/-- C78.  No difference, no adjustment; opposite differences get opposite adjustments; and with the environmental lapse rate
itself the limit is immaterial. -/
theorem C78_symmetry (lapse d L : ℚ) (hL : 0 ≤ L) :
    lapseAdjust lapse 0 L = 0 ∧ lapseAdjust lapse (-d) L = -lapseAdjust lapse d L ∧
    lapseAdjust (-65 / 10000) d L = -65 / 10000 * d := by
  have hodd : npClip (-d) (-L) L = -npClip d (-L) L := by
    unfold npClip
    rcases le_or_gt d L with ha | ha
    · rcases le_or_gt (-L) d with hb | hb
      · rw [max_eq_left hb, min_eq_left ha, max_eq_left (by linarith), min_eq_left (by linarith)]
      · rw [max_eq_right hb.le, min_eq_left (by linarith : -L ≤ L), max_eq_left (by linarith : -L ≤ -d),
          min_eq_right (by linarith : L ≤ -d)]; ring
    · rw [max_eq_left (by linarith : -L ≤ d), min_eq_right ha.le, max_eq_right (by linarith : -d ≤ -L),
        min_eq_left (by linarith : -L ≤ L)]
  refine ⟨?_, ?_, ?_⟩
  · rw [(C78_piecewise lapse 0 L hL).1 (by simpa using hL)]; ring
  · rw [lapseAdjust_eq _ _ _ hL, lapseAdjust_eq _ _ _ hL, hodd]; ring
  · rw [lapseAdjust_eq _ _ _ hL]; ring

/-- C78.  The adjustment is continuous in the height difference: it changes by at most the larger of the two lapse rates per
metre. -/
theorem C78_lipschitz (lapse d e L : ℚ) (hL : 0 ≤ L) :
    |lapseAdjust lapse d L - lapseAdjust lapse e L| ≤ max |lapse| (65 / 10000) * |d - e| := by
  wlog hde : e ≤ d generalizing d e
  · have := this e d (le_of_not_ge hde)
    rw [abs_sub_comm, abs_sub_comm d e]; exact this
  rw [lapseAdjust_eq _ _ _ hL, lapseAdjust_eq _ _ _ hL]
  have hc0 : 0 ≤ npClip d (-L) L - npClip e (-L) L := by
    unfold npClip
    have := min_le_min_right L (max_le_max_right (-L) hde)
    linarith
  have hc1 : npClip d (-L) L - npClip e (-L) L ≤ d - e := by
    unfold npClip
    rcases le_or_gt d (-L) with h1 | h1
    · rw [max_eq_right h1, max_eq_right (by linarith)]; linarith
    · rcases le_or_gt e (-L) with h2 | h2
      · rw [max_eq_left h1.le, max_eq_right h2, min_eq_left (by linarith : -L ≤ L)]
        have := min_le_left d L; linarith
      · rw [max_eq_left h1.le, max_eq_left h2.le]
        rcases le_or_gt d L with h3 | h3
        · rw [min_eq_left h3, min_eq_left (by linarith)]
        · rw [min_eq_right h3.le]
          rcases le_or_gt e L with h4 | h4
          · rw [min_eq_left h4]; linarith
          · rw [min_eq_right h4.le]; linarith
  set c := npClip d (-L) L - npClip e (-L) L with hc
  have e1 : (lapse + 65 / 10000) * npClip d (-L) L + (-65 / 10000) * d
      - ((lapse + 65 / 10000) * npClip e (-L) L + (-65 / 10000) * e) = lapse * c + (-65 / 10000) * ((d - e) - c) := by
    rw [hc]; ring
  rw [e1]
  have hM1 := le_max_left |lapse| (65 / 10000 : ℚ)
  have hM2 := le_max_right |lapse| (65 / 10000 : ℚ)
  set M := max |lapse| (65 / 10000 : ℚ)
  have hde' : |d - e| = d - e := abs_of_nonneg (by linarith)
  rw [hde']
  have t1 : |lapse * c| ≤ M * c := by
    rw [abs_mul, abs_of_nonneg hc0]; exact mul_le_mul_of_nonneg_right hM1 hc0
  have t2 : |(-65 / 10000 : ℚ) * ((d - e) - c)| ≤ M * ((d - e) - c) := by
    rw [abs_mul, abs_of_nonneg (by linarith : 0 ≤ (d - e) - c)]
    refine mul_le_mul_of_nonneg_right ?_ (by linarith)
    rw [abs_of_nonpos (by norm_num)]; linarith
  have := abs_add_le (lapse * c) ((-65 / 10000 : ℚ) * ((d - e) - c))
  nlinarith

/-- C78.  A negative lapse rate never warms a point placed higher. -/
theorem C78_antitone (lapse d e L : ℚ) (hL : 0 ≤ L) (hl : lapse ≤ 0) (hde : e ≤ d) :
    lapseAdjust lapse d L ≤ lapseAdjust lapse e L := by
  have key : ∀ a b, a ≤ b → lapseAdjust lapse b L ≤ lapseAdjust lapse a L := by
    intro a b hab
    obtain ⟨a1, a2, a3⟩ := C78_piecewise lapse a L hL
    obtain ⟨b1, b2, b3⟩ := C78_piecewise lapse b L hL
    rcases lt_or_ge L a with ha | ha
    · rw [a2 ha, b2 (by linarith)]; linarith
    · rcases lt_or_ge a (-L) with ha' | ha'
      · rw [a3 ha']
        rcases lt_or_ge L b with hb | hb
        · rw [b2 hb]; nlinarith
        · rcases lt_or_ge b (-L) with hb' | hb'
          · rw [b3 hb']; linarith
          · rw [b1 (abs_le.2 ⟨hb', hb⟩)]; nlinarith
      · rw [a1 (abs_le.2 ⟨ha', ha⟩)]
        rcases lt_or_ge L b with hb | hb
        · rw [b2 hb]; nlinarith
        · rw [b1 (abs_le.2 ⟨by linarith, hb⟩)]; nlinarith
  exact key e d hde

example : lapseAdjust (-98 / 10000) 20 = -196 / 1000 ∧ lapseAdjust (-98 / 10000) 150 = -114 / 100 := by
  constructor <;> decide +kernel

/-! ### C79: lapse rates from temperature and orography -/

/-- (orography, temperature) of the land points within `r` cells of `(y, x)`, inside the grid, whose height differs from that of
`(y, x)` by at most `maxDiff`. -/
def Spec.lapseNeighbours (h w r : ℕ) (maxDiff : ℚ) (temp orog : ℕ → ℕ → ℚ) (land : ℕ → ℕ → Bool) (y x : ℕ) :
    List (ℚ × ℚ) :=
  (List.range h).flatMap fun i => (List.range w).flatMap fun j =>
    if Spec.near r y i ∧ Spec.near r x j ∧ land i j = true ∧ |orog i j - orog y x| ≤ maxDiff
    then [(orog i j, temp i j)] else []

/-- Population variance. -/
def Spec.variance (l : List ℚ) : ℚ := (l.map (fun v => (v - l.sum / l.length) * (v - l.sum / l.length))).sum / l.length

theorem flatMap_if_filter {α β : Type} (l : List α) (p : α → Prop) [DecidablePred p] (F : α → List β) :
    l.flatMap (fun a => if p a then F a else []) = (l.filter (fun a => decide (p a))).flatMap F := by
  induction l with
  | nil => rfl
  | cons a l ih =>
    rw [List.flatMap_cons, ih]
    by_cases h : p a
    · rw [List.filter_cons_of_pos (by simpa using h), List.flatMap_cons, if_pos h]
    · rw [List.filter_cons_of_neg (by simpa using h), if_neg h]; rfl

theorem window_enum (h r y : ℕ) :
    ((List.range (2 * r + 1)).filter (fun a => decide (r ≤ y + a ∧ y + a < h + r))).map (fun a => y + a - r)
      = (List.range h).filter (fun i => decide (Spec.near r y i)) := by
  have s1 : (((List.range (2 * r + 1)).filter (fun a => decide (r ≤ y + a ∧ y + a < h + r))).map
      (fun a => y + a - r)).Pairwise (· < ·) := by
    rw [List.pairwise_map]
    have h0 : (List.range (2 * r + 1)).Pairwise (· < ·) := List.pairwise_lt_range
    have h1 := h0.filter (fun a => decide (r ≤ y + a ∧ y + a < h + r))
    refine List.Pairwise.imp_of_mem ?_ h1
    intro a b ha hb hab
    have ha := (List.mem_filter.1 ha).2
    have hb := (List.mem_filter.1 hb).2
    simp at ha hb
    omega
  have s2 : ((List.range h).filter (fun i => decide (Spec.near r y i))).Pairwise (· < ·) :=
    List.pairwise_lt_range.filter _
  refine List.Perm.eq_of_pairwise (fun a b _ _ h1 h2 => by omega) s1 s2 ?_
  refine (List.perm_ext_iff_of_nodup (s1.imp (fun h => Nat.ne_of_lt h)) (s2.imp (fun h => Nat.ne_of_lt h))).2 ?_
  intro i
  simp only [List.mem_map, List.mem_filter, List.mem_range, decide_eq_true_eq, near_iff]
  constructor
  · rintro ⟨a, ⟨ha, hb⟩, rfl⟩; omega
  · rintro ⟨hi, hn⟩
    exact ⟨i + r - y, ⟨by omega, by omega⟩, by omega⟩

theorem window_flatMap {β : Type} (h r y : ℕ) (F : ℕ → List β) :
    (List.range (2 * r + 1)).flatMap (fun a => if r ≤ y + a ∧ y + a < h + r then F (y + a - r) else [])
      = (List.range h).flatMap (fun i => if Spec.near r y i then F i else []) := by
  rw [flatMap_if_filter (List.range (2 * r + 1)) (fun a => r ≤ y + a ∧ y + a < h + r) (fun a => F (y + a - r)),
    flatMap_if_filter (List.range h) (fun i => Spec.near r y i) F, ← window_enum, List.flatMap_map]

/-- The screened window, entry by entry. -/
theorem screened_window (r : ℕ) (op tp : ℕ → ℕ → Option ℚ) (s : Option ℚ × Option ℚ → Option ℚ × Option ℚ) (y x : ℕ) :
    (List.zip (window r op y x) (window r tp y x)).map s
      = (List.range (2 * r + 1)).flatMap (fun a => (List.range (2 * r + 1)).map
          (fun b => s (op (y + a) (x + b), tp (y + a) (x + b)))) := by
  unfold window
  have hz : ∀ (A B : List ℕ), List.zip (A.flatMap (fun a => B.map (fun b => op (y + a) (x + b))))
      (A.flatMap (fun a => B.map (fun b => tp (y + a) (x + b))))
      = A.flatMap (fun a => B.map (fun b => (op (y + a) (x + b), tp (y + a) (x + b)))) := by
    intro A B
    induction A with
    | nil => rfl
    | cons a A ih =>
      rw [List.flatMap_cons, List.flatMap_cons, List.flatMap_cons, List.zip_append (by simp), ih]
      congr 1
      rw [List.zip_map', ]
  rw [hz, List.map_flatMap]
  simp [List.map_map, Function.comp_def]

theorem finitePairs_append (l m : List (Option ℚ × Option ℚ)) : finitePairs (l ++ m) = finitePairs l ++ finitePairs m := by
  unfold finitePairs; exact List.filterMap_append

theorem finitePairs_flatMap {α : Type} (A : List α) (F : α → List (Option ℚ × Option ℚ)) :
    finitePairs (A.flatMap F) = A.flatMap (fun a => finitePairs (F a)) := by
  induction A with
  | nil => rfl
  | cons a A ih => rw [List.flatMap_cons, finitePairs_append, ih, List.flatMap_cons]

theorem finitePairs_map {α : Type} (A : List α) (F : α → Option ℚ × Option ℚ) :
    finitePairs (A.map F) = A.flatMap (fun a => finitePairs [F a]) := by
  induction A with
  | nil => rfl
  | cons a A ih =>
    rw [List.map_cons, show F a :: A.map F = [F a] ++ A.map F from rfl, finitePairs_append, ih, List.flatMap_cons]

/-- The window handed to the fit by the model, named. -/
def lapseWindow (c : LapseCfg) (h w : ℕ) (temp orog : ℕ → ℕ → ℚ) (land : ℕ → ℕ → Bool) (y x : ℕ) :
    List (Option ℚ × Option ℚ) :=
  let r := c.radius.toNat
  let tp := nanPad h w r (fun i j => if land i j then some (temp i j) else none)
  let op := nanPad h w r (fun i j => if land i j then some (orog i j) else none)
  (List.zip (window r op y x) (window r tp y x)).map (screenEntry c.maxHeightDiff (op (y + r) (x + r)))

/-- Finite points of the window are the neighbours of the specification. -/
theorem lapseWindow_finite (c : LapseCfg) (h w : ℕ) (temp orog : ℕ → ℕ → ℚ) (land : ℕ → ℕ → Bool) (y x : ℕ)
    (hy : y < h) (hx : x < w) (hland : land y x = true) :
    finitePairs (lapseWindow c h w temp orog land y x)
      = Spec.lapseNeighbours h w c.radius.toNat c.maxHeightDiff temp orog land y x := by
  unfold lapseWindow
  simp only
  set r := c.radius.toNat
  have hcentre : nanPad h w r (fun i j => if land i j then some (orog i j) else none) (y + r) (x + r) = some (orog y x) := by
    unfold nanPad
    rw [if_pos (by omega)]
    simp [hland]
  rw [show ∀ (a b : ℕ → ℕ → Option ℚ), (List.zip (window r a y x) (window r b y x)).map (screenEntry c.maxHeightDiff
    (nanPad h w r (fun i j => if land i j then some (orog i j) else none) (y + r) (x + r)))
    = (List.zip (window r a y x) (window r b y x)).map (screenEntry c.maxHeightDiff (some (orog y x))) from
      fun a b => by rw [hcentre], screened_window, finitePairs_flatMap]
  have hentry : ∀ a b, finitePairs [screenEntry c.maxHeightDiff (some (orog y x))
      (nanPad h w r (fun i j => if land i j then some (orog i j) else none) (y + a) (x + b),
        nanPad h w r (fun i j => if land i j then some (temp i j) else none) (y + a) (x + b))]
      = if r ≤ y + a ∧ y + a < h + r then (if r ≤ x + b ∧ x + b < w + r then
          (if land (y + a - r) (x + b - r) = true ∧ |orog (y + a - r) (x + b - r) - orog y x| ≤ c.maxHeightDiff then
            [(orog (y + a - r) (x + b - r), temp (y + a - r) (x + b - r))] else []) else []) else [] := by
    intro a b
    unfold nanPad
    by_cases h1 : r ≤ y + a ∧ y + a < h + r
    · by_cases h2 : r ≤ x + b ∧ x + b < w + r
      · rw [if_pos ⟨h1.1, h1.2, h2⟩, if_pos ⟨h1.1, h1.2, h2⟩, if_pos h1, if_pos h2]
        by_cases hl : land (y + a - r) (x + b - r) = true
        · by_cases hd : |orog (y + a - r) (x + b - r) - orog y x| ≤ c.maxHeightDiff
          · rw [if_pos ⟨hl, hd⟩]
            simp [screenEntry, tooHigh, hl, not_lt.2 hd, finitePairs]
          · rw [if_neg (fun h => hd h.2)]
            simp [screenEntry, tooHigh, hl, not_le.1 hd, finitePairs]
        · rw [if_neg (fun h => hl h.1)]
          simp [screenEntry, tooHigh, hl, finitePairs]
      · rw [if_neg (fun h => h2 ⟨h.2.2.1, h.2.2.2⟩), if_neg (fun h => h2 ⟨h.2.2.1, h.2.2.2⟩), if_pos h1, if_neg h2]
        simp [screenEntry, tooHigh, finitePairs]
    · rw [if_neg (fun h => h1 ⟨h.1, h.2.1⟩), if_neg (fun h => h1 ⟨h.1, h.2.1⟩), if_neg h1]
      simp [screenEntry, tooHigh, finitePairs]
  have step : ∀ a, finitePairs ((List.range (2 * r + 1)).map (fun b => screenEntry c.maxHeightDiff (some (orog y x))
      (nanPad h w r (fun i j => if land i j then some (orog i j) else none) (y + a) (x + b),
        nanPad h w r (fun i j => if land i j then some (temp i j) else none) (y + a) (x + b))))
      = if r ≤ y + a ∧ y + a < h + r then
          (List.range w).flatMap (fun j => if Spec.near r x j then
            (if land (y + a - r) j = true ∧ |orog (y + a - r) j - orog y x| ≤ c.maxHeightDiff then
              [(orog (y + a - r) j, temp (y + a - r) j)] else []) else []) else [] := by
    intro a
    rw [finitePairs_map]
    simp only [hentry]
    by_cases h1 : r ≤ y + a ∧ y + a < h + r
    · simp only [if_pos h1]
      exact window_flatMap w r x (fun j => if land (y + a - r) j = true ∧ |orog (y + a - r) j - orog y x| ≤ c.maxHeightDiff
        then [(orog (y + a - r) j, temp (y + a - r) j)] else [])
    · simp only [if_neg h1]
      simp
  simp only [step]
  rw [window_flatMap h r y (fun i => (List.range w).flatMap (fun j => if Spec.near r x j then
    (if land i j = true ∧ |orog i j - orog y x| ≤ c.maxHeightDiff then [(orog i j, temp i j)] else []) else []))]
  unfold Spec.lapseNeighbours
  congr 1; funext i
  by_cases hi : Spec.near r y i
  · rw [if_pos hi]
    congr 1; funext j
    by_cases hj : Spec.near r x j
    · rw [if_pos hj]; simp only [hi, hj, true_and]
    · rw [if_neg hj, if_neg (fun h => hj h.2.1)]
  · rw [if_neg hi]
    symm
    rw [List.flatMap_eq_nil_iff]
    intro j _
    rw [if_neg (fun h => hi h.1)]

theorem screenEntry_aligned (m : ℚ) (ctr o t : Option ℚ) (h : o.isSome = t.isSome) :
    (screenEntry m ctr (o, t)).1.isSome = (screenEntry m ctr (o, t)).2.isSome := by
  unfold screenEntry
  simp only
  cases tooHigh m ctr o
  · cases o <;> cases t <;> simp at h ⊢
  · simp

/-- After screening, orography and temperature are missing together. -/
theorem lapseWindow_aligned (c : LapseCfg) (h w : ℕ) (temp orog : ℕ → ℕ → ℚ) (land : ℕ → ℕ → Bool) (y x : ℕ) :
    ∀ p ∈ lapseWindow c h w temp orog land y x, p.1.isSome = p.2.isSome := by
  intro p hp
  unfold lapseWindow at hp
  simp only at hp
  rw [screened_window] at hp
  rw [List.mem_flatMap] at hp
  obtain ⟨a, _, hp⟩ := hp
  rw [List.mem_map] at hp
  obtain ⟨b, _, rfl⟩ := hp
  apply screenEntry_aligned
  unfold nanPad
  split
  · show (if land (y + a - c.radius.toNat) (x + b - c.radius.toNat) = true then some _ else none).isSome
      = (if land (y + a - c.radius.toNat) (x + b - c.radius.toNat) = true then some _ else none).isSome
    cases land (y + a - c.radius.toNat) (x + b - c.radius.toNat) <;> rfl
  · rfl

theorem aligned_fst : ∀ (l : List (Option ℚ × Option ℚ)), (∀ p ∈ l, p.1.isSome = p.2.isSome) →
    (l.map (·.1)).filterMap id = (finitePairs l).map (·.1) ∧ (l.map (·.2)).filterMap id = (finitePairs l).map (·.2)
  | [], _ => by simp [finitePairs]
  | (a, b) :: l, h => by
    have ih := aligned_fst l (fun p hp => h p (by simp [hp]))
    have h0 := h (a, b) (by simp)
    cases a <;> cases b <;> simp at h0
    · simpa [finitePairs] using ih
    · simpa [finitePairs] using ih

theorem nanVar_eq (l : List (Option ℚ)) (m : List ℚ) (h : l.filterMap id = m) (hm : m ≠ []) :
    nanVar l = some (Spec.variance m) := by
  unfold nanVar
  simp only [h]
  rw [if_neg hm]; rfl

/-- The centre is one of its own neighbours. -/
theorem lapseNeighbours_ne (h w r : ℕ) (maxDiff : ℚ) (hd : 0 ≤ maxDiff) (temp orog : ℕ → ℕ → ℚ) (land : ℕ → ℕ → Bool)
    (y x : ℕ) (hy : y < h) (hx : x < w) (hland : land y x = true) :
    (orog y x, temp y x) ∈ Spec.lapseNeighbours h w r maxDiff temp orog land y x := by
  unfold Spec.lapseNeighbours
  rw [List.mem_flatMap]
  refine ⟨y, List.mem_range.2 hy, List.mem_flatMap.2 ⟨x, List.mem_range.2 hx, ?_⟩⟩
  rw [if_pos ⟨by rw [near_iff]; omega, by rw [near_iff]; omega, hland, by simpa using hd⟩]
  simp

/-- The lapse rate as a function of the fit. -/
theorem lapseRateAt_eq (c : LapseCfg) (h w : ℕ) (temp orog : ℕ → ℕ → ℚ) (land : ℕ → ℕ → Bool) (y x : ℕ) :
    lapseRateAt c h w temp orog land y x = (do
      let win := lapseWindow c h w temp orog land y x
      let grad ← linearFit win
      let r := c.radius.toNat
      let centre := nanPad h w r (fun i j => if land i j then some (orog i j) else none) (y + r) (x + r)
      let ct := (screenEntry c.maxHeightDiff centre
        (centre, nanPad h w r (fun i j => if land i j then some (temp i j) else none) (y + r) (x + r))).2
      let g := match grad with
        | some (g, _) => if stdCloseZero (nanVar (win.map (·.2))) || stdCloseZero (nanVar (win.map (·.1))) || ct.isNone
            then DALR else g
        | none => DALR
      return npClip g c.minRate c.maxRate) := rfl

/-- C79.  The lapse rate at a point of the grid never fails.  At sea it is the dry adiabatic lapse rate; on land the slope of
the least-squares line of temperature against height over the land neighbours of similar height, or the dry adiabatic lapse rate
when the standard deviation of either is at most 1e-8 - in all cases clipped to the allowed range. -/
theorem C79_value (c : LapseCfg) (hc : lapseInit c = .ok c) (h w : ℕ) (temp orog : ℕ → ℕ → ℚ) (land : ℕ → ℕ → Bool) (y x : ℕ)
    (hy : y < h) (hx : x < w) :
    ∃ v, lapseRateAt c h w temp orog land y x = .ok v ∧
      (land y x = false → v = npClip (-98 / 10000) c.minRate c.maxRate) ∧
      (land y x = true →
        let nb := Spec.lapseNeighbours h w c.radius.toNat c.maxHeightDiff temp orog land y x
        ((Spec.variance (nb.map (·.1)) ≤ (1 / 10 ^ 8) ^ 2 ∨ Spec.variance (nb.map (·.2)) ≤ (1 / 10 ^ 8) ^ 2) →
          v = npClip (-98 / 10000) c.minRate c.maxRate) ∧
        ((1 / 10 ^ 8) ^ 2 < Spec.variance (nb.map (·.1)) → (1 / 10 ^ 8) ^ 2 < Spec.variance (nb.map (·.2)) →
          ∃ g k, v = npClip g c.minRate c.maxRate ∧ ∀ a b, Spec.sse nb g k ≤ Spec.sse nb a b)) := by
  have hd : 0 ≤ c.maxHeightDiff := by
    unfold lapseInit at hc
    split at hc
    · exact nomatch hc
    · split at hc
      · exact nomatch hc
      · split at hc
        · exact nomatch hc
        · rename_i h; exact not_lt.1 h
  have hal := lapseWindow_aligned c h w temp orog land y x
  rw [lapseRateAt_eq]
  set win := lapseWindow c h w temp orog land y x with hwin
  have hout := C77_outcome win (finitePairs win) (bothFinite_finitePairs win)
  have hctr : nanPad h w c.radius.toNat (fun i j => if land i j then some (temp i j) else none)
      (y + c.radius.toNat) (x + c.radius.toNat) = if land y x then some (temp y x) else none := by
    unfold nanPad; rw [if_pos (by omega)]; simp
  have hctro : nanPad h w c.radius.toNat (fun i j => if land i j then some (orog i j) else none)
      (y + c.radius.toNat) (x + c.radius.toNat) = if land y x then some (orog y x) else none := by
    unfold nanPad; rw [if_pos (by omega)]; simp
  cases hfit : linearFit win with
  | error e =>
    exfalso
    have : linearFit win = .error .valueError := by
      unfold linearFit at hfit ⊢
      split
      · rfl
      · rename_i h; rw [if_neg h] at hfit; simp only at hfit; split at hfit <;> exact nomatch hfit
    obtain ⟨p, hp, hne⟩ := hout.1.1 this
    exact hne (hal p hp)
  | ok grad =>
    simp only [bind, Except.bind, pure, Except.pure, hfit]
    refine ⟨_, rfl, ?_, ?_⟩
    · intro hl
      rw [hctr, hctro, hl]
      cases grad with
      | none => rfl
      | some g => simp [screenEntry, tooHigh, DALR]
    · intro hl
      set nb := Spec.lapseNeighbours h w c.radius.toNat c.maxHeightDiff temp orog land y x
      have hfp : finitePairs win = nb := lapseWindow_finite c h w temp orog land y x hy hx hl
      have hne : nb ≠ [] := List.ne_nil_of_mem (lapseNeighbours_ne h w _ _ hd temp orog land y x hy hx hl)
      have hnv := aligned_fst win hal
      rw [hfp] at hnv
      have hv1 := nanVar_eq _ _ hnv.1 (by simpa using hne)
      have hv2 := nanVar_eq _ _ hnv.2 (by simpa using hne)
      rw [hctr, hctro, hl, hv1, hv2]
      have hct : (screenEntry c.maxHeightDiff (some (orog y x)) (some (orog y x), some (temp y x))).2.isNone = false := by
        have : ¬ c.maxHeightDiff < 0 := not_lt.2 hd
        simp [screenEntry, tooHigh, this]
      have hcz : ∀ q : ℚ, stdCloseZero (some q) = decide (q ≤ (1 / 10 ^ 8) ^ 2) := by
        intro q
        unfold stdCloseZero
        have : (1 / 100000000 : ℚ) * (1 / 100000000) = (1 / 10 ^ 8) ^ 2 := by norm_num
        simp only [this]
      simp only [if_true, hct, hcz, Bool.or_false]
      constructor
      · intro hsmall
        cases grad with
        | none => rfl
        | some g =>
          obtain ⟨g, k⟩ := g
          simp only
          rw [if_pos]
          · rfl
          · rcases hsmall with h | h
            · simp only [h, decide_true, Bool.or_true]
            · simp only [h, decide_true, Bool.true_or]
      · intro hb1 hb2
        cases grad with
        | none =>
          exfalso
          have hsame := (hout.2.1 hfit).2
          rw [hfp] at hsame
          have : Spec.variance (nb.map (·.1)) = 0 := by
            unfold Spec.variance
            have hz : (nb.map (·.1)).map (fun v => (v - (nb.map (·.1)).sum / (nb.map (·.1)).length)
                * (v - (nb.map (·.1)).sum / (nb.map (·.1)).length)) = (nb.map (·.1)).map (fun _ => (0 : ℚ)) := by
              apply List.map_congr_left
              intro v hv
              obtain ⟨p, hp, rfl⟩ := List.mem_map.1 hv
              have hmean : (nb.map (·.1)).sum / (nb.map (·.1)).length = p.1 := by
                have : nb.map (·.1) = nb.map (fun _ => p.1) := List.map_congr_left (fun q hq => hsame q hq p hp)
                rw [this, List.map_const', List.sum_replicate, List.length_replicate, nsmul_eq_mul]
                have hlen : (nb.length : ℚ) ≠ 0 := by
                  have := List.length_pos_of_mem hp
                  positivity
                field_simp
              rw [hmean]; ring
            rw [hz, List.map_const', List.sum_replicate]; simp
          rw [this] at hb1
          have : (0 : ℚ) < (1 / 10 ^ 8) ^ 2 := by positivity
          linarith
        | some g =>
          obtain ⟨g, k⟩ := g
          refine ⟨g, k, ?_, fun a b => ?_⟩
          · simp only
            rw [if_neg]
            simp only [Bool.or_eq_true, decide_eq_true_eq, not_or, not_le]
            exact ⟨hb2, hb1⟩
          · have := (C77_least_squares win nb (by rw [← hfp]; exact bothFinite_finitePairs win) g k hfit a b).1
            exact this

/-- C79.  With an accepted configuration every lapse rate lies within the configured range. -/
theorem C79_range (c : LapseCfg) (hc : lapseInit c = .ok c) (h w : ℕ) (temp orog : ℕ → ℕ → ℚ) (land : ℕ → ℕ → Bool) (y x : ℕ)
    (v : ℚ) (hv : lapseRateAt c h w temp orog land y x = .ok v) : c.minRate ≤ v ∧ v ≤ c.maxRate := by
  have hmm : c.minRate ≤ c.maxRate := by
    unfold lapseInit at hc
    split at hc
    · exact nomatch hc
    · rename_i h; exact not_lt.1 h
  rw [lapseRateAt_eq] at hv
  cases hfit : linearFit (lapseWindow c h w temp orog land y x) with
  | error e =>
    simp only [bind, Except.bind, hfit] at hv
    exact nomatch hv
  | ok grad =>
    simp only [bind, Except.bind, pure, Except.pure, hfit] at hv
    injection hv with hv
    rw [← hv]
    unfold npClip
    exact ⟨le_min (le_max_right _ _) hmm, min_le_right _ _⟩

/-- C79.  A configuration is accepted exactly when its limits are in order and its radius and height difference are not
negative. -/
theorem C79_config (c : LapseCfg) :
    (lapseInit c = .ok c ↔ c.minRate ≤ c.maxRate ∧ 0 ≤ c.radius ∧ 0 ≤ c.maxHeightDiff) ∧
    (lapseInit c ≠ .ok c → lapseInit c = .error .valueError) := by
  unfold lapseInit
  by_cases h1 : c.maxRate < c.minRate
  · rw [if_pos h1]
    exact ⟨⟨fun h => (nomatch h), fun h => absurd h.1 (not_le.2 h1)⟩, fun _ => rfl⟩
  · rw [if_neg h1]
    by_cases h2 : c.radius < 0
    · rw [if_pos h2]
      exact ⟨⟨fun h => (nomatch h), fun h => absurd h.2.1 (not_le.2 h2)⟩, fun _ => rfl⟩
    · rw [if_neg h2]
      by_cases h3 : c.maxHeightDiff < 0
      · rw [if_pos h3]
        exact ⟨⟨fun h => (nomatch h), fun h => absurd h.2.2 (not_le.2 h3)⟩, fun _ => rfl⟩
      · rw [if_neg h3]
        exact ⟨⟨fun _ => ⟨not_lt.1 h1, not_lt.1 h2, not_lt.1 h3⟩, fun _ => rfl⟩, fun h => absurd rfl h⟩

/-- Concrete case: a 3 x 3 grid with one sea point and one hilltop; at the centre the slope is that of the seven others. -/
example : lapseInit { radius := 1 } = .ok { radius := 1 } ∧
    lapseRateAt { radius := 1 } 3 3 (fun i j => if i = 0 ∧ j = 0 then 500 else 290 - (i + j : ℚ) / 10)
      (fun i j => if i = 0 ∧ j = 0 then 900 else 10 * (i + j)) (fun i j => !(i == 2 && j == 2)) 1 1 = .ok (-98 / 10000) ∧
    lapseRateAt { radius := 1 } 3 3 (fun i j => if i = 0 ∧ j = 0 then 500 else 290 - (i + j : ℚ) / 20)
      (fun i j => if i = 0 ∧ j = 0 then 900 else 10 * (i + j)) (fun i j => !(i == 2 && j == 2)) 1 1 = .ok (-5 / 1000) := by
  refine ⟨?_, ?_, ?_⟩ <;> decide +kernel

/-! ### C80: applying gridded lapse rates -/

theorem zip_self_map {α β : Type} (l : List α) (f : α × α → β) : (l.zip l).map f = l.map (fun a => f (a, a)) := by
  induction l with
  | nil => rfl
  | cons a l ih => simp [ih]

/-- C80 (part).  When the leading dimensions of the temperature and lapse rate cubes are the same, in the same order, every
temperature is adjusted with the lapse rate of its own realization, time, ... -/
theorem C80_applied_partial (temperature lapse : LeadCube) (d : ℚ) (hdims : lapse.dims = temperature.dims) :
    applyGriddedLapseRate temperature lapse d = .ok ((sliceTuples temperature.dims).map
      (fun t => (t, temperature.value t + lapseAdjust (lapse.value t) d))) := by
  unfold applyGriddedLapseRate
  have : checkDimCoords temperature lapse = true := by
    unfold checkDimCoords
    rw [List.all_eq_true]
    intro p hp
    simpa [hdims] using hp
  simp only [this, Bool.not_true, Bool.false_eq_true, if_false]
  rw [hdims, zip_self_map]

/-- C80.  A temperature dimension that is missing from, or different on, the lapse rate cube is refused. -/
theorem C80_missing (temperature lapse : LeadCube) (d : ℚ) (p : String × List ℚ) (hp : p ∈ temperature.dims)
    (hn : p ∉ lapse.dims) : applyGriddedLapseRate temperature lapse d = .error .valueError := by
  unfold applyGriddedLapseRate
  have : checkDimCoords temperature lapse = false := by
    unfold checkDimCoords
    rw [List.all_eq_false]
    exact ⟨p, hp, by simpa using hn⟩
  simp [this]

/-- C80, finding.  With the same two leading dimensions in a different order the inputs are accepted, and the slices, which are
paired by position, combine a temperature with the lapse rate of another realization and time. -/
theorem C80_order_refuted : ∃ (temperature lapse : LeadCube) (out : List (List ℕ × ℚ)),
    lapse.dims = temperature.dims.reverse ∧
    applyGriddedLapseRate temperature lapse 10 = .ok out ∧
    ∃ r t v, ([r, t], v) ∈ out ∧ v ≠ temperature.value [r, t] + lapseAdjust (lapse.value [t, r]) 10 :=
  ⟨⟨[("realization", [0, 1]), ("time", [0, 1])], fun _ => 280⟩,
    ⟨[("time", [0, 1]), ("realization", [0, 1])], fun t => if t.getD 1 0 = 0 then 0 else -1 / 100⟩,
    [([0, 0], 280), ([0, 1], 2799 / 10), ([1, 0], 280), ([1, 1], 2799 / 10)], rfl, by decide +kernel,
    0, 1, 2799 / 10, by decide +kernel, by decide +kernel⟩

/-- Concrete case of the proved part. -/
example : applyGriddedLapseRate ⟨[("realization", [0, 1])], fun t => 280 + t.getD 0 0⟩
    ⟨[("realization", [0, 1])], fun t => if t.getD 0 0 = 0 then 0 else -1 / 100⟩ 10
    = .ok [([0], 280), ([1], 281 - 1 / 10)] := by decide +kernel

/-! ### C81: lapse rates at spots -/

/-- C81.  Spot temperatures are adjusted only if the data are (non-probability) temperatures on matching grids and exactly one
source of lapse rates is given; a lapse rate cube must carry the right name and the height of the temperatures. -/
theorem C81_accepted (i : SpotLapseIn) (sites : List (ℚ × ℚ × ℚ)) :
    (∃ out, spotLapseAdjust i sites = .ok out) ↔
      i.isProbability = false ∧ i.isTemperature = true ∧ i.gridsMatch = true ∧
      ((i.cube = none ∧ i.fixed ≠ none) ∨ (i.cube = some (true, true, true) ∧ i.fixed = none)) := by
  have hiff : (∃ out, spotLapseAdjust i sites = .ok out) ↔ spotLapseCheck i = .ok () := by
    unfold spotLapseAdjust
    cases spotLapseCheck i with
    | error e => simp [bind, Except.bind]
    | ok u => simp [bind, Except.bind, pure, Except.pure]
  rw [hiff]
  obtain ⟨p, t, cube, fixed, g⟩ := i
  unfold spotLapseCheck
  rcases cube with _ | ⟨n, hh, he⟩ <;> cases p <;> cases t <;> cases fixed <;> cases g <;> try simp
  all_goals cases n <;> cases hh <;> cases he <;> simp

/-- C81.  Accepted temperatures change by the adjustment for the site's own lapse rate (the fixed one if given) and vertical
displacement. -/
theorem C81_value (i : SpotLapseIn) (sites : List (ℚ × ℚ × ℚ)) (out : List ℚ) (h : spotLapseAdjust i sites = .ok out) :
    out.length = sites.length ∧ ∀ (k : ℕ) (t l d : ℚ), sites[k]? = some (t, l, d) →
      (∀ f, i.fixed = some f → out[k]? = some (t + lapseAdjust f d 50)) ∧
      (i.fixed = none → out[k]? = some (t + lapseAdjust l d 50)) := by
  unfold spotLapseAdjust at h
  cases hc : spotLapseCheck i with
  | error e => rw [hc] at h; exact nomatch h
  | ok u =>
    rw [hc] at h
    simp only [bind, Except.bind, pure, Except.pure] at h
    injection h with h
    rw [← h]
    refine ⟨by simp, fun k t l d hk => ⟨fun f hf => ?_, fun hf => ?_⟩⟩
    · rw [List.getElem?_map, hk, Option.map_some, hf]
    · rw [List.getElem?_map, hk, Option.map_some, hf]

example : spotLapseAdjust ⟨false, true, none, some (-6 / 1000), true⟩ [(280, 0, 10), (285, 0, -100)]
    = .ok [280 - 6 / 100, 285 + 3 / 10 + 65 / 200] := by decide +kernel

/-! ### C82: height adjustment of probabilities -/

/-- The straight line through the `k`-th and the next point. -/
def Spec.segmentLine (xs ps : List ℚ) (k : ℕ) (x : ℚ) : ℚ :=
  ps.getD k 0 + (x - xs.getD k 0) / (xs.getD (k + 1) 0 - xs.getD k 0) * (ps.getD (k + 1) 0 - ps.getD k 0)

theorem columnInterp_inside : ∀ (xs ps : List ℚ), xs.Pairwise (· < ·) → ps.length = xs.length → ∀ (k : ℕ) (x : ℚ),
    k + 1 < xs.length → xs.getD k 0 ≤ x → x ≤ xs.getD (k + 1) 0 → columnInterp xs ps x = some (Spec.segmentLine xs ps k x)
  | [], _, _, _, k, x, hk, _, _ => by simp at hk
  | [a], _, _, _, k, x, hk, _, _ => by simp at hk
  | a :: b :: xs, [], _, hl, k, x, hk, _, _ => by simp at hl
  | a :: b :: xs, [p], _, hl, k, x, hk, _, _ => by simp at hl
  | a :: b :: xs, p :: q :: ps, hs, hl, k, x, hk, h1, h2 => by
    have hs' := (List.pairwise_cons.1 hs)
    have hab : a < b := hs'.1 b (by simp)
    rw [columnInterp]
    cases k with
    | zero =>
      simp at h1 h2
      rw [if_neg (not_lt.2 h1), if_pos h2]
      simp [Spec.segmentLine]
    | succ k =>
      rw [List.getD_cons_succ] at h1 h2
      have hbx : b ≤ x := by
        refine le_trans ?_ h1
        cases k with
        | zero => simp
        | succ k =>
          rw [List.getD_cons_succ]
          have hk' : k < xs.length := by simp at hk; omega
          have hm : xs.getD k 0 ∈ xs := by
            rw [List.getD_eq_getElem _ _ hk']; exact List.getElem_mem hk'
          exact ((List.pairwise_cons.1 hs'.2).1 _ hm).le
      have ih := columnInterp_inside (b :: xs) (q :: ps) hs'.2 (by simpa using hl) k x (by simpa using hk) h1 h2
      rw [if_neg (not_lt.2 (by linarith))]
      by_cases hxb : x ≤ b
      · rw [if_pos hxb]
        have hxe : x = b := le_antisymm hxb hbx
        -- x = b is the first point of the next segment
        have hk0 : k = 0 := by
          by_contra hne
          obtain ⟨j, rfl⟩ := Nat.exists_eq_succ_of_ne_zero hne
          rw [List.getD_cons_succ] at h1
          have hj : j < xs.length := by simp at hk; omega
          have hm : xs.getD j 0 ∈ xs := by rw [List.getD_eq_getElem _ _ hj]; exact List.getElem_mem hj
          have := (List.pairwise_cons.1 hs'.2).1 _ hm
          linarith
        subst hk0
        subst hxe
        have : (x - a) / (x - a) = 1 := div_self (by linarith)
        simp [Spec.segmentLine, this]
      · rw [if_neg hxb, ih]
        simp [Spec.segmentLine]

theorem columnInterp_below : ∀ (xs ps : List ℚ) (x : ℚ), x < xs.getD 0 0 → columnInterp xs ps x = none
  | [], ps, x, _ => by cases ps <;> simp [columnInterp]
  | [a], ps, x, _ => by cases ps <;> simp [columnInterp]
  | a :: b :: xs, [], x, _ => by simp [columnInterp]
  | a :: b :: xs, [p], x, _ => by simp [columnInterp]
  | a :: b :: xs, p :: q :: ps, x, h => by
    have h : x < a := by simpa using h
    rw [columnInterp, if_pos h]

theorem columnInterp_above : ∀ (xs ps : List ℚ) (x : ℚ), (∀ v ∈ xs, v < x) → columnInterp xs ps x = none
  | [], ps, x, _ => by cases ps <;> simp [columnInterp]
  | [a], ps, x, _ => by cases ps <;> simp [columnInterp]
  | a :: b :: xs, [], x, _ => by simp [columnInterp]
  | a :: b :: xs, [p], x, _ => by simp [columnInterp]
  | a :: b :: xs, p :: q :: ps, x, h => by
    rw [columnInterp, if_neg (by have := h a (by simp); linarith), if_neg (by have := h b (by simp); linarith)]
    exact columnInterp_above (b :: xs) (q :: ps) x (fun v hv => h v (by simp [hv]))

/-- `q` is the value at `x` of the curve that joins the points by straight lines and continues level beyond the first and the
last of them. -/
def Spec.onCurve (xs ps : List ℚ) (x q : ℚ) : Prop :=
  (x ≤ xs.getD 0 0 ∧ q = ps.getD 0 0) ∨ (xs.getD (xs.length - 1) 0 ≤ x ∧ q = ps.getD (xs.length - 1) 0) ∨
    ∃ k, k + 1 < xs.length ∧ xs.getD k 0 ≤ x ∧ x ≤ xs.getD (k + 1) 0 ∧ q = Spec.segmentLine xs ps k x

theorem exists_bracket (xs : List ℚ) : 2 ≤ xs.length → ∀ (x : ℚ), xs.getD 0 0 ≤ x → x ≤ xs.getD (xs.length - 1) 0 →
    ∃ k, k + 1 < xs.length ∧ xs.getD k 0 ≤ x ∧ x ≤ xs.getD (k + 1) 0 := by
  intro hlen x h0 h1
  by_contra hcon
  push Not at hcon
  have key : ∀ k, k < xs.length → xs.getD k 0 ≤ x := by
    intro k
    induction k with
    | zero => intro _; exact h0
    | succ k ih => intro hk; exact (hcon k hk (ih (by omega))).le
  have h2 := hcon (xs.length - 2) (by omega) (key _ (by omega))
  have e : xs.length - 2 + 1 = xs.length - 1 := by omega
  rw [e] at h2
  linarith

theorem npMax_of_sorted (l : List ℚ) (hl : l.Pairwise (· ≤ ·)) (hn : l ≠ []) :
    npMax l = .ok (l.getD (l.length - 1) 0) ∧ npMin l = .ok (l.getD 0 0) := by
  cases l with
  | nil => exact absurd rfl hn
  | cons a l =>
    have hmax : ∀ (l : List ℚ) (a : ℚ), (a :: l).Pairwise (· ≤ ·) → l.foldl max a = (a :: l).getD l.length 0 := by
      intro l
      induction l with
      | nil => intro a _; rfl
      | cons b l ih =>
        intro a h
        have h' := List.pairwise_cons.1 h
        rw [List.foldl_cons, max_eq_right (h'.1 b (by simp)), ih b h'.2]
        rfl
    have hmin : ∀ (l : List ℚ) (a : ℚ), (∀ v ∈ l, a ≤ v) → l.foldl min a = a := by
      intro l
      induction l with
      | nil => intro a _; rfl
      | cons b l ih =>
        intro a h
        rw [List.foldl_cons, min_eq_left (h b (by simp)), ih a (fun v hv => h v (by simp [hv]))]
    constructor
    · show Except.ok (l.foldl max a) = _
      rw [hmax l a hl]; rfl
    · show Except.ok (l.foldl min a) = _
      rw [hmin l a (List.pairwise_cons.1 hl).1]; rfl

theorem getD_le_last {l : List ℚ} (hl : l.Pairwise (· < ·)) {v : ℚ} (hv : v ∈ l) :
    l.getD 0 0 ≤ v ∧ v ≤ l.getD (l.length - 1) 0 := by
  obtain ⟨i, hi, rfl⟩ := List.getElem_of_mem hv
  rw [← List.getD_eq_getElem _ 0 hi]
  have hle : l.Pairwise (· ≤ ·) := hl.imp (fun h => h.le)
  constructor
  · rw [List.getD_eq_getElem _ _ (by omega), List.getD_eq_getElem _ _ hi]
    rcases Nat.eq_zero_or_pos i with rfl | h0
    · exact le_refl _
    · exact List.pairwise_iff_getElem.1 hle 0 i (by omega) hi h0
  · rw [List.getD_eq_getElem _ _ hi, List.getD_eq_getElem _ _ (by omega)]
    rcases Nat.lt_or_ge i (l.length - 1) with h | h
    · exact List.pairwise_iff_getElem.1 hle i (l.length - 1) hi (by omega) h
    · have : i = l.length - 1 := by omega
      subst this; exact le_refl _

/-- C82 (part).  For probabilities that do not decrease with the threshold ("below threshold"), the adjusted probability at each
threshold is the original curve read at the threshold plus the vertical displacement, the curve being continued level beyond
its ends. -/
theorem C82_below_partial (thresholds probs : List ℚ) (d : ℚ) (hs : thresholds.Pairwise (· < ·))
    (hl : probs.length = thresholds.length) (h2 : 2 ≤ thresholds.length) (hm : probs.Pairwise (· ≤ ·)) :
    ∃ out, heightAdjustProbs thresholds probs d = .ok out ∧ out.length = thresholds.length ∧
      ∀ (k : ℕ) (t : ℚ), thresholds[k]? = some t → ∃ q, out[k]? = some q ∧ Spec.onCurve thresholds probs (t + d) q := by
  have hpn : probs ≠ [] := by intro e; rw [e] at hl; simp at hl; omega
  obtain ⟨hmax, hmin⟩ := npMax_of_sorted probs hm hpn
  unfold heightAdjustProbs
  rw [if_neg (by omega), hmax, hmin]
  simp only [bind, Except.bind, pure, Except.pure]
  refine ⟨_, rfl, by simp, fun k t hk => ?_⟩
  rw [List.getElem?_map, hk, Option.map_some]
  refine ⟨_, rfl, ?_⟩
  have ht : t ∈ thresholds := List.mem_of_getElem? hk
  obtain ⟨hfirst, hlast⟩ := getD_le_last hs ht
  rcases lt_or_ge (t + d) (thresholds.getD 0 0) with hlo | hlo
  · rw [columnInterp_below _ _ _ hlo]
    left
    refine ⟨hlo.le, ?_⟩
    simp only
    rw [if_neg (by linarith)]
  · rcases lt_or_ge (thresholds.getD (thresholds.length - 1) 0) (t + d) with hhi | hhi
    · have : ∀ v ∈ thresholds, v < t + d := fun v hv => lt_of_le_of_lt (getD_le_last hs hv).2 hhi
      rw [columnInterp_above _ _ _ this]
      right; left
      refine ⟨hhi.le, ?_⟩
      simp only
      rw [if_pos (by linarith), hl]
    · obtain ⟨j, hj, h3, h4⟩ := exists_bracket thresholds h2 (t + d) hlo hhi
      rw [columnInterp_inside thresholds probs hs hl j (t + d) hj h3 h4]
      right; right
      exact ⟨j, hj, h3, h4, rfl⟩

/-- C82.  Whatever the direction of the probabilities, a threshold whose displaced height lies within the thresholds is read off
the line between its two neighbours. -/
theorem C82_inside (thresholds probs out : List ℚ) (d : ℚ) (hs : thresholds.Pairwise (· < ·))
    (hl : probs.length = thresholds.length) (h : heightAdjustProbs thresholds probs d = .ok out)
    (i j : ℕ) (t : ℚ) (hi : thresholds[i]? = some t) (hj : j + 1 < thresholds.length)
    (h3 : thresholds.getD j 0 ≤ t + d) (h4 : t + d ≤ thresholds.getD (j + 1) 0) :
    out[i]? = some (Spec.segmentLine thresholds probs j (t + d)) := by
  unfold heightAdjustProbs at h
  rw [if_neg (by omega)] at h
  cases hmax : npMax probs with
  | error e => rw [hmax] at h; exact nomatch h
  | ok hi' =>
    cases hmin : npMin probs with
    | error e => rw [hmax, hmin] at h; exact nomatch h
    | ok lo =>
      rw [hmax, hmin] at h
      simp only [bind, Except.bind, pure, Except.pure] at h
      injection h with h
      rw [← h, List.getElem?_map, hi, Option.map_some, columnInterp_inside thresholds probs hs hl j (t + d) hj h3 h4]

/-- C82.  Fewer than two thresholds are refused. -/
theorem C82_refused (thresholds probs : List ℚ) (d : ℚ) (h : thresholds.length < 2) :
    heightAdjustProbs thresholds probs d = .error .valueError := by
  unfold heightAdjustProbs; rw [if_pos h]

/-- C82.  Percentile, realization and deterministic heights are raised by the vertical displacement. -/
theorem C82_values (values : List ℚ) (d : ℚ) (k : ℕ) (v : ℚ) (h : values[k]? = some v) :
    (heightAdjustValues values d).length = values.length ∧ (heightAdjustValues values d)[k]? = some (v + d) := by
  unfold heightAdjustValues
  exact ⟨by simp, by simp [h]⟩

/-- C82, finding.  For "above threshold" probabilities a displaced threshold beyond the highest one gets the greatest, instead of the
smallest, probability (`broadcast_max` is used for every positive displacement): the documented value is that of the highest
threshold, and the adjusted probabilities are no longer monotonic. -/
theorem C82_above_refuted : ∃ (thresholds probs out : List ℚ) (d : ℚ), thresholds.Pairwise (· < ·) ∧
    probs.Pairwise (· ≥ ·) ∧ heightAdjustProbs thresholds probs d = .ok out ∧
    thresholds.getD 2 0 < thresholds.getD 2 0 + d ∧ out.getD 2 0 ≠ probs.getD 2 0 ∧ ¬ out.Pairwise (· ≥ ·) :=
  ⟨[100, 200, 300], [1, 1 / 2, 0], [3 / 4, 1 / 4, 1], 50, by decide +kernel, by decide +kernel, by decide +kernel,
    by decide +kernel, by decide +kernel, by decide +kernel⟩

example : heightAdjustProbs [100, 200, 300] [0, 1 / 2, 1] 50 = .ok [1 / 4, 3 / 4, 1] ∧
    heightAdjustProbs [100, 200, 300] [0, 1 / 2, 1] (-50) = .ok [0, 1 / 4, 3 / 4] := by
  constructor <;> decide +kernel

end Improver
