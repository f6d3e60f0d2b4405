import Verif.Model.NbRun
import Verif.Props.NbLandSea
import Verif.Props.ThresholdRun

/-! C258: `NeighbourhoodProcessing` on cubes with named dimensions. -/

namespace Improver

namespace Spec

/-- A cube on an equal area grid of spacing `d` metres, with a mask (if any) on its y and x axes. -/
structure Smoothable (c : NbCube) (mask : Option (PointCube ℤ)) (d : ℚ) : Prop where
  nodup : c.dims.Nodup
  y : c.yName ∈ c.dims
  x : c.xName ∈ c.dims
  ne : c.yName ≠ c.xName
  spacing : 0 < d
  xs : ∃ a n, 2 ≤ n ∧ c.points c.xName = uniform a d n
  ys : ∃ a n, 2 ≤ n ∧ c.points c.yName = uniform a d n
  mask : ∀ m, mask = some m → m.dims = [c.yName, c.xName] ∧ ∀ n ∈ m.dims, m.points n = c.points n

/-- The radius spans `r` whole grid cells, one at least, and is not more than half the diagonal of the grid. -/
def SpansCells (c : NbCube) (d radius : ℚ) (r : ℕ) : Prop :=
  0 < r ∧ (r : ℚ) * d ≤ radius ∧ radius < ((r : ℚ) + 1) * d ∧
    4 * radius ^ 2 ≤ (d * (((c.points c.xName).length : ℚ) - 1)) ^ 2 + (d * (((c.points c.yName).length : ℚ) - 1)) ^ 2

/-- The place with row `i` and column `j` in the slice of `a`. -/
def cellOf (c : NbCube) (a : String → ℕ) (i j : ℕ) : String → ℕ := along (along a c.yName i) c.xName j

/-- The value in row `i` and column `j` of the slice of `a`. -/
def valueIn (c : NbCube) (a : String → ℕ) (i j : ℕ) : ℚ := (placeValue c.toDimCube (cellOf c a i j)).val

/-- A point that counts: not masked in the data, and not zero in the mask. -/
def counts (c : NbCube) (mask : Option (PointCube ℤ)) (a : String → ℕ) (i j : ℕ) : Bool :=
  !(placeValue c.toDimCube (cellOf c a i j)).masked &&
    match mask with
    | none => true
    | some m => decide (placeValue m.toDimCube (cellOf c a i j) ≠ 0)

/-- Masked where the point itself does not count, if masks are put back. -/
def putBack {α : Type} (reMask counted : Bool) (v : α) : Option α := if reMask = true ∧ counted = false then none else some v

/-- The dimensions other than y and x of more than one point. -/
def smoothLead (c : NbCube) : List String := c.dims.filter fun n => decide (n ≠ c.yName ∧ n ≠ c.xName ∧ (c.points n).length ≠ 1)

/-- The dimensions of the result: the other dimensions of more than one point, rearranged, and y and x. -/
def SmoothDims (c : NbCube) (out : PointCube (Option (Option ℚ))) : Prop :=
  (∃ lead, lead.Perm (smoothLead c) ∧ out.dims = lead ++ [c.yName, c.xName]) ∧ out.points = c.points

end Spec

theorem uniform_len (a d : ℚ) (n : ℕ) : (Spec.uniform a d n).length = n := by simp [Spec.uniform]

/-- The run: every place gets what its slice over y and x gives there. -/
theorem nbRun_slices (p : NbPlugin) (order : List String → List String) (ho : ∀ l, (order l).Perm l) (mask : Option (PointCube ℤ)) (c : NbCube) (d : ℚ)
    (hc : Spec.Smoothable c mask d) (radius : ℚ) (hrad : findRadius p.radii c.fps = .ok radius) (r : ℕ) (hr : Spec.SpansCells c d radius r) :
    ∃ out, p.process order mask c = .ok out ∧ Spec.SmoothDims c out ∧
      ∀ a, Spec.Inside c.toPointCube c.dims a → ∃ m s, (∀ i j, (s i j).masked = (Spec.placeValue c.toDimCube (Spec.cellOf c a i j)).masked) ∧ (∀ i j, validFor (fun i j => !(s i j).masked) m i j = Spec.counts c mask a i j) ∧
        (∀ i j, (s i j).val = Spec.valueIn c a i j) ∧
        Spec.placeValue out.toDimCube a = p.slice (c.points c.yName).length (c.points c.xName).length r m s (a c.yName) (a c.xName) := by
  obtain ⟨ax, nx, hnx, hxs⟩ := hc.xs
  obtain ⟨ay, ny, hny, hys⟩ := hc.ys
  obtain ⟨r1, r2, r3, r4⟩ := hr
  have hpos : 0 < radius := lt_of_lt_of_le (mul_pos (by exact_mod_cast r1) hc.spacing) r2
  have hcells : nbCells (c.points c.xName) (c.points c.yName) radius = .ok r := by
    rw [hxs, hys]
    refine (C86_cells ax d ay nx ny hc.spacing hnx hny radius hpos r).2 ⟨?_, r1, r2, r3⟩
    rw [hxs, hys, uniform_len, uniform_len] at r4
    exact r4
  have hmask : checkMaskShape mask (c.points c.yName).length (c.points c.xName).length = .ok () := by
    unfold checkMaskShape
    cases hm : mask with
    | none => rfl
    | some m =>
      obtain ⟨e1, e2⟩ := hc.mask m hm
      simp only
      rw [if_pos]
      rw [e1] at e2 ⊢
      simp only [List.map_cons, List.map_nil, e2 c.yName (by simp), e2 c.xName (by simp)]
  refine ⟨p.array order r mask c, ?_, ⟨⟨_, ho _, rfl⟩, rfl⟩, ?_⟩
  · unfold NbPlugin.process
    rw [hrad]
    simp only [bind, Except.bind]
    rw [hcells]
    simp only
    rw [hmask]
  intro a ha
  have hker : ∀ n, n ∈ order (Spec.smoothLead c) ↔ n ∈ Spec.smoothLead c := fun n => (ho _).mem_iff
  have hy : c.yName ∉ order (Spec.smoothLead c) := by
    rw [hker]; intro e; simpa using (List.mem_filter.1 e).2
  have hx : c.xName ∉ order (Spec.smoothLead c) := by
    rw [hker]; intro e; simpa using (List.mem_filter.1 e).2
  generalize hk : order (Spec.smoothLead c) = kept at hker hy hx
  refine ⟨maskArray mask, fun i j => c.data (c.dims.map (placeOf c.yName c.xName kept ((kept ++ [c.yName, c.xName]).map a) i j)), ?_, ?_, ?_, ?_⟩
  rotate_left 3
  · show p.slice _ _ r (maskArray mask) (fun i j => c.data (c.dims.map (placeOf c.yName c.xName (order (Spec.smoothLead c)) ((order (Spec.smoothLead c) ++ [c.yName, c.xName]).map a) i j)))
      (((order (Spec.smoothLead c) ++ [c.yName, c.xName]).map a).getD (order (Spec.smoothLead c)).length 0)
      (((order (Spec.smoothLead c) ++ [c.yName, c.xName]).map a).getD ((order (Spec.smoothLead c)).length + 1) 0) = _
    rw [hk]
    congr 1
    · simp [List.getD]
    · simp [List.getD]
  all_goals
    have hplace : ∀ i j, c.dims.map (placeOf c.yName c.xName kept ((kept ++ [c.yName, c.xName]).map a) i j) = c.dims.map (Spec.cellOf c a i j) := by
      intro i j
      apply List.map_congr_left
      intro n hn
      unfold placeOf Spec.cellOf Spec.along
      by_cases e1 : n = c.yName
      · rw [if_pos e1, if_neg (fun e => hc.ne (e1 ▸ e)), if_pos e1]
      · by_cases e2 : n = c.xName
        · rw [if_neg e1, if_pos e2, if_pos e2]
        · rw [if_neg e1, if_neg e2, if_neg e2, if_neg e1]
          by_cases e3 : n ∈ kept
          · rw [if_pos e3]
            have hmem : n ∈ kept ++ [c.yName, c.xName] := List.mem_append_left _ e3
            have := getD_map_idxOf hmem a
            rwa [List.idxOf_append_of_mem e3] at this
          · rw [if_neg e3]
            have hlen : (c.points n).length = 1 := by
              by_contra hne
              exact e3 ((hker n).2 (List.mem_filter.2 ⟨hn, by simp [e1, e2, hne]⟩))
            have := ha n hn
            omega
    intro i j
  · simp only
    rw [hplace]
    rfl
  · unfold validFor Spec.counts maskArray Spec.placeValue
    beta_reduce
    rw [hplace]
    cases hm : mask with
    | none => simp
    | some m =>
      obtain ⟨e1, _⟩ := hc.mask m hm
      simp only
      rw [e1]
      have hij : [c.yName, c.xName].map (Spec.cellOf c a i j) = [i, j] := by
        simp only [List.map_cons, List.map_nil, Spec.cellOf, Spec.along]
        rw [if_neg hc.ne]; rfl
      rw [hij]
      simp
  · simp only
    rw [hplace]
    rfl

theorem slice_eq (p : NbPlugin) (h w r : ℕ) (m : ℕ → ℕ → ℤ) (s : ℕ → ℕ → MVal) (y x : ℕ) (counts : ℕ → ℕ → Bool) (f : ℕ → ℕ → ℚ)
    (h1 : ∀ i j, validFor (fun i j => !(s i j).masked) m i j = counts i j) (h2 : ∀ i j, (s i j).val = f i j) :
    ∃ lo hi, lo ≤ hi ∧ (∀ i j, i < h → j < w → counts i j = true → lo ≤ f i j ∧ f i j ≤ hi) ∧
      ((∃ i j, i < h ∧ j < w ∧ counts i j = true) →
        (∃ i j, i < h ∧ j < w ∧ (s i j).masked = false ∧ f i j = lo) ∧ ∃ i j, i < h ∧ j < w ∧ (s i j).masked = false ∧ f i j = hi) ∧
      p.slice h w r m s y x = Spec.putBack p.reMask (counts y x) ((p.value h w r counts f lo hi y x).toOption.getD none) := by
  have e1 : validFor (fun i j => !(s i j).masked) m = counts := by funext i j; exact h1 i j
  have e2 : (fun i j => (s i j).val) = f := by funext i j; exact h2 i j
  refine ⟨dataLow h w (fun i j => !(s i j).masked) f, dataHigh h w (fun i j => !(s i j).masked) f, data_low_le_high _ _ _ _, ?_, ?_, ?_⟩
  · intro i j hi hj hv
    refine data_bounds hi hj ?_
    rw [← h1] at hv
    unfold validFor at hv
    simp only [Bool.and_eq_true] at hv
    exact hv.1
  · rintro ⟨i, j, hi, hj, hv⟩
    rw [← h1] at hv
    unfold validFor at hv
    simp only [Bool.and_eq_true] at hv
    have hm : f i j ∈ presentValues h w (fun i j => !(s i j).masked) f := mem_presentValues.2 ⟨i, j, hi, hj, hv.1, rfl⟩
    unfold dataLow dataHigh
    cases hp : presentValues h w (fun i j => !(s i j).masked) f with
    | nil => rw [hp] at hm; cases hm
    | cons q l =>
      have g1 : npMin (q :: l) = .ok (l.foldl min q) := rfl
      have g2 : npMax (q :: l) = .ok (l.foldl max q) := rfl
      have m1 := (npMin_spec g1).1
      have m2 := (npMax_spec g2).1
      rw [← hp] at m1 m2
      obtain ⟨i1, j1, a1, a2, a3, a4⟩ := mem_presentValues.1 m1
      obtain ⟨i2, j2, b1, b2, b3, b4⟩ := mem_presentValues.1 m2
      exact ⟨⟨i1, j1, a1, a2, by simpa using a3, by rw [a4, g1]; rfl⟩, ⟨i2, j2, b1, b2, by simpa using b3, by rw [b4, g2]; rfl⟩⟩
  · unfold NbPlugin.slice Spec.putBack
    simp only
    rw [e1, e2]

/-- **C258** (sums): with `sum_only`, every place gets the sum over its own (y, x) slice of the values that count, over the square of `2r+1` by `2r+1` cells
inside the grid, or with the weights of the circle (the edge of the grid being repeated outwards); masked where it does not count itself, if masks are put
back.  Other dimensions are kept, in some order, if they have more than one point. -/
theorem C258_sum (p : NbPlugin) (hp : p.sumOnly = true) (order : List String → List String) (ho : ∀ l, (order l).Perm l) (mask : Option (PointCube ℤ)) (c : NbCube)
    (d : ℚ) (hc : Spec.Smoothable c mask d) (radius : ℚ) (hrad : findRadius p.radii c.fps = .ok radius) (r : ℕ) (hr : Spec.SpansCells c d radius r) :
    ∃ out, p.process order mask c = .ok out ∧ Spec.SmoothDims c out ∧ ∀ a, Spec.Inside c.toPointCube c.dims a →
      Spec.placeValue out.toDimCube a = Spec.putBack p.reMask (Spec.counts c mask a (a c.yName) (a c.xName)) (some (
        if p.circular then Spec.circleSum (c.points c.yName).length (c.points c.xName).length r p.weighted
          (fun i j => if Spec.counts c mask a i j then Spec.valueIn c a i j else 0) (a c.yName) (a c.xName)
        else Spec.windowSum (c.points c.yName).length (c.points c.xName).length r r
          (fun i j => if Spec.counts c mask a i j then Spec.valueIn c a i j else 0) (a c.yName) (a c.xName))) := by
  obtain ⟨out, o1, o2, o3⟩ := nbRun_slices p order ho mask c d hc radius hrad r hr
  refine ⟨out, o1, o2, ?_⟩
  intro a ha
  obtain ⟨m, s, s0, s1, s2, s3⟩ := o3 a ha
  obtain ⟨lo, hi, l1, l2, l4, l3⟩ := slice_eq p _ _ r m s (a c.yName) (a c.xName) _ _ s1 s2
  rw [s3, l3]
  congr 1
  unfold NbPlugin.value
  cases hcirc : p.circular with
  | true =>
    simp only [hp, if_true]
    show some _ = _
    rw [C86_sum _ _ r hr.1 _ _ _ _ _ (ha _ hc.y) (ha _ hc.x)]
  | false =>
    simp only [hp, if_true, Bool.false_eq_true, if_false]
    rw [C27_sum_exact _ _ _ _ _ _ _ (ha _ hc.y) (ha _ hc.x)]
    rfl

/-- **C258** (circular means): every place gets the weighted mean, over its own (y, x) slice, of the values that count, NaN if there are none within reach. -/
theorem C258_circular_mean (p : NbPlugin) (hp : p.sumOnly = false) (hcirc : p.circular = true) (order : List String → List String) (ho : ∀ l, (order l).Perm l)
    (mask : Option (PointCube ℤ)) (c : NbCube) (d : ℚ) (hc : Spec.Smoothable c mask d) (radius : ℚ) (hrad : findRadius p.radii c.fps = .ok radius) (r : ℕ)
    (hr : Spec.SpansCells c d radius r) :
    ∃ out, p.process order mask c = .ok out ∧ Spec.SmoothDims c out ∧ ∀ a, Spec.Inside c.toPointCube c.dims a →
      let total (f : ℕ → ℕ → ℚ) := Spec.circleSum (c.points c.yName).length (c.points c.xName).length r p.weighted
        (fun i j => if Spec.counts c mask a i j then f i j else 0) (a c.yName) (a c.xName)
      Spec.placeValue out.toDimCube a = Spec.putBack p.reMask (Spec.counts c mask a (a c.yName) (a c.xName))
        (if total (fun _ _ => 1) = 0 then none else some (total (Spec.valueIn c a) / total fun _ _ => 1)) := by
  obtain ⟨out, o1, o2, o3⟩ := nbRun_slices p order ho mask c d hc radius hrad r hr
  refine ⟨out, o1, o2, ?_⟩
  intro a ha total
  obtain ⟨m, s, s0, s1, s2, s3⟩ := o3 a ha
  obtain ⟨lo, hi, l1, l2, l4, l3⟩ := slice_eq p _ _ r m s (a c.yName) (a c.xName) _ _ s1 s2
  rw [s3, l3]
  congr 1
  unfold NbPlugin.value
  rw [hp, hcirc]
  show circularMean _ _ _ _ _ _ _ _ _ _ = _
  exact C86_mean _ _ r hr.1 _ _ _ lo hi l2 _ _ (ha _ hc.y) (ha _ hc.x)

/-- **C258** (square means): every place gets a value within the range of the values of its slice, NaN if and only if none within reach counts; at a place
with its whole square inside the grid it is the mean of the values that count.  (Near the edges see C27.) -/
theorem C258_square_mean (p : NbPlugin) (hp : p.sumOnly = false) (hsq : p.circular = false) (order : List String → List String) (ho : ∀ l, (order l).Perm l)
    (mask : Option (PointCube ℤ)) (c : NbCube) (d : ℚ) (hc : Spec.Smoothable c mask d) (radius : ℚ) (hrad : findRadius p.radii c.fps = .ok radius) (r : ℕ)
    (hr : Spec.SpansCells c d radius r) :
    ∃ out, p.process order mask c = .ok out ∧ Spec.SmoothDims c out ∧ ∀ a, Spec.Inside c.toPointCube c.dims a →
      let total (f : ℕ → ℕ → ℚ) := Spec.windowSum (c.points c.yName).length (c.points c.xName).length r r
        (fun i j => if Spec.counts c mask a i j then f i j else 0) (a c.yName) (a c.xName)
      ∃ v, Spec.placeValue out.toDimCube a = Spec.putBack p.reMask (Spec.counts c mask a (a c.yName) (a c.xName)) v ∧
        (v = none ↔ total (fun _ _ => 1) = 0) ∧
        (∀ u, v = some u → (∃ i j, i < (c.points c.yName).length ∧ j < (c.points c.xName).length ∧
            (Spec.placeValue c.toDimCube (Spec.cellOf c a i j)).masked = false ∧ Spec.valueIn c a i j ≤ u) ∧
          ∃ i j, i < (c.points c.yName).length ∧ j < (c.points c.xName).length ∧
            (Spec.placeValue c.toDimCube (Spec.cellOf c a i j)).masked = false ∧ u ≤ Spec.valueIn c a i j) ∧
        (r ≤ a c.yName ∧ a c.yName + r < (c.points c.yName).length ∧ r ≤ a c.xName ∧ a c.xName + r < (c.points c.xName).length →
          total (fun _ _ => 1) ≠ 0 → v = some (total (Spec.valueIn c a) / total fun _ _ => 1)) := by
  obtain ⟨out, o1, o2, o3⟩ := nbRun_slices p order ho mask c d hc radius hrad r hr
  refine ⟨out, o1, o2, ?_⟩
  intro a ha total
  obtain ⟨m, s, s0, s1, s2, s3⟩ := o3 a ha
  obtain ⟨lo, hi, l1, l2, l4, l3⟩ := slice_eq p _ _ r m s (a c.yName) (a c.xName) _ _ s1 s2
  refine ⟨_, s3.trans l3, ?_, ?_, ?_⟩
  all_goals
    unfold NbPlugin.value
    rw [hp, hsq]
    simp only [Bool.false_eq_true, if_false]
  · obtain ⟨v, v1, v2, _⟩ := C27_mean_in_range (c.points c.yName).length (c.points c.xName).length r (Spec.counts c mask a) (Spec.valueIn c a) lo hi l1 _ _
      (ha _ hc.y) (ha _ hc.x)
    rw [v1]
    exact v2
  · obtain ⟨v, v1, v2, v3⟩ := C27_mean_in_range (c.points c.yName).length (c.points c.xName).length r (Spec.counts c mask a) (Spec.valueIn c a) lo hi l1 _ _
      (ha _ hc.y) (ha _ hc.x)
    rw [v1]
    intro u hu
    have hu' : v = some u := hu
    have hsome : Spec.validCount (c.points c.yName).length (c.points c.xName).length r (Spec.counts c mask a) (a c.yName) (a c.xName) ≠ 0 := by
      intro e
      rw [v2.2 e] at hu'
      exact nomatch hu'
    have hex : ∃ i j, i < (c.points c.yName).length ∧ j < (c.points c.xName).length ∧ Spec.counts c mask a i j = true := by
      by_contra hno
      apply hsome
      unfold Spec.validCount Spec.windowSum
      apply Finset.sum_eq_zero
      intro i hi
      apply Finset.sum_eq_zero
      intro j hj
      have : Spec.counts c mask a i j ≠ true := fun e => hno ⟨i, j, Finset.mem_range.1 hi, Finset.mem_range.1 hj, e⟩
      beta_reduce; rw [if_neg this]
      exact ite_self _
    obtain ⟨⟨i1, j1, p1, p2, p3, p4⟩, ⟨i2, j2, q1, q2, q3, q4⟩⟩ := l4 hex
    rw [s0] at p3 q3
    exact ⟨⟨i1, j1, p1, p2, p3, p4.le.trans (v3 u hu').1⟩, ⟨i2, j2, q1, q2, q3, (v3 u hu').2.trans q4.ge⟩⟩
  · intro hin hne
    rw [C27_mean_exact_partial _ _ r _ _ lo hi l2 _ _ (ha _ hc.y) (ha _ hc.x) (Or.inl hin)]
    exact if_neg hne

/-- **C258** (refused): a radius of less than one grid cell or of more than half the diagonal of the grid, several forecast periods with radii by lead time, and
a mask of another shape are refused. -/
theorem C258_refused (p : NbPlugin) (order : List String → List String) (mask : Option (PointCube ℤ)) (c : NbCube) (ax ay d : ℚ) (nx ny : ℕ) (hd : 0 < d)
    (hnx : 2 ≤ nx) (hny : 2 ≤ ny) (hx : c.points c.xName = Spec.uniform ax d nx) (hy : c.points c.yName = Spec.uniform ay d ny)
    (h : (∃ radii leadTimes, p.radii = .byLeadTime radii leadTimes ∧ c.fps.length ≠ 1) ∨
      (∃ radius, findRadius p.radii c.fps = .ok radius ∧
        (radius < d ∨ (d * ((nx : ℚ) - 1)) ^ 2 + (d * ((ny : ℚ) - 1)) ^ 2 < 4 * radius ^ 2)) ∨
      ∃ m, mask = some m ∧ (m.dims.map fun n => (m.points n).length) ≠ [ny, nx]) :
    ∀ out, p.process order mask c ≠ .ok out := by
  intro out hout
  unfold NbPlugin.process at hout
  simp only [bind, Except.bind] at hout
  cases h1 : findRadius p.radii c.fps with
  | error e => rw [h1] at hout; exact nomatch hout
  | ok radius =>
  rw [h1] at hout
  simp only at hout
  cases h2 : nbCells (c.points c.xName) (c.points c.yName) radius with
  | error e => rw [h2] at hout; exact nomatch hout
  | ok r =>
  rw [h2] at hout
  simp only at hout
  cases h3 : checkMaskShape mask (c.points c.yName).length (c.points c.xName).length with
  | error e => rw [h3] at hout; exact nomatch hout
  | ok u =>
  have hpos : 0 < radius := by
    by_contra hn
    unfold nbCells at h2
    simp only [bind, Except.bind] at h2
    cases g1 : checkEqualArea (c.points c.xName) (c.points c.yName) true with
    | error e => rw [g1] at h2; exact nomatch h2
    | ok _ =>
    rw [g1] at h2
    simp only at h2
    cases g2 : checkRadius (c.points c.xName) (c.points c.yName) radius with
    | error e => rw [g2] at h2; exact nomatch h2
    | ok _ =>
    rw [g2] at h2
    simp only at h2
    unfold distanceToCells at h2
    rw [if_pos (not_lt.1 hn)] at h2
    exact nomatch h2
  rcases h with ⟨radii, lead, e1, e2⟩ | ⟨radius', e1, e2⟩ | ⟨m, e1, e2⟩
  · rw [e1] at h1
    unfold findRadius at h1
    simp only at h1
    by_cases hl : lead = []
    · rw [if_pos hl] at h1; exact nomatch h1
    · rw [if_neg hl] at h1
      match hf : c.fps with
      | [] => rw [hf] at h1; exact nomatch h1
      | [_] => rw [hf] at e2; exact e2 rfl
      | _ :: _ :: _ => rw [hf] at h1; exact nomatch h1
  · rw [h1] at e1
    cases e1
    rw [hx, hy] at h2
    have := (C86_cells ax d ay nx ny hd hnx hny radius hpos r).1 h2
    rcases e2 with e2 | e2
    · have hr1 : (1 : ℚ) ≤ r := by exact_mod_cast this.2.1
      nlinarith [this.2.2.1]
    · exact absurd this.1 (not_le.2 e2)
  · rw [e1] at h3
    unfold checkMaskShape at h3
    simp only at h3
    rw [hx, hy, uniform_len, uniform_len, if_neg e2] at h3
    exact nomatch h3

/-- A cube for the statements below: realizations, y and x of the given numbers of points, one kilometre apart. -/
def nbSample (dims : List String) (members ny nx : ℕ) (data : List ℕ → MVal) : NbCube :=
  ⟨⟨⟨dims, data⟩, fun n => if n = "realization" then (List.range members).map (fun k => (k : ℚ)) else if n = "y" then Spec.uniform 0 1000 ny else Spec.uniform 0 1000 nx⟩,
    "y", "x", [1]⟩

/-- The plugin for the statements below: sums over squares of a radius of one kilometre. -/
def nbSamplePlugin : NbPlugin := ⟨false, false, true, true, .single 1000⟩

theorem nbSample_ready (dims : List String) (hd : dims.Nodup) (hy : "y" ∈ dims) (hx : "x" ∈ dims) (members ny nx : ℕ) (h1 : 2 ≤ ny) (h2 : 2 ≤ nx)
    (data : List ℕ → MVal) : Spec.Smoothable (nbSample dims members ny nx data) none 1000 where
  nodup := hd
  y := hy
  x := hx
  ne := show ("y" : String) ≠ "x" by decide
  spacing := by norm_num
  xs := ⟨0, nx, h2, rfl⟩
  ys := ⟨0, ny, h1, rfl⟩
  mask := fun _ e => nomatch e

/-- The hypotheses of `C258_sum` are met, with realizations last and one point masked: the two members keep to themselves. -/
example : Spec.Smoothable (nbSample ["x", "y", "realization"] 2 4 3 fun idx => ⟨1, decide (idx = [1, 1, 0])⟩) none 1000 ∧
    findRadius nbSamplePlugin.radii (nbSample ["x", "y", "realization"] 2 4 3 fun idx => ⟨1, decide (idx = [1, 1, 0])⟩).fps = .ok 1000 ∧
    Spec.SpansCells (nbSample ["x", "y", "realization"] 2 4 3 fun idx => ⟨1, decide (idx = [1, 1, 0])⟩) 1000 1000 1 ∧
    ((nbSamplePlugin.process id none (nbSample ["x", "y", "realization"] 2 4 3 fun idx => ⟨1, decide (idx = [1, 1, 0])⟩)).toOption.map fun o =>
      (o.dims, o.data [0, 0, 0], o.data [1, 0, 0], o.data [0, 1, 1])) = some (["realization", "y", "x"], some (some 3), some (some 4), none) := by
  refine ⟨nbSample_ready _ (by decide) (by decide) (by decide) _ _ _ (by decide) (by decide) _, rfl, ?_, by decide +kernel⟩
  refine ⟨by decide, by norm_num, by norm_num, ?_⟩
  decide +kernel

/-- **Finding.** A dimension of one point does not come back: the result of a cube of one realization on (realization, y, x) is on (y, x). -/
theorem C258_one_point_refuted :
    ∃ (c : NbCube) (out : PointCube (Option (Option ℚ))), c.dims = ["realization", "y", "x"] ∧ Spec.Smoothable c none 1000 ∧
      nbSamplePlugin.process id none c = .ok out ∧ out.dims = ["y", "x"] := by
  have hrun : ((nbSamplePlugin.process id none (nbSample ["realization", "y", "x"] 1 3 3 fun _ => ⟨1, false⟩)).toOption.map fun o => o.dims) =
      some ["y", "x"] := by decide +kernel
  obtain ⟨o, h1, h2⟩ := result_of_map hrun
  exact ⟨_, o, rfl, nbSample_ready _ (by decide) (by decide) (by decide) _ _ _ (by decide) (by decide) _, h1, h2⟩

/-- **Finding.** The mask is used by position: on (x, y) of a square grid it is used transposed.  The mask excludes y = 0, x = 1 only, and the point masked is
y = 1, x = 0. -/
theorem C258_mask_axes_refuted :
    ∃ (c : NbCube) (m : PointCube ℤ) (out : PointCube (Option (Option ℚ))), Spec.Smoothable c none 1000 ∧ c.dims = ["y", "x"] ∧ m.dims = ["x", "y"] ∧
      (∀ n ∈ m.dims, m.points n = c.points n) ∧ (∀ y x, m.data [x, y] = if y = 0 ∧ x = 1 then 0 else 1) ∧
      nbSamplePlugin.process id (some m) c = .ok out ∧ out.dims = ["y", "x"] ∧ out.data [0, 1] ≠ none ∧ out.data [1, 0] = none := by
  let c := nbSample ["y", "x"] 1 3 3 fun _ => ⟨1, false⟩
  let m : PointCube ℤ := ⟨⟨["x", "y"], fun idx => if idx.getD 1 0 = 0 ∧ idx.getD 0 0 = 1 then 0 else 1⟩, c.points⟩
  have hrun : ((nbSamplePlugin.process id (some m) c).toOption.map fun o => (o.dims, o.data [0, 1], o.data [1, 0])) =
      some (["y", "x"], some (some 5), none) := by decide +kernel
  obtain ⟨o, h1, h2⟩ := result_of_map hrun
  simp only [Prod.mk.injEq] at h2
  refine ⟨c, m, o, nbSample_ready _ (by decide) (by decide) (by decide) _ _ _ (by decide) (by decide) _, rfl, rfl, fun _ _ => rfl, fun _ _ => rfl, h1, h2.1, ?_, h2.2.2⟩
  rw [h2.2.1]
  exact fun e => nomatch e

end Improver
