import Verif.Props.Regrid
import Mathlib.Tactic.IntervalCases

/-! Property theorems C100 (bilinear), C101 (nearest) and C104 (order of dimensions) of regridding from an even grid. -/

namespace Improver

/-- Bilinear interpolation in the cell `(j, i)`; missing if a corner is missing. -/
def Spec.bilinearAt (lat lon : RegAxis) (data : ℕ → ℕ → Option ℚ) (p : ℚ × ℚ) (j i : ℕ) : Option ℚ :=
  match data j i, data (j + 1) i, data (j + 1) (i + 1), data j (i + 1) with
  | some a, some b, some c, some d =>
    let fy := (p.1 - lat.point j) / lat.step
    let fx := (p.2 - lon.point i) / lon.step
    some ((1 - fy) * ((1 - fx) * a + fx * d) + fy * ((1 - fx) * b + fx * c))
  | _, _, _, _ => none

/-- Squared distance in degrees from the target to a source grid point. -/
def Spec.degrees (lat lon : RegAxis) (p : ℚ × ℚ) (j i : ℕ) : ℚ := (lat.point j - p.1) ^ 2 + (lon.point i - p.2) ^ 2

theorem cellQuad_values (lat lon : RegAxis) (s : SrcGrid) (r0 c0 H W : ℕ) (hs : SliceOf lat lon s r0 c0 H W) (r c : ℕ) (hr : r + 1 < H) (hc : c + 1 < W)
    (data : ℕ → ℕ → Option ℚ) :
    (cellQuad W r c).toList.map (flatValue s data) = [data (r0 + r) (c0 + c), data (r0 + r + 1) (c0 + c), data (r0 + r + 1) (c0 + c + 1), data (r0 + r) (c0 + c + 1)] ∧
    (cellQuad W r c).toList.map (flatPoint s) = [(lat.point (r0 + r), lon.point (c0 + c)), (lat.point (r0 + r + 1), lon.point (c0 + c)),
      (lat.point (r0 + r + 1), lon.point (c0 + c + 1)), (lat.point (r0 + r), lon.point (c0 + c + 1))] := by
  have f1 := flat_cell lat lon s r0 c0 H W hs r c (by omega) (by omega)
  have f2 := flat_cell lat lon s r0 c0 H W hs (r + 1) c hr (by omega)
  have f3 := flat_cell lat lon s r0 c0 H W hs (r + 1) (c + 1) hr hc
  have f4 := flat_cell lat lon s r0 c0 H W hs r (c + 1) (by omega) hc
  simp only [Prod.mk.injEq, ← Nat.add_assoc] at f1 f2 f3 f4
  simp only [cellQuad, Quad.toList, List.map_cons, List.map_nil, flatValue, f1.1, f1.2.1, f1.2.2, f2.1, f2.2.1, f2.2.2, f3.1, f3.2.1, f3.2.2, f4.1, f4.2.1,
    f4.2.2, and_self]

theorem basic_bilinear (lat lon : RegAxis) (hlat : 0 < lat.step) (hlon : 0 < lon.step) (s : SrcGrid) (r0 c0 H W : ℕ) (hs : SliceOf lat lon s r0 c0 H W)
    (r c : ℕ) (hr : r + 1 < H) (hc : c + 1 < W) (data : ℕ → ℕ → Option ℚ) (p : ℚ × ℚ) :
    applyWeights s data (cellQuad W r c).toList (basicWeights s lat.step lon.step (cellQuad W r c) p) =
      Spec.bilinearAt lat lon data p (r0 + r) (c0 + c) := by
  have hv := (cellQuad_values lat lon s r0 c0 H W hs r c hr hc data).1
  have hp := (flat_cell lat lon s r0 c0 H W hs r c (by omega) (by omega)).1
  unfold applyWeights Spec.bilinearAt basicWeights
  rw [hv]
  have hi1 : (cellQuad W r c).i1 = r * W + c := rfl
  rw [hi1, hp]
  cases data (r0 + r) (c0 + c) with
  | none => simp [sumWeighted]
  | some a =>
  cases data (r0 + r + 1) (c0 + c) with
  | none => simp [sumWeighted]
  | some b =>
  cases data (r0 + r + 1) (c0 + c + 1) with
  | none => simp [sumWeighted]
  | some cc =>
  cases data (r0 + r) (c0 + c + 1) with
  | none => simp [sumWeighted]
  | some d =>
    simp only [sumWeighted, Option.map_some, Option.some.injEq]
    have h1 := hlat.ne'
    have h2 := hlon.ne'
    field_simp
    ring

/-! ## C100: bilinear -/

/-- C100.  Bilinear regridding: every target outside the domain of the source is missing, and every target inside gets the bilinear interpolation in
the grid cell that contains it, whatever the other targets are.  (Targets that are nearly but not exactly on a grid line are excluded, see
`C100_close_refuted`.) -/
theorem C100_bilinear_partial (lat lon : RegAxis) (hlat : 0 < lat.step) (hlon : 0 < lon.step) (nlat : 2 ≤ lat.n) (nlon : 2 ≤ lon.n)
    (ms : ℚ × ℚ) (data : ℕ → ℕ → Option ℚ) (land : ℕ → ℕ → Bool) (ip : ℚ → ℚ) (dist : ℚ × ℚ → ℕ × ℕ → ℚ) (vic : ℚ) (tgt : ℚ × ℚ → Bool)
    (out : List (ℚ × ℚ)) (hclear : ∀ p ∈ out, Spec.clear lat lon p) (res : List (Option ℚ))
    (h : regridWithMask "bilinear-2" lat lon ms data land ip dist vic tgt out = .ok res) :
    res.length = out.length ∧ ∀ (k : ℕ) p, out[k]? = some p →
      (¬ Spec.inSource lat lon p → res[k]? = some none) ∧
      (Spec.inSource lat lon p → ∃ j i, Spec.inCell lat lon p j i ∧ res[k]? = some (Spec.bilinearAt lat lon data p j i)) := by
  obtain ⟨h1, s, r0, c0, H, W, hs, -, h2⟩ := regrid_targets _ lat lon hlat hlon nlat nlon ms data land ip dist vic tgt out hclear res h
  refine ⟨h1, fun k p hk => ⟨(h2 k p hk).1, fun hd => ?_⟩⟩
  obtain ⟨r, c, v, hr, hc, hcell, hv, hres⟩ := (h2 k p hk).2 hd
  refine ⟨r0 + r, c0 + c, hcell, ?_⟩
  unfold regridTarget at hv
  simp only [resolveQuad_cell lat lon s r0 c0 H W hs r c hr hc, bind, Except.bind, pure, Except.pure] at hv
  rw [if_neg (by decide), if_pos trivial] at hv
  injection hv with hv
  rw [hres, ← hv, basic_bilinear lat lon hlat hlon s r0 c0 H W hs r c hr hc data p]

/-- The fractions of a target in its cell. -/
theorem cell_fraction (a : RegAxis) (h : 0 < a.step) (y : ℚ) (k : ℕ) (h1 : a.point k ≤ y) (h2 : y ≤ a.point (k + 1)) :
    0 ≤ (y - a.point k) / a.step ∧ (y - a.point k) / a.step ≤ 1 := by
  rw [a.point_succ] at h2
  exact ⟨div_nonneg (by linarith) (le_of_lt h), by rw [div_le_one h]; linarith⟩

/-- C100.  No new extremes: the interpolated value lies between the smallest and the largest of the corners of the cell. -/
theorem C100_range (lat lon : RegAxis) (hlat : 0 < lat.step) (hlon : 0 < lon.step) (data : ℕ → ℕ → Option ℚ) (p : ℚ × ℚ) (j i : ℕ)
    (hc : Spec.inCell lat lon p j i) (lo hi v : ℚ)
    (hb : ∀ j' i' q, (j' = j ∨ j' = j + 1) → (i' = i ∨ i' = i + 1) → data j' i' = some q → lo ≤ q ∧ q ≤ hi)
    (hv : Spec.bilinearAt lat lon data p j i = some v) : lo ≤ v ∧ v ≤ hi := by
  obtain ⟨y0, y1⟩ := cell_fraction lat hlat p.1 j hc.1.2.1 hc.1.2.2
  obtain ⟨x0, x1⟩ := cell_fraction lon hlon p.2 i hc.2.2.1 hc.2.2.2
  unfold Spec.bilinearAt at hv
  cases h1 : data j i with
  | none => simp [h1] at hv
  | some a =>
  cases h2 : data (j + 1) i with
  | none => simp [h1, h2] at hv
  | some b =>
  cases h3 : data (j + 1) (i + 1) with
  | none => simp [h1, h2, h3] at hv
  | some c =>
  cases h4 : data j (i + 1) with
  | none => simp [h1, h2, h3, h4] at hv
  | some d =>
  simp only [h1, h2, h3, h4, Option.some.injEq] at hv
  set fy := (p.1 - lat.point j) / lat.step
  set fx := (p.2 - lon.point i) / lon.step
  have ba := hb j i a (.inl rfl) (.inl rfl) h1
  have bb := hb (j + 1) i b (.inr rfl) (.inl rfl) h2
  have bc := hb (j + 1) (i + 1) c (.inr rfl) (.inr rfl) h3
  have bd := hb j (i + 1) d (.inl rfl) (.inr rfl) h4
  have mix : ∀ f u w : ℚ, 0 ≤ f → f ≤ 1 → (lo ≤ u ∧ u ≤ hi) → (lo ≤ w ∧ w ≤ hi) → lo ≤ (1 - f) * u + f * w ∧ (1 - f) * u + f * w ≤ hi := by
    intro f u w f0 f1 hu hw
    constructor <;> nlinarith
  rw [← hv]
  exact mix fy _ _ y0 y1 (mix fx a d x0 x1 ba bd) (mix fx b c x0 x1 bb bc)

/-- C100.  Bilinear functions of latitude and longitude are reproduced exactly. -/
theorem C100_exact (lat lon : RegAxis) (hlat : 0 < lat.step) (hlon : 0 < lon.step) (data : ℕ → ℕ → Option ℚ) (p : ℚ × ℚ) (j i : ℕ) (a b c d : ℚ)
    (hdata : ∀ j i, data j i = some (a + b * lat.point j + c * lon.point i + d * (lat.point j * lon.point i))) :
    Spec.bilinearAt lat lon data p j i = some (a + b * p.1 + c * p.2 + d * (p.1 * p.2)) := by
  unfold Spec.bilinearAt
  simp only [hdata, Option.some.injEq, RegAxis.point_succ]
  have h1 := hlat.ne'
  have h2 := hlon.ne'
  field_simp
  ring

/-- C100.  A target on a grid point gets the value of that grid point if no corner of its cell is missing. -/
theorem C100_on_grid (lat lon : RegAxis) (hlat : 0 < lat.step) (hlon : 0 < lon.step) (data : ℕ → ℕ → Option ℚ) (j i j' i' : ℕ) (v : ℚ)
    (hc : Spec.inCell lat lon (lat.point j', lon.point i') j i)
    (hv : Spec.bilinearAt lat lon data (lat.point j', lon.point i') j i = some v) : data j' i' = some v := by
  have hj : j' = j ∨ j' = j + 1 := by
    have h1 := (lat.point_le hlat).mp hc.1.2.1
    have h2 := (lat.point_le hlat).mp hc.1.2.2
    omega
  have hi : i' = i ∨ i' = i + 1 := by
    have h1 := (lon.point_le hlon).mp hc.2.2.1
    have h2 := (lon.point_le hlon).mp hc.2.2.2
    omega
  unfold Spec.bilinearAt at hv
  cases h1 : data j i with
  | none => simp [h1] at hv
  | some a =>
  cases h2 : data (j + 1) i with
  | none => simp [h1, h2] at hv
  | some b =>
  cases h3 : data (j + 1) (i + 1) with
  | none => simp [h1, h2, h3] at hv
  | some c =>
  cases h4 : data j (i + 1) with
  | none => simp [h1, h2, h3, h4] at hv
  | some d =>
  simp only [h1, h2, h3, h4, Option.some.injEq] at hv
  have e1 := hlat.ne'
  have e2 := hlon.ne'
  rcases hj with rfl | rfl <;> rcases hi with rfl | rfl <;>
    simp only [h1, h2, h3, h4, sub_self, zero_div, RegAxis.point_succ, add_sub_cancel_left, div_self e1, div_self e2] at hv ⊢ <;>
    rw [← hv] <;> congr 1 <;> ring

/-- C100, finding.  A target just below the last latitude (within the tolerance of `np.isclose`) is interpolated in the row of cells below its own:
the value is extrapolated over a whole grid length. -/
theorem C100_close_refuted : ¬ ∀ (lat lon : RegAxis) (data : ℕ → ℕ → Option ℚ) (p : ℚ × ℚ) (v : ℚ), 0 < lat.step → 0 < lon.step → 2 ≤ lat.n → 2 ≤ lon.n →
    Spec.inSource lat lon p → (∀ j i, ∃ q, data j i = some q ∧ 0 ≤ q ∧ q ≤ 1) →
    regridWithMask "bilinear-2" lat lon (0, 0) data (fun _ _ => true) (fun _ => 1) (fun _ _ => 0) 0 (fun _ => true) [p] = .ok [some v] → 0 ≤ v ∧ v ≤ 1 := by
  intro h
  have := h ⟨0, 1, 3⟩ ⟨0, 1, 3⟩ (fun j _ => some (if j = 0 then 1 else 0)) (2 - 1 / 1000000, 1 / 2) (-1 + 1 / 1000000)
    (by norm_num) (by norm_num) (by norm_num) (by norm_num) (by unfold Spec.inSource RegAxis.point; norm_num)
    (fun j i => ⟨if j = 0 then 1 else 0, rfl, by split_ifs <;> norm_num⟩) (by decide +kernel)
  norm_num at this

/-- A regular case: a target in the middle of a cell and one outside the domain. -/
example : regridWithMask "bilinear-2" ⟨50, 1 / 2, 4⟩ ⟨0, 1 / 2, 5⟩ (0, 0) (fun j i => some (10 * j + i)) (fun _ _ => true) (fun _ => 1) (fun _ _ => 0) 0
    (fun _ => true) [(203 / 4, 3 / 4), (49, 0), (103 / 2, 2)] = .ok [some (33 / 2), none, some 34] := by decide +kernel

/-! ## C101: nearest -/

theorem argmin4 (a b c d : ℚ) : ∃ k < 4, argminInf [some a, some b, some c, some d] = k ∧
    ∀ k' < 4, [a, b, c, d].getD k 0 ≤ [a, b, c, d].getD k' 0 := by
  have done : ∀ k < 4, (∀ x ∈ [a, b, c, d], [a, b, c, d].getD k 0 ≤ x) → ∀ k' < 4, [a, b, c, d].getD k 0 ≤ [a, b, c, d].getD k' 0 := by
    intro k _ h k' hk'
    apply h
    rw [List.getD_eq_getElem?_getD, List.getElem?_eq_getElem (by simpa using hk')]
    simp
  unfold argminInf
  simp only [argminInf.go]
  split_ifs with h1 h2 h3 h4 h5 h6 h7
  all_goals first
    | exact ⟨3, by norm_num, rfl, done 3 (by norm_num) (by simp; refine ⟨?_, ?_, ?_⟩ <;> linarith)⟩
    | exact ⟨2, by norm_num, rfl, done 2 (by norm_num) (by simp; refine ⟨?_, ?_, ?_⟩ <;> linarith)⟩
    | exact ⟨1, by norm_num, rfl, done 1 (by norm_num) (by simp; refine ⟨?_, ?_, ?_⟩ <;> linarith)⟩
    | exact ⟨0, by norm_num, rfl, done 0 (by norm_num) (by simp; refine ⟨?_, ?_, ?_⟩ <;> linarith)⟩

/-- On an axis, one of the two lines around a coordinate is nearest of all lines. -/
theorem nearest_line (a : RegAxis) (h : 0 < a.step) (y : ℚ) (k : ℕ) (h1 : a.point k ≤ y) (h2 : y ≤ a.point (k + 1)) (l : ℕ) :
    ∃ e, (e = k ∨ e = k + 1) ∧ (a.point e - y) ^ 2 ≤ (a.point l - y) ^ 2 := by
  rcases le_or_gt l k with hl | hl
  · have := (a.point_le h).mpr hl
    exact ⟨k, .inl rfl, by nlinarith⟩
  · have := (a.point_le h).mpr (show k + 1 ≤ l by omega)
    exact ⟨k + 1, .inr rfl, by nlinarith⟩

/-- The corner picked among the four is nearest (in degrees) of all source grid points. -/
theorem nearest_corner (lat lon : RegAxis) (hlat : 0 < lat.step) (hlon : 0 < lon.step) (s : SrcGrid) (r0 c0 H W : ℕ) (hs : SliceOf lat lon s r0 c0 H W)
    (r c : ℕ) (hr : r + 1 < H) (hc : c + 1 < W) (data : ℕ → ℕ → Option ℚ) (p : ℚ × ℚ) (hcell : Spec.inCell lat lon p (r0 + r) (c0 + c)) :
    ∃ j i, (j = r0 + r ∨ j = r0 + r + 1) ∧ (i = c0 + c ∨ i = c0 + c + 1) ∧
      flatValue s data (nearestPick ((cellQuad W r c).toList.map (fun i => some (degDist s p i))) (cellQuad W r c).toList) = data j i ∧
      ∀ j' i', Spec.degrees lat lon p j i ≤ Spec.degrees lat lon p j' i' := by
  obtain ⟨hv, hp⟩ := cellQuad_values lat lon s r0 c0 H W hs r c hr hc data
  have hd : (cellQuad W r c).toList.map (fun i => some (degDist s p i)) =
      [some (Spec.degrees lat lon p (r0 + r) (c0 + c)), some (Spec.degrees lat lon p (r0 + r + 1) (c0 + c)),
       some (Spec.degrees lat lon p (r0 + r + 1) (c0 + c + 1)), some (Spec.degrees lat lon p (r0 + r) (c0 + c + 1))] := by
    have : (fun i => some (degDist s p i)) = (fun q : ℚ × ℚ => some ((q.1 - p.1) ^ 2 + (q.2 - p.2) ^ 2)) ∘ flatPoint s := rfl
    rw [this, ← List.map_map, hp]
    rfl
  have key : ∀ j i, (j = r0 + r ∨ j = r0 + r + 1) → (i = c0 + c ∨ i = c0 + c + 1) →
      (∀ j2 i2, (j2 = r0 + r ∨ j2 = r0 + r + 1) → (i2 = c0 + c ∨ i2 = c0 + c + 1) → Spec.degrees lat lon p j i ≤ Spec.degrees lat lon p j2 i2) →
      ∀ j' i', Spec.degrees lat lon p j i ≤ Spec.degrees lat lon p j' i' := by
    intro j i _ _ hmin j' i'
    obtain ⟨e1, he1, hd1⟩ := nearest_line lat hlat p.1 (r0 + r) hcell.1.2.1 hcell.1.2.2 j'
    obtain ⟨e2, he2, hd2⟩ := nearest_line lon hlon p.2 (c0 + c) hcell.2.2.1 hcell.2.2.2 i'
    refine le_trans (hmin e1 e2 he1 he2) ?_
    unfold Spec.degrees
    linarith
  rw [hd]
  obtain ⟨k, hk, hka, hkm⟩ := argmin4 (Spec.degrees lat lon p (r0 + r) (c0 + c)) (Spec.degrees lat lon p (r0 + r + 1) (c0 + c))
    (Spec.degrees lat lon p (r0 + r + 1) (c0 + c + 1)) (Spec.degrees lat lon p (r0 + r) (c0 + c + 1))
  unfold nearestPick
  rw [hka]
  have m0 := hkm 0 (by norm_num)
  have m1 := hkm 1 (by norm_num)
  have m2 := hkm 2 (by norm_num)
  have m3 := hkm 3 (by norm_num)
  simp only [Quad.toList, List.map_cons, List.map_nil, List.cons.injEq, and_true] at hv
  obtain ⟨v1, v2, v3, v4⟩ := hv
  have corners : ∀ q : ℚ, q ≤ Spec.degrees lat lon p (r0 + r) (c0 + c) → q ≤ Spec.degrees lat lon p (r0 + r + 1) (c0 + c) →
      q ≤ Spec.degrees lat lon p (r0 + r + 1) (c0 + c + 1) → q ≤ Spec.degrees lat lon p (r0 + r) (c0 + c + 1) →
      ∀ j2 i2, (j2 = r0 + r ∨ j2 = r0 + r + 1) → (i2 = c0 + c ∨ i2 = c0 + c + 1) → q ≤ Spec.degrees lat lon p j2 i2 := by
    intro q q0 q1 q2 q3 j2 i2 hj hi
    rcases hj with rfl | rfl <;> rcases hi with rfl | rfl <;> assumption
  interval_cases k
  · refine ⟨r0 + r, c0 + c, .inl rfl, .inl rfl, v1, key _ _ (.inl rfl) (.inl rfl) (corners _ m0 m1 m2 m3)⟩
  · refine ⟨r0 + r + 1, c0 + c, .inr rfl, .inl rfl, v2, key _ _ (.inr rfl) (.inl rfl) (corners _ m0 m1 m2 m3)⟩
  · refine ⟨r0 + r + 1, c0 + c + 1, .inr rfl, .inr rfl, v3, key _ _ (.inr rfl) (.inr rfl) (corners _ m0 m1 m2 m3)⟩
  · refine ⟨r0 + r, c0 + c + 1, .inl rfl, .inr rfl, v4, key _ _ (.inl rfl) (.inr rfl) (corners _ m0 m1 m2 m3)⟩

/-- C101.  Nearest neighbour regridding: every target inside the domain gets the value of a source grid point that is nearest (in degrees) of all
source grid points; every other target is missing.  (Targets nearly but not exactly on a grid line are excluded, see `C101_close_refuted`.) -/
theorem C101_nearest_partial (lat lon : RegAxis) (hlat : 0 < lat.step) (hlon : 0 < lon.step) (nlat : 2 ≤ lat.n) (nlon : 2 ≤ lon.n)
    (ms : ℚ × ℚ) (data : ℕ → ℕ → Option ℚ) (land : ℕ → ℕ → Bool) (ip : ℚ → ℚ) (dist : ℚ × ℚ → ℕ × ℕ → ℚ) (vic : ℚ) (tgt : ℚ × ℚ → Bool)
    (out : List (ℚ × ℚ)) (hclear : ∀ p ∈ out, Spec.clear lat lon p) (res : List (Option ℚ))
    (h : regridWithMask "nearest-2" lat lon ms data land ip dist vic tgt out = .ok res) :
    res.length = out.length ∧ ∀ (k : ℕ) p, out[k]? = some p →
      (¬ Spec.inSource lat lon p → res[k]? = some none) ∧
      (Spec.inSource lat lon p → ∃ j i, j < lat.n ∧ i < lon.n ∧ res[k]? = some (data j i) ∧
        ∀ j' i', Spec.degrees lat lon p j i ≤ Spec.degrees lat lon p j' i') := by
  obtain ⟨h1, s, r0, c0, H, W, hs, -, h2⟩ := regrid_targets _ lat lon hlat hlon nlat nlon ms data land ip dist vic tgt out hclear res h
  refine ⟨h1, fun k p hk => ⟨(h2 k p hk).1, fun hd => ?_⟩⟩
  obtain ⟨r, c, v, hr, hc, hcell, hv, hres⟩ := (h2 k p hk).2 hd
  unfold regridTarget at hv
  simp only [resolveQuad_cell lat lon s r0 c0 H W hs r c hr hc, bind, Except.bind, pure, Except.pure] at hv
  rw [if_pos trivial] at hv
  injection hv with hv
  obtain ⟨j, i, hj, hi, hval, hmin⟩ := nearest_corner lat lon hlat hlon s r0 c0 H W hs r c hr hc data p hcell
  have b1 := hs.hr
  have b2 := hs.hc
  refine ⟨j, i, by omega, by omega, by rw [hres, ← hv, hval], hmin⟩

/-- C101, finding.  A target just below the last latitude gets the value of the row before the nearest one. -/
theorem C101_close_refuted : ¬ ∀ (lat lon : RegAxis) (data : ℕ → ℕ → Option ℚ) (p : ℚ × ℚ) (v : ℚ), 0 < lat.step → 0 < lon.step → 2 ≤ lat.n → 2 ≤ lon.n →
    Spec.inSource lat lon p →
    regridWithMask "nearest-2" lat lon (0, 0) data (fun _ _ => true) (fun _ => 1) (fun _ _ => 0) 0 (fun _ => true) [p] = .ok [some v] →
    ∃ j i, data j i = some v ∧ ∀ j' i', Spec.degrees lat lon p j i ≤ Spec.degrees lat lon p j' i' := by
  intro h
  obtain ⟨j, i, hv, hmin⟩ := h ⟨0, 1, 3⟩ ⟨0, 1, 3⟩ (fun j _ => some j) (2 - 1 / 1000000, 0) 1
    (by norm_num) (by norm_num) (by norm_num) (by norm_num) (by unfold Spec.inSource RegAxis.point; norm_num) (by decide +kernel)
  simp only [Option.some.injEq] at hv
  have := hmin 2 0
  unfold Spec.degrees RegAxis.point at this
  simp only [hv] at this
  norm_num at this
  nlinarith [sq_nonneg (i : ℚ)]

/-- C101.  A target on a grid point gets the value of that grid point, even if its neighbours are missing. -/
theorem C101_on_grid (lat lon : RegAxis) (hlat : 0 < lat.step) (hlon : 0 < lon.step) (j i j' i' : ℕ)
    (hmin : ∀ j2 i2, Spec.degrees lat lon (lat.point j', lon.point i') j i ≤ Spec.degrees lat lon (lat.point j', lon.point i') j2 i2) : j = j' ∧ i = i' := by
  have := hmin j' i'
  unfold Spec.degrees at this
  simp only [sub_self] at this
  have s1 := sq_nonneg (lat.point j - lat.point j')
  have s2 := sq_nonneg (lon.point i - lon.point i')
  have z1 : lat.point j - lat.point j' = 0 := by apply pow_eq_zero_iff (two_ne_zero) |>.mp; nlinarith
  have z2 : lon.point i - lon.point i' = 0 := by apply pow_eq_zero_iff (two_ne_zero) |>.mp; nlinarith
  have q1 := sub_eq_zero.mp z1
  have q2 := sub_eq_zero.mp z2
  exact ⟨le_antisymm ((lat.point_le hlat).mp q1.le) ((lat.point_le hlat).mp q1.ge), le_antisymm ((lon.point_le hlon).mp q2.le) ((lon.point_le hlon).mp q2.ge)⟩

example : regridWithMask "nearest-2" ⟨50, 1 / 2, 4⟩ ⟨0, 1 / 2, 5⟩ (0, 0) (fun j i => some (10 * j + i)) (fun _ _ => true) (fun _ => 1) (fun _ _ => 0) 0
    (fun _ => true) [(4061 / 80, 3 / 5), (49, 0), (103 / 2, 2)] = .ok [some 21, none, some 34] := by decide +kernel

end Improver
