import Verif.Model.PercNbRun
import Verif.Props.NbRun
import Verif.Props.NbhoodPerc
import Verif.Props.Checker
import Verif.Props.LevelRun

/-! C264: `GeneratePercentilesFromANeighbourhood` on cubes with named dimensions. -/

namespace Improver

open Spec

namespace Spec

/-- A cube without percentiles, on the axes asked for, with nothing masked. -/
structure PercentileInput (c : NbCube) : Prop where
  y : c.yName = "projection_y_coordinate"
  x : c.xName = "projection_x_coordinate"
  new : "percentile" ∉ c.dims
  clear : ∀ a, Inside c.toPointCube c.dims a → (placeValue c.toDimCube a).masked = false

/-- Percentiles: at least one, all different, from 0 to 100. -/
def Percentiles (ps : List ℚ) : Prop := ps ≠ [] ∧ ps.Nodup ∧ ∀ p ∈ ps, 0 ≤ p ∧ p ≤ 100

/-- The dimensions of the result: realization first if the cube has it, then percentile if there are several, then the others as they were. -/
def percentileDims (c : NbCube) (ps : List ℚ) : List String :=
  (if "realization" ∈ c.dims then ["realization"] else []) ++ (if ps.length = 1 then [] else ["percentile"]) ++
    c.dims.filter fun n => decide (n ≠ "realization")

/-- `v` is the percentile `p` of the values: in order, the values are at equal steps from 0 to 100, with straight lines between them. -/
def IsPercentile (values : List ℚ) (p v : ℚ) : Prop :=
  ∀ s : List ℚ, s.Perm values → s.Pairwise (· ≤ ·) → ∀ (k : ℕ) (t : ℚ), k + 1 < s.length → 0 ≤ t → t ≤ 1 → p = 100 * ((k + t) / ((s.length : ℚ) - 1)) →
    v = s.getD k 0 + t * (s.getD (k + 1) 0 - s.getD k 0)

end Spec

theorem map_idxOf_perm {l m : List String} (hn : l.Nodup) (hp : m.Perm l) : (m.map fun n => l.idxOf n).Perm (List.range l.length) := by
  have : l.map (fun n => l.idxOf n) = List.range l.length := by
    apply List.ext_getElem (by simp)
    intro i h1 h2
    rw [List.getElem_map, List.getElem_range, hn.idxOf_getElem]
  rw [← this]
  exact hp.map _

theorem filter_eq_one {l : List String} (hn : l.Nodup) (x : String) : l.filter (fun n => decide (n = x)) = if x ∈ l then [x] else [] := by
  by_cases hx : x ∈ l
  · rw [if_pos hx]
    have hp : (l.filter fun n => decide (n = x)).Perm [x] := by
      rw [List.perm_ext_iff_of_nodup (hn.filter _) (List.nodup_singleton x)]
      intro n
      rw [List.mem_filter, decide_eq_true_iff, List.mem_singleton]
      exact ⟨fun h => h.2, fun h => ⟨h ▸ hx, h⟩⟩
    exact List.perm_singleton.1 hp
  · rw [if_neg hx, List.filter_eq_nil_iff]
    intro n hn' h
    exact hx (decide_eq_true_iff.1 h ▸ hn')

theorem percentileOrder_perm (dims : List String) : (percentileOrder dims).Perm dims := by
  unfold percentileOrder
  induction dims with
  | nil => exact List.Perm.refl _
  | cons d l ih =>
    by_cases h1 : d = "realization"
    · subst h1
      rw [List.filter_cons_of_pos (by simp), List.filter_cons_of_neg (by simp), List.filter_cons_of_neg (by simp)]
      exact ih.cons _
    · by_cases h2 : d = "percentile"
      · subst h2
        rw [List.filter_cons_of_neg (by simp), List.filter_cons_of_pos (by simp), List.filter_cons_of_neg (by simp)]
        rw [List.append_assoc, List.cons_append]
        refine List.perm_middle.trans ?_
        rw [← List.append_assoc]
        exact ih.cons _
      · rw [List.filter_cons_of_neg (by simpa using h1), List.filter_cons_of_neg (by simpa using h2), List.filter_cons_of_pos (by simp [h1, h2])]
        exact List.perm_middle.trans (ih.cons _)

/-- Arranging the dimensions of an array. -/
theorem percentileArrange_ok (names : List String) (s : ScalarCube ℚ) (pd : List String) (hnd : names.Nodup) (hpd : pd = [] ∨ pd = ["percentile"])
    (hnew : "percentile" ∉ names) (hs : s.scalars.filter (fun n => decide (n ∈ names)) ++ s.cube.dims |>.Perm (names ++ pd))
    (hex : s.cube.dims.filter (fun n => decide (n ∉ names)) = pd) :
    ∃ d, percentileArrange names s = .ok d ∧
      d.dims = (if "realization" ∈ names then ["realization"] else []) ++ pd ++ names.filter (fun n => decide (n ≠ "realization")) ∧
      ∀ a : String → ℕ, d.data (d.dims.map a) = s.cube.data (s.cube.dims.map a) := by
  have hpn : (names ++ pd).Nodup := by
    rcases hpd with rfl | rfl
    · simpa using hnd
    · rw [List.nodup_append]
      refine ⟨hnd, List.nodup_singleton _, ?_⟩
      intro a ha b hb e
      rw [List.mem_singleton.1 hb] at e
      exact hnew (e ▸ ha)
  obtain ⟨p1, p2⟩ := C179_promote names s
  have hprom : (promoteScalars names s).dims.Perm (names ++ pd) := by rw [p1]; exact hs
  obtain ⟨r, hr, r1, r2, _, r4⟩ := C179_order names (dimensionMismatch names s.cube.dims false) s (hprom.nodup_iff.2 hpn)
    (by unfold dimensionMismatch; rw [if_neg (by simp), hex]; exact hprom.symm)
    (by unfold dimensionMismatch; rw [if_neg (by simp), hex]; rcases hpd with rfl | rfl <;> simp)
  have hrn : r.dims.Nodup := r2.nodup_iff.2 (hprom.nodup_iff.2 hpn)
  have hmem : ∀ n, n ∈ r.dims ↔ n ∈ names ++ pd := fun n => (r2.trans hprom).mem_iff
  obtain ⟨d, hd, d1, d2⟩ := transpose_spec r _ (map_idxOf_perm hrn (percentileOrder_perm r.dims))
  refine ⟨d, ?_, ?_, ?_⟩
  · unfold percentileArrange
    rw [hr]
    exact hd
  · rw [d1, List.map_map]
    have hid : (percentileOrder r.dims).map ((fun d : ℕ => r.dims.getD d "") ∘ fun n => r.dims.idxOf n) = percentileOrder r.dims := by
      conv_rhs => rw [← List.map_id (percentileOrder r.dims)]
      apply List.map_congr_left
      intro n hn
      have hn' := (percentileOrder_perm r.dims).mem_iff.1 hn
      have hl := List.idxOf_lt_length_of_mem hn'
      show r.dims.getD (r.dims.idxOf n) "" = n
      rw [List.getD_eq_getElem _ _ hl, List.getElem_idxOf hl]
    rw [hid]
    unfold percentileOrder
    rw [filter_eq_one hrn, filter_eq_one hrn]
    have hreal : "realization" ∈ r.dims ↔ "realization" ∈ names := by
      rw [hmem, List.mem_append]
      rcases hpd with rfl | rfl <;> simp
    have hpct : (if "percentile" ∈ r.dims then ["percentile"] else []) = pd := by
      rcases hpd with rfl | rfl
      · rw [if_neg]; rw [hmem]; simpa using hnew
      · rw [if_pos]; rw [hmem]; simp
    have hoth : r.dims.filter (fun n => decide (n ≠ "realization" ∧ n ≠ "percentile")) = names.filter (fun n => decide (n ≠ "realization")) := by
      conv_rhs => rw [← r1, List.filter_filter]
      apply List.filter_congr
      intro n hn
      rw [hmem, List.mem_append] at hn
      rw [Bool.eq_iff_iff]
      simp only [decide_eq_true_iff, Bool.and_eq_true]
      refine and_congr_right fun _ => ⟨fun h => ?_, fun h e => hnew (e ▸ h)⟩
      rcases hn with hn | hn
      · exact hn
      · rcases hpd with rfl | rfl
        · exact nomatch hn
        · exact absurd (List.mem_singleton.1 hn) h
    rw [hpct, hoth]
    by_cases hq : "realization" ∈ names
    · rw [if_pos (hreal.2 hq), if_pos hq]
    · rw [if_neg (fun h => hq (hreal.1 h)), if_neg hq]
  · intro a
    rw [d2 a, r4 a, p2, p1, List.map_append, List.drop_left' (by simp)]

theorem anyMasked_false {c : NbCube} (hn : c.dims.Nodup) : c.anyMasked = false ↔
    ∀ a, Spec.Inside c.toPointCube c.dims a → (Spec.placeValue c.toDimCube a).masked = false := by
  unfold NbCube.anyMasked
  rw [List.any_eq_false]
  constructor
  · intro h a ha
    have := h (c.dims.map a) ((mem_arrayIndices _ _).2 (by
      unfold Spec.inArray
      rw [List.forall₂_map_left_iff, List.forall₂_map_right_iff, List.forall₂_same]
      exact fun n hn => ha n hn))
    exact Bool.eq_false_iff.2 this
  · intro h idx hidx
    have hf : List.Forall₂ (· < ·) idx (c.dims.map fun n => (c.points n).length) := (mem_arrayIndices _ _).1 hidx
    have hlen : idx.length = c.dims.length := by rw [hf.length_eq, List.length_map]
    have hmap : c.dims.map (fun n => idx.getD (c.dims.idxOf n) 0) = idx := by
      apply List.ext_getElem (by rw [List.length_map, hlen])
      intro i h1 h2
      rw [List.getElem_map, hn.idxOf_getElem, List.getD_eq_getElem _ _ h2]
    have := h (fun n => idx.getD (c.dims.idxOf n) 0) (fun n hn' => by
      have hl := List.idxOf_lt_length_of_mem hn'
      have hl' : c.dims.idxOf n < idx.length := hlen ▸ hl
      have := (List.forall₂_iff_get.1 hf).2 (c.dims.idxOf n) hl' (by simpa using hl)
      simp only [List.get_eq_getElem, List.getElem_map, List.getElem_idxOf] at this
      beta_reduce
      rw [List.getD_eq_getElem _ _ hl']
      exact this)
    unfold Spec.placeValue at this
    rw [hmap] at this
    rw [this]
    exact Bool.false_ne_true

/-- The run: every place gets the percentile of the window around it in its slice over y and x. -/
theorem percNb_run (p : PercNbPlugin) (hps : Spec.Percentiles p.percentiles) (order : List String → List String) (ho : ∀ l, (order l).Perm l) (c : NbCube) (d : ℚ)
    (hc : Spec.Smoothable c none d) (hin : Spec.PercentileInput c) (radius : ℚ) (hrad : findRadius p.radii c.fps = .ok radius) (r : ℕ)
    (hr : Spec.SpansCells c d radius r) :
    ∃ out, p.process order c = .ok out ∧ out.dims = Spec.percentileDims c p.percentiles ∧ out.points = percPoints c.points (npSort p.percentiles) ∧
      ∀ a, Spec.Inside c.toPointCube c.dims a → Spec.placeValue out.toDimCube a =
        npPercentile (nbWindow (c.points c.yName).length (c.points c.xName).length r (Spec.valueIn c a) (a c.yName) (a c.xName))
          (p.percentiles.getD (if p.percentiles.length = 1 then 0 else a "percentile") 0) := by
  obtain ⟨ax, nx, hnx, hxs⟩ := hc.xs
  obtain ⟨ay, ny, hny, hys⟩ := hc.ys
  obtain ⟨r1, r2, r3, r4⟩ := hr
  have hpos : 0 < radius := lt_of_lt_of_le (mul_pos (by exact_mod_cast r1) hc.spacing) r2
  have hcells : nbCells (c.points c.xName) (c.points c.yName) radius = .ok r := by
    rw [hxs, hys]
    refine (C86_cells ax d ay nx ny hc.spacing hnx hny radius hpos r).2 ⟨?_, r1, r2, r3⟩
    rw [hxs, hys, uniform_len, uniform_len] at r4
    exact r4
  have hy1 : (c.points c.yName).length ≠ 1 := by rw [hys, uniform_len]; omega
  have hx1 : (c.points c.xName).length ≠ 1 := by rw [hxs, uniform_len]; omega
  have hpts : percentilePoints p.percentiles = .ok (npSort p.percentiles) := by
    unfold percentilePoints
    exact if_neg (by rintro (h | h); exacts [hps.1 h, h hps.2.1])
  have hchk : checkPercentiles p.percentiles = .ok () := by
    unfold checkPercentiles
    exact if_pos (List.all_eq_true.2 fun q hq => decide_eq_true (hps.2.2 q hq))
  have hpd : percentileDim p.percentiles = [] ∨ percentileDim p.percentiles = ["percentile"] := by
    unfold percentileDim
    by_cases h : p.percentiles.length = 1
    · exact Or.inl (if_pos h)
    · exact Or.inr (if_neg h)
  have hpn : ∀ n ∈ percentileDim p.percentiles, n ∉ c.dims := by
    intro n hn
    rcases hpd with e | e
    · rw [e] at hn; exact nomatch hn
    · rw [e] at hn; rw [List.mem_singleton.1 hn]; exact hin.new
  have hker : ∀ n, n ∈ order c.mergedDims ↔ n ∈ c.mergedDims := fun n => (ho _).mem_iff
  have hscal : ((p.array order r c).scalars.filter fun n => decide (n ∈ c.dims)) =
      c.dims.filter fun n => decide (n ≠ c.yName ∧ n ≠ c.xName ∧ (c.points n).length = 1) := by
    show (((c.dims.filter fun n => decide (n ≠ c.yName ∧ n ≠ c.xName ∧ (c.points n).length = 1)) ++ if p.percentiles.length = 1 then ["percentile"] else []).filter
      fun n => decide (n ∈ c.dims)) = _
    rw [List.filter_append]
    have e1 : (c.dims.filter fun n => decide (n ≠ c.yName ∧ n ≠ c.xName ∧ (c.points n).length = 1)).filter (fun n => decide (n ∈ c.dims)) =
        c.dims.filter fun n => decide (n ≠ c.yName ∧ n ≠ c.xName ∧ (c.points n).length = 1) :=
      List.filter_eq_self.2 fun n hn => decide_eq_true (List.mem_filter.1 hn).1
    have e2 : (if p.percentiles.length = 1 then ["percentile"] else []).filter (fun n => decide (n ∈ c.dims)) = [] := by
      rw [List.filter_eq_nil_iff]
      intro n hn
      by_cases h : p.percentiles.length = 1
      · rw [if_pos h] at hn; rw [List.mem_singleton.1 hn]; simpa using hin.new
      · rw [if_neg h] at hn; exact nomatch hn
    rw [e1, e2, List.append_nil]
  have hcount : (c.dims.filter (fun n => decide (n ≠ c.yName ∧ n ≠ c.xName ∧ (c.points n).length = 1)) ++ (order c.mergedDims ++ [c.yName, c.xName])).Perm c.dims := by
    have hnd : (c.dims.filter (fun n => decide (n ≠ c.yName ∧ n ≠ c.xName ∧ (c.points n).length = 1)) ++ (order c.mergedDims ++ [c.yName, c.xName])).Nodup := by
      rw [List.nodup_append, List.nodup_append]
      refine ⟨hc.nodup.filter _, ⟨(ho _).nodup_iff.2 (hc.nodup.filter _), by simpa using hc.ne, ?_⟩, ?_⟩
      · intro u hu v hv e
        have hu' := decide_eq_true_iff.1 (List.mem_filter.1 ((hker u).1 hu)).2
        simp only [List.mem_cons, List.not_mem_nil, or_false] at hv
        rcases hv with hv | hv
        · exact hu'.1 (e.trans hv)
        · exact hu'.2.1 (e.trans hv)
      · intro u hu v hv e
        have hu' := decide_eq_true_iff.1 (List.mem_filter.1 hu).2
        rcases List.mem_append.1 hv with hv | hv
        · have hv' := decide_eq_true_iff.1 (List.mem_filter.1 ((hker v).1 hv)).2
          exact hv'.2.2 (e ▸ hu'.2.2)
        · simp only [List.mem_cons, List.not_mem_nil, or_false] at hv
          rcases hv with hv | hv
          · exact hu'.1 (e.trans hv)
          · exact hu'.2.1 (e.trans hv)
    rw [List.perm_ext_iff_of_nodup hnd hc.nodup]
    intro n
    rw [List.mem_append, List.mem_append, hker]
    unfold NbCube.mergedDims
    rw [List.mem_filter, List.mem_filter, decide_eq_true_iff, decide_eq_true_iff]
    simp only [List.mem_cons, List.not_mem_nil, or_false]
    constructor
    · rintro (h | h | h | h)
      · exact h.1
      · exact h.1
      · exact h ▸ hc.y
      · exact h ▸ hc.x
    · intro h
      by_cases e1 : n = c.yName
      · exact Or.inr (Or.inr (Or.inl e1))
      · by_cases e2 : n = c.xName
        · exact Or.inr (Or.inr (Or.inr e2))
        · by_cases e3 : (c.points n).length = 1
          · exact Or.inl ⟨h, e1, e2, e3⟩
          · exact Or.inr (Or.inl ⟨h, e1, e2, e3⟩)
  have hdims : (p.array order r c).cube.dims = order c.mergedDims ++ percentileDim p.percentiles ++ [c.yName, c.xName] := rfl
  have hperm : ((p.array order r c).scalars.filter (fun n => decide (n ∈ c.dims)) ++ (p.array order r c).cube.dims).Perm
      (c.dims ++ percentileDim p.percentiles) := by
    rw [hscal, hdims]
    refine List.Perm.trans ?_ (hcount.append_right _)
    rw [List.append_assoc, List.append_assoc, List.append_assoc]
    refine List.Perm.append_left _ (List.Perm.append_left _ List.perm_append_comm)
  have hex : (p.array order r c).cube.dims.filter (fun n => decide (n ∉ c.dims)) = percentileDim p.percentiles := by
    rw [hdims, List.filter_append, List.filter_append]
    have e1 : (order c.mergedDims).filter (fun n => decide (n ∉ c.dims)) = [] := by
      rw [List.filter_eq_nil_iff]
      intro n hn h
      exact decide_eq_true_iff.1 h (List.mem_filter.1 ((hker n).1 hn)).1
    have e2 : [c.yName, c.xName].filter (fun n => decide (n ∉ c.dims)) = [] := by
      rw [List.filter_eq_nil_iff]
      intro n hn h
      simp only [List.mem_cons, List.not_mem_nil, or_false] at hn
      rcases hn with rfl | rfl
      · exact decide_eq_true_iff.1 h hc.y
      · exact decide_eq_true_iff.1 h hc.x
    have e3 : (percentileDim p.percentiles).filter (fun n => decide (n ∉ c.dims)) = percentileDim p.percentiles :=
      List.filter_eq_self.2 fun n hn => decide_eq_true (hpn n hn)
    rw [e1, e2, e3, List.nil_append, List.append_nil]
  obtain ⟨dc, h1, h2, h3⟩ := percentileArrange_ok c.dims (p.array order r c) (percentileDim p.percentiles) hc.nodup hpd hin.new hperm hex
  refine ⟨⟨dc, percPoints c.points (npSort p.percentiles)⟩, ?_, h2, rfl, ?_⟩
  · unfold PercNbPlugin.process
    rw [hrad]
    simp only [bind, Except.bind]
    rw [if_neg (by rw [(anyMasked_false hc.nodup).2 hin.clear]; exact Bool.false_ne_true), hcells]
    simp only
    rw [if_neg (by rintro (h | h); exacts [h hin.y, h hin.x]), hpts]
    simp only
    rw [hchk]
    simp only
    rw [h1]
    rfl
  · intro a ha
    have hplace : ∀ i j, c.dims.map (placeOf c.yName c.xName (order c.mergedDims)
        ((order c.mergedDims ++ percentileDim p.percentiles ++ [c.yName, c.xName]).map a) i j) = c.dims.map (Spec.cellOf c a i j) := by
      intro i j
      apply List.map_congr_left
      intro n hn
      unfold placeOf Spec.cellOf Spec.along
      by_cases e1 : n = c.yName
      · rw [if_pos e1, if_neg (fun e => hc.ne (e1 ▸ e)), if_pos e1]
      · by_cases e2 : n = c.xName
        · rw [if_neg e1, if_pos e2, if_pos e2]
        · rw [if_neg e1, if_neg e2, if_neg e2, if_neg e1]
          by_cases e3 : n ∈ order c.mergedDims
          · rw [if_pos e3]
            have hmem : n ∈ order c.mergedDims ++ percentileDim p.percentiles ++ [c.yName, c.xName] :=
              List.mem_append_left _ (List.mem_append_left _ e3)
            have := getD_map_idxOf hmem a
            rwa [List.idxOf_append_of_mem (List.mem_append_left _ e3), List.idxOf_append_of_mem e3] at this
          · rw [if_neg e3]
            have hlen : (c.points n).length = 1 := by
              by_contra hne
              exact e3 ((hker n).2 (List.mem_filter.2 ⟨hn, by simp [e1, e2, hne]⟩))
            have := ha n hn
            omega
    show dc.data (dc.dims.map a) = _
    rw [h3 a]
    show p.value _ _ r (fun i j => (c.data (c.dims.map (placeOf c.yName c.xName (order c.mergedDims)
        ((order c.mergedDims ++ percentileDim p.percentiles ++ [c.yName, c.xName]).map a) i j))).val)
      (if p.percentiles.length = 1 then 0 else ((order c.mergedDims ++ percentileDim p.percentiles ++ [c.yName, c.xName]).map a).getD (order c.mergedDims).length 0)
      (((order c.mergedDims ++ percentileDim p.percentiles ++ [c.yName, c.xName]).map a).getD (order c.mergedDims ++ percentileDim p.percentiles).length 0)
      (((order c.mergedDims ++ percentileDim p.percentiles ++ [c.yName, c.xName]).map a).getD ((order c.mergedDims ++ percentileDim p.percentiles).length + 1) 0) = _
    unfold PercNbPlugin.value
    have gen : ∀ L : List String, ((L ++ [c.yName, c.xName]).map a).getD L.length 0 = a c.yName ∧
        ((L ++ [c.yName, c.xName]).map a).getD (L.length + 1) 0 = a c.xName := by
      intro L
      simp [List.getD]
    have g1 := (gen (order c.mergedDims ++ percentileDim p.percentiles)).1
    have g2 := (gen (order c.mergedDims ++ percentileDim p.percentiles)).2
    have g3 : (if p.percentiles.length = 1 then 0 else
        ((order c.mergedDims ++ percentileDim p.percentiles ++ [c.yName, c.xName]).map a).getD (order c.mergedDims).length 0) =
        if p.percentiles.length = 1 then 0 else a "percentile" := by
      by_cases h : p.percentiles.length = 1
      · rw [if_pos h, if_pos h]
      · rw [if_neg h, if_neg h]
        unfold percentileDim
        rw [if_neg h]
        simp [List.getD]
    rw [g1, g2, g3]
    have hf : (fun i j => (c.data (c.dims.map (placeOf c.yName c.xName (order c.mergedDims)
        ((order c.mergedDims ++ percentileDim p.percentiles ++ [c.yName, c.xName]).map a) i j))).val) = Spec.valueIn c a := by
      funext i j
      rw [hplace]
      rfl
    rw [hf]

/-- The percentile with which a place of the result is labelled. -/
def Spec.labelOf (out : PointCube ℚ) (a : String → ℕ) : ℚ :=
  (out.points "percentile").getD (if (out.points "percentile").length = 1 then 0 else a "percentile") 0

theorem npSort_ascending {ps : List ℚ} (h : ps.Pairwise (· < ·)) : npSort ps = ps :=
  List.Perm.eq_of_pairwise (le := (· ≤ ·)) (fun _ _ _ _ hab hba => le_antisymm hab hba) (npSort_sorted ps) (h.imp le_of_lt) (npSort_perm ps)

/-- **C264** (value): for ascending percentiles, the result is on realization, percentile and the other dimensions, labelled with the percentiles asked for; at
every place whose neighbourhood lies inside the grid it holds the percentile, of its label, of the values of its slice within the radius. -/
theorem C264_value (p : PercNbPlugin) (hps : Spec.Percentiles p.percentiles) (hasc : p.percentiles.Pairwise (· < ·)) (order : List String → List String)
    (ho : ∀ l, (order l).Perm l) (c : NbCube) (d : ℚ)
    (hc : Spec.Smoothable c none d) (hin : Spec.PercentileInput c) (radius : ℚ) (hrad : findRadius p.radii c.fps = .ok radius) (r : ℕ)
    (hr : Spec.SpansCells c d radius r) :
    ∃ out, p.process order c = .ok out ∧ out.dims = Spec.percentileDims c p.percentiles ∧ out.points "percentile" = p.percentiles ∧
      (∀ n ∈ c.dims, out.points n = c.points n) ∧
      ∀ a, Spec.Inside out out.dims a → r ≤ a c.yName → a c.yName + r < (c.points c.yName).length → r ≤ a c.xName → a c.xName + r < (c.points c.xName).length →
        Spec.IsPercentile (Spec.discValues (c.points c.yName).length (c.points c.xName).length r (Spec.valueIn c a) (a c.yName) (a c.xName))
          (Spec.labelOf out a) (Spec.placeValue out.toDimCube a) := by
  obtain ⟨out, h1, h2, h3, h4⟩ := percNb_run p hps order ho c d hc hin radius hrad r hr
  have hpp : out.points "percentile" = p.percentiles := by
    rw [h3]
    exact (if_pos rfl).trans (npSort_ascending hasc)
  have hoth : ∀ n ∈ c.dims, out.points n = c.points n := by
    intro n hn
    rw [h3]
    exact if_neg fun e : n = "percentile" => hin.new (e ▸ hn)
  refine ⟨out, h1, h2, hpp, hoth, fun a ha y1 y2 x1 x2 => ?_⟩
  have hain : Spec.Inside c.toPointCube c.dims a := by
    intro n hn
    rw [← hoth n hn]
    apply ha
    rw [h2]
    unfold Spec.percentileDims
    by_cases e : n = "realization"
    · rw [if_pos (e ▸ hn)]; simp [e]
    · exact List.mem_append_right _ (List.mem_filter.2 ⟨hn, by simpa using e⟩)
  have hwin := C87_interior (c.points c.yName).length (c.points c.xName).length r hr.1 (Spec.valueIn c a)
    [p.percentiles.getD (if p.percentiles.length = 1 then 0 else a "percentile") 0] (a c.yName) (a c.xName) ⟨y1, y2⟩ ⟨x1, x2⟩
  unfold nbPercentiles at hwin
  rw [if_neg (by simp)] at hwin
  have hval := (List.cons.inj (Except.ok.inj hwin)).1
  rw [h4 a hain, hval]
  unfold Spec.labelOf
  rw [hpp]
  intro s hs hs' k t hk t0 t1 hp
  rw [hp]
  exact C87_order_statistics _ s hs hs' k hk t t0 t1

/-- **C264** (range): whatever the order of the percentiles, every value, near the edges too, lies between the least and the greatest value of its slice. -/
theorem C264_range (p : PercNbPlugin) (hps : Spec.Percentiles p.percentiles) (order : List String → List String)
    (ho : ∀ l, (order l).Perm l) (c : NbCube) (d : ℚ)
    (hc : Spec.Smoothable c none d) (hin : Spec.PercentileInput c) (radius : ℚ) (hrad : findRadius p.radii c.fps = .ok radius) (r : ℕ)
    (hr : Spec.SpansCells c d radius r) :
    ∃ out, p.process order c = .ok out ∧ ∀ a, Spec.Inside out out.dims a → ∀ lo hi,
      (∀ i j, i < (c.points c.yName).length → j < (c.points c.xName).length → lo ≤ Spec.valueIn c a i j ∧ Spec.valueIn c a i j ≤ hi) →
      lo ≤ Spec.placeValue out.toDimCube a ∧ Spec.placeValue out.toDimCube a ≤ hi := by
  obtain ⟨out, h1, h2, h3, h4⟩ := percNb_run p hps order ho c d hc hin radius hrad r hr
  have hoth : ∀ n ∈ c.dims, out.points n = c.points n := by
    intro n hn
    rw [h3]
    exact if_neg fun e : n = "percentile" => hin.new (e ▸ hn)
  refine ⟨out, h1, fun a ha lo hi hb => ?_⟩
  have hain : Spec.Inside c.toPointCube c.dims a := by
    intro n hn
    rw [← hoth n hn]
    apply ha
    rw [h2]
    unfold Spec.percentileDims
    by_cases e : n = "realization"
    · rw [if_pos (e ▸ hn)]; simp [e]
    · exact List.mem_append_right _ (List.mem_filter.2 ⟨hn, by simpa using e⟩)
  have hmem : p.percentiles.getD (if p.percentiles.length = 1 then 0 else a "percentile") 0 ∈ p.percentiles := by
    have hlt : (if p.percentiles.length = 1 then 0 else a "percentile") < p.percentiles.length := by
      by_cases e : p.percentiles.length = 1
      · rw [if_pos e]; omega
      · rw [if_neg e]
        have := ha "percentile" (by rw [h2]; unfold Spec.percentileDims; rw [if_neg e]; simp)
        rw [h3] at this
        have hl : (percPoints c.points (npSort p.percentiles) "percentile").length = p.percentiles.length := by
          show (if "percentile" = "percentile" then npSort p.percentiles else c.points "percentile").length = _
          rw [if_pos rfl]
          exact (npSort_perm _).length_eq
        omega
    rw [List.getD_eq_getElem _ _ hlt]
    exact List.getElem_mem _
  obtain ⟨o, e1, _, e3, _⟩ := C87_range (c.points c.yName).length (c.points c.xName).length r hr.1 (Spec.valueIn c a) lo hi hb
    [p.percentiles.getD (if p.percentiles.length = 1 then 0 else a "percentile") 0] (fun q hq => by
      rw [List.mem_singleton.1 hq]; exact hps.2.2 _ hmem) (a c.yName) (a c.xName) (hain _ hc.y) (hain _ hc.x)
  unfold nbPercentiles at e1
  rw [if_neg (by simp)] at e1
  cases e1
  rw [h4 a hain]
  exact e3 _ (List.mem_singleton.2 rfl)

/-- **C264** (refused): masked values, axes of other names, and percentiles that are missing, repeated or outside 0 to 100. -/
theorem C264_refused (p : PercNbPlugin) (order : List String → List String) (c : NbCube) (hn : c.dims.Nodup)
    (h : (∃ a, Spec.Inside c.toPointCube c.dims a ∧ (Spec.placeValue c.toDimCube a).masked = true) ∨ c.yName ≠ "projection_y_coordinate" ∨
      c.xName ≠ "projection_x_coordinate" ∨ ¬ Spec.Percentiles p.percentiles) : ∀ out, p.process order c ≠ .ok out := by
  intro out hout
  unfold PercNbPlugin.process at hout
  cases h1 : findRadius p.radii c.fps with
  | error e => rw [h1] at hout; exact nomatch hout
  | ok radius =>
    rw [h1] at hout
    simp only [bind, Except.bind] at hout
    by_cases hm : c.anyMasked = true
    · rw [if_pos hm] at hout; exact nomatch hout
    · rw [if_neg hm] at hout
      cases h2 : nbCells (c.points c.xName) (c.points c.yName) radius with
      | error e => rw [h2] at hout; exact nomatch hout
      | ok r =>
        rw [h2] at hout
        simp only at hout
        by_cases hax : c.yName ≠ "projection_y_coordinate" ∨ c.xName ≠ "projection_x_coordinate"
        · rw [if_pos hax] at hout; exact nomatch hout
        · rw [if_neg hax] at hout
          cases h3 : percentilePoints p.percentiles with
          | error e => rw [h3] at hout; exact nomatch hout
          | ok pts =>
            rw [h3] at hout
            simp only at hout
            cases h4 : checkPercentiles p.percentiles with
            | error e => rw [h4] at hout; exact nomatch hout
            | ok u =>
              rcases h with ⟨a, ha, ham⟩ | h | h | h
              · rw [(anyMasked_false hn).1 (Bool.eq_false_iff.2 hm) a ha] at ham
                exact nomatch ham
              · exact hax (Or.inl h)
              · exact hax (Or.inr h)
              · apply h
                unfold percentilePoints at h3
                by_cases hq : p.percentiles = [] ∨ ¬ p.percentiles.Nodup
                · rw [if_pos hq] at h3; exact nomatch h3
                · unfold checkPercentiles at h4
                  by_cases hw : (p.percentiles.all fun p => decide (0 ≤ p ∧ p ≤ 100)) = true
                  · exact ⟨fun e => hq (Or.inl e), not_not.1 fun e => hq (Or.inr e),
                      fun q hq' => decide_eq_true_iff.1 (List.all_eq_true.1 hw q hq')⟩
                  · rw [if_neg hw] at h4; exact nomatch h4

/-- A cube for the statements below: `members` realizations, last, on a grid of 3 by 3 points one kilometre apart. -/
def percSample (members : ℕ) : NbCube :=
  ⟨⟨⟨["projection_y_coordinate", "projection_x_coordinate", "realization"], fun idx => ⟨(3 * idx.getD 0 0 + idx.getD 1 0 + 100 * idx.getD 2 0 : ℕ), false⟩⟩,
    fun n => if n = "realization" then (List.range members).map (fun k => (k : ℚ)) else Spec.uniform 0 1000 3⟩,
    "projection_y_coordinate", "projection_x_coordinate", [1]⟩

theorem percSample_ready (members : ℕ) : Spec.Smoothable (percSample members) none 1000 ∧ Spec.PercentileInput (percSample members) ∧
    findRadius (.single 1000) (percSample members).fps = .ok 1000 ∧ Spec.SpansCells (percSample members) 1000 1000 1 :=
  ⟨⟨show ["projection_y_coordinate", "projection_x_coordinate", "realization"].Nodup by decide,
    show "projection_y_coordinate" ∈ ["projection_y_coordinate", "projection_x_coordinate", "realization"] by decide,
    show "projection_x_coordinate" ∈ ["projection_y_coordinate", "projection_x_coordinate", "realization"] by decide,
    show ("projection_y_coordinate" : String) ≠ "projection_x_coordinate" by decide, by norm_num, ⟨0, 3, by decide, rfl⟩, ⟨0, 3, by decide, rfl⟩, fun _ e => nomatch e⟩,
   ⟨rfl, rfl, show "percentile" ∉ ["projection_y_coordinate", "projection_x_coordinate", "realization"] by decide, fun _ _ => rfl⟩, rfl,
   ⟨by decide, by norm_num, by norm_num, show (4 * 1000 ^ 2 : ℚ) ≤ (1000 * (((Spec.uniform 0 1000 3).length : ℚ) - 1)) ^ 2 + (1000 * (((Spec.uniform 0 1000 3).length : ℚ) - 1)) ^ 2 by
     rw [uniform_len]; norm_num⟩⟩

/-- Two realizations and three percentiles; one realization, which stays a dimension, and one percentile, which does not become one. -/
example : (((⟨.single 1000, [0, 50, 100]⟩ : PercNbPlugin).process id (percSample 2)).toOption.map fun o => (o.dims, o.points "percentile",
      o.data [1, 0, 1, 1], o.data [1, 1, 1, 1], o.data [0, 2, 1, 1])) =
    some (["realization", "percentile", "projection_y_coordinate", "projection_x_coordinate"], [0, 50, 100], 101, 104, 7) ∧
    (((⟨.single 1000, [50]⟩ : PercNbPlugin).process id (percSample 1)).toOption.map fun o => (o.dims, o.points "percentile", o.data [0, 1, 1])) =
    some (["realization", "projection_y_coordinate", "projection_x_coordinate"], [50], 4) := by
  constructor <;> decide +kernel

/-- **Finding.** Percentiles that are not asked for in ascending order are labelled wrongly: of 75 and 25 the result has coordinate points 25 and 75, and the
75th percentile at the label 25. -/
theorem C264_labels_refuted :
    ∃ (p : PercNbPlugin) (c : NbCube) (out : PointCube ℚ), p.percentiles = [75, 25] ∧ Spec.Percentiles p.percentiles ∧ Spec.Smoothable c none 1000 ∧
      Spec.PercentileInput c ∧ Spec.SpansCells c 1000 1000 1 ∧ p.process id c = .ok out ∧ out.points "percentile" = [25, 75] ∧
      out.data [0, 0, 1, 1] = 5 ∧ out.data [0, 1, 1, 1] = 3 := by
  have hrun : (((⟨.single 1000, [75, 25]⟩ : PercNbPlugin).process id (percSample 2)).toOption.map fun o =>
      (o.points "percentile", o.data [0, 0, 1, 1], o.data [0, 1, 1, 1])) = some ([25, 75], 5, 3) := by decide +kernel
  obtain ⟨o, h1, h2⟩ := result_of_map hrun
  have hr := percSample_ready 2
  simp only [Prod.mk.injEq] at h2
  exact ⟨_, _, o, rfl, by unfold Spec.Percentiles; decide +kernel, hr.1, hr.2.1, hr.2.2.2, h1, h2.1, h2.2.1, h2.2.2⟩

end Improver
