import Verif.Model.Assembly

/-! Property theorems C191 (build_spotdata_cube.py). -/

namespace Improver

/-- The leading dimensions asked for, in order: neighbour selection methods, grid attributes, additional dimensions. -/
def Spec.leadingOf (a : SpotArgs) : List ShapedCoord :=
  a.methods.toList.map (fun n => ⟨"neighbour_selection_method", [n]⟩) ++
    a.gridAttributes.toList.map (fun n => ⟨"grid_attributes", [n]⟩) ++ (a.additional.getD [])

theorem zip_fst_of_length {α β : Type} : ∀ {l : List α} {m : List β}, l.length = m.length → (l.zip m).map Prod.fst = l
  | [], _, _ => by simp
  | a :: l, [], h => by simp at h
  | a :: l, b :: m, h => by simp [zip_fst_of_length (l := l) (m := m) (by simpa using h)]

/-- Auxiliary coordinates are given for all additional dimensions or for none. -/
def Spec.auxForAll (a : SpotArgs) : Prop := a.additionalAux = [] ∨ a.additionalAux.length = (a.additional.getD []).length

theorem leadingDims_fst {a : SpotArgs} (h : Spec.auxForAll a) : (leadingDims a).map Prod.fst = Spec.leadingOf a := by
  unfold leadingDims Spec.leadingOf
  rw [List.map_append, List.map_append]
  congr 1
  · congr 1
    · cases a.methods <;> rfl
    · cases a.gridAttributes <;> rfl
  · unfold Spec.auxForAll at h
    cases ha : a.additional with
    | none => simp
    | some l =>
      rw [ha] at h
      simp only [Option.getD_some] at h ⊢
      by_cases he : a.additionalAux = []
      · rw [if_pos he]; exact zip_fst_of_length (by simp)
      · rw [if_neg he]; exact zip_fst_of_length (by rcases h with h | h <;> [exact absurd h he; exact h.symm])

theorem build_ok {shape : List ℕ} {a : SpotArgs} {c : SpotCube} (h : buildSpotCube shape a = .ok c) :
    ¬ (a.uniqueId.isSome ∧ a.uniqueKey = "") ∧ c.shape = (if shape = [] then [1] else shape) ∧
    c.dimCoords = (leadingDims a).mapIdx (fun i p => (p.1, i)) ++ [(⟨"spot_index", [c.shape.getLastD 0]⟩, (leadingDims a).length)] ∧
    c.auxCoords = a.scalars.map (fun x => (x, none)) ++
      ((leadingDims a).mapIdx fun i p => p.2.map fun x => (x, some i)).flatten ++
      (siteCoords a).map (fun x => (x, some (leadingDims a).length)) ∧
    (∀ p ∈ c.dimCoords, coordFits c.shape p.1 (some p.2) = true) ∧ ∀ p ∈ c.auxCoords, coordFits c.shape p.1 p.2 = true := by
  unfold buildSpotCube at h
  by_cases hu : a.uniqueId.isSome ∧ a.uniqueKey = ""
  · rw [if_pos hu] at h; exact nomatch h
  rw [if_neg hu] at h
  dsimp only at h
  generalize (if shape = [] then [1] else shape) = sh at h ⊢
  split at h
  · next hc =>
    injection h with h
    subst h
    rw [Bool.and_eq_true, List.all_eq_true, List.all_eq_true] at hc
    exact ⟨hu, rfl, rfl, rfl, hc.1, hc.2⟩
  · exact nomatch h

theorem fits_iff (shape : List ℕ) (c : ShapedCoord) (d : ℕ) :
    coordFits shape c (some d) = true ↔ ∃ n, shape[d]? = some n ∧ c.shape = [n] := by simp [coordFits]

/-- C191: the dimensions of the cube are those asked for, in order, then the sites; each has the size of its dimension of
the data. -/
theorem C191_dimensions {shape : List ℕ} {a : SpotArgs} {c : SpotCube} (haux : Spec.auxForAll a)
    (h : buildSpotCube shape a = .ok c) :
    c.dimCoords = (Spec.leadingOf a).zipIdx ++ [(⟨"spot_index", [c.shape.getLastD 0]⟩, (Spec.leadingOf a).length)] ∧
    (∀ p ∈ c.dimCoords, ∃ n, c.shape[p.2]? = some n ∧ p.1.shape = [n]) := by
  obtain ⟨_, _, hd, _, hf, _⟩ := build_ok h
  have hl := leadingDims_fst haux
  have hlen : (leadingDims a).length = (Spec.leadingOf a).length := by rw [← hl, List.length_map]
  constructor
  · rw [hd, hlen, ← hl]
    congr 1
    apply List.ext_getElem (by simp)
    intro i h1 h2
    simp
  · intro p hp
    exact (fits_iff _ _ _).1 (hf p hp)

/-- C191: altitude, latitude, longitude, WMO identifier, the unique identifier if there is one and the other site coordinates
are along the dimension of the sites, and there are as many values of each as sites. -/
theorem C191_sites {shape : List ℕ} {a : SpotArgs} {c : SpotCube} (haux : Spec.auxForAll a)
    (h : buildSpotCube shape a = .ok c) : ∃ n, c.shape[(Spec.leadingOf a).length]? = some n ∧ c.shape.getLastD 0 = n ∧
      a.altitude = n ∧ a.latitude = n ∧ a.longitude = n ∧ a.wmoId = n ∧ (∀ m, a.uniqueId = some m → m = n ∧ a.uniqueKey ≠ "" ∧
        (⟨a.uniqueKey, [n]⟩, some (Spec.leadingOf a).length) ∈ c.auxCoords) ∧
      (∀ x ∈ a.auxiliary, x.shape = [n] ∧ (x, some (Spec.leadingOf a).length) ∈ c.auxCoords) ∧
      ∀ name ∈ ["altitude", "latitude", "longitude", "wmo_id"], (⟨name, [n]⟩, some (Spec.leadingOf a).length) ∈ c.auxCoords := by
  obtain ⟨hu, _, hd, ha, hfd, hf⟩ := build_ok h
  have hl := leadingDims_fst haux
  have hlen : (leadingDims a).length = (Spec.leadingOf a).length := by rw [← hl, List.length_map]
  rw [hlen] at hd ha
  obtain ⟨n, hn1, hn2⟩ := (fits_iff _ _ _).1 (hfd _ (by rw [hd]; exact List.mem_append_right _ (List.mem_singleton.2 rfl)))
  have hlast : c.shape.getLastD 0 = n := by simpa using hn2
  have hmem : ∀ x ∈ siteCoords a, (x, some (Spec.leadingOf a).length) ∈ c.auxCoords := by
    intro x hx
    rw [ha]; exact List.mem_append_right _ (List.mem_map_of_mem hx)
  have hsite : ∀ x ∈ siteCoords a, x.shape = [n] := by
    intro x hx
    obtain ⟨m, h1, h2⟩ := (fits_iff _ _ _).1 (hf _ (hmem x hx))
    rw [hn1] at h1
    injection h1 with h1
    rw [h2, h1]
  have e1 : a.altitude = n := by simpa using hsite ⟨"altitude", [a.altitude]⟩ (by simp [siteCoords])
  have e2 : a.latitude = n := by simpa using hsite ⟨"latitude", [a.latitude]⟩ (by simp [siteCoords])
  have e3 : a.longitude = n := by simpa using hsite ⟨"longitude", [a.longitude]⟩ (by simp [siteCoords])
  have e4 : a.wmoId = n := by simpa using hsite ⟨"wmo_id", [a.wmoId]⟩ (by simp [siteCoords])
  refine ⟨n, hn1, hlast, e1, e2, e3, e4, ?_, ?_, ?_⟩
  · intro m hm
    have hin : (⟨a.uniqueKey, [m]⟩ : ShapedCoord) ∈ siteCoords a := by simp [siteCoords, hm]
    have em : m = n := by simpa using hsite _ hin
    refine ⟨em, fun hk => hu ⟨by simp [hm], hk⟩, ?_⟩
    rw [← em]; exact hmem _ hin
  · intro x hx
    have hin : x ∈ siteCoords a := by simp [siteCoords, hx]
    exact ⟨hsite x hin, hmem x hin⟩
  · intro name hname
    apply hmem
    simp only [List.mem_cons, List.not_mem_nil, or_false] at hname
    rcases hname with rfl | rfl | rfl | rfl
    · rw [← e1]; simp [siteCoords]
    · rw [← e2]; simp [siteCoords]
    · rw [← e3]; simp [siteCoords]
    · rw [← e4]; simp [siteCoords]

/-- C191: the scalar coordinates are on the cube, without a dimension, and each has one value. -/
theorem C191_scalars {shape : List ℕ} {a : SpotArgs} {c : SpotCube} (h : buildSpotCube shape a = .ok c) :
    ∀ x ∈ a.scalars, (x, none) ∈ c.auxCoords ∧ x.shape = [1] := by
  obtain ⟨_, _, _, haux, _, hf⟩ := build_ok h
  intro x hx
  have hm : (x, none) ∈ c.auxCoords := by
    rw [haux]
    simp [hx]
  exact ⟨hm, by simpa [coordFits] using hf _ hm⟩

/-- C191: when the data have one dimension for each of those asked for and one for the sites, the sites are the last. -/
theorem C191_sites_last {shape : List ℕ} {a : SpotArgs} {c : SpotCube} (haux : Spec.auxForAll a)
    (hs : (if shape = [] then 1 else shape.length) = (Spec.leadingOf a).length + 1) (h : buildSpotCube shape a = .ok c) :
    c.shape.length = (Spec.leadingOf a).length + 1 ∧
      c.shape = (Spec.leadingOf a).map (fun x => x.shape.headD 0) ++ [c.shape.getLastD 0] := by
  obtain ⟨_, hsh, _, _, _, _⟩ := build_ok h
  have hlen : c.shape.length = (Spec.leadingOf a).length + 1 := by
    rw [hsh, ← hs]
    split <;> rfl
  refine ⟨hlen, ?_⟩
  obtain ⟨hd, hf⟩ := C191_dimensions haux h
  obtain ⟨n, hn, hlast, _⟩ := C191_sites haux h
  apply List.ext_getElem (by simp [hlen])
  intro i h1 h2
  by_cases hi : i < (Spec.leadingOf a).length
  · rw [List.getElem_append_left (by simpa using hi), List.getElem_map]
    obtain ⟨m, hm1, hm2⟩ := hf ((Spec.leadingOf a)[i], i) (by
      rw [hd]; apply List.mem_append_left
      rw [List.mem_iff_getElem]
      exact ⟨i, by simpa using hi, by simp⟩)
    simp only at hm1 hm2
    rw [hm2]
    rw [List.getElem?_eq_getElem h1] at hm1
    simpa using hm1
  · obtain rfl : i = (Spec.leadingOf a).length := by omega
    rw [List.getElem?_eq_getElem h1] at hn
    rw [List.getElem_append_right (by simp)]
    simp only [List.length_map, Nat.sub_self, List.getElem_cons_zero, hlast]
    injection hn

/-- C191: a unique identifier needs a name; and data of the right shape with as many values of everything as sites are always
accepted. -/
theorem C191_accepts {a : SpotArgs} {n : ℕ} (haux : Spec.auxForAll a) (hu : a.uniqueId.isSome → a.uniqueKey ≠ "")
    (h1 : a.altitude = n) (h2 : a.latitude = n) (h3 : a.longitude = n) (h4 : a.wmoId = n)
    (h5 : ∀ m, a.uniqueId = some m → m = n) (h6 : ∀ x ∈ a.auxiliary, x.shape = [n]) (h7 : ∀ x ∈ a.scalars, x.shape = [1])
    (h8 : ∀ x ∈ a.additional.getD [], ∃ m, x.shape = [m])
    (h9 : ∀ i x, (a.additional.getD [])[i]? = some x → ∀ y ∈ a.additionalAux.getD i [], y.shape = x.shape) :
    ∃ c, buildSpotCube ((Spec.leadingOf a).map (fun x => x.shape.headD 0) ++ [n]) a = .ok c := by
  set shape := (Spec.leadingOf a).map (fun x => x.shape.headD 0) ++ [n] with hshape
  have hne : shape ≠ [] := by simp [hshape]
  unfold buildSpotCube
  rw [if_neg fun h => hu h.1 h.2]
  dsimp only
  rw [if_neg hne]
  have hl := leadingDims_fst haux
  have hlen : (leadingDims a).length = (Spec.leadingOf a).length := by rw [← hl, List.length_map]
  have hlast : shape.getLastD 0 = n := by simp [hshape]
  have hk : shape[(leadingDims a).length]? = some n := by
    rw [hlen, hshape, List.getElem?_append_right (by simp)]; simp
  have hlead1 : ∀ x ∈ Spec.leadingOf a, ∃ m, x.shape = [m] := by
    intro x hx
    unfold Spec.leadingOf at hx
    simp only [List.mem_append, List.mem_map, Option.mem_toList] at hx
    rcases hx with (⟨m, _, rfl⟩ | ⟨m, _, rfl⟩) | hx
    · exact ⟨m, rfl⟩
    · exact ⟨m, rfl⟩
    · exact h8 x hx
  have hshape_i : ∀ i (hi : i < (leadingDims a).length), ∃ m, shape[i]? = some m ∧ ((leadingDims a)[i]).1.shape = [m] := by
    intro i hi
    have hi' : i < (Spec.leadingOf a).length := hlen ▸ hi
    have he : ((leadingDims a)[i]).1 = (Spec.leadingOf a)[i] := by
      have := List.getElem_of_eq hl.symm hi'
      rw [this]; simp
    obtain ⟨m, hm⟩ := hlead1 _ (List.getElem_mem hi')
    refine ⟨m, ?_, by rw [he, hm]⟩
    rw [hshape, List.getElem?_append_left (by simpa using hi'), List.getElem?_map, List.getElem?_eq_getElem hi']
    simp [hm]
  have haux_i : ∀ i (hi : i < (leadingDims a).length), ∀ y ∈ ((leadingDims a)[i]).2, y.shape = ((leadingDims a)[i]).1.shape := by
    have key : ∀ p ∈ leadingDims a, ∀ y ∈ p.2, y.shape = p.1.shape := by
      intro p hp y hy
      unfold leadingDims at hp
      rw [List.mem_append, List.mem_append] at hp
      rcases hp with (hp | hp) | hp
      · cases hm : a.methods with
        | none => rw [hm] at hp; simp at hp
        | some m => rw [hm] at hp; simp only [List.mem_singleton] at hp; subst hp; simp at hy; subst hy; rfl
      · cases hm : a.gridAttributes with
        | none => rw [hm] at hp; simp at hp
        | some m => rw [hm] at hp; simp only [List.mem_singleton] at hp; subst hp; simp at hy; subst hy; rfl
      · cases hm : a.additional with
        | none => rw [hm] at hp; simp at hp
        | some l =>
          rw [hm] at hp h9
          simp only [Option.getD_some] at hp h9
          by_cases he : a.additionalAux = []
          · rw [if_pos he] at hp
            obtain ⟨i, hi, rfl⟩ := List.mem_iff_getElem.1 hp
            simp at hy
          · rw [if_neg he] at hp
            obtain ⟨i, hi, rfl⟩ := List.mem_iff_getElem.1 hp
            simp only [List.getElem_zip] at hy ⊢
            have hil : i < l.length ∧ i < a.additionalAux.length := by simpa using hi
            refine h9 i l[i] (List.getElem?_eq_getElem hil.1) y ?_
            rw [List.getD_eq_getElem _ _ hil.2]; exact hy
    intro i hi; exact key _ (List.getElem_mem hi)
  rw [if_pos]
  · exact ⟨_, rfl⟩
  rw [Bool.and_eq_true, List.all_eq_true, List.all_eq_true]
  constructor
  · intro p hp
    rw [List.mem_append] at hp
    rcases hp with hp | hp
    · obtain ⟨i, hi, rfl⟩ := List.mem_mapIdx.1 hp
      exact (fits_iff _ _ _).2 (hshape_i i hi)
    · rw [List.mem_singleton] at hp; subst hp
      exact (fits_iff _ _ _).2 ⟨n, hk, by show [shape.getLastD 0] = [n]; rw [hlast]⟩
  · intro p hp
    rw [List.mem_append, List.mem_append] at hp
    rcases hp with (hp | hp) | hp
    · obtain ⟨x, hx, rfl⟩ := List.mem_map.1 hp
      simp [coordFits, h7 x hx]
    · obtain ⟨l, hl', hp⟩ := List.mem_flatten.1 hp
      obtain ⟨i, hi, rfl⟩ := List.mem_mapIdx.1 hl'
      obtain ⟨y, hy, rfl⟩ := List.mem_map.1 hp
      obtain ⟨m, hm1, hm2⟩ := hshape_i i hi
      exact (fits_iff _ _ _).2 ⟨m, hm1, by rw [haux_i i hi y hy, hm2]⟩
    · obtain ⟨x, hx, rfl⟩ := List.mem_map.1 hp
      refine (fits_iff _ _ _).2 ⟨n, hk, ?_⟩
      unfold siteCoords at hx
      simp only [List.mem_append, List.mem_cons, List.not_mem_nil, or_false] at hx
      rcases hx with ((rfl | rfl | rfl | rfl) | hx) | hx
      · simp [h1]
      · simp [h2]
      · simp [h3]
      · simp [h4]
      · cases hm : a.uniqueId with
        | none => rw [hm] at hx; simp at hx
        | some m => rw [hm] at hx; simp only [List.mem_singleton] at hx; subst hx; simp [h5 m hm]
      · exact h6 x hx

/-- Three sites, two methods and four attributes. -/
def exSpot : SpotArgs := ⟨3, 3, 3, 3, some 3, "met_office_site_id", [⟨"time", [1]⟩], [], some 2, some 4, some [⟨"height", [5]⟩], [[⟨"level", [5]⟩]]⟩

example : (buildSpotCube [2, 4, 5, 3] exSpot).toOption.map (fun c => c.dimCoords.map fun p => (p.1.name, p.2)) =
    some [("neighbour_selection_method", 0), ("grid_attributes", 1), ("height", 2), ("spot_index", 3)] ∧
    (buildSpotCube [2, 4, 3, 5] exSpot).toOption = none ∧
    (Spec.leadingOf exSpot).map (fun x => x.shape.headD 0) ++ [3] = [2, 4, 5, 3] := by decide +kernel

example : Spec.auxForAll exSpot := .inr rfl

/-- Finding: without additional dimensions square data are accepted, with the sites along the first dimension and nothing
along the last (though the length of the last dimension is the number of sites). -/
theorem C191_square_refuted :
    (buildSpotCube [3, 3] ⟨3, 3, 3, 3, none, "", [], [], none, none, none, []⟩).toOption.map SpotCube.dimCoords =
      some [(⟨"spot_index", [3]⟩, 0)] := by decide +kernel

/-- Finding: with auxiliary coordinates for the first additional dimension only, the other additional dimensions are dropped
without an error, and the sites take the place of the first of them. -/
theorem C191_aux_refuted :
    (buildSpotCube [2, 3, 3] ⟨3, 3, 3, 3, none, "", [], [], none, none, some [⟨"height", [2]⟩, ⟨"threshold", [3]⟩],
      [[⟨"level", [2]⟩]]⟩).toOption.map SpotCube.dimCoords = some [(⟨"height", [2]⟩, 0), (⟨"spot_index", [3]⟩, 1)] := by
  decide +kernel

end Improver
