import Verif.Model.LandSea
import Verif.Model.ProbName

/-! Model of `AdjustLandSeaPoints.process` with its cache of matching points, over any history of calls (improver/regrid/landsea.py:203-361), and of
`RegridLandSea` as run by the command regrid (landsea.py:45-200, cli/regrid.py:79-99). -/

namespace Improver

/-- What `_get_matches` returns: the points to be corrected, and for each point the point whose value fills it (itself if of the selected type). -/
structure Matches where
  mismatch : ℕ → ℕ → Bool
  source : ℕ → ℕ → ℕ × ℕ

/-- One call of the plugin: whether the coordinates of the cube are those of the target mask, the shape of the grid, the vicinity in grid lengths, the source
mask regridded to the target, the target mask, and the y-x slices of the cube in the order of `cube.slices`. -/
structure AdjustCall (α : Type) where
  sameGrid : Bool
  h : ℕ
  w : ℕ
  r : ℕ
  fill : ℚ
  inLand : ℕ → ℕ → Bool
  outLand : ℕ → ℕ → Bool
  slices : List (ℕ → ℕ → α)

/-- landsea.py:242-279 `_get_matches` computed afresh; `none` is `_NoMatchesError`. -/
def getMatches {α : Type} (c : AdjustCall α) (sel : Bool) : Option Matches :=
  if (gridPts c.h c.w).filter (fun q => c.inLand q.1 q.2 == sel) = [] then none
  else some ⟨fun y x => decide (c.outLand y x = sel ∧ c.inLand y x ≠ sel ∧ inVicinity c.h c.w c.r c.fill c.inLand sel y x = true),
    fun y x => if c.inLand y x = sel then (y, x) else nearestOf ((gridPts c.h c.w).filter (fun q => c.inLand q.1 q.2 == sel)) (y, x)⟩

/-- The cache of `functools.lru_cache(maxsize=2)`, most recent first.  It belongs to the class: the key is the plugin (a number here) and the selector. -/
abbrev MatchCache := List ((ℕ × Bool) × Matches)

/-- `lru_cache`: a value found is returned and becomes the most recent; otherwise it is computed and stored, unless that raises. -/
def cachedMatches (cache : MatchCache) (key : ℕ × Bool) (fresh : Option Matches) : Option Matches × MatchCache :=
  match cache.lookup key with
  | some m => (some m, (key, m) :: cache.filter fun e => decide (e.1 ≠ key))
  | none =>
    match fresh with
    | none => (none, cache)
    | some m => (some m, ((key, m) :: cache).take 2)

/-- landsea.py:302-305: the points to be corrected get the values of the filled field. -/
def fillMatches {α : Type} (m : Matches) (near out : ℕ → ℕ → α) (y x : ℕ) : α :=
  if m.mismatch y x then near (m.source y x).1 (m.source y x).2 else out y x

/-- landsea.py:281-305 `correct_where_input_true`. -/
def correctCached {α : Type} (inst : ℕ) (c : AdjustCall α) (near : ℕ → ℕ → α) (sel : Bool) (out : ℕ → ℕ → α) (cache : MatchCache) :
    (ℕ → ℕ → α) × MatchCache :=
  match cachedMatches cache (inst, sel) (getMatches c sel) with
  | (none, k) => (out, k)
  | (some m, k) => (fillMatches m near out, k)

/-- landsea.py:346-358: the loop over slices. -/
def adjustSlices {α : Type} (inst : ℕ) (c : AdjustCall α) : List (ℕ → ℕ → α) → MatchCache → List (ℕ → ℕ → α) × MatchCache
  | [], k => ([], k)
  | near :: rest, k =>
    let sea := correctCached inst c near false near k
    let land := correctCached inst c near true sea.1 sea.2
    let others := adjustSlices inst c rest land.2
    (land.1 :: others.1, others.2)

/-- landsea.py:307-361 `AdjustLandSeaPoints.process`; the slices of the result in order (merging is left out). -/
def adjustCall {α : Type} (cache : MatchCache) (inst : ℕ) (c : AdjustCall α) : Except Err (List (ℕ → ℕ → α)) × MatchCache :=
  if c.sameGrid then
    let r := adjustSlices inst c c.slices []
    (.ok r.1, r.2)
  else (.error .valueError, cache)

/-- A history of calls, of any number of plugins. -/
def adjustHistory {α : Type} : List (ℕ × AdjustCall α) → MatchCache → List (Except Err (List (ℕ → ℕ → α)))
  | [], _ => []
  | (inst, c) :: rest, k =>
    let r := adjustCall k inst c
    r.1 :: adjustHistory rest r.2

/-! ## The command -/

/-- What the command is given: its mode, the land mask, the vicinity, and the regridders as functions: iris nearest or bilinear, the adjustment of land and sea
points with a vicinity, the newer regridders by mode, and whether the mask covers the grid of the source. -/
structure RegridJob (M C : Type) where
  mode : String
  mask : Option M
  vicinity : ℚ
  covers : M → Except Err Bool
  nearest : Except Err C
  bilinear : Except Err C
  adjust : ℚ → M → C → Except Err C
  newer : String → Option ℚ → Option M → Except Err C

/-- cli/regrid.py:79-89: a land mask with a mode that does not use it is refused. -/
def maskUnwanted {M C : Type} (j : RegridJob M C) : Bool :=
  j.mask.isSome && !(j.mode = "nearest-with-mask" || j.mode = "nearest-with-mask-2" || j.mode = "bilinear-with-mask-2")

/-- landsea.py:195-197: the mask must cover the source. -/
def coverChecked {M C : Type} (j : RegridJob M C) : Except Err Unit :=
  match requiresLandmask j.mode, j.mask with
  | some true, some m => do
    let b ← j.covers m
    if b then .ok () else .error .valueError
  | _, _ => .ok ()

/-- landsea.py:136-140: the adjustment after iris regridding.  A vicinity of `None` cannot occur here. -/
def adjustedIris {M C : Type} (j : RegridJob M C) (vic : Option ℚ) (c : C) : Except Err C :=
  match requiresLandmask j.mode, j.mask, vic with
  | some true, some m, some v => j.adjust v m c
  | _, _, _ => .ok c

/-- landsea.py:129-133: "nearest" in the name of the mode. -/
def irisBase {M C : Type} (j : RegridJob M C) : Except Err C := if hasPart "nearest".toList j.mode.toList then j.nearest else j.bilinear

/-- landsea.py:127-151: which regridder is used. -/
def regridDispatch {M C : Type} (j : RegridJob M C) (vic : Option ℚ) : Except Err C :=
  if j.mode = "bilinear" ∨ j.mode = "nearest" ∨ j.mode = "nearest-with-mask" then do
    let c ← irisBase j
    adjustedIris j vic c
  else j.newer j.mode vic j.mask

/-- cli/regrid.py:79-99 and landsea.py:173-200, without the attributes (`regridAttributes`). -/
def regridCommand {M C : Type} (j : RegridJob M C) : Except Err C :=
  if maskUnwanted j then .error .valueError
  else do
    let vic ← regridLandSeaInit j.mode j.mask.isSome j.vicinity
    coverChecked j
    regridDispatch j vic

end Improver
