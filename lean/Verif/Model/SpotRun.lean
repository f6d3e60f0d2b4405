import Verif.Model.Spot
import Verif.Model.LapseRate
import Verif.Model.EccRun
import Verif.Model.Extraction

/-! Model of `SpotManipulation.process` (improver/spotdata/spot_manipulation.py:142-267), the command `spot-extract`.  Data without masks. -/

namespace Improver

/-- What the values at a point are: percentiles, probabilities of thresholds (`above`; `none`: neither above nor below), or neither. -/
inductive SpotKind where
  | percentiles (points : List ℚ)
  | probabilities (above : Option Bool) (thresholds : List ℚ)
  | plain
  deriving DecidableEq

/-- The realization coordinate: absent, a scalar, or a dimension. -/
inductive RealDim where
  | absent
  | scalar
  | dim
  deriving DecidableEq

/-- Forecast at spots: for each site, for each realization (one if there is no such dimension), the values. -/
structure SpotField where
  name : String
  kind : SpotKind
  realization : RealDim
  sites : List (List (List ℚ))
  deriving DecidableEq

/-- The argument `extract_percentiles`. -/
inductive PctAsk where
  | nothing
  | one (p : ℚ)
  | many (ps : List ℚ)
  deriving DecidableEq

/-- Options (spot_manipulation.py:39-52), with the ECC bounds of the diagnostic (`none`: the table has none). -/
structure SpotOpts where
  applyLapse : Bool
  fixed : Option ℚ
  land : Bool
  similarAltitude : Bool
  percentiles : PctAsk
  ignoreBounds : Bool
  skipBounds : Bool
  suppress : Bool
  collapse : Bool
  subset : Option String
  table : Option (ℚ × ℚ)

/-- Warnings. -/
inductive SpotWarning where
  | notProbabilistic
  | noLapseRate
  deriving DecidableEq

/-- `collapse_realizations` with the mean (utilities/cube_manipulation.py:59-97) at one site. -/
def meanOfMembers (members : List (List ℚ)) : List ℚ :=
  (List.range (members.headD []).length).map (fun j => (members.map (fun m => m.getD j 0)).sum / members.length)

/-- spot_manipulation.py:199-200. -/
def spotCollapse (collapse : Bool) (f : SpotField) : Except Err SpotField :=
  if !collapse then .ok f
  else match f.realization with
    | .absent => .error .coordinateNotFound
    | _ => .ok { f with realization := .absent, sites := f.sites.map (fun s => [meanOfMembers s]) }

/-- The percentiles among the points of the cube that are close to one asked for (spot_manipulation.py:234-238). -/
def keptPercentiles (points ps : List ℚ) : List ℕ :=
  (List.range points.length).filter (fun i => (XTest.close ps).holds (points.getD i 0))

/-- One site of a percentile forecast (spot_manipulation.py:233-242): extraction if all percentiles are there, otherwise resampling with the default options. -/
def sitePercentiles (table : Option (ℚ × ℚ)) (points ps : List ℚ) (site : List (List ℚ)) : Except Err (List (List ℚ)) :=
  if ps.all (fun p => points.contains p) then .ok (site.map (fun row => (keptPercentiles points ps).map (fun i => row.getD i 0)))
  else if ps.any (fun p => decide (p < 0) || decide (p > 100)) then .error .valueError
  else match table with
    | none => .error .keyError
    | some b => resamplePercentiles false (some b) points site ps

/-- One site of a probability forecast (spot_manipulation.py:211-216). -/
def siteFromProbs (o : SpotOpts) (above : Bool) (thresholds ps : List ℚ) (site : List (List ℚ)) : Except Err (List (List ℚ)) :=
  if o.skipBounds then site.mapM (fun row => probsToPercentiles o.ignoreBounds none above thresholds row ps)
  else match o.table with
    | none => .error .keyError
    | some b => site.mapM (fun row => probsToPercentiles o.ignoreBounds (some b) above thresholds row ps)

/-- One site of realizations (spot_manipulation.py:217-223). -/
def siteFromMembers (ps : List ℚ) (site : List (List ℚ)) : List (List ℚ) :=
  [ps.map (npPercentile (site.map (fun m => m.getD 0 0)))]

/-- spot_manipulation.py:206-242 with a list of percentiles. -/
def spotPercentiles (o : SpotOpts) (ps : List ℚ) (f : SpotField) : Except Err (SpotField × List SpotWarning) :=
  match f.kind with
  | .percentiles points => do
    let sites ← f.sites.mapM (sitePercentiles o.table points ps)
    .ok ({ f with sites, kind := .percentiles (if ps.all (fun p => points.contains p) then
      (keptPercentiles points ps).map (fun i => points.getD i 0) else ps) }, [])
  | .probabilities above ts =>
    match above with
    | none => .error .notImplemented
    | some a => do
      let sites ← f.sites.mapM (siteFromProbs o a ts ps)
      .ok ({ f with sites, kind := .percentiles ps }, [])
  | .plain =>
    match f.realization with
    | .dim => .ok ({ f with sites := f.sites.map (siteFromMembers ps), kind := .percentiles ps, realization := .absent }, [])
    | _ => .ok (f, if o.suppress then [] else [.notProbabilistic])

/-- spot_manipulation.py:206-207: a number is not iterable, and zero counts as nothing. -/
def spotAsk (o : SpotOpts) (f : SpotField) : Except Err (SpotField × List SpotWarning) :=
  match o.percentiles with
  | .nothing => .ok (f, [])
  | .one p => if p = 0 then .ok (f, []) else .error .typeError
  | .many ps => if ps = [] then .ok (f, []) else spotPercentiles o ps f

/-- A grid of lapse rates: what `_check_inputs` sees of it (right name, has a height, same height as the data), and the values. -/
structure LapseGrid where
  named : Bool
  hasHeight : Bool
  sameHeight : Bool
  grid : AxisId × AxisId
  ny : ℕ
  nx : ℕ
  rate : ℕ → ℕ → ℚ

/-- The temperatures of a site after adjustment (spotdata/apply_lapse_rate.py:226-236). -/
def adjustSite (rate displacement : ℚ) (site : List (List ℚ)) : List (List ℚ) :=
  site.map (fun row => row.map (fun t => t + lapseAdjust rate displacement))

/-- Whether the values are probabilities. -/
def SpotKind.isProbability : SpotKind → Bool
  | .probabilities _ _ => true
  | _ => false

/-- The grids whose hashes must agree (spotdata/apply_lapse_rate.py:205-207). -/
def lapseGrids (nb : NeighbourCube) (grid : AxisId × AxisId) (lapse : Option LapseGrid) : List (AxisId × AxisId) :=
  [nb.grid, grid] ++ (lapse.map LapseGrid.grid).toList

/-- `SpotLapseRateAdjust(...)(result, neighbour_cube, lapse)` (spotdata/apply_lapse_rate.py:178-236): `grid` is the grid the sites were taken from. -/
def spotLapse (method : String) (nb : NeighbourCube) (grid : AxisId × AxisId) (lapse : Option LapseGrid) (fixed : Option ℚ) (f : SpotField) :
    Except Err SpotField := do
  spotLapseCheck ⟨f.kind.isProbability, ["air_temperature", "feels_like_temperature"].contains f.name,
    lapse.map (fun l => (l.named, l.hasHeight, l.sameHeight)), fixed, decide (checkGridMatch (lapseGrids nb grid lapse) = .ok ())⟩
  let cols ← extractCoordinates nb method
  let rates ← (match fixed, lapse with
    | some v, _ => .ok (cols.map (fun _ => v))
    | none, some l => spotExtract nb method l.grid l.ny l.nx l.rate
    | none, none => .error .valueError)
  if f.sites.length ≠ cols.length then .error .valueError
  .ok { f with sites := List.zipWith (fun s c => adjustSite c.1 c.2 s) f.sites (rates.zip (cols.map NbOut.displacement)) }

/-- The forecast given: on a grid, or at sites with the values of their identifying coordinates. -/
inductive SpotSource where
  | grid (g : AxisId × AxisId) (ny nx : ℕ) (data : ℕ → ℕ → List (List ℚ))
  | spots (ids : String → Option (List String)) (data : List (List (List ℚ)))

/-- The grid the values of the sites come from, as recorded on the spot cube; a spot cube given as input is taken to record the grid of the neighbour cube. -/
def SpotSource.gridOf (nb : NeighbourCube) : SpotSource → AxisId × AxisId
  | .grid g _ _ _ => g
  | .spots _ _ => nb.grid

/-- spot_manipulation.py:167-197: the values at the sites. -/
def spotValues (o : SpotOpts) (nb : NeighbourCube) (nbIds : String → Option (List String)) (src : SpotSource) :
    Except Err (List (List (List ℚ))) :=
  match src with
  | .grid g ny nx data => spotExtract nb (methodName o.land o.similarAltitude) g ny nx data
  | .spots ids data =>
    if o.applyLapse || o.fixed.isSome then .error .notImplemented
    else match o.subset with
      | none => .ok data
      | some c => match nbIds c with
        | none => .error .valueError
        | some wanted => match ids c with
          | none => .error .valueError
          | some have' => (subsetSites wanted (have'.zip data)).map (fun l => l.map Prod.snd)

/-- spot_manipulation.py:244-262: the adjustment with lapse rates; `extra` are the cubes between the forecast and the neighbour cube. -/
def spotAdjust (o : SpotOpts) (nb : NeighbourCube) (src : SpotSource) (extra : List LapseGrid) (f : SpotField) :
    Except Err (SpotField × List SpotWarning) :=
  if !o.applyLapse then .ok (f, [])
  else
    match extra, o.fixed with
    | [l], _ => (spotLapse (methodName o.land o.similarAltitude) nb (src.gridOf nb) (some l) none f).map (fun r => (r, []))
    | _, some v => (spotLapse (methodName o.land o.similarAltitude) nb (src.gridOf nb) none (some v) f).map (fun r => (r, []))
    | _, none => .ok (f, if o.suppress then [] else [.noLapseRate])

/-- `SpotManipulation.process` (spot_manipulation.py:142-267); the title and other metadata are not modelled. -/
def spotManipulation (o : SpotOpts) (nb : NeighbourCube) (nbIds : String → Option (List String)) (name : String) (kind : SpotKind) (realization : RealDim)
    (src : SpotSource) (extra : List LapseGrid) : Except Err (SpotField × List SpotWarning) := do
  let sites ← spotValues o nb nbIds src
  let f ← spotCollapse o.collapse ⟨name, kind, realization, sites⟩
  let p ← spotAsk o f
  let r ← spotAdjust o nb src extra p.1
  .ok (r.1, p.2 ++ r.2)

end Improver
