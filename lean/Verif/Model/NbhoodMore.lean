import Verif.Model.Nbhood
import Verif.Model.Spatial
import Verif.Model.Interp

/-! Model of the rest of `improver/nbhood/`: circular neighbourhoods, neighbourhood percentiles, radii by lead time, neighbourhoods
with several masks; and of `improver/percentile.py`. -/

namespace Improver

/-! ## Radii -/

/-- `radius_by_lead_time` (nbhood/__init__.py:10-49) followed by the constructor `BaseNeighbourhoodProcessing.__init__` (nbhood.py:101-130): one
radius without lead times, or as many radii as lead times. -/
inductive Radii where
  | single (r : ℚ)
  | byLeadTime (radii leadTimes : List ℚ)
  deriving DecidableEq

def radiusByLeadTime (radii : List ℚ) (leadTimes : Option (List ℚ)) : Except Err Radii :=
  match leadTimes with
  | none => match radii with
    | [r] => .ok (.single r)
    | _ => .error .valueError
  | some l => if radii.length = l.length then .ok (.byLeadTime radii l) else .error .valueError

/-- `BaseNeighbourhoodProcessing.process` (nbhood.py:151-175) with `_find_radii` (132-149): the radius used for a cube with the forecast
periods `fps` (hours).  An empty list of lead times is false in `if self.lead_times`, and then `self.radius` does not exist.
With several forecast periods the radius is an array, and its comparison with a number (nbhood.py:49) raises. -/
def findRadius (r : Radii) (fps : List ℚ) : Except Err ℚ :=
  match r with
  | .single v => .ok v
  | .byLeadTime radii leadTimes =>
    if leadTimes = [] then .error .attributeError
    else match fps with
      | [fp] => .ok (npInterp leadTimes radii fp)
      | _ => .error .valueError

/-- Extent of an axis, `max(points) - min(points)` (nbhood.py:46). -/
def axisExtent (points : List ℚ) : Except Err ℚ := do
  let a ← npMax points
  let b ← npMin points
  return a - b

/-- `check_radius_against_distance` (nbhood.py:32-52).  The code compares the radius with half the root of the sum of squares; the model
compares squares. -/
def checkRadius (xs ys : List ℚ) (radius : ℚ) : Except Err Unit := do
  let a ← axisExtent xs
  let b ← axisExtent ys
  if 0 < radius ∧ 4 * radius ^ 2 > a ^ 2 + b ^ 2 then .error .valueError else .ok ()

/-- Start of `NeighbourhoodProcessing.process` (nbhood.py:438-450): the number of grid cells of a radius. -/
def nbCells (xs ys : List ℚ) (radius : ℚ) : Except Err ℕ := do
  checkEqualArea xs ys true
  checkRadius xs ys radius
  distanceToCells xs radius

/-! ## Circular neighbourhoods -/

/-- `circular_kernel` (nbhood.py:55-92) at array indices `(a, b)`, `0 ≤ a, b ≤ 2r`. -/
def circularKernel (r : ℕ) (weighted : Bool) (a b : ℕ) : ℚ :=
  let d2 : ℚ := ((a : ℚ) - r) ^ 2 + ((b : ℚ) - r) ^ 2
  let area : ℚ := (r : ℚ) * r
  if weighted then
    let v := (area - d2) / area
    if v < 0 then 0 else v
  else if d2 > area then 0 else 1

/-- Index read by `scipy.ndimage.correlate(mode="nearest")` at kernel index `a` for the point `c` of an axis of length `n`: the edge
value is repeated. -/
def nearIdx (n r c a : ℕ) : ℕ := min (n - 1) (c + a - r)

/-- `correlate(data, kernel, mode="nearest")` (nbhood.py:401) with a kernel of odd side `2r + 1`. -/
def correlateNearest (h w r : ℕ) (k f : ℕ → ℕ → ℚ) (y x : ℕ) : ℚ :=
  ∑ a ∈ Finset.range (2 * r + 1), ∑ b ∈ Finset.range (2 * r + 1), k a b * f (nearIdx h r y a) (nearIdx w r x b)

/-- `_do_nbhood_sum` (nbhood.py:319-409) for the circular method and real data. -/
def doCircularSum (h w r : ℕ) (k f : ℕ → ℕ → ℚ) (maxExtreme : Option (ℕ → ℕ → ℚ)) (y x : ℕ) : ℚ :=
  let s := findShortcut h w r f maxExtreme
  if s.size = 0 then s.fill y x
  else
    let b := s.box
    if b.y0 ≤ y ∧ y < b.y1 ∧ b.x0 ≤ x ∧ x < b.x1 then
      correlateNearest (b.y1 - b.y0) (b.x1 - b.x0) r k (fun i j => f (i + b.y0) (j + b.x0)) (y - b.y0) (x - b.x0)
    else s.fill y x

/-- `_calculate_neighbourhood` (nbhood.py:244-317), circular method, `sum_only=True`. -/
def circularSum (h w r : ℕ) (weighted : Bool) (valid : ℕ → ℕ → Bool) (f : ℕ → ℕ → ℚ) (y x : ℕ) : ℚ :=
  doCircularSum h w r (circularKernel r weighted) (zeroInvalid valid f) none y x

/-- `_calculate_neighbourhood` (nbhood.py:244-317), circular method, `sum_only=False`; `none` is NaN and `lo`, `hi` are the least and greatest
data values. -/
def circularMean (h w r : ℕ) (weighted : Bool) (valid : ℕ → ℕ → Bool) (f : ℕ → ℕ → ℚ) (lo hi : ℚ) (y x : ℕ) : Option ℚ :=
  let area := fun i j => doCircularSum h w r (circularKernel r weighted) (validOnes valid) none i j
  let total := doCircularSum h w r (circularKernel r weighted) (zeroInvalid valid f) (some area) y x
  if area y x = 0 then none else some (npClip (total / area y x) lo hi)

/-! ## Percentiles -/

/-- `np.percentile` (linear interpolation) of a list. -/
def npPercentile (l : List ℚ) (p : ℚ) : ℚ :=
  let s := npSort l
  let pos := p / 100 * ((l.length : ℚ) - 1)
  let i := ⌊pos⌋.toNat
  s.getD i 0 + (s.getD (min (i + 1) (l.length - 1)) 0 - s.getD i 0) * (pos - i)

/-- `np.pad(..., mode="mean", stat_length=r)` of width `r` along one axis of length `n` (neighbourhood_tools.py:97-101,
nbhood.py:617-619): means of the first, respectively last, `min r n` values. -/
def padMean1 (n r : ℕ) (g : ℕ → ℚ) (a : ℕ) : ℚ :=
  let l := min r n
  if a < r then (∑ i ∈ Finset.range l, g i) / l
  else if a < r + n then g (a - r)
  else (∑ i ∈ Finset.range l, g (n - l + i)) / l

/-- Both axes, one after the other. -/
def padMean2 (h w r : ℕ) (f : ℕ → ℕ → ℚ) (a b : ℕ) : ℚ :=
  padMean1 w r (fun j => padMean1 h r (fun i => f i j) a) b

/-- The window at `(y, x)` restricted to `kernel > 0` (nbhood.py:616, 627-629), in C order. -/
def nbWindow (h w r : ℕ) (f : ℕ → ℕ → ℚ) (y x : ℕ) : List ℚ :=
  (List.range (2 * r + 1)).flatMap (fun a => ((List.range (2 * r + 1)).filter
    (fun b => decide (0 < circularKernel r false a b))).map (fun b => padMean2 h w r f (y + a) (x + b)))

/-- `GeneratePercentilesFromANeighbourhood` (nbhood.py:501-695) at one grid point: one value per percentile.  Masked input is refused. -/
def nbPercentiles (masked : Bool) (h w r : ℕ) (f : ℕ → ℕ → ℚ) (percentiles : List ℚ) (y x : ℕ) : Except Err (List ℚ) :=
  if masked then .error .notImplemented
  else .ok (percentiles.map (npPercentile (nbWindow h w r f y x)))

/-- Check of `PercentileConverter.process` (percentile.py:100-110): every coordinate asked for is counted once for every coordinate of
the cube of that name. -/
def percentileConvert (coords collapse : List String) (values : List ℚ) (percentiles : List ℚ) : Except Err (List ℚ) :=
  let valid := (coords.map (fun c => (collapse.filter (fun t => decide (t = c))).length)).sum
  if valid = collapse.length then .ok (percentiles.map (npPercentile values)) else .error .coordinateNotFound

/-! ## Several masks -/

/-- A 2-D slice: underlying data and mask. -/
structure MSlice where
  data : List (List ℚ)
  mask : List (List Bool)
  deriving DecidableEq

/-- Loop of `ApplyNeighbourhoodProcessingWithAMask.process` (use_nbhood.py:227-253): the previous result is used again when the underlying
data of the slice is equal to that of the last slice computed (`np.array_equal` ignores masks).  `compute` is everything
done with one slice. -/
def withMasksLoop {R : Type} (compute : MSlice → R) : List MSlice → Option (MSlice × R) → List R
  | [], _ => []
  | s :: rest, prev =>
    match prev with
    | some (p, r) => if p.data = s.data then r :: withMasksLoop compute rest prev
        else compute s :: withMasksLoop compute rest (some (s, compute s))
    | none => compute s :: withMasksLoop compute rest (some (s, compute s))

/-- `collapse_mask_coord` (use_nbhood.py:159-193) at one grid point: (weight, value) for each mask; NaNs are masked, `np.ma.average` renormalises
the weights and masks a zero total. -/
def collapseMasks (l : List (ℚ × Option ℚ)) : Option ℚ :=
  let v := l.filterMap (fun e => e.2.map (fun x => (e.1, x)))
  let scl := (v.map (·.1)).sum
  if scl = 0 then none else some ((v.map (fun e => e.1 * e.2)).sum / scl)

/-- Value of the collapsed result at `(y, x)` for one unmasked slice with the square method: each mask gives a neighbourhood mean over its
own points. -/
def maskedNbhood (h w r : ℕ) (f : ℕ → ℕ → ℚ) (lo hi : ℚ) (masks : List ((ℕ → ℕ → Bool) × (ℕ → ℕ → ℚ))) (y x : ℕ) :
    Except Err (Option ℚ) := do
  let vals ← masks.mapM (fun m => do
    let v ← nbhoodMean h w r m.1 f lo hi y x
    return (m.2 y x, v))
  return collapseMasks vals

/-! ## Options -/

/-- Constructors `MetaNeighbourhood.__init__` (nbhood.py:795-817) and `NeighbourhoodProcessing.__init__` (227-242). -/
def metaNbCheck (output shape : String) (complex weighted : Bool) : Except Err Unit :=
  if output = "percentiles" ∧ weighted then .error .runtimeError
  else if output = "percentiles" ∧ complex then .error .runtimeError
  else if shape = "circular" ∧ complex then .error .runtimeError
  else .ok ()

def nbMethodCheck (method : String) (weighted : Bool) : Except Err Unit :=
  if method ≠ "square" ∧ method ≠ "circular" then .error .valueError
  else if weighted ∧ method ≠ "circular" then .error .valueError
  else .ok ()

end Improver
