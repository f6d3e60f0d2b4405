import Verif.Model.TimeLag

/-! Model of the command `improver/cli/time_lagged_ensembles.py` on top of `Verif.Model.TimeLag`.

Simplifications: times are seconds, as the metadata standard of the repository demands (a time coordinate in other units
compares unequal, time_lagged_ensembles.py:41); the cubes carry a scalar time with or without bounds, and agree in
all else that iris needs for merging. -/

namespace Improver

/-- An ensemble as the command gets and returns it: `LagCube` and the bounds of its times. -/
structure LagInput (D : Type) extends LagCube D where
  timeBounds : Option (ℤ × ℤ)
  fpBounds : Option (ℤ × ℤ)

/-- The equality `coord == time_coords[0]` of time coordinates: points and bounds
(time_lagged_ensembles.py:40-41). -/
def sameValidity {D : Type} (a b : LagInput D) : Bool :=
  a.time == b.time && a.timeBounds == b.timeBounds

/-- The bounds of the forecast period, by `_calculate_forecast_period` (forecast_times.py:117-133) with the cycle
that all cubes have got. -/
def leadBounds (bounds : Option (ℤ × ℤ)) (cycle : ℤ) : Option (ℤ × ℤ) :=
  bounds.map (fun b => (b.1 - cycle, b.2 - cycle))

/-- `process` of time_lagged_ensembles.py:11-45, whose last step is `GenerateTimeLaggedEnsemble.process`
(time_lagging.py:20-63): cubes rebadged to the latest cycle (forecast_times.py:210-277), so that the scalar times
of the merged cube are those of all cubes. -/
def laggedRun {D : Type} : List (LagInput D) → Except Err (LagInput D)
  | [c] => .ok c
  | [] => .error .indexError
  | first :: rest =>
    if (first :: rest).all (fun c => sameValidity c first) then
      match findLatestCycletime ((first :: rest).map LagInput.toLagCube) with
      | .error e => .error e
      | .ok cycle =>
        match timeLagged ((first :: rest).map LagInput.toLagCube) with
        | .error e => .error e
        | .ok members =>
          .ok ⟨⟨cycle, first.time, first.time - cycle, members⟩, first.timeBounds,
            leadBounds first.timeBounds cycle⟩
    else .error .valueError

end Improver
