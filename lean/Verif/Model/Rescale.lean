import Verif.Basic

/-! Model of `improver/utilities/rescale.py`. -/

namespace Improver

/-- `rescale` (improver/utilities/rescale.py:14-68) for one data value and an explicit `data_range`.
The code is elementwise apart from the range checks, which depend only on the ranges. -/
def rescale (x : ℚ) (dataRange : ℚ × ℚ) (scaleRange : ℚ × ℚ) (clip : Bool) : Except Err ℚ :=
  let dataLeft := dataRange.1
  let dataRight := dataRange.2
  let scaleLeft := scaleRange.1
  let scaleRight := scaleRange.2
  if dataLeft = dataRight then .error .valueError
  else if scaleLeft = scaleRight then .error .valueError
  else
    let result := ((x - dataLeft) * (scaleRight - scaleLeft) / (dataRight - dataLeft)) + scaleLeft
    if clip then .ok (npClip result (min scaleLeft scaleRight) (max scaleLeft scaleRight))
    else .ok result

/-- `rescale` with `data_range=None` (improver/utilities/rescale.py:43-44): the range is
`[min(data), max(data)]`.  `np.min` of an empty array raises `ValueError`. -/
def rescaleAuto (data : List ℚ) (scaleRange : ℚ × ℚ) (clip : Bool) : Except Err (List ℚ) :=
  match data with
  | [] => .error .valueError
  | d :: ds => (d :: ds).mapM (fun x => rescale x (ds.foldl min d, ds.foldl max d) scaleRange clip)

/-- `apply_double_scaling` (improver/utilities/rescale.py:71-126) at one point; `np.where` evaluates
both branches, so an error in either rescaling is raised whatever the data. -/
def applyDoubleScaling (data scaled : ℚ) (dataVals scalingVals : ℚ × ℚ × ℚ)
    (combine : ℚ → ℚ → ℚ) : Except Err ℚ := do
  let lowBranch ← rescale data (dataVals.1, dataVals.2.1) (scalingVals.1, scalingVals.2.1) true
  let highBranch ← rescale data (dataVals.2.1, dataVals.2.2) (scalingVals.2.1, scalingVals.2.2) true
  let rescaled := if data < dataVals.2.1 then lowBranch else highBranch
  return combine scaled rescaled

end Improver
