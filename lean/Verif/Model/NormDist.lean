import Mathlib.Analysis.SpecialFunctions.Gaussian.GaussianIntegral

/-!
The standard normal distribution as used by the calibration code through
`scipy.stats.norm`: density and distribution function over the reals.
-/

namespace Improver

/-- `scipy.stats.norm.pdf` as called in
improver/calibration/ensemble_calibration.py:178 (`norm.pdf(xz)`): scipy computes
`exp(-x**2/2.0) / sqrt(2*pi)`.  Reals instead of binary64. -/
noncomputable def normPdf (x : ℝ) : ℝ := Real.exp (-(x ^ 2) / 2) / Real.sqrt (2 * Real.pi)

/-- `scipy.stats.norm.cdf` as called in
improver/calibration/ensemble_calibration.py:177, 276, 277: the integral of the density up to
`x` (scipy evaluates `ndtr`; its rounding is not modelled). -/
noncomputable def normCdf (x : ℝ) : ℝ := ∫ t in Set.Iic x, normPdf t

end Improver
