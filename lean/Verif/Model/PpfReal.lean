import Verif.Model.Scale
import Mathlib.Analysis.SpecialFunctions.Log.Basic
import Mathlib.Analysis.SpecialFunctions.Pow.Real
import Mathlib.Probability.CDF
import Mathlib.Probability.Distributions.Gaussian.Real

/-!
# The SciPy quantile functions with elementary closed forms

These live outside /repo; they are transcribed from SciPy's documented formulas so that the calls made by
`_nonuniform_scale_samples` (`src/SALib/util/__init__.py` 197, 211, 273) have a meaning.  As in
`rv_continuous.ppf`: an illegal shape parameter, a non-positive scale or a `q` outside `[0, 1]` gives
nan (`none`); `q = 0` and `q = 1` give the end points of the support.
-/

namespace SALib
open Real

/-- `scipy.stats.triang.ppf(q, c, scale, loc)`; standard form on `[0, 1]`:
`sqrt(c q)` for `q < c`, else `1 - sqrt((1-c)(1-q))`. -/
noncomputable def triangPpf (c scale loc q : ℝ) : Num ℝ :=
  if 0 ≤ c ∧ c ≤ 1 ∧ 0 < scale ∧ 0 ≤ q ∧ q ≤ 1 then
    if q = 0 then some loc
    else if q = 1 then some (scale + loc)
    else some ((if q < c then sqrt (c * q) else 1 - sqrt ((1 - c) * (1 - q))) * scale + loc)
  else none

/-- `scipy.stats.loguniform.ppf(q, a, b)`: `exp(log a + q (log b - log a))`, legal when `0 < a < b`. -/
noncomputable def loguniformPpf (a b q : ℝ) : Num ℝ :=
  if 0 < a ∧ a < b ∧ 0 ≤ q ∧ q ≤ 1 then
    if q = 0 then some a
    else if q = 1 then some b
    else some (exp (log a + q * (log b - log a)))
  else none

/-- `scipy.stats.weibull_min.ppf(q, c, scale, loc)`: `(-log(1-q))^(1/c) * scale + loc`; infinite
(`none`) at `q = 1`. -/
noncomputable def weibullPpf (c scale loc q : ℝ) : Num ℝ :=
  if 0 < c ∧ 0 < scale ∧ 0 ≤ q ∧ q ≤ 1 then
    if q = 0 then some loc
    else if q = 1 then none
    else some ((-log (1 - q)) ^ (1 / c) * scale + loc)
  else none

/-- The quantile functions over the reals; `norm` and `truncnorm` remain parameters. -/
noncomputable def realPpf (norm : (loc scale q : ℝ) → Num ℝ)
    (truncnorm : (a b loc scale q : ℝ) → Num ℝ) : Ppf ℝ where
  triang := triangPpf
  loguniform := loguniformPpf
  norm := norm
  truncnorm := truncnorm
  weibull := weibullPpf
  exp := Real.exp

/-- Distribution function of the standard normal distribution. -/
noncomputable def stdNormalCDF (x : ℝ) : ℝ :=
  ProbabilityTheory.cdf (ProbabilityTheory.gaussianReal 0 1) x

/-- `scipy.stats.norm.ppf(q, loc, scale)`: `z q * scale + loc` with `z` SciPy's `ndtri`; infinite at 0
and 1. -/
noncomputable def normPpf (z : ℝ → ℝ) (loc scale q : ℝ) : Num ℝ :=
  if 0 < scale ∧ 0 < q ∧ q < 1 then some (z q * scale + loc) else none

/-- `scipy.stats.truncnorm.ppf(q, a, b, loc, scale)`: the standard normal restricted to `[a, b]`, then
scaled and shifted. -/
noncomputable def truncnormPpf (z : ℝ → ℝ) (a b loc scale q : ℝ) : Num ℝ :=
  if a < b ∧ 0 < scale ∧ 0 ≤ q ∧ q ≤ 1 then
    if q = 0 then some (a * scale + loc)
    else if q = 1 then some (b * scale + loc)
    else some (z (stdNormalCDF a + q * (stdNormalCDF b - stdNormalCDF a)) * scale + loc)
  else none

/-- All the quantile functions, given SciPy's `ndtri`. -/
noncomputable def gaussPpf (z : ℝ → ℝ) : Ppf ℝ := realPpf (normPpf z) (truncnormPpf z)

end SALib
