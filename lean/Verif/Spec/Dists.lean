import Verif.Model.Basic
import Mathlib.Data.Real.Basic
import Mathlib.Analysis.SpecialFunctions.Log.Basic
import Mathlib.Analysis.SpecialFunctions.Pow.Real

/-!
# Specification of the distributions a problem may declare

Written from the user documentation (`docs/user_guide/advanced.rst` and the doc strings), not from
the scaling code.
-/

namespace SALib.Spec

/-- Which parameter tuples are acceptable for which distribution name.  (`triang`: start, end and
relative peak; the end may not be negative and the peak must be in `[0, 1)`; in the two-value form
the start is 0.  `logunif` parameters are not checked.) -/
def Acceptable {α : Type} [Zero α] [One α] [LT α] [LE α] (d : String) (b : List α) : Prop :=
  (d = "unif" ∧ ∃ lo hi rest, b = lo :: hi :: rest ∧ lo < hi) ∨
  (d = "logunif" ∧ ∃ lo hi rest, b = lo :: hi :: rest) ∨
  (d = "triang" ∧ ∃ start stop peak, b = [start, stop, peak] ∧
    start ≤ stop ∧ 0 ≤ stop ∧ 0 ≤ peak ∧ peak < 1) ∨
  (d = "triang" ∧ ∃ stop peak, b = [stop, peak] ∧ 0 ≤ stop ∧ 0 ≤ peak ∧ peak < 1) ∨
  (d = "norm" ∧ ∃ mean sd rest, b = mean :: sd :: rest ∧ 0 < sd) ∨
  (d = "truncnorm" ∧ ∃ lo hi mean sd rest, b = lo :: hi :: mean :: sd :: rest ∧ lo < hi ∧ 0 < sd) ∨
  (d = "lognorm" ∧ ∃ mean sd rest, b = mean :: sd :: rest ∧ 0 < sd) ∨
  (d = "weibull" ∧ ∃ shape scale loc, b = [shape, scale, loc] ∧ 0 < shape ∧ 0 < scale) ∨
  (d = "weibull" ∧ ∃ shape scale, b = [shape, scale] ∧ 0 < shape ∧ 0 < scale)

/-- Enough numbers are given for the distribution to be looked at at all: two, and four for
`truncnorm`. -/
def EnoughNumbers {α : Type} (d : String) (b : List α) : Prop :=
  2 ≤ b.length ∧ (d = "truncnorm" → 4 ≤ b.length)

/-- Cumulative distribution function of the triangular distribution on `[a, b]` with peak `m`,
`a ≤ m < b`. -/
noncomputable def triangCDF (a m b x : ℝ) : ℝ :=
  if x ≤ a then 0
  else if x < m then (x - a) ^ 2 / ((b - a) * (m - a))
  else if x < b then 1 - (b - x) ^ 2 / ((b - a) * (b - m))
  else 1

/-- Cumulative distribution function of the log-uniform distribution on `[a, b]`, `0 < a < b`. -/
noncomputable def loguniformCDF (a b x : ℝ) : ℝ :=
  if x ≤ a then 0
  else if x < b then (Real.log x - Real.log a) / (Real.log b - Real.log a)
  else 1

/-- Cumulative distribution function of the Weibull distribution with shape `k`, scale `l` and
location `x0`. -/
noncomputable def weibullCDF (k l x0 x : ℝ) : ℝ :=
  if x ≤ x0 then 0 else 1 - Real.exp (-(((x - x0) / l) ^ k))

end SALib.Spec
