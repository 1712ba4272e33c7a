import Mathlib.MeasureTheory.Measure.Lebesgue.Basic
import Mathlib.Analysis.SpecialFunctions.Trigonometric.Basic
import Mathlib.Probability.ConditionalProbability
import Mathlib.Analysis.SpecialFunctions.Pow.Real

/-! # Reference values of the test functions -/

namespace SALib.Spec

open MeasureTheory

/-- The uniform distribution on the interval from -π to π. -/
noncomputable def unifPi : Measure ℝ := ProbabilityTheory.cond volume (Set.Icc (-Real.pi) Real.pi)

/-- The variance of the Ishigami function. -/
noncomputable def ishigamiVar (A B : ℝ) : ℝ :=
  A ^ 2 / 8 + B * Real.pi ^ 4 / 5 + B ^ 2 * Real.pi ^ 8 / 18 + 1 / 2

/-- The three partial variances of the Ishigami function that are not zero: of the first input, of the second, and of
the interaction of the first and the third. -/
noncomputable def ishigamiV1 (B : ℝ) : ℝ := 1 / 2 * (1 + B * Real.pi ^ 4 / 5) ^ 2

noncomputable def ishigamiV2 (A : ℝ) : ℝ := A ^ 2 / 8

noncomputable def ishigamiV13 (B : ℝ) : ℝ := 8 * B ^ 2 * Real.pi ^ 8 / 225

/-- The pollution of the lake after `t` steps, from a clean lake, with the same inflow `e` in every step. -/
noncomputable def lakeState (a q b e : ℝ) : Nat → ℝ
  | 0 => 0
  | t + 1 => lakeState a q b e t + a + lakeState a q b e t ^ q / (1 + lakeState a q b e t ^ q) -
      b * lakeState a q b e t + e

end SALib.Spec
