import Verif.Spec.DeltaLimit
import Mathlib.Analysis.SpecialFunctions.Trigonometric.Basic

/-! # What RBD-FAST estimates -/

namespace SALib.Spec

open MeasureTheory ProbabilityTheory

variable {d : Nat}

/-- The probability that input `j` is at most its value at `x`. -/
noncomputable def rankOf (law : Measure (Fin d → ℝ)) (j : Fin d) (x : Fin d → ℝ) : ℝ := law.real {z | z j ≤ x j}

/-- The mean of the output times the `k`-th cosine of the rank of input `j`. -/
noncomputable def harmonic (law : Measure (Fin d → ℝ)) (G : (Fin d → ℝ) → ℝ) (j : Fin d) (k : Nat) : ℝ :=
  ∫ x, G x * Real.cos (k * Real.pi * rankOf law j x) ∂law

/-- The share of the variance of the output in the first `M` harmonics of input `j`. -/
noncomputable def harmonicShare (law : Measure (Fin d → ℝ)) (G : (Fin d → ℝ) → ℝ) (j : Fin d) (M : Nat) : ℝ :=
  (∑ k ∈ Finset.Icc 1 M, 2 * harmonic law G j k ^ 2) / Var[G; law]

end SALib.Spec
