import Mathlib.Analysis.SpecialFunctions.Trigonometric.Basic

/-! # The function of Oakley and O'Hagan: definitions -/

namespace SALib.Spec

open Real Finset

/-- Linear, sine, cosine and quadratic terms (Oakley and O'Hagan 2004, equation 21). -/
noncomputable def oakley {d : Nat} (a b c : Fin d → ℝ) (M : Fin d → Fin d → ℝ) (x : Fin d → ℝ) : ℝ :=
  (∑ i, a i * x i) + (∑ i, b i * sin (x i)) + (∑ i, c i * cos (x i)) + ∑ i, ∑ j, M i j * x i * x j

/-- The variance of the terms in one input alone, which is normal with mean 0 and variance `v`. -/
noncomputable def oakleyMain (v a b c m : ℝ) : ℝ :=
  a ^ 2 * v + b ^ 2 * ((1 - exp (-(2 * v))) / 2) + c ^ 2 * ((1 + exp (-(2 * v))) / 2 - exp (-(v / 2)) ^ 2) +
    2 * m ^ 2 * v ^ 2 + 2 * a * b * v * exp (-(v / 2)) - 2 * c * m * v ^ 2 * exp (-(v / 2))

/-- The pairs of different inputs, each once. -/
def inputPairs (d : Nat) : Finset (Fin d × Fin d) := univ.filter fun p => p.1 < p.2

/-- First-order indices of the example for inputs of standard deviation 0.835, to six digits. -/
def oakleyCorrect : List ℚ :=
  [0.001900, 0.000214, 0.001288, 0.002824, 0.002430, 0.025524, 0.026050, 0.030137, 0.044087, 0.017195, 0.112742,
   0.155213, 0.118069, 0.119484, 0.140944]

end SALib.Spec
