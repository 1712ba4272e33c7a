import Verif.Spec.PawnLimit
import Verif.Spec.DeltaDriver
import Mathlib.Probability.Moments.Variance
import Mathlib.MeasureTheory.Function.ConditionalExpectation.Basic

/-! # What the first-order index of the delta method estimates -/

namespace SALib.Spec

open MeasureTheory ProbabilityTheory

variable {d : Nat}

/-- The mean output given that input `j` lies in part `s`. -/
noncomputable def classMean (law : Measure (Fin d → ℝ)) (G : (Fin d → ℝ) → ℝ) (j : Fin d) (S : Nat) (p : Nat → ℝ)
    (s : Nat) : ℝ :=
  ∫ x, G x ∂law[|part j S p s]

/-- The share of the variance of the output that lies between `S` parts of equal probability of input `j`. -/
noncomputable def classShare (law : Measure (Fin d → ℝ)) (G : (Fin d → ℝ) → ℝ) (j : Fin d) (S : Nat) (p : Nat → ℝ) : ℝ :=
  (∑ s ∈ Finset.range S, (classMean law G j S p s - ∫ x, G x ∂law) ^ 2) / S / Var[G; law]

/-- The mean output given input `j`. -/
noncomputable def meanGiven (law : Measure (Fin d → ℝ)) (G : (Fin d → ℝ) → ℝ) (j : Fin d) : (Fin d → ℝ) → ℝ :=
  law[G | MeasurableSpace.comap (fun x => x j) inferInstance]

/-- The share of the draws `Fin n → Fin N` with property `p`. -/
noncomputable def drawShare (n N : Nat) (p : (Fin n → Fin N) → Prop) : ℝ :=
  (Nat.card {t : Fin n → Fin N // p t} : ℝ) / (N : ℝ) ^ n

end SALib.Spec
