import Mathlib.Analysis.Calculus.Deriv.Basic
import Mathlib.Analysis.Real.Pi.Bounds
import Verif.Spec.SobolMean

/-! # Derivative-based measures

Inputs are independent, input `i` uniform between `lo i` and `hi i`. -/

namespace SALib.Spec

open MeasureTheory ProbabilityTheory

variable {d : Nat}

/-- The uniform distribution on an interval. -/
noncomputable def unifOn (lo hi : ℝ) : Measure ℝ := ProbabilityTheory.cond volume (Set.Icc lo hi)

/-- `x` with input `j` replaced by `t`. -/
def setInput (x : Fin d → ℝ) (j : Fin d) (t : ℝ) : Fin d → ℝ := fun i => if i = j then t else x i

/-- Only input `j`. -/
def onlyInput (j : Fin d) : Fin d → Bool := fun i => decide (i = j)

/-- The point lies within the bounds. -/
def InBox (lo hi : Fin d → ℝ) (x : Fin d → ℝ) : Prop := ∀ i, lo i ≤ x i ∧ x i ≤ hi i

/-- `G'` is the derivative of `G` with respect to input `j` everywhere within the bounds, and is continuous in
input `j`. -/
structure PartialDeriv (lo hi : Fin d → ℝ) (j : Fin d) (G G' : (Fin d → ℝ) → ℝ) : Prop where
  deriv : ∀ x, InBox lo hi x →
    HasDerivWithinAt (fun t => G (setInput x j t)) (G' x) (Set.Icc (lo j) (hi j)) (x j)
  cont : ∀ x, InBox lo hi x → ContinuousOn (fun t => G' (setInput x j t)) (Set.Icc (lo j) (hi j))

/-- The derivative-based index: the mean of the squared derivative times the squared width of the range over π²
times the variance of the output. -/
noncomputable def derivIndex (lo hi : Fin d → ℝ) (j : Fin d) (G D : (Fin d → ℝ) → ℝ) : ℝ :=
  (∫ x, D x ^ 2 ∂Measure.pi fun i => unifOn (lo i) (hi i)) * (hi j - lo j) ^ 2 /
    (Var[G; Measure.pi fun i => unifOn (lo i) (hi i)] * Real.pi ^ 2)

/-- The total Sobol' index of input `j`. -/
noncomputable def totalIndex (lo hi : Fin d → ℝ) (j : Fin d) (G : (Fin d → ℝ) → ℝ) : ℝ :=
  totalEffect (fun i => unifOn (lo i) (hi i)) G (onlyInput j) / Var[G; Measure.pi fun i => unifOn (lo i) (hi i)]

/-- The value of an input after a relative step of `delta`, kept within the bounds. -/
noncomputable def stepped (lo hi delta x : ℝ) : ℝ := max (min (x * (1 + delta)) hi) lo

/-- The difference quotient of `G` over this step of input `j`. -/
noncomputable def stepQuot (lo hi : Fin d → ℝ) (delta : ℝ) (j : Fin d) (G : (Fin d → ℝ) → ℝ) (x : Fin d → ℝ) : ℝ :=
  (G (setInput x j (stepped (lo j) (hi j) delta (x j))) - G x) / (stepped (lo j) (hi j) delta (x j) - x j)

/-- Random points: independent, with independent inputs, input `i` uniform between `lo i` and `hi i`. -/
structure UniformPoints (lo hi : Fin d → ℝ) {Ω : Type} [MeasurableSpace Ω] (P : Measure Ω)
    (Z : ℕ → Ω → Fin d → ℝ) : Prop where
  meas : ∀ i, Measurable (Z i)
  indep : iIndepFun Z P
  law : ∀ i, Measure.map (Z i) P = Measure.pi fun i => unifOn (lo i) (hi i)

end SALib.Spec
