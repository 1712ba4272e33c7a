import Mathlib.Probability.Moments.Variance
import Mathlib.MeasureTheory.Integral.Pi
import Mathlib.Probability.Independence.Basic
import Verif.Spec.Cross

/-! # Variance-based effects of sets of inputs

Inputs are independent, input `i` with distribution `ν i`. -/

namespace SALib.Spec

open MeasureTheory ProbabilityTheory

variable {d : Nat}

/-- `x` with the inputs selected by `s` taken from `y`. -/
def mix (s : Fin d → Bool) (x y : Fin d → ℝ) : Fin d → ℝ := fun j => if s j then y j else x j

/-- The mean output given the inputs selected by `s`, as a function of a full point. -/
noncomputable def condMean (ν : Fin d → Measure ℝ) (G : (Fin d → ℝ) → ℝ) (s : Fin d → Bool) (y : Fin d → ℝ) : ℝ :=
  ∫ x, G (mix s x y) ∂Measure.pi ν

/-- The closed effect of a set of inputs: the variance of the mean output given these inputs. -/
noncomputable def closedEffect (ν : Fin d → Measure ℝ) (G : (Fin d → ℝ) → ℝ) (s : Fin d → Bool) : ℝ :=
  Var[condMean ν G s; Measure.pi ν]

/-- The total effect of a set of inputs: the mean of the variance that is left when all others are known. -/
noncomputable def totalEffect (ν : Fin d → Measure ℝ) (G : (Fin d → ℝ) → ℝ) (s : Fin d → Bool) : ℝ :=
  ∫ x, Var[fun y => G (mix s x y); Measure.pi ν] ∂Measure.pi ν

/-- The inputs of group `k`. -/
def inGroup (groupOf : Nat → Nat) (k : Nat) : Fin d → Bool := fun j => groupOf j == k

/-- A base row of the design: the point A followed by the point B. -/
def pairRow (p : (Fin d → ℝ) × (Fin d → ℝ)) : List ℝ := List.ofFn p.1 ++ List.ofFn p.2

/-- The mean of `h` over the rows. -/
noncomputable def rowMean {β : Type} (rows : List β) (h : β → ℝ) : ℝ := (rows.map h).sum / rows.length

/-- The variance of the outputs at the points A and B. -/
noncomputable def sampleVar (G : (Fin d → ℝ) → ℝ) (rows : List ((Fin d → ℝ) × (Fin d → ℝ))) : ℝ :=
  rowMean rows (fun p => (G p.1 ^ 2 + G p.2 ^ 2) / 2) - rowMean rows (fun p => (G p.1 + G p.2) / 2) ^ 2

/-- The mean of the outputs of one block of the design. -/
noncomputable def blockMean (second : Bool) (g : Nat) (groupOf : Nat → Nat) (G : (Fin d → ℝ) → ℝ)
    (p : (Fin d → ℝ) × (Fin d → ℝ)) : ℝ :=
  (G p.1 + G p.2 + ∑ k ∈ Finset.range g, (G (mix (inGroup groupOf k) p.1 p.2) +
    if second then G (mix (inGroup groupOf k) p.2 p.1) else 0)) / (blockSize second g : ℝ)

/-- Numerator of the first-order index of the inputs `s`, for outputs centred at the mean of the block means `M`. -/
noncomputable def firstNum (G : (Fin d → ℝ) → ℝ) (M : (Fin d → ℝ) × (Fin d → ℝ) → ℝ) (s : Fin d → Bool)
    (rows : List ((Fin d → ℝ) × (Fin d → ℝ))) : ℝ :=
  rowMean rows (fun p => G p.2 * (G (mix s p.1 p.2) - G p.1)) -
    rowMean rows M * rowMean rows (fun p => G (mix s p.1 p.2) - G p.1)

/-- Numerator of the total index of the inputs `s`. -/
noncomputable def totalNum (G : (Fin d → ℝ) → ℝ) (s : Fin d → Bool)
    (rows : List ((Fin d → ℝ) × (Fin d → ℝ))) : ℝ :=
  1 / 2 * rowMean rows fun p => (G p.1 - G (mix s p.1 p.2)) ^ 2

/-- Numerator of the second-order index of the inputs `s` and `t`. -/
noncomputable def secondNum (G : (Fin d → ℝ) → ℝ) (M : (Fin d → ℝ) × (Fin d → ℝ) → ℝ) (s t : Fin d → Bool)
    (rows : List ((Fin d → ℝ) × (Fin d → ℝ))) : ℝ :=
  rowMean rows (fun p => G (mix s p.2 p.1) * G (mix t p.1 p.2) - G p.1 * G p.2) -
    rowMean rows (fun p => G p.2 * (G (mix s p.1 p.2) - G p.1)) -
    rowMean rows (fun p => G p.2 * (G (mix t p.1 p.2) - G p.1)) -
    rowMean rows M * rowMean rows (fun p => G (mix s p.2 p.1) - G (mix s p.1 p.2) + G p.1 - G p.2)

/-- Random base rows: the rows are independent of each other, the points A and B of a row are independent, and so
are the inputs of a point, input `i` with distribution `ν i`. -/
structure BaseRows (ν : Fin d → Measure ℝ) {Ω : Type} [MeasurableSpace Ω] (P : Measure Ω)
    (Z : ℕ → Ω → (Fin d → ℝ) × (Fin d → ℝ)) : Prop where
  meas : ∀ i, Measurable (Z i)
  indep : iIndepFun Z P
  law : ∀ i, Measure.map (Z i) P = (Measure.pi ν).prod (Measure.pi ν)

/-- The first `N` base rows. -/
def firstRows {Ω β : Type} (Z : ℕ → Ω → β) (N : Nat) (ω : Ω) : List β := (List.range N).map fun i => Z i ω

end SALib.Spec
