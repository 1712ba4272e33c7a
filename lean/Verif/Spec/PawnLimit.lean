import Verif.Model.Pawn
import Mathlib.Probability.ConditionalProbability
import Mathlib.Probability.Independence.Basic
import Mathlib.MeasureTheory.Measure.Real
import Mathlib.Analysis.SpecialFunctions.Sqrt

/-! # The PAWN indices of a model

Distances between the distribution of the output and its distributions given that one input lies in one of `S` parts of
equal probability. -/

namespace SALib.Spec

open MeasureTheory ProbabilityTheory

variable {d : Nat}

/-- Random rows: independent of each other, each with the distribution `law` of the inputs (which may be dependent). -/
structure RandomRows (law : Measure (Fin d → ℝ)) {Ω : Type} [MeasurableSpace Ω] (P : Measure Ω)
    (Z : ℕ → Ω → (Fin d → ℝ)) : Prop where
  meas : ∀ i, Measurable (Z i)
  indep : iIndepFun Z P
  law : ∀ i, Measure.map (Z i) P = law

/-- `p 1, …, p (S - 1)` divide the range of input `j` into `S` parts of equal probability; the input has no value of
positive probability. -/
structure EqualParts (law : Measure (Fin d → ℝ)) (j : Fin d) (S : Nat) (p : Nat → ℝ) : Prop where
  noAtom : ∀ a, law.real {x | x j = a} = 0
  share : ∀ s, 0 < s → s < S → law.real {x | x j ≤ p s} = (s : ℝ) / S

/-- The points with input `j` in part `s` of `0, …, S - 1`; the first and the last part are not bounded. -/
def part (j : Fin d) (S : Nat) (p : Nat → ℝ) (s : Nat) : Set (Fin d → ℝ) :=
  {x | (s = 0 ∨ p s ≤ x j) ∧ (s + 1 = S ∨ x j < p (s + 1))}

/-- The largest distance between the distribution function of the output given part `s` and that of the output. -/
noncomputable def partDistance (law : Measure (Fin d → ℝ)) (G : (Fin d → ℝ) → ℝ) (j : Fin d) (S : Nat) (p : Nat → ℝ)
    (s : Nat) : ℝ :=
  ⨆ t : ℝ, |law[|part j S p s].real {x | G x ≤ t} - law.real {x | G x ≤ t}|

/-- The mean of the two middle values (of the middle value and itself if `n` is odd). -/
def IsMedian {n : Nat} (v : Fin n → ℝ) (m : ℝ) : Prop :=
  ∃ σ : Equiv.Perm (Fin n), (∀ i k, i ≤ k → v (σ i) ≤ v (σ k)) ∧
    ∃ a b : Fin n, a.1 = (n - 1) / 2 ∧ b.1 = n / 2 ∧ m = (v (σ a) + v (σ b)) / 2

/-- The mean. -/
noncomputable def meanOf {n : Nat} (v : Fin n → ℝ) : ℝ := (∑ i, v i) / n

/-- The standard deviation, with divisor `n`. -/
noncomputable def stdOf {n : Nat} (v : Fin n → ℝ) : ℝ := Real.sqrt ((∑ i, (v i - meanOf v) ^ 2) / n)

/-- `row` has the summary of the values `v`, up to `ε`. -/
def RowNear {n : Nat} (ε : ℝ) (row : PawnRow ℝ) (v : Fin n → ℝ) : Prop :=
  (∃ x, row.minimum = some x ∧ |x - ⨅ s, v s| < ε) ∧
  (∃ x, row.mean = some x ∧ |x - meanOf v| < ε) ∧
  (∃ x m, row.median = some x ∧ IsMedian v m ∧ |x - m| < ε) ∧
  (∃ x, row.maximum = some x ∧ |x - ⨆ s, v s| < ε) ∧
  (∃ x, row.stdev = some x ∧ |x - stdOf v| < ε) ∧
  (meanOf v ≠ 0 → ∃ x, row.cv = some x ∧ |x - stdOf v / meanOf v| < ε)

end SALib.Spec
