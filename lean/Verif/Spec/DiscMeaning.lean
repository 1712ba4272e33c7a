import Verif.Spec.Discrepancy
import Mathlib.MeasureTheory.Measure.Prod
import Mathlib.MeasureTheory.Integral.Bochner.Basic
import Mathlib.MeasureTheory.Measure.Lebesgue.Basic
import Mathlib.MeasureTheory.Measure.Real
import Mathlib.Analysis.SpecialFunctions.Sqrt

/-! # What the discrepancies measure

The discrepancy of a distribution on the unit square: squared differences between the probability of boxes and their
area, averaged over the boxes.  The methods differ in the boxes. -/

namespace SALib.Spec

open MeasureTheory Set

/-- The uniform distribution on `[0, 1]`. -/
noncomputable def unitLine : Measure ℝ := volume.restrict (Icc 0 1)

/-- The uniform distribution on `[0, 1]²`. -/
noncomputable def unitSquare : Measure (ℝ × ℝ) := unitLine.prod unitLine

/-- One side of the boxes, for every value of two uniform parameters, and a weight. -/
structure Side where
  weight : ℝ
  region : ℝ × ℝ → Set ℝ

/-- The whole side. -/
def wholeSide (_ : ℝ × ℝ) : Set ℝ := univ

/-- From 0 up to a point. -/
def originSide (s : ℝ × ℝ) : Set ℝ := Iio s.1

/-- From a point to the nearer end. -/
def cornerSide (s : ℝ × ℝ) : Set ℝ := {x | (s.1 < 1 / 2 ∧ x ≤ s.1) ∨ (1 / 2 ≤ s.1 ∧ s.1 ≤ x)}

/-- From a point to the farther end. -/
def farSide (s : ℝ × ℝ) : Set ℝ := {x | (s.1 < 1 / 2 ∧ s.1 ≤ x) ∨ (1 / 2 ≤ s.1 ∧ x ≤ s.1)}

/-- From one point to the other, around the circle. -/
def wrapSide (s : ℝ × ℝ) : Set ℝ := {x | (s.1 ≤ s.2 ∧ s.1 ≤ x ∧ x < s.2) ∨ (s.2 < s.1 ∧ (x < s.2 ∨ s.1 ≤ x))}

/-- The sides of the boxes of a method. -/
noncomputable def methodSides (method : String) : List Side :=
  if method = "CD" then [⟨1, wholeSide⟩, ⟨1, cornerSide⟩]
  else if method = "WD" then [⟨1, wholeSide⟩, ⟨1, wrapSide⟩]
  else if method = "MD" then [⟨9 / 8, wholeSide⟩, ⟨1 / 2, wrapSide⟩, ⟨1 / 2, farSide⟩]
  else [⟨1, originSide⟩]

/-- The weighted mean of the squared difference between probability and area. -/
noncomputable def boxDiscrepancy (sides : List Side) (μ : Measure (ℝ × ℝ)) : ℝ :=
  ∑ a : Fin sides.length, ∑ b : Fin sides.length, (sides.get a).weight * (sides.get b).weight *
    ∫ z, (μ.real ((sides.get a).region z.1 ×ˢ (sides.get b).region z.2) -
      unitLine.real ((sides.get a).region z.1) * unitLine.real ((sides.get b).region z.2)) ^ 2 ∂unitSquare.prod unitSquare

/-- The discrepancy of a distribution; method `L2-star` takes the root. -/
noncomputable def discrepancyOf (method : String) (μ : Measure (ℝ × ℝ)) : ℝ :=
  if method = "L2-star" then Real.sqrt (boxDiscrepancy (methodSides method) μ) else boxDiscrepancy (methodSides method) μ

/-- Every point with the same probability. -/
noncomputable def empirical (pts : List (ℝ × ℝ)) : Measure (ℝ × ℝ) :=
  (pts.length : ENNReal)⁻¹ • (pts.map Measure.dirac).sum

variable {d : Nat}

/-- The output ranges from `a` to `b`: values outside have probability 0, values near `a` and near `b` do not. -/
structure OutputRange (law : Measure (Fin d → ℝ)) (G : (Fin d → ℝ) → ℝ) (a b : ℝ) : Prop where
  lt : a < b
  mem : ∀ᵐ x ∂law, a ≤ G x ∧ G x ≤ b
  low : ∀ ε > 0, 0 < law.real {x | G x < a + ε}
  high : ∀ ε > 0, 0 < law.real {x | b - ε < G x}

/-- The joint distribution of an input and the output, scaled to the unit square. -/
noncomputable def plotLaw (law : Measure (Fin d → ℝ)) (G : (Fin d → ℝ) → ℝ) (j : Fin d) (lo hi a b : ℝ) : Measure (ℝ × ℝ) :=
  law.map fun x => ((x j - lo) / (hi - lo), (G x - a) / (b - a))

/-- The weighted mean of the squared length of the sides. -/
noncomputable def sideSize (sides : List Side) : ℝ :=
  ∑ a : Fin sides.length, (sides.get a).weight * ∫ s, unitLine.real ((sides.get a).region s) ^ 2 ∂unitSquare

/-- The discrepancy of one variable: the weighted mean of the squared difference between probability and length. -/
noncomputable def lineDiscrepancy (sides : List Side) (ν : Measure ℝ) : ℝ :=
  ∑ b : Fin sides.length, (sides.get b).weight *
    ∫ t, (ν.real ((sides.get b).region t) - unitLine.real ((sides.get b).region t)) ^ 2 ∂unitSquare

end SALib.Spec
