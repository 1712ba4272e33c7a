import Mathlib.Algebra.Order.Ring.Rat
import Mathlib.Algebra.Order.Group.Unbundled.Abs

/-! # Latin hypercubes up to rounding -/

namespace SALib.Spec

/-- Edges of `N` cells that tile an interval from 0 to at most 1 and differ from the exact `j / N` by
a relative error of at most `err`. -/
structure NearlyEqualCells (N : Nat) (err : ℚ) (edge : Nat → ℚ) : Prop where
  first : edge 0 = 0
  last : edge N ≤ 1
  ascending : ∀ j < N, edge j < edge (j + 1)
  near : ∀ j ≤ N, |edge j - (j : ℚ) / N| ≤ err * ((j : ℚ) / N)

/-- The values can be matched with the cells, one value to each cell, so that each value lies in its
cell (edges included). -/
def OnePerCell (N : Nat) (edge : Nat → ℚ) (value : Nat → Option ℚ) : Prop :=
  ∃ cell : Nat → Nat, (∀ s < N, cell s < N) ∧ (∀ j < N, ∃! s, s < N ∧ cell s = j) ∧
    ∀ s < N, ∃ x, value s = some x ∧ edge (cell s) ≤ x ∧ x ≤ edge (cell s + 1)

end SALib.Spec
