import Verif.Model.Basic

/-! # What the discrepancy indices are computed from -/

namespace SALib.Spec

variable {α : Type} [Field α] [LinearOrder α]

/-- The scatter plot of parameter `i` (range `lo` to `hi`) against the output (range `mn` to `mx`), in the unit
square. -/
def scatter (X : List (List α)) (Y : List α) (i : Nat) (lo hi mn mx : α) : List (α × α) :=
  (X.zip Y).map fun r => ((r.1.getD i 0 - lo) / (hi - lo), (r.2 - mn) / (mx - mn))

/-- The inputs the method is defined for: every range is non-degenerate, every sample lies within the ranges, and the
output is not constant. -/
def DiscInputs (P : List (α × α)) (X : List (List α)) (Y : List α) : Prop :=
  (∀ p ∈ P, p.1 < p.2) ∧
  (∀ row ∈ X, ∀ (i : Nat) x p, row[i]? = some x → P[i]? = some p → p.1 ≤ x ∧ x ≤ p.2) ∧
  ∃ y ∈ Y, ∃ y' ∈ Y, y ≠ y'

/-- The arrays fit the problem: one pair of bounds per parameter, one column per parameter, one output per sample, and
group labels (if any) one per parameter. -/
structure DiscShape (pb : Problem α) (P : List (α × α)) (X : List (List α)) (Y : List α) : Prop where
  bounds : pb.bounds = P.map fun p => [p.1, p.2]
  count : pb.numVars = P.length
  rows : ∀ row ∈ X, row.length = P.length
  length : X.length = Y.length
  groups : ∀ gs, pb.groups = some gs → gs.length = P.length

end SALib.Spec
