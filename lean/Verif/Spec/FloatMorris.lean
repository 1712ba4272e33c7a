import Verif.Spec.Float
import Verif.Spec.Morris

/-! # Specification of Morris trajectories with rounding -/

namespace SALib.Spec

/-- As `IsTrajectory`, in a floating point format: unit values of the format; at its turn a parameter
goes from `x` to `x + d` rounded, or the way back. -/
structure IsFlTrajectory (F : Fmt) (d : ℚ) (D g : Nat) (groupOf : Nat → Nat) (T : Mat ℚ) : Prop where
  rows : T.length = g + 1
  cols : HasCols D T
  unit : ∀ row ∈ T, ∀ x ∈ row, IsFloat F x ∧ 0 ≤ x ∧ x ≤ 1
  steps : ∃ order : List Nat, order.Perm (List.range g) ∧
    ∀ t k, order[t]? = some k → ∀ j < D, ∃ x y, entry T t j = some x ∧ entry T (t + 1) j = some y ∧
      (if groupOf j = k then (x < y ∧ RoundsTo F (x + d) y) ∨ (y < x ∧ RoundsTo F (y + d) x) else y = x)

/-- The groups move one after the other in some order; at its turn every parameter of the group takes a
different value, and the other parameters keep theirs. -/
structure MovesInTurn (D g : Nat) (groupOf : Nat → Nat) (T : Mat ℚ) : Prop where
  rows : T.length = g + 1
  cols : HasCols D T
  steps : ∃ order : List Nat, order.Perm (List.range g) ∧
    ∀ t k, order[t]? = some k → ∀ j < D, ∃ x y, entry T t j = some x ∧ entry T (t + 1) j = some y ∧
      (groupOf j = k ↔ x ≠ y)

/-- Within each column, `T'` orders the rows as `T` does. -/
def SameOrder (T T' : Mat ℚ) : Prop :=
  ∀ s t j x y x' y', entry T s j = some x → entry T t j = some y → entry T' s j = some x' →
    entry T' t j = some y' → (x < y ↔ x' < y')

end SALib.Spec
