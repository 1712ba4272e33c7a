import Verif.Spec.Cross
import Verif.Spec.Matrix
import Mathlib.Algebra.Order.Field.Basic

/-! # Specification of Morris trajectories -/

namespace SALib.Spec

variable {α : Type} [Field α] [LinearOrder α]

/-- A trajectory over `D` parameters in `g` groups with step `delta`: `g + 1` points; the groups move one
after the other in some order; at its turn every parameter of the group moves by `delta`, up or down, and
the other parameters keep their value. -/
structure IsTrajectory (delta : α) (D g : Nat) (groupOf : Nat → Nat) (T : Mat α) : Prop where
  rows : T.length = g + 1
  cols : HasCols D T
  steps : ∃ order : List Nat, order.Perm (List.range g) ∧
    ∀ t k, order[t]? = some k → ∀ j < D, ∃ x y, entry T t j = some x ∧ entry T (t + 1) j = some y ∧
      (if groupOf j = k then y = x + delta ∨ y = x - delta else y = x)

/-- The coordinates lie on the grid `0, 1/(p-1), ..., 1`. -/
def OnGrid (p : Nat) (x : α) : Prop := ∃ k : Nat, k < p ∧ x = (k : α) / ((p : α) - 1)

end SALib.Spec
