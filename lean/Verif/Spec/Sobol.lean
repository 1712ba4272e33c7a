import Mathlib.Algebra.Ring.Parity
import Mathlib.Algebra.Order.Field.Basic

/-! # Specification vocabulary for the Sobol sequence -/

namespace SALib.Spec

/-- A row of the direction-number table: a code `a`, then at least one initial number, the `j`-th of
which (counting from 1) is odd and below `2 ^ j`. -/
def RowOk (m : List Nat) : Prop :=
  ∃ a ms, m = a :: ms ∧ ms ≠ [] ∧ ∀ (j : Nat) x, ms[j]? = some x → Odd x ∧ x < 2 ^ (j + 1)

/-- Every row of the table has the documented form. -/
def TableOk (directions : List (List Nat)) : Prop := ∀ m ∈ directions, RowOk m

/-- Column `d` of a matrix stored by rows, as a function of the row. -/
def colEntry {α : Type} (M : List (List α)) (d : Nat) (n : Nat) : Option α := (M[n]?).bind (·[d]?)

/-- `x` lies in the `i`-th of the `2 ^ k` equal parts of `[0, 1)`. -/
def InStratum {α : Type} [Field α] [LinearOrder α] (k i : Nat) (x : α) : Prop :=
  (i : α) / 2 ^ k ≤ x ∧ x < ((i : α) + 1) / 2 ^ k

end SALib.Spec
