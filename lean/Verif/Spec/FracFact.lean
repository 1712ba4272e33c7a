import Verif.Model.Basic
import Mathlib.Algebra.BigOperators.Group.Finset.Basic

/-! # Vocabulary for the fractional factorial design -/

namespace SALib.Spec

/-- The sign in row `i`, column `j` of the design for `2 ^ k` factors: one factor -1 for every binary digit
that is set in both numbers. -/
def sign (α : Type) [CommRing α] (k i j : Nat) : α :=
  ∏ b ∈ Finset.range k, if i.testBit b && j.testBit b then -1 else 1

/-- The folded-over design: the first `2 ^ k` runs have these signs, the next `2 ^ k` the opposite ones. -/
def coded (α : Type) [CommRing α] (k r j : Nat) : α :=
  if r < 2 ^ k then sign α k r j else -sign α k (r - 2 ^ k) j

/-- `2 ^ k` is the least power of two that is at least `n`. -/
def LeastPower (n k : Nat) : Prop := n ≤ 2 ^ k ∧ ∀ k' < k, 2 ^ k' < n

end SALib.Spec
