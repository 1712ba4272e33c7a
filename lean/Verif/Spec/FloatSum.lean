import Verif.Model.FloatSum

/-! # Orders of summation -/

namespace SALib.Spec

/-- `order n` adds the entries at positions 0, ..., n-1, each of them once. -/
def SumOrder (order : Nat → SumTree) : Prop :=
  ∀ n, 0 < n → (order n).leaves.Perm (List.range n)

end SALib.Spec
