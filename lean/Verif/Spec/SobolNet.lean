import Verif.Spec.Sobol
import Mathlib.Algebra.BigOperators.Group.Finset.Defs
import Mathlib.Data.Set.Card

/-! # Specification vocabulary for the joint stratification of the Sobol sequence -/

namespace SALib.Spec

/-- Degree of the polynomial that generates column `d`: the first column uses `x`, the others the polynomial of their
table row `a, m_1, ..., m_s`, whose degree is `s`. -/
def colDegree (dirs : List (List Nat)) (d : Nat) : Nat :=
  if d = 0 then 1 else (dirs.getD (d - 1) []).length - 1

/-- Quality loss of a set of columns: the sum of the degrees, each less one. -/
def netLoss (dirs : List (List Nat)) (S : Finset Nat) : Nat := ∑ d ∈ S, (colDegree dirs d - 1)

/-- Row `n` of `M` lies in the dyadic box whose side in column `d ∈ S` is the `i d`-th of the `2 ^ k d` equal parts of
`[0, 1)`. -/
def InDyadicBox {α : Type} [Field α] [LinearOrder α] (M : List (List α)) (S : Finset Nat) (k i : Nat → Nat)
    (n : Nat) : Prop :=
  ∀ d ∈ S, ∃ x, colEntry M d n = some x ∧ InStratum (k d) (i d) x

/-- Exactly `c` of the rows `B * 2^m, ..., (B + 1) * 2^m - 1` lie in the dyadic box. -/
def BlockCount {α : Type} [Field α] [LinearOrder α] (M : List (List α)) (m B : Nat) (S : Finset Nat)
    (k i : Nat → Nat) (c : Nat) : Prop :=
  {n : Nat | B * 2 ^ m ≤ n ∧ n < (B + 1) * 2 ^ m ∧ InDyadicBox M S k i n}.ncard = c

end SALib.Spec
