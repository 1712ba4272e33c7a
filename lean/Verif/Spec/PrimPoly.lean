import Mathlib.Algebra.Polynomial.Degree.Defs
import Mathlib.Algebra.Polynomial.Div
import Mathlib.Data.ZMod.Basic

/-! # Primitive polynomials over the field of two elements -/

namespace SALib.Spec

open Polynomial

/-- The polynomial `x^s + a_1 x^(s-1) + ... + a_(s-1) x + 1` whose inner coefficients `a_1 ... a_(s-1)` are the binary
digits of `a`. -/
noncomputable def codePoly (s a : Nat) : (ZMod 2)[X] :=
  X ^ s + (∑ j ∈ Finset.range (s - 1), if a.testBit j then X ^ (j + 1) else 0) + 1

/-- `P` is primitive of degree `s`: it is irreducible and the powers of `x` modulo `P` repeat exactly with period
`2^s - 1`. -/
def PrimitivePoly (s : Nat) (P : (ZMod 2)[X]) : Prop :=
  P.natDegree = s ∧ Irreducible P ∧ ∀ k : Nat, P ∣ X ^ k - 1 ↔ 2 ^ s - 1 ∣ k

end SALib.Spec
