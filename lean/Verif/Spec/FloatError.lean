import Verif.Spec.Float
import Mathlib.Algebra.BigOperators.Group.Finset.Basic

/-! # Accuracy of a computed number

and the exact quantities that the Sobol estimators approximate. -/

namespace SALib.Spec

/-- `y` is what remains of `x` after at most `n` roundings: off by at most `n` relative errors of `2 ^ -p`
in terms of total size `X`, plus `c` errors of half the smallest positive number (underflow). -/
def RoundedFrom (F : Fmt) (n : Nat) (c X x y : ℚ) : Prop :=
  |y - x| ≤ ((1 + (2 : ℚ) ^ (-(F.p : ℤ))) ^ n - 1) * X + (1 + (2 : ℚ) ^ (-(F.p : ℤ))) ^ n * c * (2 : ℚ) ^ (F.emin - 1)

/-- Mean of `f 0, ..., f (n - 1)`. -/
def avg (n : Nat) (f : Nat → ℚ) : ℚ := (∑ i ∈ Finset.range n, f i) / n

/-- Mean of the `2 n` numbers `a 0, ..., a (n - 1), b 0, ..., b (n - 1)`. -/
def avg2 (n : Nat) (a b : Nat → ℚ) : ℚ :=
  (∑ i ∈ Finset.range n, a i + ∑ i ∈ Finset.range n, b i) / (2 * n)

/-- Their variance. -/
def var2 (n : Nat) (a b : Nat → ℚ) : ℚ :=
  avg2 n (fun i => (a i - avg2 n a b) ^ 2) fun i => (b i - avg2 n a b) ^ 2

end SALib.Spec
