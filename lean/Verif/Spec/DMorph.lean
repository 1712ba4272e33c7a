import Mathlib.LinearAlgebra.Matrix.Rank
import Mathlib.Data.Real.Basic
import Mathlib.Data.Nat.Choose.Basic

/-! # Least squares and hierarchical orthogonality -/

namespace SALib.Spec

open Matrix

/-- The Moore-Penrose inverse. -/
structure IsPinv {n : Nat} (A X : Matrix (Fin n) (Fin n) ℝ) : Prop where
  left : A * X * A = A
  right : X * A * X = X
  symm_left : (A * X)ᵀ = A * X
  symm_right : (X * A)ᵀ = X * A

/-- A singular value decomposition `A = U diag(s) Vh` with the singular values in decreasing order. -/
structure IsSvd {n : Nat} (A U : Matrix (Fin n) (Fin n) ℝ) (s : Fin n → ℝ) (Vh : Matrix (Fin n) (Fin n) ℝ) : Prop where
  eq : A = U * diagonal s * Vh
  left : Uᵀ * U = 1
  right : Vh * Vhᵀ = 1
  nonneg : ∀ i, 0 ≤ s i
  anti : Antitone s

/-- `x` gives the least sum of squared residuals. -/
def LeastSquares {m n : Nat} (A : Matrix (Fin m) (Fin n) ℝ) (y : Fin m → ℝ) (x : Fin n → ℝ) : Prop :=
  ∀ z : Fin n → ℝ, ∑ r, (y r - ∑ i, A r i * x i) ^ 2 ≤ ∑ r, (y r - ∑ i, A r i * z i) ^ 2

/-- The component function made of the columns `s, ..., s + w - 1`, at sample `r`. -/
def component {m n : Nat} (A : Matrix (Fin m) (Fin n) ℝ) (x : Fin n → ℝ) (s w : Nat) (r : Fin m) : ℝ :=
  ∑ i : Fin n, if s ≤ i.val ∧ i.val < s + w then A r i * x i else 0

/-- How far the component is from having mean zero and being orthogonal to its first `low` columns. -/
noncomputable def violation {m n : Nat} (A : Matrix (Fin m) (Fin n) ℝ) (N : ℝ) (x : Fin n → ℝ) (s w low : Nat) : ℝ :=
  ((∑ r, component A x s w r) / m) ^ 2 +
    ∑ l : Fin n, if s ≤ l.val ∧ l.val < s + low then ((∑ r, A r l * component A x s w r) / N) ^ 2 else 0

/-- The sum of the violations of all components of order two and three, for `p` polynomials in each of `d` inputs.  A pair
has `2 p` copied columns and `p ^ 2` products; a triple `3 p + 3 p ^ 2` copied columns and `p ^ 3` products. -/
noncomputable def hierarchyCost {m n : Nat} (d p o : Nat) (A : Matrix (Fin m) (Fin n) ℝ) (N : ℝ) (x : Fin n → ℝ) : ℝ :=
  (if 2 ≤ o then ∑ ct ∈ Finset.range (d.choose 2),
      violation A N x (p * d + ct * (p ^ 2 + 2 * p)) (p ^ 2 + 2 * p) (2 * p) else 0) +
  (if o = 3 then ∑ ct ∈ Finset.range (d.choose 3),
      violation A N x (p * d + (p ^ 2 + 2 * p) * d.choose 2 + ct * (p ^ 3 + (3 * p + 3 * p ^ 2)))
        (p ^ 3 + (3 * p + 3 * p ^ 2)) (3 * p + 3 * p ^ 2) else 0)

end SALib.Spec
