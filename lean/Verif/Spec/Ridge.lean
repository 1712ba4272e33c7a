import Verif.Model.Basic
import Mathlib.Algebra.BigOperators.Group.Finset.Basic
import Mathlib.Algebra.Order.Field.Basic

/-! # Penalised least squares with blocks of columns -/

namespace SALib.Spec

open Finset

variable {α : Type} [Field α]

/-- Entry `k` of row `r` of block `j`. -/
def blkAt (B : List (Mat α)) (j r k : Nat) : α := ((B.getD j []).getD r []).getD k 0

/-- Coefficient `k` of block `j`. -/
def coefAt (C : List (List α)) (j k : Nat) : α := (C.getD j []).getD k 0

/-- The fitted value in row `r`: `n` blocks of `w` columns. -/
def fitAt (n w : Nat) (b : Nat → Nat → Nat → α) (c : Nat → Nat → α) (r : Nat) : α :=
  ∑ j ∈ range n, ∑ k ∈ range w, b j r k * c j k

/-- The sum of the squared residuals of `R` rows plus `lam` times the sum of the squared coefficients. -/
def ridgeLoss (n w R : Nat) (lam : α) (b : Nat → Nat → Nat → α) (y : Nat → α) (c : Nat → Nat → α) : α :=
  (∑ r ∈ range R, (y r - fitAt n w b c r) ^ 2) + lam * ∑ j ∈ range n, ∑ k ∈ range w, c j k ^ 2

/-- The same of a table of coefficients for a list of blocks. -/
def blockLoss (R w : Nat) (lam : α) (B : List (Mat α)) (y : List α) (C : List (List α)) : α :=
  ridgeLoss B.length w R lam (blkAt B) (fun r => y.getD r 0) (coefAt C)

/-- `T` solves `(Bᵀ B + lam I) T = Bᵀ`, for `B` with `R` rows and `w` columns. -/
def RidgeInverse (lam : α) (R w : Nat) (B T : Mat α) : Prop :=
  ∀ k < w, ∀ r < R,
    (∑ k' ∈ range w, (∑ s ∈ range R, (B.getD s []).getD k 0 * (B.getD s []).getD k' 0) * (T.getD k' []).getD r 0) +
      lam * (T.getD k []).getD r 0 = (B.getD r []).getD k 0

/-- Whatever `solve` returns for a square system of `w` equations solves it. -/
def SolvesSystems (solve : Mat α → List α → Py (List α)) : Prop :=
  ∀ (A : Mat α) (b : List α) (w : Nat) (x : List α), A.length = w → b.length = w → solve A b = .ok x →
    x.length = w ∧ ∀ i < w, ∑ j ∈ range w, (A.getD i []).getD j 0 * x.getD j 0 = b.getD i 0

/-- A matrix with `R` rows of `w` entries. -/
def Shape (R w : Nat) (A : Mat α) : Prop := A.length = R ∧ ∀ row ∈ A, row.length = w

/-- The blocks and their regularised inverses have consistent sizes. -/
structure FitShapes (R w : Nat) (T B : List (Mat α)) (y : List α) : Prop where
  ylen : y.length = R
  basis : ∀ j < B.length, Shape R w (B.getD j [])
  inv : ∀ j < B.length, Shape w R (T.getD j [])

/-- `reg` returns the regularised inverse of every matrix with at least one row. -/
def RidgeSolver (lam : α) (reg : Mat α → Mat α) : Prop :=
  ∀ (R w : Nat) (B : Mat α), 1 ≤ R → Shape R w B → Shape w R (reg B) ∧ RidgeInverse lam R w B (reg B)

end SALib.Spec
