import Verif.Spec.HdmrDriver
import Verif.Model.EnhancedDriver

/-! # What an enhanced HDMR analysis with terms up to the second order is to report -/

namespace SALib.Spec

open Finset

variable {α : Type} [Field α] [LinearOrder α]

/-- Columns of a term: `p` for an input, for a pair the `p ^ 2` products and, with the extended base, a copy of the
columns of both inputs. -/
def columnsOf (d p : Nat) (ext : Bool) (j : Nat) : Nat := if j < d then p else p ^ 2 + if ext then 2 * p else 0

/-- The first column of term `j` when the terms lie side by side. -/
def firstColumn (d p : Nat) (ext : Bool) (j : Nat) : Nat := ∑ i ∈ range j, columnsOf d p ext i

/-- The value of term `j` in row `r` of a basis matrix: its own columns times their coefficients. -/
def termValue (d p : Nat) (ext : Bool) (B : Mat α) (x : List α) (j r : Nat) : α :=
  ∑ k ∈ range (columnsOf d p ext j),
    (B.getD r []).getD (firstColumn d p ext j + k) 0 * x.getD (firstColumn d p ext j + k) 0

/-- The indices of the terms with values `F j` in the `R` rows of a fit with output `y`: covariance of the term with the
output, variance of the term, covariance of the term with the sum of the other terms, over the variance of the output. -/
def ShareOn (n R : Nat) (y : Nat → α) (F : Nat → Nat → α) (S Sa Sb : Nat → α) : Prop :=
  ∀ j < n, S j = devSum R (F j) y / ((R : α) - 1) / (devSum R y y / (R : α)) ∧
    Sa j = devSum R (F j) (F j) / ((R : α) - 1) / (devSum R y y / (R : α)) ∧
    Sb j = devSum R (F j) (fun r => ∑ l ∈ (range n).erase j, F l r) / ((R : α) - 1) / (devSum R y y / (R : α))

/-- The arguments accepted. -/
structure EhAccepted (pb : EhProblem α) (N d yRow : Nat) (xb : List (List α)) (o p K : Nat) (subset : Option Nat)
    (maxIter : Nat) (lam alpha : α) (ext : Bool) : Prop where
  vars : pb.numVars.getD d = d
  names : ∀ l, pb.names = some l → l.length = d
  bounds : (pb.bounds.getD xb).length = d
  several : d ≠ 1
  rows : 300 ≤ N
  outputs : yRow = N
  order : 1 ≤ o ∧ o ≤ 3
  degree : 1 ≤ p ∧ p ≤ 10
  fits : 1 ≤ K ∧ K ≤ 100
  size : K ≠ 1 → ∀ r, subset = some r → 300 ≤ r ∧ r ≤ N
  level : 1 / 2 ≤ alpha ∧ alpha ≤ 1
  passes : ext = false → 100 ≤ maxIter ∧ maxIter ≤ 999
  penalty : 0 ≤ lam ∧ lam ≤ 10

/-- A solver that returns a solution of every system of which the homogeneous system has only the zero solution. -/
def SolvesRegular (solve : Mat α → List α → Py (List α)) : Prop :=
  ∀ (A : Mat α) (b : List α) (w : Nat), A.length = w → (∀ row ∈ A, row.length = w) → b.length = w →
    (∀ v : Nat → α, (∀ i < w, ∑ j ∈ range w, (A.getD i []).getD j 0 * v j = 0) → ∀ j < w, v j = 0) →
    ∃ x, solve A b = .ok x

/-- The first `T` columns of a matrix with `R` rows are orthonormal, with the average over the rows as inner product. -/
def OrthonormalCols (R T : Nat) (B : Mat α) : Prop :=
  ∀ a < T, ∀ b < T, ∑ r ∈ range R, (B.getD r []).getD a 0 * (B.getD r []).getD b 0 = if a = b then (R : α) else 0

/-- The average over the rows of the product of column `c` with `y`. -/
def project (R : Nat) (B : Mat α) (y : Nat → α) (c : Nat) : α := (∑ r ∈ range R, (B.getD r []).getD c 0 * y r) / (R : α)

/-- The inputs of a sample are independent of each other: the average of a product of functions of one input each is the
product of their averages. -/
def IndependentColumns (d : Nat) (X : Mat α) : Prop :=
  ∀ f : Nat → α → α, (∑ r ∈ range X.length, ∏ i ∈ range d, f i ((X.getD r []).getD i 0)) / (X.length : α) =
    ∏ i ∈ range d, ((∑ r ∈ range X.length, f i ((X.getD r []).getD i 0)) / (X.length : α))

/-- The full grid: all combinations of one value of each list. -/
def gridOf : List (List α) → Mat α
  | [] => [[]]
  | l :: ls => l.flatMap fun v => (gridOf ls).map (v :: ·)

end SALib.Spec
