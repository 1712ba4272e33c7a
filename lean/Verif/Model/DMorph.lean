import Mathlib.LinearAlgebra.Matrix.Rank
import Mathlib.Data.Real.Basic
import Verif.Model.EnhancedHdmr

/-! # `SALib.analyze.enhanced_hdmr`: the fit with the extended base

`pinv`, `matrix_rank` and `svd` are parameters; the arithmetic is exact. -/

namespace SALib

open Matrix

variable {m n : Nat}

/-- `cost[np.ix_(range(s, s + w), range(s, s + w))] = f`. -/
def setBlock (cost : Matrix (Fin n) (Fin n) ℝ) (s w : Nat) (f : Fin n → Fin n → ℝ) : Matrix (Fin n) (Fin n) ℝ :=
  Matrix.of fun i j => if s ≤ i.val ∧ i.val < s + w ∧ s ≤ j.val ∧ j.val < s + w then f i j else cost i j

/-- Entry of `sr.T @ sr`, where row 0 of `sr` is the mean of the columns and the others are the inner products with the
`low` first columns of the block, divided by `subset`: `enhanced_hdmr.py` 923-930, 935-941. -/
noncomputable def srProduct (bm : Matrix (Fin m) (Fin n) ℝ) (subset : ℝ) (s low : Nat) (i j : Fin n) : ℝ :=
  (∑ r, bm r i) / m * ((∑ r, bm r j) / m) +
    ∑ l : Fin n, if s ≤ l.val ∧ l.val < s + low then
      (∑ r, bm r l * bm r i) / subset * ((∑ r, bm r l * bm r j) / subset) else 0

/-- `_cost_matrix`: 888-944.  The tuples of `_prod` are only counted: there are `nc2` and `nc3` of them. -/
noncomputable def costMatrix (d p o : Nat) (bm : Matrix (Fin m) (Fin n) ℝ) (subset : ℝ) : Matrix (Fin n) (Fin n) ℝ :=
  let nc := ehNc d o
  let nt := ehNt p o true
  let t1 := nt.1 * nc.1
  let t2 := nt.2.1 * nc.2.1
  let c2 := if o > 1 then (List.range nc.2.1).foldl (fun cost ct =>
      setBlock cost (t1 + ct * nt.2.1) nt.2.1 (srProduct bm subset (t1 + ct * nt.2.1) (p * 2))) 0 else 0
  if o = 3 then (List.range nc.2.2).foldl (fun cost ct =>
      setBlock cost (t1 + t2 + ct * nt.2.2) nt.2.2
        (srProduct bm subset (t1 + t2 + ct * nt.2.2) (3 * p + 3 * p ^ 2))) c2 else c2

/-- `np.delete(A, range(0, k), axis=1)`. -/
def deleteCols (k : Nat) (A : Matrix (Fin n) (Fin n) ℝ) : Matrix (Fin n) (Fin (n - k)) ℝ :=
  A.submatrix id fun j => ⟨k + j.val, by omega⟩

/-- `_d_morph`: 947-1001.  `pinvH` is `pinv(·, hermitian=True)`; `svd` returns `U` and `Vh`.  The failure of the pseudo
inverse is not modelled.  `subset` is the fourth argument, for which `_fanova` (855-857) passes `bootstrap`. -/
noncomputable def dMorph (pinvH : Matrix (Fin n) (Fin n) ℝ → Matrix (Fin n) (Fin n) ℝ)
    (pinv : (k : Nat) → Matrix (Fin k) (Fin k) ℝ → Matrix (Fin k) (Fin k) ℝ)
    (matrixRank : Matrix (Fin n) (Fin n) ℝ → Nat)
    (svd : Matrix (Fin n) (Fin n) ℝ → Matrix (Fin n) (Fin n) ℝ × Matrix (Fin n) (Fin n) ℝ)
    (bm : Matrix (Fin m) (Fin n) ℝ) (cost : Matrix (Fin n) (Fin n) ℝ) (Y : Fin m → ℝ) (subset : ℝ) : Fin n → ℝ :=
  let a := subset⁻¹ • (bmᵀ * bm)
  let b := subset⁻¹ • (bmᵀ *ᵥ Y)
  let x := pinvH a *ᵥ b
  let pb := (1 - pinvH a * a) * cost
  let nullity := min m n - matrixRank a
  let U := deleteCols nullity (svd pb).1
  let V := deleteCols nullity (svd pb).2ᵀ
  (V * pinv (n - nullity) (Uᵀ * V) * Uᵀ) *ᵥ x

/-- The branch `ext_base` of `_fanova`: 852-857. -/
noncomputable def ehExtended (pinvH : Matrix (Fin n) (Fin n) ℝ → Matrix (Fin n) (Fin n) ℝ)
    (pinv : (k : Nat) → Matrix (Fin k) (Fin k) ℝ → Matrix (Fin k) (Fin k) ℝ)
    (matrixRank : Matrix (Fin n) (Fin n) ℝ → Nat)
    (svd : Matrix (Fin n) (Fin n) ℝ → Matrix (Fin n) (Fin n) ℝ × Matrix (Fin n) (Fin n) ℝ)
    (d p o : Nat) (bm : Matrix (Fin m) (Fin n) ℝ) (Y : Fin m → ℝ) (subset bootstrap : ℝ) : Fin n → ℝ :=
  dMorph pinvH pinv matrixRank svd bm (costMatrix d p o bm subset) Y bootstrap

end SALib
