import Mathlib.LinearAlgebra.Matrix.Determinant.Basic
import Mathlib.Analysis.SpecialFunctions.Pow.Real
import Verif.Model.EnhancedHdmr

/-! # Model of `_orth_poly_coeff` (`analyze/enhanced_hdmr.py` 733-777)

`np.linalg.det` is the determinant, `np.sqrt` the square root; the arithmetic is exact.  The square root of a
negative number and the division by zero give `nan` or `inf`, here `none`. -/

namespace SALib

/-- `sum(X[:, i] ** k) / X.shape[0]`: line 762. -/
noncomputable def sampleMoment (xs : List ℝ) (k : Nat) : ℝ := (xs.map fun x => x ^ k).sum / xs.length

/-- The leading `n` by `n` block of `M[:, :, i]`: 757-763 (`k` starts at `j` in row `j`). -/
noncomputable def momentMatrix (xs : List ℝ) (n : Nat) : Matrix (Fin n) (Fin n) ℝ :=
  Matrix.of fun j z => sampleMoment xs (j.val + z.val)

/-- `M[: j + 1, z__k, i]`: all of the first `j + 2` columns but column `k`: 769-774. -/
noncomputable def momentMinor (xs : List ℝ) (j : Nat) (k : Fin (j + 2)) : Matrix (Fin (j + 1)) (Fin (j + 1)) ℝ :=
  Matrix.of fun a b => sampleMoment xs (a.val + (k.succAbove b).val)

open Classical in
/-- `coeff[j, j + 1 - k, i]`: 771-775. -/
noncomputable def orthCoeff (xs : List ℝ) (j : Nat) (k : Fin (j + 2)) : Num ℝ :=
  let detIJ := (momentMatrix xs (j + 1)).det * (momentMatrix xs (j + 2)).det
  if detIJ ≤ 0 then none
  else some ((-1) ^ (j + k.val + 1) * (momentMinor xs j k).det / Real.sqrt detIJ)

/-- `coeff[j, : j + 2, i]`: position `j + 1 - k` holds the coefficient of the power `k`: 767-777. -/
noncomputable def orthCoeffs (xs : List ℝ) (j : Nat) : Num (List ℝ) :=
  ((List.finRange (j + 2)).reverse).mapM fun k => orthCoeff xs j k

end SALib
