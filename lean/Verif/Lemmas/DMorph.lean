import Verif.Model.DMorph
import Verif.Spec.DMorph
import Mathlib.LinearAlgebra.Matrix.ToLin
import Mathlib.LinearAlgebra.Matrix.NonsingularInverse
import Mathlib.LinearAlgebra.Matrix.DotProduct
import Mathlib.LinearAlgebra.Matrix.Diagonal
import Mathlib.LinearAlgebra.FiniteDimensional.Lemmas
import Mathlib.Tactic.Linarith

/-! # Linear algebra of D-MORPH regression -/

namespace SALib

open Matrix Spec

variable {m n : Nat}

theorem dot_self_nonneg (v : Fin n → ℝ) : 0 ≤ v ⬝ᵥ v := Finset.sum_nonneg fun i _ => mul_self_nonneg (v i)

theorem mul_transpose_eq_zero (E : Matrix (Fin n) (Fin m) ℝ) (h : E * Eᵀ = 0) : E = 0 := by
  ext i j
  have h1 : ∑ l, E i l * E i l = 0 := congrFun (congrFun h i) i
  have h2 := (Finset.sum_eq_zero_iff_of_nonneg fun l _ => mul_self_nonneg (E i l)).mp h1 j (Finset.mem_univ j)
  exact mul_self_eq_zero.mp h2

theorem vec_eq_zero (v : Fin n → ℝ) (h : v ⬝ᵥ v = 0) : v = 0 := dotProduct_self_eq_zero.mp h

theorem dot_symm (B : Matrix (Fin n) (Fin n) ℝ) (hB : Bᵀ = B) (u v : Fin n → ℝ) : u ⬝ᵥ B *ᵥ v = (B *ᵥ u) ⬝ᵥ v := by
  rw [dotProduct_mulVec, ← mulVec_transpose, hB]

/-- A vector on which a positive semidefinite form vanishes is in the kernel. -/
theorem psd_kernel (B : Matrix (Fin n) (Fin n) ℝ) (hB : Bᵀ = B) (hp : ∀ x, 0 ≤ x ⬝ᵥ B *ᵥ x) (v : Fin n → ℝ)
    (h : v ⬝ᵥ B *ᵥ v = 0) : B *ᵥ v = 0 := by
  apply vec_eq_zero
  by_contra hne
  have hpos : 0 < (B *ᵥ v) ⬝ᵥ (B *ᵥ v) := lt_of_le_of_ne (dot_self_nonneg _) (Ne.symm hne)
  set w := B *ᵥ v with hw
  have key : ∀ t : ℝ, 0 ≤ 2 * t * (w ⬝ᵥ w) + t ^ 2 * (w ⬝ᵥ B *ᵥ w) := by
    intro t
    have := hp (v + t • w)
    rw [mulVec_add, mulVec_smul, dotProduct_add, add_dotProduct, add_dotProduct, h, dotProduct_smul, dotProduct_smul,
      smul_dotProduct, smul_dotProduct, dot_symm B hB v w, ← hw] at this
    simp only [smul_eq_mul] at this
    linarith
  have hq : 0 ≤ w ⬝ᵥ B *ᵥ w := hp w
  set q := w ⬝ᵥ B *ᵥ w
  set c := w ⬝ᵥ w
  have := key (-(c / (q + 1)))
  have hq1 : 0 < q + 1 := by linarith
  have e : 2 * -(c / (q + 1)) * c + (-(c / (q + 1))) ^ 2 * q = (c ^ 2 / (q + 1) ^ 2) * (q - 2 * (q + 1)) := by
    field_simp
    ring
  rw [e] at this
  have hneg : (c ^ 2 / (q + 1) ^ 2) * (q - 2 * (q + 1)) < 0 := by
    apply mul_neg_of_pos_of_neg
    · positivity
    · linarith
  linarith

/-- With `P` an orthogonal projection and `B` positive semidefinite, the kernel and the range of `P B` meet in zero. -/
theorem range_kernel (P B : Matrix (Fin n) (Fin n) ℝ) (hP : Pᵀ = P) (hPP : P * P = P) (hB : Bᵀ = B)
    (hp : ∀ x, 0 ≤ x ⬝ᵥ B *ᵥ x) (v w : Fin n → ℝ) (hv : v = (P * B) *ᵥ w) (hk : (P * B) *ᵥ v = 0) : v = 0 := by
  have hPv : P *ᵥ v = v := by
    rw [hv, mulVec_mulVec, ← Matrix.mul_assoc, hPP]
  have h1 : v ⬝ᵥ B *ᵥ v = 0 := by
    calc v ⬝ᵥ B *ᵥ v = (P *ᵥ v) ⬝ᵥ B *ᵥ v := by rw [hPv]
      _ = v ⬝ᵥ P *ᵥ (B *ᵥ v) := (dot_symm P hP v (B *ᵥ v)).symm
      _ = 0 := by rw [mulVec_mulVec, hk, dotProduct_zero]
  have h2 := psd_kernel B hB hp v h1
  apply vec_eq_zero
  calc v ⬝ᵥ v = v ⬝ᵥ P *ᵥ (B *ᵥ w) := by rw [mulVec_mulVec, ← hv]
    _ = (P *ᵥ v) ⬝ᵥ B *ᵥ w := dot_symm P hP _ _
    _ = v ⬝ᵥ B *ᵥ w := by rw [hPv]
    _ = (B *ᵥ v) ⬝ᵥ w := dot_symm B hB _ _
    _ = 0 := by rw [h2, zero_dotProduct]

theorem deleteCols_mulVec_transpose (k : Nat) (U : Matrix (Fin n) (Fin n) ℝ) (v : Fin n → ℝ) (j : Fin (n - k)) :
    ((deleteCols k U)ᵀ *ᵥ v) j = (Uᵀ *ᵥ v) ⟨k + j.val, by omega⟩ := rfl

/-- The kept left vectors are orthogonal exactly to the range. -/
theorem svd_range (A U : Matrix (Fin n) (Fin n) ℝ) (s : Fin n → ℝ) (Vh : Matrix (Fin n) (Fin n) ℝ) (k : Nat)
    (h : IsSvd A U s Vh) (hs : ∀ i : Fin n, i.val < k → s i ≠ 0) (v : Fin n → ℝ)
    (hv : (deleteCols k U)ᵀ *ᵥ v = 0) : ∃ w, v = A *ᵥ w := by
  have hU : U * Uᵀ = 1 := mul_eq_one_comm.mp h.left
  refine ⟨Vhᵀ *ᵥ (fun i => (s i)⁻¹ * (Uᵀ *ᵥ v) i), ?_⟩
  rw [h.eq, mulVec_mulVec, Matrix.mul_assoc, h.right, Matrix.mul_one, ← mulVec_mulVec]
  have e : (diagonal s *ᵥ fun i => (s i)⁻¹ * (Uᵀ *ᵥ v) i) = Uᵀ *ᵥ v := by
    funext i
    rw [mulVec_diagonal]
    by_cases hi : i.val < k
    · rw [← mul_assoc, mul_inv_cancel₀ (hs i hi), one_mul]
    · have h0 : (Uᵀ *ᵥ v) i = 0 := by
        have := congrFun hv ⟨i.val - k, by omega⟩
        rw [deleteCols_mulVec_transpose] at this
        have e2 : (⟨k + (i.val - k), by omega⟩ : Fin n) = i := Fin.ext (by simp; omega)
        simpa [e2] using this
      rw [h0]; simp
  rw [e, mulVec_mulVec, hU, one_mulVec]

/-- The kept right vectors are in the kernel. -/
theorem svd_kernel (A U : Matrix (Fin n) (Fin n) ℝ) (s : Fin n → ℝ) (Vh : Matrix (Fin n) (Fin n) ℝ) (k : Nat)
    (h : IsSvd A U s Vh) (hs : ∀ i : Fin n, k ≤ i.val → s i = 0) : A * deleteCols k Vhᵀ = 0 := by
  have e : A * Vhᵀ = U * diagonal s := by rw [h.eq, Matrix.mul_assoc, h.right, Matrix.mul_one]
  ext i j
  have : (A * deleteCols k Vhᵀ) i j = (A * Vhᵀ) i ⟨k + j.val, by omega⟩ := rfl
  rw [this, e, mul_diagonal, hs _ (by simp), mul_zero]
  rfl

theorem deleteCols_orthonormal (k : Nat) (V : Matrix (Fin n) (Fin n) ℝ) (h : Vᵀ * V = 1) :
    (deleteCols k V)ᵀ * deleteCols k V = 1 := by
  ext i j
  have : ((deleteCols k V)ᵀ * deleteCols k V) i j = (Vᵀ * V) ⟨k + i.val, by omega⟩ ⟨k + j.val, by omega⟩ := rfl
  rw [this, h, one_apply, one_apply]
  simp [Fin.ext_iff]

/-- A generalised inverse of an injective square matrix is its inverse. -/
theorem pinv_of_injective {k : Nat} (M X : Matrix (Fin k) (Fin k) ℝ) (h : M * X * M = M)
    (hinj : ∀ c, M *ᵥ c = 0 → c = 0) : M * X = 1 := by
  have hu : IsUnit M := by
    rw [← mulVec_injective_iff_isUnit]
    intro c c' hc
    have := hinj (c - c') (by rw [mulVec_sub]; exact sub_eq_zero.mpr hc)
    exact sub_eq_zero.mp this
  obtain ⟨u, rfl⟩ := hu
  have := congrArg (fun Z => Z * (↑u⁻¹ : Matrix (Fin k) (Fin k) ℝ)) h
  simpa [Matrix.mul_assoc] using this

/-- The heart of the method. -/
theorem dmorph_core (P B U : Matrix (Fin n) (Fin n) ℝ) (s : Fin n → ℝ) (Vh : Matrix (Fin n) (Fin n) ℝ) (k : Nat)
    (hP : Pᵀ = P) (hPP : P * P = P) (hB : Bᵀ = B) (hp : ∀ x, 0 ≤ x ⬝ᵥ B *ᵥ x) (hsvd : IsSvd (P * B) U s Vh)
    (hs : ∀ i : Fin n, s i ≠ 0 ↔ i.val < k) (X : Matrix (Fin (n - k)) (Fin (n - k)) ℝ)
    (hX : ((deleteCols k U)ᵀ * deleteCols k Vhᵀ) * X * ((deleteCols k U)ᵀ * deleteCols k Vhᵀ) =
      (deleteCols k U)ᵀ * deleteCols k Vhᵀ) (x : Fin n → ℝ) :
    (P * B) *ᵥ ((deleteCols k Vhᵀ * X * (deleteCols k U)ᵀ) *ᵥ x) = 0 ∧
    ∃ w, (deleteCols k Vhᵀ * X * (deleteCols k U)ᵀ) *ᵥ x - x = (P * B) *ᵥ w := by
  have hker := svd_kernel (P * B) U s Vh k hsvd fun i hi => by
    by_contra hne
    exact absurd ((hs i).mp hne) (by omega)
  have hMX := pinv_of_injective _ X hX (by
    intro c hc
    rw [← mulVec_mulVec] at hc
    obtain ⟨w, hw⟩ := svd_range (P * B) U s Vh k hsvd (fun i hi => (hs i).mpr hi) _ hc
    have h0 := range_kernel P B hP hPP hB hp _ w hw (by rw [mulVec_mulVec, hker, zero_mulVec])
    have ho := deleteCols_orthonormal k Vhᵀ (by rw [transpose_transpose]; exact hsvd.right)
    calc c = ((deleteCols k Vhᵀ)ᵀ * deleteCols k Vhᵀ) *ᵥ c := by rw [ho, one_mulVec]
      _ = 0 := by rw [← mulVec_mulVec, h0, mulVec_zero])
  refine ⟨?_, ?_⟩
  · rw [mulVec_mulVec, ← Matrix.mul_assoc, ← Matrix.mul_assoc, hker]
    simp
  · apply svd_range (P * B) U s Vh k hsvd (fun i hi => (hs i).mpr hi)
    rw [mulVec_sub, mulVec_mulVec, ← Matrix.mul_assoc, ← Matrix.mul_assoc, hMX, Matrix.one_mul, sub_self]

/-! ### Least squares -/

theorem resid_expand (A : Matrix (Fin m) (Fin n) ℝ) (y : Fin m → ℝ) (x z : Fin n → ℝ) (h : Aᵀ *ᵥ (y - A *ᵥ x) = 0) :
    (y - A *ᵥ z) ⬝ᵥ (y - A *ᵥ z) = (y - A *ᵥ x) ⬝ᵥ (y - A *ᵥ x) + (A *ᵥ (z - x)) ⬝ᵥ (A *ᵥ (z - x)) := by
  have e : y - A *ᵥ z = (y - A *ᵥ x) - A *ᵥ (z - x) := by rw [mulVec_sub]; abel
  have h0 : (y - A *ᵥ x) ⬝ᵥ A *ᵥ (z - x) = 0 := by
    rw [dotProduct_mulVec, ← mulVec_transpose, h, zero_dotProduct]
  rw [e]
  generalize y - A *ᵥ x = u at *
  generalize A *ᵥ (z - x) = d at *
  rw [sub_dotProduct, dotProduct_sub, dotProduct_sub, h0, dotProduct_comm d u, h0]
  ring

theorem sumSq_eq (A : Matrix (Fin m) (Fin n) ℝ) (y : Fin m → ℝ) (x : Fin n → ℝ) :
    ∑ r, (y r - ∑ i, A r i * x i) ^ 2 = (y - A *ᵥ x) ⬝ᵥ (y - A *ᵥ x) := by
  simp [dotProduct, mulVec, pow_two]

theorem leastSquares_of_normal (A : Matrix (Fin m) (Fin n) ℝ) (y : Fin m → ℝ) (x : Fin n → ℝ)
    (h : Aᵀ *ᵥ (y - A *ᵥ x) = 0) :
    LeastSquares A y x ∧ ∀ z, LeastSquares A y z → A *ᵥ (z - x) = 0 := by
  refine ⟨fun z => ?_, fun z hz => ?_⟩
  · rw [sumSq_eq, sumSq_eq, resid_expand A y x z h]
    have := dot_self_nonneg (A *ᵥ (z - x))
    linarith
  · have h1 := hz x
    rw [sumSq_eq, sumSq_eq, resid_expand A y x z h] at h1
    have h2 := dot_self_nonneg (A *ᵥ (z - x))
    exact vec_eq_zero _ (by linarith)

/-- The solution from the pseudo inverse solves the normal equations. -/
theorem pinv_normal (A : Matrix (Fin m) (Fin n) ℝ) (y : Fin m → ℝ) (c : ℝ) (hc : c ≠ 0) (X : Matrix (Fin n) (Fin n) ℝ)
    (hX : IsPinv (c • (Aᵀ * A)) X) : Aᵀ *ᵥ (y - A *ᵥ (X *ᵥ (c • (Aᵀ *ᵥ y)))) = 0 := by
  set a := c • (Aᵀ * A) with ha
  have hE : (1 - a * X) * Aᵀ = 0 := by
    have h1 : ((1 - a * X) * Aᵀ) * ((1 - a * X) * Aᵀ)ᵀ = 0 := by
      have : ((1 - a * X) * Aᵀ) * ((1 - a * X) * Aᵀ)ᵀ = c⁻¹ • ((1 - a * X) * a * (1 - a * X)ᵀ) := by
        rw [transpose_mul, transpose_transpose, ha]
        simp only [Matrix.mul_assoc, Matrix.mul_smul, Matrix.smul_mul, smul_smul, inv_mul_cancel₀ hc, one_smul]
      rw [this, Matrix.sub_mul, Matrix.one_mul, hX.left, sub_self, Matrix.zero_mul, smul_zero]
    exact mul_transpose_eq_zero _ h1
  have e : Aᵀ = a * X * Aᵀ := by
    rw [Matrix.sub_mul, Matrix.one_mul, sub_eq_zero] at hE
    exact hE
  rw [mulVec_sub, sub_eq_zero, mulVec_mulVec, mulVec_smul, mulVec_smul, mulVec_mulVec]
  conv_lhs => rw [e]
  rw [ha]
  simp only [Matrix.smul_mul, smul_mulVec, Matrix.mul_assoc, mulVec_mulVec]

end SALib
