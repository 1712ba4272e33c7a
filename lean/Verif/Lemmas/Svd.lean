import Mathlib.Analysis.Matrix.Spectrum
import Verif.Spec.DMorph

/-! # Singular value decomposition and pseudo-inverse exist -/

namespace SALib

open Matrix Spec

variable {n : Nat}

theorem inner_dot (x y : EuclideanSpace ℝ (Fin n)) : inner ℝ x y = x.ofLp ⬝ᵥ y.ofLp := by
  rw [EuclideanSpace.inner_eq_star_dotProduct, star_trivial, dotProduct_comm]

theorem exists_eigenbasis (S : Matrix (Fin n) (Fin n) ℝ) (hS : Sᵀ = S) :
    ∃ (v : Fin n → Fin n → ℝ) (lam : Fin n → ℝ), Antitone lam ∧ (∀ i j, v i ⬝ᵥ v j = if i = j then 1 else 0) ∧
      ∀ i, S *ᵥ v i = lam i • v i := by
  have hH : S.IsHermitian := by
    rw [Matrix.IsHermitian, conjTranspose_eq_transpose_of_trivial]
    exact hS
  have hT := isSymmetric_toEuclideanLin_iff.mpr hH
  have hn : Module.finrank ℝ (EuclideanSpace ℝ (Fin n)) = n := finrank_euclideanSpace_fin
  refine ⟨fun i => (hT.eigenvectorBasis hn i).ofLp, hT.eigenvalues hn, hT.eigenvalues_antitone hn, ?_, ?_⟩
  · intro i j
    rw [← inner_dot]
    exact orthonormal_iff_ite.mp (hT.eigenvectorBasis hn).orthonormal i j
  · intro i
    have := congrArg WithLp.ofLp (hT.apply_eigenvectorBasis hn i)
    exact this

theorem extend_orthonormal (w : Fin n → Fin n → ℝ) (s : Set (Fin n))
    (hw : ∀ i ∈ s, ∀ j ∈ s, w i ⬝ᵥ w j = if i = j then 1 else 0) :
    ∃ u : Fin n → Fin n → ℝ, (∀ i j, u i ⬝ᵥ u j = if i = j then 1 else 0) ∧ ∀ i ∈ s, u i = w i := by
  have hn : Module.finrank ℝ (EuclideanSpace ℝ (Fin n)) = Fintype.card (Fin n) := by simp
  have ho : Orthonormal ℝ (s.domRestrict fun i => (WithLp.toLp 2 (w i) : EuclideanSpace ℝ (Fin n))) := by
    rw [orthonormal_iff_ite]
    intro i j
    rw [inner_dot]
    show w i ⬝ᵥ w j = _
    rw [hw i i.2 j j.2]
    exact if_congr Subtype.ext_iff.symm rfl rfl
  obtain ⟨b, hb⟩ := Orthonormal.exists_orthonormalBasis_extension_of_card_eq hn ho
  refine ⟨fun i => (b i).ofLp, ?_, ?_⟩
  · intro i j
    rw [← inner_dot]
    exact orthonormal_iff_ite.mp b.orthonormal i j
  · intro i hi
    show (b i).ofLp = w i
    rw [hb i hi]

theorem exists_svd (A : Matrix (Fin n) (Fin n) ℝ) : ∃ U s Vh, IsSvd A U s Vh := by
  have hS : (Aᵀ * A)ᵀ = Aᵀ * A := by rw [transpose_mul, transpose_transpose]
  obtain ⟨v, lam, h1, h2, h3⟩ := exists_eigenbasis (Aᵀ * A) hS
  have hdot : ∀ i j, (A *ᵥ v i) ⬝ᵥ (A *ᵥ v j) = if i = j then lam i else 0 := by
    intro i j
    rw [dotProduct_mulVec, ← mulVec_transpose, mulVec_mulVec, h3, smul_dotProduct, h2]
    split <;> simp
  have hlam : ∀ i, 0 ≤ lam i := by
    intro i
    have := hdot i i
    rw [if_pos rfl] at this
    rw [← this]
    exact Finset.sum_nonneg fun k _ => mul_self_nonneg _
  obtain ⟨u, hu1, hu2⟩ := extend_orthonormal (fun i => (Real.sqrt (lam i))⁻¹ • A *ᵥ v i) {i | 0 < lam i} (by
    intro i hi j hj
    rw [smul_dotProduct, dotProduct_smul, hdot]
    by_cases h : i = j
    · subst h
      rw [if_pos rfl, if_pos rfl, smul_eq_mul, smul_eq_mul]
      have := Real.mul_self_sqrt (hlam i)
      have h0 : Real.sqrt (lam i) ≠ 0 := (Real.sqrt_pos.mpr hi).ne'
      rw [← mul_assoc, ← mul_inv, this]
      exact inv_mul_cancel₀ (ne_of_gt hi)
    · rw [if_neg h, if_neg h, smul_zero, smul_zero])
  have hAv : ∀ i, A *ᵥ v i = Real.sqrt (lam i) • u i := by
    intro i
    rcases (hlam i).lt_or_eq with h | h
    · rw [hu2 i h, smul_smul, mul_inv_cancel₀ (Real.sqrt_pos.mpr h).ne', one_smul]
    · rw [← h, Real.sqrt_zero, zero_smul]
      have := hdot i i
      rw [if_pos rfl, ← h] at this
      exact dotProduct_self_eq_zero.mp this
  have hVV : (Matrix.of v) * (Matrix.of v)ᵀ = 1 := by
    ext i j
    rw [one_apply]
    exact h2 i j
  refine ⟨(Matrix.of u)ᵀ, fun i => Real.sqrt (lam i), Matrix.of v, ?_, ?_, hVV, fun i => Real.sqrt_nonneg _, ?_⟩
  · have e : A * (Matrix.of v)ᵀ = (Matrix.of u)ᵀ * diagonal fun i => Real.sqrt (lam i) := by
      ext k i
      rw [mul_diagonal, mul_comm]
      exact congrFun (hAv i) k
    calc A = A * ((Matrix.of v)ᵀ * Matrix.of v) := by rw [mul_eq_one_comm.mp hVV, Matrix.mul_one]
      _ = _ := by rw [← Matrix.mul_assoc, e]
  · rw [transpose_transpose]
    ext i j
    rw [one_apply]
    exact hu1 i j
  · intro i j hij
    exact Real.sqrt_le_sqrt (h1 hij)

theorem exists_pinv (A : Matrix (Fin n) (Fin n) ℝ) : ∃ X, IsPinv A X := by
  obtain ⟨U, s, Vh, h⟩ := exists_svd A
  have hl := h.left
  have hr := h.right
  have e1 : A * (Vhᵀ * diagonal (fun i => (s i)⁻¹) * Uᵀ) = U * diagonal (fun i => s i * (s i)⁻¹) * Uᵀ := by
    rw [h.eq, ← diagonal_mul_diagonal]
    calc U * diagonal s * Vh * (Vhᵀ * diagonal (fun i => (s i)⁻¹) * Uᵀ)
        = U * diagonal s * (Vh * Vhᵀ) * diagonal (fun i => (s i)⁻¹) * Uᵀ := by simp only [Matrix.mul_assoc]
      _ = _ := by rw [hr, Matrix.mul_one]; simp only [Matrix.mul_assoc]
  have e2 : (Vhᵀ * diagonal (fun i => (s i)⁻¹) * Uᵀ) * A = Vhᵀ * diagonal (fun i => (s i)⁻¹ * s i) * Vh := by
    rw [h.eq, ← diagonal_mul_diagonal]
    calc Vhᵀ * diagonal (fun i => (s i)⁻¹) * Uᵀ * (U * diagonal s * Vh)
        = Vhᵀ * diagonal (fun i => (s i)⁻¹) * (Uᵀ * U) * diagonal s * Vh := by simp only [Matrix.mul_assoc]
      _ = _ := by rw [hl, Matrix.mul_one]; simp only [Matrix.mul_assoc]
  have hd : ∀ x : ℝ, x * x⁻¹ * x = x := fun x => mul_inv_mul_cancel x
  have hd' : ∀ x : ℝ, x⁻¹ * x * x⁻¹ = x⁻¹ := fun x => by
    have := hd x⁻¹
    rwa [inv_inv] at this
  refine ⟨Vhᵀ * diagonal (fun i => (s i)⁻¹) * Uᵀ, ?_, ?_, ?_, ?_⟩
  · rw [e1]
    conv_lhs => rw [h.eq]
    calc U * diagonal (fun i => s i * (s i)⁻¹) * Uᵀ * (U * diagonal s * Vh)
        = U * diagonal (fun i => s i * (s i)⁻¹) * (Uᵀ * U) * diagonal s * Vh := by simp only [Matrix.mul_assoc]
      _ = U * (diagonal (fun i => s i * (s i)⁻¹) * diagonal s) * Vh := by rw [hl, Matrix.mul_one]; simp only [Matrix.mul_assoc]
      _ = U * diagonal s * Vh := by rw [diagonal_mul_diagonal]; simp only [hd]
      _ = A := h.eq.symm
  · rw [e2]
    calc Vhᵀ * diagonal (fun i => (s i)⁻¹ * s i) * Vh * (Vhᵀ * diagonal (fun i => (s i)⁻¹) * Uᵀ)
        = Vhᵀ * diagonal (fun i => (s i)⁻¹ * s i) * (Vh * Vhᵀ) * diagonal (fun i => (s i)⁻¹) * Uᵀ := by
          simp only [Matrix.mul_assoc]
      _ = Vhᵀ * (diagonal (fun i => (s i)⁻¹ * s i) * diagonal (fun i => (s i)⁻¹)) * Uᵀ := by
          rw [hr, Matrix.mul_one]; simp only [Matrix.mul_assoc]
      _ = _ := by rw [diagonal_mul_diagonal]; simp only [hd']
  · rw [e1, transpose_mul, transpose_mul, transpose_transpose, diagonal_transpose, Matrix.mul_assoc]
  · rw [e2, transpose_mul, transpose_mul, transpose_transpose, diagonal_transpose, Matrix.mul_assoc]

end SALib
