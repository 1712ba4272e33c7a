import Verif.Lemmas.DMorphRank
import Mathlib.Tactic.NormNum

/-! # C95: D-MORPH regression -/

namespace SALib

open Matrix Spec

variable {m n : Nat}

/-- What the external functions are assumed to do on the matrices they are given. -/
structure DMorphExternals (pinvH : Matrix (Fin n) (Fin n) ℝ → Matrix (Fin n) (Fin n) ℝ)
    (pinv : (k : Nat) → Matrix (Fin k) (Fin k) ℝ → Matrix (Fin k) (Fin k) ℝ)
    (matrixRank : Matrix (Fin n) (Fin n) ℝ → Nat)
    (svd : Matrix (Fin n) (Fin n) ℝ → Matrix (Fin n) (Fin n) ℝ × Matrix (Fin n) (Fin n) ℝ)
    (a cost : Matrix (Fin n) (Fin n) ℝ) (nullity : Nat) : Prop where
  gram : IsPinv a (pinvH a)
  rank : matrixRank a = a.rank
  decomp : ∃ s, IsSvd ((1 - pinvH a * a) * cost) (svd ((1 - pinvH a * a) * cost)).1 s (svd ((1 - pinvH a * a) * cost)).2
  inner : IsPinv ((deleteCols nullity (svd ((1 - pinvH a * a) * cost)).1)ᵀ *
      deleteCols nullity (svd ((1 - pinvH a * a) * cost)).2ᵀ)
    (pinv (n - nullity) ((deleteCols nullity (svd ((1 - pinvH a * a) * cost)).1)ᵀ *
      deleteCols nullity (svd ((1 - pinvH a * a) * cost)).2ᵀ))

theorem gram_rank (bm : Matrix (Fin m) (Fin n) ℝ) (c : ℝ) (hc : c ≠ 0) : (c • (bmᵀ * bm)).rank = bm.rank := by
  rw [← rank_transpose_mul_self bm]
  have e : LinearMap.ker (c • (bmᵀ * bm)).mulVecLin = LinearMap.ker (bmᵀ * bm).mulVecLin := by
    ext v
    rw [LinearMap.mem_ker, LinearMap.mem_ker]
    show (c • (bmᵀ * bm)) *ᵥ v = 0 ↔ (bmᵀ * bm) *ᵥ v = 0
    rw [smul_mulVec, smul_eq_zero]
    exact or_iff_right hc
  have h1 := rank_add_ker (c • (bmᵀ * bm))
  have h2 := rank_add_ker (bmᵀ * bm)
  rw [e] at h1
  omega

theorem gram_kernel (bm : Matrix (Fin m) (Fin n) ℝ) (c : ℝ) (hc : c ≠ 0) (z : Fin n → ℝ) :
    (c • (bmᵀ * bm)) *ᵥ z = 0 ↔ bm *ᵥ z = 0 := by
  rw [smul_mulVec, smul_eq_zero, or_iff_right hc, ← mulVec_mulVec]
  constructor
  · intro h
    apply vec_eq_zero
    rw [dotProduct_mulVec, ← mulVec_transpose, h, zero_dotProduct]
  · intro h
    rw [h, mulVec_zero]

/-- **C95.** With at least as many samples as columns, and columns on which no other coefficients than zero both fit the
zero output and cost nothing, the D-MORPH solution is a least-squares solution, it violates the hierarchical
orthogonality less than every other least-squares solution, and it is the only one that does.  The scale `bootstrap`,
passed in place of the sample size, has no influence. -/
theorem C95_dmorph_partial (pinvH : Matrix (Fin n) (Fin n) ℝ → Matrix (Fin n) (Fin n) ℝ)
    (pinv : (k : Nat) → Matrix (Fin k) (Fin k) ℝ → Matrix (Fin k) (Fin k) ℝ)
    (matrixRank : Matrix (Fin n) (Fin n) ℝ → Nat)
    (svd : Matrix (Fin n) (Fin n) ℝ → Matrix (Fin n) (Fin n) ℝ × Matrix (Fin n) (Fin n) ℝ)
    (d p o : Nat) (bm : Matrix (Fin m) (Fin n) ℝ) (Y : Fin m → ℝ) (N bootstrap : ℝ) (hb : 0 < bootstrap)
    (hext : DMorphExternals pinvH pinv matrixRank svd (bootstrap⁻¹ • (bmᵀ * bm)) (costMatrix d p o bm N) (n - bm.rank))
    (hmn : n ≤ m) (hdet : ∀ z : Fin n → ℝ, (∀ r, ∑ i, bm r i * z i = 0) → hierarchyCost d p o bm N z = 0 → z = 0) :
    LeastSquares bm Y (ehExtended pinvH pinv matrixRank svd d p o bm Y N bootstrap) ∧
    ∀ z, LeastSquares bm Y z →
      hierarchyCost d p o bm N (ehExtended pinvH pinv matrixRank svd d p o bm Y N bootstrap) ≤ hierarchyCost d p o bm N z ∧
      (hierarchyCost d p o bm N z ≤
        hierarchyCost d p o bm N (ehExtended pinvH pinv matrixRank svd d p o bm Y N bootstrap) →
        z = ehExtended pinvH pinv matrixRank svd d p o bm Y N bootstrap) := by
  have hb' : bootstrap⁻¹ ≠ 0 := inv_ne_zero hb.ne'
  have hk : min m n - matrixRank (bootstrap⁻¹ • (bmᵀ * bm)) = n - bm.rank := by
    rw [hext.rank, gram_rank bm _ hb', min_eq_right hmn]
  have hsym := costMatrix_symm d p o bm N
  have hpsd := costMatrix_psd d p o bm N
  have hform := costMatrix_form d p o bm N
  have hX := hext.gram
  obtain ⟨s, hsvd⟩ := hext.decomp
  have hpi := hext.inner
  have hnorm := pinv_normal bm Y bootstrap⁻¹ hb' _ hX
  unfold ehExtended dMorph
  simp only []
  rw [hk]
  set B := costMatrix d p o bm N with hB
  set a := bootstrap⁻¹ • (bmᵀ * bm) with ha
  obtain ⟨p1, p2, p3, p4⟩ := proj_facts a (pinvH a) hX
  have hker : ∀ z, a *ᵥ z = 0 ↔ bm *ᵥ z = 0 := gram_kernel bm _ hb'
  have hH : ∀ z, a *ᵥ z = 0 → B *ᵥ z = 0 → z = 0 := by
    intro z h1 h2
    refine hdet z (fun r => congrFun ((hker z).mp h1) r) ?_
    rw [← hform, h2, dotProduct_zero]
  have hr : ((1 - pinvH a * a) * B).rank = n - bm.rank := by
    rw [rank_projected a _ B hX hsym hH, ha, gram_rank bm _ hb']
  obtain ⟨c1, w, c2⟩ := dmorph_core (1 - pinvH a * a) B _ s _ (n - bm.rank) p1 p2 hsym hpsd hsvd
    (fun i => by rw [← hr]; exact svd_rank _ _ s _ hsvd i) _ hpi.left (pinvH a *ᵥ bootstrap⁻¹ • bmᵀ *ᵥ Y)
  set x := pinvH a *ᵥ bootstrap⁻¹ • bmᵀ *ᵥ Y with hx
  generalize (deleteCols (n - bm.rank) (svd ((1 - pinvH a * a) * B)).2ᵀ *
    pinv (n - (n - bm.rank)) ((deleteCols (n - bm.rank) (svd ((1 - pinvH a * a) * B)).1)ᵀ *
      deleteCols (n - bm.rank) (svd ((1 - pinvH a * a) * B)).2ᵀ) *
    (deleteCols (n - bm.rank) (svd ((1 - pinvH a * a) * B)).1)ᵀ) *ᵥ x = sol at *
  have hsx : bm *ᵥ (sol - x) = 0 := by
    rw [← hker, c2, mulVec_mulVec, ← Matrix.mul_assoc, p3, Matrix.zero_mul, zero_mulVec]
  have hnorm' : bmᵀ *ᵥ (Y - bm *ᵥ sol) = 0 := by
    have : bm *ᵥ sol = bm *ᵥ x := by
      rw [mulVec_sub, sub_eq_zero] at hsx
      exact hsx
    rw [this]
    exact hnorm
  obtain ⟨l1, l2⟩ := leastSquares_of_normal bm Y sol hnorm'
  refine ⟨l1, fun z hz => ?_⟩
  have hz0 := l2 z hz
  have hPz := p4 (z - sol) ((hker _).mpr hz0)
  have hcross : sol ⬝ᵥ B *ᵥ (z - sol) = 0 := by
    calc sol ⬝ᵥ B *ᵥ (z - sol) = (B *ᵥ sol) ⬝ᵥ (z - sol) := dot_symm B hsym _ _
      _ = (B *ᵥ sol) ⬝ᵥ (1 - pinvH a * a) *ᵥ (z - sol) := by rw [hPz]
      _ = ((1 - pinvH a * a) *ᵥ (B *ᵥ sol)) ⬝ᵥ (z - sol) := dot_symm _ p1 _ _
      _ = 0 := by rw [mulVec_mulVec, c1, zero_dotProduct]
  have hexp : z ⬝ᵥ B *ᵥ z = sol ⬝ᵥ B *ᵥ sol + (z - sol) ⬝ᵥ B *ᵥ (z - sol) := by
    have e : z = sol + (z - sol) := by abel
    conv_lhs => rw [e]
    rw [mulVec_add, dotProduct_add, add_dotProduct, add_dotProduct, hcross, dot_symm B hsym (z - sol) sol,
      dotProduct_comm (B *ᵥ (z - sol)) sol, hcross]
    ring
  rw [← hform, ← hform, hexp]
  have hq := hpsd (z - sol)
  refine ⟨by linarith, fun hle => ?_⟩
  have h0 : (z - sol) ⬝ᵥ B *ᵥ (z - sol) = 0 := by linarith
  exact sub_eq_zero.mp (hH _ ((hker _).mpr hz0) (psd_kernel B hsym hpsd _ h0))

/-- The matrix without its first zero columns. -/
theorem deleteCols_zero (A : Matrix (Fin n) (Fin n) ℝ) (x : Fin n → ℝ) (V : Matrix (Fin n) (Fin n) ℝ)
    (X : Matrix (Fin (n - 0)) (Fin (n - 0)) ℝ) (hA : Aᵀ * A = 1) (hV : Vᵀ * V = 1)
    (hX : ((deleteCols 0 A)ᵀ * deleteCols 0 V) * X * ((deleteCols 0 A)ᵀ * deleteCols 0 V) =
      (deleteCols 0 A)ᵀ * deleteCols 0 V) :
    (deleteCols 0 V * X * (deleteCols 0 A)ᵀ) *ᵥ x = x := by
  have h0 : ∀ A : Matrix (Fin n) (Fin n) ℝ, deleteCols 0 A = A := by
    intro A
    ext i j
    simp [deleteCols]
  rw [h0, h0] at hX ⊢
  have hVV : V * Vᵀ = 1 := mul_eq_one_comm.mp hV
  have hAA : A * Aᵀ = 1 := mul_eq_one_comm.mp hA
  have hM : (Aᵀ * V) * (Vᵀ * A) = 1 := by
    rw [Matrix.mul_assoc, ← Matrix.mul_assoc V, hVV, Matrix.one_mul, hA]
  have hM' : (Vᵀ * A) * (Aᵀ * V) = 1 := mul_eq_one_comm.mp hM
  have e : X = Vᵀ * A := by
    calc X = ((Vᵀ * A) * (Aᵀ * V)) * X * ((Aᵀ * V) * (Vᵀ * A)) := by rw [hM, hM', Matrix.one_mul, Matrix.mul_one]
      _ = (Vᵀ * A) * ((Aᵀ * V) * X * (Aᵀ * V)) * (Vᵀ * A) := by simp only [Matrix.mul_assoc]
      _ = (Vᵀ * A) * (Aᵀ * V) * (Vᵀ * A) := by rw [hX]
      _ = Vᵀ * A := by rw [hM', Matrix.one_mul]
  rw [e, ← Matrix.mul_assoc, hVV, Matrix.one_mul, hAA, one_mulVec]

/-- **C95 (failing part).** With fewer samples than columns and independent samples no column is deleted, and what is
returned is the least-squares solution of least norm: the cost matrix has no influence. -/
theorem C95_few_samples (pinvH : Matrix (Fin n) (Fin n) ℝ → Matrix (Fin n) (Fin n) ℝ)
    (pinv : (k : Nat) → Matrix (Fin k) (Fin k) ℝ → Matrix (Fin k) (Fin k) ℝ)
    (matrixRank : Matrix (Fin n) (Fin n) ℝ → Nat)
    (svd : Matrix (Fin n) (Fin n) ℝ → Matrix (Fin n) (Fin n) ℝ × Matrix (Fin n) (Fin n) ℝ)
    (bm : Matrix (Fin m) (Fin n) ℝ) (cost : Matrix (Fin n) (Fin n) ℝ) (Y : Fin m → ℝ) (bootstrap : ℝ) (hb : 0 < bootstrap)
    (hmn : m ≤ n) (hrank : bm.rank = m)
    (hext : DMorphExternals pinvH pinv matrixRank svd (bootstrap⁻¹ • (bmᵀ * bm)) cost 0) :
    dMorph pinvH pinv matrixRank svd bm cost Y bootstrap =
      pinvH (bootstrap⁻¹ • (bmᵀ * bm)) *ᵥ (bootstrap⁻¹ • (bmᵀ *ᵥ Y)) := by
  have hb' : bootstrap⁻¹ ≠ 0 := inv_ne_zero hb.ne'
  have hk : min m n - matrixRank (bootstrap⁻¹ • (bmᵀ * bm)) = 0 := by
    rw [hext.rank, gram_rank bm _ hb', min_eq_left hmn, hrank, Nat.sub_self]
  obtain ⟨s, hsvd⟩ := hext.decomp
  have hpi := hext.inner
  unfold dMorph
  simp only []
  rw [hk]
  exact deleteCols_zero _ _ _ _ hsvd.left (by rw [transpose_transpose]; exact hsvd.right) hpi.left

end SALib
