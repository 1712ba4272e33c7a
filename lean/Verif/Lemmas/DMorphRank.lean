import Verif.Lemmas.DMorph
import Mathlib.Algebra.BigOperators.Field

/-! # Ranks, and the quadratic form of the cost matrix -/

namespace SALib

open Matrix Spec

variable {m n : Nat}

/-- The orthogonal projection on the kernel. -/
theorem proj_facts (a X : Matrix (Fin n) (Fin n) ℝ) (h : IsPinv a X) :
    (1 - X * a)ᵀ = 1 - X * a ∧ (1 - X * a) * (1 - X * a) = 1 - X * a ∧ a * (1 - X * a) = 0 ∧
    ∀ v, a *ᵥ v = 0 → (1 - X * a) *ᵥ v = v := by
  refine ⟨?_, ?_, ?_, fun v hv => ?_⟩
  · rw [transpose_sub, transpose_one, h.symm_right]
  · have e : X * a * (X * a) = X * a := by rw [← Matrix.mul_assoc, h.right]
    rw [Matrix.sub_mul, Matrix.one_mul, Matrix.mul_sub, Matrix.mul_one, e, sub_self, sub_zero]
  · rw [Matrix.mul_sub, Matrix.mul_one, ← Matrix.mul_assoc, h.left, sub_self]
  · rw [sub_mulVec, one_mulVec, ← mulVec_mulVec, hv, mulVec_zero, sub_zero]

theorem rank_add_ker (A : Matrix (Fin n) (Fin n) ℝ) : A.rank + Module.finrank ℝ (LinearMap.ker A.mulVecLin) = n := by
  have := A.mulVecLin.finrank_range_add_finrank_ker
  rw [Module.finrank_fintype_fun_eq_card, Fintype.card_fin] at this
  exact this

theorem rank_proj (a X : Matrix (Fin n) (Fin n) ℝ) (h : IsPinv a X) : (1 - X * a).rank = n - a.rank := by
  obtain ⟨_, _, h3, h4⟩ := proj_facts a X h
  have e : LinearMap.range (1 - X * a).mulVecLin = LinearMap.ker a.mulVecLin := by
    ext v
    rw [LinearMap.mem_range, LinearMap.mem_ker]
    constructor
    · rintro ⟨w, rfl⟩
      show a *ᵥ ((1 - X * a) *ᵥ w) = 0
      rw [mulVec_mulVec, h3, zero_mulVec]
    · intro hv
      exact ⟨v, h4 v hv⟩
  have h1 := rank_add_ker a
  have h2 : (1 - X * a).rank = Module.finrank ℝ (LinearMap.range (1 - X * a).mulVecLin) := rfl
  rw [h2, e]
  omega

/-- The rank of the projected cost matrix. -/
theorem rank_projected (a X B : Matrix (Fin n) (Fin n) ℝ) (h : IsPinv a X) (hB : Bᵀ = B)
    (hH : ∀ z, a *ᵥ z = 0 → B *ᵥ z = 0 → z = 0) : ((1 - X * a) * B).rank = n - a.rank := by
  obtain ⟨h1, _, h3, _⟩ := proj_facts a X h
  rw [← rank_transpose, transpose_mul, h1, hB, ← rank_proj a X h]
  have e : LinearMap.ker (B * (1 - X * a)).mulVecLin = LinearMap.ker (1 - X * a).mulVecLin := by
    ext v
    rw [LinearMap.mem_ker, LinearMap.mem_ker]
    show (B * (1 - X * a)) *ᵥ v = 0 ↔ (1 - X * a) *ᵥ v = 0
    rw [← mulVec_mulVec]
    constructor
    · intro hv
      exact hH _ (by rw [mulVec_mulVec, h3, zero_mulVec]) hv
    · intro hv
      rw [hv, mulVec_zero]
  have k1 := rank_add_ker (B * (1 - X * a))
  have k2 := rank_add_ker (1 - X * a)
  rw [e] at k1
  omega

/-- In decreasing order the nonzero singular values come first, as many as the rank. -/
theorem svd_rank (A U : Matrix (Fin n) (Fin n) ℝ) (s : Fin n → ℝ) (Vh : Matrix (Fin n) (Fin n) ℝ) (h : IsSvd A U s Vh)
    (i : Fin n) : s i ≠ 0 ↔ i.val < A.rank := by
  classical
  have hU : IsUnit U.det := by
    have := congrArg Matrix.det h.left
    rw [det_mul, det_one] at this
    exact IsUnit.of_mul_eq_one_right _ this
  have hV : IsUnit Vh.det := by
    have := congrArg Matrix.det h.right
    rw [det_mul, det_one] at this
    exact IsUnit.of_mul_eq_one _ this
  have hr : A.rank = (Finset.univ.filter fun i => s i ≠ 0).card := by
    rw [h.eq, rank_mul_eq_left_of_isUnit_det _ _ hV, rank_mul_eq_right_of_isUnit_det _ _ hU, rank_diagonal,
      Fintype.card_subtype]
  rw [hr]
  have hpos : ∀ j, s j ≠ 0 ↔ 0 < s j := fun j => ⟨fun hj => lt_of_le_of_ne (h.nonneg j) (Ne.symm hj), ne_of_gt⟩
  constructor
  · intro hi
    have hsub : Finset.Iic i ⊆ Finset.univ.filter fun i => s i ≠ 0 := by
      intro j hj
      rw [Finset.mem_filter]
      refine ⟨Finset.mem_univ _, (hpos j).mpr (lt_of_lt_of_le ((hpos i).mp hi) (h.anti (Finset.mem_Iic.mp hj)))⟩
    have := Finset.card_le_card hsub
    rw [Fin.card_Iic] at this
    omega
  · intro hi h0
    have hsub : (Finset.univ.filter fun i => s i ≠ 0) ⊆ Finset.Iio i := by
      intro j hj
      rw [Finset.mem_filter] at hj
      rw [Finset.mem_Iio]
      by_contra hle
      have := h.anti (not_lt.mp hle)
      rw [h0] at this
      exact absurd ((hpos j).mp hj.2) (not_lt.mpr this)
    have := Finset.card_le_card hsub
    rw [Fin.card_Iio] at this
    omega

/-! ### The cost matrix -/

/-- Blocks written one after the other add up. -/
theorem blocks_sum (s w : Nat) (f : Nat → Fin n → Fin n → ℝ) (c0 : Matrix (Fin n) (Fin n) ℝ)
    (h0 : ∀ i j : Fin n, s ≤ i.val ∨ s ≤ j.val → c0 i j = 0) (M : Nat) (i j : Fin n) :
    (List.range M).foldl (fun cost ct => setBlock cost (s + ct * w) w (f ct)) c0 i j =
      c0 i j + ∑ ct ∈ Finset.range M, if (s + ct * w ≤ i.val ∧ i.val < s + ct * w + w) ∧
        (s + ct * w ≤ j.val ∧ j.val < s + ct * w + w) then f ct i j else 0 := by
  induction M with
  | zero => simp
  | succ M ih =>
    rw [List.range_succ, List.foldl_append, List.foldl_cons, List.foldl_nil, Finset.sum_range_succ]
    unfold setBlock
    rw [of_apply]
    by_cases hin : s + M * w ≤ i.val ∧ i.val < s + M * w + w ∧ s + M * w ≤ j.val ∧ j.val < s + M * w + w
    · rw [if_pos hin, if_pos ⟨⟨hin.1, hin.2.1⟩, hin.2.2⟩, h0 i j (Or.inl (by have := hin.1; omega)),
        Finset.sum_eq_zero, zero_add, zero_add]
      intro ct hct
      rw [if_neg]
      rintro ⟨⟨_, h2⟩, _⟩
      have h3 : (ct + 1) * w ≤ M * w := Nat.mul_le_mul_right w (Finset.mem_range.mp hct)
      rw [Nat.add_mul, Nat.one_mul] at h3
      have := hin.1
      omega
    · rw [if_neg hin, if_neg (fun h => hin ⟨h.1.1, h.1.2, h.2⟩), add_zero]
      exact ih

theorem blocks_zero (s w : Nat) (f : Nat → Fin n → Fin n → ℝ) (c0 : Matrix (Fin n) (Fin n) ℝ)
    (h0 : ∀ i j : Fin n, s ≤ i.val ∨ s ≤ j.val → c0 i j = 0) (M : Nat) (i j : Fin n)
    (h : s + w * M ≤ i.val ∨ s + w * M ≤ j.val) :
    (List.range M).foldl (fun cost ct => setBlock cost (s + ct * w) w (f ct)) c0 i j = 0 := by
  rw [blocks_sum s w f c0 h0, h0 i j (by omega), zero_add]
  refine Finset.sum_eq_zero fun ct hct => ?_
  rw [if_neg]
  rintro ⟨⟨_, h2⟩, _, h4⟩
  have h3 : (ct + 1) * w ≤ M * w := Nat.mul_le_mul_right w (Finset.mem_range.mp hct)
  rw [Nat.add_mul, Nat.one_mul] at h3
  rw [Nat.mul_comm w M] at h
  omega

/-- The form of one block. -/
theorem block_form (A : Matrix (Fin m) (Fin n) ℝ) (N : ℝ) (x : Fin n → ℝ) (s w low : Nat) :
    ∑ i, ∑ j, x i * (if (s ≤ i.val ∧ i.val < s + w) ∧ (s ≤ j.val ∧ j.val < s + w) then srProduct A N s low i j else 0) * x j
      = violation A N x s w low := by
  set u : Fin n → ℝ := fun i => if s ≤ i.val ∧ i.val < s + w then x i else 0 with hu
  have hc : ∀ r, component A x s w r = ∑ i, A r i * u i := by
    intro r
    unfold component
    refine Finset.sum_congr rfl fun i _ => ?_
    rw [hu]
    by_cases h : s ≤ i.val ∧ i.val < s + w
    · simp [h]
    · simp [h]
  have e1 : (∑ r, component A x s w r) / m = ∑ i, u i * ((∑ r, A r i) / m) := by
    simp only [hc]
    rw [Finset.sum_comm, Finset.sum_div]
    refine Finset.sum_congr rfl fun i _ => ?_
    rw [← Finset.sum_mul]
    ring
  have e2 : ∀ l, (∑ r, A r l * component A x s w r) / N = ∑ i, u i * ((∑ r, A r l * A r i) / N) := by
    intro l
    simp only [hc, Finset.mul_sum]
    rw [Finset.sum_comm, Finset.sum_div]
    refine Finset.sum_congr rfl fun i _ => ?_
    rw [mul_div_assoc', Finset.mul_sum]
    congr 1
    exact Finset.sum_congr rfl fun r _ => by ring
  have e3 : ∀ g : Fin n → ℝ, (∑ i, u i * g i) ^ 2 = ∑ i, ∑ j, u i * (g i * g j) * u j := by
    intro g
    rw [pow_two, Finset.sum_mul_sum]
    exact Finset.sum_congr rfl fun i _ => Finset.sum_congr rfl fun j _ => by ring
  unfold violation
  rw [e1, e3]
  have e4 : ∀ l : Fin n, (if s ≤ l.val ∧ l.val < s + low then ((∑ r, A r l * component A x s w r) / N) ^ 2 else 0) =
      ∑ i, ∑ j, u i * (if s ≤ l.val ∧ l.val < s + low then
        (∑ r, A r l * A r i) / N * ((∑ r, A r l * A r j) / N) else 0) * u j := by
    intro l
    rw [e2, e3]
    by_cases h : s ≤ l.val ∧ l.val < s + low
    · simp [h]
    · simp [h]
  simp only [e4]
  rw [Finset.sum_comm (s := Finset.univ) (t := Finset.univ) (f := fun l i => ∑ j, u i * (if s ≤ l.val ∧ l.val < s + low then
        (∑ r, A r l * A r i) / N * ((∑ r, A r l * A r j) / N) else 0) * u j), ← Finset.sum_add_distrib]
  refine Finset.sum_congr rfl fun i _ => ?_
  rw [Finset.sum_comm, ← Finset.sum_add_distrib]
  refine Finset.sum_congr rfl fun j _ => ?_
  rw [← Finset.sum_mul, ← Finset.mul_sum, ← add_mul, ← mul_add]
  unfold srProduct
  rw [hu]
  by_cases hi : s ≤ i.val ∧ i.val < s + w
  · by_cases hj : s ≤ j.val ∧ j.val < s + w
    · simp [hi, hj]
    · simp [hj]
  · simp [hi]

theorem srProduct_symm (A : Matrix (Fin m) (Fin n) ℝ) (N : ℝ) (s low : Nat) (i j : Fin n) :
    srProduct A N s low i j = srProduct A N s low j i := by
  unfold srProduct
  rw [mul_comm]
  congr 1
  refine Finset.sum_congr rfl fun l _ => ?_
  split
  · ring
  · rfl

/-- The entries of the cost matrix. -/
theorem costMatrix_apply (d p o : Nat) (A : Matrix (Fin m) (Fin n) ℝ) (N : ℝ) (i j : Fin n) :
    costMatrix d p o A N i j =
      (if 2 ≤ o then ∑ ct ∈ Finset.range (d.choose 2),
        (if (p * d + ct * (p ^ 2 + 2 * p) ≤ i.val ∧ i.val < p * d + ct * (p ^ 2 + 2 * p) + (p ^ 2 + 2 * p)) ∧
          (p * d + ct * (p ^ 2 + 2 * p) ≤ j.val ∧ j.val < p * d + ct * (p ^ 2 + 2 * p) + (p ^ 2 + 2 * p))
        then srProduct A N (p * d + ct * (p ^ 2 + 2 * p)) (2 * p) i j else 0) else 0) +
      (if o = 3 then ∑ ct ∈ Finset.range (d.choose 3),
        (if (p * d + (p ^ 2 + 2 * p) * d.choose 2 + ct * (p ^ 3 + (3 * p + 3 * p ^ 2)) ≤ i.val ∧
            i.val < p * d + (p ^ 2 + 2 * p) * d.choose 2 + ct * (p ^ 3 + (3 * p + 3 * p ^ 2)) +
              (p ^ 3 + (3 * p + 3 * p ^ 2))) ∧
          (p * d + (p ^ 2 + 2 * p) * d.choose 2 + ct * (p ^ 3 + (3 * p + 3 * p ^ 2)) ≤ j.val ∧
            j.val < p * d + (p ^ 2 + 2 * p) * d.choose 2 + ct * (p ^ 3 + (3 * p + 3 * p ^ 2)) +
              (p ^ 3 + (3 * p + 3 * p ^ 2)))
        then srProduct A N (p * d + (p ^ 2 + 2 * p) * d.choose 2 + ct * (p ^ 3 + (3 * p + 3 * p ^ 2)))
          (3 * p + 3 * p ^ 2) i j else 0) else 0) := by
  have hz : ∀ s, ∀ i j : Fin n, s ≤ i.val ∨ s ≤ j.val → (0 : Matrix (Fin n) (Fin n) ℝ) i j = 0 := fun _ _ _ _ => rfl
  by_cases h2 : 2 ≤ o
  · by_cases h3 : o = 3
    · subst h3
      simp only [costMatrix, ehNc, ehNt, if_true, gt_iff_lt, show (1 : Nat) < 3 by norm_num, show 2 ≤ 3 by norm_num]
      rw [blocks_sum (p * d + (p ^ 2 + 2 * p) * d.choose 2) (p ^ 3 + (3 * p + 3 * p ^ 2))
        (fun ct => srProduct A N (p * d + (p ^ 2 + 2 * p) * d.choose 2 + ct * (p ^ 3 + (3 * p + 3 * p ^ 2)))
          (3 * p + 3 * p ^ 2)) _ (fun i j h => blocks_zero (p * d) (p ^ 2 + 2 * p)
            (fun ct => srProduct A N (p * d + ct * (p ^ 2 + 2 * p)) (p * 2)) 0 (hz _) _ i j h),
        blocks_sum (p * d) (p ^ 2 + 2 * p) (fun ct => srProduct A N (p * d + ct * (p ^ 2 + 2 * p)) (p * 2)) 0 (hz _),
        Matrix.zero_apply, zero_add]
      simp only [Nat.mul_comm p 2]
    · simp only [costMatrix, ehNc, ehNt, if_true, gt_iff_lt, show (1 : Nat) < o by omega, h2, h3, if_false, add_zero]
      rw [blocks_sum (p * d) (p ^ 2 + 2 * p) (fun ct => srProduct A N (p * d + ct * (p ^ 2 + 2 * p)) (p * 2)) 0 (hz _),
        Matrix.zero_apply, zero_add]
      simp only [Nat.mul_comm p 2]
  · simp only [costMatrix, ehNc, ehNt, gt_iff_lt, show ¬ (1 : Nat) < o by omega, h2, show ¬ o = 3 by omega, if_false, add_zero]
    rfl

theorem costMatrix_symm (d p o : Nat) (A : Matrix (Fin m) (Fin n) ℝ) (N : ℝ) :
    (costMatrix d p o A N)ᵀ = costMatrix d p o A N := by
  ext i j
  rw [transpose_apply, costMatrix_apply, costMatrix_apply]
  congr 1
  · congr 1
    refine Finset.sum_congr rfl fun ct _ => ?_
    rw [srProduct_symm]
    exact if_congr And.comm rfl rfl
  · congr 1
    refine Finset.sum_congr rfl fun ct _ => ?_
    rw [srProduct_symm]
    exact if_congr And.comm rfl rfl

theorem form_add (x : Fin n → ℝ) (g h : Fin n → Fin n → ℝ) :
    ∑ i, ∑ j, x i * (g i j + h i j) * x j = (∑ i, ∑ j, x i * g i j * x j) + ∑ i, ∑ j, x i * h i j * x j := by
  simp only [mul_add, add_mul, Finset.sum_add_distrib]

theorem form_sum (x : Fin n → ℝ) (M : Nat) (g : Nat → Fin n → Fin n → ℝ) :
    ∑ i, ∑ j, x i * (∑ ct ∈ Finset.range M, g ct i j) * x j =
      ∑ ct ∈ Finset.range M, ∑ i, ∑ j, x i * g ct i j * x j := by
  simp only [Finset.mul_sum, Finset.sum_mul]
  calc ∑ i, ∑ j, ∑ ct ∈ Finset.range M, x i * g ct i j * x j
      = ∑ i, ∑ ct ∈ Finset.range M, ∑ j, x i * g ct i j * x j :=
        Finset.sum_congr rfl fun i _ => Finset.sum_comm
    _ = ∑ ct ∈ Finset.range M, ∑ i, ∑ j, x i * g ct i j * x j := Finset.sum_comm

theorem costMatrix_form (d p o : Nat) (A : Matrix (Fin m) (Fin n) ℝ) (N : ℝ) (x : Fin n → ℝ) :
    x ⬝ᵥ costMatrix d p o A N *ᵥ x = hierarchyCost d p o A N x := by
  have e : x ⬝ᵥ costMatrix d p o A N *ᵥ x = ∑ i, ∑ j, x i * costMatrix d p o A N i j * x j := by
    simp only [dotProduct, mulVec, Finset.mul_sum]
    exact Finset.sum_congr rfl fun i _ => Finset.sum_congr rfl fun j _ => by ring
  rw [e]
  simp only [costMatrix_apply]
  rw [form_add]
  unfold hierarchyCost
  congr 1
  · by_cases h : 2 ≤ o
    · simp only [h, if_true]
      rw [form_sum]
      exact Finset.sum_congr rfl fun ct _ => block_form A N x _ _ _
    · simp [h]
  · by_cases h : o = 3
    · simp only [h, if_true]
      rw [form_sum]
      exact Finset.sum_congr rfl fun ct _ => block_form A N x _ _ _
    · simp [h]

theorem costMatrix_psd (d p o : Nat) (A : Matrix (Fin m) (Fin n) ℝ) (N : ℝ) (x : Fin n → ℝ) :
    0 ≤ x ⬝ᵥ costMatrix d p o A N *ᵥ x := by
  have hv : ∀ s w low, 0 ≤ violation A N x s w low := fun s w low =>
    add_nonneg (sq_nonneg _) (Finset.sum_nonneg fun l _ => by split <;> positivity)
  rw [costMatrix_form]
  unfold hierarchyCost
  refine add_nonneg ?_ ?_
  · split
    · exact Finset.sum_nonneg fun _ _ => hv _ _ _
    · exact le_rfl
  · split
    · exact Finset.sum_nonneg fun _ _ => hv _ _ _
    · exact le_rfl

end SALib
