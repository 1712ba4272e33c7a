import Verif.Lemmas.SobolExpect

/-! Closed effects of sums of products of functions of one input. -/

namespace SALib

open MeasureTheory ProbabilityTheory Spec

variable {d n : Nat}

/-- `∑ₘ cₘ ∏ⱼ φₘⱼ(xⱼ)`. -/
noncomputable def tensorSum (c : Fin n → ℝ) (φ : Fin n → Fin d → ℝ → ℝ) (x : Fin d → ℝ) : ℝ :=
  ∑ m, c m * ∏ j, φ m j (x j)

variable (ν : Fin d → Measure ℝ) [∀ i, IsProbabilityMeasure (ν i)] (c : Fin n → ℝ) (φ : Fin n → Fin d → ℝ → ℝ)
  (hφ : ∀ m j, MemLp (φ m j) 2 (ν j))
include hφ

theorem memLp_prod (m : Fin n) : MemLp (fun x : Fin d → ℝ => ∏ j, φ m j (x j)) 2 (Measure.pi ν) := by
  have h1 : Integrable (fun x : Fin d → ℝ => ∏ j, φ m j (x j)) (Measure.pi ν) :=
    Integrable.fintype_prod fun j => (hφ m j).integrable one_le_two
  have h2 : Integrable (fun x : Fin d → ℝ => ∏ j, φ m j (x j) ^ 2) (Measure.pi ν) :=
    Integrable.fintype_prod (f := fun j t => φ m j t ^ 2) fun j => (hφ m j).integrable_sq
  refine (memLp_two_iff_integrable_sq h1.aestronglyMeasurable).mpr ?_
  simpa only [Finset.prod_pow] using h2

theorem memLp_tensorSum : MemLp (tensorSum c φ) 2 (Measure.pi ν) := by
  unfold tensorSum
  exact memLp_finsetSum _ fun m _ => (memLp_prod ν φ hφ m).const_mul (c m)

theorem integral_tensorSum : ∫ x, tensorSum c φ x ∂Measure.pi ν = ∑ m, c m * ∏ j, ∫ t, φ m j t ∂ν j := by
  unfold tensorSum
  rw [integral_finsetSum _ fun m _ => ((memLp_prod ν φ hφ m).integrable one_le_two).const_mul (c m)]
  refine Finset.sum_congr rfl fun m _ => ?_
  rw [integral_const_mul, integral_fintype_prod_eq_prod]

/-- The same sum with the factors outside `s` replaced by their means. -/
theorem condMean_tensorSum (s : Fin d → Bool) (y : Fin d → ℝ) :
    condMean ν (tensorSum c φ) s y =
      tensorSum c (fun m j t => if s j then φ m j t else ∫ u, φ m j u ∂ν j) y := by
  unfold condMean
  have : ∀ x, tensorSum c φ (mix s x y) = tensorSum c (fun m j t => if s j then φ m j (y j) else φ m j t) x := by
    intro x
    unfold tensorSum mix
    refine Finset.sum_congr rfl fun m _ => ?_
    congr 1
    refine Finset.prod_congr rfl fun j _ => ?_
    by_cases h : s j = true <;> simp [h]
  simp only [this]
  have hφ' : ∀ m j, MemLp (fun t => if s j then φ m j (y j) else φ m j t) 2 (ν j) := by
    intro m j
    cases s j
    · simpa using hφ m j
    · simpa using memLp_const (φ m j (y j))
  rw [integral_tensorSum ν c _ hφ']
  unfold tensorSum
  refine Finset.sum_congr rfl fun m _ => ?_
  congr 1
  refine Finset.prod_congr rfl fun j _ => ?_
  by_cases h : s j = true <;> simp [h]

theorem integral_tensorSum_sq : ∫ x, tensorSum c φ x ^ 2 ∂Measure.pi ν =
    ∑ m, ∑ m', c m * c m' * ∏ j, ∫ t, φ m j t * φ m' j t ∂ν j := by
  have e : ∀ x, tensorSum c φ x ^ 2 = ∑ m, ∑ m', c m * c m' * ∏ j, φ m j (x j) * φ m' j (x j) := by
    intro x
    unfold tensorSum
    rw [sq, Finset.sum_mul_sum]
    refine Finset.sum_congr rfl fun m _ => Finset.sum_congr rfl fun m' _ => ?_
    rw [Finset.prod_mul_distrib]
    ring
  simp only [e]
  have hi : ∀ m m', Integrable (fun x : Fin d → ℝ => c m * c m' * ∏ j, φ m j (x j) * φ m' j (x j)) (Measure.pi ν) := by
    intro m m'
    refine Integrable.const_mul ?_ _
    exact Integrable.fintype_prod (f := fun j t => φ m j t * φ m' j t) fun j => (hφ m j).integrable_mul (hφ m' j)
  rw [integral_finsetSum _ fun m _ => integrable_finsetSum _ fun m' _ => hi m m']
  refine Finset.sum_congr rfl fun m _ => ?_
  rw [integral_finsetSum _ fun m' _ => hi m m']
  refine Finset.sum_congr rfl fun m' _ => ?_
  rw [integral_const_mul, integral_fintype_prod_eq_prod (fun j t => φ m j t * φ m' j t)]

/-- The closed effect in terms of first and mixed second moments of the factors. -/
theorem closedEffect_tensorSum (s : Fin d → Bool) :
    closedEffect ν (tensorSum c φ) s = (∑ m, ∑ m', c m * c m' * ∏ j,
        if s j then ∫ t, φ m j t * φ m' j t ∂ν j else (∫ t, φ m j t ∂ν j) * ∫ t, φ m' j t ∂ν j) -
      (∑ m, c m * ∏ j, ∫ t, φ m j t ∂ν j) ^ 2 := by
  rw [closedEffect_eq ν _ (memLp_tensorSum ν c φ hφ), integral_tensorSum ν c φ hφ]
  simp only [condMean_tensorSum ν c φ hφ s]
  have hφ' : ∀ m j, MemLp (fun t => if s j then φ m j t else ∫ u, φ m j u ∂ν j) 2 (ν j) := by
    intro m j
    cases s j
    · simpa using memLp_const _
    · simpa using hφ m j
  rw [integral_tensorSum_sq ν c _ hφ']
  congr 1
  refine Finset.sum_congr rfl fun m _ => Finset.sum_congr rfl fun m' _ => ?_
  congr 1
  refine Finset.prod_congr rfl fun j _ => ?_
  by_cases h : s j = true <;> simp [h]

end SALib
