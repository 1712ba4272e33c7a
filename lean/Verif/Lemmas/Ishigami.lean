import Verif.Lemmas.TensorSum
import Verif.Lemmas.SobolExpect
import Verif.Spec.TestFunctions
import Mathlib.Analysis.SpecialFunctions.Integrals.Basic
import Mathlib.MeasureTheory.Integral.IntervalIntegral.Basic

/-! # Moments of the inputs of the Ishigami function, and the effects of its inputs -/

namespace SALib

open MeasureTheory ProbabilityTheory Spec

theorem volume_Icc_pi : volume (Set.Icc (-Real.pi) Real.pi) = ENNReal.ofReal (2 * Real.pi) := by
  rw [Real.volume_Icc]; congr 1; ring

instance : IsProbabilityMeasure unifPi := by
  unfold unifPi
  refine cond_isProbabilityMeasure_of_finite ?_ ?_
  · rw [volume_Icc_pi]
    simp [Real.pi_pos]
  · rw [volume_Icc_pi]
    exact ENNReal.ofReal_ne_top

theorem integral_unifPi (f : ℝ → ℝ) : ∫ t, f t ∂unifPi = (2 * Real.pi)⁻¹ * ∫ t in (-Real.pi)..Real.pi, f t := by
  unfold unifPi ProbabilityTheory.cond
  rw [integral_smul_measure, volume_Icc_pi, intervalIntegral.integral_of_le (by linarith [Real.pi_pos]),
    integral_Icc_eq_integral_Ioc]
  rw [ENNReal.toReal_inv, ENNReal.toReal_ofReal (by positivity)]
  rfl

/-- A continuous function of an input is square integrable. -/
theorem memLp_unifPi (f : ℝ → ℝ) (hf : Continuous f) : MemLp f 2 unifPi := by
  unfold unifPi ProbabilityTheory.cond
  refine MemLp.smul_measure ?_ ?_
  · refine (memLp_two_iff_integrable_sq hf.aestronglyMeasurable).mpr ?_
    exact (hf.pow 2).continuousOn.integrableOn_compact isCompact_Icc
  · rw [volume_Icc_pi]
    simp [Real.pi_pos]

theorem unifPi_one : ∫ _, (1 : ℝ) ∂unifPi = 1 := by simp

theorem unifPi_sin : ∫ t, Real.sin t ∂unifPi = 0 := by
  rw [integral_unifPi, integral_sin]; simp

theorem unifPi_sin_sq : ∫ t, Real.sin t ^ 2 ∂unifPi = 1 / 2 := by
  rw [integral_unifPi, integral_sin_sq]
  have := Real.pi_ne_zero
  simp
  field_simp

theorem unifPi_sin_four : ∫ t, Real.sin t ^ 4 ∂unifPi = 3 / 8 := by
  have := Real.pi_ne_zero
  rw [integral_unifPi, integral_sin_pow 2, integral_sin_sq]
  simp
  field_simp
  norm_num

theorem unifPi_pow_four : ∫ t, t ^ 4 ∂unifPi = Real.pi ^ 4 / 5 := by
  have := Real.pi_ne_zero
  rw [integral_unifPi, integral_pow]
  field_simp
  norm_num
  ring

theorem unifPi_pow_eight : ∫ t, t ^ 8 ∂unifPi = Real.pi ^ 8 / 9 := by
  have := Real.pi_ne_zero
  rw [integral_unifPi, integral_pow]
  field_simp
  norm_num
  ring

/-- The Ishigami function of a point. -/
noncomputable def ishi (A B : ℝ) (x : Fin 3 → ℝ) : ℝ :=
  Real.sin (x 0) + A * Real.sin (x 1) ^ 2 + B * x 2 ^ 4 * Real.sin (x 0)

/-- The factors of its three terms. -/
noncomputable def ishiFactor : Fin 3 → Fin 3 → ℝ → ℝ :=
  ![![Real.sin, fun _ => 1, fun _ => 1], ![fun _ => 1, fun t => Real.sin t ^ 2, fun _ => 1],
    ![Real.sin, fun _ => 1, fun t => t ^ 4]]

theorem ishi_eq (A B : ℝ) : ishi A B = tensorSum ![1, A, B] ishiFactor := by
  funext x
  simp [ishi, tensorSum, ishiFactor, Fin.sum_univ_three, Fin.prod_univ_three]
  ring

theorem continuous_ishiFactor (m j : Fin 3) : Continuous (ishiFactor m j) := by
  fin_cases m <;> fin_cases j <;> simp [ishiFactor] <;> fun_prop

theorem continuous_ishi (A B : ℝ) : Continuous (ishi A B) := by
  unfold ishi
  fun_prop

theorem memLp_ishi (A B : ℝ) : MemLp (ishi A B) 2 (Measure.pi fun _ => unifPi) := by
  rw [ishi_eq]
  exact memLp_tensorSum _ _ _ fun m j => memLp_unifPi _ (continuous_ishiFactor m j)

/-- The closed effect of every set of inputs. -/
theorem closedEffect_ishi (A B : ℝ) (s : Fin 3 → Bool) :
    closedEffect (fun _ => unifPi) (ishi A B) s =
      (if s 0 then ishigamiV1 B + (if s 2 then ishigamiV13 B else 0) else 0) + if s 1 then ishigamiV2 A else 0 := by
  have e1 : ∀ t : ℝ, Real.sin t * Real.sin t = Real.sin t ^ 2 := fun t => by ring
  have e2 : ∀ t : ℝ, Real.sin t ^ 2 * Real.sin t ^ 2 = Real.sin t ^ 4 := fun t => by ring
  have e3 : ∀ t : ℝ, t ^ 4 * t ^ 4 = t ^ 8 := fun t => by ring
  rw [ishi_eq, closedEffect_tensorSum _ _ _ fun m j => memLp_unifPi _ (continuous_ishiFactor m j)]
  simp only [Fin.sum_univ_three, Fin.prod_univ_three, ishiFactor, Matrix.cons_val_zero, Matrix.cons_val_one,
    Matrix.cons_val, mul_one, one_mul, e1, e2, e3, unifPi_one, unifPi_sin, unifPi_sin_sq, unifPi_sin_four,
    unifPi_pow_four, unifPi_pow_eight]
  unfold ishigamiV1 ishigamiV13 ishigamiV2
  by_cases h0 : s 0 = true <;> by_cases h1 : s 1 = true <;> by_cases h2 : s 2 = true <;> simp [h0, h1, h2] <;> ring

theorem var_ishi (A B : ℝ) : Var[ishi A B; Measure.pi fun _ => unifPi] = ishigamiVar A B := by
  rw [← closedEffect_all (fun _ => unifPi) (ishi A B) (memLp_ishi A B), closedEffect_ishi]
  unfold ishigamiV1 ishigamiV13 ishigamiV2 ishigamiVar
  simp
  ring

/-- The total effect of every set of inputs. -/
theorem totalEffect_ishi (A B : ℝ) (s : Fin 3 → Bool) :
    totalEffect (fun _ => unifPi) (ishi A B) s =
      (if s 0 then ishigamiV1 B else 0) + (if s 0 ∨ s 2 then ishigamiV13 B else 0) + if s 1 then ishigamiV2 A else 0 := by
  rw [totalEffect_eq_sub _ _ (memLp_ishi A B), closedEffect_ishi, var_ishi]
  unfold ishigamiV1 ishigamiV13 ishigamiV2 ishigamiVar
  by_cases h0 : s 0 = true <;> by_cases h1 : s 1 = true <;> by_cases h2 : s 2 = true <;> simp [h0, h1, h2] <;> ring

end SALib
