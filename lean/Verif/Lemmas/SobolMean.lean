import Verif.Spec.SobolMean

/-! Integrals of products of a function at two points that share some of their inputs. -/

namespace SALib

open MeasureTheory ProbabilityTheory Spec

variable {d : Nat} (ν : Fin d → Measure ℝ) [∀ i, IsProbabilityMeasure (ν i)]

theorem mix_mix (s : Fin d → Bool) (x z y : Fin d → ℝ) : mix s x (mix s z y) = mix s x y := by
  funext j
  unfold mix
  cases s j <;> simp

theorem mix_not (s : Fin d → Bool) (x y : Fin d → ℝ) : mix (fun j => !s j) y x = mix s x y := by
  funext j
  unfold mix
  by_cases h : s j = true <;> simp [h]

theorem condMean_mix (G : (Fin d → ℝ) → ℝ) (s : Fin d → Bool) (z y : Fin d → ℝ) :
    condMean ν G s (mix s z y) = condMean ν G s y := by
  unfold condMean
  simp only [mix_mix]

/-- Exchanging the selected inputs of two independent points. -/
theorem mix_swap_preserving (s : Fin d → Bool) :
    MeasurePreserving (fun p : (Fin d → ℝ) × (Fin d → ℝ) => (mix s p.1 p.2, mix s p.2 p.1))
      ((Measure.pi ν).prod (Measure.pi ν)) ((Measure.pi ν).prod (Measure.pi ν)) := by
  have e := measurePreserving_arrowProdEquivProdArrow ℝ ℝ (Fin d) ν ν
  have m : MeasurePreserving (fun (a : Fin d → ℝ × ℝ) i => (if s i then Prod.swap else id) (a i))
      (Measure.pi fun i => (ν i).prod (ν i)) (Measure.pi fun i => (ν i).prod (ν i)) := by
    refine measurePreserving_pi _ _ fun i => ?_
    cases s i
    · exact MeasurePreserving.id _
    · exact Measure.measurePreserving_swap
  have := (e.comp m).comp e.symm
  convert this using 1
  funext p
  refine Prod.ext ?_ ?_
  · funext j
    simp only [Function.comp, mix]
    show _ = ((if s j then Prod.swap else id) (p.1 j, p.2 j)).1
    cases s j <;> rfl
  · funext j
    simp only [Function.comp, mix]
    show _ = ((if s j then Prod.swap else id) (p.1 j, p.2 j)).2
    cases s j <;> rfl

theorem mix_preserving (s : Fin d → Bool) :
    MeasurePreserving (fun p : (Fin d → ℝ) × (Fin d → ℝ) => mix s p.1 p.2)
      ((Measure.pi ν).prod (Measure.pi ν)) (Measure.pi ν) :=
  measurePreserving_fst.comp (mix_swap_preserving ν s)

variable (G : (Fin d → ℝ) → ℝ) (hG : MemLp G 2 (Measure.pi ν))
include hG

theorem memLp_mix (s : Fin d → Bool) : MemLp (fun p : (Fin d → ℝ) × (Fin d → ℝ) => G (mix s p.1 p.2)) 2
    ((Measure.pi ν).prod (Measure.pi ν)) := hG.comp_measurePreserving (mix_preserving ν s)

theorem memLp_fst : MemLp (fun p : (Fin d → ℝ) × (Fin d → ℝ) => G p.1) 2
    ((Measure.pi ν).prod (Measure.pi ν)) := hG.comp_measurePreserving measurePreserving_fst

theorem memLp_snd : MemLp (fun p : (Fin d → ℝ) × (Fin d → ℝ) => G p.2) 2
    ((Measure.pi ν).prod (Measure.pi ν)) := hG.comp_measurePreserving measurePreserving_snd

theorem integrable_snd_mix (s : Fin d → Bool) :
    Integrable (fun p : (Fin d → ℝ) × (Fin d → ℝ) => G p.2 * G (mix s p.1 p.2))
      ((Measure.pi ν).prod (Measure.pi ν)) := (memLp_snd ν G hG).integrable_mul (memLp_mix ν G hG s)

theorem condMean_aesm (s : Fin d → Bool) : AEStronglyMeasurable (condMean ν G s) (Measure.pi ν) := by
  have := (memLp_mix ν G hG s).aestronglyMeasurable.prod_swap
  exact this.integral_prod_right'

theorem integrable_mul_condMean (s : Fin d → Bool) :
    Integrable (fun y => G y * condMean ν G s y) (Measure.pi ν) := by
  have := (integrable_snd_mix ν G hG s).integral_prod_right
  simpa only [condMean, integral_const_mul] using this

theorem integrable_mix_condMean (s : Fin d → Bool) :
    Integrable (fun p : (Fin d → ℝ) × (Fin d → ℝ) => G (mix s p.1 p.2) * condMean ν G s p.2)
      ((Measure.pi ν).prod (Measure.pi ν)) := by
  have := (mix_preserving ν s).integrable_comp_of_integrable (integrable_mul_condMean ν G hG s)
  refine this.congr (Filter.Eventually.of_forall fun p => ?_)
  simp only [Function.comp, condMean_mix]

theorem integrable_condMean_sq (s : Fin d → Bool) : Integrable (fun y => condMean ν G s y ^ 2) (Measure.pi ν) := by
  have := (integrable_mix_condMean ν G hG s).integral_prod_right
  refine this.congr (Filter.Eventually.of_forall fun y => ?_)
  simp only [integral_mul_const]
  rw [sq]; rfl

theorem condMean_memLp (s : Fin d → Bool) : MemLp (condMean ν G s) 2 (Measure.pi ν) :=
  (memLp_two_iff_integrable_sq (condMean_aesm ν G hG s)).mpr (integrable_condMean_sq ν G hG s)

/-- Two points that share exactly the inputs in `s`. -/
theorem integral_shared (s : Fin d → Bool) :
    ∫ p, G p.2 * G (mix s p.1 p.2) ∂((Measure.pi ν).prod (Measure.pi ν)) =
      ∫ y, condMean ν G s y ^ 2 ∂Measure.pi ν := by
  rw [integral_prod_symm _ (integrable_snd_mix ν G hG s)]
  have h1 : ∀ y, ∫ x, G y * G (mix s x y) ∂Measure.pi ν = G y * condMean ν G s y := by
    intro y; rw [integral_const_mul]; rfl
  simp only [h1]
  have hmp := mix_preserving ν s
  have h2 : ∫ y, G y * condMean ν G s y ∂Measure.pi ν =
      ∫ p, G (mix s p.1 p.2) * condMean ν G s (mix s p.1 p.2) ∂((Measure.pi ν).prod (Measure.pi ν)) := by
    conv_lhs => rw [← hmp.map_eq]
    rw [integral_map hmp.measurable.aemeasurable]
    rw [hmp.map_eq]
    exact (integrable_mul_condMean ν G hG s).aestronglyMeasurable
  rw [h2]
  simp only [condMean_mix]
  rw [integral_prod_symm _ (integrable_mix_condMean ν G hG s)]
  refine integral_congr_ae (Filter.Eventually.of_forall fun y => ?_)
  simp only [integral_mul_const]
  rw [sq]; rfl

theorem integral_mix (s : Fin d → Bool) :
    ∫ p, G (mix s p.1 p.2) ∂((Measure.pi ν).prod (Measure.pi ν)) = ∫ x, G x ∂Measure.pi ν := by
  have hmp := mix_preserving ν s
  conv_rhs => rw [← hmp.map_eq]
  rw [integral_map hmp.measurable.aemeasurable]
  rw [hmp.map_eq]
  exact hG.aestronglyMeasurable

theorem integral_condMean (s : Fin d → Bool) :
    ∫ y, condMean ν G s y ∂Measure.pi ν = ∫ x, G x ∂Measure.pi ν := by
  rw [← integral_mix ν G hG s, integral_prod_symm _ ((memLp_mix ν G hG s).integrable one_le_two)]
  rfl

theorem closedEffect_eq (s : Fin d → Bool) :
    closedEffect ν G s = ∫ y, condMean ν G s y ^ 2 ∂Measure.pi ν - (∫ x, G x ∂Measure.pi ν) ^ 2 := by
  unfold closedEffect
  rw [variance_eq_sub (condMean_memLp ν G hG s), integral_condMean ν G hG s]
  rfl

theorem integral_indep : ∫ p, G p.2 * G p.1 ∂((Measure.pi ν).prod (Measure.pi ν)) = (∫ x, G x ∂Measure.pi ν) ^ 2 := by
  have := integral_prod_mul (μ := Measure.pi ν) (ν := Measure.pi ν) G G
  rw [sq, ← this]
  exact integral_congr_ae (Filter.Eventually.of_forall fun p => mul_comm _ _)

/-- **First-order numerator.** -/
theorem mean_first (s : Fin d → Bool) :
    ∫ p, G p.2 * (G (mix s p.1 p.2) - G p.1) ∂((Measure.pi ν).prod (Measure.pi ν)) = closedEffect ν G s := by
  rw [closedEffect_eq ν G hG s, ← integral_shared ν G hG s, ← integral_indep ν G hG, ← integral_sub]
  · simp only [mul_sub]
  · exact integrable_snd_mix ν G hG s
  · exact (memLp_snd ν G hG).integrable_mul (memLp_fst ν G hG)

theorem integral_sq_mix (s : Fin d → Bool) :
    ∫ p, G (mix s p.1 p.2) ^ 2 ∂((Measure.pi ν).prod (Measure.pi ν)) = ∫ x, G x ^ 2 ∂Measure.pi ν := by
  have hmp := mix_preserving ν s
  conv_rhs => rw [← hmp.map_eq]
  rw [integral_map hmp.measurable.aemeasurable]
  rw [hmp.map_eq]
  exact hG.aestronglyMeasurable.pow 2

/-- The total effect is what the other inputs leave. -/
theorem totalEffect_eq (s : Fin d → Bool) :
    totalEffect ν G s = ∫ x, G x ^ 2 ∂Measure.pi ν - ∫ y, condMean ν G (fun j => !s j) y ^ 2 ∂Measure.pi ν := by
  have hsq : Integrable (fun p : (Fin d → ℝ) × (Fin d → ℝ) => G (mix s p.1 p.2) ^ 2)
      ((Measure.pi ν).prod (Measure.pi ν)) := (memLp_mix ν G hG s).integrable_sq
  have hae := hsq.prod_right_ae
  have hae' := (memLp_mix ν G hG s).aestronglyMeasurable.prodMk_left
  have hv : ∀ᵐ x ∂Measure.pi ν, Var[fun y => G (mix s x y); Measure.pi ν] =
      ∫ y, G (mix s x y) ^ 2 ∂Measure.pi ν - condMean ν G (fun j => !s j) x ^ 2 := by
    filter_upwards [hae, hae'] with x h1 h2
    rw [variance_eq_sub ((memLp_two_iff_integrable_sq h2).mpr h1)]
    congr 2
    unfold condMean
    simp only [mix_not]
  unfold totalEffect
  rw [integral_congr_ae hv, integral_sub hsq.integral_prod_left (integrable_condMean_sq ν G hG _),
    ← integral_prod _ hsq, integral_sq_mix ν G hG s]

/-- **Total numerator.** -/
theorem mean_total (s : Fin d → Bool) :
    1 / 2 * ∫ p, (G p.1 - G (mix s p.1 p.2)) ^ 2 ∂((Measure.pi ν).prod (Measure.pi ν)) = totalEffect ν G s := by
  have h1 : ∫ p, G p.1 ^ 2 ∂((Measure.pi ν).prod (Measure.pi ν)) = ∫ x, G x ^ 2 ∂Measure.pi ν := by
    have := integral_sq_mix ν G hG fun _ => false
    have hm : ∀ x y, mix (fun _ : Fin d => false) x y = x := fun _ _ => by funext j; simp [mix]
    simpa only [hm] using this
  have h2 : ∫ p, G p.1 * G (mix s p.1 p.2) ∂((Measure.pi ν).prod (Measure.pi ν)) =
      ∫ y, condMean ν G (fun j => !s j) y ^ 2 ∂Measure.pi ν := by
    rw [← integral_shared ν G hG, ← integral_prod_swap]
    simp only [Prod.swap, mix_not]
  have i1 : Integrable (fun p : (Fin d → ℝ) × (Fin d → ℝ) => G p.1 ^ 2) ((Measure.pi ν).prod (Measure.pi ν)) :=
    (memLp_fst ν G hG).integrable_sq
  have i2 : Integrable (fun p : (Fin d → ℝ) × (Fin d → ℝ) => G (mix s p.1 p.2) ^ 2)
      ((Measure.pi ν).prod (Measure.pi ν)) := (memLp_mix ν G hG s).integrable_sq
  have i3 : Integrable (fun p : (Fin d → ℝ) × (Fin d → ℝ) => G p.1 * G (mix s p.1 p.2))
      ((Measure.pi ν).prod (Measure.pi ν)) := (memLp_fst ν G hG).integrable_mul (memLp_mix ν G hG s)
  have e : ∀ p : (Fin d → ℝ) × (Fin d → ℝ), (G p.1 - G (mix s p.1 p.2)) ^ 2 =
      G p.1 ^ 2 + G (mix s p.1 p.2) ^ 2 - 2 * (G p.1 * G (mix s p.1 p.2)) := fun p => by ring
  have i12 : Integrable (fun p : (Fin d → ℝ) × (Fin d → ℝ) => G p.1 ^ 2 + G (mix s p.1 p.2) ^ 2)
      ((Measure.pi ν).prod (Measure.pi ν)) := i1.add i2
  simp only [e]
  rw [integral_sub i12 (i3.const_mul 2), integral_add i1 i2, integral_const_mul, h1, h2,
    integral_sq_mix ν G hG s, totalEffect_eq ν G hG s]
  ring

/-- **Second-order numerator.** -/
theorem mean_second (s t : Fin d → Bool) (hst : ∀ j, ¬(s j = true ∧ t j = true)) :
    ∫ p, (G (mix s p.2 p.1) * G (mix t p.1 p.2) - G p.1 * G p.2) ∂((Measure.pi ν).prod (Measure.pi ν)) =
      closedEffect ν G fun j => s j || t j := by
  have hmp := mix_swap_preserving ν s
  have i1 : Integrable (fun p : (Fin d → ℝ) × (Fin d → ℝ) => G (mix s p.2 p.1) * G (mix t p.1 p.2))
      ((Measure.pi ν).prod (Measure.pi ν)) := by
    have m1 : MemLp (fun p : (Fin d → ℝ) × (Fin d → ℝ) => G (mix s p.2 p.1)) 2
        ((Measure.pi ν).prod (Measure.pi ν)) :=
      hG.comp_measurePreserving ((mix_preserving ν s).comp Measure.measurePreserving_swap)
    exact m1.integrable_mul (memLp_mix ν G hG t)
  have i2 : Integrable (fun p : (Fin d → ℝ) × (Fin d → ℝ) => G p.1 * G p.2)
      ((Measure.pi ν).prod (Measure.pi ν)) := (memLp_fst ν G hG).integrable_mul (memLp_snd ν G hG)
  rw [integral_sub i1 i2, closedEffect_eq ν G hG,
    ← integral_indep ν G hG, ← integral_shared ν G hG]
  congr 1
  · conv_rhs => rw [← hmp.map_eq]
    rw [integral_map hmp.measurable.aemeasurable]
    · refine integral_congr_ae (Filter.Eventually.of_forall fun p => ?_)
      simp only []
      congr 2
      funext j
      have := hst j
      simp only [mix]
      by_cases hs : s j = true <;> by_cases ht : t j = true <;> simp_all
    · rw [hmp.map_eq]
      exact (integrable_snd_mix ν G hG _).aestronglyMeasurable
  · exact integral_congr_ae (Filter.Eventually.of_forall fun p => mul_comm _ _)

end SALib
