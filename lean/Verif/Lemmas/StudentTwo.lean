import Verif.Lemmas.StudentRate
import Mathlib.Analysis.SpecialFunctions.Integrals.Basic
import Mathlib.Analysis.SpecialFunctions.ImproperIntegrals
import Mathlib.MeasureTheory.Measure.Lebesgue.Integral

/-! # The Student probability of two resamples -/

namespace SALib
open MeasureTheory ProbabilityTheory Filter Topology Spec

theorem normalWithin_interval (a : ℝ) (ha : 0 ≤ a) : normalWithin a = ∫ x in -a..a, gaussianPDFReal 0 1 x := by
  unfold normalWithin Measure.real
  rw [gaussianReal_apply_eq_integral 0 (by norm_num), ENNReal.toReal_ofReal
    (integral_nonneg fun x => gaussianPDFReal_nonneg 0 1 x), integral_Icc_eq_integral_Ioc,
    intervalIntegral.integral_of_le (by linarith)]

theorem continuous_pdf : Continuous (gaussianPDFReal 0 1) := by
  have : gaussianPDFReal 0 1 = fun x => (√(2 * Real.pi))⁻¹ * Real.exp (-x ^ 2 / 2) := funext pdf_eq
  rw [this]
  fun_prop

theorem integral_abs_exp (c : ℝ) (hc : 0 < c) : ∫ y : ℝ, |y| * Real.exp (-c * y ^ 2) = 1 / c := by
  have e : (fun y : ℝ => |y| * Real.exp (-c * y ^ 2)) = fun y => (fun x => x * Real.exp (-c * x ^ 2)) |y| := by
    ext y
    simp
  rw [e, integral_comp_abs (f := fun x => x * Real.exp (-c * x ^ 2))]
  have hd : ∀ x ∈ Set.Ici (0 : ℝ), HasDerivAt (fun x => -(1 / (2 * c)) * Real.exp (-c * x ^ 2)) (x * Real.exp (-c * x ^ 2)) x := by
    intro x _
    have h1 : HasDerivAt (fun x : ℝ => -c * x ^ 2) (-c * (2 * x)) x := by
      simpa using (hasDerivAt_pow 2 x).const_mul (-c)
    refine (h1.exp.const_mul (-(1 / (2 * c)))).congr_deriv ?_
    field_simp
  have ht : Tendsto (fun x : ℝ => -(1 / (2 * c)) * Real.exp (-c * x ^ 2)) atTop (𝓝 0) := by
    have h2 : Tendsto (fun x : ℝ => -c * x ^ 2) atTop atBot :=
      (tendsto_pow_atTop (by norm_num : (2 : ℕ) ≠ 0)).const_mul_atTop_of_neg (by linarith)
    simpa using (Real.tendsto_exp_atBot.comp h2).const_mul (-(1 / (2 * c)))
  rw [integral_Ioi_of_hasDerivAt_of_nonneg' hd (fun x hx => mul_nonneg (le_of_lt hx) (Real.exp_pos _).le) ht]
  simp
  field_simp

/-- Two draws vary by the square of a normal number. -/
theorem two_draws (F : ℝ → ℝ) (hF : Measurable F) :
    ∫ b : Fin 2 → ℝ, F (√(drawVar b)) ∂(Measure.pi fun _ : Fin 2 => gaussianReal 0 1) = ∫ y, F |y| ∂gaussianReal 0 1 := by
  have hi : iIndepFun (fun (i : Fin 2) (ω : Fin 2 → ℝ) => ω i) (Measure.pi fun _ : Fin 2 => gaussianReal 0 1) :=
    iIndepFun_pi (X := fun _ x => x) fun _ => aemeasurable_id
  have hm : ∀ i : Fin 2, Measure.map (fun ω : Fin 2 → ℝ => ω i) (Measure.pi fun _ : Fin 2 => gaussianReal 0 1) = gaussianReal 0 1 :=
    fun i => (measurePreserving_eval (fun _ : Fin 2 => gaussianReal 0 1) i).map_eq
  have h01 := hi.indepFun (show (0 : Fin 2) ≠ 1 by decide)
  have hn : IndepFun (fun ω : Fin 2 → ℝ => ω 0) (fun ω => -ω 1) (Measure.pi fun _ : Fin 2 => gaussianReal 0 1) :=
    h01.comp measurable_id measurable_neg
  have hneg : Measure.map (fun ω : Fin 2 → ℝ => -ω 1) (Measure.pi fun _ : Fin 2 => gaussianReal 0 1) = gaussianReal 0 1 := by
    have := gaussianReal_map_neg (μ := 0) (v := 1)
    rw [neg_zero] at this
    nth_rewrite 1 [← hm 1] at this
    have h1 : Measurable fun ω : Fin 2 → ℝ => ω 1 := measurable_pi_apply 1
    rw [Measure.map_map (by fun_prop) h1] at this
    exact this
  have hs := gaussianReal_add_gaussianReal_of_indepFun hn (hm 0) hneg
  have hdiv := gaussianReal_map_div_const (μ := 0 + 0) (v := 1 + 1) (√2)
  rw [← hs, Measure.map_map (by fun_prop) (by fun_prop)] at hdiv
  have hlaw : Measure.map (fun b : Fin 2 → ℝ => (b 0 - b 1) / √2) (Measure.pi fun _ : Fin 2 => gaussianReal 0 1) = gaussianReal 0 1 := by
    convert hdiv using 2
    · ext b
      simp [sub_eq_add_neg]
    · simp
    · ext
      simp
  have hmap : ∫ y, F |y| ∂gaussianReal 0 1 =
      ∫ b : Fin 2 → ℝ, F |(b 0 - b 1) / √2| ∂(Measure.pi fun _ : Fin 2 => gaussianReal 0 1) := by
    nth_rewrite 1 [← hlaw]
    exact integral_map (by fun_prop) (hF.comp measurable_abs).aestronglyMeasurable
  rw [hmap]
  refine integral_congr_ae (Eventually.of_forall fun b => ?_)
  show F _ = F _
  congr 1
  rw [drawVar_sq le_rfl, ← Real.sqrt_sq_eq_abs]
  congr 1
  simp only [Fin.sum_univ_two, div_pow, Real.sq_sqrt (show (0 : ℝ) ≤ 2 by norm_num)]
  push_cast
  ring

/-- The interval from two resamples contains the value with probability `2 / π · arctan z`: Student's law of one degree of freedom is
Cauchy's. -/
theorem studentWithin_two (z : ℝ) (hz : 0 ≤ z) : studentWithin 2 z = 2 / Real.pi * Real.arctan z := by
  have hmeas : Measurable fun s : ℝ => normalWithin (z * s) := normalWithin_mono.measurable.comp (measurable_const_mul z)
  rw [studentWithin_eq, two_draws (fun s => normalWithin (z * s)) hmeas]
  have e1 : ∀ y : ℝ, normalWithin (z * |y|) = ∫ t in -z..z, |y| * gaussianPDFReal 0 1 (|y| * t) := by
    intro y
    rw [normalWithin_interval _ (mul_nonneg hz (abs_nonneg y)), intervalIntegral.integral_const_mul,
      intervalIntegral.mul_integral_comp_mul_left]
    congr 1 <;> ring
  simp only [e1]
  simp only [intervalIntegral.integral_of_le (show -z ≤ z by linarith)]
  have hint : Integrable (Function.uncurry fun y t : ℝ => |y| * gaussianPDFReal 0 1 (|y| * t))
      ((gaussianReal 0 1).prod (volume.restrict (Set.Ioc (-z) z))) := by
    have hid : Integrable (fun y : ℝ => |y|) (gaussianReal 0 1) :=
      ((memLp_id_gaussianReal' 1 (by norm_num)).integrable le_rfl).abs
    have h1 : Integrable (fun p : ℝ × ℝ => |p.1|) ((gaussianReal 0 1).prod (volume.restrict (Set.Ioc (-z) z))) := hid.comp_fst _
    refine h1.mono ?_ (Eventually.of_forall fun p => ?_)
    · refine Continuous.aestronglyMeasurable ?_
      show Continuous fun p : ℝ × ℝ => |p.1| * gaussianPDFReal 0 1 (|p.1| * p.2)
      have := continuous_pdf
      fun_prop
    · show ‖|p.1| * gaussianPDFReal 0 1 (|p.1| * p.2)‖ ≤ ‖|p.1|‖
      rw [norm_mul]
      refine mul_le_of_le_one_right (norm_nonneg _) ?_
      rw [Real.norm_of_nonneg (gaussianPDFReal_nonneg _ _ _), pdf_eq]
      have h2 : (√(2 * Real.pi))⁻¹ ≤ 1 := inv_le_one_of_one_le₀ (Real.one_le_sqrt.mpr (by linarith [Real.pi_gt_three]))
      have h3 : Real.exp (-(|p.1| * p.2) ^ 2 / 2) ≤ 1 := Real.exp_le_one_iff.mpr (by have := sq_nonneg (|p.1| * p.2); linarith)
      exact mul_le_one₀ h2 (Real.exp_pos _).le h3
  rw [integral_integral_swap hint]
  have e2 : ∀ t : ℝ, ∫ y, |y| * gaussianPDFReal 0 1 (|y| * t) ∂gaussianReal 0 1 = 1 / Real.pi * (1 + t ^ 2)⁻¹ := by
    intro t
    rw [integral_gaussianReal_eq_integral_smul (by norm_num)]
    have hp : (0 : ℝ) < 1 + t ^ 2 := by positivity
    have e3 : ∀ y : ℝ, gaussianPDFReal 0 1 y • (|y| * gaussianPDFReal 0 1 (|y| * t)) =
        1 / (2 * Real.pi) * (|y| * Real.exp (-((1 + t ^ 2) / 2) * y ^ 2)) := by
      intro y
      rw [pdf_eq, pdf_eq, smul_eq_mul, mul_pow, sq_abs]
      have e4 : -((1 + t ^ 2) / 2) * y ^ 2 = -y ^ 2 / 2 + -(y ^ 2 * t ^ 2) / 2 := by ring
      rw [e4, Real.exp_add]
      have e5 : (√(2 * Real.pi))⁻¹ * (√(2 * Real.pi))⁻¹ = 1 / (2 * Real.pi) := by
        rw [← mul_inv, Real.mul_self_sqrt (by positivity), one_div]
      rw [← e5]
      ring
    simp only [e3]
    rw [integral_const_mul, integral_abs_exp _ (by positivity)]
    have := Real.pi_pos
    field_simp
  simp only [e2]
  rw [← intervalIntegral.integral_of_le (show -z ≤ z by linarith), intervalIntegral.integral_const_mul, integral_inv_one_add_sq,
    Real.arctan_neg]
  ring

/-! ### A level of 95 per cent needs less than 2.1 standard deviations -/

theorem normal_tail (a : ℝ) (ha : 0 < a) : (gaussianReal 0 1).real (Set.Ioi a) ≤ gaussianPDFReal 0 1 a / a := by
  have hd : ∀ x ∈ Set.Ici a, HasDerivAt (fun x => -gaussianPDFReal 0 1 x / a) (x / a * gaussianPDFReal 0 1 x) x := by
    intro x _
    have : (fun x => -gaussianPDFReal 0 1 x / a) = fun x => -((√(2 * Real.pi))⁻¹ * Real.exp (-x ^ 2 / 2)) / a := by
      ext x
      rw [pdf_eq]
    rw [this, pdf_eq]
    have h1 : HasDerivAt (fun x : ℝ => -x ^ 2 / 2) (-x) x := by
      refine ((hasDerivAt_pow 2 x).neg.div_const 2).congr_deriv ?_
      push_cast
      ring
    refine ((h1.exp.const_mul (√(2 * Real.pi))⁻¹).neg.div_const a).congr_deriv ?_
    ring
  have h0 : ∀ x ∈ Set.Ioi a, 0 ≤ x / a * gaussianPDFReal 0 1 x := fun x hx =>
    mul_nonneg (div_nonneg (ha.le.trans (le_of_lt hx)) ha.le) (gaussianPDFReal_nonneg _ _ _)
  have ht : Tendsto (fun x : ℝ => -gaussianPDFReal 0 1 x / a) atTop (𝓝 0) := by
    have h2 : Tendsto (fun x : ℝ => -x ^ 2 / 2) atTop atBot := by
      have := (tendsto_pow_atTop (α := ℝ) (by norm_num : (2 : ℕ) ≠ 0)).const_mul_atTop_of_neg (show (-(1 / 2) : ℝ) < 0 by norm_num)
      refine this.congr fun x => by ring
    have := (((Real.tendsto_exp_atBot.comp h2).const_mul (√(2 * Real.pi))⁻¹).neg).div_const a
    simp only [mul_zero, neg_zero, zero_div] at this
    refine this.congr fun x => ?_
    rw [pdf_eq]
    rfl
  have hI := integral_Ioi_of_hasDerivAt_of_nonneg' hd h0 ht
  have hint := integrableOn_Ioi_deriv_of_nonneg' hd h0 ht
  unfold Measure.real
  rw [gaussianReal_apply_eq_integral 0 (by norm_num), ENNReal.toReal_ofReal (integral_nonneg fun x => gaussianPDFReal_nonneg 0 1 x)]
  have e : gaussianPDFReal 0 1 a / a = 0 - -gaussianPDFReal 0 1 a / a := by ring
  rw [e, ← hI]
  refine setIntegral_mono_on (integrable_gaussianPDFReal 0 1).integrableOn hint measurableSet_Ioi fun x hx => ?_
  refine le_mul_of_one_le_left (gaussianPDFReal_nonneg _ _ _) ?_
  rw [one_le_div ha]
  exact le_of_lt hx

theorem normalWithin_tail (a : ℝ) (ha : 0 < a) : 1 - 2 * (gaussianPDFReal 0 1 a / a) ≤ normalWithin a := by
  have h1 := normal_tail a ha
  rw [normalWithin_eq a ha.le, cdf_eq_real]
  have h2 := prob_compl_eq_one_sub (μ := gaussianReal 0 1) (measurableSet_Iic (a := a))
  have h3 : (gaussianReal 0 1).real (Set.Ioi a) = 1 - (gaussianReal 0 1).real (Set.Iic a) := by
    rw [← Set.compl_Iic, probReal_compl_eq_one_sub measurableSet_Iic]
  linarith

theorem normalWithin_two_one : 19 / 20 < normalWithin (21 / 10) := by
  refine lt_of_lt_of_le ?_ (normalWithin_tail _ (by norm_num))
  rw [pdf_eq]
  have hpi := Real.pi_gt_d2
  have hs : (5 / 2 : ℝ) ≤ √(2 * Real.pi) := Real.le_sqrt_of_sq_le (by linarith)
  have hs' : (√(2 * Real.pi))⁻¹ ≤ 2 / 5 := by
    rw [inv_le_comm₀ (by linarith) (by norm_num)]
    linarith
  have he : Real.exp (-(21 / 10) ^ 2 / 2) ≤ 1 / 8 := by
    have h1 : (-(21 / 10) ^ 2 / 2 : ℝ) = -(1 + 1 + 41 / 200) := by norm_num
    rw [h1, Real.exp_neg, Real.exp_add, Real.exp_add, one_div]
    have h2 := Real.exp_one_gt_d9
    have h3 := Real.add_one_le_exp (41 / 200 : ℝ)
    refine inv_anti₀ (by norm_num) ?_
    nlinarith [mul_le_mul h2.le h2.le (by norm_num) (Real.exp_pos 1).le]
  have hm : (√(2 * Real.pi))⁻¹ * Real.exp (-(21 / 10) ^ 2 / 2) ≤ 2 / 5 * (1 / 8) :=
    mul_le_mul hs' he (Real.exp_pos _).le (by norm_num)
  have h4 : (√(2 * Real.pi))⁻¹ * Real.exp (-(21 / 10) ^ 2 / 2) / (21 / 10) ≤ 2 / 5 * (1 / 8) / (21 / 10) :=
    div_le_div_of_nonneg_right hm (by norm_num)
  linarith

theorem arctan_ge (x : ℝ) (hx : 0 ≤ x) : x - x ^ 3 / 3 ≤ Real.arctan x := by
  have hd : ∀ y, HasDerivAt (fun y : ℝ => Real.arctan y - (y - y ^ 3 / 3)) (1 / (1 + y ^ 2) - (1 - y ^ 2)) y := by
    intro y
    refine ((Real.hasDerivAt_arctan y).sub ((hasDerivAt_id y).sub ((hasDerivAt_pow 3 y).div_const 3))).congr_deriv ?_
    push_cast
    ring
  have hm : Monotone fun y : ℝ => Real.arctan y - (y - y ^ 3 / 3) := by
    refine monotone_of_deriv_nonneg (fun y => (hd y).differentiableAt) fun y => ?_
    rw [(hd y).deriv, sub_nonneg, le_div_iff₀ (by positivity)]
    nlinarith [sq_nonneg (y ^ 2)]
  have := hm hx
  simp only [Real.arctan_zero] at this
  linarith

/-- Two resamples give intervals of less than 72 per cent where 95 per cent are asked for. -/
theorem studentWithin_two_lt (z : ℝ) (hz : 0 ≤ z) (h : normalWithin z ≤ 19 / 20) : studentWithin 2 z < 72 / 100 := by
  have hz2 : z ≤ 21 / 10 := by
    by_contra hc
    have := normalWithin_mono (not_le.mp hc).le
    linarith [normalWithin_two_one]
  rw [studentWithin_two z hz]
  have h1 : Real.arctan z ≤ Real.pi / 2 - Real.arctan (21 / 10)⁻¹ := by
    rw [Real.arctan_inv_of_pos (by norm_num)]
    linarith [Real.arctan_strictMono.monotone hz2]
  have h2 := arctan_ge (21 / 10)⁻¹ (by norm_num)
  norm_num at h2 h1
  have hp := Real.pi_lt_d4
  have hp0 := Real.pi_pos
  rw [div_mul_eq_mul_div, div_lt_iff₀ hp0]
  linarith

end SALib
