import Mathlib.Probability.Distributions.Gaussian.Real

/-! # Means of powers, sines and cosines of a normal variable with mean 0 -/

namespace SALib

open Real MeasureTheory ProbabilityTheory Complex

open scoped NNReal

variable (v : ℝ≥0)

/-- The mean of `x ^ n * exp (z x)`. -/
noncomputable def gaussPowExp (n : Nat) (z : ℂ) : ℂ := ∫ x : ℝ, (x : ℂ) ^ n * cexp (z * x) ∂gaussianReal 0 v

theorem gaussPowExp_deriv (n : Nat) (z : ℂ) : HasDerivAt (gaussPowExp v n) (gaussPowExp v (n + 1) z) z := by
  have h : z.re ∈ interior (integrableExpSet id (gaussianReal 0 v)) := by
    rw [integrableExpSet_id_gaussianReal, interior_univ]; trivial
  exact hasDerivAt_integral_pow_mul_exp h n

theorem gaussPowExp_zero (z : ℂ) : gaussPowExp v 0 z = cexp (v * z ^ 2 / 2) := by
  have := complexMGF_id_gaussianReal (μ := 0) (v := v) z
  unfold gaussPowExp
  simpa [complexMGF] using this

theorem gauss_exp_deriv (z : ℂ) : HasDerivAt (fun z : ℂ => cexp (v * z ^ 2 / 2)) (v * z * cexp (v * z ^ 2 / 2)) z := by
  have h : HasDerivAt (fun z : ℂ => (v : ℂ) * z ^ 2 / 2) (v * z) z := by
    have := ((hasDerivAt_pow 2 z).const_mul (v : ℂ)).div_const 2
    convert! this using 1
    simp
    ring
  have := h.cexp
  convert! this using 1
  ring

theorem gaussPowExp_one (z : ℂ) : gaussPowExp v 1 z = v * z * cexp (v * z ^ 2 / 2) := by
  have h := gaussPowExp_deriv v 0 z
  rw [show gaussPowExp v 0 = fun z => cexp (v * z ^ 2 / 2) from funext (gaussPowExp_zero v)] at h
  exact h.unique (gauss_exp_deriv v z)

/-- Differentiate a polynomial times the exponential. -/
theorem gauss_next (n : Nat) (P P' : ℂ → ℂ) (hP : ∀ z, HasDerivAt P (P' z) z)
    (h : ∀ z, gaussPowExp v n z = P z * cexp (v * z ^ 2 / 2)) (z : ℂ) :
    gaussPowExp v (n + 1) z = (P' z + P z * (v * z)) * cexp (v * z ^ 2 / 2) := by
  have h1 := gaussPowExp_deriv v n z
  rw [show gaussPowExp v n = fun z => P z * cexp (v * z ^ 2 / 2) from funext h] at h1
  rw [h1.unique ((hP z).mul (gauss_exp_deriv v z))]
  ring

theorem gaussPowExp_two (z : ℂ) : gaussPowExp v 2 z = (v + v ^ 2 * z ^ 2) * cexp (v * z ^ 2 / 2) := by
  rw [gauss_next v 1 (fun z => v * z) (fun _ => v) (fun z => by simpa using (hasDerivAt_id z).const_mul (v : ℂ))
    (gaussPowExp_one v)]
  ring

theorem gaussPowExp_three (z : ℂ) : gaussPowExp v 3 z = (3 * v ^ 2 * z + v ^ 3 * z ^ 3) * cexp (v * z ^ 2 / 2) := by
  rw [gauss_next v 2 (fun z => v + v ^ 2 * z ^ 2) (fun z => 2 * v ^ 2 * z) (fun z => by
    have := ((hasDerivAt_pow 2 z).const_mul ((v : ℂ) ^ 2)).const_add (v : ℂ)
    convert! this using 1
    simp
    ring) (gaussPowExp_two v)]
  ring

theorem gaussPowExp_four (z : ℂ) :
    gaussPowExp v 4 z = (3 * v ^ 2 + 6 * v ^ 3 * z ^ 2 + v ^ 4 * z ^ 4) * cexp (v * z ^ 2 / 2) := by
  rw [gauss_next v 3 (fun z => 3 * v ^ 2 * z + v ^ 3 * z ^ 3) (fun z => 3 * v ^ 2 + 3 * v ^ 3 * z ^ 2) (fun z => by
    have h1 := (hasDerivAt_id z).const_mul (3 * (v : ℂ) ^ 2)
    have h2 := (hasDerivAt_pow 3 z).const_mul ((v : ℂ) ^ 3)
    have := h1.add h2
    convert! this using 1
    simp
    ring) (gaussPowExp_three v)]
  ring

theorem integrable_gauss_pow (n : Nat) : Integrable (fun x : ℝ => x ^ n) (gaussianReal 0 v) := by
  have := (memLp_id_gaussianReal (μ := 0) (v := v) n).integrable_norm_pow' 
  refine (integrable_norm_iff (by fun_prop)).mp ?_
  simpa using this

theorem integrable_gauss_mul (n : Nat) (g : ℝ → ℝ) (hg : Continuous g) (h1 : ∀ x, |g x| ≤ 1) :
    Integrable (fun x : ℝ => x ^ n * g x) (gaussianReal 0 v) := by
  refine (integrable_gauss_pow v n).mul_bdd (c := 1) hg.aestronglyMeasurable (Filter.Eventually.of_forall fun x => ?_)
  rw [Real.norm_eq_abs]
  exact h1 x

theorem gauss_entry (n : Nat) (t x : ℝ) : (x : ℂ) ^ n * cexp (t * I * x) =
    ((x ^ n * Real.cos (t * x) : ℝ) : ℂ) + ((x ^ n * Real.sin (t * x) : ℝ) : ℂ) * I := by
  rw [show (t : ℂ) * I * x = ((t * x : ℝ) : ℂ) * I by push_cast; ring, Complex.exp_mul_I]
  push_cast
  ring

theorem gauss_pow_cos (n : Nat) (t : ℝ) :
    ∫ x, x ^ n * Real.cos (t * x) ∂gaussianReal 0 v = (gaussPowExp v n (t * I)).re := by
  unfold gaussPowExp
  have hi : Integrable (fun x : ℝ => (x : ℂ) ^ n * cexp (t * I * x)) (gaussianReal 0 v) := by
    refine (integrable_norm_iff (by fun_prop)).mp ?_
    refine (integrable_gauss_pow v n).norm.congr (Filter.Eventually.of_forall fun x => ?_)
    have : (t : ℂ) * I * x = ((t * x : ℝ) : ℂ) * I := by push_cast; ring
    simp only [norm_mul, norm_pow, this, Complex.norm_exp_ofReal_mul_I, mul_one, Complex.norm_real]
  rw [← RCLike.re_eq_complex_re, ← integral_re hi]
  refine integral_congr_ae (Filter.Eventually.of_forall fun x => ?_)
  beta_reduce
  rw [gauss_entry, RCLike.re_eq_complex_re]
  simp only [Complex.add_re, Complex.ofReal_re, Complex.ofReal_im, Complex.mul_I_re]
  ring

theorem gauss_pow_sin (n : Nat) (t : ℝ) :
    ∫ x, x ^ n * Real.sin (t * x) ∂gaussianReal 0 v = (gaussPowExp v n (t * I)).im := by
  unfold gaussPowExp
  have hi : Integrable (fun x : ℝ => (x : ℂ) ^ n * cexp (t * I * x)) (gaussianReal 0 v) := by
    refine (integrable_norm_iff (by fun_prop)).mp ?_
    refine (integrable_gauss_pow v n).norm.congr (Filter.Eventually.of_forall fun x => ?_)
    have : (t : ℂ) * I * x = ((t * x : ℝ) : ℂ) * I := by push_cast; ring
    simp only [norm_mul, norm_pow, this, Complex.norm_exp_ofReal_mul_I, mul_one, Complex.norm_real]
  rw [← RCLike.im_eq_complex_im, ← integral_im hi]
  refine integral_congr_ae (Filter.Eventually.of_forall fun x => ?_)
  beta_reduce
  rw [gauss_entry, RCLike.im_eq_complex_im]
  simp only [Complex.add_im, Complex.ofReal_re, Complex.ofReal_im, Complex.mul_I_im]
  ring

theorem gauss_exp_I (t : ℝ) : cexp (v * ((t : ℂ) * I) ^ 2 / 2) = (Real.exp (-(v * t ^ 2 / 2)) : ℂ) := by
  rw [mul_pow, I_sq]
  push_cast
  congr 1
  ring

theorem gauss_cos (t : ℝ) : ∫ x, Real.cos (t * x) ∂gaussianReal 0 v = Real.exp (-(v * t ^ 2 / 2)) := by
  have := gauss_pow_cos v 0 t
  rw [gaussPowExp_zero, gauss_exp_I, Complex.ofReal_re] at this
  simpa using this

theorem gauss_sin (t : ℝ) : ∫ x, Real.sin (t * x) ∂gaussianReal 0 v = 0 := by
  have := gauss_pow_sin v 0 t
  rw [gaussPowExp_zero, gauss_exp_I, Complex.ofReal_im] at this
  simpa using this

theorem gauss_x_sin (t : ℝ) : ∫ x, x * Real.sin (t * x) ∂gaussianReal 0 v = v * t * Real.exp (-(v * t ^ 2 / 2)) := by
  have := gauss_pow_sin v 1 t
  rw [gaussPowExp_one, gauss_exp_I] at this
  simp only [pow_one] at this
  rw [this]
  rw [show (v : ℂ) * (t * I) * (Real.exp (-(v * t ^ 2 / 2)) : ℂ) =
    ((v * t * Real.exp (-(v * t ^ 2 / 2)) : ℝ) : ℂ) * I by push_cast; ring]
  rw [Complex.mul_I_im, Complex.ofReal_re]

theorem gauss_x_cos (t : ℝ) : ∫ x, x * Real.cos (t * x) ∂gaussianReal 0 v = 0 := by
  have := gauss_pow_cos v 1 t
  rw [gaussPowExp_one, gauss_exp_I] at this
  simp only [pow_one] at this
  rw [this]
  rw [show (v : ℂ) * (t * I) * (Real.exp (-(v * t ^ 2 / 2)) : ℂ) =
    ((v * t * Real.exp (-(v * t ^ 2 / 2)) : ℝ) : ℂ) * I by push_cast; ring]
  rw [Complex.mul_I_re, Complex.ofReal_im, neg_zero]

theorem gauss_two_I (t : ℝ) : gaussPowExp v 2 (t * I) = ((v - v ^ 2 * t ^ 2) * Real.exp (-(v * t ^ 2 / 2)) : ℝ) := by
  rw [gaussPowExp_two, gauss_exp_I, mul_pow, I_sq]
  push_cast
  ring

theorem gauss_xx_cos (t : ℝ) :
    ∫ x, x ^ 2 * Real.cos (t * x) ∂gaussianReal 0 v = (v - v ^ 2 * t ^ 2) * Real.exp (-(v * t ^ 2 / 2)) := by
  rw [gauss_pow_cos, gauss_two_I, Complex.ofReal_re]

theorem gauss_xx_sin (t : ℝ) : ∫ x, x ^ 2 * Real.sin (t * x) ∂gaussianReal 0 v = 0 := by
  rw [gauss_pow_sin, gauss_two_I, Complex.ofReal_im]

theorem gauss_x : ∫ x, x ∂gaussianReal 0 v = 0 := integral_id_gaussianReal

theorem gauss_x2 : ∫ x, x ^ 2 ∂gaussianReal 0 v = v := by
  have := gauss_xx_cos v 0
  simpa using this

theorem gauss_x3 : ∫ x, x ^ 3 ∂gaussianReal 0 v = 0 := by
  have := gauss_pow_cos v 3 0
  rw [gaussPowExp_three] at this
  simpa using this

theorem gauss_x4 : ∫ x, x ^ 4 ∂gaussianReal 0 v = 3 * v ^ 2 := by
  have := gauss_pow_cos v 4 0
  rw [gaussPowExp_four] at this
  simp only [zero_mul, Real.cos_zero, mul_one, Complex.ofReal_zero] at this
  rw [this]
  rw [show (3 * (v : ℂ) ^ 2 + 6 * (v : ℂ) ^ 3 * 0 ^ 2 + (v : ℂ) ^ 4 * 0 ^ 4) * cexp ((v : ℂ) * 0 ^ 2 / 2) =
    ((3 * v ^ 2 : ℝ) : ℂ) by simp]
  exact Complex.ofReal_re _

end SALib
