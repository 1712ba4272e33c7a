import Verif.Lemmas.FixedResamples
import Verif.Lemmas.GroupStudent
import Mathlib.Probability.Distributions.Gaussian.HasGaussianLaw.Independence
import Mathlib.Analysis.Calculus.MeanValue
import Mathlib.Analysis.Real.Pi.Bounds
import Mathlib.Analysis.Complex.ExponentialBounds

/-! # How far the Student probability is from the normal one -/

namespace SALib
open MeasureTheory ProbabilityTheory Filter Topology Spec

/-! ### The normal density has slopes of at most a quarter -/

theorem pdf_eq (x : ℝ) : gaussianPDFReal 0 1 x = (√(2 * Real.pi))⁻¹ * Real.exp (-x ^ 2 / 2) := by
  unfold gaussianPDFReal
  simp

theorem pdf_slope (x : ℝ) : |x * gaussianPDFReal 0 1 x| ≤ 1 / 4 := by
  have hpi := Real.pi_gt_d2
  have h0 : (0 : ℝ) < 2 * Real.pi := by positivity
  refine abs_le_of_sq_le_sq ?_ (by norm_num)
  rw [pdf_eq]
  have e : (x * ((√(2 * Real.pi))⁻¹ * Real.exp (-x ^ 2 / 2))) ^ 2 = x ^ 2 * Real.exp (-x ^ 2) / (2 * Real.pi) := by
    rw [mul_pow, mul_pow, inv_pow, Real.sq_sqrt h0.le, ← Real.exp_nat_mul]
    have : ((2 : ℕ) : ℝ) * (-x ^ 2 / 2) = -x ^ 2 := by push_cast; ring
    rw [this]
    field_simp
  rw [e, div_le_iff₀ h0]
  have h1 : x ^ 2 * Real.exp (-x ^ 2) ≤ Real.exp (-1) := by
    have h := Real.add_one_le_exp (x ^ 2 - 1)
    have : Real.exp (-1) = Real.exp (x ^ 2 - 1) * Real.exp (-x ^ 2) := by rw [← Real.exp_add]; congr 1; ring
    rw [this]
    refine mul_le_mul_of_nonneg_right (by linarith) (Real.exp_pos _).le
  have h2 : Real.exp (-1) < 0.37 := by
    have := Real.exp_neg_one_lt_d9
    linarith
  norm_num at h2 hpi ⊢
  linarith

theorem pdf_hasDeriv (x : ℝ) : HasDerivAt (gaussianPDFReal 0 1) (-(x * gaussianPDFReal 0 1 x)) x := by
  have e : gaussianPDFReal 0 1 = fun x => (√(2 * Real.pi))⁻¹ * Real.exp (-x ^ 2 / 2) := funext pdf_eq
  rw [e]
  have h1 : HasDerivAt (fun x : ℝ => -x ^ 2 / 2) (-x) x := by
    refine (((hasDerivAt_pow 2 x).fun_neg).div_const 2).congr_deriv ?_
    simp
    ring
  refine ((h1.exp).const_mul (√(2 * Real.pi))⁻¹).congr_deriv ?_
  ring

theorem pdf_lipschitz (x y : ℝ) : |gaussianPDFReal 0 1 y - gaussianPDFReal 0 1 x| ≤ 1 / 4 * |y - x| := by
  have := Convex.norm_image_sub_le_of_norm_hasDerivWithin_le (f := gaussianPDFReal 0 1) (s := Set.univ) (x := x) (y := y) (C := 1 / 4)
    (fun t _ => (pdf_hasDeriv t).hasDerivWithinAt) (fun t _ => by
      rw [norm_neg]
      exact pdf_slope t) convex_univ trivial trivial
  exact this

theorem normalWithin_integral (x y : ℝ) (hx : 0 ≤ x) (hxy : x ≤ y) :
    normalWithin y - normalWithin x = 2 * ∫ t in x..y, gaussianPDFReal 0 1 t := by
  rw [normalWithin_eq x hx, normalWithin_eq y (hx.trans hxy), cdf_eq_real, cdf_eq_real, intervalIntegral.integral_of_le hxy,
    ← gaussian_real_eq, ← Set.Iic_sdiff_Iic, measureReal_sdiff (Set.Iic_subset_Iic.mpr hxy) measurableSet_Iic]
  ring

theorem normalWithin_parabola (x z : ℝ) (hx : 0 ≤ x) (hz : 0 ≤ z) :
    normalWithin z + 2 * gaussianPDFReal 0 1 z * (x - z) - (x - z) ^ 2 / 4 ≤ normalWithin x := by
  have hcont : Continuous (gaussianPDFReal 0 1) := continuous_iff_continuousAt.mpr fun t => (pdf_hasDeriv t).continuousAt
  have hi : ∀ a b : ℝ, IntervalIntegrable (gaussianPDFReal 0 1) volume a b := fun a b => hcont.intervalIntegrable a b
  set φ := gaussianPDFReal 0 1 z with hφ
  rcases le_total z x with h | h
  · have e := normalWithin_integral z x hz h
    have : ∫ t in z..x, (φ - 1 / 4 * (t - z)) ≤ ∫ t in z..x, gaussianPDFReal 0 1 t := by
      refine intervalIntegral.integral_mono_on h (Continuous.intervalIntegrable (by fun_prop) _ _) (hi _ _) fun t ht => ?_
      have := (abs_le.mp (pdf_lipschitz z t)).1
      rw [abs_of_nonneg (by linarith [ht.1])] at this
      linarith
    have e2 : ∫ t in z..x, (φ - 1 / 4 * (t - z)) = φ * (x - z) - (x - z) ^ 2 / 8 := by
      rw [intervalIntegral.integral_sub (by simp) (Continuous.intervalIntegrable (by fun_prop) _ _),
        intervalIntegral.integral_const_mul, intervalIntegral.integral_sub (by simp) (by simp)]
      simp
      ring
    nlinarith
  · have e := normalWithin_integral x z hx h
    have : ∫ t in x..z, gaussianPDFReal 0 1 t ≤ ∫ t in x..z, (φ + 1 / 4 * (z - t)) := by
      refine intervalIntegral.integral_mono_on h (hi _ _) (Continuous.intervalIntegrable (by fun_prop) _ _) fun t ht => ?_
      have := (abs_le.mp (pdf_lipschitz z t)).2
      rw [abs_of_nonpos (by linarith [ht.2])] at this
      linarith
    have e2 : ∫ t in x..z, (φ + 1 / 4 * (z - t)) = φ * (z - x) + (z - x) ^ 2 / 8 := by
      rw [intervalIntegral.integral_add (by simp) (Continuous.intervalIntegrable (by fun_prop) _ _),
        intervalIntegral.integral_const_mul, intervalIntegral.integral_sub (by simp) (by simp)]
      simp
      ring
    nlinarith

/-! ### The variance of the sample variance -/

theorem normal_fourth (v : NNReal) : ∫ x, x ^ 4 ∂(gaussianReal 0 v) = 3 * (v : ℝ) ^ 2 := by
  have h : ∫ x, x ^ 4 ∂(gaussianReal 0 v) = iteratedDeriv 4 (mgf (fun x => x) (gaussianReal 0 v)) 0 := by
    rw [iteratedDeriv_mgf_zero] <;> simp
  rw [h, mgf_fun_id_gaussianReal]
  simp only [zero_mul, zero_add]
  have base : ∀ t : ℝ, HasDerivAt (fun t : ℝ => Real.exp (v * t ^ 2 / 2)) (v * t * Real.exp (v * t ^ 2 / 2)) t := by
    intro t
    have h1 : HasDerivAt (fun t : ℝ => v * t ^ 2 / 2) (v * t) t := by
      refine (((hasDerivAt_pow 2 t).const_mul (v : ℝ)).div_const 2).congr_deriv ?_
      simp
      ring
    refine h1.exp.congr_deriv ?_
    ring
  have step : ∀ p p' : ℝ → ℝ, (∀ t, HasDerivAt p (p' t) t) →
      deriv (fun t => p t * Real.exp (v * t ^ 2 / 2)) = fun t => (p' t + v * t * p t) * Real.exp (v * t ^ 2 / 2) := by
    intro p p' hp
    funext t
    rw [((hp t).fun_mul (base t)).deriv]
    ring
  have d0 : deriv (fun t : ℝ => Real.exp (v * t ^ 2 / 2)) = fun t => (v * t) * Real.exp (v * t ^ 2 / 2) := funext fun t => (base t).deriv
  have d1 := step (fun t => v * t) (fun _ => v) fun t => by simpa using (hasDerivAt_id t).const_mul (v : ℝ)
  have d2 := step (fun t => v + v * t * (v * t)) (fun t => 2 * v ^ 2 * t) fun t => by
    refine ((((hasDerivAt_id t).const_mul (v : ℝ)).fun_mul ((hasDerivAt_id t).const_mul (v : ℝ))).const_add (v : ℝ)).congr_deriv ?_
    simp
    ring
  have d3 := step (fun t => 2 * v ^ 2 * t + v * t * (v + v * t * (v * t))) (fun t => 3 * v ^ 2 + 3 * v ^ 3 * t ^ 2) fun t => by
    have h1 := ((hasDerivAt_id t).const_mul (3 * (v : ℝ) ^ 2)).fun_add ((hasDerivAt_pow 3 t).const_mul ((v : ℝ) ^ 3))
    have e : (fun t : ℝ => 2 * (v : ℝ) ^ 2 * t + v * t * (v + v * t * (v * t))) = fun t => 3 * (v : ℝ) ^ 2 * id t + (v : ℝ) ^ 3 * t ^ 3 := by
      funext s
      simp only [id]
      ring
    rw [e]
    refine h1.congr_deriv ?_
    simp
    ring
  rw [iteratedDeriv_succ, iteratedDeriv_succ, iteratedDeriv_succ, iteratedDeriv_one, d0, d1, d2, d3]
  simp

section

variable {R : Nat}

local notation "π" => (Measure.pi fun _ : Fin R => gaussianReal 0 1)

theorem memLp_sq_normal (v : NNReal) : MemLp (fun x : ℝ => x ^ 2) 2 (gaussianReal 0 v) := by
  refine (memLp_two_iff_integrable_sq (by fun_prop)).mpr ?_
  have h := (memLp_id_gaussianReal' (μ := 0) (v := v) 4 (by norm_num)).integrable_norm_pow (p := 4) (by norm_num)
  refine h.congr (Eventually.of_forall fun x => ?_)
  show ‖x‖ ^ 4 = (x ^ 2) ^ 2
  rw [Real.norm_eq_abs, ← pow_mul, (by decide : Even (2 * 2)).pow_abs]

theorem variance_sq_normal (v : NNReal) : Var[fun x => x ^ 2; gaussianReal 0 v] = 2 * (v : ℝ) ^ 2 := by
  rw [variance_eq_sub (memLp_sq_normal v)]
  have h2 : ∫ x, x ^ 2 ∂(gaussianReal 0 v) = v := by
    have hv := variance_id_gaussianReal (μ := 0) (v := v)
    rw [variance_eq_integral aemeasurable_id] at hv
    simp only [id, integral_id_gaussianReal, sub_zero] at hv
    exact hv
  have h4 := normal_fourth v
  have e : ∫ x, ((fun x : ℝ => x ^ 2) ^ 2) x ∂(gaussianReal 0 v) = ∫ x, x ^ 4 ∂(gaussianReal 0 v) := by
    congr 1
    funext x
    show (x ^ 2) ^ 2 = x ^ 4
    ring
  rw [e, h4, h2]
  ring

theorem variance_sq_coords : Var[fun b : Fin R → ℝ => ∑ r, b r ^ 2; π] = 2 * R := by
  have h := variance_sum_pi (μ := fun _ : Fin R => gaussianReal 0 1) (X := fun _ x => x ^ 2) fun _ => memLp_sq_normal 1
  have e : (∑ i : Fin R, fun ω : Fin R → ℝ => ω i ^ 2) = fun b => ∑ r, b r ^ 2 := by
    ext b
    simp
  rw [e] at h
  rw [h]
  simp only [variance_sq_normal]
  simp
  ring

theorem gaussian_coords : HasGaussianLaw (fun b : Fin R → ℝ => b) π := by
  have hi : iIndepFun (fun (i : Fin R) (ω : Fin R → ℝ) => ω i) π := iIndepFun_pi (X := fun _ x => x) fun _ => aemeasurable_id
  refine iIndepFun.hasGaussianLaw (fun i => ?_) hi
  have hl : HasLaw (fun ω : Fin R → ℝ => ω i) (gaussianReal 0 1) π := ⟨(measurable_pi_apply i).aemeasurable, (measurePreserving_eval _ i).map_eq⟩
  exact hl.hasGaussianLaw

theorem law_sum : Measure.map (fun b : Fin R → ℝ => ∑ r, b r) π = gaussianReal 0 (R : NNReal) := by
  have h := (gaussian_coords (R := R)).fun_sum
  rw [h.map_eq_gaussianReal]
  have m0 : ∫ b, (∑ r, b r) ∂π = 0 := by
    rw [integral_finsetSum _ fun r _ => (memLp_normalCoord r).integrable (by norm_num)]
    exact Finset.sum_eq_zero fun r _ => mean_coord r
  have hv : Var[fun b : Fin R → ℝ => ∑ r, b r; π] = R := by
    rw [variance_eq_integral memLp_coords.aestronglyMeasurable.aemeasurable, m0]
    simp only [sub_zero]
    exact sq_coords
  rw [hv, m0]
  congr 1
  exact Real.toNNReal_natCast R

theorem variance_sum_sq : Var[fun b : Fin R → ℝ => (∑ r, b r) ^ 2; π] = 2 * (R : ℝ) ^ 2 := by
  have h := variance_sq_normal (R : NNReal)
  rw [← law_sum, variance_map (by fun_prop) (by fun_prop)] at h
  exact h.trans (by simp)

theorem memLp_sum_sq : MemLp (fun b : Fin R → ℝ => (∑ r, b r) ^ 2) 2 π := by
  have h := memLp_sq_normal (R : NNReal)
  rw [← law_sum] at h
  exact h.comp_of_map (by fun_prop)

theorem memLp_sq_coords : MemLp (fun b : Fin R → ℝ => ∑ r, b r ^ 2) 2 π :=
  memLp_finset_sum _ fun r _ => (memLp_sq_normal 1).comp_measurePreserving (measurePreserving_eval (fun _ : Fin R => gaussianReal 0 1) r)

/-- The sum and the sample variance are independent. -/
theorem sum_indep_drawVar (hR : 2 ≤ R) : IndepFun (fun b : Fin R → ℝ => ∑ r, b r) (fun b => drawVar b) π := by
  have hR2 : (2 : ℝ) ≤ R := by exact_mod_cast hR
  let L : (Fin R → ℝ) →L[ℝ] (Fin 1 → ℝ) × (Fin R → ℝ) :=
    LinearMap.toContinuousLinearMap
      { toFun := fun b => (fun _ => ∑ r, b r, fun r => b r - (∑ r, b r) / R)
        map_add' := fun a b => by
          ext i
          · simp [Finset.sum_add_distrib]
          · simp [Finset.sum_add_distrib]
            ring
        map_smul' := fun c b => by
          ext i
          · simp [Finset.mul_sum]
          · simp [← Finset.mul_sum]
            ring }
  have hL : HasGaussianLaw (fun b : Fin R → ℝ => ((fun _ : Fin 1 => ∑ r, b r), fun r : Fin R => b r - (∑ r, b r) / R)) π :=
    (gaussian_coords (R := R)).map_fun L
  have hcov : ∀ (i : Fin 1) (j : Fin R), cov[fun b : Fin R → ℝ => ∑ r, b r, fun b => b j - (∑ r, b r) / R; π] = 0 := by
    intro _ j
    have hTj : cov[fun b : Fin R → ℝ => ∑ r, b r, fun b => b j; π] = 1 := by
      rw [covariance_fun_sum_left (fun r => memLp_normalCoord r) (memLp_normalCoord j), Finset.sum_eq_single j]
      · rw [covariance_self (measurable_pi_apply j).aemeasurable, variance_eq_integral (measurable_pi_apply j).aemeasurable, mean_coord]
        simp only [sub_zero]
        exact sq_coord j
      · intro r _ hr
        have hi : iIndepFun (fun (i : Fin R) (ω : Fin R → ℝ) => ω i) π := iIndepFun_pi (X := fun _ x => x) fun _ => aemeasurable_id
        exact (hi.indepFun hr).covariance_eq_zero (memLp_normalCoord r) (memLp_normalCoord j)
      · simp
    have hTT : cov[fun b : Fin R → ℝ => ∑ r, b r, fun b => ∑ r, b r; π] = R := by
      have m0 : ∫ b, (∑ r, b r) ∂π = 0 := by
        rw [integral_finsetSum _ fun r _ => (memLp_normalCoord r).integrable (by norm_num)]
        exact Finset.sum_eq_zero fun r _ => mean_coord r
      rw [covariance_self (by fun_prop), variance_eq_integral (by fun_prop), m0]
      simp only [sub_zero]
      exact sq_coords
    have e : (fun b : Fin R → ℝ => b j - (∑ r, b r) / (R : ℝ)) = (fun b => b j) - fun b => (R : ℝ)⁻¹ * ∑ r, b r := by
      funext b
      show b j - (∑ r, b r) / (R : ℝ) = b j - (R : ℝ)⁻¹ * ∑ r, b r
      ring
    rw [e, covariance_sub_right memLp_coords (memLp_normalCoord j) (memLp_coords.const_mul _), covariance_const_mul_right, hTj, hTT,
      inv_mul_cancel₀ (by linarith), sub_self]
  have h := HasGaussianLaw.indepFun_of_covariance_eval (X := fun _ (b : Fin R → ℝ) => ∑ r, b r) (Y := fun j (b : Fin R → ℝ) => b j - (∑ r, b r) / R) hL hcov
  have hp : Measurable fun x : Fin 1 → ℝ => x 0 := measurable_pi_apply _
  have hd : Measurable fun y : Fin R → ℝ => drawVar y := continuous_drawVar.measurable
  have h2 := h.comp hp hd
  have e : (fun y : Fin R → ℝ => drawVar y) ∘ (fun (b : Fin R → ℝ) j => b j - (∑ r, b r) / R) = fun b => drawVar b := by
    funext b
    have := drawVar_affine (by omega) b 1 ((∑ r, b r) / R)
    simpa using this
  rw [e] at h2
  exact h2

theorem variance_drawVar (hR : 2 ≤ R) : Var[fun b : Fin R → ℝ => drawVar b; π] = 2 / (R - 1) := by
  have hR2 : (2 : ℝ) ≤ R := by exact_mod_cast hR
  have e : (fun b : Fin R → ℝ => ∑ r, b r ^ 2) = (fun b : Fin R → ℝ => (∑ r, b r) ^ 2 * (1 / (R : ℝ))) + fun b : Fin R → ℝ => (R - 1 : ℝ) * drawVar b := by
    funext b
    show _ = (∑ r, b r) ^ 2 * (1 / (R : ℝ)) + (R - 1) * drawVar b
    rw [drawVar_sq hR]
    have : (R : ℝ) - 1 ≠ 0 := by linarith
    field_simp
    ring
  have m2 : MemLp (fun b : Fin R → ℝ => (R - 1 : ℝ) * drawVar b) 2 π := by
    have : (fun b : Fin R → ℝ => (R - 1 : ℝ) * drawVar b) = (fun b : Fin R → ℝ => ∑ r, b r ^ 2) - fun b : Fin R → ℝ => (∑ r, b r) ^ 2 * (1 / (R : ℝ)) := by
      rw [e]
      simp
    rw [this]
    exact memLp_sq_coords.sub (memLp_sum_sq.mul_const _)
  have hi : IndepFun (fun b : Fin R → ℝ => (∑ r, b r) ^ 2 * (1 / R)) (fun b => (R - 1 : ℝ) * drawVar b) π :=
    (sum_indep_drawVar hR).comp (φ := fun x => x ^ 2 * (1 / (R : ℝ))) (ψ := fun y => (R - 1 : ℝ) * y) (by fun_prop) (by fun_prop)
  have h := variance_sq_coords (R := R)
  rw [e, hi.variance_add (memLp_sum_sq.mul_const _) m2, variance_mul_const, variance_sum_sq, variance_const_mul] at h
  have h1 : (R : ℝ) - 1 ≠ 0 := by linarith
  have h2 : (R : ℝ) ≠ 0 := by linarith
  rw [eq_div_iff h1]
  field_simp at h
  have h3 : (R - 1 : ℝ) * (Var[fun b : Fin R → ℝ => drawVar b; π] * (R - 1) - 2) = 0 := by linarith
  rcases mul_eq_zero.mp h3 with h4 | h4
  · exact absurd h4 h1
  · linarith

theorem integral_sqrt_drawVar_sq (hR : 2 ≤ R) : Integrable (fun b : Fin R → ℝ => (√(drawVar b) - 1) ^ 2) π ∧
    ∫ b : Fin R → ℝ, (√(drawVar b) - 1) ^ 2 ∂π = 2 * (1 - ∫ b : Fin R → ℝ, √(drawVar b) ∂π) := by
  have e : ∀ b : Fin R → ℝ, (√(drawVar b) - 1) ^ 2 = drawVar b - 2 * √(drawVar b) + 1 := by
    intro b
    have := Real.sq_sqrt (drawVar_nonneg hR b)
    nlinarith
  have hsub : Integrable (fun b : Fin R → ℝ => drawVar b - 2 * √(drawVar b)) π :=
    (integrable_drawVar hR).sub ((integrable_sqrt_drawVar hR).const_mul 2)
  simp only [e]
  refine ⟨hsub.add (integrable_const 1), ?_⟩
  rw [integral_add hsub (integrable_const 1), integral_sub (integrable_drawVar hR) ((integrable_sqrt_drawVar hR).const_mul 2),
    integral_const_mul, mean_drawVar_normal hR]
  simp
  ring

/-- The sample standard deviation falls short of one by at most `1 / (R - 1)` on average. -/
theorem mean_sqrt_ge (hR : 2 ≤ R) : 1 - ∫ b : Fin R → ℝ, √(drawVar b) ∂π ≤ 1 / (R - 1) := by
  obtain ⟨i1, e1⟩ := integral_sqrt_drawVar_sq hR
  have hv := variance_drawVar hR
  have m2 : MemLp (fun b : Fin R → ℝ => drawVar b) 2 π := by
    have : (fun b : Fin R → ℝ => drawVar b) =
        fun b : Fin R → ℝ => ((fun b : Fin R → ℝ => ∑ r, b r ^ 2) b - (∑ r, b r) ^ 2 * (R : ℝ)⁻¹) * (R - 1 : ℝ)⁻¹ := by
      funext b
      rw [drawVar_sq hR, div_eq_mul_inv, div_eq_mul_inv]
    rw [this]
    exact (memLp_sq_coords.sub (memLp_sum_sq.mul_const _)).mul_const _
  rw [variance_eq_integral m2.aestronglyMeasurable.aemeasurable, mean_drawVar_normal hR] at hv
  have i2 : Integrable (fun b : Fin R → ℝ => (drawVar b - 1) ^ 2) π := (m2.sub (memLp_const 1)).integrable_sq
  have h := integral_mono i1 i2 fun b => by
    show (√(drawVar b) - 1) ^ 2 ≤ (drawVar b - 1) ^ 2
    have h0 := Real.sqrt_nonneg (drawVar b)
    have h1 := Real.sq_sqrt (drawVar_nonneg hR b)
    have : drawVar b - 1 = (√(drawVar b) - 1) * (√(drawVar b) + 1) := by nlinarith
    rw [this, mul_pow]
    have h2 : (1 : ℝ) ≤ (√(drawVar b) + 1) ^ 2 := by nlinarith
    nlinarith [sq_nonneg (√(drawVar b) - 1)]
  rw [e1, hv] at h
  have : (2 : ℝ) / (R - 1) = 2 * (1 / (R - 1)) := by ring
  linarith

theorem student_parabola (hR : 2 ≤ R) (z : ℝ) (hz : 0 ≤ z) :
    Integrable (fun b : Fin R → ℝ => normalWithin z + 2 * gaussianPDFReal 0 1 z * z * (√(drawVar b) - 1) -
      z ^ 2 / 4 * (√(drawVar b) - 1) ^ 2) π ∧
    normalWithin z - (1 + z ^ 2) / (2 * (R - 1)) ≤ ∫ b : Fin R → ℝ, (normalWithin z + 2 * gaussianPDFReal 0 1 z * z * (√(drawVar b) - 1) -
      z ^ 2 / 4 * (√(drawVar b) - 1) ^ 2) ∂π := by
  have hR2 : (2 : ℝ) ≤ R := by exact_mod_cast hR
  obtain ⟨i1, e1⟩ := integral_sqrt_drawVar_sq hR
  set φ := gaussianPDFReal 0 1 z with hφ
  have i2 : Integrable (fun b : Fin R → ℝ => 2 * φ * z * (√(drawVar b) - 1)) π :=
    ((integrable_sqrt_drawVar hR).sub (integrable_const 1)).const_mul _
  have i3 : Integrable (fun b : Fin R → ℝ => z ^ 2 / 4 * (√(drawVar b) - 1) ^ 2) π := i1.const_mul _
  have i4 : Integrable (fun b : Fin R → ℝ => normalWithin z + 2 * φ * z * (√(drawVar b) - 1)) π := (integrable_const _).add i2
  refine ⟨i4.sub i3, ?_⟩
  have e2 : ∫ b : Fin R → ℝ, (normalWithin z + 2 * φ * z * (√(drawVar b) - 1) - z ^ 2 / 4 * (√(drawVar b) - 1) ^ 2) ∂π =
      normalWithin z - (2 * φ * z + z ^ 2 / 2) * (1 - ∫ b : Fin R → ℝ, √(drawVar b) ∂π) := by
    rw [integral_sub i4 i3, integral_add (integrable_const _) i2, integral_const_mul, integral_const_mul, e1,
      integral_sub (integrable_sqrt_drawVar hR) (integrable_const 1)]
    simp
    ring
  rw [e2]
  have hs := (abs_le.mp (pdf_slope z)).2
  rw [← hφ] at hs
  have he := mean_sqrt_ge hR
  have he0 := mean_sqrt_drawVar hR
  have h1 : (2 * φ * z + z ^ 2 / 2) * (1 - ∫ b : Fin R → ℝ, √(drawVar b) ∂π) ≤ (1 / 2 + z ^ 2 / 2) * (1 / (R - 1)) :=
    mul_le_mul (by linarith) he (by linarith) (by positivity)
  have h2 : (1 + z ^ 2) / (2 * ((R : ℝ) - 1)) = (1 / 2 + z ^ 2 / 2) * (1 / (R - 1)) := by
    have : (R : ℝ) - 1 ≠ 0 := by linarith
    field_simp
  linarith

/-- The Student probability is below the normal one by at most `(1 + z²) / (2 (R - 1))`. -/
theorem studentWithin_ge (hR : 2 ≤ R) (z : ℝ) (hz : 0 ≤ z) : normalWithin z - (1 + z ^ 2) / (2 * (R - 1)) ≤ studentWithin R z := by
  obtain ⟨i1, h1⟩ := student_parabola hR z hz
  rw [studentWithin_eq]
  have i5 : Integrable (fun b : Fin R → ℝ => normalWithin (z * √(drawVar b))) π := by
    refine Integrable.of_bound (normalWithin_mono.measurable.comp (continuous_studentWidth z).measurable).aestronglyMeasurable 1
      (Eventually.of_forall fun b => ?_)
    unfold normalWithin
    rw [Real.norm_of_nonneg measureReal_nonneg]
    exact measureReal_le_one
  refine h1.trans (integral_mono i1 i5 fun b => ?_)
  have := normalWithin_parabola (z * √(drawVar b)) z (mul_nonneg hz (Real.sqrt_nonneg _)) hz
  beta_reduce
  linarith

end

/-- The same for a mean of several standard deviations. -/
theorem studentGroup_ge {m R : Nat} (hm : 0 < m) (hR : 2 ≤ R) (z : ℝ) (hz : 0 ≤ z) :
    normalWithin z - (1 + z ^ 2) / (2 * (R - 1)) ≤ studentGroup m R z := by
  have hmr : (0 : ℝ) < m := by exact_mod_cast hm
  let g : Fin m × Fin R → Fin (m * R) := finProdFinEquiv
  have hg : g.Injective := finProdFinEquiv.injective
  rw [← normalWidth_group g hg z, normalWidth_eq (continuous_groupWidth g z)]
  set π := Measure.pi fun _ : Fin (m * R) => gaussianReal 0 1 with hπ
  set φ := gaussianPDFReal 0 1 z with hφ
  obtain ⟨i1, h1⟩ := student_parabola hR z hz
  let k : (Fin R → ℝ) → ℝ := fun b => normalWithin z + 2 * φ * z * (√(drawVar b) - 1) - z ^ 2 / 4 * (√(drawVar b) - 1) ^ 2
  have mblock : ∀ i, Measurable fun (b : Fin (m * R) → ℝ) (r : Fin R) => b (g (i, r)) := fun i =>
    measurable_pi_lambda _ fun r => measurable_pi_apply _
  have hblock : ∀ i, Measure.map (fun (b : Fin (m * R) → ℝ) (r : Fin R) => b (g (i, r))) π = Measure.pi fun _ : Fin R => gaussianReal 0 1 :=
    fun i => normals_precomp (fun r => g (i, r)) fun r r' h => (Prod.ext_iff.mp (hg h)).2
  have ik : ∀ i, Integrable (fun b : Fin (m * R) → ℝ => k fun r => b (g (i, r))) π := by
    intro i
    have : Integrable k (Measure.pi fun _ : Fin R => gaussianReal 0 1) := i1
    rw [← hblock i] at this
    exact this.comp_measurable (mblock i)
  have hk : ∀ i, normalWithin z - (1 + z ^ 2) / (2 * ((R : ℝ) - 1)) ≤ ∫ b : Fin (m * R) → ℝ, k (fun r => b (g (i, r))) ∂π := by
    intro i
    have h2 : normalWithin z - (1 + z ^ 2) / (2 * ((R : ℝ) - 1)) ≤ ∫ b, k b ∂(Measure.pi fun _ : Fin R => gaussianReal 0 1) := h1
    rw [← hblock i, integral_map (mblock i).aemeasurable (by rw [hblock i]; exact i1.aestronglyMeasurable)] at h2
    exact h2
  have isum : Integrable (fun b : Fin (m * R) → ℝ => (∑ i, k fun r => b (g (i, r))) / m) π :=
    (integrable_finsetSum _ fun i _ => ik i).div_const _
  have hi2 : Integrable (fun b => normalWithin (groupWidth g z b)) π := by
    refine Integrable.of_bound (normalWithin_mono.measurable.comp (continuous_groupWidth g z).measurable).aestronglyMeasurable 1
      (Eventually.of_forall fun b => ?_)
    unfold normalWithin
    rw [Real.norm_of_nonneg measureReal_nonneg]
    exact measureReal_le_one
  have h3 : normalWithin z - (1 + z ^ 2) / (2 * ((R : ℝ) - 1)) ≤ ∫ b : Fin (m * R) → ℝ, (∑ i, k fun r => b (g (i, r))) / m ∂π := by
    rw [integral_div, integral_finsetSum _ fun i _ => ik i, le_div_iff₀ hmr]
    have := Finset.card_nsmul_le_sum Finset.univ _ _ fun i (_ : i ∈ Finset.univ) => hk i
    rw [Finset.card_univ, Fintype.card_fin, nsmul_eq_mul] at this
    linarith
  refine h3.trans (integral_mono isum hi2 fun b => ?_)
  beta_reduce
  set s : Fin m → ℝ := fun i => √(drawVar fun r => b (g (i, r))) - 1 with hs
  have hW : groupWidth g z b = z * ((∑ i, √(drawVar fun r => b (g (i, r)))) / m) := rfl
  have hW2 : groupWidth g z b - z = z * ((∑ i, s i) / m) := by
    rw [hW, hs, Finset.sum_sub_distrib]
    simp
    field_simp
  have hW0 : 0 ≤ groupWidth g z b := mul_nonneg hz (div_nonneg (Finset.sum_nonneg fun _ _ => Real.sqrt_nonneg _) hmr.le)
  have hp := normalWithin_parabola (groupWidth g z b) z hW0 hz
  rw [hW2, ← hφ] at hp
  have hcs : ((∑ i, s i) / m) ^ 2 ≤ (∑ i, s i ^ 2) / m := by
    have := sq_sum_le_card_mul_sum_sq (s := (Finset.univ : Finset (Fin m))) (f := s)
    rw [Finset.card_univ, Fintype.card_fin] at this
    rw [div_pow, div_le_div_iff₀ (by positivity) hmr]
    nlinarith
  have hsum : (∑ i, k fun r => b (g (i, r))) / m = normalWithin z + 2 * φ * z * ((∑ i, s i) / m) - z ^ 2 / 4 * ((∑ i, s i ^ 2) / m) := by
    have : ∀ i, k (fun r => b (g (i, r))) = normalWithin z + 2 * φ * z * s i - z ^ 2 / 4 * s i ^ 2 := fun i => rfl
    rw [Finset.sum_congr rfl fun i _ => this i, Finset.sum_sub_distrib, Finset.sum_add_distrib, ← Finset.mul_sum, ← Finset.mul_sum]
    simp
    field_simp
  rw [hsum]
  have hz2 : 0 ≤ z ^ 2 / 4 := by positivity
  have := mul_le_mul_of_nonneg_left hcs hz2
  have e : (z * ((∑ i, s i) / m)) ^ 2 / 4 = z ^ 2 / 4 * ((∑ i, s i) / m) ^ 2 := by ring
  rw [e] at hp
  linarith

end SALib
