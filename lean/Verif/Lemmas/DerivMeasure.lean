import Verif.Spec.DerivMeasure
import Verif.Lemmas.Poincare
import Verif.Lemmas.SobolMean
import Verif.Lemmas.SobolExpect
import Mathlib.Analysis.Calculus.MeanValue
import Mathlib.Analysis.SpecialFunctions.Integrals.Basic
import Mathlib.MeasureTheory.Integral.IntervalIntegral.Basic
import Mathlib.MeasureTheory.Integral.DominatedConvergence

/-! # The total effect is bounded by the mean squared derivative -/

namespace SALib

open MeasureTheory ProbabilityTheory Spec

section uniform

variable {lo hi : ℝ} (h : lo < hi)
include h

theorem isProb_unifOn : IsProbabilityMeasure (unifOn lo hi) := by
  unfold unifOn
  refine cond_isProbabilityMeasure_of_finite ?_ ?_
  · rw [Real.volume_Icc]; simpa using h
  · rw [Real.volume_Icc]; exact ENNReal.ofReal_ne_top

theorem integral_unifOn (f : ℝ → ℝ) : ∫ t, f t ∂unifOn lo hi = (hi - lo)⁻¹ * ∫ t in lo..hi, f t := by
  unfold unifOn ProbabilityTheory.cond
  rw [integral_smul_measure, Real.volume_Icc, intervalIntegral.integral_of_le h.le,
    integral_Icc_eq_integral_Ioc]
  rw [ENNReal.toReal_inv, ENNReal.toReal_ofReal (by linarith)]
  rfl

omit h in
theorem ae_unifOn_mem : ∀ᵐ t ∂unifOn lo hi, t ∈ Set.Icc lo hi := by
  unfold unifOn
  exact ae_cond_mem measurableSet_Icc

omit h in
/-- No single value has positive probability. -/
theorem ae_unifOn_ne (c : ℝ) : ∀ᵐ t ∂unifOn lo hi, t ≠ c := by
  have hac : unifOn lo hi ≪ volume := cond_absolutelyContinuous
  have hv : ∀ᵐ t ∂(volume : Measure ℝ), t ≠ c := by
    rw [ae_iff]
    simp
  exact hac.ae_le hv

theorem memLp_unifOn (f : ℝ → ℝ) (hf : Continuous f) : MemLp f 2 (unifOn lo hi) := by
  unfold unifOn ProbabilityTheory.cond
  refine MemLp.smul_measure ?_ ?_
  · refine (memLp_two_iff_integrable_sq hf.aestronglyMeasurable).mpr ?_
    exact (hf.pow 2).continuousOn.integrableOn_compact isCompact_Icc
  · rw [Real.volume_Icc]
    simpa using h

/-- The variance of a uniform input. -/
theorem variance_unifOn (a b : ℝ) : Var[fun t => a + b * t; unifOn lo hi] = b ^ 2 * (hi - lo) ^ 2 / 12 := by
  have := isProb_unifOn h
  have hw : hi - lo ≠ 0 := by linarith
  rw [variance_eq_sub (memLp_unifOn h _ (by fun_prop))]
  simp only [Pi.pow_apply]
  rw [integral_unifOn h, integral_unifOn h]
  have e1 : ∫ t in lo..hi, (a + b * t) ^ 2 =
      a ^ 2 * (hi - lo) + a * b * (hi ^ 2 - lo ^ 2) + b ^ 2 * (hi ^ 3 - lo ^ 3) / 3 := by
    have : (fun t : ℝ => (a + b * t) ^ 2) = fun t => a ^ 2 + (2 * a * b) * t + b ^ 2 * t ^ 2 := by
      funext t; ring
    rw [this, intervalIntegral.integral_add, intervalIntegral.integral_add, intervalIntegral.integral_const_mul,
      intervalIntegral.integral_const_mul, intervalIntegral.integral_const, integral_id, integral_pow]
    · rw [smul_eq_mul]; push_cast; ring
    all_goals exact Continuous.intervalIntegrable (by fun_prop) _ _
  have e2 : ∫ t in lo..hi, (a + b * t) = a * (hi - lo) + b * (hi ^ 2 - lo ^ 2) / 2 := by
    rw [intervalIntegral.integral_add, intervalIntegral.integral_const_mul, intervalIntegral.integral_const, integral_id]
    · rw [smul_eq_mul]; ring
    all_goals exact Continuous.intervalIntegrable (by fun_prop) _ _
  rw [e1, e2]
  field_simp
  ring

end uniform

section effects

variable {d : Nat} {lo hi : Fin d → ℝ} (j : Fin d)

theorem mix_onlyInput (x y : Fin d → ℝ) : mix (onlyInput j) x y = setInput x j (y j) := by
  funext i
  unfold mix onlyInput setInput
  by_cases h : i = j
  · simp [h]
  · simp [h]

theorem setInput_self (x : Fin d → ℝ) : setInput x j (x j) = x := by
  funext i
  unfold setInput
  split
  · rename_i h; rw [h]
  · rfl

theorem setInput_setInput (x : Fin d → ℝ) (s t : ℝ) : setInput (setInput x j s) j t = setInput x j t := by
  funext i
  unfold setInput
  split <;> rfl

theorem setInput_at (x : Fin d → ℝ) (t : ℝ) : setInput x j t j = t := by simp [setInput]

theorem measurable_setInput (x : Fin d → ℝ) : Measurable fun t => setInput x j t := by
  refine measurable_pi_lambda _ fun i => ?_
  unfold setInput
  by_cases h : i = j
  · simp only [h, if_true]; exact measurable_id
  · simp only [h, if_false]; exact measurable_const

theorem inBox_setInput {x : Fin d → ℝ} (hx : InBox lo hi x) {t : ℝ} (ht : t ∈ Set.Icc (lo j) (hi j)) :
    InBox lo hi (setInput x j t) := by
  intro i
  unfold setInput
  split
  · rename_i h; rw [h]; exact ht
  · exact hx i

variable (h : ∀ i, lo i < hi i)
include h

theorem ae_inBox : ∀ᵐ x ∂Measure.pi fun i => unifOn (lo i) (hi i), InBox lo hi x := by
  have := fun i => isProb_unifOn (h i)
  refine ae_all_iff.mpr fun i => ?_
  exact (Measure.quasiMeasurePreserving_eval (fun i => unifOn (lo i) (hi i)) i).ae ae_unifOn_mem

theorem ae_pi_ne (c : ℝ) : ∀ᵐ x ∂Measure.pi fun i => unifOn (lo i) (hi i), x j ≠ c := by
  have := fun i => isProb_unifOn (h i)
  exact (Measure.quasiMeasurePreserving_eval (fun i => unifOn (lo i) (hi i)) j).ae (ae_unifOn_ne c)

variable (G G' : (Fin d → ℝ) → ℝ)

/-- Only one input varies. -/
theorem variance_setInput (hG : Measurable G) (x : Fin d → ℝ) :
    Var[fun y => G (mix (onlyInput j) x y); Measure.pi fun i => unifOn (lo i) (hi i)] =
      Var[fun t => G (setInput x j t); unifOn (lo j) (hi j)] := by
  have := fun i => isProb_unifOn (h i)
  simp only [mix_onlyInput]
  exact (measurePreserving_eval (fun i => unifOn (lo i) (hi i)) j).variance_fun_comp
    (f := fun t => G (setInput x j t)) (hG.comp (measurable_setInput j x)).aemeasurable

theorem integral_setInput (hG : Measurable G) (x : Fin d → ℝ) :
    ∫ y, G (mix (onlyInput j) x y) ∂(Measure.pi fun i => unifOn (lo i) (hi i)) =
      ∫ t, G (setInput x j t) ∂unifOn (lo j) (hi j) := by
  have := fun i => isProb_unifOn (h i)
  simp only [mix_onlyInput]
  have hmp := measurePreserving_eval (fun i => unifOn (lo i) (hi i)) j
  have e := integral_map (μ := Measure.pi fun i => unifOn (lo i) (hi i)) hmp.measurable.aemeasurable
    (f := fun t => G (setInput x j t)) (hG.comp (measurable_setInput j x)).aestronglyMeasurable
  rw [hmp.map_eq] at e
  exact e.symm

/-- The bound for one input, all others fixed. -/
theorem variance_le_deriv (hG : Measurable G) (hP : PartialDeriv lo hi j G G') (x : Fin d → ℝ)
    (hx : InBox lo hi x) :
    Var[fun t => G (setInput x j t); unifOn (lo j) (hi j)] ≤
      (hi j - lo j) ^ 2 / Real.pi ^ 2 * ∫ t, G' (setInput x j t) ^ 2 ∂unifOn (lo j) (hi j) := by
  have hw : 0 < hi j - lo j := by linarith [h j]
  have hder : ∀ t ∈ Set.Icc (lo j) (hi j),
      HasDerivWithinAt (fun t => G (setInput x j t)) (G' (setInput x j t)) (Set.Icc (lo j) (hi j)) t := by
    intro t ht
    have := hP.deriv _ (inBox_setInput j hx ht)
    simpa only [setInput_setInput, setInput_at] using this
  have key := poincare (h j) (fun t => G (setInput x j t)) (fun t => G' (setInput x j t))
    (fun t ht => (hder t ht).continuousWithinAt)
    (fun t ht => (hder t (Set.Ioo_subset_Icc_self ht)).hasDerivAt (Icc_mem_nhds ht.1 ht.2)) (hP.cont x hx)
  have hmeas : Measurable fun t => G (setInput x j t) := hG.comp (measurable_setInput j x)
  rw [variance_eq_integral hmeas.aemeasurable, integral_unifOn (h j), integral_unifOn (h j),
    integral_unifOn (h j)]
  have e : (hi j - lo j)⁻¹ * ∫ t in lo j..hi j, G (setInput x j t) = (∫ t in lo j..hi j, G (setInput x j t)) / (hi j - lo j) := by
    rw [inv_mul_eq_div]
  rw [e]
  calc _ ≤ (hi j - lo j)⁻¹ * ((hi j - lo j) ^ 2 / Real.pi ^ 2 * ∫ t in lo j..hi j, G' (setInput x j t) ^ 2) :=
        mul_le_mul_of_nonneg_left key (inv_nonneg.mpr hw.le)
    _ = _ := by ring

/-- **The total effect of an input is at most the mean squared derivative times the squared width over π².** -/
theorem totalEffect_le_deriv (hG : Measurable G) (hG' : Measurable G')
    (hG'2 : MemLp G' 2 (Measure.pi fun i => unifOn (lo i) (hi i))) (hP : PartialDeriv lo hi j G G') :
    totalEffect (fun i => unifOn (lo i) (hi i)) G (onlyInput j) ≤
      (hi j - lo j) ^ 2 / Real.pi ^ 2 * ∫ x, G' x ^ 2 ∂Measure.pi fun i => unifOn (lo i) (hi i) := by
  have := fun i => isProb_unifOn (h i)
  set ν : Fin d → Measure ℝ := fun i => unifOn (lo i) (hi i) with hν
  have hsq : Integrable (fun p : (Fin d → ℝ) × (Fin d → ℝ) => G' (mix (onlyInput j) p.1 p.2) ^ 2)
      ((Measure.pi ν).prod (Measure.pi ν)) := (memLp_mix ν G' hG'2 _).integrable_sq
  have e : ∫ x, G' x ^ 2 ∂Measure.pi ν =
      ∫ x, (∫ y, G' (mix (onlyInput j) x y) ^ 2 ∂Measure.pi ν) ∂Measure.pi ν := by
    rw [← integral_sq_mix ν G' hG'2 (onlyInput j), integral_prod _ hsq]
  rw [e, ← integral_const_mul]
  unfold totalEffect
  refine integral_mono_of_nonneg (Filter.Eventually.of_forall fun x => variance_nonneg _ _)
    (hsq.integral_prod_left.const_mul _) ?_
  filter_upwards [ae_inBox h] with x hx
  rw [variance_setInput j h G hG x]
  have := variance_le_deriv j h G G' hG hP x hx
  rw [← integral_setInput j h (fun x => G' x ^ 2) (hG'.pow_const 2) x] at this
  exact this

/-- The total effect of an input in which the model is affine. -/
theorem totalEffect_affine (hG : Measurable G) (a b : (Fin d → ℝ) → ℝ) (hb : Measurable b)
    (hform : ∀ x, G x = a x + b x * x j) (hai : ∀ x t, a (setInput x j t) = a x)
    (hbi : ∀ x t, b (setInput x j t) = b x) :
    totalEffect (fun i => unifOn (lo i) (hi i)) G (onlyInput j) =
      (hi j - lo j) ^ 2 / 12 * ∫ x, b x ^ 2 ∂Measure.pi fun i => unifOn (lo i) (hi i) := by
  unfold totalEffect
  rw [← integral_const_mul]
  congr 1
  funext x
  rw [variance_setInput j h G hG x]
  have : (fun t => G (setInput x j t)) = fun t => a x + b x * t := by
    funext t; rw [hform, hai, hbi, setInput_at]
  rw [this, variance_unifOn (h j)]
  ring

end effects

/-! ### Small steps -/

section steps

variable {d : Nat} {lo hi : Fin d → ℝ} (j : Fin d)

theorem stepped_mem (a b delta x : ℝ) (hab : a ≤ b) : stepped a b delta x ∈ Set.Icc a b := by
  unfold stepped
  exact ⟨le_max_right _ _, max_le (min_le_right _ _) hab⟩

theorem stepped_ne {a b delta x : ℝ} (hx : x ∈ Set.Ioo a b) (h0 : x ≠ 0) (hd : delta ≠ 0) :
    stepped a b delta x ≠ x := by
  have hne : x * delta ≠ 0 := mul_ne_zero h0 hd
  have e : x * (1 + delta) = x + x * delta := by ring
  unfold stepped
  rw [e]
  obtain ⟨h1, h2⟩ := hx
  rcases lt_or_gt_of_ne hne with h | h
  · rw [min_eq_left (by linarith)]
    exact (max_lt (by linarith) h1).ne
  · have : x < min (x + x * delta) b := lt_min (by linarith) h2
    exact (this.trans_le (le_max_left _ _)).ne'

theorem measurable_stepped (a b delta : ℝ) : Measurable (stepped a b delta) := by
  unfold stepped; fun_prop

theorem measurable_stepQuot (delta : ℝ) (G : (Fin d → ℝ) → ℝ) (hG : Measurable G) :
    Measurable (stepQuot lo hi delta j G) := by
  unfold stepQuot
  have h1 : Measurable fun x : Fin d → ℝ => stepped (lo j) (hi j) delta (x j) :=
    (measurable_stepped _ _ _).comp (measurable_pi_apply j)
  have h2 : Measurable fun x : Fin d → ℝ => setInput x j (stepped (lo j) (hi j) delta (x j)) := by
    refine measurable_pi_lambda _ fun i => ?_
    unfold setInput
    by_cases h : i = j
    · simp only [h, if_true]; exact h1
    · simp only [h, if_false]; exact measurable_pi_apply i
  exact ((hG.comp h2).sub hG).div (h1.sub (measurable_pi_apply j))

variable (h : ∀ i, lo i < hi i) (G G' : (Fin d → ℝ) → ℝ) (hP : PartialDeriv lo hi j G G')
include hP

/-- A bound of the derivative is a bound of the quotients. -/
theorem abs_stepQuot_le (K : ℝ) (hK : ∀ x, InBox lo hi x → |G' x| ≤ K) (delta : ℝ) (x : Fin d → ℝ)
    (hx : InBox lo hi x) : |stepQuot lo hi delta j G x| ≤ K := by
  have hl := (hx j).1.trans (hx j).2
  have hder : ∀ t ∈ Set.Icc (lo j) (hi j),
      HasDerivWithinAt (fun t => G (setInput x j t)) (G' (setInput x j t)) (Set.Icc (lo j) (hi j)) t := by
    intro t ht
    have := hP.deriv _ (inBox_setInput j hx ht)
    simpa only [setInput_setInput, setInput_at] using this
  have key := (convex_Icc (lo j) (hi j)).norm_image_sub_le_of_norm_hasDerivWithin_le (C := K) hder
    (fun t ht => hK _ (inBox_setInput j hx ht)) (hx j) (stepped_mem (lo j) (hi j) delta (x j) hl)
  simp only [setInput_self, Real.norm_eq_abs] at key
  unfold stepQuot
  rw [abs_div]
  have hK0 : 0 ≤ K := (abs_nonneg _).trans (hK x hx)
  exact div_le_of_le_mul₀ (abs_nonneg _) hK0 key

/-- The quotients converge to the derivative as the step shrinks. -/
theorem tendsto_stepQuot (x : Fin d → ℝ) (hx : InBox lo hi x) (h0 : x j ≠ 0) (hl : x j ≠ lo j) (hh : x j ≠ hi j) :
    Filter.Tendsto (fun delta => stepQuot lo hi delta j G x) (nhdsWithin 0 {0}ᶜ) (nhds (G' x)) := by
  have hlt : x j ∈ Set.Ioo (lo j) (hi j) := ⟨lt_of_le_of_ne (hx j).1 hl.symm, lt_of_le_of_ne (hx j).2 hh⟩
  have hs := (hasDerivWithinAt_iff_tendsto_slope.mp (hP.deriv x hx))
  have hc : Filter.Tendsto (fun delta => stepped (lo j) (hi j) delta (x j)) (nhdsWithin 0 {0}ᶜ) (nhds (x j)) := by
    have c : Continuous fun delta => stepped (lo j) (hi j) delta (x j) := by unfold stepped; fun_prop
    have e : stepped (lo j) (hi j) 0 (x j) = x j := by
      unfold stepped
      rw [add_zero, mul_one, min_eq_left (hx j).2, max_eq_left (hx j).1]
    have := c.tendsto 0
    rw [e] at this
    exact this.mono_left nhdsWithin_le_nhds
  have ht : Filter.Tendsto (fun delta => stepped (lo j) (hi j) delta (x j)) (nhdsWithin 0 {0}ᶜ)
      (nhdsWithin (x j) (Set.Icc (lo j) (hi j) \ {x j})) := by
    refine tendsto_nhdsWithin_iff.mpr ⟨hc, ?_⟩
    filter_upwards [self_mem_nhdsWithin] with delta hd
    exact ⟨stepped_mem _ _ _ _ (hlt.1.trans hlt.2).le, stepped_ne hlt h0 hd⟩
  refine (hs.comp ht).congr fun delta => ?_
  simp only [Function.comp, slope_def_field, setInput_self]
  rfl

include h in
/-- **As the step shrinks, the mean squared quotient converges to the mean squared derivative.** -/
theorem tendsto_mean_stepQuot (hG : Measurable G) (K : ℝ) (hK : ∀ x, InBox lo hi x → |G' x| ≤ K) :
    Filter.Tendsto (fun delta => ∫ x, stepQuot lo hi delta j G x ^ 2 ∂Measure.pi fun i => unifOn (lo i) (hi i))
      (nhdsWithin 0 {0}ᶜ) (nhds (∫ x, G' x ^ 2 ∂Measure.pi fun i => unifOn (lo i) (hi i))) := by
  have := fun i => isProb_unifOn (h i)
  refine tendsto_integral_filter_of_dominated_convergence (fun _ => K ^ 2)
    (Filter.Eventually.of_forall fun delta => ((measurable_stepQuot j delta G hG).pow_const 2).aestronglyMeasurable)
    (Filter.Eventually.of_forall fun delta => ?_) (integrable_const _) ?_
  · filter_upwards [ae_inBox h] with x hx
    have h1 := abs_stepQuot_le j G G' hP K hK delta x hx
    rw [Real.norm_eq_abs, abs_of_nonneg (sq_nonneg _), ← sq_abs]
    exact pow_le_pow_left₀ (abs_nonneg _) h1 2
  · filter_upwards [ae_inBox h, ae_pi_ne j h 0, ae_pi_ne j h (lo j), ae_pi_ne j h (hi j)] with x hx h0 h1 h2
    exact (tendsto_stepQuot j G G' hP x hx h0 h1 h2).pow 2

end steps

end SALib
