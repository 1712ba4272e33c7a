import Verif.Model.SobolG
import Verif.Lemmas.ListAux
import Mathlib.MeasureTheory.Integral.Pi
import Mathlib.MeasureTheory.Integral.IntervalIntegral.Periodic
import Mathlib.Analysis.SpecialFunctions.Integrals.Basic
import Mathlib.Probability.Moments.Variance
import Mathlib.MeasureTheory.Function.Floor

/-! # The reference indices of the G-function are its variance ratios (C65) -/

set_option linter.unusedSectionVars false

namespace SALib

open MeasureTheory ProbabilityTheory

namespace Spec

/-- The uniform distribution on the unit interval. -/
noncomputable def unif : Measure ℝ := volume.restrict (Set.Icc 0 1)

/-- Independent uniform inputs. -/
noncomputable def unifs (d : Nat) : Measure (Fin d → ℝ) := Measure.pi fun _ => unif

/-- The variance of the output. -/
noncomputable def outVar {d : Nat} (G : (Fin d → ℝ) → ℝ) : ℝ := Var[G; unifs d]

/-- The variance of the mean output given input `i`: the first-order effect. -/
noncomputable def firstVar {d : Nat} (G : (Fin d → ℝ) → ℝ) (i : Fin d) : ℝ :=
  Var[fun t => ∫ x, G (Function.update x i t) ∂unifs d; unif]

/-- The mean variance of the output given all inputs but `i`: the total effect. -/
noncomputable def totalVar {d : Nat} (G : (Fin d → ℝ) → ℝ) (i : Fin d) : ℝ :=
  ∫ x, Var[fun t => G (Function.update x i t); unif] ∂unifs d

end Spec

open Spec

instance unif_isProb : IsProbabilityMeasure unif := ⟨by simp [unif]⟩

instance unifs_isProb (d : Nat) : IsProbabilityMeasure (unifs d) := by unfold unifs; infer_instance

/-! ### One factor -/

/-- The factor with the fractional part. -/
noncomputable def gf (a delta alpha x : ℝ) : ℝ := ((1 + alpha) * |2 * Int.fract (x + delta) - 1| ^ alpha + a) / (1 + a)

theorem gFactor_eq (a delta alpha x : ℝ) (h : 0 ≤ x + delta) : gFactor a delta alpha x = gf a delta alpha x := by
  unfold gFactor gf modfInt
  simp only []
  rw [if_pos h]
  rfl

theorem measurable_gf (a delta alpha : ℝ) : Measurable (gf a delta alpha) := by
  unfold gf
  have h : Measurable fun x : ℝ => |2 * Int.fract (x + delta) - 1| :=
    continuous_abs.measurable.comp
      (((measurable_fract.comp (measurable_id.add_const delta)).const_mul 2).sub_const 1)
  exact (((h.pow_const alpha).const_mul _).add_const _).div_const _

theorem gf_bound (a delta alpha : ℝ) (hal : 0 < alpha) (x : ℝ) :
    ‖gf a delta alpha x‖ ≤ ((1 + alpha) + |a|) / |1 + a| := by
  unfold gf
  rw [Real.norm_eq_abs, abs_div]
  refine div_le_div_of_nonneg_right ?_ (abs_nonneg _)
  refine (abs_add_le _ _).trans ?_
  refine add_le_add ?_ le_rfl
  have h0 := Int.fract_nonneg (x + delta)
  have h1 := (Int.fract_lt_one (x + delta)).le
  have h2 : |2 * Int.fract (x + delta) - 1| ≤ 1 := abs_le.mpr ⟨by linarith, by linarith⟩
  have h3 : |2 * Int.fract (x + delta) - 1| ^ alpha ≤ 1 := Real.rpow_le_one (abs_nonneg _) h2 hal.le
  have h4 : 0 ≤ |2 * Int.fract (x + delta) - 1| ^ alpha := Real.rpow_nonneg (abs_nonneg _) _
  rw [abs_of_nonneg (by positivity)]
  nlinarith

theorem gf_memLp (a delta alpha : ℝ) (hal : 0 < alpha) : MemLp (gf a delta alpha) 2 unif :=
  MemLp.of_bound (measurable_gf a delta alpha).aestronglyMeasurable _ (Filter.Eventually.of_forall (gf_bound a delta alpha hal))

theorem integral_unif (f : ℝ → ℝ) : ∫ x, f x ∂unif = ∫ x in (0:ℝ)..1, f x := by
  unfold unif
  rw [intervalIntegral.integral_of_le zero_le_one, integral_Icc_eq_integral_Ioc]

theorem integral_shift (h : ℝ → ℝ) (delta : ℝ) :
    ∫ x, h (Int.fract (x + delta)) ∂unif = ∫ x in (0:ℝ)..1, h x := by
  rw [integral_unif, intervalIntegral.integral_comp_add_right (fun u => h (Int.fract u)) delta]
  have hp : Function.Periodic (fun u : ℝ => h (Int.fract u)) 1 := by
    intro u
    simp
  have := hp.intervalIntegral_add_eq delta 0
  rw [zero_add, add_comm, this, zero_add]
  apply intervalIntegral.integral_congr_ae
  have : ∀ᵐ x : ℝ ∂volume, x ≠ 1 := by
    simp [ae_iff]
  filter_upwards [this] with x hx hx'
  rw [Set.uIoc_of_le zero_le_one] at hx'
  rw [Int.fract_eq_self.mpr ⟨hx'.1.le, lt_of_le_of_ne hx'.2 hx⟩]

theorem integral_abs_rpow (r : ℝ) (hr : 0 < r) : ∫ x in (0:ℝ)..1, |2 * x - 1| ^ r = 1 / (r + 1) := by
  have h1 : ∫ x in (0:ℝ)..1, |2 * x - 1| ^ r = (2:ℝ)⁻¹ * ∫ x in (-1:ℝ)..1, |x| ^ r := by
    rw [intervalIntegral.integral_comp_mul_sub (fun u => |u| ^ r) (two_ne_zero) 1]
    norm_num
  have hc : Continuous fun x : ℝ => |x| ^ r := continuous_abs.rpow_const fun _ => Or.inr hr.le
  have h2 : ∫ x in (0:ℝ)..1, |x| ^ r = 1 / (r + 1) := by
    rw [intervalIntegral.integral_congr (g := fun x => x ^ r)]
    · rw [integral_rpow (Or.inl (by linarith))]
      rw [Real.one_rpow, Real.zero_rpow (by linarith), sub_zero]
    · intro x hx
      rw [Set.uIcc_of_le zero_le_one] at hx
      simp only [abs_of_nonneg hx.1]
  have h3 : ∫ x in (-1:ℝ)..0, |x| ^ r = 1 / (r + 1) := by
    rw [← h2]
    have := intervalIntegral.integral_comp_neg (fun u : ℝ => |u| ^ r) (a := 0) (b := 1)
    simp only [abs_neg, neg_zero] at this
    exact this.symm
  rw [h1, ← intervalIntegral.integral_add_adjacent_intervals (b := 0) (hc.intervalIntegrable _ _) (hc.intervalIntegrable _ _),
    h2, h3]
  ring

theorem integral_gf (a delta alpha : ℝ) (ha : a ≠ -1) (hal : 0 < alpha) : ∫ x, gf a delta alpha x ∂unif = 1 := by
  have ha' : 1 + a ≠ 0 := fun h => ha (by linarith)
  have e := integral_shift (fun u => ((1 + alpha) * |2 * u - 1| ^ alpha + a) / (1 + a)) delta
  have hc : Continuous fun x : ℝ => |2 * x - 1| ^ alpha :=
    (continuous_abs.comp (by fun_prop : Continuous fun x : ℝ => 2 * x - 1)).rpow_const fun _ => Or.inr hal.le
  have : ∫ x, gf a delta alpha x ∂unif = ∫ x, ((1 + alpha) * |2 * Int.fract (x + delta) - 1| ^ alpha + a) / (1 + a) ∂unif := rfl
  rw [this, e, intervalIntegral.integral_div, intervalIntegral.integral_add
    ((hc.intervalIntegrable _ _).const_mul _) (by simp), intervalIntegral.integral_const_mul, integral_abs_rpow alpha hal]
  simp
  field_simp
  ring_nf

theorem integral_gf_sq (a delta alpha : ℝ) (ha : a ≠ -1) (hal : 0 < alpha) :
    ∫ x, gf a delta alpha x ^ 2 ∂unif = 1 + alpha ^ 2 / ((1 + 2 * alpha) * (1 + a) ^ 2) := by
  have ha' : 1 + a ≠ 0 := fun h => ha (by linarith)
  have e := integral_shift (fun u => (((1 + alpha) * |2 * u - 1| ^ alpha + a) / (1 + a)) ^ 2) delta
  have hc : Continuous fun x : ℝ => |2 * x - 1| ^ alpha :=
    (continuous_abs.comp (by fun_prop : Continuous fun x : ℝ => 2 * x - 1)).rpow_const fun _ => Or.inr hal.le
  have hc2 : Continuous fun x : ℝ => |2 * x - 1| ^ (2 * alpha) :=
    (continuous_abs.comp (by fun_prop : Continuous fun x : ℝ => 2 * x - 1)).rpow_const fun _ => Or.inr (by positivity)
  have : ∫ x, gf a delta alpha x ^ 2 ∂unif =
      ∫ x, (((1 + alpha) * |2 * Int.fract (x + delta) - 1| ^ alpha + a) / (1 + a)) ^ 2 ∂unif := rfl
  have h2 : ∀ x : ℝ, (((1 + alpha) * |2 * x - 1| ^ alpha + a) / (1 + a)) ^ 2 =
      ((1 + alpha) ^ 2 / (1 + a) ^ 2) * |2 * x - 1| ^ (2 * alpha) +
        ((2 * (1 + alpha) * a / (1 + a) ^ 2) * |2 * x - 1| ^ alpha + a ^ 2 / (1 + a) ^ 2) := by
    intro x
    have : |2 * x - 1| ^ (2 * alpha) = (|2 * x - 1| ^ alpha) ^ 2 := by
      rw [← Real.rpow_natCast, ← Real.rpow_mul (abs_nonneg _)]
      congr 1
      push_cast
      ring
    rw [this, div_pow]
    field_simp
    ring
  rw [this, e]
  simp only [h2]
  rw [intervalIntegral.integral_add ((hc2.intervalIntegrable _ _).const_mul _)
      (((hc.intervalIntegrable _ _).const_mul _).add (by simp)),
    intervalIntegral.integral_add ((hc.intervalIntegrable _ _).const_mul _) (by simp),
    intervalIntegral.integral_const_mul, intervalIntegral.integral_const_mul, integral_abs_rpow alpha hal,
    integral_abs_rpow (2 * alpha) (by positivity)]
  simp
  have h3 : alpha + 1 ≠ 0 := by positivity
  have h4 : 2 * alpha + 1 ≠ 0 := by positivity
  have h5 : 1 + 2 * alpha ≠ 0 := by positivity
  field_simp
  ring

theorem variance_gf (a delta alpha : ℝ) (ha : a ≠ -1) (hal : 0 < alpha) :
    Var[gf a delta alpha; unif] = alpha ^ 2 / ((1 + 2 * alpha) * (1 + a) ^ 2) := by
  rw [variance_eq_sub (gf_memLp a delta alpha hal)]
  have h1 : ∫ x, (gf a delta alpha ^ 2) x ∂unif = _ := integral_gf_sq a delta alpha ha hal
  rw [h1, integral_gf a delta alpha ha hal]
  ring

/-! ### From the factor to the product -/

theorem gFactor_ae (a delta alpha : ℝ) (hd : 0 ≤ delta) : gFactor a delta alpha =ᵐ[unif] gf a delta alpha := by
  unfold unif
  refine (ae_restrict_iff' measurableSet_Icc).mpr (Filter.Eventually.of_forall ?_)
  intro x hx
  exact gFactor_eq a delta alpha x (add_nonneg hx.1 hd)

theorem integral_gFactor (a delta alpha : ℝ) (ha : a ≠ -1) (hd : 0 ≤ delta) (hal : 0 < alpha) :
    ∫ x, gFactor a delta alpha x ∂unif = 1 := by
  rw [integral_congr_ae (gFactor_ae a delta alpha hd), integral_gf a delta alpha ha hal]

theorem integral_gFactor_sq (a delta alpha : ℝ) (ha : a ≠ -1) (hd : 0 ≤ delta) (hal : 0 < alpha) :
    ∫ x, gFactor a delta alpha x ^ 2 ∂unif = 1 + alpha ^ 2 / ((1 + 2 * alpha) * (1 + a) ^ 2) := by
  rw [← integral_gf_sq a delta alpha ha hal]
  refine integral_congr_ae ?_
  filter_upwards [gFactor_ae a delta alpha hd] with x hx
  rw [hx]

theorem gFactor_memLp (a delta alpha : ℝ) (hd : 0 ≤ delta) (hal : 0 < alpha) : MemLp (gFactor a delta alpha) 2 unif :=
  (gf_memLp a delta alpha hal).ae_eq (gFactor_ae a delta alpha hd).symm

theorem variance_gFactor (a delta alpha : ℝ) (ha : a ≠ -1) (hd : 0 ≤ delta) (hal : 0 < alpha) :
    Var[gFactor a delta alpha; unif] = alpha ^ 2 / ((1 + 2 * alpha) * (1 + a) ^ 2) := by
  rw [variance_congr (gFactor_ae a delta alpha hd), variance_gf a delta alpha ha hal]

variable {d : Nat}

/-- The product with one factor replaced. -/
theorem prod_update (f : Fin d → ℝ → ℝ) (x : Fin d → ℝ) (i : Fin d) (t : ℝ) :
    ∏ j, f j (Function.update x i t j) = (∏ j, if j = i then 1 else f j (x j)) * f i t := by
  rw [← Finset.mul_prod_erase Finset.univ _ (Finset.mem_univ i),
    ← Finset.mul_prod_erase Finset.univ (fun j => if j = i then 1 else f j (x j)) (Finset.mem_univ i)]
  rw [Function.update_self, if_pos rfl, one_mul, mul_comm]
  congr 1
  refine Finset.prod_congr rfl fun j hj => ?_
  rw [Function.update_of_ne (Finset.ne_of_mem_erase hj), if_neg (Finset.ne_of_mem_erase hj)]

theorem integral_gRow (a delta alpha : Fin d → ℝ) (ha : ∀ i, a i ≠ -1) (hd : ∀ i, 0 ≤ delta i) (hal : ∀ i, 0 < alpha i) :
    ∫ x, gRow a delta alpha x ∂unifs d = 1 := by
  unfold gRow unifs
  rw [integral_fintype_prod_eq_prod (fun i => gFactor (a i) (delta i) (alpha i))]
  exact Finset.prod_eq_one fun i _ => integral_gFactor _ _ _ (ha i) (hd i) (hal i)

theorem gPartial_eq (a alpha : Fin d → ℝ) (i : Fin d) :
    gPartial a (some alpha) i = alpha i ^ 2 / ((1 + 2 * alpha i) * (1 + a i) ^ 2) := rfl

theorem outVar_gRow (a delta alpha : Fin d → ℝ) (ha : ∀ i, a i ≠ -1) (hd : ∀ i, 0 ≤ delta i) (hal : ∀ i, 0 < alpha i) :
    outVar (gRow a delta alpha) = gTotal a (some alpha) := by
  have hint : ∀ i, Integrable (gFactor (a i) (delta i) (alpha i)) unif := fun i =>
    (gFactor_memLp _ _ _ (hd i) (hal i)).integrable (by norm_num)
  have hsq : ∀ i, Integrable (fun x => gFactor (a i) (delta i) (alpha i) x ^ 2) unif := fun i =>
    (memLp_two_iff_integrable_sq (gFactor_memLp _ _ _ (hd i) (hal i)).1).mp (gFactor_memLp _ _ _ (hd i) (hal i))
  have hG : Integrable (gRow a delta alpha) (unifs d) := Integrable.fintype_prod hint
  have e2 : (fun x => gRow a delta alpha x ^ 2) = fun x => ∏ i, gFactor (a i) (delta i) (alpha i) (x i) ^ 2 := by
    funext x
    unfold gRow
    rw [Finset.prod_pow]
  have hG2 : Integrable (fun x => gRow a delta alpha x ^ 2) (unifs d) := by
    rw [e2]
    exact Integrable.fintype_prod (f := fun i x => gFactor (a i) (delta i) (alpha i) x ^ 2) hsq
  unfold outVar
  rw [variance_eq_sub ((memLp_two_iff_integrable_sq hG.1).mpr hG2), integral_gRow a delta alpha ha hd hal]
  have h3 : ∫ x, (gRow a delta alpha ^ 2) x ∂unifs d = ∏ i, (1 + gPartial a (some alpha) i) := by
    have : ∫ x, (gRow a delta alpha ^ 2) x ∂unifs d = ∫ x, gRow a delta alpha x ^ 2 ∂unifs d := rfl
    rw [this, e2]
    unfold unifs
    rw [integral_fintype_prod_eq_prod (fun i x => gFactor (a i) (delta i) (alpha i) x ^ 2)]
    refine Finset.prod_congr rfl fun i _ => ?_
    rw [integral_gFactor_sq _ _ _ (ha i) (hd i) (hal i)]
    rfl
  rw [h3]
  unfold gTotal
  ring

theorem firstVar_gRow (a delta alpha : Fin d → ℝ) (ha : ∀ i, a i ≠ -1) (hd : ∀ i, 0 ≤ delta i) (hal : ∀ i, 0 < alpha i)
    (i : Fin d) : firstVar (gRow a delta alpha) i = gPartial a (some alpha) i := by
  unfold firstVar
  have : (fun t => ∫ x, gRow a delta alpha (Function.update x i t) ∂unifs d) = gFactor (a i) (delta i) (alpha i) := by
    funext t
    unfold gRow
    simp only [prod_update (fun j => gFactor (a j) (delta j) (alpha j))]
    rw [integral_mul_const]
    have h1 : ∫ x, (∏ j, if j = i then 1 else gFactor (a j) (delta j) (alpha j) (x j)) ∂unifs d = 1 := by
      unfold unifs
      rw [integral_fintype_prod_eq_prod (fun j x => if j = i then 1 else gFactor (a j) (delta j) (alpha j) x)]
      refine Finset.prod_eq_one fun j _ => ?_
      by_cases h : j = i
      · simp [h]
      · simp only [if_neg h]
        exact integral_gFactor _ _ _ (ha j) (hd j) (hal j)
    rw [h1, one_mul]
  rw [this, variance_gFactor _ _ _ (ha i) (hd i) (hal i)]
  rfl

theorem totalVar_gRow (a delta alpha : Fin d → ℝ) (ha : ∀ i, a i ≠ -1) (hd : ∀ i, 0 ≤ delta i) (hal : ∀ i, 0 < alpha i)
    (i : Fin d) : totalVar (gRow a delta alpha) i =
      gPartial a (some alpha) i * ∏ j, if j = i then 1 else 1 + gPartial a (some alpha) j := by
  unfold totalVar
  have hv : ∀ x : Fin d → ℝ, Var[fun t => gRow a delta alpha (Function.update x i t); unif] =
      (∏ j, if j = i then 1 else gFactor (a j) (delta j) (alpha j) (x j) ^ 2) * gPartial a (some alpha) i := by
    intro x
    unfold gRow
    simp only [prod_update (fun j => gFactor (a j) (delta j) (alpha j))]
    rw [variance_const_mul, ← Finset.prod_pow, variance_gFactor _ _ _ (ha i) (hd i) (hal i)]
    congr 1
    refine Finset.prod_congr rfl fun j _ => ?_
    split <;> simp
  simp only [hv]
  rw [integral_mul_const, mul_comm]
  congr 1
  unfold unifs
  rw [integral_fintype_prod_eq_prod (fun j x => if j = i then 1 else gFactor (a j) (delta j) (alpha j) x ^ 2)]
  refine Finset.prod_congr rfl fun j _ => ?_
  by_cases h : j = i
  · simp [h]
  · simp only [if_neg h]
    exact integral_gFactor_sq _ _ _ (ha j) (hd j) (hal j)

theorem gAlphaOr_pos (alpha : Option (Fin d → ℝ)) (h : ∀ al, alpha = some al → ∀ i, 0 < al i) (i : Fin d) :
    0 < gAlphaOr alpha i := by
  cases alpha with
  | none => simp [gAlphaOr]
  | some al => exact h al rfl i

/-! ### C65 -/

/-- **C65**, the reference indices are the variance ratios of the function that `evaluate` computes, for independent
uniform inputs, whatever the shifts. -/
theorem C65_true_indices (a : Fin d → ℝ) (delta alpha : Option (Fin d → ℝ)) (dl al : Fin d → ℝ)
    (hdl : gDelta delta = .ok dl) (hal : gAlpha alpha = .ok al) (ha : ∀ i, a i ≠ -1) (i : Fin d) :
    gIndex a alpha i = firstVar (gRow a dl al) i / outVar (gRow a dl al) ∧
      gTotalIndex a alpha i = totalVar (gRow a dl al) i / outVar (gRow a dl al) ∧
      ∫ x, gRow a dl al x ∂unifs d = 1 := by
  have hdl' : ∀ i, 0 ≤ dl i := by
    cases delta with
    | none => cases hdl; intro i; exact le_refl _
    | some δ =>
      simp only [gDelta] at hdl
      split at hdl
      · cases hdl
      · rename_i h
        cases hdl
        intro i
        by_contra hi
        exact h ⟨i, Or.inl (not_le.mp hi), fun h0 => hi h0.ge⟩
  have hal' : (∀ i, 0 < al i) ∧ ∀ i, gPartial a alpha i = gPartial a (some al) i := by
    cases alpha with
    | none => cases hal; exact ⟨fun i => one_pos, fun i => rfl⟩
    | some β =>
      simp only [gAlpha] at hal
      split at hal
      · cases hal
      · rename_i h
        cases hal
        exact ⟨fun i => by_contra fun hi => h ⟨i, not_lt.mp hi⟩, fun i => rfl⟩
  obtain ⟨hp, he⟩ := hal'
  have hT : gTotal a alpha = gTotal a (some al) := by
    unfold gTotal
    simp only [he]
  refine ⟨?_, ?_, integral_gRow a dl al ha hdl' hp⟩
  · unfold gIndex
    rw [firstVar_gRow a dl al ha hdl' hp, outVar_gRow a dl al ha hdl' hp, hT, he]
  · unfold gTotalIndex
    simp only [he]
    rw [totalVar_gRow a dl al ha hdl' hp, outVar_gRow a dl al ha hdl' hp, hT]
    have hpos : 0 ≤ gPartial a (some al) i := by
      rw [gPartial_eq]
      have := hp i
      positivity
    have hsplit : ∏ j, (1 + gPartial a (some al) j) =
        (1 + gPartial a (some al) i) * ∏ j, if j = i then 1 else 1 + gPartial a (some al) j := by
      rw [← Finset.mul_prod_erase Finset.univ _ (Finset.mem_univ i),
        ← Finset.mul_prod_erase Finset.univ (fun j => if j = i then 1 else 1 + gPartial a (some al) j) (Finset.mem_univ i)]
      rw [if_pos rfl, one_mul]
      congr 1
      refine Finset.prod_congr rfl fun j hj => ?_
      rw [if_neg (Finset.ne_of_mem_erase hj)]
    rw [hsplit, mul_div_cancel_left₀ _ (by linarith : (1 + gPartial a (some al) i) ≠ 0)]

theorem one_add_sum_le_prod {ι : Type} (s : Finset ι) (f : ι → ℝ) (h : ∀ i ∈ s, 0 ≤ f i) :
    1 + ∑ i ∈ s, f i ≤ ∏ i ∈ s, (1 + f i) := by
  classical
  induction s using Finset.induction_on with
  | empty => simp
  | insert i s hi ih =>
    rw [Finset.sum_insert hi, Finset.prod_insert hi]
    have h1 := ih fun j hj => h j (Finset.mem_insert_of_mem hj)
    have h2 := h i (Finset.mem_insert_self i s)
    have h3 : 0 ≤ ∑ j ∈ s, f j := Finset.sum_nonneg fun j hj => h j (Finset.mem_insert_of_mem hj)
    nlinarith

/-- **C65**, ranges: first-order indices are positive and sum to at most 1; every total index is at least the
first-order index and at most 1. -/
theorem C65_ranges (a : Fin d → ℝ) (alpha : Option (Fin d → ℝ)) (ha : ∀ i, a i ≠ -1)
    (hal : ∀ al, alpha = some al → ∀ i, 0 < al i) :
    (∀ i, 0 < gIndex a alpha i ∧ gIndex a alpha i ≤ gTotalIndex a alpha i ∧ gTotalIndex a alpha i ≤ 1) ∧
      ∑ i, gIndex a alpha i ≤ 1 := by
  have hV : ∀ i, 0 < gPartial a alpha i := by
    intro i
    have h1 := gAlphaOr_pos alpha hal i
    have h2 : (1 + a i) ≠ 0 := fun h => ha i (by linarith)
    unfold gPartial
    positivity
  have hle := one_add_sum_le_prod Finset.univ (gPartial a alpha) fun i _ => (hV i).le
  have hT : ∑ i, gPartial a alpha i ≤ gTotal a alpha := by unfold gTotal; linarith
  have hsum : ∑ i, gIndex a alpha i ≤ 1 := by
    unfold gIndex
    rw [← Finset.sum_div]
    exact div_le_one_of_le₀ hT (le_trans (Finset.sum_nonneg fun i _ => (hV i).le) hT)
  refine ⟨fun i => ?_, hsum⟩
  have hTpos : 0 < gTotal a alpha :=
    lt_of_lt_of_le (hV i) (le_trans (Finset.single_le_sum (fun j _ => (hV j).le) (Finset.mem_univ i)) hT)
  have hprod : 1 + gPartial a alpha i ≤ ∏ j, (1 + gPartial a alpha j) := by
    rw [← Finset.mul_prod_erase Finset.univ _ (Finset.mem_univ i)]
    refine le_mul_of_one_le_right (by have := hV i; linarith) ?_
    exact Finset.one_le_prod fun j _ => by have := hV j; linarith
  have hpos : 0 < 1 + gPartial a alpha i := by have := hV i; linarith
  refine ⟨div_pos (hV i) hTpos, ?_, ?_⟩
  · unfold gIndex gTotalIndex
    refine div_le_div_of_nonneg_right ?_ hTpos.le
    refine le_mul_of_one_le_right (hV i).le ?_
    rwa [one_le_div hpos]
  · unfold gTotalIndex
    rw [div_le_one hTpos]
    unfold gTotal
    have : gPartial a alpha i * ((∏ j, (1 + gPartial a alpha j)) / (1 + gPartial a alpha i)) =
        (∏ j, (1 + gPartial a alpha j)) - (∏ j, (1 + gPartial a alpha j)) / (1 + gPartial a alpha i) := by
      field_simp
      ring
    rw [this]
    have : 1 ≤ (∏ j, (1 + gPartial a alpha j)) / (1 + gPartial a alpha i) := by rwa [one_le_div hpos]
    linarith

/-- **C65**, the function: evaluation succeeds exactly for shifts in the unit interval, positive exponents and inputs in
the unit cube, and then returns one value per row. -/
theorem C65_evaluate (values : List (Fin d → ℝ)) (a : Fin d → ℝ) (delta alpha : Option (Fin d → ℝ)) (ys : List ℝ) :
    gEvaluate values a delta alpha = .ok ys ↔
      ∃ dl al, dl = delta.getD (fun _ => 0) ∧ al = alpha.getD (fun _ => 1) ∧ (∀ i, 0 ≤ dl i ∧ dl i ≤ 1) ∧
        (∀ i, 0 < al i) ∧ (∀ x ∈ values, ∀ i, 0 ≤ x i ∧ x i ≤ 1) ∧ ys = values.map fun x => gRow a dl al x := by
  have hdl : (∀ dl, gDelta delta = .ok dl ↔ dl = delta.getD (fun _ => 0) ∧ ∀ i, 0 ≤ dl i ∧ dl i ≤ 1) := by
    intro dl
    cases delta with
    | none =>
      simp only [gDelta, Option.getD_none]
      constructor
      · rintro h; cases h; exact ⟨rfl, fun i => ⟨le_refl _, zero_le_one⟩⟩
      · rintro ⟨rfl, _⟩; rfl
    | some δ =>
      simp only [gDelta, Option.getD_some]
      by_cases h : ∃ i, (δ i < 0 ∨ δ i > 1) ∧ δ i ≠ 0
      · rw [if_pos h]
        constructor
        · rintro h'; cases h'
        · rintro ⟨rfl, h'⟩
          obtain ⟨i, hi, _⟩ := h
          have := h' i
          rcases hi with hi | hi <;> linarith
      · rw [if_neg h]
        constructor
        · rintro h'; cases h'
          refine ⟨rfl, fun i => ?_⟩
          by_contra hc
          refine h ⟨i, ?_, ?_⟩
          · by_contra hc2
            push Not at hc2
            exact hc ⟨hc2.1, hc2.2⟩
          · rintro h0
            exact hc ⟨h0.ge, by rw [h0]; exact zero_le_one⟩
        · rintro ⟨rfl, _⟩; rfl
  have hal : (∀ al, gAlpha alpha = .ok al ↔ al = alpha.getD (fun _ => 1) ∧ ∀ i, 0 < al i) := by
    intro al
    cases alpha with
    | none =>
      simp only [gAlpha, Option.getD_none]
      constructor
      · rintro h; cases h; exact ⟨rfl, fun i => zero_lt_one⟩
      · rintro ⟨rfl, _⟩; rfl
    | some β =>
      simp only [gAlpha, Option.getD_some]
      by_cases h : ∃ i, β i ≤ 0
      · rw [if_pos h]
        constructor
        · rintro h'; cases h'
        · rintro ⟨rfl, h'⟩
          obtain ⟨i, hi⟩ := h
          exact absurd (h' i) (not_lt.mpr hi)
      · rw [if_neg h]
        push Not at h
        constructor
        · rintro h'; cases h'
          exact ⟨rfl, h⟩
        · rintro ⟨rfl, _⟩; rfl
  unfold gEvaluate
  constructor
  · intro h
    cases hd : gDelta delta with
    | error e => rw [hd] at h; cases h
    | ok dl =>
      rw [hd, pyBind_ok] at h
      cases ha : gAlpha alpha with
      | error e => rw [ha] at h; cases h
      | ok al =>
        rw [ha, pyBind_ok] at h
        split at h
        · cases h
        · rename_i h1
          split at h
          · cases h
          · rename_i h2
            cases h
            push Not at h1 h2
            exact ⟨dl, al, ((hdl dl).mp hd).1, ((hal al).mp ha).1, ((hdl dl).mp hd).2, ((hal al).mp ha).2,
              fun x hx i => ⟨h1 x hx i, h2 x hx i⟩, rfl⟩
  · rintro ⟨dl, al, h1, h2, h3, h4, h5, rfl⟩
    rw [(hdl dl).mpr ⟨h1, h3⟩, (hal al).mpr ⟨h2, h4⟩, pyBind_ok, pyBind_ok]
    rw [if_neg (by push Not; exact fun x hx i => (h5 x hx i).1), if_neg (by push Not; exact fun x hx i => (h5 x hx i).2)]

/-- Coefficients 0 and 1: the variance is 4/9, the indices 3/4 and 3/16. -/
example : gTotal (![0, 1] : Fin 2 → ℝ) none = 4 / 9 ∧ gIndex (![0, 1] : Fin 2 → ℝ) none 0 = 3 / 4 ∧
    gIndex (![0, 1] : Fin 2 → ℝ) none 1 = 3 / 16 ∧ gTotalIndex (![0, 1] : Fin 2 → ℝ) none 0 = 13 / 16 := by
  simp only [gTotal, gIndex, gTotalIndex, gPartial, gAlphaOr, Option.getD_none, Fin.prod_univ_two, Matrix.cons_val_zero,
    Matrix.cons_val_one]
  norm_num

example : gDelta (some ![1 / 2, (1 : ℝ)] : Option (Fin 2 → ℝ)) = .ok ![1 / 2, 1] := by
  simp only [gDelta]
  rw [if_neg]
  rintro ⟨i, hi, _⟩
  fin_cases i <;> norm_num at hi

end SALib
