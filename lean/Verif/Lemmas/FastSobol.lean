import Verif.Lemmas.TorusProduct
import Verif.Props.FastMeaning

/-! # Without interference the parts of the variance along the curve are those over the cube -/

namespace SALib

open Real Finset Spec MeasureTheory ProbabilityTheory

theorem sineMoment_zero : sineMoment 0 = 1 := by unfold sineMoment; simp

theorem unit_lt : (0 : ℝ) < 1 := one_pos

theorem integral_unit (f : ℝ → ℝ) : ∫ t, f t ∂unifOn 0 1 = ∫ t in (0 : ℝ)..1, f t := by
  rw [integral_unifOn one_pos]; simp

theorem memLp_sine_pow (k : Nat) : MemLp (fun t => inputSine t ^ k) 2 (unifOn 0 1) := by
  have := isProb_unifOn unit_lt
  refine MemLp.of_bound (C := 1) (continuous_inputSine.pow k).aestronglyMeasurable (Filter.Eventually.of_forall fun t => ?_)
  rw [norm_pow, Real.norm_eq_abs]
  exact pow_le_one₀ (abs_nonneg _) (abs_sin_le_one _)

theorem prod_split {D : Nat} (i : Fin D) (g h : Fin D → ℝ) (hi : h i = 1) (hne : ∀ j, j ≠ i → h j = g j) :
    g i * ∏ j, h j = ∏ j, g j := by
  rw [← Finset.mul_prod_erase Finset.univ g (Finset.mem_univ i), ← Finset.mul_prod_erase Finset.univ h (Finset.mem_univ i),
    hi, one_mul]
  congr 1
  exact Finset.prod_congr rfl fun j hj => hne j (Finset.ne_of_mem_erase hj)

/-- The terms of a polynomial in the sines. -/
theorem sineModel_tensor {D : Nat} (p : MvPolynomial (Fin D) ℝ) : ∃ (n : Nat) (c : Fin n → ℝ) (e : Fin n → Fin D → Nat),
    (∀ m, ∑ j, e m j ≤ p.totalDegree) ∧
    sineModel p = tensorSum c (fun m j t => inputSine t ^ e m j) ∧
    ∀ y : Fin D → ℝ, MvPolynomial.eval y p = ∑ m, c m * ∏ j, y j ^ e m j := by
  have key : ∀ y : Fin D → ℝ, MvPolynomial.eval y p =
      ∑ m : Fin p.support.card, p.coeff (p.support.equivFin.symm m).1 *
        ∏ j, y j ^ (p.support.equivFin.symm m).1 j := by
    intro y
    rw [MvPolynomial.eval_eq', ← Finset.sum_coe_sort, ← Equiv.sum_comp p.support.equivFin.symm]
  refine ⟨p.support.card, fun m => p.coeff (p.support.equivFin.symm m).1, fun m j => (p.support.equivFin.symm m).1 j,
    ?_, ?_, key⟩
  · intro m
    have := MvPolynomial.le_totalDegree (p.support.equivFin.symm m).2
    rwa [Finsupp.sum_fintype _ _ fun _ => rfl] at this
  · funext x
    unfold sineModel tensorSum
    exact key _

theorem parts_of_noInterference {D : Nat} (p : MvPolynomial (Fin D) ℝ) (M : Nat) (hp : p.totalDegree ≤ M)
    (freq : Nat → Nat) (u : ℝ) (i : Fin D) (hno : NoInterference freq i (2 * M)) :
    varIT (onCurve (sineModel p) freq u i) = Var[sineModel p; Measure.pi fun _ => unifOn 0 1] ∧
    inputPart (onCurve (sineModel p) freq u i) = closedEffect (fun _ => unifOn 0 1) (sineModel p) (onlyInput i) ∧
    timePart (onCurve (sineModel p) freq u i) =
      closedEffect (fun _ => unifOn 0 1) (sineModel p) (fun j => !onlyInput i j) := by
  obtain ⟨n, c, e, hdeg, hten, hev⟩ := sineModel_tensor p
  have := isProb_unifOn unit_lt
  have hφ : ∀ (m : Fin n) (j : Fin D), MemLp (fun t => inputSine t ^ e m j) 2 (unifOn 0 1) := fun m j => memLp_sine_pow _
  -- the model along the curve
  set e' : Fin n → Fin D → Nat := fun m j => if j = i then 0 else e m j with he'
  have hsum' : ∀ m, ∑ j, e' m j ≤ M := by
    intro m
    refine le_trans (Finset.sum_le_sum fun j _ => ?_) ((hdeg m).trans hp)
    rw [he']
    beta_reduce
    split <;> omega
  have hi' : ∀ m, e' m i = 0 := fun m => by rw [he']; simp
  have hF : ∀ x t, onCurve (sineModel p) freq u i x t =
      ∑ m, c m * (inputSine x ^ e m i * ∏ j : Fin D, sin (2 * π * (freq j * t + u)) ^ e' m j) := by
    intro x t
    unfold onCurve sineModel
    rw [hev]
    refine Finset.sum_congr rfl fun m _ => ?_
    congr 1
    have := prod_split i (fun j => inputSine (if j = i then x else closedCurve (freq j) u t) ^ e m j)
      (fun j => sin (2 * π * (freq j * t + u)) ^ e' m j) (by beta_reduce; rw [hi', pow_zero]) (by
        intro j hj
        rw [he']
        beta_reduce
        rw [if_neg hj, if_neg hj, inputSine_closedCurve])
    rw [← this]
    simp
  have hA : ∀ m : Fin n, Continuous fun x => inputSine x ^ e m i := fun m => continuous_inputSine.pow _
  have hB : ∀ m : Fin n, Continuous fun t : ℝ => ∏ j : Fin D, sin (2 * π * (freq j * t + u)) ^ e' m j := by
    intro m
    fun_prop
  obtain ⟨hmean, hvar, hin, hti⟩ := parts_of_products c _ _ hA hB _ hF
  -- the integrals
  have iA : ∀ m, ∫ x in (0 : ℝ)..1, inputSine x ^ e m i = sineMoment (e m i) := fun m => sineMoment_input _
  have iAA : ∀ m m', ∫ x in (0 : ℝ)..1, inputSine x ^ e m i * inputSine x ^ e m' i = sineMoment (e m i + e m' i) := by
    intro m m'
    simp_rw [← pow_add]
    exact sineMoment_input _
  have iB : ∀ m, ∫ t in (0 : ℝ)..1, ∏ j : Fin D, sin (2 * π * (freq j * t + u)) ^ e' m j = ∏ j, sineMoment (e' m j) :=
    fun m => curve_mean_prod freq i (2 * M) hno u _ (hi' m) (by have := hsum' m; omega)
  have iBB : ∀ m m', ∫ t in (0 : ℝ)..1, (∏ j : Fin D, sin (2 * π * (freq j * t + u)) ^ e' m j) *
      (∏ j : Fin D, sin (2 * π * (freq j * t + u)) ^ e' m' j) = ∏ j, sineMoment (e' m j + e' m' j) := by
    intro m m'
    simp_rw [← Finset.prod_mul_distrib, ← pow_add]
    refine curve_mean_prod freq i (2 * M) hno u (fun j => e' m j + e' m' j) (by beta_reduce; rw [hi', hi']) ?_
    rw [Finset.sum_add_distrib]
    have := hsum' m
    have := hsum' m'
    omega
  simp_rw [iA, iAA, iB, iBB] at hmean hvar hin hti
  -- the cube
  have jA : ∀ m j, ∫ t, inputSine t ^ e m j ∂unifOn 0 1 = sineMoment (e m j) := by
    intro m j; rw [integral_unit]; exact sineMoment_input _
  have jAA : ∀ m m' j, ∫ t, inputSine t ^ e m j * inputSine t ^ e m' j ∂unifOn 0 1 = sineMoment (e m j + e m' j) := by
    intro m m' j; rw [integral_unit]; simp_rw [← pow_add]; exact sineMoment_input _
  have hm : meanIT (onCurve (sineModel p) freq u i) = ∑ m, c m * ∏ j, sineMoment (e m j) := by
    rw [hmean]
    refine Finset.sum_congr rfl fun m _ => ?_
    rw [prod_split i (fun j => sineMoment (e m j)) (fun j => sineMoment (e' m j))
      (by beta_reduce; rw [hi', sineMoment_zero]) (fun j hj => by rw [he']; beta_reduce; rw [if_neg hj])]
  refine ⟨?_, ?_, ?_⟩
  · rw [hvar, hm, hten, variance_eq_sub (memLp_tensorSum _ c _ hφ)]
    simp only [Pi.pow_apply]
    rw [integral_tensorSum_sq _ c _ hφ, integral_tensorSum _ c _ hφ]
    simp_rw [jA, jAA]
    congr 1
    refine Finset.sum_congr rfl fun m _ => Finset.sum_congr rfl fun m' _ => ?_
    congr 1
    exact prod_split i (fun j => sineMoment (e m j + e m' j)) (fun j => sineMoment (e' m j + e' m' j))
      (by beta_reduce; rw [hi', hi', sineMoment_zero]) (fun j hj => by rw [he']; beta_reduce; rw [if_neg hj, if_neg hj])
  · rw [hin, hm, hten, closedEffect_tensorSum _ c _ hφ]
    simp_rw [jA, jAA]
    congr 1
    refine Finset.sum_congr rfl fun m _ => Finset.sum_congr rfl fun m' _ => ?_
    congr 1
    rw [← Finset.prod_mul_distrib]
    have := prod_split i (fun j => if onlyInput i j then sineMoment (e m j + e m' j)
      else sineMoment (e m j) * sineMoment (e m' j)) (fun j => sineMoment (e' m j) * sineMoment (e' m' j))
      (by beta_reduce; rw [hi', hi', sineMoment_zero, one_mul]) (fun j hj => by
        rw [he']; beta_reduce; rw [if_neg hj, if_neg hj, if_neg (by simp [onlyInput, hj])])
    rw [← this]
    simp [onlyInput]
  · rw [hti, hm, hten, closedEffect_tensorSum _ c _ hφ]
    simp_rw [jA, jAA]
    congr 1
    refine Finset.sum_congr rfl fun m _ => Finset.sum_congr rfl fun m' _ => ?_
    congr 1
    have := prod_split i (fun j => if !onlyInput i j then sineMoment (e m j + e m' j)
      else sineMoment (e m j) * sineMoment (e m' j)) (fun j => sineMoment (e' m j + e' m' j))
      (by beta_reduce; rw [hi', hi', sineMoment_zero]) (fun j hj => by
        rw [he']; beta_reduce; rw [if_neg hj, if_neg hj, if_pos (by simp [onlyInput, hj])])
    rw [← this]
    simp [onlyInput]

end SALib
