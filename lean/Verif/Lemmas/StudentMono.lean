import Verif.Lemmas.StudentTwo
import Mathlib.Analysis.Convex.SpecificFunctions.Basic
import Mathlib.Analysis.Convex.SpecificFunctions.Pow
import Mathlib.Analysis.Convex.Jensen
import Mathlib.Analysis.Convex.Deriv

/-! # More resamples, a larger Student probability -/

namespace SALib
open MeasureTheory ProbabilityTheory Filter Topology Spec

/-- The sample variance is the mean of the sample variances that leave out one number each. -/
theorem drawVar_leave_one {R : Nat} (hR : 2 ≤ R) (b : Fin (R + 1) → ℝ) :
    drawVar b = ∑ r : Fin (R + 1), (1 / ((R : ℝ) + 1)) • drawVar fun i : Fin R => b (r.succAbove i) := by
  rw [← Finset.smul_sum]
  simp only [drawVar_sq hR, drawVar_sq (show 2 ≤ R + 1 by omega)]
  have h1 : ∀ r : Fin (R + 1), ∑ i : Fin R, b (r.succAbove i) ^ 2 = ∑ i, b i ^ 2 - b r ^ 2 := fun r => by
    rw [Fin.sum_univ_succAbove _ r]; ring
  have h2 : ∀ r : Fin (R + 1), ∑ i : Fin R, b (r.succAbove i) = ∑ i, b i - b r := fun r => by
    rw [Fin.sum_univ_succAbove _ r]; ring
  simp only [h1, h2]
  set S := ∑ i, b i with hS
  set T := ∑ i, b i ^ 2 with hT
  rw [← Finset.sum_div, Finset.sum_sub_distrib, Finset.sum_sub_distrib, ← Finset.sum_div]
  have h3 : ∑ r, (S - b r) ^ 2 = (R - 1) * S ^ 2 + T := by
    have : ∀ r, (S - b r) ^ 2 = S ^ 2 - 2 * S * b r + b r ^ 2 := fun r => by ring
    simp only [this]
    rw [Finset.sum_add_distrib, Finset.sum_sub_distrib, ← Finset.mul_sum, ← hS, ← hT, Finset.sum_const, Finset.card_univ, Fintype.card_fin,
      nsmul_eq_mul]
    push_cast
    ring
  rw [h3, ← hT, Finset.sum_const, Finset.card_univ, Fintype.card_fin, nsmul_eq_mul, smul_eq_mul]
  have hr : (2 : ℝ) ≤ R := by exact_mod_cast hR
  have h4 : (R : ℝ) - 1 ≠ 0 := by linarith
  have h5 : (R : ℝ) ≠ 0 := by linarith
  have h6 : (R : ℝ) + 1 ≠ 0 := by linarith
  push_cast
  rw [add_sub_cancel_right]
  field_simp
  ring

theorem normalWithin_concave : ConcaveOn ℝ (Set.Ici 0) normalWithin := by
  have hd : ∀ y : ℝ, HasDerivAt (fun y => normalWithin 0 + 2 * ∫ t in (0 : ℝ)..y, gaussianPDFReal 0 1 t) (2 * gaussianPDFReal 0 1 y) y := by
    intro y
    exact ((intervalIntegral.integral_hasDerivAt_right (continuous_pdf.intervalIntegrable _ _)
      (continuous_pdf.stronglyMeasurableAtFilter _ _) continuous_pdf.continuousAt).const_mul 2).const_add _
  have hc : ConcaveOn ℝ (Set.Ici 0) fun y => normalWithin 0 + 2 * ∫ t in (0 : ℝ)..y, gaussianPDFReal 0 1 t := by
    refine AntitoneOn.concaveOn_of_deriv (convex_Ici 0) (fun y _ => (hd y).continuousAt.continuousWithinAt)
      (fun y _ => (hd y).differentiableAt.differentiableWithinAt) ?_
    intro x hx y hy hxy
    rw [interior_Ici] at hx hy
    rw [(hd x).deriv, (hd y).deriv, pdf_eq, pdf_eq]
    have hx0 : (0 : ℝ) < x := hx
    have : Real.exp (-y ^ 2 / 2) ≤ Real.exp (-x ^ 2 / 2) := Real.exp_le_exp.mpr (by nlinarith)
    have h0 : (0 : ℝ) ≤ (√(2 * Real.pi))⁻¹ := by positivity
    nlinarith [mul_le_mul_of_nonneg_left this h0]
  refine hc.congr fun y hy => ?_
  have := normalWithin_integral 0 y le_rfl hy
  show _ + _ = _
  linarith

theorem within_root_concave (z : ℝ) (hz : 0 ≤ z) : ConcaveOn ℝ (Set.Ici 0) fun v => normalWithin (z * √v) := by
  refine ⟨convex_Ici 0, fun v hv w hw a b ha hb hab => ?_⟩
  have h1 := Real.strictConcaveOn_sqrt.concaveOn.2 hv hw ha hb hab
  have h2 := normalWithin_concave.2 (show z * √v ∈ Set.Ici 0 from mul_nonneg hz (Real.sqrt_nonneg _))
    (show z * √w ∈ Set.Ici 0 from mul_nonneg hz (Real.sqrt_nonneg _)) ha hb hab
  refine h2.trans (normalWithin_mono ?_)
  have := mul_le_mul_of_nonneg_left h1 hz
  simp only [smul_eq_mul] at this ⊢
  linarith

theorem integrable_within {R : Nat} (z : ℝ) :
    Integrable (fun b : Fin R → ℝ => normalWithin (z * √(drawVar b))) (Measure.pi fun _ : Fin R => gaussianReal 0 1) := by
  have hm : Measurable fun b : Fin R → ℝ => normalWithin (z * √(drawVar b)) :=
    normalWithin_mono.measurable.comp (continuous_studentWidth z).measurable
  refine Integrable.mono (integrable_const (1 : ℝ)) hm.aestronglyMeasurable (Eventually.of_forall fun b => ?_)
  unfold normalWithin
  rw [Real.norm_of_nonneg measureReal_nonneg]
  simpa using measureReal_le_one

theorem leave_one_preserving {R : Nat} (r : Fin (R + 1)) :
    MeasurePreserving (fun (b : Fin (R + 1) → ℝ) (i : Fin R) => b (r.succAbove i)) (Measure.pi fun _ : Fin (R + 1) => gaussianReal 0 1)
      (Measure.pi fun _ : Fin R => gaussianReal 0 1) :=
  (measurePreserving_snd (μ := gaussianReal 0 1) (ν := Measure.pi fun _ : Fin R => gaussianReal 0 1)).comp
    (measurePreserving_piFinSuccAbove (fun _ : Fin (R + 1) => gaussianReal 0 1) r)

/-- One resample more does not lower the Student probability. -/
theorem studentWithin_succ {R : Nat} (hR : 2 ≤ R) (z : ℝ) (hz : 0 ≤ z) : studentWithin R z ≤ studentWithin (R + 1) z := by
  rw [studentWithin_eq, studentWithin_eq]
  have hmean : ∀ r : Fin (R + 1), ∫ b : Fin (R + 1) → ℝ, normalWithin (z * √(drawVar fun i : Fin R => b (r.succAbove i)))
      ∂(Measure.pi fun _ : Fin (R + 1) => gaussianReal 0 1) = ∫ b : Fin R → ℝ, normalWithin (z * √(drawVar b))
      ∂(Measure.pi fun _ : Fin R => gaussianReal 0 1) := by
    intro r
    have hm : Measurable fun b : Fin R → ℝ => normalWithin (z * √(drawVar b)) :=
      normalWithin_mono.measurable.comp (continuous_studentWidth z).measurable
    rw [← (leave_one_preserving r).map_eq, integral_map (leave_one_preserving r).measurable.aemeasurable hm.aestronglyMeasurable]
  have hint : ∀ r : Fin (R + 1), Integrable (fun b : Fin (R + 1) → ℝ => normalWithin (z * √(drawVar fun i : Fin R => b (r.succAbove i))))
      (Measure.pi fun _ : Fin (R + 1) => gaussianReal 0 1) := fun r =>
    (leave_one_preserving r).integrable_comp_of_integrable (integrable_within z)
  have hr0 : (0 : ℝ) < (R : ℝ) + 1 := by positivity
  have hsum : ∫ b : Fin (R + 1) → ℝ, (∑ r : Fin (R + 1), (1 / ((R : ℝ) + 1)) *
      normalWithin (z * √(drawVar fun i : Fin R => b (r.succAbove i)))) ∂(Measure.pi fun _ : Fin (R + 1) => gaussianReal 0 1) =
      ∫ b : Fin R → ℝ, normalWithin (z * √(drawVar b)) ∂(Measure.pi fun _ : Fin R => gaussianReal 0 1) := by
    rw [integral_finsetSum _ fun r _ => (hint r).const_mul _]
    simp only [integral_const_mul, hmean]
    rw [Finset.sum_const, Finset.card_univ, Fintype.card_fin, nsmul_eq_mul]
    push_cast
    field_simp
  rw [← hsum]
  refine integral_mono (integrable_finsetSum _ fun r _ => (hint r).const_mul _) (integrable_within z) fun b => ?_
  have hj := (within_root_concave z hz).le_map_sum (t := Finset.univ) (w := fun _ : Fin (R + 1) => 1 / ((R : ℝ) + 1))
    (p := fun r => drawVar fun i : Fin R => b (r.succAbove i)) (fun _ _ => by positivity)
    (by rw [Finset.sum_const, Finset.card_univ, Fintype.card_fin, nsmul_eq_mul]; push_cast; field_simp)
    (fun r _ => drawVar_nonneg hR _)
  rw [← drawVar_leave_one hR b] at hj
  exact hj

/-- The more resamples, the larger the Student probability. -/
theorem studentWithin_mono {R R' : Nat} (hR : 2 ≤ R) (h : R ≤ R') (z : ℝ) (hz : 0 ≤ z) : studentWithin R z ≤ studentWithin R' z := by
  induction R', h using Nat.le_induction with
  | base => exact le_rfl
  | succ n hn ih => exact ih.trans (studentWithin_succ (hR.trans hn) z hz)

/-- The mean of several standard deviations varies less than one of them: groups do not have a lower probability than single inputs. -/
theorem studentWithin_le_group {m R : Nat} (hm : 0 < m) (z : ℝ) (hz : 0 ≤ z) : studentWithin R z ≤ studentGroup m R z := by
  have hmr : (0 : ℝ) < m := by exact_mod_cast hm
  let g : Fin m × Fin R → Fin (m * R) := finProdFinEquiv
  have hg : g.Injective := finProdFinEquiv.injective
  rw [← normalWidth_group g hg z, normalWidth_eq (continuous_groupWidth g z), studentWithin_eq]
  set π := Measure.pi fun _ : Fin (m * R) => gaussianReal 0 1 with hπ
  have mblock : ∀ i, Measurable fun (b : Fin (m * R) → ℝ) (r : Fin R) => b (g (i, r)) := fun i =>
    measurable_pi_lambda _ fun r => measurable_pi_apply _
  have hblock : ∀ i, Measure.map (fun (b : Fin (m * R) → ℝ) (r : Fin R) => b (g (i, r))) π = Measure.pi fun _ : Fin R => gaussianReal 0 1 :=
    fun i => normals_precomp (fun r => g (i, r)) fun r r' h => (Prod.ext_iff.mp (hg h)).2
  have hp : ∀ i, MeasurePreserving (fun (b : Fin (m * R) → ℝ) (r : Fin R) => b (g (i, r))) π (Measure.pi fun _ : Fin R => gaussianReal 0 1) :=
    fun i => ⟨mblock i, hblock i⟩
  have hint : ∀ i, Integrable (fun b : Fin (m * R) → ℝ => normalWithin (z * √(drawVar fun r => b (g (i, r))))) π := fun i =>
    (hp i).integrable_comp_of_integrable (integrable_within z)
  have hmean : ∀ i, ∫ b : Fin (m * R) → ℝ, normalWithin (z * √(drawVar fun r => b (g (i, r)))) ∂π =
      ∫ b : Fin R → ℝ, normalWithin (z * √(drawVar b)) ∂(Measure.pi fun _ : Fin R => gaussianReal 0 1) := by
    intro i
    have hm : Measurable fun b : Fin R → ℝ => normalWithin (z * √(drawVar b)) :=
      normalWithin_mono.measurable.comp (continuous_studentWidth z).measurable
    rw [← hblock i, integral_map (mblock i).aemeasurable hm.aestronglyMeasurable]
  have hi2 : Integrable (fun b => normalWithin (groupWidth g z b)) π := by
    refine Integrable.of_bound (normalWithin_mono.measurable.comp (continuous_groupWidth g z).measurable).aestronglyMeasurable 1
      (Eventually.of_forall fun b => ?_)
    unfold normalWithin
    rw [Real.norm_of_nonneg measureReal_nonneg]
    exact measureReal_le_one
  have hsum : ∫ b : Fin (m * R) → ℝ, (∑ i, (1 / (m : ℝ)) * normalWithin (z * √(drawVar fun r => b (g (i, r))))) ∂π =
      ∫ b : Fin R → ℝ, normalWithin (z * √(drawVar b)) ∂(Measure.pi fun _ : Fin R => gaussianReal 0 1) := by
    rw [integral_finsetSum _ fun r _ => (hint r).const_mul _]
    simp only [integral_const_mul, hmean]
    rw [Finset.sum_const, Finset.card_univ, Fintype.card_fin, nsmul_eq_mul]
    field_simp
  rw [← hsum]
  refine integral_mono (integrable_finsetSum _ fun r _ => (hint r).const_mul _) hi2 fun b => ?_
  have hj := normalWithin_concave.le_map_sum (t := Finset.univ) (w := fun _ : Fin m => 1 / (m : ℝ))
    (p := fun i => z * √(drawVar fun r => b (g (i, r)))) (fun _ _ => by positivity)
    (by rw [Finset.sum_const, Finset.card_univ, Fintype.card_fin, nsmul_eq_mul]; field_simp)
    (fun r _ => mul_nonneg hz (Real.sqrt_nonneg _))
  refine hj.trans_eq (congrArg normalWithin ?_)
  unfold groupWidth
  rw [Finset.sum_div, Finset.mul_sum]
  refine Finset.sum_congr rfl fun i _ => ?_
  rw [smul_eq_mul]
  ring

end SALib
