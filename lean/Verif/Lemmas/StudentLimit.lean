import Verif.Lemmas.BootstrapLimit
import Mathlib.MeasureTheory.Measure.OpenPos
import Mathlib.Probability.Moments.Variance

/-! # Bootstrap intervals with a fixed number of resamples: the Student probability -/

namespace SALib
open MeasureTheory ProbabilityTheory Filter Topology Spec

/-- The probability that a standard normal variable is in absolute value at most `z` times the sample standard deviation
(`ddof=1`) of `R` other independent standard normal variables. -/
noncomputable def Spec.studentWithin (R : Nat) (z : ℝ) : ℝ :=
  ((gaussianReal 0 1).prod (Measure.pi fun _ : Fin R => gaussianReal 0 1)).real {p | |p.1| ≤ z * √(drawVar p.2)}

theorem continuous_drawVar {R : Nat} : Continuous fun b : Fin R → ℝ => drawVar b := by
  unfold drawVar
  fun_prop

/-! ### Below the normal probability -/

theorem gaussian_real_eq (s : Set ℝ) : (gaussianReal 0 1).real s = ∫ x in s, gaussianPDFReal 0 1 x := by
  rw [measureReal_def, gaussianReal_apply_eq_integral 0 (by norm_num) s, ENNReal.toReal_ofReal]
  exact integral_nonneg fun x => gaussianPDFReal_nonneg 0 1 x

theorem pdf_anti {x y : ℝ} (h : |x| ≤ |y|) : gaussianPDFReal 0 1 y ≤ gaussianPDFReal 0 1 x := by
  unfold gaussianPDFReal
  refine mul_le_mul_of_nonneg_left (Real.exp_le_exp.mpr ?_) (by positivity)
  have := sq_le_sq.mpr h
  simp only [sub_zero]
  norm_num
  linarith

/-- The shell between two symmetric intervals. -/
theorem normalWithin_shell (x y : ℝ) (hx : 0 ≤ x) (hxy : x ≤ y) :
    2 * gaussianPDFReal 0 1 y * (y - x) ≤ normalWithin y - normalWithin x ∧
      normalWithin y - normalWithin x ≤ 2 * gaussianPDFReal 0 1 x * (y - x) := by
  have hsub : Set.Icc (-x) x ⊆ Set.Icc (-y) y := Set.Icc_subset_Icc (by linarith) hxy
  set A := Set.Icc (-y) y \ Set.Icc (-x) x with hA
  have hAm : MeasurableSet A := measurableSet_Icc.diff measurableSet_Icc
  have hdiff : normalWithin y - normalWithin x = ∫ t in A, gaussianPDFReal 0 1 t := by
    rw [← gaussian_real_eq, hA, measureReal_sdiff hsub measurableSet_Icc]
    rfl
  have hvol : (volume : Measure ℝ).real A = 2 * (y - x) := by
    rw [hA, measureReal_sdiff hsub measurableSet_Icc (measure_Icc_lt_top (a := -y) (b := y)).ne, Real.volume_real_Icc_of_le (by linarith), Real.volume_real_Icc_of_le (by linarith)]
    ring
  have hfin : volume A ≠ ⊤ := ((measure_mono Set.diff_subset).trans_lt (measure_Icc_lt_top (a := -y) (b := y))).ne
  have hi : IntegrableOn (gaussianPDFReal 0 1) A := (integrable_gaussianPDFReal 0 1).integrableOn
  have hc : ∀ c : ℝ, ∫ _ in A, c = 2 * c * (y - x) := by
    intro c
    rw [setIntegral_const, hvol, smul_eq_mul]
    ring
  have hab : ∀ t ∈ A, x ≤ |t| ∧ |t| ≤ y := by
    intro t ht
    refine ⟨?_, abs_le.mpr ht.1⟩
    by_contra hn
    exact ht.2 (abs_le.mp (not_le.mp hn).le)
  rw [hdiff, ← hc, ← hc]
  constructor
  · refine setIntegral_mono_on (integrableOn_const hfin) hi hAm fun t ht => pdf_anti ?_
    rw [abs_of_nonneg (hx.trans hxy)]
    exact (hab t ht).2
  · refine setIntegral_mono_on hi (integrableOn_const hfin) hAm fun t ht => pdf_anti ?_
    rw [abs_of_nonneg hx]
    exact (hab t ht).1

theorem normalWithin_tangent (x z : ℝ) (hx : 0 ≤ x) (hz : 0 ≤ z) :
    normalWithin x ≤ normalWithin z + 2 * gaussianPDFReal 0 1 z * (x - z) := by
  rcases le_total z x with h | h
  · linarith [(normalWithin_shell z x hz h).2]
  · have := (normalWithin_shell x z hx h).1
    nlinarith

section

variable {R : Nat}

local notation "π" => (Measure.pi fun _ : Fin R => gaussianReal 0 1)

theorem memLp_normalCoord (r : Fin R) : MemLp (fun b : Fin R → ℝ => b r) 2 π := by
  have h := measurePreserving_eval (fun _ : Fin R => gaussianReal 0 1) r
  exact (memLp_id_gaussianReal' 2 (by norm_num)).comp_measurePreserving h

theorem mean_coord (r : Fin R) : ∫ b, b r ∂π = 0 := by
  have h := measurePreserving_eval (fun _ : Fin R => gaussianReal 0 1) r
  have e : ∫ b, b r ∂π = ∫ x, x ∂(gaussianReal 0 1) := by
    conv_rhs => rw [← h.map_eq]
    rw [integral_map (measurable_pi_apply r).aemeasurable (by fun_prop)]
  rw [e, integral_id_gaussianReal]

theorem sq_coord (r : Fin R) : ∫ b, b r ^ 2 ∂π = 1 := by
  have h := measurePreserving_eval (fun _ : Fin R => gaussianReal 0 1) r
  have e : ∫ b, b r ^ 2 ∂π = ∫ x, x ^ 2 ∂(gaussianReal 0 1) := by
    conv_rhs => rw [← h.map_eq]
    rw [integral_map (measurable_pi_apply r).aemeasurable (by fun_prop)]
  have hv := variance_id_gaussianReal (μ := 0) (v := 1)
  rw [variance_eq_integral aemeasurable_id] at hv
  simp only [id, integral_id_gaussianReal, sub_zero] at hv
  rw [e, hv]
  rfl

theorem memLp_coords : MemLp (fun b : Fin R → ℝ => ∑ r, b r) 2 π := memLp_finset_sum _ fun r _ => memLp_normalCoord r

theorem sq_coords : ∫ b, (∑ r, b r) ^ 2 ∂π = R := by
  have h := variance_sum_pi (μ := fun _ : Fin R => gaussianReal 0 1) (X := fun _ => id) fun _ => memLp_id_gaussianReal' 2 (by norm_num)
  have e : (∑ i : Fin R, fun ω : Fin R → ℝ => id (ω i)) = fun b => ∑ r, b r := by
    ext b
    simp
  rw [e, variance_eq_integral memLp_coords.aestronglyMeasurable.aemeasurable] at h
  have m0 : ∫ b, (∑ r, b r) ∂π = 0 := by
    rw [integral_finsetSum _ fun r _ => (memLp_normalCoord r).integrable (by norm_num)]
    exact Finset.sum_eq_zero fun r _ => mean_coord r
  rw [m0] at h
  simp only [sub_zero, variance_id_gaussianReal] at h
  rw [h]
  simp

theorem drawVar_sq (hR : 2 ≤ R) (b : Fin R → ℝ) : drawVar b = (∑ r, b r ^ 2 - (∑ r, b r) ^ 2 / R) / (R - 1) := by
  have h := drawVar_split hR b 0
  simpa using h

theorem integrable_drawVar (hR : 2 ≤ R) : Integrable (fun b : Fin R → ℝ => drawVar b) π := by
  simp only [drawVar_sq hR]
  refine Integrable.div_const (Integrable.sub (integrable_finsetSum _ fun r _ => (memLp_normalCoord r).integrable_sq)
    (Integrable.div_const memLp_coords.integrable_sq _)) _

theorem mean_drawVar_normal (hR : 2 ≤ R) : ∫ b : Fin R → ℝ, drawVar b ∂π = 1 := by
  have hR2 : (2 : ℝ) ≤ R := by exact_mod_cast hR
  simp only [drawVar_sq hR]
  rw [integral_div, integral_sub (integrable_finsetSum _ fun r _ => (memLp_normalCoord r).integrable_sq)
    (Integrable.div_const memLp_coords.integrable_sq _), integral_finsetSum _ fun r _ => (memLp_normalCoord r).integrable_sq,
    integral_div, sq_coords]
  simp only [sq_coord, Finset.sum_const, Finset.card_univ, Fintype.card_fin, nsmul_eq_mul, mul_one]
  have : (R : ℝ) ≠ 0 := by linarith
  rw [div_self this, div_self (by linarith)]

theorem integrable_sqrt_drawVar (hR : 2 ≤ R) : Integrable (fun b : Fin R → ℝ => √(drawVar b)) π := by
  refine Integrable.mono ((integrable_drawVar hR).add (integrable_const 1)) continuous_drawVar.sqrt.aestronglyMeasurable
    (Eventually.of_forall fun b => ?_)
  have h0 := drawVar_nonneg hR b
  rw [Real.norm_of_nonneg (Real.sqrt_nonneg _)]
  refine le_trans ?_ (le_abs_self _)
  show √(drawVar b) ≤ drawVar b + 1
  nlinarith [Real.sq_sqrt h0, sq_nonneg (√(drawVar b) - 1)]

instance openPos_gaussian : (gaussianReal 0 1).IsOpenPosMeasure :=
  (gaussianReal_absolutelyContinuous' 0 (v := 1) (by norm_num)).isOpenPosMeasure

theorem mean_sqrt_drawVar (hR : 2 ≤ R) : ∫ b : Fin R → ℝ, √(drawVar b) ∂π < 1 := by
  have hc : Continuous fun b : Fin R → ℝ => (√(drawVar b) - 1) ^ 2 := by
    have := (continuous_drawVar (R := R)).sqrt
    fun_prop
  have e : ∀ b : Fin R → ℝ, (√(drawVar b) - 1) ^ 2 = drawVar b - 2 * √(drawVar b) + 1 := by
    intro b
    have := Real.sq_sqrt (drawVar_nonneg hR b)
    nlinarith
  have hi : Integrable (fun b : Fin R → ℝ => (√(drawVar b) - 1) ^ 2) π := by
    simp only [e]
    exact ((integrable_drawVar hR).sub ((integrable_sqrt_drawVar hR).const_mul 2)).add (integrable_const 1)
  have hpos : 0 < ∫ b : Fin R → ℝ, (√(drawVar b) - 1) ^ 2 ∂π := by
    refine (integral_pos_iff_support_of_nonneg (fun b => sq_nonneg _) hi).mpr (hc.isOpen_support.measure_pos _ ⟨0, ?_⟩)
    have : drawVar (0 : Fin R → ℝ) = 0 := by simp [drawVar]
    rw [Function.mem_support, this]
    norm_num
  simp only [e] at hpos
  have hsub : Integrable (fun b : Fin R → ℝ => drawVar b - 2 * √(drawVar b)) π :=
    (integrable_drawVar hR).sub ((integrable_sqrt_drawVar hR).const_mul 2)
  rw [integral_add hsub (integrable_const 1), integral_sub (integrable_drawVar hR) ((integrable_sqrt_drawVar hR).const_mul 2), integral_const_mul, mean_drawVar_normal hR] at hpos
  simp at hpos
  linarith

theorem student_set {W : (Fin R → ℝ) → ℝ} (hW : Continuous W) {S : Set ℝ} (hS : MeasurableSet S) :
    MeasurableSet {p : ℝ × (Fin R → ℝ) | |p.1| - W p.2 ∈ S} := by
  have : Measurable fun p : ℝ × (Fin R → ℝ) => |p.1| - W p.2 := by
    have := hW.measurable
    fun_prop
  exact this hS

theorem student_section (w c : ℝ) : {x : ℝ | |x| - w ≤ c} = Set.Icc (-(w + c)) (w + c) := by
  ext x
  rw [Set.mem_Icc, ← abs_le]
  show |x| - w ≤ c ↔ |x| ≤ w + c
  constructor <;> intro h <;> linarith

/-- The probability that a standard normal number is at most the width which `W` takes from `R` others. -/
noncomputable def normalWidth (W : (Fin R → ℝ) → ℝ) : ℝ :=
  ((gaussianReal 0 1).prod π).real {p : ℝ × (Fin R → ℝ) | |p.1| ≤ W p.2}

theorem normalWidth_eq {W : (Fin R → ℝ) → ℝ} (hW : Continuous W) : normalWidth W = ∫ b : Fin R → ℝ, normalWithin (W b) ∂π := by
  have hset : {p : ℝ × (Fin R → ℝ) | |p.1| ≤ W p.2} = {p | |p.1| - W p.2 ∈ Set.Iic 0} := by
    ext p
    show |p.1| ≤ W p.2 ↔ |p.1| - W p.2 ≤ 0
    constructor <;> intro h <;> linarith
  unfold normalWidth
  rw [hset, measureReal_def, Measure.prod_apply_symm (student_set hW measurableSet_Iic), ← integral_toReal]
  · refine integral_congr_ae (Eventually.of_forall fun b => ?_)
    show ((gaussianReal 0 1) {x : ℝ | |x| - W b ≤ 0}).toReal = _
    rw [student_section (W b) 0, add_zero]
    rfl
  · exact (measurable_measure_prodMk_right (student_set hW measurableSet_Iic)).aemeasurable
  · exact Eventually.of_forall fun b => measure_lt_top _ _

theorem continuous_studentWidth (z : ℝ) : Continuous fun b : Fin R → ℝ => z * √(drawVar b) :=
  continuous_const.mul (continuous_drawVar (R := R)).sqrt

theorem studentWithin_eq (z : ℝ) : studentWithin R z = ∫ b : Fin R → ℝ, normalWithin (z * √(drawVar b)) ∂π :=
  normalWidth_eq (continuous_studentWidth z)

/-- The Student probability is below the normal one. -/
theorem studentWithin_lt (hR : 2 ≤ R) (z : ℝ) (hz : 0 < z) : studentWithin R z < normalWithin z := by
  rw [studentWithin_eq]
  set φ := gaussianPDFReal 0 1 z with hφ
  have hφ0 : 0 < φ := gaussianPDFReal_pos 0 1 z (by norm_num)
  have hi : Integrable (fun b : Fin R → ℝ => normalWithin z + 2 * φ * (z * √(drawVar b) - z)) π :=
    (integrable_const _).add ((((integrable_sqrt_drawVar hR).const_mul z).sub (integrable_const z)).const_mul _)
  have hm : Measurable fun b : Fin R → ℝ => normalWithin (z * √(drawVar b)) :=
    normalWithin_mono.measurable.comp ((continuous_drawVar (R := R)).sqrt.measurable.const_mul z)
  have hi2 : Integrable (fun b : Fin R → ℝ => normalWithin (z * √(drawVar b))) π := by
    refine Integrable.of_bound hm.aestronglyMeasurable 1 (Eventually.of_forall fun b => ?_)
    unfold normalWithin
    rw [Real.norm_of_nonneg measureReal_nonneg]
    exact measureReal_le_one
  have h1 := integral_mono hi2 hi fun b => normalWithin_tangent (z * √(drawVar b)) z (by positivity) hz.le
  have h2 : ∫ b : Fin R → ℝ, (normalWithin z + 2 * φ * (z * √(drawVar b) - z)) ∂π =
      normalWithin z + 2 * φ * z * ((∫ b : Fin R → ℝ, √(drawVar b) ∂π) - 1) := by
    have i1 : Integrable (fun b : Fin R → ℝ => z * √(drawVar b)) π := (integrable_sqrt_drawVar hR).const_mul z
    have i2 : Integrable (fun b : Fin R → ℝ => z * √(drawVar b) - z) π := i1.sub (integrable_const z)
    rw [integral_add (integrable_const _) (i2.const_mul _), integral_const_mul,
      integral_sub i1 (integrable_const z), integral_const_mul]
    simp
    ring
  rw [h2] at h1
  have h3 := mean_sqrt_drawVar hR
  have h4 : 0 < 2 * φ * z := by positivity
  nlinarith

/-! ### The limit -/

/-- The excess of the absolute error over the half width. -/
noncomputable def excess (W : (Fin R → ℝ) → ℝ) (v : EuclideanSpace ℝ (Fin (R + 1))) : ℝ :=
  |v 0| - W fun r : Fin R => v r.succ

variable {W : (Fin R → ℝ) → ℝ} (hW : Continuous W)
include hW

theorem continuous_excess : Continuous (excess W) := by
  have h : Continuous fun v : EuclideanSpace ℝ (Fin (R + 1)) => W fun r : Fin R => v r.succ := hW.comp (by fun_prop)
  unfold excess
  fun_prop

theorem gaussian_excess {S : Set ℝ} (hS : MeasurableSet S) :
    stdGaussian (EuclideanSpace ℝ (Fin (R + 1))) (excess W ⁻¹' S) = ((gaussianReal 0 1).prod π) {p | |p.1| - W p.2 ∈ S} := by
  rw [← map_pi_eq_stdGaussian, Measure.map_apply (WithLp.measurable_toLp 2 _) ((continuous_excess hW).measurable hS),
    ← (measurePreserving_piFinSuccAbove (fun _ : Fin (R + 1) => gaussianReal 0 1) 0).measure_preimage
      (student_set hW hS).nullMeasurableSet]
  congr 1

theorem gaussian_excess_null (c : ℝ) : stdGaussian (EuclideanSpace ℝ (Fin (R + 1))) (excess W ⁻¹' {c}) = 0 := by
  have := nullSingletonClass_gaussianReal (μ := 0) (v := 1) (by norm_num)
  rw [gaussian_excess hW (measurableSet_singleton c), Measure.prod_apply_symm (student_set hW (measurableSet_singleton c))]
  refine (lintegral_congr fun b => ?_).trans lintegral_zero
  refine measure_mono_null (t := {W b + c, -(W b + c)}) (fun x (hx : |x| - W b = c) => ?_) ((Set.toFinite _).measure_zero _)
  have h : |x| = W b + c := by linarith
  rcases abs_choice x with hc | hc
  · exact Or.inl (by rw [← h, hc])
  · refine Or.inr ?_
    show x = _
    rw [← h, hc, neg_neg]

theorem gaussian_excess_zero :
    (stdGaussian (EuclideanSpace ℝ (Fin (R + 1)))).real (excess W ⁻¹' Set.Iic 0) = normalWidth W := by
  unfold normalWidth
  rw [measureReal_def, gaussian_excess hW measurableSet_Iic]
  congr 2
  ext p
  show |p.1| - W p.2 ≤ 0 ↔ |p.1| ≤ W p.2
  constructor <;> intro h <;> linarith

/-- The distribution function of the excess is continuous at zero. -/
theorem excess_continuousAt :
    ContinuousAt (fun c => (stdGaussian (EuclideanSpace ℝ (Fin (R + 1)))).real (excess W ⁻¹' Set.Iic c)) 0 := by
  set L := (stdGaussian (EuclideanSpace ℝ (Fin (R + 1)))).map (excess W) with hL
  have mE := (continuous_excess hW).measurable
  have hLp : IsProbabilityMeasure L := Measure.isProbabilityMeasure_map mE.aemeasurable
  have e : (fun c => (stdGaussian (EuclideanSpace ℝ (Fin (R + 1)))).real (excess W ⁻¹' Set.Iic c)) = cdf L := by
    ext c
    rw [cdf_eq_real, hL, map_measureReal_apply mE measurableSet_Iic]
  rw [e]
  have hmono := (cdf L).mono
  rw [hmono.continuousAt_iff_leftLim_eq_rightLim, StieltjesFunction.rightLim_eq]
  have h1 := (cdf L).measure_singleton 0
  rw [measure_cdf, hL, Measure.map_apply mE (measurableSet_singleton 0), gaussian_excess_null hW, ← hL] at h1
  have h2 : cdf L 0 - Function.leftLim (cdf L) 0 ≤ 0 := ENNReal.ofReal_eq_zero.mp h1.symm
  have h3 := hmono.leftLim_le (le_refl 0)
  linarith

end

section rows

variable {β Ω : Type} [MeasurableSpace β] [MeasurableSpace Ω] {P : Measure Ω} {law : Measure β} {Z : ℕ → Ω → β}
  (hm : ∀ i, Measurable (Z i))
include hm

/-- Independently drawn index arrays give the law of the bootstrap means. -/
theorem fresh_law [IsProbabilityMeasure P] (u v : β → ℝ) (mu : Measurable u) (mv : Measurable v) {N R : Nat} {w : Ω → Fin R → Fin N → Fin N}
    (hw : FreshResample P Z N R w) (B : Set (EuclideanSpace ℝ (Fin (R + 1)))) (hB : MeasurableSet B) :
    P.real {ω | bootVec u v (fun i : Fin N => Z i ω) (w ω) ∈ B} = (bootLaw P Z u v R N).real B := by
  have hprob := bootLaw_prob (P := P) hm u v mu mv R N
  have key : ∀ B : Set (EuclideanSpace ℝ (Fin (R + 1))), MeasurableSet B →
      P.real {ω | bootVec u v (fun i : Fin N => Z i ω) (w ω) ∈ B} ≤ (bootLaw P Z u v R N).real B := by
    intro B hB
    have hsub : {ω | bootVec u v (fun i : Fin N => Z i ω) (w ω) ∈ B} ⊆
        ⋃ t : Fin R → Fin N → Fin N, {ω | (fun i : Fin N => Z i ω) ∈ {x | bootVec u v x t ∈ B} ∧ w ω = t} := by
      intro ω hω
      simp only [Set.mem_iUnion]
      exact ⟨w ω, hω, rfl⟩
    refine (measureReal_mono hsub (measure_ne_top P _)).trans ((measureReal_iUnion_fintype_le _).trans (le_of_eq ?_))
    rw [Finset.sum_congr rfl fun t _ => hw.fair {x | bootVec u v x t ∈ B} (measurable_bootVec u v mu mv t hB) t, ← Finset.sum_div,
      measureReal_def (bootLaw P Z u v R N), bootLaw_apply hm u v mu mv R N B hB, ENNReal.toReal_mul, ENNReal.toReal_inv, ENNReal.toReal_natCast,
      ENNReal.toReal_sum fun t _ => measure_ne_top P _, div_eq_inv_mul]
    rfl
  refine le_antisymm (key B hB) ?_
  have h2 := key Bᶜ hB.compl
  have h3 : (1 : ℝ) ≤ P.real {ω | bootVec u v (fun i : Fin N => Z i ω) (w ω) ∈ B} +
      P.real {ω | bootVec u v (fun i : Fin N => Z i ω) (w ω) ∈ Bᶜ} := by
    rw [← probReal_univ (μ := P)]
    refine le_trans (measureReal_mono (fun ω _ => ?_) (measure_ne_top P _)) (measureReal_union_le _ _)
    exact em _
  rw [measureReal_compl hB, probReal_univ] at h2
  linarith

variable (hlaw : ∀ i, Measure.map (Z i) P = law) (hind : iIndepFun Z P)
include hlaw hind

theorem excess_limit (u v : β → ℝ) (mu : Measurable u) (mv : Measurable v) (u0 : ∫ p, u p ∂law = 0) (u1 : ∫ p, u p ^ 2 ∂law = 1)
    (v0 : ∫ p, v p ∂law = 0) (v1 : ∫ p, v p ^ 2 ∂law = 1) (H : ℝ) (hb : ∀ᵐ p ∂law, |v p| ≤ H) (R : Nat) (W : (Fin R → ℝ) → ℝ)
    (hW : Continuous W) (c : ℝ) :
    Tendsto (fun N => (bootLaw P Z u v R N).real (excess W ⁻¹' Set.Iic c)) atTop
      (𝓝 ((stdGaussian (EuclideanSpace ℝ (Fin (R + 1)))).real (excess W ⁻¹' Set.Iic c))) := by
  have hP : IsProbabilityMeasure P := hind.isProbabilityMeasure
  have hprob := fun N => bootLaw_prob (P := P) hm u v mu mv R N
  let μ : ℕ → ProbabilityMeasure (EuclideanSpace ℝ (Fin (R + 1))) := fun N => ⟨bootLaw P Z u v R N, hprob N⟩
  let μ₀ : ProbabilityMeasure (EuclideanSpace ℝ (Fin (R + 1))) := ⟨stdGaussian _, inferInstance⟩
  have hw : Tendsto μ atTop (𝓝 μ₀) :=
    ProbabilityMeasure.tendsto_iff_tendsto_charFun.mpr fun s => bootLaw_tendsto hm hlaw hind u v mu mv u0 u1 v0 v1 H hb R s
  have hfr : (μ₀ : Measure (EuclideanSpace ℝ (Fin (R + 1)))) (frontier (excess W ⁻¹' Set.Iic c)) = 0 := by
    refine measure_mono_null ((continuous_excess hW).frontier_preimage_subset _) ?_
    rw [frontier_Iic]
    exact gaussian_excess_null hW c
  have key := ProbabilityMeasure.tendsto_measure_of_null_frontier_of_tendsto' hw hfr
  exact (ENNReal.tendsto_toReal (measure_ne_top _ _)).comp key

/-- If, outside a rare event, an error and a half width differ little from a scaled mean and from a width taken from `R` scaled bootstrap
means, the interval covers with nearly the probability of independent normal numbers. -/
theorem width_perturbed (u v : β → ℝ) (mu : Measurable u) (mv : Measurable v) (u0 : ∫ p, u p ∂law = 0) (u1 : ∫ p, u p ^ 2 ∂law = 1)
    (v0 : ∫ p, v p ∂law = 0) (v1 : ∫ p, v p ^ 2 ∂law = 1) (H : ℝ) (hb : ∀ᵐ p ∂law, |v p| ≤ H) (R : Nat) (W : (Fin R → ℝ) → ℝ)
    (hW : Continuous W) (ε : ℝ) (hε : 0 < ε) :
    ∃ η > 0, ∃ N0 : ℕ, ∀ N ≥ N0, ∀ w : Ω → Fin R → Fin N → Fin N, FreshResample P Z N R w →
      ∀ (E B : Ω → ℝ) (cov bad : Set Ω), P.real bad ≤ ε / 4 →
      (∀ ω ∉ bad, (ω ∈ cov ↔ |E ω| ≤ B ω) ∧ |E ω - bootVec u v (fun i : Fin N => Z i ω) (w ω) 0| ≤ η ∧
        |B ω - W fun r : Fin R => bootVec u v (fun i : Fin N => Z i ω) (w ω) r.succ| ≤ η) →
      |P.real cov - normalWidth W| < ε := by
  have hP : IsProbabilityMeasure P := hind.isProbabilityMeasure
  obtain ⟨δ, hδ, hcont⟩ := Metric.continuousAt_iff.mp (excess_continuousAt hW) (ε / 3) (by positivity)
  set η := δ / 3 with hη
  have hη0 : 0 < η := by positivity
  obtain ⟨N2, hN2⟩ := Metric.tendsto_atTop.mp (excess_limit hm hlaw hind u v mu mv u0 u1 v0 v1 H hb R W hW (2 * η)) (ε / 3) (by positivity)
  obtain ⟨N3, hN3⟩ := Metric.tendsto_atTop.mp (excess_limit hm hlaw hind u v mu mv u0 u1 v0 v1 H hb R W hW (-(2 * η))) (ε / 3) (by positivity)
  refine ⟨η, hη0, max N2 N3, fun N hN w hw E B cov bad hbad hgood => ?_⟩
  have hup := hN2 N (le_of_max_le_left hN)
  have hlo := hN3 N (le_of_max_le_right hN)
  have c1 := hcont (x := 2 * η) (by rw [Real.dist_eq, abs_lt]; constructor <;> linarith)
  have c2 := hcont (x := -(2 * η)) (by rw [Real.dist_eq, abs_lt]; constructor <;> linarith)
  rw [gaussian_excess_zero hW] at c1 c2
  have mI := fun c : ℝ => (continuous_excess hW).measurable (measurableSet_Iic (a := c))
  rw [← fresh_law hm u v mu mv hw _ (mI _)] at hup hlo
  rw [Real.dist_eq, abs_lt] at hup hlo c1 c2
  have b1 : P.real cov ≤ P.real {ω | bootVec u v (fun i : Fin N => Z i ω) (w ω) ∈ excess W ⁻¹' Set.Iic (2 * η)} + P.real bad := by
    refine le_trans (measureReal_mono (fun ω hω => ?_) (measure_ne_top P _)) (measureReal_union_le _ _)
    by_cases hb : ω ∈ bad
    · exact Or.inr hb
    · obtain ⟨g1, g2, g3⟩ := hgood ω hb
      have g4 := g1.mp hω
      have g6 := abs_le.mp g3
      have g7 := abs_abs_sub_abs_le (E ω) (bootVec u v (fun i : Fin N => Z i ω) (w ω) 0)
      have g8 := abs_le.mp (g7.trans g2)
      left
      show |bootVec u v (fun i : Fin N => Z i ω) (w ω) 0| -
        (W fun r : Fin R => bootVec u v (fun i : Fin N => Z i ω) (w ω) r.succ) ≤ 2 * η
      linarith
  have b2 : P.real {ω | bootVec u v (fun i : Fin N => Z i ω) (w ω) ∈ excess W ⁻¹' Set.Iic (-(2 * η))} ≤ P.real cov + P.real bad := by
    refine le_trans (measureReal_mono (fun ω hω => ?_) (measure_ne_top P _)) (measureReal_union_le _ _)
    by_cases hb : ω ∈ bad
    · exact Or.inr hb
    · obtain ⟨g1, g2, g3⟩ := hgood ω hb
      have g6 := abs_le.mp g3
      have g7 := abs_abs_sub_abs_le (E ω) (bootVec u v (fun i : Fin N => Z i ω) (w ω) 0)
      have g8 := abs_le.mp (g7.trans g2)
      have g9 : |bootVec u v (fun i : Fin N => Z i ω) (w ω) 0| -
        (W fun r : Fin R => bootVec u v (fun i : Fin N => Z i ω) (w ω) r.succ) ≤ -(2 * η) := hω
      refine Or.inl (g1.mpr ?_)
      linarith
  rw [abs_lt]
  constructor <;> linarith

/-- The width being `z` times a standard deviation, the limit is the Student probability. -/
theorem student_perturbed (u v : β → ℝ) (mu : Measurable u) (mv : Measurable v) (u0 : ∫ p, u p ∂law = 0) (u1 : ∫ p, u p ^ 2 ∂law = 1)
    (v0 : ∫ p, v p ∂law = 0) (v1 : ∫ p, v p ^ 2 ∂law = 1) (H : ℝ) (hb : ∀ᵐ p ∂law, |v p| ≤ H) (R : Nat) (z : ℝ) (ε : ℝ) (hε : 0 < ε) :
    ∃ η > 0, ∃ N0 : ℕ, ∀ N ≥ N0, ∀ w : Ω → Fin R → Fin N → Fin N, FreshResample P Z N R w →
      ∀ (E B : Ω → ℝ) (cov bad : Set Ω), P.real bad ≤ ε / 4 →
      (∀ ω ∉ bad, (ω ∈ cov ↔ |E ω| ≤ B ω) ∧ |E ω - bootVec u v (fun i : Fin N => Z i ω) (w ω) 0| ≤ η ∧
        |B ω - z * √(drawVar fun r : Fin R => bootVec u v (fun i : Fin N => Z i ω) (w ω) r.succ)| ≤ η) →
      |P.real cov - studentWithin R z| < ε :=
  width_perturbed hm hlaw hind u v mu mv u0 u1 v0 v1 H hb R _ (continuous_studentWidth z) ε hε

end rows

end SALib
