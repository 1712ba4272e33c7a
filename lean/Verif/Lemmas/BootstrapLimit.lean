import Verif.Lemmas.BootstrapChar
import Verif.Lemmas.QuotientCoverage
import Mathlib.MeasureTheory.Measure.LevyConvergence
import Mathlib.Probability.Distributions.Gaussian.Multivariate

/-! # The mean and a fixed number of bootstrap means: the joint limit law -/

namespace SALib
open MeasureTheory ProbabilityTheory Filter Topology Spec

/-- The scaled mean of `u` over the rows, followed by the scaled differences of `R` bootstrap means of `v` from the mean of `v`. -/
noncomputable def bootVec {β : Type} (u v : β → ℝ) {N R : Nat} (x : Fin N → β) (t : Fin R → Fin N → Fin N) :
    EuclideanSpace ℝ (Fin (R + 1)) :=
  WithLp.toLp 2 (Fin.cons (α := fun _ => ℝ) ((√N)⁻¹ * ∑ i, u (x i))
    fun r => (√N)⁻¹ * ∑ i, (v (x (t r i)) - (∑ k, v (x k)) / N))

theorem measurable_bootVec {β : Type} [MeasurableSpace β] (u v : β → ℝ) (mu : Measurable u) (mv : Measurable v) {N R : Nat} (t : Fin R → Fin N → Fin N) :
    Measurable fun x : Fin N → β => bootVec u v x t := by
  unfold bootVec
  refine (WithLp.measurable_toLp 2 _).comp (measurable_pi_lambda _ fun i => ?_)
  refine Fin.cases ?_ (fun r => ?_) i
  · simp only [Fin.cons_zero]
    fun_prop
  · simp only [Fin.cons_succ]
    fun_prop

/-- The characteristic function of the bootstrap means, given the rows. -/
theorem bootVec_char {β : Type} (u v : β → ℝ) {N R : Nat} (x : Fin N → β) (s : EuclideanSpace ℝ (Fin (R + 1))) :
    (∑ t : Fin R → Fin N → Fin N, Complex.exp ((inner ℝ (bootVec u v x t) s : ℝ) * Complex.I)) /
        (Fintype.card (Fin R → Fin N → Fin N) : ℂ) =
      Complex.exp ((s 0 * ((√N)⁻¹ * ∑ i, u (x i)) : ℝ) * Complex.I) *
        ∏ r : Fin R, ((∑ j, Complex.exp (((√N)⁻¹ * s r.succ * (v (x j) - (∑ k, v (x k)) / N) : ℝ) * Complex.I)) / N) ^ N := by
  have e1 : ∀ t : Fin R → Fin N → Fin N, Complex.exp ((inner ℝ (bootVec u v x t) s : ℝ) * Complex.I) =
      Complex.exp ((s 0 * ((√N)⁻¹ * ∑ i, u (x i)) : ℝ) * Complex.I) *
        ∏ r : Fin R, ∏ i, Complex.exp (((√N)⁻¹ * s r.succ * (v (x (t r i)) - (∑ k, v (x k)) / N) : ℝ) * Complex.I) := by
    intro t
    simp only [← Complex.exp_sum]
    rw [← Complex.exp_add, PiLp.inner_apply, Fin.sum_univ_succ]
    congr 1
    simp only [← Finset.sum_mul, ← Complex.ofReal_sum]
    rw [← add_mul, ← Complex.ofReal_add]
    congr 2
    have a1 : inner ℝ ((bootVec u v x t) 0) (s 0) = s 0 * ((√N)⁻¹ * ∑ i, u (x i)) := rfl
    rw [a1]
    congr 1
    refine Finset.sum_congr rfl fun r _ => ?_
    have a2 : inner ℝ ((bootVec u v x t) r.succ) (s r.succ) =
      s r.succ * ((√N)⁻¹ * ∑ i, (v (x (t r i)) - (∑ k, v (x k)) / N)) := rfl
    rw [a2, Finset.mul_sum, Finset.mul_sum]
    refine Finset.sum_congr rfl fun i _ => ?_
    ring
  simp only [e1]
  rw [← Finset.mul_sum, mul_div_assoc]
  congr 1
  rw [← Fintype.piFinset_univ, Finset.sum_prod_piFinset (Finset.univ : Finset (Fin N → Fin N)) (fun (r : Fin R) (τ : Fin N → Fin N) =>
    ∏ i, Complex.exp (((√N)⁻¹ * s r.succ * (v (x (τ i)) - (∑ k, v (x k)) / N) : ℝ) * Complex.I))]
  have e2 : ∀ r : Fin R, ∑ τ : Fin N → Fin N, ∏ i, Complex.exp (((√N)⁻¹ * s r.succ * (v (x (τ i)) - (∑ k, v (x k)) / N) : ℝ) * Complex.I) =
      (∑ j, Complex.exp (((√N)⁻¹ * s r.succ * (v (x j) - (∑ k, v (x k)) / N) : ℝ) * Complex.I)) ^ N := by
    intro r
    rw [← Fintype.piFinset_univ, Finset.sum_prod_piFinset (Finset.univ : Finset (Fin N)) (fun (_ : Fin N) (j : Fin N) =>
      Complex.exp (((√N)⁻¹ * s r.succ * (v (x j) - (∑ k, v (x k)) / N) : ℝ) * Complex.I))]
    rw [Finset.prod_const, Finset.card_univ, Fintype.card_fin]
  simp only [e2, div_pow]
  rw [Finset.prod_div_distrib, Finset.prod_const, Finset.card_univ, Fintype.card_fin]
  simp

/-- A mean of complex numbers of absolute value one. -/
theorem norm_unit_mean {N : Nat} (θ : Fin N → ℝ) : ‖((∑ j, Complex.exp ((θ j : ℝ) * Complex.I)) / N : ℂ) ^ N‖ ≤ 1 := by
  rw [norm_pow]
  refine pow_le_one₀ (norm_nonneg _) ?_
  rw [norm_div, Complex.norm_natCast]
  refine div_le_one_of_le₀ ((norm_sum_le _ _).trans ?_) (Nat.cast_nonneg _)
  simp [Complex.norm_exp_ofReal_mul_I]

section rows

variable {β Ω : Type} [MeasurableSpace β] [MeasurableSpace Ω] {P : Measure Ω} {law : Measure β} {Z : ℕ → Ω → β}

/-- The law of the mean and the bootstrap means, every index array being equally likely. -/
noncomputable def bootLaw (P : Measure Ω) (Z : ℕ → Ω → β) (u v : β → ℝ) (R N : Nat) : Measure (EuclideanSpace ℝ (Fin (R + 1))) :=
  (Fintype.card (Fin R → Fin N → Fin N) : ENNReal)⁻¹ •
    ∑ t : Fin R → Fin N → Fin N, P.map fun ω => bootVec u v (fun i : Fin N => Z i ω) t

theorem card_arrays_pos (R N : Nat) : 0 < Fintype.card (Fin R → Fin N → Fin N) :=
  Fintype.card_pos_iff.mpr ⟨fun _ => id⟩

variable (hm : ∀ i, Measurable (Z i))
include hm

theorem measurable_bootVec_rows (u v : β → ℝ) (mu : Measurable u) (mv : Measurable v) {N R : Nat} (t : Fin R → Fin N → Fin N) :
    Measurable fun ω => bootVec u v (fun i : Fin N => Z i ω) t :=
  (measurable_bootVec u v mu mv t).comp (measurable_pi_lambda _ fun i => hm i)

theorem bootLaw_apply (u v : β → ℝ) (mu : Measurable u) (mv : Measurable v) (R N : Nat) (B : Set (EuclideanSpace ℝ (Fin (R + 1)))) (hB : MeasurableSet B) :
    bootLaw P Z u v R N B = (Fintype.card (Fin R → Fin N → Fin N) : ENNReal)⁻¹ *
      ∑ t : Fin R → Fin N → Fin N, P {ω | bootVec u v (fun i : Fin N => Z i ω) t ∈ B} := by
  unfold bootLaw
  rw [Measure.smul_apply, Measure.finsetSum_apply, smul_eq_mul]
  congr 1
  exact Finset.sum_congr rfl fun t _ => Measure.map_apply (measurable_bootVec_rows hm u v mu mv t) hB

theorem bootLaw_prob [IsProbabilityMeasure P] (u v : β → ℝ) (mu : Measurable u) (mv : Measurable v) (R N : Nat) : IsProbabilityMeasure (bootLaw P Z u v R N) := by
  constructor
  rw [bootLaw_apply hm u v mu mv R N _ MeasurableSet.univ]
  simp only [Set.mem_univ, Set.setOf_true, measure_univ, Finset.sum_const, Finset.card_univ, nsmul_eq_mul, mul_one]
  exact ENNReal.inv_mul_cancel (by exact_mod_cast (card_arrays_pos R N).ne') (ENNReal.natCast_ne_top _)

theorem bootLaw_charFun [IsProbabilityMeasure P] (u v : β → ℝ) (mu : Measurable u) (mv : Measurable v) (R N : Nat) (s : EuclideanSpace ℝ (Fin (R + 1))) :
    charFun (bootLaw P Z u v R N) s =
      ∫ ω, Complex.exp ((s 0 * ((√N)⁻¹ * ∑ i : Fin N, u (Z i ω)) : ℝ) * Complex.I) *
        ∏ r : Fin R, ((∑ j : Fin N, Complex.exp (((√N)⁻¹ * s r.succ * (v (Z j ω) - (∑ k : Fin N, v (Z k ω)) / N) : ℝ) * Complex.I)) / N) ^ N ∂P := by
  have mB := fun t : Fin R → Fin N → Fin N => measurable_bootVec_rows hm u v mu mv t
  have mexp : Measurable fun y : EuclideanSpace ℝ (Fin (R + 1)) => Complex.exp ((inner ℝ y s : ℝ) * Complex.I) := by fun_prop
  have hint : ∀ μ : Measure (EuclideanSpace ℝ (Fin (R + 1))), IsFiniteMeasure μ →
      Integrable (fun y : EuclideanSpace ℝ (Fin (R + 1)) => Complex.exp ((inner ℝ y s : ℝ) * Complex.I)) μ := by
    intro μ hμ
    refine Integrable.of_bound mexp.aestronglyMeasurable 1 (Eventually.of_forall fun v => ?_)
    rw [Complex.norm_exp_ofReal_mul_I]
  rw [charFun_apply]
  unfold bootLaw
  rw [integral_smul_measure, integral_finsetSum_measure fun t _ => hint _ (Measure.isFiniteMeasure_map P _)]
  simp only [fun t => integral_map (μ := P) (mB t).aemeasurable mexp.aestronglyMeasurable]
  have hI : ∀ t : Fin R → Fin N → Fin N,
      Integrable (fun ω => Complex.exp ((inner ℝ (bootVec u v (fun i : Fin N => Z i ω) t) s : ℝ) * Complex.I)) P := fun t =>
    (hint _ (Measure.isFiniteMeasure_map P _)).comp_measurable (mB t)
  rw [← integral_finsetSum _ fun t _ => hI t, ← integral_smul]
  refine integral_congr_ae (Eventually.of_forall fun ω => ?_)
  beta_reduce
  rw [← bootVec_char u v (fun i : Fin N => Z i ω) s, ENNReal.toReal_inv, ENNReal.toReal_natCast, Complex.real_smul, div_eq_inv_mul]
  push_cast
  rfl

variable (hlaw : ∀ i, Measure.map (Z i) P = law) (hind : iIndepFun Z P)
include hlaw hind

theorem bootLaw_tendsto (u v : β → ℝ) (mu : Measurable u) (mv : Measurable v) (u0 : ∫ p, u p ∂law = 0) (u1 : ∫ p, u p ^ 2 ∂law = 1)
    (v0 : ∫ p, v p ∂law = 0) (v1 : ∫ p, v p ^ 2 ∂law = 1) (H : ℝ) (hb : ∀ᵐ p ∂law, |v p| ≤ H) (R : Nat) (s : EuclideanSpace ℝ (Fin (R + 1))) :
    Tendsto (fun N => charFun (bootLaw P Z u v R N) s) atTop (𝓝 (charFun (stdGaussian (EuclideanSpace ℝ (Fin (R + 1)))) s)) := by
  have hP : IsProbabilityMeasure P := hind.isProbabilityMeasure
  have hL : IsProbabilityMeasure law := by
    rw [← hlaw 0]
    exact Measure.isProbabilityMeasure_map (hm 0).aemeasurable
  let Φ : ℕ → Ω → ℂ := fun N ω => Complex.exp ((s 0 * ((√N)⁻¹ * ∑ i : Fin N, u (Z i ω)) : ℝ) * Complex.I)
  let G : ℕ → Ω → ℂ := fun N ω => ∏ r : Fin R, ((∑ j : Fin N, Complex.exp (((√N)⁻¹ * s r.succ *
    (v (Z j ω) - (∑ k : Fin N, v (Z k ω)) / N) : ℝ) * Complex.I)) / N) ^ N
  let g : ℂ := ∏ r : Fin R, Complex.exp (-(s r.succ ^ 2 * 1 / 2) : ℝ)
  have mu' : ∀ i, Measurable fun ω => u (Z i ω) := fun i => mu.comp (hm i)
  have mv' : ∀ i, Measurable fun ω => v (Z i ω) := fun i => mv.comp (hm i)
  have mΦ : ∀ N, Measurable (Φ N) := fun N => by
    show Measurable fun ω => Complex.exp ((s 0 * ((√N)⁻¹ * ∑ i : Fin N, u (Z i ω)) : ℝ) * Complex.I)
    fun_prop
  have mG : ∀ N, Measurable (G N) := fun N => by
    show Measurable fun ω => ∏ r : Fin R, ((∑ j : Fin N, Complex.exp (((√N)⁻¹ * s r.succ *
      (v (Z j ω) - (∑ k : Fin N, v (Z k ω)) / N) : ℝ) * Complex.I)) / N) ^ N
    fun_prop
  have nΦ : ∀ N ω, ‖Φ N ω‖ = 1 := fun N ω => Complex.norm_exp_ofReal_mul_I _
  have nG : ∀ N ω, ‖G N ω‖ ≤ 1 := fun N ω => by
    show ‖∏ r : Fin R, _‖ ≤ 1
    rw [norm_prod]
    exact Finset.prod_le_one (fun _ _ => norm_nonneg _) fun r _ => norm_unit_mean _
  -- the factors of the bootstrap means
  have hG : ∀ᵐ ω ∂P, Tendsto (fun N => G N ω) atTop (𝓝 g) := by
    have hbd : ∀ᵐ ω ∂P, ∀ i, |v (Z i ω)| ≤ H := by
      rw [ae_all_iff]
      intro i
      rw [← hlaw i] at hb
      exact ae_of_ae_map (hm i).aemeasurable hb
    have i1 : Integrable v law := Integrable.of_bound mv.aestronglyMeasurable H hb
    have i2 : Integrable (fun p => v p ^ 2) law := by
      refine Integrable.of_bound (mv.pow_const 2).aestronglyMeasurable (H ^ 2) ?_
      filter_upwards [hb] with p hp
      rw [Real.norm_eq_abs, abs_pow]
      exact pow_le_pow_left₀ (abs_nonneg _) hp 2
    filter_upwards [hbd, tendsto_rowMean hm hlaw hind v mv i1, tendsto_rowMean hm hlaw hind _ (mv.pow_const 2) i2] with ω h1 h2 h3
    rw [v0] at h2
    rw [v1] at h3
    have hv : Tendsto (fun N : ℕ => (∑ j ∈ Finset.range N, (v (Z j ω) - (∑ k ∈ Finset.range N, v (Z k ω)) / N) ^ 2) / N) atTop (𝓝 1) := by
      have h4 := h3.sub (h2.pow 2)
      rw [show (1 : ℝ) - 0 ^ 2 = 1 from by norm_num] at h4
      refine h4.congr' ?_
      filter_upwards [eventually_gt_atTop 0] with N hN
      have hNr : (N : ℝ) ≠ 0 := by exact_mod_cast hN.ne'
      rw [rowMean_firstRows, rowMean_firstRows]
      set m := ∑ k ∈ Finset.range N, v (Z k ω) with hmd
      have : ∑ j ∈ Finset.range N, (v (Z j ω) - m / N) ^ 2 = ∑ j ∈ Finset.range N, v (Z j ω) ^ 2 - m ^ 2 / N := by
        have e : ∀ j, (v (Z j ω) - m / N) ^ 2 = v (Z j ω) ^ 2 - 2 * (m / N) * v (Z j ω) + (m / N) ^ 2 := fun j => by ring
        simp only [e, Finset.sum_add_distrib, Finset.sum_sub_distrib, ← Finset.mul_sum, Finset.sum_const, Finset.card_range, nsmul_eq_mul]
        rw [← hmd]
        field_simp
        ring
      rw [this]
      field_simp
    refine tendsto_finsetProd _ fun r _ => ?_
    refine (bootstrap_char (fun i => v (Z i ω)) H h1 1 hv (s r.succ)).congr fun N => ?_
    simp only [Finset.sum_range]
  -- the factor of the mean
  have hΦ : Tendsto (fun N => ∫ ω, Φ N ω ∂P) atTop (𝓝 (Complex.exp (-((s 0 : ℝ) : ℂ) ^ 2 / 2))) := by
    let X : ℕ → Ω → ℝ := fun k ω => u (Z k ω)
    have hX0 : ∫ ω, X 0 ω ∂P = 0 := by
      have e : ∫ ω, X 0 ω ∂P = ∫ d, u d ∂(Measure.map (Z 0) P) := by
        rw [integral_map (hm 0).aemeasurable mu.aestronglyMeasurable]
      rw [e, hlaw, u0]
    have hX1 : ∫ ω, X 0 ω ^ 2 ∂P = 1 := by
      have e : ∫ ω, X 0 ω ^ 2 ∂P = ∫ d, u d ^ 2 ∂(Measure.map (Z 0) P) := by
        rw [integral_map (hm 0).aemeasurable (mu.pow_const 2).aestronglyMeasurable]
      rw [e, hlaw, u1]
    have hXi : iIndepFun X P := hind.comp (fun _ d => u d) fun _ => mu
    have hXd : ∀ i, IdentDistrib (X i) (X 0) P P := fun i =>
      { aemeasurable_fst := (mu' i).aemeasurable
        aemeasurable_snd := (mu' 0).aemeasurable
        map_eq := by
          have : ∀ i, Measure.map (X i) P = Measure.map u law := by
            intro i
            rw [← hlaw i, Measure.map_map mu (hm i)]
            rfl
          rw [this i, this 0] }
    refine (tendsto_charFun_inv_sqrt_mul_pow (mu' 0).aemeasurable hX0 hX1 (s 0)).congr fun N => ?_
    rw [← charFun_inv_sqrt_mul_sum hXi hXd, charFun_apply_real, integral_map (by fun_prop) (by fun_prop)]
    refine integral_congr_ae (Eventually.of_forall fun ω => ?_)
    show Complex.exp _ = Complex.exp _
    congr 1
    rw [Finset.sum_range]
    push_cast
    rfl
  have iΦ : ∀ N, Integrable (Φ N) P := fun N =>
    Integrable.of_bound (mΦ N).aestronglyMeasurable 1 (Eventually.of_forall fun ω => (nΦ N ω).le)
  have iΦG : ∀ N, Integrable (fun ω => Φ N ω * (G N ω - g)) P := fun N =>
    Integrable.of_bound ((mΦ N).mul ((mG N).sub_const g)).aestronglyMeasurable (1 + ‖g‖) (Eventually.of_forall fun ω => by
      rw [norm_mul, nΦ, one_mul]
      exact (norm_sub_le _ _).trans (add_le_add (nG N ω) le_rfl))
  have hd : Tendsto (fun N => ∫ ω, Φ N ω * (G N ω - g) ∂P) atTop (𝓝 0) := by
    have := tendsto_integral_of_dominated_convergence (μ := P) (F := fun N ω => Φ N ω * (G N ω - g)) (f := fun _ => 0)
      (fun _ => 1 + ‖g‖) (fun N => (iΦG N).aestronglyMeasurable) (integrable_const _)
      (fun N => Eventually.of_forall fun ω => by
        rw [norm_mul, nΦ, one_mul]
        exact (norm_sub_le _ _).trans (add_le_add (nG N ω) le_rfl))
      (by
        filter_upwards [hG] with ω hω
        rw [tendsto_zero_iff_norm_tendsto_zero]
        have h1 : Tendsto (fun N => ‖G N ω - g‖) atTop (𝓝 0) := by
          have := (hω.sub_const g).norm
          simpa using this
        refine h1.congr fun N => ?_
        rw [norm_mul, nΦ, one_mul])
    simpa using this
  have hsum := hd.add (hΦ.mul_const g)
  rw [zero_add] at hsum
  have hlim : Complex.exp (-((s 0 : ℝ) : ℂ) ^ 2 / 2) * g = charFun (stdGaussian (EuclideanSpace ℝ (Fin (R + 1)))) s := by
    rw [charFun_stdGaussian]
    show Complex.exp (-((s 0 : ℝ) : ℂ) ^ 2 / 2) * ∏ r : Fin R, Complex.exp (-(s r.succ ^ 2 * 1 / 2) : ℝ) = _
    rw [← Complex.exp_sum, ← Complex.exp_add, ← Complex.ofReal_pow ‖s‖, EuclideanSpace.real_norm_sq_eq, Fin.sum_univ_succ]
    congr 1
    push_cast
    rw [Finset.sum_neg_distrib, ← Finset.sum_div]
    simp only [mul_one]
    ring
  rw [← hlim]
  refine hsum.congr fun N => ?_
  rw [bootLaw_charFun hm u v mu mv R N s, ← integral_mul_const, ← integral_add (iΦG N) ((iΦ N).mul_const g)]
  refine integral_congr_ae (Eventually.of_forall fun ω => ?_)
  show Φ N ω * (G N ω - g) + Φ N ω * g = Φ N ω * G N ω
  ring

end rows

end SALib
