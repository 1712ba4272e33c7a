import Verif.Spec.DiscMeaning
import Mathlib.Topology.ContinuousMap.Weierstrass
import Mathlib.Analysis.SpecialFunctions.Trigonometric.Inverse
import Mathlib.Analysis.SpecialFunctions.Integrals.Basic
import Mathlib.MeasureTheory.Function.ContinuousMapDense
import Mathlib.Probability.Moments.Variance

/-! Cosine series of square-integrable functions of a uniform variable. -/

namespace SALib
open Spec MeasureTheory ProbabilityTheory Set

/-! ### Polynomials in the cosine -/

/-- The span of the functions `cos (k u)`. -/
noncomputable def cosSpan : Submodule ℝ (ℝ → ℝ) := Submodule.span ℝ (Set.range fun k : ℕ => fun u : ℝ => Real.cos (k * u))

theorem cos_mem_span (k : ℕ) : (fun u : ℝ => Real.cos (k * u)) ∈ cosSpan := Submodule.subset_span ⟨k, rfl⟩

theorem cosSpan_mul (f : ℝ → ℝ) (hf : f ∈ cosSpan) : (fun u => f u * Real.cos u) ∈ cosSpan := by
  unfold cosSpan at hf
  induction hf using Submodule.span_induction with
  | mem x hx =>
    obtain ⟨k, rfl⟩ := hx
    cases k with
    | zero =>
      have := cos_mem_span 1
      simpa using this
    | succ k =>
      have e : (fun u : ℝ => Real.cos ((k + 1 : ℕ) * u) * Real.cos u) =
          (1 / 2 : ℝ) • ((fun u : ℝ => Real.cos ((k + 2 : ℕ) * u)) + fun u : ℝ => Real.cos (k * u)) := by
        funext u
        simp only [Pi.smul_apply, Pi.add_apply, smul_eq_mul]
        rw [show ((k + 2 : ℕ) : ℝ) * u = (k + 1 : ℕ) * u + u by push_cast; ring,
          show (k : ℝ) * u = (k + 1 : ℕ) * u - u by push_cast; ring, Real.cos_add, Real.cos_sub]
        ring
      rw [e]
      exact cosSpan.smul_mem _ (cosSpan.add_mem (cos_mem_span _) (cos_mem_span _))
  | zero =>
    refine (congrArg (· ∈ cosSpan) ?_).mp cosSpan.zero_mem
    funext u
    simp
  | add x y _ _ h1 h2 =>
    have := cosSpan.add_mem h1 h2
    refine (congrArg (· ∈ cosSpan) ?_).mp this
    funext u
    simp only [Pi.add_apply]; ring
  | smul a x _ h =>
    have := cosSpan.smul_mem a h
    refine (congrArg (· ∈ cosSpan) ?_).mp this
    funext u
    simp only [Pi.smul_apply, smul_eq_mul]; ring

theorem eval_cos_mem (p : Polynomial ℝ) : (fun u => p.eval (Real.cos u)) ∈ cosSpan := by
  induction p using Polynomial.induction_on with
  | C a =>
    have := cosSpan.smul_mem a (cos_mem_span 0)
    refine (congrArg (· ∈ cosSpan) ?_).mp this
    funext u
    simp
  | add p q h1 h2 =>
    have := cosSpan.add_mem h1 h2
    refine (congrArg (· ∈ cosSpan) ?_).mp this
    funext u
    simp
  | monomial n a h =>
    have := cosSpan_mul _ h
    refine (congrArg (· ∈ cosSpan) ?_).mp this
    funext u
    simp [pow_succ]; ring

theorem eval_cos_sum (p : Polynomial ℝ) : ∃ (M : ℕ) (b : ℕ → ℝ), ∀ u, p.eval (Real.cos u) =
    ∑ k ∈ Finset.range (M + 1), b k * Real.cos (k * u) := by
  obtain ⟨c, hc⟩ := Finsupp.mem_span_range_iff_exists_finsupp.mp (eval_cos_mem p)
  refine ⟨c.support.sup id, c, fun u => ?_⟩
  rw [← congrFun hc u, Finsupp.sum, Finset.sum_apply]
  refine Finset.sum_subset (fun k hk => Finset.mem_range.mpr (Nat.lt_succ_of_le (Finset.le_sup (f := id) hk))) ?_
  intro k _ hk
  simp [Finsupp.notMem_support_iff.mp hk]

/-! ### Orthogonality -/

theorem integral_unitLine (f : ℝ → ℝ) : ∫ u, f u ∂unitLine = ∫ u in (0 : ℝ)..1, f u := by
  unfold unitLine
  rw [integral_Icc_eq_integral_Ioc, intervalIntegral.integral_of_le zero_le_one]

theorem integral_cos_nat (k : ℕ) (hk : k ≠ 0) : ∫ u, Real.cos (k * Real.pi * u) ∂unitLine = 0 := by
  have hk0 : (k : ℝ) * Real.pi ≠ 0 := mul_ne_zero (by exact_mod_cast hk) Real.pi_ne_zero
  rw [integral_unitLine, intervalIntegral.integral_comp_mul_left (fun x => Real.cos x) hk0, integral_cos]
  simp [Real.sin_nat_mul_pi]

theorem integral_cos_int (k : ℤ) (hk : k ≠ 0) : ∫ u, Real.cos (k * Real.pi * u) ∂unitLine = 0 := by
  have hk0 : (k : ℝ) * Real.pi ≠ 0 := mul_ne_zero (by exact_mod_cast hk) Real.pi_ne_zero
  rw [integral_unitLine, intervalIntegral.integral_comp_mul_left (fun x => Real.cos x) hk0, integral_cos]
  simp [Real.sin_int_mul_pi]

instance unitLine_prob : IsProbabilityMeasure unitLine := ⟨by unfold unitLine; simp⟩

theorem integrable_cos_unit (c : ℝ) : Integrable (fun u => Real.cos (c * u)) unitLine :=
  (integrable_const (1 : ℝ)).mono' (by fun_prop) (ae_of_all _ fun u => Real.abs_cos_le_one _)

theorem integral_cos_cos (k l : ℕ) : ∫ u, Real.cos (k * Real.pi * u) * Real.cos (l * Real.pi * u) ∂unitLine =
    if k = l then (if k = 0 then 1 else 1 / 2) else 0 := by
  have e : (fun u : ℝ => Real.cos (k * Real.pi * u) * Real.cos (l * Real.pi * u)) = fun u =>
      1 / 2 * Real.cos (((k + l : ℕ) : ℝ) * Real.pi * u) + 1 / 2 * Real.cos (((k : ℤ) - (l : ℤ) : ℤ) * Real.pi * u) := by
    funext u
    rw [show ((k + l : ℕ) : ℝ) * Real.pi * u = k * Real.pi * u + l * Real.pi * u by push_cast; ring,
      show (((k : ℤ) - (l : ℤ) : ℤ) : ℝ) * Real.pi * u = k * Real.pi * u - l * Real.pi * u by push_cast; ring,
      Real.cos_add, Real.cos_sub]
    ring
  rw [e, integral_add ((integrable_cos_unit _).const_mul _) ((integrable_cos_unit _).const_mul _), integral_const_mul,
    integral_const_mul]
  by_cases hkl : k = l
  · subst hkl
    rw [if_pos rfl]
    by_cases hk : k = 0
    · subst hk; norm_num
    · rw [if_neg hk, integral_cos_nat (k + k) (by omega)]
      simp
  · rw [if_neg hkl, integral_cos_nat (k + l) (by omega), integral_cos_int _ (by omega)]
    ring

/-! ### Best approximation -/

section

variable {β : Type} [MeasurableSpace β] (law : Measure β) [IsProbabilityMeasure law] (U : β → ℝ) (hU : Measurable U)
  (hlaw : Measure.map U law = unitLine) (g : β → ℝ) (hg : MemLp g 2 law)

include hU hlaw

omit [IsProbabilityMeasure law] in
theorem integral_rank (f : ℝ → ℝ) (hf : Measurable f) : ∫ z, f (U z) ∂law = ∫ u, f u ∂unitLine := by
  rw [← hlaw, integral_map hU.aemeasurable hf.aestronglyMeasurable]

omit hlaw in
theorem memLp_cos (c : ℝ) : MemLp (fun z => Real.cos (c * U z)) 2 law :=
  MemLp.of_bound ((Real.measurable_cos.comp (hU.const_mul c)).aestronglyMeasurable) 1
    (ae_of_all _ fun _ => Real.abs_cos_le_one _)

omit hlaw in
theorem memLp_cosSum (b : ℕ → ℝ) (s : Finset ℕ) :
    MemLp (fun z => ∑ k ∈ s, b k * Real.cos (k * Real.pi * U z)) 2 law :=
  memLp_finsetSum s fun _ _ => (memLp_cos law U hU _).const_mul _

include hg

/-- The mean square of the error of a cosine sum. -/
theorem cos_error (b : ℕ → ℝ) (M : ℕ) :
    ∫ z, (g z - ∑ k ∈ Finset.range (M + 1), b k * Real.cos (k * Real.pi * U z)) ^ 2 ∂law =
      Var[g; law] - (∑ k ∈ Finset.Icc 1 M, 2 * (∫ z, g z * Real.cos (k * Real.pi * U z) ∂law) ^ 2) +
        ((∫ z, g z ∂law) - b 0) ^ 2 +
        ∑ k ∈ Finset.Icc 1 M, (b k - 2 * ∫ z, g z * Real.cos (k * Real.pi * U z) ∂law) ^ 2 / 2 := by
  set a : ℕ → ℝ := fun k => ∫ z, g z * Real.cos (k * Real.pi * U z) ∂law with ha
  set q : β → ℝ := fun z => ∑ k ∈ Finset.range (M + 1), b k * Real.cos (k * Real.pi * U z) with hq
  have hqL : MemLp q 2 law := memLp_cosSum law U hU b _
  have hgc : ∀ k : ℕ, Integrable (fun z => g z * Real.cos (k * Real.pi * U z)) law := fun k =>
    hg.integrable_mul (memLp_cos law U hU _)
  have hcc : ∀ k l : ℕ, Integrable (fun z => Real.cos (k * Real.pi * U z) * Real.cos (l * Real.pi * U z)) law :=
    fun k l => (memLp_cos law U hU _).integrable_mul (memLp_cos law U hU _)
  have h1 : ∫ z, g z * q z ∂law = ∑ k ∈ Finset.range (M + 1), b k * a k := by
    have e : (fun z => g z * q z) = fun z => ∑ k ∈ Finset.range (M + 1), b k * (g z * Real.cos (k * Real.pi * U z)) := by
      funext z
      simp only [hq, Finset.mul_sum]
      exact Finset.sum_congr rfl fun k _ => by ring
    rw [e, integral_finsetSum _ fun k _ => (hgc k).const_mul _]
    exact Finset.sum_congr rfl fun k _ => integral_const_mul _ _
  have h2 : ∫ z, q z ^ 2 ∂law = ∑ k ∈ Finset.range (M + 1), b k ^ 2 * (if k = 0 then 1 else 1 / 2) := by
    have e : (fun z => q z ^ 2) = fun z => ∑ k ∈ Finset.range (M + 1), ∑ l ∈ Finset.range (M + 1),
        (b k * b l) * (Real.cos (k * Real.pi * U z) * Real.cos (l * Real.pi * U z)) := by
      funext z
      simp only [hq, sq, Finset.sum_mul_sum]
      exact Finset.sum_congr rfl fun k _ => Finset.sum_congr rfl fun l _ => by ring
    rw [e, integral_finsetSum _ fun k _ => integrable_finsetSum _ fun l _ => (hcc k l).const_mul _]
    refine Finset.sum_congr rfl fun k hk => ?_
    rw [integral_finsetSum _ fun l _ => (hcc k l).const_mul _]
    have : ∀ l ∈ Finset.range (M + 1), ∫ z, (b k * b l) * (Real.cos (k * Real.pi * U z) * Real.cos (l * Real.pi * U z)) ∂law =
        if k = l then b k ^ 2 * (if k = 0 then 1 else 1 / 2) else 0 := by
      intro l _
      rw [integral_const_mul, integral_rank law U hU hlaw (fun u => Real.cos (k * Real.pi * u) * Real.cos (l * Real.pi * u))
        (by fun_prop), integral_cos_cos]
      by_cases h : k = l
      · subst h; rw [if_pos rfl, if_pos rfl]; ring
      · rw [if_neg h, if_neg h, mul_zero]
    rw [Finset.sum_congr rfl this, Finset.sum_ite_eq, if_pos hk]
  have h3 : ∫ z, (g z - q z) ^ 2 ∂law = (∫ z, g z ^ 2 ∂law) - 2 * (∫ z, g z * q z ∂law) + ∫ z, q z ^ 2 ∂law := by
    have e : (fun z => (g z - q z) ^ 2) = fun z => g z ^ 2 - 2 * (g z * q z) + q z ^ 2 := by funext z; ring
    have i1 : Integrable (fun z => 2 * (g z * q z)) law := (hg.integrable_mul hqL).const_mul 2
    have i2 := hg.integrable_sq
    have i3 : Integrable (fun z => g z ^ 2 - 2 * (g z * q z)) law := i2.sub i1
    rw [e, integral_add i3 hqL.integrable_sq, integral_sub i2 i1, integral_const_mul]
  have hvar : Var[g; law] = (∫ z, g z ^ 2 ∂law) - (∫ z, g z ∂law) ^ 2 := by rw [variance_eq_sub hg]; rfl
  have ha0 : a 0 = ∫ z, g z ∂law := by simp [ha]
  have hsplit : ∀ f : ℕ → ℝ, ∑ k ∈ Finset.range (M + 1), f k = f 0 + ∑ k ∈ Finset.Icc 1 M, f k := by
    intro f
    rw [Finset.sum_range_succ', add_comm, Finset.range_eq_Ico, Finset.sum_Ico_add' f 0 M 1]
    congr 1
  show ∫ z, (g z - q z) ^ 2 ∂law = _
  rw [h3, h1, h2, hsplit, hsplit, hvar, ha0, if_pos rfl]
  have h5 : ∑ k ∈ Finset.Icc 1 M, b k ^ 2 * (if k = 0 then (1 : ℝ) else 1 / 2) =
      ∑ k ∈ Finset.Icc 1 M, ((b k - 2 * a k) ^ 2 / 2 + 2 * (b k * a k) - 2 * a k ^ 2) := by
    refine Finset.sum_congr rfl fun k hk => ?_
    rw [Finset.mem_Icc] at hk
    rw [if_neg (by omega)]
    ring
  rw [h5, Finset.sum_sub_distrib, Finset.sum_add_distrib, ← Finset.mul_sum (f := fun k => b k * a k)]
  ring

/-- Bessel's inequality. -/
theorem cos_bessel (M : ℕ) :
    ∑ k ∈ Finset.Icc 1 M, 2 * (∫ z, g z * Real.cos (k * Real.pi * U z) ∂law) ^ 2 ≤ Var[g; law] := by
  have h := cos_error law U hU hlaw g hg
    (fun k => if k = 0 then ∫ z, g z ∂law else 2 * ∫ z, g z * Real.cos (k * Real.pi * U z) ∂law) M
  have h0 : 0 ≤ ∫ z, (g z - ∑ k ∈ Finset.range (M + 1),
    (if k = 0 then ∫ z, g z ∂law else 2 * ∫ z, g z * Real.cos (k * Real.pi * U z) ∂law) *
      Real.cos (k * Real.pi * U z)) ^ 2 ∂law := integral_nonneg fun z => sq_nonneg _
  rw [h, Finset.sum_eq_zero (s := Finset.Icc 1 M) (f := fun k => ((if k = 0 then ∫ z, g z ∂law else
    2 * ∫ z, g z * Real.cos (k * Real.pi * U z) ∂law) - 2 * ∫ z, g z * Real.cos (k * Real.pi * U z) ∂law) ^ 2 / 2)] at h0
  · simp at h0
    linarith
  · intro k hk
    rw [Finset.mem_Icc] at hk
    rw [if_neg (by omega), sub_self]
    norm_num

/-- A square-integrable function of a uniform variable is approximated by cosine sums. -/
theorem cos_dense (γ : ℝ → ℝ) (mγ : Measurable γ) (hγ : ∀ᵐ z ∂law, g z = γ (U z)) (ε : ℝ) (hε : 0 < ε) :
    ∃ (M : ℕ) (b : ℕ → ℝ),
      ∫ z, (g z - ∑ k ∈ Finset.range (M + 1), b k * Real.cos (k * Real.pi * U z)) ^ 2 ∂law ≤ ε := by
  have hγL : MemLp γ (ENNReal.ofReal 2) unitLine := by
    rw [ENNReal.ofReal_ofNat, ← hlaw, memLp_map_measure_iff mγ.aestronglyMeasurable hU.aemeasurable]
    exact (memLp_congr_ae hγ).mp hg
  have hreg : unitLine.Regular := by unfold unitLine; infer_instance
  obtain ⟨φ, -, hφ, cφ, hφL⟩ := hγL.exists_hasCompactSupport_integral_rpow_sub_le two_pos (show (0 : ℝ) < ε / 4 by positivity)
  obtain ⟨η, hη, hη2⟩ : ∃ η : ℝ, 0 < η ∧ η ^ 2 ≤ ε / 4 := ⟨Real.sqrt (ε / 4), Real.sqrt_pos.mpr (by positivity),
    (Real.sq_sqrt (by positivity)).le⟩
  obtain ⟨p, hp⟩ := exists_polynomial_near_of_continuousOn (-1) 1 (fun c => φ (Real.arccos c / Real.pi))
    (by fun_prop) η hη
  obtain ⟨M, b, hb⟩ := eval_cos_sum p
  refine ⟨M, b, ?_⟩
  have hnear : ∀ u ∈ Icc (0 : ℝ) 1, |(∑ k ∈ Finset.range (M + 1), b k * Real.cos (k * Real.pi * u)) - φ u| < η := by
    intro u hu
    have := hp (Real.cos (Real.pi * u)) ⟨Real.neg_one_le_cos _, Real.cos_le_one _⟩
    rw [Real.arccos_cos (by have := Real.pi_pos; exact mul_nonneg this.le hu.1)
      (by have := Real.pi_pos; nlinarith [hu.2]), mul_div_cancel_left₀ _ Real.pi_ne_zero, hb] at this
    simpa only [mul_assoc] using this
  set q : ℝ → ℝ := fun u => ∑ k ∈ Finset.range (M + 1), b k * Real.cos (k * Real.pi * u) with hq
  have mq : Measurable q := by fun_prop
  have e1 : ∫ z, (g z - q (U z)) ^ 2 ∂law = ∫ u, (γ u - q u) ^ 2 ∂unitLine := by
    rw [← integral_rank law U hU hlaw (fun u => (γ u - q u) ^ 2) ((mγ.sub mq).pow_const 2)]
    refine integral_congr_ae ?_
    filter_upwards [hγ] with z hz
    rw [hz]
  show ∫ z, (g z - q (U z)) ^ 2 ∂law ≤ ε
  rw [e1]
  rw [ENNReal.ofReal_ofNat] at hγL hφL
  have i1 : Integrable (fun u => (γ u - φ u) ^ 2) unitLine := (hγL.sub hφL).integrable_sq
  have h01 : ∀ᵐ u ∂unitLine, u ∈ Icc (0 : ℝ) 1 := by
    unfold unitLine; exact ae_restrict_mem measurableSet_Icc
  calc ∫ u, (γ u - q u) ^ 2 ∂unitLine ≤ ∫ u, (2 * (γ u - φ u) ^ 2 + 2 * η ^ 2) ∂unitLine := by
        refine integral_mono_of_nonneg (ae_of_all _ fun u => sq_nonneg _)
          ((i1.const_mul 2).add (integrable_const _)) ?_
        filter_upwards [h01] with u hu
        have h1 := abs_lt.mp (hnear u hu)
        have h2 : (q u - φ u) ^ 2 ≤ η ^ 2 := sq_le_sq' h1.1.le h1.2.le
        nlinarith [sq_nonneg ((γ u - φ u) + (q u - φ u))]
    _ = 2 * (∫ u, (γ u - φ u) ^ 2 ∂unitLine) + 2 * η ^ 2 := by
        rw [integral_add (i1.const_mul 2) (integrable_const _), integral_const_mul]
        simp
    _ ≤ ε := by
        have : ∫ u, ‖γ u - φ u‖ ^ (2 : ℝ) ∂unitLine = ∫ u, (γ u - φ u) ^ 2 ∂unitLine := by
          refine integral_congr_ae (ae_of_all _ fun u => ?_)
          beta_reduce
          rw [Real.rpow_two, Real.norm_eq_abs, sq_abs]
        rw [this] at hφ
        linarith

/-- Parseval's equation, as a limit. -/
theorem cos_parseval (γ : ℝ → ℝ) (mγ : Measurable γ) (hγ : ∀ᵐ z ∂law, g z = γ (U z)) :
    Filter.Tendsto (fun M : ℕ => ∑ k ∈ Finset.Icc 1 M, 2 * (∫ z, g z * Real.cos (k * Real.pi * U z) ∂law) ^ 2)
      Filter.atTop (nhds Var[g; law]) := by
  rw [Metric.tendsto_atTop]
  intro ε hε
  obtain ⟨M0, b, hb⟩ := cos_dense law U hU hlaw g hg γ mγ hγ (ε / 2) (by positivity)
  refine ⟨M0, fun M hM => ?_⟩
  have h1 := cos_bessel law U hU hlaw g hg M
  rw [cos_error law U hU hlaw g hg] at hb
  have h2 : 0 ≤ ∑ k ∈ Finset.Icc 1 M0, (b k - 2 * ∫ z, g z * Real.cos (k * Real.pi * U z) ∂law) ^ 2 / 2 :=
    Finset.sum_nonneg fun k _ => by positivity
  have h3 : ∑ k ∈ Finset.Icc 1 M0, 2 * (∫ z, g z * Real.cos (k * Real.pi * U z) ∂law) ^ 2 ≤
      ∑ k ∈ Finset.Icc 1 M, 2 * (∫ z, g z * Real.cos (k * Real.pi * U z) ∂law) ^ 2 :=
    Finset.sum_le_sum_of_subset_of_nonneg (Finset.Icc_subset_Icc_right hM) fun k _ _ => by positivity
  have h4 := sq_nonneg ((∫ z, g z ∂law) - b 0)
  rw [Real.dist_eq, abs_sub_comm, abs_of_nonneg (by linarith)]
  linarith

end

end SALib
