import Verif.Lemmas.SobolExpect
import Mathlib.Probability.Moments.SubGaussian

/-! How far the mean over independent rows is from the mean of their law (Hoeffding's inequality). -/

namespace SALib

open MeasureTheory ProbabilityTheory Spec

section rows

variable {Ω β : Type} [MeasurableSpace Ω] [MeasurableSpace β] {P : Measure Ω} {law : Measure β} {Z : ℕ → Ω → β}
  (hm : ∀ i, Measurable (Z i)) (hlaw : ∀ i, Measure.map (Z i) P = law) (hind : iIndepFun Z P)
include hm hlaw hind

theorem sum_rows_upper (h : β → ℝ) (mh : Measurable h) (H : ℝ) (hH : 0 < H) (hb : ∀ᵐ p ∂law, |h p| ≤ H) (N : Nat)
    (δ : ℝ) (hδ : 0 ≤ δ) :
    P.real {ω | N * (δ * H) ≤ ∑ i ∈ Finset.range N, (h (Z i ω) - ∫ p, h p ∂law)} ≤ Real.exp (-(N * δ ^ 2 / 2)) := by
  have hP : IsProbabilityMeasure P := hind.isProbabilityMeasure
  have hindX : iIndepFun (fun i ω => h (Z i ω) - ∫ p, h p ∂law) P :=
    hind.comp (fun _ p => h p - ∫ p, h p ∂law) fun _ => mh.sub_const _
  have hsub : ∀ i < N, HasSubgaussianMGF (fun ω => h (Z i ω) - ∫ p, h p ∂law) ((‖H - -H‖₊ / 2) ^ 2) P := by
    intro i _
    have hbi : ∀ᵐ ω ∂P, h (Z i ω) ∈ Set.Icc (-H) H := by
      rw [← hlaw i] at hb
      filter_upwards [ae_of_ae_map (hm i).aemeasurable hb] with ω hω
      exact abs_le.mp hω
    have := hasSubgaussianMGF_of_mem_Icc (mh.comp (hm i)).aemeasurable hbi
    simp only [Function.comp_def] at this
    rwa [integral_row hm hlaw h mh.aestronglyMeasurable i] at this
  have := HasSubgaussianMGF.measure_sum_range_ge_le_of_iIndepFun hindX hsub
    (ε := N * (δ * H)) (by positivity)
  refine this.trans (Real.exp_le_exp.mpr ?_)
  have hc : (((‖H - -H‖₊ / 2) ^ 2 : NNReal) : ℝ) = H ^ 2 := by
    push_cast
    rw [Real.norm_eq_abs, abs_of_pos (by linarith)]
    ring
  rw [hc]
  rcases Nat.eq_zero_or_pos N with rfl | hN
  · simp
  · have hN' : (0 : ℝ) < N := by exact_mod_cast hN
    refine le_of_eq ?_
    field_simp

/-- Hoeffding: the mean of `N` independent rows is off by `δ` times the bound with a probability that falls
exponentially in `N`. -/
theorem rowMean_hoeffding (h : β → ℝ) (mh : Measurable h) (H : ℝ) (hH : 0 < H) (hb : ∀ᵐ p ∂law, |h p| ≤ H) (N : Nat)
    (hN : 0 < N) (δ : ℝ) (hδ : 0 ≤ δ) :
    P.real {ω | δ * H ≤ |rowMean (firstRows Z N ω) h - ∫ p, h p ∂law|} ≤ 2 * Real.exp (-(N * δ ^ 2 / 2)) := by
  have hP : IsProbabilityMeasure P := hind.isProbabilityMeasure
  have hN' : (0 : ℝ) < N := by exact_mod_cast hN
  have h1 := sum_rows_upper hm hlaw hind h mh H hH hb N δ hδ
  have h2 := sum_rows_upper hm hlaw hind (fun p => -h p) mh.neg H hH (by simpa only [abs_neg] using hb) N δ hδ
  have hsub : {ω | δ * H ≤ |rowMean (firstRows Z N ω) h - ∫ p, h p ∂law|} ⊆
      {ω | N * (δ * H) ≤ ∑ i ∈ Finset.range N, (h (Z i ω) - ∫ p, h p ∂law)} ∪
        {ω | N * (δ * H) ≤ ∑ i ∈ Finset.range N, (-h (Z i ω) - ∫ p, -h p ∂law)} := by
    intro ω hω
    simp only [Set.mem_setOf_eq, Set.mem_union, Finset.sum_sub_distrib, Finset.sum_const, Finset.card_range, nsmul_eq_mul,
      integral_neg, Finset.sum_neg_distrib] at hω ⊢
    rw [rowMean_firstRows] at hω
    rcases le_abs.mp hω with h' | h'
    · left
      have := mul_le_mul_of_nonneg_left h' hN'.le
      have e : (N : ℝ) * ((∑ i ∈ Finset.range N, h (Z i ω)) / N - ∫ p, h p ∂law) =
        (∑ i ∈ Finset.range N, h (Z i ω)) - N * ∫ p, h p ∂law := by field_simp
      rwa [e] at this
    · right
      have := mul_le_mul_of_nonneg_left h' hN'.le
      have e : (N : ℝ) * -((∑ i ∈ Finset.range N, h (Z i ω)) / N - ∫ p, h p ∂law) =
        -(∑ i ∈ Finset.range N, h (Z i ω)) - N * -∫ p, h p ∂law := by field_simp; ring
      rwa [e] at this
  calc _ ≤ _ := measureReal_mono hsub
    _ ≤ _ := measureReal_union_le _ _
    _ ≤ _ := by linarith

/-- Several means at once. -/
theorem rowMeans_hoeffding {ι : Type} [Fintype ι] (h : ι → β → ℝ) (mh : ∀ a, Measurable (h a)) (H : ι → ℝ)
    (hH : ∀ a, 0 < H a) (hb : ∀ a, ∀ᵐ p ∂law, |h a p| ≤ H a) (N : Nat) (hN : 0 < N) (δ : ℝ) (hδ : 0 ≤ δ) :
    P.real {ω | ∃ a, δ * H a ≤ |rowMean (firstRows Z N ω) (h a) - ∫ p, h a p ∂law|} ≤
      Fintype.card ι * (2 * Real.exp (-(N * δ ^ 2 / 2))) := by
  have hP : IsProbabilityMeasure P := hind.isProbabilityMeasure
  have e : {ω | ∃ a, δ * H a ≤ |rowMean (firstRows Z N ω) (h a) - ∫ p, h a p ∂law|} =
      ⋃ a ∈ (Finset.univ : Finset ι), {ω | δ * H a ≤ |rowMean (firstRows Z N ω) (h a) - ∫ p, h a p ∂law|} := by
    ext ω; simp
  rw [e]
  refine (measureReal_biUnion_finset_le _ _).trans ?_
  refine (Finset.sum_le_sum fun a _ => rowMean_hoeffding hm hlaw hind (h a) (mh a) (H a) (hH a) (hb a) N hN δ hδ).trans ?_
  rw [Finset.sum_const, Finset.card_univ, nsmul_eq_mul]

end rows

/-- A quotient is near when numerator and denominator are. -/
theorem quotient_near {a b A V α β c : ℝ} (hα : |a - A| ≤ α) (hβ : |b - V| ≤ β) (hV : β < V) (hA : |A| ≤ c * V) :
    b ≠ 0 ∧ |a / b - A / V| ≤ (α + c * β) / (V - β) := by
  have hβ0 : 0 ≤ β := (abs_nonneg _).trans hβ
  have hV0 : 0 < V := lt_of_le_of_lt hβ0 hV
  have hb := abs_le.mp hβ
  have hb0 : 0 < V - β := by linarith
  have hb1 : V - β ≤ b := by linarith
  have hbp : 0 < b := by linarith
  have hα0 : 0 ≤ α := (abs_nonneg _).trans hα
  have hc : 0 ≤ c := by
    by_contra h
    have := (abs_nonneg A).trans hA
    nlinarith
  refine ⟨hbp.ne', ?_⟩
  have e : a / b - A / V = ((a - A) * V - A * (b - V)) / (b * V) := by field_simp; ring
  rw [e, abs_div, abs_of_pos (mul_pos hbp hV0)]
  have h1 : |(a - A) * V - A * (b - V)| ≤ (α + c * β) * V := by
    calc _ ≤ |(a - A) * V| + |A * (b - V)| := abs_sub _ _
      _ = |a - A| * V + |A| * |b - V| := by rw [abs_mul, abs_mul, abs_of_pos hV0]
      _ ≤ α * V + c * V * β :=
        add_le_add (mul_le_mul_of_nonneg_right hα hV0.le)
          (mul_le_mul hA hβ (abs_nonneg _) (mul_nonneg hc hV0.le))
      _ = _ := by ring
  calc _ ≤ (α + c * β) * V / (b * V) := div_le_div_of_nonneg_right h1 (mul_pos hbp hV0).le
    _ = (α + c * β) / b := by field_simp
    _ ≤ _ := div_le_div_of_nonneg_left (by positivity) hb0 hb1

end SALib
