import Verif.Model.PpfReal
import Verif.Lemmas.Scale
import Mathlib.Probability.CDF
import Mathlib.Probability.Distributions.Gaussian.Real

/-!
# Normal, log-normal and truncated normal columns (C06)

The distribution function is Mathlib's Gaussian.  SciPy's `ndtri` is any function `z` that inverts the
standard normal distribution function on `(0, 1)`; such a function exists (`exists_quantile`).
-/

namespace SALib
open Real MeasureTheory ProbabilityTheory Set Filter Topology

/-- Distribution function of the normal distribution with the given mean and standard deviation. -/
noncomputable def Spec.normalCDF (mean sd x : ℝ) : ℝ := cdf (gaussianReal mean (sd ^ 2).toNNReal) x

/-- `z` inverts the standard normal distribution function on the open unit interval. -/
def Spec.IsNormalQuantile (z : ℝ → ℝ) : Prop := ∀ q, 0 < q → q < 1 → Spec.normalCDF 0 1 (z q) = q

open Spec

theorem normalCDF_standard (mean sd x : ℝ) (hs : 0 < sd) :
    normalCDF mean sd x = normalCDF 0 1 ((x - mean) / sd) := by
  have h1 : gaussianReal mean (sd ^ 2).toNNReal =
      (gaussianReal 0 1).map (fun t => sd * t + mean) := by
    have e : (fun t : ℝ => sd * t + mean) = (fun t => t + mean) ∘ (fun t => sd * t) := rfl
    rw [e, ← Measure.map_map (by fun_prop) (by fun_prop), gaussianReal_map_const_mul,
      gaussianReal_map_add_const]
    congr 1
    · ring
    · ext; simp [Real.coe_toNNReal _ (sq_nonneg sd)]
  unfold normalCDF
  rw [h1]
  have : IsProbabilityMeasure ((gaussianReal 0 1).map (fun t : ℝ => sd * t + mean)) :=
    Measure.isProbabilityMeasure_map (by fun_prop)
  rw [cdf_eq_real, cdf_eq_real, map_measureReal_apply (by fun_prop) measurableSet_Iic]
  congr 1
  · congr 1; ext; simp
  · ext t
    simp only [mem_preimage, mem_Iic]
    rw [le_div_iff₀ hs]
    constructor <;> intro h <;> linarith

theorem normalCDF_strictMono (mean sd : ℝ) (hs : 0 < sd) : StrictMono (normalCDF mean sd) := by
  intro a b hab
  unfold normalCDF
  rw [cdf_eq_real, cdf_eq_real]
  have hv : (sd ^ 2).toNNReal ≠ 0 := by
    simp only [ne_eq, Real.toNNReal_eq_zero, not_le]; positivity
  have hpos : 0 < (gaussianReal mean (sd ^ 2).toNNReal) (Ioc a b) := by
    rw [pos_iff_ne_zero]
    intro h0
    have := gaussianReal_absolutelyContinuous' mean hv h0
    rw [Real.volume_Ioc] at this
    simp only [ENNReal.ofReal_eq_zero, tsub_le_iff_right, zero_add] at this
    linarith
  have hsplit : Iic b = Iic a ∪ Ioc a b := (Iic_union_Ioc_eq_Iic hab.le).symm
  have hd : Disjoint (Iic a) (Ioc a b) := by
    rw [Set.disjoint_left]; intro x hx hx'; exact absurd hx'.1 (not_lt.mpr hx)
  rw [hsplit, measureReal_union hd measurableSet_Ioc]
  have : 0 < (gaussianReal mean (sd ^ 2).toNNReal).real (Ioc a b) := by
    rw [measureReal_def]
    exact ENNReal.toReal_pos hpos.ne' (measure_ne_top _ _)
  linarith

theorem normalCDF_continuous (mean sd : ℝ) (hs : 0 < sd) : Continuous (normalCDF mean sd) := by
  have hv : (sd ^ 2).toNNReal ≠ 0 := by
    simp only [ne_eq, Real.toNNReal_eq_zero, not_le]; positivity
  have hfun : normalCDF mean sd = cdf (gaussianReal mean (sd ^ 2).toNNReal) := rfl
  rw [continuous_iff_continuousAt]
  intro x
  rw [hfun, continuousAt_iff_continuous_left_right]
  refine ⟨?_, (cdf _).right_continuous x⟩
  rw [← continuousWithinAt_Iio_iff_Iic,
    (monotone_cdf _).continuousWithinAt_Iio_iff_leftLim_eq]
  have h := StieltjesFunction.measure_singleton (cdf (gaussianReal mean (sd ^ 2).toNNReal)) x
  rw [measure_cdf] at h
  have h0 : (gaussianReal mean (sd ^ 2).toNNReal) {x} = 0 :=
    gaussianReal_absolutelyContinuous mean hv Real.volume_singleton
  rw [h0, eq_comm, ENNReal.ofReal_eq_zero] at h
  have := (monotone_cdf (gaussianReal mean (sd ^ 2).toNNReal)).leftLim_le (le_refl x)
  linarith

/-- The hypothesis of the theorems below can be met. -/
theorem exists_quantile : ∃ z, IsNormalQuantile z := by
  have h : ∀ q : ℝ, ∃ x, 0 < q → q < 1 → normalCDF 0 1 x = q := by
    intro q
    by_cases hq : 0 < q ∧ q < 1
    · obtain ⟨a, ha⟩ := ((tendsto_cdf_atBot (gaussianReal 0 ((1 : ℝ) ^ 2).toNNReal)).eventually
        (gt_mem_nhds hq.1)).exists
      obtain ⟨b, hb⟩ := ((tendsto_cdf_atTop (gaussianReal 0 ((1 : ℝ) ^ 2).toNNReal)).eventually
        (lt_mem_nhds hq.2)).exists
      obtain ⟨x, hx⟩ := mem_range_of_exists_le_of_exists_ge (normalCDF_continuous 0 1 one_pos)
        ⟨a, ha.le⟩ ⟨b, hb.le⟩
      exact ⟨x, fun _ _ => hx⟩
    · exact ⟨0, fun h1 h2 => absurd ⟨h1, h2⟩ hq⟩
  choose z hz using h
  exact ⟨z, hz⟩

/-- **C06**, normal column: the scaled value of `u` is the point with cumulative probability `u`. -/
theorem C06_norm (z : ℝ → ℝ) (hz : IsNormalQuantile z) (mean sd u : ℝ) (rest : List ℝ) (hs : 0 < sd)
    (hu0 : 0 < u) (hu1 : u < 1) :
    ∃ f x, columnMap (gaussPpf z) "norm" (mean :: sd :: rest) = .ok f ∧ f u = some x ∧
      normalCDF mean sd x = u := by
  refine ⟨normPpf z mean sd, z u * sd + mean, ?_, ?_, ?_⟩
  · simp [columnMap, rowPair, gaussPpf, realPpf, not_le.mpr hs]
  · unfold normPpf
    rw [if_pos ⟨hs, hu0, hu1⟩]
  · rw [normalCDF_standard _ _ _ hs, add_sub_cancel_right, mul_div_assoc, div_self hs.ne', mul_one]
    exact hz u hu0 hu1

/-- **C06**, log-normal column: the scaled value is positive and its logarithm is the point of the
normal distribution with cumulative probability `u`. -/
theorem C06_lognorm (z : ℝ → ℝ) (hz : IsNormalQuantile z) (mean sd u : ℝ) (rest : List ℝ)
    (hs : 0 < sd) (hu0 : 0 < u) (hu1 : u < 1) :
    ∃ f x, columnMap (gaussPpf z) "lognorm" (mean :: sd :: rest) = .ok f ∧ f u = some x ∧
      0 < x ∧ normalCDF mean sd (log x) = u := by
  refine ⟨fun x => (normPpf z mean sd x).map exp, exp (z u * sd + mean), ?_, ?_, exp_pos _, ?_⟩
  · simp [columnMap, rowPair, gaussPpf, realPpf, not_le.mpr hs]
  · unfold normPpf
    beta_reduce
    rw [if_pos ⟨hs, hu0, hu1⟩]; rfl
  · rw [log_exp, normalCDF_standard _ _ _ hs, add_sub_cancel_right, mul_div_assoc, div_self hs.ne',
      mul_one]
    exact hz u hu0 hu1

/-- **C06**, truncated normal column `[lo, hi, mean, sd]`: the scaled value lies strictly between the
limits and splits the normal probability of the interval in the ratio `u : 1 - u`. -/
theorem C06_truncnorm (z : ℝ → ℝ) (hz : IsNormalQuantile z) (lo hi mean sd u : ℝ) (rest : List ℝ)
    (hlh : lo < hi) (hs : 0 < sd) (hu0 : 0 < u) (hu1 : u < 1) :
    ∃ f x, columnMap (gaussPpf z) "truncnorm" (lo :: hi :: mean :: sd :: rest) = .ok f ∧
      f u = some x ∧ lo < x ∧ x < hi ∧
      normalCDF mean sd x - normalCDF mean sd lo =
        u * (normalCDF mean sd hi - normalCDF mean sd lo) := by
  have hF : stdNormalCDF = normalCDF 0 1 := by
    funext x; unfold stdNormalCDF normalCDF; congr 3; simp
  have hab : (lo - mean) / sd < (hi - mean) / sd := by gcongr
  have hmono := normalCDF_strictMono mean sd hs hlh
  have h0 : 0 ≤ normalCDF mean sd lo := cdf_nonneg _ _
  have h1 : normalCDF mean sd hi ≤ 1 := cdf_le_one _ _
  have e1 := normalCDF_standard mean sd lo hs
  have e2 := normalCDF_standard mean sd hi hs
  set q := normalCDF mean sd lo + u * (normalCDF mean sd hi - normalCDF mean sd lo) with hq
  have hgap : 0 < normalCDF mean sd hi - normalCDF mean sd lo := sub_pos.mpr hmono
  have hq0 : 0 < q := by nlinarith [mul_pos hu0 hgap]
  have hq1 : q < 1 := by nlinarith [mul_pos (sub_pos.mpr hu1) hgap]
  have hx : normalCDF mean sd (z q * sd + mean) = q := by
    rw [normalCDF_standard _ _ _ hs, add_sub_cancel_right, mul_div_assoc, div_self hs.ne', mul_one]
    exact hz q hq0 hq1
  refine ⟨truncnormPpf z ((lo - mean) / sd) ((hi - mean) / sd) mean sd, z q * sd + mean,
    ?_, ?_, ?_, ?_, ?_⟩
  · simp [columnMap, rowPair, gaussPpf, realPpf, not_le.mpr hs, not_le.mpr hlh]
  · unfold truncnormPpf
    rw [if_pos ⟨hab, hs, hu0.le, hu1.le⟩, if_neg hu0.ne', if_neg hu1.ne, hF, ← e1, ← e2]
  · rw [← (normalCDF_strictMono mean sd hs).lt_iff_lt, hx]
    nlinarith [mul_pos hu0 hgap]
  · rw [← (normalCDF_strictMono mean sd hs).lt_iff_lt, hx]
    nlinarith [mul_pos (sub_pos.mpr hu1) hgap]
  · rw [hx, hq]; ring

/-- **C06**, consequence: for the three normal-type distributions, too, larger unit values never give
smaller scaled values. -/
theorem C06_monotone_normal (z : ℝ → ℝ) (hz : IsNormalQuantile z) (d : String) (b : List ℝ)
    (hd : (d = "norm" ∧ ∃ mean sd, b = [mean, sd] ∧ 0 < sd) ∨
      (d = "lognorm" ∧ ∃ mean sd, b = [mean, sd] ∧ 0 < sd) ∨
      (d = "truncnorm" ∧ ∃ lo hi mean sd, b = [lo, hi, mean, sd] ∧ lo < hi ∧ 0 < sd))
    (f : ℝ → Num ℝ) (hf : columnMap (gaussPpf z) d b = .ok f) (u v x y : ℝ)
    (hu : 0 < u) (huv : u ≤ v) (hv : v < 1) (hx : f u = some x) (hy : f v = some y) : x ≤ y := by
  have hu1 : u < 1 := huv.trans_lt hv
  have hv0 : 0 < v := hu.trans_le huv
  rcases hd with ⟨rfl, mean, sd, rfl, hs⟩ | ⟨rfl, mean, sd, rfl, hs⟩ |
    ⟨rfl, lo, hi, mean, sd, rfl, hlh, hs⟩
  · obtain ⟨f', x', h1, h2, h3⟩ := C06_norm z hz mean sd u [] hs hu hu1
    obtain ⟨g', y', h4, h5, h6⟩ := C06_norm z hz mean sd v [] hs hv0 hv
    rw [hf] at h1 h4; cases h1; cases h4
    rw [hx] at h2; rw [hy] at h5; cases h2; cases h5
    exact (normalCDF_strictMono mean sd hs).le_iff_le.mp (by rw [h3, h6]; exact huv)
  · obtain ⟨f', x', h1, h2, h0, h3⟩ := C06_lognorm z hz mean sd u [] hs hu hu1
    obtain ⟨g', y', h4, h5, h0', h6⟩ := C06_lognorm z hz mean sd v [] hs hv0 hv
    rw [hf] at h1 h4; cases h1; cases h4
    rw [hx] at h2; rw [hy] at h5; cases h2; cases h5
    exact (log_le_log_iff h0 h0').mp
      ((normalCDF_strictMono mean sd hs).le_iff_le.mp (by rw [h3, h6]; exact huv))
  · obtain ⟨f', x', h1, h2, -, -, h3⟩ := C06_truncnorm z hz lo hi mean sd u [] hlh hs hu hu1
    obtain ⟨g', y', h4, h5, -, -, h6⟩ := C06_truncnorm z hz lo hi mean sd v [] hlh hs hv0 hv
    rw [hf] at h1 h4; cases h1; cases h4
    rw [hx] at h2; rw [hy] at h5; cases h2; cases h5
    have hgap := sub_pos.mpr (normalCDF_strictMono mean sd hs hlh)
    exact (normalCDF_strictMono mean sd hs).le_iff_le.mp (by nlinarith)

/-- The hypotheses of the three theorems are met: a quantile function exists, and `[0, 3, 1, 2]` at
`u = 1/4` is a legal truncated normal column. -/
example : ∃ z, IsNormalQuantile z ∧ ∃ f x,
    columnMap (gaussPpf z) "truncnorm" [0, 3, 1, 2] = .ok f ∧ f (1/4) = some x ∧ 0 < x ∧ x < 3 := by
  obtain ⟨z, hz⟩ := exists_quantile
  obtain ⟨f, x, h1, h2, h3, h4, -⟩ := C06_truncnorm z hz 0 3 1 2 (1/4) [] (by norm_num) (by norm_num)
    (by norm_num) (by norm_num)
  exact ⟨z, hz, f, x, h1, h2, h3, h4⟩

end SALib
