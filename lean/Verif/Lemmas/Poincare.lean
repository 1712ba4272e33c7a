import Mathlib.MeasureTheory.Integral.IntervalIntegral.FundThmCalculus
import Mathlib.Analysis.SpecialFunctions.Trigonometric.ArctanDeriv
import Mathlib.Analysis.Real.Pi.Bounds

/-! # The Poincaré inequality on an interval, with the best constant -/

namespace SALib

open Set MeasureTheory

variable {a b : ℝ}

/-- Functions that vanish at both ends, with a constant below the best one. -/
theorem dirichlet_lt (hab : a < b) (H g : ℝ → ℝ) (hH : ContinuousOn H (Icc a b))
    (hd : ∀ x ∈ Ioo a b, HasDerivAt H (g x) x) (hg : ContinuousOn g (Icc a b)) (ha : H a = 0) (hb : H b = 0)
    (l : ℝ) (hl : 0 < l) (hlt : l * (b - a) < Real.pi) :
    l ^ 2 * ∫ x in a..b, H x ^ 2 ≤ ∫ x in a..b, g x ^ 2 := by
  set T : ℝ → ℝ := fun x => Real.tan (l * (x - (a + b) / 2)) with hT
  have hmem : ∀ x ∈ Icc a b, l * (x - (a + b) / 2) ∈ Ioo (-(Real.pi / 2)) (Real.pi / 2) := by
    intro x hx
    have h1 : l * (x - (a + b) / 2) ≤ l * ((b - a) / 2) :=
      mul_le_mul_of_nonneg_left (by linarith [hx.2]) hl.le
    have h2 : l * (-((b - a) / 2)) ≤ l * (x - (a + b) / 2) :=
      mul_le_mul_of_nonneg_left (by linarith [hx.1]) hl.le
    constructor <;> nlinarith
  have hTc : ContinuousOn T (Icc a b) :=
    Real.continuousOn_tan_Ioo.comp (by fun_prop) hmem
  have hTd : ∀ x ∈ Icc a b, HasDerivAt T ((1 + T x ^ 2) * l) x := by
    intro x hx
    have hc : Real.cos (l * (x - (a + b) / 2)) ≠ 0 := (Real.cos_pos_of_mem_Ioo (hmem x hx)).ne'
    have h1 := Real.hasDerivAt_tan hc
    have h2 : HasDerivAt (fun x => l * (x - (a + b) / 2)) l x := by
      simpa using ((hasDerivAt_id x).sub_const ((a + b) / 2)).const_mul l
    have h3 := h1.comp x h2
    have e : 1 / Real.cos (l * (x - (a + b) / 2)) ^ 2 = 1 + T x ^ 2 := by
      rw [hT]; simp only []
      generalize l * (x - (a + b) / 2) = u at hc
      rw [Real.tan_eq_sin_div_cos, div_pow]
      field_simp
      linarith [Real.sin_sq_add_cos_sq u]
    rw [e] at h3
    exact h3
  set K : ℝ → ℝ := fun x => l * T x * H x ^ 2 with hK
  set K' : ℝ → ℝ := fun x => l ^ 2 * (1 + T x ^ 2) * H x ^ 2 + 2 * l * T x * (H x * g x) with hK'
  have hK'c : ContinuousOn K' (Icc a b) := by
    rw [hK']; fun_prop
  have hint : ∀ f : ℝ → ℝ, ContinuousOn f (Icc a b) → IntervalIntegrable f volume a b := fun f hf =>
    ContinuousOn.intervalIntegrable (by rwa [uIcc_of_le hab.le])
  have hfund : ∫ x in a..b, K' x = 0 := by
    rw [intervalIntegral.integral_eq_sub_of_hasDerivAt_of_le hab.le (f := K) (by rw [hK]; fun_prop) ?_ (hint _ hK'c)]
    · rw [hK]; simp [ha, hb]
    · intro x hx
      have h1 := ((hTd x (Ioo_subset_Icc_self hx)).const_mul l).mul ((hd x hx).pow 2)
      refine h1.congr_deriv ?_
      rw [hK']
      simp only []
      norm_num
      ring
  have hsq : (∫ x in a..b, (g x + l * T x * H x) ^ 2) =
      (∫ x in a..b, g x ^ 2) - l ^ 2 * (∫ x in a..b, H x ^ 2) + ∫ x in a..b, K' x := by
    rw [← intervalIntegral.integral_const_mul, ← intervalIntegral.integral_sub, ← intervalIntegral.integral_add]
    · congr 1
      funext x
      rw [hK']; simp only []
      ring
    · exact hint _ (by fun_prop)
    · exact hint _ hK'c
    · exact hint _ (by fun_prop)
    · exact hint _ (by fun_prop)
  have hpos : 0 ≤ ∫ x in a..b, (g x + l * T x * H x) ^ 2 :=
    intervalIntegral.integral_nonneg hab.le fun x _ => sq_nonneg _
  linarith

/-- Functions that vanish at both ends. -/
theorem dirichlet (hab : a < b) (H g : ℝ → ℝ) (hH : ContinuousOn H (Icc a b))
    (hd : ∀ x ∈ Ioo a b, HasDerivAt H (g x) x) (hg : ContinuousOn g (Icc a b)) (ha : H a = 0) (hb : H b = 0) :
    (Real.pi / (b - a)) ^ 2 * ∫ x in a..b, H x ^ 2 ≤ ∫ x in a..b, g x ^ 2 := by
  have hw : 0 < b - a := by linarith
  have hc : 0 < Real.pi / (b - a) := div_pos Real.pi_pos hw
  have ht : Filter.Tendsto (fun l : ℝ => l ^ 2 * ∫ x in a..b, H x ^ 2) 
      (nhdsWithin (Real.pi / (b - a)) (Iio (Real.pi / (b - a))))
      (nhds ((Real.pi / (b - a)) ^ 2 * ∫ x in a..b, H x ^ 2)) := by
    have : Continuous fun l : ℝ => l ^ 2 * ∫ x in a..b, H x ^ 2 := by fun_prop
    exact this.continuousWithinAt
  refine le_of_tendsto ht ?_
  have hI : Ioo 0 (Real.pi / (b - a)) ∈ nhdsWithin (Real.pi / (b - a)) (Iio (Real.pi / (b - a))) :=
    Ioo_mem_nhdsLT hc
  filter_upwards [hI] with l hl
  exact dirichlet_lt hab H g hH hd hg ha hb l hl.1 ((lt_div_iff₀ hw).mp hl.2)

/-- **Poincaré.** The variance over an interval is at most the mean of the squared derivative times the squared width
over π². -/
theorem poincare (hab : a < b) (h h' : ℝ → ℝ) (hh : ContinuousOn h (Icc a b))
    (hd : ∀ x ∈ Ioo a b, HasDerivAt h (h' x) x) (hh' : ContinuousOn h' (Icc a b)) :
    ∫ x in a..b, (h x - (∫ y in a..b, h y) / (b - a)) ^ 2 ≤
      (b - a) ^ 2 / Real.pi ^ 2 * ∫ x in a..b, h' x ^ 2 := by
  have hw : 0 < b - a := by linarith
  have hint : ∀ f : ℝ → ℝ, ContinuousOn f (Icc a b) → IntervalIntegrable f volume a b := fun f hf =>
    ContinuousOn.intervalIntegrable (by rwa [uIcc_of_le hab.le])
  set m := (∫ y in a..b, h y) / (b - a) with hm
  set g : ℝ → ℝ := fun x => h x - m with hg
  have hgc : ContinuousOn g (Icc a b) := by rw [hg]; fun_prop
  set H : ℝ → ℝ := fun x => ∫ y in a..x, g y with hH
  have hHc : ContinuousOn H (Icc a b) := by
    have := intervalIntegral.continuousOn_primitive_interval (μ := volume) (f := g) (a := a) (b := b)
      (by
        have := (hint _ hgc)
        rw [uIcc_of_le hab.le]
        exact hgc.integrableOn_Icc)
    rwa [uIcc_of_le hab.le] at this
  have hHd : ∀ x ∈ Ioo a b, HasDerivAt H (g x) x := by
    intro x hx
    have hn : Icc a b ∈ nhds x := Icc_mem_nhds hx.1 hx.2
    refine intervalIntegral.integral_hasDerivAt_right ?_ ?_ ((hgc x (Ioo_subset_Icc_self hx)).continuousAt hn)
    · exact ContinuousOn.intervalIntegrable (by
        rw [uIcc_of_le hx.1.le]; exact hgc.mono (Icc_subset_Icc_right hx.2.le))
    · exact ⟨Icc a b, hn, hgc.aestronglyMeasurable measurableSet_Icc⟩
  have hHa : H a = 0 := by rw [hH]; simp
  have hHb : H b = 0 := by
    rw [hH, hg]; simp only []
    rw [intervalIntegral.integral_sub (hint _ hh) (hint _ continuousOn_const), intervalIntegral.integral_const, hm]
    rw [smul_eq_mul, mul_div_cancel₀ _ hw.ne', sub_self]
  have hD := dirichlet hab H g hHc hHd hgc hHa hHb
  have hparts : ∫ x in a..b, (g x * g x + H x * h' x) = 0 := by
    rw [intervalIntegral.integral_eq_sub_of_hasDerivAt_of_le hab.le (f := fun x => H x * g x) (by fun_prop) ?_
      (hint _ (by fun_prop))]
    · rw [hHa, hHb]; ring
    · intro x hx
      exact (hHd x hx).mul ((hd x hx).sub_const m)
  set c := Real.pi / (b - a) with hc
  have hcpos : 0 < c := div_pos Real.pi_pos hw
  have hle : ∫ x in a..b, -(H x * h' x) ≤
      ∫ x in a..b, (c ^ 2 / 2 * H x ^ 2 + 1 / (2 * c ^ 2) * h' x ^ 2) := by
    refine intervalIntegral.integral_mono_on hab.le (hint _ (by fun_prop)) (hint _ (by fun_prop)) fun x _ => ?_
    have : 0 ≤ (c * H x + h' x / c) ^ 2 := sq_nonneg _
    have e : (c * H x + h' x / c) ^ 2 = 2 * (c ^ 2 / 2 * H x ^ 2 + 1 / (2 * c ^ 2) * h' x ^ 2 + H x * h' x) := by
      field_simp
      ring
    rw [e] at this
    linarith
  rw [intervalIntegral.integral_add (hint _ (by fun_prop)) (hint _ (by fun_prop)),
    intervalIntegral.integral_const_mul, intervalIntegral.integral_const_mul, intervalIntegral.integral_neg] at hle
  rw [intervalIntegral.integral_add (hint _ (by fun_prop)) (hint _ (by fun_prop))] at hparts
  have e1 : ∫ x in a..b, g x * g x = ∫ x in a..b, g x ^ 2 := by simp only [sq]
  rw [e1] at hparts
  have e2 : (b - a) ^ 2 / Real.pi ^ 2 = 1 / c ^ 2 := by rw [hc]; field_simp
  rw [e2]
  have e3 : 1 / c ^ 2 * (∫ x in a..b, h' x ^ 2) = 2 * (1 / (2 * c ^ 2) * ∫ x in a..b, h' x ^ 2) := by
    field_simp
  rw [e3]
  linarith

end SALib
