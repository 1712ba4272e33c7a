import Verif.Lemmas.WidthCoverage
import Verif.Lemmas.FixedResamples

/-! # Half widths from the resamples of another mean, with many and with a fixed number of resamples -/

namespace SALib
open MeasureTheory ProbabilityTheory Filter Topology Spec

/-- Events `cov` with `C N R w cov` have nearly the normal probability of `z` when rows and resamples are many, and nearly the Student
probability when rows are many and the number of resamples is fixed. -/
structure WidthLimits {β Ω : Type} [MeasurableSpace β] [MeasurableSpace Ω] (P : Measure Ω) (Z : ℕ → Ω → β) (z ε : ℝ)
    (C : (N R : Nat) → (Ω → Fin R → Fin N → Fin N) → Set Ω → Prop) : Prop where
  many : ∃ N0 R0, ∀ N ≥ N0, ∀ R ≥ R0, ∀ w : Ω → Fin R → Fin N → Fin N, FreshResample P Z N R w → ∀ cov : Set Ω,
    C N R w cov → |P.real cov - normalWithin z| < ε
  fixed : ∀ R ≥ 2, ∃ N0, ∀ N ≥ N0, ∀ w : Ω → Fin R → Fin N → Fin N, FreshResample P Z N R w → ∀ cov : Set Ω,
    C N R w cov → |P.real cov - studentWithin R z| < ε

theorem WidthLimits.mono {β Ω : Type} [MeasurableSpace β] [MeasurableSpace Ω] {P : Measure Ω} {Z : ℕ → Ω → β} {z ε : ℝ}
    {C C' : (N R : Nat) → (Ω → Fin R → Fin N → Fin N) → Set Ω → Prop} (h : WidthLimits P Z z ε C)
    (hC : ∀ N R, 0 < N → 2 ≤ R → ∀ w cov, C' N R w cov → C N R w cov) : WidthLimits P Z z ε C' := by
  constructor
  · obtain ⟨N0, R0, h⟩ := h.many
    exact ⟨max N0 1, max R0 2, fun N hN R hR w hw cov hcov => h N (le_of_max_le_left hN) R (le_of_max_le_left hR) w hw cov
      (hC N R (le_of_max_le_right hN) (le_of_max_le_right hR) w cov hcov)⟩
  · intro R hR
    obtain ⟨N0, h⟩ := h.fixed R hR
    exact ⟨max N0 1, fun N hN w hw cov hcov => h N (le_of_max_le_left hN) w hw cov (hC N R (le_of_max_le_right hN) hR w cov hcov)⟩

section rows

variable {β Ω : Type} [MeasurableSpace β] [MeasurableSpace Ω] {P : Measure Ω} {law : Measure β} {Z : ℕ → Ω → β}
  (hm : ∀ i, Measurable (Z i)) (hlaw : ∀ i, Measure.map (Z i) P = law) (hind : iIndepFun Z P)
include hm hlaw hind

/-- Intervals around a quotient of means of `N` rows, with `z` times the standard deviation of the means of `u` over `R` resamples as
half width: the limits of the coverage. -/
theorem width_limits (F : Fin 5 → β → ℝ) (mF : ∀ a, Measurable (F a)) (F0 : ∀ a, ∫ p, F a p ∂law = 0) (H : ℝ)
    (hb : ∀ a, ∀ᵐ p ∂law, |F a p| ≤ H) (V θ : ℝ) (hV : 0 < V) (hs : 0 < ∫ p, F 0 p ^ 2 ∂law)
    (u : β → ℝ) (mu : Measurable u) (u0 : ∫ p, u p ∂law = 0) (Hu : ℝ) (hub : ∀ᵐ p ∂law, |u p| ≤ Hu) (hu : 0 < ∫ p, u p ^ 2 ∂law)
    (z : ℝ) (hz : 0 < z) (ε : ℝ) (hε : 0 < ε) :
    WidthLimits P Z (z * √(∫ p, u p ^ 2 ∂law) / √(∫ p, F 0 p ^ 2 ∂law)) ε fun N R w cov => ∃ null : Set Ω, P.real null = 0 ∧
      ∀ ω ∉ null, ∀ (x : Fin 5 → ℝ), (∀ a, x a = rowMean (firstRows Z N ω) (F a)) → 0 < V + x 3 - x 2 ^ 2 →
        (ω ∈ cov ↔ |ratioErr V θ (x 0) (x 1) (x 2) (x 3) (x 4)| ≤ z * √(drawVar fun r => (∑ i, u (Z (w ω r i) ω)) / N)) := by
  constructor
  · obtain ⟨N0, R0, h⟩ := width_coverage hm hlaw hind F mF F0 H hb V θ hV hs u mu u0 Hu hub hu z hz ε hε
    exact ⟨N0, R0, fun N hN R hR w hw cov ⟨null, h1, h2⟩ => h N hN R hR w hw cov null h1 h2⟩
  intro R hR
  have hP : IsProbabilityMeasure P := hind.isProbabilityMeasure
  set s := √(∫ p, F 0 p ^ 2 ∂law) with hsd
  set t := √(∫ p, u p ^ 2 ∂law) with htd
  have hs0 : 0 < s := Real.sqrt_pos.mpr hs
  have ht0 : 0 < t := Real.sqrt_pos.mpr hu
  have hs2 : s ^ 2 = ∫ p, F 0 p ^ 2 ∂law := Real.sq_sqrt hs.le
  have ht2 : t ^ 2 = ∫ p, u p ^ 2 ∂law := Real.sq_sqrt hu.le
  obtain ⟨η, hη, N1, hclt⟩ := student_perturbed hm hlaw hind (fun p => F 0 p / s) (fun p => u p / t) ((mF 0).div_const s)
    (mu.div_const t) (by rw [integral_div, F0, zero_div]) (by simp only [div_pow]; rw [integral_div, hs2, div_self hs.ne'])
    (by rw [integral_div, u0, zero_div]) (by simp only [div_pow]; rw [integral_div, ht2, div_self hu.ne']) (Hu / t)
    (hub.mono fun p hp => by
      rw [abs_div, abs_of_pos ht0]
      exact div_le_div_of_nonneg_right hp ht0.le) R (z * t / s) ε hε
  obtain ⟨ηd, hηd, hdet⟩ := ratio_det_one V θ (s * η) hV (by positivity)
  have hη3 : 0 < min ηd (ε / 80) := by positivity
  choose Nx hNx using fun a => mean_four_rare hm hlaw hind (F a) (mF a) (F0 a) H (hb a) _ hη3
  refine ⟨max N1 (max (Finset.univ.sup Nx) 2), fun N hN w hw cov ⟨null, hnull, hcov⟩ => ?_⟩
  have hN2 : 2 ≤ N := by omega
  have hNr : (0 : ℝ) < N := by
    have : 0 < N := by omega
    exact_mod_cast this
  have hrN : 0 < √(N : ℝ) := Real.sqrt_pos.mpr hNr
  have hrN2 : √(N : ℝ) * √N = N := Real.mul_self_sqrt hNr.le
  have hx := fun a => hNx a N ((Finset.le_sup (Finset.mem_univ a)).trans ((le_max_left _ _).trans (le_of_max_le_right hN)))
  let x : Ω → Fin 5 → ℝ := fun ω a => rowMean (firstRows Z N ω) (F a)
  let bx : Set Ω := ⋃ a ∈ (Finset.univ : Finset (Fin 5)), {ω | min ηd (ε / 80) ≤ N * rowMean (firstRows Z N ω) (F a) ^ 4}
  have hbx : P.real bx ≤ 5 * (ε / 80) := by
    refine (measureReal_biUnion_finset_le _ _).trans ((Finset.sum_le_card_nsmul _ _ _ fun a _ =>
      (hx a).trans (min_le_right _ _)).trans (le_of_eq ?_))
    rw [nsmul_eq_mul, Finset.card_univ, Fintype.card_fin]
    norm_num
  have hc : 0 < √(N : ℝ) / s := div_pos hrN hs0
  have hct : 0 < √(N : ℝ) / t := div_pos hrN ht0
  refine hclt N (le_of_max_le_left hN) w hw
    (fun ω => √N / s * ratioErr V θ (x ω 0) (x ω 1) (x ω 2) (x ω 3) (x ω 4))
    (fun ω => √N / s * (z * √(drawVar fun r => (∑ i, u (Z (w ω r i) ω)) / N))) cov (bx ∪ null) ?_ fun ω hω => ?_
  · have h1 := measureReal_union_le (μ := P) bx null
    linarith
  rw [Set.mem_union, not_or] at hω
  have gx : ∀ a, N * x ω a ^ 4 < ηd := by
    intro a
    refine lt_of_lt_of_le (lt_of_not_ge fun h => hω.1 (Set.mem_biUnion (Finset.mem_univ a) ?_)) (min_le_left ηd (ε / 80))
    exact h
  obtain ⟨d1, d3⟩ := hdet N hN2 (x ω) gx
  have hsum : ∀ v : β → ℝ, ∑ k : Fin N, v (Z k ω) = N * rowMean (firstRows Z N ω) v := fun v => by
    rw [rowMean_firstRows, mul_div_cancel₀ _ hNr.ne', Finset.sum_range]
  have e0 : bootVec (fun p => F 0 p / s) (fun p => u p / t) (fun i : Fin N => Z i ω) (w ω) 0 = √N / s * x ω 0 := by
    show (√N)⁻¹ * ∑ i : Fin N, F 0 (Z i ω) / s = √N / s * rowMean (firstRows Z N ω) (F 0)
    rw [← Finset.sum_div, hsum]
    field_simp
    rw [sq, hrN2]
  have er : ∀ r : Fin R, bootVec (fun p => F 0 p / s) (fun p => u p / t) (fun i : Fin N => Z i ω) (w ω) r.succ =
      √N / t * ((∑ i, u (Z (w ω r i) ω)) / N - rowMean (firstRows Z N ω) u) := by
    intro r
    show (√N)⁻¹ * ∑ i : Fin N, (u (Z (w ω r i) ω) / t - (∑ k : Fin N, u (Z k ω) / t) / N) = _
    rw [Finset.sum_sub_distrib, Finset.sum_const, Finset.card_univ, Fintype.card_fin, nsmul_eq_mul, ← Finset.sum_div,
      ← Finset.sum_div, hsum]
    field_simp
    rw [sq, hrN2]
  refine ⟨?_, ?_, ?_⟩
  · beta_reduce
    rw [hcov ω hω.2 (x ω) (fun _ => rfl) d1, abs_mul, abs_of_pos hc, mul_le_mul_iff_right₀ hc]
  · rw [e0, ← mul_sub, abs_mul, abs_of_pos hc, div_mul_eq_mul_div, div_le_iff₀ hs0, mul_comm η]
    exact d3
  · simp only [er]
    rw [drawVar_affine (by omega) fun r => (∑ i, u (Z (w ω r i) ω)) / N, Real.sqrt_mul (sq_nonneg _), Real.sqrt_sq hct.le]
    rw [show ∀ a : ℝ, z * t / s * (√N / t * a) = √N / s * (z * a) from fun a => by field_simp, sub_self, abs_zero]
    exact hη.le

end rows

end SALib
