import Verif.Lemmas.QuotientCoverage

/-! # Intervals around a quotient whose half width comes from the resamples of another mean -/

namespace SALib
open MeasureTheory ProbabilityTheory Filter Topology Spec

/-- The estimate is near its linear part. -/
theorem ratio_det_one (V θ η' : ℝ) (hV : 0 < V) (hη' : 0 < η') :
    ∃ η > 0, ∀ N : Nat, 2 ≤ N → ∀ x : Fin 5 → ℝ, (∀ a, N * x a ^ 4 < η) →
      0 < V + x 3 - x 2 ^ 2 ∧ √N * |ratioErr V θ (x 0) (x 1) (x 2) (x 3) (x 4) - x 0| ≤ η' := by
  obtain ⟨η, hη, h⟩ := ratio_det V θ η' hV hη'
  refine ⟨η, hη, fun N hN x hx => ?_⟩
  obtain ⟨h1, -, h2, -⟩ := h N 2 le_rfl hN x (fun a _ => x a) hx (by simpa using hη)
  exact ⟨h1, h2⟩

section rows

variable {β Ω : Type} [MeasurableSpace β] [MeasurableSpace Ω] {P : Measure Ω} {law : Measure β} {Z : ℕ → Ω → β}
  (hm : ∀ i, Measurable (Z i)) (hlaw : ∀ i, Measure.map (Z i) P = law) (hind : iIndepFun Z P)
include hm hlaw hind

theorem width_coverage (F : Fin 5 → β → ℝ) (mF : ∀ a, Measurable (F a)) (F0 : ∀ a, ∫ p, F a p ∂law = 0) (H : ℝ)
    (hb : ∀ a, ∀ᵐ p ∂law, |F a p| ≤ H) (V θ : ℝ) (hV : 0 < V) (hs : 0 < ∫ p, F 0 p ^ 2 ∂law)
    (u : β → ℝ) (mu : Measurable u) (u0 : ∫ p, u p ∂law = 0) (Hu : ℝ) (hub : ∀ᵐ p ∂law, |u p| ≤ Hu) (hu : 0 < ∫ p, u p ^ 2 ∂law)
    (z : ℝ) (hz : 0 < z) (ε : ℝ) (hε : 0 < ε) :
    ∃ N0 R0, ∀ N ≥ N0, ∀ R ≥ R0, ∀ w : Ω → Fin R → Fin N → Fin N, FreshResample P Z N R w → ∀ cov null : Set Ω, P.real null = 0 →
      (∀ ω ∉ null, ∀ (x : Fin 5 → ℝ), (∀ a, x a = rowMean (firstRows Z N ω) (F a)) → 0 < V + x 3 - x 2 ^ 2 →
        (ω ∈ cov ↔ |ratioErr V θ (x 0) (x 1) (x 2) (x 3) (x 4)| ≤ z * √(drawVar fun r => (∑ i, u (Z (w ω r i) ω)) / N))) →
      |P.real cov - normalWithin (z * √(∫ p, u p ^ 2 ∂law) / √(∫ p, F 0 p ^ 2 ∂law))| < ε := by
  have hP : IsProbabilityMeasure P := hind.isProbabilityMeasure
  set s := √(∫ p, F 0 p ^ 2 ∂law) with hsd
  set t := √(∫ p, u p ^ 2 ∂law) with htd
  have hs0 : 0 < s := Real.sqrt_pos.mpr hs
  have ht0 : 0 < t := Real.sqrt_pos.mpr hu
  have hs2 : s ^ 2 = ∫ p, F 0 p ^ 2 ∂law := Real.sq_sqrt hs.le
  let X : ℕ → Ω → ℝ := fun k ω => F 0 (Z k ω) / s
  have hX0 : ∫ ω, X 0 ω ∂P = 0 := by
    have e : ∫ ω, X 0 ω ∂P = ∫ d, F 0 d / s ∂(Measure.map (Z 0) P) := by
      rw [integral_map (hm 0).aemeasurable ((mF 0).div_const s).aestronglyMeasurable]
    rw [e, hlaw, integral_div, F0, zero_div]
  have hX1 : ∫ ω, X 0 ω ^ 2 ∂P = 1 := by
    have e : ∫ ω, X 0 ω ^ 2 ∂P = ∫ d, (F 0 d / s) ^ 2 ∂(Measure.map (Z 0) P) := by
      rw [integral_map (hm 0).aemeasurable (((mF 0).div_const s).pow_const 2).aestronglyMeasurable]
    rw [e, hlaw]
    simp only [div_pow]
    rw [integral_div, hs2, div_self hs.ne']
  have hXi : iIndepFun X P := hind.comp (fun _ d => F 0 d / s) fun _ => (mF 0).div_const s
  have hXd : ∀ i, IdentDistrib (X i) (X 0) P P := fun i =>
    { aemeasurable_fst := (((mF 0).div_const s).comp (hm i)).aemeasurable
      aemeasurable_snd := (((mF 0).div_const s).comp (hm 0)).aemeasurable
      map_eq := by
        have : ∀ i, Measure.map (X i) P = Measure.map (fun d => F 0 d / s) law := by
          intro i
          rw [← hlaw i, Measure.map_map ((mF 0).div_const s) (hm i)]
          rfl
        rw [this i, this 0] }
  obtain ⟨η, hη, N1, hclt⟩ := clt_perturbed X hX0 hX1 hXi hXd (z * t / s) (by positivity) ε hε
  set η' := s * η / (1 + z) with hη'
  have hη'0 : 0 < η' := by positivity
  obtain ⟨ηd, hηd, hdet⟩ := ratio_det_one V θ η' hV hη'0
  have hη3 : 0 < min ηd (ε / 80) := by positivity
  have hη2 : 0 < min η' (ε / 16) := by positivity
  choose Nx hNx using fun a => mean_four_rare hm hlaw hind (F a) (mF a) (F0 a) H (hb a) _ hη3
  obtain ⟨N2, R2, hsd2⟩ := boot_sd_rows hm hlaw hind u mu u0 Hu hub _ hη2
  refine ⟨max (max N1 N2) (max (Finset.univ.sup Nx) 2), R2, fun N hN R hR w hw cov null hnull hcov => ?_⟩
  have hN2 : 2 ≤ N := by omega
  have hNr : (0 : ℝ) < N := by
    have : 0 < N := by omega
    exact_mod_cast this
  have hrN : 0 < √(N : ℝ) := Real.sqrt_pos.mpr hNr
  have hrN2 : √(N : ℝ) * √N = N := Real.mul_self_sqrt hNr.le
  have hx := fun a => hNx a N ((Finset.le_sup (Finset.mem_univ a)).trans ((le_max_left _ _).trans (le_of_max_le_right hN)))
  have hsd3 := hsd2 N ((le_max_right _ _).trans (le_of_max_le_left hN)) R hR w hw
  let x : Ω → Fin 5 → ℝ := fun ω a => rowMean (firstRows Z N ω) (F a)
  let bx : Set Ω := ⋃ a ∈ (Finset.univ : Finset (Fin 5)), {ω | min ηd (ε / 80) ≤ N * rowMean (firstRows Z N ω) (F a) ^ 4}
  let bs : Set Ω := {ω | min η' (ε / 16) ≤ |√(N * drawVar fun r => (∑ i, u (Z (w ω r i) ω)) / N) - t|}
  have hbx : P.real bx ≤ 5 * (ε / 80) := by
    refine (measureReal_biUnion_finset_le _ _).trans ((Finset.sum_le_card_nsmul _ _ _ fun a _ =>
      (hx a).trans (min_le_right _ _)).trans (le_of_eq ?_))
    rw [nsmul_eq_mul, Finset.card_univ, Fintype.card_fin]
    norm_num
  have hbs : P.real bs ≤ ε / 16 := hsd3.trans (min_le_right _ _)
  refine hclt N ((le_max_left _ _).trans (le_of_max_le_left hN))
    (fun ω => √N * ratioErr V θ (x ω 0) (x ω 1) (x ω 2) (x ω 3) (x ω 4) / s)
    (fun ω => z * √(N * drawVar fun r => (∑ i, u (Z (w ω r i) ω)) / N) / s)
    cov (bx ∪ null ∪ bs) ?_ fun ω hω => ?_
  · have h1 := measureReal_union_le (μ := P) (bx ∪ null) bs
    have h2 := measureReal_union_le (μ := P) bx null
    linarith
  · rw [Set.mem_union, Set.mem_union, not_or, not_or] at hω
    have gx : ∀ a, N * x ω a ^ 4 < ηd := by
      intro a
      refine lt_of_lt_of_le (lt_of_not_ge fun h => hω.1.1 (Set.mem_biUnion (Finset.mem_univ a) ?_)) (min_le_left ηd (ε / 80))
      exact h
    have gs : |√(N * drawVar fun r => (∑ i, u (Z (w ω r i) ω)) / N) - t| < η' :=
      lt_of_lt_of_le (lt_of_not_ge fun h => hω.2 h) (min_le_left η' (ε / 16))
    obtain ⟨d1, d3⟩ := hdet N hN2 (x ω) gx
    refine ⟨?_, ?_, ?_⟩
    · rw [hcov ω hω.1.2 (x ω) (fun _ => rfl) d1]
      beta_reduce
      rw [abs_div, abs_mul, abs_of_pos hrN, abs_of_pos hs0, div_le_div_iff_of_pos_right hs0, Real.sqrt_mul hNr.le]
      rw [show ∀ a : ℝ, z * (√N * a) = √N * (z * a) from fun a => by ring]
      exact (mul_le_mul_iff_right₀ hrN).symm
    · have e : (√N)⁻¹ * ∑ k ∈ Finset.range N, X k ω = √N * x ω 0 / s := by
        show (√N)⁻¹ * ∑ k ∈ Finset.range N, F 0 (Z k ω) / s = √N * rowMean (firstRows Z N ω) (F 0) / s
        rw [rowMean_firstRows, ← Finset.sum_div]
        field_simp
        rw [sq, hrN2, mul_comm]
      beta_reduce
      rw [e, ← sub_div, ← mul_sub, abs_div, abs_mul, abs_of_pos hrN, abs_of_pos hs0, div_le_iff₀ hs0]
      refine d3.trans ?_
      rw [hη', div_le_iff₀ (by positivity)]
      have := mul_pos hη hs0
      nlinarith
    · beta_reduce
      rw [show z * √(N * drawVar fun r => (∑ i, u (Z (w ω r i) ω)) / N) / s - z * t / s =
        z / s * (√(N * drawVar fun r => (∑ i, u (Z (w ω r i) ω)) / N) - t) from by ring,
        abs_mul, abs_of_pos (div_pos hz hs0)]
      refine (mul_le_mul_of_nonneg_left gs.le (div_pos hz hs0).le).trans ?_
      rw [hη']
      have : z / s * (s * η / (1 + z)) = z * η / (1 + z) := by field_simp
      rw [this, div_le_iff₀ (by positivity)]
      nlinarith

end rows

theorem tendsto_normalWithin_zero : Tendsto normalWithin (𝓝[>] 0) (𝓝 0) := by
  have h1 : Tendsto (fun a => 2 * cdf (gaussianReal 0 1) a - 1) (𝓝[>] 0) (𝓝 0) := by
    have h2 : Tendsto (cdf (gaussianReal 0 1)) (𝓝[>] 0) (𝓝 (cdf (gaussianReal 0 1) 0)) :=
      ((cdf (gaussianReal 0 1)).right_continuous 0).mono_left (nhdsWithin_mono _ Set.Ioi_subset_Ici_self)
    have := (h2.const_mul 2).sub_const 1
    rw [cdf_half] at this
    simpa using this
  refine h1.congr' ?_
  filter_upwards [self_mem_nhdsWithin] with a ha
  exact (normalWithin_eq a (le_of_lt ha)).symm

theorem tendsto_normalWithin_top : Tendsto normalWithin atTop (𝓝 1) := by
  have h1 : Tendsto (fun a => 2 * cdf (gaussianReal 0 1) a - 1) atTop (𝓝 1) := by
    have := ((tendsto_cdf_atTop (gaussianReal 0 1)).const_mul 2).sub_const 1
    norm_num at this
    exact this
  refine h1.congr' ?_
  filter_upwards [eventually_ge_atTop 0] with a ha
  exact (normalWithin_eq a ha).symm

end SALib
