import Verif.Lemmas.RatioCoverage
import Mathlib.Analysis.InnerProductSpace.PiL2

/-! # Bootstrap intervals around quotients of means: the limit of the coverage -/

namespace SALib
open MeasureTheory ProbabilityTheory Filter Topology Spec

/-- If, outside a rare event, an error differs little from a standardised sum and the half width little from `z`, the interval
covers with nearly the probability of the normal distribution. -/
theorem clt_perturbed {Ω : Type} [MeasurableSpace Ω] {P : Measure Ω} [IsProbabilityMeasure P] (X : ℕ → Ω → ℝ)
    (h0 : ∫ ω, X 0 ω ∂P = 0) (h1 : ∫ ω, X 0 ω ^ 2 ∂P = 1) (hindep : iIndepFun X P)
    (hident : ∀ i, IdentDistrib (X i) (X 0) P P) (z : ℝ) (hz : 0 < z) (ε : ℝ) (hε : 0 < ε) :
    ∃ η > 0, ∃ N0 : ℕ, ∀ N ≥ N0, ∀ (E W : Ω → ℝ) (cov bad : Set Ω), P.real bad ≤ ε / 4 →
      (∀ ω ∉ bad, (ω ∈ cov ↔ |E ω| ≤ W ω) ∧ |E ω - (√N)⁻¹ * ∑ k ∈ Finset.range N, X k ω| ≤ η ∧ |W ω - z| ≤ η) →
      |P.real cov - normalWithin z| < ε := by
  have hclt := fun a => clt_interval X h0 h1 hindep hident a
  obtain ⟨δ, hδ, hcont⟩ := Metric.continuousAt_iff.mp (normalWithin_continuousAt z hz) (ε / 3) (by positivity)
  set η := δ / 3 with hη
  have hη0 : 0 < η := by positivity
  obtain ⟨N2, hN2⟩ := Metric.tendsto_atTop.mp (hclt (z + 2 * η)) (ε / 3) (by positivity)
  obtain ⟨N3, hN3⟩ := Metric.tendsto_atTop.mp (hclt (z - 2 * η)) (ε / 3) (by positivity)
  refine ⟨η, hη0, max N2 N3, fun N hN E W cov bad hbad hgood => ?_⟩
  have hup := hN2 N (le_of_max_le_left hN)
  have hlo := hN3 N (le_of_max_le_right hN)
  have c1 := hcont (x := z + 2 * η) (by rw [Real.dist_eq, abs_lt]; constructor <;> linarith)
  have c2 := hcont (x := z - 2 * η) (by rw [Real.dist_eq, abs_lt]; constructor <;> linarith)
  rw [Real.dist_eq, abs_lt] at hup hlo c1 c2
  have b1 : P.real cov ≤ P.real {ω | |(√N)⁻¹ * ∑ k ∈ Finset.range N, X k ω| ≤ z + 2 * η} + P.real bad := by
    refine le_trans (measureReal_mono (fun ω hω => ?_) (measure_ne_top P _)) (measureReal_union_le _ _)
    by_cases hb : ω ∈ bad
    · exact Or.inr hb
    · obtain ⟨g1, g2, g3⟩ := hgood ω hb
      have g4 := g1.mp hω
      have g5 := abs_le.mp g2
      have g6 := abs_le.mp g3
      have g7 := abs_le.mp g4
      left
      show |(√N)⁻¹ * ∑ k ∈ Finset.range N, X k ω| ≤ z + 2 * η
      rw [abs_le]
      constructor <;> linarith
  have b2 : P.real {ω | |(√N)⁻¹ * ∑ k ∈ Finset.range N, X k ω| ≤ z - 2 * η} ≤ P.real cov + P.real bad := by
    refine le_trans (measureReal_mono (fun ω hω => ?_) (measure_ne_top P _)) (measureReal_union_le _ _)
    by_cases hb : ω ∈ bad
    · exact Or.inr hb
    · obtain ⟨g1, g2, g3⟩ := hgood ω hb
      have g5 := abs_le.mp g2
      have g6 := abs_le.mp g3
      have g7 := abs_le.mp (show |(√N)⁻¹ * ∑ k ∈ Finset.range N, X k ω| ≤ z - 2 * η from hω)
      refine Or.inl (g1.mpr (abs_le.mpr ⟨?_, ?_⟩)) <;> linarith
  rw [abs_lt]
  constructor <;> linarith

/-! ### Standard deviations of nearby families -/

theorem sqrt_drawVar_norm {R : Nat} (x : Fin R → ℝ) :
    √(drawVar x) = ‖(WithLp.toLp 2 fun r => x r - (∑ s, x s) / R : EuclideanSpace ℝ (Fin R))‖ / √((R : ℝ) - 1) := by
  unfold drawVar
  rw [Real.sqrt_div (Finset.sum_nonneg fun _ _ => sq_nonneg _), EuclideanSpace.norm_eq]
  simp only [Real.norm_eq_abs, sq_abs]

theorem sqrt_drawVar_near {R : Nat} (x y : Fin R → ℝ) :
    |√(drawVar x) - √(drawVar y)| ≤ √(drawVar fun r => x r - y r) := by
  rw [sqrt_drawVar_norm, sqrt_drawVar_norm, sqrt_drawVar_norm, ← sub_div, abs_div, abs_of_nonneg (Real.sqrt_nonneg _)]
  refine div_le_div_of_nonneg_right ((abs_norm_sub_norm_le _ _).trans (le_of_eq ?_)) (Real.sqrt_nonneg _)
  congr 1
  ext r
  simp only [PiLp.sub_apply, Finset.sum_sub_distrib, sub_div]
  ring

theorem drawVar_le_sq {R : Nat} (hR : 2 ≤ R) (x : Fin R → ℝ) : drawVar x ≤ 2 * ((∑ r, x r ^ 2) / R) := by
  have hR2 : (2 : ℝ) ≤ R := by exact_mod_cast hR
  have hS : 0 ≤ ∑ r, x r ^ 2 := Finset.sum_nonneg fun _ _ => sq_nonneg _
  rw [drawVar_split hR x 0]
  simp only [sub_zero]
  rw [div_le_iff₀ (by linarith), mul_div_assoc', div_mul_eq_mul_div, le_div_iff₀ (by linarith)]
  have h1 : 0 ≤ (∑ r, x r) ^ 2 / (R : ℝ) := by positivity
  nlinarith

/-! ### The remainder of the linearisation -/

/-- The error of a quotient estimate, in the errors of the means it is made of. -/
noncomputable def ratioErr (V θ a0 a1 a2 a3 a4 : ℝ) : ℝ := (V * a0 - a4 * a1 + θ * a2 ^ 2) / (V + a3 - a2 ^ 2)

theorem ratioErr_near (V θ a0 a1 a2 a3 a4 : ℝ) (hV : 0 < V) (h0 : |a0| ≤ 1) (h2 : a2 ^ 2 ≤ V / 4) (h3 : |a3| ≤ V / 4) :
    0 < V + a3 - a2 ^ 2 ∧ (ratioErr V θ a0 a1 a2 a3 a4 - a0) ^ 2 ≤
      5 * (2 * (1 + |θ|) / V) ^ 2 * (a0 ^ 4 + a1 ^ 4 + a2 ^ 4 + a3 ^ 4 + a4 ^ 4) := by
  have g3 := abs_le.mp h3
  have hv : V / 2 ≤ V + a3 - a2 ^ 2 := by linarith
  have hvp : 0 < V + a3 - a2 ^ 2 := by linarith
  refine ⟨hvp, ?_⟩
  set S := a0 ^ 2 + a1 ^ 2 + a2 ^ 2 + a3 ^ 2 + a4 ^ 2 with hS
  have hS0 : 0 ≤ S := by positivity
  have hθ := abs_nonneg θ
  have hn : |(-(a4 * a1) + θ * a2 ^ 2 - a0 * a3 + a0 * a2 ^ 2)| ≤ (1 + |θ|) * S := by
    have t1 : |a4 * a1| ≤ (a4 ^ 2 + a1 ^ 2) / 2 := by
      rw [abs_le]; constructor <;> nlinarith [sq_nonneg (a4 + a1), sq_nonneg (a4 - a1)]
    have t2 : |θ * a2 ^ 2| = |θ| * a2 ^ 2 := by rw [abs_mul, abs_of_nonneg (sq_nonneg a2)]
    have t3 : |a0 * a3| ≤ (a0 ^ 2 + a3 ^ 2) / 2 := by
      rw [abs_le]; constructor <;> nlinarith [sq_nonneg (a0 + a3), sq_nonneg (a0 - a3)]
    have t4 : |a0 * a2 ^ 2| ≤ a2 ^ 2 := by
      rw [abs_mul, abs_of_nonneg (sq_nonneg a2)]
      nlinarith [sq_nonneg a2]
    have t5 : |θ| * a2 ^ 2 ≤ |θ| * S := mul_le_mul_of_nonneg_left (by rw [hS]; nlinarith [sq_nonneg a0, sq_nonneg a1, sq_nonneg a3, sq_nonneg a4]) hθ
    have t6 : (a4 ^ 2 + a1 ^ 2) / 2 + (a0 ^ 2 + a3 ^ 2) / 2 + a2 ^ 2 ≤ S := by
      rw [hS]; nlinarith [sq_nonneg a0, sq_nonneg a1, sq_nonneg a3, sq_nonneg a4]
    have q1 := abs_le.mp t1
    have q2 := abs_le.mp t2.le
    have q3 := abs_le.mp t3
    have q4 := abs_le.mp t4
    rw [abs_le]
    constructor <;> nlinarith
  have e : ratioErr V θ a0 a1 a2 a3 a4 - a0 =
      (-(a4 * a1) + θ * a2 ^ 2 - a0 * a3 + a0 * a2 ^ 2) / (V + a3 - a2 ^ 2) := by
    unfold ratioErr
    field_simp
    ring
  have hle : |ratioErr V θ a0 a1 a2 a3 a4 - a0| ≤ 2 * (1 + |θ|) / V * S := by
    rw [e, abs_div, abs_of_pos hvp, div_le_iff₀ hvp]
    calc _ ≤ (1 + |θ|) * S := hn
      _ = 2 * (1 + |θ|) / V * S * (V / 2) := by field_simp
      _ ≤ _ := mul_le_mul_of_nonneg_left hv (by positivity)
  have hS2 : S ^ 2 ≤ 5 * (a0 ^ 4 + a1 ^ 4 + a2 ^ 4 + a3 ^ 4 + a4 ^ 4) := by
    rw [hS]
    nlinarith [sq_nonneg (a0 ^ 2 - a1 ^ 2), sq_nonneg (a0 ^ 2 - a2 ^ 2), sq_nonneg (a0 ^ 2 - a3 ^ 2), sq_nonneg (a0 ^ 2 - a4 ^ 2),
      sq_nonneg (a1 ^ 2 - a2 ^ 2), sq_nonneg (a1 ^ 2 - a3 ^ 2), sq_nonneg (a1 ^ 2 - a4 ^ 2), sq_nonneg (a2 ^ 2 - a3 ^ 2),
      sq_nonneg (a2 ^ 2 - a4 ^ 2), sq_nonneg (a3 ^ 2 - a4 ^ 2)]
  rw [← sq_abs]
  calc _ ≤ (2 * (1 + |θ|) / V * S) ^ 2 := pow_le_pow_left₀ (abs_nonneg _) hle 2
    _ = (2 * (1 + |θ|) / V) ^ 2 * S ^ 2 := by ring
    _ ≤ (2 * (1 + |θ|) / V) ^ 2 * (5 * (a0 ^ 4 + a1 ^ 4 + a2 ^ 4 + a3 ^ 4 + a4 ^ 4)) :=
        mul_le_mul_of_nonneg_left hS2 (sq_nonneg _)
    _ = _ := by ring

theorem abs_lt_of_four {a d : ℝ} (hd : 0 ≤ d) (h : a ^ 4 < d ^ 4) : |a| < d := by
  by_contra hn
  have := pow_le_pow_left₀ hd (not_lt.mp hn) 4
  rw [← abs_pow, abs_of_nonneg (show 0 ≤ a ^ 4 by positivity)] at this
  linarith

theorem four_add_le (a b : ℝ) : (a + b) ^ 4 ≤ 8 * (a ^ 4 + b ^ 4) := by
  have h1 : (a + b) ^ 2 ≤ 2 * (a ^ 2 + b ^ 2) := by nlinarith [sq_nonneg (a - b)]
  have h2 : (a ^ 2 + b ^ 2) ^ 2 ≤ 2 * (a ^ 4 + b ^ 4) := by nlinarith [sq_nonneg (a ^ 2 - b ^ 2)]
  have h3 := pow_le_pow_left₀ (sq_nonneg (a + b)) h1 2
  nlinarith

/-- Numbers for which the errors of the means and of the resampled means are small. -/
theorem ratio_det (V θ η' : ℝ) (hV : 0 < V) (hη' : 0 < η') :
    ∃ η > 0, ∀ (N R : Nat), 2 ≤ R → R ≤ N → ∀ (x : Fin 5 → ℝ) (y : Fin 5 → Fin R → ℝ),
      (∀ a, N * x a ^ 4 < η) → (∀ a, (∑ r, N * (y a r - x a) ^ 4) / R < η) →
      0 < V + x 3 - x 2 ^ 2 ∧ (∀ r, 0 < V + y 3 r - y 2 r ^ 2) ∧
      √N * |ratioErr V θ (x 0) (x 1) (x 2) (x 3) (x 4) - x 0| ≤ η' ∧
      |√(N * drawVar fun r => ratioErr V θ (y 0 r) (y 1 r) (y 2 r) (y 3 r) (x 4)) - √(N * drawVar (y 0))| ≤ η' := by
  set C := 5 * (2 * (1 + |θ|) / V) ^ 2 with hC
  have hC0 : 0 < C := by
    have := abs_nonneg θ
    positivity
  set δ := min 1 (V / 4) with hδ
  have hδ0 : 0 < δ := by positivity
  have hδ1 : δ ≤ 1 := min_le_left _ _
  have hδV : δ ≤ V / 4 := min_le_right _ _
  refine ⟨min ((δ / 2) ^ 4) (η' ^ 2 / (160 * C)), by positivity, fun N R hR hRN x y hx hy => ?_⟩
  set η := min ((δ / 2) ^ 4) (η' ^ 2 / (160 * C)) with hη
  have hη0 : 0 < η := by positivity
  have hηC : 160 * C * η ≤ η' ^ 2 := by
    have : η ≤ η' ^ 2 / (160 * C) := min_le_right _ _
    rw [le_div_iff₀ (by positivity)] at this
    linarith
  have hNp : 0 < N := by omega
  have hNr : (1 : ℝ) ≤ N := by exact_mod_cast hNp
  have hRr : (0 : ℝ) < R := by exact_mod_cast (by omega : 0 < R)
  have hRNr : (R : ℝ) ≤ N := by exact_mod_cast hRN
  have bx : ∀ a, |x a| < δ / 2 := by
    intro a
    refine abs_lt_of_four (by positivity) ?_
    calc x a ^ 4 ≤ N * x a ^ 4 := le_mul_of_one_le_left (by positivity) hNr
      _ < η := hx a
      _ ≤ _ := min_le_left _ _
  have by' : ∀ a r, |y a r| < δ := by
    intro a r
    have h1 : (y a r - x a) ^ 4 < (δ / 2) ^ 4 := by
      calc (y a r - x a) ^ 4 ≤ N * (y a r - x a) ^ 4 / R := by
            rw [le_div_iff₀ hRr, mul_comm]
            exact mul_le_mul_of_nonneg_right hRNr (by positivity)
        _ ≤ (∑ r, N * (y a r - x a) ^ 4) / R := by
            refine div_le_div_of_nonneg_right ?_ hRr.le
            exact Finset.single_le_sum (f := fun r => (N : ℝ) * (y a r - x a) ^ 4) (fun _ _ => by positivity) (Finset.mem_univ r)
        _ < η := hy a
        _ ≤ _ := min_le_left _ _
    have h2 := abs_lt.mp (abs_lt_of_four (by positivity) h1)
    have h3 := abs_lt.mp (bx a)
    rw [abs_lt]
    constructor <;> linarith
  have sqδ : ∀ b : ℝ, |b| ≤ δ → b ^ 2 ≤ V / 4 := by
    intro b hb
    rw [← sq_abs]
    nlinarith [abs_nonneg b]
  have bx' : ∀ a, |x a| ≤ δ := fun a => by linarith [bx a]
  have nx := ratioErr_near V θ (x 0) (x 1) (x 2) (x 3) (x 4) hV ((bx' 0).trans hδ1) (sqδ _ (bx' 2)) ((bx' 3).trans hδV)
  have ny := fun r => ratioErr_near V θ (y 0 r) (y 1 r) (y 2 r) (y 3 r) (x 4) hV ((by' 0 r).le.trans hδ1) (sqδ _ (by' 2 r).le)
    ((by' 3 r).le.trans hδV)
  rw [← hC] at nx
  simp only [← hC] at ny
  refine ⟨nx.1, fun r => (ny r).1, ?_, ?_⟩
  · have hsq : (√N * |ratioErr V θ (x 0) (x 1) (x 2) (x 3) (x 4) - x 0|) ^ 2 ≤ η' ^ 2 := by
      rw [mul_pow, Real.sq_sqrt (by positivity), sq_abs]
      calc _ ≤ N * (C * (x 0 ^ 4 + x 1 ^ 4 + x 2 ^ 4 + x 3 ^ 4 + x 4 ^ 4)) := mul_le_mul_of_nonneg_left nx.2 (by positivity)
        _ = C * (N * x 0 ^ 4 + N * x 1 ^ 4 + N * x 2 ^ 4 + N * x 3 ^ 4 + N * x 4 ^ 4) := by ring
        _ ≤ C * (η + η + η + η + η) := by
            refine mul_le_mul_of_nonneg_left ?_ hC0.le
            linarith [hx 0, hx 1, hx 2, hx 3, hx 4]
        _ ≤ 160 * C * η := by nlinarith [mul_pos hC0 hη0]
        _ ≤ _ := hηC
    exact (le_abs_self _).trans (abs_le_of_sq_le_sq hsq hη'.le)
  · have hy4 : ∀ a, (∑ r, N * y a r ^ 4) / R ≤ 16 * η := by
      intro a
      have h1 : (∑ r, N * y a r ^ 4) / R ≤ 8 * ((∑ r, N * (y a r - x a) ^ 4) / R) + 8 * (N * x a ^ 4) := by
        rw [div_le_iff₀ hRr]
        calc ∑ r, N * y a r ^ 4 ≤ ∑ r, (8 * (N * (y a r - x a) ^ 4) + 8 * (N * x a ^ 4)) := by
              refine Finset.sum_le_sum fun r _ => ?_
              have := four_add_le (y a r - x a) (x a)
              rw [sub_add_cancel] at this
              nlinarith
          _ = _ := by
              rw [Finset.sum_add_distrib, Finset.sum_const, Finset.card_univ, Fintype.card_fin, nsmul_eq_mul, ← Finset.mul_sum]
              field_simp
      linarith [hy a, hx a]
    rw [Real.sqrt_mul (by positivity), Real.sqrt_mul (by positivity), ← mul_sub, abs_mul, abs_of_nonneg (Real.sqrt_nonneg _)]
    refine (mul_le_mul_of_nonneg_left (sqrt_drawVar_near _ _) (Real.sqrt_nonneg _)).trans ?_
    rw [← Real.sqrt_mul (by positivity)]
    refine Real.sqrt_le_iff.mpr ⟨hη'.le, ?_⟩
    calc _ ≤ N * (2 * ((∑ r, (ratioErr V θ (y 0 r) (y 1 r) (y 2 r) (y 3 r) (x 4) - y 0 r) ^ 2) / R)) :=
          mul_le_mul_of_nonneg_left (drawVar_le_sq hR _) (by positivity)
      _ ≤ N * (2 * ((∑ r, C * (y 0 r ^ 4 + y 1 r ^ 4 + y 2 r ^ 4 + y 3 r ^ 4 + x 4 ^ 4)) / R)) := by
          refine mul_le_mul_of_nonneg_left (mul_le_mul_of_nonneg_left (div_le_div_of_nonneg_right ?_ hRr.le) (by norm_num)) (by positivity)
          exact Finset.sum_le_sum fun r _ => (ny r).2
      _ = 2 * C * ((∑ r, N * y 0 r ^ 4) / R + (∑ r, N * y 1 r ^ 4) / R + (∑ r, N * y 2 r ^ 4) / R + (∑ r, N * y 3 r ^ 4) / R +
            N * x 4 ^ 4) := by
          simp only [← Finset.mul_sum, Finset.sum_add_distrib, Finset.sum_const, Finset.card_univ, Fintype.card_fin, nsmul_eq_mul]
          field_simp
      _ ≤ 2 * C * (16 * η + 16 * η + 16 * η + 16 * η + η) := by
          refine mul_le_mul_of_nonneg_left ?_ (by positivity)
          linarith [hy4 0, hy4 1, hy4 2, hy4 3, hx 4]
      _ ≤ 160 * C * η := by nlinarith [mul_pos hC0 hη0]
      _ ≤ _ := hηC

section rows

variable {β Ω : Type} [MeasurableSpace β] [MeasurableSpace Ω] {P : Measure Ω} {law : Measure β} {Z : ℕ → Ω → β}
  (hm : ∀ i, Measurable (Z i)) (hlaw : ∀ i, Measure.map (Z i) P = law) (hind : iIndepFun Z P)
include hm hlaw hind

/-- Intervals around a quotient of means of `N` rows, with `z` times the standard deviation of the quotients of `R` resamples as
half width: the coverage tends to the probability of the normal distribution. -/
theorem ratio_coverage (F : Fin 5 → β → ℝ) (mF : ∀ a, Measurable (F a)) (F0 : ∀ a, ∫ p, F a p ∂law = 0) (H : ℝ)
    (hb : ∀ a, ∀ᵐ p ∂law, |F a p| ≤ H) (V θ : ℝ) (hV : 0 < V) (hs : 0 < ∫ p, F 0 p ^ 2 ∂law) (z : ℝ) (hz : 0 < z) (ε : ℝ)
    (hε : 0 < ε) :
    ∃ N0 R0, ∀ N ≥ N0, ∀ R ≥ R0, R ≤ N → ∀ w : Ω → Fin R → Fin N → Fin N, FreshResample P Z N R w → ∀ cov : Set Ω,
      (∀ ω (x : Fin 5 → ℝ) (y : Fin 5 → Fin R → ℝ), (∀ a, x a = rowMean (firstRows Z N ω) (F a)) →
        (∀ a r, y a r = (∑ i, F a (Z (w ω r i) ω)) / N) →
        0 < V + x 3 - x 2 ^ 2 → (∀ r, 0 < V + y 3 r - y 2 r ^ 2) →
        (ω ∈ cov ↔ |ratioErr V θ (x 0) (x 1) (x 2) (x 3) (x 4)| ≤
          z * √(drawVar fun r => ratioErr V θ (y 0 r) (y 1 r) (y 2 r) (y 3 r) (x 4)))) →
      |P.real cov - normalWithin z| < ε := by
  have hP : IsProbabilityMeasure P := hind.isProbabilityMeasure
  set s := √(∫ p, F 0 p ^ 2 ∂law) with hsd
  have hs0 : 0 < s := Real.sqrt_pos.mpr hs
  have hs2 : s ^ 2 = ∫ p, F 0 p ^ 2 ∂law := Real.sq_sqrt hs.le
  let X : ℕ → Ω → ℝ := fun k ω => F 0 (Z k ω) / s
  have hX0 : ∫ ω, X 0 ω ∂P = 0 := by
    have e : ∫ ω, X 0 ω ∂P = ∫ d, F 0 d / s ∂(Measure.map (Z 0) P) := by
      rw [integral_map (hm 0).aemeasurable ((mF 0).div_const s).aestronglyMeasurable]
    rw [e, hlaw, integral_div, F0, zero_div]
  have hX1 : ∫ ω, X 0 ω ^ 2 ∂P = 1 := by
    have e : ∫ ω, X 0 ω ^ 2 ∂P = ∫ d, (F 0 d / s) ^ 2 ∂(Measure.map (Z 0) P) := by
      rw [integral_map (hm 0).aemeasurable (((mF 0).div_const s).pow_const 2).aestronglyMeasurable]
    rw [e, hlaw]
    simp only [div_pow]
    rw [integral_div, hs2, div_self hs.ne']
  have hXi : iIndepFun X P := hind.comp (fun _ d => F 0 d / s) fun _ => (mF 0).div_const s
  have hXd : ∀ i, IdentDistrib (X i) (X 0) P P := fun i =>
    { aemeasurable_fst := (((mF 0).div_const s).comp (hm i)).aemeasurable
      aemeasurable_snd := (((mF 0).div_const s).comp (hm 0)).aemeasurable
      map_eq := by
        have : ∀ i, Measure.map (X i) P = Measure.map (fun d => F 0 d / s) law := by
          intro i
          rw [← hlaw i, Measure.map_map ((mF 0).div_const s) (hm i)]
          rfl
        rw [this i, this 0] }
  obtain ⟨η, hη, N1, hclt⟩ := clt_perturbed X hX0 hX1 hXi hXd z hz ε hε
  set η' := s * η / (2 * (1 + z)) with hη'
  have hη'0 : 0 < η' := by positivity
  obtain ⟨ηd, hηd, hdet⟩ := ratio_det V θ η' hV hη'0
  have hη3 : 0 < min ηd (ε / 80) := by positivity
  have hη2 : 0 < min η' (ε / 16) := by positivity
  choose Nx hNx using fun a => mean_four_rare hm hlaw hind (F a) (mF a) (F0 a) H (hb a) _ hη3
  choose Ny hNy using fun a => boot_four_rows hm hlaw hind (F a) (mF a) H (hb a) _ hη3
  obtain ⟨N2, R2, hsd2⟩ := boot_sd_rows hm hlaw hind (F 0) (mF 0) (F0 0) H (hb 0) _ hη2
  refine ⟨max (max N1 N2) (max (Finset.univ.sup Nx) (Finset.univ.sup Ny)), max R2 2, fun N hN R hR hRN w hw cov hcov => ?_⟩
  have hR2 : 2 ≤ R := le_of_max_le_right hR
  have hNp : 0 < N := by omega
  have hNr : (0 : ℝ) < N := by exact_mod_cast hNp
  have hrN : 0 < √(N : ℝ) := Real.sqrt_pos.mpr hNr
  have hrN2 : √(N : ℝ) * √N = N := Real.mul_self_sqrt hNr.le
  have hx := fun a => hNx a N ((Finset.le_sup (Finset.mem_univ a)).trans ((le_max_left _ _).trans (le_of_max_le_right hN)))
  have hy := fun a => hNy a N ((Finset.le_sup (Finset.mem_univ a)).trans ((le_max_right _ _).trans (le_of_max_le_right hN)))
    R (by omega) w hw
  have hsd3 := hsd2 N ((le_max_right _ _).trans (le_of_max_le_left hN)) R (le_of_max_le_left hR) w hw
  let x : Ω → Fin 5 → ℝ := fun ω a => rowMean (firstRows Z N ω) (F a)
  let y : Ω → Fin 5 → Fin R → ℝ := fun ω a r => (∑ i, F a (Z (w ω r i) ω)) / N
  let bx : Set Ω := ⋃ a ∈ (Finset.univ : Finset (Fin 5)), {ω | min ηd (ε / 80) ≤ N * rowMean (firstRows Z N ω) (F a) ^ 4}
  let bY : Set Ω := ⋃ a ∈ (Finset.univ : Finset (Fin 5)), {ω | min ηd (ε / 80) ≤
    (∑ r, N * ((∑ i, F a (Z (w ω r i) ω)) / N - rowMean (firstRows Z N ω) (F a)) ^ 4) / R}
  let bs : Set Ω := {ω | min η' (ε / 16) ≤ |√(N * drawVar fun r => (∑ i, F 0 (Z (w ω r i) ω)) / N) - s|}
  have hbx : P.real bx ≤ 5 * (ε / 80) := by
    refine (measureReal_biUnion_finset_le _ _).trans ((Finset.sum_le_card_nsmul _ _ _ fun a _ =>
      (hx a).trans (min_le_right _ _)).trans (le_of_eq ?_))
    rw [nsmul_eq_mul, Finset.card_univ, Fintype.card_fin]
    norm_num
  have hbY : P.real bY ≤ 5 * (ε / 80) := by
    refine (measureReal_biUnion_finset_le _ _).trans ((Finset.sum_le_card_nsmul _ _ _ fun a _ =>
      (hy a).trans (min_le_right _ _)).trans (le_of_eq ?_))
    rw [nsmul_eq_mul, Finset.card_univ, Fintype.card_fin]
    norm_num
  have hbs : P.real bs ≤ ε / 16 := hsd3.trans (min_le_right _ _)
  refine hclt N ((le_max_left _ _).trans (le_of_max_le_left hN))
    (fun ω => √N * ratioErr V θ (x ω 0) (x ω 1) (x ω 2) (x ω 3) (x ω 4) / s)
    (fun ω => z * √(N * drawVar fun r => ratioErr V θ (y ω 0 r) (y ω 1 r) (y ω 2 r) (y ω 3 r) (x ω 4)) / s)
    cov (bx ∪ bY ∪ bs) ?_ fun ω hω => ?_
  · have h1 := measureReal_union_le (μ := P) (bx ∪ bY) bs
    have h2 := measureReal_union_le (μ := P) bx bY
    linarith
  · rw [Set.mem_union, Set.mem_union, not_or, not_or] at hω
    have gx : ∀ a, N * x ω a ^ 4 < ηd := by
      intro a
      refine lt_of_lt_of_le (lt_of_not_ge fun h => hω.1.1 (Set.mem_biUnion (Finset.mem_univ a) ?_)) (min_le_left ηd (ε / 80))
      exact h
    have gy : ∀ a, (∑ r, N * (y ω a r - x ω a) ^ 4) / R < ηd := by
      intro a
      refine lt_of_lt_of_le (lt_of_not_ge fun h => hω.1.2 (Set.mem_biUnion (Finset.mem_univ a) ?_)) (min_le_left ηd (ε / 80))
      exact h
    have gs : |√(N * drawVar (y ω 0)) - s| < η' :=
      lt_of_lt_of_le (lt_of_not_ge fun h => hω.2 h) (min_le_left η' (ε / 16))
    obtain ⟨d1, d2, d3, d4⟩ := hdet N R hR2 hRN (x ω) (y ω) gx gy
    refine ⟨?_, ?_, ?_⟩
    · rw [hcov ω (x ω) (y ω) (fun _ => rfl) (fun _ _ => rfl) d1 d2]
      beta_reduce
      rw [abs_div, abs_mul, abs_of_pos hrN, abs_of_pos hs0, div_le_div_iff_of_pos_right hs0, Real.sqrt_mul hNr.le]
      rw [show ∀ a : ℝ, z * (√N * a) = √N * (z * a) from fun a => by ring]
      exact (mul_le_mul_iff_right₀ hrN).symm
    · have e : (√N)⁻¹ * ∑ k ∈ Finset.range N, X k ω = √N * x ω 0 / s := by
        show (√N)⁻¹ * ∑ k ∈ Finset.range N, F 0 (Z k ω) / s = √N * rowMean (firstRows Z N ω) (F 0) / s
        rw [rowMean_firstRows, ← Finset.sum_div]
        field_simp
        rw [sq, hrN2, mul_comm]
      beta_reduce
      rw [e, ← sub_div, ← mul_sub, abs_div, abs_mul, abs_of_pos hrN, abs_of_pos hs0, div_le_iff₀ hs0]
      refine d3.trans ?_
      rw [hη', div_le_iff₀ (by positivity)]
      have := mul_pos hη hs0
      nlinarith
    · beta_reduce
      rw [show z * √(N * drawVar fun r => ratioErr V θ (y ω 0 r) (y ω 1 r) (y ω 2 r) (y ω 3 r) (x ω 4)) / s - z =
        z / s * (√(N * drawVar fun r => ratioErr V θ (y ω 0 r) (y ω 1 r) (y ω 2 r) (y ω 3 r) (x ω 4)) - s) from by field_simp,
        abs_mul, abs_of_pos (div_pos hz hs0)]
      have h1 : |√(N * drawVar fun r => ratioErr V θ (y ω 0 r) (y ω 1 r) (y ω 2 r) (y ω 3 r) (x ω 4)) - s| ≤ 2 * η' := by
        have q1 := abs_le.mp d4
        have q2 := abs_lt.mp gs
        rw [abs_le]
        constructor <;> linarith
      refine (mul_le_mul_of_nonneg_left h1 (div_pos hz hs0).le).trans ?_
      rw [hη']
      have : z / s * (2 * (s * η / (2 * (1 + z)))) = z * η / (1 + z) := by field_simp
      rw [this, div_le_iff₀ (by positivity)]
      nlinarith

end rows

end SALib
