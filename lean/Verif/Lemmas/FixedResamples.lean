import Verif.Lemmas.StudentLimit

/-! # Bootstrap intervals around quotients of means, with many and with a fixed number of resamples -/

namespace SALib
open MeasureTheory ProbabilityTheory Filter Topology Spec

theorem drawVar_affine {R : Nat} (hR : 0 < R) (x : Fin R → ℝ) (c m : ℝ) : (drawVar fun r => c * (x r - m)) = c ^ 2 * drawVar x := by
  have hRr : (R : ℝ) ≠ 0 := by exact_mod_cast hR.ne'
  unfold drawVar
  rw [mul_div_assoc', Finset.mul_sum]
  congr 1
  refine Finset.sum_congr rfl fun r _ => ?_
  rw [← Finset.mul_sum, Finset.sum_sub_distrib, Finset.sum_const, Finset.card_univ, Fintype.card_fin, nsmul_eq_mul]
  field_simp
  ring

/-- Events `cov` with `C N R w cov` have nearly the normal probability of `z` when rows and resamples are many, and nearly the Student
probability when rows are many and the number of resamples is fixed. -/
structure CoverageLimits {β Ω : Type} [MeasurableSpace β] [MeasurableSpace Ω] (P : Measure Ω) (Z : ℕ → Ω → β) (z ε : ℝ)
    (C : (N R : Nat) → (Ω → Fin R → Fin N → Fin N) → Set Ω → Prop) : Prop where
  many : ∃ N0 R0, ∀ N ≥ N0, ∀ R ≥ R0, R ≤ N → ∀ w : Ω → Fin R → Fin N → Fin N, FreshResample P Z N R w → ∀ cov : Set Ω,
    C N R w cov → |P.real cov - normalWithin z| < ε
  fixed : ∀ R ≥ 2, ∃ N0, ∀ N ≥ N0, ∀ w : Ω → Fin R → Fin N → Fin N, FreshResample P Z N R w → ∀ cov : Set Ω,
    C N R w cov → |P.real cov - studentWithin R z| < ε

theorem CoverageLimits.mono {β Ω : Type} [MeasurableSpace β] [MeasurableSpace Ω] {P : Measure Ω} {Z : ℕ → Ω → β} {z ε : ℝ}
    {C C' : (N R : Nat) → (Ω → Fin R → Fin N → Fin N) → Set Ω → Prop} (h : CoverageLimits P Z z ε C)
    (hC : ∀ N R, 0 < N → 2 ≤ R → ∀ w cov, C' N R w cov → C N R w cov) : CoverageLimits P Z z ε C' := by
  constructor
  · obtain ⟨N0, R0, h⟩ := h.many
    exact ⟨max N0 1, max R0 2, fun N hN R hR hRN w hw cov hcov => h N (le_of_max_le_left hN) R (le_of_max_le_left hR) hRN w hw cov
      (hC N R (le_of_max_le_right hN) (le_of_max_le_right hR) w cov hcov)⟩
  · intro R hR
    obtain ⟨N0, h⟩ := h.fixed R hR
    exact ⟨max N0 1, fun N hN w hw cov hcov => h N (le_of_max_le_left hN) w hw cov (hC N R (le_of_max_le_right hN) hR w cov hcov)⟩

section rows

variable {β Ω : Type} [MeasurableSpace β] [MeasurableSpace Ω] {P : Measure Ω} {law : Measure β} {Z : ℕ → Ω → β}
  (hm : ∀ i, Measurable (Z i)) (hlaw : ∀ i, Measure.map (Z i) P = law) (hind : iIndepFun Z P)
include hm hlaw hind

/-- Intervals around a quotient of means of `N` rows, with `z` times the standard deviation of the quotients of `R` resamples as
half width: the limits of the coverage. -/
theorem ratio_limits (F : Fin 5 → β → ℝ) (mF : ∀ a, Measurable (F a)) (F0 : ∀ a, ∫ p, F a p ∂law = 0) (H : ℝ)
    (hb : ∀ a, ∀ᵐ p ∂law, |F a p| ≤ H) (V θ : ℝ) (hV : 0 < V) (hs : 0 < ∫ p, F 0 p ^ 2 ∂law) (z : ℝ) (hz : 0 < z) (ε : ℝ)
    (hε : 0 < ε) :
    CoverageLimits P Z z ε fun N R w cov =>
      ∀ ω (x : Fin 5 → ℝ) (y : Fin 5 → Fin R → ℝ), (∀ a, x a = rowMean (firstRows Z N ω) (F a)) →
        (∀ a r, y a r = (∑ i, F a (Z (w ω r i) ω)) / N) →
        0 < V + x 3 - x 2 ^ 2 → (∀ r, 0 < V + y 3 r - y 2 r ^ 2) →
        (ω ∈ cov ↔ |ratioErr V θ (x 0) (x 1) (x 2) (x 3) (x 4)| ≤
          z * √(drawVar fun r => ratioErr V θ (y 0 r) (y 1 r) (y 2 r) (y 3 r) (x 4))) := by
  refine ⟨ratio_coverage hm hlaw hind F mF F0 H hb V θ hV hs z hz ε hε, fun R hR2 => ?_⟩
  have hP : IsProbabilityMeasure P := hind.isProbabilityMeasure
  set s := √(∫ p, F 0 p ^ 2 ∂law) with hsd
  have hs0 : 0 < s := Real.sqrt_pos.mpr hs
  have hs2 : s ^ 2 = ∫ p, F 0 p ^ 2 ∂law := Real.sq_sqrt hs.le
  have c0 : ∫ p, F 0 p / s ∂law = 0 := by rw [integral_div, F0, zero_div]
  have c1 : ∫ p, (F 0 p / s) ^ 2 ∂law = 1 := by
    simp only [div_pow]
    rw [integral_div, hs2, div_self hs.ne']
  obtain ⟨η, hη, N1, hclt⟩ := student_perturbed hm hlaw hind (fun p => F 0 p / s) (fun p => F 0 p / s) ((mF 0).div_const s)
    ((mF 0).div_const s) c0 c1 c0 c1 (H / s)
    ((hb 0).mono fun p hp => by
      rw [abs_div, abs_of_pos hs0]
      exact div_le_div_of_nonneg_right hp hs0.le) R z ε hε
  set η' := s * η / (1 + z) with hη'
  have hη'0 : 0 < η' := by positivity
  obtain ⟨ηd, hηd, hdet⟩ := ratio_det V θ η' hV hη'0
  have hη3 : 0 < min ηd (ε / 80) := by positivity
  choose Nx hNx using fun a => mean_four_rare hm hlaw hind (F a) (mF a) (F0 a) H (hb a) _ hη3
  choose Ny hNy using fun a => boot_four_rows hm hlaw hind (F a) (mF a) H (hb a) _ hη3
  refine ⟨max (max N1 R) (max (Finset.univ.sup Nx) (Finset.univ.sup Ny)), fun N hN w hw cov hcov => ?_⟩
  have hRN : R ≤ N := (le_max_right _ _).trans (le_of_max_le_left hN)
  have hNp : 0 < N := by omega
  have hNr : (0 : ℝ) < N := by exact_mod_cast hNp
  have hrN : 0 < √(N : ℝ) := Real.sqrt_pos.mpr hNr
  have hrN2 : √(N : ℝ) * √N = N := Real.mul_self_sqrt hNr.le
  have hx := fun a => hNx a N ((Finset.le_sup (Finset.mem_univ a)).trans ((le_max_left _ _).trans (le_of_max_le_right hN)))
  have hy := fun a => hNy a N ((Finset.le_sup (Finset.mem_univ a)).trans ((le_max_right _ _).trans (le_of_max_le_right hN)))
    R (by omega) w hw
  let x : Ω → Fin 5 → ℝ := fun ω a => rowMean (firstRows Z N ω) (F a)
  let y : Ω → Fin 5 → Fin R → ℝ := fun ω a r => (∑ i, F a (Z (w ω r i) ω)) / N
  let bx : Set Ω := ⋃ a ∈ (Finset.univ : Finset (Fin 5)), {ω | min ηd (ε / 80) ≤ N * rowMean (firstRows Z N ω) (F a) ^ 4}
  let bY : Set Ω := ⋃ a ∈ (Finset.univ : Finset (Fin 5)), {ω | min ηd (ε / 80) ≤
    (∑ r, N * ((∑ i, F a (Z (w ω r i) ω)) / N - rowMean (firstRows Z N ω) (F a)) ^ 4) / R}
  have hbx : P.real bx ≤ 5 * (ε / 80) := by
    refine (measureReal_biUnion_finset_le _ _).trans ((Finset.sum_le_card_nsmul _ _ _ fun a _ =>
      (hx a).trans (min_le_right _ _)).trans (le_of_eq ?_))
    rw [nsmul_eq_mul, Finset.card_univ, Fintype.card_fin]
    norm_num
  have hbY : P.real bY ≤ 5 * (ε / 80) := by
    refine (measureReal_biUnion_finset_le _ _).trans ((Finset.sum_le_card_nsmul _ _ _ fun a _ =>
      (hy a).trans (min_le_right _ _)).trans (le_of_eq ?_))
    rw [nsmul_eq_mul, Finset.card_univ, Fintype.card_fin]
    norm_num
  refine hclt N ((le_max_left _ _).trans (le_of_max_le_left hN)) w hw
    (fun ω => √N * ratioErr V θ (x ω 0) (x ω 1) (x ω 2) (x ω 3) (x ω 4) / s)
    (fun ω => z * √(N * drawVar fun r => ratioErr V θ (y ω 0 r) (y ω 1 r) (y ω 2 r) (y ω 3 r) (x ω 4)) / s)
    cov (bx ∪ bY) ?_ fun ω hω => ?_
  · have h2 := measureReal_union_le (μ := P) bx bY
    linarith
  · rw [Set.mem_union, not_or] at hω
    have gx : ∀ a, N * x ω a ^ 4 < ηd := by
      intro a
      refine lt_of_lt_of_le (lt_of_not_ge fun h => hω.1 (Set.mem_biUnion (Finset.mem_univ a) ?_)) (min_le_left ηd (ε / 80))
      exact h
    have gy : ∀ a, (∑ r, N * (y ω a r - x ω a) ^ 4) / R < ηd := by
      intro a
      refine lt_of_lt_of_le (lt_of_not_ge fun h => hω.2 (Set.mem_biUnion (Finset.mem_univ a) ?_)) (min_le_left ηd (ε / 80))
      exact h
    obtain ⟨d1, d2, d3, d4⟩ := hdet N R hR2 hRN (x ω) (y ω) gx gy
    have hsum : ∑ k : Fin N, F 0 (Z k ω) = N * x ω 0 := by
      show _ = N * rowMean (firstRows Z N ω) (F 0)
      rw [rowMean_firstRows, mul_div_cancel₀ _ hNr.ne', Finset.sum_range]
    have e0 : bootVec (fun p => F 0 p / s) (fun p => F 0 p / s) (fun i : Fin N => Z i ω) (w ω) 0 = √N * x ω 0 / s := by
      show (√N)⁻¹ * ∑ i : Fin N, F 0 (Z i ω) / s = _
      rw [← Finset.sum_div, hsum]
      field_simp
      rw [sq, hrN2, mul_comm]
    have er : ∀ r : Fin R, bootVec (fun p => F 0 p / s) (fun p => F 0 p / s) (fun i : Fin N => Z i ω) (w ω) r.succ = √N / s * (y ω 0 r - x ω 0) := by
      intro r
      show (√N)⁻¹ * ∑ i : Fin N, (F 0 (Z (w ω r i) ω) / s - (∑ k : Fin N, F 0 (Z k ω) / s) / N) = _
      have hy0 : ∑ i : Fin N, F 0 (Z (w ω r i) ω) = N * y ω 0 r := by
        show _ = N * ((∑ i, F 0 (Z (w ω r i) ω)) / N)
        rw [mul_div_cancel₀ _ hNr.ne']
      rw [Finset.sum_sub_distrib, Finset.sum_const, Finset.card_univ, Fintype.card_fin, nsmul_eq_mul, ← Finset.sum_div,
        ← Finset.sum_div, hsum, hy0]
      field_simp
      rw [sq, hrN2]
    refine ⟨?_, ?_, ?_⟩
    · rw [hcov ω (x ω) (y ω) (fun _ => rfl) (fun _ _ => rfl) d1 d2]
      beta_reduce
      rw [abs_div, abs_mul, abs_of_pos hrN, abs_of_pos hs0, div_le_div_iff_of_pos_right hs0, Real.sqrt_mul hNr.le]
      rw [show ∀ a : ℝ, z * (√N * a) = √N * (z * a) from fun a => by ring]
      exact (mul_le_mul_iff_right₀ hrN).symm
    · beta_reduce
      rw [e0, ← sub_div, ← mul_sub, abs_div, abs_mul, abs_of_pos hrN, abs_of_pos hs0, div_le_iff₀ hs0]
      refine d3.trans ?_
      rw [hη', div_le_iff₀ (by positivity)]
      have := mul_pos hη hs0
      nlinarith
    · beta_reduce
      simp only [er]
      rw [drawVar_affine (by omega) (y ω 0), Real.sqrt_mul (sq_nonneg _), Real.sqrt_sq (by positivity)]
      rw [Real.sqrt_mul hNr.le (drawVar (y ω 0))] at d4
      rw [show z * √(N * drawVar fun r => ratioErr V θ (y ω 0 r) (y ω 1 r) (y ω 2 r) (y ω 3 r) (x ω 4)) / s -
        z * (√N / s * √(drawVar (y ω 0))) = z / s * (√(N * drawVar fun r => ratioErr V θ (y ω 0 r) (y ω 1 r) (y ω 2 r) (y ω 3 r) (x ω 4)) -
          √N * √(drawVar (y ω 0))) from by field_simp, abs_mul, abs_of_pos (div_pos hz hs0)]
      refine (mul_le_mul_of_nonneg_left d4 (div_pos hz hs0).le).trans ?_
      rw [hη']
      have : z / s * (s * η / (1 + z)) = z * η / (1 + z) := by field_simp
      rw [this, div_le_iff₀ (by positivity)]
      nlinarith

end rows

end SALib
