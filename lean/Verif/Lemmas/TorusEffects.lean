import Verif.Lemmas.TorusSpectrum
import Verif.Spec.FastMeaning
import Mathlib.MeasureTheory.Integral.IntervalIntegral.Periodic
import Mathlib.MeasureTheory.Integral.DominatedConvergence

/-! # Variances of a trigonometric polynomial of two angles -/

namespace SALib

open Real Finset Spec

theorem integral_sum_tw1 {β : Type} (S : Finset β) (d : β → ℂ) (x y : β → ℤ) (b : ℝ) :
    ∫ a in (0 : ℝ)..1, ∑ s ∈ S, d s * tw (x s * a + y s * b) =
      ∑ s ∈ S.filter fun s => x s = 0, d s * tw (y s * b) := by
  have e : ∀ a : ℝ, ∑ s ∈ S, d s * tw (x s * a + y s * b) = ∑ s ∈ S, d s * tw (y s * b + x s * a) := by
    intro b; refine Finset.sum_congr rfl fun s _ => ?_; rw [add_comm]
  simp_rw [e]
  exact integral_sum_tw2 S d y x b

/-- The three variances from the coefficients. -/
theorem torus_parts (A : Finset (ℤ × ℤ)) (h0 : (0 : ℤ × ℤ) ∈ A) (c : ℤ × ℤ → ℂ) (G : ℝ → ℝ → ℝ)
    (hG : ∀ a b, (G a b : ℂ) = ∑ q ∈ A, c q * tw (q.1 * a + q.2 * b)) :
    varIT G = ∑ q ∈ A.filter (· ≠ 0), ‖c q‖ ^ 2 ∧
    inputPart G = ∑ q ∈ (A.filter (· ≠ 0)).filter (·.2 = 0), ‖c q‖ ^ 2 ∧
    timePart G = ∑ q ∈ (A.filter (· ≠ 0)).filter (·.1 = 0), ‖c q‖ ^ 2 := by
  have hsplit : ∀ (S : Finset (ℤ × ℤ)) (g : ℤ × ℤ → ℂ), (0 : ℤ × ℤ) ∈ S →
      ∑ q ∈ S, g q - g 0 = ∑ q ∈ S.filter (· ≠ 0), g q := by
    intro S g hS
    rw [Finset.filter_ne', ← Finset.add_sum_erase S g hS]
    ring
  have hmean : ((meanIT G : ℝ) : ℂ) = c 0 := by
    unfold meanIT
    rw [← intervalIntegral.integral_ofReal]
    simp_rw [← intervalIntegral.integral_ofReal, hG]
    rw [integral_integral_tw, Finset.sum_eq_single_of_mem 0]
    · simp [h0]
    · intro q hq hne
      exact absurd (Prod.ext (Finset.mem_filter.mp hq).2.2 (Finset.mem_filter.mp hq).2.1) hne
  refine ⟨?_, ?_, ?_⟩
  · unfold varIT
    apply integral_integral_sq_tw
    intro a b
    push_cast
    rw [hG, hmean, ← hsplit A (fun q => c q * tw (q.1 * a + q.2 * b)) h0]
    simp [tw_zero]
  · unfold inputPart
    refine integral_sq_tw _ c (fun q => q.1) ?_ (fun a => (∫ t in (0 : ℝ)..1, G a t) - meanIT G) fun a => ?_
    · intro q hq q' hq' h
      have h1 := (Finset.mem_filter.mp hq).2
      have h2 := (Finset.mem_filter.mp hq').2
      exact Prod.ext h (h1.trans h2.symm)
    · push_cast
      rw [← intervalIntegral.integral_ofReal]
      simp_rw [hG]
      rw [integral_sum_tw2 A c (fun q => q.1) (fun q => q.2) a, hmean]
      rw [Finset.filter_comm, ← hsplit _ (fun q => c q * tw (q.1 * a)) (by simp [h0])]
      simp [tw_zero]
  · unfold timePart
    refine integral_sq_tw _ c (fun q => q.2) ?_ (fun b => (∫ x in (0 : ℝ)..1, G x b) - meanIT G) fun b => ?_
    · intro q hq q' hq' h
      have h1 := (Finset.mem_filter.mp hq).2
      have h2 := (Finset.mem_filter.mp hq').2
      exact Prod.ext (h1.trans h2.symm) h
    · push_cast
      rw [← intervalIntegral.integral_ofReal]
      simp_rw [hG]
      rw [integral_sum_tw1 A c (fun q => q.1) (fun q => q.2) b, hmean]
      rw [Finset.filter_comm, ← hsplit _ (fun q => c q * tw (q.2 * b)) (by simp [h0])]
      simp [tw_zero]

/-- A function of an angle that is symmetric about a quarter turn: half a turn is enough. -/
theorem integral_half_turn (φ : ℝ → ℝ) (hc : Continuous φ) (hp : Function.Periodic φ 1) (hs : ∀ a, φ (1 / 2 - a) = φ a) :
    ∫ x in (0 : ℝ)..1, φ (x / 2 - 1 / 4) = ∫ a in (0 : ℝ)..1, φ a := by
  have hi : ∀ a b, IntervalIntegrable φ MeasureTheory.volume a b := fun a b => hc.intervalIntegrable a b
  have h1 : ∫ x in (0 : ℝ)..1, φ (x / 2 - 1 / 4) = 2 * ∫ a in (-1 / 4 : ℝ)..1 / 4, φ a := by
    have := intervalIntegral.integral_comp_div_sub (a := (0 : ℝ)) (b := 1) φ (two_ne_zero' ℝ) (1 / 4)
    rw [this, smul_eq_mul]
    norm_num
  have h2 : ∫ a in (1 / 4 : ℝ)..3 / 4, φ a = ∫ a in (-1 / 4 : ℝ)..1 / 4, φ a := by
    have := intervalIntegral.integral_comp_sub_left (a := (-1 / 4 : ℝ)) (b := 1 / 4) φ (1 / 2)
    simp_rw [hs] at this
    rw [this]
    norm_num
  have h3 : ∫ a in (0 : ℝ)..1, φ a = ∫ a in (-1 / 4 : ℝ)..3 / 4, φ a := by
    have := hp.intervalIntegral_add_eq 0 (-1 / 4)
    norm_num at this ⊢
    exact this
  rw [h1, h3, ← intervalIntegral.integral_add_adjacent_intervals (hi (-1 / 4) (1 / 4)) (hi (1 / 4) (3 / 4)), h2]
  ring

/-- Functions of an input and of the angle on which the input is the folded curve have the same variances. -/
theorem parts_fold (G : ℝ → ℝ → ℝ) (hc : Continuous (Function.uncurry G)) (hp : ∀ b, Function.Periodic (fun a => G a b) 1)
    (hs : ∀ a b, G (1 / 2 - a) b = G a b) (F : ℝ → ℝ → ℝ) (hF : ∀ x t, F x t = G (x / 2 - 1 / 4) t) :
    meanIT F = meanIT G ∧ varIT F = varIT G ∧ inputPart F = inputPart G ∧ timePart F = timePart G := by
  have hp' : ∀ a b, G (a + 1) b = G a b := fun a b => hp b a
  have hmean : meanIT F = meanIT G := by
    unfold meanIT
    simp_rw [hF]
    refine integral_half_turn (fun a => ∫ t in (0 : ℝ)..1, G a t) ?_ (fun a => ?_) (fun a => ?_)
    · exact intervalIntegral.continuous_parametric_intervalIntegral_of_continuous' hc 0 1
    · beta_reduce; simp_rw [hp']
    · beta_reduce; simp_rw [hs]
  refine ⟨hmean, ?_, ?_, ?_⟩
  · unfold varIT
    rw [hmean]
    simp_rw [hF]
    refine integral_half_turn (fun a => ∫ t in (0 : ℝ)..1, (G a t - meanIT G) ^ 2) ?_ (fun a => ?_) (fun a => ?_)
    · refine intervalIntegral.continuous_parametric_intervalIntegral_of_continuous' ?_ 0 1
      exact (hc.sub continuous_const).pow 2
    · beta_reduce; simp_rw [hp']
    · beta_reduce; simp_rw [hs]
  · unfold inputPart
    rw [hmean]
    simp_rw [hF]
    refine integral_half_turn (fun a => ((∫ t in (0 : ℝ)..1, G a t) - meanIT G) ^ 2) ?_ (fun a => ?_) (fun a => ?_)
    · exact ((intervalIntegral.continuous_parametric_intervalIntegral_of_continuous' hc 0 1).sub continuous_const).pow 2
    · beta_reduce; simp_rw [hp']
    · beta_reduce; simp_rw [hs]
  · unfold timePart
    rw [hmean]
    simp_rw [hF]
    have : ∀ t, ∫ x in (0 : ℝ)..1, G (x / 2 - 1 / 4) t = ∫ x in (0 : ℝ)..1, G x t := fun t =>
      integral_half_turn (fun a => G a t) (hc.comp (by fun_prop : Continuous fun a : ℝ => (a, t))) (hp t) (fun a => hs a t)
    simp_rw [this]

end SALib
