import Mathlib.Analysis.SpecialFunctions.Complex.LogBounds
import Mathlib.Analysis.Complex.Exponential
import Mathlib.Analysis.SpecificLimits.Basic

/-! # The characteristic function of a bootstrap mean -/

namespace SALib
open Filter Topology Complex

theorem exp_third (x : ℝ) (hx : |x| ≤ 1) : ‖exp (x * I) - (1 + x * I - x ^ 2 / 2)‖ ≤ |x| ^ 3 := by
  have hn : ‖(x * I : ℂ)‖ = |x| := by simp
  have h := Complex.exp_bound (x := (x * I : ℂ)) (by rw [hn]; exact hx) (n := 3) (by norm_num)
  rw [hn] at h
  have e : ∑ m ∈ Finset.range 3, (x * I : ℂ) ^ m / (m.factorial : ℂ) = 1 + x * I - x ^ 2 / 2 := by
    simp only [Finset.sum_range_succ, Finset.sum_range_zero, Nat.factorial]
    rw [mul_pow (x : ℂ) I 2, I_sq]
    push_cast
    ring
  rw [e] at h
  refine h.trans ?_
  have : (0 : ℝ) ≤ |x| ^ 3 := by positivity
  norm_num [Nat.factorial]
  linarith

/-- The characteristic function of the centred and scaled mean of `N` draws with replacement from the first `N` numbers. -/
theorem bootstrap_char (x : ℕ → ℝ) (H : ℝ) (hH : ∀ i, |x i| ≤ H) (v : ℝ)
    (hv : Tendsto (fun N : ℕ => (∑ j ∈ Finset.range N, (x j - (∑ k ∈ Finset.range N, x k) / N) ^ 2) / N) atTop (𝓝 v)) (t : ℝ) :
    Tendsto (fun N : ℕ => ((∑ j ∈ Finset.range N, exp (((√N)⁻¹ * t * (x j - (∑ k ∈ Finset.range N, x k) / N) : ℝ) * I)) / N) ^ N) atTop
      (𝓝 (exp (-(t ^ 2 * v / 2) : ℝ))) := by
  set d : ℕ → ℕ → ℝ := fun N j => x j - (∑ k ∈ Finset.range N, x k) / N with hd
  have hH0 : 0 ≤ H := (abs_nonneg _).trans (hH 0)
  have hdb : ∀ N j, |d N j| ≤ 2 * H := by
    intro N j
    have h1 : |(∑ k ∈ Finset.range N, x k) / N| ≤ H := by
      rw [abs_div, Nat.abs_cast]
      refine div_le_of_le_mul₀ (Nat.cast_nonneg _) hH0 ((Finset.abs_sum_le_sum_abs _ _).trans ((Finset.sum_le_card_nsmul _ _ H fun k _ => hH k).trans ?_))
      rw [Finset.card_range, nsmul_eq_mul, mul_comm]
    have := abs_sub (x j) ((∑ k ∈ Finset.range N, x k) / N)
    have := hH j
    show |x j - _| ≤ _
    linarith
  have hd0 : ∀ N, ∑ j ∈ Finset.range N, d N j = 0 := by
    intro N
    simp only [hd, Finset.sum_sub_distrib, Finset.sum_const, Finset.card_range, nsmul_eq_mul]
    rcases N.eq_zero_or_pos with h | h
    · simp [h]
    · have : (N : ℝ) ≠ 0 := by exact_mod_cast h.ne'
      field_simp
      ring
  let g : ℕ → ℂ := fun N => (∑ j ∈ Finset.range N, (exp (((√N)⁻¹ * t * d N j : ℝ) * I) - 1)) / N
  have key : Tendsto (fun N : ℕ => (N : ℂ) * g N) atTop (𝓝 ((-(t ^ 2 * v / 2) : ℝ) : ℂ)) := by
    have h1 : Tendsto (fun N : ℕ => ((-(t ^ 2 * ((∑ j ∈ Finset.range N, d N j ^ 2) / N) / 2) : ℝ) : ℂ)) atTop
        (𝓝 ((-(t ^ 2 * v / 2) : ℝ) : ℂ)) :=
      (continuous_ofReal.tendsto _).comp (((hv.const_mul (t ^ 2)).div_const 2).neg)
    have hs : Tendsto (fun N : ℕ => (√(N : ℝ))⁻¹) atTop (𝓝 0) :=
      tendsto_inv_atTop_zero.comp (Real.tendsto_sqrt_atTop.comp tendsto_natCast_atTop_atTop)
    have h2 : Tendsto (fun N : ℕ => (N : ℂ) * g N - ((-(t ^ 2 * ((∑ j ∈ Finset.range N, d N j ^ 2) / N) / 2) : ℝ) : ℂ)) atTop (𝓝 0) := by
      have hC : Tendsto (fun N : ℕ => (√(N : ℝ))⁻¹ * (|t| * (2 * H)) ^ 3) atTop (𝓝 0) := by
        simpa using hs.mul_const ((|t| * (2 * H)) ^ 3)
      have hsm : ∀ᶠ N : ℕ in atTop, (√(N : ℝ))⁻¹ * (|t| * (2 * H)) ≤ 1 := by
        have := hs.mul_const (|t| * (2 * H))
        rw [zero_mul] at this
        exact (this.eventually (gt_mem_nhds one_pos)).mono fun N h => h.le
      refine squeeze_zero_norm' ?_ hC
      filter_upwards [hsm, eventually_gt_atTop 0] with N hN hp
      have hNr : (0 : ℝ) < N := by exact_mod_cast hp
      have hNc : (N : ℂ) ≠ 0 := by exact_mod_cast hp.ne'
      set a := (√(N : ℝ))⁻¹ with ha
      have ha0 : 0 ≤ a := by positivity
      have ha2 : a ^ 2 = (N : ℝ)⁻¹ := by rw [ha, inv_pow, Real.sq_sqrt hNr.le]
      have e : (N : ℂ) * g N - ((-(t ^ 2 * ((∑ j ∈ Finset.range N, d N j ^ 2) / N) / 2) : ℝ) : ℂ) =
          ∑ j ∈ Finset.range N, (exp ((a * t * d N j : ℝ) * I) - (1 + (a * t * d N j : ℝ) * I - ((a * t * d N j : ℝ) : ℂ) ^ 2 / 2)) := by
        have e1 : (N : ℂ) * g N = ∑ j ∈ Finset.range N, (exp ((a * t * d N j : ℝ) * I) - 1) := by
          show (N : ℂ) * ((∑ j ∈ Finset.range N, (exp ((a * t * d N j : ℝ) * I) - 1)) / N) = _
          exact mul_div_cancel₀ _ hNc
        have e2 : ∑ j ∈ Finset.range N, ((a * t * d N j : ℝ) : ℂ) * I = 0 := by
          rw [← Finset.sum_mul, ← ofReal_sum, ← Finset.mul_sum, hd0]
          simp
        have e3 : ∑ j ∈ Finset.range N, ((a * t * d N j : ℝ) : ℂ) ^ 2 / 2 =
            ((t ^ 2 * ((∑ j ∈ Finset.range N, d N j ^ 2) / N) / 2 : ℝ) : ℂ) := by
          rw [← Finset.sum_div]
          simp only [← ofReal_pow]
          rw [← ofReal_sum]
          have : ∑ j ∈ Finset.range N, (a * t * d N j) ^ 2 = t ^ 2 * ((∑ j ∈ Finset.range N, d N j ^ 2) / N) := by
            simp only [mul_pow, ha2]
            rw [← Finset.mul_sum]
            field_simp
          rw [this]
          push_cast
          ring
        rw [e1]
        simp only [Finset.sum_sub_distrib, Finset.sum_add_distrib]
        rw [e2, e3]
        push_cast
        ring
      rw [e]
      refine (norm_sum_le _ _).trans ((Finset.sum_le_card_nsmul _ _ (a ^ 3 * (|t| * (2 * H)) ^ 3) fun j _ => ?_).trans (le_of_eq ?_))
      · have hab : |a * t * d N j| ≤ a * (|t| * (2 * H)) := by
          rw [abs_mul, abs_mul, abs_of_nonneg ha0, mul_assoc]
          exact mul_le_mul_of_nonneg_left (mul_le_mul_of_nonneg_left (hdb N j) (abs_nonneg t)) ha0
        refine (exp_third _ (hab.trans hN)).trans ?_
        rw [← mul_pow]
        exact pow_le_pow_left₀ (abs_nonneg _) hab 3
      · rw [Finset.card_range, nsmul_eq_mul, show a ^ 3 = a * a ^ 2 by ring, ha2]
        field_simp
    have := h2.add h1
    simpa using this
  refine (Complex.tendsto_one_add_pow_exp_of_tendsto key).congr' ?_
  filter_upwards [eventually_gt_atTop 0] with N hp
  have hNc : (N : ℂ) ≠ 0 := by exact_mod_cast hp.ne'
  congr 1
  show 1 + (∑ j ∈ Finset.range N, (exp (((√N)⁻¹ * t * d N j : ℝ) * I) - 1)) / N = _
  rw [Finset.sum_sub_distrib, Finset.sum_const, Finset.card_range, nsmul_eq_mul, mul_one, sub_div, div_self hNc]
  exact add_sub_cancel _ _

end SALib
