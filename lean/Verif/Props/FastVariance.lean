import Verif.Props.FastAnalyze

/-! # C69: the spectral variance used by eFAST is the output variance (odd block length) -/

namespace SALib
open Spec Real

theorem sum_Icc_one {β : Type} [AddCommMonoid β] (f : Nat → β) (h : Nat) :
    ∑ k ∈ Finset.Icc 1 h, f k = ∑ j ∈ Finset.range h, f (j + 1) := by
  induction h with
  | zero => simp
  | succ h ih => rw [Finset.sum_Icc_succ_top (by omega), ih, Finset.sum_range_succ]

/-- Splitting a full period into zero, the lower half, the Nyquist frequency and the mirrored half. -/
theorem sum_period (N : Nat) (P : Nat → ℝ) (hN : 0 < N) (hsym : ∀ k ≤ N, P (N - k) = P k) :
    ∑ k ∈ Finset.range N, P k =
      P 0 + 2 * ∑ k ∈ Finset.Icc 1 ((N - 1) / 2), P k + if N % 2 = 0 then P (N / 2) else 0 := by
  have hrefl : ∀ m h, m + h = N → m = N - h → 1 ≤ m → ∑ i ∈ Finset.range h, P (m + i) = ∑ j ∈ Finset.range h, P (j + 1) := by
    intro m h hmh _ hm
    rw [← Finset.sum_range_reflect]
    apply Finset.sum_congr rfl
    intro j hj
    have hj' := Finset.mem_range.mp hj
    rw [← hsym (j + 1) (by omega)]
    congr 1
    omega
  rw [sum_Icc_one]
  rcases Nat.even_or_odd' N with ⟨c, hc | hc⟩
  · obtain ⟨h, rfl⟩ : ∃ h, c = h + 1 := ⟨c - 1, by omega⟩
    rw [if_pos (by omega), show (N - 1) / 2 = h by omega, show N / 2 = h + 1 by omega]
    have e : Finset.range N = Finset.range ((h + 2) + h) := by congr 1; omega
    rw [e, Finset.sum_range_add, hrefl (h + 2) h (by omega) (by omega) (by omega),
      Finset.sum_range_succ, Finset.sum_range_succ']
    ring
  · rw [if_neg (by omega), show (N - 1) / 2 = c by omega]
    have e : Finset.range N = Finset.range ((c + 1) + c) := by congr 1; omega
    rw [e, Finset.sum_range_add, hrefl (c + 1) c (by omega) (by omega) (by omega), Finset.sum_range_succ']
    ring

theorem sum_map_getD (y : List ℝ) (f : ℝ → ℝ) :
    (y.map f).sum = ∑ n ∈ Finset.range y.length, f (y.getD n 0) := by
  rw [← sum_range_list]
  congr 1
  apply List.ext_getElem
  · simp
  · intro n h1 h2
    simp only [List.length_map] at h1
    simp [h1]

theorem power_zero (N : Nat) (y : Nat → ℝ) : power N y 0 = (∑ n ∈ Finset.range N, y n) ^ 2 := by
  unfold power; simp

theorem power_symm (y : List ℝ) (k : Nat) (hk : k ≤ y.length) :
    power y.length (fun n => y.getD n 0) (y.length - k) = power y.length (fun n => y.getD n 0) k := by
  rw [← norm_fftEntry_sq, ← norm_fftEntry_sq, norm_fftEntry_symm y k hk]

/-- At the Nyquist frequency the Fourier sum is the alternating sum. -/
theorem power_nyquist (N : Nat) (y : Nat → ℝ) (hN : 0 < N) (he : N % 2 = 0) :
    power N y (N / 2) = (∑ n ∈ Finset.range N, (-1) ^ n * y n) ^ 2 := by
  unfold power
  have harg : ∀ n : Nat, 2 * π * ((N / 2 : Nat) : ℝ) * n / N = n * π := by
    intro n
    obtain ⟨c, rfl⟩ : ∃ c, N = 2 * c := ⟨N / 2, by omega⟩
    rw [show 2 * c / 2 = c by omega]
    have : (c : ℝ) ≠ 0 := by
      have : c ≠ 0 := by omega
      exact_mod_cast this
    push_cast
    field_simp
  simp only [harg, sin_nat_mul_pi, cos_nat_mul_pi, mul_zero, Finset.sum_const_zero]
  rw [zero_pow (by norm_num), add_zero]
  congr 1
  exact Finset.sum_congr rfl fun n _ => by ring

/-- **C69**.  The variance `V` by which FAST divides is the variance of the block of outputs when the block
length is odd; for an even block length it is smaller by the contribution of the alternating sum. -/
theorem C69_variance (y : List ℝ) (hN : 0 < y.length) :
    npVar y = some ((2 * totalPower y.length (fun n => y.getD n 0) +
      if y.length % 2 = 0 then (∑ n ∈ Finset.range y.length, (-1) ^ n * y.getD n 0) ^ 2 else 0) /
        (y.length : ℝ) ^ 2) := by
  have hNr : (0 : ℝ) < y.length := by exact_mod_cast hN
  have hpars := parseval y
  rw [Finset.sum_congr rfl fun k _ => norm_fftEntry_sq y k,
    sum_period y.length (power y.length fun n => y.getD n 0) hN (fun k hk => power_symm y k hk), power_zero] at hpars
  have hny : (if y.length % 2 = 0 then power y.length (fun n => y.getD n 0) (y.length / 2) else 0) =
      if y.length % 2 = 0 then (∑ n ∈ Finset.range y.length, (-1) ^ n * y.getD n 0) ^ 2 else 0 := by
    split
    · rw [power_nyquist _ _ hN (by assumption)]
    · rfl
  rw [hny] at hpars
  have ht : totalPower y.length (fun n => y.getD n 0) =
      ∑ k ∈ Finset.Icc 1 ((y.length - 1) / 2), power y.length (fun n => y.getD n 0) k := rfl
  rw [← ht] at hpars
  have hvar : npVar y = some ((y.length * ∑ n ∈ Finset.range y.length, (y.getD n 0) ^ 2 -
      (∑ n ∈ Finset.range y.length, y.getD n 0) ^ 2) / (y.length : ℝ) ^ 2) := by
    have hs : y.sum = ∑ n ∈ Finset.range y.length, y.getD n 0 := by
      have := sum_map_getD y id
      simpa using this
    unfold npVar npMean npDiv
    rw [if_neg hNr.ne']
    simp only [Option.bind_eq_bind, Option.bind_some, List.length_map]
    rw [if_neg hNr.ne', sum_map_getD, hs]
    congr 1
    have : ∀ (m : ℝ), ∑ n ∈ Finset.range y.length, (y.getD n 0 - m) ^ 2 =
        ∑ n ∈ Finset.range y.length, (y.getD n 0) ^ 2 - 2 * m * ∑ n ∈ Finset.range y.length, y.getD n 0
          + y.length * m ^ 2 := by
      intro m
      rw [Finset.mul_sum, ← Finset.sum_sub_distrib]
      have : (y.length : ℝ) * m ^ 2 = ∑ n ∈ Finset.range y.length, m ^ 2 := by simp
      rw [this, ← Finset.sum_add_distrib]
      exact Finset.sum_congr rfl fun n _ => by ring
    rw [this]
    field_simp
    ring
  rw [hvar]
  congr 2
  linarith

/-- **C69** (nan).  For an odd block length the indices are nan exactly when the block of outputs is
constant. -/
theorem C69_nan_iff_constant (y : List ℝ) (hodd : y.length % 2 = 1) :
    totalPower y.length (fun n => y.getD n 0) = 0 ↔ ∃ c, ∀ x ∈ y, x = c := by
  have hN : 0 < y.length := by omega
  have hne : y ≠ [] := List.length_pos_iff.mp hN
  have hNr : (0 : ℝ) < y.length := by exact_mod_cast hN
  have h := C69_variance y hN
  rw [if_neg (by omega), add_zero] at h
  constructor
  · intro h0
    rw [h0, mul_zero, zero_div] at h
    by_contra hc
    have hp : ptpZero y = false := by
      cases hp : ptpZero y with
      | false => rfl
      | true =>
        refine absurd ?_ hc
        cases y with
        | nil => simp at hne
        | cons a l =>
          refine ⟨a, ?_⟩
          intro x hx
          rcases List.mem_cons.mp hx with rfl | hx
          · rfl
          · have := List.all_eq_true.mp hp x hx
            simpa using this
    obtain ⟨v, hv, hpos⟩ := npVar_pos y hne hp
    rw [hv] at h
    cases h
    exact lt_irrefl _ hpos
  · rintro ⟨c, hc⟩
    rw [npVar_const y hne c hc, Option.some.injEq, eq_comm, div_eq_zero_iff] at h
    rcases h with h | h
    · linarith
    · exact absurd h (by positivity)

/-- For an even block length there are non-constant outputs (here `1, -1, 1, -1, ...`) for which FAST has
no variance to divide by and reports nan. -/
theorem C69_even_alternating (h : Nat) (hh : 0 < h) :
    totalPower (2 * h) (fun n => (-1 : ℝ) ^ n) = 0 := by
  have hNr : (0 : ℝ) < ((2 * h : Nat) : ℝ) := by exact_mod_cast (by omega : 0 < 2 * h)
  have hget : ∀ n < 2 * h, ((List.range (2 * h)).map fun n => (-1 : ℝ) ^ n).getD n 0 = (-1) ^ n := by
    intro n hn
    simp [hn]
  have hvar := C69_variance ((List.range (2 * h)).map fun n => (-1 : ℝ) ^ n) (by simp; omega)
  have hp := parseval ((List.range (2 * h)).map fun n => (-1 : ℝ) ^ n)
  simp only [List.length_map, List.length_range] at hvar hp
  rw [if_pos (by omega), Finset.sum_congr rfl fun n hn => by rw [hget n (Finset.mem_range.mp hn)],
    totalPower_congr (2 * h) _ (fun n => (-1 : ℝ) ^ n) (fun n hn => hget n hn)] at hvar
  have h1 : ∀ n : Nat, (-1 : ℝ) ^ n * (-1) ^ n = 1 := fun n => by
    rw [← mul_pow]; norm_num
  simp only [h1, Finset.sum_const, Finset.card_range, nsmul_eq_mul, mul_one] at hvar
  -- the variance is at most 1
  have hsum : ((List.range (2 * h)).map fun n => (-1 : ℝ) ^ n).sum = 0 := by
    rw [sum_range_list]
    induction h with
    | zero => omega
    | succ h ih =>
      rcases Nat.eq_zero_or_pos h with rfl | hp
      · norm_num [Finset.sum_range_succ]
      · rw [show 2 * (h + 1) = 2 * h + 1 + 1 by ring, Finset.sum_range_succ, Finset.sum_range_succ]
        have : ∑ n ∈ Finset.range (2 * h), (-1 : ℝ) ^ n = 0 := by
          rw [neg_one_geom_sum]; simp
        rw [this, pow_succ]
        ring
  rw [npVar_some _ (by simp; omega), hsum] at hvar
  simp only [List.length_map, List.length_range, zero_div, sub_zero, List.map_map] at hvar
  have h2 : ((List.range (2 * h)).map ((fun x : ℝ => x ^ 2) ∘ fun n => (-1 : ℝ) ^ n)).sum = (2 * h : Nat) := by
    rw [sum_range_list]
    have : ∀ n : Nat, ((fun x : ℝ => x ^ 2) ∘ fun n => (-1 : ℝ) ^ n) n = 1 := by
      intro n
      simp only [Function.comp]
      rw [sq, h1]
    simp only [this]
    simp
  rw [h2, Option.some.injEq, div_self hNr.ne', eq_comm, div_eq_one_iff_eq (by positivity)] at hvar
  linarith

/-- Non-trivial case of `C40_ordered`: two parameters, 65 points per block, outputs `1, 0, 0, ...`: the spectral
variance of block 0 is not zero. -/
example : totalPower 65 (fun n => ((1 : ℝ) :: List.replicate 129 0).getD (0 * 65 + n) 0) ≠ 0 := by
  have h := C69_nan_iff_constant ((1 : ℝ) :: List.replicate 64 0) (by simp)
  have e : totalPower 65 (fun n => ((1 : ℝ) :: List.replicate 129 0).getD (0 * 65 + n) 0) =
      totalPower 65 (fun n => ((1 : ℝ) :: List.replicate 64 0).getD n 0) := by
    apply totalPower_congr
    intro n hn
    cases n with
    | zero => rfl
    | succ n =>
      have h1 : n < 129 := by omega
      have h2 : n < 64 := by omega
      rw [zero_mul, zero_add, List.getD_cons_succ, List.getD_cons_succ]
      simp only [List.getD_eq_getElem?_getD, List.getElem?_replicate, h1, h2, if_true]
  rw [e]
  intro h0
  obtain ⟨c, hc⟩ := h.mp (by simpa using h0)
  have h1 := hc 1 (by simp)
  have h2 := hc 0 (by simp)
  linarith

end SALib
