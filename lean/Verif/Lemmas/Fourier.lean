import Verif.Model.Fast
import Mathlib.RingTheory.RootsOfUnity.Complex
import Mathlib.Algebra.BigOperators.Intervals
import Mathlib.Algebra.Order.BigOperators.Ring.Finset

/-! # Finite Fourier sums -/

namespace SALib

open Real

theorem sum_range_list {β : Type} [AddCommMonoid β] (f : Nat → β) (n : Nat) :
    ((List.range n).map f).sum = ∑ k ∈ Finset.range n, f k := by
  induction n with
  | zero => simp
  | succ n ih => rw [List.range_succ, List.map_append, List.sum_append, ih, Finset.sum_range_succ]; simp

theorem mapM_congr_mem {γ β : Type} (f g : γ → Py β) (l : List γ) (h : ∀ c ∈ l, f c = g c) :
    l.mapM f = l.mapM g := by
  induction l with
  | nil => rfl
  | cons c l ih => rw [List.mapM_cons, List.mapM_cons, h c (by simp), ih (fun c hc => h c (by simp [hc]))]

/-- `exp(-2πi/N)`. -/
noncomputable def unitRoot (N : Nat) : ℂ := Complex.exp (-(2 * π * Complex.I / N))

theorem unitRoot_primitive (N : Nat) (h : N ≠ 0) : IsPrimitiveRoot (unitRoot N) N := by
  have := (Complex.isPrimitiveRoot_exp N h).inv
  rwa [← Complex.exp_neg] at this

theorem unitRoot_pow (N k n : Nat) :
    unitRoot N ^ (k * n) = Complex.exp (-2 * π * Complex.I * k * n / N) := by
  unfold unitRoot
  rw [← Complex.exp_nat_mul]
  congr 1
  push_cast
  ring

theorem fftEntry_eq (y : List ℝ) (k : Nat) :
    fftEntry y k = ∑ n ∈ Finset.range y.length, (y.getD n 0 : ℂ) * unitRoot y.length ^ (k * n) := by
  unfold fftEntry
  rw [← sum_range_list]
  congr 1
  apply List.ext_getElem
  · simp
  · intro n h1 h2
    simp only [List.length_map, List.length_zipIdx] at h1
    simp only [List.getElem_map, List.getElem_zipIdx, List.getElem_range, unitRoot_pow]
    rw [List.getD_eq_getElem?_getD, List.getElem?_eq_getElem h1]
    simp

theorem sum_unitRoot (N k : Nat) (hN : N ≠ 0) (hk : ¬ N ∣ k) :
    ∑ n ∈ Finset.range N, unitRoot N ^ (k * n) = 0 := by
  have hp := unitRoot_primitive N hN
  have h1 : unitRoot N ^ k ≠ 1 := fun h => hk ((hp.pow_eq_one_iff_dvd k).mp h)
  have h2 : (unitRoot N ^ k) ^ N = 1 := by rw [← pow_mul, mul_comm, pow_mul, hp.pow_eq_one, one_pow]
  have := geom_sum_eq h1 N
  simp only [pow_mul]
  rw [this, h2]; simp

theorem conj_unitRoot (N : Nat) : (starRingEnd ℂ) (unitRoot N) = (unitRoot N)⁻¹ := by
  unfold unitRoot
  rw [← Complex.exp_conj, ← Complex.exp_neg]
  congr 1
  simp only [map_neg, map_div₀, map_mul, Complex.conj_ofReal, Complex.conj_I, Complex.conj_ofNat,
    Complex.conj_natCast]
  ring

/-- An affine change of the data scales the Fourier sums at non-zero frequencies. -/
theorem fftEntry_affine (y : List ℝ) (a b : ℝ) (k : Nat) (hk : ¬ y.length ∣ k) :
    fftEntry (y.map fun v => a * v + b) k = a * fftEntry y k := by
  rw [fftEntry_eq, fftEntry_eq, List.length_map, Finset.mul_sum]
  by_cases hN : y.length = 0
  · rw [hN]; simp
  have : ∀ n ∈ Finset.range y.length,
      (((y.map fun v => a * v + b).getD n 0 : ℝ) : ℂ) * unitRoot y.length ^ (k * n) =
      a * ((y.getD n 0 : ℂ) * unitRoot y.length ^ (k * n)) + b * unitRoot y.length ^ (k * n) := by
    intro n hn
    have hn' := Finset.mem_range.mp hn
    rw [List.getD_eq_getElem?_getD, List.getD_eq_getElem?_getD, List.getElem?_map,
      List.getElem?_eq_getElem hn']
    simp only [Option.map_some, Option.getD_some]
    push_cast
    ring
  rw [Finset.sum_congr rfl this, Finset.sum_add_distrib, ← Finset.mul_sum _ _ (b : ℂ),
    sum_unitRoot _ _ hN hk, mul_zero, add_zero]

/-- Orthogonality: over all frequencies, `ζ^(kn) * conj(ζ^(km))` sums to `N` or 0. -/
theorem sum_unitRoot_pair (N n m : Nat) (hn : n < N) (hm : m < N) :
    ∑ k ∈ Finset.range N, unitRoot N ^ (k * n) * (starRingEnd ℂ) (unitRoot N ^ (k * m)) =
      if n = m then (N : ℂ) else 0 := by
  have hN : N ≠ 0 := by omega
  have hp := unitRoot_primitive N hN
  have h0 : unitRoot N ≠ 0 := hp.ne_zero hN
  have e : ∀ k, unitRoot N ^ (k * n) * (starRingEnd ℂ) (unitRoot N ^ (k * m)) =
      unitRoot N ^ ((n + (N - m)) * k) := by
    intro k
    rw [map_pow, conj_unitRoot, inv_pow]
    have : unitRoot N ^ (k * m) * unitRoot N ^ ((N - m) * k) = 1 := by
      rw [← pow_add, show k * m + (N - m) * k = N * k by
        rw [mul_comm (N - m), ← Nat.mul_add, show m + (N - m) = N by omega, mul_comm], pow_mul,
        hp.pow_eq_one, one_pow]
    have h1 : (unitRoot N ^ (k * m))⁻¹ = unitRoot N ^ ((N - m) * k) := inv_eq_of_mul_eq_one_right this
    rw [h1, ← pow_add]
    congr 1
    ring
  simp only [e]
  by_cases h : n = m
  · subst h
    simp only [show n + (N - n) = N by omega, pow_mul, hp.pow_eq_one, one_pow, if_true]
    simp
  · rw [if_neg h]
    apply sum_unitRoot _ _ hN
    intro hd
    rcases lt_or_gt_of_ne h with hlt | hgt
    · have := Nat.le_of_dvd (by omega) hd
      omega
    · have h2 : N ∣ n - m := by
        have := Nat.dvd_sub hd (dvd_refl N)
        rwa [show n + (N - m) - N = n - m by omega] at this
      have := Nat.le_of_dvd (by omega) h2
      omega

/-- Parseval's identity. -/
theorem parseval (y : List ℝ) :
    ∑ k ∈ Finset.range y.length, ‖fftEntry y k‖ ^ 2 =
      y.length * ∑ n ∈ Finset.range y.length, (y.getD n 0) ^ 2 := by
  have key : ((∑ k ∈ Finset.range y.length, ‖fftEntry y k‖ ^ 2 : ℝ) : ℂ) =
      ((y.length * ∑ n ∈ Finset.range y.length, (y.getD n 0) ^ 2 : ℝ) : ℂ) := by
    push_cast
    have e : ∀ k, (‖fftEntry y k‖ : ℂ) ^ 2 = ∑ n ∈ Finset.range y.length, ∑ m ∈ Finset.range y.length,
        ((y.getD n 0 : ℂ) * (y.getD m 0 : ℂ)) *
          (unitRoot y.length ^ (k * n) * (starRingEnd ℂ) (unitRoot y.length ^ (k * m))) := by
      intro k
      rw [← Complex.mul_conj', fftEntry_eq, map_sum, Finset.sum_mul_sum]
      apply Finset.sum_congr rfl; intro n _
      apply Finset.sum_congr rfl; intro m _
      rw [map_mul, Complex.conj_ofReal]
      ring
    simp only [e]
    rw [Finset.sum_comm]
    have e2 : ∀ n ∈ Finset.range y.length,
        (∑ k ∈ Finset.range y.length, ∑ m ∈ Finset.range y.length,
          ((y.getD n 0 : ℂ) * (y.getD m 0 : ℂ)) *
          (unitRoot y.length ^ (k * n) * (starRingEnd ℂ) (unitRoot y.length ^ (k * m)))) =
        y.length * (y.getD n 0 : ℂ) ^ 2 := by
      intro n hn
      rw [Finset.sum_comm]
      simp only [← Finset.mul_sum]
      rw [Finset.sum_congr rfl fun m hm => by
        rw [sum_unitRoot_pair _ n m (Finset.mem_range.mp hn) (Finset.mem_range.mp hm)]]
      simp only [mul_ite, mul_zero]
      rw [Finset.sum_ite_eq, if_pos hn]
      ring
    rw [Finset.sum_congr rfl e2, Finset.mul_sum]
  exact_mod_cast key

/-- The spectrum of real data is symmetric. -/
theorem norm_fftEntry_symm (y : List ℝ) (k : Nat) (hk : k ≤ y.length) :
    ‖fftEntry y (y.length - k)‖ = ‖fftEntry y k‖ := by
  by_cases hN : y.length = 0
  · rw [show y.length - k = k by omega]
  have hp := unitRoot_primitive y.length hN
  rw [← Complex.norm_conj (fftEntry y k)]
  congr 1
  rw [fftEntry_eq, fftEntry_eq, map_sum]
  apply Finset.sum_congr rfl; intro n _
  rw [map_mul, Complex.conj_ofReal, map_pow, conj_unitRoot, inv_pow]
  congr 1
  symm
  apply inv_eq_of_mul_eq_one_right
  rw [← pow_add, show k * n + (y.length - k) * n = y.length * n by
    rw [← Nat.add_mul]; congr 1; omega, pow_mul, hp.pow_eq_one, one_pow]

theorem fftEntry_zero (y : List ℝ) : fftEntry y 0 = ((∑ n ∈ Finset.range y.length, y.getD n 0 : ℝ) : ℂ) := by
  rw [fftEntry_eq]; simp

end SALib
