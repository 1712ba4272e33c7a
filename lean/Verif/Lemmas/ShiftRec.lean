import Mathlib.Algebra.Polynomial.Monic
import Mathlib.Algebra.Polynomial.BigOperators
import Mathlib.Algebra.Polynomial.AlgebraMap
import Mathlib.Algebra.Field.ZMod
import Mathlib.RingTheory.Polynomial.Basic
import Mathlib.RingTheory.Coprime.Lemmas
import Mathlib.Tactic.LinearCombination
import Mathlib.Tactic.Ring

/-! # Binary sequences under linear recurrences

Sequences over the field of two elements, acted on by polynomials in the shift. -/

namespace SALib
open Polynomial

/-- The shift `x ↦ (j ↦ x (j + 1))`. -/
def seqShift : (ℕ → ZMod 2) →ₗ[ZMod 2] (ℕ → ZMod 2) where
  toFun x j := x (j + 1)
  map_add' _ _ := rfl
  map_smul' _ _ := rfl

theorem seqShift_apply (x : ℕ → ZMod 2) (j : ℕ) : seqShift x j = x (j + 1) := rfl

theorem seqShift_pow (i : ℕ) (x : ℕ → ZMod 2) (j : ℕ) : (seqShift ^ i) x j = x (j + i) := by
  induction i generalizing j with
  | zero => rfl
  | succ i ih =>
    rw [pow_succ', Module.End.mul_apply, seqShift_apply, ih]
    congr 1; ring

theorem aeval_shift (P : (ZMod 2)[X]) (x : ℕ → ZMod 2) (j : ℕ) :
    aeval seqShift P x j = ∑ i ∈ Finset.range (P.natDegree + 1), P.coeff i * x (j + i) := by
  rw [aeval_eq_sum_range, LinearMap.sum_apply, Finset.sum_apply]
  refine Finset.sum_congr rfl fun i _ => ?_
  rw [LinearMap.smul_apply, Pi.smul_apply, seqShift_pow, smul_eq_mul]

/-- A sequence under a monic recurrence of order `n` whose first `n` terms vanish is zero. -/
theorem eq_zero_of_rec (P : (ZMod 2)[X]) (hP : P.Monic) (x : ℕ → ZMod 2) (h : aeval seqShift P x = 0)
    (h0 : ∀ j < P.natDegree, x j = 0) : x = 0 := by
  funext j
  induction j using Nat.strong_induction_on with
  | _ j ih =>
    by_cases hj : j < P.natDegree
    · exact h0 j hj
    · have := congrFun h (j - P.natDegree)
      rw [aeval_shift, Finset.sum_range_succ, Finset.sum_eq_zero, zero_add, hP.coeff_natDegree, one_mul,
        Nat.sub_add_cancel (by omega)] at this
      · exact this
      · intro i hi
        rw [Finset.mem_range] at hi
        rw [ih _ (by omega)]
        simp

/-- The rows `c 0, c 1, ...` of a generator matrix whose recurrence has the polynomial `P`: applying `P` to row `b`
gives row `b - deg P` (zero if there is none), and the matrix is upper triangular with ones on the diagonal. -/
structure DimRows (P : (ZMod 2)[X]) (c : ℕ → ℕ → ZMod 2) : Prop where
  monic : P.Monic
  pos : 1 ≤ P.natDegree
  low : ∀ b < 31, b < P.natDegree → aeval seqShift P (c b) = 0
  high : ∀ b < 31, P.natDegree ≤ b → aeval seqShift P (c b) = c (b - P.natDegree)
  below : ∀ b < 31, ∀ j < b, c b j = 0
  diag : ∀ b < 31, c b b = 1

theorem DimRows.pow_zero {P : (ZMod 2)[X]} {c : ℕ → ℕ → ZMod 2} (h : DimRows P c) (n b : ℕ) (hb : b < 31)
    (hn : b < n * P.natDegree) : aeval seqShift (P ^ n) (c b) = 0 := by
  induction n generalizing b with
  | zero => omega
  | succ n ih =>
    rw [pow_succ, map_mul, Module.End.mul_apply]
    by_cases hlt : b < P.natDegree
    · rw [h.low b hb hlt, map_zero]
    · rw [h.high b hb (by omega)]
      apply ih _ (by omega)
      rw [Nat.succ_mul] at hn
      omega

/-- Leading rows of one matrix: a vanishing combination is trivial. -/
theorem DimRows.indep {P : (ZMod 2)[X]} {c : ℕ → ℕ → ZMod 2} (h : DimRows P c) (k : ℕ) (hk : k ≤ 31)
    (l : ℕ → ZMod 2) (h0 : ∀ j < k, ∑ b ∈ Finset.range k, l b * c b j = 0) : ∀ b < k, l b = 0 := by
  intro b
  induction b using Nat.strong_induction_on with
  | _ b ih =>
    intro hb
    have := h0 b hb
    rw [Finset.sum_eq_single b] at this
    · rwa [h.diag b (by omega), mul_one] at this
    · intro b' hb' hne
      rw [Finset.mem_range] at hb'
      rcases lt_or_gt_of_ne hne with hlt | hgt
      · rw [ih b' hlt (by omega), zero_mul]
      · rw [h.below b' (by omega) b hgt, mul_zero]
    · intro hn
      exact absurd (Finset.mem_range.mpr hb) hn

/-- **Sobol's independence theorem.**  Take the `k d` leading rows of the matrices of several dimensions with pairwise
coprime polynomials.  Restricted to the first `m` columns they are independent as soon as
`∑ (k d + deg d - 1) ≤ m`. -/
theorem rows_indep {ι : Type} [DecidableEq ι] (S : Finset ι) (P : ι → (ZMod 2)[X]) (c : ι → ℕ → ℕ → ZMod 2)
    (h : ∀ d ∈ S, DimRows (P d) (c d))
    (hco : ∀ d ∈ S, ∀ d' ∈ S, d ≠ d' → IsCoprime (P d) (P d')) (k : ι → ℕ) (hk : ∀ d ∈ S, k d ≤ 31) (m : ℕ)
    (hm : ∑ d ∈ S, (k d + ((P d).natDegree - 1)) ≤ m) (l : ι → ℕ → ZMod 2)
    (hl : ∀ j < m, ∑ d ∈ S, ∑ b ∈ Finset.range (k d), l d b * c d b j = 0) :
    ∀ d ∈ S, ∀ b < k d, l d b = 0 := by
  set n : ι → ℕ := fun d => (k d + ((P d).natDegree - 1)) / (P d).natDegree with hn
  set w : ι → ℕ → ZMod 2 := fun d => ∑ b ∈ Finset.range (k d), l d b • c d b with hw
  have hwj : ∀ d j, w d j = ∑ b ∈ Finset.range (k d), l d b * c d b j := by
    intro d j
    simp [hw, Finset.sum_apply]
  have hkn : ∀ d ∈ S, k d ≤ n d * (P d).natDegree := by
    intro d hd
    have hp := (h d hd).pos
    have := Nat.div_add_mod (k d + ((P d).natDegree - 1)) (P d).natDegree
    have hlt := Nat.mod_lt (k d + ((P d).natDegree - 1)) hp
    rw [mul_comm]
    simp only [hn]
    omega
  have hker : ∀ d ∈ S, aeval seqShift (P d ^ n d) (w d) = 0 := by
    intro d hd
    rw [hw]
    simp only [map_sum, map_smul]
    refine Finset.sum_eq_zero fun b hb => ?_
    rw [Finset.mem_range] at hb
    have := hk d hd
    rw [(h d hd).pow_zero (n d) b (by omega) (lt_of_lt_of_le hb (hkn d hd)), smul_zero]
  have hkill : ∀ (T : Finset ι), ∀ d ∈ T, d ∈ S → aeval seqShift (∏ e ∈ T, P e ^ n e) (w d) = 0 := by
    intro T d hT hd
    rw [← Finset.prod_erase_mul T _ hT, map_mul, Module.End.mul_apply, hker d hd, map_zero]
  have hmon : (∏ e ∈ S, P e ^ n e).Monic :=
    monic_prod_of_monic S _ fun d hd => (h d hd).monic.pow (n d)
  have hdeg : (∏ e ∈ S, P e ^ n e).natDegree ≤ m := by
    rw [natDegree_prod_of_monic S _ fun d hd => (h d hd).monic.pow (n d)]
    refine le_trans (Finset.sum_le_sum fun d hd => ?_) hm
    rw [(h d hd).monic.natDegree_pow]
    exact Nat.div_mul_le_self _ _
  have hW : ∑ d ∈ S, w d = 0 := by
    refine eq_zero_of_rec _ hmon _ ?_ ?_
    · rw [map_sum]
      exact Finset.sum_eq_zero fun d hd => hkill S d hd hd
    · intro j hj
      rw [Finset.sum_apply, ← hl j (by omega)]
      exact Finset.sum_congr rfl fun d _ => hwj d j
  intro d hd
  have hd0 : w d = 0 := by
    have h1 : aeval seqShift (∏ e ∈ S.erase d, P e ^ n e) (w d) = 0 := by
      have := congrArg (aeval seqShift (∏ e ∈ S.erase d, P e ^ n e)) hW
      rw [map_zero, map_sum, Finset.sum_eq_single d] at this
      · exact this
      · intro e he hne
        exact hkill _ e (Finset.mem_erase.mpr ⟨hne, he⟩) he
      · exact fun hn => absurd hd hn
    have hcop : IsCoprime (∏ e ∈ S.erase d, P e ^ n e) (P d ^ n d) := by
      refine IsCoprime.prod_left fun e he => ?_
      rw [Finset.mem_erase] at he
      exact (hco e he.2 d hd he.1).pow
    have := (disjoint_ker_aeval_of_isCoprime seqShift hcop).le_bot
      (show w d ∈ _ from ⟨LinearMap.mem_ker.mpr h1, LinearMap.mem_ker.mpr (hker d hd)⟩)
    simpa using this
  refine (h d hd).indep (k d) (hk d hd) (l d) fun j _ => ?_
  rw [← hwj, hd0]
  rfl

end SALib
