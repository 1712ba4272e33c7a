import Verif.Spec.DMorph
import Mathlib.Algebra.BigOperators.Fin
import Mathlib.Algebra.Order.BigOperators.Ring.Finset
import Mathlib.Tactic.Linarith
import Mathlib.Tactic.Ring

/-! # Copied columns and the hierarchical orthogonality -/

namespace SALib

open Matrix Spec

variable {m n : Nat}

/-- Column `q` of the extended base of order two is a copy of a first-order column. -/
def IsCopy (p d q : Nat) : Prop := p * d ≤ q ∧ (q - p * d) % (p ^ 2 + 2 * p) < 2 * p

instance (p d q : Nat) : Decidable (IsCopy p d q) := inferInstanceAs (Decidable (_ ∧ _))

theorem block_iff (p d ct q W : Nat) (hW : 0 < W) (hq : p * d ≤ q) :
    (p * d + ct * W ≤ q ∧ q < p * d + ct * W + W) ↔ (q - p * d) / W = ct := by
  rw [Nat.div_eq_iff hW]
  constructor
  · rintro ⟨h1, h2⟩
    have : W * ct = ct * W := Nat.mul_comm _ _
    constructor <;> omega
  · rintro ⟨h1, h2⟩
    have : W * ct = ct * W := Nat.mul_comm _ _
    constructor <;> omega

theorem low_iff (p d ct q W L : Nat) (hW : 0 < W) (hL : L ≤ W) :
    (p * d + ct * W ≤ q ∧ q < p * d + ct * W + L) ↔
      p * d ≤ q ∧ (q - p * d) % W < L ∧ (q - p * d) / W = ct := by
  constructor
  · rintro ⟨h1, h2⟩
    have hq : p * d ≤ q := by omega
    have hb := (block_iff p d ct q W hW hq).mp ⟨h1, by omega⟩
    refine ⟨hq, ?_, hb⟩
    have hm := Nat.mod_add_div (q - p * d) W
    rw [hb, Nat.mul_comm W ct] at hm
    omega
  · rintro ⟨hq, h1, hb⟩
    have hm := Nat.mod_add_div (q - p * d) W
    rw [hb, Nat.mul_comm W ct] at hm
    omega

theorem violation_nonneg (A : Matrix (Fin m) (Fin n) ℝ) (N : ℝ) (x : Fin n → ℝ) (s w low : Nat) :
    0 ≤ violation A N x s w low := by
  unfold violation
  refine add_nonneg (sq_nonneg _) (Finset.sum_nonneg fun l _ => ?_)
  split
  · exact sq_nonneg _
  · exact le_refl _

theorem violation_zero (A : Matrix (Fin m) (Fin n) ℝ) (N : ℝ) (hN : N ≠ 0) (x : Fin n → ℝ) (s w low : Nat)
    (h : violation A N x s w low = 0) (l : Fin n) (hl : s ≤ l.val ∧ l.val < s + low) :
    ∑ r, A r l * component A x s w r = 0 := by
  unfold violation at h
  have hnn : ∀ l ∈ (Finset.univ : Finset (Fin n)), 0 ≤ (if s ≤ l.val ∧ l.val < s + low then
      ((∑ r, A r l * component A x s w r) / N) ^ 2 else 0) := by
    intro l _
    split
    · exact sq_nonneg _
    · exact le_refl _
  have h2 : (∑ l : Fin n, if s ≤ l.val ∧ l.val < s + low then ((∑ r, A r l * component A x s w r) / N) ^ 2 else 0) = 0 := by
    have := Finset.sum_nonneg hnn
    have h1 := sq_nonneg ((∑ r, component A x s w r) / (m : ℝ))
    linarith
  have h3 := (Finset.sum_eq_zero_iff_of_nonneg hnn).mp h2 l (Finset.mem_univ _)
  rw [if_pos hl] at h3
  have h4 := pow_eq_zero_iff (two_ne_zero) |>.mp h3
  exact (div_eq_zero_iff.mp h4).resolve_right hN

/-- Moving the coefficients of copied columns to their sources. -/
theorem push_sum (bm : Matrix (Fin m) (Fin n) ℝ) (src : Fin n → Fin n) (S : Fin n → Prop) [DecidablePred S]
    (hS : ∀ q, S q → ∀ r, bm r q = bm r (src q)) (z : Fin n → ℝ) (r : Fin m) :
    ∑ q, bm r q * (∑ q', if S q' ∧ src q' = q then z q' else 0) = ∑ q', if S q' then bm r q' * z q' else 0 := by
  simp_rw [Finset.mul_sum]
  rw [Finset.sum_comm]
  apply Finset.sum_congr rfl
  intro q' _
  by_cases h : S q'
  · rw [if_pos h, Finset.sum_eq_single (src q')]
    · rw [if_pos ⟨h, rfl⟩, hS q' h r]
    · intro q _ hq
      rw [if_neg (fun hh => hq hh.2.symm), mul_zero]
    · intro hh
      exact absurd (Finset.mem_univ _) hh
  · rw [if_neg h]
    apply Finset.sum_eq_zero
    intro q _
    rw [if_neg (fun hh => h hh.1), mul_zero]

/-- When the columns other than the copies are linearly independent, only zero both fits the zero output and violates
nothing. -/
theorem det_of_copies (p d : Nat) (hp : 0 < p) (bm : Matrix (Fin m) (Fin n) ℝ) (N : ℝ) (hN : N ≠ 0) (src : Fin n → Fin n)
    (hn : n ≤ p * d + d.choose 2 * (p ^ 2 + 2 * p))
    (hlow : ∀ q : Fin n, IsCopy p d q → (src q).val < p * d)
    (hcopy : ∀ q : Fin n, IsCopy p d q → ∀ r, bm r q = bm r (src q))
    (hinj : ∀ q q' : Fin n, IsCopy p d q → IsCopy p d q' →
      (q.val - p * d) / (p ^ 2 + 2 * p) = (q'.val - p * d) / (p ^ 2 + 2 * p) → src q = src q' → q = q')
    (hind : ∀ c : Fin n → ℝ, (∀ q : Fin n, IsCopy p d q → c q = 0) → (∀ r, ∑ i, bm r i * c i = 0) → c = 0)
    (z : Fin n → ℝ) (hz : ∀ r, ∑ i, bm r i * z i = 0) (hcost : hierarchyCost d p 2 bm N z = 0) : z = 0 := by
  have hW : 0 < p ^ 2 + 2 * p := by positivity
  have hsrc : ∀ q q' : Fin n, IsCopy p d q → IsCopy p d q' → src q ≠ q' := by
    intro q q' h1 h2 h3
    have := hlow q h1
    rw [h3] at this
    have := h2.1
    omega
  -- the coefficients moved to the sources
  have hc := hind (fun q => (if IsCopy p d q then 0 else z q) + ∑ q' : Fin n, if IsCopy p d q' ∧ src q' = q then z q' else 0)
    (by
      intro q hq
      rw [if_pos hq, zero_add]
      apply Finset.sum_eq_zero
      intro q' _
      rw [if_neg (fun hh => hsrc q' q hh.1 hq hh.2)])
    (by
      intro r
      simp only [mul_add]
      rw [Finset.sum_add_distrib, push_sum bm src (fun q => IsCopy p d q) hcopy z r, ← Finset.sum_add_distrib]
      refine Eq.trans (Finset.sum_congr rfl fun q _ => ?_) (hz r)
      by_cases h : IsCopy p d q
      · rw [if_pos h, if_pos h]; ring
      · rw [if_neg h, if_neg h]; ring)
  have hprod : ∀ q : Fin n, p * d ≤ q.val → ¬ IsCopy p d q → z q = 0 := by
    intro q hq hnc
    have := congrFun hc q
    simp only [if_neg hnc, Pi.zero_apply] at this
    rw [Finset.sum_eq_zero, add_zero] at this
    · exact this
    · intro q' _
      rw [if_neg]
      rintro ⟨h1, h2⟩
      have := hlow q' h1
      rw [h2] at this
      omega
  have hviol : ∀ ct < d.choose 2, violation bm N z (p * d + ct * (p ^ 2 + 2 * p)) (p ^ 2 + 2 * p) (2 * p) = 0 := by
    unfold hierarchyCost at hcost
    rw [if_pos (le_refl 2), if_neg (by decide), add_zero] at hcost
    intro ct hct
    exact (Finset.sum_eq_zero_iff_of_nonneg (fun ct _ => violation_nonneg _ _ _ _ _ _)).mp hcost ct (Finset.mem_range.mpr hct)
  have hcz : ∀ q : Fin n, IsCopy p d q → z q = 0 := by
    intro q0 hq0
    obtain ⟨ct, hct⟩ : ∃ ct, ct = (q0.val - p * d) / (p ^ 2 + 2 * p) := ⟨_, rfl⟩
    have hctlt : ct < d.choose 2 := by
      rw [hct, Nat.div_lt_iff_lt_mul hW]
      have := q0.isLt
      have := hq0.1
      omega
    have hlowiff : ∀ q : Fin n, (p * d + ct * (p ^ 2 + 2 * p) ≤ q.val ∧ q.val < p * d + ct * (p ^ 2 + 2 * p) + 2 * p) ↔
        (IsCopy p d q ∧ (q.val - p * d) / (p ^ 2 + 2 * p) = ct) := by
      intro q
      rw [low_iff p d ct q _ (2 * p) hW (by omega)]
      unfold IsCopy
      tauto
    have hcomp : ∀ r, component bm z (p * d + ct * (p ^ 2 + 2 * p)) (p ^ 2 + 2 * p) r =
        ∑ q : Fin n, if IsCopy p d q ∧ (q.val - p * d) / (p ^ 2 + 2 * p) = ct then bm r q * z q else 0 := by
      intro r
      unfold component
      apply Finset.sum_congr rfl
      intro q _
      by_cases hq : p * d ≤ q.val
      · by_cases hcp : IsCopy p d q
        · apply if_congr _ rfl rfl
          rw [block_iff p d ct q _ hW hq]
          tauto
        · rw [hprod q hq hcp]
          simp
      · rw [if_neg, if_neg]
        · exact fun h => hq h.1.1
        · intro h
          have := Nat.le_add_right (p * d) (ct * (p ^ 2 + 2 * p))
          omega
    have hsq : ∑ r, component bm z (p * d + ct * (p ^ 2 + 2 * p)) (p ^ 2 + 2 * p) r ^ 2 = 0 := by
      have e : ∀ r, component bm z (p * d + ct * (p ^ 2 + 2 * p)) (p ^ 2 + 2 * p) r ^ 2 =
          ∑ q : Fin n, if IsCopy p d q ∧ (q.val - p * d) / (p ^ 2 + 2 * p) = ct then
            z q * (bm r q * component bm z (p * d + ct * (p ^ 2 + 2 * p)) (p ^ 2 + 2 * p) r) else 0 := by
        intro r
        rw [sq]
        nth_rewrite 1 [hcomp r]
        rw [Finset.sum_mul]
        apply Finset.sum_congr rfl
        intro q _
        split
        · ring
        · rw [zero_mul]
      simp_rw [e]
      rw [Finset.sum_comm]
      apply Finset.sum_eq_zero
      intro q _
      by_cases h : IsCopy p d q ∧ (q.val - p * d) / (p ^ 2 + 2 * p) = ct
      · simp only [if_pos h]
        rw [← Finset.mul_sum, violation_zero bm N hN z _ _ _ (hviol ct hctlt) q ((hlowiff q).mpr h), mul_zero]
      · simp only [if_neg h]
        exact Finset.sum_const_zero
    have hf0 : ∀ r, component bm z (p * d + ct * (p ^ 2 + 2 * p)) (p ^ 2 + 2 * p) r = 0 := by
      intro r
      have := (Finset.sum_eq_zero_iff_of_nonneg (fun r _ => sq_nonneg _)).mp hsq r (Finset.mem_univ _)
      exact pow_eq_zero_iff two_ne_zero |>.mp this
    have hc' := hind (fun q => ∑ q' : Fin n,
        if (IsCopy p d q' ∧ (q'.val - p * d) / (p ^ 2 + 2 * p) = ct) ∧ src q' = q then z q' else 0)
      (by
        intro q hq
        apply Finset.sum_eq_zero
        intro q' _
        rw [if_neg (fun hh => hsrc q' q hh.1.1 hq hh.2)])
      (by
        intro r
        rw [push_sum bm src (fun q => IsCopy p d q ∧ (q.val - p * d) / (p ^ 2 + 2 * p) = ct)
          (fun q h => hcopy q h.1) z r, ← hcomp r]
        exact hf0 r)
    have := congrFun hc' (src q0)
    simp only [Pi.zero_apply] at this
    rw [Finset.sum_eq_single q0, if_pos ⟨⟨hq0, hct.symm⟩, rfl⟩] at this
    · exact this
    · intro q _ hq
      rw [if_neg]
      rintro ⟨⟨h1, h2⟩, h3⟩
      exact hq (hinj q q0 h1 hq0 (by rw [h2, hct]) h3)
    · intro hh
      exact absurd (Finset.mem_univ _) hh
  funext q
  by_cases hq : IsCopy p d q
  · exact hcz q hq
  · have := congrFun hc q
    simp only [if_neg hq, Pi.zero_apply] at this
    rw [Finset.sum_eq_zero, add_zero] at this
    · exact this
    · intro q' _
      by_cases h1 : IsCopy p d q'
      · rw [hcz q' h1, ite_self]
      · rw [if_neg (fun hh => h1 hh.1)]

end SALib
