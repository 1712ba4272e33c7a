import Verif.Model.FracFact
import Verif.Spec.FracFact
import Verif.Lemmas.ListAux
import Mathlib.Algebra.BigOperators.Intervals
import Mathlib.Algebra.BigOperators.Ring.Finset
import Mathlib.Data.Nat.Bitwise
import Mathlib.Tactic.Ring
import Mathlib.Tactic.Linarith

/-! # The Sylvester matrix in closed form -/

namespace SALib
open Spec

section ring
variable {α : Type} [CommRing α]

theorem sign_succ (k i j : Nat) :
    sign α (k + 1) i j = sign α k i j * if i.testBit k && j.testBit k then -1 else 1 := by
  unfold sign; rw [Finset.prod_range_succ]

theorem sign_add_left (k i j : Nat) (hj : j < 2 ^ k) : sign α k i (2 ^ k + j) = sign α k i j := by
  unfold sign
  apply Finset.prod_congr rfl
  intro b hb
  rw [Nat.testBit_two_pow_add_gt (Finset.mem_range.mp hb)]

theorem sign_add_row (k i j : Nat) (hi : i < 2 ^ k) : sign α k (2 ^ k + i) j = sign α k i j := by
  unfold sign
  apply Finset.prod_congr rfl
  intro b hb
  rw [Nat.testBit_two_pow_add_gt (Finset.mem_range.mp hb)]

theorem sign_pm (k i j : Nat) : sign α k i j = 1 ∨ sign α k i j = -1 := by
  induction k with
  | zero => left; simp [sign]
  | succ k ih =>
    rw [sign_succ]
    rcases ih with h | h <;> rw [h] <;> split <;> simp

theorem sign_sq (k i j : Nat) : sign α k i j * sign α k i j = 1 := by
  rcases sign_pm (α := α) k i j with h | h <;> rw [h] <;> ring

theorem sign_xor (k i a b : Nat) : sign α k i a * sign α k i b = sign α k i (a ^^^ b) := by
  unfold sign
  rw [← Finset.prod_mul_distrib]
  apply Finset.prod_congr rfl
  intro c _
  rw [Nat.testBit_xor]
  cases i.testBit c <;> cases a.testBit c <;> cases b.testBit c <;> simp

theorem sign_zero (k i : Nat) : sign α k i 0 = 1 := by
  unfold sign; simp

theorem sum_range_double (k : Nat) (f : Nat → α) :
    ∑ i ∈ Finset.range (2 ^ (k + 1)), f i = ∑ i ∈ Finset.range (2 ^ k), (f i + f (2 ^ k + i)) := by
  rw [pow_succ, mul_two, Finset.sum_range_add, Finset.sum_add_distrib]

theorem sum_sign (k c : Nat) (hc : c < 2 ^ k) :
    ∑ i ∈ Finset.range (2 ^ k), sign α k i c = if c = 0 then (2 : α) ^ k else 0 := by
  induction k with
  | zero =>
    have : c = 0 := by simpa using hc
    subst this; simp [sign]
  | succ k ih =>
    rw [sum_range_double]
    have hterm : ∀ i ∈ Finset.range (2 ^ k), sign α (k + 1) i c + sign α (k + 1) (2 ^ k + i) c =
        sign α k i c * (1 + if c.testBit k then -1 else 1) := by
      intro i hi
      have hi := Finset.mem_range.mp hi
      rw [sign_succ, sign_succ, sign_add_row k i c hi, Nat.testBit_two_pow_add_eq,
        Nat.testBit_eq_false_of_lt hi]
      cases c.testBit k <;> simp <;> ring
    rw [Finset.sum_congr rfl hterm, ← Finset.sum_mul]
    by_cases hck : c < 2 ^ k
    · rw [ih hck, Nat.testBit_eq_false_of_lt hck]
      by_cases h0 : c = 0
      · rw [if_pos h0, if_pos h0]; simp only [Bool.false_eq_true, if_false]; ring
      · rw [if_neg h0, if_neg h0]; ring
    · have h1 : c.testBit k = true := by
        obtain ⟨d, rfl⟩ : ∃ d, c = 2 ^ k + d := ⟨c - 2 ^ k, by omega⟩
        rw [Nat.testBit_two_pow_add_eq, Nat.testBit_eq_false_of_lt (by rw [pow_succ] at hc; omega)]
        rfl
      have hpos := Nat.two_pow_pos k
      have h0 : c ≠ 0 := by omega
      rw [h1, if_pos rfl, if_neg h0]
      ring

theorem sum_sign_mul (k a b : Nat) (ha : a < 2 ^ k) (hb : b < 2 ^ k) :
    ∑ i ∈ Finset.range (2 ^ k), sign α k i a * sign α k i b = if a = b then (2 : α) ^ k else 0 := by
  simp only [sign_xor]
  rw [sum_sign k _ (Nat.xor_lt_two_pow ha hb)]
  simp only [Nat.xor_eq_zero_iff]

theorem range_double (k : Nat) :
    List.range (2 ^ (k + 1)) = List.range (2 ^ k) ++ (List.range (2 ^ k)).map (2 ^ k + ·) := by
  rw [pow_succ, mul_two, List.range_add]

/-- Sums over the folded-over design. -/
theorem sum_range_fold {β : Type} [AddCommMonoid β] (k : Nat) (f : Nat → β) :
    ∑ r ∈ Finset.range (2 * 2 ^ k), f r = ∑ i ∈ Finset.range (2 ^ k), (f i + f (2 ^ k + i)) := by
  rw [two_mul, Finset.sum_range_add, Finset.sum_add_distrib]

theorem coded_low (k r j : Nat) (h : r < 2 ^ k) : coded α k r j = sign α k r j := if_pos h

theorem coded_high (k r j : Nat) : coded α k (2 ^ k + r) j = -sign α k r j := by
  unfold coded
  rw [if_neg (by omega), Nat.add_sub_cancel_left]

theorem coded_pm (k r j : Nat) : coded α k r j = 1 ∨ coded α k r j = -1 := by
  unfold coded
  split
  · exact sign_pm k r j
  · rcases sign_pm (α := α) k (r - 2 ^ k) j with h | h <;> rw [h] <;> simp

theorem sum_coded (k j : Nat) : ∑ r ∈ Finset.range (2 * 2 ^ k), coded α k r j = 0 := by
  rw [sum_range_fold]
  apply Finset.sum_eq_zero
  intro i hi
  rw [coded_low k i j (Finset.mem_range.mp hi), coded_high]; ring

theorem sum_coded_mul (k a b : Nat) (ha : a < 2 ^ k) (hb : b < 2 ^ k) :
    ∑ r ∈ Finset.range (2 * 2 ^ k), coded α k r a * coded α k r b = if a = b then (2 : α) * 2 ^ k else 0 := by
  rw [sum_range_fold]
  have : ∀ i ∈ Finset.range (2 ^ k), coded α k i a * coded α k i b +
      coded α k (2 ^ k + i) a * coded α k (2 ^ k + i) b = 2 * (sign α k i a * sign α k i b) := by
    intro i hi
    rw [coded_low k i a (Finset.mem_range.mp hi), coded_low k i b (Finset.mem_range.mp hi), coded_high,
      coded_high]; ring
  rw [Finset.sum_congr rfl this, ← Finset.mul_sum, sum_sign_mul k a b ha hb]
  split <;> ring

theorem sum_coded_mul3 (k a b c : Nat) :
    ∑ r ∈ Finset.range (2 * 2 ^ k), coded α k r a * coded α k r b * coded α k r c = 0 := by
  rw [sum_range_fold]
  apply Finset.sum_eq_zero
  intro i hi
  have hi := Finset.mem_range.mp hi
  rw [coded_low k i a hi, coded_low k i b hi, coded_low k i c hi, coded_high, coded_high, coded_high]
  ring

end ring

section field
variable {α : Type} [Field α]

theorem hadamard_eq (k : Nat) : hadamard (α := α) k =
    (List.range (2 ^ k)).map fun i => (List.range (2 ^ k)).map fun j => sign α k i j := by
  induction k with
  | zero => simp [hadamard, sign]
  | succ k ih =>
    unfold hadamard
    rw [ih, range_double, List.map_append, List.map_map, List.map_map, List.map_map]
    congr 1
    · apply List.map_congr_left
      intro i hi
      have hi := List.mem_range.mp hi
      simp only [Function.comp, List.map_append, List.map_map]
      congr 1
      · apply List.map_congr_left
        intro j hj
        rw [sign_succ, Nat.testBit_eq_false_of_lt hi]; simp
      · apply List.map_congr_left
        intro j hj
        simp only [Function.comp]
        rw [sign_succ, Nat.testBit_eq_false_of_lt hi, sign_add_left k i j (List.mem_range.mp hj)]; simp
    · apply List.map_congr_left
      intro i hi
      have hi := List.mem_range.mp hi
      simp only [Function.comp, List.map_append, List.map_map]
      congr 1
      · apply List.map_congr_left
        intro j hj
        rw [sign_succ, Nat.testBit_eq_false_of_lt (List.mem_range.mp hj), sign_add_row k i j hi]; simp
      · apply List.map_congr_left
        intro j hj
        have hj := List.mem_range.mp hj
        simp only [Function.comp]
        rw [sign_succ, Nat.testBit_two_pow_add_eq, Nat.testBit_two_pow_add_eq,
          Nat.testBit_eq_false_of_lt hi, Nat.testBit_eq_false_of_lt hj, sign_add_row k i _ hi,
          sign_add_left k i j hj]
        simp

theorem contrast_eq (k : Nat) :
    hadamard (α := α) k ++ (hadamard k).map (fun r => r.map fun v => -v) =
      (List.range (2 * 2 ^ k)).map fun r => (List.range (2 ^ k)).map fun j => coded α k r j := by
  rw [hadamard_eq, two_mul, List.range_add, List.map_append, List.map_map, List.map_map]
  congr 1
  · apply List.map_congr_left
    intro i hi
    apply List.map_congr_left
    intro j _
    rw [coded_low k i j (List.mem_range.mp hi)]
  · apply List.map_congr_left
    intro i hi
    simp only [Function.comp, List.map_map]
    apply List.map_congr_left
    intro j _
    simp only [Function.comp]
    rw [coded_high]

end field

/-- The exponent is the least sufficient one, if there is one below 10. -/
theorem findSmallest_some (n : Nat) (h : n ≤ 512) :
    ∃ k, findSmallest n = some k ∧ k ≤ 9 ∧ LeastPower n k := by
  unfold findSmallest
  cases hf : (List.range 10).find? fun x => decide (n ≤ 2 ^ x) with
  | none =>
    rw [List.find?_eq_none] at hf
    have := hf 9 (by simp)
    simp only [decide_eq_true_eq] at this
    omega
  | some k =>
    rw [List.find?_range_eq_some] at hf
    obtain ⟨h1, h2, h3⟩ := hf
    refine ⟨k, rfl, by have := List.mem_range.mp h2; omega, by simpa using h1, ?_⟩
    intro k' hk'
    have := h3 k' hk'
    simpa using this

theorem findSmallest_none (n : Nat) (h : 512 < n) : findSmallest n = none := by
  unfold findSmallest
  rw [List.find?_eq_none]
  intro x hx
  have hx := List.mem_range.mp hx
  have : 2 ^ x ≤ 2 ^ 9 := Nat.pow_le_pow_right (by norm_num) (by omega)
  simp only [decide_eq_true_eq]
  omega

theorem leastPower_unique (n k k' : Nat) (h : LeastPower n k) (h' : LeastPower n k') : k = k' := by
  rcases Nat.lt_trichotomy k k' with hlt | heq | hgt
  · exact absurd h.1 (not_le.mpr (h'.2 k hlt))
  · exact heq
  · exact absurd h'.1 (not_le.mpr (h.2 k' hgt))

theorem findSmallest_eq (n k : Nat) (h : n ≤ 512) (hk : LeastPower n k) : findSmallest n = some k := by
  obtain ⟨k', h1, -, h2⟩ := findSmallest_some n h
  rw [h1, leastPower_unique n k k' hk h2]

theorem leastPower_pow (k : Nat) : LeastPower (2 ^ k) k :=
  ⟨le_refl _, fun k' h => Nat.pow_lt_pow_right (by norm_num) h⟩

end SALib
