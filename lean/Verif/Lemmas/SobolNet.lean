import Verif.Lemmas.ShiftRec
import Verif.Props.SobolSeq
import Mathlib.LinearAlgebra.Dual.Lemmas
import Mathlib.GroupTheory.Index
import Mathlib.Algebra.CharP.Two
import Mathlib.Data.Fintype.BigOperators
import Mathlib.Data.Fintype.Sigma
import Mathlib.Data.ZMod.Basic

/-! # Counting the points of the Sobol sequence in dyadic boxes -/

namespace SALib
open Spec

/-- Binary digit `i` of `x`, in the field of two elements. -/
def zbit (x i : ℕ) : ZMod 2 := if x.testBit i then 1 else 0

theorem zbit_zero (i : ℕ) : zbit 0 i = 0 := by simp [zbit]

theorem zbit_xor (x y i : ℕ) : zbit (x ^^^ y) i = zbit x i + zbit y i := by
  unfold zbit
  rw [Nat.testBit_xor]
  cases x.testBit i <;> cases y.testBit i <;> decide

theorem zbit_inj (x y i j : ℕ) : zbit x i = zbit y j ↔ x.testBit i = y.testBit j := by
  unfold zbit
  cases x.testBit i <;> cases y.testBit j <;> decide

/-- Row `b` of the generator matrix of direction numbers `v`: the digit of weight `2^-(b+1)` of each. -/
def dimRow (v : ℕ → ℕ) (b j : ℕ) : ZMod 2 := zbit (v (j + 1)) (30 - b)

/-- The direction numbers of the first dimension. -/
def topBit (j : ℕ) : ℕ := 2 ^ (31 - j)

theorem topBit_dirNum (j : ℕ) (h1 : 1 ≤ j) (hj : j ≤ 31) : DirNum j (topBit j) := by
  have := dirNum_shift j 1 h1 hj (by decide) (Nat.one_lt_two_pow (by omega))
  rwa [Nat.one_shiftLeft] at this

/-- The digits of the Gray code of `n`: which direction numbers enter `X_n`. -/
def gray (n j : ℕ) : ZMod 2 := zbit (xSeq topBit n) (30 - j)

theorem gray_succ (n j : ℕ) (hj : j < 31) (hn : leastZeroBit n ≤ 31) :
    gray (n + 1) j = gray n j + if leastZeroBit n = j + 1 then 1 else 0 := by
  unfold gray
  rw [xSeq, zbit_xor]
  congr 1
  have := one_le_leastZeroBit n
  unfold zbit topBit
  rw [Nat.testBit_two_pow]
  by_cases h : leastZeroBit n = j + 1
  · simp [h]
  · simp [h]; omega

theorem leastZeroBit_lt (m n : ℕ) (hn : n + 1 < 2 ^ m) : leastZeroBit n ≤ m :=
  leastZeroBit_le m n (by rw [Nat.mod_eq_of_lt (by omega)]; omega)

/-- `X_n` is a linear function of the Gray code digits. -/
theorem xSeq_bits (v : ℕ → ℕ) (m : ℕ) (hm : m ≤ 31) (i n : ℕ) (hn : n < 2 ^ m) :
    zbit (xSeq v n) i = ∑ j : Fin m, gray n j * zbit (v (j + 1)) i := by
  induction n with
  | zero => simp [xSeq, gray, zbit_zero]
  | succ n ih =>
    have h1 := one_le_leastZeroBit n
    have h2 := leastZeroBit_lt m n hn
    rw [xSeq, zbit_xor, ih (by omega)]
    have : ∀ j : Fin m, gray (n + 1) j * zbit (v (j + 1)) i =
        gray n j * zbit (v (j + 1)) i +
          if j = ⟨leastZeroBit n - 1, by omega⟩ then zbit (v (leastZeroBit n)) i else 0 := by
      intro j
      rw [gray_succ n j (by omega) (by omega), add_mul]
      congr 1
      by_cases h : leastZeroBit n = j + 1
      · rw [if_pos h, if_pos (Fin.ext (by simp; omega)), one_mul, h]
      · rw [if_neg h, if_neg (fun e => h (by have := congrArg Fin.val e; simp at this; omega)), zero_mul]
    rw [Finset.sum_congr rfl fun j _ => this j, Finset.sum_add_distrib, Finset.sum_ite_eq']
    simp

theorem gray_bij (m : ℕ) (hm : m ≤ 31) :
    Function.Bijective fun (n : Fin (2 ^ m)) (j : Fin m) => gray n j := by
  rw [Fintype.bijective_iff_injective_and_card]
  refine ⟨?_, by simp⟩
  intro n n' h
  apply Fin.ext
  refine xSeq_inj topBit m hm (fun j h1 h2 => topBit_dirNum j h1 (by omega)) n n' n.2 n'.2 ?_
  apply Nat.eq_of_testBit_eq
  intro i
  rw [Nat.testBit_shiftRight, Nat.testBit_shiftRight]
  by_cases hi : i < m
  · have := congrFun h ⟨m - 1 - i, by omega⟩
    simp only [gray] at this
    rw [zbit_inj, show 30 - (m - 1 - i) = 31 - m + i by omega] at this
    exact this
  · have hlow : ∀ n : Fin (2 ^ m), (xSeq topBit n).testBit (31 - m + i) = false := fun n =>
      Nat.testBit_eq_false_of_lt (lt_of_lt_of_le
        (xSeq_low topBit m hm (fun j h1 h2 => topBit_dirNum j h1 (by omega)) n n.2).1
        (Nat.pow_le_pow_right (by norm_num) (by omega)))
    rw [hlow n, hlow n']

/-- The `k` leading digits, one by one. -/
theorem shiftRight_eq_iff (k i X : ℕ) (hk : k ≤ 31) (hX : X < 2 ^ 31) (hi : i < 2 ^ k) :
    X >>> (31 - k) = i ↔ ∀ b < k, zbit X (30 - b) = zbit i (k - 1 - b) := by
  constructor
  · rintro rfl b hb
    rw [zbit_inj, Nat.testBit_shiftRight]
    congr 1; omega
  · intro h
    apply Nat.eq_of_testBit_eq
    intro a
    rw [Nat.testBit_shiftRight]
    by_cases ha : a < k
    · have := h (k - 1 - a) (by omega)
      rw [zbit_inj, show 30 - (k - 1 - a) = 31 - k + a by omega, show k - 1 - (k - 1 - a) = a by omega] at this
      exact this
    · rw [Nat.testBit_eq_false_of_lt (lt_of_lt_of_le hX (Nat.pow_le_pow_right (by norm_num) (by omega))),
        Nat.testBit_eq_false_of_lt (lt_of_lt_of_le hi (Nat.pow_le_pow_right (by norm_num) (by omega)))]

/-- A linear map whose rows are independent meets every value equally often. -/
theorem linear_fibre {R : Type} [Fintype R] [DecidableEq R] (m : ℕ) (c : R → Fin m → ZMod 2)
    (hind : ∀ l : R → ZMod 2, (∀ j, ∑ r, l r * c r j = 0) → ∀ r, l r = 0) (y : R → ZMod 2) :
    (Finset.univ.filter fun g : Fin m → ZMod 2 => (fun r => ∑ j, g j * c r j) = y).card * 2 ^ Fintype.card R = 2 ^ m := by
  let A : (Fin m → ZMod 2) →ₗ[ZMod 2] (R → ZMod 2) :=
    { toFun := fun g r => ∑ j, g j * c r j
      map_add' := by
        intro g g'
        funext r
        simp [add_mul, Finset.sum_add_distrib]
      map_smul' := by
        intro t g
        funext r
        simp [Finset.mul_sum, mul_assoc] }
  have hsurj : Function.Surjective A := by
    rw [← LinearMap.range_eq_top]
    by_contra hne
    obtain ⟨f, hf0, hf⟩ := Submodule.exists_le_ker_of_lt_top _ (lt_top_iff_ne_top.mpr hne)
    apply hf0
    have hsum : ∀ x : R → ZMod 2, f x = ∑ r, f (Pi.single r 1) * x r := by
      intro x
      conv_lhs => rw [pi_eq_sum_univ' x]
      simp [map_sum, mul_comm]
    have hz : ∀ r, f (Pi.single r 1) = 0 := by
      apply hind
      intro j
      have : f (A (Pi.single j 1)) = 0 := hf ⟨_, rfl⟩
      rw [hsum] at this
      rw [← this]
      refine Finset.sum_congr rfl fun r _ => ?_
      congr 1
      simp [A, Pi.single_apply]
    ext r
    simpa using hz r
  have hconst : ∀ z : R → ZMod 2, (Finset.univ.filter fun g => A g = z).card =
      (Finset.univ.filter fun g => A g = y).card := fun z =>
    AddMonoidHom.card_fiber_eq_of_mem_range A (hsurj z) (hsurj y)
  have htot : Fintype.card (Fin m → ZMod 2) = ∑ z : R → ZMod 2, (Finset.univ.filter fun g => A g = z).card :=
    Finset.card_eq_sum_card_fiberwise (fun _ _ => Finset.mem_coe.mpr (Finset.mem_univ _))
  rw [Finset.sum_congr rfl fun z _ => hconst z, Finset.sum_const] at htot
  simp only [Fintype.card_fun, ZMod.card, Fintype.card_fin, smul_eq_mul, Finset.card_univ] at htot
  rw [mul_comm, htot]
  rfl

/-- If the leading rows selected by `k` are independent on the first `m` columns, every block of `2^m` indices
starting at a multiple of `2^m` meets every combination of leading digits equally often. -/
theorem net_count {ι : Type} [DecidableEq ι] (S : Finset ι) (v : ι → ℕ → ℕ)
    (hv : ∀ d ∈ S, ∀ j, 1 ≤ j → j ≤ 31 → DirNum j (v d j)) (k : ι → ℕ) (hk : ∀ d ∈ S, k d ≤ 31) (m : ℕ)
    (hm : m ≤ 31)
    (hind : ∀ l : ι → ℕ → ZMod 2,
      (∀ j < m, ∑ d ∈ S, ∑ b ∈ Finset.range (k d), l d b * dimRow (v d) b j = 0) → ∀ d ∈ S, ∀ b < k d, l d b = 0)
    (B : ℕ) (hB : (B + 1) * 2 ^ m ≤ 2 ^ 31) (i : ι → ℕ) (hi : ∀ d ∈ S, i d < 2 ^ k d) :
    ((Finset.Ico (B * 2 ^ m) ((B + 1) * 2 ^ m)).filter fun n =>
      ∀ d ∈ S, xSeq (v d) n >>> (31 - k d) = i d).card * 2 ^ (∑ d ∈ S, k d) = 2 ^ m := by
  let R := Σ d : S, Fin (k d)
  let c : R → Fin m → ZMod 2 := fun r j => dimRow (v r.1) r.2 j
  let y : R → ZMod 2 := fun r => zbit (i r.1) (k r.1 - 1 - r.2) + zbit (xSeq (v r.1) (B * 2 ^ m)) (30 - r.2)
  have hmul : (B + 1) * 2 ^ m = B * 2 ^ m + 2 ^ m := by ring
  have hcardR : Fintype.card R = ∑ d ∈ S, k d := by
    rw [Fintype.card_sigma]
    simp only [Fintype.card_fin]
    exact Finset.sum_coe_sort S k
  have hindR : ∀ l : R → ZMod 2, (∀ j, ∑ r, l r * c r j = 0) → ∀ r, l r = 0 := by
    intro l hl
    let l' : ι → ℕ → ZMod 2 := fun d b => if h : ∃ hd : d ∈ S, b < k d then l ⟨⟨d, h.1⟩, ⟨b, h.2⟩⟩ else 0
    have hl' : ∀ (d : S) (b : Fin (k d)), l' d b = l ⟨d, b⟩ := by
      intro d b
      simp only [l']
      rw [dif_pos ⟨d.2, b.2⟩]
    rintro ⟨d, b⟩
    rw [← hl']
    refine hind l' ?_ d d.2 b b.2
    intro j hj
    have := hl ⟨j, hj⟩
    rw [Fintype.sum_sigma] at this
    rw [← this, ← Finset.sum_coe_sort S]
    refine Finset.sum_congr rfl fun d _ => ?_
    rw [← Fin.sum_univ_eq_sum_range (fun b => l' d b * dimRow (v d) b j)]
    exact Finset.sum_congr rfl fun b _ => by rw [hl']
  have hfib := linear_fibre m c hindR y
  rw [hcardR] at hfib
  refine Eq.trans ?_ hfib
  congr 1
  have hkey : ∀ a < 2 ^ m, (∀ d ∈ S, xSeq (v d) (B * 2 ^ m + a) >>> (31 - k d) = i d) ↔
      (fun r => ∑ j, gray a (j : Fin m) * c r j) = y := by
    intro a ha
    have hdig : ∀ d ∈ S, ∀ b, zbit (xSeq (v d) (B * 2 ^ m + a)) (30 - b) =
        zbit (xSeq (v d) (B * 2 ^ m)) (30 - b) + ∑ j : Fin m, gray a j * dimRow (v d) b j := by
      intro d _ b
      rw [xSeq_block (v d) m B a ha, zbit_xor, xSeq_bits (v d) m hm _ a ha]
      rfl
    have hone : ∀ d ∈ S, xSeq (v d) (B * 2 ^ m + a) >>> (31 - k d) = i d ↔
        ∀ b < k d, ∑ j : Fin m, gray a j * dimRow (v d) b j =
          zbit (i d) (k d - 1 - b) + zbit (xSeq (v d) (B * 2 ^ m)) (30 - b) := by
      intro d hd
      rw [shiftRight_eq_iff (k d) (i d) _ (hk d hd) (xSeq_lt (v d) (hv d hd) _ (by omega)) (hi d hd)]
      refine forall₂_congr fun b _ => ?_
      rw [hdig d hd b]
      constructor
      · intro h
        rw [← h, add_right_comm, CharTwo.add_self_eq_zero, zero_add]
      · intro h
        rw [h, add_left_comm, CharTwo.add_self_eq_zero, add_zero]
    rw [forall₂_congr hone]
    constructor
    · intro h
      funext r
      exact h r.1 r.1.2 r.2 r.2.2
    · intro h d hd b hb
      exact congrFun h ⟨⟨d, hd⟩, ⟨b, hb⟩⟩
  refine Finset.card_bij (fun n _ => fun j : Fin m => gray (n - B * 2 ^ m) j) ?_ ?_ ?_
  · intro n hn
    rw [Finset.mem_filter, Finset.mem_Ico] at hn
    rw [Finset.mem_filter]
    refine ⟨Finset.mem_univ _, ?_⟩
    rw [← hkey (n - B * 2 ^ m) (by omega), show B * 2 ^ m + (n - B * 2 ^ m) = n by omega]
    exact hn.2
  · intro n hn n' hn' h
    rw [Finset.mem_filter, Finset.mem_Ico] at hn hn'
    have := (gray_bij m hm).1 (a₁ := ⟨n - B * 2 ^ m, by omega⟩) (a₂ := ⟨n' - B * 2 ^ m, by omega⟩) h
    have := congrArg Fin.val this
    simp only at this
    omega
  · intro g hg
    rw [Finset.mem_filter] at hg
    obtain ⟨a, ha⟩ := (gray_bij m hm).2 g
    have ha2 := a.2
    refine ⟨B * 2 ^ m + a, ?_, ?_⟩
    · rw [Finset.mem_filter, Finset.mem_Ico]
      refine ⟨by omega, ?_⟩
      rw [hkey a a.2]
      rw [← ha] at hg
      exact hg.2
    · simp only [Nat.add_sub_cancel_left]
      exact ha

end SALib
