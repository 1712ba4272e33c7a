import Verif.Model.FloatLog
import Verif.Props.SaltelliStrat
import Mathlib.Analysis.SpecialFunctions.Log.Base
import Mathlib.Analysis.Convex.SpecificFunctions.Basic

/-!
# C108: the number of bits of the Sobol sequence by way of a rounded logarithm

`math.ceil(math.log(N) / math.log(2))` is modelled by `Nat.clog 2 N` elsewhere.  Here the quotient of
the two logarithms is any number close to the exact one.
-/

namespace SALib
open Spec

/-- `log2 (1 + t) ≥ t` on the unit interval. -/
theorem le_logb_one_add {t : ℝ} (h0 : 0 ≤ t) (h1 : t ≤ 1) : t ≤ Real.logb 2 (1 + t) := by
  rw [Real.le_logb_iff_rpow_le (by norm_num) (by linarith)]
  have := rpow_one_add_le_one_add_mul_self (s := 1) (by norm_num) h0 h1
  rw [mul_one] at this
  norm_num at this
  exact this

/-- Between two powers of two, whole numbers stay away from the ends. -/
theorem logb_gap_low {N k : Nat} (h : 2 ^ k < N) (hk : N ≤ 2 ^ (k + 1)) :
    (k : ℝ) + 1 / 2 ^ k ≤ Real.logb 2 N := by
  have hp : (0 : ℝ) < 2 ^ k := by positivity
  have h1 : ((2 : ℝ) ^ k) * (1 + 1 / 2 ^ k) ≤ N := by
    rw [mul_add, mul_one, mul_one_div_cancel hp.ne']
    exact_mod_cast h
  have h2 : Real.logb 2 ((2 : ℝ) ^ k * (1 + 1 / 2 ^ k)) = k + Real.logb 2 (1 + 1 / 2 ^ k) := by
    rw [Real.logb_mul hp.ne' (by positivity), Real.logb_pow]
    rw [Real.logb_self_eq_one (by norm_num), mul_one]
  have h3 := le_logb_one_add (t := 1 / 2 ^ k) (by positivity) (by
    rw [div_le_one hp]; exact one_le_pow₀ (by norm_num))
  have h4 := Real.logb_le_logb_of_le (b := 2) (by norm_num) (by positivity) h1
  linarith

theorem logb_gap_high {N k : Nat} (h0 : 0 < N) (h : N < 2 ^ k) :
    Real.logb 2 N ≤ (k : ℝ) - 1 / 2 ^ k := by
  have hp : (0 : ℝ) < 2 ^ k := by positivity
  have hN : (0 : ℝ) < N := by exact_mod_cast h0
  -- `N (1 + 1 / 2 ^ k) ≤ 2 ^ k`
  have h1 : (N : ℝ) * (1 + 1 / 2 ^ k) ≤ 2 ^ k := by
    have a : (N : ℝ) + 1 ≤ 2 ^ k := by exact_mod_cast h
    have b : (N : ℝ) * (1 / 2 ^ k) ≤ 1 := by
      rw [mul_one_div, div_le_one hp]; linarith
    linarith
  have h3 := le_logb_one_add (t := 1 / 2 ^ k) (by positivity) (by
    rw [div_le_one hp]; exact one_le_pow₀ (by norm_num))
  have h4 := Real.logb_le_logb_of_le (b := 2) (by norm_num) (by positivity) h1
  rw [Real.logb_mul hN.ne' (by positivity), Real.logb_pow, Real.logb_self_eq_one (by norm_num),
    mul_one] at h4
  linarith

/-- **C108.** With an error below `2^-32` in the quotient of the logarithms, the bit count of every
`N ≤ 2^31` is the least `L` with `N ≤ 2^L`, or, for a power of two only, one more. -/
theorem C108_bits (N : Nat) (ratio : ℝ) (h0 : 0 < N) (hN : N ≤ 2 ^ 31)
    (herr : |ratio - Real.logb 2 N| ≤ 1 / 2 ^ 32) :
    ∃ L, (N ≤ 2 ^ L ∧ ∀ j, N ≤ 2 ^ j → L ≤ j) ∧
      (bitCount ratio = L ∨ (bitCount ratio = L + 1 ∧ N = 2 ^ L)) := by
  refine ⟨Nat.clog 2 N, ⟨Nat.le_pow_clog (by norm_num) N,
    fun j hj => (Nat.clog_le_iff_le_pow (by norm_num)).mpr hj⟩, ?_⟩
  have hb := abs_le.1 herr
  have hle : N ≤ 2 ^ Nat.clog 2 N := Nat.le_pow_clog (by norm_num) N
  have hL31 : Nat.clog 2 N ≤ 31 := (Nat.clog_le_iff_le_pow (by norm_num)).mpr hN
  have hmin : ∀ k, Nat.clog 2 N = k + 1 → 2 ^ k < N := by
    intro k hk
    by_contra hc
    have := (Nat.clog_le_iff_le_pow (by norm_num)).mpr (not_lt.1 hc)
    omega
  generalize Nat.clog 2 N = L at *
  have hsmall : (1 : ℝ) / 2 ^ 32 < 1 / 2 ^ L := by
    apply one_div_lt_one_div_of_lt (by positivity)
    exact pow_lt_pow_right₀ (by norm_num) (by omega)
  -- the ceiling is at least L
  have hlow : (L : ℤ) ≤ ⌈ratio⌉ := by
    rcases Nat.eq_zero_or_pos L with hz | hz
    · have hN1 : N = 1 := by rw [hz] at hle; omega
      rw [hN1] at hb
      simp only [Nat.cast_one, Real.logb_one, sub_zero] at hb
      rw [hz]
      rw [← sub_nonneg]
      have : (-1 : ℤ) < ⌈ratio⌉ := by
        rw [Int.lt_ceil]; push_cast
        have : (1 : ℝ) / 2 ^ 32 < 1 := by norm_num
        linarith [hb.1]
      push_cast; omega
    · obtain ⟨k, rfl⟩ : ∃ k, L = k + 1 := ⟨L - 1, by omega⟩
      have h1 := logb_gap_low (hmin k rfl) hle
      have h2 : (1 : ℝ) / 2 ^ 32 < 1 / 2 ^ k := by
        apply one_div_lt_one_div_of_lt (by positivity)
        exact pow_lt_pow_right₀ (by norm_num) (by omega)
      have h3 : (k : ℤ) < ⌈ratio⌉ := by
        rw [Int.lt_ceil]; push_cast; linarith
      push_cast; omega
  unfold bitCount
  rcases hle.lt_or_eq with hlt | heq
  · left
    have h1 := logb_gap_high h0 hlt
    have h2 : ⌈ratio⌉ ≤ (L : ℤ) := by rw [Int.ceil_le]; push_cast; linarith
    omega
  · have h1 : Real.logb 2 N = L := by
      rw [heq]; push_cast
      rw [Real.logb_pow, Real.logb_self_eq_one (by norm_num), mul_one]
    have h2 : ⌈ratio⌉ ≤ (L : ℤ) + 1 := by
      rw [Int.ceil_le]; push_cast
      have : (1 : ℝ) / 2 ^ 32 ≤ 1 := by norm_num
      linarith
    rcases h2.lt_or_eq with h | h
    · left; omega
    · right; exact ⟨by omega, heq⟩

variable {α : Type} [Field α] [LinearOrder α] [IsStrictOrderedRing α]

/-- **C108**, the sequence: whatever the rounding made of the bit count, the points are those of the
exact count. -/
theorem C108_sequence (N D : Nat) (ratio : ℝ) (h0 : 0 < N) (hN : N ≤ 2 ^ 30) (hD : D ≤ 21201)
    (herr : |ratio - Real.logb 2 N| ≤ 1 / 2 ^ 32) :
    ∃ M : Mat α, sobolSequence directions (bitCount ratio) N D = .ok M ∧
      ∀ L, N ≤ 2 ^ L → L ≤ 31 → sobolSequence directions L N D = .ok M := by
  obtain ⟨L, ⟨hL, hmin⟩, hb⟩ := C108_bits N ratio h0 (by omega) herr
  have hL30 : L ≤ 30 := hmin 30 hN
  have hb1 : N ≤ 2 ^ bitCount ratio := by
    rcases hb with h | ⟨h, -⟩
    · rwa [h]
    · rw [h]; exact hL.trans (Nat.pow_le_pow_right (by norm_num) (by omega))
  have hb2 : bitCount ratio ≤ 31 := by omega
  have hD' : D ≤ directions.length + 1 := by rw [length_directions]; omega
  obtain ⟨M, M', hM, -, -⟩ := C21_prefix (α := α) directions directions_tableOk (bitCount ratio)
    (bitCount ratio) N N D h0 le_rfl hb1 hb1 hb2 hb2 hD'
  refine ⟨M, hM, fun L' hL' h31 => ?_⟩
  obtain ⟨A, B, hA, hB, hAB⟩ := C21_prefix (α := α) directions directions_tableOk (bitCount ratio)
    L' N N D h0 le_rfl hb1 hL' hb2 h31 hD'
  obtain ⟨C, hC, hl, -⟩ := C19_range (α := α) directions directions_tableOk L' N D h0 hL' h31 hD'
  rw [hM] at hA
  cases hA
  rw [hB] at hC
  cases hC
  rw [hB, ← hAB, List.take_of_length_le (by omega)]

/-- **C108**, the skipped points: by default `saltelli.sample` skips a power of two that is at least
`N`, so that `N = 2^k` base points are still one per interval of length `1/N` in every column. -/
theorem C108_skip (k L D : Nat) (ratio : ℝ) (hk : k ≤ 29)
    (herr : |ratio - Real.logb 2 ((2 ^ k : Nat) : ℝ)| ≤ 1 / 2 ^ 32)
    (hL : 2 ^ k + skipOf ratio ≤ 2 ^ L) (hL' : L ≤ 31) (hD : 2 * D ≤ 21201) :
    2 ^ k ≤ skipOf ratio ∧ skipOf ratio ≤ max (2 ^ (k + 1)) 16 ∧
    ∃ M : Mat α, sobolSequence directions L (2 ^ k + skipOf ratio) (2 * D) = .ok M ∧
      (M.drop (skipOf ratio)).length = 2 ^ k ∧
      ∀ d i, d < 2 * D → i < 2 ^ k →
        ∃! n, n < 2 ^ k ∧ ∃ x, colEntry (M.drop (skipOf ratio)) d n = some x ∧ InStratum k i x := by
  have hpos : 0 < 2 ^ k := by positivity
  have hle31 : 2 ^ k ≤ 2 ^ 31 := Nat.pow_le_pow_right (by norm_num) (by omega)
  obtain ⟨K, ⟨h1, h2⟩, h3⟩ := C108_bits (2 ^ k) ratio hpos hle31 herr
  have hK : K = k := by
    have a := h2 k le_rfl
    have b := (Nat.pow_le_pow_iff_right (by norm_num : 1 < 2)).1 h1
    omega
  subst hK
  have hbc : bitCount ratio = K ∨ bitCount ratio = K + 1 := by omega
  have hge : K ≤ bitCount ratio := by omega
  have hs : skipOf ratio = max (2 ^ bitCount ratio) 16 := rfl
  have hpk : 2 ^ K ≤ 2 ^ bitCount ratio := Nat.pow_le_pow_right (by norm_num) hge
  refine ⟨by omega, ?_, ?_⟩
  · have : 2 ^ bitCount ratio ≤ 2 ^ (K + 1) := Nat.pow_le_pow_right (by norm_num) (by omega)
    omega
  -- aligned
  obtain ⟨b, hb⟩ : ∃ b, skipOf ratio = b * 2 ^ K := by
    rcases le_total 4 (bitCount ratio) with h4 | h4
    · have : 2 ^ 4 ≤ 2 ^ bitCount ratio := Nat.pow_le_pow_right (by norm_num) h4
      exact ⟨2 ^ (bitCount ratio - K), by
        rw [← pow_add, Nat.sub_add_cancel hge, hs]; omega⟩
    · have : 2 ^ bitCount ratio ≤ 2 ^ 4 := Nat.pow_le_pow_right (by norm_num) h4
      exact ⟨2 ^ (4 - K), by
        rw [← pow_add, Nat.sub_add_cancel (by omega), hs]; omega⟩
  generalize skipOf ratio = skip at *
  obtain ⟨M, hM, hstrat, -⟩ := C23_all_dimensions (α := α) L (2 ^ K + skip) (2 * D) (by omega) hL hL' hD
  have hlen : M.length = 2 ^ K + skip := by
    obtain ⟨M', hM', hl, -⟩ := C19_range (α := α) directions directions_tableOk L (2 ^ K + skip) (2 * D)
      (by omega) hL hL' (by rw [length_directions]; omega)
    rw [hM] at hM'
    cases hM'
    exact hl
  refine ⟨M, hM, by rw [List.length_drop]; omega, ?_⟩
  intro d i hd hi
  have hmul : (b + 1) * 2 ^ K = 2 ^ K + skip := by rw [hb]; ring
  obtain ⟨n, ⟨g1, g2, x, g3, g4⟩, g5⟩ := hstrat d K b i hd (by omega) (by omega) hi
  refine ⟨n - skip, ⟨by omega, x, ?_, g4⟩, ?_⟩
  · unfold colEntry at g3 ⊢
    rw [List.getElem?_drop, show skip + (n - skip) = n by omega]
    exact g3
  · rintro n' ⟨k1, y, k2, k3⟩
    have := g5 (skip + n') ⟨by omega, by omega, y, by
      unfold colEntry at k2 ⊢
      rwa [List.getElem?_drop] at k2, k3⟩
    omega

/-- Both cases of `C108_bits` occur: 1000 points need 10 bits, and `2^29` points get 30 bits when the
quotient of the logarithms comes out as `29 + 2^-48`. -/
example : |Real.logb 2 ((1000 : Nat) : ℝ) - Real.logb 2 ((1000 : Nat) : ℝ)| ≤ 1 / 2 ^ 32 ∧
    |(29 + 1 / 2 ^ 48 : ℝ) - Real.logb 2 ((2 ^ 29 : Nat) : ℝ)| ≤ 1 / 2 ^ 32 ∧
    bitCount (29 + 1 / 2 ^ 48) = 30 ∧ skipOf (29 + 1 / 2 ^ 48) = 2 ^ 30 := by
  have hc : ⌈(29 + 1 / 2 ^ 48 : ℝ)⌉ = 30 := by rw [Int.ceil_eq_iff]; norm_num
  have hb : bitCount (29 + 1 / 2 ^ 48) = 30 := by unfold bitCount; rw [hc]; rfl
  refine ⟨by simp, ?_, hb, by unfold skipOf; rw [hb]; norm_num⟩
  rw [Nat.cast_pow, Real.logb_pow, Nat.cast_two, Real.logb_self_eq_one (by norm_num)]
  norm_num [abs_le]

/-- The hypotheses of `C108_skip` are met: 8 points, exact logarithm, 5 bits, two parameters. -/
example : |(3 : ℝ) - Real.logb 2 ((2 ^ 3 : Nat) : ℝ)| ≤ 1 / 2 ^ 32 ∧ 2 ^ 3 + skipOf 3 ≤ 2 ^ 5 := by
  have hb : bitCount 3 = 3 := by
    unfold bitCount
    rw [show (3 : ℝ) = ((3 : ℤ) : ℝ) by norm_num, Int.ceil_intCast]; rfl
  constructor
  · rw [Nat.cast_pow, Real.logb_pow, Nat.cast_two, Real.logb_self_eq_one (by norm_num)]
    norm_num
  · unfold skipOf; rw [hb]; norm_num

end SALib
