import Verif.Props.Directions
import Verif.Props.Saltelli

/-! # C24, stratification: with the default skip the base points of a power-of-two sample are an aligned block -/

namespace SALib
open Spec

/-- With the default skip, the base points of a power-of-two sample start at a multiple of the sample size. -/
theorem saltelliSkip_aligned (k skip : Nat) (hskip : saltelliSkip (2 ^ k) none = .ok skip) :
    ∃ b, skip = b * 2 ^ k := by
  have hpos : 0 < 2 ^ k := by positivity
  have hs : skip = max (2 ^ k) 16 := by
    simp only [saltelliSkip, hpos.ne', if_false, Except.ok.injEq] at hskip
    rw [← hskip, Nat.clog_pow 2 k (by norm_num)]
  by_cases h4 : 4 ≤ k
  · refine ⟨1, ?_⟩
    have : 2 ^ 4 ≤ 2 ^ k := Nat.pow_le_pow_right (by norm_num) h4
    rw [hs]; omega
  · refine ⟨2 ^ (4 - k), ?_⟩
    rw [← pow_add, show 4 - k + k = 4 by omega, hs]
    have : 2 ^ k ≤ 2 ^ 4 := Nat.pow_le_pow_right (by norm_num) (by omega)
    omega

variable {α : Type} [Field α] [LinearOrder α] [IsStrictOrderedRing α]

/-- **C24**, stratification: for `N = 2^k` and the default number of skipped points, the `N` base points
that are used (rows `skip, ..., skip + N - 1` of the Sobol sequence; the first half of each row is the A
point, the second half the B point) have exactly one entry in each interval `[i/N, (i+1)/N)`, in every
column. -/
theorem C24_stratified (k L D skip : Nat) (hskip : saltelliSkip (2 ^ k) none = .ok skip)
    (hL : 2 ^ k + skip ≤ 2 ^ L) (hL' : L ≤ 31) (hD : 2 * D ≤ 21201) :
    ∃ M : Mat α, sobolSequence directions L (2 ^ k + skip) (2 * D) = .ok M ∧
      (M.drop skip).length = 2 ^ k ∧
      ∀ d i, d < 2 * D → i < 2 ^ k →
        ∃! n, n < 2 ^ k ∧ ∃ x, colEntry (M.drop skip) d n = some x ∧ InStratum k i x := by
  have hpos : 0 < 2 ^ k := by positivity
  obtain ⟨b, hb⟩ := saltelliSkip_aligned k skip hskip
  have hk : k ≤ 31 := by
    by_contra hk
    have h1 : 2 ^ 31 < 2 ^ k := Nat.pow_lt_pow_right (by norm_num) (by omega)
    have h2 : 2 ^ L ≤ 2 ^ 31 := Nat.pow_le_pow_right (by norm_num) hL'
    omega
  obtain ⟨M, hM, hstrat, -⟩ := C23_all_dimensions (α := α) L (2 ^ k + skip) (2 * D) (by omega) hL hL' hD
  have hlen : M.length = 2 ^ k + skip := by
    obtain ⟨M', hM', hl, -⟩ := C19_range (α := α) directions directions_tableOk L (2 ^ k + skip) (2 * D)
      (by omega) hL hL' (by rw [length_directions]; omega)
    rw [hM] at hM'
    cases hM'
    exact hl
  refine ⟨M, hM, by rw [List.length_drop]; omega, ?_⟩
  intro d i hd hi
  have hmul : (b + 1) * 2 ^ k = 2 ^ k + skip := by rw [hb]; ring
  obtain ⟨n, ⟨h1, h2, x, h3, h4⟩, h5⟩ := hstrat d k b i hd hk (by omega) hi
  refine ⟨n - skip, ⟨by omega, x, ?_, h4⟩, ?_⟩
  · unfold colEntry at h3 ⊢
    rw [List.getElem?_drop, show skip + (n - skip) = n by omega]
    exact h3
  · rintro n' ⟨g1, y, g2, g3⟩
    have := h5 (skip + n') ⟨by omega, by omega, y, by
      unfold colEntry at g2 ⊢
      rwa [List.getElem?_drop] at g2, g3⟩
    omega

/-- The hypotheses are met: 8 samples, default skip 16, 5 bits. -/
example : saltelliSkip (2 ^ 3) none = .ok 16 ∧ 2 ^ 3 + 16 ≤ 2 ^ 5 := by decide

end SALib
