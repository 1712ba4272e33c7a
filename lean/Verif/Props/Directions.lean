import Verif.Model.Directions
import Verif.Props.SobolSeq
import Mathlib.Algebra.Order.Group.Nat

/-! # C23: the shipped table is well formed, so C19-C22 hold for every dimension up to 21201

The table is checked by evaluation in the kernel, on the codes of `Verif/Data`; the check is then shown
to imply the statement about the decoded rows. -/

namespace SALib
open Spec

/-- `f n`, evaluating `n` first (kernel evaluation is by name otherwise). -/
def force {β : Type} (n : Nat) (f : Nat → β) : β := Nat.rec (f 0) (fun k _ => f (k + 1)) n

theorem force_eq {β : Type} (n : Nat) (f : Nat → β) : force n f = f n := by cases n <;> rfl

/-- Check of the fields of a code from the last to the first: `j` initial numbers, then the polynomial
code (below `bound`) and the leading 1. -/
def codeOk (bound : Nat) : Nat → Nat → Bool
  | 0, n => Nat.ble 1000000 n && Nat.blt n (1000000 + bound)
  | j + 1, n =>
    force (n % 1000000) fun x => x.testBit 0 && Nat.blt x (2 ^ (j + 1)) &&
      force (n / 1000000) fun n' => codeOk bound j n'

theorem codeOk_pos (bound j n : Nat) (h : codeOk bound j n = true) : 1 < n := by
  induction j generalizing n with
  | zero => simp [codeOk] at h; omega
  | succ j ih =>
    simp only [codeOk, force_eq, Bool.and_eq_true] at h
    have := ih _ h.2
    omega

theorem codeOk_row (bound j n fuel : Nat) (hb : bound ≤ 1000000) (hf : j + 2 ≤ fuel)
    (h : codeOk bound j n = true) :
    ∃ a ms, a < bound ∧ a = n / 1000000 ^ j - 1000000 ∧ ms.length = j ∧
      (∀ (i : Nat) x, ms[i]? = some x → Odd x ∧ x < 2 ^ (i + 1)) ∧
      ∀ acc, decodeRow fuel n acc = a :: ms ++ acc := by
  induction j generalizing n fuel with
  | zero =>
    obtain ⟨fuel, rfl⟩ : ∃ f, fuel = f + 2 := ⟨fuel - 2, by omega⟩
    simp only [codeOk, Bool.and_eq_true, Nat.ble_eq, Nat.blt_eq] at h
    refine ⟨n - 1000000, [], by omega, by simp, rfl, by simp, ?_⟩
    intro acc
    rw [decodeRow, if_neg (by omega), decodeRow, if_pos (by omega)]
    simp; omega
  | succ j ih =>
    obtain ⟨fuel, rfl⟩ : ∃ f, fuel = f + 1 := ⟨fuel - 1, by omega⟩
    have hpos := codeOk_pos _ _ _ h
    simp only [codeOk, force_eq, Bool.and_eq_true, Nat.blt_eq] at h
    obtain ⟨⟨h1, h2⟩, h3⟩ := h
    obtain ⟨a, ms, i1, i2, i3, i4, i5⟩ := ih (n / 1000000) fuel (by omega) h3
    refine ⟨a, ms ++ [n % 1000000], i1, ?_, by simp [i3], ?_, ?_⟩
    · rw [i2, Nat.div_div_eq_div_mul, Nat.pow_succ']
    · intro i x hx
      rw [List.getElem?_append] at hx
      split at hx
      · exact i4 i x hx
      · have hi : i = ms.length := by
          by_contra hne
          rw [List.getElem?_eq_none (by simp; omega)] at hx
          cases hx
        subst hi
        simp only [Nat.sub_self, List.getElem?_cons_zero, Option.some.injEq] at hx
        subst hx
        rw [i3]
        refine ⟨?_, h2⟩
        rw [Nat.testBit_zero] at h1
        rw [Nat.odd_iff]
        simpa using h1
    · intro acc
      rw [decodeRow, if_neg (by omega), i5]
      simp

/-- Checks a list of codes of rows with `s` initial numbers: each is well formed, and the polynomial
codes increase strictly from `k` (exclusive) on, ending at `k'`. -/
def codesOk (s k k' : Nat) : List Nat → Bool
  | [] => k == k'
  | n :: l =>
    codeOk (2 ^ (s - 1)) s n &&
      force (n / 1000000 ^ s) fun key => Nat.blt k key && codesOk s key k' l

/-- Rows ordered by degree, then by polynomial code. -/
def Spec.RowBefore (m m' : List Nat) : Prop :=
  m.length < m'.length ∨ (m.length = m'.length ∧ m.headD 0 < m'.headD 0)

/-- A row `a, m_1, ..., m_s` with `s ≥ 1`, `a < 2^(s-1)`, every `m_j` odd and below `2^j`. -/
def Spec.FullRowOk (m : List Nat) : Prop :=
  RowOk m ∧ m.headD 0 < 2 ^ (m.length - 2)

/-- Summary of a checked piece of the table, between keys `(d, k)` (exclusive) and `(d', k')`. -/
structure Piece (d k d' k' : Nat) (l : List Nat) : Prop where
  rows : ∀ n ∈ l, FullRowOk (decodeRow 32 n [])
  after : ∀ n ∈ l, d < (decodeRow 32 n []).length - 1 ∨ (d = (decodeRow 32 n []).length - 1 ∧
      k < 1000000 + (decodeRow 32 n []).headD 0)
  upTo : ∀ n ∈ l, (decodeRow 32 n []).length - 1 < d' ∨ ((decodeRow 32 n []).length - 1 = d' ∧
      1000000 + (decodeRow 32 n []).headD 0 ≤ k')
  order : d < d' ∨ (d = d' ∧ k ≤ k')
  sorted : (l.map fun n => decodeRow 32 n []).Pairwise RowBefore

theorem two_le_of_fullRow {m : List Nat} (h : FullRowOk m) : 2 ≤ m.length := by
  obtain ⟨⟨a', ms', he, hne, -⟩, -⟩ := h
  rw [he]
  have := List.length_pos_iff.mpr hne
  simp; omega

theorem Piece.append {d k d' k' d'' k'' : Nat} {l l' : List Nat} (h : Piece d k d' k' l)
    (h' : Piece d' k' d'' k'' l') : Piece d k d'' k'' (l ++ l') := by
  refine ⟨?_, ?_, ?_, ?_, ?_⟩
  · intro n hn
    rcases List.mem_append.mp hn with hn | hn
    · exact h.rows n hn
    · exact h'.rows n hn
  · intro n hn
    rcases List.mem_append.mp hn with hn | hn
    · exact h.after n hn
    · have := h'.after n hn; have := h.order; omega
  · intro n hn
    rcases List.mem_append.mp hn with hn | hn
    · have := h.upTo n hn; have := h'.order; omega
    · exact h'.upTo n hn
  · have := h.order; have := h'.order; omega
  · rw [List.map_append, List.pairwise_append]
    refine ⟨h.sorted, h'.sorted, ?_⟩
    intro m hm m' hm'
    obtain ⟨n, hn, rfl⟩ := List.mem_map.mp hm
    obtain ⟨n', hn', rfl⟩ := List.mem_map.mp hm'
    have h1 := h.upTo n hn
    have h2 := h'.after n' hn'
    have h3 := two_le_of_fullRow (h.rows n hn)
    have h4 := two_le_of_fullRow (h'.rows n' hn')
    unfold RowBefore
    omega

theorem codeOk_key (bound s n : Nat) (h : codeOk bound s n = true) : 1000000 ≤ n / 1000000 ^ s := by
  induction s generalizing n with
  | zero => simp [codeOk] at h; simp; omega
  | succ s ih =>
    simp only [codeOk, force_eq, Bool.and_eq_true] at h
    have := ih _ h.2
    rwa [Nat.div_div_eq_div_mul, ← Nat.pow_succ'] at this

theorem codesOk_piece (s k k' : Nat) (l : List Nat) (hs : 1 ≤ s) (hs' : s ≤ 20)
    (h : codesOk s k k' l = true) : Piece s k s k' l := by
  induction l generalizing k with
  | nil =>
    simp only [codesOk, beq_iff_eq] at h
    exact ⟨by simp, by simp, by simp, by omega, by simp⟩
  | cons n l ih =>
    simp only [codesOk, force_eq, Bool.and_eq_true, Nat.blt_eq] at h
    obtain ⟨h3, h4, h5⟩ := h
    have hb : 2 ^ (s - 1) ≤ 1000000 :=
      (Nat.pow_le_pow_right (by norm_num) (show s - 1 ≤ 19 by omega)).trans (by norm_num)
    obtain ⟨a, ms, i1, i2, i3, i4, i5⟩ := codeOk_row (2 ^ (s - 1)) s n 32 hb (by omega) h3
    have hdec : decodeRow 32 n [] = a :: ms := by simpa using i5 []
    have hkey := codeOk_key _ _ _ h3
    have hp := ih _ h5
    generalize n / 1000000 ^ s = key at i2 hkey hp h4
    have hone : Piece s k s key [n] := by
      refine ⟨?_, ?_, ?_, by omega, by simp⟩
      · intro x hx
        rw [List.mem_singleton.mp hx, hdec]
        refine ⟨⟨a, ms, rfl, ?_, i4⟩, ?_⟩
        · rintro rfl; simp at i3; omega
        · simpa [i3] using i1
      · intro x hx
        rw [List.mem_singleton.mp hx, hdec]
        right
        refine ⟨by simp [i3], ?_⟩
        show _ < _ + a
        omega
      · intro x hx
        rw [List.mem_singleton.mp hx, hdec]
        right
        refine ⟨by simp [i3], ?_⟩
        show _ + a ≤ _
        omega
    exact hone.append hp

theorem Piece.weaken {d k d0 k0 d' k' : Nat} {l : List Nat} (h : Piece d k d' k' l)
    (hle : d0 < d ∨ (d0 = d ∧ k0 ≤ k)) : Piece d0 k0 d' k' l :=
  ⟨h.rows, fun n hn => by have := h.after n hn; omega, h.upTo,
    by have := h.order; omega, h.sorted⟩

set_option maxRecDepth 100000 in
theorem dir1_0_ok : codesOk 1 0 1000000 Data.dir1_0.flatten = true := by decide +kernel

set_option maxRecDepth 100000 in
theorem dir2_0_ok : codesOk 2 0 1000001 Data.dir2_0.flatten = true := by decide +kernel

set_option maxRecDepth 100000 in
theorem dir3_0_ok : codesOk 3 0 1000002 Data.dir3_0.flatten = true := by decide +kernel

set_option maxRecDepth 100000 in
theorem dir4_0_ok : codesOk 4 0 1000004 Data.dir4_0.flatten = true := by decide +kernel

set_option maxRecDepth 100000 in
theorem dir5_0_ok : codesOk 5 0 1000014 Data.dir5_0.flatten = true := by decide +kernel

set_option maxRecDepth 100000 in
theorem dir6_0_ok : codesOk 6 0 1000025 Data.dir6_0.flatten = true := by decide +kernel

set_option maxRecDepth 100000 in
theorem dir7_0_ok : codesOk 7 0 1000062 Data.dir7_0.flatten = true := by decide +kernel

set_option maxRecDepth 100000 in
theorem dir8_0_ok : codesOk 8 0 1000122 Data.dir8_0.flatten = true := by decide +kernel

set_option maxRecDepth 100000 in
theorem dir9_0_ok : codesOk 9 0 1000253 Data.dir9_0.flatten = true := by decide +kernel

set_option maxRecDepth 100000 in
theorem dir10_0_ok : codesOk 10 0 1000508 Data.dir10_0.flatten = true := by decide +kernel

set_option maxRecDepth 100000 in
theorem dir11_0_ok : codesOk 11 0 1001012 Data.dir11_0.flatten = true := by decide +kernel

set_option maxRecDepth 100000 in
theorem dir12_0_ok : codesOk 12 0 1002020 Data.dir12_0.flatten = true := by decide +kernel

set_option maxRecDepth 100000 in
theorem dir13_0_ok : codesOk 13 0 1004094 Data.dir13_0.flatten = true := by decide +kernel

set_option maxRecDepth 100000 in
theorem dir14_0_ok : codesOk 14 0 1008179 Data.dir14_0.flatten = true := by decide +kernel

set_option maxRecDepth 100000 in
theorem dir15_0_ok : codesOk 15 0 1016382 Data.dir15_0.flatten = true := by decide +kernel

set_option maxRecDepth 100000 in
theorem dir16_0_ok : codesOk 16 0 1032758 Data.dir16_0.flatten = true := by decide +kernel

set_option maxRecDepth 100000 in
theorem dir17_0_ok : codesOk 17 0 1022133 Data.dir17_0.flatten = true := by decide +kernel

set_option maxRecDepth 100000 in
theorem dir17_1_ok : codesOk 17 1022133 1044218 Data.dir17_1.flatten = true := by decide +kernel

set_option maxRecDepth 100000 in
theorem dir17_2_ok : codesOk 17 1044218 1065527 Data.dir17_2.flatten = true := by decide +kernel

set_option maxRecDepth 100000 in
theorem dir18_0_ok : codesOk 18 0 1043977 Data.dir18_0.flatten = true := by decide +kernel

set_option maxRecDepth 100000 in
theorem dir18_1_ok : codesOk 18 1043977 1087603 Data.dir18_1.flatten = true := by decide +kernel

set_option maxRecDepth 100000 in
theorem dir18_2_ok : codesOk 18 1087603 1131059 Data.dir18_2.flatten = true := by decide +kernel

theorem directionCodes_piece : Piece 0 0 18 1131059 directionCodes.flatten := by
  unfold directionCodes
  simp only [List.flatten_append]
  have h0 : Piece 0 0 1 1000000 Data.dir1_0.flatten :=
    (codesOk_piece 1 0 1000000 _ (by norm_num) (by norm_num) dir1_0_ok).weaken (by norm_num)
  have h1 : Piece 1 1000000 2 1000001 Data.dir2_0.flatten :=
    (codesOk_piece 2 0 1000001 _ (by norm_num) (by norm_num) dir2_0_ok).weaken (by norm_num)
  have h2 : Piece 2 1000001 3 1000002 Data.dir3_0.flatten :=
    (codesOk_piece 3 0 1000002 _ (by norm_num) (by norm_num) dir3_0_ok).weaken (by norm_num)
  have h3 : Piece 3 1000002 4 1000004 Data.dir4_0.flatten :=
    (codesOk_piece 4 0 1000004 _ (by norm_num) (by norm_num) dir4_0_ok).weaken (by norm_num)
  have h4 : Piece 4 1000004 5 1000014 Data.dir5_0.flatten :=
    (codesOk_piece 5 0 1000014 _ (by norm_num) (by norm_num) dir5_0_ok).weaken (by norm_num)
  have h5 : Piece 5 1000014 6 1000025 Data.dir6_0.flatten :=
    (codesOk_piece 6 0 1000025 _ (by norm_num) (by norm_num) dir6_0_ok).weaken (by norm_num)
  have h6 : Piece 6 1000025 7 1000062 Data.dir7_0.flatten :=
    (codesOk_piece 7 0 1000062 _ (by norm_num) (by norm_num) dir7_0_ok).weaken (by norm_num)
  have h7 : Piece 7 1000062 8 1000122 Data.dir8_0.flatten :=
    (codesOk_piece 8 0 1000122 _ (by norm_num) (by norm_num) dir8_0_ok).weaken (by norm_num)
  have h8 : Piece 8 1000122 9 1000253 Data.dir9_0.flatten :=
    (codesOk_piece 9 0 1000253 _ (by norm_num) (by norm_num) dir9_0_ok).weaken (by norm_num)
  have h9 : Piece 9 1000253 10 1000508 Data.dir10_0.flatten :=
    (codesOk_piece 10 0 1000508 _ (by norm_num) (by norm_num) dir10_0_ok).weaken (by norm_num)
  have h10 : Piece 10 1000508 11 1001012 Data.dir11_0.flatten :=
    (codesOk_piece 11 0 1001012 _ (by norm_num) (by norm_num) dir11_0_ok).weaken (by norm_num)
  have h11 : Piece 11 1001012 12 1002020 Data.dir12_0.flatten :=
    (codesOk_piece 12 0 1002020 _ (by norm_num) (by norm_num) dir12_0_ok).weaken (by norm_num)
  have h12 : Piece 12 1002020 13 1004094 Data.dir13_0.flatten :=
    (codesOk_piece 13 0 1004094 _ (by norm_num) (by norm_num) dir13_0_ok).weaken (by norm_num)
  have h13 : Piece 13 1004094 14 1008179 Data.dir14_0.flatten :=
    (codesOk_piece 14 0 1008179 _ (by norm_num) (by norm_num) dir14_0_ok).weaken (by norm_num)
  have h14 : Piece 14 1008179 15 1016382 Data.dir15_0.flatten :=
    (codesOk_piece 15 0 1016382 _ (by norm_num) (by norm_num) dir15_0_ok).weaken (by norm_num)
  have h15 : Piece 15 1016382 16 1032758 Data.dir16_0.flatten :=
    (codesOk_piece 16 0 1032758 _ (by norm_num) (by norm_num) dir16_0_ok).weaken (by norm_num)
  have h16 : Piece 16 1032758 17 1022133 Data.dir17_0.flatten :=
    (codesOk_piece 17 0 1022133 _ (by norm_num) (by norm_num) dir17_0_ok).weaken (by norm_num)
  have h17 : Piece 17 1022133 17 1044218 Data.dir17_1.flatten :=
    (codesOk_piece 17 1022133 1044218 _ (by norm_num) (by norm_num) dir17_1_ok).weaken (by norm_num)
  have h18 : Piece 17 1044218 17 1065527 Data.dir17_2.flatten :=
    (codesOk_piece 17 1044218 1065527 _ (by norm_num) (by norm_num) dir17_2_ok).weaken (by norm_num)
  have h19 : Piece 17 1065527 18 1043977 Data.dir18_0.flatten :=
    (codesOk_piece 18 0 1043977 _ (by norm_num) (by norm_num) dir18_0_ok).weaken (by norm_num)
  have h20 : Piece 18 1043977 18 1087603 Data.dir18_1.flatten :=
    (codesOk_piece 18 1043977 1087603 _ (by norm_num) (by norm_num) dir18_1_ok).weaken (by norm_num)
  have h21 : Piece 18 1087603 18 1131059 Data.dir18_2.flatten :=
    (codesOk_piece 18 1087603 1131059 _ (by norm_num) (by norm_num) dir18_2_ok).weaken (by norm_num)
  exact ((((((((((((((((((((h0.append h1).append h2).append h3).append h4).append h5).append h6).append h7).append h8).append h9).append h10).append h11).append h12).append h13).append h14).append h15).append h16).append h17).append h18).append h19).append h20).append h21

set_option maxRecDepth 100000 in
theorem length_directions : directions.length = 21200 := by
  unfold directions
  rw [List.length_map]
  decide +kernel

/-- **C23.** The shipped table has 21200 rows; every row is `a, m_1, ..., m_s` with `s ≥ 1`,
`a < 2^(s-1)`, every `m_j` odd and below `2^j`; the rows are strictly ordered by degree and code, so no
two dimensions use the same polynomial. -/
theorem C23_table : directions.length = 21200 ∧ (∀ m ∈ directions, FullRowOk m) ∧
    directions.Pairwise RowBefore := by
  refine ⟨length_directions, ?_, directionCodes_piece.sorted⟩
  intro m hm
  obtain ⟨n, hn, rfl⟩ := List.mem_map.mp hm
  exact directionCodes_piece.rows n hn

theorem directions_tableOk : TableOk directions := fun m hm => (C23_table.2.1 m hm).1

/-- **C19-C22 for the shipped table**: with the table of `directions.py`, the sampler succeeds for every
`N ≤ 2^31` in every dimension up to 21201, aligned blocks are stratified, and any two rows differ in
every coordinate. -/
theorem C23_all_dimensions {α : Type} [Field α] [LinearOrder α] [IsStrictOrderedRing α] (L N D : Nat)
    (hN : 0 < N) (hNL : N ≤ 2 ^ L) (hL : L ≤ 31) (hD : D ≤ 21201) :
    ∃ M : Mat α, sobolSequence directions L N D = .ok M ∧
      (∀ d k b i, d < D → k ≤ 31 → (b + 1) * 2 ^ k ≤ N → i < 2 ^ k →
        ∃! n, b * 2 ^ k ≤ n ∧ n < (b + 1) * 2 ^ k ∧ ∃ x, colEntry M d n = some x ∧ InStratum k i x) ∧
      ∀ d n n', d < D → n < N → n' < N → n ≠ n' → colEntry M d n ≠ colEntry M d n' := by
  have hD' : D ≤ directions.length + 1 := by rw [length_directions]; exact hD
  obtain ⟨M, hM, -⟩ := C19_range (α := α) directions directions_tableOk L N D hN hNL hL hD'
  refine ⟨M, hM, ?_, ?_⟩
  · intro d k b i hd hk hb hi
    exact C20_stratified directions directions_tableOk L N D hN hNL hL hD' M hM d k b hd hk hb i hi
  · intro d n n' hd hn hn' hne
    exact C22_distinct directions directions_tableOk L N D hN hNL hL hD' M hM d n n' hd hn hn' hne

end SALib
