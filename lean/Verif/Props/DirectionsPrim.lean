import Verif.Lemmas.PrimSlices
import Mathlib.Tactic.NormNum.Prime

/-! # C23: every polynomial of the table is primitive

The table is checked by evaluation in the kernel (`primCheck`), and the check is shown to imply primitivity. -/

namespace SALib
open Spec

/-- The polynomial codes of rows with `s` initial numbers. -/
def keysOf (s : Nat) : List Nat → List Nat
  | [] => []
  | n :: l => (n / 1000000 ^ s - 1000000) :: keysOf s l

theorem mem_keysOf (s : Nat) (l : List Nat) (n : Nat) (h : n ∈ l) : n / 1000000 ^ s - 1000000 ∈ keysOf s l := by
  induction l with
  | nil => simp at h
  | cons m l ih =>
    rcases List.mem_cons.mp h with rfl | h
    · exact List.mem_cons_self
    · exact List.mem_cons_of_mem _ (ih h)

/-- The check on the codes of `Verif/Data`. -/
def primPieceCheck (s : Nat) (qs l : List Nat) : Bool := forceList (keysOf s l) fun keys => primCheck s qs keys

/-- The rows of a piece have primitive polynomials. -/
def PrimPiece (l : List Nat) : Prop :=
  ∀ n ∈ l, PrimitivePoly ((decodeRow 32 n []).length - 1)
    (codePoly ((decodeRow 32 n []).length - 1) ((decodeRow 32 n []).headD 0))

theorem PrimPiece.append {l l' : List Nat} (h : PrimPiece l) (h' : PrimPiece l') : PrimPiece (l ++ l') := by
  intro n hn
  rcases List.mem_append.mp hn with hn | hn
  · exact h n hn
  · exact h' n hn

theorem codesOk_mem (s k k' : Nat) (l : List Nat) (h : codesOk s k k' l = true) (n : Nat) (hn : n ∈ l) :
    codeOk (2 ^ (s - 1)) s n = true := by
  induction l generalizing k with
  | nil => simp at hn
  | cons m l ih =>
    simp only [codesOk, force_eq, Bool.and_eq_true] at h
    rcases List.mem_cons.mp hn with rfl | hn
    · exact h.1
    · exact ih _ h.2.2 hn

theorem primPiece_of (s : Nat) (hs : 1 ≤ s) (hs' : s ≤ 20) (fac qs : List Nat) (l : List Nat) (k k' : Nat)
    (hq : ∀ q ∈ fac, q.Prime) (hprod : fac.prod = 2 ^ s - 1) (hqs : ∀ q ∈ fac, q ∈ qs) (hl : codesOk s k k' l = true)
    (h : primPieceCheck s qs l = true) : PrimPiece l := by
  intro n hn
  have hb : 2 ^ (s - 1) ≤ 1000000 :=
    (Nat.pow_le_pow_right (by norm_num) (show s - 1 ≤ 19 by omega)).trans (by norm_num)
  obtain ⟨a, ms, -, i2, i3, -, i5⟩ := codeOk_row (2 ^ (s - 1)) s n 32 hb (by omega) (codesOk_mem s k k' l hl n hn)
  have hdec : decodeRow 32 n [] = a :: ms := by simpa using i5 []
  unfold primPieceCheck at h
  rw [forceList_eq] at h
  have := primCheck_sound s hs fac qs _ hq hprod hqs h _ (mem_keysOf s l n hn)
  rw [← i2] at this
  rw [hdec]
  simpa [i3] using this

set_option maxRecDepth 100000 in
theorem dir1_0_prim : primPieceCheck 1 [] Data.dir1_0.flatten = true := by decide +kernel

set_option maxRecDepth 100000 in
theorem dir2_0_prim : primPieceCheck 2 [3] Data.dir2_0.flatten = true := by decide +kernel

set_option maxRecDepth 100000 in
theorem dir3_0_prim : primPieceCheck 3 [7] Data.dir3_0.flatten = true := by decide +kernel

set_option maxRecDepth 100000 in
theorem dir4_0_prim : primPieceCheck 4 [3, 5] Data.dir4_0.flatten = true := by decide +kernel

set_option maxRecDepth 100000 in
theorem dir5_0_prim : primPieceCheck 5 [31] Data.dir5_0.flatten = true := by decide +kernel

set_option maxRecDepth 100000 in
theorem dir6_0_prim : primPieceCheck 6 [3, 7] Data.dir6_0.flatten = true := by decide +kernel

set_option maxRecDepth 100000 in
theorem dir7_0_prim : primPieceCheck 7 [127] Data.dir7_0.flatten = true := by decide +kernel

set_option maxRecDepth 100000 in
theorem dir8_0_prim : primPieceCheck 8 [3, 5, 17] Data.dir8_0.flatten = true := by decide +kernel

set_option maxRecDepth 100000 in
theorem dir9_0_prim : primPieceCheck 9 [7, 73] Data.dir9_0.flatten = true := by decide +kernel

set_option maxRecDepth 100000 in
theorem dir10_0_prim : primPieceCheck 10 [3, 11, 31] Data.dir10_0.flatten = true := by decide +kernel

set_option maxRecDepth 100000 in
theorem dir11_0_prim : primPieceCheck 11 [23, 89] Data.dir11_0.flatten = true := by decide +kernel

set_option maxRecDepth 100000 in
theorem dir12_0_prim : primPieceCheck 12 [3, 5, 7, 13] Data.dir12_0.flatten = true := by decide +kernel

set_option maxRecDepth 100000 in
theorem dir13_0_prim : primPieceCheck 13 [8191] Data.dir13_0.flatten = true := by decide +kernel

set_option maxRecDepth 100000 in
theorem dir14_0_prim : primPieceCheck 14 [3, 43, 127] Data.dir14_0.flatten = true := by decide +kernel

set_option maxRecDepth 100000 in
theorem dir15_0_prim : primPieceCheck 15 [7, 31, 151] Data.dir15_0.flatten = true := by decide +kernel

set_option maxRecDepth 100000 in
theorem dir16_0_prim : primPieceCheck 16 [3, 5, 17, 257] Data.dir16_0.flatten = true := by decide +kernel

set_option maxRecDepth 100000 in
theorem dir17_0_prim : primPieceCheck 17 [131071] Data.dir17_0.flatten = true := by decide +kernel

set_option maxRecDepth 100000 in
theorem dir17_1_prim : primPieceCheck 17 [131071] Data.dir17_1.flatten = true := by decide +kernel

set_option maxRecDepth 100000 in
theorem dir17_2_prim : primPieceCheck 17 [131071] Data.dir17_2.flatten = true := by decide +kernel

set_option maxRecDepth 100000 in
theorem dir18_0_prim : primPieceCheck 18 [3, 7, 19, 73] Data.dir18_0.flatten = true := by decide +kernel

set_option maxRecDepth 100000 in
theorem dir18_1_prim : primPieceCheck 18 [3, 7, 19, 73] Data.dir18_1.flatten = true := by decide +kernel

set_option maxRecDepth 100000 in
theorem dir18_2_prim : primPieceCheck 18 [3, 7, 19, 73] Data.dir18_2.flatten = true := by decide +kernel

theorem directionCodes_prim : PrimPiece directionCodes.flatten := by
  unfold directionCodes
  simp only [List.flatten_append]
  have h0 : PrimPiece Data.dir1_0.flatten :=
    primPiece_of 1 (by norm_num) (by norm_num) [] _ _ _ _ (by norm_num) (by norm_num) (by simp)
      dir1_0_ok dir1_0_prim
  have h1 : PrimPiece Data.dir2_0.flatten :=
    primPiece_of 2 (by norm_num) (by norm_num) [3] _ _ _ _ (by norm_num) (by norm_num) (by simp)
      dir2_0_ok dir2_0_prim
  have h2 : PrimPiece Data.dir3_0.flatten :=
    primPiece_of 3 (by norm_num) (by norm_num) [7] _ _ _ _ (by norm_num) (by norm_num) (by simp)
      dir3_0_ok dir3_0_prim
  have h3 : PrimPiece Data.dir4_0.flatten :=
    primPiece_of 4 (by norm_num) (by norm_num) [3, 5] _ _ _ _ (by norm_num) (by norm_num) (by simp)
      dir4_0_ok dir4_0_prim
  have h4 : PrimPiece Data.dir5_0.flatten :=
    primPiece_of 5 (by norm_num) (by norm_num) [31] _ _ _ _ (by norm_num) (by norm_num) (by simp)
      dir5_0_ok dir5_0_prim
  have h5 : PrimPiece Data.dir6_0.flatten :=
    primPiece_of 6 (by norm_num) (by norm_num) [3, 3, 7] _ _ _ _ (by norm_num) (by norm_num) (by simp)
      dir6_0_ok dir6_0_prim
  have h6 : PrimPiece Data.dir7_0.flatten :=
    primPiece_of 7 (by norm_num) (by norm_num) [127] _ _ _ _ (by norm_num) (by norm_num) (by simp)
      dir7_0_ok dir7_0_prim
  have h7 : PrimPiece Data.dir8_0.flatten :=
    primPiece_of 8 (by norm_num) (by norm_num) [3, 5, 17] _ _ _ _ (by norm_num) (by norm_num) (by simp)
      dir8_0_ok dir8_0_prim
  have h8 : PrimPiece Data.dir9_0.flatten :=
    primPiece_of 9 (by norm_num) (by norm_num) [7, 73] _ _ _ _ (by norm_num) (by norm_num) (by simp)
      dir9_0_ok dir9_0_prim
  have h9 : PrimPiece Data.dir10_0.flatten :=
    primPiece_of 10 (by norm_num) (by norm_num) [3, 11, 31] _ _ _ _ (by norm_num) (by norm_num) (by simp)
      dir10_0_ok dir10_0_prim
  have h10 : PrimPiece Data.dir11_0.flatten :=
    primPiece_of 11 (by norm_num) (by norm_num) [23, 89] _ _ _ _ (by norm_num) (by norm_num) (by simp)
      dir11_0_ok dir11_0_prim
  have h11 : PrimPiece Data.dir12_0.flatten :=
    primPiece_of 12 (by norm_num) (by norm_num) [3, 3, 5, 7, 13] _ _ _ _ (by norm_num) (by norm_num) (by simp)
      dir12_0_ok dir12_0_prim
  have h12 : PrimPiece Data.dir13_0.flatten :=
    primPiece_of 13 (by norm_num) (by norm_num) [8191] _ _ _ _ (by norm_num) (by norm_num) (by simp)
      dir13_0_ok dir13_0_prim
  have h13 : PrimPiece Data.dir14_0.flatten :=
    primPiece_of 14 (by norm_num) (by norm_num) [3, 43, 127] _ _ _ _ (by norm_num) (by norm_num) (by simp)
      dir14_0_ok dir14_0_prim
  have h14 : PrimPiece Data.dir15_0.flatten :=
    primPiece_of 15 (by norm_num) (by norm_num) [7, 31, 151] _ _ _ _ (by norm_num) (by norm_num) (by simp)
      dir15_0_ok dir15_0_prim
  have h15 : PrimPiece Data.dir16_0.flatten :=
    primPiece_of 16 (by norm_num) (by norm_num) [3, 5, 17, 257] _ _ _ _ (by norm_num) (by norm_num) (by simp)
      dir16_0_ok dir16_0_prim
  have h16 : PrimPiece Data.dir17_0.flatten :=
    primPiece_of 17 (by norm_num) (by norm_num) [131071] _ _ _ _ (by norm_num) (by norm_num) (by simp)
      dir17_0_ok dir17_0_prim
  have h17 : PrimPiece Data.dir17_1.flatten :=
    primPiece_of 17 (by norm_num) (by norm_num) [131071] _ _ _ _ (by norm_num) (by norm_num) (by simp)
      dir17_1_ok dir17_1_prim
  have h18 : PrimPiece Data.dir17_2.flatten :=
    primPiece_of 17 (by norm_num) (by norm_num) [131071] _ _ _ _ (by norm_num) (by norm_num) (by simp)
      dir17_2_ok dir17_2_prim
  have h19 : PrimPiece Data.dir18_0.flatten :=
    primPiece_of 18 (by norm_num) (by norm_num) [3, 3, 3, 7, 19, 73] _ _ _ _ (by norm_num) (by norm_num) (by simp)
      dir18_0_ok dir18_0_prim
  have h20 : PrimPiece Data.dir18_1.flatten :=
    primPiece_of 18 (by norm_num) (by norm_num) [3, 3, 3, 7, 19, 73] _ _ _ _ (by norm_num) (by norm_num) (by simp)
      dir18_1_ok dir18_1_prim
  have h21 : PrimPiece Data.dir18_2.flatten :=
    primPiece_of 18 (by norm_num) (by norm_num) [3, 3, 3, 7, 19, 73] _ _ _ _ (by norm_num) (by norm_num) (by simp)
      dir18_2_ok dir18_2_prim
  exact ((((((((((((((((((((h0.append h1).append h2).append h3).append h4).append h5).append h6).append h7).append h8).append h9).append h10).append h11).append h12).append h13).append h14).append h15).append h16).append h17).append h18).append h19).append h20).append h21

/-- **C23.** Every row `a, m_1, ..., m_s` of the shipped table has a primitive polynomial: the polynomial of degree `s`
whose inner coefficients are the digits of `a` is irreducible over the field of two elements, and `x` has order
`2^s - 1` modulo it. -/
theorem C23_primitive : ∀ m ∈ directions, PrimitivePoly (m.length - 1) (codePoly (m.length - 1) (m.headD 0)) := by
  intro m hm
  obtain ⟨n, hn, rfl⟩ := List.mem_map.mp hm
  exact directionCodes_prim n hn

/-- A table row with another code would not do: `x^4 + x^3 + x^2 + x + 1` (code 7) is not primitive. -/
example : ¬ PrimitivePoly 4 (codePoly 4 7) := by
  rintro ⟨-, -, h⟩
  have h5 := (h 5).mp ⟨Polynomial.X - 1, by
    simp [codePoly, Finset.sum_range_succ, Nat.testBit, Nat.shiftRight_succ]
    ring⟩
  omega

end SALib
