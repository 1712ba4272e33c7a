import Verif.Lemmas.SobolSeq
import Verif.Lemmas.Strided
import Mathlib.Data.Fintype.Card
import Mathlib.Data.Rat.Defs
import Mathlib.Algebra.Order.Ring.Unbundled.Rat
import Mathlib.Algebra.Field.Rat

/-! # C19-C22: the Sobol sequence -/

set_option linter.unusedSectionVars false

namespace SALib
open Spec

theorem directionNumbers_ok (dirs : List (List Nat)) (hT : TableOk dirs) (L i : Nat) (hL : L ≤ 31)
    (hi : i ≤ dirs.length) :
    ∃ V, directionNumbers dirs L i = .ok V ∧ V.length = L + 1 ∧
      (∀ j, 1 ≤ j → j ≤ L → DirNum j (V.getD j 0)) ∧
      ∀ L' V', L' ≤ L → directionNumbers dirs L' i = .ok V' →
        ∀ j, 1 ≤ j → j ≤ L' → V'.getD j 0 = V.getD j 0 := by
  unfold directionNumbers
  by_cases h0 : i = 0
  · simp only [h0, if_true]
    obtain ⟨V, h1, h2, h3⟩ := firstDirections_ok L
    refine ⟨V, h1, h2, ?_, ?_⟩
    · intro j hj1 hj2
      rw [h3 j hj1 hj2]
      exact dirNum_shift j 1 hj1 (by omega) (by decide) (Nat.one_lt_two_pow (by omega))
    · intro L' V' hL' hV' j hj1 hj2
      obtain ⟨W, g1, g2, g3⟩ := firstDirections_ok L'
      rw [g1] at hV'
      cases hV'
      rw [g3 j hj1 hj2, h3 j hj1 (by omega)]
  · simp only [h0, if_false]
    have hlt : i - 1 < dirs.length := by omega
    rw [List.getElem?_eq_getElem hlt]
    have hrow := hT _ (List.getElem_mem hlt)
    generalize dirs[i - 1] = m at hrow
    have hm : 2 ≤ m.length := by
      obtain ⟨a, ms, rfl, hne, -⟩ := hrow
      have := List.length_pos_iff.mpr hne
      simp; omega
    obtain ⟨V, h1, h2, h3⟩ := laterDirections_ok m L hm
    refine ⟨V, h1, h2, fun j hj1 hj2 => isDir_dirNum m hrow L hL _ h3 j hj1 hj2, ?_⟩
    intro L' V' hL' hV' j hj1 hj2
    obtain ⟨W, g1, g2, g3⟩ := laterDirections_ok m L' hm
    simp only at hV'
    rw [g1] at hV'
    cases hV'
    exact IsDir_unique m L' L _ _ hm g3 h3 j hj1 hj2 (by omega)

variable {α : Type} [Field α]

/-- The generated matrix in closed form, in terms of the direction numbers for 31 bits. -/
theorem sobolSequence_dirs (dirs : List (List Nat)) (hT : TableOk dirs) :
    ∃ V : Nat → List Nat, (∀ i, i ≤ dirs.length → directionNumbers dirs 31 i = .ok (V i)) ∧
      (∀ i, i ≤ dirs.length → ∀ j, 1 ≤ j → j ≤ 31 → DirNum j ((V i).getD j 0)) ∧
      ∀ L N D, 0 < N → N ≤ 2 ^ L → L ≤ 31 → D ≤ dirs.length + 1 →
        sobolSequence (α := α) dirs L N D = .ok ((List.range N).map fun n => (List.range D).map fun i =>
          ((xSeq (fun j => (V i).getD j 0) n : Nat) : α) / 2 ^ 31) := by
  have hV : ∀ i, ∃ V : List Nat, i ≤ dirs.length → directionNumbers dirs 31 i = .ok V ∧
      (∀ j, 1 ≤ j → j ≤ 31 → DirNum j (V.getD j 0)) ∧
      ∀ L' V', L' ≤ 31 → directionNumbers dirs L' i = .ok V' →
        ∀ j, 1 ≤ j → j ≤ L' → V'.getD j 0 = V.getD j 0 := by
    intro i
    by_cases hi : i ≤ dirs.length
    · obtain ⟨V, h1, -, h3, h4⟩ := directionNumbers_ok dirs hT 31 i le_rfl hi
      exact ⟨V, fun _ => ⟨h1, h3, h4⟩⟩
    · exact ⟨[], fun h => absurd h hi⟩
  choose V hV using hV
  refine ⟨V, fun i hi => (hV i hi).1, fun i hi => (hV i hi).2.1, ?_⟩
  intro L N D hN hNL hL hD
  unfold sobolSequence
  rw [if_neg (by omega), if_neg (by omega), if_neg (by unfold sobolScale; omega)]
  have hcol : ∀ i ∈ List.range D, (do
      let W ← directionNumbers dirs L i
      columnInts W N : Py (List Nat)) =
      .ok ((List.range N).map (xSeq fun j => (V i).getD j 0)) := by
    intro i hi
    have hi' : i ≤ dirs.length := by rw [List.mem_range] at hi; omega
    obtain ⟨W, h1, h2, -, -⟩ := directionNumbers_ok dirs hT L i hL hi'
    rw [h1, pyBind_ok, columnInts_ok W L N h2 hN hNL]
    congr 1
    apply List.map_congr_left
    intro n hn
    rw [List.mem_range] at hn
    exact xSeq_congr _ _ L n (by omega) (fun j hj1 hj2 => (hV i hi').2.2 L W hL h1 j hj1 hj2)
  simp only [pyBind_ok]
  rw [mapM_ok_of _ _ _ hcol]
  simp only [pyBind_ok]
  congr 1
  apply List.map_congr_left
  intro n hn
  rw [List.mem_range] at hn
  rw [List.map_map]
  apply List.map_congr_left
  intro i _
  simp [List.getD_eq_getElem?_getD, hn, sobolScale]

/-- The generated matrix in closed form; `v` does not depend on `N`, `L` or `D`. -/
theorem sobolSequence_eq (dirs : List (List Nat)) (hT : TableOk dirs) :
    ∃ v : Nat → Nat → Nat, (∀ i, i ≤ dirs.length → ∀ j, 1 ≤ j → j ≤ 31 → DirNum j (v i j)) ∧
      ∀ L N D, 0 < N → N ≤ 2 ^ L → L ≤ 31 → D ≤ dirs.length + 1 →
        sobolSequence (α := α) dirs L N D = .ok ((List.range N).map fun n => (List.range D).map fun i =>
          ((xSeq (v i) n : Nat) : α) / 2 ^ 31) := by
  obtain ⟨V, -, hV, heq⟩ := sobolSequence_dirs (α := α) dirs hT
  exact ⟨fun i j => (V i).getD j 0, hV, heq⟩

theorem colEntry_table {β : Type} (N D : Nat) (f : Nat → Nat → β) (n d : Nat) (hn : n < N) (hd : d < D) :
    colEntry ((List.range N).map fun n => (List.range D).map fun i => f n i) d n = some (f n d) := by
  simp [colEntry, hn, hd]

theorem xSeq_lt (v : Nat → Nat) (hv : ∀ j, 1 ≤ j → j ≤ 31 → DirNum j (v j)) (n : Nat) (hn : n < 2 ^ 31) :
    xSeq v n < 2 ^ 31 := (xSeq_low v 31 le_rfl hv n hn).1

/-- **C19**, rejection: more dimensions than the table has rows (plus one), no rows at all, or more bits
than the scale has, are rejected with `ValueError`; no table lookup happens. -/
theorem C19_reject (dirs : List (List Nat)) (L N D : Nat)
    (h : dirs.length + 1 < D ∨ N = 0 ∨ 31 < L) :
    sobolSequence (α := α) dirs L N D = .error .valueError := by
  unfold sobolSequence sobolScale
  by_cases h1 : D > dirs.length + 1
  · rw [if_pos h1]; rfl
  · rw [if_neg h1]
    by_cases h2 : N = 0
    · rw [if_pos h2]; rfl
    · rw [if_neg h2, if_pos (by omega)]; rfl

/-- **C19.** For every table of the documented form, every `N` with `1 ≤ N ≤ 2^L`, `L ≤ 31`, and every
allowed dimension, generation succeeds (no lookup is out of range) with `N` rows of `D` entries; row 0
is zero and every entry is a multiple of `2^-31` in `[0, 1)`. -/
theorem C19_range (dirs : List (List Nat)) (hT : TableOk dirs) (L N D : Nat) (hN : 0 < N)
    (hNL : N ≤ 2 ^ L) (hL : L ≤ 31) (hD : D ≤ dirs.length + 1) :
    ∃ M : Mat α, sobolSequence dirs L N D = .ok M ∧ M.length = N ∧ (∀ row ∈ M, row.length = D) ∧
      M[0]? = some (List.replicate D 0) ∧
      ∀ row ∈ M, ∀ x ∈ row, ∃ X : Nat, X < 2 ^ 31 ∧ x = (X : α) / 2 ^ 31 := by
  obtain ⟨v, hv, heq⟩ := sobolSequence_eq (α := α) dirs hT
  refine ⟨_, heq L N D hN hNL hL hD, by simp, ?_, ?_, ?_⟩
  · intro row hrow
    obtain ⟨n, -, rfl⟩ := List.mem_map.mp hrow
    simp
  · rw [List.getElem?_map, List.getElem?_range hN]
    simp [xSeq, List.map_const']
  · intro row hrow x hx
    obtain ⟨n, hn, rfl⟩ := List.mem_map.mp hrow
    obtain ⟨i, hi, rfl⟩ := List.mem_map.mp hx
    rw [List.mem_range] at hn hi
    refine ⟨_, xSeq_lt (v i) (hv i (by omega)) n ?_, rfl⟩
    exact lt_of_lt_of_le hn (hNL.trans (Nat.pow_le_pow_right (by norm_num) hL))

section
variable [LinearOrder α] [IsStrictOrderedRing α]

/-- Restated on integers: the stratum is given by the `k` leading bits. -/
theorem inStratum_iff (k i X : Nat) (hk : k ≤ 31) :
    InStratum k i ((X : α) / 2 ^ 31) ↔ X >>> (31 - k) = i := by
  rw [Nat.shiftRight_eq_div_pow]
  have h2 : (2 : α) ^ 31 = 2 ^ k * 2 ^ (31 - k) := by rw [← pow_add]; congr 1; omega
  have hk0 : (0 : α) < 2 ^ k := by positivity
  have hk1 : (0 : α) < 2 ^ (31 - k) := by positivity
  have e1 : (i : α) / 2 ^ k ≤ (X : α) / 2 ^ 31 ↔ i * 2 ^ (31 - k) ≤ X := by
    rw [h2, div_le_div_iff₀ hk0 (by positivity)]
    rw [show (i : α) * (2 ^ k * 2 ^ (31 - k)) = (i * 2 ^ (31 - k)) * 2 ^ k by ring,
      mul_le_mul_iff_left₀ hk0]
    exact_mod_cast Iff.rfl
  have e2 : (X : α) / 2 ^ 31 < ((i : α) + 1) / 2 ^ k ↔ X < (i + 1) * 2 ^ (31 - k) := by
    rw [h2, div_lt_div_iff₀ (by positivity) hk0]
    rw [show ((i : α) + 1) * (2 ^ k * 2 ^ (31 - k)) = ((i + 1) * 2 ^ (31 - k)) * 2 ^ k by ring,
      mul_lt_mul_iff_left₀ hk0]
    exact_mod_cast Iff.rfl
  unfold InStratum
  rw [e1, e2, Nat.div_eq_iff (by positivity)]
  have : 0 < 2 ^ (31 - k) := by positivity
  rw [show (i + 1) * 2 ^ (31 - k) = i * 2 ^ (31 - k) + 2 ^ (31 - k) by ring]
  omega

/-- An aligned block meets every value of the leading `k` bits exactly once. -/
theorem block_bij (v : Nat → Nat) (hv : ∀ j, 1 ≤ j → j ≤ 31 → DirNum j (v j)) (k b : Nat) (hk : k ≤ 31)
    (hb : (b + 1) * 2 ^ k ≤ 2 ^ 31) (i : Nat) (hi : i < 2 ^ k) :
    ∃! n, b * 2 ^ k ≤ n ∧ n < (b + 1) * 2 ^ k ∧ xSeq v n >>> (31 - k) = i := by
  have hmul : (b + 1) * 2 ^ k = b * 2 ^ k + 2 ^ k := by ring
  have hlt : ∀ c, c < 2 ^ k → xSeq v (b * 2 ^ k + c) >>> (31 - k) < 2 ^ k := by
    intro c hc
    rw [Nat.shiftRight_eq_div_pow, Nat.div_lt_iff_lt_mul (by positivity), ← pow_add,
      show k + (31 - k) = 31 by omega]
    exact xSeq_lt v hv _ (by omega)
  have hinj : ∀ c c', c < 2 ^ k → c' < 2 ^ k →
      xSeq v (b * 2 ^ k + c) >>> (31 - k) = xSeq v (b * 2 ^ k + c') >>> (31 - k) → c = c' := by
    intro c c' hc hc' h
    rw [xSeq_block v k b c hc, xSeq_block v k b c' hc', Nat.shiftRight_xor_distrib,
      Nat.shiftRight_xor_distrib] at h
    exact xSeq_inj v k hk (fun j h1 h2 => hv j h1 (by omega)) c c' hc hc' (xor_left_cancel _ _ _ h)
  let f : Fin (2 ^ k) → Fin (2 ^ k) := fun c => ⟨_, hlt c.1 c.2⟩
  have hf : Function.Injective f := by
    intro c c' h
    exact Fin.ext (hinj c.1 c'.1 c.2 c'.2 (congrArg Fin.val h))
  obtain ⟨c, hc⟩ := Finite.surjective_of_injective hf ⟨i, hi⟩
  refine ⟨b * 2 ^ k + c.1, ⟨by omega, by have := c.2; omega, congrArg Fin.val hc⟩, ?_⟩
  rintro n ⟨h1, h2, h3⟩
  obtain ⟨c', rfl⟩ : ∃ c', n = b * 2 ^ k + c' := ⟨n - b * 2 ^ k, by omega⟩
  congr 1
  exact hinj c' c.1 (by omega) c.2 (h3.trans (congrArg Fin.val hc).symm)

/-- **C20.** In every dimension `d`, every block of `2^k` rows starting at a multiple of `2^k` has
exactly one entry in each interval `[i/2^k, (i+1)/2^k)`. -/
theorem C20_stratified (dirs : List (List Nat)) (hT : TableOk dirs) (L N D : Nat) (hN : 0 < N)
    (hNL : N ≤ 2 ^ L) (hL : L ≤ 31) (hD : D ≤ dirs.length + 1) (M : Mat α)
    (hM : sobolSequence dirs L N D = .ok M) (d k b : Nat) (hd : d < D) (hk : k ≤ 31)
    (hb : (b + 1) * 2 ^ k ≤ N) (i : Nat) (hi : i < 2 ^ k) :
    ∃! n, b * 2 ^ k ≤ n ∧ n < (b + 1) * 2 ^ k ∧ ∃ x, colEntry M d n = some x ∧ InStratum k i x := by
  obtain ⟨v, hv, heq⟩ := sobolSequence_eq (α := α) dirs hT
  rw [heq L N D hN hNL hL hD] at hM
  cases hM
  have h31 : 2 ^ L ≤ 2 ^ 31 := Nat.pow_le_pow_right (by norm_num) hL
  obtain ⟨n, ⟨h1, h2, h3⟩, h4⟩ := block_bij (v d) (hv d (by omega)) k b hk (by omega) i hi
  refine ⟨n, ⟨h1, h2, _, colEntry_table N D _ n d (by omega) hd, (inStratum_iff k i _ hk).mpr h3⟩, ?_⟩
  rintro n' ⟨g1, g2, x, g3, g4⟩
  rw [colEntry_table N D _ n' d (by omega) hd] at g3
  cases g3
  exact h4 n' ⟨g1, g2, (inStratum_iff k i _ hk).mp g4⟩

/-- **C22.** Any two different rows differ in every coordinate. -/
theorem C22_distinct (dirs : List (List Nat)) (hT : TableOk dirs) (L N D : Nat) (hN : 0 < N)
    (hNL : N ≤ 2 ^ L) (hL : L ≤ 31) (hD : D ≤ dirs.length + 1) (M : Mat α)
    (hM : sobolSequence dirs L N D = .ok M) (d n n' : Nat) (hd : d < D) (hn : n < N) (hn' : n' < N)
    (hne : n ≠ n') : colEntry M d n ≠ colEntry M d n' := by
  obtain ⟨v, hv, heq⟩ := sobolSequence_eq (α := α) dirs hT
  rw [heq L N D hN hNL hL hD] at hM
  cases hM
  have h31 : 2 ^ L ≤ 2 ^ 31 := Nat.pow_le_pow_right (by norm_num) hL
  rw [colEntry_table N D _ n d hn hd, colEntry_table N D _ n' d hn' hd]
  intro h
  have h2 : (2 : α) ^ 31 ≠ 0 := by positivity
  have hX : xSeq (v d) n = xSeq (v d) n' := by
    have := Option.some.inj h
    rw [div_left_inj' h2] at this
    exact_mod_cast this
  exact hne (xSeq_inj (v d) 31 le_rfl (hv d (by omega)) n n' (by omega) (by omega) (by rw [hX]))

end

/-- **C21.** The first `N` rows of a longer run are the shorter run; in particular the result does not
depend on the bit count `L`, as long as `N ≤ 2^L`. -/
theorem C21_prefix (dirs : List (List Nat)) (hT : TableOk dirs) (L L' N N' D : Nat) (hN : 0 < N)
    (hNN : N ≤ N') (hNL : N ≤ 2 ^ L) (hNL' : N' ≤ 2 ^ L') (hL : L ≤ 31) (hL' : L' ≤ 31)
    (hD : D ≤ dirs.length + 1) :
    ∃ M M' : Mat α, sobolSequence dirs L N D = .ok M ∧ sobolSequence dirs L' N' D = .ok M' ∧
      M'.take N = M := by
  obtain ⟨v, hv, heq⟩ := sobolSequence_eq (α := α) dirs hT
  refine ⟨_, _, heq L N D hN hNL hL hD, heq L' N' D (by omega) hNL' hL' hD, ?_⟩
  rw [← List.map_take, List.take_range, Nat.min_eq_left hNN]

/-- A table of the documented form, and what the generator gives for it: the first eight points in
three dimensions (with one bit more than needed). -/
example : TableOk [[0, 1], [1, 1, 3], [1, 1, 3, 1]] := by
  intro m hm
  simp only [List.mem_cons, List.not_mem_nil, or_false] at hm
  rcases hm with rfl | rfl | rfl
  · refine ⟨0, [1], rfl, by simp, fun j x h => ?_⟩
    rcases j with _ | j <;> simp at h; subst h; decide
  · refine ⟨1, [1, 3], rfl, by simp, fun j x h => ?_⟩
    rcases j with _ | _ | j <;> simp at h <;> subst h <;> decide
  · refine ⟨1, [1, 3, 1], rfl, by simp, fun j x h => ?_⟩
    rcases j with _ | _ | _ | j <;> simp at h <;> subst h <;> decide

example : sobolSequence (α := ℚ) [[0, 1], [1, 1, 3], [1, 1, 3, 1]] 4 8 3 =
    .ok [[0, 0, 0], [1/2, 1/2, 1/2], [3/4, 1/4, 1/4], [1/4, 3/4, 3/4], [3/8, 3/8, 5/8], [7/8, 7/8, 1/8],
      [5/8, 1/8, 7/8], [1/8, 5/8, 3/8]] := by
  decide +kernel

end SALib
