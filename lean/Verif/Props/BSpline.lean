import Verif.Model.BSpline
import Verif.Lemmas.Fourier
import Mathlib.Tactic.FieldSimp
import Mathlib.Tactic.Ring
import Mathlib.Tactic.Linarith
import Mathlib.Tactic.Positivity

/-! # The B-spline basis is a non-negative partition of unity (C66) -/

set_option linter.unusedSectionVars false

namespace SALib

variable {α : Type} [Field α] [LinearOrder α] [IsStrictOrderedRing α]

namespace Spec

/-- The cubic cardinal B-spline with support `[0, 4]`, scaled to unit partition. -/
def cardinal (u : α) : α :=
  if u < 0 then 0
  else if u < 1 then u ^ 3 / 6
  else if u < 2 then (-3 * u ^ 3 + 12 * u ^ 2 - 12 * u + 4) / 6
  else if u < 3 then (3 * u ^ 3 - 24 * u ^ 2 + 60 * u - 44) / 6
  else if u < 4 then (4 - u) ^ 3 / 6
  else 0

end Spec

theorem knot_factor (m i : Nat) (hm : 0 < m) (x : α) (a p : Nat) :
    (x - splineKnot m i a) / (splineKnot m i (a + p + 1) - splineKnot m i a) =
      ((m : α) * x + 3 - i - a) / (p + 1) ∧
    (splineKnot m i (a + p + 1) - x) / (splineKnot m i (a + p + 1) - splineKnot m i a) =
      ((a + p + 1 : α) - ((m : α) * x + 3 - i)) / (p + 1) := by
  have hm' : (m : α) ≠ 0 := by exact_mod_cast hm.ne'
  have hp : (p : α) + 1 ≠ 0 := by positivity
  have hd : splineKnot m i (a + p + 1) - splineKnot m i a = ((p : α) + 1) / m := by
    unfold splineKnot; push_cast; field_simp; ring
  rw [hd]
  unfold splineKnot
  constructor
  · field_simp; ring
  · push_cast; field_simp; ring

/-- The raw value is the polynomial piece chosen by the position `u` of `x` relative to the knots. -/
theorem splineRaw_eq (m i : Nat) (hm : 0 < m) (x : α) :
    let u := (m : α) * x + 3 - i
    splineRaw m i x = (if 3 ≤ u then (4 - u) ^ 3 / 6
      else if 2 ≤ u then (3 * u ^ 3 - 24 * u ^ 2 + 60 * u - 44) / 6
      else if 1 ≤ u then (-3 * u ^ 3 + 12 * u ^ 2 - 12 * u + 4) / 6
      else u ^ 3 / 6) * (m : α) ^ 3 := by
  intro u
  have hm' : (0 : α) < m := by exact_mod_cast hm
  have hle : ∀ a : Nat, (splineKnot m i a ≤ x ↔ (a : α) ≤ u) := by
    intro a
    unfold splineKnot
    rw [div_le_iff₀ hm']
    constructor <;> intro h <;> simp only [u] at * <;> linarith
  have f : ∀ a p, (x - splineKnot m i a) / (splineKnot m i (a + p + 1) - splineKnot m i a) =
      (u - a) / (p + 1) := fun a p => (knot_factor m i hm x a p).1
  have g : ∀ a p, (splineKnot m i (a + p + 2) - x) / (splineKnot m i (a + p + 2) - splineKnot m i (a + 1)) =
      (((a + 1 : Nat) + p + 1 : α) - u) / (p + 1) := by
    intro a p
    have := (knot_factor m i hm x (a + 1) p).2
    rw [show a + 1 + p + 1 = a + p + 2 by ring] at this
    exact this
  have hp3 : (splineKnot m i 3 ≤ x ↔ (3 : α) ≤ u) := hle 3
  have hp2 : (splineKnot m i 2 ≤ x ↔ (2 : α) ≤ u) := hle 2
  have hp1 : (splineKnot m i 1 ≤ x ↔ (1 : α) ≤ u) := by simpa using hle 1
  have hpiece : splinePiece (splineKnot m i) x = if 3 ≤ u then 3 else if 2 ≤ u then 2 else if 1 ≤ u then 1 else 0 := by
    unfold splinePiece
    simp only [hp3, hp2, hp1]
  unfold splineRaw basisElement
  rw [hpiece]
  congr 1
  have hrec : ∀ j p a, coxDeBoor (splineKnot m i) j x (p + 1) a = (u - a) / (p + 1) * coxDeBoor (splineKnot m i) j x p a +
      (((a + 1 : Nat) + p + 1 : α) - u) / (p + 1) * coxDeBoor (splineKnot m i) j x p (a + 1) := by
    intro j p a
    rw [coxDeBoor, f, g]
  have hzero : ∀ j a, coxDeBoor (splineKnot m i) j x 0 a = if a = j then 1 else 0 := fun _ _ => rfl
  clear_value u
  by_cases h3 : 3 ≤ u
  · simp only [if_pos h3, hrec, hzero]
    norm_num
    ring
  · by_cases h2 : 2 ≤ u
    · simp only [if_neg h3, if_pos h2, hrec, hzero]
      norm_num
      ring
    · by_cases h1 : 1 ≤ u
      · simp only [if_neg h3, if_neg h2, if_pos h1, hrec, hzero]
        norm_num
        ring
      · simp only [if_neg h3, if_neg h2, if_neg h1, hrec, hzero]
        norm_num
        ring

/-- The clipped basis function is the cardinal spline: clipping removes only the extrapolated tails. -/
theorem C66_cardinal (m i : Nat) (hm : 0 < m) (x : α) :
    bSpline m i x = (m : α) ^ 3 * Spec.cardinal ((m : α) * x + 3 - i) := by
  have hm3 : (0 : α) < (m : α) ^ 3 := by positivity
  have hraw := splineRaw_eq m i hm x
  simp only [] at hraw
  unfold bSpline Spec.cardinal
  rw [hraw]
  generalize (m : α) * x + 3 - i = u
  have key : ∀ p : α, (0 ≤ p → (if p * (m : α) ^ 3 < 0 then 0 else p * (m : α) ^ 3) = (m : α) ^ 3 * p) ∧
      (p ≤ 0 → (if p * (m : α) ^ 3 < 0 then 0 else p * (m : α) ^ 3) = (m : α) ^ 3 * 0) := by
    intro p
    constructor
    · intro hp
      rw [if_neg (not_lt.mpr (mul_nonneg hp hm3.le)), mul_comm]
    · intro hp
      rcases hp.lt_or_eq with h | h
      · rw [if_pos (mul_neg_of_neg_of_pos h hm3), mul_zero]
      · subst h; simp
  by_cases h0 : u < 0
  · rw [if_neg (show ¬3 ≤ u by linarith), if_neg (show ¬2 ≤ u by linarith), if_neg (show ¬1 ≤ u by linarith), if_pos h0]
    refine (key _).2 ?_
    have : u ^ 3 ≤ 0 := by
      have : 0 ≤ (-u) ^ 3 := by have : 0 ≤ -u := by linarith
                                positivity
      nlinarith
    linarith
  · have h0 : 0 ≤ u := not_lt.mp h0
    rw [if_neg (not_lt.mpr h0)]
    by_cases h1 : u < 1
    · rw [if_neg (show ¬3 ≤ u by linarith), if_neg (show ¬2 ≤ u by linarith), if_neg (show ¬1 ≤ u by linarith), if_pos h1]
      exact (key _).1 (by positivity : (0 : α) ≤ u ^ 3 / 6)
    · have h1 : 1 ≤ u := not_lt.mp h1
      rw [if_neg (not_lt.mpr h1)]
      by_cases h2 : u < 2
      · rw [if_neg (show ¬3 ≤ u by linarith), if_neg (show ¬2 ≤ u by linarith), if_pos h1, if_pos h2]
        refine (key _).1 ?_
        have e : (-3 * u ^ 3 + 12 * u ^ 2 - 12 * u + 4) / 6 =
            (1 + 3 * (u - 1) + 3 * ((u - 1) ^ 2 * (2 - u))) / 6 := by ring
        rw [e]
        have : 0 ≤ (u - 1) ^ 2 * (2 - u) := mul_nonneg (sq_nonneg _) (by linarith)
        linarith
      · have h2 : 2 ≤ u := not_lt.mp h2
        rw [if_neg (not_lt.mpr h2)]
        by_cases h3 : u < 3
        · rw [if_neg (show ¬3 ≤ u by linarith), if_pos h2, if_pos h3]
          refine (key _).1 ?_
          have e : (3 * u ^ 3 - 24 * u ^ 2 + 60 * u - 44) / 6 =
              (1 + 3 * (3 - u) + 3 * ((3 - u) ^ 2 * (u - 2))) / 6 := by ring
          rw [e]
          have : 0 ≤ (3 - u) ^ 2 * (u - 2) := mul_nonneg (sq_nonneg _) (by linarith)
          linarith
        · have h3 : 3 ≤ u := not_lt.mp h3
          rw [if_pos h3, if_neg (not_lt.mpr h3)]
          by_cases h4 : u < 4
          · rw [if_pos h4]
            refine (key _).1 ?_
            have : 0 ≤ 4 - u := by linarith
            positivity
          · rw [if_neg h4]
            refine (key _).2 ?_
            have : 0 ≤ (u - 4) ^ 3 := by
              have : 0 ≤ u - 4 := by linarith
              positivity
            nlinarith

/-- **C66**, sign: every basis value is non-negative, for every input value (also outside [0,1]). -/
theorem C66_nonneg (m i : Nat) (x : α) : 0 ≤ bSpline m i x := by
  unfold bSpline
  split
  · exact le_rfl
  · exact not_lt.mp ‹_›

theorem exists_nat_floor (y : α) (hy : 0 ≤ y) (m : Nat) (hm : y ≤ m) :
    ∃ q : Nat, (q : α) ≤ y ∧ y < (q : α) + 1 ∧ q ≤ m := by
  induction m with
  | zero =>
    refine ⟨0, by simpa using hy, ?_, le_rfl⟩
    have : y ≤ 0 := by simpa using hm
    push_cast; linarith
  | succ m ih =>
    by_cases h : y < (m : α) + 1
    · by_cases h' : y ≤ m
      · obtain ⟨q, h1, h2, h3⟩ := ih h'
        exact ⟨q, h1, h2, by omega⟩
      · exact ⟨m, (not_le.mp h').le, h, by omega⟩
    · refine ⟨m + 1, ?_, ?_, le_rfl⟩
      · push_cast; exact not_lt.mp h
      · push_cast at *; linarith

/-- **C66**, sum: on [0,1] the basis values add up to `m^3`. -/
theorem C66_partition (m : Nat) (hm : 0 < m) (x : α) (h0 : 0 ≤ x) (h1 : x ≤ 1) :
    (bSplineRow m x).sum = (m : α) ^ 3 := by
  have hm' : (0 : α) < m := by exact_mod_cast hm
  set y := (m : α) * x with hy
  have hy0 : 0 ≤ y := by positivity
  have hym : y ≤ m := by rw [hy]; nlinarith
  obtain ⟨q, hq1, hq2, hqm⟩ := exists_nat_floor y hy0 m hym
  unfold bSplineRow
  have hsum : ((List.range (m + 3)).map fun i => bSpline m i x).sum =
      (m : α) ^ 3 * ∑ i ∈ Finset.range (m + 3), Spec.cardinal (y + 3 - i) := by
    rw [sum_range_list, Finset.mul_sum]
    exact Finset.sum_congr rfl fun i _ => C66_cardinal m i hm x
  rw [hsum]
  have hzero : ∀ i : Nat, (i < q ∨ q + 3 < i) → Spec.cardinal (y + 3 - i) = 0 := by
    intro i hi
    unfold Spec.cardinal
    rcases hi with hi | hi
    · have : (i : α) + 1 ≤ q := by exact_mod_cast hi
      rw [if_neg (by linarith), if_neg (by linarith), if_neg (by linarith), if_neg (by linarith),
        if_neg (by linarith)]
    · have : (q : α) + 3 + 1 ≤ i := by exact_mod_cast hi
      rw [if_pos (by linarith)]
  have hf : ∀ f : α, 0 ≤ f → f < 1 → Spec.cardinal f + Spec.cardinal (f + 1) + Spec.cardinal (f + 2) +
      Spec.cardinal (f + 3) = 1 := by
    intro f hf0 hf1
    unfold Spec.cardinal
    rw [if_neg (by linarith), if_pos hf1, if_neg (by linarith), if_neg (by linarith), if_pos (by linarith),
      if_neg (by linarith), if_neg (by linarith), if_neg (by linarith), if_pos (by linarith), if_neg (by linarith),
      if_neg (by linarith), if_neg (by linarith), if_neg (by linarith), if_pos (by linarith)]
    ring
  have hone := hf (y - q) (by linarith) (by linarith)
  have e0 : (y : α) + 3 - ((q + 3 : Nat) : α) = y - q := by push_cast; ring
  have e1 : (y : α) + 3 - ((q + 2 : Nat) : α) = y - q + 1 := by push_cast; ring
  have e2 : (y : α) + 3 - ((q + 1 : Nat) : α) = y - q + 2 := by push_cast; ring
  have e3 : (y : α) + 3 - (q : α) = y - q + 3 := by ring
  have hS : ∑ i ∈ Finset.range (m + 3), Spec.cardinal (y + 3 - i) = 1 := by
    by_cases hqm' : q < m
    · rw [← Finset.sum_subset (s₁ := {q, q + 1, q + 2, q + 3})]
      · rw [Finset.sum_insert (by simp), Finset.sum_insert (by simp), Finset.sum_insert (by simp),
          Finset.sum_singleton, e0, e1, e2, e3]
        linarith
      · intro i hi
        simp only [Finset.mem_insert, Finset.mem_singleton] at hi
        rw [Finset.mem_range]
        omega
      · intro i _ hi
        simp only [Finset.mem_insert, Finset.mem_singleton, not_or] at hi
        exact hzero i (by omega)
    · have hqe : q = m := by omega
      have hyq : y = q := by
        rw [hqe] at hq1 ⊢
        exact le_antisymm hym hq1
      have hc0 : Spec.cardinal (y - q) = 0 := by rw [hyq]; simp [Spec.cardinal]
      rw [← Finset.sum_subset (s₁ := {q, q + 1, q + 2})]
      · rw [Finset.sum_insert (by simp), Finset.sum_insert (by simp),
          Finset.sum_singleton, e1, e2, e3]
        linarith
      · intro i hi
        simp only [Finset.mem_insert, Finset.mem_singleton] at hi
        rw [Finset.mem_range]
        omega
      · intro i hi1 hi
        simp only [Finset.mem_insert, Finset.mem_singleton, not_or] at hi
        rw [Finset.mem_range] at hi1
        exact hzero i (by omega)
  rw [hS, mul_one]

/-- Two intervals, an interior point: five basis values with sum 8, the last one clipped from -32/375; and the
right end of the range. -/
example : bSplineRow 2 (3 / 10 : ℚ) = [32 / 375, 1244 / 375, 1616 / 375, 36 / 125, 0] ∧
    splineRaw 2 4 (3 / 10 : ℚ) = -32 / 375 ∧ bSplineRow 1 (1 : ℚ) = [0, 1 / 6, 2 / 3, 1 / 6] := by
  decide +kernel

end SALib
