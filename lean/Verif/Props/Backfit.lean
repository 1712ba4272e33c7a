import Verif.Lemmas.Backfit
import Mathlib.Tactic.NormNum
import Mathlib.Tactic.Positivity

/-! # C94: backfitting of the first-order terms of `hdmr` -/

set_option linter.unusedSectionVars false

namespace SALib

open Finset Spec

variable {α : Type} [Field α] [LinearOrder α] [IsStrictOrderedRing α]

theorem blockLoss_nonneg (R w : Nat) (lam : α) (hl : 0 ≤ lam) (B : List (Mat α)) (y : List α) (C : List (List α)) :
    0 ≤ blockLoss R w lam B y C :=
  add_nonneg (sum_nonneg fun _ _ => sq_nonneg _)
    (mul_nonneg hl (sum_nonneg fun _ _ => sum_nonneg fun _ _ => sq_nonneg _))

/-- **C94.** A sweep never increases the penalised sum of squares; it falls by at least the penalty times the squared
change of all coefficients. -/
theorem C94_sweep (R w : Nat) (lam : α) (T B : List (Mat α)) (y : List α) (hS : FitShapes R w T B y)
    (hI : ∀ j < B.length, RidgeInverse lam R w (B.getD j []) (T.getD j []))
    (C : List (List α)) (hC : Shape B.length w C) :
    Shape B.length w (backfitSweep T B y C) ∧
    blockLoss R w lam B y (backfitSweep T B y C) +
      lam * (∑ j ∈ range B.length, ∑ k ∈ range w, (coefAt C j k - coefAt (backfitSweep T B y C) j k) ^ 2) ≤
    blockLoss R w lam B y C :=
  ⟨sweepTo_shape R w T B y hS C hC _ le_rfl, (sweepTo_descent R w lam T B y hS hI C hC _ le_rfl).2⟩

/-- **C94.** Coefficients that a sweep leaves unchanged minimise the penalised sum of squares over all coefficients of
all terms jointly; with a positive penalty they are the only minimiser. -/
theorem C94_fixed_point (R w : Nat) (lam : α) (hl : 0 ≤ lam) (T B : List (Mat α)) (y : List α)
    (hS : FitShapes R w T B y) (hI : ∀ j < B.length, RidgeInverse lam R w (B.getD j []) (T.getD j []))
    (C : List (List α)) (hC : Shape B.length w C) (hfix : backfitSweep T B y C = C) (c' : Nat → Nat → α) :
    blockLoss R w lam B y C ≤
      ridgeLoss B.length w R lam (blkAt B) (fun r => y.getD r 0) c' ∧
    (0 < lam → ridgeLoss B.length w R lam (blkAt B) (fun r => y.getD r 0) c' ≤
      blockLoss R w lam B y C →
      ∀ j < B.length, ∀ k < w, c' j k = coefAt C j k) := by
  have h := all_best B.length w R lam hl (blkAt B) (fun r => y.getD r 0) (coefAt C) c'
    (fixed_normal R w lam T B y hS hI C hC hfix)
  unfold blockLoss
  have hp : 0 ≤ ∑ j ∈ range B.length, ∑ k ∈ range w, (c' j k - coefAt C j k) ^ 2 :=
    sum_nonneg fun _ _ => sum_nonneg fun _ _ => sq_nonneg _
  refine ⟨by nlinarith [mul_nonneg hl hp], fun hpos hle j hj k hk => ?_⟩
  have h0 : ∑ j ∈ range B.length, ∑ k ∈ range w, (c' j k - coefAt C j k) ^ 2 = 0 := by
    have : lam * ∑ j ∈ range B.length, ∑ k ∈ range w, (c' j k - coefAt C j k) ^ 2 ≤ 0 := by linarith
    exact le_antisymm (nonpos_of_mul_nonpos_right this hpos) hp
  have h1 := (sum_eq_zero_iff_of_nonneg fun j _ => sum_nonneg fun k _ => sq_nonneg _).mp h0 j (mem_range.mpr hj)
  have h2 := (sum_eq_zero_iff_of_nonneg fun k _ => sq_nonneg _).mp h1 k (mem_range.mpr hk)
  exact sub_eq_zero.mp (pow_eq_zero_iff (two_ne_zero) |>.mp h2)

/-- The `while` loop performs some number of sweeps; it stops early only when no squared norm of a block changed by more
than a thousandth in its last sweep, and each sweep but the last changed one by more. -/
theorem loop_iterate (T B : List (Mat α)) (y : List α) : ∀ (it : Nat) (v : α) (C : List (List α)),
    ∃ t ≤ it, backfitLoop T B y it v C = (backfitSweep T B y)^[t] C ∧
      (t = 0 → it = 0 ∨ v ≤ 1 / 1000) ∧ (0 < t → 1 / 1000 < v) ∧
      (∀ s, t = s + 1 → it ≠ t → (List.zipWith (fun a b => |a - b|) (sumSquares ((backfitSweep T B y)^[s + 1] C))
        (sumSquares ((backfitSweep T B y)^[s] C))).foldl max 0 ≤ 1 / 1000) ∧
      (∀ s, s + 1 < t → 1 / 1000 < (List.zipWith (fun a b => |a - b|) (sumSquares ((backfitSweep T B y)^[s + 1] C))
        (sumSquares ((backfitSweep T B y)^[s] C))).foldl max 0) := by
  intro it
  induction it with
  | zero => intro v C; exact ⟨0, le_rfl, rfl, fun _ => Or.inl rfl, fun h => by omega, fun s h => by omega, fun s h => by omega⟩
  | succ it ih =>
    intro v C
    by_cases hv : v > 1 / 1000
    · obtain ⟨t, h1, h2, h3, h3', h4, h5⟩ := ih
        ((List.zipWith (fun a b => |a - b|) (sumSquares (backfitSweep T B y C)) (sumSquares C)).foldl max 0)
        (backfitSweep T B y C)
      refine ⟨t + 1, by omega, ?_, fun h => by omega, fun _ => hv, fun s hs hne => ?_, fun s hs => ?_⟩
      · rw [backfitLoop, if_pos hv, Function.iterate_succ_apply]
        exact h2
      · obtain rfl : s = t := by omega
        rcases Nat.eq_zero_or_pos s with h0 | h0
        · subst h0
          rcases h3 rfl with h | h
          · omega
          · simpa using h
        · obtain ⟨s', rfl⟩ : ∃ s', s = s' + 1 := ⟨s - 1, by omega⟩
          have := h4 s' rfl (by omega)
          rw [← Function.iterate_succ_apply, ← Function.iterate_succ_apply] at this
          exact this
      · rcases Nat.eq_zero_or_pos s with h0 | h0
        · subst h0
          exact h3' (by omega)
        · obtain ⟨s', rfl⟩ : ∃ s', s = s' + 1 := ⟨s - 1, by omega⟩
          have := h5 s' (by omega)
          rw [← Function.iterate_succ_apply, ← Function.iterate_succ_apply] at this
          exact this
    · refine ⟨0, by omega, ?_, fun _ => Or.inr (le_of_not_gt hv), fun h => by omega, fun s h => by omega, fun s h => by omega⟩
      rw [backfitLoop, if_neg hv]
      rfl

theorem foldl_max_gt (l : List α) : ∀ (a c : α), c < l.foldl max a → c < a ∨ ∃ x ∈ l, c < x := by
  induction l with
  | nil => intro a c h; exact Or.inl h
  | cons x l ih =>
    intro a c h
    rcases ih _ _ h with h | ⟨z, hz, h⟩
    · rcases lt_max_iff.mp h with h | h
      · exact Or.inl h
      · exact Or.inr ⟨x, by simp, h⟩
    · exact Or.inr ⟨z, by simp [hz], h⟩

theorem foldl_max_ge (l : List α) : ∀ (a : α), a ≤ l.foldl max a ∧ ∀ x ∈ l, x ≤ l.foldl max a := by
  induction l with
  | nil => intro a; exact ⟨le_rfl, by simp⟩
  | cons x l ih =>
    intro a
    obtain ⟨h1, h2⟩ := ih (max a x)
    refine ⟨le_trans (le_max_left _ _) h1, fun z hz => ?_⟩
    rcases List.mem_cons.mp hz with rfl | hz
    · exact le_trans (le_max_right _ _) h1
    · exact h2 z hz

theorem sumSquares_getD (n w : Nat) (C : List (List α)) (hC : Shape n w C) (j : Nat) (hj : j < n) :
    (sumSquares C).getD j 0 = ∑ k ∈ range w, coefAt C j k ^ 2 := by
  have hj' : j < C.length := by rw [hC.1]; exact hj
  have hl : (C.getD j []).length = w := getD_mem_length C w j hC.2 hj'
  have h := dotList_eq_range (C.getD j []) (C.getD j []) w hl hl
  have e : (sumSquares C).getD j 0 = dotList (C.getD j []) (C.getD j []) := by
    simp [sumSquares, List.getD, hj', dotList, List.zipWith_self]
  rw [e, h]
  exact sum_congr rfl fun k _ => (pow_two _).symm

theorem changes_mem (n w : Nat) (C C' : List (List α)) (hC : Shape n w C) (hC' : Shape n w C') (x : α) :
    x ∈ List.zipWith (fun a b => |a - b|) (sumSquares C') (sumSquares C) ↔
      ∃ j < n, x = |∑ k ∈ range w, coefAt C' j k ^ 2 - ∑ k ∈ range w, coefAt C j k ^ 2| := by
  have l1 : (sumSquares C).length = n := by simp [sumSquares, hC.1]
  have l2 : (sumSquares C').length = n := by simp [sumSquares, hC'.1]
  constructor
  · intro h
    obtain ⟨j, hj, rfl⟩ := List.mem_iff_getElem.mp h
    have hjn : j < n := by simpa [l1, l2] using hj
    refine ⟨j, hjn, ?_⟩
    rw [← sumSquares_getD n w C hC j hjn, ← sumSquares_getD n w C' hC' j hjn, List.getElem_zipWith]
    simp [List.getD, l1, l2, hjn]
  · rintro ⟨j, hj, rfl⟩
    rw [← sumSquares_getD n w C hC j hj, ← sumSquares_getD n w C' hC' j hj]
    refine List.mem_iff_getElem.mpr ⟨j, by simp [l1, l2, hj], ?_⟩
    rw [List.getElem_zipWith]
    simp [List.getD, l1, l2, hj]

/-- A squared norm changes by little when the coefficients do. -/
theorem norm_change (w : Nat) (c c' : Nat → α) :
    (∑ k ∈ range w, c' k ^ 2 - ∑ k ∈ range w, c k ^ 2) ^ 2 ≤
      (∑ k ∈ range w, (c k - c' k) ^ 2) * (2 * (∑ k ∈ range w, c' k ^ 2 + ∑ k ∈ range w, c k ^ 2)) := by
  have e : ∑ k ∈ range w, c' k ^ 2 - ∑ k ∈ range w, c k ^ 2 = ∑ k ∈ range w, (c' k - c k) * (c' k + c k) := by
    rw [← sum_sub_distrib]; exact sum_congr rfl fun k _ => by ring
  rw [e]
  refine le_trans (sum_mul_sq_le_sq_mul_sq _ _ _) ?_
  have e2 : ∑ k ∈ range w, (c' k - c k) ^ 2 = ∑ k ∈ range w, (c k - c' k) ^ 2 :=
    sum_congr rfl fun k _ => by ring
  rw [e2]
  refine mul_le_mul_of_nonneg_left ?_ (sum_nonneg fun _ _ => sq_nonneg _)
  rw [← sum_add_distrib, mul_sum]
  exact sum_le_sum fun k _ => by nlinarith [sq_nonneg (c' k - c k)]

theorem iterate_shape (R w : Nat) (T B : List (Mat α)) (y : List α) (hS : FitShapes R w T B y)
    (C : List (List α)) (hC : Shape B.length w C) (t : Nat) : Shape B.length w ((backfitSweep T B y)^[t] C) := by
  induction t with
  | zero => exact hC
  | succ t ih =>
    rw [Function.iterate_succ_apply']
    exact sweepTo_shape R w T B y hS _ ih _ le_rfl

theorem iterate_loss (R w : Nat) (lam : α) (hl : 0 ≤ lam) (T B : List (Mat α)) (y : List α) (hS : FitShapes R w T B y)
    (hI : ∀ j < B.length, RidgeInverse lam R w (B.getD j []) (T.getD j []))
    (C : List (List α)) (hC : Shape B.length w C) (t : Nat) :
    blockLoss R w lam B y ((backfitSweep T B y)^[t] C) ≤ blockLoss R w lam B y C := by
  induction t with
  | zero => exact le_rfl
  | succ t ih =>
    rw [Function.iterate_succ_apply']
    have h := (C94_sweep R w lam T B y hS hI _ (iterate_shape R w T B y hS C hC t)).2
    have hp : 0 ≤ lam * ∑ j ∈ range B.length, ∑ k ∈ range w, (coefAt ((backfitSweep T B y)^[t] C) j k -
        coefAt (backfitSweep T B y ((backfitSweep T B y)^[t] C)) j k) ^ 2 :=
      mul_nonneg hl (sum_nonneg fun _ _ => sum_nonneg fun _ _ => sq_nonneg _)
    linarith

/-- The squared norm of a block is at most the loss over the penalty. -/
theorem block_le_loss (R w : Nat) (lam : α) (hl : 0 ≤ lam) (B : List (Mat α)) (y : List α) (C : List (List α)) (j : Nat)
    (hj : j < B.length) : lam * (∑ k ∈ range w, coefAt C j k ^ 2) ≤ blockLoss R w lam B y C := by
  have h1 : ∑ k ∈ range w, coefAt C j k ^ 2 ≤ ∑ j ∈ range B.length, ∑ k ∈ range w, coefAt C j k ^ 2 :=
    single_le_sum (f := fun j => ∑ k ∈ range w, coefAt C j k ^ 2) (fun _ _ => sum_nonneg fun _ _ => sq_nonneg _)
      (mem_range.mpr hj)
  have h2 : 0 ≤ ∑ r ∈ range R, (y.getD r 0 - fitAt B.length w (blkAt B) (coefAt C) r) ^ 2 :=
    sum_nonneg fun _ _ => sq_nonneg _
  have h3 := mul_le_mul_of_nonneg_left h1 hl
  unfold blockLoss ridgeLoss
  linarith

/-- A sweep that changes a squared norm by more than a thousandth lowers the loss by a fixed amount. -/
theorem sweep_drop (R w : Nat) (lam : α) (hl : 0 < lam) (T B : List (Mat α)) (y : List α) (hS : FitShapes R w T B y)
    (hI : ∀ j < B.length, RidgeInverse lam R w (B.getD j []) (T.getD j []))
    (C0 : List (List α)) (hC : Shape B.length w C0) (s : Nat)
    (h : 1 / 1000 < (List.zipWith (fun a b => |a - b|) (sumSquares ((backfitSweep T B y)^[s + 1] C0))
        (sumSquares ((backfitSweep T B y)^[s] C0))).foldl max 0) :
    lam ^ 2 ≤ 4000000 * blockLoss R w lam B y C0 *
      (blockLoss R w lam B y ((backfitSweep T B y)^[s] C0) - blockLoss R w lam B y ((backfitSweep T B y)^[s + 1] C0)) := by
  have hs := iterate_shape R w T B y hS C0 hC s
  have hs' := iterate_shape R w T B y hS C0 hC (s + 1)
  rcases foldl_max_gt _ _ _ h with h | ⟨x, hx, h⟩
  · norm_num at h
  obtain ⟨j, hj, rfl⟩ := (changes_mem _ w _ _ hs hs' x).mp hx
  have d := (C94_sweep R w lam T B y hS hI _ hs).2
  rw [← Function.iterate_succ_apply' (backfitSweep T B y) s C0] at d
  set C := (backfitSweep T B y)^[s] C0
  set C' := (backfitSweep T B y)^[s + 1] C0
  have hd : ∑ k ∈ range w, (coefAt C j k - coefAt C' j k) ^ 2 ≤
      ∑ j ∈ range B.length, ∑ k ∈ range w, (coefAt C j k - coefAt C' j k) ^ 2 :=
    single_le_sum (f := fun j => ∑ k ∈ range w, (coefAt C j k - coefAt C' j k) ^ 2)
      (fun _ _ => sum_nonneg fun _ _ => sq_nonneg _) (mem_range.mpr hj)
  have n1 := block_le_loss R w lam hl.le B y C j hj
  have n2 := block_le_loss R w lam hl.le B y C' j hj
  have l1 : blockLoss R w lam B y C ≤ blockLoss R w lam B y C0 := iterate_loss R w lam hl.le T B y hS hI C0 hC s
  have l2 : blockLoss R w lam B y C' ≤ blockLoss R w lam B y C0 := iterate_loss R w lam hl.le T B y hS hI C0 hC (s + 1)
  have nc := norm_change w (coefAt C j) (coefAt C' j)
  have hsq : (1 / 1000 : α) ^ 2 < (∑ k ∈ range w, coefAt C' j k ^ 2 - ∑ k ∈ range w, coefAt C j k ^ 2) ^ 2 := by
    rw [← sq_abs (∑ k ∈ range w, coefAt C' j k ^ 2 - ∑ k ∈ range w, coefAt C j k ^ 2)]
    exact pow_lt_pow_left₀ h (by norm_num) two_ne_zero
  have hJ : 0 ≤ blockLoss R w lam B y C0 := blockLoss_nonneg R w lam hl.le B y C0
  generalize hA : ∑ k ∈ range w, coefAt C' j k ^ 2 = A at *
  generalize hB : ∑ k ∈ range w, coefAt C j k ^ 2 = A' at *
  generalize hD : ∑ k ∈ range w, (coefAt C j k - coefAt C' j k) ^ 2 = D at *
  have hD0 : 0 ≤ D := by rw [← hD]; exact sum_nonneg fun _ _ => sq_nonneg _
  have k1 : lam ^ 2 * (1 / 1000) ^ 2 ≤ lam ^ 2 * (D * (2 * (A + A'))) :=
    mul_le_mul_of_nonneg_left (le_trans hsq.le nc) (sq_nonneg _)
  have k2 : lam ^ 2 * (D * (2 * (A + A'))) = 2 * ((lam * D) * (lam * A + lam * A')) := by ring
  have k3 : lam * D ≤ blockLoss R w lam B y C - blockLoss R w lam B y C' := by
    have := mul_le_mul_of_nonneg_left hd hl.le
    linarith
  have k4 : lam * A + lam * A' ≤ 2 * blockLoss R w lam B y C0 := by linarith
  have k5 : (lam * D) * (lam * A + lam * A') ≤
      (blockLoss R w lam B y C - blockLoss R w lam B y C') * (2 * blockLoss R w lam B y C0) := by
    refine le_trans (mul_le_mul_of_nonneg_left k4 (mul_nonneg hl.le hD0)) ?_
    exact mul_le_mul_of_nonneg_right k3 (by linarith)
  nlinarith [k1, k2, k5]

/-- **C94.** What `_first_order` returns: the coefficients after `t` sweeps from the separate fits of the terms, with the
residual of their sum.  Their penalised sum of squares is no larger than that of the separate fits.  Unless all
`maxiter` sweeps were made, the last sweep changed no term's squared norm by more than a thousandth.  With a positive
penalty the number of sweeps has a bound that does not depend on `maxiter`. -/
theorem C94_first_order (R w maxiter : Nat) (lam : α) (hl : 0 ≤ lam) (T B : List (Mat α)) (y : List α)
    (hS : FitShapes R w T B y) (hI : ∀ j < B.length, RidgeInverse lam R w (B.getD j []) (T.getD j [])) :
    ∃ (C0 : List (List α)) (t : Nat), t ≤ maxiter ∧ Shape B.length w C0 ∧
      (∀ j < B.length, ∀ v : Nat → α,
        (∑ r ∈ range R, (y.getD r 0 - ∑ k ∈ range w, blkAt B j r k * coefAt C0 j k) ^ 2) +
            lam * ∑ k ∈ range w, coefAt C0 j k ^ 2 ≤
          (∑ r ∈ range R, (y.getD r 0 - ∑ k ∈ range w, blkAt B j r k * v k) ^ 2) + lam * ∑ k ∈ range w, v k ^ 2) ∧
      (hdmrFirst T B y maxiter).2.2 = (backfitSweep T B y)^[t] C0 ∧
      (hdmrFirst T B y maxiter).2.1.length = R ∧
      (∀ r < R, (hdmrFirst T B y maxiter).2.1.getD r 0 =
        y.getD r 0 - fitAt B.length w (blkAt B) (coefAt (hdmrFirst T B y maxiter).2.2) r) ∧
      blockLoss R w lam B y (hdmrFirst T B y maxiter).2.2 ≤ blockLoss R w lam B y C0 ∧
      (0 < maxiter → 0 < t) ∧
      (t < maxiter → ∀ s, t = s + 1 → ∀ j < B.length,
        |∑ k ∈ range w, coefAt ((backfitSweep T B y)^[s + 1] C0) j k ^ 2 -
          ∑ k ∈ range w, coefAt ((backfitSweep T B y)^[s] C0) j k ^ 2| ≤ 1 / 1000) ∧
      (0 < lam → (t : α) * lam ^ 2 ≤ 4000000 * blockLoss R w lam B y C0 ^ 2 + lam ^ 2) := by
  set C0 := (List.range B.length).map fun j => matVec (T.getD j []) y with hC0
  obtain ⟨t, h1, h2, h3, _, h4, h5⟩ := loop_iterate T B y maxiter 1 C0
  have hsh : Shape B.length w C0 := by
    refine ⟨by simp [hC0], fun c hc => ?_⟩
    obtain ⟨j, hj, rfl⟩ := List.mem_map.mp hc
    rw [matVec_length]
    exact (hS.inv j (List.mem_range.mp hj)).1
  have hres : (hdmrFirst T B y maxiter).2.2 = (backfitSweep T B y)^[t] C0 := h2
  have hshr := iterate_shape R w T B y hS C0 hsh t
  have hc : ∀ j < B.length, ∀ k, coefAt C0 j k = (matVec (T.getD j []) y).getD k 0 := by
    intro j hj k
    simp [coefAt, hC0, List.getD, hj]
  have hfin : ∀ (C : List (List α)), Shape B.length w C → ∀ m ≤ B.length,
      (((List.range m).map fun j => matVec (B.getD j []) (C.getD j [])).foldl vecSub y).length = R ∧
      ∀ r < R, (((List.range m).map fun j => matVec (B.getD j []) (C.getD j [])).foldl vecSub y).getD r 0 =
        y.getD r 0 - fitAt m w (blkAt B) (coefAt C) r := by
    intro C hC m
    induction m with
    | zero => intro _; exact ⟨hS.ylen, fun r _ => by simp [fitAt]⟩
    | succ m ih =>
      intro hm
      obtain ⟨g1, g2⟩ := ih (by omega)
      have hB := hS.basis m (by omega)
      have hl : (matVec (B.getD m []) (C.getD m [])).length = R := by rw [matVec_length]; exact hB.1
      have hcw : (C.getD m []).length = w := getD_mem_length C w m hC.2 (by rw [hC.1]; omega)
      rw [List.range_succ, List.map_append, List.foldl_append, List.map_singleton, List.foldl_cons, List.foldl_nil]
      refine ⟨by rw [vecSub, List.length_zipWith, g1, hl]; simp, fun r hr => ?_⟩
      rw [vecSub_getD _ _ r (by rw [g1]; exact hr) (by rw [hl]; exact hr), g2 r hr, matVec_getD _ _ R w r hB hcw hr]
      unfold fitAt
      rw [sum_range_succ]
      unfold blkAt coefAt
      ring
  have hf := hfin _ hshr _ le_rfl
  rw [← hres] at hf
  refine ⟨C0, t, h1, hsh, fun j hj v => ?_, hres, hf.1, hf.2, ?_, fun hm => ?_, fun ht s hs j hj => ?_, fun hpos => ?_⟩
  · have := ridge_expand (range w) R lam (fun r k => blkAt B j r k) (fun r => y.getD r 0)
      (fun k => (matVec (T.getD j []) y).getD k 0) v fun k hk =>
        ridgeInverse_normal lam R w _ _ (hS.basis j hj) (hS.inv j hj) (hI j hj) y hS.ylen k (mem_range.mp hk)
    simp only [hc j hj]
    rw [this]
    have p1 : 0 ≤ ∑ r ∈ range R, (∑ k ∈ range w, blkAt B j r k * (v k - (matVec (T.getD j []) y).getD k 0)) ^ 2 :=
      sum_nonneg fun _ _ => sq_nonneg _
    have p2 : 0 ≤ lam * ∑ k ∈ range w, (v k - (matVec (T.getD j []) y).getD k 0) ^ 2 :=
      mul_nonneg hl (sum_nonneg fun _ _ => sq_nonneg _)
    linarith
  · rw [hres]; exact iterate_loss R w lam hl T B y hS hI C0 hsh t
  · by_contra hc
    rcases h3 (by omega) with h | h
    · omega
    · norm_num at h
  · exact le_trans ((foldl_max_ge _ _).2 _ ((changes_mem _ w _ _ (iterate_shape R w T B y hS C0 hsh s)
      (iterate_shape R w T B y hS C0 hsh (s + 1)) _).mpr ⟨j, hj, rfl⟩)) (h4 s hs (by omega))
  · have key : ∀ s, s < t → (s : α) * lam ^ 2 ≤ 4000000 * blockLoss R w lam B y C0 *
        (blockLoss R w lam B y C0 - blockLoss R w lam B y ((backfitSweep T B y)^[s] C0)) := by
      intro s
      induction s with
      | zero => intro _; simp
      | succ s ih =>
        intro hs
        have a := ih (by omega)
        have b := sweep_drop R w lam hpos T B y hS hI C0 hsh s (h5 s hs)
        push_cast
        linarith
    rcases Nat.eq_zero_or_pos t with h0 | h0
    · rw [h0]
      have := sq_nonneg (blockLoss R w lam B y C0)
      have := sq_nonneg lam
      push_cast
      linarith
    · obtain ⟨s, rfl⟩ : ∃ s, t = s + 1 := ⟨t - 1, by omega⟩
      have a := key s (by omega)
      have b := blockLoss_nonneg R w lam hl B y ((backfitSweep T B y)^[s] C0)
      have c := blockLoss_nonneg R w lam hl B y C0
      push_cast
      nlinarith [mul_nonneg c b]

/-- **C94.** Orders two and three have no backfitting: every term is fitted to the same residual, and what the terms
share is subtracted once per term.  Four terms with the same column leave a larger sum of squares than no term. -/
theorem C94_higher_fails : ∃ (T B : List (Mat ℚ)) (y : List ℚ), FitShapes 1 1 T B y ∧
    (∀ j < B.length, RidgeInverse (1 / 100) 1 1 (B.getD j []) (T.getD j [])) ∧
    ∑ r ∈ range 1, y.getD r 0 ^ 2 < ∑ r ∈ range 1, (hdmrHigher T B y).2.1.getD r 0 ^ 2 := by
  exact ⟨List.replicate 4 [[100 / 101]], List.replicate 4 [[1]], [1],
    ⟨rfl, by unfold Shape; decide +kernel, by unfold Shape; decide +kernel⟩, by unfold RidgeInverse; decide +kernel,
    by decide +kernel⟩

/-! ### The hypotheses are met -/

/-- Two terms of one column on two points, penalty 1; the first term's inverse is `(1, 2) / 6`, the second's `(1, 1) / 3`. -/
example : FitShapes 2 1 ([[[1 / 6, 1 / 3]], [[1 / 3, 1 / 3]]] : List (Mat ℚ)) [[[1], [2]], [[1], [1]]] [3, 0] ∧
    ∀ j < 2, RidgeInverse (1 : ℚ) 2 1 (([[[1], [2]], [[1], [1]]] : List (Mat ℚ)).getD j [])
      (([[[1 / 6, 1 / 3]], [[1 / 3, 1 / 3]]] : List (Mat ℚ)).getD j []) := by
  refine ⟨⟨rfl, by unfold Shape; decide +kernel, by unfold Shape; decide +kernel⟩, by unfold RidgeInverse; decide +kernel⟩

/-- A fixed point of the sweep for these data. -/
example : backfitSweep ([[[1 / 6, 1 / 3]], [[1 / 3, 1 / 3]]] : List (Mat ℚ)) [[[1], [2]], [[1], [1]]] [3, 0]
    [[0], [1]] = [[0], [1]] := by decide +kernel

end SALib
