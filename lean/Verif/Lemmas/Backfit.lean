import Verif.Lemmas.Ridge

/-! # Sweeps of backfitting -/

set_option linter.unusedSectionVars false

namespace SALib

open Finset Spec

variable {α : Type} [Field α] [LinearOrder α] [IsStrictOrderedRing α]

/-- The residual that block `j` is fitted to. -/
def partialRes (B : List (Mat α)) (Yres : List α) (C : List (List α)) (j : Nat) : List α :=
  (List.range B.length).foldl (fun y z =>
    if j ≠ z then vecSub y (matVec (B.getD z []) (C.getD z [])) else y) Yres

/-- The first `m` updates of a sweep. -/
def sweepTo (T B : List (Mat α)) (Yres : List α) (C : List (List α)) (m : Nat) : List (List α) :=
  (List.range m).foldl (fun C j => C.set j (matVec (T.getD j []) (partialRes B Yres C j))) C

theorem sweepTo_succ (T B : List (Mat α)) (Yres : List α) (C : List (List α)) (m : Nat) :
    sweepTo T B Yres C (m + 1) = (sweepTo T B Yres C m).set m
      (matVec (T.getD m []) (partialRes B Yres (sweepTo T B Yres C m) m)) := by
  unfold sweepTo
  rw [List.range_succ, List.foldl_append]
  rfl

theorem backfitSweep_eq (T B : List (Mat α)) (Yres : List α) (C : List (List α)) :
    backfitSweep T B Yres C = sweepTo T B Yres C B.length := rfl

theorem partialRes_spec (R w : Nat) (T B : List (Mat α)) (y : List α) (hS : FitShapes R w T B y)
    (C : List (List α)) (hC : Shape B.length w C) (j : Nat) :
    (partialRes B y C j).length = R ∧ ∀ r < R, (partialRes B y C j).getD r 0 =
      y.getD r 0 - ∑ z ∈ (range B.length).erase j, ∑ k ∈ range w, blkAt B z r k * coefAt C z k := by
  have main : ∀ m ≤ B.length,
      ((List.range m).foldl (fun y z => if j ≠ z then vecSub y (matVec (B.getD z []) (C.getD z [])) else y) y).length
        = R ∧ ∀ r < R, ((List.range m).foldl (fun y z =>
          if j ≠ z then vecSub y (matVec (B.getD z []) (C.getD z [])) else y) y).getD r 0 =
        y.getD r 0 - ∑ z ∈ (range m).erase j, ∑ k ∈ range w, blkAt B z r k * coefAt C z k := by
    intro m
    induction m with
    | zero => intro _; exact ⟨hS.ylen, fun r _ => by simp⟩
    | succ m ih =>
      intro hm
      obtain ⟨h1, h2⟩ := ih (by omega)
      rw [List.range_succ, List.foldl_append, List.foldl_cons, List.foldl_nil]
      by_cases hj : j = m
      · rw [if_neg (by simpa using hj)]
        refine ⟨h1, fun r hr => ?_⟩
        rw [h2 r hr, range_add_one, hj, erase_insert (by simp), erase_eq_of_notMem (by simp)]
      · rw [if_pos hj]
        have hB := hS.basis m (by omega)
        have hl : (matVec (B.getD m []) (C.getD m [])).length = R := by rw [matVec_length]; exact hB.1
        have hcw : (C.getD m []).length = w := getD_mem_length C w m hC.2 (by rw [hC.1]; omega)
        refine ⟨by rw [vecSub, List.length_zipWith, h1, hl]; simp, fun r hr => ?_⟩
        rw [vecSub_getD _ _ r (by rw [h1]; exact hr) (by rw [hl]; exact hr), h2 r hr, matVec_getD _ _ R w r hB hcw hr, range_add_one,
          erase_insert_of_ne (by omega), sum_insert (by simp)]
        unfold blkAt coefAt
        ring
  exact main _ le_rfl

theorem set_shape (n w : Nat) (C : List (List α)) (hC : Shape n w C) (j : Nat) (v : List α) (hv : v.length = w) :
    Shape n w (C.set j v) := by
  refine ⟨by simpa using hC.1, fun c hc => ?_⟩
  rcases List.mem_or_eq_of_mem_set hc with h | h
  · exact hC.2 c h
  · rw [h, hv]

theorem sweepTo_shape (R w : Nat) (T B : List (Mat α)) (y : List α) (hS : FitShapes R w T B y)
    (C : List (List α)) (hC : Shape B.length w C) (m : Nat) (hm : m ≤ B.length) :
    Shape B.length w (sweepTo T B y C m) := by
  induction m with
  | zero => exact hC
  | succ m ih =>
    rw [sweepTo_succ]
    exact set_shape _ _ _ (ih (by omega)) _ _ (by rw [matVec_length]; exact (hS.inv m (by omega)).1)

theorem coefAt_set (C : List (List α)) (j : Nat) (hj : j < C.length) (v : List α) :
    coefAt (C.set j v) = Function.update (coefAt C) j (fun k => v.getD k 0) := by
  funext z k
  by_cases hz : z = j
  · subst hz
    rw [Function.update_self]
    simp [coefAt, List.getD, hj]
  · rw [Function.update_of_ne hz]
    simp [coefAt, List.getD, List.getElem?_set, Ne.symm hz]

/-- The normal equations of an updated block. -/
theorem update_normal (R w : Nat) (lam : α) (T B : List (Mat α)) (y : List α) (hS : FitShapes R w T B y)
    (hI : ∀ j < B.length, RidgeInverse lam R w (B.getD j []) (T.getD j []))
    (C : List (List α)) (hC : Shape B.length w C) (j : Nat) (hj : j < B.length) (k : Nat) (hk : k < w) :
    ∑ r ∈ range R, blkAt B j r k * (y.getD r 0 -
      (∑ z ∈ (range B.length).erase j, ∑ k ∈ range w, blkAt B z r k * coefAt C z k) -
      ∑ k' ∈ range w, blkAt B j r k' * (matVec (T.getD j []) (partialRes B y C j)).getD k' 0) =
      lam * (matVec (T.getD j []) (partialRes B y C j)).getD k 0 := by
  obtain ⟨h1, h2⟩ := partialRes_spec R w T B y hS C hC j
  rw [← ridgeInverse_normal lam R w _ _ (hS.basis j hj) (hS.inv j hj) (hI j hj) _ h1 k hk]
  refine sum_congr rfl fun r hr => ?_
  rw [h2 r (mem_range.mp hr)]
  rfl

/-- The loss falls by at least the penalty times the squared change of the coefficients. -/
theorem sweepTo_descent (R w : Nat) (lam : α) (T B : List (Mat α)) (y : List α)
    (hS : FitShapes R w T B y) (hI : ∀ j < B.length, RidgeInverse lam R w (B.getD j []) (T.getD j []))
    (C : List (List α)) (hC : Shape B.length w C) (m : Nat) (hm : m ≤ B.length) :
    (∀ j, m ≤ j → coefAt (sweepTo T B y C m) j = coefAt C j) ∧
    ridgeLoss B.length w R lam (blkAt B) (fun r => y.getD r 0) (coefAt (sweepTo T B y C m)) +
      lam * (∑ j ∈ range m, ∑ k ∈ range w, (coefAt C j k - coefAt (sweepTo T B y C m) j k) ^ 2) ≤
    ridgeLoss B.length w R lam (blkAt B) (fun r => y.getD r 0) (coefAt C) := by
  induction m with
  | zero =>
    refine ⟨fun _ _ => rfl, ?_⟩
    show _ + lam * (∑ j ∈ range 0, _) ≤ _
    rw [range_zero, sum_empty, mul_zero, add_zero]
    exact le_rfl
  | succ m ih =>
    obtain ⟨h1, h2⟩ := ih (by omega)
    have hsh := sweepTo_shape R w T B y hS C hC m (by omega)
    have hupd := coefAt_set (sweepTo T B y C m) m (by rw [hsh.1]; omega)
      (matVec (T.getD m []) (partialRes B y (sweepTo T B y C m) m))
    rw [← sweepTo_succ] at hupd
    refine ⟨fun j hj => ?_, ?_⟩
    · rw [hupd, Function.update_of_ne (by omega)]
      exact h1 j (by omega)
    · have hb := block_best B.length w R lam (blkAt B) (fun r => y.getD r 0) (coefAt (sweepTo T B y C m)) m
        (by omega) (fun k => (matVec (T.getD m []) (partialRes B y (sweepTo T B y C m) m)).getD k 0)
        (coefAt (sweepTo T B y C m) m) (fun k hk => update_normal R w lam T B y hS hI _ hsh m (by omega) k hk)
      rw [Function.update_eq_self, ← hupd] at hb
      have hp : 0 ≤ ∑ r ∈ range R, (∑ k ∈ range w, blkAt B m r k * (coefAt (sweepTo T B y C m) m k -
        (matVec (T.getD m []) (partialRes B y (sweepTo T B y C m) m)).getD k 0)) ^ 2 :=
        sum_nonneg fun r _ => sq_nonneg _
      have e1 : ∑ j ∈ range m, ∑ k ∈ range w, (coefAt C j k - coefAt (sweepTo T B y C (m + 1)) j k) ^ 2 =
          ∑ j ∈ range m, ∑ k ∈ range w, (coefAt C j k - coefAt (sweepTo T B y C m) j k) ^ 2 := by
        refine sum_congr rfl fun j hj => ?_
        rw [hupd, Function.update_of_ne (by have := mem_range.mp hj; omega)]
      have e2 : ∑ k ∈ range w, (coefAt C m k - coefAt (sweepTo T B y C (m + 1)) m k) ^ 2 =
          ∑ k ∈ range w, (coefAt (sweepTo T B y C m) m k -
            (matVec (T.getD m []) (partialRes B y (sweepTo T B y C m) m)).getD k 0) ^ 2 := by
        rw [hupd, Function.update_self, h1 m le_rfl]
      rw [sum_range_succ, e1, e2]
      linarith

/-- Updates after the `m`-th leave the first `m` blocks. -/
theorem sweepTo_prefix (T B : List (Mat α)) (y : List α) (C : List (List α)) (i m M : Nat) (hi : i < m) (hm : m ≤ M) :
    (sweepTo T B y C M)[i]? = (sweepTo T B y C m)[i]? := by
  induction M with
  | zero => omega
  | succ M ih =>
    by_cases h : m = M + 1
    · rw [h]
    · rw [sweepTo_succ, List.getElem?_set, if_neg (by omega)]
      exact ih (by omega)

/-- At a fixed point of the sweep every update leaves its block. -/
theorem sweep_fixed (R w : Nat) (T B : List (Mat α)) (y : List α) (hS : FitShapes R w T B y)
    (C : List (List α)) (hC : Shape B.length w C) (hfix : backfitSweep T B y C = C) (m : Nat) (hm : m ≤ B.length) :
    sweepTo T B y C m = C := by
  induction m with
  | zero => rfl
  | succ m ih =>
    have h := ih (by omega)
    have hs := sweepTo_succ T B y C m
    rw [h] at hs
    have hp := sweepTo_prefix T B y C m (m + 1) B.length (by omega) hm
    rw [← backfitSweep_eq, hfix, hs, List.getElem?_set, if_pos rfl, if_pos (by rw [hC.1]; omega)] at hp
    rw [hs]
    apply List.ext_getElem?
    intro i
    rw [List.getElem?_set]
    split
    · rename_i hi
      subst hi
      rw [if_pos (by rw [hC.1]; omega), hp]
    · rfl

theorem fixed_normal (R w : Nat) (lam : α) (T B : List (Mat α)) (y : List α) (hS : FitShapes R w T B y)
    (hI : ∀ j < B.length, RidgeInverse lam R w (B.getD j []) (T.getD j []))
    (C : List (List α)) (hC : Shape B.length w C) (hfix : backfitSweep T B y C = C)
    (j : Nat) (hj : j < B.length) (k : Nat) (hk : k < w) :
    ∑ r ∈ range R, blkAt B j r k * (y.getD r 0 - fitAt B.length w (blkAt B) (coefAt C) r) = lam * coefAt C j k := by
  have hset : C = C.set j (matVec (T.getD j []) (partialRes B y C j)) := by
    have h1 := sweepTo_succ T B y C j
    rw [sweep_fixed R w T B y hS C hC hfix (j + 1) (by omega), sweep_fixed R w T B y hS C hC hfix j (by omega)] at h1
    exact h1
  have hc : ∀ k, coefAt C j k = (matVec (T.getD j []) (partialRes B y C j)).getD k 0 := by
    intro k
    have := congrFun (congrFun (coefAt_set C j (by rw [hC.1]; exact hj)
      (matVec (T.getD j []) (partialRes B y C j))) j) k
    rw [← hset, Function.update_self] at this
    exact this
  rw [hc k, ← update_normal R w lam T B y hS hI C hC j hj k hk]
  refine sum_congr rfl fun r _ => ?_
  unfold fitAt
  rw [← sum_erase_add _ _ (mem_range.mpr hj), sub_sub]
  simp only [hc]

end SALib
