import Verif.Spec.Ridge
import Verif.Model.Hdmr
import Verif.Props.HdmrFit
import Mathlib.Algebra.Order.BigOperators.Ring.Finset
import Mathlib.Tactic.LinearCombination

/-! # Normal equations and block updates -/

set_option linter.unusedSectionVars false

namespace SALib

open Finset Spec

variable {α : Type} [Field α] [LinearOrder α] [IsStrictOrderedRing α]

/-- Around a solution of the normal equations the loss is that solution's loss plus a sum of squares. -/
theorem ridge_expand {ι : Type} (I : Finset ι) (R : Nat) (lam : α) (b : Nat → ι → α) (y : Nat → α) (c c' : ι → α)
    (hN : ∀ i ∈ I, ∑ r ∈ range R, b r i * (y r - ∑ k ∈ I, b r k * c k) = lam * c i) :
    (∑ r ∈ range R, (y r - ∑ k ∈ I, b r k * c' k) ^ 2) + lam * ∑ k ∈ I, c' k ^ 2 =
      ((∑ r ∈ range R, (y r - ∑ k ∈ I, b r k * c k) ^ 2) + lam * ∑ k ∈ I, c k ^ 2) +
        ((∑ r ∈ range R, (∑ k ∈ I, b r k * (c' k - c k)) ^ 2) + lam * ∑ k ∈ I, (c' k - c k) ^ 2) := by
  have hc : ∑ r ∈ range R, (y r - ∑ k ∈ I, b r k * c k) * ∑ k ∈ I, b r k * (c' k - c k) =
      lam * ∑ k ∈ I, c k * (c' k - c k) := by
    simp only [mul_sum]
    rw [sum_comm]
    refine sum_congr rfl fun k hk => ?_
    rw [← mul_assoc, ← hN k hk, sum_mul]
    exact sum_congr rfl fun r _ => by ring
  have h1 : ∀ r, (y r - ∑ k ∈ I, b r k * c' k) ^ 2 = (y r - ∑ k ∈ I, b r k * c k) ^ 2 -
      2 * ((y r - ∑ k ∈ I, b r k * c k) * ∑ k ∈ I, b r k * (c' k - c k)) +
      (∑ k ∈ I, b r k * (c' k - c k)) ^ 2 := by
    intro r
    have : ∑ k ∈ I, b r k * (c' k - c k) = (∑ k ∈ I, b r k * c' k) - ∑ k ∈ I, b r k * c k := by
      rw [← sum_sub_distrib]; exact sum_congr rfl fun k _ => by ring
    rw [this]; ring
  have h2 : ∑ k ∈ I, c' k ^ 2 = (∑ k ∈ I, c k ^ 2) + 2 * (∑ k ∈ I, c k * (c' k - c k)) + ∑ k ∈ I, (c' k - c k) ^ 2 := by
    rw [mul_sum, ← sum_add_distrib, ← sum_add_distrib]
    exact sum_congr rfl fun k _ => by ring
  simp only [h1]
  rw [sum_add_distrib, sum_sub_distrib, ← mul_sum, hc, h2]
  ring

/-- The loss when one block is replaced. -/
theorem ridgeLoss_update (n w R : Nat) (lam : α) (b : Nat → Nat → Nat → α) (y : Nat → α) (c : Nat → Nat → α) (j : Nat)
    (hj : j < n) (v : Nat → α) :
    ridgeLoss n w R lam b y (Function.update c j v) =
      ((∑ r ∈ range R, (y r - (∑ z ∈ (range n).erase j, ∑ k ∈ range w, b z r k * c z k) -
        ∑ k ∈ range w, b j r k * v k) ^ 2) + lam * ∑ k ∈ range w, v k ^ 2) +
      lam * ∑ z ∈ (range n).erase j, ∑ k ∈ range w, c z k ^ 2 := by
  have hj' : j ∈ range n := mem_range.mpr hj
  have h1 : ∀ r, fitAt n w b (Function.update c j v) r =
      (∑ z ∈ (range n).erase j, ∑ k ∈ range w, b z r k * c z k) + ∑ k ∈ range w, b j r k * v k := by
    intro r
    unfold fitAt
    rw [← sum_erase_add _ _ hj']
    congr 1
    · refine sum_congr rfl fun z hz => ?_
      rw [Function.update_of_ne (ne_of_mem_erase hz)]
    · rw [Function.update_self]
  have h2 : ∑ z ∈ range n, ∑ k ∈ range w, Function.update c j v z k ^ 2 =
      (∑ z ∈ (range n).erase j, ∑ k ∈ range w, c z k ^ 2) + ∑ k ∈ range w, v k ^ 2 := by
    rw [← sum_erase_add _ _ hj']
    congr 1
    · refine sum_congr rfl fun z hz => ?_
      rw [Function.update_of_ne (ne_of_mem_erase hz)]
    · rw [Function.update_self]
  unfold ridgeLoss
  rw [h2]
  simp only [h1, sub_sub]
  ring

/-- A block that solves its normal equations is the best block, the others being kept. -/
theorem block_best (n w R : Nat) (lam : α) (b : Nat → Nat → Nat → α) (y : Nat → α)
    (c : Nat → Nat → α) (j : Nat) (hj : j < n) (v v' : Nat → α)
    (hN : ∀ k < w, ∑ r ∈ range R, b j r k * (y r - (∑ z ∈ (range n).erase j, ∑ k ∈ range w, b z r k * c z k) -
      ∑ k' ∈ range w, b j r k' * v k') = lam * v k) :
    ridgeLoss n w R lam b y (Function.update c j v') = ridgeLoss n w R lam b y (Function.update c j v) +
      ((∑ r ∈ range R, (∑ k ∈ range w, b j r k * (v' k - v k)) ^ 2) + lam * ∑ k ∈ range w, (v' k - v k) ^ 2) := by
  rw [ridgeLoss_update _ _ _ _ _ _ _ _ hj, ridgeLoss_update _ _ _ _ _ _ _ _ hj,
    ridge_expand (range w) R lam (fun r k => b j r k)
      (fun r => y r - ∑ z ∈ (range n).erase j, ∑ k ∈ range w, b z r k * c z k) v v'
      fun k hk => hN k (mem_range.mp hk)]
  ring

/-- Coefficients at which every block solves its normal equations are the best of all. -/
theorem all_best (n w R : Nat) (lam : α) (hlam : 0 ≤ lam) (b : Nat → Nat → Nat → α) (y : Nat → α)
    (c c' : Nat → Nat → α)
    (hN : ∀ j < n, ∀ k < w, ∑ r ∈ range R, b j r k * (y r - fitAt n w b c r) = lam * c j k) :
    ridgeLoss n w R lam b y c + lam * (∑ j ∈ range n, ∑ k ∈ range w, (c' j k - c j k) ^ 2) ≤
      ridgeLoss n w R lam b y c' := by
  have h := ridge_expand (range n ×ˢ range w) R lam (fun r i => b i.1 r i.2) y (fun i => c i.1 i.2)
    (fun i => c' i.1 i.2) (by
      intro i hi
      obtain ⟨h1, h2⟩ := mem_product.mp hi
      have := hN i.1 (mem_range.mp h1) i.2 (mem_range.mp h2)
      simpa only [sum_product, fitAt] using this)
  simp only [sum_product] at h
  have hp : 0 ≤ ∑ r ∈ range R, (∑ j ∈ range n, ∑ k ∈ range w, b j r k * (c' j k - c j k)) ^ 2 :=
    sum_nonneg fun r _ => sq_nonneg _
  unfold ridgeLoss fitAt
  linarith

/-! ### The model's lists -/

theorem dotList_eq_range (u v : List α) (w : Nat) (hu : u.length = w) (hv : v.length = w) :
    dotList u v = ∑ k ∈ range w, u.getD k 0 * v.getD k 0 := by
  unfold dotList
  induction u generalizing v w with
  | nil => subst hu; simp
  | cons a u ih =>
    cases v with
    | nil => subst hv; simp at hu
    | cons b v =>
      obtain ⟨w', rfl⟩ : ∃ w', w = w' + 1 := ⟨u.length, by simpa using hu.symm⟩
      rw [List.zipWith_cons_cons, List.sum_cons, sum_range_succ', ih v w' (by simpa using hu) (by simpa using hv)]
      simp [add_comm]

theorem matVec_getD (A : Mat α) (v : List α) (R w r : Nat) (hA : Shape R w A) (hv : v.length = w) (hr : r < R) :
    (matVec A v).getD r 0 = ∑ k ∈ range w, (A.getD r []).getD k 0 * v.getD k 0 := by
  have hr' : r < A.length := by rw [hA.1]; exact hr
  have hrow : (A.getD r []).length = w := by
    rw [List.getD, List.getElem?_eq_getElem hr']
    exact hA.2 _ (List.getElem_mem hr')
  rw [← dotList_eq_range _ _ w hrow hv]
  simp [matVec, List.getD, hr']

/-- The solution of the normal equations that the model computes. -/
theorem ridgeInverse_normal (lam : α) (R w : Nat) (B T : Mat α) (hB : Shape R w B) (hT : Shape w R T)
    (h : RidgeInverse lam R w B T) (y : List α) (hy : y.length = R) (k : Nat) (hk : k < w) :
    ∑ r ∈ range R, (B.getD r []).getD k 0 *
      (y.getD r 0 - ∑ k' ∈ range w, (B.getD r []).getD k' 0 * (matVec T y).getD k' 0) = lam * (matVec T y).getD k 0 := by
  have hm : ∀ k' < w, (matVec T y).getD k' 0 = ∑ r ∈ range R, (T.getD k' []).getD r 0 * y.getD r 0 :=
    fun k' hk' => matVec_getD T y w R k' hT hy hk'
  have key : ∑ r ∈ range R, (B.getD r []).getD k 0 * y.getD r 0 =
      (∑ k' ∈ range w, (∑ s ∈ range R, (B.getD s []).getD k 0 * (B.getD s []).getD k' 0) * (matVec T y).getD k' 0) +
        lam * (matVec T y).getD k 0 := by
    rw [hm k hk, mul_sum]
    have e1 : ∑ k' ∈ range w, (∑ s ∈ range R, (B.getD s []).getD k 0 * (B.getD s []).getD k' 0) * (matVec T y).getD k' 0 =
        ∑ r ∈ range R, ∑ k' ∈ range w, (∑ s ∈ range R, (B.getD s []).getD k 0 * (B.getD s []).getD k' 0) *
          ((T.getD k' []).getD r 0 * y.getD r 0) := by
      rw [sum_comm]
      refine sum_congr rfl fun k' hk' => ?_
      rw [hm k' (mem_range.mp hk'), mul_sum]
    rw [e1, ← sum_add_distrib]
    refine sum_congr rfl fun r hr => ?_
    rw [← h k hk r (mem_range.mp hr), add_mul, sum_mul]
    congr 1
    · exact sum_congr rfl fun k' _ => by ring
    · ring
  have e2 : ∑ k' ∈ range w, (∑ s ∈ range R, (B.getD s []).getD k 0 * (B.getD s []).getD k' 0) * (matVec T y).getD k' 0 =
      ∑ r ∈ range R, (B.getD r []).getD k 0 * ∑ k' ∈ range w, (B.getD r []).getD k' 0 * (matVec T y).getD k' 0 := by
    simp only [sum_mul, mul_sum]
    rw [sum_comm]
    exact sum_congr rfl fun r _ => sum_congr rfl fun k' _ => by ring
  simp only [mul_sub, sum_sub_distrib]
  rw [key, e2]
  ring

end SALib
