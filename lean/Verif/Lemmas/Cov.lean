import Verif.Model.Hdmr
import Verif.Lemmas.Stats
import Mathlib.Algebra.BigOperators.Field
import Mathlib.Algebra.BigOperators.Group.Finset.Basic
import Mathlib.Tactic.FieldSimp
import Mathlib.Tactic.Ring
import Mathlib.Tactic.Linarith

/-! # Lists as finite sums; `np.cov` -/

set_option linter.unusedSectionVars false

namespace SALib

open Finset

variable {α : Type} [Field α] [LinearOrder α] [IsStrictOrderedRing α]

theorem list_sum_getD (l : List α) : l.sum = ∑ i ∈ range l.length, l.getD i 0 := by
  induction l with
  | nil => simp
  | cons x xs ih => rw [List.sum_cons, List.length_cons, Finset.sum_range_succ', ih]; simp [add_comm]

theorem zipWith_sum_getD (f : α → α → α) (u v : List α) (h : u.length = v.length) :
    (List.zipWith f u v).sum = ∑ i ∈ range u.length, f (u.getD i 0) (v.getD i 0) := by
  induction u generalizing v with
  | nil => simp
  | cons x xs ih =>
    cases v with
    | nil => simp at h
    | cons y ys =>
      rw [List.zipWith_cons_cons, List.sum_cons, ih ys (by simpa using h), List.length_cons,
        Finset.sum_range_succ']
      simp [add_comm]

theorem list_map_sum_getD (f : α → α) (l : List α) : (l.map f).sum = ∑ i ∈ range l.length, f (l.getD i 0) := by
  induction l with
  | nil => simp
  | cons x xs ih => rw [List.map_cons, List.sum_cons, List.length_cons, Finset.sum_range_succ', ih]; simp [add_comm]

/-- The mean of the first `n` values of `f`. -/
def meanOn (n : Nat) (f : Nat → α) : α := (∑ i ∈ range n, f i) / n

/-- The sum of products of deviations. -/
def devSum (n : Nat) (f g : Nat → α) : α := ∑ i ∈ range n, (f i - meanOn n f) * (g i - meanOn n g)

theorem meanOn_add (n : Nat) (f g : Nat → α) : meanOn n (fun i => f i + g i) = meanOn n f + meanOn n g := by
  unfold meanOn; rw [Finset.sum_add_distrib, add_div]

theorem meanOn_const (n : Nat) (hn : 0 < n) (c : α) : meanOn n (fun _ => c) = c := by
  unfold meanOn
  rw [Finset.sum_const, card_range, nsmul_eq_mul]
  have : (n : α) ≠ 0 := by exact_mod_cast hn.ne'
  field_simp

theorem meanOn_sum {ι : Type} (n : Nat) (s : Finset ι) (f : ι → Nat → α) :
    meanOn n (fun i => ∑ j ∈ s, f j i) = ∑ j ∈ s, meanOn n (f j) := by
  unfold meanOn; rw [Finset.sum_comm, Finset.sum_div]

theorem devSum_add_right (n : Nat) (f g h : Nat → α) :
    devSum n f (fun i => g i + h i) = devSum n f g + devSum n f h := by
  unfold devSum
  rw [← Finset.sum_add_distrib, meanOn_add]
  exact Finset.sum_congr rfl fun i _ => by ring

theorem devSum_const_right (n : Nat) (f : Nat → α) (c : α) : devSum n f (fun _ => c) = 0 := by
  rcases Nat.eq_zero_or_pos n with rfl | hn
  · simp [devSum]
  · unfold devSum
    rw [meanOn_const n hn]
    exact Finset.sum_eq_zero fun i _ => by ring

theorem devSum_shift_right (n : Nat) (f g : Nat → α) (c : α) : devSum n f (fun i => g i + c) = devSum n f g := by
  rw [devSum_add_right, devSum_const_right, add_zero]

theorem devSum_comm (n : Nat) (f g : Nat → α) : devSum n f g = devSum n g f := by
  unfold devSum
  exact Finset.sum_congr rfl fun i _ => by ring

theorem devSum_congr (n : Nat) (f f' g g' : Nat → α) (hf : ∀ i < n, f i = f' i) (hg : ∀ i < n, g i = g' i) :
    devSum n f g = devSum n f' g' := by
  have h1 : meanOn n f = meanOn n f' := by
    unfold meanOn; rw [Finset.sum_congr rfl fun i hi => hf i (mem_range.mp hi)]
  have h2 : meanOn n g = meanOn n g' := by
    unfold meanOn; rw [Finset.sum_congr rfl fun i hi => hg i (mem_range.mp hi)]
  unfold devSum
  rw [h1, h2]
  exact Finset.sum_congr rfl fun i hi => by rw [hf i (mem_range.mp hi), hg i (mem_range.mp hi)]

theorem devSum_sum_left {ι : Type} (n : Nat) (s : Finset ι) (f : ι → Nat → α) (g : Nat → α) :
    devSum n (fun i => ∑ j ∈ s, f j i) g = ∑ j ∈ s, devSum n (f j) g := by
  unfold devSum
  rw [meanOn_sum, Finset.sum_comm]
  refine Finset.sum_congr rfl fun i _ => ?_
  rw [← Finset.sum_sub_distrib, Finset.sum_mul]

theorem devSum_self_pos (n : Nat) (f : Nat → α) (i j : Nat) (hi : i < n) (hj : j < n) (h : f i ≠ f j) :
    0 < devSum n f f := by
  have hnn : ∀ k ∈ range n, 0 ≤ (f k - meanOn n f) * (f k - meanOn n f) := fun k _ => mul_self_nonneg _
  rcases (Finset.sum_nonneg hnn).lt_or_eq with h0 | h0
  · exact h0
  · have hz := (Finset.sum_eq_zero_iff_of_nonneg hnn).mp h0.symm
    have ei := mul_self_eq_zero.mp (hz i (mem_range.mpr hi))
    have ej := mul_self_eq_zero.mp (hz j (mem_range.mpr hj))
    exact absurd (by linarith) h

theorem npMean_meanOn (l : List α) (n : Nat) (hn : l.length = n) (h : 0 < n) :
    npMean l = some (meanOn n fun i => l.getD i 0) := by
  rw [npMean_some l (by rintro rfl; simp at hn; omega), list_sum_getD, hn, meanOn]

theorem npVar_devSum (l : List α) (n : Nat) (hn : l.length = n) (h : 0 < n) :
    npVar l = some (devSum n (fun i => l.getD i 0) (fun i => l.getD i 0) / n) := by
  unfold npVar
  rw [npMean_meanOn l n hn h]
  simp only [Option.bind_eq_bind, Option.bind_some]
  rw [npMean_some _ (by rw [ne_eq, List.map_eq_nil_iff]; rintro rfl; simp at hn; omega), list_map_sum_getD,
    List.length_map, hn, devSum]
  congr 2
  exact Finset.sum_congr rfl fun i _ => by ring

theorem npCov_devSum (u v : List α) (n : Nat) (hu : u.length = n) (hv : v.length = n) (h : 2 ≤ n) :
    npCov u v = some (devSum n (fun i => u.getD i 0) (fun i => v.getD i 0) / ((n : α) - 1)) := by
  have h1 : (n : α) - 1 ≠ 0 := by
    have : (2 : α) ≤ (n : α) := by exact_mod_cast h
    intro e; linarith
  unfold npCov
  rw [npMean_meanOn u n hu (by omega), npMean_meanOn v n hv (by omega)]
  simp only [Option.bind_eq_bind, Option.bind_some]
  rw [hu, npDiv_some _ _ h1, zipWith_sum_getD _ _ _ (by rw [hu, hv]), hu, devSum]

theorem sumColumns_getD (R : Nat) (cols : List (List α)) (r : Nat) (hr : r < R) :
    (sumColumns R cols).getD r 0 = ∑ j ∈ range cols.length, (cols.getD j []).getD r 0 := by
  unfold sumColumns
  rw [List.getD, List.getElem?_map, List.getElem?_range hr]
  simp only [Option.map_some, Option.getD_some]
  induction cols with
  | nil => simp
  | cons c cs ih => rw [List.map_cons, List.sum_cons, ih, List.length_cons, Finset.sum_range_succ']; simp [add_comm]

theorem vecSub_getD (u v : List α) (r : Nat) (hu : r < u.length) (hv : r < v.length) :
    (vecSub u v).getD r 0 = u.getD r 0 - v.getD r 0 := by
  simp [vecSub, List.getD, hu, hv]

end SALib
