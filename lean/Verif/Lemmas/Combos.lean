import Verif.Model.MorrisOpt
import Verif.Lemmas.ListAux
import Verif.Lemmas.Tactics
import Mathlib.Data.List.Sort
import Mathlib.Data.List.Perm.Subperm

/-! # Combinations, pair sums, argmax -/

set_option linter.unusedSectionVars false

namespace SALib

variable {α : Type} [Field α] [LinearOrder α] [IsStrictOrderedRing α]

theorem mem_combinations {β : Type} (k : Nat) (l c : List β) :
    c ∈ combinations k l ↔ c.Sublist l ∧ c.length = k := by
  induction l generalizing k c with
  | nil =>
    cases k with
    | zero => simp [combinations]
    | succ k =>
      simp only [combinations, List.not_mem_nil, List.sublist_nil, false_iff]
      rintro ⟨rfl, h⟩; simp at h
  | cons x xs ih =>
    cases k with
    | zero =>
      simp only [combinations, List.mem_singleton, List.length_eq_zero_iff]
      constructor
      · rintro rfl; simp
      · exact fun h => h.2
    | succ k =>
      simp only [combinations, List.mem_append, List.mem_map, ih]
      constructor
      · rintro (⟨d, ⟨h1, h2⟩, rfl⟩ | ⟨h1, h2⟩)
        · exact ⟨h1.cons₂ x, by simp [h2]⟩
        · exact ⟨h1.cons x, h2⟩
      · rintro ⟨h1, h2⟩
        cases h1 with
        | cons _ h => right; exact ⟨h, h2⟩
        | cons_cons _ h => left; exact ⟨_, ⟨h, by simpa using h2⟩, rfl⟩

theorem length_combinations {β : Type} (k : Nat) (l : List β) :
    (combinations k l).length = l.length.choose k := by
  induction l generalizing k with
  | nil => cases k <;> simp [combinations]
  | cons x xs ih =>
    cases k with
    | zero => simp [combinations]
    | succ k => simp [combinations, ih, Nat.choose_succ_succ]

theorem combinations_map {β γ : Type} (f : β → γ) (k : Nat) (l : List β) :
    (combinations k l).map (List.map f) = combinations k (l.map f) := by
  induction l generalizing k with
  | nil => cases k <;> simp [combinations]
  | cons x xs ih =>
    cases k with
    | zero => simp [combinations]
    | succ k =>
      simp only [combinations, List.map_append, List.map_map, List.map_cons, ← ih]
      rfl

theorem combinations_one {β : Type} (l : List β) : combinations 1 l = l.map fun x => [x] := by
  induction l with
  | nil => rfl
  | cons x xs ih => simp [combinations, ih]

/-- Sum of `f x y` over all pairs of entries, `x` before `y`. -/
def Spec.pairSum (f : Nat → Nat → α) : List Nat → α
  | [] => 0
  | x :: xs => (xs.map (f x)).sum + Spec.pairSum f xs

open Spec

theorem sum_combinations_two (f : Nat → Nat → α) (l : List Nat) :
    ((combinations 2 l).map fun c => f (c.getD 0 0) (c.getD 1 0)).sum = pairSum f l := by
  induction l with
  | nil => simp [combinations, pairSum]
  | cons x xs ih =>
    rw [combinations, combinations_one, List.map_append, List.sum_append, ih, pairSum]
    simp [Function.comp_def]

theorem pairSum_perm (f : Nat → Nat → α) (hsymm : ∀ x y, f x y = f y x) (l l' : List Nat)
    (h : l.Perm l') : pairSum f l = pairSum f l' := by
  induction h with
  | nil => rfl
  | cons x hp ih => simp only [pairSum]; rw [ih, (hp.map (f x)).sum_eq]
  | swap x y l =>
    simp only [pairSum, List.map_cons, List.sum_cons]
    rw [hsymm x y]; ring
  | trans _ _ h1 h2 => exact h1.trans h2

theorem pairSum_congr (f g : Nat → Nat → α) (l : List Nat) (h : l.Pairwise fun x y => f x y = g x y) :
    pairSum f l = pairSum g l := by
  induction h with
  | nil => rfl
  | cons hx _ ih =>
    simp only [pairSum]
    rw [ih, List.map_congr_left hx]

/-- A list of distinct numbers below `N`, sorted, is one of the combinations of `range N`. -/
theorem sort_mem_combinations (N : Nat) (c : List Nat) (hnd : c.Nodup) (hlt : ∀ i ∈ c, i < N) :
    c.insertionSort (· ≤ ·) ∈ combinations c.length (List.range N) := by
  rw [mem_combinations]
  have hp := List.perm_insertionSort (· ≤ ·) c
  refine ⟨?_, hp.length_eq⟩
  apply List.sublist_of_subperm_of_pairwise (r := (· ≤ ·))
  · exact List.subperm_of_subset (hp.nodup_iff.mpr hnd) (fun i hi =>
      List.mem_range.mpr (hlt i (hp.mem_iff.mp hi)))
  · exact List.pairwise_insertionSort (· ≤ ·) c
  · exact (List.pairwise_lt_range).imp (fun h => le_of_lt h)

theorem combinations_range_sorted (N k : Nat) (c : List Nat) (h : c ∈ combinations k (List.range N)) :
    c.Pairwise (· < ·) ∧ (∀ i ∈ c, i < N) ∧ c.length = k := by
  rw [mem_combinations] at h
  exact ⟨List.pairwise_lt_range.sublist h.1, fun i hi => List.mem_range.mp (h.1.subset hi), h.2⟩

theorem argmaxFold (xs : List α) (n : Nat) (x : α) (i : Nat) :
    ∃ v j, (xs.zipIdx n).foldl (fun (best : α × Nat) vi => if best.1 < vi.1 then vi else best) (x, i) = (v, j) ∧
      x ≤ v ∧ (∀ y ∈ xs, y ≤ v) ∧ ((v = x ∧ j = i) ∨ (n ≤ j ∧ xs[j - n]? = some v)) := by
  induction xs generalizing n x i with
  | nil => exact ⟨x, i, rfl, le_refl _, by simp, Or.inl ⟨rfl, rfl⟩⟩
  | cons y ys ih =>
    rw [List.zipIdx_cons, List.foldl_cons]
    by_cases h : x < y
    · simp only [h, if_true]
      obtain ⟨v, j, h1, h2, h3, h4⟩ := ih (n + 1) y n
      refine ⟨v, j, h1, h.le.trans h2, ?_, Or.inr ?_⟩
      · intro z hz
        rcases List.mem_cons.mp hz with rfl | hz
        · exact h2
        · exact h3 z hz
      · rcases h4 with ⟨rfl, rfl⟩ | ⟨h5, h6⟩
        · simp
        · refine ⟨by omega, ?_⟩
          rw [show j - n = (j - (n + 1)) + 1 by omega, List.getElem?_cons_succ, h6]
    · simp only [h, if_false]
      obtain ⟨v, j, h1, h2, h3, h4⟩ := ih (n + 1) x i
      refine ⟨v, j, h1, h2, ?_, ?_⟩
      · intro z hz
        rcases List.mem_cons.mp hz with rfl | hz
        · exact (not_lt.mp h).trans h2
        · exact h3 z hz
      · rcases h4 with h4 | ⟨h5, h6⟩
        · exact Or.inl h4
        · refine Or.inr ⟨by omega, ?_⟩
          rw [show j - n = (j - (n + 1)) + 1 by omega, List.getElem?_cons_succ, h6]

theorem argmax_some (l : List α) (h : l ≠ []) :
    ∃ i v, argmax l = some i ∧ l[i]? = some v ∧ ∀ y ∈ l, y ≤ v := by
  cases l with
  | nil => exact absurd rfl h
  | cons x xs =>
    obtain ⟨v, j, h1, h2, h3, h4⟩ := argmaxFold xs 1 x 0
    refine ⟨j, v, by simp only [argmax, h1], ?_, ?_⟩
    · rcases h4 with ⟨rfl, rfl⟩ | ⟨h5, h6⟩
      · simp
      · rw [show j = (j - 1) + 1 by omega, List.getElem?_cons_succ, h6]
    · intro y hy
      rcases List.mem_cons.mp hy with rfl | hy
      · exact h2
      · exact h3 y hy

end SALib
