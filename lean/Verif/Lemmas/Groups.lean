import Verif.Model.Groups
import Verif.Spec.Groups
import Verif.Lemmas.ListAux
import Verif.Lemmas.Tactics

/-! # Helper lemmas about groups -/

set_option linter.unusedSectionVars false

namespace SALib
open Spec

theorem pdUnique_concat {β : Type} [DecidableEq β] (l : List β) (x : β) :
    pdUnique (l ++ [x]) = if x ∈ pdUnique l then pdUnique l else pdUnique l ++ [x] := by
  unfold pdUnique; rw [List.foldl_append]; rfl

theorem mem_pdUnique {β : Type} [DecidableEq β] (l : List β) (g : β) : g ∈ pdUnique l ↔ g ∈ l := by
  induction l using List.reverseRecOn with
  | nil => simp [pdUnique]
  | append_singleton l x ih =>
    rw [pdUnique_concat]
    split
    · rw [ih, List.mem_append, List.mem_singleton]
      constructor
      · exact Or.inl
      · rintro (h | rfl)
        · exact h
        · rwa [← ih]
    · rw [List.mem_append, ih, List.mem_append]

theorem nodup_pdUnique {β : Type} [DecidableEq β] (l : List β) : (pdUnique l).Nodup := by
  induction l using List.reverseRecOn with
  | nil => simp [pdUnique]
  | append_singleton l x ih =>
    rw [pdUnique_concat]
    split
    · exact ih
    · rename_i h
      rw [List.nodup_append]
      refine ⟨ih, by simp, ?_⟩
      intro a ha b hb
      simp only [List.mem_singleton] at hb
      subst hb
      rintro rfl
      exact h ha

theorem pairwise_pdUnique (l : List String) :
    (pdUnique l).Pairwise fun a b => l.idxOf a < l.idxOf b := by
  induction l using List.reverseRecOn with
  | nil => simp [pdUnique]
  | append_singleton l x ih =>
    have h1 : (pdUnique l).Pairwise fun a b => (l ++ [x]).idxOf a < (l ++ [x]).idxOf b := by
      refine ih.imp_of_mem ?_
      intro a b ha hb hab
      rw [mem_pdUnique] at ha hb
      rwa [List.idxOf_append_of_mem ha, List.idxOf_append_of_mem hb]
    rw [pdUnique_concat]
    split
    · exact h1
    · rename_i h
      rw [List.pairwise_append]
      refine ⟨h1, by simp, ?_⟩
      intro a ha b hb
      simp only [List.mem_singleton] at hb
      subst hb
      rw [mem_pdUnique] at ha h
      rw [List.idxOf_append_of_mem ha, List.idxOf_append_of_notMem h]
      have := List.idxOf_lt_length_iff.mpr ha
      simp; omega

theorem pdUnique_distinct (l : List String) : DistinctInOrder l (pdUnique l) :=
  ⟨nodup_pdUnique l, mem_pdUnique l, pairwise_pdUnique l⟩

theorem pdUnique_of_nodup {β : Type} [DecidableEq β] (l : List β) (h : l.Nodup) : pdUnique l = l := by
  induction l using List.reverseRecOn with
  | nil => simp [pdUnique]
  | append_singleton l x ih =>
    rw [List.nodup_append] at h
    rw [pdUnique_concat, ih h.1, if_neg]
    intro hx
    exact h.2.2 x hx x (by simp) rfl

theorem setCell_ok {β : Type} (M : Mat β) (i j : Nat) (v : β) (row : List β) (hi : M[i]? = some row)
    (hj : j < row.length) : setCell M i j v = .ok (M.set i (row.set j v)) := by
  simp [setCell, hi, hj]

theorem getCell_ok {β : Type} (M : Mat β) (i j : Nat) (v : β) (h : entry M i j = some v) :
    getCell M i j = .ok v := by
  unfold entry at h
  unfold getCell
  cases hM : M[i]? with
  | none => simp [hM] at h
  | some row =>
    simp only [hM, Option.bind_some] at h
    simp [h]

theorem entry_set {β : Type} (M : Mat β) (i j : Nat) (v : β) (row : List β) (hi : M[i]? = some row)
    (hj : j < row.length) (r c : Nat) :
    entry (M.set i (row.set j v)) r c = if r = i ∧ c = j then some v else entry M r c := by
  unfold entry
  obtain ⟨hlt, hrow⟩ := List.getElem?_eq_some_iff.mp hi
  by_cases hr : r = i
  · subst hr
    rw [List.getElem?_set_self hlt]
    by_cases hc : c = j
    · subst hc; simp [hj]
    · simp only [Option.bind_some, hc, and_false, if_false, hi]
      rw [List.getElem?_set_ne (Ne.symm hc)]
  · rw [List.getElem?_set_ne (Ne.symm hr)]
    simp [hr]

end SALib
