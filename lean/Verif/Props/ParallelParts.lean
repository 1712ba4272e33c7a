import Verif.Props.ProblemSpec

/-! # C62: into how many parts the samples are cut for parallel evaluation -/

namespace SALib

open Spec

variable {α β A : Type} [Inhabited β]

theorem arraySplit_sizes {γ : Type} (l : List γ) (n : Nat) (hn : 0 < n) :
    ∀ part ∈ arraySplit l n, part.length = l.length / n ∨ part.length = l.length / n + 1 := by
  intro part hp
  unfold arraySplit at hp
  obtain ⟨i, hi, rfl⟩ := List.mem_map.mp hp
  rw [List.mem_range] at hi
  have h1 : n * (l.length / n) + l.length % n = l.length := Nat.div_add_mod l.length n
  have h2 : l.length % n < n := Nat.mod_lt _ hn
  rw [List.length_take, List.length_drop]
  clear hp
  generalize l.length / n = q at *
  generalize l.length % n = e at *
  have h3 : i * q + q ≤ n * q := by
    have : (i + 1) * q ≤ n * q := Nat.mul_le_mul_right q hi
    linarith
  split
  · right; rw [Nat.min_eq_left]; omega
  · left; rw [Nat.min_eq_left]; all_goals omega

theorem mapM_agree {γ δ : Type} (f g : γ → Py δ) (l : List γ) (h : ∀ a ∈ l, f a = g a) : l.mapM f = l.mapM g := by
  induction l with
  | nil => rfl
  | cons a l ih =>
    rw [List.mapM_cons, List.mapM_cons, h a List.mem_cons_self, ih fun b hb => h b (List.mem_cons_of_mem _ hb)]

/-- **C62**, the parts.  `p` processors: the number asked for, but no more than there are.  The model is called only with
parts of `R / p` or `R / p + 1` rows: whatever `func` does with other numbers of rows, the results are those of the
row-wise model `g` with which it agrees on parts of these sizes. -/
theorem C62_parts (s : SpecState α β A) (X : InArr α) (nprocs : Option Nat) (maxProcs p : Nat) (junk : β)
    (func g : Option (InArr α) → Py (OutArr β)) (hX : s.samples = some X) (hrow : RowWise g) (hp : 0 < p)
    (hall : nprocs = none → p = maxProcs) (hfew : ∀ n, nprocs = some n → n ≤ maxProcs → p = n)
    (hmany : ∀ n, nprocs = some n → maxProcs ≤ n → p = maxProcs)
    (hfunc : ∀ c rows, rows.length = X.rows.length / p ∨ rows.length = X.rows.length / p + 1 →
      func (some { cols := c, rows := rows }) = g (some { cols := c, rows := rows })) :
    specEvaluateParallel s false nprocs maxProcs junk func = specEvaluate s g := by
  have he : effProcs nprocs maxProcs = p := by
    cases nprocs with
    | none => exact (hall rfl).symm
    | some n =>
      rcases le_total n maxProcs with h | h
      · rw [hfew n rfl h]; exact Nat.min_eq_right h
      · rw [hmany n rfl h]; exact Nat.min_eq_left h
  have hpar : parallelResults X false p junk func = parallelResults X false p junk g := by
    unfold parallelResults
    rw [if_neg (by omega : ¬ p = 0), if_neg (by omega : ¬ p = 0), if_neg Bool.false_ne_true, if_neg Bool.false_ne_true,
      mapM_agree _ (fun rows => g (some { cols := X.cols, rows := rows })) _
        fun rows hr => hfunc _ rows (arraySplit_sizes X.rows p hp rows hr)]
  unfold specEvaluateParallel specEvaluate
  rw [hX]
  simp only []
  rw [he, hpar, parallelResults_rowWise X p junk g hrow hp]

/-- Five rows, nine processors asked for, two there: a model that refuses parts of other sizes than two and three. -/
example : (specEvaluateParallel ({ names := ["a"], numVars := 1, groups := ["a"], outputs := none
                                   samples := some ⟨1, [[1], [2], [3], [4], [5]]⟩ } : SpecState Nat Nat Nat) false (some 9) 2 99
      (fun X => match X with
        | none => .error .typeError
        | some X => if X.rows.length = 2 ∨ X.rows.length = 3 then .ok (.vec (X.rows.map fun r => 10 * r.getD 0 0))
          else .error .valueError)).1.results = some (.vec [10, 20, 30, 40, 50]) := by
  rw [C62_parts _ ⟨1, [[1], [2], [3], [4], [5]]⟩ (some 9) 2 2 99 _
    (fun X => .ok (.vec ((X.map InArr.rows).getD [] |>.map fun r => 10 * r.getD 0 0))) rfl
    (Or.inl ⟨fun r => 10 * r.getD 0 0, fun _ _ => rfl⟩) (by omega) (by simp) (by simp) (by simp)]
  · decide +kernel
  · intro c rows h
    have h' : rows.length = 2 ∨ rows.length = 3 := h
    simp [h']

end SALib
