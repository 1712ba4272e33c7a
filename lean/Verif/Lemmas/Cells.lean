import Verif.Lemmas.Groups
import Verif.Lemmas.ListAux

/-! # Loops that assign cells of a matrix -/

namespace SALib
open Spec

theorem foldlM_flatMap {β γ δ : Type} (f : δ → γ → Py δ) (g : β → List γ) (l : List β) (d : δ) :
    (l.flatMap g).foldlM f d = l.foldlM (fun d b => (g b).foldlM f d) d := by
  induction l generalizing d with
  | nil => rfl
  | cons b l ih =>
    rw [List.flatMap_cons, List.foldlM_append, List.foldlM_cons]
    cases h : (g b).foldlM f d with
    | error e => rfl
    | ok d' => exact ih d'

theorem foldlM_congr_mem {γ δ : Type} (f g : δ → γ → Py δ) (l : List γ) (d : δ)
    (h : ∀ c ∈ l, ∀ d, f d c = g d c) : l.foldlM f d = l.foldlM g d := by
  induction l generalizing d with
  | nil => rfl
  | cons c l ih =>
    rw [List.foldlM_cons, List.foldlM_cons, h c (by simp)]
    cases g d c with
    | error e => rfl
    | ok d' => exact ih d' (fun c hc => h c (by simp [hc]))

/-- One assignment `M[r, c] = v` of a list. -/
def writeCell {β : Type} (M : Mat β) (w : Nat × Nat × β) : Py (Mat β) := setCell M w.1 w.2.1 w.2.2

/-- A list of cell assignments in range succeeds; if all assignments to a cell agree, the cell ends up
with that value, and the other cells are unchanged. -/
theorem writeCells_ok {β : Type} (n d : Nat) (W : List (Nat × Nat × β)) (M : Mat β) (hn : M.length = n)
    (hd : HasCols d M) (hW : ∀ w ∈ W, w.1 < n ∧ w.2.1 < d) :
    ∃ M', W.foldlM writeCell M = .ok M' ∧ M'.length = n ∧ HasCols d M' ∧
      (∀ r c v, (∃ w ∈ W, w.1 = r ∧ w.2.1 = c) → (∀ w ∈ W, w.1 = r → w.2.1 = c → w.2.2 = v) →
        entry M' r c = some v) ∧
      ∀ r c, (¬ ∃ w ∈ W, w.1 = r ∧ w.2.1 = c) → entry M' r c = entry M r c := by
  induction W generalizing M with
  | nil => exact ⟨M, rfl, hn, hd, by simp, by simp⟩
  | cons w W ih =>
    obtain ⟨h1, h2⟩ := hW w (by simp)
    have hrow : M[w.1]? = some (M.getD w.1 []) := by
      rw [List.getD_eq_getElem?_getD, List.getElem?_eq_getElem (by omega)]; rfl
    have hrl : (M.getD w.1 []).length = d := hd _ (List.mem_of_getElem? hrow)
    have hset := setCell_ok M w.1 w.2.1 w.2.2 _ hrow (by omega)
    obtain ⟨M', g1, g2, g3, g4, g5⟩ := ih (M.set w.1 ((M.getD w.1 []).set w.2.1 w.2.2))
      (by simpa using hn) (by
        intro row hr
        rcases List.mem_or_eq_of_mem_set hr with h | h
        · exact hd row h
        · rw [h, List.length_set, hrl]) (fun w hw => hW w (by simp [hw]))
    have hent := entry_set M w.1 w.2.1 w.2.2 _ hrow (by omega)
    refine ⟨M', ?_, g2, g3, ?_, ?_⟩
    · rw [List.foldlM_cons]
      simp only [writeCell, hset, pyBind_ok]
      exact g1
    · intro r c v hex hv
      by_cases hex' : ∃ w ∈ W, w.1 = r ∧ w.2.1 = c
      · exact g4 r c v hex' (fun w hw => hv w (by simp [hw]))
      · rw [g5 r c hex', hent]
        obtain ⟨w', hw', hr, hc⟩ := hex
        rcases List.mem_cons.mp hw' with rfl | hw''
        · rw [if_pos ⟨hr.symm, hc.symm⟩, hv w' (by simp) hr hc]
        · exact absurd ⟨w', hw'', hr, hc⟩ hex'
    · intro r c hno
      rw [g5 r c (fun ⟨w', a, b⟩ => hno ⟨w', by simp [a], b⟩), hent, if_neg]
      rintro ⟨rfl, rfl⟩
      exact hno ⟨w, by simp, rfl, rfl⟩

/-- If the assignments cover every cell and agree with `f`, the result is the table of `f`. -/
theorem writeCells_fill {β : Type} (n d : Nat) (W : List (Nat × Nat × β)) (M : Mat β) (hn : M.length = n)
    (hd : HasCols d M) (hW : ∀ w ∈ W, w.1 < n ∧ w.2.1 < d) (f : Nat → Nat → β)
    (hf : ∀ w ∈ W, w.2.2 = f w.1 w.2.1) (hall : ∀ r < n, ∀ c < d, ∃ w ∈ W, w.1 = r ∧ w.2.1 = c) :
    W.foldlM writeCell M = .ok ((List.range n).map fun r => (List.range d).map fun c => f r c) := by
  obtain ⟨M', h1, h2, h3, h4, -⟩ := writeCells_ok n d W M hn hd hW
  rw [h1]
  congr 1
  apply List.ext_getElem
  · simp [h2]
  · intro r hr hr'
    rw [h2] at hr
    apply List.ext_getElem
    · rw [h3 _ (List.getElem_mem _)]; simp
    · intro c hc hc'
      rw [h3 _ (List.getElem_mem _)] at hc
      have := h4 r c (f r c) (hall r hr c hc) (by rintro w hw rfl rfl; exact hf w hw)
      unfold entry at this
      rw [List.getElem?_eq_getElem (by omega), Option.bind_some] at this
      rw [(List.getElem?_eq_some_iff.mp this).2]
      simp

end SALib
