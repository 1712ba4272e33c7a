import Verif.Model.SobolAnalyze
import Verif.Lemmas.Tactics
import Verif.Lemmas.Groups
import Mathlib.Data.List.Sublists
import Mathlib.Data.List.Nodup

/-! # C67: the table of second-order indices (`Si_to_pandas_dict`) -/

namespace SALib

variable {α : Type}

theorem mem_combinations2 (l : List String) (a b : String) :
    (a, b) ∈ combinations2 l ↔ ∃ i j : Nat, i < j ∧ l[i]? = some a ∧ l[j]? = some b := by
  induction l with
  | nil => simp [combinations2]
  | cons x l ih =>
    simp only [combinations2, List.mem_append, List.mem_map, Prod.mk.injEq, ih]
    constructor
    · rintro (⟨b', hb, rfl, rfl⟩ | ⟨i, j, hij, h1, h2⟩)
      · obtain ⟨j, hj⟩ := List.mem_iff_getElem?.mp hb
        exact ⟨0, j + 1, by omega, by simp, by simpa using hj⟩
      · exact ⟨i + 1, j + 1, by omega, by simpa using h1, by simpa using h2⟩
    · rintro ⟨i, j, hij, h1, h2⟩
      obtain ⟨j, rfl⟩ : ∃ j', j = j' + 1 := ⟨j - 1, by omega⟩
      cases i with
      | zero =>
        left
        simp only [List.getElem?_cons_zero, Option.some.injEq, List.getElem?_cons_succ] at h1 h2
        exact ⟨b, List.mem_of_getElem? h2, h1, rfl⟩
      | succ i =>
        right
        exact ⟨i, j, by omega, by simpa using h1, by simpa using h2⟩

theorem nodup_combinations2 (l : List String) (hl : l.Nodup) : (combinations2 l).Nodup := by
  induction l with
  | nil => simp [combinations2]
  | cons x l ih =>
    obtain ⟨hx, hl⟩ := List.nodup_cons.mp hl
    rw [combinations2, List.nodup_append']
    refine ⟨hl.map (fun a b h => by simpa using h), ih hl, ?_⟩
    intro p hp hq
    obtain ⟨b, hb, rfl⟩ := List.mem_map.mp hp
    obtain ⟨i, j, -, h1, -⟩ := (mem_combinations2 l x b).mp hq
    exact hx (List.mem_of_getElem? h1)

theorem mapM_ok_getElem? {β γ : Type} (f : β → Py γ) (g : β → γ) (l : List β)
    (h : ∀ b ∈ l, f b = .ok (g b)) : l.mapM f = .ok (l.map g) := by
  induction l with
  | nil => rfl
  | cons a l ih =>
    rw [List.mapM_cons, h a (by simp), ih (fun b hb => h b (by simp [hb]))]
    rfl

/-- **C67.** For two or more factors with distinct names, the table has no repeated pair, lists
exactly the pairs of factors at positions `i < j`, and the value beside the pair (factor `i`, factor
`j`) is the matrix entry `S2[i, j]`. -/
theorem C67_pairs (names : List String) (hnd : names.Nodup) (h2 : 2 ≤ names.length) (M : Mat (Num α))
    (hM : M.length = names.length ∧ ∀ row ∈ M, row.length = names.length) :
    ∃ idx vals, secondOrderTable names M = .ok (idx, vals) ∧ idx.Nodup ∧ vals.length = idx.length ∧
      (∀ a b, (a, b) ∈ idx ↔ ∃ i j : Nat, i < j ∧ names[i]? = some a ∧ names[j]? = some b) ∧
      ∀ (n : Nat) a b, idx[n]? = some (a, b) → ∀ i j : Nat, names[i]? = some a → names[j]? = some b →
        vals[n]? = (M[i]?).bind (·[j]?) := by
  have hidx : tableIndex names = .ok (combinations2 names) := by
    match names, h2 with
    | [a, b], _ => rfl
    | a :: b :: c :: l, _ => rfl
  have hpos : ∀ a i, names[i]? = some a → names.idxOf a = i := by
    intro a i hi
    obtain ⟨hlt, hget⟩ := List.getElem?_eq_some_iff.mp hi
    rw [← hget]
    exact hnd.idxOf_getElem i hlt
  have hcell : ∀ i j : Nat, i < names.length → j < names.length →
      ∃ v, (M[i]?).bind (·[j]?) = some v := by
    intro i j hi hj
    have hi' : i < M.length := by omega
    rw [List.getElem?_eq_getElem hi', Option.bind_some]
    have := hM.2 _ (List.getElem_mem hi')
    exact ⟨_, List.getElem?_eq_getElem (by omega)⟩
  have hvals : ∀ p ∈ combinations2 names, (do
      let i ← pyIndex names p.1
      let j ← pyIndex names p.2
      matCell M i j : Py (Num α)) =
      .ok (((M[names.idxOf p.1]?).bind (·[names.idxOf p.2]?)).getD none) := by
    rintro ⟨a, b⟩ hp
    obtain ⟨i, j, hij, h1, h2⟩ := (mem_combinations2 names a b).mp hp
    have hi := (List.getElem?_eq_some_iff.mp h1).1
    have hj := (List.getElem?_eq_some_iff.mp h2).1
    simp only [pyIndex, hpos a i h1, hpos b j h2, hi, hj, if_true, pyBind_ok, matCell]
    obtain ⟨v, hv⟩ := hcell i j hi hj
    rw [hv]; rfl
  refine ⟨combinations2 names, (combinations2 names).map fun p =>
    ((M[names.idxOf p.1]?).bind (·[names.idxOf p.2]?)).getD none, ?_,
    nodup_combinations2 names hnd, by simp, fun a b => mem_combinations2 names a b, ?_⟩
  · unfold secondOrderTable
    rw [hidx, pyBind_ok, mapM_ok_getElem? _ _ _ hvals]
    rfl
  · intro n a b hn i j hi hj
    rw [List.getElem?_map, hn, Option.map_some, hpos a i hi, hpos b j hj]
    obtain ⟨v, hv⟩ := hcell i j (List.getElem?_eq_some_iff.mp hi).1 (List.getElem?_eq_some_iff.mp hj).1
    rw [hv]; rfl

/-- Three factors. -/
example : secondOrderTable ["x", "y", "z"]
    [[none, some (1 : Int), some 2], [none, none, some 3], [none, none, none]] =
    .ok ([("x", "y"), ("x", "z"), ("y", "z")], [some 1, some 2, some 3]) := by decide

/-- A single factor (S2 is computed, but is empty): the conversion raises. -/
theorem C67_single_factor_fails (n : String) (M : Mat (Num α)) :
    secondOrderTable [n] M = .error .indexError := rfl

end SALib
