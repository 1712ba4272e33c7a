import Verif.Lemmas.Saltelli
import Verif.Lemmas.SobolRows

/-! # Evaluating a model at all rows of the design -/

namespace SALib

open Spec

variable {d : Nat}

theorem eq_ofFn_of_length (row : List ℝ) (h : row.length = d) : ∃ x : Fin d → ℝ, row = List.ofFn x := by
  subst h
  exact ⟨fun i => row[i], by simp⟩

/-- A model given by its rows evaluates the whole design. -/
theorem mapM_design (F : List ℝ → Py ℝ) (f : List ℝ → ℝ) (h : ∀ x : Fin d → ℝ, F (List.ofFn x) = .ok (f (List.ofFn x)))
    (second : Bool) (g : Nat) (groupOf : Nat → Nat) (rows : List ((Fin d → ℝ) × (Fin d → ℝ))) :
    (crossDesign second d g groupOf (rows.map pairRow)).mapM F =
      .ok ((crossDesign second d g groupOf (rows.map pairRow)).map f) := by
  apply mapM_ok_of
  intro row hrow
  have hc : HasCols (2 * d) (rows.map pairRow) := by
    intro row hrow
    obtain ⟨p, -, rfl⟩ := List.mem_map.mp hrow
    simp [pairRow]
    omega
  obtain ⟨x, rfl⟩ := eq_ofFn_of_length row (cols_crossDesign second d g groupOf _ hc row hrow)
  exact h x

end SALib
