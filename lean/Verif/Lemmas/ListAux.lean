import Verif.Model.Basic
import Verif.Spec.Matrix
import Mathlib.Data.List.Forall2

/-! # Helper lemmas about lists, `Except` and cell writes -/

set_option linter.unusedSectionVars false

namespace SALib

variable {α β γ : Type}

/-- A monadic map in `Except` succeeds iff all elements succeed. -/
theorem mapM_ok_iff (f : α → Py β) (l : List α) (r : List β) :
    l.mapM f = .ok r ↔ List.Forall₂ (fun a b => f a = .ok b) l r := by
  induction l generalizing r with
  | nil => cases r <;> simp [List.mapM_nil, pure, Except.pure]
  | cons a l ih =>
    rw [List.mapM_cons]
    cases hfa : f a with
    | error e => cases r <;> simp [bind, Except.bind, hfa]
    | ok b =>
      cases hl : l.mapM f with
      | error e =>
        cases r with
        | nil => simp [bind, Except.bind]
        | cons c r =>
          have := (ih r).not.mp (by rw [hl]; simp)
          simp [bind, Except.bind, this]
      | ok bs =>
        cases r with
        | nil => simp [bind, Except.bind, pure, Except.pure]
        | cons c r =>
          have h1 := ih r
          rw [hl] at h1
          simp only [bind, Except.bind, pure, Except.pure, List.forall₂_cons, hfa, ← h1]
          simp

/-- If every element succeeds the map is the plain map. -/
theorem mapM_ok_of (f : α → Py β) (g : α → β) (l : List α) (h : ∀ a ∈ l, f a = .ok (g a)) :
    l.mapM f = .ok (l.map g) := by
  rw [mapM_ok_iff]
  rw [List.forall₂_map_right_iff, List.forall₂_same]
  exact h

/-- The exception of a monadic map comes from one of the elements. -/
theorem mapM_error (f : α → Py β) (l : List α) (e : PyErr) (h : l.mapM f = .error e) :
    ∃ a ∈ l, f a = .error e := by
  induction l with
  | nil => simp [pure, Except.pure] at h
  | cons a l ih =>
    rw [List.mapM_cons] at h
    cases hfa : f a with
    | error e' =>
      simp only [hfa, bind, Except.bind] at h
      cases h; exact ⟨a, by simp, hfa⟩
    | ok b =>
      cases hl : l.mapM f with
      | error e' =>
        simp only [hfa, hl, bind, Except.bind] at h
        obtain ⟨x, hx, hx'⟩ := ih (hl.trans h)
        exact ⟨x, by simp [hx], hx'⟩
      | ok bs => simp [hfa, hl, bind, Except.bind, pure, Except.pure] at h

/-- If some element fails then the map fails. -/
theorem mapM_exists_error (f : α → Py β) (l : List α) (a : α) (e : PyErr) (ha : a ∈ l)
    (h : f a = .error e) : ∃ e', l.mapM f = .error e' := by
  cases hl : l.mapM f with
  | error e' => exact ⟨e', rfl⟩
  | ok r =>
    rw [mapM_ok_iff] at hl
    obtain ⟨hlen, hh⟩ := List.forall₂_iff_get.mp hl
    obtain ⟨n, hn, rfl⟩ := List.getElem_of_mem ha
    have hb := hh n hn (hlen ▸ hn)
    simp only [List.get_eq_getElem] at hb
    rw [h] at hb; cases hb

@[simp] theorem pyBind_ok (a : α) (f : α → Py β) : ((Except.ok a : Py α) >>= f) = f a := rfl
@[simp] theorem pyBind_error (e : PyErr) (f : α → Py β) :
    ((Except.error e : Py α) >>= f) = .error e := rfl
@[simp] theorem pyPure (a : α) : (pure a : Py α) = .ok a := rfl

theorem entry_map (M : Mat α) (f : List α → List β) (r c : Nat) :
    Spec.entry (M.map f) r c = M[r]?.bind (fun row => (f row)[c]?) := by
  unfold Spec.entry
  rw [List.getElem?_map]
  cases M[r]? <;> simp

end SALib
