import Verif.Model.Stats
import Verif.Lemmas.ListAux
import Verif.Lemmas.Tactics
import Mathlib.Algebra.Order.BigOperators.Group.List
import Mathlib.Algebra.BigOperators.Ring.List

/-! # Facts about mean, variance and the constancy test -/

set_option linter.unusedSectionVars false

namespace SALib

variable {α : Type} [Field α] [LinearOrder α] [IsStrictOrderedRing α]

theorem npDiv_some (a b : α) (h : b ≠ 0) : npDiv a b = some (a / b) := by simp [npDiv, h]

theorem npMean_some (l : List α) (h : l ≠ []) : npMean l = some (l.sum / l.length) := by
  apply npDiv_some
  have := List.length_pos_iff.mpr h
  positivity

theorem npMean_nil : npMean ([] : List α) = none := by simp [npMean, npDiv]

theorem npVar_some (l : List α) (h : l ≠ []) :
    npVar l = some ((l.map fun x => (x - l.sum / (l.length : α)) ^ 2).sum / (l.length : α)) := by
  unfold npVar
  rw [npMean_some l h]
  simp only [Option.bind_eq_bind, Option.bind_some]
  rw [npMean_some _ (by simpa using h)]
  simp

theorem sum_sq_nonneg (l : List α) (m : α) : 0 ≤ (l.map fun x => (x - m) ^ 2).sum := by
  apply List.sum_nonneg
  intro x hx
  simp only [List.mem_map] at hx
  obtain ⟨y, -, rfl⟩ := hx
  positivity

theorem sum_sq_eq_zero (l : List α) (m : α) (h : (l.map fun x => (x - m) ^ 2).sum = 0) :
    ∀ x ∈ l, x = m := by
  induction l with
  | nil => simp
  | cons a l ih =>
    simp only [List.map_cons, List.sum_cons] at h
    have h1 : 0 ≤ (a - m) ^ 2 := by positivity
    have h2 := sum_sq_nonneg l m
    have h3 : (a - m) ^ 2 = 0 := by linarith
    have h4 : (l.map fun x => (x - m) ^ 2).sum = 0 := by linarith
    intro x hx
    rcases List.mem_cons.mp hx with rfl | hx
    · have := pow_eq_zero_iff (two_ne_zero) |>.mp h3
      linarith
    · exact ih h4 x hx

theorem ptpZero_iff (l : List α) (h : l ≠ []) : ptpZero l = true ↔ ∃ c, ∀ x ∈ l, x = c := by
  cases l with
  | nil => exact absurd rfl h
  | cons a l =>
    simp only [ptpZero, List.all_eq_true, beq_iff_eq]
    constructor
    · intro h
      refine ⟨a, ?_⟩
      intro x hx
      rcases List.mem_cons.mp hx with rfl | hx
      · rfl
      · exact h x hx
    · rintro ⟨c, hc⟩ x hx
      rw [hc x (by simp [hx]), hc a (by simp)]

theorem npVar_pos (l : List α) (h : l ≠ []) (hv : ptpZero l = false) :
    ∃ v, npVar l = some v ∧ 0 < v := by
  refine ⟨_, npVar_some l h, ?_⟩
  have hlen : (0 : α) < l.length := by
    have := List.length_pos_iff.mpr h
    positivity
  apply div_pos _ hlen
  apply lt_of_le_of_ne (sum_sq_nonneg l _)
  intro h0
  have hc := sum_sq_eq_zero l _ h0.symm
  have : ptpZero l = true := (ptpZero_iff l h).mpr ⟨_, hc⟩
  rw [hv] at this; cases this

theorem npVar_nonneg (l : List α) (v : α) (h : npVar l = some v) : 0 ≤ v := by
  by_cases hl : l = []
  · subst hl; simp [npVar, npMean_nil] at h
  · rw [npVar_some l hl] at h
    cases h
    exact div_nonneg (sum_sq_nonneg l _) (by positivity)

theorem npVar_const (l : List α) (h : l ≠ []) (c : α) (hc : ∀ x ∈ l, x = c) : npVar l = some 0 := by
  rw [npVar_some l h]
  have hlen : (l.length : α) ≠ 0 := by
    have := List.length_pos_iff.mpr h
    positivity
  have hl : l = List.replicate l.length c := List.eq_replicate_iff.mpr ⟨rfl, hc⟩
  have hs : l.sum = l.length * c := by
    conv_lhs => rw [hl]
    simp
  have : (l.map fun x => (x - l.sum / (l.length : α)) ^ 2) = l.map fun _ => (0 : α) := by
    apply List.map_congr_left
    intro x hx
    rw [hc x hx, hs, mul_div_cancel_left₀ _ hlen]
    ring
  rw [this]
  simp

/-! Affine changes -/

theorem sum_map_affine (l : List α) (a b : α) :
    (l.map fun x => a * x + b).sum = a * l.sum + l.length * b := by
  induction l with
  | nil => simp
  | cons x l ih =>
    simp only [List.map_cons, List.sum_cons, ih, List.length_cons, Nat.cast_add, Nat.cast_one]
    ring

theorem npMean_affine (l : List α) (a b : α) (h : l ≠ []) :
    npMean (l.map fun x => a * x + b) = some (a * (l.sum / l.length) + b) := by
  rw [npMean_some _ (by simpa using h), sum_map_affine]
  have hlen : (l.length : α) ≠ 0 := by
    have := List.length_pos_iff.mpr h
    positivity
  simp only [List.length_map]
  congr 1
  field_simp

theorem sum_map_mul (l : List α) (c : α) : (l.map fun x => c * x).sum = c * l.sum := by
  induction l with
  | nil => simp
  | cons x l ih => simp only [List.map_cons, List.sum_cons, ih]; ring

theorem npMean_smul (l : List α) (c : α) : npMean (l.map fun x => c * x) = (npMean l).map (c * ·) := by
  unfold npMean npDiv
  rw [sum_map_mul]
  simp only [List.length_map]
  split
  · rfl
  · simp only [Option.map_some]
    congr 1
    ring

theorem npVar_affine (l : List α) (a b : α) :
    npVar (l.map fun x => a * x + b) = (npVar l).map (a ^ 2 * ·) := by
  by_cases h : l = []
  · subst h; simp [npVar, npMean_nil]
  · unfold npVar
    rw [npMean_affine l a b h, npMean_some l h]
    simp only [Option.bind_eq_bind, Option.bind_some, List.map_map]
    rw [← npMean_smul]
    congr 1
    rw [List.map_map]
    apply List.map_congr_left
    intro x _
    simp only [Function.comp]
    ring

theorem ptpZero_map_inj {β γ : Type} [Field β] [DecidableEq β] [Field γ] [DecidableEq γ] (f : β → γ)
    (hf : Function.Injective f) (l : List β) : ptpZero (l.map f) = ptpZero l := by
  cases l with
  | nil => rfl
  | cons a l =>
    simp only [ptpZero, List.map_cons, List.all_map]
    congr 1
    funext x
    simp only [Function.comp]
    rw [Bool.eq_iff_iff]
    simp [hf.eq_iff]

theorem npStd1_nonneg (sqrt : α → α) (hs : ∀ x, 0 ≤ sqrt x) (l : List α) (v : α)
    (h : npStd1 sqrt l = some v) : 0 ≤ v := by
  unfold npStd1 at h
  cases hm : npMean l with
  | none => simp [hm] at h
  | some m =>
    simp only [hm, Option.bind_eq_bind, Option.bind_some] at h
    cases hd : npDiv ((l.map fun x => (x - m) ^ 2).sum) ((l.length : α) - 1) with
    | none => simp [hd] at h
    | some s => simp [hd] at h; rw [← h]; exact hs s

theorem npStd1N_nonneg (sqrt : α → α) (hs : ∀ x, 0 ≤ sqrt x) (l : List (Num α)) (v : α)
    (h : npStd1N sqrt l = some v) : 0 ≤ v := by
  unfold npStd1N at h
  cases hm : l.mapM id with
  | none => simp [hm] at h
  | some l' => simp [hm] at h; exact npStd1_nonneg sqrt hs l' v h

end SALib
