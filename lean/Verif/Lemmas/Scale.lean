import Verif.Model.Scale
import Verif.Lemmas.ListAux
import Verif.Lemmas.Tactics

/-! # Helper lemmas about scaling -/

set_option linter.unusedSectionVars false

namespace SALib
open Spec

variable {α : Type} [Field α] [LinearOrder α]

theorem rowPairs_boundsTable (bs : List (α × α)) :
    (boundsTable bs).mapM rowPair = .ok bs := by
  rw [mapM_ok_iff]
  unfold boundsTable
  rw [List.forall₂_map_left_iff, List.forall₂_same]
  intro p _; rfl

theorem checkBounds_legal (bs : List (α × α)) (hne : bs ≠ []) (hleg : ∀ p ∈ bs, p.1 < p.2) :
    checkBounds (boundsTable bs) = .ok bs := by
  have h1 : (boundsTable bs).isEmpty = false := by
    cases bs with
    | nil => exact absurd rfl hne
    | cons _ _ => rfl
  have h2 : (bs.any fun p => decide (p.2 ≤ p.1)) = false := by
    rw [List.any_eq_false]; intro p hp; simpa using hleg p hp
  unfold checkBounds
  rw [rowPairs_boundsTable]
  simp [h1, h2]

theorem checkBounds_illegal (bs : List (α × α)) (hbad : ∃ p ∈ bs, p.2 ≤ p.1) :
    checkBounds (boundsTable bs) = .error .valueError := by
  have h1 : (boundsTable bs).isEmpty = false := by
    obtain ⟨p, hp, -⟩ := hbad
    cases bs with
    | nil => cases hp
    | cons _ _ => rfl
  have h2 : (bs.any fun p => decide (p.2 ≤ p.1)) = true := by
    rw [List.any_eq_true]; obtain ⟨p, hp, h⟩ := hbad; exact ⟨p, hp, by simpa using h⟩
  unfold checkBounds
  rw [rowPairs_boundsTable]
  simp [h1, h2]

theorem scaleUniform_legal (bs : List (α × α)) (hne : bs ≠ []) (hleg : ∀ p ∈ bs, p.1 < p.2)
    (params : Mat α) :
    scaleUniform bs.length params (boundsTable bs) =
      .ok (params.map fun row => List.zipWith (fun x p => x * (p.2 - p.1) + p.1) row bs) := by
  have h2 : (bs.any fun p => decide (p.2 ≤ p.1)) = false := by
    rw [List.any_eq_false]; intro p hp; simpa using hleg p hp
  unfold scaleUniform
  rw [checkBounds_legal bs hne hleg]
  simp [h2, broadcastBounds]

theorem unscaleUniform_legal (bs : List (α × α)) (hne : bs ≠ []) (hleg : ∀ p ∈ bs, p.1 < p.2)
    (params : Mat α) :
    unscaleUniform bs.length params (boundsTable bs) =
      .ok (params.map fun row => List.zipWith (fun x p => (x - p.1) / (p.2 - p.1)) row bs) := by
  have h1 : (boundsTable bs).isEmpty = false := by
    cases bs with
    | nil => exact absurd rfl hne
    | cons _ _ => rfl
  have h2 : (bs.any fun p => decide (p.2 ≤ p.1)) = false := by
    rw [List.any_eq_false]; intro p hp; simpa using hleg p hp
  unfold unscaleUniform
  rw [rowPairs_boundsTable]
  simp [h1, h2, broadcastBounds]

/-- Composition of two entrywise operations against the same vector. -/
theorem zipWith_zipWith_same {β : Type} (f g : α → β → α) (l : List α) (bs : List β)
    (hlen : l.length = bs.length) (h : ∀ b ∈ bs, ∀ x, g (f x b) b = x) :
    List.zipWith g (List.zipWith f l bs) bs = l := by
  induction l generalizing bs with
  | nil => simp
  | cons a l ih =>
    cases bs with
    | nil => simp at hlen
    | cons b bs =>
      simp only [List.zipWith_cons_cons, List.length_cons, Nat.add_right_cancel_iff] at hlen ⊢
      rw [h b (by simp) a, ih bs hlen (fun b' hb' => h b' (by simp [hb']))]

theorem entry_zipWith {β γ : Type} (M : Mat α) (bs : List β) (f : α → β → γ) (r c : Nat) (x : α)
    (b : β) (hx : entry M r c = some x) (hb : bs[c]? = some b) :
    entry (M.map fun row => List.zipWith f row bs) r c = some (f x b) := by
  rw [entry_map]
  unfold entry at hx
  cases hr : M[r]? with
  | none => simp [hr] at hx
  | some row =>
    simp only [hr, Option.bind_some] at hx ⊢
    rw [List.getElem?_zipWith, hx, hb]

end SALib
