import Verif.Spec.Discrepancy
import Verif.Model.Discrepancy
import Verif.Props.DeltaBins
import Verif.Lemmas.Stats
import Verif.Lemmas.MorrisAnalyze
import Verif.Lemmas.Groups
import Verif.Lemmas.ListAux

/-! Closed form of the discrepancy analysis. -/

namespace SALib

variable {α : Type} [Field α] [LinearOrder α]

theorem zip_fst_snd {β γ : Type} (P : List (β × γ)) : (P.map (·.1)).zip (P.map (·.2)) = P := by
  induction P with
  | nil => rfl
  | cons p P ih => simp [ih]

theorem mem_zip_iff_get {β γ : Type} (l : List β) (m : List γ) (p : β × γ) :
    p ∈ l.zip m ↔ ∃ i : Nat, l[i]? = some p.1 ∧ m[i]? = some p.2 := by
  rw [List.mem_iff_getElem?]
  constructor
  · rintro ⟨i, hi⟩
    rw [List.getElem?_zip_eq_some] at hi
    exact ⟨i, hi⟩
  · rintro ⟨i, hi⟩
    exact ⟨i, by rw [List.getElem?_zip_eq_some]; exact hi⟩

theorem foldl_min_spec [IsStrictOrderedRing α] (y : α) (ys : List α) :
    ys.foldl min y ∈ y :: ys ∧ ∀ x ∈ y :: ys, ys.foldl min y ≤ x :=
  arrMin_spec (y :: ys) _ rfl

theorem foldl_max_spec [IsStrictOrderedRing α] (y : α) (ys : List α) :
    ys.foldl max y ∈ y :: ys ∧ ∀ x ∈ y :: ys, x ≤ ys.foldl max y :=
  arrMax_spec (y :: ys) _ rfl

open Classical in
/-- Scaling back succeeds exactly on legal bounds and samples within them. -/
theorem qmcUnscale_eq (X : Mat α) (P : List (α × α)) (hrow : ∀ row ∈ X, row.length = P.length) :
    qmcUnscale X (P.map (·.1)) (P.map (·.2)) =
      if (∀ p ∈ P, p.1 < p.2) ∧
        (∀ row ∈ X, ∀ (i : Nat) x p, row[i]? = some x → P[i]? = some p → p.1 ≤ x ∧ x ≤ p.2) then
        .ok (X.map fun row => List.zipWith (fun x p => (x - p.1) / (p.2 - p.1)) row P)
      else .error .valueError := by
  unfold qmcUnscale
  rw [zip_fst_snd, if_neg (by
    rintro ⟨row, hr, h⟩
    exact h (by rw [hrow row hr, List.length_map]))]
  by_cases h1 : ∀ p ∈ P, p.1 < p.2
  · rw [if_neg (by rintro ⟨p, hp, h⟩; exact absurd (h1 p hp) (not_lt.mpr h))]
    by_cases h2 : ∀ row ∈ X, ∀ (i : Nat) x p, row[i]? = some x → P[i]? = some p → p.1 ≤ x ∧ x ≤ p.2
    · rw [if_neg, if_pos ⟨h1, h2⟩]
      rintro ⟨row, hr, p, hp, h⟩
      obtain ⟨i, e1, e2⟩ := (mem_zip_iff_get _ _ _).mp hp
      obtain ⟨a, b⟩ := h2 row hr i _ _ e1 e2
      rcases h with h | h
      · exact absurd h (not_lt.mpr a)
      · exact absurd h (not_lt.mpr b)
    · have hn : ¬((∀ p ∈ P, p.1 < p.2) ∧
        (∀ row ∈ X, ∀ (i : Nat) x p, row[i]? = some x → P[i]? = some p → p.1 ≤ x ∧ x ≤ p.2)) := fun h => h2 h.2
      rw [if_neg hn]
      push Not at h2
      obtain ⟨row, hr, i, x, p, e1, e2, h⟩ := h2
      refine if_pos ⟨row, hr, (x, p), (mem_zip_iff_get _ _ _).mpr ⟨i, e1, e2⟩, ?_⟩
      by_cases hx : p.1 ≤ x
      · exact Or.inr (h hx)
      · exact Or.inl (not_le.mp hx)
  · have hn : ¬((∀ p ∈ P, p.1 < p.2) ∧
        (∀ row ∈ X, ∀ (i : Nat) x p, row[i]? = some x → P[i]? = some p → p.1 ≤ x ∧ x ≤ p.2)) := fun h => h1 h.1
    rw [if_neg hn]
    push Not at h1
    exact if_pos h1

variable [IsStrictOrderedRing α]

theorem map_singleton_flatten {β : Type} (l : List β) : (l.map fun v => [v]).flatten = l := by
  induction l with
  | nil => rfl
  | cons a l ih => simp [ih]

theorem discScaleY_ok (Y : List α) (mn mx : α) (h1 : mn ∈ Y ∧ ∀ y ∈ Y, mn ≤ y)
    (h2 : mx ∈ Y ∧ ∀ y ∈ Y, y ≤ mx) :
    discScaleY Y = if mn < mx then .ok (Y.map fun v => (v - mn) / (mx - mn)) else .error .valueError := by
  cases Y with
  | nil => simp at h1
  | cons y ys =>
    have e1 : ys.foldl min y = mn :=
      le_antisymm ((foldl_min_spec y ys).2 _ h1.1) (h1.2 _ (foldl_min_spec y ys).1)
    have e2 : ys.foldl max y = mx :=
      le_antisymm (h2.2 _ (foldl_max_spec y ys).1) ((foldl_max_spec y ys).2 _ h2.1)
    simp only [discScaleY]
    rw [e1, e2]
    have := qmcUnscale_eq ((y :: ys).map fun v => [v]) [(mn, mx)] (by
      intro row hr
      obtain ⟨v, -, rfl⟩ := List.mem_map.mp hr
      rfl)
    simp only [List.map_cons, List.map_nil] at this
    simp only [List.map_cons]
    rw [this]
    by_cases hlt : mn < mx
    · rw [if_pos, if_pos hlt]
      · rw [pyBind_ok, pyPure]
        congr 1
        have : ∀ l : List α, ((l.map fun v => [v]).map fun row =>
            List.zipWith (fun x (p : α × α) => (x - p.1) / (p.2 - p.1)) row [(mn, mx)]).flatten =
            l.map fun v => (v - mn) / (mx - mn) := by
          intro l
          induction l with
          | nil => rfl
          | cons a l ih => simpa using ih
        exact this (y :: ys)
      · refine ⟨by simpa using hlt, ?_⟩
        intro row hr i x p hx hp
        obtain ⟨v, hv, rfl⟩ := List.mem_map.mp hr
        cases i with
        | zero =>
          simp at hx hp
          subst hx; subst hp
          exact ⟨h1.2 _ hv, h2.2 _ hv⟩
        | succ i => simp at hx
    · rw [if_neg, if_neg hlt]
      · rfl
      · rintro ⟨h, -⟩
        exact hlt (h (mn, mx) (by simp))

/-- One scatter plot. -/
theorem discPoints_eq (X : Mat α) (Y : List α) (P : List (α × α)) (i : Nat) (p : α × α) (mn mx : α)
    (hrow : ∀ row ∈ X, row.length = P.length) (hlen : X.length = Y.length) (hp : P[i]? = some p) :
    discPoints (X.map fun row => List.zipWith (fun x p => (x - p.1) / (p.2 - p.1)) row P)
      (Y.map fun v => (v - mn) / (mx - mn)) i = .ok (Spec.scatter X Y i p.1 p.2 mn mx) := by
  unfold discPoints inputColumn
  rw [mapM_ok_of _ (fun row => row.getD i 0), pyBind_ok]
  · rw [if_neg (by simp [hlen]), pyPure]
    congr 1
    unfold Spec.scatter
    rw [List.map_map, List.zip_map]
    have : ∀ (l : List (List α)) (m : List α), (∀ row ∈ l, row.length = P.length) →
        (l.zip m).map (Prod.map ((fun row : List α => row.getD i 0) ∘ fun row =>
          List.zipWith (fun x (p : α × α) => (x - p.1) / (p.2 - p.1)) row P) fun v => (v - mn) / (mx - mn)) =
        (l.zip m).map fun r => ((r.1.getD i 0 - p.1) / (p.2 - p.1), (r.2 - mn) / (mx - mn)) := by
      intro l m hl
      refine List.map_congr_left fun r hr => ?_
      have hr1 := hl r.1 (List.of_mem_zip hr).1
      have hi : i < P.length := (List.getElem?_eq_some_iff.mp hp).1
      have hget : r.1[i]? = some r.1[i] := List.getElem?_eq_getElem (by omega)
      simp only [Prod.map, Function.comp, List.getD_eq_getElem?_getD, List.getElem?_zipWith, hp, hget]
      rfl
    exact this X Y hrow
  · intro row hr
    obtain ⟨row', hr', rfl⟩ := List.mem_map.mp hr
    have hi : i < P.length := (List.getElem?_eq_some_iff.mp hp).1
    have := hrow row' hr'
    unfold pyGet
    rw [List.getD_eq_getElem?_getD, List.getElem?_eq_getElem (by simp; omega)]
    rfl

open Classical in
/-- The shares before grouping. -/
theorem discParams_eq (disc : List (α × α) → α) (pb : Problem α) (X : Mat α) (Y : List α) (P : List (α × α))
    (mn mx : α) (hb : pb.bounds = P.map fun p => [p.1, p.2]) (hD : pb.numVars = P.length)
    (hrow : ∀ row ∈ X, row.length = P.length) (hlen : X.length = Y.length)
    (h1 : mn ∈ Y ∧ ∀ y ∈ Y, mn ≤ y) (h2 : mx ∈ Y ∧ ∀ y ∈ Y, y ≤ mx) :
    discParams disc pb X Y =
      if Spec.DiscInputs P X Y then
        .ok ((P.zipIdx.map fun q => disc (Spec.scatter X Y q.2 q.1.1 q.1.2 mn mx)).map fun v =>
          npDiv v (P.zipIdx.map fun q => disc (Spec.scatter X Y q.2 q.1.1 q.1.2 mn mx)).sum)
      else .error .valueError := by
  have b0 : (pb.bounds.mapM fun b => pyGet b 0) = .ok (P.map (·.1)) := by
    rw [hb, mapM_ok_of _ (fun b => b.getD 0 0)]
    · rw [List.map_map]; rfl
    · intro b hb
      obtain ⟨p, -, rfl⟩ := List.mem_map.mp hb
      rfl
  have b1 : (pb.bounds.mapM fun b => pyGet b 1) = .ok (P.map (·.2)) := by
    rw [hb, mapM_ok_of _ (fun b => b.getD 1 0)]
    · rw [List.map_map]; rfl
    · intro b hb
      obtain ⟨p, -, rfl⟩ := List.mem_map.mp hb
      rfl
  have hlt : mn < mx ↔ ∃ y ∈ Y, ∃ y' ∈ Y, y ≠ y' := by
    constructor
    · intro h; exact ⟨mn, h1.1, mx, h2.1, ne_of_lt h⟩
    · rintro ⟨y, hy, y', hy', hne⟩
      rcases lt_or_gt_of_ne hne with h | h
      · exact lt_of_le_of_lt (h1.2 y hy) (lt_of_lt_of_le h (h2.2 y' hy'))
      · exact lt_of_le_of_lt (h1.2 y' hy') (lt_of_lt_of_le h (h2.2 y hy))
  unfold discParams
  rw [b0, pyBind_ok, b1, pyBind_ok, qmcUnscale_eq X P hrow, discScaleY_ok Y mn mx h1 h2]
  by_cases hA : (∀ p ∈ P, p.1 < p.2) ∧
        (∀ row ∈ X, ∀ (i : Nat) x p, row[i]? = some x → P[i]? = some p → p.1 ≤ x ∧ x ≤ p.2)
  · rw [if_pos hA, pyBind_ok]
    by_cases hB : mn < mx
    · rw [if_pos hB, if_pos ⟨hA.1, hA.2, hlt.mp hB⟩, pyBind_ok]
      rw [mapM_ok_of _ (fun i => disc (Spec.scatter X Y i (P.getD i 0).1 (P.getD i 0).2 mn mx)), pyBind_ok, pyPure]
      · have : (List.range pb.numVars).map (fun i => disc (Spec.scatter X Y i (P.getD i 0).1 (P.getD i 0).2 mn mx)) =
            P.zipIdx.map fun q => disc (Spec.scatter X Y q.2 q.1.1 q.1.2 mn mx) := by
          apply List.ext_getElem?
          intro i
          rw [List.getElem?_map, List.getElem?_map, List.getElem?_zipIdx, hD]
          by_cases hi : i < P.length
          · rw [List.getElem?_range hi, List.getElem?_eq_getElem hi]
            simp [List.getD_eq_getElem?_getD, List.getElem?_eq_getElem hi]
          · rw [List.getElem?_eq_none (by simpa using hi), List.getElem?_eq_none (by simpa using hi)]
            rfl
        rw [this]
      · intro i hi
        have hi' : i < P.length := by rw [← hD]; exact List.mem_range.mp hi
        have hp : P[i]? = some (P.getD i 0) := by
          rw [List.getD_eq_getElem?_getD, List.getElem?_eq_getElem hi']; rfl
        rw [discPoints_eq X Y P i _ mn mx hrow hlen hp]
        rfl
    · have hn : ¬Spec.DiscInputs P X Y := fun h => hB (hlt.mpr h.2.2)
      rw [if_neg hB, if_neg hn]
      rfl
  · have hn : ¬Spec.DiscInputs P X Y := fun h => hA ⟨h.1, h.2.1⟩
    rw [if_neg hA, if_neg hn]
    rfl

end SALib
