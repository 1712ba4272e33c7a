import Verif.Model.Stats
import Verif.Lemmas.ListAux
import Verif.Lemmas.Tactics

/-! # Slices with stride and blocks -/

namespace SALib

theorem strided_block {β : Type} (blk rest : List β) (a step : Nat) (hblk : blk.length = step)
    (ha : a < step) (hrest : rest.length % step = 0) :
    strided (blk ++ rest) a step = blk[a]?.toList ++ strided rest a step := by
  have hstep : 0 < step := by omega
  unfold strided
  have hcount : ((blk ++ rest).length - a + step - 1) / step =
      (rest.length - a + step - 1) / step + 1 := by
    rw [List.length_append, hblk]
    obtain ⟨q, hq⟩ := Nat.dvd_of_mod_eq_zero hrest
    rw [hq]
    rcases q with _ | q
    · simp only [Nat.mul_zero, Nat.add_zero, Nat.zero_sub, Nat.zero_add]
      rw [Nat.div_eq_of_lt (show step - 1 < step by omega)]
      apply Nat.div_eq_of_lt_le <;> omega
    · have : step + step * (q + 1) - a + step - 1 = (step * (q + 1) - a + step - 1) + step := by
        have : a ≤ step * (q + 1) := by nlinarith
        omega
      rw [this, Nat.add_div_right _ hstep]
  rw [hcount, List.range'_succ, List.filterMap_cons]
  have h0 : (blk ++ rest)[a]? = blk[a]? := List.getElem?_append_left (by omega)
  rw [h0, List.getElem?_eq_getElem (show a < blk.length by omega)]
  simp only [Option.toList_some, List.singleton_append, List.cons.injEq, true_and]
  rw [Nat.add_comm a step, ← List.map_add_range', List.filterMap_map]
  apply List.filterMap_congr
  intro i _
  simp only [Function.comp]
  rw [List.getElem?_append_right (by omega), hblk]
  congr 1
  omega

theorem length_flatten_blocks {β : Type} (blocks : List (List β)) (step : Nat)
    (h : ∀ b ∈ blocks, b.length = step) : blocks.flatten.length = blocks.length * step := by
  induction blocks with
  | nil => simp
  | cons b bs ih =>
    rw [List.flatten_cons, List.length_append, h b (by simp), ih fun b' hb => h b' (by simp [hb]),
      List.length_cons]
    ring

theorem strided_flatten {β : Type} (blocks : List (List β)) (a step : Nat)
    (h : ∀ b ∈ blocks, b.length = step) (ha : a < step) :
    strided blocks.flatten a step = blocks.filterMap (·[a]?) := by
  induction blocks with
  | nil =>
    unfold strided
    have : ((([] : List (List β)).flatten.length - a + step - 1) / step) = 0 := by
      simp only [List.flatten_nil, List.length_nil, Nat.zero_sub, Nat.zero_add]
      exact Nat.div_eq_of_lt (by omega)
    rw [this]; rfl
  | cons b bs ih =>
    have hbs : ∀ b' ∈ bs, b'.length = step := fun b' hb => h b' (by simp [hb])
    rw [List.flatten_cons, strided_block b bs.flatten a step (h b (by simp)) ha, ih hbs,
      List.filterMap_cons]
    · rw [List.getElem?_eq_getElem (by rw [h b (by simp)]; exact ha)]
      simp
    · rw [length_flatten_blocks bs step hbs]; simp

theorem strided_map {β γ : Type} (f : β → γ) (l : List β) (a step : Nat) :
    strided (l.map f) a step = (strided l a step).map f := by
  unfold strided
  rw [List.length_map, List.map_filterMap]
  apply List.filterMap_congr
  intro i _
  rw [List.getElem?_map]

/-- A list whose length is a multiple of `step` is cut into blocks of that length. -/
theorem exists_blocks {β : Type} (step : Nat) (N : Nat) (l : List β) (h : l.length = N * step) :
    ∃ blocks : List (List β), l = blocks.flatten ∧ blocks.length = N ∧ ∀ b ∈ blocks, b.length = step := by
  induction N generalizing l with
  | zero => exact ⟨[], by simpa using h, rfl, by simp⟩
  | succ N ih =>
    have h' : l.length = N * step + step := by rw [h]; ring
    obtain ⟨bs, h1, h2, h3⟩ := ih (l.drop step) (by rw [List.length_drop]; omega)
    refine ⟨l.take step :: bs, ?_, by simp [h2], ?_⟩
    · rw [List.flatten_cons, ← h1, List.take_append_drop]
    · intro b hb
      rcases List.mem_cons.mp hb with rfl | hb
      · rw [List.length_take]; omega
      · exact h3 b hb

/-- Reading the blocks column by column uses every entry exactly once. -/
theorem columns_perm {β : Type} (blocks : List (List β)) (step : Nat)
    (h : ∀ b ∈ blocks, b.length = step) :
    ((List.range step).flatMap fun a => blocks.filterMap (·[a]?)).Perm blocks.flatten := by
  induction blocks with
  | nil => simp
  | cons b bs ih =>
    have hb := h b (by simp)
    have e : (List.range step).flatMap (fun a => (b :: bs).filterMap (·[a]?)) =
        (List.range step).flatMap fun a => b[a]?.toList ++ bs.filterMap (·[a]?) := by
      apply List.flatMap_congr
      intro a _
      rw [List.filterMap_cons]
      cases b[a]? <;> simp
    rw [e, List.flatten_cons]
    have hb' : (List.range step).flatMap (fun a => b[a]?.toList) = b := by
      subst hb
      clear e h ih
      induction b using List.reverseRecOn with
      | nil => simp
      | append_singleton b x ih =>
        rw [List.length_append, List.length_singleton, List.range_succ, List.flatMap_append]
        congr 1
        · conv_rhs => rw [← ih]
          apply List.flatMap_congr
          intro a ha
          rw [List.getElem?_append_left (List.mem_range.mp ha)]
        · simp
    refine List.Perm.trans ?_ (List.Perm.append_left b (ih fun b' hb => h b' (by simp [hb])))
    conv_rhs => rw [← hb']
    generalize List.range step = R
    clear e hb' ih h hb
    induction R with
    | nil => simp
    | cons a R ih =>
      simp only [List.flatMap_cons, List.append_assoc]
      apply List.Perm.append_left
      refine (List.Perm.append_left _ ih).trans ?_
      rw [← List.append_assoc, ← List.append_assoc]
      exact List.Perm.append_right _ List.perm_append_comm

end SALib
