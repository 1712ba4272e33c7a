import Verif.Props.Groups
import Verif.Spec.Cross

/-! # Lemmas on the cross-sampling loops -/

set_option linter.unusedSectionVars false

namespace SALib
open Spec

variable {α : Type}

theorem fillRow_ok (M : Mat α) (i D : Nat) (g : Nat → Py α) (v : Nat → α) (row : List α)
    (hi : M[i]? = some row) (hrow : row.length = D) (hg : ∀ j < D, g j = .ok (v j)) :
    fillRow M i D g = .ok (M.set i ((List.range D).map v)) := by
  have hlt := (List.getElem?_eq_some_iff.mp hi).1
  have key : ∀ n ≤ D, (List.range n).foldlM (fun M j => do let v ← g j; setCell M i j v) M =
      (.ok (M.set i ((List.range n).map v ++ row.drop n)) : Py (Mat α)) := by
    intro n
    induction n with
    | zero =>
      intro _
      simp only [List.range_zero, List.foldlM_nil, List.map_nil, List.drop_zero, List.nil_append]
      have : M.set i row = M := by
        obtain ⟨_, rfl⟩ := List.getElem?_eq_some_iff.mp hi
        exact List.set_getElem_self hlt
      rw [this]; rfl
    | succ n ih =>
      intro hn
      rw [List.range_succ, List.foldlM_append, ih (by omega)]
      simp only [pyBind_ok, List.foldlM_cons, List.foldlM_nil, hg n (by omega)]
      rw [setCell_ok (row := (List.range n).map v ++ row.drop n)]
      · simp only [pyBind_ok, pyPure, List.set_set, List.map_append, List.map_cons, List.map_nil,
          Except.ok.injEq]
        congr 1
        rw [List.set_append_right _ _ (by simp)]
        simp only [List.length_map, List.length_range, Nat.sub_self, List.append_assoc]
        congr 1
        have : row.drop n = row[n] :: row.drop (n + 1) := List.drop_eq_getElem_cons (by omega)
        rw [this]; rfl
      · exact List.getElem?_set_self hlt
      · simp; omega
  have := key D (le_refl _)
  unfold fillRow
  rw [this]
  simp [← hrow]

theorem writeRow_ok (D m : Nat) (z : List α) (rows : Mat α) (g : Nat → Py α) (v : Nat → α)
    (hz : z.length = D) (hg : ∀ j < D, g j = .ok (v j)) :
    writeRow (rows ++ List.replicate (m + 1) z, rows.length) D g =
      .ok ((rows ++ [(List.range D).map v]) ++ List.replicate m z,
        (rows ++ [(List.range D).map v]).length) := by
  unfold writeRow
  rw [fillRow_ok _ _ D g v z ?_ hz hg]
  · simp only [pyBind_ok, pyPure, Except.ok.injEq]
    rw [List.set_append_right _ _ (le_refl _)]
    simp [List.replicate_succ]
  · rw [List.getElem?_append_right (le_refl _)]
    simp [List.replicate_succ]

theorem writeRows_ok (D m : Nat) (z : List α) (ks : List Nat) (rows : Mat α) (g : Nat → Nat → Py α)
    (v : Nat → Nat → α) (hz : z.length = D) (hg : ∀ k ∈ ks, ∀ j < D, g k j = .ok (v k j)) :
    ks.foldlM (fun st k => writeRow st D (g k)) (rows ++ List.replicate (m + ks.length) z, rows.length) =
      .ok ((rows ++ ks.map fun k => (List.range D).map (v k)) ++ List.replicate m z,
        (rows ++ ks.map fun k => (List.range D).map (v k)).length) := by
  induction ks generalizing rows with
  | nil => simp
  | cons k ks ih =>
    rw [List.foldlM_cons, List.length_cons, ← Nat.add_assoc,
      writeRow_ok D (m + ks.length) z rows (g k) (v k) hz (hg k (by simp))]
    simp only [pyBind_ok]
    rw [ih _ (fun k' hk => hg k' (by simp [hk]))]
    simp

theorem range_map_replaceIn (D : Nat) (sel : Nat → Bool) (A B : List α) (a b : Nat → α)
    (hA : A = (List.range D).map a) (hB : B = (List.range D).map b) :
    replaceIn sel A B = (List.range D).map fun j => if sel j then b j else a j := by
  subst hA hB
  unfold replaceIn
  apply List.ext_getElem?
  intro j
  by_cases hj : j < D
  · rw [List.getElem?_eq_getElem (by simpa using hj), List.getElem?_eq_getElem (by simpa using hj)]
    simp
  · rw [List.getElem?_eq_none (by simpa using hj), List.getElem?_eq_none (by simpa using hj)]

/-- The condition of the inner loops decides membership of coordinate `j` in group `k`. -/
def CondOk (groups : Option (List String)) (gnames : List String) (D Dg : Nat) (groupOf : Nat → Nat) :
    Prop :=
  ∀ k < Dg, ∀ j < D, crossCond groups gnames k j = .ok (groupOf j == k)

theorem crossBlock_ok (second : Bool) (D Dg : Nat) (groups : Option (List String))
    (gnames : List String) (groupOf : Nat → Nat) (hc : CondOk groups gnames D Dg groupOf)
    (base : Mat α) (i : Nat) (row : List α) (hi : base[i]? = some row) (hrow : row.length = 2 * D)
    (z : List α) (hz : z.length = D) (rows : Mat α) (m : Nat) :
    crossBlock second D Dg groups gnames base
        (rows ++ List.replicate (m + blockSize second Dg) z, rows.length) i =
      .ok ((rows ++ Spec.crossBlock second Dg groupOf (row.take D) (row.drop D)) ++ List.replicate m z,
        (rows ++ Spec.crossBlock second Dg groupOf (row.take D) (row.drop D)).length) := by
  have hget : ∀ j < 2 * D, ∃ v, row[j]? = some v := fun j hj =>
    ⟨row[j], List.getElem?_eq_getElem (by omega)⟩
  cases D with
  | zero =>
    -- no coordinates: every row is empty
    have hz' : z = [] := List.length_eq_zero_iff.mp hz
    have hrow' : row = [] := List.length_eq_zero_iff.mp (by simpa using hrow)
    subst hz' hrow'
    have e1 : (List.range 0).map (fun _ : Nat => (0 : Nat)) = [] := rfl
    have hw : ∀ (rows : Mat α) (m : Nat) (g : Nat → Py α),
        writeRow (rows ++ List.replicate (m + 1) [], rows.length) 0 g =
          .ok ((rows ++ [[]]) ++ List.replicate m [], (rows ++ [[]]).length) := by
      intro rows m g
      unfold writeRow fillRow
      simp [List.replicate_succ]
    have hws : ∀ (ks : List Nat) (rows : Mat α) (m : Nat) (g : Nat → Nat → Py α),
        ks.foldlM (fun st k => writeRow st 0 (g k))
            (rows ++ List.replicate (m + ks.length) [], rows.length) =
          .ok ((rows ++ ks.map fun _ => []) ++ List.replicate m [],
            (rows ++ ks.map fun _ => []).length) := by
      intro ks
      induction ks with
      | nil => intro rows m g; simp
      | cons k ks ih =>
        intro rows m g
        rw [List.foldlM_cons, List.length_cons, ← Nat.add_assoc, hw]
        simp only [pyBind_ok]
        rw [ih]
        simp
    unfold crossBlock Spec.crossBlock blockSize
    cases second
    · simp only [Bool.false_eq_true, if_false, pyPure]
      rw [show m + (Dg + 2) = (m + 1 + (List.range Dg).length) + 1 by simp; omega, hw]
      simp only [pyBind_ok]
      rw [hws]
      simp only [pyBind_ok]
      rw [hw]
      simp [replaceIn]
    · simp only [if_true]
      rw [show m + (2 * Dg + 2) =
        ((m + 1 + (List.range Dg).length) + (List.range Dg).length) + 1 by simp; omega, hw]
      simp only [pyBind_ok]
      rw [hws]
      simp only [pyBind_ok]
      rw [hws]
      simp only [pyBind_ok]
      rw [hw]
      simp [replaceIn]
  | succ d =>
    set D := d + 1 with hD
    have hne : 0 < row.length := by omega
    let v : Nat → α := fun j => row.getD j (row[0])
    have hcell : ∀ j < 2 * D, getCell base i j = .ok (v j) := by
      intro j hj
      apply getCell_ok
      unfold entry
      rw [hi, Option.bind_some, List.getElem?_eq_getElem (by omega)]
      simp [v, List.getD_eq_getElem?_getD, List.getElem?_eq_getElem (show j < row.length by omega)]
    have hA : row.take D = (List.range D).map v := by
      apply List.ext_getElem
      · simp; omega
      · intro j h1 h2
        simp only [List.length_map, List.length_range] at h2
        simp [v, List.getElem?_eq_getElem (show j < row.length by omega)]
    have hB : row.drop D = (List.range D).map fun j => v (j + D) := by
      apply List.ext_getElem
      · simp; omega
      · intro j h1 h2
        simp only [List.length_map, List.length_range] at h2
        simp [v, List.getElem?_eq_getElem (show j + D < row.length by omega), Nat.add_comm D j]
    have hAB : ∀ k ∈ List.range Dg, ∀ j < D, (do
        let c ← crossCond groups gnames k j
        if c then getCell base i (j + D) else getCell base i j : Py α) =
        .ok (if groupOf j == k then v (j + D) else v j) := by
      intro k hk j hj
      rw [hc k (List.mem_range.mp hk) j hj]
      simp only [pyBind_ok]
      split <;> exact hcell _ (by omega)
    have hBA : ∀ k ∈ List.range Dg, ∀ j < D, (do
        let c ← crossCond groups gnames k j
        if c then getCell base i j else getCell base i (j + D) : Py α) =
        .ok (if groupOf j == k then v j else v (j + D)) := by
      intro k hk j hj
      rw [hc k (List.mem_range.mp hk) j hj]
      simp only [pyBind_ok]
      split <;> exact hcell _ (by omega)
    unfold crossBlock Spec.crossBlock blockSize
    cases second
    · simp only [Bool.false_eq_true, if_false, pyPure]
      rw [show m + (Dg + 2) = (m + 1 + (List.range Dg).length) + 1 by simp; omega,
        writeRow_ok D _ z rows _ v hz (fun j hj => hcell j (by omega))]
      simp only [pyBind_ok]
      rw [writeRows_ok D _ z _ _ _ _ hz hAB]
      simp only [pyBind_ok]
      rw [writeRow_ok D _ z _ _ (fun j => v (j + D)) hz (fun j hj => hcell _ (by omega))]
      simp only [hB, hA, range_map_replaceIn D _ _ _ v (fun j => v (j + D)) rfl rfl]
      simp
    · simp only [if_true]
      rw [show m + (2 * Dg + 2) =
        ((m + 1 + (List.range Dg).length) + (List.range Dg).length) + 1 by simp; omega,
        writeRow_ok D _ z rows _ v hz (fun j hj => hcell j (by omega))]
      simp only [pyBind_ok]
      rw [writeRows_ok D _ z _ _ _ _ hz hAB]
      simp only [pyBind_ok]
      rw [writeRows_ok D _ z _ _ _ _ hz hBA]
      simp only [pyBind_ok]
      rw [writeRow_ok D _ z _ _ (fun j => v (j + D)) hz (fun j hj => hcell _ (by omega))]
      simp only [hB, hA, range_map_replaceIn D _ _ _ v (fun j => v (j + D)) rfl rfl,
        range_map_replaceIn D _ _ _ (fun j => v (j + D)) v rfl rfl]
      simp

theorem crossLoop_ok (second : Bool) (D Dg : Nat) (groups : Option (List String))
    (gnames : List String) (groupOf : Nat → Nat) (hc : CondOk groups gnames D Dg groupOf)
    (base : Mat α) (hb : HasCols (2 * D) base) (z : List α) (hz : z.length = D)
    (N start m : Nat) (hN : start + N ≤ base.length) (rows : Mat α) :
    (List.range' start N).foldlM (crossBlock second D Dg groups gnames base)
        (rows ++ List.replicate (m + blockSize second Dg * N) z, rows.length) =
      .ok ((rows ++ crossDesign second D Dg groupOf ((base.drop start).take N)) ++
          List.replicate m z,
        (rows ++ crossDesign second D Dg groupOf ((base.drop start).take N)).length) := by
  induction N generalizing start rows with
  | zero => simp [crossDesign]
  | succ N ih =>
    have hlt : start < base.length := by omega
    have hrow := hb _ (List.getElem_mem hlt)
    rw [List.range'_succ, List.foldlM_cons,
      show m + blockSize second Dg * (N + 1) = (m + blockSize second Dg * N) + blockSize second Dg by
        ring,
      crossBlock_ok second D Dg groups gnames groupOf hc base start base[start]
        (List.getElem?_eq_getElem hlt) hrow z hz]
    simp only [pyBind_ok]
    rw [ih (start + 1) (by omega)]
    have : (base.drop start).take (N + 1) = base[start] :: (base.drop (start + 1)).take N := by
      rw [List.drop_eq_getElem_cons hlt, List.take_succ_cons]
    rw [this]
    simp [crossDesign]

theorem length_replaceIn (sel : Nat → Bool) (A B : List α) (h : A.length = B.length) :
    (replaceIn sel A B).length = A.length := by
  simp [replaceIn, h]

theorem length_crossBlock (second : Bool) (g : Nat) (groupOf : Nat → Nat) (A B : List α) :
    (Spec.crossBlock second g groupOf A B).length = blockSize second g := by
  unfold Spec.crossBlock blockSize
  cases second <;> simp; omega

theorem length_crossDesign (second : Bool) (D g : Nat) (groupOf : Nat → Nat) (base : Mat α) :
    (crossDesign second D g groupOf base).length = base.length * blockSize second g := by
  unfold crossDesign
  induction base with
  | nil => simp
  | cons r rs ih =>
    rw [List.map_cons, List.flatten_cons, List.length_append, ih, length_crossBlock]
    simp; ring

theorem cols_crossDesign (second : Bool) (D g : Nat) (groupOf : Nat → Nat) (base : Mat α)
    (hb : HasCols (2 * D) base) : HasCols D (crossDesign second D g groupOf base) := by
  intro row hrow
  unfold crossDesign at hrow
  simp only [List.mem_flatten, List.mem_map] at hrow
  obtain ⟨_, ⟨r, hr, rfl⟩, hmem⟩ := hrow
  have hlen := hb r hr
  have hA : (r.take D).length = D := by simp; omega
  have hB : (r.drop D).length = D := by simp; omega
  unfold Spec.crossBlock at hmem
  simp only [List.mem_append, List.mem_singleton, List.mem_map] at hmem
  rcases hmem with ((rfl | ⟨k, _, rfl⟩) | h) | rfl
  · exact hA
  · rw [length_replaceIn _ _ _ (by omega)]; exact hA
  · cases second
    · simp at h
    · simp only [if_true, List.mem_map] at h
      obtain ⟨k, _, rfl⟩ := h
      rw [length_replaceIn _ _ _ (by omega)]; exact hB
  · exact hB

end SALib
