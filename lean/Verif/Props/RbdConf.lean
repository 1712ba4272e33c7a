import Verif.Props.RbdLimit

/-! # C43: the confidence value of RBD-FAST -/

namespace SALib
open Spec

theorem mapM_id_none {l : List (Num ℝ)} (h : none ∈ l) : l.mapM id = none := by
  induction l with
  | nil => simp at h
  | cons a l ih =>
    rw [List.mapM_cons]
    rcases List.mem_cons.mp h with rfl | hl
    · rfl
    · cases a with
      | none => rfl
      | some x =>
        rw [ih hl]; rfl

theorem mapM_id_map_some (w : List ℝ) : (w.map some).mapM id = some w := by
  induction w with
  | nil => rfl
  | cons a w ih =>
    rw [List.map_cons, List.mapM_cons, ih]; rfl

theorem forall₂_of_mem {β γ : Type} {R S : β → γ → Prop} {l : List β} {r : List γ} (h : List.Forall₂ R l r)
    (k : ∀ a ∈ l, ∀ b, R a b → S a b) : List.Forall₂ S l r := by
  induction h with
  | nil => exact .nil
  | cons h _ ih => exact .cons (k _ (by simp) _ h) (ih fun a ha => k a (by simp [ha]))

theorem npStd1_value (w : List ℝ) (hw : 2 ≤ w.length) :
    npStd1 Real.sqrt w = some (Real.sqrt ((w.map fun v => (v - w.sum / w.length) ^ 2).sum / ((w.length : ℝ) - 1))) := by
  have h2 : (2 : ℝ) ≤ w.length := by exact_mod_cast hw
  unfold npStd1 npMean npDiv
  rw [if_neg (by linarith)]
  show (if (w.length : ℝ) - 1 = 0 then none else some _) >>= _ = _
  rw [if_neg (by linarith)]
  rfl

/-- **C43**, the confidence value: for every parameter the number `norm.ppf(0.5 + conf_level / 2)` times the standard
deviation, with divisor one less than the number of resamples, of the corrected indices of the resamples, each made of the
drawn rows of the parameter and the outputs of the same rows; nan if one of them is nan. -/
theorem C43_confidence (argsort : List ℝ → List Nat) (hs : ∀ X, IsArgsort X (argsort X)) (bnd : ℝ)
    (draws : Nat → List (List Nat)) (pb : Problem ℝ) (X : Mat ℝ) (Y : List ℝ) (M : Nat)
    (hX : ∀ row ∈ X, row.length = pb.numVars) (hXY : X.length = Y.length) (hN : 2 ≤ Y.length)
    (hM : 2 * M < Y.length) (hM2 : Y.length / 2 ≠ 2 * M)
    (hd : ∀ i < pb.numVars, ∀ idx ∈ draws i, idx.length = Y.length / 2 ∧ ∀ t ∈ idx, t < Y.length)
    (hvar : ¬ ∃ c, ∀ y ∈ Y, y = c) :
    ∃ res, rbdAnalyze argsort bnd draws pb X Y M = .ok res ∧
      ∀ i < pb.numVars, ∃ vals c,
        List.Forall₂ (fun idx v => rbdIndex argsort (idx.map fun t => (column X i).getD t 0) (idx.map fun t => Y.getD t 0) M =
          .ok v) (draws i) vals ∧
        res.S1conf[i]? = some c ∧ (none ∈ vals → c = none) ∧
        ∀ w : List ℝ, vals = w.map some → 2 ≤ w.length →
          c = some (bnd * Real.sqrt ((w.map fun v => (v - w.sum / w.length) ^ 2).sum / ((w.length : ℝ) - 1))) := by
  obtain ⟨res, hres, -⟩ := C43_analysis argsort hs bnd draws pb X Y M hX hXY hN hM hM2 hd hvar
  refine ⟨res, hres, fun i hi => ?_⟩
  unfold rbdAnalyze at hres
  obtain ⟨rows, hrows, hres⟩ := pyBind_inv _ _ _ hres
  cases hres
  obtain ⟨b, hb, hf⟩ := mapM_range_get _ _ _ hrows i hi
  rw [column_ok X _ i hX hi, pyBind_ok] at hf
  obtain ⟨s, -, hf⟩ := pyBind_inv _ _ _ hf
  obtain ⟨c, hc, hf⟩ := pyBind_inv _ _ _ hf
  cases hf
  unfold rbdBootstrap at hc
  obtain ⟨vals, hv, hc⟩ := pyBind_inv _ _ _ hc
  cases hc
  refine ⟨vals, _, ?_, by rw [List.getElem?_map, hb]; rfl, ?_, ?_⟩
  · have h2 := (mapM_ok_iff _ _ _).mp hv
    have hcl : (column X i).length = Y.length := by simp [column, hXY]
    have get_ok : ∀ (Z : List ℝ) (idx : List Nat), (∀ t ∈ idx, t < Z.length) →
        (idx.mapM fun t => pyGet Z t) = .ok (idx.map fun t => Z.getD t 0) := by
      intro Z idx h
      refine mapM_ok_of _ (fun t => Z.getD t 0) _ fun t ht => ?_
      rw [pyGet_ok _ _ (h t ht)]
      simp [List.getD, List.getElem?_eq_getElem (h t ht)]
    have key : ∀ idx ∈ draws i, ∀ v, (do
        let x ← idx.mapM fun t => pyGet (column X i) t
        let y ← idx.mapM fun t => pyGet Y t
        rbdIndex argsort x y M : Py (Num ℝ)) = .ok v →
        rbdIndex argsort (idx.map fun t => (column X i).getD t 0) (idx.map fun t => Y.getD t 0) M = .ok v := by
      intro idx hidx v h
      have hlt := (hd i hi idx hidx).2
      rw [get_ok _ idx (by rw [hcl]; exact hlt), pyBind_ok, get_ok _ idx hlt, pyBind_ok] at h
      exact h
    exact forall₂_of_mem h2 key
  · intro h
    unfold npStd1N
    rw [mapM_id_none h]
    rfl
  · rintro w rfl hw
    unfold npStd1N
    rw [mapM_id_map_some]
    show Option.map _ (npStd1 Real.sqrt w) = _
    rw [npStd1_value w hw]
    rfl

/-- Six rows, one parameter, one harmonic, no resample of the excluded size: the hypotheses hold. -/
example : ∃ (argsort : List ℝ → List Nat) (draws : Nat → List (List Nat)) (X : Mat ℝ) (Y : List ℝ),
    (∀ X, IsArgsort X (argsort X)) ∧ (∀ row ∈ X, row.length = 1) ∧ X.length = Y.length ∧ 2 ≤ Y.length ∧ 2 * 1 < Y.length ∧
    Y.length / 2 ≠ 2 * 1 ∧ (∀ i < 1, ∀ idx ∈ draws i, idx.length = Y.length / 2 ∧ ∀ t ∈ idx, t < Y.length) ∧
    2 ≤ (draws 0).length ∧ ¬∃ c, ∀ y ∈ Y, y = c := by
  obtain ⟨argsort, hs⟩ := exists_argsort
  refine ⟨argsort, fun _ => [[0, 2, 2], [5, 1, 3]], [[1], [2], [3], [4], [5], [6]], [1, 4, 9, 16, 25, 36], hs, by simp, by simp,
    by simp, by simp, by simp, by simp, by simp, ?_⟩
  rintro ⟨c, hc⟩
  have h1 := hc 1 (by simp)
  have h2 := hc 4 (by simp)
  linarith

end SALib
