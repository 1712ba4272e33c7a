import Verif.Props.HdmrFit
import Verif.Props.DeltaBins
import Verif.Props.FastAnalyze
import Mathlib.Data.List.GetD

/-! # HDMR: the emulator at a point (C78) -/

set_option linter.unusedSectionVars false

namespace SALib

open Finset

variable {α : Type} [Field α] [LinearOrder α] [IsStrictOrderedRing α]

namespace Spec

/-- The extremes of column `j`. -/
def ColumnExtremes (X : Mat α) (j : Nat) (lo hi : α) : Prop :=
  (∃ row ∈ X, row.getD j 0 = lo) ∧ (∃ row ∈ X, row.getD j 0 = hi) ∧ ∀ row ∈ X, lo ≤ row.getD j 0 ∧ row.getD j 0 ≤ hi

/-- The spline basis of input `j` at a point, scaled by given extremes. -/
def pointBasis (m : Nat) (lo hi : Nat → α) (row : List α) (j : Nat) : List α :=
  bSplineRow m ((row.getD j 0 - lo j) / (hi j - lo j))

/-- The products of the basis functions of the inputs in `c`: the first input varies slowest. -/
def termBasis (m : Nat) (lo hi : Nat → α) (row : List α) (c : List Nat) : List α :=
  c.foldl (fun acc j => acc.flatMap fun a => (pointBasis m lo hi row j).map fun b => a * b) [1]

/-- The expansion at a point: the constant plus, for every term, its basis times its coefficients. -/
def expansionAt (m : Nat) (terms : List (List Nat)) (coef : Nat → List α) (lo hi : Nat → α) (f0 : α)
    (row : List α) : α :=
  f0 + ∑ k ∈ range terms.length, ∑ i ∈ range (termBasis m lo hi row (terms.getD k [])).length,
    (termBasis m lo hi row (terms.getD k [])).getD i 0 * (coef k).getD i 0

end Spec

open Spec

theorem normColumn_eq (l : List α) (lo hi : α) (h1 : lo ∈ l) (h2 : hi ∈ l) (hb : ∀ x ∈ l, lo ≤ x ∧ x ≤ hi)
    (hne : lo ≠ hi) : normColumn l = .ok (l.map fun x => (x - lo) / (hi - lo)) := by
  cases l with
  | nil => simp at h1
  | cons v vs =>
    have hmin := arrMin_spec (v :: vs) _ rfl
    have hmax := arrMax_spec (v :: vs) _ rfl
    have e1 : vs.foldl min v = lo := le_antisymm (hmin.2 _ h1) (hb _ hmin.1).1
    have e2 : vs.foldl max v = hi := le_antisymm (hb _ hmax.1).2 (hmax.2 _ h2)
    unfold normColumn
    simp only []
    rw [e1, e2, if_neg (sub_ne_zero.mpr hne.symm)]

theorem inputColumn_ok (X : Mat α) (j : Nat) (h : ∀ row ∈ X, j < row.length) :
    inputColumn X j = .ok (X.map fun row => row.getD j 0) := by
  unfold inputColumn
  apply mapM_ok_of
  intro row hr
  rw [pyGet_ok row j (h row hr), List.getD, List.getElem?_eq_getElem (h row hr)]
  rfl

theorem zipWith_map_same {β γ δ ε : Type} (f : γ → δ → ε) (g : β → γ) (h : β → δ) (l : List β) :
    List.zipWith f (l.map g) (l.map h) = l.map fun x => f (g x) (h x) := by
  induction l with
  | nil => rfl
  | cons x xs ih => simp [ih]

theorem zip_map_same {β γ δ : Type} (g : β → γ) (h : β → δ) (l : List β) :
    (l.map g).zip (l.map h) = l.map fun x => (g x, h x) := by
  induction l with
  | nil => rfl
  | cons x xs ih => simp [ih]

theorem basis2_term (m : Nat) (lo hi : Nat → α) (row : List α) (a b : Nat) :
    basis2 (pointBasis m lo hi row a) (pointBasis m lo hi row b) = termBasis m lo hi row [a, b] := by
  simp [termBasis, basis2]

theorem basis3_term (m : Nat) (lo hi : Nat → α) (row : List α) (a b c : Nat) :
    basis3 (pointBasis m lo hi row a) (pointBasis m lo hi row b) (pointBasis m lo hi row c) =
      termBasis m lo hi row [a, b, c] := by
  simp only [termBasis, basis3, List.foldl_cons, List.foldl_nil, List.flatMap_cons, List.flatMap_nil,
    List.append_nil, one_mul, List.map_id']
  rw [List.flatMap_assoc]
  congr 1
  funext x
  rw [List.flatMap_map]

theorem basis1_term (m : Nat) (lo hi : Nat → α) (row : List α) (a : Nat) :
    pointBasis m lo hi row a = termBasis m lo hi row [a] := by
  simp [termBasis]

theorem hdmrBasis_eq (m d o : Nat) (X : Mat α) (lo hi : Nat → α) (hX : ∀ row ∈ X, d ≤ row.length)
    (hext : ∀ j < d, ColumnExtremes X j (lo j) (hi j)) (hne : ∀ j < d, lo j ≠ hi j) :
    hdmrBasis m d o X = .ok
      ((List.range d).map (fun j => X.map fun row => termBasis m lo hi row [j]),
       (hdmrC2 d o).map (fun c => X.map fun row => termBasis m lo hi row c),
       (hdmrC3 d o).map (fun c => X.map fun row => termBasis m lo hi row c)) := by
  unfold hdmrBasis
  rw [mapM_ok_of _ (fun j => X.map fun row => pointBasis m lo hi row j)]
  · simp only [pyBind_ok, pyPure]
    have hget : ∀ j < d, ((List.range d).map fun j => X.map fun row => pointBasis m lo hi row j).getD j [] =
        X.map fun row => pointBasis m lo hi row j := by
      intro j hj
      simp [List.getD, hj]
    congr 2
    · simp only [basis1_term]
    · congr 1
      · apply List.map_congr_left
        intro c hc
        obtain ⟨-, h2, h3⟩ := mem_hdmrC2 d o c hc
        match c, h3 with
        | [x, y], _ =>
          simp only [List.getD_cons_zero, List.getD_cons_succ]
          rw [hget x (h2 x (by simp)), hget y (h2 y (by simp)), zipWith_map_same]
          simp only [basis2_term]
      · apply List.map_congr_left
        intro c hc
        obtain ⟨-, h2, h3⟩ := mem_hdmrC3 d o c hc
        match c, h3 with
        | [x, y, z], _ =>
          simp only [List.getD_cons_zero, List.getD_cons_succ]
          rw [hget x (h2 x (by simp)), hget y (h2 y (by simp)), hget z (h2 z (by simp)), zip_map_same,
            zipWith_map_same]
          simp only [basis3_term]
  · intro j hj
    have hj := List.mem_range.mp hj
    obtain ⟨⟨r1, hr1, e1⟩, ⟨r2, hr2, e2⟩, hb⟩ := hext j hj
    rw [inputColumn_ok X j fun row hr => lt_of_lt_of_le hj (hX row hr)]
    simp only [pyBind_ok]
    rw [normColumn_eq _ (lo j) (hi j) (List.mem_map.mpr ⟨r1, hr1, e1⟩) (List.mem_map.mpr ⟨r2, hr2, e2⟩) _ (hne j hj)]
    · simp only [pyBind_ok, pyPure, List.map_map]
      rfl
    · intro x hx
      obtain ⟨row, hrow, rfl⟩ := List.mem_map.mp hx
      exact hb row hrow

theorem dotList_getD (u v : List α) : dotList u v = ∑ i ∈ range u.length, u.getD i 0 * v.getD i 0 := by
  unfold dotList
  induction u generalizing v with
  | nil => simp
  | cons x xs ih =>
    cases v with
    | nil => simp
    | cons y ys =>
      rw [List.zipWith_cons_cons, List.sum_cons, ih ys, List.length_cons, Finset.sum_range_succ']
      simp [add_comm]

theorem sumColumns_map {ι : Type} (fs : List ι) (f : ι → List α → α) (X : Mat α) :
    sumColumns X.length (fs.map fun i => X.map (f i)) = X.map fun row => (fs.map fun i => f i row).sum := by
  apply List.ext_getElem
  · simp [sumColumns]
  · intro r h1 h2
    have hr : r < X.length := by simpa [sumColumns] using h1
    simp [sumColumns, List.map_map, Function.comp_def, List.getD, hr]

/-- Index pairs: blocks of an appended list. -/
theorem map_range_append {β γ : Type} (l1 l2 : List β) (d : β) (f : Nat → β → γ) :
    (List.range (l1 ++ l2).length).map (fun k => f k ((l1 ++ l2).getD k d)) =
      (List.range l1.length).map (fun k => f k (l1.getD k d)) ++
        (List.range l2.length).map (fun k => f (l1.length + k) (l2.getD k d)) := by
  rw [List.length_append, List.range_add, List.map_append, List.map_map]
  congr 1
  · apply List.map_congr_left
    intro k hk
    rw [List.getD, List.getElem?_append_left (List.mem_range.mp hk), List.getD]
  · apply List.map_congr_left
    intro k hk
    simp only [Function.comp]
    rw [List.getD, List.getElem?_append_right (by omega), Nat.add_sub_cancel_left, List.getD]

/-- The coefficients of term number `k`. -/
def coefOf (d n2 : Nat) (C1 C2 C3 : List (List α)) (k : Nat) : List α :=
  if k < d then C1.getD k [] else if k < d + n2 then C2.getD (k - d) [] else C3.getD (k - d - n2) []

/-- **C78**, what holds: at every row the emulator returns the expansion with the stored coefficients, one term per
subset, the inputs being scaled by the extremes of the batch it is given. -/
theorem C78_point_partial (m d o : Nat) (C1 C2 C3 : List (List α)) (X : Mat α) (Ymean : α) (lo hi : Nat → α)
    (hm : (C1.getD 0 []).length = m + 3) (hX : ∀ row ∈ X, d ≤ row.length)
    (hext : ∀ j < d, ColumnExtremes X j (lo j) (hi j)) (hne : ∀ j < d, lo j ≠ hi j)
    (ho : emulateOrder C2 C3 = o) :
    hdmrEmulate d C1 C2 C3 X Ymean = .ok (X.map fun row =>
      expansionAt m (hdmrTerms d o) (coefOf d (hdmrC2 d o).length C1 C2 C3) lo hi Ymean row) := by
  unfold hdmrEmulate
  simp only []
  rw [hm, Nat.add_sub_cancel, ho, hdmrBasis_eq m d o X lo hi hX hext hne]
  simp only [pyBind_ok, pyPure]
  congr 1
  have hcols : ∀ (ts : List (List Nat)) (C : List (List α)),
      (List.range (ts.map fun c => X.map fun row => termBasis m lo hi row c).length).map
        (fun j => matVec ((ts.map fun c => X.map fun row => termBasis m lo hi row c).getD j []) (C.getD j [])) =
      (List.range ts.length).map fun k => X.map fun row => dotList (termBasis m lo hi row (ts.getD k [])) (C.getD k []) := by
    intro ts C
    rw [List.length_map]
    apply List.map_congr_left
    intro j hj
    have hj := List.mem_range.mp hj
    simp [matVec, List.getD, hj, Function.comp_def]
  have h1 := hcols ((List.range d).map fun i => [i]) C1
  rw [List.map_map] at h1
  simp only [Function.comp_def] at h1
  rw [h1, hcols, hcols]
  have hall : (List.range ((List.range d).map fun i => [i]).length).map (fun k => X.map fun row =>
        dotList (termBasis m lo hi row (((List.range d).map fun i => [i]).getD k [])) (C1.getD k [])) ++
      (List.range (hdmrC2 d o).length).map (fun k => X.map fun row =>
        dotList (termBasis m lo hi row ((hdmrC2 d o).getD k [])) (C2.getD k [])) ++
      (List.range (hdmrC3 d o).length).map (fun k => X.map fun row =>
        dotList (termBasis m lo hi row ((hdmrC3 d o).getD k [])) (C3.getD k [])) =
      (List.range (hdmrTerms d o).length).map fun k => X.map fun row =>
        dotList (termBasis m lo hi row ((hdmrTerms d o).getD k [])) (coefOf d (hdmrC2 d o).length C1 C2 C3 k) := by
    unfold hdmrTerms
    rw [map_range_append (((List.range d).map fun i => [i]) ++ hdmrC2 d o) (hdmrC3 d o) []
        (fun k c => X.map fun row => dotList (termBasis m lo hi row c) (coefOf d (hdmrC2 d o).length C1 C2 C3 k)),
      map_range_append ((List.range d).map fun i => [i]) (hdmrC2 d o) []
        (fun k c => X.map fun row => dotList (termBasis m lo hi row c) (coefOf d (hdmrC2 d o).length C1 C2 C3 k))]
    congr 1
    · congr 1
      · apply List.map_congr_left
        intro k hk
        have hk := List.mem_range.mp hk
        simp only [List.length_map, List.length_range] at hk
        simp only [coefOf, if_pos hk]
      · apply List.map_congr_left
        intro k hk
        have hk := List.mem_range.mp hk
        simp only [List.length_map, List.length_range]
        simp only [coefOf, if_neg (show ¬d + k < d by omega),
          if_pos (show d + k < d + (hdmrC2 d o).length by omega), Nat.add_sub_cancel_left]
    · apply List.map_congr_left
      intro k hk
      simp only [List.length_append, List.length_map, List.length_range]
      simp only [coefOf, if_neg (show ¬d + (hdmrC2 d o).length + k < d by omega),
        if_neg (show ¬d + (hdmrC2 d o).length + k < d + (hdmrC2 d o).length by omega),
        show d + (hdmrC2 d o).length + k - d - (hdmrC2 d o).length = k by omega]
  rw [hall, sumColumns_map, List.map_map]
  apply List.map_congr_left
  intro row _
  simp only [Function.comp, expansionAt]
  rw [add_comm]
  congr 1
  simp only [dotList_getD]
  rw [← sum_range_list]

/-- **C78**, what holds: two batches with the same column extremes give a common row the same value. -/
theorem C78_same_extremes_partial (m d : Nat) (C1 C2 C3 : List (List α)) (X X' : Mat α) (Ymean : α) (lo hi : Nat → α)
    (hm : (C1.getD 0 []).length = m + 3) (hX : ∀ row ∈ X, d ≤ row.length) (hX' : ∀ row ∈ X', d ≤ row.length)
    (hext : ∀ j < d, ColumnExtremes X j (lo j) (hi j)) (hext' : ∀ j < d, ColumnExtremes X' j (lo j) (hi j))
    (hne : ∀ j < d, lo j ≠ hi j) (i i' : Nat) (row : List α) (hi1 : X[i]? = some row) (hi2 : X'[i']? = some row) :
    ∃ e e', hdmrEmulate d C1 C2 C3 X Ymean = .ok e ∧ hdmrEmulate d C1 C2 C3 X' Ymean = .ok e' ∧
      e[i]? = e'[i']? ∧ (e[i]?).isSome := by
  refine ⟨_, _, C78_point_partial m d _ C1 C2 C3 X Ymean lo hi hm hX hext hne rfl,
    C78_point_partial m d _ C1 C2 C3 X' Ymean lo hi hm hX' hext' hne rfl, ?_, ?_⟩
  · rw [List.getElem?_map, List.getElem?_map, hi1, hi2]
  · rw [List.getElem?_map, hi1]; rfl

/-- **C78 fails** in general: the emulated value of a point changes with the other points of the batch, because the
inputs are scaled by the extremes of the batch and not by those of the training sample. -/
theorem C78_hdmr_fail : ∃ (C1 : List (List ℚ)) (X X' : Mat ℚ) (row : List ℚ) (v v' : ℚ),
    X[1]? = some row ∧ X'[1]? = some row ∧ X.length = 3 ∧ X'.length = 3 ∧ (C1.getD 0 []).length = 4 ∧
      (hdmrEmulate 2 C1 [] [] X 0).map (fun e => e[1]?) = .ok (some v) ∧
      (hdmrEmulate 2 C1 [] [] X' 0).map (fun e => e[1]?) = .ok (some v') ∧ v ≠ v' := by
  refine ⟨[[1, 0, 0, 0], [0, 0, 0, 0]], [[0, 0], [1, 1], [2, 2]], [[0, 0], [1, 1], [4, 4]], [1, 1], 1 / 48, 9 / 128,
    rfl, rfl, rfl, rfl, rfl, ?_, ?_, ?_⟩ <;> decide +kernel

/-- Coefficient arrays of `K` fits: `n` terms with `p` coefficients each. -/
def Spec.CoeffShape (K n p : Nat) (Cs : List (List (List α))) : Prop :=
  Cs.length = K ∧ ∀ C ∈ Cs, C.length = n ∧ ∀ c ∈ C, c.length = p

theorem coeffShape_at {K n p : Nat} {Cs : List (List (List α))} (h : CoeffShape K n p Cs) (k : Nat) (hk : k < K) :
    (Cs.getD k []).length = n ∧ ∀ j < n, ((Cs.getD k []).getD j []).length = p := by
  have hk' : k < Cs.length := by rw [h.1]; exact hk
  have hm : Cs.getD k [] ∈ Cs := by simp [List.getD, hk']
  obtain ⟨h1, h2⟩ := h.2 _ hm
  refine ⟨h1, fun j hj => h2 _ ?_⟩
  rw [List.getD_eq_getElem (Cs.getD k []) _ (by rw [h1]; exact hj)]
  exact List.getElem_mem _

theorem sum_getD_map {β : Type} (l : List β) (d : β) (f : β → α) : (l.map f).sum = ∑ k ∈ range l.length, f (l.getD k d) := by
  induction l with
  | nil => simp
  | cons x xs ih =>
    rw [List.map_cons, List.sum_cons, ih, List.length_cons, Finset.sum_range_succ']
    simp [add_comm]

theorem meanCoeffs_spec {K n p : Nat} {Cs : List (List (List α))} (hK : 0 < K) (h : CoeffShape K n p Cs) :
    (meanCoeffs Cs).length = n ∧ (∀ j < n, ((meanCoeffs Cs).getD j []).length = p) ∧
      ∀ j a, ((meanCoeffs Cs).getD j []).getD a 0 = (∑ k ∈ range K, ((Cs.getD k []).getD j []).getD a 0) / K := by
  obtain ⟨hl, hc⟩ := h
  have hsh : CoeffShape K n p Cs := ⟨hl, hc⟩
  cases Cs with
  | nil => simp at hl; omega
  | cons C rest =>
    obtain ⟨h1, h2⟩ := coeffShape_at hsh 0 hK
    simp only [List.getD_cons_zero] at h1 h2
    have e : ∀ j < n, (meanCoeffs (C :: rest)).getD j [] = (List.range p).map fun a =>
        ((C :: rest).map fun D => (D.getD j []).getD a 0).sum / ((rest.length + 1 : Nat) : α) := by
      intro j hj
      unfold meanCoeffs
      rw [List.getD_eq_getElem _ _ (by simpa [h1] using hj), List.getElem_map, List.getElem_range, h2 j hj]
    refine ⟨by simp [meanCoeffs, h1], fun j hj => by rw [e j hj]; simp, fun j a => ?_⟩
    by_cases hj : j < n
    · rw [e j hj]
      by_cases ha : a < p
      · rw [List.getD_eq_getElem _ _ (by simpa using ha), List.getElem_map, List.getElem_range,
          sum_getD_map (C :: rest) [], hl, show rest.length + 1 = K from hl]
      · rw [List.getD_eq_default _ _ (by simpa using ha)]
        rw [Finset.sum_eq_zero fun k hk => ?_, zero_div]
        rw [List.getD_eq_default]
        rw [(coeffShape_at hsh k (mem_range.mp hk)).2 j hj]
        omega
    · rw [List.getD_eq_default (meanCoeffs (C :: rest)) _ (by simp [meanCoeffs, h1]; omega)]
      rw [Finset.sum_eq_zero fun k hk => ?_, zero_div]
      · rfl
      rw [List.getD_eq_default (List.getD (C :: rest) k []) _ (by rw [(coeffShape_at hsh k (mem_range.mp hk)).1]; omega)]
      rfl

/-- **C78**: emulation with the averaged coefficients is the average of the emulations with the coefficients of the
single fits (all with arrays of the same shape, the inputs scaled by the extremes of the batch). -/
theorem C78_average_partial (m d : Nat) (C1 C2 C3 : List (List (List α))) (X : Mat α) (Ymean : α) (lo hi : Nat → α)
    (K n2 n3 p2 p3 : Nat) (hK : 0 < K) (hd : 0 < d) (hC1 : CoeffShape K d (m + 3) C1) (hC2 : CoeffShape K n2 p2 C2)
    (hC3 : CoeffShape K n3 p3 C3) (hX : ∀ row ∈ X, d ≤ row.length)
    (hext : ∀ j < d, ColumnExtremes X j (lo j) (hi j)) (hne : ∀ j < d, lo j ≠ hi j) :
    ∃ (e : List α) (es : Nat → List α), hdmrEmulate d (meanCoeffs C1) (meanCoeffs C2) (meanCoeffs C3) X Ymean = .ok e ∧
      e.length = X.length ∧
      (∀ k < K, hdmrEmulate d (C1.getD k []) (C2.getD k []) (C3.getD k []) X Ymean = .ok (es k) ∧ (es k).length = X.length) ∧
      ∀ i < X.length, e.getD i 0 = (∑ k ∈ range K, (es k).getD i 0) / K := by
  obtain ⟨l1, q1, g1⟩ := meanCoeffs_spec hK hC1
  obtain ⟨l2, -, g2⟩ := meanCoeffs_spec hK hC2
  obtain ⟨l3, -, g3⟩ := meanCoeffs_spec hK hC3
  have ho : ∀ k < K, emulateOrder (C2.getD k []) (C3.getD k []) = emulateOrder (meanCoeffs C2) (meanCoeffs C3) := by
    intro k hk
    unfold emulateOrder
    rw [l2, l3, (coeffShape_at hC2 k hk).1, (coeffShape_at hC3 k hk).1]
  refine ⟨_, fun k => X.map fun row => expansionAt m (hdmrTerms d (emulateOrder (meanCoeffs C2) (meanCoeffs C3)))
      (coefOf d (hdmrC2 d (emulateOrder (meanCoeffs C2) (meanCoeffs C3))).length (C1.getD k []) (C2.getD k []) (C3.getD k []))
      lo hi Ymean row,
    C78_point_partial m d _ _ _ _ X Ymean lo hi (q1 0 hd) hX hext hne rfl, by simp,
    fun k hk => ⟨C78_point_partial m d _ _ _ _ X Ymean lo hi ((coeffShape_at hC1 k hk).2 0 hd) hX hext hne (ho k hk), by simp⟩,
    fun i hi' => ?_⟩
  simp only [List.getD, List.getElem?_map, List.getElem?_eq_getElem hi', Option.map_some, Option.getD_some]
  generalize X[i] = row
  have hKα : (K : α) ≠ 0 := by exact_mod_cast hK.ne'
  have hcoef : ∀ (n : Nat) t a, (coefOf d n (meanCoeffs C1) (meanCoeffs C2) (meanCoeffs C3) t).getD a 0 =
      (∑ k ∈ range K, (coefOf d n (C1.getD k []) (C2.getD k []) (C3.getD k []) t).getD a 0) / K := by
    intro n t a
    unfold coefOf
    by_cases h1 : t < d
    · simp only [if_pos h1]
      exact g1 t a
    · simp only [if_neg h1]
      by_cases h2 : t < d + n
      · simp only [if_pos h2]
        exact g2 _ a
      · simp only [if_neg h2]
        exact g3 _ a
  have hcoef' := hcoef
  simp only [List.getD] at hcoef'
  unfold expansionAt
  simp only [List.getD, hcoef']
  rw [Finset.sum_add_distrib, Finset.sum_const, card_range, nsmul_eq_mul, add_div, mul_div_cancel_left₀ _ hKα]
  congr 1
  rw [Finset.sum_comm, Finset.sum_div]
  refine Finset.sum_congr rfl fun t _ => ?_
  rw [Finset.sum_comm, Finset.sum_div]
  refine Finset.sum_congr rfl fun a _ => ?_
  rw [← mul_div_assoc, Finset.mul_sum]

/-- Two fits of two inputs with four coefficients each. -/
example : CoeffShape 2 2 4 ([[[1, 0, 0, 0], [0, 2, 0, 0]], [[3, 0, 1, 0], [0, 0, 0, 5]]] : List (List (List ℚ))) ∧
    meanCoeffs ([[[1, 0, 0, 0], [0, 2, 0, 0]], [[3, 0, 1, 0], [0, 0, 0, 5]]] : List (List (List ℚ))) =
      [[2, 0, 1 / 2, 0], [0, 1, 0, 5 / 2]] := by
  unfold CoeffShape
  decide +kernel

/-- The hypotheses of the positive results: a batch with its extremes. -/
example : ∀ j < 2, ColumnExtremes ([[0, 0], [1, 1], [2, 4]] : Mat ℚ) j ([0, 0].getD j 0) ([2, 4].getD j 0) ∧
    ([0, 0] : List ℚ).getD j 0 ≠ [2, 4].getD j 0 := by
  intro j hj
  unfold ColumnExtremes
  interval_cases j <;> decide +kernel

end SALib
