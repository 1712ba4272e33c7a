import Verif.Props.HdmrDriver
import Verif.Lemmas.Ridge
import Mathlib.LinearAlgebra.Matrix.ToLinearEquiv

/-! # C104: fits to all rows

With as many rows per fit as the sample has, every fit sees the same rows in another order, and gives the same indices. -/

namespace SALib

open Spec Finset

variable {α : Type} [Field α] [LinearOrder α] [IsStrictOrderedRing α]

section Reorder

variable (idx : List Nat) (N : Nat) (hp : idx.Perm (List.range N))

include hp

theorem idx_lt (i : Nat) (hi : i ∈ idx) : i < N := List.mem_range.mp (hp.mem_iff.mp hi)

theorem idx_length : idx.length = N := by rw [hp.length_eq, List.length_range]

theorem takeIdx_len (l : List α) : (takeIdx l idx).length = N := by
  unfold takeIdx; rw [List.length_map, idx_length idx N hp]

theorem takeIdx_getD (l : List α) (i : Nat) (hi : i < N) : (takeIdx l idx).getD i 0 = l.getD (idx.getD i 0) 0 := by
  have : i < idx.length := by rw [idx_length idx N hp]; exact hi
  simp [takeIdx, List.getD, this]

/-- A sum over the rows does not depend on their order. -/
theorem sum_reorder (f : Nat → α) : ∑ i ∈ range N, f (idx.getD i 0) = ∑ i ∈ range N, f i := by
  rw [← sum_map_finRange, ← sum_map_finRange]
  have h : (List.range N).map (fun i => f (idx.getD i 0)) = idx.map f := by
    apply List.ext_getElem
    · simp [idx_length idx N hp]
    · intro i h1 h2
      have : i < idx.length := by simpa using h2
      simp [List.getD, this]
  rw [h]
  exact (hp.map f).sum_eq

theorem devSum_reorder (f g : Nat → α) :
    devSum N (fun i => f (idx.getD i 0)) (fun i => g (idx.getD i 0)) = devSum N f g := by
  have hm : ∀ h : Nat → α, meanOn N (fun i => h (idx.getD i 0)) = meanOn N h := fun h => by
    unfold meanOn; rw [sum_reorder idx N hp h]
  unfold devSum
  rw [hm, hm]
  exact sum_reorder idx N hp fun i => (f i - meanOn N f) * (g i - meanOn N g)

theorem takeIdx_sum (l : List α) (hl : l.length = N) : (takeIdx l idx).sum = l.sum := by
  have h : l = (List.range N).map fun i => l.getD i 0 := by
    apply List.ext_getElem
    · simp [hl]
    · intro i h1 h2
      simp [List.getD, h1]
  conv_rhs => rw [h]
  unfold takeIdx
  exact (hp.map fun i => l.getD i 0).sum_eq

theorem takeIdx_map_perm (g : α → α) (l : List α) (hl : l.length = N) : (takeIdx l idx).map g = takeIdx (l.map g) idx := by
  unfold takeIdx
  rw [List.map_map]
  refine List.map_congr_left fun i hi => ?_
  have : i < l.length := by rw [hl]; exact idx_lt idx N hp i hi
  simp [List.getD, this]

theorem vecSub_reorder (u v : List α) (hu : u.length = N) (hv : v.length = N) :
    vecSub (takeIdx u idx) (takeIdx v idx) = takeIdx (vecSub u v) idx := by
  unfold vecSub takeIdx
  rw [List.zipWith_map]
  simp only [List.zipWith_self]
  refine List.map_congr_left fun i hi => ?_
  have h1 : i < u.length := by rw [hu]; exact idx_lt idx N hp i hi
  have h2 : i < v.length := by rw [hv]; exact idx_lt idx N hp i hi
  simp [List.getD, h1, h2]

theorem matVec_reorder (B : Mat α) (c : List α) (hB : B.length = N) :
    matVec (pickRows idx B) c = takeIdx (matVec B c) idx := by
  unfold matVec pickRows takeIdx
  rw [List.map_map]
  refine List.map_congr_left fun i hi => ?_
  have : i < B.length := by rw [hB]; exact idx_lt idx N hp i hi
  simp [List.getD, this]

theorem dotList_reorder (u v : List α) (hu : u.length = N) (hv : v.length = N) :
    dotList (takeIdx u idx) (takeIdx v idx) = dotList u v := by
  rw [dotList_eq_range _ _ N (takeIdx_len idx N hp u) (takeIdx_len idx N hp v), dotList_eq_range u v N hu hv]
  rw [← sum_reorder idx N hp fun i => u.getD i 0 * v.getD i 0]
  refine Finset.sum_congr rfl fun i hi => ?_
  rw [takeIdx_getD idx N hp u i (Finset.mem_range.mp hi), takeIdx_getD idx N hp v i (Finset.mem_range.mp hi)]

/-- `T'` applied to the reordered output is `T` applied to the output. -/
theorem matVec_inverse (T : Mat α) (y : List α) (hT : ∀ row ∈ T, row.length = N) (hy : y.length = N) :
    matVec (T.map fun row => takeIdx row idx) (takeIdx y idx) = matVec T y := by
  unfold matVec
  rw [List.map_map]
  exact List.map_congr_left fun row hr => dotList_reorder idx N hp row y (hT row hr) hy

theorem vecSub_len (u v : List α) (hu : u.length = N) (hv : v.length = N) : (vecSub u v).length = N := by
  have := hp.length_eq
  unfold vecSub; rw [List.length_zipWith, hu, hv, Nat.min_self]

theorem map_getD_lt {β γ : Type} (f : β → γ) (l : List β) (j : Nat) (x : β) (y : γ) (hj : j < l.length) :
    (l.map f).getD j y = f (l.getD j x) := by
  have := hp.length_eq
  simp [List.getD, hj]

theorem getD_mem_lt {β : Type} (l : List β) (j : Nat) (x : β) (hj : j < l.length) : l.getD j x ∈ l := by
  have := hp.length_eq
  rw [List.getD, List.getElem?_eq_getElem hj]
  exact List.getElem_mem hj

theorem fold_reorder (vs : List (List α)) (hv : ∀ v ∈ vs, v.length = N) (y : List α) (hy : y.length = N) :
    (vs.map fun v => takeIdx v idx).foldl vecSub (takeIdx y idx) = takeIdx (vs.foldl vecSub y) idx ∧
      (vs.foldl vecSub y).length = N := by
  induction vs generalizing y with
  | nil => exact ⟨rfl, hy⟩
  | cons v vs ih =>
    have hv0 := hv v (by simp)
    rw [List.map_cons, List.foldl_cons, List.foldl_cons, vecSub_reorder idx N hp y v hy hv0]
    exact ih (fun w hw => hv w (by simp [hw])) _ (vecSub_len idx N hp y v hy hv0)

/-- Sizes of the blocks and of their inverses. -/
def RowsFit (N : Nat) (T B : List (Mat α)) : Prop :=
  T.length = B.length ∧ (∀ b ∈ B, b.length = N) ∧ ∀ t ∈ T, ∀ row ∈ t, row.length = N

theorem inner_reorder (T B : List (Mat α)) (h : RowsFit N T B) (C : List (List α)) (j : Nat) (zs : List Nat)
    (hz : ∀ z ∈ zs, z < B.length) (y : List α) (hy : y.length = N) :
    zs.foldl (fun y z => if j ≠ z then vecSub y (matVec ((B.map (pickRows idx)).getD z []) (C.getD z [])) else y)
        (takeIdx y idx) =
      takeIdx (zs.foldl (fun y z => if j ≠ z then vecSub y (matVec (B.getD z []) (C.getD z [])) else y) y) idx ∧
    (zs.foldl (fun y z => if j ≠ z then vecSub y (matVec (B.getD z []) (C.getD z [])) else y) y).length = N := by
  induction zs generalizing y with
  | nil => exact ⟨rfl, hy⟩
  | cons z zs ih =>
    have hzB := hz z (by simp)
    have hbl : (B.getD z []).length = N := h.2.1 _ (getD_mem_lt idx N hp B z [] hzB)
    have hml : (matVec (B.getD z []) (C.getD z [])).length = N := by rw [matVec_length, hbl]
    rw [List.foldl_cons, List.foldl_cons]
    by_cases hjz : j ≠ z
    · rw [if_pos hjz, if_pos hjz, map_getD_lt idx N hp (pickRows idx) B z [] [] hzB, matVec_reorder idx N hp _ _ hbl,
        vecSub_reorder idx N hp y _ hy hml]
      exact ih (fun w hw => hz w (by simp [hw])) _ (vecSub_len idx N hp y _ hy hml)
    · rw [if_neg hjz, if_neg hjz]
      exact ih (fun w hw => hz w (by simp [hw])) y hy

/-- The inverses of the reordered blocks. -/
def reorderCols (idx : List Nat) (t : Mat α) : Mat α := t.map fun row => takeIdx row idx

theorem inverse_reorder (T B : List (Mat α)) (h : RowsFit N T B) (j : Nat) (hj : j < B.length) (y : List α)
    (hy : y.length = N) :
    matVec ((T.map (reorderCols idx)).getD j []) (takeIdx y idx) = matVec (T.getD j []) y := by
  have hjT : j < T.length := by rw [h.1]; exact hj
  rw [map_getD_lt idx N hp (reorderCols idx) T j [] [] hjT]
  exact matVec_inverse idx N hp _ y (h.2.2 _ (getD_mem_lt idx N hp T j [] hjT)) hy

theorem sweep_reorder (T B : List (Mat α)) (h : RowsFit N T B) (y : List α) (hy : y.length = N) (C : List (List α)) :
    backfitSweep (T.map (reorderCols idx)) (B.map (pickRows idx)) (takeIdx y idx) C = backfitSweep T B y C := by
  unfold backfitSweep
  rw [List.length_map]
  refine List.foldl_ext _ _ _ fun C j hj => ?_
  obtain ⟨h1, h2⟩ := inner_reorder idx N hp T B h C j (List.range B.length) (fun z hz => List.mem_range.mp hz) y hy
  simp only []
  rw [h1, inverse_reorder idx N hp T B h j (List.mem_range.mp hj) _ h2]

theorem loop_reorder (T B : List (Mat α)) (h : RowsFit N T B) (y : List α) (hy : y.length = N) (it : Nat) (v : α)
    (C : List (List α)) :
    backfitLoop (T.map (reorderCols idx)) (B.map (pickRows idx)) (takeIdx y idx) it v C = backfitLoop T B y it v C := by
  induction it generalizing v C with
  | zero => rfl
  | succ it ih =>
    unfold backfitLoop
    simp only []
    rw [sweep_reorder idx N hp T B h y hy C]
    split
    · exact ih _ _
    · rfl

theorem values_reorder (B : List (Mat α)) (hB : ∀ b ∈ B, b.length = N) (C : List (List α)) :
    (List.range (B.map (pickRows idx)).length).map (fun j => matVec ((B.map (pickRows idx)).getD j []) (C.getD j [])) =
      ((List.range B.length).map fun j => matVec (B.getD j []) (C.getD j [])).map (fun v => takeIdx v idx) ∧
    ∀ v ∈ (List.range B.length).map fun j => matVec (B.getD j []) (C.getD j []), v.length = N := by
  rw [List.length_map, List.map_map]
  refine ⟨List.map_congr_left fun j hj => ?_, fun v hv => ?_⟩
  · have hj := List.mem_range.mp hj
    rw [map_getD_lt idx N hp (pickRows idx) B j [] [] hj]
    exact matVec_reorder idx N hp _ _ (hB _ (getD_mem_lt idx N hp B j [] hj))
  · obtain ⟨j, hj, rfl⟩ := List.mem_map.mp hv
    rw [matVec_length]
    exact hB _ (getD_mem_lt idx N hp B j [] (List.mem_range.mp hj))

theorem start_reorder (T B : List (Mat α)) (h : RowsFit N T B) (y : List α) (hy : y.length = N) :
    (List.range (B.map (pickRows idx)).length).map
        (fun j => matVec ((T.map (reorderCols idx)).getD j []) (takeIdx y idx)) =
      (List.range B.length).map fun j => matVec (T.getD j []) y := by
  rw [List.length_map]
  exact List.map_congr_left fun j hj => inverse_reorder idx N hp T B h j (List.mem_range.mp hj) y hy

theorem first_reorder (T B : List (Mat α)) (h : RowsFit N T B) (y : List α) (hy : y.length = N) (maxiter : Nat) :
    hdmrFirst (T.map (reorderCols idx)) (B.map (pickRows idx)) (takeIdx y idx) maxiter =
      ((hdmrFirst T B y maxiter).1.map (fun v => takeIdx v idx), takeIdx (hdmrFirst T B y maxiter).2.1 idx,
        (hdmrFirst T B y maxiter).2.2) ∧
    (∀ v ∈ (hdmrFirst T B y maxiter).1, v.length = N) ∧ (hdmrFirst T B y maxiter).2.1.length = N := by
  unfold hdmrFirst
  simp only []
  rw [start_reorder idx N hp T B h y hy, loop_reorder idx N hp T B h y hy]
  obtain ⟨h1, h2⟩ := values_reorder idx N hp B h.2.1
    (backfitLoop T B y maxiter 1 ((List.range B.length).map fun j => matVec (T.getD j []) y))
  obtain ⟨h3, h4⟩ := fold_reorder idx N hp _ h2 y hy
  rw [h1, h3]
  exact ⟨rfl, h2, h4⟩

theorem higher_reorder (T B : List (Mat α)) (h : RowsFit N T B) (y : List α) (hy : y.length = N) :
    hdmrHigher (T.map (reorderCols idx)) (B.map (pickRows idx)) (takeIdx y idx) =
      ((hdmrHigher T B y).1.map (fun v => takeIdx v idx), takeIdx (hdmrHigher T B y).2.1 idx, (hdmrHigher T B y).2.2) ∧
    (∀ v ∈ (hdmrHigher T B y).1, v.length = N) ∧ (hdmrHigher T B y).2.1.length = N := by
  unfold hdmrHigher
  simp only []
  rw [start_reorder idx N hp T B h y hy]
  obtain ⟨h1, h2⟩ := values_reorder idx N hp B h.2.1 ((List.range B.length).map fun j => matVec (T.getD j []) y)
  obtain ⟨h3, h4⟩ := fold_reorder idx N hp _ h2 y hy
  rw [h1, h3]
  exact ⟨rfl, h2, h4⟩

/-- The regularised inverse of the reordered blocks is the reordered inverse. -/
def ReordersTo (reg : Mat α → Mat α) (idx : List Nat) (N : Nat) (B : List (Mat α)) : Prop :=
  ∀ b ∈ B, b.length = N ∧ (∀ row ∈ reg b, row.length = N) ∧ reg (pickRows idx b) = reorderCols idx (reg b)

theorem ReordersTo.fits {reg : Mat α → Mat α} {B : List (Mat α)} (h : ReordersTo reg idx N B) :
    RowsFit N (B.map reg) B ∧ (B.map (pickRows idx)).map reg = (B.map reg).map (reorderCols idx) := by
  have := hp.length_eq
  refine ⟨⟨by simp, fun b hb => (h b hb).1, fun t ht => ?_⟩, ?_⟩
  · obtain ⟨b, hb, rfl⟩ := List.mem_map.mp ht
    exact (h b hb).2.1
  · rw [List.map_map, List.map_map]
    exact List.map_congr_left fun b hb => (h b hb).2.2

/-- Reordering the rows reorders the values of the fitted terms. -/
theorem fit_reorder (reg : Mat α → Mat α) (o maxiter : Nat) (B1 B2 B3 : List (Mat α)) (Y : List α) (hY : Y.length = N)
    (h1 : ReordersTo reg idx N B1) (h2 : ReordersTo reg idx N B2) (h3 : ReordersTo reg idx N B3) :
    (fitOn reg o maxiter B1 B2 B3 Y idx).Yem =
      (hdmrFit reg o maxiter B1 B2 B3 Y N).Yem.map fun v => takeIdx v idx := by
  obtain ⟨r1, e1⟩ := ReordersTo.fits idx N hp h1
  obtain ⟨r2, e2⟩ := ReordersTo.fits idx N hp h2
  obtain ⟨r3, e3⟩ := ReordersTo.fits idx N hp h3
  unfold fitOn hdmrFit
  simp only []
  rw [takeIdx_sum idx N hp Y hY, idx_length idx N hp, takeIdx_map_perm idx N hp _ Y hY, e1, e2, e3]
  obtain ⟨a1, a2, a3⟩ := first_reorder idx N hp (B1.map reg) B1 r1 (Y.map fun y => y - Y.sum / (N : α)) (by simpa using hY)
    maxiter
  rw [a1]
  simp only []
  obtain ⟨b1, b2, b3⟩ := higher_reorder idx N hp (B2.map reg) B2 r2 _ a3
  by_cases ho : o > 1
  · rw [if_pos ho, if_pos ho, b1]
    simp only []
    obtain ⟨c1, c2, c3⟩ := higher_reorder idx N hp (B3.map reg) B3 r3 _ b3
    by_cases ho3 : o = 3
    · rw [if_pos ho3, if_pos ho3, c1]
      simp only [List.map_append]
    · rw [if_neg ho3, if_neg ho3]
      simp only [List.map_append, List.map_nil]
  · rw [if_neg ho, if_neg ho, if_neg (by omega), if_neg (by omega)]
    simp only [List.map_append, List.map_nil]

/-- Indices do not depend on the order of the rows. -/
theorem indices_reorder (n : Nat) (Y : List α) (F : List (List α)) (hn : F.length = n) (S Sa Sb S' Sa' Sb' : Nat → α)
    (hY : Y.length = N) (h : IndicesOn n Y F S Sa Sb)
    (h' : IndicesOn n (takeIdx Y idx) (F.map fun v => takeIdx v idx) S' Sa' Sb') (j : Nat) (hj : j < n) :
    S' j = S j ∧ Sa' j = Sa j ∧ Sb' j = Sb j := by
  have hl := takeIdx_len idx N hp Y
  have hF : ∀ l < n, ∀ i ∈ range N, ((F.map fun v => takeIdx v idx).getD l []).getD i 0 =
      (F.getD l []).getD (idx.getD i 0) 0 := by
    intro l hl i hi
    rw [map_getD_lt idx N hp _ F l [] [] (by omega)]
    exact takeIdx_getD idx N hp _ i (Finset.mem_range.mp hi)
  have hy : ∀ i ∈ range N, (takeIdx Y idx).getD i 0 = Y.getD (idx.getD i 0) 0 :=
    fun i hi => takeIdx_getD idx N hp Y i (Finset.mem_range.mp hi)
  have hdev : ∀ f g f' g' : Nat → α, (∀ i ∈ range N, f' i = f (idx.getD i 0)) → (∀ i ∈ range N, g' i = g (idx.getD i 0)) →
      devSum N f' g' = devSum N f g := by
    intro f g f' g' hf hg
    rw [← devSum_reorder idx N hp f g]
    exact devSum_congr N _ _ _ _ (fun i hi => hf i (Finset.mem_range.mpr hi)) fun i hi => hg i (Finset.mem_range.mpr hi)
  obtain ⟨a1, a2, a3⟩ := h j hj
  obtain ⟨b1, b2, b3⟩ := h' j hj
  have hsum : ∀ i ∈ range N, (∑ l ∈ (range n).erase j, ((F.map fun v => takeIdx v idx).getD l []).getD i 0) =
      ∑ l ∈ (range n).erase j, (F.getD l []).getD (idx.getD i 0) 0 := fun i hi =>
    Finset.sum_congr rfl fun l hl => hF l (Finset.mem_range.mp (Finset.mem_of_mem_erase hl)) i hi
  rw [a1, a2, a3, b1, b2, b3, hl, hY]
  have e1 := hdev (fun i => Y.getD i 0) (fun i => Y.getD i 0) _ _ hy hy
  have e2 := hdev (fun i => (F.getD j []).getD i 0) (fun i => Y.getD i 0) _ _ (hF j hj) hy
  have e3 := hdev (fun i => (F.getD j []).getD i 0) (fun i => (F.getD j []).getD i 0) _ _ (hF j hj) (hF j hj)
  have e4 := hdev (fun i => (F.getD j []).getD i 0) (fun i => ∑ l ∈ (range n).erase j, (F.getD l []).getD i 0) _ _
    (hF j hj) hsum
  rw [e1, e2, e3, e4]
  exact ⟨rfl, rfl, rfl⟩

end Reorder

/-! ### The regularised inverse -/

/-- Only zero solves the homogeneous normal equations. -/
theorem ridge_zero (lam : α) (hl : 0 < lam) (R w : Nat) (b : Nat → Nat → α) (x : Nat → α)
    (h : ∀ k < w, (∑ k' ∈ range w, (∑ s ∈ range R, b s k * b s k') * x k') + lam * x k = 0) (k : Nat) (hk : k < w) :
    x k = 0 := by
  have hq : (∑ s ∈ range R, (∑ k ∈ range w, b s k * x k) ^ 2) + lam * ∑ k ∈ range w, x k ^ 2 = 0 := by
    have h0 : ∑ k ∈ range w, x k * ((∑ k' ∈ range w, (∑ s ∈ range R, b s k * b s k') * x k') + lam * x k) = 0 :=
      Finset.sum_eq_zero fun k hk => by rw [h k (Finset.mem_range.mp hk), mul_zero]
    rw [← h0]
    simp only [mul_add, Finset.sum_add_distrib]
    congr 1
    · simp only [sq, Finset.sum_mul, Finset.mul_sum]
      rw [Finset.sum_comm]
      refine Finset.sum_congr rfl fun k _ => ?_
      rw [Finset.sum_comm]
      exact Finset.sum_congr rfl fun k' _ => Finset.sum_congr rfl fun s _ => by ring
    · rw [Finset.mul_sum]; exact Finset.sum_congr rfl fun k _ => by ring
  have h1 : 0 ≤ ∑ s ∈ range R, (∑ k ∈ range w, b s k * x k) ^ 2 := Finset.sum_nonneg fun s _ => sq_nonneg _
  have h2 : 0 ≤ ∑ k ∈ range w, x k ^ 2 := Finset.sum_nonneg fun s _ => sq_nonneg _
  have h3 : ∑ k ∈ range w, x k ^ 2 = 0 := by nlinarith
  have := (Finset.sum_eq_zero_iff_of_nonneg fun s _ => sq_nonneg (x s)).mp h3 k (Finset.mem_range.mpr hk)
  exact pow_eq_zero_iff (two_ne_zero) |>.mp this

theorem mat_ext (R w : Nat) (A A' : Mat α) (hA : Shape R w A) (hA' : Shape R w A')
    (h : ∀ r < R, ∀ k < w, (A.getD r []).getD k 0 = (A'.getD r []).getD k 0) : A = A' := by
  apply List.ext_getElem (hA.1.trans hA'.1.symm)
  intro r h1 h2
  have l1 : A[r].length = w := hA.2 _ (List.getElem_mem h1)
  have l2 : A'[r].length = w := hA'.2 _ (List.getElem_mem h2)
  apply List.ext_getElem (l1.trans l2.symm)
  intro k h3 h4
  have := h r (hA.1 ▸ h1) k (l1 ▸ h3)
  simpa [List.getD, h1, h2, h3, h4] using this

theorem ridge_unique (lam : α) (hl : 0 < lam) (R w : Nat) (B T T' : Mat α) (hT : Shape w R T) (hT' : Shape w R T')
    (h : RidgeInverse lam R w B T) (h' : RidgeInverse lam R w B T') : T = T' := by
  refine mat_ext w R T T' hT hT' fun k hk r hr => ?_
  have := ridge_zero lam hl R w (fun s k => (B.getD s []).getD k 0)
    (fun k => (T.getD k []).getD r 0 - (T'.getD k []).getD r 0) (by
      intro k hk
      have e := (h k hk r hr).trans (h' k hk r hr).symm
      simp only [mul_sub, Finset.sum_sub_distrib]
      linear_combination e) k hk
  exact sub_eq_zero.mp this

theorem ridge_reorder (idx : List Nat) (lam : α) (R w : Nat) (hp : idx.Perm (List.range R)) (B T : Mat α) (hB : B.length = R)
    (hT : Shape w R T) (h : RidgeInverse lam R w B T) :
    RidgeInverse lam R w (pickRows idx B) (reorderCols idx T) := by
  intro k hk r hr
  have hidx : idx.getD r 0 < R := by
    have : r < idx.length := by rw [idx_length idx R hp]; exact hr
    rw [List.getD, List.getElem?_eq_getElem this]
    exact idx_lt idx R hp _ (List.getElem_mem this)
  have hrow : ∀ s < R, (pickRows idx B).getD s [] = B.getD (idx.getD s 0) [] := by
    intro s hs
    have : s < idx.length := by rw [idx_length idx R hp]; exact hs
    simp [pickRows, List.getD, this]
  have hcol : ∀ k' < w, ((reorderCols idx T).getD k' []).getD r 0 = (T.getD k' []).getD (idx.getD r 0) 0 := by
    intro k' hk'
    unfold reorderCols
    rw [map_getD_lt idx R hp _ T k' [] [] (by rw [hT.1]; exact hk')]
    exact takeIdx_getD idx R hp _ r hr
  rw [hcol k hk, hrow r hr, ← h k hk _ hidx]
  congr 1
  refine Finset.sum_congr rfl fun k' hk' => ?_
  rw [hcol k' (Finset.mem_range.mp hk')]
  congr 1
  rw [← sum_reorder idx R hp fun s => (B.getD s []).getD k 0 * (B.getD s []).getD k' 0]
  exact Finset.sum_congr rfl fun s hs => by rw [hrow s (Finset.mem_range.mp hs)]

/-- Two solutions of the regularised normal equations that see the same rows in another order. -/
theorem reordersTo_of_ridge (idx : List Nat) (lam : α) (hl : 0 < lam) (N w : Nat) (hN : 1 ≤ N)
    (hp : idx.Perm (List.range N)) (reg : Mat α → Mat α) (hreg : RidgeSolver lam reg) (B : List (Mat α))
    (hB : ∀ b ∈ B, Shape N w b) : ReordersTo reg idx N B := by
  intro b hb
  obtain ⟨hs, hr⟩ := hreg N w b hN (hB b hb)
  have hb' : Shape N w (pickRows idx b) := by
    refine ⟨by simp [pickRows, idx_length idx N hp], fun row hrow => ?_⟩
    obtain ⟨i, hi, rfl⟩ := List.mem_map.mp hrow
    exact (hB b hb).2 _ (getD_mem_lt idx N hp b i [] (by rw [(hB b hb).1]; exact idx_lt idx N hp i hi))
  obtain ⟨hs', hr'⟩ := hreg N w _ hN hb'
  refine ⟨(hB b hb).1, hs.2, ridge_unique lam hl N w _ _ _ hs' ⟨?_, fun row hrow => ?_⟩ hr'
    (ridge_reorder idx lam N w hp b _ (hB b hb).1 hs hr)⟩
  · unfold reorderCols; rw [List.length_map]; exact hs.1
  · obtain ⟨t, ht, rfl⟩ := List.mem_map.mp hrow
    exact takeIdx_len idx N hp t

/-! ### Sizes of the basis -/

theorem bSplineRow_length (m : Nat) (x : α) : (bSplineRow m x).length = m + 3 := by simp [bSplineRow]

theorem basis2_length (u v : List α) : (basis2 u v).length = u.length * v.length := by
  simp [basis2, List.length_flatMap]

theorem basis3_length (u v w : List α) : (basis3 u v w).length = u.length * (v.length * w.length) := by
  simp [basis3, List.length_flatMap]

theorem zipWith_shape {β γ : Type} (f : β → γ → List α) (w : Nat) (l : List β) (l' : List γ) (N : Nat) (h : l.length = N)
    (h' : l'.length = N) (hf : ∀ x ∈ l, ∀ y ∈ l', (f x y).length = w) : Shape N w (List.zipWith f l l') := by
  refine ⟨by simp [h, h'], fun row hrow => ?_⟩
  obtain ⟨i, hi, rfl⟩ := List.mem_iff_getElem.mp hrow
  rw [List.getElem_zipWith]
  exact hf _ (List.getElem_mem _) _ (List.getElem_mem _)

theorem mapM_mem_inv {β γ : Type} (f : β → Py γ) (l : List β) (r : List γ) (h : l.mapM f = .ok r) (b : γ) (hb : b ∈ r) :
    ∃ a ∈ l, f a = .ok b := by
  induction l generalizing r with
  | nil => simp only [List.mapM_nil] at h; cases h; simp at hb
  | cons a l ih =>
    rw [List.mapM_cons] at h
    obtain ⟨x, hx, h⟩ := pyBind_inv _ _ _ h
    obtain ⟨xs, hxs, h⟩ := pyBind_inv _ _ _ h
    obtain rfl := Except.ok.inj h
    rcases List.mem_cons.mp hb with rfl | hb
    · exact ⟨a, by simp, hx⟩
    · obtain ⟨c, hc, hcb⟩ := ih xs hxs hb
      exact ⟨c, by simp [hc], hcb⟩

theorem hdmrBasis_shapes (m d o : Nat) (X : Mat α) (B1 B2 B3 : List (Mat α)) (h : hdmrBasis m d o X = .ok (B1, B2, B3)) :
    (∀ b ∈ B1, Shape X.length (m + 3) b) ∧ (∀ b ∈ B2, Shape X.length ((m + 3) * (m + 3)) b) ∧
      ∀ b ∈ B3, Shape X.length ((m + 3) * ((m + 3) * (m + 3))) b := by
  unfold hdmrBasis at h
  obtain ⟨B, h1, h⟩ := pyBind_inv _ _ _ h
  have h := (Except.ok.inj h)
  obtain ⟨rfl, rfl, rfl⟩ : B = B1 ∧ _ ∧ _ := by
    simp only [Prod.mk.injEq] at h; exact h
  have hlen : B.length = d := by rw [mapM_length _ _ _ h1, List.length_range]
  have hb : ∀ b ∈ B, Shape X.length (m + 3) b := by
    intro b hb
    obtain ⟨j, hj, hjb⟩ := mapM_mem_inv _ _ _ h1 b hb
    obtain ⟨col, hc, hjb⟩ := pyBind_inv _ _ _ hjb
    obtain ⟨coln, hn, hjb⟩ := pyBind_inv _ _ _ hjb
    obtain rfl := Except.ok.inj hjb
    have e1 : col.length = X.length := mapM_length _ _ _ hc
    have e2 : coln.length = col.length := by
      unfold normColumn at hn
      split at hn
      · cases hn
      · simp only [] at hn
        split at hn
        · cases hn
        · obtain rfl := Except.ok.inj hn; simp
    refine ⟨by simp [e1, e2], fun row hrow => ?_⟩
    obtain ⟨x, -, rfl⟩ := List.mem_map.mp hrow
    exact bSplineRow_length m x
  have hat : ∀ j < d, Shape X.length (m + 3) (B.getD j []) := by
    intro j hj
    have hj' : j < B.length := by omega
    rw [List.getD, List.getElem?_eq_getElem hj']
    exact hb _ (List.getElem_mem hj')
  have hc : ∀ (c : List Nat) (n : Nat), c.length = n → (∀ i ∈ c, i < d) → ∀ k < n, c.getD k 0 < d := by
    intro c n hn hi k hk
    rw [List.getD, List.getElem?_eq_getElem (by omega)]
    exact hi _ (List.getElem_mem _)
  refine ⟨hb, fun b hb2 => ?_, fun b hb3 => ?_⟩
  · obtain ⟨c, hcm, rfl⟩ := List.mem_map.mp hb2
    obtain ⟨-, hi, hn⟩ := mem_hdmrC2 d o c hcm
    have s0 := hat _ (hc c 2 hn hi 0 (by omega))
    have s1 := hat _ (hc c 2 hn hi 1 (by omega))
    exact zipWith_shape _ _ _ _ _ s0.1 s1.1 fun x hx y hy => by rw [basis2_length, s0.2 x hx, s1.2 y hy]
  · obtain ⟨c, hcm, rfl⟩ := List.mem_map.mp hb3
    obtain ⟨-, hi, hn⟩ := mem_hdmrC3 d o c hcm
    have s0 := hat _ (hc c 3 hn hi 0 (by omega))
    have s1 := hat _ (hc c 3 hn hi 1 (by omega))
    have s2 := hat _ (hc c 3 hn hi 2 (by omega))
    refine zipWith_shape _ _ _ _ _ s0.1 (by rw [List.length_zip, s1.1, s2.1, Nat.min_self]) fun x hx y hy => ?_
    obtain ⟨hy1, hy2⟩ := List.of_mem_zip (show (y.1, y.2) ∈ _ from hy)
    rw [basis3_length, s0.2 x hx, s1.2 _ hy1, s2.2 _ hy2]

/-- With as many rows per fit as there are in the sample the fits agree, and every interval has width zero: the rows are
drawn without replacement. -/
theorem C104_all_rows (sqrt : α → α) (hs : sqrt 0 = 0) (mult : α) (reg : Mat α → Mat α) (fppf : Nat → Nat → Option α)
    (perm : Nat → List Nat) (pb : Problem α) (X : Mat α) (d : Nat) (Y : List α) (o maxiter m K : Nat)
    (alpha lambdax : α) (print : Bool) (B1 B2 B3 : List (Mat α)) (hlam : 0 < lambdax) (hreg : RidgeSolver lambdax reg)
    (hR : hdmrSettings X.length d Y.length o maxiter m K (some (X.length : Int)) alpha lambdax = .ok (X.length : Int))
    (hB : hdmrBasis m d o X = .ok (B1, B2, B3)) (hn : d ≤ pb.names.length)
    (hperm : ∀ k < K, (perm k).Perm (List.range X.length))
    (hY : ∃ a < X.length, ∃ b < X.length, Y.getD a 0 ≠ Y.getD b 0) :
    ∃ r p, hdmrAnalyze sqrt mult reg fppf perm pb X d Y o maxiter m K (some X.length) alpha lambdax print = .ok (r, p) ∧
      (∀ v ∈ r.SConf ++ r.SaConf ++ r.SbConf, v = some 0) ∧ ∀ v ∈ r.STconf, v = some 0 ∨ v = none := by
  have hR' : hdmrSettings X.length d Y.length o maxiter m K ((some X.length).map fun r : Nat => (r : Int)) alpha lambdax =
      .ok ((X.length : Nat) : Int) := hR
  obtain ⟨hNY, ho, ho3, hK, h150, hle, hK1⟩ := hdmrSettings_inv _ _ _ _ _ _ _ (some X.length) alpha lambdax X.length hR'
  have hp : ∀ k < K, (hdmrRows perm X.length K X.length k).Perm (List.range X.length) := by
    intro k hk
    unfold hdmrRows
    split
    · exact List.Perm.refl _
    · rw [List.take_of_length_le (by rw [(hperm k hk).length_eq, List.length_range])]
      exact hperm k hk
  obtain ⟨terms, S, Sa, Sb, r, h1, h2, -, h4, h5, -⟩ := C104_results sqrt hs mult reg fppf perm pb X d Y o maxiter m K
    (some X.length) alpha lambdax print X.length B1 B2 B3 hR' hB hn hperm (by
      intro k hk
      obtain ⟨a, ha, b, hb, hab⟩ := hY
      exact ⟨a, (hp k hk).mem_iff.mpr (List.mem_range.mpr ha), b, (hp k hk).mem_iff.mpr (List.mem_range.mpr hb), hab⟩)
  obtain ⟨s1, s2, s3⟩ := hdmrBasis_shapes m d o X B1 B2 B3 hB
  obtain ⟨hb2, hb3, hbn⟩ := hdmrBasis_orders m d o X B1 B2 B3 hB
  have hN1 : 1 ≤ X.length := by
    obtain ⟨a, ha, -⟩ := hY
    omega
  have hyl : Y.length = X.length := by omega
  have hfit : ∀ k < K, (fitOn reg o maxiter B1 B2 B3 Y (hdmrRows perm X.length K X.length k)).Yem =
      (hdmrFit reg o maxiter B1 B2 B3 Y X.length).Yem.map fun v => takeIdx v (hdmrRows perm X.length K X.length k) :=
    fun k hk => fit_reorder _ X.length (hp k hk) reg o maxiter B1 B2 B3 Y hyl
      (reordersTo_of_ridge _ lambdax hlam _ _ hN1 (hp k hk) reg hreg B1 s1)
      (reordersTo_of_ridge _ lambdax hlam _ _ hN1 (hp k hk) reg hreg B2 s2)
      (reordersTo_of_ridge _ lambdax hlam _ _ hN1 (hp k hk) reg hreg B3 s3)
  have hFl : (hdmrFit reg o maxiter B1 B2 B3 Y X.length).Yem.length = hdmrN d o := by
    have e := hfit 0 (by omega)
    have := (hdmrFit_shape reg o maxiter (hdmrRows perm X.length K X.length 0).length B1 B2 B3
      (takeIdx Y (hdmrRows perm X.length K X.length 0)) (hdmrRows perm X.length K X.length 0) hb2 hb3).1
    have e' := congrArg List.length e
    rw [List.length_map] at e'
    rw [← e', ← hbn, ← this]
    rfl
  -- the indices on the sample in its own order
  obtain ⟨S0, Sa0, Sb0, hI⟩ : ∃ S0 Sa0 Sb0 : Nat → α,
      IndicesOn (hdmrN d o) Y (hdmrFit reg o maxiter B1 B2 B3 Y X.length).Yem S0 Sa0 Sb0 :=
    ⟨_, _, _, fun j _ => ⟨rfl, rfl, rfl⟩⟩
  have hk : ∀ j < hdmrN d o, ∀ k < K, S j k = S0 j ∧ Sa j k = Sa0 j ∧ Sb j k = Sb0 j := by
    intro j hj k hk
    have := h4 k hk
    rw [hfit k hk] at this
    exact indices_reorder _ X.length (hp k hk) (hdmrN d o) Y _ hFl S0 Sa0 Sb0 _ _ _ hyl hI this j hj
  have h0 := reports_same sqrt hs mult K (hdmrN d o) d (by omega) (by unfold hdmrN; omega) terms S Sa Sb r h5 (by
    intro j hj k hk'
    obtain ⟨a1, a2, a3⟩ := hk j hj k hk'
    obtain ⟨b1, b2, b3⟩ := hk j hj 0 (by omega)
    exact ⟨a1.trans b1.symm, a2.trans b2.symm, a3.trans b3.symm⟩)
  rw [h1]
  cases print with
  | true => exact ⟨dropSums r, _, rfl, h0⟩
  | false => exact ⟨r, _, rfl, h0⟩

/-! ### Examples -/

/-- There is a regularised inverse for every positive penalty. -/
theorem exists_ridgeSolver (lam : α) (hl : 0 < lam) : ∃ reg : Mat α → Mat α, RidgeSolver lam reg := by
  have key : ∀ (R w : Nat) (B : Mat α), ∃ T : Mat α, Shape w R T ∧ RidgeInverse lam R w B T := by
    intro R w B
    let b : Matrix (Fin R) (Fin w) α := fun s k => (B.getD s []).getD k 0
    let M : Matrix (Fin w) (Fin w) α := b.transpose * b + lam • (1 : Matrix (Fin w) (Fin w) α)
    have hM : ∀ (k k' : Fin w), M k k' = (∑ s ∈ range R, (B.getD s []).getD k 0 * (B.getD s []).getD k' 0) +
        if k = k' then lam else 0 := by
      intro k k'
      simp only [M, Matrix.add_apply, Matrix.mul_apply, Matrix.transpose_apply, Matrix.smul_apply, Matrix.one_apply,
        smul_eq_mul, mul_ite, mul_one, mul_zero]
      rw [← Fin.sum_univ_eq_sum_range fun s => (B.getD s []).getD k 0 * (B.getD s []).getD k' 0]
    have hdet : M.det ≠ 0 := by
      intro h0
      obtain ⟨v, hv, hz⟩ := Matrix.exists_mulVec_eq_zero_iff.mpr h0
      apply hv
      funext k
      have := ridge_zero lam hl R w (fun s k => (B.getD s []).getD k 0) (fun k => if h : k < w then v ⟨k, h⟩ else 0) (by
        intro k hk
        have h1 := congrFun hz ⟨k, hk⟩
        simp only [Matrix.mulVec, dotProduct, Pi.zero_apply, hM, add_mul, Finset.sum_add_distrib, ite_mul, zero_mul,
          Finset.sum_ite_eq, Finset.mem_univ, if_true] at h1
        rw [dif_pos hk]
        refine Eq.trans ?_ h1
        congr 1
        rw [← Fin.sum_univ_eq_sum_range fun k' => (∑ s ∈ range R, (B.getD s []).getD k 0 * (B.getD s []).getD k' 0) *
          (if h : k' < w then v ⟨k', h⟩ else 0)]
        exact Finset.sum_congr rfl fun k' _ => by rw [dif_pos k'.2]) k k.2
      simpa using this
    have hinv : M * (M⁻¹ * b.transpose) = b.transpose := by
      rw [← Matrix.mul_assoc, Matrix.mul_nonsing_inv _ (isUnit_iff_ne_zero.mpr hdet), Matrix.one_mul]
    set T := M⁻¹ * b.transpose with hT
    refine ⟨List.ofFn fun k => List.ofFn fun r => T k r, ⟨by simp, fun row hrow => ?_⟩, fun k hk r hr => ?_⟩
    · obtain ⟨k, rfl⟩ := List.mem_ofFn.mp hrow
      simp
    · have h1 := congrFun (congrFun hinv ⟨k, hk⟩) ⟨r, hr⟩
      have hTg : ∀ k' (h : k' < w), ((List.ofFn fun k => List.ofFn fun r => T k r).getD k' []).getD r 0 = T ⟨k', h⟩ ⟨r, hr⟩ := by
        intro k' h
        simp [List.getD, h, hr]
      simp only [Matrix.mul_apply, hM, add_mul, Finset.sum_add_distrib, ite_mul, zero_mul,
          Finset.sum_ite_eq, Finset.mem_univ, if_true] at h1
      rw [hTg k hk]
      refine Eq.trans ?_ h1
      congr 1
      rw [← Fin.sum_univ_eq_sum_range fun k' => (∑ s ∈ range R, (B.getD s []).getD k 0 * (B.getD s []).getD k' 0) *
          ((List.ofFn fun k => List.ofFn fun r => T k r).getD k' []).getD r 0]
      exact Finset.sum_congr rfl fun k' _ => by rw [hTg k' k'.2]
  choose f hf using key
  refine ⟨fun B => f B.length (B.getD 0 []).length B, fun R w B hR hS => ?_⟩
  have h1 : (B.getD 0 []).length = w := by
    have : 0 < B.length := by rw [hS.1]; omega
    rw [List.getD, List.getElem?_eq_getElem this]
    exact hS.2 _ (List.getElem_mem this)
  have h2 := hf B.length (B.getD 0 []).length B
  simp only []
  rw [h1, hS.1] at h2 ⊢
  exact h2

/-- Twenty fits to all 300 rows. -/
example : (∃ reg : Mat ℚ → Mat ℚ, RidgeSolver (1 / 100) reg) ∧
    hdmrSettings hdmrSampleX.length 2 hdmrSampleY.length 2 100 2 20 (some (hdmrSampleX.length : Int)) (19 / 20 : ℚ) (1 / 100) =
      .ok (hdmrSampleX.length : Int) ∧
    (∃ B1 B2 B3, hdmrBasis 2 2 2 hdmrSampleX = .ok (B1, B2, B3)) ∧
    ∃ a < hdmrSampleX.length, ∃ b < hdmrSampleX.length, hdmrSampleY.getD a 0 ≠ hdmrSampleY.getD b 0 := by
  refine ⟨exists_ridgeSolver _ (by norm_num), ?_, hdmrSample_basis, ?_⟩
  · have := hdmrSample_settings (some 300) (fun r hr => (Option.some.inj hr).symm)
    rw [hdmrSample_rows.1] at this ⊢
    exact this
  · rw [hdmrSample_rows.1]
    refine ⟨0, by norm_num, 1, by norm_num, ?_⟩
    rw [hdmrSampleY_getD 0 (by norm_num), hdmrSampleY_getD 1 (by norm_num)]
    norm_num

end SALib
