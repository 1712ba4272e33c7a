import Verif.Spec.EnhancedDriver
import Verif.Props.HdmrPrint

/-! # C123: the results of `enhanced_hdmr` as a whole -/

set_option linter.unusedSectionVars false

namespace SALib

open Spec Finset

variable {α : Type} [Field α] [LinearOrder α] [IsStrictOrderedRing α]

theorem ehSubset_iff (N : Nat) (hN : 300 ≤ N) (K : Nat) (subset : Option Nat) (s : Int) :
    ehSubset N N K (subset.map fun r : Nat => (r : Int)) = .ok s ↔
      (K ≠ 1 → ∀ r, subset = some r → 300 ≤ r ∧ r ≤ N) ∧ s = ((if K = 1 then N else subset.getD (N / 2) : Nat) : Int) := by
  unfold ehSubset
  by_cases hK : K = 1
  · subst hK
    simp only [ne_eq, not_true_eq_false, false_implies, true_and, if_true]
    have e : (if ((1 : Nat) : Int) = 1 ∧ ¬(subset.map fun r : Nat => (r : Int)) = some (N : Int) then some (N : Int)
        else subset.map fun r : Nat => (r : Int)) = some (N : Int) := by
      split
      · rfl
      · rename_i h
        by_contra hc
        exact h ⟨rfl, hc⟩
    rw [e]
    simp only []
    rw [if_neg (by omega)]
    exact ⟨fun h => (Except.ok.inj h).symm, fun h => by rw [h]⟩
  · rw [if_neg (by omega), if_neg hK]
    cases subset with
    | none =>
      simp only [Option.map_none, Option.getD_none]
      exact ⟨fun h => ⟨fun _ r hr => (by cases hr), (Except.ok.inj h).symm⟩, fun h => by rw [h.2]⟩
    | some r =>
      simp only [Option.map_some, Option.getD_some]
      by_cases hr : 300 ≤ r ∧ r ≤ N
      · rw [if_neg (by omega)]
        exact ⟨fun h => ⟨fun _ r' h' => by obtain rfl := Option.some.inj h'; exact hr, (Except.ok.inj h).symm⟩,
          fun h => by rw [h.2]⟩
      · rw [if_pos (by omega)]
        exact ⟨fun h => (by cases h), fun h => absurd (h.1 hK r rfl) hr⟩

/-- **C123**: the arguments accepted, and the number of rows per fit. -/
theorem C123_settings (pb : EhProblem α) (N d yRow : Nat) (xb : List (List α)) (o p K : Nat) (subset : Option Nat)
    (maxIter : Nat) (lam alpha : α) (ext : Bool) (f : List String × List (List α) × Nat) (s : Int) :
    ehCheck pb N d yRow xb o p K (subset.map fun r : Nat => (r : Int)) maxIter lam alpha ext = .ok (f, s) ↔
      EhAccepted pb N d yRow xb o p K subset maxIter lam alpha ext ∧
      f = (pb.names.getD ((List.range d).map fun i => "x_" ++ toString i), pb.bounds.getD xb, d) ∧
      s = ((if K = 1 then N else subset.getD (N / 2) : Nat) : Int) := by
  have hstep : ∀ (c : Prop) [Decidable c] (e : PyErr) (x : Py ((List String × List (List α) × Nat) × Int)),
      (if c then .error e else x) = .ok (f, s) ↔ ¬c ∧ x = .ok (f, s) := by
    intro c _ e x
    by_cases hc : c
    · simp [hc]
    · simp [hc]
  have hnames : (ehFill pb d xb).1.length = d ↔ ∀ l, pb.names = some l → l.length = d := by
    unfold ehFill
    cases pb.names with
    | none => simp
    | some l => simp
  unfold ehCheck
  rw [hstep, hstep, hstep, hstep, hstep, hstep, hstep, hstep, hstep]
  by_cases hNy : N = yRow
  swap
  · exact ⟨fun h => absurd h.2.2.2.2.2.1 (by simpa using hNy), fun h => absurd h.1.outputs.symm hNy⟩
  subst hNy
  by_cases hN : 300 ≤ N
  swap
  · exact ⟨fun h => absurd h.2.2.2.2.1 (by omega), fun h => absurd h.1.rows hN⟩
  have hs : ((do
      let s ← ehSubset N N K (subset.map fun r : Nat => (r : Int))
      if alpha < 1 / 2 ∨ alpha > 1 then .error .valueError
      else if ext = false ∧ ¬(100 ≤ (maxIter : Int) ∧ (maxIter : Int) < 1000) then .error .valueError
      else if lam < 0 ∨ lam > 10 then .error .valueError
      else return (ehFill pb d xb, s)) : Py ((List String × List (List α) × Nat) × Int)) = .ok (f, s) ↔
      ((K ≠ 1 → ∀ r, subset = some r → 300 ≤ r ∧ r ≤ N) ∧ s = ((if K = 1 then N else subset.getD (N / 2) : Nat) : Int)) ∧
      (1 / 2 ≤ alpha ∧ alpha ≤ 1) ∧ (ext = false → 100 ≤ maxIter ∧ maxIter ≤ 999) ∧ (0 ≤ lam ∧ lam ≤ 10) ∧
      f = ehFill pb d xb := by
    rw [← ehSubset_iff N hN K subset s]
    cases h : ehSubset N N K (subset.map fun r : Nat => (r : Int)) with
    | error e =>
      rw [pyBind_error]
      exact ⟨fun h => (by cases h), fun h => by cases h.1⟩
    | ok v =>
      rw [pyBind_ok, hstep, hstep, hstep, pyPure]
      constructor
      · rintro ⟨h1, h2, h3, h4⟩
        have h4 := Prod.mk.inj (Except.ok.inj h4)
        rw [not_or, not_lt, not_lt] at h1 h3
        refine ⟨by rw [h4.2], h1, fun he => ?_, h3, h4.1.symm⟩
        have := not_and_not_right.mp h2 he
        omega
      · rintro ⟨h0, h1, h2, h3, h4⟩
        rw [Except.ok.inj h0, h4]
        refine ⟨by rw [not_or, not_lt, not_lt]; exact h1, fun hc => ?_, by rw [not_or, not_lt, not_lt]; exact h3, rfl⟩
        have := h2 hc.1
        exact hc.2 (by omega)
  rw [hs]
  constructor
  · rintro ⟨h1, h2, h3, h4, h5, -, h7, h8, h9, ⟨h10, h11⟩, h12, h13, h14, h15⟩
    have hv : pb.numVars.getD d = d := not_not.mp h1
    refine ⟨⟨hv, hnames.mp (not_not.mp h2), not_not.mp h3, h4, hN, rfl, by omega, by omega, by omega, h10, h12, h13, h14⟩,
      ?_, h11⟩
    rw [h15]
    unfold ehFill
    rw [hv]
  · rintro ⟨h, hf, hs⟩
    have hff : f = ehFill pb d xb := by
      rw [hf]
      unfold ehFill
      rw [h.vars]
    have a1 := h.order
    have a2 := h.degree
    have a3 := h.fits
    have hv : (ehFill pb d xb).2.2 = d := h.vars
    have hb : (ehFill pb d xb).2.1.length = d := h.bounds
    exact ⟨not_not.mpr hv, not_not.mpr (hnames.mpr h.names), not_not.mpr hb, h.several, by omega, by simp, by omega, by omega,
      by omega, ⟨h.size, hs⟩, h.level, h.passes, h.penalty, hff⟩

/-- Rows per fit. -/
theorem ehRows_ok (N K : Nat) (subset : Option Nat) (hN : 300 ≤ N)
    (hsize : K ≠ 1 → ∀ r, subset = some r → 300 ≤ r ∧ r ≤ N) :
    150 ≤ (if K = 1 then N else subset.getD (N / 2)) ∧ (if K = 1 then N else subset.getD (N / 2)) ≤ N := by
  split
  · omega
  · rename_i hK
    cases subset with
    | none => simp only [Option.getD_none]; omega
    | some r => have := hsize hK r rfl; simp only [Option.getD_some]; omega

/-- **C123**: each fit uses that many different rows of the sample; a single fit uses all of them, in order. -/
theorem C123_rows (perm : Nat → List Nat) (pb : EhProblem α) (N d yRow : Nat) (xb : List (List α)) (o p K : Nat)
    (subset : Option Nat) (maxIter : Nat) (lam alpha : α) (ext : Bool) (f : List String × List (List α) × Nat) (R : Nat)
    (h : ehCheck pb N d yRow xb o p K (subset.map fun r : Nat => (r : Int)) maxIter lam alpha ext = .ok (f, (R : Int)))
    (hperm : ∀ k < K, (perm k).Perm (List.range N)) (k : Nat) (hk : k < K) :
    150 ≤ R ∧ R ≤ N ∧ (hdmrRows perm N K R k).length = R ∧ (hdmrRows perm N K R k).Nodup ∧
      (∀ i ∈ hdmrRows perm N K R k, i < N) ∧ (K = 1 → hdmrRows perm N K R k = List.range N) := by
  obtain ⟨ha, -, hs⟩ := (C123_settings pb N d yRow xb o p K subset maxIter lam alpha ext f R).mp h
  have hR := Int.ofNat.inj hs
  have hb := ehRows_ok N K subset ha.rows ha.size
  rw [← hR] at hb
  unfold hdmrRows
  by_cases hK : K = 1
  · rw [if_pos hK] at hR
    rw [if_pos hK]
    exact ⟨hb.1, hb.2, by rw [List.length_range, hR], List.nodup_range, fun i hi => List.mem_range.mp hi, fun _ => rfl⟩
  · rw [if_neg hK]
    have hl : (perm k).length = N := by rw [(hperm k hk).length_eq, List.length_range]
    exact ⟨hb.1, hb.2, by rw [List.length_take, hl]; omega,
      ((hperm k hk).nodup_iff.mpr List.nodup_range).sublist (List.take_sublist _ _),
      fun i hi => List.mem_range.mp ((hperm k hk).mem_iff.mp (List.mem_of_mem_take hi)), fun h => absurd h hK⟩

/-! ### The values of the terms -/

theorem colSlice_sum (b x : List α) (s e : Nat) :
    (colSlice (List.zipWith (· * ·) b x) s e).sum = ∑ k ∈ range (e - s), b.getD (s + k) 0 * x.getD (s + k) 0 := by
  have hz : ∀ i, (List.zipWith (· * ·) b x).getD i 0 = b.getD i 0 * x.getD i 0 := by
    intro i
    simp only [List.getD, List.getElem?_zipWith]
    cases b[i]? <;> cases x[i]? <;> simp
  generalize hl : List.zipWith (· * ·) b x = l at hz
  simp only [← hz]
  clear hz hl
  unfold colSlice
  rw [list_sum_getD]
  have hlen : ((l.take e).drop s).length ≤ e - s := by simp; omega
  rw [← Finset.sum_subset (Finset.range_mono hlen)]
  · refine Finset.sum_congr rfl fun i hi => ?_
    have hi := mem_range.mp hi
    simp only [List.length_drop, List.length_take] at hi
    simp only [List.getD, List.getElem?_drop, List.getElem?_take]
    rw [if_pos (by omega)]
  · intro i h1 h2
    have h1 := mem_range.mp h1
    have h2 : ¬ i < _ := fun h => h2 (mem_range.mpr h)
    simp only [List.length_drop, List.length_take] at h2
    rw [List.getD, List.getElem?_eq_none (by omega)]
    rfl

theorem columnsOf_eq (d p : Nat) (ext : Bool) (j : Nat) (hj : d ≤ j) : columnsOf d p ext j = (ehNt p 2 ext).2.1 := by
  unfold columnsOf ehNt
  rw [if_neg (by omega)]
  rfl

theorem firstColumn_low (d p : Nat) (ext : Bool) (j : Nat) (hj : j ≤ d) : firstColumn d p ext j = j * p := by
  unfold firstColumn
  rw [Finset.sum_congr rfl fun i hi => show columnsOf d p ext i = p by
    unfold columnsOf; rw [if_pos (by have := mem_range.mp hi; omega)]]
  simp

theorem firstColumn_high (d p : Nat) (ext : Bool) (i : Nat) :
    firstColumn d p ext (d + i) = p * d + i * (ehNt p 2 ext).2.1 := by
  induction i with
  | zero => rw [Nat.add_zero, firstColumn_low d p ext d le_rfl]; ring
  | succ i ih =>
    have : firstColumn d p ext (d + (i + 1)) = firstColumn d p ext (d + i) + columnsOf d p ext (d + i) := by
      unfold firstColumn
      rw [← add_assoc, Finset.sum_range_succ]
    rw [this, ih, columnsOf_eq d p ext _ (by omega)]
    ring

/-- The component functions of order 2 are the values of the terms. -/
theorem ehComp_getD (d p : Nat) (ext : Bool) (B : Mat α) (x : List α) (j r : Nat) (hj : j < hdmrN d 2) :
    (ehComp d p 2 ext (B.getD r []) x).getD j 0 = termValue d p ext B x j r := by
  have hn : hdmrN d 2 = d + (ehNc d 2).2.1 := by
    have := congrArg (fun t => t.2.1) (ehNc_eq d 2)
    simp only [] at this
    unfold hdmrN
    rw [this]
    simp [hdmrC3]
  have hnc : (ehNc d 2).1 = d := rfl
  have hnt : (ehNt p 2 ext).1 = p := rfl
  unfold ehComp termValue
  simp only [hnc, hnt]
  rw [if_pos (by norm_num), if_neg (by norm_num), List.append_nil]
  by_cases h : j < d
  · rw [List.getD, List.getElem?_append_left (by simpa using h), List.getElem?_map, List.getElem?_range h]
    simp only [Option.map_some, Option.getD_some]
    rw [colSlice_sum, firstColumn_low d p ext j h.le]
    have e : (j + 1) * p - j * p = columnsOf d p ext j := by
      unfold columnsOf; rw [if_pos h, Nat.add_mul]; omega
    rw [e]
  · obtain ⟨i, rfl⟩ := Nat.exists_eq_add_of_le (not_lt.mp h)
    have hi : i < (ehNc d 2).2.1 := by omega
    rw [List.getD, List.getElem?_append_right (by simp), List.getElem?_map]
    simp only [List.length_map, List.length_range, Nat.add_sub_cancel_left]
    rw [List.getElem?_range hi]
    simp only [Option.map_some, Option.getD_some]
    rw [colSlice_sum, firstColumn_high]
    have e : p * d + (i + 1) * (ehNt p 2 ext).2.1 - (p * d + i * (ehNt p 2 ext).2.1) = columnsOf d p ext (d + i) := by
      rw [columnsOf_eq d p ext _ (by omega), Nat.add_mul]; omega
    rw [e]

theorem ehColumns_getD (d p : Nat) (ext : Bool) (B : Mat α) (x : List α) (j r : Nat) (hj : j < hdmrN d 2)
    (hr : r < B.length) : ((ehColumns d p 2 ext B x).getD j []).getD r 0 = termValue d p ext B x j r := by
  rw [← ehComp_getD d p ext B x j r hj]
  have hn : (ehNc d 2).1 + (ehNc d 2).2.1 + (ehNc d 2).2.2 = hdmrN d 2 := by rw [ehNc_eq]; rfl
  unfold ehColumns
  rw [hn]
  simp [List.getD, hj, hr]

theorem centre_getD (y : List α) (i : Nat) (hi : i < y.length) :
    (centre y).getD i 0 = y.getD i 0 + -(y.sum / (y.length : α)) := by
  simp [centre, List.getD, hi, sub_eq_add_neg]

theorem takeIdx_get (Y : List α) (idx : List Nat) (i : Nat) (hi : i < idx.length) :
    (takeIdx Y idx).getD i 0 = Y.getD (idx.getD i 0) 0 := by
  simp [takeIdx, List.getD, hi]

/-- A fit with the solution `x`: the indices stored for every term. -/
theorem ehPass_indices (d p : Nat) (ext : Bool) (B : Mat α) (Y : List α)
    (idx : List Nat) (x : List α) (h2 : 2 ≤ idx.length)
    (hY : ∃ a ∈ idx, ∃ b ∈ idx, Y.getD a 0 ≠ Y.getD b 0) :
    ∃ S Sa Sb : Nat → α,
      ShareOn (hdmrN d 2) idx.length (fun r => Y.getD (idx.getD r 0) 0) (termValue d p ext (pickRows idx B) x) S Sa Sb ∧
      ∀ j < hdmrN d 2, ehAncova (centre (takeIdx Y idx)) (ehColumns d p 2 ext (pickRows idx B) x) j =
        (some (S j), some (Sa j), some (Sb j)) := by
  set y := centre (takeIdx Y idx) with hy
  set R := idx.length with hR
  set F := termValue d p ext (pickRows idx B) x with hF
  set Ye := ehColumns d p 2 ext (pickRows idx B) x with hYe
  have hn : (ehNc d 2).1 + (ehNc d 2).2.1 + (ehNc d 2).2.2 = hdmrN d 2 := by rw [ehNc_eq]; rfl
  have hl : y.length = R := by simp [hy, centre, takeIdx, hR]
  have hlen : Ye.length = hdmrN d 2 := by rw [hYe, ehColumns, hn]; simp
  have hcol : ∀ c ∈ Ye, c.length = R := by
    intro c hc
    rw [hYe, ehColumns] at hc
    obtain ⟨j, -, rfl⟩ := List.mem_map.mp hc
    rw [List.length_map, pickRows_length]
  have hget : ∀ j < hdmrN d 2, ∀ r < R, (Ye.getD j []).getD r 0 = F j r := fun j hj r hr => by
    rw [hYe, ehColumns_getD d p ext _ x j r hj (by rw [pickRows_length]; exact hr)]
  set c := -((takeIdx Y idx).sum / ((takeIdx Y idx).length : α)) with hc
  have hyg : ∀ r < R, y.getD r 0 = Y.getD (idx.getD r 0) 0 + c := fun r hr => by
    rw [hy, centre_getD _ r (by simp [takeIdx]; exact hr), takeIdx_get Y idx r hr]
  have hdev : ∀ f : Nat → α, devSum R f (fun r => y.getD r 0) = devSum R f (fun r => Y.getD (idx.getD r 0) 0) := fun f => by
    rw [← devSum_shift_right R f (fun r => Y.getD (idx.getD r 0) 0) c]
    exact devSum_congr R _ _ _ _ (fun _ _ => rfl) hyg
  have hdev2 : devSum R (fun r => y.getD r 0) (fun r => y.getD r 0) =
      devSum R (fun r => Y.getD (idx.getD r 0) 0) (fun r => Y.getD (idx.getD r 0) 0) := by
    rw [hdev, devSum_comm, hdev]
  have hpos : 0 < devSum R (fun r => y.getD r 0) (fun r => y.getD r 0) := by
    rw [hdev2]
    obtain ⟨a, ha, b, hb, hab⟩ := hY
    obtain ⟨q, hq, rfl⟩ := List.mem_iff_getElem.mp ha
    obtain ⟨q', hq', rfl⟩ := List.mem_iff_getElem.mp hb
    exact devSum_self_pos R _ q q' hq hq' (by simpa [List.getD, hq, hq'] using hab)
  have hRpos : (0 : α) < (R : α) := by exact_mod_cast (by omega : 0 < R)
  have hV := npVar_devSum y R hl (by omega)
  have hV0 : devSum R (fun r => y.getD r 0) (fun r => y.getD r 0) / (R : α) ≠ 0 := (div_pos hpos hRpos).ne'
  have hanc := fun (j : Nat) (hj : j < hdmrN d 2) =>
    ehAncova_eq y Ye _ j (by omega) (fun c hc => by rw [hl]; exact hcol c hc) hV hV0 (by rw [hlen]; exact hj)
  refine ⟨fun j => (ehAncova y Ye j).1.getD 0, fun j => (ehAncova y Ye j).2.1.getD 0, fun j => (ehAncova y Ye j).2.2.getD 0,
    ?_, ?_⟩
  · intro j hj
    beta_reduce
    rw [hanc j hj]
    simp only [Option.getD_some, hl, hlen]
    refine ⟨?_, ?_, ?_⟩
    · rw [hdev2, hdev, devSum_congr R _ (F j) _ _ (hget j hj) fun _ _ => rfl]
    · rw [hdev2, devSum_congr R _ (F j) _ (F j) (hget j hj) (hget j hj)]
    · rw [hdev2, devSum_congr R _ (F j) _ (fun r => ∑ l ∈ (range (hdmrN d 2)).erase j, F l r) (hget j hj) fun r hr => ?_]
      rw [Finset.sum_erase_eq_sub (Finset.mem_range.mpr hj), hget j hj r hr]
      congr 1
      exact Finset.sum_congr rfl fun l hl => hget l (mem_range.mp hl) r hr
  · intro j hj
    beta_reduce
    rw [hanc j hj]
    rfl

/-! ### The analysis -/

theorem ehPass_eq (solve : Mat α → List α → Py (List α)) (morph : Mat α → List α → Py (List α))
    (fppf : Nat → Nat → Option α) (subset d p o : Nat) (lam : α) (maxIter : Nat) (ext : Bool) (B : Mat α) (Y : List α)
    (idx : List Nat) (pass : HdmrPass α)
    (h : ehPass solve morph fppf subset d p o lam maxIter ext B Y idx = .ok pass) :
    ∃ x, ehSolution solve morph subset d p o lam maxIter ext (pickRows idx B) (centre (takeIdx Y idx)) = .ok x ∧
      pass = { indices := (List.range (hdmrN d o)).map
                 (ehAncova (centre (takeIdx Y idx)) (ehColumns d p o ext (pickRows idx B) x))
               select := ehFTest fppf (centre (takeIdx Y idx)) (ehColumns d p o ext (pickRows idx B) x) subset d p o ext } := by
  have hn : (ehNc d o).1 + (ehNc d o).2.1 + (ehNc d o).2.2 = hdmrN d o := by rw [ehNc_eq]; rfl
  unfold ehPass at h
  simp only [] at h
  obtain ⟨x, hx, h⟩ := pyBind_inv _ _ _ h
  refine ⟨x, hx, ?_⟩
  rw [← hn]
  exact (Except.ok.inj h).symm

theorem ehPass_of (solve : Mat α → List α → Py (List α)) (morph : Mat α → List α → Py (List α))
    (fppf : Nat → Nat → Option α) (subset d p o : Nat) (lam : α) (maxIter : Nat) (ext : Bool) (B : Mat α) (Y : List α)
    (idx : List Nat) (x : List α)
    (h : ehSolution solve morph subset d p o lam maxIter ext (pickRows idx B) (centre (takeIdx Y idx)) = .ok x) :
    ehPass solve morph fppf subset d p o lam maxIter ext B Y idx =
      .ok { indices := (List.range (hdmrN d o)).map
              (ehAncova (centre (takeIdx Y idx)) (ehColumns d p o ext (pickRows idx B) x))
            select := ehFTest fppf (centre (takeIdx Y idx)) (ehColumns d p o ext (pickRows idx B) x) subset d p o ext } := by
  have hn : (ehNc d o).1 + (ehNc d o).2.1 + (ehNc d o).2.2 = hdmrN d o := by rw [ehNc_eq]; rfl
  unfold ehPass
  simp only []
  rw [h, pyBind_ok, hn]
  rfl

theorem mapM_range_inv {β : Type} (f : Nat → Py β) (K : Nat) (r : List β) (h : (List.range K).mapM f = .ok r) (k : Nat)
    (hk : k < K) : ∃ b, r[k]? = some b ∧ f k = .ok b := by
  have h2 := (mapM_ok_iff _ _ _).mp h
  have hl := h2.length_eq
  rw [List.length_range] at hl
  refine ⟨r[k]'(by omega), List.getElem?_eq_getElem _, ?_⟩
  simpa using h2.get (i := k) (by simpa using hk) (by omega)

/-- **C123**: only order 2 ever gives a result; for order 2 there is one exactly when the arguments are accepted, the
columns of the basis exist and every fit succeeds. -/
theorem C123_finishes (sqrt : α → α) (mult : α) (solve : Mat α → List α → Py (List α))
    (morph : Mat α → List α → Py (List α)) (fppf : Nat → Nat → Option α) (perm : Nat → List Nat)
    (first : Mat α → Py (Mat α)) (pb : EhProblem α) (X : Mat α) (d : Nat) (xb : List (List α)) (Y : List α) (o p K : Nat)
    (subset : Option Nat) (maxIter : Nat) (lam alpha : α) (ext print : Bool) (hd : 0 < d) :
    (∃ r, ehAnalyze sqrt mult solve morph fppf perm first pb X d xb Y o p K (subset.map fun r : Nat => (r : Int)) maxIter
        lam alpha ext print = .ok r) ↔
      o = 2 ∧ EhAccepted pb X.length d Y.length xb o p K subset maxIter lam alpha ext ∧
      ∃ cols, first X = .ok cols ∧ ∀ k < K, ∃ x, ehSolution solve morph (if K = 1 then X.length else subset.getD (X.length / 2))
        d p o lam maxIter ext
        (pickRows (hdmrRows perm X.length K (if K = 1 then X.length else subset.getD (X.length / 2)) k)
          (cols.map (ehBasisRow p d o ext)))
        (centre (takeIdx Y (hdmrRows perm X.length K (if K = 1 then X.length else subset.getD (X.length / 2)) k))) =
          .ok x := by
  set R := if K = 1 then X.length else subset.getD (X.length / 2) with hR
  have htot : ∀ o', o' ≠ 2 → ∀ term SA signf (r : HdmrResult α), ehFinalize sqrt mult term d o' SA signf ≠ .ok r := by
    intro o' ho' term SA signf r h
    unfold ehFinalize at h
    simp only [] at h
    obtain ⟨rows, hrows, -⟩ := pyBind_inv _ _ _ h
    obtain ⟨n, rfl⟩ : ∃ n, d = n + 1 := ⟨d - 1, by omega⟩
    rw [List.range_succ_eq_map, List.mapM_cons] at hrows
    obtain ⟨v, hv, -⟩ := pyBind_inv _ _ _ hrows
    unfold ehTotalRows at hv
    by_cases h1 : o' = 1
    · rw [if_pos h1] at hv; cases hv
    · rw [if_neg h1, if_neg ho'] at hv; cases hv
  constructor
  · rintro ⟨r, h⟩
    unfold ehAnalyze at h
    obtain ⟨⟨f, s⟩, hchk, h⟩ := pyBind_inv _ _ _ h
    simp only [] at h
    obtain ⟨term, -, h⟩ := pyBind_inv _ _ _ h
    obtain ⟨cols, hcols, h⟩ := pyBind_inv _ _ _ h
    obtain ⟨passes, hp, h⟩ := pyBind_inv _ _ _ h
    obtain ⟨res, hres, -⟩ := pyBind_inv _ _ _ h
    obtain ⟨ha, -, hs⟩ := (C123_settings pb _ d _ xb o p K subset maxIter lam alpha ext f s).mp hchk
    rw [hs, Int.toNat_natCast, ← hR] at hp
    refine ⟨by_contra fun ho => htot o ho _ _ _ _ hres, ha, cols, hcols, fun k hk => ?_⟩
    obtain ⟨pass, hpass⟩ := mapM_range_inv _ K passes hp k hk
    obtain ⟨x, hx, -⟩ := ehPass_eq _ _ _ _ _ _ _ _ _ _ _ _ _ _ hpass.2
    exact ⟨x, hx⟩
  · rintro ⟨rfl, ha, cols, hcols, hfit⟩
    have hchk := (C123_settings pb X.length d Y.length xb 2 p K subset maxIter lam alpha ext _ _).mpr ⟨ha, rfl, rfl⟩
    rw [← hR] at hchk
    have hnl : (pb.names.getD ((List.range d).map fun i => "x_" ++ toString i)).length = d := by
      cases h : pb.names with
      | none => simp
      | some l => simpa [h] using ha.names l h
    unfold ehAnalyze
    rw [hchk, pyBind_ok]
    simp only [Int.toNat_natCast]
    rw [ehLabels_eq _ d 2 hnl, pyBind_ok, hcols, pyBind_ok]
    obtain ⟨passes, hpasses, -⟩ := mapM_exists_ok (fun k => ehPass solve morph fppf R d p 2 lam maxIter ext
      (cols.map (ehBasisRow p d 2 ext)) Y (hdmrRows perm X.length K R k)) (List.range K) fun k hk => by
        obtain ⟨x, hx⟩ := hfit k (List.mem_range.mp hk)
        exact ⟨_, ehPass_of _ _ _ _ _ _ _ _ _ _ _ _ _ _ hx⟩
    rw [hpasses, pyBind_ok]
    unfold ehFinalize
    simp only []
    rw [mapM_ok_of (ehTotalRows d 2) (hdmrTotalRows d 2) _ fun r _ => rfl]
    exact ⟨_, rfl⟩

/-- **C123**: the result of an analysis that finishes.  Every fit has a solution; with the values of the terms it gives, the
indices of the fit are shares of the variance of the output on its rows; the report has their averages and spreads, the
totals of the inputs, the sums, and the percentage of the fits in which a term passed the test. -/
theorem C123_results (sqrt : α → α) (hs : sqrt 0 = 0) (mult : α) (solve : Mat α → List α → Py (List α))
    (morph : Mat α → List α → Py (List α)) (fppf : Nat → Nat → Option α) (perm : Nat → List Nat)
    (first : Mat α → Py (Mat α)) (pb : EhProblem α) (X : Mat α) (d : Nat) (xb : List (List α)) (Y : List α) (o p K : Nat)
    (subset : Option Nat) (maxIter : Nat) (lam alpha : α) (ext print : Bool) (hd : 0 < d)
    (res : HdmrResult α × Option (HdmrPrint α))
    (h : ehAnalyze sqrt mult solve morph fppf perm first pb X d xb Y o p K (subset.map fun r : Nat => (r : Int)) maxIter
        lam alpha ext print = .ok res)
    (hperm : ∀ k < K, (perm k).Perm (List.range X.length))
    (R : Nat) (hR : R = if K = 1 then X.length else subset.getD (X.length / 2))
    (hY : ∀ k < K, ∃ a ∈ hdmrRows perm X.length K R k, ∃ b ∈ hdmrRows perm X.length K R k, Y.getD a 0 ≠ Y.getD b 0) :
    ∃ cols terms r, ∃ x : Nat → List α, ∃ S Sa Sb : Nat → Nat → α, first X = .ok cols ∧
      res = (if print then (dropSums r, some (ehPrint r)) else (r, none)) ∧
      terms.length = hdmrN d 2 ∧
      GoodTerms (pb.names.getD ((List.range d).map fun i => "x_" ++ toString i)) d 2 terms r.term (hdmrTotalRows d 2) ∧
      (∀ k < K, ehSolution solve morph R d p 2 lam maxIter ext
          (pickRows (hdmrRows perm X.length K R k) (cols.map (ehBasisRow p d 2 ext)))
          (centre (takeIdx Y (hdmrRows perm X.length K R k))) = .ok (x k) ∧
        ShareOn (hdmrN d 2) R (fun i => Y.getD ((hdmrRows perm X.length K R k).getD i 0) 0)
          (termValue d p ext (pickRows (hdmrRows perm X.length K R k) (cols.map (ehBasisRow p d 2 ext))) (x k))
          (S · k) (Sa · k) (Sb · k)) ∧
      HdmrReports sqrt mult K (hdmrN d 2) d terms S Sa Sb r ∧ r.sums = some (HdmrSumsOf K (hdmrN d 2) S Sa Sb) ∧
      r.marks.length = hdmrN d 2 ∧
      ∀ j < hdmrN d 2, r.marks[j]? = some (some (100 * (((List.range K).filter fun k =>
        (ehFTest fppf (centre (takeIdx Y (hdmrRows perm X.length K R k)))
          (ehColumns d p 2 ext (pickRows (hdmrRows perm X.length K R k) (cols.map (ehBasisRow p d 2 ext))) (x k))
          R d p 2 ext).getD j false).length : α) / (K : α))) := by
  obtain ⟨rfl, ha, -⟩ := (C123_finishes sqrt mult solve morph fppf perm first pb X d xb Y o p K subset maxIter lam alpha ext
    print hd).mp ⟨res, h⟩
  have hnl : (pb.names.getD ((List.range d).map fun i => "x_" ++ toString i)).length = d := by
    cases hn : pb.names with
    | none => simp
    | some l => simpa [hn] using ha.names l hn
  have hb := ehRows_ok X.length K subset ha.rows ha.size
  rw [← hR] at hb
  have hchk := (C123_settings pb X.length d Y.length xb 2 p K subset maxIter lam alpha ext _ _).mpr ⟨ha, rfl, rfl⟩
  rw [← hR] at hchk
  have hrows := fun k hk => C123_rows perm pb X.length d Y.length xb 2 p K subset maxIter lam alpha ext _ R hchk hperm k hk
  unfold ehAnalyze at h
  rw [hchk, pyBind_ok] at h
  simp only [Int.toNat_natCast] at h
  obtain ⟨term, hterm, h⟩ := pyBind_inv _ _ _ h
  obtain ⟨cols, hcols, h⟩ := pyBind_inv _ _ _ h
  obtain ⟨passes, hp, h⟩ := pyBind_inv _ _ _ h
  obtain ⟨r, hr, h⟩ := pyBind_inv _ _ _ h
  set idx := fun k => hdmrRows perm X.length K R k with hidx
  set B := cols.map (ehBasisRow p d 2 ext) with hB
  have hpl : passes.length = K := by rw [((mapM_ok_iff _ _ _).mp hp).length_eq.symm, List.length_range]
  have hx : ∀ k, ∃ x : List α, k < K → ehSolution solve morph R d p 2 lam maxIter ext (pickRows (idx k) B)
      (centre (takeIdx Y (idx k))) = .ok x ∧ passes[k]? = some
        { indices := (List.range (hdmrN d 2)).map
            (ehAncova (centre (takeIdx Y (idx k))) (ehColumns d p 2 ext (pickRows (idx k) B) x))
          select := ehFTest fppf (centre (takeIdx Y (idx k))) (ehColumns d p 2 ext (pickRows (idx k) B) x) R d p 2 ext } := by
    intro k
    by_cases hk : k < K
    · obtain ⟨pass, hk1, hk2⟩ := mapM_range_inv _ K passes hp k hk
      obtain ⟨x, hx, rfl⟩ := ehPass_eq _ _ _ _ _ _ _ _ _ _ _ _ _ _ hk2
      exact ⟨x, fun _ => ⟨hx, hk1⟩⟩
    · exact ⟨[], fun h => absurd h hk⟩
  choose x hx using hx
  have hst : ∀ k, ∃ S Sa Sb : Nat → α, k < K →
      ShareOn (hdmrN d 2) R (fun i => Y.getD ((idx k).getD i 0) 0) (termValue d p ext (pickRows (idx k) B) (x k)) S Sa Sb ∧
      ∀ j < hdmrN d 2, ehAncova (centre (takeIdx Y (idx k))) (ehColumns d p 2 ext (pickRows (idx k) B) (x k)) j =
        (some (S j), some (Sa j), some (Sb j)) := by
    intro k
    by_cases hk : k < K
    · have hl := (hrows k hk).2.2.1
      obtain ⟨S, Sa, Sb, h1, h2⟩ := ehPass_indices d p ext B Y (idx k) (x k) (by rw [hl]; omega) (hY k hk)
      rw [hl] at h1
      exact ⟨S, Sa, Sb, fun _ => ⟨h1, h2⟩⟩
    · exact ⟨fun _ => 0, fun _ => 0, fun _ => 0, fun h => absurd h hk⟩
  choose S Sa Sb hS using hst
  have hpasses : passes = (List.range K).map fun k =>
      { indices := (List.range (hdmrN d 2)).map (stored (fun j k => S k j) (fun j k => Sa k j) (fun j k => Sb k j) k)
        select := ehFTest fppf (centre (takeIdx Y (idx k))) (ehColumns d p 2 ext (pickRows (idx k) B) (x k)) R d p 2 ext } := by
    apply List.ext_getElem?
    intro k
    by_cases hk : k < K
    · rw [((hx k) hk).2, List.getElem?_map, List.getElem?_range hk, Option.map_some]
      congr 2
      exact List.map_congr_left fun j hj => ((hS k) hk).2 j (List.mem_range.mp hj)
    · rw [List.getElem?_eq_none (by omega), List.getElem?_eq_none (by simp; omega)]
  have hSA : passes.map (·.indices) = storedAll K (hdmrN d 2) (fun j k => S k j) (fun j k => Sa k j) (fun j k => Sb k j) := by
    rw [hpasses, List.map_map]
    rfl
  obtain ⟨terms, labels, r', hl', hr', ht, hgood, hrep, hsums, hml, hmarks⟩ := C104_enhanced sqrt hs mult
    (pb.names.getD ((List.range d).map fun i => "x_" ++ toString i)) d K (fun j k => S k j) (fun j k => Sa k j)
    (fun j k => Sb k j) (passes.map (·.select)) hnl ha.fits.1 (by rw [List.length_map, hpl])
  rw [hterm] at hl'
  obtain rfl := Except.ok.inj hl'
  rw [hSA, hr'] at hr
  obtain rfl := Except.ok.inj hr
  refine ⟨cols, terms, r', x, fun j k => S k j, fun j k => Sa k j, fun j k => Sb k j, hcols, (Except.ok.inj h).symm, ht, hgood,
    fun k hk => ⟨((hx k) hk).1, ((hS k) hk).1⟩, hrep, hsums, hml, fun j hj => ?_⟩
  rw [hmarks j hj, hpasses, List.map_map]
  congr 5
  rw [List.filter_map, List.length_map]
  rfl

end SALib
