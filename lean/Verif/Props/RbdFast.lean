import Verif.Model.RbdFast
import Verif.Lemmas.ListAux
import Verif.Lemmas.Fourier
import Verif.Props.FastVariance

/-! # RBD-FAST (C42, C43) -/

namespace SALib
open Spec

theorem strided_two_zero {β : Type} (x y : β) (l : List β) :
    strided (x :: y :: l) 0 2 = x :: strided l 0 2 := by
  unfold strided
  rw [show ((x :: y :: l).length - 0 + 2 - 1) / 2 = (l.length - 0 + 2 - 1) / 2 + 1 by
    simp only [List.length_cons]; omega, List.range'_succ, List.filterMap_cons]
  simp only [List.getElem?_cons_zero]
  congr 1
  rw [show (0 + 2 : Nat) = 2 + 0 from rfl, ← List.map_add_range', List.filterMap_map]
  apply List.filterMap_congr
  intro i _
  simp only [Function.comp]
  rw [show 2 + i = i + 1 + 1 by omega]; rfl

theorem strided_two_one {β : Type} (x y : β) (l : List β) :
    strided (x :: y :: l) 1 2 = y :: strided l 1 2 := by
  unfold strided
  rw [show ((x :: y :: l).length - 1 + 2 - 1) / 2 = (l.length - 1 + 2 - 1) / 2 + 1 by
    simp only [List.length_cons]; omega, List.range'_succ, List.filterMap_cons]
  simp only [List.getElem?_cons_succ, List.getElem?_cons_zero]
  congr 1
  rw [show (1 + 2 : Nat) = 2 + 1 from rfl, ← List.map_add_range', List.filterMap_map]
  apply List.filterMap_congr
  intro i _
  simp only [Function.comp]
  rw [show 2 + i = i + 1 + 1 by omega]; rfl

theorem strided_two_facts {β : Type} : ∀ l : List β,
    (strided l 0 2 ++ strided l 1 2).Perm l ∧ (strided l 0 2).Sublist l ∧ (strided l 1 2).Sublist l ∧
    (∀ k : Nat, (strided l 0 2)[k]? = l[2 * k]?) ∧ (∀ k : Nat, (strided l 1 2)[k]? = l[2 * k + 1]?) ∧
    (strided l 0 2).length = (l.length + 1) / 2 ∧ (strided l 1 2).length = l.length / 2
  | [] => by simp [strided]
  | [x] => by
    simp only [strided, List.length_cons, List.length_nil]
    refine ⟨by simp, by simp, by simp, ?_, ?_, by simp, by simp⟩
    · rintro (_ | k)
      · simp
      · rw [show 2 * (k + 1) = 2 * k + 1 + 1 by ring]; simp
    · intro k; simp
  | x :: y :: l => by
    obtain ⟨h1, h2, h3, h4, h5, h6, h7⟩ := strided_two_facts l
    rw [strided_two_zero, strided_two_one]
    refine ⟨?_, ?_, ?_, ?_, ?_, ?_, ?_⟩
    · rw [List.cons_append]
      refine List.Perm.cons x ?_
      exact List.perm_middle.trans (h1.cons y)
    · exact List.Sublist.cons₂ x (h2.cons y)
    · exact (List.Sublist.cons₂ y h3).cons x
    · rintro (_ | k)
      · simp
      · rw [show 2 * (k + 1) = 2 * k + 1 + 1 by ring]
        simp only [List.getElem?_cons_succ]; exact h4 k
    · rintro (_ | k)
      · simp
      · rw [show 2 * (k + 1) + 1 = (2 * k + 1) + 1 + 1 by ring]
        simp only [List.getElem?_cons_succ]; exact h5 k
    · simp only [List.length_cons, h6]; omega
    · simp only [List.length_cons, h7]; omega

/-- `p` is a sorting permutation of `X`: what `np.argsort` delivers (ties in any order). -/
structure Spec.IsArgsort (X : List ℝ) (p : List Nat) : Prop where
  perm : p.Perm (List.range X.length)
  sorted : (p.map fun i => X.getD i 0).Pairwise (· ≤ ·)

theorem map_getD_perm {β : Type} (d : β) (Y : List β) (σ : List Nat) (h : σ.Perm (List.range Y.length)) :
    (σ.map fun i => Y.getD i d).Perm Y := by
  refine (h.map _).trans ?_
  have : (List.range Y.length).map (fun i => Y.getD i d) = Y := by
    apply List.ext_getElem
    · simp
    · intro n h1 h2
      have : n < Y.length := by simpa using h1
      simp [this]
  rw [this]

/-- **C42.** The reordering is one permutation of the row numbers, the same for any outputs: nothing is
lost or repeated.  Along it the parameter values first rise and then fall; more precisely, with `v` the
sorted values, position `k` of the first half holds `v[2k]` and position `k` from the end `v[2k+1]`. -/
theorem C42_reorder (argsort : List ℝ → List Nat) (X : List ℝ) (hp : IsArgsort X (argsort X)) :
    ∃ up down : List Nat, (up ++ down).Perm (List.range X.length) ∧
      up.length = (X.length + 1) / 2 ∧
      (up.map fun i => X.getD i 0).Pairwise (· ≤ ·) ∧
      (down.map fun i => X.getD i 0).Pairwise (· ≥ ·) ∧
      (∃ v : List ℝ, v.Perm X ∧ v.Pairwise (· ≤ ·) ∧
        (∀ k : Nat, (up.map fun i => X.getD i 0)[k]? = v[2 * k]?) ∧
        (∀ k : Nat, (down.map fun i => X.getD i 0).reverse[k]? = v[2 * k + 1]?)) ∧
      ∀ (β : Type) (Y : List β), Y.length = X.length →
        ∃ Z, permuteOutputs argsort X Y = .ok Z ∧ Z.Perm Y ∧
          ∀ k i : Nat, (up ++ down)[k]? = some i → Z[k]? = Y[i]? := by
  obtain ⟨h1, h2, h3, h4, h5, h6, h7⟩ := strided_two_facts (argsort X)
  have hlen : (argsort X).length = X.length := by simpa using hp.perm.length_eq
  have hperm : (strided (argsort X) 0 2 ++ (strided (argsort X) 1 2).reverse).Perm
      (List.range X.length) :=
    ((List.Perm.append_left _ (List.reverse_perm _)).trans h1).trans hp.perm
  refine ⟨strided (argsort X) 0 2, (strided (argsort X) 1 2).reverse, hperm, ?_, ?_, ?_, ?_, ?_⟩
  · rw [h6, hlen]
  · exact hp.sorted.sublist (h2.map _)
  · rw [List.map_reverse, List.pairwise_reverse]
    exact hp.sorted.sublist (h3.map _)
  · refine ⟨(argsort X).map fun i => X.getD i 0, map_getD_perm 0 X _ hp.perm, hp.sorted, ?_, ?_⟩
    · intro k
      rw [List.getElem?_map, List.getElem?_map, h4]
    · intro k
      rw [List.map_reverse, List.reverse_reverse, List.getElem?_map, List.getElem?_map, h5]
  · intro β Y hY
    have hmem : ∀ i ∈ strided (argsort X) 0 2 ++ (strided (argsort X) 1 2).reverse, i < Y.length := by
      intro i hi
      have := hperm.mem_iff.mp hi
      rw [List.mem_range] at this; omega
    cases Y with
    | nil =>
      have hX : X.length = 0 := by simpa using hY.symm
      rw [hX, List.range_zero] at hperm
      have hnil := hperm.eq_nil
      refine ⟨[], ?_, List.Perm.refl _, ?_⟩
      · unfold permuteOutputs; simp only [hnil]; rfl
      · rw [hnil]; intro k i h; simp at h
    | cons d Y =>
      refine ⟨(strided (argsort X) 0 2 ++ (strided (argsort X) 1 2).reverse).map
        fun i => (d :: Y).getD i d, ?_, ?_, ?_⟩
      · unfold permuteOutputs
        apply mapM_ok_of
        intro i hi
        rw [pyGet_ok _ _ (hmem i hi)]
        simp [List.getD, List.getElem?_eq_getElem (hmem i hi)]
      · exact map_getD_perm d _ _ (by rw [hY]; exact hperm)
      · intro k i hki
        have hi := hmem i (List.mem_of_getElem? hki)
        rw [List.getElem?_map, hki]
        simp [List.getD, List.getElem?_eq_getElem hi]

/-- A sorting permutation of a vector with a tie, and the resulting order. -/
example : IsArgsort [3, 1, 2, 1] [1, 3, 2, 0] ∧
    permuteOutputs (fun _ : List ℝ => [1, 3, 2, 0]) [3, 1, 2, 1] ["a", "b", "c", "d"] =
      .ok ["b", "c", "a", "d"] := by
  refine ⟨⟨by decide, by norm_num⟩, rfl⟩

/-! ### The index -/

theorem periodogram_drop (y : List ℝ) :
    (periodogram y).drop 1 = (List.range' 1 (y.length / 2)).map fun k =>
      (if 2 * k = y.length then 1 else 2) * power y.length (fun n => y.getD n 0) k / y.length := by
  unfold periodogram
  rw [List.range_eq_range', ← List.map_drop, List.drop_range', Nat.add_sub_cancel]
  apply List.map_congr_left
  intro k hk
  rw [List.mem_range'_1] at hk
  rw [← norm_fftEntry_sq]
  have hnd : ¬ y.length ∣ k := by
    intro h
    have := Nat.le_of_dvd (by omega) h
    omega
  have := fftEntry_affine y 1 (-(y.sum / y.length)) k hnd
  rw [show (fun v : ℝ => v - y.sum / y.length) = fun v => 1 * v + -(y.sum / y.length) by
    funext v; ring, this]
  simp only [Complex.ofReal_one, one_mul]
  congr 2
  by_cases h : 2 * k = y.length
  · rw [if_pos (Or.inr h), if_pos h]
  · rw [if_neg (by rintro (h' | h') <;> omega), if_neg h]

/-- The total of the one-sided spectrum is `N` times the variance. -/
theorem periodogram_total (y : List ℝ) (hN : 0 < y.length) (v : ℝ) (hv : npVar y = some v) :
    ((periodogram y).drop 1).sum = y.length * v := by
  have hNr : (0 : ℝ) < y.length := by exact_mod_cast hN
  have hvar := C69_variance y hN
  rw [hv, Option.some.injEq] at hvar
  rw [periodogram_drop, sum_range'_list, hvar]
  set P := power y.length (fun n => y.getD n 0) with hP
  by_cases he : y.length % 2 = 0
  · have hny := power_nyquist y.length (fun n => y.getD n 0) hN he
    rw [if_pos he, ← hny]
    unfold totalPower bandPower
    obtain ⟨h, hh⟩ : ∃ h, y.length / 2 = h + 1 := ⟨y.length / 2 - 1, by omega⟩
    have h2 : (y.length - 1) / 2 = h := by omega
    rw [hh, h2, Finset.sum_Icc_succ_top (by omega), if_pos (by omega)]
    rw [Finset.sum_congr rfl (g := fun k => 2 * P k / y.length)]
    · rw [← Finset.sum_div, ← Finset.mul_sum]
      field_simp
      ring
    · intro k hk
      rw [Finset.mem_Icc] at hk
      rw [if_neg (by omega)]
  · rw [if_neg he]
    unfold totalPower bandPower
    have h2 : (y.length - 1) / 2 = y.length / 2 := by omega
    rw [h2, Finset.sum_congr rfl (g := fun k => 2 * P k / y.length)]
    · rw [← Finset.sum_div, ← Finset.mul_sum]
      field_simp
      ring
    · intro k hk
      rw [if_neg (by omega)]

theorem npVar_zero_iff (y : List ℝ) (hne : y ≠ []) :
    npVar y = some 0 ↔ ∃ c, ∀ x ∈ y, x = c := by
  constructor
  · intro h
    by_contra hc
    have hp : ptpZero y = false := by
      cases hp : ptpZero y with
      | false => rfl
      | true =>
        refine absurd ?_ hc
        cases y with
        | nil => simp at hne
        | cons a l =>
          refine ⟨a, ?_⟩
          intro x hx
          rcases List.mem_cons.mp hx with rfl | hx
          · rfl
          · have := List.all_eq_true.mp hp x hx
            simpa using this
    obtain ⟨v, hv, hpos⟩ := npVar_pos y hne hp
    rw [hv] at h
    cases h
    exact lt_irrefl _ hpos
  · rintro ⟨c, hc⟩
    exact npVar_const y hne c hc

theorem periodogram_nonneg (y : List ℝ) : ∀ x ∈ (periodogram y).drop 1, 0 ≤ x := by
  rw [periodogram_drop]
  intro x hx
  obtain ⟨k, -, rfl⟩ := List.mem_map.mp hx
  have := power_nonneg y.length (fun n => y.getD n 0) k
  split <;> positivity

theorem sum_take_le (l : List ℝ) (h : ∀ x ∈ l, 0 ≤ x) (n : Nat) :
    0 ≤ (l.take n).sum ∧ (l.take n).sum ≤ l.sum := by
  have h1 : 0 ≤ (l.take n).sum := List.sum_nonneg fun x hx => h x (List.mem_of_mem_take hx)
  have h2 : 0 ≤ (l.drop n).sum := List.sum_nonneg fun x hx => h x (List.mem_of_mem_drop hx)
  have h3 : l.sum = (l.take n).sum + (l.drop n).sum := by
    rw [← List.sum_append, List.take_append_drop]
  exact ⟨h1, by linarith⟩

/-- **C43**, before correction: for outputs that are not constant the index is a number between 0 and 1;
for constant outputs it is nan. -/
theorem C43_raw_range (y : List ℝ) (hN : 0 < y.length) (M : Nat) :
    (rbdFirstOrder y M = none ↔ ∃ c, ∀ x ∈ y, x = c) ∧
      ∀ s, rbdFirstOrder y M = some s → 0 ≤ s ∧ s ≤ 1 := by
  have hne : y ≠ [] := List.length_pos_iff.mp hN
  have hNr : (0 : ℝ) < y.length := by exact_mod_cast hN
  obtain ⟨v, hv⟩ : ∃ v, npVar y = some v := ⟨_, npVar_some y hne⟩
  have htot := periodogram_total y hN v hv
  have hv0 := npVar_nonneg y v hv
  obtain ⟨h1, h2⟩ := sum_take_le _ (periodogram_nonneg y) M
  unfold rbdFirstOrder
  simp only []
  constructor
  · rw [← npVar_zero_iff y hne, hv, Option.some.injEq]
    unfold npDiv
    rw [htot]
    constructor
    · intro h
      by_contra h0
      rw [if_neg (mul_ne_zero hNr.ne' h0)] at h
      cases h
    · intro h
      rw [h, mul_zero, if_pos rfl]
  · intro s hs
    unfold npDiv at hs
    split at hs
    · cases hs
    · rename_i hV
      cases hs
      have hVpos : 0 < ((periodogram y).drop 1).sum := lt_of_le_of_ne (h1.trans h2) (Ne.symm hV)
      exact ⟨div_nonneg h1 hVpos.le, (div_le_one hVpos).mpr h2⟩

theorem take_range'_one (n M : Nat) : (List.range' 1 n).take M = List.range' 1 (min M n) := by
  apply List.ext_getElem
  · simp
  · intro i h1 h2
    simp

/-- **C43**, value of the raw index: the squared amplitudes of the frequencies `1 .. M` (as far as they
exist; the Nyquist frequency counted once, the others twice) over `N²` times the variance. -/
theorem C43_raw_value (y : List ℝ) (hN : 0 < y.length) (M : Nat) (v : ℝ) (hv : npVar y = some v)
    (hpos : v ≠ 0) :
    rbdFirstOrder y M = some ((∑ k ∈ Finset.Icc 1 (min M (y.length / 2)),
      (if 2 * k = y.length then 1 else 2) * power y.length (fun n => y.getD n 0) k) /
        ((y.length : ℝ) ^ 2 * v)) := by
  have hNr : (0 : ℝ) < y.length := by exact_mod_cast hN
  unfold rbdFirstOrder
  simp only []
  rw [periodogram_total y hN v hv, npDiv_some _ _ (mul_ne_zero hNr.ne' hpos), periodogram_drop,
    ← List.map_take, take_range'_one, sum_range'_list, ← Finset.sum_div]
  congr 1
  field_simp

/-- **C43**, correction: for `2M < N` the corrected index never exceeds the raw one (as long as that is at
most 1), 1 stays 1, and the correction is strictly increasing, so no two parameters change places. -/
theorem C43_correction (M N : Nat) (h : 2 * M < N) :
    ∃ g : ℝ → ℝ, (∀ s, unskewS1 (some s) M N = .ok (some (g s))) ∧ unskewS1 none M N = .ok none ∧
      StrictMono g ∧ g 1 = 1 ∧ ∀ s ≤ 1, g s ≤ s := by
  have hN : 0 < N := by omega
  have hNr : (0 : ℝ) < N := by exact_mod_cast hN
  have hlt : (2 * M : ℝ) / N < 1 := by
    rw [div_lt_one hNr]; exact_mod_cast h
  have h0 : (0 : ℝ) ≤ 2 * M / N := by positivity
  have hc : 0 ≤ (2 * M : ℝ) / N / (1 - 2 * M / N) := div_nonneg h0 (by linarith)
  refine ⟨fun s => s - 2 * M / N / (1 - 2 * M / N) * (1 - s), ?_, ?_, ?_, ?_, ?_⟩
  · intro s
    unfold unskewS1
    rw [if_neg (by omega), if_neg (by omega)]; rfl
  · unfold unskewS1
    rw [if_neg (by omega), if_neg (by omega)]; rfl
  · intro s t hst
    beta_reduce
    nlinarith
  · norm_num
  · intro s hs
    have := mul_nonneg hc (sub_nonneg.mpr hs)
    beta_reduce
    linarith

/-- **C43**, where the correction breaks down.  With `N = 2M` the division fails; with `N < 2M` the
"correction" reverses: it is strictly decreasing, so it turns the ranking of the parameters around. -/
theorem C43_breakdown (M N : Nat) (hN : 0 < N) :
    (N = 2 * M → ∀ s, unskewS1 s M N = .error .zeroDivisionError) ∧
    (N < 2 * M → ∃ g : ℝ → ℝ, (∀ s, unskewS1 (some s) M N = .ok (some (g s))) ∧ StrictAnti g) := by
  constructor
  · intro h s
    unfold unskewS1
    rw [if_neg (by omega), if_pos h.symm]
  · intro h
    have hNr : (0 : ℝ) < N := by exact_mod_cast hN
    have hlt : 1 < (2 * M : ℝ) / N := by
      rw [one_lt_div hNr]; exact_mod_cast h
    have hc : (2 * M : ℝ) / N / (1 - 2 * M / N) < -1 := by
      rw [div_lt_iff_of_neg (by linarith)]; linarith
    refine ⟨fun s => s - 2 * M / N / (1 - 2 * M / N) * (1 - s), ?_, ?_⟩
    · intro s
      unfold unskewS1
      rw [if_neg (by omega), if_neg (by omega)]; rfl
    · intro s t hst
      beta_reduce
      nlinarith

/-- Column `i` of the sample. -/
def Spec.column (X : Mat ℝ) (i : Nat) : List ℝ := X.map fun row => row.getD i 0

theorem column_ok (X : Mat ℝ) (D i : Nat) (hX : ∀ row ∈ X, row.length = D) (hi : i < D) :
    (X.mapM fun row => pyGet row i) = .ok (column X i) := by
  apply mapM_ok_of
  intro row hrow
  rw [pyGet_ok _ _ (by rw [hX row hrow]; exact hi)]
  simp [List.getD, List.getElem?_eq_getElem (show i < row.length by rw [hX row hrow]; exact hi)]

theorem rbdIndex_ok (argsort : List ℝ → List Nat) (X Y : List ℝ) (M : Nat)
    (hp : IsArgsort X (argsort X)) (hXY : Y.length = X.length) (hN : 0 < Y.length)
    (hM : Y.length ≠ 2 * M) : ∃ s, rbdIndex argsort X Y M = .ok s := by
  obtain ⟨up, down, -, -, -, -, -, h⟩ := C42_reorder argsort X hp
  obtain ⟨Z, hZ, -, -⟩ := h ℝ Y hXY
  unfold rbdIndex
  rw [hZ, pyBind_ok]
  unfold unskewS1
  rw [if_neg (by omega), if_neg (by omega)]
  exact ⟨_, rfl⟩

theorem rbdBootstrap_ok (argsort : List ℝ → List Nat) (hs : ∀ X, IsArgsort X (argsort X)) (bnd : ℝ)
    (X Y : List ℝ) (M : Nat) (hXY : Y.length = X.length) (hN : 2 ≤ Y.length)
    (hM : Y.length / 2 ≠ 2 * M) (draws : List (List Nat))
    (hd : ∀ idx ∈ draws, idx.length = Y.length / 2 ∧ ∀ t ∈ idx, t < Y.length) :
    ∃ c, rbdBootstrap argsort bnd X Y M draws = .ok c := by
  unfold rbdBootstrap
  obtain ⟨res, hr, -⟩ := mapM_exists_ok (fun idx => (do
    let x ← idx.mapM fun i => pyGet X i
    let y ← idx.mapM fun i => pyGet Y i
    rbdIndex argsort x y M : Py (Num ℝ))) draws (by
      intro idx hidx
      obtain ⟨h1, h2⟩ := hd idx hidx
      obtain ⟨x', hx', hxl⟩ := mapM_exists_ok (fun i => pyGet X i) idx
        (fun i hi => ⟨_, pyGet_ok X i (by have := h2 i hi; omega)⟩)
      obtain ⟨y', hy', hyl⟩ := mapM_exists_ok (fun i => pyGet Y i) idx
        (fun i hi => ⟨_, pyGet_ok Y i (h2 i hi)⟩)
      rw [hx', pyBind_ok, hy', pyBind_ok]
      exact rbdIndex_ok argsort x' y' M (hs x') (by omega) (by omega) (by omega))
  rw [hr]
  exact ⟨_, rfl⟩

/-- **C43**, the whole analysis.  For every sample with one row per output, non-constant outputs, `2M < N`,
and resamples of the size NumPy is asked for, the analysis succeeds; the reported index of every parameter
is a number at most 1 and at most the raw index, and parameters are ranked by the raw index, the share of
the first `M` frequencies in the spectrum of the outputs reordered by that parameter. -/
theorem C43_analysis (argsort : List ℝ → List Nat) (hs : ∀ X, IsArgsort X (argsort X)) (bnd : ℝ)
    (draws : Nat → List (List Nat)) (pb : Problem ℝ) (X : Mat ℝ) (Y : List ℝ) (M : Nat)
    (hX : ∀ row ∈ X, row.length = pb.numVars) (hXY : X.length = Y.length) (hN : 2 ≤ Y.length)
    (hM : 2 * M < Y.length) (hM2 : Y.length / 2 ≠ 2 * M)
    (hd : ∀ i < pb.numVars, ∀ idx ∈ draws i, idx.length = Y.length / 2 ∧ ∀ t ∈ idx, t < Y.length)
    (hvar : ¬ ∃ c, ∀ y ∈ Y, y = c) :
    ∃ res, rbdAnalyze argsort bnd draws pb X Y M = .ok res ∧ res.names = pb.names ∧
      res.S1.length = pb.numVars ∧
      ∃ raw out : Nat → ℝ,
        (∀ i < pb.numVars, ∃ Z, permuteOutputs argsort (column X i) Y = .ok Z ∧ Z.Perm Y ∧
          rbdFirstOrder Z M = some (raw i) ∧ 0 ≤ raw i ∧ raw i ≤ 1 ∧
          res.S1[i]? = some (some (out i)) ∧ out i ≤ raw i) ∧
        ∀ i < pb.numVars, ∀ j < pb.numVars, out i < out j ↔ raw i < raw j := by
  have hcl : ∀ i, (column X i).length = Y.length := by intro i; simp [column, hXY]
  obtain ⟨g, hg, hg0, hmono, hg1, hgle⟩ := C43_correction M Y.length hM
  have hstep : ∀ i, ∃ r, i < pb.numVars → ∃ Z c, permuteOutputs argsort (column X i) Y = .ok Z ∧
      Z.Perm Y ∧ rbdFirstOrder Z M = some r ∧ 0 ≤ r ∧ r ≤ 1 ∧ ((do
        let x ← X.mapM fun row => pyGet row i
        let s ← rbdIndex argsort x Y M
        let c ← rbdBootstrap argsort bnd x Y M (draws i)
        pure (s, c) : Py (Num ℝ × Num ℝ)) = .ok (some (g r), c)) := by
    intro i
    by_cases hi : i < pb.numVars
    · obtain ⟨up, down, -, -, -, -, -, h⟩ := C42_reorder argsort (column X i) (hs _)
      obtain ⟨Z, hZ, hperm, -⟩ := h ℝ Y (hcl i).symm
      have hZl : Z.length = Y.length := hperm.length_eq
      obtain ⟨hnan, hrange⟩ := C43_raw_range Z (by omega) M
      cases hr : rbdFirstOrder Z M with
      | none =>
        exfalso
        obtain ⟨c, hc⟩ := hnan.mp hr
        exact hvar ⟨c, fun y hy => hc y (hperm.mem_iff.mpr hy)⟩
      | some r =>
        obtain ⟨h0, h1⟩ := hrange r hr
        obtain ⟨c, hc⟩ := rbdBootstrap_ok argsort hs bnd (column X i) Y M (hcl i).symm hN hM2 (draws i)
          (hd i hi)
        refine ⟨r, fun _ => ⟨Z, c, hZ, hperm, hr, h0, h1, ?_⟩⟩
        rw [column_ok X _ i hX hi, pyBind_ok]
        unfold rbdIndex
        rw [hZ, pyBind_ok, hr, hg r, pyBind_ok, hc]
        rfl
    · exact ⟨0, fun h => absurd h hi⟩
  choose raw hraw using hstep
  obtain ⟨rows, hrows, hlen⟩ := mapM_exists_ok (fun i => (do
        let x ← X.mapM fun row => pyGet row i
        let s ← rbdIndex argsort x Y M
        let c ← rbdBootstrap argsort bnd x Y M (draws i)
        pure (s, c) : Py (Num ℝ × Num ℝ))) (List.range pb.numVars) (by
      intro i hi
      obtain ⟨Z, c, -, -, -, -, -, h⟩ := hraw i (List.mem_range.mp hi)
      exact ⟨_, h⟩)
  refine ⟨_, by unfold rbdAnalyze; rw [hrows]; rfl, rfl, by simpa using hlen, raw, fun i => g (raw i),
    ?_, fun i hi j hj => hmono.lt_iff_lt⟩
  intro i hi
  obtain ⟨Z, c, h1, h2, h3, h4, h5, h6⟩ := hraw i hi
  obtain ⟨b, hb, hf⟩ := mapM_range_get _ _ _ hrows i hi
  rw [h6] at hf
  cases hf
  exact ⟨Z, h1, h2, h3, h4, h5, by rw [List.getElem?_map, hb]; rfl, hgle _ h5⟩

/-- With resamples of `2M` points, i.e. `N = 4M` or `N = 4M + 1`, the analysis always fails with a division
by zero in the bootstrap (if it draws any resample at all). -/
theorem C43_bootstrap_crash (argsort : List ℝ → List Nat) (hs : ∀ X, IsArgsort X (argsort X)) (bnd : ℝ)
    (X Y : List ℝ) (M : Nat) (hXY : Y.length = X.length) (hM : 0 < M) (hN : Y.length / 2 = 2 * M)
    (draws : List (List Nat)) (hne : draws ≠ [])
    (hd : ∀ idx ∈ draws, idx.length = Y.length / 2 ∧ ∀ t ∈ idx, t < Y.length) :
    rbdBootstrap argsort bnd X Y M draws = .error .zeroDivisionError := by
  cases draws with
  | nil => exact absurd rfl hne
  | cons idx rest =>
    obtain ⟨h1, h2⟩ := hd idx (by simp)
    obtain ⟨x', hx', hxl⟩ := mapM_exists_ok (fun i => pyGet X i) idx
      (fun i hi => ⟨_, pyGet_ok X i (by have := h2 i hi; omega)⟩)
    obtain ⟨y', hy', hyl⟩ := mapM_exists_ok (fun i => pyGet Y i) idx
      (fun i hi => ⟨_, pyGet_ok Y i (h2 i hi)⟩)
    have hidx : rbdIndex argsort x' y' M = .error .zeroDivisionError := by
      obtain ⟨up, down, -, -, -, -, -, h⟩ := C42_reorder argsort x' (hs _)
      obtain ⟨Z, hZ, -, -⟩ := h ℝ y' (by omega)
      unfold rbdIndex
      rw [hZ, pyBind_ok]
      unfold unskewS1
      rw [if_neg (by omega), if_pos (by omega)]
    unfold rbdBootstrap
    rw [List.mapM_cons]
    simp only [hx', pyBind_ok, hy', hidx, pyBind_error]

/-- Sorting permutations exist for all vectors, so the hypothesis on `argsort` can be met. -/
theorem exists_argsort : ∃ argsort : List ℝ → List Nat, ∀ X, IsArgsort X (argsort X) := by
  classical
  refine ⟨fun X => (List.range X.length).insertionSort fun i j => X.getD i 0 ≤ X.getD j 0, fun X => ?_⟩
  refine ⟨List.perm_insertionSort _ _, ?_⟩
  rw [List.pairwise_map]
  have : Std.Total fun i j : Nat => X.getD i 0 ≤ X.getD j 0 := ⟨fun i j => le_total _ _⟩
  have : IsTrans Nat fun i j : Nat => X.getD i 0 ≤ X.getD j 0 := ⟨fun i j k => le_trans⟩
  exact List.pairwise_insertionSort _ _

/-- The hypotheses of `C43_analysis` are met: two parameters, seven rows, `M = 2`, one resample each. -/
example : ∃ argsort res, rbdAnalyze argsort 2 (fun _ => [[0, 6, 3]])
    { names := ["x", "y"], bounds := [[0, 1], [0, 1]], numVars := 2 }
    [[0, 3], [1, 1], [2, 2], [3, 5], [4, 4], [5, 0], [6, 6]] [1, 2, 0, 1, 5, 3, 4] 2 = .ok res := by
  obtain ⟨argsort, hs⟩ := exists_argsort
  obtain ⟨res, h, -⟩ := C43_analysis argsort hs 2 (fun _ => [[0, 6, 3]])
    { names := ["x", "y"], bounds := [[0, 1], [0, 1]], numVars := 2 }
    [[0, 3], [1, 1], [2, 2], [3, 5], [4, 4], [5, 0], [6, 6]] [1, 2, 0, 1, 5, 3, 4] 2
    (by intro row hrow; simp at hrow; rcases hrow with h | h | h | h | h | h | h <;> rw [h] <;> rfl) rfl (by simp) (by simp) (by simp)
    (by intro i _ idx hidx; simp only [List.mem_singleton] at hidx; subst hidx; simp)
    (by
      rintro ⟨c, hc⟩
      have h1 := hc 1 (by simp)
      have h2 := hc 2 (by simp)
      linarith)
  exact ⟨argsort, res, h⟩

/-! ### Units of the output -/

theorem periodogram_affine (y : List ℝ) (a b : ℝ) :
    (periodogram (y.map fun v => a * v + b)).drop 1 = ((periodogram y).drop 1).map (a ^ 2 * ·) := by
  rw [periodogram_drop, periodogram_drop, List.length_map, List.map_map]
  apply List.map_congr_left
  intro k hk
  have hk' := List.mem_range'_1.mp hk
  simp only [Function.comp]
  have hp : power y.length (fun n => (y.map fun v => a * v + b).getD n 0) k =
      a ^ 2 * power y.length (fun n => y.getD n 0) k := by
    have h1 := norm_fftEntry_sq (y.map fun v => a * v + b) k
    rw [List.length_map] at h1
    rw [← h1, ← norm_fftEntry_sq,
      fftEntry_affine y a b k (fun hd => by have := Nat.le_of_dvd (by omega) hd; omega), norm_mul,
      Complex.norm_real, mul_pow, Real.norm_eq_abs, sq_abs]
  rw [hp]
  ring

theorem rbdFirstOrder_affine (y : List ℝ) (a b : ℝ) (ha : a ≠ 0) (M : Nat) :
    rbdFirstOrder (y.map fun v => a * v + b) M = rbdFirstOrder y M := by
  have hs : ∀ l : List ℝ, (l.map (a ^ 2 * ·)).sum = a ^ 2 * l.sum :=
    fun l => List.sum_map_mul_left l id _ |>.trans (by simp)
  unfold rbdFirstOrder
  simp only [periodogram_affine, ← List.map_take, hs]
  unfold npDiv
  by_cases hz : ((periodogram y).drop 1).sum = 0
  · rw [hz, mul_zero, if_pos rfl, if_pos rfl]
  · rw [if_neg (by positivity), if_neg hz]
    congr 1
    field_simp

theorem rbdIndex_affine (argsort : List ℝ → List Nat) (X Y : List ℝ) (a b : ℝ) (ha : a ≠ 0) (M : Nat) :
    rbdIndex argsort X (Y.map fun v => a * v + b) M = rbdIndex argsort X Y M := by
  unfold rbdIndex permuteOutputs
  simp only [mapM_pyGet_map, List.length_map]
  cases ((strided (argsort X) 0 2 ++ (strided (argsort X) 1 2).reverse).mapM fun i => pyGet Y i) with
  | error e => rfl
  | ok y =>
    simp only [Except.map, pyBind_ok]
    rw [rbdFirstOrder_affine y a b ha]

/-- **C70.** The RBD-FAST results (indices, confidence values, and whether the call fails) do not change when
the outputs are shifted and rescaled by a non-zero factor. -/
theorem C70_affine (argsort : List ℝ → List Nat) (bnd : ℝ) (draws : Nat → List (List Nat))
    (pb : Problem ℝ) (X : Mat ℝ) (Y : List ℝ) (M : Nat) (a b : ℝ) (ha : a ≠ 0) :
    rbdAnalyze argsort bnd draws pb X (Y.map fun v => a * v + b) M =
      rbdAnalyze argsort bnd draws pb X Y M := by
  have hboot : ∀ (x : List ℝ) (ds : List (List Nat)),
      rbdBootstrap argsort bnd x (Y.map fun v => a * v + b) M ds = rbdBootstrap argsort bnd x Y M ds := by
    intro x ds
    unfold rbdBootstrap
    have : ∀ idx : List Nat, (do
        let x ← idx.mapM fun i => pyGet x i
        let y ← idx.mapM fun i => pyGet (Y.map fun v => a * v + b) i
        rbdIndex argsort x y M : Py (Num ℝ)) = (do
        let x ← idx.mapM fun i => pyGet x i
        let y ← idx.mapM fun i => pyGet Y i
        rbdIndex argsort x y M) := by
      intro idx
      rw [mapM_pyGet_map]
      cases (idx.mapM fun i => pyGet x i) with
      | error e => rfl
      | ok x' =>
        cases (idx.mapM fun i => pyGet Y i) with
        | error e => rfl
        | ok y' =>
          simp only [Except.map, pyBind_ok]
          rw [rbdIndex_affine _ _ _ a b ha]
    simp only [this]
  unfold rbdAnalyze
  simp only [rbdIndex_affine _ _ _ a b ha, hboot]

end SALib
