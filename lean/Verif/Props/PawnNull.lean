import Verif.Props.PawnLimit
import Verif.Props.NullIndex

/-!
# C122: PAWN statistics of finite samples are never zero
-/

namespace SALib

open Spec

theorem pawnColumn_entry (X Y : List ℝ) (S s : Nat) (hs : s < S) (hI : pawnSlice (pawnEdges X S) X s ≠ []) :
    (pawnColumn X Y S)[s]? = some (some (ksStat ((pawnSlice (pawnEdges X S) X s).map fun i => Y.getD i 0) Y)) := by
  unfold pawnColumn
  rw [List.getElem?_map, List.getElem?_range hs, Option.map_some]
  simp only [List.length_map]
  rw [if_neg (by rw [List.length_eq_zero_iff]; exact hI)]

theorem slice_lt (X : List ℝ) (S s : Nat) : ∀ i ∈ pawnSlice (pawnEdges X S) X s, i < X.length := by
  intro i hi
  obtain ⟨x, hx, -⟩ := (mem_whereIdx _ _ _).mp hi
  exact (List.getElem?_eq_some_iff.mp hx).1

theorem getD_zero_lt (Y : List ℝ) (i : Nat) (h : i < Y.length) : Y.getD i 0 = Y[i] := by
  rw [List.getD_eq_getElem?_getD, List.getElem?_eq_getElem h]
  rfl

/-- The row with the largest value of the input is in no slice. -/
theorem slice_length_lt (X : List ℝ) (hX : X ≠ []) (S s : Nat) (hs : s < S) :
    (pawnSlice (pawnEdges X S) X s).length < X.length := by
  have hnd : (pawnSlice (pawnEdges X S) X s).Nodup := nodup_whereIdx _ _
  have hpos := List.length_pos_iff.mpr hX
  -- a row with the largest value
  have hlast := npSort_mem X (X.length - 1) (by omega) 0
  obtain ⟨k, hk, hkv⟩ := List.mem_iff_getElem.mp hlast
  have hout : k ∉ pawnSlice (pawnEdges X S) X s := by
    intro hmem
    obtain ⟨x, hx, hc⟩ := (mem_whereIdx _ _ _).mp hmem
    rw [List.getElem?_eq_getElem hk] at hx
    cases hx
    rw [pawnEdges_getD _ _ _ (by omega), pawnEdges_getD _ _ _ (by omega)] at hc
    have h2 : X[k] < npQuantile X (s + 1) S := by simpa using (Bool.and_eq_true_iff.mp hc).2
    have h3 := npQuantile_mono X hX (s + 1) S S (by omega) (by omega) le_rfl
    rw [npQuantile_one X hX S (by omega)] at h3
    rw [hkv] at h2
    exact absurd (h2.trans_le h3) (lt_irrefl _)
  have hsub : (pawnSlice (pawnEdges X S) X s).toFinset ⊆ (Finset.range X.length).erase k := by
    intro i hi
    rw [List.mem_toFinset] at hi
    refine Finset.mem_erase.mpr ⟨?_, Finset.mem_range.mpr (slice_lt X S s i hi)⟩
    rintro rfl
    exact hout hi
  have := Finset.card_le_card hsub
  rw [List.toFinset_card_of_nodup hnd, Finset.card_erase_of_mem (Finset.mem_range.mpr hk), Finset.card_range] at this
  omega

theorem filter_count (l : List Nat) (g : Nat → ℝ) (t : ℝ) :
    ((((l.map g).filter fun x => decide (x ≤ t)).length : Nat) : ℝ) = (l.map fun i => if g i ≤ t then (1 : ℝ) else 0).sum := by
  induction l with
  | nil => simp
  | cons i l ih =>
    rw [List.map_cons, List.map_cons, List.sum_cons, ← ih, List.filter_cons]
    by_cases h : g i ≤ t
    · rw [if_pos (by simpa using h), if_pos h, List.length_cons]
      push_cast
      ring
    · rw [if_neg (by simpa using h), if_neg h, zero_add]

/-- **C122**, averages without influence.  Every assignment of the outputs to the rows equally likely: for every slice
with `n` rows and every threshold `t`, `k` outputs up to `t`, the mean square of the statistic is at least
`k (N - k) / N² · (N - n) / (n (N - 1))`.  With half of the outputs up to `t` its root is about `1 / (2 √n)`. -/
theorem C122_null {N : Nat} (hN : 2 ≤ N) (X : List ℝ) (hX : X.length = N) (f : Fin N → ℝ) (S s : Nat) (hs : s < S)
    (n : Nat) (hn : (pawnSlice (pawnEdges X S) X s).length = n) (hn0 : 0 < n) (t : ℝ) (k : Nat)
    (hk : (Finset.univ.filter fun i => f i ≤ t).card = k) :
    ∃ v : Equiv.Perm (Fin N) → ℝ,
      (∀ p : Equiv.Perm (Fin N), (pawnColumn X (List.ofFn (f ∘ p)) S)[s]? = some (some (v p))) ∧
      (k : ℝ) * (N - k) / N ^ 2 * ((N - n) / (n * (N - 1))) ≤ (∑ p, v p ^ 2) / N.factorial := by
  have hNr : (0 : ℝ) < N := by exact_mod_cast (by omega : 0 < N)
  have hN1 : (0 : ℝ) < (N : ℝ) - 1 := by
    have : (2 : ℝ) ≤ N := by exact_mod_cast hN
    linarith
  have hnr : (0 : ℝ) < n := by exact_mod_cast hn0
  have hfac : (0 : ℝ) < N.factorial := by exact_mod_cast N.factorial_pos
  set I := pawnSlice (pawnEdges X S) X s with hI
  have hInd : I.Nodup := nodup_whereIdx _ _
  have hIlt : ∀ i ∈ I, i < N := by rw [← hX]; exact slice_lt X S s
  have hIne : I ≠ [] := by
    rw [← List.length_pos_iff, hn]; exact hn0
  refine ⟨fun p => ksStat (I.map fun i => (List.ofFn (f ∘ p)).getD i 0) (List.ofFn (f ∘ p)),
    fun p => pawnColumn_entry X _ S s hs hIne, ?_⟩
  -- indicators of outputs up to `t`
  let b : Fin N → ℝ := fun i => if f i ≤ t then 1 else 0
  have hbsum : ∑ i, b i = k := by
    simp only [b, Finset.sum_ite, Finset.sum_const_zero, add_zero, Finset.sum_const, nsmul_eq_mul, mul_one, hk]
  let z : Fin N → ℝ := fun i => b i - k / N
  have hz : ∑ i, z i = 0 := by
    simp only [z, Finset.sum_sub_distrib, hbsum, Finset.sum_const, Finset.card_univ, Fintype.card_fin, nsmul_eq_mul]
    field_simp
    ring
  have hz2 : ∑ i, z i ^ 2 = (k : ℝ) * (N - k) / N := by
    have : ∀ i, z i ^ 2 = b i * (1 - 2 * (k / N)) + (k / N) ^ 2 := by
      intro i
      have hb2 : b i ^ 2 = b i := by simp only [b]; split <;> norm_num
      have : z i ^ 2 = b i ^ 2 - 2 * (k / N) * b i + (k / N) ^ 2 := by simp only [z]; ring
      rw [this, hb2]; ring
    rw [Finset.sum_congr rfl fun i _ => this i, Finset.sum_add_distrib, ← Finset.sum_mul, hbsum]
    simp only [Finset.sum_const, Finset.card_univ, Fintype.card_fin, nsmul_eq_mul]
    field_simp
    ring
  let c : Fin N → ℝ := fun i => (if (i : Nat) ∈ I then 1 else 0) / n
  have hcount : ∑ i : Fin N, (if (i : Nat) ∈ I then (1 : ℝ) else 0) = n := by
    have h1 := sum_map_nodup I hInd hIlt (fun _ => 1)
    simp only [mul_one, List.map_const', List.sum_replicate, nsmul_eq_mul, hn] at h1
    exact h1.symm
  have hc1 : ∑ i, c i = 1 := by
    simp only [c, ← Finset.sum_div, hcount]
    exact div_self hnr.ne'
  have hc2 : ∑ i, c i ^ 2 = 1 / n := by
    have : ∀ i, c i ^ 2 = (if (i : Nat) ∈ I then (1 : ℝ) else 0) / n ^ 2 := by
      intro i
      simp only [c]
      split <;> simp
    rw [Finset.sum_congr rfl fun i _ => this i, ← Finset.sum_div, hcount]
    field_simp
  have hecdf : ∀ p : Equiv.Perm (Fin N), ecdf (I.map fun i => (List.ofFn (f ∘ p)).getD i 0) t - ecdf (List.ofFn (f ∘ p)) t =
      ∑ i, c i * z (p i) := by
    intro p
    have h1 := filter_count I (fun i => (List.ofFn (f ∘ p)).getD i 0) t
    rw [sum_map_nodup I hInd hIlt] at h1
    have h2 : ((((List.ofFn (f ∘ p)).filter fun x => decide (x ≤ t)).length : Nat) : ℝ) = k := by
      have h3 := filter_count (List.range N) (fun i => (List.ofFn (f ∘ p)).getD i 0) t
      have h4 : (List.range N).map (fun i => (List.ofFn (f ∘ p)).getD i 0) = List.ofFn (f ∘ p) := by
        apply List.ext_getElem
        · simp
        · intro i h _
          simp at h
          simp [h]
      rw [h4, sum_map_nodup _ List.nodup_range fun i hi => List.mem_range.mp hi] at h3
      rw [h3, ← hbsum, ← Equiv.sum_comp p b]
      apply Finset.sum_congr rfl
      intro i _
      rw [if_pos (List.mem_range.mpr i.2), one_mul, getD_ofFn_fin]
      rfl
    unfold ecdf
    rw [h1, h2, List.length_map, hn, List.length_ofFn]
    have h5 : ∑ i, c i * z (p i) = ∑ i, c i * b (p i) - k / N := by
      simp only [z, mul_sub, Finset.sum_sub_distrib, ← Finset.sum_mul, hc1, one_mul]
    rw [h5, Finset.sum_div]
    congr 1
    apply Finset.sum_congr rfl
    intro i _
    rw [getD_ofFn_fin]
    simp only [c, b, Function.comp]
    ring
  have hks : ∀ p : Equiv.Perm (Fin N), (∑ i, c i * z (p i)) ^ 2 ≤
      ksStat (I.map fun i => (List.ofFn (f ∘ p)).getD i 0) (List.ofFn (f ∘ p)) ^ 2 := by
    intro p
    rw [← hecdf p, ← sq_abs]
    exact pow_le_pow_left₀ (abs_nonneg _) (le_ksStat _ _ t) 2
  rw [le_div_iff₀ hfac]
  refine le_trans (le_of_eq ?_) (Finset.sum_le_sum fun p _ => hks p)
  have := sum_perm_sq hN z c hz
  rw [hc1, hc2, hz2] at this
  have e : ∑ p : Equiv.Perm (Fin N), (∑ i, c i * z (p i)) ^ 2 =
      (N.factorial : ℝ) * (1 / n - 1 ^ 2 / N) * (k * (N - k) / N) / (N - 1) := by
    rw [eq_div_iff hN1.ne', ← this]; ring
  rw [e]
  field_simp

/-- Four rows, two slices: edges `1`, `5/2`, `4`; the first slice has two rows. -/
theorem slice_four : pawnSlice (pawnEdges [(1 : ℝ), 2, 3, 4] 2) [1, 2, 3, 4] 0 = [0, 1] := by
  unfold pawnSlice
  rw [pawnEdges_getD _ _ _ (by omega), pawnEdges_getD _ _ _ (by omega)]
  have h4 : List.range 4 = [0, 1, 2, 3] := rfl
  norm_num [npQuantile, npSort, whereIdx, List.insertionSort, List.orderedInsert, h4, List.filter_cons]

/-- Half of four outputs up to `t = 1`: the mean square is at least `1/12` on the slice with two rows. -/
example : ∃ v : Equiv.Perm (Fin 4) → ℝ,
    (∀ p : Equiv.Perm (Fin 4), (pawnColumn [1, 2, 3, 4] (List.ofFn ((fun i : Fin 4 => (i : ℝ)) ∘ p)) 2)[0]? = some (some (v p))) ∧
      (1 : ℝ) / 12 ≤ (∑ p, v p ^ 2) / Nat.factorial 4 := by
  have hk : (Finset.univ.filter fun i : Fin 4 => ((i : ℕ) : ℝ) ≤ 1).card = 2 := by
    have : (Finset.univ.filter fun i : Fin 4 => ((i : ℕ) : ℝ) ≤ 1) = Finset.univ.filter fun i : Fin 4 => (i : ℕ) ≤ 1 := by
      ext i; simp
    rw [this]; rfl
  obtain ⟨v, hv, h⟩ := C122_null (N := 4) (by norm_num) [1, 2, 3, 4] rfl (fun i => (i : ℝ)) 2 0 (by norm_num) 2
    (by rw [slice_four]; rfl) (by norm_num) 1 2 hk
  exact ⟨v, hv, le_trans (by norm_num) h⟩

/-- **C122**, no zeros.  When no two outputs are equal, every reported statistic of a slice is positive, whatever the
inputs: at least `1 / (N (N - 1))`. -/
theorem C122_never_zero (X Y : List ℝ) (hlen : Y.length = X.length) (hY : Y.Nodup) (S : Nat) (v : ℝ)
    (hv : some v ∈ pawnColumn X Y S) : 1 / ((Y.length : ℝ) * (Y.length - 1)) ≤ v ∧ 0 < v := by
  obtain ⟨s, hsl, hsv⟩ := List.mem_iff_getElem.mp hv
  have hs : s < S := by simpa [pawnColumn] using hsl
  set I := pawnSlice (pawnEdges X S) X s with hI
  have hInd : I.Nodup := nodup_whereIdx _ _
  have hIlt : ∀ i ∈ I, i < Y.length := by rw [hlen]; exact slice_lt X S s
  have hIne : I ≠ [] := by
    intro h0
    rw [List.getElem_eq_iff] at hsv
    unfold pawnColumn at hsv
    rw [List.getElem?_map, List.getElem?_range hs, Option.map_some] at hsv
    simp only [List.length_map] at hsv
    rw [← hI, h0] at hsv
    simp at hsv
  have hv' : v = ksStat (I.map fun i => Y.getD i 0) Y := by
    have := pawnColumn_entry X Y S s hs hIne
    rw [List.getElem?_eq_getElem hsl, hsv] at this
    simpa using this
  have hn0 : 0 < I.length := List.length_pos_iff.mpr hIne
  have hXne : X ≠ [] := by
    rintro rfl
    have := hIlt _ (List.getElem_mem hn0)
    simp [hlen] at this
  have hnN : I.length < Y.length := by rw [hlen]; exact slice_length_lt X hXne S s hs
  -- the smallest output
  have hYne : Y ≠ [] := by rintro rfl; simp at hnN
  have hfin : Y.toFinset.Nonempty := by
    obtain ⟨y, hy⟩ := List.exists_mem_of_ne_nil Y hYne
    exact ⟨y, List.mem_toFinset.mpr hy⟩
  set y0 := Y.toFinset.min' hfin with hy0
  have hmem : y0 ∈ Y := List.mem_toFinset.mp (Finset.min'_mem _ hfin)
  have hle : ∀ y ∈ Y, y ≤ y0 ↔ y = y0 := by
    intro y hy
    exact ⟨fun h => le_antisymm h (Finset.min'_le _ _ (List.mem_toFinset.mpr hy)), fun h => h.le⟩
  have hcount : ∀ l : List ℝ, (∀ y ∈ l, y ∈ Y) → (l.filter fun x => decide (x ≤ y0)).length = l.count y0 := by
    intro l hl
    rw [List.count, List.countP_eq_length_filter]
    congr 1
    apply List.filter_congr
    intro y hy
    rw [Bool.eq_iff_iff]
    simpa using hle y (hl y hy)
  have hsub : ∀ y ∈ I.map (fun i => Y.getD i 0), y ∈ Y := by
    intro y hy
    obtain ⟨i, hi, rfl⟩ := List.mem_map.mp hy
    rw [getD_zero_lt _ _ (hIlt i hi)]
    exact List.getElem_mem _
  have hnd : (I.map fun i => Y.getD i 0).Nodup := by
    refine List.Nodup.map_on ?_ hInd
    intro i hi j hj hij
    rw [getD_zero_lt _ _ (hIlt i hi), getD_zero_lt _ _ (hIlt j hj)] at hij
    exact (List.Nodup.getElem_inj_iff hY).mp hij
  have hge := le_ksStat (I.map fun i => Y.getD i 0) Y y0
  rw [← hv'] at hge
  unfold ecdf at hge
  rw [hcount _ hsub, hcount Y fun _ h => h, List.count_eq_one_of_mem hY hmem, List.length_map] at hge
  have hnr : (0 : ℝ) < I.length := by exact_mod_cast hn0
  have hNr : (0 : ℝ) < Y.length := by exact_mod_cast hn0.trans hnN
  have hlt : (I.length : ℝ) + 1 ≤ Y.length := by exact_mod_cast hnN
  have h1n : (1 : ℝ) ≤ I.length := by exact_mod_cast hn0
  have hN1 : (0 : ℝ) < Y.length - 1 := by linarith
  have hbound : 1 / ((Y.length : ℝ) * (Y.length - 1)) ≤ v := by
    refine le_trans ?_ hge
    have hc := List.nodup_iff_count_le_one.mp hnd y0
    interval_cases h : (I.map fun i => Y.getD i 0).count y0
    · rw [Nat.cast_zero, zero_div, zero_sub, abs_neg, Nat.cast_one, abs_of_pos (by positivity)]
      apply one_div_le_one_div_of_le hNr
      nlinarith
    · rw [Nat.cast_one, abs_of_nonneg (sub_nonneg.mpr (one_div_le_one_div_of_le hnr (by linarith)))]
      rw [div_sub_div _ _ hnr.ne' hNr.ne', div_le_div_iff₀ (by positivity) (by positivity)]
      nlinarith [mul_pos hnr hNr, mul_nonneg (mul_nonneg hnr.le hNr.le) (sub_nonneg.mpr hlt), mul_nonneg hNr.le (sub_nonneg.mpr hlt)]
  exact ⟨hbound, lt_of_lt_of_le (by positivity) hbound⟩

/-- Four rows with different outputs: the statistic of the first slice is positive. -/
example : ∃ v : ℝ, (pawnColumn [(1 : ℝ), 2, 3, 4] [5, 8, 6, 7] 2)[0]? = some (some v) ∧ 1 / 12 ≤ v := by
  have h := pawnColumn_entry [(1 : ℝ), 2, 3, 4] [5, 8, 6, 7] 2 0 (by norm_num) (by rw [slice_four]; simp)
  refine ⟨_, h, le_trans (by norm_num) (C122_never_zero [(1 : ℝ), 2, 3, 4] [5, 8, 6, 7] rfl (by norm_num) 2 _
    (List.mem_of_getElem? h)).1⟩

end SALib
