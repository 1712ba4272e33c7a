import Verif.Props.DeltaFirst
import Verif.Props.DeltaAnalyze
import Verif.Lemmas.Frequency
import Mathlib.Algebra.Order.Chebyshev

/-! Classes of equal numbers of ranks, as the first-order index of the delta method uses them, compared with classes cut
at fixed values of the input. -/

namespace SALib
open Spec

section ranks

variable (X : List ℝ)

/-- The positions with the `r` smallest values. -/
noncomputable def lowest (r : Nat) : Finset Nat := (Finset.range X.length).filter fun i => (rankOrdinal X).getD i 0 ≤ r

theorem card_lowest (r : Nat) (hr : r ≤ X.length) : (lowest X r).card = r := by
  have hinj : Set.InjOn (fun i => (rankOrdinal X).getD i 0) (lowest X r) := by
    intro i hi k hk h
    have hi := Finset.mem_range.mp (Finset.mem_filter.mp (Finset.mem_coe.mp hi)).1
    have hk := Finset.mem_range.mp (Finset.mem_filter.mp (Finset.mem_coe.mp hk)).1
    rw [← length_rankOrdinal X] at hi hk
    have h' : (rankOrdinal X)[i] = (rankOrdinal X)[k] := by simpa [List.getD, hi, hk] using h
    exact (List.Nodup.getElem_inj_iff (rankOrdinal_nodup X)).mp h'
  have himg : (lowest X r).image (fun i => (rankOrdinal X).getD i 0) = Finset.Icc 1 r := by
    ext v
    simp only [lowest, Finset.mem_image, Finset.mem_filter, Finset.mem_range, Finset.mem_Icc]
    constructor
    · rintro ⟨i, ⟨hi, h⟩, rfl⟩
      exact ⟨(rank_range X i hi).1, h⟩
    · rintro ⟨h1, h2⟩
      have hmem : v ∈ rankOrdinal X := by
        rw [(rankOrdinal_perm X).mem_iff, List.mem_range'_1]; omega
      obtain ⟨i, hi, hv⟩ := List.mem_iff_getElem.mp hmem
      have hg : (rankOrdinal X).getD i 0 = v := by rw [List.getD, List.getElem?_eq_getElem hi, hv]; rfl
      exact ⟨i, ⟨by rw [← length_rankOrdinal X]; exact hi, by omega⟩, hg⟩
  rw [← Finset.card_image_of_injOn hinj, himg, Nat.card_Icc]
  omega

/-- Positions closed under smaller values and the lowest ranks are comparable. -/
theorem lowest_comparable (r : Nat) (T : Finset Nat) (hT : T ⊆ Finset.range X.length)
    (hlow : ∀ i < X.length, ∀ k ∈ T, X.getD i 0 ≤ X.getD k 0 → i ∈ T) : T ⊆ lowest X r ∨ lowest X r ⊆ T := by
  by_contra hcon
  push Not at hcon
  obtain ⟨⟨k, hkT, hkS⟩, ⟨i, hiS, hiT⟩⟩ := And.intro (Finset.not_subset.mp hcon.1) (Finset.not_subset.mp hcon.2)
  have hk := Finset.mem_range.mp (hT hkT)
  obtain ⟨hi, hri⟩ := Finset.mem_filter.mp hiS
  have hi := Finset.mem_range.mp hi
  have hrk : r < (rankOrdinal X).getD k 0 := by
    by_contra h
    exact hkS (Finset.mem_filter.mpr ⟨hT hkT, by omega⟩)
  have hb := (rank_lt_iff X k i hk hi).mp (by omega)
  refine hiT (hlow i hi k hkT ?_)
  rcases hb with h | h
  · exact h.le
  · exact h.1.le

theorem sq_sum_diff_le (S T U : Finset Nat) (hST : S ⊆ T) (hTU : T ⊆ U) (y : Nat → ℝ) :
    (∑ i ∈ T, y i - ∑ i ∈ S, y i) ^ 2 ≤ ((T.card : ℝ) - S.card) * ∑ i ∈ U, y i ^ 2 := by
  rw [← Finset.sum_sdiff hST, add_sub_cancel_right]
  have hc : ((T \ S).card : ℝ) = (T.card : ℝ) - S.card := by
    rw [Finset.card_sdiff_of_subset hST, Nat.cast_sub (Finset.card_le_card hST)]
  calc (∑ i ∈ T \ S, y i) ^ 2 ≤ (T \ S).card * ∑ i ∈ T \ S, y i ^ 2 := sq_sum_le_card_mul_sum_sq
    _ ≤ (T \ S).card * ∑ i ∈ U, y i ^ 2 := by
      refine mul_le_mul_of_nonneg_left ?_ (Nat.cast_nonneg _)
      exact Finset.sum_le_sum_of_subset_of_nonneg (Finset.sdiff_subset.trans hTU) fun i _ _ => sq_nonneg _
    _ = _ := by rw [hc]

theorem lowest_near (r : Nat) (hr : r ≤ X.length) (T : Finset Nat) (hT : T ⊆ Finset.range X.length)
    (hlow : ∀ i < X.length, ∀ k ∈ T, X.getD i 0 ≤ X.getD k 0 → i ∈ T) (y : Nat → ℝ) :
    (∑ i ∈ lowest X r, y i - ∑ i ∈ T, y i) ^ 2 ≤ |(r : ℝ) - T.card| * ∑ i ∈ Finset.range X.length, y i ^ 2 := by
  have hS : lowest X r ⊆ Finset.range X.length := Finset.filter_subset _ _
  rcases lowest_comparable X r T hT hlow with h | h
  · have h1 := sq_sum_diff_le _ _ _ h hS y
    rw [card_lowest X r hr] at h1
    exact h1.trans (mul_le_mul_of_nonneg_right (le_abs_self _) (Finset.sum_nonneg fun i _ => sq_nonneg _))
  · have h1 := sq_sum_diff_le _ _ _ h hT y
    rw [card_lowest X r hr] at h1
    have e : (∑ i ∈ lowest X r, y i - ∑ i ∈ T, y i) ^ 2 = (∑ i ∈ T, y i - ∑ i ∈ lowest X r, y i) ^ 2 := by ring
    rw [e, abs_sub_comm]
    exact h1.trans (mul_le_mul_of_nonneg_right (le_abs_self _) (Finset.sum_nonneg fun i _ => sq_nonneg _))

/-- Sums over a class are differences of sums over lowest ranks. -/
theorem class_sum (M j : Nat) (hM : 1 ≤ M) (hj : j < M) (y : Nat → ℝ) :
    ((classOf (rankOrdinal X) (linspace (0 : ℝ) X.length (M + 1)) j).map y).sum =
      ∑ i ∈ lowest X ((j + 1) * X.length / M), y i - ∑ i ∈ lowest X (j * X.length / M), y i := by
  set N := X.length with hN
  have hq : j * N / M ≤ (j + 1) * N / M := Nat.div_le_div_right (Nat.mul_le_mul_right _ (by omega))
  have hsub : lowest X (j * N / M) ⊆ lowest X ((j + 1) * N / M) := by
    intro i hi
    obtain ⟨h1, h2⟩ := Finset.mem_filter.mp hi
    exact Finset.mem_filter.mpr ⟨h1, h2.trans hq⟩
  rw [← Finset.sum_sdiff hsub, add_sub_cancel_right]
  have hnd : (classOf (rankOrdinal X) (linspace (0 : ℝ) N (M + 1)) j).Nodup := List.Nodup.filter _ List.nodup_range
  rw [← List.sum_toFinset _ hnd]
  apply Finset.sum_congr _ fun _ _ => rfl
  ext i
  have hM' : (0 : ℝ) < M := by exact_mod_cast hM
  unfold classOf
  rw [List.mem_toFinset, List.mem_filter, npLinspace0_getD N M j hM (by omega), npLinspace0_getD N M (j + 1) hM (by omega),
    length_rankOrdinal]
  simp only [lowest, Finset.mem_sdiff, Finset.mem_filter, Finset.mem_range, List.mem_range, Bool.and_eq_true,
    decide_eq_true_eq, not_and, not_le]
  rw [div_lt_iff₀ hM', le_div_iff₀ hM']
  set r := (rankOrdinal X).getD i 0
  have e1 : ((j : ℝ) * N < r * M) ↔ j * N / M < r := by
    rw [Nat.div_lt_iff_lt_mul (by omega)]
    exact_mod_cast Iff.rfl
  have e2 : ((r : ℝ) * M ≤ ((j + 1 : ℕ) : ℝ) * N) ↔ r ≤ (j + 1) * N / M := by
    rw [Nat.le_div_iff_mul_le (by omega)]
    exact_mod_cast Iff.rfl
  rw [e1, e2, ← hN]
  tauto

end ranks

/-- The sum over the lowest `r` ranks of the input, divided by the number of rows. -/
noncomputable def lowMean {β : Type} (rows : List β) (x y : β → ℝ) (r : Nat) : ℝ :=
  (∑ i ∈ lowest (rows.map x) r, (rows.map y).getD i 0) / rows.length

theorem sum_range_getD (L : List ℝ) : ∑ i ∈ Finset.range L.length, L.getD i 0 = L.sum := by
  conv_rhs => rw [← getD_range L]
  rw [← List.toFinset_range, List.sum_toFinset _ List.nodup_range]

/-- Sums up to a rank are close to sums up to a value with about the same share of the rows. -/
theorem lowMean_near {β : Type} (rows : List β) (x y : β → ℝ) (r : Nat) (hr : r ≤ rows.length) (A : Set β)
    (hA : ∀ a b, x a ≤ x b → b ∈ A → a ∈ A) (h0 : rows ≠ []) :
    (lowMean rows x y r - rowMean rows (A.indicator y)) ^ 2 ≤
      |(r : ℝ) / rows.length - freq rows A| * rowMean rows fun b => y b ^ 2 := by
  classical
  have hN : (0 : ℝ) < rows.length := by exact_mod_cast List.length_pos_iff.mpr h0
  obtain ⟨In, hIn⟩ : ∃ In : Nat → Prop, ∀ i, In i ↔ ∃ b, rows[i]? = some b ∧ b ∈ A := ⟨_, fun _ => Iff.rfl⟩
  set T := (Finset.range rows.length).filter In with hT
  have hget : ∀ (f : β → ℝ) (i : Nat) (b : β), rows[i]? = some b → (rows.map f).getD i 0 = f b := by
    intro f i b h
    rw [List.getD, List.getElem?_map, h]; rfl
  have hsome : ∀ i ∈ Finset.range rows.length, ∃ b, rows[i]? = some b := by
    intro i hi
    exact ⟨_, List.getElem?_eq_getElem (Finset.mem_range.mp hi)⟩
  have hind : ∀ f : β → ℝ, (rows.map (A.indicator f)).sum = ∑ i ∈ T, (rows.map f).getD i 0 := by
    intro f
    rw [← sum_range_getD, List.length_map, hT, Finset.sum_filter]
    apply Finset.sum_congr rfl
    intro i hi
    obtain ⟨b, hb⟩ := hsome i hi
    rw [hget _ i b hb, hget _ i b hb]
    by_cases h : b ∈ A
    · rw [Set.indicator_of_mem h, if_pos ((hIn i).mpr ⟨b, hb, h⟩)]
    · rw [Set.indicator_of_notMem h, if_neg]
      intro hin
      obtain ⟨b', hb', h'⟩ := (hIn i).mp hin
      rw [hb] at hb'
      cases hb'
      exact h h'
  have hcard : freq rows A = (T.card : ℝ) / rows.length := by
    unfold freq rowMean
    rw [hind]
    congr 1
    rw [Finset.card_eq_sum_ones, Nat.cast_sum]
    apply Finset.sum_congr rfl
    intro i hi
    obtain ⟨b, hb⟩ := hsome i (Finset.mem_filter.mp hi).1
    rw [hget _ i b hb]
    simp
  have hq : rowMean rows (fun b => y b ^ 2) = (∑ i ∈ Finset.range rows.length, (rows.map y).getD i 0 ^ 2) / rows.length := by
    unfold rowMean
    congr 1
    rw [← sum_range_getD, List.length_map]
    apply Finset.sum_congr rfl
    intro i hi
    obtain ⟨b, hb⟩ := hsome i hi
    rw [hget _ i b hb, hget _ i b hb]
  have key := lowest_near (rows.map x) r (by rw [List.length_map]; exact hr) T
    (by rw [List.length_map]; exact Finset.filter_subset _ _)
    (by
      intro i hi k hk h
      rw [List.length_map] at hi
      obtain ⟨b, hb⟩ := hsome i (Finset.mem_range.mpr hi)
      obtain ⟨hk1, hk2⟩ := Finset.mem_filter.mp hk
      obtain ⟨c, hc, hcA⟩ := (hIn k).mp hk2
      rw [hget x i b hb, hget x k c hc] at h
      exact Finset.mem_filter.mpr ⟨Finset.mem_range.mpr hi, (hIn i).mpr ⟨b, hb, hA b c h hcA⟩⟩)
    (fun i => (rows.map y).getD i 0)
  rw [List.length_map] at key
  have e1 : rowMean rows (A.indicator y) = (∑ i ∈ T, (rows.map y).getD i 0) / rows.length := by
    unfold rowMean; rw [hind]
  unfold lowMean
  rw [e1, hcard, hq, ← sub_div, ← sub_div, div_pow, abs_div, abs_of_pos hN, div_mul_div_comm, ← sq]
  exact div_le_div_of_nonneg_right key (by positivity)

/-- The first-order index in terms of sums over lowest ranks. -/
theorem sobolFirst_low {β : Type} (rows : List β) (x y : β → ℝ) (M : Nat) (hM : 1 ≤ M) (hMN : M ≤ rows.length)
    (hv : rowMean rows y ^ 2 < rowMean rows fun b => y b ^ 2) :
    sobolFirst (rows.map y) (rows.map x) (linspace 0 (rows.length : ℝ) (M + 1)) =
      some ((∑ j ∈ Finset.range M,
        (((((j + 1) * rows.length / M : ℕ) : ℝ) / rows.length - ((j * rows.length / M : ℕ) : ℝ) / rows.length) *
          ((lowMean rows x y ((j + 1) * rows.length / M) - lowMean rows x y (j * rows.length / M)) /
            ((((j + 1) * rows.length / M : ℕ) : ℝ) / rows.length - ((j * rows.length / M : ℕ) : ℝ) / rows.length) -
            rowMean rows y) ^ 2)) /
        ((rowMean rows fun b => y b ^ 2) - rowMean rows y ^ 2)) := by
  have h0 : rows ≠ [] := by rintro rfl; simp at hMN; omega
  have hN : (0 : ℝ) < rows.length := by exact_mod_cast List.length_pos_iff.mpr h0
  have hmean : Spec.mean (rows.map y) = rowMean rows y := by
    unfold Spec.mean rowMean; rw [List.length_map]
  have hss : Spec.sumSq (rows.map y) (Spec.mean (rows.map y)) =
      rows.length * ((rowMean rows fun b => y b ^ 2) - rowMean rows y ^ 2) := by
    rw [hmean]
    have key : ∀ (l : List β) (c : ℝ), Spec.sumSq (l.map y) c =
        (l.map fun b => y b ^ 2).sum - 2 * c * (l.map y).sum + l.length * c ^ 2 := by
      intro l c
      unfold Spec.sumSq
      induction l with
      | nil => simp
      | cons a l ih =>
        simp only [List.map_cons, List.sum_cons, List.length_cons, Nat.cast_add, Nat.cast_one] at ih ⊢
        rw [ih]; ring
    rw [key]
    unfold rowMean
    field_simp
    ring
  have hY : ptpZero (rows.map y) = false := by
    by_contra h
    have h : ptpZero (rows.map y) = true := by simpa using h
    obtain ⟨c, hc⟩ := (ptpZero_iff (rows.map y) (by simpa using h0)).mp h
    have e1 : rows.map y = List.replicate rows.length c := by
      rw [List.eq_replicate_iff]; exact ⟨by simp, hc⟩
    have e2 : (rows.map fun b => y b ^ 2) = List.replicate rows.length (c ^ 2) := by
      have : (rows.map fun b => y b ^ 2) = (rows.map y).map (· ^ 2) := by rw [List.map_map]; rfl
      rw [this, e1, List.map_replicate]
    unfold rowMean at hv
    rw [e1, e2, List.sum_replicate, List.sum_replicate] at hv
    simp only [nsmul_eq_mul] at hv
    rw [mul_div_cancel_left₀ _ hN.ne', mul_div_cancel_left₀ _ hN.ne'] at hv
    exact lt_irrefl _ hv
  have hlen : (rows.map y).length = (rows.map x).length := by simp
  have hl : (linspace (0 : ℝ) (rows.map x).length (M + 1)).length - 1 = M := by rw [length_linspace]; rfl
  obtain ⟨p1, p2, p3, p4⟩ := linspace_partition (α := ℝ) (rows.map x).length M hM
  have hcls := fun j hj => classOf_nonempty (rows.map x) M hM (by simpa using hMN) j hj
  obtain ⟨hT, he⟩ := sobolFirst_eq (rows.map y) (rows.map x) _ hlen hY (by simpa using h0) p1 p2 p3 p4
    (by rw [hl]; exact hcls)
  have hsum := sumSq_classes (rows.map y) (rows.map x) _ hlen p1 p2 p3 p4 (Spec.mean (rows.map y))
  rw [hl] at he hsum
  have hX : ((rows.map x).length : ℝ) = rows.length := by simp
  rw [hX] at he hsum hcls
  rw [he]
  congr 1
  have hpos : 0 < (rowMean rows fun b => y b ^ 2) - rowMean rows y ^ 2 := by linarith
  have hsplit : ∀ j ∈ List.range M, Spec.sumSq (Spec.classValues (rows.map y) (rows.map x)
      (linspace (0 : ℝ) rows.length (M + 1)) j) (Spec.mean (rows.map y)) = _ := fun j hj =>
    sumSq_split (Spec.classValues (rows.map y) (rows.map x) (linspace (0 : ℝ) rows.length (M + 1)) j)
      (by unfold Spec.classValues; simpa using hcls j (List.mem_range.mp hj)) (Spec.mean (rows.map y))
  rw [List.map_congr_left hsplit, List.sum_map_add] at hsum
  rw [one_sub_div hT.ne']
  rw [eq_div_iff hpos.ne', div_mul_eq_mul_div, div_eq_iff hT.ne']
  have e3 : Spec.sumSq (rows.map y) (Spec.mean (rows.map y)) - (List.map (fun j =>
      Spec.sumSq (Spec.classValues (rows.map y) (rows.map x) (linspace (0 : ℝ) rows.length (M + 1)) j)
        (Spec.mean (Spec.classValues (rows.map y) (rows.map x) (linspace (0 : ℝ) rows.length (M + 1)) j)))
        (List.range M)).sum = rows.length * ∑ j ∈ Finset.range M,
        (((((j + 1) * rows.length / M : ℕ) : ℝ) / rows.length - ((j * rows.length / M : ℕ) : ℝ) / rows.length) *
          ((lowMean rows x y ((j + 1) * rows.length / M) - lowMean rows x y (j * rows.length / M)) /
            ((((j + 1) * rows.length / M : ℕ) : ℝ) / rows.length - ((j * rows.length / M : ℕ) : ℝ) / rows.length) -
            rowMean rows y) ^ 2) := by
    rw [hsum, add_sub_cancel_left, Finset.mul_sum, ← List.toFinset_range, List.sum_toFinset _ List.nodup_range]
    congr 1
    apply List.map_congr_left
    intro j hj
    have hj := List.mem_range.mp hj
    have c1 := class_sum (rows.map x) M j hM hj fun _ => 1
    have c2 := class_sum (rows.map x) M j hM hj fun i => (rows.map y).getD i 0
    have hle : ∀ k ≤ M, k * rows.length / M ≤ (rows.map x).length := by
      intro k hk
      rw [List.length_map]
      exact Nat.div_le_of_le_mul (Nat.mul_le_mul_right _ hk)
    rw [List.length_map] at c1 c2
    simp only [List.map_const', List.sum_replicate, Finset.sum_const, nsmul_eq_mul, mul_one] at c1
    rw [card_lowest _ _ (hle (j + 1) (by omega)), card_lowest _ _ (hle j (by omega))] at c1
    have hcm : Spec.mean (Spec.classValues (rows.map y) (rows.map x) (linspace (0 : ℝ) rows.length (M + 1)) j) =
        (lowMean rows x y ((j + 1) * rows.length / M) - lowMean rows x y (j * rows.length / M)) /
            ((((j + 1) * rows.length / M : ℕ) : ℝ) / rows.length - ((j * rows.length / M : ℕ) : ℝ) / rows.length) := by
      unfold Spec.mean Spec.classValues lowMean
      rw [List.length_map, c2, c1, ← sub_div, ← sub_div, div_div_div_cancel_right₀ hN.ne']
    rw [hcm, hmean]
    unfold Spec.classValues
    rw [List.length_map, c1]
    field_simp
  rw [e3, hss]
  ring

open Filter Topology in
/-- The limit of the first-order index along rows whose shares and partial means converge. -/
theorem sobolFirst_limit {β ι : Type} (l : Filter ι) (R : ι → List β) (x y : β → ℝ) (M : Nat) (hM : 1 ≤ M)
    (A : Nat → Set β) (hA : ∀ k a b, x a ≤ x b → b ∈ A k → a ∈ A k) (c : Nat → ℝ) (q : ℝ)
    (hR : Tendsto (fun i => (R i).length) l atTop)
    (hf : ∀ k ≤ M, Tendsto (fun i => freq (R i) (A k)) l (𝓝 ((k : ℝ) / M)))
    (hc : ∀ k ≤ M, Tendsto (fun i => rowMean (R i) ((A k).indicator y)) l (𝓝 (c k)))
    (hAM : A M = Set.univ) (hq : Tendsto (fun i => rowMean (R i) fun b => y b ^ 2) l (𝓝 q)) (hv : c M ^ 2 < q) :
    ∃ s : ι → ℝ, (∀ᶠ i in l, sobolFirst ((R i).map y) ((R i).map x) (linspace 0 ((R i).length : ℝ) (M + 1)) = some (s i)) ∧
      Tendsto s l (𝓝 ((∑ j ∈ Finset.range M, 1 / (M : ℝ) * (M * (c (j + 1) - c j) - c M) ^ 2) / (q - c M ^ 2))) := by
  have hM' : (0 : ℝ) < M := by exact_mod_cast hM
  have hμ : Tendsto (fun i => rowMean (R i) y) l (𝓝 (c M)) := by
    have := hc M le_rfl
    simpa [hAM] using this
  have hlenR : Tendsto (fun i => ((R i).length : ℝ)) l atTop := tendsto_natCast_atTop_atTop.comp hR
  have hpos : ∀ᶠ i in l, 0 < ((R i).length : ℝ) := hlenR.eventually_gt_atTop 0
  have hu : ∀ k, Tendsto (fun i => ((k * (R i).length / M : ℕ) : ℝ) / (R i).length) l (𝓝 ((k : ℝ) / M)) := by
    intro k
    have hinv : Tendsto (fun i => (1 : ℝ) / (R i).length) l (𝓝 0) := by
      simpa [Function.comp_def] using tendsto_inv_atTop_zero.comp hlenR
    have hlo : Tendsto (fun i => (k : ℝ) / M - 1 / (R i).length) l (𝓝 ((k : ℝ) / M)) := by
      simpa using tendsto_const_nhds.sub hinv
    refine tendsto_of_tendsto_of_tendsto_of_le_of_le' hlo tendsto_const_nhds ?_ ?_
    · filter_upwards [hpos] with i hi
      have h1 : k * (R i).length < (k * (R i).length / M + 1) * M := Nat.lt_mul_of_div_lt (Nat.lt_succ_self _) (by omega)
      have h2 : (k : ℝ) * (R i).length < (((k * (R i).length / M : ℕ) : ℝ) + 1) * M := by exact_mod_cast h1
      rw [sub_le_iff_le_add, ← add_div, div_le_div_iff₀ hM' hi]
      linarith
    · filter_upwards [hpos] with i hi
      have h1 : ((k * (R i).length / M : ℕ) : ℝ) ≤ ((k * (R i).length : ℕ) : ℝ) / M := Nat.cast_div_le
      push_cast at h1
      rw [le_div_iff₀ hM'] at h1
      rw [div_le_div_iff₀ hi hM']
      linarith
  have hw : ∀ k ≤ M, Tendsto (fun i => lowMean (R i) x y (k * (R i).length / M)) l (𝓝 (c k)) := by
    intro k hk
    have h1 : Tendsto (fun i => (lowMean (R i) x y (k * (R i).length / M) - rowMean (R i) ((A k).indicator y)) ^ 2) l (𝓝 0) := by
      have h2 : Tendsto (fun i => |((k * (R i).length / M : ℕ) : ℝ) / (R i).length - freq (R i) (A k)| *
          rowMean (R i) fun b => y b ^ 2) l (𝓝 0) := by
        simpa using (((hu k).sub (hf k hk)).abs).mul hq
      refine tendsto_of_tendsto_of_tendsto_of_le_of_le' tendsto_const_nhds h2 (Eventually.of_forall fun i => sq_nonneg _) ?_
      filter_upwards [hpos] with i hi
      refine lowMean_near (R i) x y _ ?_ (A k) (hA k) ?_
      · exact Nat.div_le_of_le_mul (Nat.mul_le_mul_right _ hk)
      · rintro h
        rw [h] at hi
        simp at hi
    have h3 : Tendsto (fun i => lowMean (R i) x y (k * (R i).length / M) - rowMean (R i) ((A k).indicator y)) l (𝓝 0) := by
      have := (Real.continuous_sqrt.tendsto 0).comp h1
      rw [Real.sqrt_zero] at this
      rw [tendsto_zero_iff_abs_tendsto_zero]
      refine this.congr fun i => ?_
      simp only [Function.comp, Real.sqrt_sq_eq_abs]
    simpa using h3.add (hc k hk)
  refine ⟨fun i => (∑ j ∈ Finset.range M,
        (((((j + 1) * (R i).length / M : ℕ) : ℝ) / (R i).length - ((j * (R i).length / M : ℕ) : ℝ) / (R i).length) *
          ((lowMean (R i) x y ((j + 1) * (R i).length / M) - lowMean (R i) x y (j * (R i).length / M)) /
            ((((j + 1) * (R i).length / M : ℕ) : ℝ) / (R i).length - ((j * (R i).length / M : ℕ) : ℝ) / (R i).length) -
            rowMean (R i) y) ^ 2)) / ((rowMean (R i) fun b => y b ^ 2) - rowMean (R i) y ^ 2), ?_, ?_⟩
  rotate_left
  · have hD : ∀ j, (((j + 1 : ℕ) : ℝ) / M - (j : ℝ) / M) = 1 / M := by
      intro j; push_cast; ring
    have hterm : ∀ j ∈ Finset.range M, Tendsto (fun i =>
        (((((j + 1) * (R i).length / M : ℕ) : ℝ) / (R i).length - ((j * (R i).length / M : ℕ) : ℝ) / (R i).length) *
          ((lowMean (R i) x y ((j + 1) * (R i).length / M) - lowMean (R i) x y (j * (R i).length / M)) /
            ((((j + 1) * (R i).length / M : ℕ) : ℝ) / (R i).length - ((j * (R i).length / M : ℕ) : ℝ) / (R i).length) -
            rowMean (R i) y) ^ 2)) l (𝓝 (1 / (M : ℝ) * (M * (c (j + 1) - c j) - c M) ^ 2)) := by
      intro j hj
      have hj := Finset.mem_range.mp hj
      have h1 := (hu (j + 1)).sub (hu j)
      rw [hD] at h1
      have h2 := ((hw (j + 1) (by omega)).sub (hw j (by omega))).div h1 (by positivity)
      rw [div_div_eq_mul_div, div_one, mul_comm] at h2
      exact h1.mul ((h2.sub hμ).pow 2)
    exact (tendsto_finsetSum _ hterm).div (hq.sub (hμ.pow 2)) (by linarith)
  · filter_upwards [hR.eventually_ge_atTop M, (hμ.pow 2).eventually_lt hq hv] with i h1 h2
    exact sobolFirst_low (R i) x y M hM h1 h2

end SALib
