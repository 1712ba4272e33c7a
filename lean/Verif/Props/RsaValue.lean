import Verif.Lemmas.CvmRanks
import Verif.Props.Rsa
import Verif.Props.NullIndex
import Mathlib.Data.List.GetD

/-! # Values of a regional sensitivity analysis (C128) -/

set_option linter.unusedSectionVars false

namespace SALib

variable {α : Type} [Field α] [LinearOrder α] [IsStrictOrderedRing α]

/-- Each pair of values of the two samples is in one order or the other. -/
theorem sum_pairs (a b : List α) (hab : (a ++ b).Nodup) :
    (a.map fun x => ((b.countP fun w => decide (w ≤ x) : Nat) : α)).sum +
      (b.map fun y => ((a.countP fun w => decide (w ≤ y) : Nat) : α)).sum = (a.length : α) * b.length := by
  induction a with
  | nil => simp
  | cons x a ih =>
    rw [List.cons_append, List.nodup_cons] at hab
    have ih := ih hab.2
    have hx : x ∉ b := fun h => hab.1 (List.mem_append_right _ h)
    have h1 : ∀ b : List α, x ∉ b → ((b.countP fun w => decide (w ≤ x) : Nat) : α) +
        (b.map fun y => if x ≤ y then (1 : α) else 0).sum = b.length := by
      intro b
      induction b with
      | nil => simp
      | cons y b ihb =>
        intro hy
        rw [List.mem_cons, not_or] at hy
        have := ihb hy.2
        rw [List.countP_cons, List.map_cons, List.sum_cons, List.length_cons]
        rcases lt_or_gt_of_ne hy.1 with h | h
        · rw [if_pos h.le, if_neg (by simpa using h)]
          push_cast
          linear_combination this
        · rw [if_neg (not_le.mpr h), if_pos (by simpa using h.le)]
          push_cast
          linear_combination this
    have h2 : (b.map fun y => (((x :: a).countP fun w => decide (w ≤ y) : Nat) : α)).sum =
        (b.map fun y => ((a.countP fun w => decide (w ≤ y) : Nat) : α)).sum +
          (b.map fun y => if x ≤ y then (1 : α) else 0).sum := by
      rw [← List.sum_map_add]
      congr 1
      apply List.map_congr_left
      intro y _
      rw [List.countP_cons]
      by_cases h : x ≤ y
      · simp [h]
      · simp [h]
    rw [List.map_cons, List.sum_cons, h2, List.length_cons]
    push_cast
    linear_combination ih + h1 b hx

theorem sum_map_le (l : List α) (f g : α → α) (h : ∀ x ∈ l, f x ≤ g x) : (l.map f).sum ≤ (l.map g).sum :=
  List.sum_le_sum h

/-- The statistic before its terms are gathered. -/
theorem cvmStat_counts (a b : List α) (hab : (a ++ b).Nodup) :
    cvmStat a b = ((a.length : α) * (a.map fun x => ((b.countP fun w => decide (w ≤ x) : Nat) : α) ^ 2).sum +
        (b.length : α) * (b.map fun x => ((a.countP fun w => decide (w ≤ x) : Nat) : α) ^ 2).sum) /
        ((a.length : α) * b.length * (a.length + b.length)) -
      (4 * ((a.length : α) * b.length) - 1) / (6 * (a.length + b.length)) := by
  have hba : (b ++ a).Nodup := List.perm_append_comm.nodup_iff.mp hab
  have hz : (npSort a ++ npSort b).Nodup := ((npSort_perm a).append (npSort_perm b)).nodup_iff.mpr hab
  unfold cvmStat
  simp only []
  rw [rankGap_value _ (npSort a) (npSort b) (npSort_strict a (List.nodup_append.mp hab).1) hz (List.Perm.refl _),
    rankGap_value _ (npSort b) (npSort a) (npSort_strict b (List.nodup_append.mp hba).1) hz List.perm_append_comm,
    ((npSort_perm a).map _).sum_eq, ((npSort_perm b).map _).sum_eq]
  simp only [(npSort_perm a).countP_eq, (npSort_perm b).countP_eq]

/-- **C128**, the greatest possible value. -/
theorem cvmStat_le (a b : List α) (ha : a ≠ []) (hb : b ≠ []) (hab : (a ++ b).Nodup) :
    cvmStat a b ≤ (2 * ((a.length : α) * b.length) + 1) / (6 * (a.length + b.length)) := by
  have hn : (0 : α) < a.length := by exact_mod_cast List.length_pos_iff.mpr ha
  have hm : (0 : α) < b.length := by exact_mod_cast List.length_pos_iff.mpr hb
  rw [cvmStat_counts a b hab]
  have h1 : ∀ a b : List α, (a.map fun x => ((b.countP fun w => decide (w ≤ x) : Nat) : α) ^ 2).sum ≤
      b.length * (a.map fun x => ((b.countP fun w => decide (w ≤ x) : Nat) : α)).sum := by
    intro a b
    rw [← List.sum_map_mul_left]
    apply sum_map_le
    intro x _
    have : ((b.countP fun w => decide (w ≤ x) : Nat) : α) ≤ b.length := by exact_mod_cast List.countP_le_length
    rw [pow_two]
    exact mul_le_mul_of_nonneg_right this (by positivity)
  have h2 := h1 a b
  have h3 := h1 b a
  have hs := sum_pairs a b hab
  generalize (a.map fun x => ((b.countP fun w => decide (w ≤ x) : Nat) : α)).sum = A at *
  generalize (b.map fun x => ((a.countP fun w => decide (w ≤ x) : Nat) : α)).sum = B at *
  generalize (a.map fun x => ((b.countP fun w => decide (w ≤ x) : Nat) : α) ^ 2).sum = A2 at *
  generalize (b.map fun x => ((a.countP fun w => decide (w ≤ x) : Nat) : α) ^ 2).sum = B2 at *
  generalize (a.length : α) = n at *
  generalize (b.length : α) = m at *
  have hU : n * A2 + m * B2 ≤ (n * m) ^ 2 := by
    have e1 := mul_le_mul_of_nonneg_left h2 hn.le
    have e2 := mul_le_mul_of_nonneg_left h3 hm.le
    have : n * (m * A) + m * (n * B) = (n * m) ^ 2 := by linear_combination (n * m) * hs
    linarith
  have hN : 0 < n + m := by positivity
  have : (n * A2 + m * B2) / (n * m * (n + m)) ≤ n * m / (n + m) := by
    rw [div_le_div_iff₀ (by positivity) hN]
    have := mul_le_mul_of_nonneg_right hU hN.le
    linarith
  have e : (2 * (n * m) + 1) / (6 * (n + m)) = n * m / (n + m) - (4 * (n * m) - 1) / (6 * (n + m)) := by
    field_simp
    ring
  rw [e]
  linarith

/-- The value for samples that do not overlap. -/
theorem cvmStat_separated (a b : List α) (ha : a ≠ []) (hb : b ≠ []) (hna : a.Nodup) (hnb : b.Nodup)
    (h : ∀ x ∈ a, ∀ y ∈ b, x < y) :
    cvmStat a b = (2 * ((a.length : α) * b.length) + 1) / (6 * (a.length + b.length)) := by
  have hn : (0 : α) < a.length := by exact_mod_cast List.length_pos_iff.mpr ha
  have hm : (0 : α) < b.length := by exact_mod_cast List.length_pos_iff.mpr hb
  have hab : (a ++ b).Nodup := List.nodup_append.mpr ⟨hna, hnb, fun x hx y hy => (h x hx y hy).ne⟩
  rw [cvmStat_counts a b hab]
  have e1 : (a.map fun x => ((b.countP fun w => decide (w ≤ x) : Nat) : α) ^ 2).sum = 0 := by
    apply List.sum_eq_zero
    intro y hy
    obtain ⟨x, hx, rfl⟩ := List.mem_map.mp hy
    rw [List.countP_eq_zero.mpr (fun w hw => by simpa using h x hx w hw)]
    simp
  have e2 : (b.map fun x => ((a.countP fun w => decide (w ≤ x) : Nat) : α) ^ 2).sum = b.length * (a.length : α) ^ 2 := by
    have : (b.map fun x => ((a.countP fun w => decide (w ≤ x) : Nat) : α) ^ 2) = b.map fun _ => (a.length : α) ^ 2 := by
      apply List.map_congr_left
      intro y hy
      rw [List.countP_eq_length.mpr (fun w hw => by simpa using (h w hw y hy).le)]
    rw [this, List.map_const', List.sum_replicate, nsmul_eq_mul]
  rw [e1, e2]
  generalize (a.length : α) = n at *
  generalize (b.length : α) = m at *
  have hN : 0 < n + m := by positivity
  field_simp
  ring

/-- The value is positive when no value occurs twice. -/
theorem cvmStat_pos (a b : List α) (ha : a ≠ []) (hb : b ≠ []) (hab : (a ++ b).Nodup) : 0 < cvmStat a b := by
  have hn : (0 : α) < a.length := by exact_mod_cast List.length_pos_iff.mpr ha
  have hm : (0 : α) < b.length := by exact_mod_cast List.length_pos_iff.mpr hb
  rw [cvmStat_value a b ha hb hab]
  have hpos : 0 < ((a ++ b).map fun t => (Spec.shareUpTo a t - Spec.shareUpTo b t) ^ 2).sum := by
    obtain ⟨z, hz, hmin⟩ := (a ++ b).toFinset.exists_min_image id
      ⟨a.head ha, List.mem_toFinset.mpr (List.mem_append_left _ (List.head_mem ha))⟩
    rw [List.mem_toFinset] at hz
    have hmin' : ∀ w ∈ a ++ b, z ≤ w := fun w hw => hmin w (List.mem_toFinset.mpr hw)
    have hd := (List.nodup_append.mp hab).2.2
    have step : ∀ a b : List α, z ∈ a → (∀ w ∈ b, z < w) → 0 < Spec.shareUpTo a z ∧ Spec.shareUpTo b z = 0 := by
      intro a b h1 h2
      unfold Spec.shareUpTo
      constructor
      · have : 0 < a.countP fun x => decide (x ≤ z) := List.countP_pos_iff.mpr ⟨z, h1, by simp⟩
        have h3 : 0 < a.length := List.length_pos_of_mem h1
        have : (0 : α) < ((a.countP fun x => decide (x ≤ z) : Nat) : α) := by exact_mod_cast this
        have h3 : (0 : α) < a.length := by exact_mod_cast h3
        positivity
      · rw [List.countP_eq_zero.mpr (fun w hw => by simpa using h2 w hw)]
        simp
    have hne : Spec.shareUpTo a z - Spec.shareUpTo b z ≠ 0 := by
      rcases List.mem_append.mp hz with h | h
      · have := step a b h fun w hw => lt_of_le_of_ne (hmin' w (List.mem_append_right _ hw)) (hd z h w hw)
        rw [this.2, sub_zero]; exact this.1.ne'
      · have := step b a h fun w hw => lt_of_le_of_ne (hmin' w (List.mem_append_left _ hw)) (Ne.symm (hd w hw z h))
        rw [this.2, zero_sub]; exact neg_ne_zero.mpr this.1.ne'
    have hsq : 0 < (Spec.shareUpTo a z - Spec.shareUpTo b z) ^ 2 := by positivity
    refine lt_of_lt_of_le hsq ?_
    apply List.single_le_sum
    · intro x hx
      obtain ⟨t, -, rfl⟩ := List.mem_map.mp hx
      positivity
    · exact List.mem_map.mpr ⟨z, hz, rfl⟩
  unfold Spec.meanSqDistance
  have : (0 : α) < ((a ++ b).length : α) := by
    rw [List.length_append]; push_cast; positivity
  positivity

theorem npSort_map_on (l : List α) (f : α → α) (hf : ∀ x ∈ l, ∀ z ∈ l, x < z → f x < f z) :
    npSort (l.map f) = (npSort l).map f := by
  apply List.Perm.eq_of_pairwise (le := (· ≤ ·))
  · intro x y _ _ h1 h2; exact le_antisymm h1 h2
  · exact npSort_sorted _
  · rw [List.pairwise_map]
    refine (npSort_sorted l).imp_of_mem fun {x z} hx hz h => ?_
    rcases lt_or_eq_of_le h with h | h
    · exact (hf x ((npSort_perm l).mem_iff.mp hx) z ((npSort_perm l).mem_iff.mp hz) h).le
    · rw [h]
  · exact (npSort_perm _).trans ((npSort_perm l).symm.map f)

/-- Increasing maps do not change the statistic (ties allowed). -/
theorem cvmStat_map (a b : List α) (f : α → α) (hf : ∀ x ∈ a ++ b, ∀ z ∈ a ++ b, x < z → f x < f z) :
    cvmStat (a.map f) (b.map f) = cvmStat a b := by
  have hsa : npSort (a.map f) = (npSort a).map f := npSort_map_on a f fun x hx z hz =>
    hf x (List.mem_append_left _ hx) z (List.mem_append_left _ hz)
  have hsb : npSort (b.map f) = (npSort b).map f := npSort_map_on b f fun x hx z hz =>
    hf x (List.mem_append_right _ hx) z (List.mem_append_right _ hz)
  have hmem : ∀ x, x ∈ npSort a ++ npSort b → x ∈ a ++ b := fun x hx =>
    ((npSort_perm a).append (npSort_perm b)).mem_iff.mp hx
  have hlt : ∀ x ∈ npSort a ++ npSort b, ∀ z ∈ npSort a ++ npSort b, (f x < f z ↔ x < z) := by
    intro x hx z hz
    constructor
    · intro h
      rcases lt_trichotomy x z with h' | h' | h'
      · exact h'
      · rw [h'] at h; exact absurd h (lt_irrefl _)
      · exact absurd (hf z (hmem z hz) x (hmem x hx) h') (not_lt.mpr h.le)
    · exact hf x (hmem x hx) z (hmem z hz)
  have heq : ∀ x ∈ npSort a ++ npSort b, ∀ z ∈ npSort a ++ npSort b, (f x = f z ↔ x = z) := by
    intro x hx z hz
    constructor
    · intro h
      rcases lt_trichotomy x z with h' | h' | h'
      · exact absurd h ((hlt x hx z hz).mpr h').ne
      · exact h'
      · exact absurd h ((hlt z hz x hx).mpr h').ne'
    · intro h; rw [h]
  have hr : ∀ v ∈ npSort a ++ npSort b, avgRank ((npSort a ++ npSort b).map f) (f v) = avgRank (npSort a ++ npSort b) v := by
    intro v hv
    unfold avgRank
    rw [List.filter_map, List.filter_map, List.length_map, List.length_map]
    have e1 : (npSort a ++ npSort b).filter ((fun w => decide (w < f v)) ∘ f) =
        (npSort a ++ npSort b).filter fun w => decide (w < v) := by
      apply List.filter_congr
      intro w hw
      simp only [Function.comp, hlt w hw v hv]
    have e2 : (npSort a ++ npSort b).filter ((fun w => decide (w = f v)) ∘ f) =
        (npSort a ++ npSort b).filter fun w => decide (w = v) := by
      apply List.filter_congr
      intro w hw
      simp only [Function.comp, heq w hw v hv]
    rw [e1, e2]
  have hg : ∀ l : List α, (∀ x ∈ l, x ∈ npSort a ++ npSort b) →
      rankGap ((npSort a ++ npSort b).map f) (l.map f) = rankGap (npSort a ++ npSort b) l := by
    intro l hl
    unfold rankGap
    rw [List.zipIdx_map, List.map_map]
    congr 1
    apply List.map_congr_left
    intro p hp
    have hp' : p.1 ∈ l := List.mem_of_getElem? (List.mem_zipIdx_iff_getElem?.mp hp)
    simp only [Function.comp, Prod.map, id]
    rw [hr _ (hl _ hp')]
  unfold cvmStat
  simp only []
  rw [hsa, hsb, ← List.map_append, hg _ (fun x hx => List.mem_append_left _ hx),
    hg _ (fun x hx => List.mem_append_right _ hx), List.length_map, List.length_map]

/-- Which sample is called the first does not matter (ties allowed). -/
theorem cvmStat_comm (a b : List α) : cvmStat a b = cvmStat b a := by
  have hg : ∀ z z' l : List α, z.Perm z' → rankGap z l = rankGap z' l := by
    intro z z' l h
    unfold rankGap
    congr 1
    apply List.map_congr_left
    intro p _
    rw [avgRank_perm z z' h]
  unfold cvmStat
  simp only []
  rw [hg _ (npSort b ++ npSort a) (npSort a) List.perm_append_comm,
    hg _ (npSort b ++ npSort a) (npSort b) List.perm_append_comm, mul_comm (a.length : α) (b.length : α),
    add_comm (a.length : α) (b.length : α), add_comm ((a.length : α) * _)]

theorem map_getD_range (g : List α) : (List.range g.length).map (fun i => g.getD i 0) = g := by
  apply List.ext_getElem
  · simp
  · intro i h1 h2
    rw [List.getElem_map, List.getElem_range, List.getD_eq_getElem g 0 h2]

/-- The two sides of a bin: what is compared. -/
theorem rsaEntry_sides (col y : List α) (hl : col.length = y.length) (bins s : Nat) (hs : s < bins)
    (target : RsaTarget) (hnd : (if target = .X then y else col).Nodup) (v : α)
    (hv : rsaEntry cvmStat col y bins target s = some v) :
    ∃ inside outside : List Nat, (inside ++ outside).Perm (List.range y.length) ∧
      (∀ i, i ∈ inside ↔ ∃ x, (if target = .X then col else y)[i]? = some x ∧
        (s = 0 ∨ npQuantile (if target = .X then col else y) s bins < x) ∧
        x ≤ npQuantile (if target = .X then col else y) (s + 1) bins) ∧ inside ≠ [] ∧ outside ≠ [] ∧
      ((inside.map fun i => (if target = .X then y else col).getD i 0) ++
        (outside.map fun i => (if target = .X then y else col).getD i 0)).Nodup ∧
      v = cvmStat (inside.map fun i => (if target = .X then y else col).getD i 0)
        (outside.map fun i => (if target = .X then y else col).getD i 0) := by
  have h := C55_entry cvmStat col y hl bins s hs target
  have hne : rsaEntry cvmStat col y bins target s ≠ none := by rw [hv]; simp
  obtain ⟨⟨i, hi, -⟩, k, hk, hkb⟩ := not_not.mp (fun hc => hne (h.1.mpr hc))
  obtain ⟨inside, outside, hperm, hin, hval⟩ := h.2 v hv
  refine ⟨inside, outside, hperm, ?_, ?_, ?_, ?_, ?_⟩
  · intro i
    rw [hin, mem_rsaBin _ bins s i hs]
    refine exists_congr fun x => and_congr_right fun hx => and_congr_left fun _ => ?_
    by_cases h0 : s = 0
    · rw [if_pos h0, npQuantile_zero]
      exact ⟨fun _ => Or.inl h0, fun _ => npSort_first_le _ x (List.mem_of_getElem? hx)⟩
    · rw [if_neg h0]
      exact ⟨Or.inr, fun h => h.resolve_left h0⟩
  · rintro rfl
    exact absurd ((hin i).mpr hi) (by simp)
  · rintro rfl
    rw [List.append_nil] at hperm
    exact hkb ((hin k).mp (hperm.mem_iff.mpr (List.mem_range.mpr hk)))
  · rw [← List.map_append]
    have hlen : (if target = .X then y else col).length = y.length := by split <;> simp [hl]
    refine ((hperm.map _).nodup_iff).mpr ?_
    rw [← hlen, map_getD_range]
    exact hnd
  · rw [hval]
    by_cases ht : target = .X
    · simp only [if_pos ht]
    · simp only [if_neg ht]

/-- **C128**, the value reported for a bin, when no compared value occurs twice: it is `n m / (n + m)` times the mean
squared distance of the two distribution functions, where `n` samples are inside the bin and `m` outside.  It is never
0, and at most `(2 n m + 1) / (6 (n + m))`. -/
theorem C128_value (col y : List α) (hl : col.length = y.length) (bins s : Nat) (hs : s < bins)
    (target : RsaTarget) (hnd : (if target = .X then y else col).Nodup) (v : α)
    (hv : rsaEntry cvmStat col y bins target s = some v) :
    ∃ inside outside : List Nat, (inside ++ outside).Perm (List.range y.length) ∧
      (∀ i, i ∈ inside ↔ ∃ x, (if target = .X then col else y)[i]? = some x ∧
        (s = 0 ∨ npQuantile (if target = .X then col else y) s bins < x) ∧
        x ≤ npQuantile (if target = .X then col else y) (s + 1) bins) ∧
      v = (inside.length : α) * outside.length / (inside.length + outside.length) *
        Spec.meanSqDistance (inside.map fun i => (if target = .X then y else col).getD i 0)
          (outside.map fun i => (if target = .X then y else col).getD i 0) ∧
      0 < v ∧ v ≤ (2 * ((inside.length : α) * outside.length) + 1) / (6 * (inside.length + outside.length)) := by
  obtain ⟨inside, outside, hperm, hin, hi, ho, hn, hval⟩ := rsaEntry_sides col y hl bins s hs target hnd v hv
  have hi' : (inside.map fun i => (if target = .X then y else col).getD i 0) ≠ [] := by simpa using hi
  have ho' : (outside.map fun i => (if target = .X then y else col).getD i 0) ≠ [] := by simpa using ho
  refine ⟨inside, outside, hperm, hin, ?_, ?_, ?_⟩
  · rw [hval, cvmStat_value _ _ hi' ho' hn, List.length_map, List.length_map]
  · rw [hval]; exact cvmStat_pos _ _ hi' ho' hn
  · have := cvmStat_le _ _ hi' ho' hn
    rw [List.length_map, List.length_map] at this
    rw [hval]; exact this

/-- **C128**, the bound is reached: when the compared values increase (or decrease) with the values that are binned,
the value of the first bin is `(2 n m + 1) / (6 (n + m))`, which has no bound as the sample grows. -/
theorem C128_greatest (col y : List α) (hl : col.length = y.length) (bins : Nat) (hb : 0 < bins)
    (target : RsaTarget) (hnd : (if target = .X then y else col).Nodup)
    (hmono : (∀ i j, i < y.length → j < y.length →
        (if target = .X then col else y).getD i 0 < (if target = .X then col else y).getD j 0 →
        (if target = .X then y else col).getD i 0 < (if target = .X then y else col).getD j 0) ∨
      (∀ i j, i < y.length → j < y.length →
        (if target = .X then col else y).getD i 0 < (if target = .X then col else y).getD j 0 →
        (if target = .X then y else col).getD j 0 < (if target = .X then y else col).getD i 0)) (v : α)
    (hv : rsaEntry cvmStat col y bins target 0 = some v) :
    ∃ n m : Nat, n + m = y.length ∧
      n = ((if target = .X then col else y).countP fun x =>
        decide (x ≤ npQuantile (if target = .X then col else y) 1 bins)) ∧
      v = (2 * ((n : α) * m) + 1) / (6 * (n + m)) := by
  obtain ⟨inside, outside, hperm, hin, hi, ho, hn, hval⟩ := rsaEntry_sides col y hl bins 0 hb target hnd v hv
  have hi' : (inside.map fun i => (if target = .X then y else col).getD i 0) ≠ [] := by simpa using hi
  have ho' : (outside.map fun i => (if target = .X then y else col).getD i 0) ≠ [] := by simpa using ho
  have hlt : (if target = .X then col else y).length = y.length := by split <;> simp [hl]
  have hmem : ∀ i, i ∈ inside ∨ i ∈ outside ↔ i < y.length := by
    intro i
    rw [← List.mem_append, hperm.mem_iff, List.mem_range]
  have hnd' : (inside ++ outside).Nodup := hperm.nodup_iff.mpr List.nodup_range
  have hlow : ∀ i ∈ inside, (if target = .X then col else y).getD i 0 ≤
      npQuantile (if target = .X then col else y) 1 bins := by
    intro i h
    obtain ⟨x, hx, -, h2⟩ := (hin i).mp h
    rw [List.getD, hx]
    exact h2
  have hhigh : ∀ i ∈ outside, npQuantile (if target = .X then col else y) 1 bins <
      (if target = .X then col else y).getD i 0 := by
    intro i h
    have hlt' : i < (if target = .X then col else y).length := by rw [hlt]; exact (hmem i).mp (Or.inr h)
    by_contra hc
    refine (List.nodup_append.mp hnd').2.2 i ((hin i).mpr ⟨_, List.getElem?_eq_getElem hlt', Or.inl rfl, ?_⟩) i h rfl
    rw [← List.getD_eq_getElem _ 0 hlt']
    exact not_lt.mp hc
  have hlen : inside.length + outside.length = y.length := by
    rw [← List.length_append, hperm.length_eq, List.length_range]
  refine ⟨inside.length, outside.length, hlen, ?_, ?_⟩
  · have hc : ∀ P : α → Bool, (if target = .X then col else y).countP P =
        (inside ++ outside).countP fun i => P ((if target = .X then col else y).getD i 0) := by
      intro P
      conv_lhs => rw [← map_getD_range (if target = .X then col else y)]
      rw [hlt, List.countP_map, ← hperm.countP_eq]
      rfl
    rw [hc, List.countP_append, List.countP_eq_length.mpr, List.countP_eq_zero.mpr, add_zero]
    · intro i h
      simpa using hhigh i h
    · intro i h
      simpa using hlow i h
  · have hna := (List.nodup_append.mp hn).1
    have hnb := (List.nodup_append.mp hn).2.1
    rcases hmono with hm | hm
    · rw [hval, cvmStat_separated _ _ hi' ho' hna hnb, List.length_map, List.length_map]
      intro x hx z hz
      obtain ⟨i, hi1, rfl⟩ := List.mem_map.mp hx
      obtain ⟨j, hj1, rfl⟩ := List.mem_map.mp hz
      exact hm i j ((hmem i).mp (Or.inl hi1)) ((hmem j).mp (Or.inr hj1)) ((hlow i hi1).trans_lt (hhigh j hj1))
    · rw [hval, cvmStat_comm, cvmStat_separated _ _ ho' hi' hnb hna, List.length_map, List.length_map,
        mul_comm (outside.length : α), add_comm (outside.length : α)]
      intro x hx z hz
      obtain ⟨i, hi1, rfl⟩ := List.mem_map.mp hx
      obtain ⟨j, hj1, rfl⟩ := List.mem_map.mp hz
      exact hm j i ((hmem j).mp (Or.inl hj1)) ((hmem i).mp (Or.inr hi1)) ((hlow j hj1).trans_lt (hhigh i hi1))

/-! ## An input that has nothing to do with the output -/

theorem sum_upTo (S : Finset ℝ) : 2 * ∑ t ∈ S, ((S.filter fun w => w ≤ t).card : ℝ) = (S.card : ℝ) * (S.card + 1) := by
  induction S using Finset.induction_on_max with
  | empty => simp
  | insert m S hm ih =>
    have hmS : m ∉ S := fun h => lt_irrefl _ (hm m h)
    rw [Finset.sum_insert hmS, Finset.card_insert_of_notMem hmS]
    have e1 : (insert m S).filter (fun w => w ≤ m) = insert m S := by
      apply Finset.filter_true_of_mem
      intro w hw
      rcases Finset.mem_insert.mp hw with rfl | h
      · exact le_refl _
      · exact (hm w h).le
    have e2 : ∑ t ∈ S, (((insert m S).filter fun w => w ≤ t).card : ℝ) = ∑ t ∈ S, ((S.filter fun w => w ≤ t).card : ℝ) :=
      Finset.sum_congr rfl fun t ht => by rw [Finset.filter_insert, if_neg (not_le.mpr (hm t ht))]
    rw [e1, e2, Finset.card_insert_of_notMem hmS, mul_add, ih]
    push_cast
    ring

theorem sum_sq_upTo_all (S : Finset ℝ) :
    6 * ∑ t ∈ S, ((S.filter fun w => w ≤ t).card : ℝ) ^ 2 = (S.card : ℝ) * (S.card + 1) * (2 * S.card + 1) := by
  have := sum_sq_upTo S fun _ => True
  simpa [upTo] using this

/-- The same for distinct values given by position. -/
theorem sum_rank_gap {N : Nat} (f : Fin N → ℝ) (hf : Function.Injective f) :
    6 * ∑ t, ((Finset.univ.filter fun j => f j ≤ f t).card : ℝ) * (N - (Finset.univ.filter fun j => f j ≤ f t).card) =
      (N : ℝ) * ((N : ℝ) ^ 2 - 1) := by
  have hc : ∀ t : ℝ, ((Finset.univ.image f).filter fun w => w ≤ t).card = (Finset.univ.filter fun j => f j ≤ t).card := by
    intro t
    rw [Finset.filter_image, Finset.card_image_of_injective _ hf]
  have hN : (Finset.univ.image f).card = N := by rw [Finset.card_image_of_injective _ hf]; simp
  have h1 := sum_upTo (Finset.univ.image f)
  have h2 := sum_sq_upTo_all (Finset.univ.image f)
  rw [Finset.sum_image hf.injOn, hN] at h1 h2
  simp only [hc] at h1 h2
  have e : ∑ t, ((Finset.univ.filter fun j => f j ≤ f t).card : ℝ) * (N - (Finset.univ.filter fun j => f j ≤ f t).card) =
      N * ∑ t, ((Finset.univ.filter fun j => f j ≤ f t).card : ℝ) -
        ∑ t, ((Finset.univ.filter fun j => f j ≤ f t).card : ℝ) ^ 2 := by
    rw [Finset.mul_sum, ← Finset.sum_sub_distrib]
    exact Finset.sum_congr rfl fun t _ => by ring
  rw [e]
  linear_combination 3 * N * h1 - h2

theorem countP_sum {N : Nat} (g : Fin N → ℝ) (I : List Nat) (hnd : I.Nodup) (hI : ∀ i ∈ I, i < N) (x : ℝ) :
    (((I.map fun i => (List.ofFn g).getD i 0).countP fun w => decide (w ≤ x) : Nat) : ℝ) =
      ∑ i : Fin N, (if (i : Nat) ∈ I then 1 else 0) * (if g i ≤ x then 1 else 0) := by
  have e : (((I.map fun i => (List.ofFn g).getD i 0).countP fun w => decide (w ≤ x) : Nat) : ℝ) =
      (I.map fun i => if (List.ofFn g).getD i 0 ≤ x then (1 : ℝ) else 0).sum := by
    clear hnd hI
    induction I with
    | nil => simp
    | cons i I ih =>
      rw [List.map_cons, List.countP_cons, List.map_cons, List.sum_cons]
      push_cast
      rw [ih]
      by_cases h : (List.ofFn g).getD i 0 ≤ x
      · simp only [h, decide_true, if_pos]; ring
      · simp only [h, decide_false, if_neg, Bool.false_eq_true]; simp
  rw [e, sum_map_nodup I hnd hI]
  refine Finset.sum_congr rfl fun i _ => ?_
  rw [List.getD_eq_getElem (List.ofFn g) 0 (by simp), List.getElem_ofFn]

/-- Mean of the statistic over all assignments of the values to the rows, the rows inside being fixed. -/
theorem cvmStat_average {N : Nat} (f : Fin N → ℝ) (hf : Function.Injective f) (I J : List Nat)
    (hp : (I ++ J).Perm (List.range N)) (hI : I ≠ []) (hJ : J ≠ []) :
    (∑ p : Equiv.Perm (Fin N), cvmStat (I.map fun i => (List.ofFn (f ∘ p)).getD i 0)
      (J.map fun i => (List.ofFn (f ∘ p)).getD i 0)) / N.factorial = ((N : ℝ) + 1) / (6 * N) := by
  have hlen : I.length + J.length = N := by rw [← List.length_append, hp.length_eq, List.length_range]
  have hn0 : 0 < I.length := List.length_pos_iff.mpr hI
  have hm0 : 0 < J.length := List.length_pos_iff.mpr hJ
  have hN2 : 2 ≤ N := by omega
  have hn : (0 : ℝ) < I.length := by exact_mod_cast hn0
  have hm : (0 : ℝ) < J.length := by exact_mod_cast hm0
  have hNr : (I.length : ℝ) + J.length = N := by exact_mod_cast hlen
  have hN : (0 : ℝ) < N := by exact_mod_cast (by omega : 0 < N)
  have hN1 : (0 : ℝ) < (N : ℝ) - 1 := by
    have : (2 : ℝ) ≤ N := by exact_mod_cast hN2
    linarith
  have hnd : (I ++ J).Nodup := hp.nodup_iff.mpr List.nodup_range
  obtain ⟨hIn, hJn, hdis⟩ := List.nodup_append.mp hnd
  have hmem : ∀ i, i ∈ I ∨ i ∈ J ↔ i < N := by
    intro i; rw [← List.mem_append, hp.mem_iff, List.mem_range]
  have hJI : ∀ i : Fin N, (i : Nat) ∈ J ↔ (i : Nat) ∉ I := by
    intro i
    constructor
    · exact fun h h' => hdis _ h' _ h rfl
    · intro h; exact ((hmem i).mpr i.2).resolve_left h
  let w : Fin N → ℝ := fun i => if (i : Nat) ∈ I then (J.length : ℝ) else -(I.length : ℝ)
  have hcardI : ∑ i : Fin N, (if (i : Nat) ∈ I then (1 : ℝ) else 0) = I.length := by
    have := sum_map_nodup I hIn (fun i hi => (hmem i).mp (Or.inl hi)) (fun _ => (1 : ℝ))
    simp only [mul_one] at this
    rw [← this]
    simp
  have hw0 : ∑ i, w i = 0 := by
    have : ∀ i, w i = (N : ℝ) * (if (i : Nat) ∈ I then (1 : ℝ) else 0) - I.length := by
      intro i
      show (if (i : Nat) ∈ I then (J.length : ℝ) else -(I.length : ℝ)) = _
      split
      · linear_combination hNr
      · ring
    simp only [this]
    rw [Finset.sum_sub_distrib, ← Finset.mul_sum, hcardI]
    simp
  have hw2 : ∑ i, w i ^ 2 = I.length * J.length * N := by
    have : ∀ i, w i ^ 2 = ((J.length : ℝ) ^ 2 - (I.length : ℝ) ^ 2) * (if (i : Nat) ∈ I then (1 : ℝ) else 0) +
        (I.length : ℝ) ^ 2 := by
      intro i
      show (if (i : Nat) ∈ I then (J.length : ℝ) else -(I.length : ℝ)) ^ 2 = _
      split <;> ring
    simp only [this]
    rw [Finset.sum_add_distrib, ← Finset.mul_sum, hcardI]
    simp only [Finset.sum_const, Finset.card_univ, Fintype.card_fin, nsmul_eq_mul]
    rw [← hNr]
    ring
  let u : Fin N → Fin N → ℝ := fun t j => if f j ≤ f t then 1 else 0
  have hval : ∀ p : Equiv.Perm (Fin N), cvmStat (I.map fun i => (List.ofFn (f ∘ p)).getD i 0)
      (J.map fun i => (List.ofFn (f ∘ p)).getD i 0) =
      (∑ t, (∑ i, u t i * w (p.symm i)) ^ 2) / (I.length * J.length * (N : ℝ) ^ 2) := by
    intro p
    have hn' : ((I.map fun i => (List.ofFn (f ∘ p)).getD i 0) ++ (J.map fun i => (List.ofFn (f ∘ p)).getD i 0)).Nodup := by
      rw [← List.map_append]
      refine ((hp.map _).nodup_iff).mpr ?_
      have := map_getD_range (List.ofFn (f ∘ p))
      rw [List.length_ofFn] at this
      rw [this]
      exact List.nodup_ofFn.mpr (hf.comp p.injective)
    have hpl : ((I.map fun i => (List.ofFn (f ∘ p)).getD i 0) ++ (J.map fun i => (List.ofFn (f ∘ p)).getD i 0)).Perm
        (List.ofFn (f ∘ p)) := by
      rw [← List.map_append]
      have := map_getD_range (List.ofFn (f ∘ p))
      rw [List.length_ofFn] at this
      refine (hp.map _).trans ?_
      rw [this]
    rw [cvmStat_value _ _ (by simpa using hI) (by simpa using hJ) hn', List.length_map, List.length_map]
    unfold Spec.meanSqDistance
    rw [hpl.length_eq, (hpl.map _).sum_eq, List.length_ofFn, List.map_ofFn, List.sum_ofFn, hNr]
    have hterm : ∀ t : Fin N, ((fun t => (Spec.shareUpTo (I.map fun i => (List.ofFn (f ∘ p)).getD i 0) t -
        Spec.shareUpTo (J.map fun i => (List.ofFn (f ∘ p)).getD i 0) t) ^ 2) ∘ (f ∘ p)) t =
        (∑ i, u (p t) i * w (p.symm i)) ^ 2 / (I.length * J.length : ℝ) ^ 2 := by
      intro t
      have hs : ∑ i, u (p t) i * w (p.symm i) = ∑ i, w i * (if f (p i) ≤ f (p t) then 1 else 0) := by
        rw [← Equiv.sum_comp p]
        refine Finset.sum_congr rfl fun i _ => ?_
        rw [Equiv.symm_apply_apply, mul_comm]
      have hd : ∑ i, w i * (if f (p i) ≤ f (p t) then 1 else 0) =
          J.length * ∑ i : Fin N, (if (i : Nat) ∈ I then (1 : ℝ) else 0) * (if (f ∘ p) i ≤ f (p t) then 1 else 0) -
          I.length * ∑ i : Fin N, (if (i : Nat) ∈ J then (1 : ℝ) else 0) * (if (f ∘ p) i ≤ f (p t) then 1 else 0) := by
        rw [Finset.mul_sum, Finset.mul_sum, ← Finset.sum_sub_distrib]
        refine Finset.sum_congr rfl fun i _ => ?_
        have e := hJI i
        show (if (i : Nat) ∈ I then (J.length : ℝ) else -(I.length : ℝ)) * _ = _
        by_cases hi : (i : Nat) ∈ I
        · rw [if_pos hi, if_pos hi, if_neg (fun h => e.mp h hi)]
          simp only [Function.comp]
          ring
        · rw [if_neg hi, if_neg hi, if_pos (e.mpr hi)]
          simp only [Function.comp]
          ring
      simp only [Function.comp_apply]
      rw [hs, hd]
      unfold Spec.shareUpTo
      rw [countP_sum (f ∘ p) I hIn (fun i hi => (hmem i).mp (Or.inl hi)),
        countP_sum (f ∘ p) J hJn (fun i hi => (hmem i).mp (Or.inr hi)), List.length_map, List.length_map]
      field_simp
    rw [Finset.sum_congr rfl fun t _ => hterm t, Equiv.sum_comp p fun t =>
      (∑ i, u t i * w (p.symm i)) ^ 2 / (I.length * J.length : ℝ) ^ 2, ← Finset.sum_div]
    field_simp
  rw [Finset.sum_congr rfl fun p _ => hval p, ← Finset.sum_div, Finset.sum_comm]
  have hmoment : ∀ t, ∑ p : Equiv.Perm (Fin N), (∑ i, u t i * w (p.symm i)) ^ 2 =
      N.factorial * (I.length * J.length) *
        (((Finset.univ.filter fun j => f j ≤ f t).card : ℝ) * (N - (Finset.univ.filter fun j => f j ≤ f t).card)) / (N - 1) := by
    intro t
    have h1 := sum_perm_sq hN2 w (u t) hw0
    have h2 : ∑ p : Equiv.Perm (Fin N), (∑ i, u t i * w (p.symm i)) ^ 2 =
        ∑ p : Equiv.Perm (Fin N), (∑ i, u t i * w (p i)) ^ 2 :=
      Fintype.sum_equiv (Equiv.inv (Equiv.Perm (Fin N))) _ _ fun p => rfl
    have h3 : ∑ i, u t i = ((Finset.univ.filter fun j => f j ≤ f t).card : ℝ) := by
      show ∑ i, (if f i ≤ f t then (1 : ℝ) else 0) = _
      rw [Finset.sum_boole]
    have h4 : ∑ i, u t i ^ 2 = ((Finset.univ.filter fun j => f j ≤ f t).card : ℝ) := by
      rw [← h3]
      refine Finset.sum_congr rfl fun i _ => ?_
      show (if f i ≤ f t then (1 : ℝ) else 0) ^ 2 = (if f i ≤ f t then (1 : ℝ) else 0)
      split <;> norm_num
    rw [h2, eq_div_iff hN1.ne', mul_comm, h1, hw2, h3, h4]
    field_simp
  rw [Finset.sum_congr rfl fun t _ => hmoment t, ← Finset.sum_div, ← Finset.mul_sum]
  have hsum := sum_rank_gap f hf
  have hs' : ∑ t, ((Finset.univ.filter fun j => f j ≤ f t).card : ℝ) * (N - (Finset.univ.filter fun j => f j ≤ f t).card) =
      (N : ℝ) * ((N - 1) * (N + 1)) / 6 := by
    rw [eq_div_iff (by norm_num), mul_comm, hsum]; ring
  rw [hs']
  have hfac : (0 : ℝ) < N.factorial := by exact_mod_cast N.factorial_pos
  field_simp

theorem rsaBin_perm (t : List ℝ) (bins s : Nat) (hs : s < bins) :
    (rsaBin t bins s).Perm ((List.range t.length).filter fun i =>
      (decide (s = 0) || decide (npQuantile t s bins < t.getD i 0)) && decide (t.getD i 0 ≤ npQuantile t (s + 1) bins)) := by
  rw [List.perm_ext_iff_of_nodup (nodup_rsaBin t bins s) (List.nodup_range.filter _)]
  intro i
  rw [mem_rsaBin t bins s i hs, List.mem_filter, List.mem_range]
  constructor
  · rintro ⟨x, hx, h1, h2⟩
    have hi := (List.getElem?_eq_some_iff.mp hx).1
    have e : t.getD i 0 = x := by rw [List.getD, hx]; rfl
    refine ⟨hi, ?_⟩
    rw [e]
    by_cases h0 : s = 0
    · simp [h0] at h2 ⊢; exact h2
    · rw [if_neg h0] at h1
      simp [h1, h2]
  · rintro ⟨hi, h⟩
    rw [Bool.and_eq_true, Bool.or_eq_true, decide_eq_true_iff, decide_eq_true_iff, decide_eq_true_iff] at h
    have e : t[i]? = some (t.getD i 0) := by rw [List.getD_eq_getElem t 0 hi, List.getElem?_eq_getElem hi]
    refine ⟨_, e, ?_, h.2⟩
    by_cases h0 : s = 0
    · rw [if_pos h0, npQuantile_zero]
      exact npSort_first_le _ _ (List.mem_of_getElem? e)
    · rw [if_neg h0]
      exact h.1.resolve_left h0

theorem rsaBin_length (t : List ℝ) (bins s : Nat) (hs : s < bins) :
    (rsaBin t bins s).length = t.countP fun x =>
      (decide (s = 0) || decide (npQuantile t s bins < x)) && decide (x ≤ npQuantile t (s + 1) bins) := by
  rw [(rsaBin_perm t bins s hs).length_eq, ← List.countP_eq_length_filter]
  conv_rhs => rw [← map_getD_range t]
  rw [List.countP_map]
  simp only [map_getD_range]
  rfl

theorem hasSamples_distinct (y : List ℝ) (hy : y.Nodup) (t : List ℝ) (ht : t.length = y.length) (bins s : Nat)
    (hs : s < bins) (h2 : 2 ≤ (rsaBin t bins s).length) (hN : (rsaBin t bins s).length < y.length) :
    hasSamples y (rsaBin t bins s) = true ∧ rsaBin t bins s ≠ [] ∧ rowsNot t.length (rsaBin t bins s) ≠ [] := by
  have hsides := C55_sides t bins s hs
  have hl := hsides.length_eq
  rw [List.length_append, List.length_range, ht] at hl
  have hnd : ((rsaBin t bins s).map fun i => y.getD i 0).Nodup := by
    have h1 := (hsides.map fun i => y.getD i 0).nodup_iff
    rw [ht, map_getD_range] at h1
    have := h1.mpr hy
    rw [List.map_append] at this
    exact (List.nodup_append.mp this).1
  refine ⟨?_, ?_, ?_⟩
  · unfold hasSamples
    rw [hnd.dedup, List.length_map]
    simp only [Bool.and_eq_true, decide_eq_true_eq]
    omega
  · intro h; rw [h] at h2; simp at h2
  · intro h; rw [ht] at h; rw [h] at hl; simp at hl; omega

/-- **C128**, an input that has nothing to do with the output, `target="X"`: averaged over all assignments of the
outputs to the rows, the value of every bin with two samples or more (and not all) is `(N + 1) / (6 N)`, whatever the
number of bins and the outputs. -/
theorem C128_average_X {N : Nat} (col : List ℝ) (hcol : col.length = N) (f : Fin N → ℝ) (hf : Function.Injective f)
    (bins s : Nat) (hs : s < bins)
    (h2 : 2 ≤ col.countP fun x =>
      (decide (s = 0) || decide (npQuantile col s bins < x)) && decide (x ≤ npQuantile col (s + 1) bins))
    (hN : (col.countP fun x =>
      (decide (s = 0) || decide (npQuantile col s bins < x)) && decide (x ≤ npQuantile col (s + 1) bins)) < N) :
    ∃ v : Equiv.Perm (Fin N) → ℝ,
      (∀ p : Equiv.Perm (Fin N), rsaEntry cvmStat col (List.ofFn (f ∘ p)) bins .X s = some (v p)) ∧
      (∑ p, v p) / N.factorial = ((N : ℝ) + 1) / (6 * N) := by
  rw [← rsaBin_length col bins s hs] at h2 hN
  have hs' : ∀ p : Equiv.Perm (Fin N), hasSamples (List.ofFn (f ∘ p)) (rsaBin col bins s) = true ∧
      rsaBin col bins s ≠ [] ∧ rowsNot col.length (rsaBin col bins s) ≠ [] := fun p =>
    hasSamples_distinct _ (List.nodup_ofFn.mpr (hf.comp p.injective)) col (by rw [List.length_ofFn, hcol]) bins s hs h2
      (by rw [List.length_ofFn]; exact hN)
  refine ⟨fun p => cvmStat ((rsaBin col bins s).map fun i => (List.ofFn (f ∘ p)).getD i 0)
    ((rowsNot col.length (rsaBin col bins s)).map fun i => (List.ofFn (f ∘ p)).getD i 0), ?_, ?_⟩
  · intro p
    unfold rsaEntry
    simp only []
    rw [if_pos (hs' p).1]
  · have hp := C55_sides col bins s hs
    rw [hcol] at hp ⊢
    obtain ⟨-, h3, h4⟩ := hs' (Equiv.refl _)
    rw [hcol] at h4
    exact cvmStat_average f hf _ _ hp h3 h4

/-- The same with `target="Y"` (the default): the column of the input in every order. -/
theorem C128_average_Y {N : Nat} (y : List ℝ) (hy : y.length = N) (hnd : y.Nodup) (f : Fin N → ℝ)
    (hf : Function.Injective f) (bins s : Nat) (hs : s < bins)
    (h2 : 2 ≤ y.countP fun x =>
      (decide (s = 0) || decide (npQuantile y s bins < x)) && decide (x ≤ npQuantile y (s + 1) bins))
    (hN : (y.countP fun x =>
      (decide (s = 0) || decide (npQuantile y s bins < x)) && decide (x ≤ npQuantile y (s + 1) bins)) < N) :
    ∃ v : Equiv.Perm (Fin N) → ℝ,
      (∀ p : Equiv.Perm (Fin N), rsaEntry cvmStat (List.ofFn (f ∘ p)) y bins .Y s = some (v p)) ∧
      (∑ p, v p) / N.factorial = ((N : ℝ) + 1) / (6 * N) := by
  rw [← rsaBin_length y bins s hs] at h2 hN
  obtain ⟨h1, h3, h4⟩ := hasSamples_distinct y hnd y rfl bins s hs h2 (by rw [hy]; exact hN)
  refine ⟨fun p => cvmStat ((rsaBin y bins s).map fun i => (List.ofFn (f ∘ p)).getD i 0)
    ((rowsNot y.length (rsaBin y bins s)).map fun i => (List.ofFn (f ∘ p)).getD i 0), ?_, ?_⟩
  · intro p
    unfold rsaEntry
    simp only []
    rw [if_pos h1]
  · have hp := C55_sides y bins s hs
    rw [hy] at hp h4 ⊢
    exact cvmStat_average f hf _ _ hp h3 h4

end SALib
