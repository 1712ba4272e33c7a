import Verif.Props.RsaValue
import Verif.Props.PawnLimit
import Verif.Lemmas.RankAlternate
import Verif.Lemmas.RankUniform
import Verif.Props.DeltaLimit

/-! # Values of a regional sensitivity analysis as the sample grows (C128) -/

set_option linter.unusedSectionVars false

namespace SALib

open MeasureTheory ProbabilityTheory Spec

section entry

variable {β : Type}

/-- The rows of bin `s`, by the values `tv` that are binned. -/
noncomputable def inBin (rows : List β) (tv : β → ℝ) (S s : Nat) (r : β) : Bool :=
  (decide (s = 0) || decide (npQuantile (rows.map tv) s S < tv r)) && decide (tv r ≤ npQuantile (rows.map tv) (s + 1) S)

theorem pick_rows (rows : List β) (tv gv : β → ℝ) (P : ℝ → Bool) :
    ((List.range rows.length).filter fun i => P ((rows.map tv).getD i 0)).map (fun i => (rows.map gv).getD i 0) =
      (rows.filter fun r => P (tv r)).map gv := by
  rcases rows with _ | ⟨r0, rest⟩
  · simp
  · set rows := r0 :: rest with hr
    have e : rows = (List.range rows.length).map fun i => rows.getD i r0 := by
      apply List.ext_getElem
      · simp
      · intro i h1 h2
        rw [List.getElem_map, List.getElem_range, List.getD_eq_getElem rows r0 h1]
    conv_rhs => rw [e]
    rw [List.filter_map, List.map_map]
    have hg : ∀ (h : β → ℝ) (i : Nat), i < rows.length → (rows.map h).getD i 0 = h (rows.getD i r0) := by
      intro h i hi
      rw [List.getD_eq_getElem (rows.map h) 0 (by simpa using hi), List.getElem_map, List.getD_eq_getElem rows r0 hi]
    have hf : ((List.range rows.length).filter fun i => P ((rows.map tv).getD i 0)) =
        (List.range rows.length).filter ((fun r => P (tv r)) ∘ fun i => rows.getD i r0) := by
      apply List.filter_congr
      intro i hi
      rw [hg tv i (List.mem_range.mp hi)]
      rfl
    rw [hf]
    apply List.map_congr_left
    intro i hi
    exact hg gv i (List.mem_range.mp (List.mem_filter.mp hi).1)

theorem cvmStat_perm (a a' b b' : List ℝ) (h1 : a.Perm a') (h2 : b.Perm b') : cvmStat a b = cvmStat a' b' := by
  have hs : ∀ l l' : List ℝ, l.Perm l' → npSort l = npSort l' := by
    intro l l' h
    apply List.Perm.eq_of_pairwise (le := (· ≤ ·))
    · intro x y _ _ h1 h2; exact le_antisymm h1 h2
    · exact npSort_sorted _
    · exact npSort_sorted _
    · exact (npSort_perm l).trans (h.trans (npSort_perm l').symm)
  unfold cvmStat
  simp only []
  rw [hs a a' h1, hs b b' h2, h1.length_eq, h2.length_eq]

theorem rsaEntry_rows (rows : List β) (tv gv : β → ℝ) (ht : (rows.map tv).Nodup) (hg : (rows.map gv).Nodup) (S s : Nat)
    (hs : s < S) (h2 : 2 ≤ (rows.filter (inBin rows tv S s)).length)
    (hN : (rows.filter (inBin rows tv S s)).length < rows.length) :
    rsaEntry cvmStat (rows.map tv) (rows.map gv) S .X s = some (cvmStat ((rows.filter (inBin rows tv S s)).map gv)
      ((rows.filter fun r => !inBin rows tv S s r).map gv)) ∧
    rsaEntry cvmStat (rows.map gv) (rows.map tv) S .Y s = some (cvmStat ((rows.filter (inBin rows tv S s)).map gv)
      ((rows.filter fun r => !inBin rows tv S s r).map gv)) := by
  have hp := rsaBin_perm (rows.map tv) S s hs
  rw [List.length_map] at hp
  have hlen : (rsaBin (rows.map tv) S s).length = (rows.filter (inBin rows tv S s)).length := by
    rw [rsaBin_length _ S s hs, List.countP_map, ← List.countP_eq_length_filter]
    rfl
  have hsamp : ∀ y : List ℝ, y.Nodup → y.length = rows.length → hasSamples y (rsaBin (rows.map tv) S s) = true := fun y hy hl =>
    (hasSamples_distinct y hy (rows.map tv) (by rw [List.length_map, hl]) S s hs (by rw [hlen]; exact h2)
      (by rw [hlen, hl]; exact hN)).1
  have hin : ((rsaBin (rows.map tv) S s).map fun i => (rows.map gv).getD i 0).Perm
      ((rows.filter (inBin rows tv S s)).map gv) := by
    refine (hp.map _).trans ?_
    have := pick_rows rows tv gv fun x =>
      (decide (s = 0) || decide (npQuantile (rows.map tv) s S < x)) && decide (x ≤ npQuantile (rows.map tv) (s + 1) S)
    rw [this]
    exact List.Perm.refl _
  have hout : ((rowsNot (rows.map tv).length (rsaBin (rows.map tv) S s)).map fun i => (rows.map gv).getD i 0).Perm
      ((rows.filter fun r => !inBin rows tv S s r).map gv) := by
    have e : rowsNot (rows.map tv).length (rsaBin (rows.map tv) S s) = (List.range rows.length).filter fun i =>
        !((decide (s = 0) || decide (npQuantile (rows.map tv) s S < (rows.map tv).getD i 0)) &&
          decide ((rows.map tv).getD i 0 ≤ npQuantile (rows.map tv) (s + 1) S)) := by
      unfold rowsNot
      rw [List.length_map]
      apply List.filter_congr
      intro i hi
      have := hp.mem_iff (a := i)
      rw [List.mem_filter] at this
      rw [Bool.eq_iff_iff, decide_eq_true_iff, this, Bool.not_eq_true', ← Bool.not_eq_true]
      exact not_congr ⟨fun h => h.2, fun h => ⟨hi, h⟩⟩
    rw [e]
    have := pick_rows rows tv gv fun x => !(
      (decide (s = 0) || decide (npQuantile (rows.map tv) s S < x)) && decide (x ≤ npQuantile (rows.map tv) (s + 1) S))
    rw [this]
    exact List.Perm.refl _
  constructor
  · unfold rsaEntry
    simp only []
    rw [if_pos (hsamp _ hg (by rw [List.length_map])), cvmStat_perm _ _ _ _ hin hout]
  · unfold rsaEntry
    simp only []
    rw [if_pos (hsamp _ ht (by rw [List.length_map])), cvmStat_perm _ _ _ _ hin hout]

theorem freq_bool (rows : List β) (B : β → Bool) : freq rows {r | B r = true} = ((rows.filter B).length : ℝ) / rows.length := by
  classical
  rw [freq_eq_filter]
  congr 3
  apply List.filter_congr
  intro r _
  simp

/-- The statistic by frequencies. -/
theorem cvmStat_freq (rows : List β) (gv : β → ℝ) (hg : (rows.map gv).Nodup) (B : β → Bool)
    (h1 : (rows.filter B).length ≠ 0) (h2 : (rows.filter B).length < rows.length) :
    cvmStat ((rows.filter B).map gv) ((rows.filter fun r => !B r).map gv) / rows.length =
      rowMean rows (fun r => (freq rows ({x | B x = true} ∩ {x | gv x ≤ gv r}) -
        freq rows {x | B x = true} * freq rows {x | gv x ≤ gv r}) ^ 2) /
        (freq rows {x | B x = true} * (1 - freq rows {x | B x = true})) := by
  have hperm : (rows.filter B ++ rows.filter fun r => !B r).Perm rows := List.filter_append_perm B rows
  have hlen : (rows.filter B).length + (rows.filter fun r => !B r).length = rows.length := by
    rw [← List.length_append, hperm.length_eq]
  have hN : (0 : ℝ) < rows.length := by exact_mod_cast (by omega : 0 < rows.length)
  have hn : (0 : ℝ) < (rows.filter B).length := by exact_mod_cast (by omega : 0 < (rows.filter B).length)
  have hm : (0 : ℝ) < (rows.filter fun r => !B r).length := by
    exact_mod_cast (by omega : 0 < (rows.filter fun r => !B r).length)
  have hlenr : ((rows.filter B).length : ℝ) + (rows.filter fun r => !B r).length = rows.length := by exact_mod_cast hlen
  have hnd : ((rows.filter B).map gv ++ (rows.filter fun r => !B r).map gv).Nodup := by
    rw [← List.map_append]
    exact ((hperm.map gv).nodup_iff).mpr hg
  rw [cvmStat_value _ _ (by intro h; rw [List.map_eq_nil_iff] at h; rw [h] at h1; exact h1 rfl)
    (by intro h; rw [List.map_eq_nil_iff] at h; rw [h] at hm; simp at hm) hnd, List.length_map, List.length_map]
  unfold Spec.meanSqDistance
  rw [← List.map_append, List.map_map, (hperm.map _).sum_eq, List.length_map, hperm.length_eq, hlenr]
  unfold rowMean
  have hterm : ∀ r ∈ rows, ((fun t => (Spec.shareUpTo ((rows.filter B).map gv) t -
      Spec.shareUpTo ((rows.filter fun r => !B r).map gv) t) ^ 2) ∘ gv) r =
      (freq rows ({x | B x = true} ∩ {x | gv x ≤ gv r}) -
        freq rows {x | B x = true} * freq rows {x | gv x ≤ gv r}) ^ 2 /
        (freq rows {x | B x = true} * (1 - freq rows {x | B x = true})) ^ 2 := by
    intro r _
    have hcnt : ∀ C : β → Bool, ((rows.filter C).map gv).countP (fun x => decide (x ≤ gv r)) =
        (rows.filter fun x => C x && decide (gv x ≤ gv r)).length := by
      intro C
      rw [List.countP_map, List.countP_filter, ← List.countP_eq_length_filter]
      apply List.countP_congr
      intro x _
      simp [Function.comp, and_comm]
    have hf1 : freq rows ({x | B x = true} ∩ {x | gv x ≤ gv r}) =
        ((rows.filter fun x => B x && decide (gv x ≤ gv r)).length : ℝ) / rows.length := by
      rw [← freq_bool]
      apply freq_congr
      intro x _
      simp
    have hf2 : freq rows {x | gv x ≤ gv r} = (((rows.filter fun x => B x && decide (gv x ≤ gv r)).length : ℝ) +
        (rows.filter fun x => !B x && decide (gv x ≤ gv r)).length) / rows.length := by
      have e : freq rows {x | gv x ≤ gv r} = ((rows.filter fun x => decide (gv x ≤ gv r)).length : ℝ) / rows.length := by
        rw [← freq_bool]
        apply freq_congr
        intro x _
        simp
      rw [e]
      congr 1
      rw [← Nat.cast_add]
      congr 1
      clear * -
      induction rows with
      | nil => simp
      | cons x rows ih =>
        rw [List.filter_cons, List.filter_cons, List.filter_cons]
        by_cases h1 : gv x ≤ gv r <;> cases h2 : B x <;> simp only [h1, decide_true, decide_false, Bool.true_and,
          Bool.false_and, Bool.not_true, Bool.not_false, if_true, if_false, Bool.false_eq_true, List.length_cons] <;> omega
    simp only [Function.comp_apply]
    unfold Spec.shareUpTo
    rw [hcnt, hcnt, List.length_map, List.length_map, hf1, hf2, freq_bool, ← hlenr]
    have hNs : (0 : ℝ) < (rows.filter B).length + (rows.filter fun r => !B r).length := by positivity
    generalize ((rows.filter B).length : ℝ) = n at *
    generalize ((rows.filter fun r => !B r).length : ℝ) = m at *
    generalize ((rows.filter fun x => B x && decide (gv x ≤ gv r)).length : ℝ) = u at *
    generalize ((rows.filter fun x => !B x && decide (gv x ≤ gv r)).length : ℝ) = w at *
    have e1 : 1 - n / (n + m) = m / (n + m) := by field_simp; ring
    rw [e1, ← div_pow]
    congr 1
    field_simp
    ring
  rw [List.map_congr_left hterm]
  have e2 : (rows.map fun r => (freq rows ({x | B x = true} ∩ {x | gv x ≤ gv r}) -
        freq rows {x | B x = true} * freq rows {x | gv x ≤ gv r}) ^ 2 /
        (freq rows {x | B x = true} * (1 - freq rows {x | B x = true})) ^ 2).sum =
      (rows.map fun r => (freq rows ({x | B x = true} ∩ {x | gv x ≤ gv r}) -
        freq rows {x | B x = true} * freq rows {x | gv x ≤ gv r}) ^ 2).sum /
        (freq rows {x | B x = true} * (1 - freq rows {x | B x = true})) ^ 2 := by
    simp only [div_eq_mul_inv]
    rw [List.sum_map_mul_right]
  rw [e2]
  generalize (rows.map fun r => (freq rows ({x | B x = true} ∩ {x | gv x ≤ gv r}) -
        freq rows {x | B x = true} * freq rows {x | gv x ≤ gv r}) ^ 2).sum = D
  rw [freq_bool, ← hlenr]
  have hNs : (0 : ℝ) < (rows.filter B).length + (rows.filter fun r => !B r).length := by positivity
  generalize ((rows.filter B).length : ℝ) = n at *
  generalize ((rows.filter fun r => !B r).length : ℝ) = m at *
  have e1 : 1 - n / (n + m) = m / (n + m) := by field_simp; ring
  rw [e1]
  field_simp

end entry

theorem rowMean_near {β : Type} (rows : List β) (f g : β → ℝ) (c : ℝ) (hN : rows ≠ []) (h : ∀ r ∈ rows, |f r - g r| ≤ c) :
    |rowMean rows f - rowMean rows g| ≤ c := by
  have hl : (0 : ℝ) < rows.length := by exact_mod_cast List.length_pos_iff.mpr hN
  unfold rowMean
  rw [← sub_div, abs_div, abs_of_pos hl, div_le_iff₀ hl]
  clear hN hl
  induction rows with
  | nil => simp
  | cons r rows ih =>
    rw [List.map_cons, List.map_cons, List.sum_cons, List.sum_cons, List.length_cons]
    have h1 := h r (by simp)
    have h2 := ih fun r hr => h r (List.mem_cons_of_mem _ hr)
    rw [abs_le] at h1 h2 ⊢
    push_cast
    constructor <;> linarith [h1.1, h1.2, h2.1, h2.2]

theorem sq_gap (e e' b b' c c' η : ℝ) (h1 : |e - e'| ≤ η) (h2 : |b - b'| ≤ η) (h3 : |c - c'| ≤ η) (k2 : e' ≤ 1)
    (k3 : 0 ≤ e') (k4 : 0 ≤ b') (k5 : b' ≤ 1) (hη : 0 ≤ η) (hη1 : η ≤ 1) (k1 : |c' - b' * e'| ≤ 1) :
    |(c - b * e) ^ 2 - (c' - b' * e') ^ 2| ≤ 24 * η := by
  have hd : |(c - b * e) - (c' - b' * e')| ≤ 4 * η := by
    have : (c - b * e) - (c' - b' * e') = (c - c') - (b - b') * (e - e') - (b - b') * e' - b' * (e - e') := by ring
    have m1 : |(b - b') * (e - e')| ≤ η := by
      rw [abs_mul]
      nlinarith [abs_nonneg (b - b'), abs_nonneg (e - e')]
    have m2 : |(b - b') * e'| ≤ η := by
      rw [abs_mul, abs_of_nonneg k3]
      nlinarith [abs_nonneg (b - b')]
    have m3 : |b' * (e - e')| ≤ η := by
      rw [abs_mul, abs_of_nonneg k4]
      nlinarith [abs_nonneg (e - e')]
    rw [this]
    rw [abs_le] at *
    constructor <;> linarith [h3.1, h3.2, m1.1, m1.2, m2.1, m2.2, m3.1, m3.2]
  have hs : |(c - b * e) + (c' - b' * e')| ≤ 6 := by
    rw [abs_le] at *
    constructor <;> linarith [hd.1, hd.2, k1.1, k1.2]
  have : (c - b * e) ^ 2 - (c' - b' * e') ^ 2 = ((c - b * e) - (c' - b' * e')) * ((c - b * e) + (c' - b' * e')) := by ring
  rw [this, abs_mul]
  nlinarith [abs_nonneg ((c - b * e) - (c' - b' * e')), abs_nonneg ((c - b * e) + (c' - b' * e'))]

section limit

variable {d : Nat}

/-- Rows drawn at random do not repeat a value that has no atoms. -/
theorem rows_distinct (law : Measure (Fin d → ℝ)) [IsProbabilityMeasure law] (X : (Fin d → ℝ) → ℝ) (hX : Measurable X)
    (hna : ∀ a, law.real {x | X x = a} = 0) {Ω : Type} [MeasurableSpace Ω] (P : Measure Ω) (Z : ℕ → Ω → (Fin d → ℝ))
    (hZ : RandomRows law P Z) : ∀ᵐ ω ∂P, ∀ N, ((firstRows Z N ω).map X).Nodup := by
  filter_upwards [ae_distinct law X hX hna hZ.meas hZ.law hZ.indep] with ω hω N
  unfold firstRows
  rw [List.map_map]
  refine List.Nodup.map_on ?_ List.nodup_range
  intro a _ b _ hab
  exact hω a b hab

theorem freq_eq_le (rows : List (Fin d → ℝ)) (j : Fin d) (hd : (rows.map fun r => r j).Nodup) (c : ℝ) (E : Set (Fin d → ℝ)) :
    freq rows ({x | x j = c} ∩ E) ≤ 1 / rows.length := by
  refine (freq_mono rows _ {x | x j = c} fun r _ h => h.1).trans ?_
  classical
  rw [freq_eq_filter]
  refine div_le_div_of_nonneg_right ?_ (Nat.cast_nonneg _)
  have : (rows.filter fun r => decide (r ∈ {x : Fin d → ℝ | x j = c})).length ≤ 1 := by
    have e : (rows.filter fun r => decide (r ∈ {x : Fin d → ℝ | x j = c})).length = (rows.map fun r => r j).count c := by
      rw [List.count, List.countP_map, ← List.countP_eq_length_filter]
      apply List.countP_congr
      intro r _
      simp
    rw [e]
    exact List.nodup_iff_count_le_one.mp hd c
  exact_mod_cast this

/-- The share of a bin in terms of the points strictly below its ends. -/
theorem inBin_freq (rows : List (Fin d → ℝ)) (j : Fin d) (hne : rows ≠ []) (hd : (rows.map fun r => r j).Nodup) (S s : Nat)
    (hs : s < S) (E : Set (Fin d → ℝ)) :
    |freq rows ({r | inBin rows (fun r => r j) S s r = true} ∩ E) -
      (freq rows ({x | x j < npQuantile (columnOf rows j) (s + 1) S} ∩ E) -
        freq rows ({x | x j < npQuantile (columnOf rows j) s S} ∩ E))| ≤ 1 / rows.length := by
  have hcne : columnOf rows j ≠ [] := by unfold columnOf; simpa using hne
  have hq : npQuantile (columnOf rows j) s S ≤ npQuantile (columnOf rows j) (s + 1) S :=
    npQuantile_mono _ hcne s (s + 1) S (by omega) (by omega) (by omega)
  have hsplit : ∀ c : ℝ, freq rows ({x | x j = c} ∩ E) = freq rows ({x | x j ≤ c} ∩ E) - freq rows ({x | x j < c} ∩ E) := by
    intro c
    apply freq_diff
    · rintro r - ⟨h1, h2⟩
      exact ⟨show r j ≤ c from le_of_lt h1, h2⟩
    · rintro r -
      constructor
      · rintro ⟨h1, h2⟩
        exact ⟨⟨le_of_eq h1, h2⟩, fun h => absurd (show r j = c from h1) (ne_of_lt h.1)⟩
      · rintro ⟨⟨h1, h2⟩, h3⟩
        exact ⟨le_antisymm h1 (not_lt.mp fun h => h3 ⟨h, h2⟩), h2⟩
  have hmem : ∀ r, inBin rows (fun r => r j) S s r = true ↔ (s = 0 ∨ npQuantile (columnOf rows j) s S < r j) ∧
      r j ≤ npQuantile (columnOf rows j) (s + 1) S := by
    intro r
    unfold inBin
    rw [Bool.and_eq_true, Bool.or_eq_true, decide_eq_true_iff, decide_eq_true_iff, decide_eq_true_iff]
    exact Iff.rfl
  have b1 := freq_eq_le rows j hd (npQuantile (columnOf rows j) (s + 1) S) E
  have b2 := freq_eq_le rows j hd (npQuantile (columnOf rows j) s S) E
  have b3 := freq_nonneg rows ({x | x j = npQuantile (columnOf rows j) (s + 1) S} ∩ E)
  have b4 := freq_nonneg rows ({x | x j = npQuantile (columnOf rows j) s S} ∩ E)
  rw [hsplit] at b1 b2 b3 b4
  by_cases h0 : s = 0
  · have e1 : freq rows ({r | inBin rows (fun r => r j) S s r = true} ∩ E) =
        freq rows ({x | x j ≤ npQuantile (columnOf rows j) (s + 1) S} ∩ E) := by
      apply freq_congr
      rintro r -
      constructor
      · rintro ⟨h1, h2⟩; exact ⟨((hmem r).mp h1).2, h2⟩
      · rintro ⟨h1, h2⟩; exact ⟨(hmem r).mpr ⟨Or.inl h0, h1⟩, h2⟩
    have e2 : freq rows ({x | x j < npQuantile (columnOf rows j) s S} ∩ E) = 0 := by
      rw [freq_congr rows _ ∅]
      · unfold freq rowMean; simp
      · intro r hr
        constructor
        · rintro ⟨h1, -⟩
          have h1 : r j < npQuantile (columnOf rows j) s S := h1
          rw [h0, npQuantile_zero] at h1
          exact absurd (npSort_first_le (columnOf rows j) (r j) (List.mem_map.mpr ⟨r, hr, rfl⟩)) (not_le.mpr h1)
        · intro h; exact absurd h (Set.notMem_empty _)
    rw [e1, e2, abs_le]
    constructor <;> linarith
  · have e1 : freq rows ({r | inBin rows (fun r => r j) S s r = true} ∩ E) =
        freq rows ({x | x j ≤ npQuantile (columnOf rows j) (s + 1) S} ∩ E) -
          freq rows ({x | x j ≤ npQuantile (columnOf rows j) s S} ∩ E) := by
      apply freq_diff
      · rintro r - ⟨h1, h2⟩
        exact ⟨le_trans h1 hq, h2⟩
      · rintro r -
        constructor
        · rintro ⟨h1, h2⟩
          have := (hmem r).mp h1
          exact ⟨⟨this.2, h2⟩, fun h => absurd (this.1.resolve_left h0) (not_lt.mpr h.1)⟩
        · rintro ⟨⟨h1, h2⟩, h3⟩
          exact ⟨(hmem r).mpr ⟨Or.inr (not_le.mp fun h => h3 ⟨h, h2⟩), h1⟩, h2⟩
    rw [e1, abs_le]
    constructor <;> linarith

variable (law : Measure (Fin d → ℝ)) [IsProbabilityMeasure law] (j : Fin d) (S : Nat) (p : Nat → ℝ)

theorem part_share_inter (h : EqualParts law j S p) (s : Nat) (hs : s < S) (E : Set (Fin d → ℝ)) (hE : MeasurableSet E) :
    law.real (part j S p s ∩ E) = law.real (below j S p (s + 1) ∩ E) - law.real (below j S p s ∩ E) := by
  obtain ⟨h1, h2⟩ := part_eq law j S p h s hs
  have e : part j S p s ∩ E = (below j S p (s + 1) ∩ E) \ (below j S p s ∩ E) := by
    rw [h2]
    ext x
    constructor
    · rintro ⟨⟨a, b⟩, c⟩; exact ⟨⟨a, c⟩, fun h => b h.1⟩
    · rintro ⟨⟨a, c⟩, b⟩; exact ⟨⟨a, fun h => b ⟨h, c⟩⟩, c⟩
  rw [e, measureReal_diff (Set.inter_subset_inter_left _ h1) ((measurable_below j S p s).inter hE)]

theorem part_share_real (h : EqualParts law j S p) (s : Nat) (hs : s < S) : law.real (part j S p s) = 1 / S := by
  have := part_share_inter law j S p h s hs Set.univ MeasurableSet.univ
  rw [Set.inter_univ, Set.inter_univ, Set.inter_univ, below_share law j S p h (by omega) _ (by omega),
    below_share law j S p h (by omega) _ (by omega)] at this
  rw [this, ← sub_div]
  push_cast
  ring

/-- Finitely many sets whose shares decide, nearly, the shares of a bin. -/
theorem bin_near (G : (Fin d → ℝ) → ℝ) (hG : Measurable G) (h : EqualParts law j S p) (hS : 0 < S) (δ : ℝ)
    (hδ : 0 < δ) (hδS : δ * S < 1) :
    ∃ 𝓐 : Finset (Set (Fin d → ℝ)), (∀ A ∈ 𝓐, MeasurableSet A) ∧
      ∀ rows : List (Fin d → ℝ), (rows.map fun r => r j).Nodup → 4 ≤ δ * rows.length →
        (∀ A ∈ 𝓐, |freq rows A - law.real A| ≤ δ / 2) →
        (∀ t, |freq rows {x | G x ≤ t} - law.real {x | G x ≤ t}| ≤ 9 * δ) ∧
        ∀ s < S, |freq rows {r | inBin rows (fun r => r j) S s r = true} - 1 / S| ≤ 9 * δ ∧
          ∀ t, |freq rows ({r | inBin rows (fun r => r j) S s r = true} ∩ {x | G x ≤ t}) -
            law.real (part j S p s ∩ {x | G x ≤ t})| ≤ 9 * δ := by
  obtain ⟨𝓐, hm, hA⟩ := cut_frequencies law j S p G hG h hS δ hδ hδS
  refine ⟨𝓐, hm, fun rows hd h4 hf => ?_⟩
  obtain ⟨h1, h2⟩ := hA rows h4 hf
  have hne : rows ≠ [] := by rintro rfl; simp at h4; linarith
  have hl : (0 : ℝ) < rows.length := by exact_mod_cast List.length_pos_iff.mpr hne
  have hsmall : 1 / (rows.length : ℝ) ≤ δ := by
    rw [div_le_iff₀ hl]; linarith
  refine ⟨fun t => (h1 t).trans (by linarith), fun s hs => ⟨?_, fun t => ?_⟩⟩
  · have e := inBin_freq rows j hne hd S s hs Set.univ
    rw [Set.inter_univ, Set.inter_univ, Set.inter_univ] at e
    have a := (h2 (s + 1) (by omega)).1
    have b := (h2 s (by omega)).1
    have c : ((s + 1 : Nat) : ℝ) / S - (s : ℝ) / S = 1 / S := by rw [← sub_div]; push_cast; ring
    rw [abs_le] at e a b ⊢
    constructor <;> linarith [e.1, e.2, a.1, a.2, b.1, b.2]
  · have e := inBin_freq rows j hne hd S s hs {x | G x ≤ t}
    have a := (h2 (s + 1) (by omega)).2 t
    have b := (h2 s (by omega)).2 t
    rw [part_share_inter law j S p h s hs _ (measurableSet_le hG measurable_const)]
    rw [abs_le] at e a b ⊢
    constructor <;> linarith [e.1, e.2, a.1, a.2, b.1, b.2]

/-- The shares of all bins come close to their probabilities, uniformly. -/
theorem bin_uniform (G : (Fin d → ℝ) → ℝ) (hG : Measurable G) (h : EqualParts law j S p) (hS : 0 < S) (ε : ℝ) (hε : 0 < ε) :
    ∀ᶠ rows in lawRows law, (rows.map fun x => x j).Nodup →
      (∀ t, |freq rows {x | G x ≤ t} - law.real {x | G x ≤ t}| ≤ ε) ∧
        ∀ s < S, |freq rows {r | inBin rows (fun r => r j) S s r = true} - 1 / S| ≤ ε ∧
          ∀ t, |freq rows ({r | inBin rows (fun r => r j) S s r = true} ∩ {x | G x ≤ t}) -
            law.real (part j S p s ∩ {x | G x ≤ t})| ≤ ε := by
  have hSr : (0 : ℝ) < S := by exact_mod_cast hS
  obtain ⟨k, hk⟩ := exists_nat_gt (9 / (S * ε))
  set δ := 1 / (((k : ℝ) + 2) * S) with hδd
  have hδ : 0 < δ := by positivity
  have hδS : δ * S < 1 := by
    have : 1 / (((k : ℝ) + 2) * S) * S = 1 / ((k : ℝ) + 2) := by field_simp
    rw [hδd, this, div_lt_one (by positivity)]
    linarith [(Nat.cast_nonneg k : (0 : ℝ) ≤ k)]
  obtain ⟨𝓐, h𝓐m, h𝓐⟩ := bin_near law j S p G hG h hS δ hδ hδS
  have hk1 : 9 * δ ≤ ε := by
    have h1 : 9 / (S * ε) < (k : ℝ) + 2 := by linarith
    rw [div_lt_iff₀ (by positivity)] at h1
    have e1 : 9 * δ = 9 / ((k + 2) * S) := by rw [hδd]; ring
    rw [e1, div_le_iff₀ (by positivity)]
    nlinarith
  have hev : ∀ᶠ rows in lawRows law, ∀ A : {A // A ∈ 𝓐}, |freq rows A.1 - law.real A.1| ≤ δ / 2 := by
    rw [Filter.eventually_all]
    intro A
    have := Metric.tendsto_nhds.mp (lawRows_freq law A.1 (h𝓐m A.1 A.2)) (δ / 2) (half_pos hδ)
    filter_upwards [this] with rows hN
    rw [← Real.dist_eq]
    exact hN.le
  obtain ⟨n0, hn0⟩ := exists_nat_gt (4 / δ)
  filter_upwards [hev, (lawRows_length law).eventually_ge_atTop n0] with rows hN hNn hd
  have h4 : 4 ≤ δ * rows.length := by
    have h1 : 4 / δ < rows.length := hn0.trans_le (by exact_mod_cast hNn)
    rw [div_lt_iff₀ hδ] at h1
    linarith
  obtain ⟨a, b⟩ := h𝓐 rows hd h4 fun A hA => hN ⟨A, hA⟩
  exact ⟨fun t => (a t).trans hk1, fun s hs => ⟨(b s hs).1.trans hk1, fun t => ((b s hs).2 t).trans hk1⟩⟩

/-- Difference of the distribution of the compared value in a part and overall, by the share of the part. -/
noncomputable def partGap (G : (Fin d → ℝ) → ℝ) (s : Nat) (t : ℝ) : ℝ :=
  law.real (part j S p s ∩ {x | G x ≤ t}) - 1 / S * law.real {x | G x ≤ t}

theorem measurable_upTo (G : (Fin d → ℝ) → ℝ) (A : Set (Fin d → ℝ)) : Measurable fun t => law.real (A ∩ {x | G x ≤ t}) := by
  apply Monotone.measurable
  intro a b hab
  exact measureReal_mono (Set.inter_subset_inter_right _ fun x hx => le_trans hx hab)

theorem measurable_partGap (G : (Fin d → ℝ) → ℝ) (s : Nat) : Measurable (partGap law j S p G s) := by
  have h1 := measurable_upTo law G (part j S p s)
  have h2 := measurable_upTo law G Set.univ
  simp only [Set.univ_inter] at h2
  exact h1.sub (h2.const_mul _)

theorem abs_partGap_le (G : (Fin d → ℝ) → ℝ) (hS : 0 < S) (s : Nat) (t : ℝ) : |partGap law j S p G s t| ≤ 1 := by
  have h1 : law.real (part j S p s ∩ {x | G x ≤ t}) ≤ 1 := measureReal_le_one
  have h2 : law.real {x | G x ≤ t} ≤ 1 := measureReal_le_one
  have h3 : 0 ≤ law.real (part j S p s ∩ {x | G x ≤ t}) := measureReal_nonneg
  have h4 : 0 ≤ law.real {x | G x ≤ t} := measureReal_nonneg
  have hS1 : (1 : ℝ) ≤ S := by exact_mod_cast hS
  have h5 : 1 / (S : ℝ) ≤ 1 := by rw [div_le_one (by linarith)]; exact hS1
  have h6 : 0 ≤ 1 / (S : ℝ) := by positivity
  unfold partGap
  rw [abs_le]
  constructor <;> nlinarith

/-- The limit of the statistic divided by the number of samples, along lists of rows whose means agree with the
distribution. -/
theorem cvm_rows (G : (Fin d → ℝ) → ℝ) (hG : Measurable G)
    (h : EqualParts law j S p) (hS : 2 ≤ S) (s : Nat) (hs : s < S) (l : Filter (List (Fin d → ℝ)))
    (hl : l ≤ lawRows law) (hnd : ∀ᶠ rows in l, (rows.map fun x => x j).Nodup ∧ (rows.map G).Nodup) :
      (∀ᶠ rows in l, (rows.map fun x => x j).Nodup ∧ (rows.map G).Nodup ∧
        2 ≤ (rows.filter (inBin rows (fun x => x j) S s)).length ∧
        (rows.filter (inBin rows (fun x => x j) S s)).length < rows.length) ∧
      Filter.Tendsto (fun rows : List (Fin d → ℝ) => cvmStat
        ((rows.filter (inBin rows (fun x => x j) S s)).map G)
        ((rows.filter fun r => !inBin rows (fun x => x j) S s r).map G) / (rows.length : ℝ)) l
        (nhds (1 / S * (1 - 1 / S) * lawSqDistance law G (part j S p s))) := by
  have hSr : (2 : ℝ) ≤ S := by exact_mod_cast hS
  have hS0 : 0 < 1 / (S : ℝ) := by positivity
  have hS1 : 1 / (S : ℝ) < 1 := by rw [div_lt_one (by linarith)]; linarith
  have hmeas : Measurable fun z => (partGap law j S p G s (G z)) ^ 2 :=
    ((measurable_partGap law j S p G s).comp hG).pow_const 2
  have hint : MemLp (fun z => (partGap law j S p G s (G z)) ^ 2) 2 law := by
    refine MemLp.of_bound hmeas.aestronglyMeasurable 1 (Filter.Eventually.of_forall fun z => ?_)
    rw [Real.norm_eq_abs, abs_pow]
    exact pow_le_one₀ (abs_nonneg _) (abs_partGap_le law j S p G (by omega) s _)
  have hpart : MeasurableSet (part j S p s) := by
    rw [(part_eq law j S p h s hs).2]
    exact (measurable_below j S p _).diff (measurable_below j S p _)
  have hlim := (lawRows_mean law _ hmeas hint).mono_left hl
  have hll := (lawRows_length law).mono_left hl
  have hu : ∀ ε > 0, ∀ᶠ rows in l,
      (∀ t, |freq rows {x | G x ≤ t} - law.real {x | G x ≤ t}| ≤ ε) ∧
        ∀ s < S, |freq rows {r | inBin rows (fun r => r j) S s r = true} - 1 / S| ≤ ε ∧
          ∀ t, |freq rows ({r | inBin rows (fun r => r j) S s r = true} ∩ {x | G x ≤ t}) -
            law.real (part j S p s ∩ {x | G x ≤ t})| ≤ ε := by
    intro ε hε
    filter_upwards [hl (bin_uniform law j S p G hG h (by omega) ε hε), hnd] with rows h1 h2
    exact h1 h2.1
  -- the share of the bin
  have hb : Filter.Tendsto (fun rows => freq rows {r | inBin rows (fun r => r j) S s r = true})
      l (nhds (1 / (S : ℝ))) := by
    rw [Metric.tendsto_nhds]
    intro ε hε
    filter_upwards [hu (ε / 2) (by positivity)] with rows hN
    rw [Real.dist_eq]
    exact ((hN.2 s hs).1).trans_lt (by linarith)
  have hcount : ∀ᶠ rows in l,
      2 ≤ (rows.filter (inBin rows (fun x => x j) S s)).length ∧
        (rows.filter (inBin rows (fun x => x j) S s)).length < rows.length := by
    obtain ⟨n0, hn0⟩ := exists_nat_gt (2 / (1 / (S : ℝ) / 2))
    filter_upwards [hb.eventually (lt_mem_nhds (show 1 / (S : ℝ) / 2 < 1 / S by linarith)),
      hb.eventually (gt_mem_nhds hS1), hll.eventually_ge_atTop (n0 + 1)] with rows h1 h2 hN
    have hN0 : (0 : ℝ) < rows.length := by exact_mod_cast (by omega : 0 < rows.length)
    rw [freq_bool] at h1 h2
    rw [div_lt_one hN0] at h2
    rw [lt_div_iff₀ hN0] at h1
    constructor
    · have h3 : 2 / (1 / (S : ℝ) / 2) < rows.length := hn0.trans_le (by exact_mod_cast (by omega : n0 ≤ rows.length))
      rw [div_lt_iff₀ (by positivity)] at h3
      have h4 : (2 : ℝ) < (rows.filter (inBin rows (fun x => x j) S s)).length := by linarith
      exact le_of_lt (by exact_mod_cast h4)
    · exact_mod_cast h2
  refine ⟨?_, ?_⟩
  · filter_upwards [hcount, hnd] with rows hN hd
    exact ⟨hd.1, hd.2, hN⟩
  -- the mean square
  have hA : Filter.Tendsto (fun rows => rowMean rows fun r =>
      (freq rows ({r | inBin rows (fun r => r j) S s r = true} ∩ {x | G x ≤ G r}) -
        freq rows {r | inBin rows (fun r => r j) S s r = true} *
          freq rows {x | G x ≤ G r}) ^ 2) l
      (nhds (∫ z, (partGap law j S p G s (G z)) ^ 2 ∂law)) := by
    have hdiff : Filter.Tendsto (fun rows => (rowMean rows fun r =>
      (freq rows ({r | inBin rows (fun r => r j) S s r = true} ∩ {x | G x ≤ G r}) -
        freq rows {r | inBin rows (fun r => r j) S s r = true} *
          freq rows {x | G x ≤ G r}) ^ 2) -
        rowMean rows fun z => (partGap law j S p G s (G z)) ^ 2) l (nhds 0) := by
      rw [Metric.tendsto_nhds]
      intro ε hε
      have hη : 0 < min (ε / 30) 1 := lt_min (by positivity) one_pos
      filter_upwards [hu _ hη, hll.eventually_gt_atTop 0] with rows hN hN0
      set η := min (ε / 30) 1
      have hη1 : η ≤ 1 := min_le_right _ _
      have hη2 : η ≤ ε / 30 := min_le_left _ _
      rw [dist_zero_right, Real.norm_eq_abs]
      refine lt_of_le_of_lt (rowMean_near _ _ _ (24 * η) ?_ ?_) (by linarith)
      · intro hc
        rw [hc] at hN0
        simp at hN0
      · intro r _
        have a := hN.1 (G r)
        have b := (hN.2 s hs).1
        have c := (hN.2 s hs).2 (G r)
        have k1 := abs_partGap_le law j S p G (by omega) s (G r)
        have k2 : law.real {x | G x ≤ G r} ≤ 1 := measureReal_le_one
        have k3 : 0 ≤ law.real {x | G x ≤ G r} := measureReal_nonneg
        exact sq_gap _ _ _ _ _ _ η a b c k2 k3 hS0.le hS1.le hη.le hη1 k1
    have := hdiff.add hlim
    rw [zero_add] at this
    refine this.congr fun rows => ?_
    ring
  have hfin := hA.div (hb.mul (hb.const_sub 1)) (by
    have : 0 < 1 / (S : ℝ) * (1 - 1 / S) := mul_pos hS0 (by linarith)
    exact this.ne')
  have hval : (∫ z, (partGap law j S p G s (G z)) ^ 2 ∂law) / (1 / S * (1 - 1 / S)) =
      1 / S * (1 - 1 / S) * lawSqDistance law G (part j S p s) := by
    unfold lawSqDistance
    have hc : law.real (part j S p s)ᶜ = 1 - 1 / S := by
      rw [measureReal_compl hpart, part_share_real law j S p h s hs, probReal_univ]
    have hpt : ∀ z, (law.real (part j S p s ∩ {x | G x ≤ G z}) / law.real (part j S p s) -
        law.real ((part j S p s)ᶜ ∩ {x | G x ≤ G z}) / law.real (part j S p s)ᶜ) ^ 2 =
        (partGap law j S p G s (G z)) ^ 2 * (1 / (1 / (S : ℝ) * (1 - 1 / S)) ^ 2) := by
      intro z
      have e : law.real ((part j S p s)ᶜ ∩ {x | G x ≤ G z}) =
          law.real {x | G x ≤ G z} - law.real (part j S p s ∩ {x | G x ≤ G z}) := by
        have := measureReal_inter_add_diff (μ := law) (s := {x | G x ≤ G z}) hpart (measure_ne_top law _)
        rw [Set.diff_eq, Set.inter_comm _ (part j S p s), Set.inter_comm _ (part j S p s)ᶜ] at this
        linarith
      rw [hc, e, part_share_real law j S p h s hs]
      unfold partGap
      generalize law.real (part j S p s ∩ {x | G x ≤ G z}) = b
      generalize law.real {x | G x ≤ G z} = g
      have hb1 : 1 - 1 / (S : ℝ) ≠ 0 := by linarith
      generalize 1 / (S : ℝ) = β at *
      field_simp
      ring
    rw [integral_congr_ae (Filter.Eventually.of_forall hpt), integral_mul_const]
    have hb1 : 1 - 1 / (S : ℝ) ≠ 0 := by linarith
    generalize 1 / (S : ℝ) = β at *
    field_simp
  rw [← hval]
  refine hfin.congr' ?_
  filter_upwards [hcount, hnd] with rows hN hd
  have := cvmStat_freq rows G hd.2 (inBin rows (fun x => x j) S s) (by omega) hN.2
  exact this.symm

/-- The limit of the statistic divided by the number of samples, for independent rows. -/
theorem cvmStat_limit (G : (Fin d → ℝ) → ℝ) (hG : Measurable G) (hGa : ∀ a, law.real {x | G x = a} = 0)
    (h : EqualParts law j S p) (hS : 2 ≤ S) (s : Nat) (hs : s < S) {Ω : Type}
    [MeasurableSpace Ω] (P : Measure Ω) (Z : ℕ → Ω → (Fin d → ℝ)) (hZ : RandomRows law P Z) :
    ∀ᵐ ω ∂P,
      (∀ᶠ N in Filter.atTop, ((firstRows Z N ω).map fun x => x j).Nodup ∧ ((firstRows Z N ω).map G).Nodup ∧
        2 ≤ ((firstRows Z N ω).filter (inBin (firstRows Z N ω) (fun x => x j) S s)).length ∧
        ((firstRows Z N ω).filter (inBin (firstRows Z N ω) (fun x => x j) S s)).length < (firstRows Z N ω).length) ∧
      Filter.Tendsto (fun N : ℕ => cvmStat
        (((firstRows Z N ω).filter (inBin (firstRows Z N ω) (fun x => x j) S s)).map G)
        (((firstRows Z N ω).filter fun r => !inBin (firstRows Z N ω) (fun x => x j) S s r).map G) / N) Filter.atTop
        (nhds (1 / S * (1 - 1 / S) * lawSqDistance law G (part j S p s))) := by
  have hω := rows_tendsto law P Z hZ.meas hZ.law hZ.indep
    (fun rows : List (Fin d → ℝ) => (rows.map fun x : Fin d → ℝ => x j).Nodup ∧ (rows.map G).Nodup)
    (((rows_distinct law (fun x => x j) (measurable_pi_apply j) h.noAtom P Z hZ).and (rows_distinct law G hG hGa P Z hZ)).mono
      fun ω hω N => ⟨hω.1 N, hω.2 N⟩) _ _ _
    (cvm_rows law j S p G hG h hS s hs _ inf_le_left (Filter.eventually_inf_principal.mpr
      (Filter.Eventually.of_forall fun _ h => h)))
  filter_upwards [hω] with ω hω
  refine ⟨hω.1, hω.2.congr fun N => ?_⟩
  rw [show (firstRows Z N ω).length = N by simp [firstRows]]

end limit

variable {d : Nat}

/-- **C128**, as the sample grows, `target="X"`: independent rows, input `j` and the output without atoms.  With
probability one the value of every bin is reported from some sample size on, and grows in proportion to the number of
samples: divided by it, it converges to `1/S (1 - 1/S)` times the mean squared distance between the distribution
function of the output with the input in part `s` and that of the output with the input in another part. -/
theorem C128_limit_X (law : Measure (Fin d → ℝ)) [IsProbabilityMeasure law] (j : Fin d) (S : Nat) (hS : 2 ≤ S)
    (p : Nat → ℝ) (h : EqualParts law j S p) (G : (Fin d → ℝ) → ℝ) (hG : Measurable G)
    (hGa : ∀ a, law.real {x | G x = a} = 0) {Ω : Type} [MeasurableSpace Ω] (P : Measure Ω) (Z : ℕ → Ω → (Fin d → ℝ))
    (hZ : RandomRows law P Z) (s : Nat) (hs : s < S) :
    ∀ᵐ ω ∂P, ∃ T : ℕ → ℝ,
      (∀ᶠ N in Filter.atTop, rsaEntry cvmStat ((firstRows Z N ω).map fun x => x j) ((firstRows Z N ω).map G) S .X s =
        some (T N)) ∧
      Filter.Tendsto (fun N : ℕ => T N / N) Filter.atTop
        (nhds (1 / S * (1 - 1 / S) * lawSqDistance law G (part j S p s))) := by
  filter_upwards [cvmStat_limit law j S p G hG hGa h hS s hs P Z hZ] with ω hω
  refine ⟨fun N => cvmStat
        (((firstRows Z N ω).filter (inBin (firstRows Z N ω) (fun x => x j) S s)).map G)
        (((firstRows Z N ω).filter fun r => !inBin (firstRows Z N ω) (fun x => x j) S s r).map G), ?_, hω.2⟩
  filter_upwards [hω.1] with N hN
  obtain ⟨n1, n2, n3, n4⟩ := hN
  exact (rsaEntry_rows (firstRows Z N ω) (fun x : Fin d → ℝ => x j) G n1 n2 S s hs n3 n4).1

/-- An output and an input, as a pair. -/
def outPair (G : (Fin d → ℝ) → ℝ) (j : Fin d) (x : Fin d → ℝ) : Fin 2 → ℝ := ![G x, x j]

theorem measurable_outPair (G : (Fin d → ℝ) → ℝ) (hG : Measurable G) (j : Fin d) : Measurable (outPair G j) := by
  refine measurable_pi_lambda _ fun i => ?_
  fin_cases i
  · exact hG
  · exact measurable_pi_apply j

/-- Parts of equal probability of the output. -/
theorem outPair_parts (law : Measure (Fin d → ℝ)) [IsProbabilityMeasure law] (j : Fin d) (S : Nat) (p : Nat → ℝ)
    (G : (Fin d → ℝ) → ℝ) (hG : Measurable G) (hGa : ∀ a, law.real {x | G x = a} = 0)
    (hshare : ∀ s, 0 < s → s < S → law.real {x | G x ≤ p s} = (s : ℝ) / S) :
    EqualParts (law.map (outPair G j)) 0 S p := by
  have hpm := measurable_outPair G hG j
  have h0m : Measurable fun z : Fin 2 → ℝ => z 0 := measurable_pi_apply 0
  constructor
  · intro a
    rw [map_measureReal_apply hpm (measurableSet_eq_fun h0m measurable_const)]
    exact hGa a
  · intro u hu0 huS
    rw [map_measureReal_apply hpm (measurableSet_le h0m measurable_const)]
    exact hshare u hu0 huS

theorem outPair_distance (law : Measure (Fin d → ℝ)) [IsProbabilityMeasure law] (j : Fin d) (S : Nat) (p : Nat → ℝ)
    (G : (Fin d → ℝ) → ℝ) (hG : Measurable G) (hE : EqualParts (law.map (outPair G j)) 0 S p) (s : Nat) (hs : s < S) :
    lawSqDistance (law.map (outPair G j)) (fun z => z 1) (part 0 S p s) = lawSqDistance law (fun x => x j)
      {x | (s = 0 ∨ p s ≤ G x) ∧ (s + 1 = S ∨ G x < p (s + 1))} := by
  have hpm := measurable_outPair G hG j
  have hpr : IsProbabilityMeasure (law.map (outPair G j)) := Measure.isProbabilityMeasure_map hpm.aemeasurable
  have h1m : Measurable fun z : Fin 2 → ℝ => z 1 := measurable_pi_apply 1
  have hreal : ∀ A : Set (Fin 2 → ℝ), MeasurableSet A → (law.map (outPair G j)).real A = law.real (outPair G j ⁻¹' A) :=
    fun A hA => map_measureReal_apply hpm hA
  unfold lawSqDistance
  have hpart : MeasurableSet (part 0 S p s : Set (Fin 2 → ℝ)) := by
    rw [(part_eq (law.map (outPair G j)) 0 S p hE s hs).2]
    exact (measurable_below 0 S p _).diff (measurable_below 0 S p _)
  have hmeas : AEStronglyMeasurable (fun z : Fin 2 → ℝ =>
      ((law.map (outPair G j)).real (part 0 S p s ∩ {x | x 1 ≤ z 1}) / (law.map (outPair G j)).real (part 0 S p s) -
        (law.map (outPair G j)).real ((part 0 S p s)ᶜ ∩ {x | x 1 ≤ z 1}) / (law.map (outPair G j)).real (part 0 S p s)ᶜ) ^ 2)
      (law.map (outPair G j)) := by
    have m1 := measurable_upTo (law.map (outPair G j)) (fun z => z 1) (part 0 S p s)
    have m2 := measurable_upTo (law.map (outPair G j)) (fun z => z 1) (part 0 S p s)ᶜ
    exact ((((m1.comp h1m).div_const _).sub ((m2.comp h1m).div_const _)).pow_const 2).aestronglyMeasurable
  rw [integral_map hpm.aemeasurable hmeas]
  refine integral_congr_ae (Filter.Eventually.of_forall fun z => ?_)
  beta_reduce
  have hup : ∀ c : ℝ, MeasurableSet {x : Fin 2 → ℝ | x 1 ≤ c} := fun c => measurableSet_le h1m measurable_const
  rw [hreal _ (hpart.inter (hup _)), hreal _ hpart, hreal _ (hpart.compl.inter (hup _)), hreal _ hpart.compl]
  rfl

/-- The same with `target="Y"` (the default): the output is binned and the values of input `j` are compared. -/
theorem C128_limit_Y (law : Measure (Fin d → ℝ)) [IsProbabilityMeasure law] (j : Fin d) (S : Nat) (hS : 2 ≤ S)
    (p : Nat → ℝ) (hja : ∀ a, law.real {x | x j = a} = 0) (G : (Fin d → ℝ) → ℝ) (hG : Measurable G)
    (hGa : ∀ a, law.real {x | G x = a} = 0)
    (hshare : ∀ s, 0 < s → s < S → law.real {x | G x ≤ p s} = (s : ℝ) / S)
    {Ω : Type} [MeasurableSpace Ω] (P : Measure Ω) (Z : ℕ → Ω → (Fin d → ℝ))
    (hZ : RandomRows law P Z) (s : Nat) (hs : s < S) :
    ∀ᵐ ω ∂P, ∃ T : ℕ → ℝ,
      (∀ᶠ N in Filter.atTop, rsaEntry cvmStat ((firstRows Z N ω).map fun x => x j) ((firstRows Z N ω).map G) S .Y s =
        some (T N)) ∧
      Filter.Tendsto (fun N : ℕ => T N / N) Filter.atTop
        (nhds (1 / S * (1 - 1 / S) * lawSqDistance law (fun x => x j)
          {x | (s = 0 ∨ p s ≤ G x) ∧ (s + 1 = S ∨ G x < p (s + 1))})) := by
  have hpm := measurable_outPair G hG j
  have hpr : IsProbabilityMeasure (law.map (outPair G j)) := Measure.isProbabilityMeasure_map hpm.aemeasurable
  have h1m : Measurable fun z : Fin 2 → ℝ => z 1 := measurable_pi_apply 1
  have hE := outPair_parts law j S p G hG hGa hshare
  have hZ' : RandomRows (law.map (outPair G j)) P fun i ω => outPair G j (Z i ω) := by
    refine ⟨fun i => hpm.comp (hZ.meas i), hZ.indep.comp (fun _ => outPair G j) (fun _ => hpm), fun i => ?_⟩
    rw [← hZ.law i, Measure.map_map hpm (hZ.meas i)]
    rfl
  have hrows : ∀ N ω, firstRows (fun i ω => outPair G j (Z i ω)) N ω = (firstRows Z N ω).map (outPair G j) := by
    intro N ω
    unfold firstRows
    rw [List.map_map]
    rfl
  filter_upwards [cvmStat_limit (law.map (outPair G j)) 0 S p (fun z => z 1) h1m (fun a => by
    rw [map_measureReal_apply hpm (measurableSet_eq_fun h1m measurable_const)]
    exact hja a) hE hS s hs P _ hZ'] with ω hω
  refine ⟨fun N => cvmStat
        (((firstRows (fun i ω => outPair G j (Z i ω)) N ω).filter
          (inBin (firstRows (fun i ω => outPair G j (Z i ω)) N ω) (fun x => x 0) S s)).map fun z => z 1)
        (((firstRows (fun i ω => outPair G j (Z i ω)) N ω).filter fun r =>
          !inBin (firstRows (fun i ω => outPair G j (Z i ω)) N ω) (fun x => x 0) S s r).map fun z => z 1), ?_, ?_⟩
  · filter_upwards [hω.1] with N hN
    have := (rsaEntry_rows _ (fun x : Fin 2 → ℝ => x 0) (fun z : Fin 2 → ℝ => z 1) hN.1 hN.2.1 S s hs hN.2.2.1 hN.2.2.2).2
    rw [← this, hrows, List.map_map, List.map_map]
    rfl
  · rw [← outPair_distance law j S p G hG hE s hs]
    exact hω.2

theorem measurable_share {β : Type} [MeasurableSpace β] (law : Measure β) [IsFiniteMeasure law] (g : β → ℝ) (A : Set β) :
    Measurable fun t => law.real (A ∩ {x | g x ≤ t}) := by
  apply Monotone.measurable
  intro a b hab
  exact measureReal_mono (Set.inter_subset_inter_right _ fun x hx => le_trans hx hab)

/-- **C128**, when the values do not grow in proportion to the sample: exactly when the compared value is distributed in
the same way inside the part and outside it. -/
theorem C128_zero {β : Type} [MeasurableSpace β] (law : Measure β) [IsProbabilityMeasure law] (g : β → ℝ)
    (hg : Measurable g) (hga : ∀ a, law.real {x | g x = a} = 0) (A : Set β) (hA : MeasurableSet A)
    (h0 : 0 < law.real A) (h1 : law.real A < 1) :
    lawSqDistance law g A = 0 ↔ ∀ t, law.real (A ∩ {x | g x ≤ t}) / law.real A =
      law.real (Aᶜ ∩ {x | g x ≤ t}) / law.real Aᶜ := by
  set b : ℝ → ℝ := fun t => law.real (A ∩ {x | g x ≤ t}) with hb
  set e : ℝ → ℝ := fun t => law.real {x | g x ≤ t} with he
  have hc : law.real Aᶜ = 1 - law.real A := by rw [measureReal_compl hA, probReal_univ]
  have hout : ∀ t, law.real (Aᶜ ∩ {x | g x ≤ t}) = e t - b t := by
    intro t
    have := measureReal_inter_add_diff (μ := law) (s := {x | g x ≤ t}) hA
    rw [Set.diff_eq, Set.inter_comm _ A, Set.inter_comm _ Aᶜ] at this
    show _ = law.real {x | g x ≤ t} - law.real (A ∩ {x | g x ≤ t})
    linarith
  have h1' : 0 < 1 - law.real A := by linarith
  have hD : ∀ t, law.real (A ∩ {x | g x ≤ t}) / law.real A - law.real (Aᶜ ∩ {x | g x ≤ t}) / law.real Aᶜ =
      (b t - law.real A * e t) / (law.real A * (1 - law.real A)) := by
    intro t
    rw [hc, hout]
    show b t / law.real A - _ = _
    field_simp
    ring
  have hbm : Measurable b := measurable_share law g A
  have hem : Measurable e := by
    have := measurable_share law g Set.univ
    simpa only [Set.univ_inter] using this
  constructor
  · intro hz t
    rw [← sub_eq_zero, hD]
    by_contra hne
    have hne' : b t - law.real A * e t ≠ 0 := fun h => hne (by rw [h, zero_div])
    unfold lawSqDistance at hz
    simp only [hD] at hz
    have hmeas : Measurable fun z => ((b (g z) - law.real A * e (g z)) / (law.real A * (1 - law.real A))) ^ 2 :=
      ((((hbm.comp hg).sub ((hem.comp hg).const_mul _)).div_const _).pow_const 2)
    have hbd : ∀ z, |b (g z) - law.real A * e (g z)| ≤ 1 := by
      intro z
      have k1 : b (g z) ≤ 1 := measureReal_le_one
      have k2 : 0 ≤ b (g z) := measureReal_nonneg
      have k3 : e (g z) ≤ 1 := measureReal_le_one
      have k4 : 0 ≤ e (g z) := measureReal_nonneg
      rw [abs_le]
      constructor <;> nlinarith
    have hint : Integrable (fun z => ((b (g z) - law.real A * e (g z)) / (law.real A * (1 - law.real A))) ^ 2) law := by
      refine Integrable.of_bound hmeas.aestronglyMeasurable ((1 / (law.real A * (1 - law.real A))) ^ 2)
        (Filter.Eventually.of_forall fun z => ?_)
      rw [Real.norm_eq_abs, abs_pow, abs_div, abs_of_pos (mul_pos h0 h1')]
      refine pow_le_pow_left₀ (by positivity) ?_ 2
      exact div_le_div_of_nonneg_right (hbd z) (mul_pos h0 h1').le
    rw [integral_eq_zero_iff_of_nonneg (fun z => by positivity) hint] at hz
    -- near `t`, by rank, the difference is not zero
    set c := |b t - law.real A * e t| with hcd
    have hc0 : 0 < c := abs_pos.mpr hne'
    have hlip : ∀ u v, u ≤ v → |(b v - law.real A * e v) - (b u - law.real A * e u)| ≤ e v - e u := by
      intro u v huv
      have m1 : b u ≤ b v := measureReal_mono (Set.inter_subset_inter_right _ fun x hx => le_trans hx huv)
      have m2 : e u ≤ e v := measureReal_mono fun x hx => le_trans hx huv
      have m3 : e u - b u ≤ e v - b v := by
        rw [← hout, ← hout]
        exact measureReal_mono (Set.inter_subset_inter_right _ fun x hx => le_trans hx huv)
      rw [abs_le]
      constructor <;> nlinarith
    have hnull : law.real {z | e t - c < e (g z) ∧ e (g z) < e t} = 0 := by
      have hsub : {z | e t - c < e (g z) ∧ e (g z) < e t} ⊆ {z | ¬((fun z =>
          ((b (g z) - law.real A * e (g z)) / (law.real A * (1 - law.real A))) ^ 2) z = (0 : β → ℝ) z)} := by
        rintro z ⟨z1, z2⟩ hzero
        have hzero : ((b (g z) - law.real A * e (g z)) / (law.real A * (1 - law.real A))) ^ 2 = 0 := hzero
        have : b (g z) - law.real A * e (g z) = 0 := by
          have := pow_eq_zero_iff (two_ne_zero) |>.mp hzero
          rcases div_eq_zero_iff.mp this with h | h
          · exact h
          · exact absurd h (mul_pos h0 h1').ne'
        have hle : g z ≤ t := by
          by_contra hlt
          have : e t ≤ e (g z) := measureReal_mono fun x hx => le_trans hx (not_le.mp hlt).le
          linarith
        have := hlip (g z) t hle
        rw [‹b (g z) - law.real A * e (g z) = 0›, sub_zero] at this
        linarith
      have hm0 : law {z | ¬((fun z => ((b (g z) - law.real A * e (g z)) / (law.real A * (1 - law.real A))) ^ 2) z =
          (0 : β → ℝ) z)} = 0 := hz
      rw [measureReal_def, measure_mono_null hsub hm0, ENNReal.toReal_zero]
    have hce : c ≤ e t := by
      have k1 : b t ≤ e t := measureReal_mono Set.inter_subset_right
      have k2 : 0 ≤ b t := measureReal_nonneg
      have k4 : 0 ≤ e t := measureReal_nonneg
      rw [hcd, abs_le]
      constructor <;> nlinarith
    have het : e t ≤ 1 := measureReal_le_one
    have hlaw := rank_law law g hg hga
    have hmr : Measurable fun z => law.real {w | g w ≤ g z} := hem.comp hg
    have hval : law.real {z | e t - c < e (g z) ∧ e (g z) < e t} = c := by
      have e1 : {z | e t - c < e (g z) ∧ e (g z) < e t} = (fun z => law.real {w | g w ≤ g z}) ⁻¹' Set.Ioo (e t - c) (e t) := rfl
      rw [e1, ← map_measureReal_apply hmr measurableSet_Ioo, hlaw, measureReal_def, unitLine,
        Measure.restrict_apply measurableSet_Ioo, Set.inter_eq_left.mpr, Real.volume_Ioo, ENNReal.toReal_ofReal]
      · ring
      · linarith
      · intro x hx
        exact ⟨by linarith [hx.1], by linarith [hx.2]⟩
    rw [hval] at hnull
    exact hc0.ne' hnull
  · intro h
    unfold lawSqDistance
    have : ∀ z, (law.real (A ∩ {x | g x ≤ g z}) / law.real A - law.real (Aᶜ ∩ {x | g x ≤ g z}) / law.real Aᶜ) ^ 2 = 0 := by
      intro z
      rw [h (g z), sub_self]
      norm_num
    simp only [this, integral_zero]

/-- Eight samples of an increasing model in two bins: the first bin has the greatest value `33/48`; with forty samples
and two bins the greatest value is above 3, so it is not normalised to 1. -/
example : rsaEntry cvmStat [(3 : ℚ), 1, 2, 7, 5, 4, 8, 6] [9, 1, 4, 49, 25, 16, 64, 36] 2 .X 0 = some (33 / 48) ∧
    rsaEntry cvmStat [(3 : ℚ), 1, 2, 7, 5, 4, 8, 6] [9, 1, 4, 49, 25, 16, 64, 36] 2 .Y 1 = some (33 / 48) ∧
    rsaEntry cvmStat ((List.range 40).map fun i => (i : ℚ)) ((List.range 40).map fun i => (i : ℚ) ^ 3) 2 .Y 0 =
      some (801 / 240) ∧
    rsaEntry cvmStat [(1 : ℚ), 2, 3, 4] [1, 4, 3, 2] 2 .X 0 = some (3 / 8 - 1 / 4) := by
  decide +kernel

/-- The hypotheses of the limits: one input uniform on `[0, 1]`, the model `2 x`. -/
example : (∀ a, (Measure.pi fun _ : Fin 1 => unifOn 0 1).real {x : Fin 1 → ℝ | 2 * x 0 = a} = 0) ∧
    (∀ a, (Measure.pi fun _ : Fin 1 => unifOn 0 1).real {x : Fin 1 → ℝ | x 0 = a} = 0) ∧
    EqualParts (Measure.pi fun _ : Fin 1 => unifOn 0 1) 0 2 (evenCuts 0 1 2) ∧
    (∀ s, 0 < s → s < 2 → (Measure.pi fun _ : Fin 1 => unifOn 0 1).real {x : Fin 1 → ℝ | 2 * x 0 ≤ 2 * evenCuts 0 1 2 s} =
      (s : ℝ) / (2 : ℕ)) := by
  have := isProb_unifOn (lo := 0) (hi := 1) (by norm_num)
  have hlaw : Measure.map (fun x : Fin 1 → ℝ => x 0) (Measure.pi fun _ : Fin 1 => unifOn 0 1) = unifOn 0 1 := by
    have h := Measure.pi_map_eval (fun _ : Fin 1 => unifOn 0 1) 0
    simpa using h
  have hE := evenCuts_equal (Measure.pi fun _ : Fin 1 => unifOn 0 1) 0 2 0 1 (by norm_num) hlaw two_pos
  refine ⟨fun a => ?_, hE.noAtom, hE, fun s hs hs2 => ?_⟩
  · have e : {x : Fin 1 → ℝ | 2 * x 0 = a} = {x | x 0 = a / 2} := by
      ext x
      show 2 * x 0 = a ↔ x 0 = a / 2
      rw [eq_div_iff two_ne_zero, mul_comm]
    rw [e]
    exact hE.noAtom _
  · have e : {x : Fin 1 → ℝ | 2 * x 0 ≤ 2 * evenCuts 0 1 2 s} = {x | x 0 ≤ evenCuts 0 1 2 s} := by
      ext x
      show 2 * x 0 ≤ 2 * evenCuts 0 1 2 s ↔ x 0 ≤ evenCuts 0 1 2 s
      exact mul_le_mul_iff_right₀ two_pos
    rw [e]
    exact hE.share s hs hs2

end SALib
