import Verif.Lemmas.SobolExpect
import Mathlib.Probability.CDF

/-! Relative frequencies of sets in a sample, quantiles, and finitely many sets that bracket all lower half lines. -/

namespace SALib

open MeasureTheory ProbabilityTheory Spec

/-- The share of the rows in `A`. -/
noncomputable def freq {β : Type} (rows : List β) (A : Set β) : ℝ := rowMean rows (A.indicator fun _ => 1)

section freq

variable {β : Type}

theorem freq_nonneg (rows : List β) (A : Set β) : 0 ≤ freq rows A := by
  unfold freq rowMean
  refine div_nonneg (List.sum_nonneg ?_) (Nat.cast_nonneg _)
  intro x hx
  obtain ⟨r, -, rfl⟩ := List.mem_map.mp hx
  exact Set.indicator_nonneg (fun _ _ => zero_le_one) _

theorem freq_mono (rows : List β) (A B : Set β) (h : ∀ r ∈ rows, r ∈ A → r ∈ B) : freq rows A ≤ freq rows B := by
  unfold freq rowMean
  refine div_le_div_of_nonneg_right (List.sum_le_sum ?_) (Nat.cast_nonneg _)
  intro r hr
  by_cases hA : r ∈ A
  · rw [Set.indicator_of_mem hA, Set.indicator_of_mem (h r hr hA)]
  · rw [Set.indicator_of_notMem hA]
    exact Set.indicator_nonneg (fun _ _ => zero_le_one) _

theorem freq_congr (rows : List β) (A B : Set β) (h : ∀ r ∈ rows, r ∈ A ↔ r ∈ B) : freq rows A = freq rows B :=
  le_antisymm (freq_mono rows A B fun r hr => (h r hr).mp) (freq_mono rows B A fun r hr => (h r hr).mpr)

theorem freq_diff (rows : List β) (A B C : Set β) (hAB : ∀ r ∈ rows, r ∈ A → r ∈ B)
    (h : ∀ r ∈ rows, r ∈ C ↔ r ∈ B ∧ r ∉ A) : freq rows C = freq rows B - freq rows A := by
  unfold freq rowMean
  rw [← sub_div]
  congr 1
  rw [eq_sub_iff_add_eq, ← List.sum_map_add]
  congr 1
  apply List.map_congr_left
  intro r hr
  by_cases hA : r ∈ A
  · have hB := hAB r hr hA
    have hC : r ∉ C := fun hc => ((h r hr).mp hc).2 hA
    rw [Set.indicator_of_mem hA, Set.indicator_of_mem hB, Set.indicator_of_notMem hC, zero_add]
  · by_cases hB : r ∈ B
    · rw [Set.indicator_of_notMem hA, Set.indicator_of_mem hB, Set.indicator_of_mem ((h r hr).mpr ⟨hB, hA⟩), add_zero]
    · have hC : r ∉ C := fun hc => hB ((h r hr).mp hc).1
      rw [Set.indicator_of_notMem hA, Set.indicator_of_notMem hB, Set.indicator_of_notMem hC, zero_add]

theorem freq_eq_filter (rows : List β) (A : Set β) [DecidablePred (· ∈ A)] :
    freq rows A = ((rows.filter fun r => decide (r ∈ A)).length : ℝ) / rows.length := by
  unfold freq rowMean
  congr 1
  induction rows with
  | nil => simp
  | cons r rows ih =>
    rw [List.map_cons, List.sum_cons, ih]
    by_cases h : r ∈ A
    · rw [Set.indicator_of_mem h, List.filter_cons_of_pos (by simpa using h), List.length_cons]
      push_cast
      ring
    · rw [Set.indicator_of_notMem h, List.filter_cons_of_neg (by simpa using h), zero_add]

/-- A set that is caught between two sets of nearly the same probability, both with nearly their share of the rows. -/
theorem freq_bracket [MeasurableSpace β] (law : Measure β) [IsFiniteMeasure law] (rows : List β) (L U E T : Set β)
    (hLE : ∀ r ∈ rows, r ∈ L → r ∈ E) (hEU : ∀ r ∈ rows, r ∈ E → r ∈ U) (hLT : L ⊆ T) (hTU : T ⊆ U) (ε η : ℝ)
    (h : law.real U ≤ law.real L + ε) (hL : |freq rows L - law.real L| ≤ η) (hU : |freq rows U - law.real U| ≤ η) :
    |freq rows E - law.real T| ≤ ε + η := by
  have h1 := freq_mono rows L E hLE
  have h2 := freq_mono rows E U hEU
  have h3 : law.real L ≤ law.real T := measureReal_mono hLT
  have h4 : law.real T ≤ law.real U := measureReal_mono hTU
  rw [abs_le] at hL hU ⊢
  constructor <;> linarith [hL.1, hL.2, hU.1, hU.2]

/-- Strong law for frequencies. -/
theorem tendsto_freq {Ω : Type} [MeasurableSpace Ω] [MeasurableSpace β] {P : Measure Ω} {law : Measure β}
    [IsFiniteMeasure law] {Z : ℕ → Ω → β} (hm : ∀ i, Measurable (Z i)) (hlaw : ∀ i, Measure.map (Z i) P = law)
    (hind : iIndepFun Z P) (A : Set β) (hA : MeasurableSet A) :
    ∀ᵐ ω ∂P, Filter.Tendsto (fun N => freq (firstRows Z N ω) A) Filter.atTop (nhds (law.real A)) := by
  have := tendsto_rowMean hm hlaw hind (A.indicator fun _ => (1 : ℝ)) (measurable_const.indicator hA)
    ((integrable_const _).indicator hA)
  rw [integral_indicator_const _ hA, smul_eq_mul, mul_one] at this
  exact this

end freq

/-! ### Quantiles -/

/-- Every level is reached: a value with at most `v` of the distribution below it and at least `v` up to it. -/
theorem exists_freq_quantile (μ : Measure ℝ) [IsProbabilityMeasure μ] (v : ℝ) (h0 : 0 < v) (h1 : v < 1) :
    ∃ q, μ.real (Set.Iio q) ≤ v ∧ v ≤ μ.real (Set.Iic q) := by
  have hne : {t | v ≤ cdf μ t}.Nonempty := by
    obtain ⟨t, ht⟩ := ((tendsto_cdf_atTop μ).eventually (lt_mem_nhds h1)).exists
    exact ⟨t, ht.le⟩
  have hbdd : BddBelow {t | v ≤ cdf μ t} := by
    obtain ⟨t, ht⟩ := ((tendsto_cdf_atBot μ).eventually (gt_mem_nhds h0)).exists
    refine ⟨t, fun s hs => ?_⟩
    by_contra hlt
    exact absurd (hs.trans (monotone_cdf μ (not_le.mp hlt).le)) (not_le.mpr ht)
  set q := sInf {t | v ≤ cdf μ t} with hq
  refine ⟨q, ?_, ?_⟩
  · have ht : Filter.Tendsto (fun n : ℕ => μ.real (Set.Iic (q - 1 / ((n : ℝ) + 1)))) Filter.atTop
        (nhds (μ.real (⋃ n : ℕ, Set.Iic (q - 1 / ((n : ℝ) + 1))))) := by
      refine (ENNReal.tendsto_toReal (measure_ne_top _ _)).comp (tendsto_measure_iUnion_atTop ?_)
      intro m n hmn
      refine Set.Iic_subset_Iic.mpr ?_
      have : 1 / ((n : ℝ) + 1) ≤ 1 / ((m : ℝ) + 1) := one_div_le_one_div_of_le (by positivity) (by
        have : (m : ℝ) ≤ n := by exact_mod_cast hmn
        linarith)
      linarith
    have hU : (⋃ n : ℕ, Set.Iic (q - 1 / ((n : ℝ) + 1))) = Set.Iio q := by
      ext x
      simp only [Set.mem_iUnion, Set.mem_Iic, Set.mem_Iio]
      constructor
      · rintro ⟨n, hn⟩
        have : 0 < 1 / ((n : ℝ) + 1) := by positivity
        linarith
      · intro hx
        obtain ⟨n, hn⟩ := exists_nat_one_div_lt (sub_pos.mpr hx)
        exact ⟨n, by linarith⟩
    rw [hU] at ht
    refine le_of_tendsto ht (Filter.Eventually.of_forall fun n => ?_)
    rw [← cdf_eq_real]
    by_contra hlt
    have := csInf_le hbdd (show q - 1 / ((n : ℝ) + 1) ∈ {t | v ≤ cdf μ t} from (not_le.mp hlt).le)
    have : 0 < 1 / ((n : ℝ) + 1) := by positivity
    linarith
  · rw [← cdf_eq_real]
    have ht := (cdf μ).right_continuous q
    have ht' : Filter.Tendsto (cdf μ) (nhdsWithin q (Set.Ioi q)) (nhds (cdf μ q)) :=
      ht.tendsto.mono_left (nhdsWithin_mono _ Set.Ioi_subset_Ici_self)
    refine ge_of_tendsto ht' ?_
    filter_upwards [self_mem_nhdsWithin] with t (htq : q < t)
    obtain ⟨s, hs, hst⟩ := exists_lt_of_csInf_lt hne htq
    exact le_trans hs (monotone_cdf μ hst.le)

/-- Finitely many sets bracket all half lines `(-∞, t]` up to `ε`. -/
theorem exists_brackets (μ : Measure ℝ) [IsProbabilityMeasure μ] (ε : ℝ) (hε : 0 < ε) :
    ∃ F : Finset (Set ℝ), (∀ A ∈ F, MeasurableSet A) ∧
      ∀ t, ∃ L ∈ F, ∃ U ∈ F, L ⊆ Set.Iic t ∧ Set.Iic t ⊆ U ∧ μ.real U ≤ μ.real L + ε := by
  classical
  obtain ⟨m, hm⟩ := exists_nat_one_div_lt hε
  have hm0 : (0 : ℝ) < (m : ℝ) + 1 := by positivity
  have hq : ∀ i : ℕ, ∃ q, i ∈ Finset.Icc 1 m → μ.real (Set.Iio q) ≤ i / (m + 1) ∧ (i : ℝ) / (m + 1) ≤ μ.real (Set.Iic q) := by
    intro i
    by_cases hi : i ∈ Finset.Icc 1 m
    · rw [Finset.mem_Icc] at hi
      obtain ⟨q, h⟩ := exists_freq_quantile μ ((i : ℝ) / (m + 1)) (div_pos (by exact_mod_cast hi.1) hm0)
        (by rw [div_lt_one hm0]; exact_mod_cast Nat.lt_succ_of_le hi.2)
      exact ⟨q, fun _ => h⟩
    · exact ⟨0, fun h => absurd h hi⟩
  choose q hq using hq
  refine ⟨{∅, Set.univ} ∪ (Finset.Icc 1 m).image (fun i => Set.Iic (q i)) ∪ (Finset.Icc 1 m).image (fun i => Set.Iio (q i)),
    ?_, ?_⟩
  · intro A hA
    simp only [Finset.mem_union, Finset.mem_insert, Finset.mem_singleton, Finset.mem_image] at hA
    rcases hA with ((rfl | rfl) | ⟨i, -, rfl⟩) | ⟨i, -, rfl⟩
    · exact MeasurableSet.empty
    · exact MeasurableSet.univ
    · exact measurableSet_Iic
    · exact measurableSet_Iio
  · intro t
    -- the largest number of a quantile that `t` has reached
    obtain ⟨k, hkm, hL, hnext⟩ : ∃ k ≤ m, (k = 0 ∨ q k ≤ t) ∧ ∀ i ∈ Finset.Icc 1 m, k < i → t < q i := by
      by_cases hK : ((Finset.Icc 1 m).filter fun i => q i ≤ t).Nonempty
      · have h := Finset.mem_filter.mp (Finset.max'_mem _ hK)
        refine ⟨_, (Finset.mem_Icc.mp h.1).2, Or.inr h.2, fun i hi hlt => ?_⟩
        by_contra hle
        have := Finset.le_max' ((Finset.Icc 1 m).filter fun i => q i ≤ t) i (Finset.mem_filter.mpr ⟨hi, not_lt.mp hle⟩)
        omega
      · refine ⟨0, Nat.zero_le _, Or.inl rfl, fun i hi _ => ?_⟩
        by_contra hle
        exact hK ⟨i, Finset.mem_filter.mpr ⟨hi, not_lt.mp hle⟩⟩
    have hlow : ∃ L ∈ ({∅, Set.univ} ∪ (Finset.Icc 1 m).image (fun i => Set.Iic (q i)) ∪
        (Finset.Icc 1 m).image (fun i => Set.Iio (q i)) : Finset (Set ℝ)),
        L ⊆ Set.Iic t ∧ (k : ℝ) / (m + 1) ≤ μ.real L := by
      rcases Nat.eq_zero_or_pos k with rfl | hpos
      · exact ⟨∅, by simp, Set.empty_subset _, by simp⟩
      · have hk : k ∈ Finset.Icc 1 m := Finset.mem_Icc.mpr ⟨hpos, hkm⟩
        refine ⟨Set.Iic (q k), ?_, Set.Iic_subset_Iic.mpr (hL.resolve_left (by omega)), (hq k hk).2⟩
        exact Finset.mem_union_left _ (Finset.mem_union_right _ (Finset.mem_image_of_mem (fun i => Set.Iic (q i)) hk))
    have hup : ∃ U ∈ ({∅, Set.univ} ∪ (Finset.Icc 1 m).image (fun i => Set.Iic (q i)) ∪
        (Finset.Icc 1 m).image (fun i => Set.Iio (q i)) : Finset (Set ℝ)),
        Set.Iic t ⊆ U ∧ μ.real U ≤ ((k : ℝ) + 1) / (m + 1) := by
      rcases Nat.lt_or_ge k m with hlt | hge
      · have hk : k + 1 ∈ Finset.Icc 1 m := Finset.mem_Icc.mpr ⟨by omega, hlt⟩
        refine ⟨Set.Iio (q (k + 1)), ?_, ?_, ?_⟩
        · exact Finset.mem_union_right _ (Finset.mem_image_of_mem (fun i => Set.Iio (q i)) hk)
        · intro x hx
          exact lt_of_le_of_lt hx (hnext _ hk (by omega))
        · simpa using (hq _ hk).1
      · have hk : k = m := le_antisymm hkm hge
        refine ⟨Set.univ, by simp, Set.subset_univ _, ?_⟩
        rw [hk, div_self hm0.ne']
        simp
    obtain ⟨L, hLF, hLt, hLm⟩ := hlow
    obtain ⟨U, hUF, hUt, hUm⟩ := hup
    refine ⟨L, hLF, U, hUF, hLt, hUt, ?_⟩
    rw [add_div] at hUm
    linarith

end SALib
