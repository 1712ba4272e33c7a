import Verif.Lemmas.Bootstrap
import Verif.Props.MorrisMean
import Mathlib.Probability.CentralLimitTheorem
import Mathlib.Probability.CDF
import Mathlib.MeasureTheory.Measure.Portmanteau
import Mathlib.MeasureTheory.Function.ConvergenceInMeasure

/-! # Coverage of intervals with bootstrap widths -/

namespace SALib
open MeasureTheory ProbabilityTheory Filter Topology Spec

/-! ### The standard normal distribution -/

/-- The probability that a standard normal variable is at most `a` in absolute value. -/
noncomputable def normalWithin (a : ℝ) : ℝ := (gaussianReal 0 1).real (Set.Icc (-a) a)

theorem normalWithin_eq (a : ℝ) (ha : 0 ≤ a) : normalWithin a = 2 * cdf (gaussianReal 0 1) a - 1 := by
  have := nullSingletonClass_gaussianReal (μ := 0) (v := 1) (by norm_num)
  have h1 : (gaussianReal 0 1).real (Set.Iio (-a)) = 1 - (gaussianReal 0 1).real (Set.Iic a) := by
    have hneg : (gaussianReal 0 1).map (fun x => -x) = gaussianReal 0 1 := by
      rw [gaussianReal_map_neg, neg_zero]
    have e : (gaussianReal 0 1).real (Set.Iio (-a)) = (gaussianReal 0 1).real (Set.Ioi a) := by
      conv_lhs => rw [← hneg]
      rw [map_measureReal_apply (by fun_prop) measurableSet_Iio]
      congr 1
      ext x
      simp
    rw [e, ← Set.compl_Iic, measureReal_compl measurableSet_Iic]
    simp
  unfold normalWithin
  have e : Set.Icc (-a) a = Set.Iic a \ Set.Iio (-a) := by
    ext x; simp [and_comm]
  rw [e, measureReal_sdiff (by
    intro x hx
    simp only [Set.mem_Iio, Set.mem_Iic] at hx ⊢
    linarith) measurableSet_Iio, h1, cdf_eq_real]
  ring

theorem normalWithin_continuousAt (a : ℝ) (ha : 0 < a) : ContinuousAt normalWithin a := by
  have := nullSingletonClass_gaussianReal (μ := 0) (v := 1) (by norm_num)
  have hc : ContinuousAt (cdf (gaussianReal 0 1)) a := by
    have hmono := (cdf (gaussianReal 0 1)).mono
    rw [hmono.continuousAt_iff_leftLim_eq_rightLim, StieltjesFunction.rightLim_eq]
    have h1 := (cdf (gaussianReal 0 1)).measure_singleton a
    rw [measure_cdf, measure_singleton] at h1
    have h2 : cdf (gaussianReal 0 1) a - Function.leftLim (cdf (gaussianReal 0 1)) a ≤ 0 :=
      ENNReal.ofReal_eq_zero.mp h1.symm
    have h3 := hmono.leftLim_le (le_refl a)
    linarith
  have h2 : ContinuousAt (fun x => 2 * cdf (gaussianReal 0 1) x - 1) a := (hc.const_mul 2).sub continuousAt_const
  refine h2.congr ?_
  filter_upwards [lt_mem_nhds ha] with x hx
  rw [normalWithin_eq x hx.le]

theorem normalWithin_mono : Monotone normalWithin := by
  intro a b hab
  exact measureReal_mono (Set.Icc_subset_Icc (by linarith) hab)

/-! ### The central limit theorem for intervals -/

theorem clt_interval {Ω : Type} [MeasurableSpace Ω] {P : Measure Ω} [IsProbabilityMeasure P] (X : ℕ → Ω → ℝ)
    (h0 : ∫ ω, X 0 ω ∂P = 0) (h1 : ∫ ω, X 0 ω ^ 2 ∂P = 1) (hindep : iIndepFun X P)
    (hident : ∀ i, IdentDistrib (X i) (X 0) P P) (a : ℝ) :
    Tendsto (fun N : ℕ => P.real {ω | |(√N)⁻¹ * ∑ k ∈ Finset.range N, X k ω| ≤ a}) atTop (𝓝 (normalWithin a)) := by
  have := nullSingletonClass_gaussianReal (μ := 0) (v := 1) (by norm_num)
  have h := tendstoInDistribution_inv_sqrt_mul_sum (P' := gaussianReal 0 1) (Y := id) HasLaw.id h0 h1 hindep hident
  have hfr : ((gaussianReal 0 1).map id) (frontier (Set.Icc (-a) a)) = 0 := by
    rw [Measure.map_id]
    rcases le_total (-a) a with hl | hl
    · rw [frontier_Icc hl]
      exact (Set.toFinite _).measure_zero _
    · rcases hl.lt_or_eq with hl | hl
      · rw [Set.Icc_eq_empty (not_le.mpr hl)]
        simp
      · rw [← hl, Set.Icc_self]
        exact measure_mono_null frontier_subset_closure (by simp)
  have key := ProbabilityMeasure.tendsto_measure_of_null_frontier_of_tendsto' h.tendsto (E := Set.Icc (-a) a) hfr
  have key2 := (ENNReal.tendsto_toReal (a := ((gaussianReal 0 1).map id) (Set.Icc (-a) a)) (by
    rw [Measure.map_id]; exact measure_ne_top _ _)).comp key
  have e1 : (((gaussianReal 0 1).map id) (Set.Icc (-a) a)).toReal = normalWithin a := by
    rw [Measure.map_id]; rfl
  rw [← e1]
  refine key2.congr fun N => ?_
  show ((P.map fun ω => (√N)⁻¹ * ∑ k ∈ Finset.range N, X k ω) (Set.Icc (-a) a)).toReal = _
  rw [Measure.map_apply_of_aemeasurable (h.forall_aemeasurable N) measurableSet_Icc]
  show (P _).toReal = (P _).toReal
  congr 2
  ext ω
  rw [Set.mem_preimage, Set.mem_Icc, ← abs_le]
  rfl

/-! ### Resampled data -/

/-- Index arrays drawn independently of the first `N` rows, all of them equally likely. -/
structure Spec.FairResample {A Ω : Type} [MeasurableSpace Ω] (P : Measure Ω) (Z : ℕ → Ω → A) (N R : Nat)
    (w : Ω → Fin R → Fin N → Fin N) : Prop where
  fair : ∀ (x : Fin N → A) (t : Fin R → Fin N → Fin N), P.real {ω | (∀ i : Fin N, Z i ω = x i) ∧ w ω = t} =
    P.real {ω | ∀ i : Fin N, Z i ω = x i} / Fintype.card (Fin R → Fin N → Fin N)

theorem resample_rare {A Ω : Type} [Fintype A] [MeasurableSpace A] [MeasurableSingletonClass A] [MeasurableSpace Ω] {P : Measure Ω}
    [IsProbabilityMeasure P]
    {Z : ℕ → Ω → A} (hm : ∀ i, Measurable (Z i)) {N R : Nat} (hN : 0 < N) {w : Ω → Fin R → Fin N → Fin N}
    (hw : FairResample P Z N R w)
    (B : (Fin N → A) → (Fin R → Fin N → Fin N) → Prop) [∀ x, DecidablePred (B x)] (c : ℝ)
    (hB : ∀ x, ((Finset.univ.filter (B x)).card : ℝ) ≤ c * Fintype.card (Fin R → Fin N → Fin N)) :
    P.real {ω | B (fun i => Z i ω) (w ω)} ≤ c := by
  classical
  have hT : (0 : ℝ) < Fintype.card (Fin R → Fin N → Fin N) := by
    have : Nonempty (Fin N) := ⟨⟨0, hN⟩⟩
    exact_mod_cast Fintype.card_pos
  have hsub : {ω | B (fun i => Z i ω) (w ω)} ⊆
      ⋃ x : Fin N → A, ⋃ t ∈ Finset.univ.filter (B x), {ω | (∀ i : Fin N, Z i ω = x i) ∧ w ω = t} := by
    intro ω hω
    simp only [Set.mem_iUnion]
    exact ⟨fun i => Z i ω, w ω, Finset.mem_filter.mpr ⟨Finset.mem_univ _, hω⟩, fun _ => rfl, rfl⟩
  have hsum : ∑ x : Fin N → A, P.real {ω | ∀ i : Fin N, Z i ω = x i} = 1 := by
    have hmeas : ∀ x : Fin N → A, MeasurableSet {ω | ∀ i : Fin N, Z i ω = x i} := by
      intro x
      rw [Set.setOf_forall]
      exact MeasurableSet.iInter fun i => (hm i) (measurableSet_singleton (x i))
    rw [← measureReal_biUnion_finset (fun x _ y _ hxy => ?_) fun x _ => hmeas x]
    · have : (⋃ x ∈ (Finset.univ : Finset (Fin N → A)), {ω | ∀ i : Fin N, Z i ω = x i}) = Set.univ := by
        ext ω
        simp only [Set.mem_iUnion, Set.mem_univ, iff_true]
        exact ⟨fun i => Z i ω, Finset.mem_univ _, fun _ => rfl⟩
      rw [this]
      simp
    · refine Set.disjoint_left.mpr fun ω h1 h2 => hxy (funext fun i => ?_)
      exact (h1 i).symm.trans (h2 i)
  calc P.real {ω | B (fun i => Z i ω) (w ω)}
      ≤ P.real (⋃ x : Fin N → A, ⋃ t ∈ Finset.univ.filter (B x), {ω | (∀ i : Fin N, Z i ω = x i) ∧ w ω = t}) :=
        measureReal_mono hsub
    _ ≤ ∑ x : Fin N → A, ∑ t ∈ Finset.univ.filter (B x), P.real {ω | (∀ i : Fin N, Z i ω = x i) ∧ w ω = t} :=
        (measureReal_iUnion_fintype_le _).trans (Finset.sum_le_sum fun x _ => measureReal_biUnion_finset_le _ _)
    _ = ∑ x : Fin N → A, P.real {ω | ∀ i : Fin N, Z i ω = x i} * (((Finset.univ.filter (B x)).card : ℝ) /
          Fintype.card (Fin R → Fin N → Fin N)) := by
        refine Finset.sum_congr rfl fun x _ => ?_
        rw [Finset.sum_congr rfl fun t _ => hw.fair x t, Finset.sum_const, nsmul_eq_mul]
        ring
    _ ≤ ∑ x : Fin N → A, P.real {ω | ∀ i : Fin N, Z i ω = x i} * c :=
        Finset.sum_le_sum fun x _ => mul_le_mul_of_nonneg_left ((div_le_iff₀ hT).mpr (hB x)) measureReal_nonneg
    _ = c := by rw [← Finset.sum_mul, hsum, one_mul]

theorem popVar_rows {A : Type} {Ω : Type} [MeasurableSpace A] [MeasurableSpace Ω] {Z : ℕ → Ω → A} (u : A → ℝ) (N : Nat) (hN : 0 < N) (ω : Ω) :
    popVar (fun i : Fin N => u (Z i ω)) =
      rowMean (firstRows Z N ω) (fun a => u a ^ 2) - rowMean (firstRows Z N ω) u ^ 2 := by
  have hNr : (N : ℝ) ≠ 0 := by exact_mod_cast hN.ne'
  rw [rowMean_firstRows, rowMean_firstRows, ← Fin.sum_univ_eq_sum_range (fun i => u (Z i ω) ^ 2),
    ← Fin.sum_univ_eq_sum_range (fun i => u (Z i ω))]
  unfold popVar
  set m := (∑ s : Fin N, u (Z s ω)) / N with hm
  have h2 : ∀ t : Fin N, (u (Z t ω) - m) ^ 2 = u (Z t ω) ^ 2 - 2 * m * u (Z t ω) + m ^ 2 := fun t => by ring
  have hS : ∑ s : Fin N, u (Z s ω) = N * m := by rw [hm]; field_simp
  rw [Finset.sum_congr rfl fun t _ => h2 t, Finset.sum_add_distrib, Finset.sum_sub_distrib, ← Finset.mul_sum, hS]
  simp only [Finset.sum_const, Finset.card_univ, Fintype.card_fin, nsmul_eq_mul]
  field_simp
  ring

theorem varOn_eq {A : Type} [Fintype A] [Nonempty A] (u : A → ℝ) :
    varOn u = (∑ a, u a ^ 2) / Fintype.card A - ((∑ a, u a) / Fintype.card A) ^ 2 := by
  have hc : (Fintype.card A : ℝ) ≠ 0 := by exact_mod_cast Fintype.card_ne_zero
  unfold varOn
  set m := (∑ s, u s) / Fintype.card A with hm
  have h2 : ∀ t, (u t - m) ^ 2 = u t ^ 2 - 2 * m * u t + m ^ 2 := fun t => by ring
  have hS : ∑ s, u s = Fintype.card A * m := by rw [hm]; field_simp
  rw [Finset.sum_congr rfl fun t _ => h2 t, Finset.sum_add_distrib, Finset.sum_sub_distrib, ← Finset.mul_sum, hS]
  simp only [Finset.sum_const, Finset.card_univ, nsmul_eq_mul]
  field_simp
  ring

theorem varOn_nonneg {A : Type} [Fintype A] (u : A → ℝ) : 0 ≤ varOn u :=
  div_nonneg (Finset.sum_nonneg fun _ _ => sq_nonneg _) (Nat.cast_nonneg _)

theorem sqrt_sub_sq_le (a b : ℝ) (ha : 0 ≤ a) (hb : 0 ≤ b) : (√a - √b) ^ 2 ≤ |a - b| := by
  have h1 := Real.sqrt_nonneg a
  have h2 := Real.sqrt_nonneg b
  have e : a - b = (√a - √b) * (√a + √b) := by
    have := Real.sq_sqrt ha
    have := Real.sq_sqrt hb
    nlinarith
  rw [e, abs_mul, abs_of_nonneg (add_nonneg h1 h2), ← sq_abs, sq]
  refine mul_le_mul_of_nonneg_left ?_ (abs_nonneg _)
  rw [abs_le]
  constructor <;> linarith

theorem cdf_half : cdf (gaussianReal 0 1) 0 = 1 / 2 := by
  have := nullSingletonClass_gaussianReal (μ := 0) (v := 1) (by norm_num)
  have h := normalWithin_eq 0 le_rfl
  have h0 : normalWithin 0 = 0 := by
    unfold normalWithin
    simp [Measure.real]
  linarith

theorem normalWithin_level (z conf : ℝ) (hc : 0 < conf) (hz : cdf (gaussianReal 0 1) z = 1 / 2 + conf / 2) :
    0 < z ∧ normalWithin z = conf := by
  have hz0 : 0 < z := by
    by_contra hn
    have := (cdf (gaussianReal 0 1)).mono (not_lt.mp hn)
    rw [hz, cdf_half] at this
    linarith
  refine ⟨hz0, ?_⟩
  rw [normalWithin_eq z hz0.le, hz]
  ring

section fair

variable {D g q : Nat} {Ω : Type} [MeasurableSpace Ω] {P : Measure Ω} {Z : ℕ → Ω → MorrisDraw D g q}

theorem fair_rare (hZ : FairDraws P Z) (u : MorrisDraw D g q → ℝ) [Nonempty (MorrisDraw D g q)] (η : ℝ) (hη : 0 < η) :
    ∃ N0, ∀ N ≥ N0, P.real {ω | η ≤ |popVar (fun i : Fin N => u (Z i ω)) - varOn u|} ≤ η := by
  have hP : IsProbabilityMeasure P := hZ.indep.isProbabilityMeasure
  have hP0 : IsProbabilityMeasure (Measure.map (Z 0) P) := Measure.isProbabilityMeasure_map (hZ.meas 0).aemeasurable
  have h1 := tendsto_rowMean hZ.meas hZ.law hZ.indep u (measurable_of_finite _) Integrable.of_finite
  have h2 := tendsto_rowMean hZ.meas hZ.law hZ.indep (fun d => u d ^ 2) (measurable_of_finite _) Integrable.of_finite
  rw [hZ.integral] at h1 h2
  have hae : ∀ᵐ ω ∂P, Tendsto (fun N => rowMean (firstRows Z N ω) (fun a => u a ^ 2) - rowMean (firstRows Z N ω) u ^ 2) atTop
      (𝓝 (varOn u)) := by
    filter_upwards [h1, h2] with ω a b
    rw [varOn_eq]
    exact b.sub (a.pow 2)
  have hmeas : ∀ (h : MorrisDraw D g q → ℝ) (N : ℕ), Measurable fun ω => rowMean (firstRows Z N ω) h := by
    intro h N
    simp only [rowMean_firstRows]
    exact (Finset.measurable_sum _ fun i _ => (measurable_of_finite h).comp (hZ.meas i)).div_const _
  have hin := tendstoInMeasure_of_tendsto_ae
    (fun N => ((hmeas (fun a => u a ^ 2) N).sub ((hmeas u N).pow_const 2)).aestronglyMeasurable) hae
  have h3 := hin (ENNReal.ofReal η) (by simpa using hη)
  have h4 := h3.eventually (ge_mem_nhds (show (0 : ENNReal) < ENNReal.ofReal η by simpa using hη))
  obtain ⟨N0, hN0⟩ := eventually_atTop.mp h4
  refine ⟨max N0 1, fun N hN => ?_⟩
  have h5 := hN0 N (le_of_max_le_left hN)
  refine ENNReal.toReal_le_of_le_ofReal hη.le (le_trans (measure_mono fun ω (hω : η ≤ _) => ?_) h5)
  rw [popVar_rows u N (le_of_max_le_right hN) ω] at hω
  show ENNReal.ofReal η ≤ edist _ _
  rw [edist_dist, Real.dist_eq]
  exact ENNReal.ofReal_le_ofReal hω

/-- The bootstrap standard deviation times the square root of the number of rows is near the standard deviation of one row. -/
theorem boot_sd (hZ : FairDraws P Z) (u : MorrisDraw D g q → ℝ) [Nonempty (MorrisDraw D g q)] (η : ℝ) (hη : 0 < η) :
    ∃ N0 R0, ∀ N ≥ N0, ∀ R ≥ R0, ∀ w : Ω → Fin R → Fin N → Fin N, FairResample P Z N R w →
      P.real {ω | η ≤ |√(N * drawVar fun r => (∑ i, u (Z (w ω r i) ω)) / N) - √(varOn u)|} ≤ η := by
  have hP : IsProbabilityMeasure P := hZ.indep.isProbabilityMeasure
  have hη2 : 0 < min (η / 2) (η ^ 2 / 2) := by positivity
  obtain ⟨N0, hN0⟩ := fair_rare hZ u _ hη2
  obtain ⟨C, hC⟩ := boot_rare (∑ d, |u d|) (η ^ 2 / 2) (by positivity)
  obtain ⟨R0, hR0⟩ := exists_nat_gt (C / (η / 2))
  refine ⟨max N0 1, max R0 2, fun N hN R hR w hw => ?_⟩
  have hNp : 0 < N := le_of_max_le_right hN
  have hR2 : 2 ≤ R := le_of_max_le_right hR
  have hRr : (0 : ℝ) < R := by exact_mod_cast (by omega : 0 < R)
  classical
  have h1 := resample_rare hZ.meas hNp hw
    (fun x t => η ^ 2 / 2 ≤ |N * drawVar (fun r => (∑ i, u (x (t r i))) / N) - popVar fun i => u (x i)|) (C / R)
    (fun x => hC N R hNp hR2 (fun i => u (x i)) fun i => Finset.single_le_sum (f := fun d => |u d|) (fun _ _ => abs_nonneg _)
      (Finset.mem_univ (x i)))
  have h2 := hN0 N (le_of_max_le_left hN)
  have hCR : C / R ≤ η / 2 := by
    rw [div_le_iff₀ hRr]
    have : (R0 : ℝ) ≤ R := by exact_mod_cast le_of_max_le_left hR
    have := (div_lt_iff₀ (by positivity)).mp hR0
    nlinarith
  have hsub : {ω | η ≤ |√(N * drawVar fun r => (∑ i, u (Z (w ω r i) ω)) / N) - √(varOn u)|} ⊆
      {ω | η ^ 2 / 2 ≤ |N * drawVar (fun r => (∑ i, u (Z (w ω r i) ω)) / N) - popVar fun i : Fin N => u (Z i ω)|} ∪
      {ω | min (η / 2) (η ^ 2 / 2) ≤ |popVar (fun i : Fin N => u (Z i ω)) - varOn u|} := by
    intro ω hω
    replace hω : η ≤ |√(N * drawVar fun r => (∑ i, u (Z (w ω r i) ω)) / N) - √(varOn u)| := hω
    by_contra hno
    rw [Set.mem_union, not_or] at hno
    have a1 : |N * drawVar (fun r => (∑ i, u (Z (w ω r i) ω)) / N) - popVar fun i : Fin N => u (Z i ω)| < η ^ 2 / 2 :=
      lt_of_not_ge hno.1
    have a2 : |popVar (fun i : Fin N => u (Z i ω)) - varOn u| < η ^ 2 / 2 := lt_of_lt_of_le (lt_of_not_ge hno.2) (min_le_right _ _)
    have a3 := sqrt_sub_sq_le (N * drawVar fun r => (∑ i, u (Z (w ω r i) ω)) / N) (varOn u)
      (mul_nonneg (Nat.cast_nonneg _) (drawVar_nonneg hR2 _)) (varOn_nonneg u)
    have a4 : η ^ 2 ≤ (√(N * drawVar fun r => (∑ i, u (Z (w ω r i) ω)) / N) - √(varOn u)) ^ 2 := by
      rw [← sq_abs (_ - _)]
      exact pow_le_pow_left₀ hη.le hω 2
    have a5 := abs_sub_le (N * drawVar fun r => (∑ i, u (Z (w ω r i) ω)) / N) (popVar fun i : Fin N => u (Z i ω)) (varOn u)
    linarith
  calc _ ≤ _ := measureReal_mono hsub
    _ ≤ _ := measureReal_union_le _ _
    _ ≤ C / R + min (η / 2) (η ^ 2 / 2) := add_le_add h1 h2
    _ ≤ η / 2 + η / 2 := add_le_add hCR (min_le_left _ _)
    _ = η := by ring

/-- Intervals around a mean whose half width is `z` times a mean of bootstrap standard deviations cover the expectation with the
probability with which a standard normal variable is at most `z` away from zero. -/
theorem boot_coverage (hZ : FairDraws P Z) (u : MorrisDraw D g q → ℝ) [Nonempty (MorrisDraw D g q)] (hv : 0 < varOn u)
    {ι : Type} (J : Finset ι) (hJ : J.Nonempty) (z : ℝ) (hz : 0 < z) (ε : ℝ) (hε : 0 < ε) :
    ∃ N0 R0, ∀ N ≥ N0, ∀ R ≥ R0, ∀ w : Ω → ι → Fin R → Fin N → Fin N, (∀ j ∈ J, FairResample P Z N R fun ω => w ω j) →
      |P.real {ω | |rowMean (firstRows Z N ω) u - (∑ d, u d) / Fintype.card (MorrisDraw D g q)| ≤
        (∑ j ∈ J, z * √(drawVar fun r => (∑ i, u (Z (w ω j r i) ω)) / N)) / J.card} - normalWithin z| < ε := by
  have hP : IsProbabilityMeasure P := hZ.indep.isProbabilityMeasure
  have hP0 : IsProbabilityMeasure (Measure.map (Z 0) P) := Measure.isProbabilityMeasure_map (hZ.meas 0).aemeasurable
  have hcard : (0 : ℝ) < Fintype.card (MorrisDraw D g q) := by exact_mod_cast Fintype.card_pos
  have hJc : (0 : ℝ) < J.card := by exact_mod_cast hJ.card_pos
  set s := √(varOn u) with hs
  have hs0 : 0 < s := Real.sqrt_pos.mpr hv
  have hs2 : s ^ 2 = varOn u := Real.sq_sqrt hv.le
  set μ := (∑ d, u d) / Fintype.card (MorrisDraw D g q) with hμ
  let X : ℕ → Ω → ℝ := fun k ω => (u (Z k ω) - μ) / s
  have hX0 : ∫ ω, X 0 ω ∂P = 0 := by
    have e : ∫ ω, X 0 ω ∂P = ∫ d, (u d - μ) / s ∂(Measure.map (Z 0) P) := by
      rw [integral_map (hZ.meas 0).aemeasurable (measurable_of_finite _).aestronglyMeasurable]
    rw [e, hZ.integral, ← Finset.sum_div, Finset.sum_sub_distrib]
    simp only [Finset.sum_const, Finset.card_univ, nsmul_eq_mul, hμ]
    field_simp
    simp
  have hX1 : ∫ ω, X 0 ω ^ 2 ∂P = 1 := by
    have e : ∫ ω, X 0 ω ^ 2 ∂P = ∫ d, ((u d - μ) / s) ^ 2 ∂(Measure.map (Z 0) P) := by
      rw [integral_map (hZ.meas 0).aemeasurable (measurable_of_finite _).aestronglyMeasurable]
    rw [e, hZ.integral]
    have : ∀ d, ((u d - μ) / s) ^ 2 = (u d - μ) ^ 2 / varOn u := fun d => by rw [div_pow, hs2]
    rw [Finset.sum_congr rfl fun d _ => this d, ← Finset.sum_div, div_right_comm]
    exact div_self hv.ne'
  have hXi : iIndepFun X P := hZ.indep.comp (fun _ d => (u d - μ) / s) fun _ => measurable_of_finite _
  have hXd : ∀ i, IdentDistrib (X i) (X 0) P P := fun i =>
    { aemeasurable_fst := ((measurable_of_finite fun d => (u d - μ) / s).comp (hZ.meas i)).aemeasurable
      aemeasurable_snd := ((measurable_of_finite fun d => (u d - μ) / s).comp (hZ.meas 0)).aemeasurable
      map_eq := by
        have : ∀ i, Measure.map (X i) P = Measure.map (fun d => (u d - μ) / s) (Measure.map (Z 0) P) := by
          intro i
          rw [← hZ.law i, Measure.map_map (measurable_of_finite _) (hZ.meas i)]
          rfl
        rw [this i, this 0] }
  have hclt := fun a => clt_interval X hX0 hX1 hXi hXd a
  obtain ⟨δ, hδ, hcont⟩ := Metric.continuousAt_iff.mp (normalWithin_continuousAt z hz) (ε / 3) (by positivity)
  set η := min (ε / (4 * J.card)) (s * δ / (2 * z)) with hη
  have hη0 : 0 < η := by positivity
  have hηz : z * η / s < δ := by
    rw [div_lt_iff₀ hs0]
    have : η ≤ s * δ / (2 * z) := min_le_right _ _
    rw [le_div_iff₀ (by positivity)] at this
    nlinarith
  have hηJ : J.card * η ≤ ε / 4 := by
    have : η ≤ ε / (4 * J.card) := min_le_left _ _
    rw [le_div_iff₀ (by positivity)] at this
    nlinarith
  obtain ⟨N1, R1, hbad⟩ := boot_sd hZ u η hη0
  obtain ⟨N2, hN2⟩ := Metric.tendsto_atTop.mp (hclt (z + z * η / s)) (ε / 3) (by positivity)
  obtain ⟨N3, hN3⟩ := Metric.tendsto_atTop.mp (hclt (z - z * η / s)) (ε / 3) (by positivity)
  refine ⟨max (max N1 1) (max N2 N3), R1, fun N hN R hR w hw => ?_⟩
  have hNp : 0 < N := le_trans (le_max_right N1 1) (le_of_max_le_left hN)
  have hNr : (0 : ℝ) < N := by exact_mod_cast hNp
  have hrN : 0 < √(N : ℝ) := Real.sqrt_pos.mpr hNr
  have hrN2 : √(N : ℝ) * √N = N := Real.mul_self_sqrt hNr.le
  have hbad' : ∀ j ∈ J, P.real {ω | η ≤ |√(N * drawVar fun r => (∑ i, u (Z (w ω j r i) ω)) / N) - s|} ≤ η := fun j hj =>
    hbad N (le_trans (le_max_left N1 1) (le_of_max_le_left hN)) R hR _ (hw j hj)
  have hup := hN2 N (le_trans (le_max_left N2 N3) (le_of_max_le_right hN))
  have hlo := hN3 N (le_trans (le_max_right N2 N3) (le_of_max_le_right hN))
  have hzp : 0 ≤ z * η / s := by positivity
  have c1 := hcont (x := z + z * η / s) (by rw [Real.dist_eq, abs_lt]; constructor <;> linarith)
  have c2 := hcont (x := z - z * η / s) (by rw [Real.dist_eq, abs_lt]; constructor <;> linarith)
  rw [Real.dist_eq, abs_lt] at hup hlo c1 c2
  set cov := {ω | |rowMean (firstRows Z N ω) u - μ| ≤ (∑ j ∈ J, z * √(drawVar fun r => (∑ i, u (Z (w ω j r i) ω)) / N)) / J.card}
    with hcov
  let bad : Set Ω := ⋃ j ∈ J, {ω | η ≤ |√(N * drawVar fun r => (∑ i, u (Z (w ω j r i) ω)) / N) - s|}
  have hPbad : P.real bad ≤ ε / 4 :=
    ((measureReal_biUnion_finset_le _ _).trans (Finset.sum_le_card_nsmul _ _ _ hbad')).trans (by rw [nsmul_eq_mul]; exact hηJ)
  have hgood : ∀ ω ∉ bad, ∀ a, (|(√N)⁻¹ * ∑ k ∈ Finset.range N, X k ω| ≤ a ↔ |rowMean (firstRows Z N ω) u - μ| ≤ a * s / √N) ∧
      |(∑ j ∈ J, z * √(drawVar fun r => (∑ i, u (Z (w ω j r i) ω)) / N)) / J.card - z * s / √N| ≤ z * η / √N := by
    intro ω hω a
    constructor
    · have e : (√N)⁻¹ * ∑ k ∈ Finset.range N, X k ω = (rowMean (firstRows Z N ω) u - μ) / (s / √N) := by
        rw [rowMean_firstRows]
        show (√N)⁻¹ * ∑ k ∈ Finset.range N, (u (Z k ω) - μ) / s = _
        rw [← Finset.sum_div, Finset.sum_sub_distrib]
        simp only [Finset.sum_const, Finset.card_range, nsmul_eq_mul]
        field_simp
        rw [sq, hrN2]
      rw [e, abs_div, abs_of_pos (div_pos hs0 hrN), div_le_iff₀ (div_pos hs0 hrN), mul_div_assoc]
    · have hj : ∀ j ∈ J, |z * √(drawVar fun r => (∑ i, u (Z (w ω j r i) ω)) / N) - z * s / √N| ≤ z * η / √N := by
        intro j hj
        have h1 : |√(N * drawVar fun r => (∑ i, u (Z (w ω j r i) ω)) / N) - s| < η := by
          by_contra hn
          exact hω (Set.mem_biUnion hj (not_lt.mp hn))
        rw [Real.sqrt_mul hNr.le] at h1
        have e : z * √(drawVar fun r => (∑ i, u (Z (w ω j r i) ω)) / N) - z * s / √N =
            z / √N * (√N * √(drawVar fun r => (∑ i, u (Z (w ω j r i) ω)) / N) - s) := by
          field_simp
        rw [e, abs_mul, abs_of_pos (div_pos hz hrN), mul_div_right_comm]
        exact mul_le_mul_of_nonneg_left h1.le (div_pos hz hrN).le
      have e : (∑ j ∈ J, z * √(drawVar fun r => (∑ i, u (Z (w ω j r i) ω)) / N)) / J.card - z * s / √N =
          (∑ j ∈ J, (z * √(drawVar fun r => (∑ i, u (Z (w ω j r i) ω)) / N) - z * s / √N)) / J.card := by
        rw [Finset.sum_sub_distrib, Finset.sum_const, nsmul_eq_mul]
        field_simp
      rw [e, abs_div, abs_of_pos hJc, div_le_iff₀ hJc]
      refine (Finset.abs_sum_le_sum_abs _ _).trans ((Finset.sum_le_card_nsmul _ _ _ hj).trans (le_of_eq ?_))
      rw [nsmul_eq_mul, mul_comm]
  have b1 : P.real cov ≤ P.real {ω | |(√N)⁻¹ * ∑ k ∈ Finset.range N, X k ω| ≤ z + z * η / s} + P.real bad := by
    refine le_trans (measureReal_mono (fun ω hω => ?_) (measure_ne_top P _)) (measureReal_union_le _ _)
    replace hω : |rowMean (firstRows Z N ω) u - μ| ≤ _ := hω
    by_cases hb : ω ∈ bad
    · exact Or.inr hb
    · refine Or.inl ((hgood ω hb _).1.mpr (hω.trans ?_))
      have := (abs_le.mp (hgood ω hb 0).2).2
      have e : (z + z * η / s) * s / √N = z * s / √N + z * η / √N := by field_simp
      rw [e]
      linarith
  have b2 : P.real {ω | |(√N)⁻¹ * ∑ k ∈ Finset.range N, X k ω| ≤ z - z * η / s} ≤ P.real cov + P.real bad := by
    refine le_trans (measureReal_mono (fun ω hω => ?_) (measure_ne_top P _)) (measureReal_union_le _ _)
    by_cases hb : ω ∈ bad
    · exact Or.inr hb
    · refine Or.inl (((hgood ω hb _).1.mp hω).trans ?_)
      have := (abs_le.mp (hgood ω hb 0).2).1
      have e : (z - z * η / s) * s / √N = z * s / √N - z * η / √N := by field_simp
      rw [e]
      linarith
  rw [abs_lt]
  constructor <;> linarith

end fair

end SALib
