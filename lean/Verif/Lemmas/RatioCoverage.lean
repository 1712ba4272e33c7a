import Verif.Lemmas.Coverage
import Verif.Lemmas.Hoeffding

/-! # Coverage of bootstrap intervals around quotients of means -/

namespace SALib
open MeasureTheory ProbabilityTheory Filter Topology Spec

/-! ### Resampling rows of any kind -/

/-- Index arrays drawn independently of the first `N` rows, all of them equally likely. -/
structure Spec.FreshResample {β Ω : Type} [MeasurableSpace β] [MeasurableSpace Ω] (P : Measure Ω) (Z : ℕ → Ω → β) (N R : Nat)
    (w : Ω → Fin R → Fin N → Fin N) : Prop where
  fair : ∀ S : Set (Fin N → β), MeasurableSet S → ∀ t : Fin R → Fin N → Fin N,
    P.real {ω | (fun i : Fin N => Z i ω) ∈ S ∧ w ω = t} =
      P.real {ω | (fun i : Fin N => Z i ω) ∈ S} / Fintype.card (Fin R → Fin N → Fin N)

theorem fresh_rare {β Ω : Type} [MeasurableSpace β] [MeasurableSpace Ω] {P : Measure Ω} [IsProbabilityMeasure P]
    {Z : ℕ → Ω → β} (hm : ∀ i, Measurable (Z i)) {N R : Nat} (hN : 0 < N) {w : Ω → Fin R → Fin N → Fin N}
    (hw : FreshResample P Z N R w)
    (B : (Fin N → β) → (Fin R → Fin N → Fin N) → Prop) [∀ x, DecidablePred (B x)] (hBm : ∀ t, MeasurableSet {x | B x t}) (c : ℝ)
    (hB : ∀ x, ((Finset.univ.filter (B x)).card : ℝ) ≤ c * Fintype.card (Fin R → Fin N → Fin N)) :
    P.real {ω | B (fun i => Z i ω) (w ω)} ≤ c := by
  classical
  set T : ℝ := (Fintype.card (Fin R → Fin N → Fin N) : ℝ) with hTd
  have hT : 0 < T := by
    have : Nonempty (Fin N) := ⟨⟨0, hN⟩⟩
    rw [hTd]
    exact_mod_cast Fintype.card_pos
  have hZm : Measurable fun ω => fun i : Fin N => Z i ω := measurable_pi_lambda _ fun i => hm i
  have hsub : {ω | B (fun i => Z i ω) (w ω)} ⊆
      ⋃ t : Fin R → Fin N → Fin N, {ω | (fun i : Fin N => Z i ω) ∈ {x | B x t} ∧ w ω = t} := by
    intro ω hω
    simp only [Set.mem_iUnion]
    exact ⟨w ω, hω, rfl⟩
  have hset : ∀ t, MeasurableSet {ω | (fun i : Fin N => Z i ω) ∈ {x | B x t}} := fun t => hZm (hBm t)
  have hind : ∀ t, ∫ ω, Set.indicator {ω | (fun i : Fin N => Z i ω) ∈ {x | B x t}} (fun _ => (1 : ℝ)) ω ∂P =
      P.real {ω | (fun i : Fin N => Z i ω) ∈ {x | B x t}} := fun t => integral_indicator_one (hset t)
  have hint : ∀ t, Integrable (Set.indicator {ω | (fun i : Fin N => Z i ω) ∈ {x | B x t}} (fun _ => (1 : ℝ))) P := fun t =>
    (integrable_const (1 : ℝ)).indicator (hset t)
  have hle : ∑ t, P.real {ω | (fun i : Fin N => Z i ω) ∈ {x | B x t}} ≤ c * T := by
    rw [← Finset.sum_congr rfl fun t _ => hind t, ← integral_finsetSum _ fun t _ => hint t]
    have : ∫ _, c * T ∂P = c * T := by simp
    rw [← this]
    refine integral_mono (integrable_finsetSum _ fun t _ => hint t) (integrable_const _) fun ω => ?_
    refine le_trans (le_of_eq ?_) (hB fun i => Z i ω)
    rw [Finset.card_filter]
    push_cast
    refine Finset.sum_congr rfl fun t _ => ?_
    rw [Set.indicator_apply]
    rfl
  calc P.real {ω | B (fun i => Z i ω) (w ω)}
      ≤ P.real (⋃ t : Fin R → Fin N → Fin N, {ω | (fun i : Fin N => Z i ω) ∈ {x | B x t} ∧ w ω = t}) :=
        measureReal_mono hsub
    _ ≤ ∑ t : Fin R → Fin N → Fin N, P.real {ω | (fun i : Fin N => Z i ω) ∈ {x | B x t} ∧ w ω = t} :=
        measureReal_iUnion_fintype_le _
    _ = (∑ t, P.real {ω | (fun i : Fin N => Z i ω) ∈ {x | B x t}}) / T := by
        rw [Finset.sum_div]
        exact Finset.sum_congr rfl fun t _ => hw.fair _ (hBm t) t
    _ ≤ c := by rwa [div_le_iff₀ hT]

/-! ### Fourth powers of the errors of means -/

theorem sum_draw_at {B : Type} [Fintype B] {R : Nat} (r : Fin R) (φ : B → ℝ) :
    (Fintype.card B : ℝ) * ∑ d : Fin R → B, φ (d r) = Fintype.card (Fin R → B) * ∑ b, φ b := by
  classical
  have e1 : ∑ d : Fin R → B, φ (d r) = Fintype.card ({j // j ≠ r} → B) * ∑ b, φ b := by
    rw [← (Equiv.funSplitAt r B).symm.sum_comp, Fintype.sum_prod_type]
    simp [Equiv.funSplitAt, Equiv.piSplitAt, Finset.mul_sum]
  have e2 : Fintype.card (Fin R → B) = Fintype.card B * Fintype.card ({j // j ≠ r} → B) := by
    rw [Fintype.card_congr (Equiv.funSplitAt r B), Fintype.card_prod]
  rw [e1, e2]
  push_cast
  ring

theorem boot_mean_four {N : Nat} (hN : 0 < N) (h : Fin N → ℝ) (K : ℝ) (hK : ∀ i, |h i| ≤ K) :
    ∑ b : Fin N → Fin N, ((∑ i, h (b i)) / N - (∑ i, h i) / N) ^ 4 ≤
      Fintype.card (Fin N → Fin N) * (3 * (2 * K) ^ 4 / N ^ 2) := by
  have hNr : (0 : ℝ) < N := by exact_mod_cast hN
  have : Nonempty (Fin N) := ⟨⟨0, hN⟩⟩
  set m := (∑ s, h s) / N with hm
  have hmK : |m| ≤ K := by
    rw [hm, abs_div, abs_of_pos hNr, div_le_iff₀ hNr]
    refine (Finset.abs_sum_le_sum_abs _ _).trans ((Finset.sum_le_card_nsmul _ _ K fun i _ => hK i).trans ?_)
    rw [nsmul_eq_mul, Finset.card_univ, Fintype.card_fin, mul_comm]
  have hzL : ∀ i, |h i - m| ≤ 2 * K := fun i => by
    have := abs_sub (h i) m
    linarith [hK i]
  have hz : ∑ i, (h i - m) = 0 := by
    have := sum_centred h
    rwa [Fintype.card_fin] at this
  have hg : ∀ b : Fin N → Fin N, (∑ i, h (b i)) / N - m = (∑ i, (h (b i) - m)) / N := by
    intro b
    rw [Finset.sum_sub_distrib]
    simp only [Finset.sum_const, Finset.card_univ, Fintype.card_fin, nsmul_eq_mul]
    field_simp
  have hcBN : (Fintype.card (Fin N → Fin N) : ℝ) = (N : ℝ) ^ N := by simp
  simp only [hg, div_pow]
  rw [← Finset.sum_div, hcBN, div_le_iff₀ (by positivity)]
  refine (draws_four_le (fun i => h i - m) hz (2 * K) hzL N).trans (le_of_eq ?_)
  rw [Fintype.card_fin]
  field_simp

/-- The mean fourth power of the errors of the bootstrap means, times the number of rows, is small except for a share of the
index arrays of the order of `1 / N`. -/
theorem boot_four_rare (K η : ℝ) (hη : 0 < η) (N R : Nat) (hN : 0 < N) (hR : 0 < R) (h : Fin N → ℝ) (hK : ∀ i, |h i| ≤ K) :
    ((Finset.univ.filter fun d : Fin R → Fin N → Fin N =>
      η ≤ (∑ r, N * ((∑ i, h (d r i)) / N - (∑ i, h i) / N) ^ 4) / R).card : ℝ) ≤
        (48 * K ^ 4 / η) / N * Fintype.card (Fin R → Fin N → Fin N) := by
  have hNr : (0 : ℝ) < N := by exact_mod_cast hN
  have hRr : (0 : ℝ) < R := by exact_mod_cast hR
  have : Nonempty (Fin N) := ⟨⟨0, hN⟩⟩
  set B := Fin N → Fin N with hB
  have hc : (0 : ℝ) < Fintype.card B := by exact_mod_cast Fintype.card_pos
  set T : ℝ := (Fintype.card (Fin R → B) : ℝ) with hT
  have hT0 : 0 < T := by rw [hT]; exact_mod_cast Fintype.card_pos
  let g : B → ℝ := fun b => ((∑ i, h (b i)) / N - (∑ i, h i) / N) ^ 4
  have h4 : ∑ b, g b ≤ Fintype.card B * (3 * (2 * K) ^ 4 / N ^ 2) := boot_mean_four hN h K hK
  have hr : ∀ r : Fin R, ∑ d : Fin R → B, g (d r) ≤ T * (3 * (2 * K) ^ 4 / N ^ 2) := by
    intro r
    refine le_of_mul_le_mul_left ?_ hc
    rw [sum_draw_at r g]
    calc T * ∑ b, g b ≤ T * (Fintype.card B * (3 * (2 * K) ^ 4 / N ^ 2)) := mul_le_mul_of_nonneg_left h4 hT0.le
      _ = _ := by ring
  have hsum : ∑ d : Fin R → B, (∑ r, N * g (d r)) / R ≤ T * (48 * K ^ 4 / N) := by
    rw [← Finset.sum_div, Finset.sum_comm, div_le_iff₀ hRr]
    calc ∑ r : Fin R, ∑ d : Fin R → B, N * g (d r) ≤ ∑ _r : Fin R, N * (T * (3 * (2 * K) ^ 4 / N ^ 2)) := by
          refine Finset.sum_le_sum fun r _ => ?_
          rw [← Finset.mul_sum]
          exact mul_le_mul_of_nonneg_left (hr r) hNr.le
      _ = _ := by
          rw [Finset.sum_const, Finset.card_univ, Fintype.card_fin, nsmul_eq_mul]
          field_simp
          ring
  have := count_markov (fun d : Fin R → B => (∑ r, N * g (d r)) / R)
    (fun d => div_nonneg (Finset.sum_nonneg fun r _ => mul_nonneg hNr.le (by positivity)) hRr.le) η
  have h2 := this.trans hsum
  rw [← le_div_iff₀ hη] at h2
  refine h2.trans (le_of_eq ?_)
  field_simp

/-! ### Rows in probability -/

section rows

variable {β Ω : Type} [MeasurableSpace β] [MeasurableSpace Ω] {P : Measure Ω} {law : Measure β} {Z : ℕ → Ω → β}
  (hm : ∀ i, Measurable (Z i)) (hlaw : ∀ i, Measure.map (Z i) P = law) (hind : iIndepFun Z P)
include hm hlaw hind

theorem mean_four_rare (h : β → ℝ) (mh : Measurable h) (h0 : ∫ p, h p ∂law = 0) (H : ℝ) (hb : ∀ᵐ p ∂law, |h p| ≤ H) (η : ℝ)
    (hη : 0 < η) : ∃ N0, ∀ N ≥ N0, P.real {ω | η ≤ N * rowMean (firstRows Z N ω) h ^ 4} ≤ η := by
  have hP : IsProbabilityMeasure P := hind.isProbabilityMeasure
  set L := |H| + 1 with hL
  have hL0 : 0 < L := by positivity
  have hbL : ∀ᵐ p ∂law, |h p| ≤ L := hb.mono fun p hp => hp.trans ((le_abs_self H).trans (by rw [hL]; linarith))
  have hlim : Tendsto (fun N : ℕ => 2 * Real.exp (-(√(η * N) / L ^ 2 / 2))) atTop (𝓝 0) := by
    have h1 : Tendsto (fun N : ℕ => √(η * N) / L ^ 2 / 2) atTop atTop := by
      refine Tendsto.atTop_div_const (by norm_num) (Tendsto.atTop_div_const (by positivity) ?_)
      exact Real.tendsto_sqrt_atTop.comp (tendsto_natCast_atTop_atTop.const_mul_atTop hη)
    have h2 := (Real.tendsto_exp_neg_atTop_nhds_zero.comp h1).const_mul 2
    rwa [mul_zero] at h2
  obtain ⟨N0, hN0⟩ := eventually_atTop.mp (hlim.eventually (ge_mem_nhds hη))
  refine ⟨max N0 1, fun N hN => ?_⟩
  have hNp : 0 < N := le_of_max_le_right hN
  have hNr : (0 : ℝ) < N := by exact_mod_cast hNp
  set δ := √(√(η / N)) / L with hδ
  have hδ0 : 0 ≤ δ := by positivity
  have key := rowMean_hoeffding hm hlaw hind h mh L hL0 hbL N hNp δ hδ0
  rw [h0] at key
  have hd2 : N * δ ^ 2 / 2 = √(η * N) / L ^ 2 / 2 := by
    rw [hδ, div_pow, Real.sq_sqrt (Real.sqrt_nonneg _)]
    have : (N : ℝ) * √(η / N) = √(η * N) := by
      rw [Real.sqrt_div hη.le, Real.sqrt_mul hη.le]
      have h2 := Real.mul_self_sqrt hNr.le
      have h3 : √(N : ℝ) ≠ 0 := (Real.sqrt_pos.mpr hNr).ne'
      field_simp
      rw [sq, h2]
    rw [← this]
    ring
  rw [hd2] at key
  refine le_trans (measureReal_mono (fun ω hω => ?_) (measure_ne_top P _)) (key.trans (hN0 N (le_of_max_le_left hN)))
  replace hω : η ≤ N * rowMean (firstRows Z N ω) h ^ 4 := hω
  show δ * L ≤ |rowMean (firstRows Z N ω) h - 0|
  rw [sub_zero, hδ, div_mul_cancel₀ _ hL0.ne']
  refine Real.sqrt_le_iff.mpr ⟨abs_nonneg _, Real.sqrt_le_iff.mpr ⟨by positivity, ?_⟩⟩
  rw [← pow_mul, div_le_iff₀ hNr, show 2 * 2 = 4 from rfl, ← abs_pow, abs_of_nonneg (by positivity), mul_comm]
  exact hω

theorem popVar_rare (u : β → ℝ) (mu : Measurable u) (h0 : ∫ p, u p ∂law = 0) (H : ℝ) (hb : ∀ᵐ p ∂law, |u p| ≤ H) (η : ℝ)
    (hη : 0 < η) : ∃ N0, ∀ N ≥ N0, P.real {ω | η ≤ |popVar (fun i : Fin N => u (Z i ω)) - ∫ p, u p ^ 2 ∂law|} ≤ η := by
  have hP : IsProbabilityMeasure P := hind.isProbabilityMeasure
  have hlP : IsProbabilityMeasure law := by
    rw [← hlaw 0]; exact Measure.isProbabilityMeasure_map (hm 0).aemeasurable
  have hI : Integrable u law := Integrable.of_bound mu.aestronglyMeasurable H hb
  have hI2 : Integrable (fun p => u p ^ 2) law := by
    refine Integrable.of_bound (mu.pow_const 2).aestronglyMeasurable (H ^ 2) (hb.mono fun p hp => ?_)
    rw [Real.norm_eq_abs, abs_pow]
    exact pow_le_pow_left₀ (abs_nonneg _) hp 2
  have h1 := tendsto_rowMean hm hlaw hind u mu hI
  have h2 := tendsto_rowMean hm hlaw hind (fun d => u d ^ 2) (mu.pow_const 2) hI2
  have hae : ∀ᵐ ω ∂P, Tendsto (fun N => rowMean (firstRows Z N ω) (fun a => u a ^ 2) - rowMean (firstRows Z N ω) u ^ 2) atTop
      (𝓝 (∫ p, u p ^ 2 ∂law)) := by
    filter_upwards [h1, h2] with ω a b
    have := b.sub (a.pow 2)
    rwa [h0, zero_pow (by norm_num), sub_zero] at this
  have hmeas : ∀ (h : β → ℝ) (_ : Measurable h) (N : ℕ), Measurable fun ω => rowMean (firstRows Z N ω) h := by
    intro h mh N
    simp only [rowMean_firstRows]
    exact (Finset.measurable_sum _ fun i _ => mh.comp (hm i)).div_const _
  have hin := tendstoInMeasure_of_tendsto_ae
    (fun N => ((hmeas (fun a => u a ^ 2) (mu.pow_const 2) N).sub ((hmeas u mu N).pow_const 2)).aestronglyMeasurable) hae
  have h3 := hin (ENNReal.ofReal η) (by simpa using hη)
  have h4 := h3.eventually (ge_mem_nhds (show (0 : ENNReal) < ENNReal.ofReal η by simpa using hη))
  obtain ⟨N0, hN0⟩ := eventually_atTop.mp h4
  refine ⟨max N0 1, fun N hN => ?_⟩
  have h5 := hN0 N (le_of_max_le_left hN)
  refine ENNReal.toReal_le_of_le_ofReal hη.le (le_trans (measure_mono fun ω (hω : η ≤ _) => ?_) h5)
  rw [popVar_rows u N (le_of_max_le_right hN) ω] at hω
  show ENNReal.ofReal η ≤ edist _ _
  rw [edist_dist, Real.dist_eq]
  exact ENNReal.ofReal_le_ofReal hω

theorem rows_bounded (u : β → ℝ) (mu : Measurable u) (H : ℝ) (hb : ∀ᵐ p ∂law, |u p| ≤ H) :
    P.real {ω | ¬ ∀ i, |u (Z i ω)| ≤ H} = 0 := by
  have : ∀ᵐ ω ∂P, ∀ i, |u (Z i ω)| ≤ H := by
    rw [ae_all_iff]
    intro i
    rw [← hlaw i] at hb
    exact ae_of_ae_map (hm i).aemeasurable hb
  rw [measureReal_def, ae_iff.mp this]
  rfl

/-- The bootstrap standard deviation of a mean, times the square root of the number of rows. -/
theorem boot_sd_rows (u : β → ℝ) (mu : Measurable u) (h0 : ∫ p, u p ∂law = 0) (H : ℝ) (hb : ∀ᵐ p ∂law, |u p| ≤ H) (η : ℝ)
    (hη : 0 < η) : ∃ N0 R0, ∀ N ≥ N0, ∀ R ≥ R0, ∀ w : Ω → Fin R → Fin N → Fin N, FreshResample P Z N R w →
      P.real {ω | η ≤ |√(N * drawVar fun r => (∑ i, u (Z (w ω r i) ω)) / N) - √(∫ p, u p ^ 2 ∂law)|} ≤ η := by
  have hP : IsProbabilityMeasure P := hind.isProbabilityMeasure
  have hη2 : 0 < min (η / 2) (η ^ 2 / 2) := by positivity
  obtain ⟨N0, hN0⟩ := popVar_rare hm hlaw hind u mu h0 H hb _ hη2
  obtain ⟨C, hC⟩ := boot_rare H (η ^ 2 / 2) (by positivity)
  obtain ⟨R0, hR0⟩ := exists_nat_gt (max C 0 / (η / 2))
  refine ⟨max N0 1, max R0 2, fun N hN R hR w hw => ?_⟩
  have hNp : 0 < N := le_of_max_le_right hN
  have hR2 : 2 ≤ R := le_of_max_le_right hR
  have hRr : (0 : ℝ) < R := by exact_mod_cast (by omega : 0 < R)
  classical
  have h1 := fresh_rare hm hNp hw
    (fun x t => (∀ i, |u (x i)| ≤ H) ∧
      η ^ 2 / 2 ≤ |N * drawVar (fun r => (∑ i, u (x (t r i))) / N) - popVar fun i => u (x i)|)
    (fun t => by
      have m1 : MeasurableSet {x : Fin N → β | ∀ i, |u (x i)| ≤ H} := by
        rw [show {x : Fin N → β | ∀ i, |u (x i)| ≤ H} = ⋂ i, {x | |u (x i)| ≤ H} from by ext x; simp]
        exact MeasurableSet.iInter fun i => measurableSet_le (by fun_prop) measurable_const
      have m2 : MeasurableSet {x : Fin N → β |
          η ^ 2 / 2 ≤ |N * drawVar (fun r => (∑ i, u (x (t r i))) / N) - popVar fun i => u (x i)|} := by
        refine measurableSet_le measurable_const ?_
        unfold drawVar popVar
        fun_prop
      exact m1.inter m2) (max C 0 / R)
    (fun x => by
      by_cases hx : ∀ i, |u (x i)| ≤ H
      · simp only [hx, implies_true, true_and]
        refine (hC N R hNp hR2 (fun i => u (x i)) hx).trans ?_
        exact mul_le_mul_of_nonneg_right (div_le_div_of_nonneg_right (le_max_left _ _) hRr.le) (Nat.cast_nonneg _)
      · simp only [hx, false_and, Finset.filter_false, Finset.card_empty, Nat.cast_zero]
        positivity)
  have h2 := hN0 N (le_of_max_le_left hN)
  have h3 := rows_bounded hm hlaw hind u mu H hb
  have hCR : max C 0 / R ≤ η / 2 := by
    rw [div_le_iff₀ hRr]
    have : (R0 : ℝ) ≤ R := by exact_mod_cast le_of_max_le_left hR
    have := (div_lt_iff₀ (by positivity)).mp hR0
    nlinarith
  have hv0 : 0 ≤ ∫ p, u p ^ 2 ∂law := integral_nonneg fun p => sq_nonneg _
  have hsub : {ω | η ≤ |√(N * drawVar fun r => (∑ i, u (Z (w ω r i) ω)) / N) - √(∫ p, u p ^ 2 ∂law)|} ⊆
      ({ω | (∀ i : Fin N, |u (Z i ω)| ≤ H) ∧
        η ^ 2 / 2 ≤ |N * drawVar (fun r => (∑ i, u (Z (w ω r i) ω)) / N) - popVar fun i : Fin N => u (Z i ω)|} ∪
      {ω | min (η / 2) (η ^ 2 / 2) ≤ |popVar (fun i : Fin N => u (Z i ω)) - ∫ p, u p ^ 2 ∂law|}) ∪
      {ω | ¬ ∀ i, |u (Z i ω)| ≤ H} := by
    intro ω hω
    replace hω : η ≤ |√(N * drawVar fun r => (∑ i, u (Z (w ω r i) ω)) / N) - √(∫ p, u p ^ 2 ∂law)| := hω
    by_contra hno
    rw [Set.mem_union, Set.mem_union, not_or, not_or] at hno
    have a0 : ∀ i, |u (Z i ω)| ≤ H := not_not.mp hno.2
    have a1 : |N * drawVar (fun r => (∑ i, u (Z (w ω r i) ω)) / N) - popVar fun i : Fin N => u (Z i ω)| < η ^ 2 / 2 :=
      lt_of_not_ge fun h => hno.1.1 ⟨fun i => a0 i, h⟩
    have a2 : |popVar (fun i : Fin N => u (Z i ω)) - ∫ p, u p ^ 2 ∂law| < η ^ 2 / 2 :=
      lt_of_lt_of_le (lt_of_not_ge hno.1.2) (min_le_right _ _)
    have a3 := sqrt_sub_sq_le (N * drawVar fun r => (∑ i, u (Z (w ω r i) ω)) / N) (∫ p, u p ^ 2 ∂law)
      (mul_nonneg (Nat.cast_nonneg _) (drawVar_nonneg hR2 _)) hv0
    have a4 : η ^ 2 ≤ (√(N * drawVar fun r => (∑ i, u (Z (w ω r i) ω)) / N) - √(∫ p, u p ^ 2 ∂law)) ^ 2 := by
      rw [← sq_abs (_ - _)]
      exact pow_le_pow_left₀ hη.le hω 2
    have a5 := abs_sub_le (N * drawVar fun r => (∑ i, u (Z (w ω r i) ω)) / N) (popVar fun i : Fin N => u (Z i ω))
      (∫ p, u p ^ 2 ∂law)
    linarith
  calc _ ≤ _ := measureReal_mono hsub (measure_ne_top P _)
    _ ≤ _ := measureReal_union_le _ _
    _ ≤ _ := add_le_add (measureReal_union_le _ _) le_rfl
    _ ≤ max C 0 / R + min (η / 2) (η ^ 2 / 2) + 0 := add_le_add (add_le_add h1 h2) h3.le
    _ ≤ η / 2 + η / 2 + 0 := add_le_add (add_le_add hCR (min_le_left _ _)) le_rfl
    _ = η := by ring

theorem boot_four_rows (h : β → ℝ) (mh : Measurable h) (H : ℝ) (hb : ∀ᵐ p ∂law, |h p| ≤ H) (η : ℝ) (hη : 0 < η) :
    ∃ N0, ∀ N ≥ N0, ∀ R, 0 < R → ∀ w : Ω → Fin R → Fin N → Fin N, FreshResample P Z N R w →
      P.real {ω | η ≤ (∑ r, N * ((∑ i, h (Z (w ω r i) ω)) / N - rowMean (firstRows Z N ω) h) ^ 4) / R} ≤ η := by
  have hP : IsProbabilityMeasure P := hind.isProbabilityMeasure
  obtain ⟨N0, hN0⟩ := exists_nat_gt ((48 * H ^ 4 / η) / η)
  refine ⟨max N0 1, fun N hN R hR w hw => ?_⟩
  have hNp : 0 < N := le_of_max_le_right hN
  have hNr : (0 : ℝ) < N := by exact_mod_cast hNp
  have hCN : (48 * H ^ 4 / η) / N ≤ η := by
    rw [div_le_iff₀ hNr]
    have : (N0 : ℝ) ≤ N := by exact_mod_cast le_of_max_le_left hN
    have := (div_lt_iff₀ (by positivity)).mp hN0
    nlinarith
  classical
  have h1 := fresh_rare hm hNp hw
    (fun x t => (∀ i, |h (x i)| ≤ H) ∧
      η ≤ (∑ r, N * ((∑ i, h (x (t r i))) / N - (∑ i, h (x i)) / N) ^ 4) / R)
    (fun t => by
      have m1 : MeasurableSet {x : Fin N → β | ∀ i, |h (x i)| ≤ H} := by
        rw [show {x : Fin N → β | ∀ i, |h (x i)| ≤ H} = ⋂ i, {x | |h (x i)| ≤ H} from by ext x; simp]
        exact MeasurableSet.iInter fun i => measurableSet_le (by fun_prop) measurable_const
      have m2 : MeasurableSet {x : Fin N → β |
          η ≤ (∑ r, N * ((∑ i, h (x (t r i))) / N - (∑ i, h (x i)) / N) ^ 4) / R} :=
        measurableSet_le measurable_const (by fun_prop)
      exact m1.inter m2) ((48 * H ^ 4 / η) / N)
    (fun x => by
      by_cases hx : ∀ i, |h (x i)| ≤ H
      · simp only [hx, implies_true, true_and]
        exact boot_four_rare H η hη N R hNp hR (fun i => h (x i)) hx
      · simp only [hx, false_and, Finset.filter_false, Finset.card_empty, Nat.cast_zero]
        positivity)
  have h3 := rows_bounded hm hlaw hind h mh H hb
  have hsub : {ω | η ≤ (∑ r, N * ((∑ i, h (Z (w ω r i) ω)) / N - rowMean (firstRows Z N ω) h) ^ 4) / R} ⊆
      {ω | (∀ i : Fin N, |h (Z i ω)| ≤ H) ∧
        η ≤ (∑ r, N * ((∑ i, h (Z (w ω r i) ω)) / N - (∑ i : Fin N, h (Z i ω)) / N) ^ 4) / R} ∪
      {ω | ¬ ∀ i, |h (Z i ω)| ≤ H} := by
    intro ω hω
    by_cases hx : ∀ i, |h (Z i ω)| ≤ H
    · refine Or.inl ⟨fun i => hx i, ?_⟩
      rw [Fin.sum_univ_eq_sum_range (fun i => h (Z i ω)), ← rowMean_firstRows]
      exact hω
    · exact Or.inr hx
  calc _ ≤ _ := measureReal_mono hsub (measure_ne_top P _)
    _ ≤ _ := measureReal_union_le _ _
    _ ≤ (48 * H ^ 4 / η) / N + 0 := add_le_add h1 h3.le
    _ ≤ η := by linarith

end rows

end SALib
