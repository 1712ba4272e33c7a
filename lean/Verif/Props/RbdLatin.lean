import Verif.Lemmas.Alternate
import Verif.Props.RbdLimit
import Verif.Props.GivenData

/-! # C140: RBD-FAST on Latin hypercube samples -/

namespace SALib

open MeasureTheory ProbabilityTheory Spec Filter Topology

variable {d g N : Nat}

/-! ### The design -/

theorem latin_off {Ω : Type} [MeasurableSpace Ω] {P : Measure Ω} [IsProbabilityMeasure P]
    {ord : Ω → StrataOrders N g} {off : Ω → Fin g → Fin N → ℝ} (hL : FairLatin P ord off) :
    ∀ᵐ ω ∂P, ∀ k s, 0 ≤ off ω k s ∧ off ω k s < 1 := by
  have := isProb_unifOn (lo := 0) (hi := 1) (by norm_num)
  refine ae_all_iff.mpr fun k => ae_all_iff.mpr fun s => ?_
  have h1 : ∀ᵐ t ∂unifOn 0 1, 0 ≤ t ∧ t < 1 := by
    filter_upwards [ae_unifOn_mem (lo := 0) (hi := 1), ae_unifOn_ne (lo := 0) (hi := 1) 1] with t h1 h2
    exact ⟨h1.1, lt_of_le_of_ne h1.2 h2⟩
  have hp1 := measurePreserving_eval (fun _ : Fin g => Measure.pi fun _ : Fin N => unifOn 0 1) k
  have hp2 := measurePreserving_eval (fun _ : Fin N => unifOn 0 1) s
  have hp := hp2.comp hp1
  rw [← hp.map_eq] at h1
  have h2 := ae_of_ae_map hp.measurable.aemeasurable h1
  rw [← hL.law] at h2
  exact ae_of_ae_map hL.meas_off.aemeasurable h2

theorem layer_lt (a b : Nat) (s t : ℝ) (hs : 0 ≤ s ∧ s < 1) (ht : 0 ≤ t ∧ t < 1) (hab : a ≠ b) :
    (a : ℝ) + s < b + t ↔ a < b := by
  constructor
  · intro h
    by_contra hc
    have : (b : ℝ) + 1 ≤ a := by exact_mod_cast (by omega : b + 1 ≤ a)
    linarith
  · intro h
    have : (a : ℝ) + 1 ≤ b := by exact_mod_cast (by omega : a + 1 ≤ b)
    linarith

/-- The ranks of a column of the design are its strata. -/
theorem latin_rank (p : StrataOrders N g) (o : Fin g → Fin N → ℝ) (k : Fin g)
    (ho : ∀ s, 0 ≤ o k s ∧ o k s < 1) (lo w : ℝ) (hw : 0 < w) (t : Fin N) :
    rankIn (fun s => lo + latinPt p o s k * w) t = (p.order k t).1 ∧
    Function.Injective (fun s => lo + latinPt p o s k * w) := by
  have hN : (0 : ℝ) < N := by exact_mod_cast (Nat.zero_le _).trans_lt t.2
  have hlt : ∀ s t : Fin N, lo + latinPt p o s k * w < lo + latinPt p o t k * w ↔ (p.order k s).1 < (p.order k t).1 := by
    intro s t
    by_cases hst : s = t
    · subst hst; simp
    · have hne : (p.order k s).1 ≠ (p.order k t).1 := fun h => hst ((p.order k).injective (Fin.ext h))
      rw [← layer_lt _ _ _ _ (ho (p.order k s)) (ho (p.order k t)) hne, add_lt_add_iff_left, mul_lt_mul_iff_left₀ hw]
      unfold latinPt cellPt
      rw [div_lt_div_iff_of_pos_right hN]
  constructor
  · unfold rankIn
    simp only [hlt]
    rw [Equiv.sum_comp (p.order k) fun r : Fin N => if r.1 < (p.order k t).1 then 1 else 0,
      Fin.sum_univ_eq_sum_range (fun r => if r < (p.order k t).1 then 1 else 0), Finset.sum_ite, Finset.sum_const_zero, add_zero,
      Finset.sum_const, smul_eq_mul, mul_one]
    have : (Finset.range N).filter (fun r => r < (p.order k t).1) = Finset.range (p.order k t).1 := by
      ext r
      simp only [Finset.mem_filter, Finset.mem_range]
      have := (p.order k t).2
      omega
    rw [this, Finset.card_range]
  · intro s t h
    by_contra hst
    have hne : (p.order k s).1 ≠ (p.order k t).1 := fun h => hst ((p.order k).injective (Fin.ext h))
    rcases lt_or_gt_of_ne hne with h1 | h1
    · exact absurd h ((hlt s t).mpr h1).ne
    · exact absurd h ((hlt t s).mpr h1).ne'

theorem latin_floor (p : StrataOrders N g) (o : Fin g → Fin N → ℝ) (k : Fin g)
    (ho : ∀ s, 0 ≤ o k s ∧ o k s < 1) (t : Fin N) : ⌊(N : ℝ) * latinPt p o t k⌋₊ = (p.order k t).1 := by
  have hN : (N : ℝ) ≠ 0 := by exact_mod_cast ((Nat.zero_le _).trans_lt t.2).ne'
  unfold latinPt cellPt
  rw [mul_div_cancel₀ _ hN, Nat.floor_eq_iff (by have := (ho (p.order k t)).1; positivity)]
  constructor <;> linarith [(ho (p.order k t)).1, (ho (p.order k t)).2]

/-- Means over a design, for a function below another one in absolute value. -/
theorem latin_far {h H : (Fin g → ℝ) → ℝ} (hm : Measurable h) (hH : MemLp H 2 (cube g)) (hle : ∀ u, |h u| ≤ |H u|)
    (δ : ℝ) (hδ : 0 < δ) (hN : 2 ≤ N) {Ω : Type} [MeasurableSpace Ω] (P : Measure Ω) [IsProbabilityMeasure P]
    (ord : Ω → StrataOrders N g) (off : Ω → Fin g → Fin N → ℝ) (hL : FairLatin P ord off) :
    P {ω | δ ≤ |latinAvg h (ord ω) (off ω) - ∫ u, h u ∂cube g|} ≤
      ENNReal.ofReal (2 * (∫ u, H u ^ 2 ∂cube g) / δ ^ 2 / N) := by
  have h2 : MemLp h 2 (cube g) := hH.of_le hm.aestronglyMeasurable (ae_of_all _ hle)
  have hN0 : 0 < N := by omega
  have hNr : (2 : ℝ) ≤ N := by exact_mod_cast hN
  have hc := meas_ge_le_variance_div_sq (memLp_latinAvg hN0 hL hm h2) hδ
  rw [(latin_avg_integral hN0 hL hm (h2.integrable (by norm_num))).2] at hc
  refine hc.trans (ENNReal.ofReal_le_ofReal ?_)
  have hv : Var[h; cube g] ≤ ∫ u, H u ^ 2 ∂cube g := by
    rw [variance_eq_sub h2]
    have : ∫ u, (h ^ 2) u ∂cube g ≤ ∫ u, H u ^ 2 ∂cube g := by
      refine integral_mono h2.integrable_sq hH.integrable_sq fun u => ?_
      exact sq_le_sq.mpr (hle u)
    have h0 := sq_nonneg (∫ u, h u ∂cube g)
    linarith
  have hV : 0 ≤ ∫ u, H u ^ 2 ∂cube g := integral_nonneg fun u => sq_nonneg _
  rw [div_right_comm]
  refine div_le_div_of_nonneg_right ((latin_variance_le hN hL hm h2).trans ?_) (by positivity)
  rw [div_le_div_iff₀ (by linarith) (by linarith)]
  nlinarith

/-! ### The harmonics -/

/-- The cosine and the sine that the reordering gives to a value at the fraction `t`. -/
noncomputable def cosWave (N k : Nat) (t : ℝ) : ℝ := Real.cos (2 * Real.pi * k * (rbdPos N ⌊(N : ℝ) * t⌋₊ : ℕ) / N)

noncomputable def sinWave (N k : Nat) (t : ℝ) : ℝ := Real.sin (2 * Real.pi * k * (rbdPos N ⌊(N : ℝ) * t⌋₊ : ℕ) / N)

theorem measurable_waves (N k : Nat) : Measurable (cosWave N k) ∧ Measurable (sinWave N k) := by
  have h : Measurable fun t : ℝ => ⌊(N : ℝ) * t⌋₊ := Nat.measurable_floor.comp (measurable_const.mul measurable_id)
  exact ⟨(measurable_from_nat (f := fun r : ℕ => Real.cos (2 * Real.pi * k * (rbdPos N r : ℕ) / N))).comp h,
    (measurable_from_nat (f := fun r : ℕ => Real.sin (2 * Real.pi * k * (rbdPos N r : ℕ) / N))).comp h⟩

theorem waves_near (N k : Nat) (hN : 0 < N) (t : ℝ) (h0 : 0 ≤ t) (h1 : t < 1) :
    |cosWave N k t - Real.cos (k * Real.pi * t)| ≤ 2 * k * Real.pi / N ∧
    |sinWave N k t - Real.sin (k * Real.pi * t) * layerSign N t| ≤ 2 * k * Real.pi / N := by
  have hNr : (0 : ℝ) < N := by exact_mod_cast hN
  have hπ := Real.pi_pos
  set r := ⌊(N : ℝ) * t⌋₊ with hr
  have hfl := Nat.floor_le (show 0 ≤ (N : ℝ) * t by positivity)
  have hfu := Nat.lt_floor_add_one ((N : ℝ) * t)
  rw [← hr] at hfl hfu
  have hrN : r < N := by
    have : (r : ℝ) < N := by nlinarith
    exact_mod_cast this
  obtain ⟨c1, c2⟩ := rbdPos_cos N k r hrN
  have hd : |((r : ℝ) + 1) / N - t| ≤ 1 / N := by
    have e : ((r : ℝ) + 1) / N - t = (r + 1 - N * t) / N := by field_simp
    rw [e, abs_div, abs_of_pos hNr, abs_of_nonneg (by linarith)]
    exact div_le_div_of_nonneg_right (by linarith) hNr.le
  have hk : |k * Real.pi * (((r : ℝ) + 1) / N) - k * Real.pi * t| ≤ k * Real.pi / N := by
    rw [← mul_sub, abs_mul, abs_of_nonneg (by positivity : (0 : ℝ) ≤ k * Real.pi)]
    calc k * Real.pi * |((r : ℝ) + 1) / N - t| ≤ k * Real.pi * (1 / N) := mul_le_mul_of_nonneg_left hd (by positivity)
      _ = _ := by ring
  have hsum : (2 : ℝ) * k * Real.pi / N = k * Real.pi / N + k * Real.pi / N := by ring
  rw [hsum]
  constructor
  · refine (abs_sub_le _ (Real.cos (k * Real.pi * (((r : ℝ) + 1) / N))) _).trans (add_le_add c1 ?_)
    exact (Real.abs_cos_sub_cos_le _ _).trans hk
  · have hs : layerSign N t = (-1) ^ r := by
      refine layerSign_nat N r t ?_
      rw [hr]
      exact (Int.natCast_floor_eq_floor (by positivity)).symm
    refine (abs_sub_le _ ((-1) ^ r * Real.sin (k * Real.pi * (((r : ℝ) + 1) / N))) _).trans (add_le_add c2 ?_)
    rw [hs, mul_comm (Real.sin _), ← mul_sub, abs_mul, abs_pow, abs_neg, abs_one, one_pow, one_mul]
    exact (Real.abs_sin_sub_sin_le _ _).trans hk

theorem cube_interior (k : Fin g) : ∀ᵐ u ∂cube g, 0 ≤ u k ∧ u k < 1 := by
  have := isProb_unifOn (lo := 0) (hi := 1) (by norm_num)
  have h1 : ∀ᵐ t ∂unifOn 0 1, 0 ≤ t ∧ t < 1 := by
    filter_upwards [ae_unifOn_mem (lo := 0) (hi := 1), ae_unifOn_ne (lo := 0) (hi := 1) 1] with t h1 h2
    exact ⟨h1.1, lt_of_le_of_ne h1.2 h2⟩
  have hp := measurePreserving_eval (fun _ : Fin g => unifOn 0 1) k
  rw [← hp.map_eq] at h1
  exact ae_of_ae_map hp.measurable.aemeasurable h1

/-- The means of the harmonics over the cube. -/
theorem waves_limit (H : (Fin g → ℝ) → ℝ) (hH : Integrable H (cube g)) (j : Fin g) (k : Nat) :
    Tendsto (fun N => ∫ u, H u * cosWave N k (u j) ∂cube g) atTop (𝓝 (∫ u, H u * Real.cos (k * Real.pi * u j) ∂cube g)) ∧
    Tendsto (fun N => ∫ u, H u * sinWave N k (u j) ∂cube g) atTop (𝓝 0) := by
  have mj : Measurable fun u : Fin g → ℝ => u j := measurable_pi_apply j
  have hb : ∀ w : ℝ → ℝ, Measurable w → (∀ t, |w t| ≤ 1) → Integrable (fun u => H u * w (u j)) (cube g) := fun w mw hw =>
    hH.mul_bdd (c := 1) (mw.comp mj).aestronglyMeasurable (ae_of_all _ fun u => hw _)
  have hlim : Tendsto (fun N : ℕ => 2 * (k : ℝ) * Real.pi * (∫ u, |H u| ∂cube g) / N) atTop (𝓝 0) :=
    tendsto_const_div_atTop_nhds_zero_nat _
  have hgap : ∀ (N : ℕ) (w v : ℝ → ℝ), Measurable w → (∀ t, |w t| ≤ 1) → Measurable v → (∀ t, |v t| ≤ 1) →
      (∀ t, 0 ≤ t → t < 1 → |w t - v t| ≤ 2 * k * Real.pi / N) →
      ‖(∫ u, H u * w (u j) ∂cube g) - ∫ u, H u * v (u j) ∂cube g‖ ≤ 2 * (k : ℝ) * Real.pi * (∫ u, |H u| ∂cube g) / N := by
    intro N w v mw hw mv hv hd
    rw [← integral_sub (hb w mw hw) (hb v mv hv)]
    have e : 2 * (k : ℝ) * Real.pi * (∫ u, |H u| ∂cube g) / N = ∫ u, |H u| * (2 * k * Real.pi / N) ∂cube g := by
      rw [integral_mul_const]; ring
    rw [e]
    refine norm_integral_le_of_norm_le (hH.abs.mul_const _) ?_
    filter_upwards [cube_interior j] with u hu
    rw [← mul_sub, norm_mul, Real.norm_eq_abs, Real.norm_eq_abs]
    exact mul_le_mul_of_nonneg_left (hd _ hu.1 hu.2) (abs_nonneg _)
  constructor
  · rw [tendsto_iff_norm_sub_tendsto_zero]
    refine squeeze_zero' (Eventually.of_forall fun _ => norm_nonneg _) ?_ hlim
    filter_upwards [eventually_gt_atTop 0] with N hN
    exact hgap N _ (fun t => Real.cos (k * Real.pi * t)) (measurable_waves N k).1 (fun t => Real.abs_cos_le_one _) (by fun_prop)
      (fun t => Real.abs_cos_le_one _) fun t h0 h1 => (waves_near N k hN t h0 h1).1
  · have halt := alternate_cube (fun u => H u * Real.sin (k * Real.pi * u j))
      (hb (fun t => Real.sin (k * Real.pi * t)) (by fun_prop) fun t => Real.abs_sin_le_one _) j
    have hdiff : Tendsto (fun N : ℕ => (∫ u, H u * sinWave N k (u j) ∂cube g) -
        ∫ u, H u * Real.sin (k * Real.pi * u j) * layerSign N (u j) ∂cube g) atTop (𝓝 0) := by
      rw [tendsto_zero_iff_norm_tendsto_zero]
      refine squeeze_zero' (Eventually.of_forall fun _ => norm_nonneg _) ?_ hlim
      filter_upwards [eventually_gt_atTop 0] with N hN
      have := hgap N _ (fun t => Real.sin (k * Real.pi * t) * layerSign N t) (measurable_waves N k).2
        (fun t => Real.abs_sin_le_one _) ((by fun_prop : Measurable fun t : ℝ => Real.sin (k * Real.pi * t)).mul
          (measurable_layerSign N))
        (fun t => by rw [abs_mul, abs_layerSign, mul_one]; exact Real.abs_sin_le_one _)
        fun t h0 h1 => (waves_near N k hN t h0 h1).2
      simpa only [mul_assoc] using this
    have := hdiff.add halt
    simpa using this

/-! ### The index -/

/-- The corrected index from the harmonics and the moments of the output. -/
theorem rbd_close (M : Nat) (H : Fin M → ℝ) (m1 m2 : ℝ) (hv : 0 < m2 - m1 ^ 2) (ε : ℝ) (hε : 0 < ε) :
    ∃ δ > 0, ∃ N0 : Nat, ∀ N ≥ N0, ∀ (a b : Fin M → ℝ) (y1 y2 : ℝ), (∀ i, |a i - H i| < δ) → (∀ i, |b i| < δ) →
      |y1 - m1| < δ → |y2 - m2| < δ → 0 < y2 - y1 ^ 2 ∧ ∀ s, s = (∑ i, 2 * (a i ^ 2 + b i ^ 2)) / (y2 - y1 ^ 2) →
        |s - 2 * M / N / (1 - 2 * M / N) * (1 - s) - (∑ i, 2 * H i ^ 2) / (m2 - m1 ^ 2)| < ε := by
  let V : ℝ × (Fin M → ℝ) × (Fin M → ℝ) × ℝ × ℝ → ℝ := fun q => q.2.2.2.2 - q.2.2.2.1 ^ 2
  let S : ℝ × (Fin M → ℝ) × (Fin M → ℝ) × ℝ × ℝ → ℝ := fun q => (∑ i, 2 * (q.2.1 i ^ 2 + q.2.2.1 i ^ 2)) / V q
  let Φ : ℝ × (Fin M → ℝ) × (Fin M → ℝ) × ℝ × ℝ → ℝ := fun q => S q - 2 * M * q.1 / (1 - 2 * M * q.1) * (1 - S q)
  set q0 : ℝ × (Fin M → ℝ) × (Fin M → ℝ) × ℝ × ℝ := (0, H, 0, m1, m2) with hq0
  have cV : Continuous V := by fun_prop
  have cS : ContinuousAt S q0 := by
    refine ContinuousAt.div (Continuous.continuousAt ?_) cV.continuousAt hv.ne'
    fun_prop
  have cΦ : ContinuousAt Φ q0 := by
    refine cS.sub (ContinuousAt.mul (ContinuousAt.div (Continuous.continuousAt ?_) (Continuous.continuousAt ?_) ?_)
      (continuousAt_const.sub cS))
    · fun_prop
    · fun_prop
    · simp [hq0]
  have hΦ0 : Φ q0 = (∑ i, 2 * H i ^ 2) / (m2 - m1 ^ 2) := by simp [Φ, S, V, hq0]
  have hev : ∀ᶠ q in 𝓝 q0, 0 < V q ∧ |Φ q - (∑ i, 2 * H i ^ 2) / (m2 - m1 ^ 2)| < ε := by
    refine (cV.continuousAt.eventually (lt_mem_nhds (show 0 < V q0 from hv))).and ?_
    have := cΦ.eventually (Metric.ball_mem_nhds _ hε)
    rw [hΦ0] at this
    exact this
  obtain ⟨δ, hδ, hball⟩ := Metric.eventually_nhds_iff.mp hev
  obtain ⟨n, hn⟩ := exists_nat_one_div_lt hδ
  refine ⟨δ, hδ, n + 1, fun N hN a b y1 y2 ha hb h1 h2 => ?_⟩
  have hNp : (0 : ℝ) < N := by exact_mod_cast (by omega : 0 < N)
  have hτ : |1 / (N : ℝ)| < δ := by
    rw [abs_of_pos (by positivity)]
    refine lt_of_le_of_lt (one_div_le_one_div_of_le (by positivity) ?_) hn
    exact_mod_cast hN
  obtain ⟨r1, r2⟩ := hball (y := (1 / (N : ℝ), a, b, y1, y2)) (by
    simp only [hq0, Prod.dist_eq, max_lt_iff, Real.dist_eq]
    refine ⟨by simpa using hτ, (dist_pi_lt_iff hδ).mpr ha, (dist_pi_lt_iff hδ).mpr fun i => ?_, h1, h2⟩
    rw [Real.dist_eq]
    simpa using hb i)
  refine ⟨r1, fun s hs => ?_⟩
  have e : Φ (1 / (N : ℝ), a, b, y1, y2) = s - 2 * M / N / (1 - 2 * M / N) * (1 - s) := by
    simp only [Φ, S, V, hs]
    rw [mul_one_div]
  rw [e] at r2
  exact r2

theorem sum_Icc_fin (M : Nat) (f : Nat → ℝ) : ∑ k ∈ Finset.Icc 1 M, f k = ∑ i : Fin M, f (i.1 + 1) := by
  rw [Fin.sum_univ_eq_sum_range (fun i => f (i + 1)), Finset.range_eq_Ico, Finset.sum_Ico_add' f 0 M 1]
  rfl

theorem rankOf_placed (lo hi : Fin d → ℝ) (hlh : ∀ j, lo j < hi j) (j : Fin d) (u : Fin d → ℝ) (h0 : 0 ≤ u j) (h1 : u j ≤ 1) :
    rankOf (Measure.pi fun j => unifOn (lo j) (hi j)) j (placed lo hi id u) = u j := by
  have hw : 0 < hi j - lo j := by linarith [hlh j]
  have hm := pi_marginal lo hi hlh j
  have e : rankOf (Measure.pi fun j => unifOn (lo j) (hi j)) j (placed lo hi id u) =
      (unifOn (lo j) (hi j)).real (Set.Iic (placed lo hi id u j)) := by
    rw [← hm, map_measureReal_apply (measurable_pi_apply j) measurableSet_Iic]
    rfl
  have hp : placed lo hi id u j = lo j + u j * (hi j - lo j) := rfl
  rw [e, real_unifOn_Iic _ _ (hlh j) _ (by rw [hp]; nlinarith) (by rw [hp]; nlinarith), hp]
  field_simp
  ring

/-- The index of one column of a Latin hypercube design. -/
theorem rbd_column (lo hi : Fin d → ℝ) (hlh : ∀ j, lo j < hi j) (G : (Fin d → ℝ) → ℝ) (hG : Measurable G)
    (h4 : Integrable (fun x => G x ^ 4) (Measure.pi fun j => unifOn (lo j) (hi j)))
    (hv : 0 < Var[G; Measure.pi fun j => unifOn (lo j) (hi j)]) (j : Fin d) (M : Nat) (ε : ℝ) (hε : 0 < ε) :
    ∃ C : ℝ, ∀ N : Nat, 0 < N → ∀ (Ω : Type) [MeasurableSpace Ω] (P : Measure Ω) [IsProbabilityMeasure P]
      (ord : Ω → StrataOrders N d) (off : Ω → Fin d → Fin N → ℝ), FairLatin P ord off →
      P {ω | ¬∀ argsort : List ℝ → List Nat, (∀ l, IsArgsort l (argsort l)) →
        ∃ s, rbdIndex argsort ((latinRows (placed lo hi id) (ord ω) (off ω)).map fun x => x j)
          ((latinRows (placed lo hi id) (ord ω) (off ω)).map G) M = .ok (some s) ∧
          |s - harmonicShare (Measure.pi fun j => unifOn (lo j) (hi j)) G j M| < ε} ≤ ENNReal.ofReal (C / N) := by
  have := fun j => isProb_unifOn (hlh j)
  set law : Measure (Fin d → ℝ) := Measure.pi fun j => unifOn (lo j) (hi j) with hlaw
  have hp := placed_preserving lo hi hlh
  rw [← hlaw] at hp
  set T : (Fin d → ℝ) → (Fin d → ℝ) := placed lo hi id with hT
  have hle : ∀ a : ℝ, a ^ 2 ≤ 1 + a ^ 4 := fun a => by nlinarith [sq_nonneg (a ^ 2 - 1), sq_nonneg (a ^ 2)]
  have h2 : Integrable (fun x => G x ^ 2) law := by
    refine ((integrable_const (1 : ℝ)).add h4).mono' (hG.pow_const 2).aestronglyMeasurable (ae_of_all _ fun x => ?_)
    rw [Real.norm_of_nonneg (sq_nonneg _)]
    exact hle _
  have hG2 : MemLp G 2 law := (memLp_two_iff_integrable_sq hG.aestronglyMeasurable).mpr h2
  have hG4 : MemLp (fun x => G x ^ 2) 2 law := by
    refine (memLp_two_iff_integrable_sq (hG.pow_const 2).aestronglyMeasurable).mpr ?_
    simpa only [← pow_mul] using h4
  have hvar : Var[G; law] = (∫ x, G x ^ 2 ∂law) - (∫ x, G x ∂law) ^ 2 := by
    rw [variance_eq_sub hG2]; rfl
  set H : (Fin d → ℝ) → ℝ := fun u => G (T u) with hHdef
  have mH : Measurable H := hG.comp hp.measurable
  have hH2 : MemLp H 2 (cube d) := hG2.comp_measurePreserving hp
  have hH1 : Integrable H (cube d) := hH2.integrable (by norm_num)
  have hharm : ∀ k : ℕ, ∫ u, H u * Real.cos (k * Real.pi * u j) ∂cube d = harmonic law G j k := by
    intro k
    unfold harmonic
    have mr : Measurable fun x : Fin d → ℝ => rankOf law j x := measurable_rank law (fun x => x j) (measurable_pi_apply j)
    rw [← hp.map_eq, integral_map hp.measurable.aemeasurable]
    · rw [hp.map_eq]
      refine integral_congr_ae ?_
      filter_upwards [cube_interior j] with u hu
      rw [hlaw, hT, rankOf_placed lo hi hlh j u hu.1 hu.2.le]
    · rw [hp.map_eq]
      exact (hG.mul (Real.measurable_cos.comp (mr.const_mul _))).aestronglyMeasurable
  obtain ⟨δ, hδ, N0, hclose⟩ := rbd_close M (fun i => harmonic law G j (i.1 + 1)) (∫ x, G x ∂law) (∫ x, G x ^ 2 ∂law)
    (by rw [← hvar]; exact hv) ε hε
  -- the means of the harmonics
  have hev : ∀ᶠ N : ℕ in atTop, ∀ i : Fin M,
      |(∫ u, H u * cosWave N (i.1 + 1) (u j) ∂cube d) - harmonic law G j (i.1 + 1)| < δ / 2 ∧
      |∫ u, H u * sinWave N (i.1 + 1) (u j) ∂cube d| < δ / 2 := by
    refine eventually_all.mpr fun i => ?_
    obtain ⟨w1, w2⟩ := waves_limit H hH1 j (i.1 + 1)
    rw [hharm] at w1
    refine (w1.eventually (Metric.ball_mem_nhds _ (half_pos hδ))).and ?_
    have := w2.eventually (Metric.ball_mem_nhds _ (half_pos hδ))
    filter_upwards [this] with N hN
    have hN : |_ - 0| < δ / 2 := hN
    rwa [sub_zero] at hN
  obtain ⟨N1, hN1⟩ := eventually_atTop.mp hev
  -- the moments of the output
  have hmom : ∀ᶠ rows in lawRows law, |rowMean rows G - ∫ x, G x ∂law| < δ ∧
      |rowMean rows (fun x => G x ^ 2) - ∫ x, G x ^ 2 ∂law| < δ :=
    ((lawRows_mean law G hG hG2).eventually (Metric.ball_mem_nhds _ hδ)).and
      ((lawRows_mean law _ (hG.pow_const 2) hG4).eventually (Metric.ball_mem_nhds _ hδ))
  obtain ⟨C0, hC0⟩ := latin_rare T hp.measurable law hp.map_eq _ hmom
  set W := 2 * (∫ u, H u ^ 2 ∂cube d) / (δ / 2) ^ 2 with hW
  have hW0 : 0 ≤ W := div_nonneg (mul_nonneg (by norm_num) (integral_nonneg fun u => sq_nonneg _)) (by positivity)
  set K : Nat := N0 + N1 + 2 * M + 2 with hK
  refine ⟨K + |C0| + M * (W + W), fun N hN Ω _ P _ ord off hL => ?_⟩
  have hNr : (0 : ℝ) < N := by exact_mod_cast hN
  have hMW : 0 ≤ (M : ℝ) * (W + W) := by positivity
  by_cases hbig : K ≤ N
  swap
  · refine prob_le_one.trans ?_
    rw [ENNReal.one_le_ofReal, le_div_iff₀ hNr, one_mul]
    have : (N : ℝ) ≤ K := by exact_mod_cast (by omega : N ≤ K)
    linarith [abs_nonneg C0]
  have hN2 : 2 ≤ N := by omega
  set cw : Fin M → (Fin d → ℝ) → ℝ := fun i u => H u * cosWave N (i.1 + 1) (u j) with hcw
  set sw : Fin M → (Fin d → ℝ) → ℝ := fun i u => H u * sinWave N (i.1 + 1) (u j) with hsw
  have mj : Measurable fun u : Fin d → ℝ => u j := measurable_pi_apply j
  have hcm : ∀ i, Measurable (cw i) := fun i => mH.mul ((measurable_waves N _).1.comp mj)
  have hsm : ∀ i, Measurable (sw i) := fun i => mH.mul ((measurable_waves N _).2.comp mj)
  have hcl : ∀ i u, |cw i u| ≤ |H u| := fun i u => by
    rw [hcw, abs_mul]
    exact mul_le_of_le_one_right (abs_nonneg _) (Real.abs_cos_le_one _)
  have hsl : ∀ i u, |sw i u| ≤ |H u| := fun i u => by
    rw [hsw, abs_mul]
    exact mul_le_of_le_one_right (abs_nonneg _) (Real.abs_sin_le_one _)
  set Bq : Set Ω := {ω | ¬(|rowMean (latinRows T (ord ω) (off ω)) G - ∫ x, G x ∂law| < δ ∧
      |rowMean (latinRows T (ord ω) (off ω)) (fun x => G x ^ 2) - ∫ x, G x ^ 2 ∂law| < δ)} with hBq
  set Bc : Fin M → Set Ω := fun i => {ω | δ / 2 ≤ |latinAvg (cw i) (ord ω) (off ω) - ∫ u, cw i u ∂cube d|} with hBc
  set Bs : Fin M → Set Ω := fun i => {ω | δ / 2 ≤ |latinAvg (sw i) (ord ω) (off ω) - ∫ u, sw i u ∂cube d|} with hBs
  have hPq : P Bq ≤ ENNReal.ofReal (|C0| / N) :=
    (hC0 N hN Ω P ord off hL).trans (ENNReal.ofReal_le_ofReal (div_le_div_of_nonneg_right (le_abs_self _) hNr.le))
  have hPc : ∀ i, P (Bc i) ≤ ENNReal.ofReal (W / N) := fun i =>
    latin_far (hcm i) hH2 (hcl i) (δ / 2) (half_pos hδ) hN2 P ord off hL
  have hPs : ∀ i, P (Bs i) ≤ ENNReal.ofReal (W / N) := fun i =>
    latin_far (hsm i) hH2 (hsl i) (δ / 2) (half_pos hδ) hN2 P ord off hL
  have hsub : P {ω | ¬∀ argsort : List ℝ → List Nat, (∀ l, IsArgsort l (argsort l)) →
        ∃ s, rbdIndex argsort ((latinRows T (ord ω) (off ω)).map fun x => x j)
          ((latinRows T (ord ω) (off ω)).map G) M = .ok (some s) ∧
          |s - harmonicShare law G j M| < ε} ≤ P (Bq ∪ ((⋃ i, Bc i) ∪ ⋃ i, Bs i)) := by
    refine measure_mono_ae ?_
    filter_upwards [latin_off hL] with ω hoff hbad
    by_contra hno
    replace hno : ω ∉ Bq ∪ ((⋃ i, Bc i) ∪ ⋃ i, Bs i) := hno
    simp only [Set.mem_union, Set.mem_iUnion, not_or, not_exists] at hno
    obtain ⟨q1, q2, q3⟩ := hno
    obtain ⟨q1a, q1b⟩ := not_not.mp q1
    refine hbad fun argsort hp' => ?_
    set p := ord ω with hpd
    set o := off ω with hod
    have hne : latinRows T p o ≠ [] := by
      apply List.ne_nil_of_length_pos
      simp [latinRows]; omega
    have hvv := npVar_rows (latinRows T p o) hne G
    have hX : (latinRows T p o).map (fun x => x j) = List.ofFn fun t => lo j + latinPt p o t j * (hi j - lo j) := by
      unfold latinRows
      rw [List.map_ofFn]
      rfl
    have hY : (latinRows T p o).map G = List.ofFn fun t => H (latinPt p o t) := by
      unfold latinRows
      rw [List.map_ofFn]
      rfl
    have hrk := latin_rank p o j (hoff j) (lo j) (hi j - lo j) (by linarith [hlh j])
    have hinj := (hrk ⟨0, by omega⟩).2
    have hcos : ∀ i : Fin M, (∑ t, H (latinPt p o t) * Real.cos (2 * Real.pi * ((i.1 + 1 : ℕ) : ℝ) *
        (rbdPos N (rankIn (fun t => lo j + latinPt p o t j * (hi j - lo j)) t) : ℕ) / N)) / N = latinAvg (cw i) p o := by
      intro i
      unfold latinAvg
      congr 1
      refine Finset.sum_congr rfl fun t _ => ?_
      rw [(hrk t).1, hcw]
      unfold cosWave
      beta_reduce
      rw [latin_floor p o j (hoff j) t]
    have hsin : ∀ i : Fin M, (∑ t, H (latinPt p o t) * Real.sin (2 * Real.pi * ((i.1 + 1 : ℕ) : ℝ) *
        (rbdPos N (rankIn (fun t => lo j + latinPt p o t j * (hi j - lo j)) t) : ℕ) / N)) / N = latinAvg (sw i) p o := by
      intro i
      unfold latinAvg
      congr 1
      refine Finset.sum_congr rfl fun t _ => ?_
      rw [(hrk t).1, hsw]
      unfold sinWave
      beta_reduce
      rw [latin_floor p o j (hoff j) t]
    obtain ⟨v0, hs⟩ := hclose N (by omega) (fun i => latinAvg (cw i) p o) (fun i => latinAvg (sw i) p o) _ _ (by
      intro i
      have h1 : |latinAvg (cw i) p o - ∫ u, cw i u ∂cube d| < δ / 2 := not_le.mp (q2 i)
      have h2 := (hN1 N (by omega) i).1
      have := abs_sub_le (latinAvg (cw i) p o) (∫ u, cw i u ∂cube d) (harmonic law G j (i.1 + 1))
      linarith) (by
      intro i
      have h1 : |latinAvg (sw i) p o - ∫ u, sw i u ∂cube d| < δ / 2 := not_le.mp (q3 i)
      have h2 := (hN1 N (by omega) i).2
      have := abs_sub_le (latinAvg (sw i) p o) (∫ u, sw i u ∂cube d) 0
      rw [sub_zero, sub_zero] at this
      linarith) q1a q1b
    rw [hX, hY]
    rw [hY] at hvv
    refine ⟨_, rbdIndex_rows argsort _ hinj _ (hp' _) M (by omega) _ hvv v0.ne' _ rfl, ?_⟩
    have hfin := hs _ rfl
    rw [← hvar] at hfin
    unfold harmonicShare
    rw [sum_Icc_fin, sum_Icc_fin]
    simp only [hcos, hsin]
    exact hfin
  refine hsub.trans ((measure_union_le _ _).trans ((add_le_add hPq ((measure_union_le _ _).trans
    (add_le_add ((measure_iUnion_le _).trans ((tsum_fintype _).le.trans (Finset.sum_le_sum fun i _ => hPc i)))
      ((measure_iUnion_le _).trans ((tsum_fintype _).le.trans (Finset.sum_le_sum fun i _ => hPs i)))))).trans ?_))
  rw [Finset.sum_const, Finset.card_univ, Fintype.card_fin, nsmul_eq_mul, ← ENNReal.ofReal_natCast,
    ← ENNReal.ofReal_mul (Nat.cast_nonneg _), ← ENNReal.ofReal_add (by positivity) (by positivity),
    ← ENNReal.ofReal_add (by positivity) (by positivity)]
  apply ENNReal.ofReal_le_ofReal
  have hK0 : (0 : ℝ) ≤ K := Nat.cast_nonneg _
  have e : |C0| / N + (M * (W / N) + M * (W / N)) = (|C0| + M * (W + W)) / N := by ring
  rw [e]
  exact div_le_div_of_nonneg_right (by linarith) hNr.le

/-! ### The analysis -/

namespace Spec

/-- A sample on which RBD-FAST reports, for every input, a number of which `good j` holds, whatever the random choices of the
confidence intervals and the handling of equal values by the sort. -/
def RbdReports (d : Nat) (f : List ℝ → ℝ) (M : Nat) (pb : Problem ℝ) (good : Fin d → ℝ → Prop) (X : Mat ℝ) : Prop :=
  ∀ (bnd : ℝ) (draws : Nat → List (List Nat)) (argsort : List ℝ → List Nat), (∀ l, IsArgsort l (argsort l)) →
    (∀ i < d, ∀ idx ∈ draws i, idx.length = X.length / 2 ∧ ∀ t ∈ idx, t < X.length) →
    ∃ res, rbdAnalyze argsort bnd draws pb X (X.map f) M = .ok res ∧
      ∀ j : Fin d, ∃ s, res.S1[(j : Nat)]? = some (some s) ∧ good j s

end Spec

/-- **C140** (the limit).  On a Latin hypercube sample of `N` rows RBD-FAST reports for every input a number within `ε` of the
share of the variance of the output in the first `M` harmonics of that input, except with a probability of the order of
`1 / N`. -/
theorem C140_rbd_latin [NeZero d] (F : Ppf ℝ) (junk : ℝ) (lo hi : Fin d → ℝ) (pb : Problem ℝ) (hpb : PlainProblem pb lo hi)
    (f : List ℝ → ℝ) (hf : Measurable fun x : Fin d → ℝ => f (List.ofFn x))
    (h4 : Integrable (fun x : Fin d → ℝ => f (List.ofFn x) ^ 4) (Measure.pi fun j => unifOn (lo j) (hi j)))
    (hv : 0 < Var[fun x : Fin d → ℝ => f (List.ofFn x); Measure.pi fun j => unifOn (lo j) (hi j)]) (M : Nat) (ε : ℝ)
    (hε : 0 < ε) :
    UsuallyOnLatin d F junk pb (RbdReports d f M pb fun j s =>
      |s - harmonicShare (Measure.pi fun j => unifOn (lo j) (hi j)) (fun x => f (List.ofFn x)) j M| < ε) := by
  set G : (Fin d → ℝ) → ℝ := fun x => f (List.ofFn x) with hG
  choose C hC using fun j => rbd_column lo hi hpb.lt G hf h4 hv j M ε hε
  refine ⟨(4 * M + 3 : ℕ) + ∑ j, |C j|, fun N hN Ω _ P _ ord off hL => ?_⟩
  refine ⟨fun ω => (latinRows (placed lo hi id) (ord ω) (off ω)).map List.ofFn,
    fun ω => latinSample_rows F junk lo hi pb hpb N hN _ _, ?_⟩
  have hNr : (0 : ℝ) < N := by exact_mod_cast hN
  have hS : 0 ≤ ∑ j, |C j| := Finset.sum_nonneg fun j _ => abs_nonneg _
  by_cases hbig : 4 * M + 3 ≤ N
  swap
  · refine prob_le_one.trans ?_
    rw [ENNReal.one_le_ofReal, le_div_iff₀ hNr, one_mul]
    have : (N : ℝ) ≤ (4 * M + 3 : ℕ) := by exact_mod_cast (by omega : N ≤ 4 * M + 3)
    linarith
  set B : Fin d → Set Ω := fun j => {ω | ¬∀ argsort : List ℝ → List Nat, (∀ l, IsArgsort l (argsort l)) →
        ∃ s, rbdIndex argsort ((latinRows (placed lo hi id) (ord ω) (off ω)).map fun x => x j)
          ((latinRows (placed lo hi id) (ord ω) (off ω)).map G) M = .ok (some s) ∧
          |s - harmonicShare (Measure.pi fun j => unifOn (lo j) (hi j)) G j M| < ε} with hB
  have hPB : ∀ j, P (B j) ≤ ENNReal.ofReal (|C j| / N) := fun j =>
    (hC j N hN Ω P ord off hL).trans (ENNReal.ofReal_le_ofReal (div_le_div_of_nonneg_right (le_abs_self _) hNr.le))
  refine le_trans (measure_mono (t := ⋃ j, B j) ?_) ((measure_iUnion_le _).trans ((tsum_fintype _).le.trans
    ((Finset.sum_le_sum fun j _ => hPB j).trans ?_)))
  · intro ω hbad
    by_contra hno
    simp only [Set.mem_iUnion, not_exists] at hno
    refine hbad fun bnd draws argsort hs hdr => ?_
    set rows := latinRows (placed lo hi id) (ord ω) (off ω) with hrows
    have hlen : rows.length = N := by simp [hrows, latinRows]
    have hall := fun j => not_not.mp (hno j) argsort hs
    obtain ⟨s0, hs0, -⟩ := hall 0
    obtain ⟨res, hres, hres2⟩ := rbd_report rows G M (by omega) pb bnd draws argsort hpb.num hs (by
      intro i hi idx hidx
      simpa using hdr i hi idx hidx) 0 s0 hs0
    refine ⟨res, ?_, fun j => ?_⟩
    · rw [List.map_map]
      exact hres
    · obtain ⟨s, e1, e2⟩ := hall j
      obtain ⟨s', e3, e4⟩ := hres2 j
      rw [e1] at e3
      cases e3
      exact ⟨s, e4, e2⟩
  · rw [← ENNReal.ofReal_sum_of_nonneg fun j _ => by positivity]
    apply ENNReal.ofReal_le_ofReal
    rw [← Finset.sum_div]
    refine div_le_div_of_nonneg_right ?_ hNr.le
    have : (0 : ℝ) ≤ (4 * M + 3 : ℕ) := Nat.cast_nonneg _
    linarith

theorem usually_latin_mono {F : Ppf ℝ} {junk : ℝ} {pb : Problem ℝ} {Good Good' : Mat ℝ → Prop}
    (h : UsuallyOnLatin d F junk pb Good) (hle : ∀ X, Good X → Good' X) : UsuallyOnLatin d F junk pb Good' := by
  obtain ⟨C, hC⟩ := h
  refine ⟨C, fun N hN Ω _ P _ ord off hL => ?_⟩
  obtain ⟨X, h1, h2⟩ := hC N hN Ω P ord off hL
  exact ⟨X, h1, (measure_mono fun ω (hω : ¬Good' (X ω)) (hg : Good (X ω)) => hω (hle _ hg)).trans h2⟩

theorem moment_two_of_four (law : Measure (Fin d → ℝ)) [IsProbabilityMeasure law] (G : (Fin d → ℝ) → ℝ) (hG : Measurable G)
    (h4 : Integrable (fun x => G x ^ 4) law) : MemLp G 2 law := by
  refine (memLp_two_iff_integrable_sq hG.aestronglyMeasurable).mpr ?_
  refine ((integrable_const (1 : ℝ)).add h4).mono' (hG.pow_const 2).aestronglyMeasurable (ae_of_all _ fun x => ?_)
  rw [Real.norm_of_nonneg (sq_nonneg _)]
  show G x ^ 2 ≤ 1 + G x ^ 4
  nlinarith [sq_nonneg (G x ^ 2 - 1), sq_nonneg (G x ^ 2)]

/-- **C140** (never far above, never far below zero).  Whatever the number `M` of harmonics, the reported values lie between
`-ε` and the first-order index of the input plus `ε`, except with a probability of the order of `1 / N`. -/
theorem C140_rbd_range [NeZero d] (F : Ppf ℝ) (junk : ℝ) (lo hi : Fin d → ℝ) (pb : Problem ℝ) (hpb : PlainProblem pb lo hi)
    (f : List ℝ → ℝ) (hf : Measurable fun x : Fin d → ℝ => f (List.ofFn x))
    (h4 : Integrable (fun x : Fin d → ℝ => f (List.ofFn x) ^ 4) (Measure.pi fun j => unifOn (lo j) (hi j)))
    (hv : 0 < Var[fun x : Fin d → ℝ => f (List.ofFn x); Measure.pi fun j => unifOn (lo j) (hi j)]) (M : Nat) (ε : ℝ)
    (hε : 0 < ε) :
    UsuallyOnLatin d F junk pb (RbdReports d f M pb fun j s => -ε < s ∧
      s < Var[meanGiven (Measure.pi fun j => unifOn (lo j) (hi j)) (fun x => f (List.ofFn x)) j;
        Measure.pi fun j => unifOn (lo j) (hi j)] /
        Var[fun x : Fin d → ℝ => f (List.ofFn x); Measure.pi fun j => unifOn (lo j) (hi j)] + ε) := by
  have := fun j => isProb_unifOn (hpb.lt j)
  refine usually_latin_mono (C140_rbd_latin F junk lo hi pb hpb f hf h4 hv M ε hε) fun X h bnd draws argsort hs hd => ?_
  obtain ⟨res, hres, hall⟩ := h bnd draws argsort hs hd
  refine ⟨res, hres, fun j => ?_⟩
  obtain ⟨s, h1, h2⟩ := hall j
  have hna := (evenCuts_equal _ j 1 _ _ (hpb.lt j) (pi_marginal lo hi hpb.lt j) one_pos).noAtom
  obtain ⟨h3, -⟩ := C127_below _ j hna _ (moment_two_of_four _ _ hf h4)
  obtain ⟨h5, h6⟩ := h3 M
  obtain ⟨h7, h8⟩ := abs_lt.mp h2
  exact ⟨s, h1, by linarith, by linarith⟩

/-- **C140** (the first-order indices).  With enough harmonics the reported values are within `ε` of the first-order indices,
except with a probability of the order of `1 / N`. -/
theorem C140_rbd_first_order [NeZero d] (F : Ppf ℝ) (junk : ℝ) (lo hi : Fin d → ℝ) (pb : Problem ℝ)
    (hpb : PlainProblem pb lo hi) (f : List ℝ → ℝ) (hf : Measurable fun x : Fin d → ℝ => f (List.ofFn x))
    (h4 : Integrable (fun x : Fin d → ℝ => f (List.ofFn x) ^ 4) (Measure.pi fun j => unifOn (lo j) (hi j)))
    (hv : 0 < Var[fun x : Fin d → ℝ => f (List.ofFn x); Measure.pi fun j => unifOn (lo j) (hi j)]) (ε : ℝ) (hε : 0 < ε) :
    ∃ M0, ∀ M ≥ M0, UsuallyOnLatin d F junk pb (RbdReports d f M pb fun j s =>
      |s - Var[meanGiven (Measure.pi fun j => unifOn (lo j) (hi j)) (fun x => f (List.ofFn x)) j;
        Measure.pi fun j => unifOn (lo j) (hi j)] /
        Var[fun x : Fin d → ℝ => f (List.ofFn x); Measure.pi fun j => unifOn (lo j) (hi j)]| < ε) := by
  have := fun j => isProb_unifOn (hpb.lt j)
  have hev : ∀ᶠ M in atTop, ∀ j : Fin d, _ := eventually_all.mpr fun j =>
    (C127_harmonics _ j (evenCuts_equal _ j 1 _ _ (hpb.lt j) (pi_marginal lo hi hpb.lt j) one_pos).noAtom _
      (moment_two_of_four _ _ hf h4)).eventually (Metric.ball_mem_nhds _ (half_pos hε))
  obtain ⟨M0, hM0⟩ := eventually_atTop.mp hev
  refine ⟨M0, fun M hM => usually_latin_mono (C140_rbd_latin F junk lo hi pb hpb f hf h4 hv M (ε / 2) (half_pos hε))
    fun X h bnd draws argsort hs hd => ?_⟩
  obtain ⟨res, hres, hall⟩ := h bnd draws argsort hs hd
  refine ⟨res, hres, fun j => ?_⟩
  obtain ⟨s, h1, h2⟩ := hall j
  refine ⟨s, h1, ?_⟩
  have h3 := hM0 M hM j
  rw [Real.dist_eq] at h3
  exact (abs_sub_le _ _ _).trans_lt (by linarith)

/-! ### The hypotheses are met -/

/-- Two uniform inputs, the output is the first; ten harmonics, the default. -/
example (F : Ppf ℝ) (junk : ℝ) (ε : ℝ) (hε : 0 < ε) :
    let law : Measure (Fin 2 → ℝ) := Measure.pi fun _ => unifOn 0 1
    let f : List ℝ → ℝ := fun l => l.getD 0 0
    UsuallyOnLatin 2 F junk pairProblem (RbdReports 2 f 10 pairProblem fun j s =>
      |s - harmonicShare law (fun x => f (List.ofFn x)) j 10| < ε) ∧
    UsuallyOnLatin 2 F junk pairProblem (RbdReports 2 f 10 pairProblem fun j s => -ε < s ∧
      s < Var[meanGiven law (fun x => f (List.ofFn x)) j; law] / Var[fun x : Fin 2 → ℝ => f (List.ofFn x); law] + ε) ∧
    ∃ M0, ∀ M ≥ M0, UsuallyOnLatin 2 F junk pairProblem (RbdReports 2 f M pairProblem fun j s =>
      |s - Var[meanGiven law (fun x => f (List.ofFn x)) j; law] / Var[fun x : Fin 2 → ℝ => f (List.ofFn x); law]| < ε) := by
  intro law f
  have hu := isProb_unifOn (lo := 0) (hi := 1) (by norm_num)
  obtain ⟨-, -, h8, hv⟩ := pair_law
  have hf : Measurable fun x : Fin 2 → ℝ => f (List.ofFn x) := by
    simp only [f, first_ofFn]
    exact measurable_pi_apply 0
  have h4 : Integrable (fun x : Fin 2 → ℝ => f (List.ofFn x) ^ 4) law := by
    simp only [f, first_ofFn]
    refine ((integrable_const (1 : ℝ)).add h8).mono' ((measurable_pi_apply 0).pow_const 4).aestronglyMeasurable
      (ae_of_all _ fun x => ?_)
    rw [Real.norm_of_nonneg (by positivity)]
    show x 0 ^ 4 ≤ 1 + x 0 ^ 8
    nlinarith [sq_nonneg (x 0 ^ 4 - 1), sq_nonneg (x 0 ^ 4)]
  have hv' : 0 < Var[fun x : Fin 2 → ℝ => f (List.ofFn x); law] := by
    simp only [f, first_ofFn]
    exact hv
  exact ⟨C140_rbd_latin F junk _ _ _ pairProblem_plain f hf h4 hv' 10 ε hε,
    C140_rbd_range F junk _ _ _ pairProblem_plain f hf h4 hv' 10 ε hε,
    C140_rbd_first_order F junk _ _ _ pairProblem_plain f hf h4 hv' ε hε⟩

end SALib
