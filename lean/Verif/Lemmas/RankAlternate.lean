import Verif.Lemmas.RankSign
import Mathlib.Data.Fin.Tuple.Sort
import Mathlib.Topology.UniformSpace.HeineCantor

/-! # Outputs with alternating signs: functions of the input, and the general case -/

namespace SALib

open MeasureTheory ProbabilityTheory Finset

theorem rankIn_sort {N : ℕ} (x : Fin N → ℝ) (σ : Equiv.Perm (Fin N)) (hσ : StrictMono (x ∘ σ)) (r : Fin N) :
    rankIn x (σ r) = r := by
  unfold rankIn
  rw [← Equiv.sum_comp σ]
  have h : ∀ s : Fin N, x (σ s) < x (σ r) ↔ s < r := fun s => hσ.lt_iff_lt (a := s) (b := r)
  simp only [h]
  rw [Finset.sum_boole]
  have : (univ.filter fun s : Fin N => s < r) = Finset.Iio r := by ext; simp
  rw [this, Fin.card_Iio]
  rfl

theorem exists_sort {N : ℕ} (x : Fin N → ℝ) (hx : Function.Injective x) : ∃ σ : Equiv.Perm (Fin N), StrictMono (x ∘ σ) :=
  ⟨Tuple.sort x, (Tuple.monotone_sort x).strictMono_of_injective (hx.comp (Tuple.sort x).injective)⟩

theorem alt_sum (a : ℕ → ℝ) (N : ℕ) :
    2 * ∑ r ∈ range N, (-1) ^ r * a r = ∑ r ∈ range N, (-1) ^ r * (a r - a (r + 1)) + a 0 - (-1) ^ N * a N := by
  induction N with
  | zero => simp
  | succ n ih =>
    rw [Finset.sum_range_succ, Finset.sum_range_succ, mul_add, ih, pow_succ]
    ring

/-- An alternating sum of a function that changes little over a monotone sequence. -/
theorem alt_bound (φ κ : ℝ → ℝ) (B ε C R : ℝ) (hB : ∀ u, |φ u| ≤ B) (hC : 0 ≤ C) (hκ : ∀ u, |κ u| ≤ R)
    (hφ : ∀ u v, u ≤ v → |φ u - φ v| ≤ ε + C * (κ v - κ u)) (v : ℕ → ℝ) (hv : Monotone v) (N : ℕ) :
    |∑ r ∈ range N, (-1) ^ r * φ (v r)| ≤ N * ε + (2 * C * R + 2 * B) := by
  have h1 := alt_sum (fun r => φ (v r)) N
  have h2 : |∑ r ∈ range N, (-1) ^ r * (φ (v r) - φ (v (r + 1)))| ≤ N * ε + C * (κ (v N) - κ (v 0)) := by
    calc |∑ r ∈ range N, (-1) ^ r * (φ (v r) - φ (v (r + 1)))|
        ≤ ∑ r ∈ range N, |(-1) ^ r * (φ (v r) - φ (v (r + 1)))| := Finset.abs_sum_le_sum_abs _ _
      _ ≤ ∑ r ∈ range N, (ε + C * (κ (v (r + 1)) - κ (v r))) := Finset.sum_le_sum fun r _ => by
          rw [abs_mul, abs_pow, abs_neg, abs_one, one_pow, one_mul]
          exact hφ _ _ (hv (Nat.le_succ r))
      _ = N * ε + C * (κ (v N) - κ (v 0)) := by
          rw [Finset.sum_add_distrib, ← Finset.mul_sum, Finset.sum_range_sub (fun r => κ (v r)), Finset.sum_const, card_range, nsmul_eq_mul]
  have h3 : C * (κ (v N) - κ (v 0)) ≤ C * (2 * R) := by
    refine mul_le_mul_of_nonneg_left ?_ hC
    have := (abs_le.mp (hκ (v N))).2
    have := (abs_le.mp (hκ (v 0))).1
    linarith
  have h4 := hB (v 0)
  have h5 : |(-1) ^ N * φ (v N)| ≤ B := by
    rw [abs_mul, abs_pow, abs_neg, abs_one, one_pow, one_mul]
    exact hB _
  have hB0 : 0 ≤ B := (abs_nonneg _).trans h4
  have hR0 : 0 ≤ R := (abs_nonneg _).trans (hκ 0)
  have h6 := (abs_nonneg _).trans h2
  have h7 : 0 ≤ C * R := mul_nonneg hC hR0
  have h8 : 2 * |∑ r ∈ range N, (-1) ^ r * φ (v r)| ≤ N * ε + C * (2 * R) + B + B := by
    rw [← abs_of_pos (two_pos (α := ℝ)), ← abs_mul, h1, abs_of_pos (two_pos (α := ℝ))]
    refine (abs_sub _ _).trans ?_
    refine (add_le_add_left (abs_add_le _ _) _).trans ?_
    linarith
  have h9 : 0 ≤ |∑ r ∈ range N, (-1) ^ r * φ (v r)| := abs_nonneg _
  by_cases hx : 0 ≤ N * ε + C * (2 * R)
  · nlinarith
  · linarith

theorem sign_sum_eq {N : ℕ} (x : Fin N → ℝ) (hx : Function.Injective x) (φ : ℝ → ℝ) :
    ∃ v : ℕ → ℝ, Monotone v ∧ ∑ t, rankSign x t * φ (x t) = ∑ r ∈ range N, (-1) ^ r * φ (v r) := by
  obtain ⟨σ, hσ⟩ := exists_sort x hx
  rcases Nat.eq_zero_or_pos N with rfl | hN
  · exact ⟨fun _ => 0, monotone_const, by simp⟩
  refine ⟨fun r => x (σ ⟨min r (N - 1), by omega⟩), ?_, ?_⟩
  · intro a b hab
    refine hσ.monotone ?_
    show min a (N - 1) ≤ min b (N - 1)
    omega
  · rw [← Equiv.sum_comp σ, ← Fin.sum_univ_eq_sum_range (fun r => (-1 : ℝ) ^ r * φ (x (σ ⟨min r (N - 1), by omega⟩)))]
    refine Finset.sum_congr rfl fun r _ => ?_
    unfold rankSign
    rw [rankIn_sort x σ hσ]
    congr 4
    ext
    show r.1 = min r.1 (N - 1)
    have := r.2
    omega

/-- For a continuous function of the input with compact support. -/
theorem sign_continuous (φ : ℝ → ℝ) (hφ : Continuous φ) (hs : HasCompactSupport φ) (ε : ℝ) (hε : 0 < ε) :
    ∃ K : ℝ, ∀ (N : ℕ) (x : Fin N → ℝ), Function.Injective x → |∑ t, rankSign x t * φ (x t)| ≤ N * ε + K := by
  obtain ⟨B, hB⟩ : ∃ B, ∀ u, |φ u| ≤ B := by
    obtain ⟨B, hB⟩ := hs.exists_bound_of_continuous hφ
    exact ⟨B, hB⟩
  have hB0 : 0 ≤ B := (abs_nonneg _).trans (hB 0)
  obtain ⟨R, hR0, hR⟩ : ∃ R, 0 < R ∧ ∀ u, R ≤ |u| → φ u = 0 := by
    obtain ⟨R, hR⟩ := hs.isCompact.isBounded.subset_ball 0
    refine ⟨max R 1, by positivity, fun u hu => ?_⟩
    by_contra hne
    have := hR (subset_tsupport φ hne)
    rw [Metric.mem_ball, dist_zero_right, Real.norm_eq_abs] at this
    exact absurd (le_max_left R 1) (not_le.mpr (lt_of_le_of_lt hu this))
  obtain ⟨δ, hδ, hu⟩ := Metric.uniformContinuous_iff.mp (hs.uniformContinuous_of_continuous hφ) ε hε
  set κ : ℝ → ℝ := fun u => max (-R) (min R u) with hκ
  have hκb : ∀ u, |κ u| ≤ R := fun u => abs_le.mpr ⟨le_max_left _ _, max_le (by linarith) (min_le_left _ _)⟩
  have hκm : ∀ u v, u ≤ v → κ u ≤ κ v := fun u v h => max_le_max_left _ (min_le_min_left _ h)
  have hφκ : ∀ u, φ (κ u) = φ u := by
    intro u
    by_cases h1 : u ≤ -R
    · have : κ u = -R := max_eq_left ((min_le_right _ _).trans h1)
      rw [this, hR (-R) (by rw [abs_neg, abs_of_pos hR0]), hR u (by rw [abs_of_nonpos (by linarith)]; linarith)]
    · by_cases h2 : R ≤ u
      · have : κ u = R := by
          simp only [hκ]
          rw [min_eq_left h2, max_eq_right (by linarith)]
        rw [this, hR R (by rw [abs_of_pos hR0]), hR u (by rw [abs_of_nonneg (by linarith)]; exact h2)]
      · have : κ u = u := by
          simp only [hκ]
          rw [min_eq_right (not_le.mp h2).le, max_eq_right (not_le.mp h1).le]
        rw [this]
  refine ⟨2 * (2 * B / δ) * R + 2 * B, fun N x hx => ?_⟩
  obtain ⟨v, hv, e⟩ := sign_sum_eq x hx φ
  rw [e]
  refine alt_bound φ κ B ε (2 * B / δ) R hB (by positivity) hκb (fun u w huw => ?_) v hv N
  rw [← hφκ u, ← hφκ w]
  have h0 := sub_nonneg.mpr (hκm u w huw)
  by_cases hd : κ w - κ u < δ
  · have h1 : |φ (κ u) - φ (κ w)| < ε := by
      have := hu (a := κ u) (b := κ w) (by rw [Real.dist_eq, abs_sub_comm, abs_of_nonneg h0]; exact hd)
      rwa [Real.dist_eq] at this
    have : 0 ≤ 2 * B / δ * (κ w - κ u) := by positivity
    linarith
  · have h1 : |φ (κ u) - φ (κ w)| ≤ B + B := (abs_sub _ _).trans (add_le_add (hB _) (hB _))
    have : 2 * B ≤ 2 * B / δ * (κ w - κ u) := by
      rw [div_mul_eq_mul_div, le_div_iff₀ hδ]
      exact mul_le_mul_of_nonneg_left (not_lt.mp hd) (by positivity)
    linarith

theorem range_list_sum (N : ℕ) (f : ℕ → ℝ) : ∑ t ∈ range N, f t = ((List.range N).map f).sum := by
  induction N with
  | zero => simp
  | succ n ih => rw [Finset.sum_range_succ, ih, List.range_succ, List.map_append, List.sum_append]; simp

section

variable {β : Type} [MeasurableSpace β] (law : Measure β) [IsProbabilityMeasure law] (X : β → ℝ) (hX : Measurable X)
  (hna : ∀ a, law.real {z | X z = a} = 0) {Ω : Type} [MeasurableSpace Ω] {P : Measure Ω} {Z : ℕ → Ω → β}
  (hm : ∀ i, Measurable (Z i)) (hlaw : ∀ i, Measure.map (Z i) P = law) (hind : iIndepFun Z P)

include hX hna hm hlaw hind

/-- No two rows have the same input. -/
theorem ae_distinct : ∀ᵐ ω ∂P, ∀ s t : ℕ, X (Z s ω) = X (Z t ω) → s = t := by
  have hP : IsProbabilityMeasure P := by
    refine ⟨?_⟩
    have := measure_univ (μ := law)
    rwa [← hlaw 0, Measure.map_apply (hm 0) MeasurableSet.univ, Set.preimage_univ] at this
  rw [ae_all_iff]
  intro s
  rw [ae_all_iff]
  intro t
  by_cases hst : s = t
  · exact ae_of_all _ fun _ _ => hst
  have hpair : Measure.map (fun ω => (Z s ω, Z t ω)) P = law.prod law := by
    rw [(indepFun_iff_map_prod_eq_prod_map_map (hm s).aemeasurable (hm t).aemeasurable).mp (hind.indepFun hst), hlaw, hlaw]
  have mset : MeasurableSet {q : β × β | X q.1 = X q.2} :=
    measurableSet_eq_fun (hX.comp measurable_fst) (hX.comp measurable_snd)
  have hz : (law.prod law) {q : β × β | X q.1 = X q.2} = 0 := by
    rw [Measure.measure_prod_null mset]
    refine ae_of_all _ fun z => ?_
    have := hna (X z)
    rw [measureReal_eq_zero_iff] at this
    refine le_antisymm ((measure_mono ?_).trans this.le) bot_le
    intro w hw
    exact (show X z = X w from hw).symm
  rw [← hpair, Measure.map_apply ((hm s).prodMk (hm t)) mset] at hz
  rw [ae_iff]
  refine le_antisymm ((measure_mono ?_).trans hz.le) bot_le
  intro ω hω
  by_contra hne
  exact hω fun h => absurd h hne

omit hna hm hlaw hind in
/-- Every output is a part that averages out given the input, a continuous function of the input, and a small rest. -/
theorem split_output (H : β → ℝ) (mH : Measurable H) (hH : Integrable H law) (ε : ℝ) (hε : 0 < ε) :
    ∃ (h : β → ℝ) (c : ℝ) (φ : ℝ → ℝ), Measurable h ∧ (∀ z, |h z| ≤ c) ∧
      (∀ ψ : ℝ → ℝ, Measurable ψ → (∃ C, ∀ u, |ψ u| ≤ C) → ∫ z, ψ (X z) * h z ∂law = 0) ∧
      Continuous φ ∧ HasCompactSupport φ ∧ Integrable (fun z => |H z - h z - φ (X z)|) law ∧
      ∫ z, |H z - h z - φ (X z)| ∂law ≤ ε := by
  set clip : ℝ → ℝ → ℝ := fun c u => max (-c) (min c u) with hclip
  have hcb : ∀ c, 0 ≤ c → ∀ u, |clip c u| ≤ c := fun c hc u =>
    abs_le.mpr ⟨le_max_left _ _, max_le (by linarith) (min_le_left _ _)⟩
  have mclip : ∀ c, Measurable (clip c) := fun c => measurable_const.max (measurable_const.min measurable_id)
  have hcu : ∀ c, 0 ≤ c → ∀ u, |u| ≤ c → clip c u = u := fun c hc u hu => by
    simp only [hclip]
    rw [min_eq_right (abs_le.mp hu).2, max_eq_right (abs_le.mp hu).1]
  have hdiff : ∀ c, 0 ≤ c → ∀ u, |u - clip c u| ≤ |u| := fun c hc u => by
    simp only [hclip]
    rcases le_total u 0 with h | h
    · rw [abs_of_nonpos h, min_eq_right (by linarith)]
      rcases le_total (-c) u with h1 | h1
      · rw [max_eq_right h1, sub_self, abs_zero]; linarith
      · rw [max_eq_left h1, abs_of_nonpos (by linarith)]; linarith
    · rw [abs_of_nonneg h]
      rcases le_total c u with h1 | h1
      · rw [min_eq_left h1, max_eq_right (by linarith), abs_of_nonneg (by linarith)]; linarith
      · rw [min_eq_right h1, max_eq_right (by linarith), sub_self, abs_zero]; exact h
  obtain ⟨c, hc0, hc⟩ : ∃ c, 0 < c ∧ ∫ z, |H z - clip c (H z)| ∂law ≤ ε / 2 := by
    have hlim : Filter.Tendsto (fun n : ℕ => ∫ z, |H z - clip n (H z)| ∂law) Filter.atTop (nhds (∫ _z : β, (0 : ℝ) ∂law)) := by
      refine tendsto_integral_of_dominated_convergence (fun z => |H z|) (fun n => ?_) hH.abs (fun n => ae_of_all _ fun z => ?_)
        (ae_of_all _ fun z => ?_)
      · exact (continuous_abs.measurable.comp (mH.sub ((mclip n).comp mH))).aestronglyMeasurable
      · rw [Real.norm_eq_abs, abs_abs]
        exact hdiff n (Nat.cast_nonneg _) _
      · refine tendsto_const_nhds.congr' ?_
        filter_upwards [Filter.eventually_ge_atTop ⌈|H z|⌉₊] with n hn
        rw [hcu n (Nat.cast_nonneg _) _ (Nat.ceil_le.mp hn), sub_self, abs_zero]
    rw [integral_zero] at hlim
    obtain ⟨n, hn1, hn2⟩ := ((hlim.eventually (gt_mem_nhds (half_pos hε))).and (Filter.eventually_ge_atTop 1)).exists
    exact ⟨n, by exact_mod_cast hn2, hn1.le⟩
  have hmle : MeasurableSpace.comap X inferInstance ≤ (inferInstance : MeasurableSpace β) := hX.comap_le
  set Hc : β → ℝ := fun z => clip c (H z) with hHc
  have mHc : Measurable Hc := (mclip c).comp mH
  have bHc : ∀ z, |Hc z| ≤ c := fun z => hcb c hc0.le _
  have iHc : Integrable Hc law := Integrable.of_bound mHc.aestronglyMeasurable c (ae_of_all _ bHc)
  set g := law[Hc | MeasurableSpace.comap X inferInstance] with hg
  obtain ⟨g0, mg0, hg0⟩ := (stronglyMeasurable_condExp (μ := law) (f := Hc)
    (m := MeasurableSpace.comap X inferInstance)).exists_eq_measurable_comp
  have bg : ∀ᵐ z ∂law, |g z| ≤ c := by
    exact ae_bdd_abs_condExp_of_ae_bdd_abs (m := MeasurableSpace.comap X inferInstance) (μ := law) (R := c) (f := Hc)
      (ae_of_all _ bHc)
  set g1 : ℝ → ℝ := fun u => clip c (g0 u) with hg1
  have mg1 : Measurable g1 := (mclip c).comp mg0.measurable
  have bg1 : ∀ u, |g1 u| ≤ c := fun u => hcb c hc0.le _
  have hgg : ∀ᵐ z ∂law, g1 (X z) = g z := by
    filter_upwards [bg] with z hz
    have : g z = g0 (X z) := congrFun hg0 z
    simp only [hg1]
    rw [← this, hcu c hc0.le _ hz]
  have hprob : IsProbabilityMeasure (Measure.map X law) := Measure.isProbabilityMeasure_map hX.aemeasurable
  have ig1 : Integrable g1 (Measure.map X law) := Integrable.of_bound mg1.aestronglyMeasurable c (ae_of_all _ bg1)
  obtain ⟨φ, hφs, hφe, hφc, hφi⟩ := ig1.exists_hasCompactSupport_integral_sub_le (half_pos hε)
  have mgX : Measurable fun z => g1 (X z) := mg1.comp hX
  have igX : Integrable (fun z => g1 (X z)) law := Integrable.of_bound mgX.aestronglyMeasurable c (ae_of_all _ fun z => bg1 _)
  refine ⟨fun z => Hc z - g1 (X z), c + c, φ, mHc.sub mgX, fun z => (abs_sub _ _).trans (add_le_add (bHc z) (bg1 _)), ?_, hφc, hφs, ?_⟩
  · rintro ψ mψ ⟨C, hC⟩
    have i1 : Integrable (fun z => ψ (X z) * Hc z) law :=
      iHc.bdd_mul (c := C) (mψ.comp hX).aestronglyMeasurable (ae_of_all _ fun z => hC _)
    have i2 : Integrable (fun z => ψ (X z) * g1 (X z)) law :=
      igX.bdd_mul (c := C) (mψ.comp hX).aestronglyMeasurable (ae_of_all _ fun z => hC _)
    have sψ : StronglyMeasurable[MeasurableSpace.comap X inferInstance] fun z => ψ (X z) := by
      refine Measurable.stronglyMeasurable ?_
      exact mψ.comp (comap_measurable X)
    have hpull : law[(fun z => ψ (X z)) * Hc | MeasurableSpace.comap X inferInstance] =ᵐ[law] (fun z => ψ (X z)) * g :=
      condExp_mul_of_stronglyMeasurable_left sψ i1 iHc
    have e1 : ∫ z, ψ (X z) * Hc z ∂law = ∫ z, ψ (X z) * g1 (X z) ∂law := by
      have := integral_condExp (μ := law) (f := (fun z => ψ (X z)) * Hc) hmle
      rw [integral_congr_ae hpull] at this
      have e2 : ∫ z, ((fun z => ψ (X z)) * g) z ∂law = ∫ z, ψ (X z) * g1 (X z) ∂law := by
        refine integral_congr_ae ?_
        filter_upwards [hgg] with z hz
        rw [Pi.mul_apply, hz]
      rw [← e2, this]
      rfl
    have e3 := integral_sub i1 i2
    rw [e1, sub_self] at e3
    rw [← e3]
    refine integral_congr_ae (ae_of_all _ fun z => ?_)
    show ψ (X z) * (Hc z - g1 (X z)) = ψ (X z) * Hc z - ψ (X z) * g1 (X z)
    ring
  · have hφX : Integrable (fun z => φ (X z)) law := (integrable_map_measure hφi.aestronglyMeasurable hX.aemeasurable).mp hφi
    have i3 : Integrable (fun z => |H z - Hc z|) law := (hH.sub iHc).abs
    have i4 : Integrable (fun z => |g1 (X z) - φ (X z)|) law := (igX.sub hφX).abs
    have i5 : Integrable (fun z => |H z - (Hc z - g1 (X z)) - φ (X z)|) law := ((hH.sub (iHc.sub igX)).sub hφX).abs
    refine ⟨i5, ?_⟩
    have e4 : ∫ z, |g1 (X z) - φ (X z)| ∂law ≤ ε / 2 := by
      have := integral_map (μ := law) hX.aemeasurable (f := fun u => ‖g1 u - φ u‖)
        ((mg1.sub hφc.measurable).norm).aestronglyMeasurable
      rw [this] at hφe
      exact hφe
    calc ∫ z, |H z - (Hc z - g1 (X z)) - φ (X z)| ∂law ≤ ∫ z, (|H z - Hc z| + |g1 (X z) - φ (X z)|) ∂law :=
          integral_mono i5 (i3.add i4) fun z => by
            have := abs_add_le (H z - Hc z) (g1 (X z) - φ (X z))
            refine le_trans (le_of_eq ?_) this
            congr 1
            ring
      _ = ∫ z, |H z - Hc z| ∂law + ∫ z, |g1 (X z) - φ (X z)| ∂law := integral_add i3 i4
      _ ≤ ε := by linarith

/-- The mean of the outputs with alternating signs in the order of the input tends to zero. -/
theorem alternate_ae (H : β → ℝ) (mH : Measurable H) (hH : Integrable H law) :
    ∀ᵐ ω ∂P, Filter.Tendsto (fun N : ℕ => (∑ t : Fin N, rankSign (fun s : Fin N => X (Z s ω)) t * H (Z t ω)) / N)
      Filter.atTop (nhds 0) := by
  have hdis := ae_distinct law X hX hna hm hlaw hind
  have hone : ∀ n : ℕ, ∀ᵐ ω ∂P, ∀ᶠ N : ℕ in Filter.atTop,
      |(∑ t : Fin N, rankSign (fun s : Fin N => X (Z s ω)) t * H (Z t ω)) / N| < 5 * (1 / ((n : ℝ) + 1)) := by
    intro n
    have hε : (0 : ℝ) < 1 / ((n : ℝ) + 1) := by positivity
    generalize 1 / ((n : ℝ) + 1) = ε at hε
    obtain ⟨h, c, φ, mh, hc, h0, hφc, hφs, hi, he⟩ := split_output law X hX H mH hH ε hε
    obtain ⟨K, hK⟩ := sign_continuous φ hφc hφs ε hε
    have hrest := tendsto_rowMean hm hlaw hind (fun z => |H z - h z - φ (X z)|)
      (continuous_abs.measurable.comp ((mH.sub mh).sub (hφc.measurable.comp hX))) hi
    filter_upwards [hdis, sign_ae law X hX h mh c hc h0 hm hlaw hind, hrest] with ω hd hs hr
    have hKlim : Filter.Tendsto (fun N : ℕ => |K| / N) Filter.atTop (nhds 0) := tendsto_const_div_atTop_nhds_zero_nat _
    filter_upwards [hs.eventually (Metric.ball_mem_nhds 0 hε), hr.eventually (gt_mem_nhds (lt_of_le_of_lt he (lt_two_mul_self hε))),
      hKlim.eventually (gt_mem_nhds hε), Filter.eventually_gt_atTop 0] with N h1 h2 h3 hN
    have hNpos : (0 : ℝ) < N := by exact_mod_cast hN
    rw [dist_zero_right, Real.norm_eq_abs] at h1
    set x : Fin N → ℝ := fun s => X (Z s ω) with hx
    have hinj : Function.Injective x := fun s t hst => Fin.ext (hd s t hst)
    have h4 : |(∑ t : Fin N, rankSign x t * φ (x t)) / N| ≤ ε + |K| / N := by
      rw [abs_div, abs_of_pos hNpos, div_le_iff₀ hNpos, add_mul, div_mul_cancel₀ _ hNpos.ne']
      refine (hK N x hinj).trans ?_
      have := le_abs_self K
      linarith
    have h5 : |(∑ t : Fin N, rankSign x t * (H (Z t ω) - h (Z t ω) - φ (x t))) / N| ≤
        Spec.rowMean (Spec.firstRows Z N ω) (fun z => |H z - h z - φ (X z)|) := by
      unfold Spec.rowMean Spec.firstRows
      rw [abs_div, abs_of_pos hNpos, List.length_map, List.length_range]
      refine div_le_div_of_nonneg_right ?_ hNpos.le
      rw [List.map_map, ← range_list_sum]
      refine (Finset.abs_sum_le_sum_abs _ _).trans (le_of_eq ?_)
      rw [← Fin.sum_univ_eq_sum_range]
      refine Finset.sum_congr rfl fun t _ => ?_
      rw [abs_mul, abs_rankSign, one_mul]
      rfl
    have e : (∑ t : Fin N, rankSign x t * H (Z t ω)) / N = (∑ t : Fin N, rankSign x t * h (Z t ω)) / N +
        (∑ t : Fin N, rankSign x t * φ (x t)) / N + (∑ t : Fin N, rankSign x t * (H (Z t ω) - h (Z t ω) - φ (x t))) / N := by
      rw [← add_div, ← add_div, ← Finset.sum_add_distrib, ← Finset.sum_add_distrib]
      congr 1
      refine Finset.sum_congr rfl fun t _ => ?_
      ring
    rw [e]
    refine (abs_add_le _ _).trans_lt ?_
    have := abs_add_le ((∑ t : Fin N, rankSign x t * h (Z t ω)) / N) ((∑ t : Fin N, rankSign x t * φ (x t)) / N)
    linarith
  filter_upwards [ae_all_iff.mpr hone] with ω hω
  rw [Metric.tendsto_atTop]
  intro ε hε
  obtain ⟨n, hn⟩ := exists_nat_one_div_lt (show 0 < ε / 5 by positivity)
  obtain ⟨N0, hN0⟩ := Filter.eventually_atTop.mp (hω n)
  refine ⟨N0, fun N hN => ?_⟩
  rw [dist_zero_right, Real.norm_eq_abs]
  have := hN0 N hN
  linarith

end

end SALib
