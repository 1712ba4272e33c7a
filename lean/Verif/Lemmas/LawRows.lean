import Verif.Lemmas.Frequency
import Verif.Lemmas.LatinDesign
import Mathlib.Probability.Moments.Variance

/-! Long lists of rows whose means agree with a distribution, as a filter; how likely random rows are to belong to its
sets. -/

namespace SALib

open MeasureTheory ProbabilityTheory Spec Filter Topology

section

variable {β : Type} [MeasurableSpace β]

/-- The functions with a variance. -/
def SquareFun (law : Measure β) : Type := {f : β → ℝ // Measurable f ∧ MemLp f 2 law}

/-- Long lists of rows over which the mean of every function with a variance is near its mean under `law`. -/
noncomputable def lawRows (law : Measure β) : Filter (List β) :=
  comap List.length atTop ⊓ ⨅ f : SquareFun law, comap (fun rows => rowMean rows f.1) (𝓝 (∫ x, f.1 x ∂law))

theorem lawRows_length (law : Measure β) : Tendsto List.length (lawRows law) atTop :=
  tendsto_comap.mono_left inf_le_left

theorem lawRows_mean (law : Measure β) (f : β → ℝ) (hf : Measurable f) (hf2 : MemLp f 2 law) :
    Tendsto (fun rows => rowMean rows f) (lawRows law) (𝓝 (∫ x, f x ∂law)) :=
  tendsto_comap.mono_left (inf_le_right.trans (iInf_le _ (⟨f, hf, hf2⟩ : SquareFun law)))

theorem lawRows_freq (law : Measure β) [IsFiniteMeasure law] (A : Set β) (hA : MeasurableSet A) :
    Tendsto (fun rows => freq rows A) (lawRows law) (𝓝 (law.real A)) := by
  have h := lawRows_mean law (A.indicator fun _ => 1) (measurable_const.indicator hA) ((memLp_const 1).indicator hA)
  rw [integral_indicator_const _ hA, smul_eq_mul, mul_one] at h
  exact h

/-- The rows may be mapped. -/
theorem lawRows_map {γ : Type} [MeasurableSpace γ] (law : Measure β) (φ : β → γ) (hφ : Measurable φ) :
    Tendsto (List.map φ) (lawRows law) (lawRows (law.map φ)) := by
  refine tendsto_inf.mpr ⟨tendsto_comap_iff.mpr ?_, tendsto_iInf.mpr fun f => tendsto_comap_iff.mpr ?_⟩
  · exact (lawRows_length law).congr fun rows => by simp
  · have hp : MeasurePreserving φ law (law.map φ) := ⟨hφ, rfl⟩
    have h := lawRows_mean law (fun x => f.1 (φ x)) (f.2.1.comp hφ) (f.2.2.comp_measurePreserving hp)
    rw [integral_map hφ.aemeasurable f.2.1.aestronglyMeasurable]
    refine h.congr fun rows => ?_
    unfold rowMean
    simp only [Function.comp_apply, List.map_map, List.length_map]
    rfl

/-- What holds for the rows of the filter holds as soon as finitely many means are near enough. -/
theorem lawRows_finite (law : Measure β) (Q : List β → Prop) (h : ∀ᶠ rows in lawRows law, Q rows) :
    ∃ (κ : Type) (_ : Fintype κ) (f : κ → SquareFun law) (δ : ℝ) (N0 : Nat), 0 < δ ∧
      ∀ rows : List β, N0 ≤ rows.length → (∀ k, |rowMean rows (f k).1 - ∫ x, (f k).1 x ∂law| < δ) → Q rows := by
  obtain ⟨U, hU, W, hW, hUW⟩ := mem_inf_iff_superset.mp h
  obtain ⟨T, hT, hTU⟩ := mem_comap.mp hU
  obtain ⟨N0, hN0⟩ := mem_atTop_sets.mp hT
  obtain ⟨I, hI, V, hV, rfl⟩ := mem_iInf.mp hW
  have hfin : Fintype I := hI.fintype
  have hball : ∀ i : I, ∃ δ > 0, ∀ rows : List β, |rowMean rows i.1.1 - ∫ x, i.1.1 x ∂law| < δ → rows ∈ V i := by
    intro i
    obtain ⟨B, hB, hBV⟩ := mem_comap.mp (hV i)
    obtain ⟨δ, hδ, hsub⟩ := Metric.mem_nhds_iff.mp hB
    exact ⟨δ, hδ, fun rows hr => hBV (hsub hr)⟩
  choose δ hδ hsub using hball
  obtain ⟨δ0, hδ0, hle⟩ : ∃ δ0 > 0, ∀ i, δ0 ≤ δ i := by
    rcases isEmpty_or_nonempty I with hE | hE
    · exact ⟨1, one_pos, fun i => hE.elim i⟩
    · obtain ⟨i0, hi0⟩ := Finite.exists_min δ
      exact ⟨δ i0, hδ i0, hi0⟩
  let e := Fintype.equivFin I
  refine ⟨Fin (Fintype.card I), inferInstance, fun k => (e.symm k).1, δ0, N0, hδ0, fun rows hN hk => ?_⟩
  refine hUW ⟨hTU (hN0 _ hN), Set.mem_iInter.mpr fun i => hsub i rows ?_⟩
  have := hk (e i)
  simp only [Equiv.symm_apply_apply] at this
  exact this.trans_le (hle i)

/-- Rows whose means have a variance of the order of `1 / N` miss a set of the filter with a probability of this order. -/
theorem rare_of_variance (law : Measure β) (Q : List β → Prop) (h : ∀ᶠ rows in lawRows law, Q rows) :
    ∃ C : ℝ, ∀ N : Nat, 0 < N → ∀ (Ω : Type) [MeasurableSpace Ω] (P : Measure Ω) [IsProbabilityMeasure P]
      (R : Ω → List β), (∀ ω, (R ω).length = N) →
      (∀ f : SquareFun law, 2 ≤ N → MemLp (fun ω => rowMean (R ω) f.1) 2 P ∧
        ∫ ω, rowMean (R ω) f.1 ∂P = ∫ x, f.1 x ∂law ∧ Var[fun ω => rowMean (R ω) f.1; P] ≤ Var[f.1; law] / ((N : ℝ) - 1)) →
      P {ω | ¬Q (R ω)} ≤ ENNReal.ofReal (C / N) := by
  obtain ⟨κ, hκ, f, δ, N0, hδ, hQ⟩ := lawRows_finite law Q h
  have hB : 0 ≤ ∑ k, 2 * Var[(f k).1; law] / δ ^ 2 := Finset.sum_nonneg fun k _ =>
    div_nonneg (mul_nonneg (by norm_num) (variance_nonneg _ _)) (by positivity)
  refine ⟨(N0 + 2 : ℝ) + ∑ k, 2 * Var[(f k).1; law] / δ ^ 2, fun N hN Ω _ P _ R hR hv => ?_⟩
  have hNr : (0 : ℝ) < N := by exact_mod_cast hN
  by_cases hbig : N0 + 2 ≤ N
  · have hN2 : 2 ≤ N := by omega
    have hN2r : (2 : ℝ) ≤ N := by exact_mod_cast hN2
    have hsub : {ω | ¬Q (R ω)} ⊆ ⋃ k, {ω | δ ≤ |rowMean (R ω) (f k).1 - ∫ x, (f k).1 x ∂law|} := by
      intro ω hω
      by_contra hno
      simp only [Set.mem_iUnion, Set.mem_setOf_eq, not_exists, not_le] at hno
      exact hω (hQ (R ω) (by rw [hR]; omega) hno)
    have hone : ∀ k, P {ω | δ ≤ |rowMean (R ω) (f k).1 - ∫ x, (f k).1 x ∂law|} ≤
        ENNReal.ofReal (2 * Var[(f k).1; law] / δ ^ 2 / N) := by
      intro k
      obtain ⟨h1, h2, h3⟩ := hv (f k) hN2
      have hc := meas_ge_le_variance_div_sq h1 hδ
      rw [h2] at hc
      refine hc.trans (ENNReal.ofReal_le_ofReal ?_)
      rw [div_right_comm]
      refine div_le_div_of_nonneg_right (h3.trans ?_) (by positivity)
      rw [div_le_div_iff₀ (by linarith) hNr]
      nlinarith [variance_nonneg (f k).1 law]
    calc P {ω | ¬Q (R ω)} ≤ ∑ k, P {ω | δ ≤ |rowMean (R ω) (f k).1 - ∫ x, (f k).1 x ∂law|} :=
          (measure_mono hsub).trans ((measure_iUnion_le _).trans (tsum_fintype _).le)
      _ ≤ ∑ k, ENNReal.ofReal (2 * Var[(f k).1; law] / δ ^ 2 / N) := Finset.sum_le_sum fun k _ => hone k
      _ = ENNReal.ofReal (∑ k, 2 * Var[(f k).1; law] / δ ^ 2 / N) := by
          rw [ENNReal.ofReal_sum_of_nonneg]
          exact fun k _ => div_nonneg (div_nonneg (mul_nonneg (by norm_num) (variance_nonneg _ _)) (by positivity)) hNr.le
      _ ≤ _ := by
          apply ENNReal.ofReal_le_ofReal
          rw [← Finset.sum_div]
          refine div_le_div_of_nonneg_right ?_ hNr.le
          have : (0 : ℝ) ≤ N0 := Nat.cast_nonneg _
          linarith
  · refine prob_le_one.trans ?_
    rw [ENNReal.one_le_ofReal, le_div_iff₀ hNr, one_mul]
    have : (N : ℝ) ≤ N0 + 2 := by exact_mod_cast (by omega : N ≤ N0 + 2)
    linarith

end

/-! ### Latin hypercube samples -/

section

variable {d g N : Nat} {Ω : Type} [MeasurableSpace Ω] {P : Measure Ω} [IsProbabilityMeasure P]
  {ord : Ω → StrataOrders N g} {off : Ω → Fin g → Fin N → ℝ}

/-- The rows of a Latin hypercube design, placed by `T`. -/
noncomputable def latinRows {β : Type} (T : (Fin g → ℝ) → β) (p : StrataOrders N g) (o : Fin g → Fin N → ℝ) : List β :=
  List.ofFn fun s => T (latinPt p o s)

theorem rowMean_latinRows {β : Type} (T : (Fin g → ℝ) → β) (p : StrataOrders N g) (o : Fin g → Fin N → ℝ) (f : β → ℝ) :
    rowMean (latinRows T p o) f = latinAvg (fun u => f (T u)) p o := by
  unfold rowMean latinRows latinAvg
  rw [List.map_ofFn, List.sum_ofFn, List.length_ofFn]
  rfl

theorem latin_rare {β : Type} [MeasurableSpace β] (T : (Fin g → ℝ) → β) (hT : Measurable T) (law : Measure β)
    (hlaw : Measure.map T (cube g) = law) (Q : List β → Prop) (h : ∀ᶠ rows in lawRows law, Q rows) :
    ∃ C : ℝ, ∀ N : Nat, 0 < N → ∀ (Ω : Type) [MeasurableSpace Ω] (P : Measure Ω) [IsProbabilityMeasure P]
      (ord : Ω → StrataOrders N g) (off : Ω → Fin g → Fin N → ℝ), FairLatin P ord off →
      P {ω | ¬Q (latinRows T (ord ω) (off ω))} ≤ ENNReal.ofReal (C / N) := by
  subst hlaw
  obtain ⟨C, hC⟩ := rare_of_variance _ Q h
  refine ⟨C, fun N hN Ω _ P _ ord off hL => hC N hN Ω P _ (fun ω => by simp [latinRows]) fun f hN2 => ?_⟩
  simp only [rowMean_latinRows]
  have hm : Measurable fun u => f.1 (T u) := f.2.1.comp hT
  have hp : MeasurePreserving T (cube g) (Measure.map T (cube g)) := ⟨hT, rfl⟩
  have h2 : MemLp (fun u => f.1 (T u)) 2 (cube g) := f.2.2.comp_measurePreserving hp
  refine ⟨memLp_latinAvg hN hL hm h2, ?_, ?_⟩
  · rw [(latin_avg_integral hN hL hm (h2.integrable (by norm_num))).2,
      integral_map hT.aemeasurable f.2.1.aestronglyMeasurable]
  · refine (latin_variance_le hN2 hL hm h2).trans (le_of_eq ?_)
    rw [variance_map (by exact f.2.1.aemeasurable) hT.aemeasurable]
    rfl

theorem cell_null (hN : 0 < N) (A : Set (Fin g → ℝ)) (hA : MeasurableSet A) (h0 : cube g A = 0) (c : Fin g → Fin N) :
    cube g {u | cellPt c u ∈ A} = 0 := by
  have hi : Integrable (A.indicator fun _ => (1 : ℝ)) (cube g) := (integrable_const _).indicator hA
  have h1 := integral_cells hN hi
  rw [integral_indicator_const _ hA, measureReal_def, h0, ENNReal.toReal_zero, zero_smul, eq_comm,
    div_eq_zero_iff, or_iff_left (by positivity)] at h1
  have hnn : ∀ c : Fin g → Fin N, 0 ≤ cellMean (A.indicator fun _ => (1 : ℝ)) c := fun c =>
    integral_nonneg fun u => Set.indicator_nonneg (fun _ _ => zero_le_one) _
  have h2 := (Finset.sum_eq_zero_iff_of_nonneg fun c _ => hnn c).mp h1 c (Finset.mem_univ c)
  unfold cellMean at h2
  have h3 : ∫ u, A.indicator (fun _ => (1 : ℝ)) (cellPt c u) ∂cube g =
      ∫ u, (cellPt c ⁻¹' A).indicator (fun _ => 1) u ∂cube g := rfl
  rw [h3, integral_indicator_const _ (measurable_cellPt c hA), smul_eq_mul, mul_one] at h2
  exact (measureReal_eq_zero_iff).mp h2

/-- What holds for almost every point of the cube holds for all rows of almost every design. -/
theorem latin_all (hN : 0 < N) (hL : FairLatin P ord off) (A : Set (Fin g → ℝ)) (hA : MeasurableSet A)
    (h0 : ∀ᵐ u ∂cube g, u ∈ A) : ∀ᵐ ω ∂P, ∀ s, latinPt (ord ω) (off ω) s ∈ A := by
  have hp : ∀ (p : StrataOrders N g) (s : Fin N), ∀ᵐ ω ∂P, latinPt p (off ω) s ∈ A := by
    intro p s
    have hz := cell_null hN Aᶜ hA.compl (by rwa [ae_iff] at h0) fun k => p.order k s
    have hq := pick_preserving (g := g) (N := N) fun k => p.order k s
    have hm : MeasurableSet {u | cellPt (fun k => p.order k s) u ∈ Aᶜ} := measurable_cellPt _ hA.compl
    rw [← hq.map_eq, Measure.map_apply hq.measurable hm] at hz
    unfold offLaw at hz
    rw [← hL.law, Measure.map_apply hL.meas_off (hq.measurable hm)] at hz
    rw [ae_iff]
    exact hz
  filter_upwards [ae_all_iff.mpr fun p => ae_all_iff.mpr (hp p)] with ω hω s
  exact hω (ord ω) s

/-- A function without values of positive probability is different in different rows. -/
theorem latin_distinct (hN : 0 < N) (hL : FairLatin P ord off) (X : (Fin g → ℝ) → ℝ) (hX : Measurable X)
    (hna : ∀ a, cube g {u | X u = a} = 0) :
    ∀ᵐ ω ∂P, Function.Injective fun s => X (latinPt (ord ω) (off ω) s) := by
  have hp : ∀ (p : StrataOrders N g) (s t : Fin N), s ≠ t → ∀ᵐ ω ∂P, X (latinPt p (off ω) s) ≠ X (latinPt p (off ω) t) := by
    intro p s t hst
    have hq := pick2_preserving (g := g) (N := N) (fun k => p.order k s) (fun k => p.order k t)
      fun k h => hst ((p.order k).injective h)
    have mset : MeasurableSet {q : (Fin g → ℝ) × (Fin g → ℝ) | X (cellPt (fun k => p.order k s) q.1) =
        X (cellPt (fun k => p.order k t) q.2)} :=
      measurableSet_eq_fun ((hX.comp (measurable_cellPt _)).comp measurable_fst)
        ((hX.comp (measurable_cellPt _)).comp measurable_snd)
    have hz : ((cube g).prod (cube g)) {q : (Fin g → ℝ) × (Fin g → ℝ) | X (cellPt (fun k => p.order k s) q.1) =
        X (cellPt (fun k => p.order k t) q.2)} = 0 := by
      rw [Measure.measure_prod_null mset]
      refine ae_of_all _ fun u => ?_
      have := cell_null hN {v | X v = X (cellPt (fun k => p.order k s) u)} (measurableSet_eq_fun hX measurable_const) (hna _)
        fun k => p.order k t
      refine le_antisymm ((measure_mono ?_).trans this.le) bot_le
      intro v hv
      exact (show X (cellPt _ u) = X (cellPt _ v) from hv).symm
    rw [← hq.map_eq, Measure.map_apply hq.measurable mset] at hz
    unfold offLaw at hz
    rw [← hL.law, Measure.map_apply hL.meas_off (hq.measurable mset)] at hz
    rw [ae_iff]
    refine le_antisymm ((measure_mono ?_).trans hz.le) bot_le
    intro ω hω
    exact not_not.mp hω
  have hall : ∀ᵐ ω ∂P, ∀ (p : StrataOrders N g) (s t : Fin N), s ≠ t → X (latinPt p (off ω) s) ≠ X (latinPt p (off ω) t) := by
    refine ae_all_iff.mpr fun p => ae_all_iff.mpr fun s => ae_all_iff.mpr fun t => ?_
    by_cases hst : s = t
    · exact ae_of_all _ fun _ h => absurd hst h
    · filter_upwards [hp p s t hst] with ω hω _
      exact hω
  filter_upwards [hall] with ω hω s t h
  by_contra hst
  exact hω (ord ω) s t hst h

end

/-! ### Independent rows -/

section

variable {β : Type} [MeasurableSpace β] {Ω : Type} [MeasurableSpace Ω] {P : Measure Ω} {law : Measure β} {Z : ℕ → Ω → β}

/-- Independent rows belong, with probability one, to any sequence of sets of the filter from some length on. -/
theorem lawRows_ae (hm : ∀ i, Measurable (Z i)) (hlaw : ∀ i, Measure.map (Z i) P = law) (hind : iIndepFun Z P)
    [IsProbabilityMeasure law] (Q : ℕ → List β → Prop) (h : ∀ n, ∀ᶠ rows in lawRows law, Q n rows) :
    ∀ᵐ ω ∂P, ∀ n, ∀ᶠ N in atTop, Q n (firstRows Z N ω) := by
  rw [ae_all_iff]
  intro n
  obtain ⟨κ, hκ, f, δ, N0, hδ, hQ⟩ := lawRows_finite law (Q n) (h n)
  have hall : ∀ᵐ ω ∂P, ∀ k, Tendsto (fun N => rowMean (firstRows Z N ω) (f k).1) atTop (𝓝 (∫ x, (f k).1 x ∂law)) :=
    ae_all_iff.mpr fun k => tendsto_rowMean hm hlaw hind _ (f k).2.1 ((f k).2.2.integrable (by norm_num))
  filter_upwards [hall] with ω hω
  have hev : ∀ᶠ N in atTop, ∀ k, |rowMean (firstRows Z N ω) (f k).1 - ∫ x, (f k).1 x ∂law| < δ :=
    eventually_all.mpr fun k => (hω k).eventually (Metric.ball_mem_nhds _ hδ)
  filter_upwards [hev, eventually_ge_atTop N0] with N h1 h2
  exact hQ _ (by simpa [firstRows] using h2) h1

/-- Convergence along the filter, for independent rows with a property. -/
theorem rows_tendsto (law : Measure β) [IsProbabilityMeasure law] (P : Measure Ω) (Z : ℕ → Ω → β)
    (hm : ∀ i, Measurable (Z i)) (hlaw : ∀ i, Measure.map (Z i) P = law) (hind : iIndepFun Z P) (D : List β → Prop)
    (hD : ∀ᵐ ω ∂P, ∀ N, D (firstRows Z N ω)) (E : List β → Prop) (T : List β → ℝ) (a : ℝ)
    (h : (∀ᶠ rows in lawRows law ⊓ 𝓟 {rows | D rows}, E rows) ∧
      Tendsto T (lawRows law ⊓ 𝓟 {rows | D rows}) (𝓝 a)) :
    ∀ᵐ ω ∂P, (∀ᶠ N in atTop, E (firstRows Z N ω)) ∧ Tendsto (fun N => T (firstRows Z N ω)) atTop (𝓝 a) := by
  have hall := lawRows_ae hm hlaw hind (fun n rows => D rows → E rows ∧ |T rows - a| < 1 / ((n : ℝ) + 1)) fun n => by
    have := h.1.and (h.2.eventually (Metric.ball_mem_nhds a (show 0 < 1 / ((n : ℝ) + 1) by positivity)))
    exact eventually_inf_principal.mp this
  filter_upwards [hall, hD] with ω hω hd
  refine ⟨(hω 0).mono fun N hN => (hN (hd N)).1, Metric.tendsto_nhds.mpr fun ε hε => ?_⟩
  obtain ⟨n, hn⟩ := exists_nat_one_div_lt hε
  filter_upwards [hω n] with N hN
  exact (hN (hd N)).2.trans hn

/-- Independent rows miss a set of the filter with a probability of the order of `1 / N`. -/
theorem indep_rare (law : Measure β) [IsProbabilityMeasure law] (Q : List β → Prop) (h : ∀ᶠ rows in lawRows law, Q rows) :
    ∃ C : ℝ, ∀ N : Nat, 0 < N → ∀ (Ω : Type) [MeasurableSpace Ω] (P : Measure Ω) (Z : ℕ → Ω → β),
      (∀ i, Measurable (Z i)) → (∀ i, Measure.map (Z i) P = law) → iIndepFun Z P →
      P {ω | ¬Q (firstRows Z N ω)} ≤ ENNReal.ofReal (C / N) := by
  obtain ⟨C, hC⟩ := rare_of_variance law Q h
  refine ⟨C, fun N hN Ω _ P Z hm hlaw hind => ?_⟩
  have hP : IsProbabilityMeasure P := by
    refine ⟨?_⟩
    have := measure_univ (μ := law)
    rwa [← hlaw 0, Measure.map_apply (hm 0) MeasurableSet.univ, Set.preimage_univ] at this
  refine hC N hN Ω P _ (fun ω => by simp [firstRows]) fun f hN2 => ?_
  have hN2r : (2 : ℝ) ≤ N := by exact_mod_cast hN2
  have h1 : Integrable f.1 law := f.2.2.integrable (by norm_num)
  have hE := integral_rowMean hm hlaw f.1 h1 N hN
  have hi := integrable_rowMean_mul hm hlaw hind f.1 f.1 f.2.2 f.2.2 N
  have h2 : MemLp (fun ω => rowMean (firstRows Z N ω) f.1) 2 P := by
    rw [memLp_two_iff_integrable_sq (integrable_rowMean hm hlaw f.1 h1 N).aestronglyMeasurable]
    simpa only [pow_two] using hi
  refine ⟨h2, hE, ?_⟩
  have hsq : ∫ ω, rowMean (firstRows Z N ω) f.1 ^ 2 ∂P =
      1 / N * ∫ p, f.1 p ^ 2 ∂law + (1 - 1 / N) * (∫ p, f.1 p ∂law) ^ 2 := by
    have := integral_rowMean_mul hm hlaw hind f.1 f.1 f.2.1 f.2.1 f.2.2 f.2.2 N hN
    simpa only [pow_two] using this
  have hvar : Var[fun ω => rowMean (firstRows Z N ω) f.1; P] = Var[f.1; law] / N := by
    rw [variance_eq_sub h2, variance_eq_sub f.2.2]
    simp only [Pi.pow_apply]
    rw [hsq, hE]
    ring
  rw [hvar]
  exact div_le_div_of_nonneg_left (variance_nonneg _ _) (by linarith) (by linarith)

end

end SALib
