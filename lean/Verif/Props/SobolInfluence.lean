import Verif.Lemmas.SobolInfluence
import Verif.Props.SobolCoverage

/-!
# C142: confidence intervals of inputs with influence, and of inputs without
-/

namespace SALib

open MeasureTheory ProbabilityTheory Spec

variable {d : Nat}

section terms

variable {ν : Fin d → Measure ℝ} [∀ i, IsProbabilityMeasure (ν i)] (G : (Fin d → ℝ) → ℝ) (hGm : Measurable G) (K : ℝ)
  (hK : ∀ᵐ x ∂Measure.pi ν, |G x| ≤ K)
include hGm hK

theorem not_ae_mean (hV : 0 < Var[G; Measure.pi ν]) : ¬ ∀ᵐ x ∂Measure.pi ν, G x - ∫ y, G y ∂Measure.pi ν = 0 := by
  intro h
  rw [variance_eq_integral hGm.aemeasurable, integral_congr_ae (h.mono fun x hx => show _ = (0 : ℝ) by
    show (G x - _) ^ 2 = 0
    rw [hx]
    norm_num)] at hV
  simp at hV

theorem totalEffect_zero_iff (s : Fin d → Bool) :
    totalEffect ν G s = 0 ↔ ∀ᵐ p ∂(Measure.pi ν).prod (Measure.pi ν), G (mix s p.1 p.2) = G p.1 := by
  have hL := memLp_of_ae_le G K hGm hK
  rw [← mean_total ν G hL]
  have hint : Integrable (fun p : (Fin d → ℝ) × (Fin d → ℝ) => (G p.1 - G (mix s p.1 p.2)) ^ 2) ((Measure.pi ν).prod (Measure.pi ν)) :=
    ((memLp_fst ν G hL).sub (memLp_mix ν G hL s)).integrable_sq
  constructor
  · intro h
    have h0 : ∫ p, (G p.1 - G (mix s p.1 p.2)) ^ 2 ∂((Measure.pi ν).prod (Measure.pi ν)) = 0 := by linarith
    have := (integral_eq_zero_iff_of_nonneg (fun p => sq_nonneg _) hint).mp h0
    filter_upwards [this] with p hp
    have : G p.1 - G (mix s p.1 p.2) = 0 := by simpa using hp
    linarith
  · intro h
    rw [integral_congr_ae (h.mono fun p hp => show _ = (0 : ℝ) by
      show (G p.1 - G (mix s p.1 p.2)) ^ 2 = 0
      rw [hp]
      norm_num)]
    simp

theorem first_term_free (hV : 0 < Var[G; Measure.pi ν]) (s : Fin d → Bool) (hT : 0 < totalEffect ν G s) :
    ¬ ∀ᵐ p ∂(Measure.pi ν).prod (Measure.pi ν), firstTerm ν G s p = closedEffect ν G s / Var[G; Measure.pi ν] * pairDev ν G p := by
  intro h
  have hL := memLp_of_ae_le G K hGm hK
  have h1 := first_proportional (ν := ν) (fun x => G x - ∫ y, G y ∂Measure.pi ν) s (closedEffect ν G s / Var[G; Measure.pi ν])
    (div_nonneg (closedEffect_nonneg ν G hL s) hV.le) ((div_le_one hV).mpr (closedEffect_le ν G hL s)) (not_ae_mean G hGm K hK hV)
    (h.mono fun p hp => by
      unfold firstTerm pairDev at hp
      rw [← hp]
      ring)
  exact hT.ne' ((totalEffect_zero_iff G hGm K hK s).mpr (h1.mono fun p hp => by linarith))

theorem total_term_free (hV : 0 < Var[G; Measure.pi ν]) (s : Fin d → Bool) (hT : 0 < totalEffect ν G s) :
    ¬ ∀ᵐ p ∂(Measure.pi ν).prod (Measure.pi ν), totalTerm G s p = totalEffect ν G s / Var[G; Measure.pi ν] * pairDev ν G p := by
  intro h
  have hL := memLp_of_ae_le G K hGm hK
  refine not_ae_mean G hGm K hK hV (total_proportional (ν := ν) (fun x => G x - ∫ y, G y ∂Measure.pi ν) s
    (totalEffect ν G s / Var[G; Measure.pi ν]) (div_pos hT hV) ((div_le_one hV).mpr ?_) (h.mono fun p hp => ?_))
  · rw [totalEffect_eq_sub ν G hL]
    linarith [closedEffect_nonneg ν G hL fun j => !s j]
  · unfold totalTerm pairDev at hp
    linear_combination 2 * hp

theorem second_term_free (hV : 0 < Var[G; Measure.pi ν]) (s t : Fin d → Bool) (hst : ∀ i, ¬(s i = true ∧ t i = true)) (θ : ℝ) (hθ : θ ≠ 0) :
    ¬ ∀ᵐ p ∂(Measure.pi ν).prod (Measure.pi ν), secondTerm ν G s t p = θ * pairDev ν G p := by
  intro h
  refine not_ae_mean G hGm K hK hV (second_proportional (ν := ν) (fun x => G x - ∫ y, G y ∂Measure.pi ν) (hGm.sub_const _) s t hst
    θ hθ (h.mono fun p hp => ?_))
  unfold secondTerm firstTerm pairDev at hp
  linear_combination hp

variable {Ω : Type} [MeasurableSpace Ω] {P : Measure Ω} {Z : ℕ → Ω → (Fin d → ℝ) × (Fin d → ℝ)}

/-- The outputs of the rows and of all resamples vary, except with small probability. -/
theorem outputs_vary (hV : 0 < Var[G; Measure.pi ν]) (hZ : BaseRows ν P Z) (ε : ℝ) (hε : 0 < ε) :
    ∃ N0, ∀ N ≥ N0, ∀ R ≥ 2, R ≤ N → ∀ w : Ω → Fin R → Fin N → Fin N, FreshResample P Z N R w → ∃ bad : Set Ω, P.real bad < ε ∧
      ∀ ω ∉ bad, sampleVar G (List.ofFn fun i : Fin N => Z i ω) ≠ 0 ∧ ∀ r, sampleVar G (List.ofFn fun i => Z (w ω r i) ω) ≠ 0 := by
  set law := (Measure.pi ν).prod (Measure.pi ν) with hlaw
  set μ := ∫ x, G x ∂Measure.pi ν with hμ
  set V := Var[G; Measure.pi ν] with hVd
  have hK0 := bound_pos G K hGm hK hV
  let F : Fin 5 → (Fin d → ℝ) × (Fin d → ℝ) → ℝ := ![fun _ => 0, fun _ => 0,
    fun p => (G p.1 + G p.2) / 2 - μ, fun p => ((G p.1 - μ) ^ 2 + (G p.2 - μ) ^ 2) / 2 - V, fun _ => 0]
  have mG1 : Measurable fun p : (Fin d → ℝ) × (Fin d → ℝ) => G p.1 := hGm.comp measurable_fst
  have mG2 : Measurable fun p : (Fin d → ℝ) × (Fin d → ℝ) => G p.2 := hGm.comp measurable_snd
  have mF : ∀ a, Measurable (F a) := by
    intro a
    fin_cases a
    · exact measurable_const
    · exact measurable_const
    · show Measurable fun p : (Fin d → ℝ) × (Fin d → ℝ) => (G p.1 + G p.2) / 2 - μ
      fun_prop
    · show Measurable fun p : (Fin d → ℝ) × (Fin d → ℝ) => ((G p.1 - μ) ^ 2 + (G p.2 - μ) ^ 2) / 2 - V
      fun_prop
    · exact measurable_const
  have hμK : |μ| ≤ K := abs_mean_le G K hK
  have hb : ∀ a, ∀ᵐ p ∂law, |F a p| ≤ 2 * K + ((2 * K) ^ 2 + V) := by
    intro a
    filter_upwards [ae_mix_le G K hK] with p q3
    have g1 : |G p.1| ≤ K := by simpa only [mix_none] using q3 fun _ => false
    have g2 : |G p.2| ≤ K := by simpa only [mix_all] using q3 fun _ => true
    have n0 : 0 ≤ 2 * K + ((2 * K) ^ 2 + V) := by positivity
    have n1 : 0 ≤ (2 * K) ^ 2 + V := by positivity
    fin_cases a
    · show |(0 : ℝ)| ≤ _
      rwa [abs_zero]
    · show |(0 : ℝ)| ≤ _
      rwa [abs_zero]
    · show |(G p.1 + G p.2) / 2 - μ| ≤ _
      rw [abs_le] at g1 g2 hμK ⊢
      constructor <;> linarith
    · show |((G p.1 - μ) ^ 2 + (G p.2 - μ) ^ 2) / 2 - V| ≤ _
      have a1 : |G p.1 - μ| ≤ 2 * K := by
        have := abs_sub (G p.1) μ
        linarith
      have a2 : |G p.2 - μ| ≤ 2 * K := by
        have := abs_sub (G p.2) μ
        linarith
      have a3 := pow_le_pow_left₀ (abs_nonneg _) a1 2
      have a4 := pow_le_pow_left₀ (abs_nonneg _) a2 2
      rw [sq_abs] at a3 a4
      have a5 := sq_nonneg (G p.1 - μ)
      have a6 := sq_nonneg (G p.2 - μ)
      rw [abs_le]
      constructor <;> linarith
    · show |(0 : ℝ)| ≤ _
      rwa [abs_zero]
  have F0 : ∀ a, ∫ p, F a p ∂law = 0 := by
    intro a
    fin_cases a
    · exact integral_zero _ _
    · exact integral_zero _ _
    · show ∫ p, ((G p.1 + G p.2) / 2 - μ) ∂law = 0
      have j1 := integrable_fst_pair (ν := ν) G hGm K hK
      have j2 := integrable_snd_pair (ν := ν) G hGm K hK
      have j3 : Integrable (fun p : (Fin d → ℝ) × (Fin d → ℝ) => (G p.1 + G p.2) / 2) law := (j1.add j2).div_const 2
      rw [integral_sub j3 (integrable_const _), integral_div, integral_add j1 j2, mean_fst_pair G hGm K hK, mean_snd_pair G hGm K hK]
      simp [← hμ]
    · show ∫ p, (((G p.1 - μ) ^ 2 + (G p.2 - μ) ^ 2) / 2 - V) ∂law = 0
      have eD : ∫ p, ((G p.1 - μ) ^ 2 + (G p.2 - μ) ^ 2) / 2 ∂law = V := mean_pairDev G hGm K hK
      have iD : Integrable (fun p : (Fin d → ℝ) × (Fin d → ℝ) => ((G p.1 - μ) ^ 2 + (G p.2 - μ) ^ 2) / 2) law := by
        by_contra hn
        rw [integral_undef hn] at eD
        exact hV.ne eD
      rw [integral_sub iD (integrable_const _), eD]
      simp
    · exact integral_zero _ _
  obtain ⟨N0, hmain⟩ := variances_kept hZ.meas hZ.law hZ.indep F mF F0 _ hb V hV ε hε
  refine ⟨max N0 1, fun N hN R hR hRN w hw => ?_⟩
  have hNp : 0 < N := le_of_max_le_right hN
  have hne : ∀ x : Fin N → (Fin d → ℝ) × (Fin d → ℝ), List.ofFn x ≠ [] := by
    intro x h
    have := congrArg List.length h
    simp at this
    omega
  obtain ⟨bad, hbad, h⟩ := hmain N (le_of_max_le_left hN) R hR hRN w hw
  refine ⟨bad, hbad, fun ω hω => ?_⟩
  obtain ⟨p1, p2⟩ := h ω hω
  have hv := fun x : Fin N → (Fin d → ℝ) × (Fin d → ℝ) => (estimate_err G (List.ofFn x) (hne _) (fun _ => 0) (fun _ => 0) μ V 0 0 hV.ne').1
  refine ⟨?_, fun r => ?_⟩
  · rw [hv]
    rw [firstRows_eq_ofFn] at p1
    exact p1.ne'
  · rw [hv]
    have := (p2 r).ne'
    rw [← rowMean_ofFn (fun i => Z (w ω r i) ω), ← rowMean_ofFn (fun i => Z (w ω r i) ω)] at this
    exact this

end terms

section claims

variable (normPpf : ℝ → ℝ) (f : List ℝ → ℝ) (second : Bool) (g : Nat) (groupOf : Nat → Nat)
  (pb : Problem ℝ) (conf : ℝ) (keep : Bool) (hg : (extractGroupNames pb).2 = g) (hconf : 0 < conf ∧ conf < 1)
  (hz : stdNormalCDF (normPpf (1 / 2 + conf / 2)) = 1 / 2 + conf / 2)
  (ν : Fin d → Measure ℝ) [∀ i, IsProbabilityMeasure (ν i)] {Ω : Type} [MeasurableSpace Ω] (P : Measure Ω)
  (Z : ℕ → Ω → (Fin d → ℝ) × (Fin d → ℝ)) (hZ : BaseRows ν P Z)
  (G : (Fin d → ℝ) → ℝ) (hf : ∀ x, f (List.ofFn x) = G x)
  (hGm : Measurable G) (K : ℝ) (hK : ∀ᵐ x ∂Measure.pi ν, |G x| ≤ K) (hV : 0 < Var[G; Measure.pi ν])
include hg hconf hz hZ hf hGm hK hV

/-- **C142**.  For every input or group with influence, each of the intervals `S1 ± S1_conf` and `ST ± ST_conf` contains its index with a
probability which tends to the confidence level. -/
theorem C142_influential (k : Nat) (hk : k < g) (hT : 0 < totalEffect ν G (inGroup groupOf k)) (ε : ℝ) (hε : 0 < ε) :
    ∃ N0 R0, ∀ N ≥ N0, ∀ R ≥ R0, R ≤ N → ∀ w : Ω → Fin R → Fin N → Fin N, FreshResample P Z N R w →
      |P.real {ω | ∃ res,
        sobolAnalyze Real.sqrt normPpf pb
          ((crossDesign second d g groupOf ((firstRows Z N ω).map pairRow)).map f) second conf (drawLists (w ω)) keep .serial = .ok res ∧
        Covers res.S1[k]? res.S1conf[k]? (closedEffect ν G (inGroup groupOf k) / Var[G; Measure.pi ν])} - conf| < ε ∧
      |P.real {ω | ∃ res,
        sobolAnalyze Real.sqrt normPpf pb
          ((crossDesign second d g groupOf ((firstRows Z N ω).map pairRow)).map f) second conf (drawLists (w ω)) keep .serial = .ok res ∧
        Covers res.ST[k]? res.STconf[k]? (totalEffect ν G (inGroup groupOf k) / Var[G; Measure.pi ν])} - conf| < ε := by
  obtain ⟨N1, R1, h1⟩ := C142_first normPpf f second g groupOf pb conf keep hg hconf hz ν P Z hZ G hf hGm K hK hV k hk
    (first_term_free G hGm K hK hV _ hT) ε hε
  obtain ⟨N2, R2, h2⟩ := C142_total normPpf f second g groupOf pb conf keep hg hconf hz ν P Z hZ G hf hGm K hK hV k hk
    (total_term_free G hGm K hK hV _ hT) ε hε
  exact ⟨max N1 N2, max R1 R2, fun N hN R hR hRN w hw =>
    ⟨h1 N (le_of_max_le_left hN) R (le_of_max_le_left hR) hRN w hw, h2 N (le_of_max_le_right hN) R (le_of_max_le_right hR) hRN w hw⟩⟩

omit second in
/-- **C142**.  For every pair of inputs or groups whose second-order index is not 0, the interval `S2 ± S2_conf` contains it with a
probability which tends to the confidence level. -/
theorem C142_interacting (j k : Nat) (hjk : j < k) (hk : k < g)
    (hI : closedEffect ν G (fun i => inGroup groupOf j i || inGroup groupOf k i) -
      closedEffect ν G (inGroup groupOf j) - closedEffect ν G (inGroup groupOf k) ≠ 0) (ε : ℝ) (hε : 0 < ε) :
    ∃ N0 R0, ∀ N ≥ N0, ∀ R ≥ R0, R ≤ N → ∀ w : Ω → Fin R → Fin N → Fin N, FreshResample P Z N R w →
      |P.real {ω | ∃ res S2 S2conf,
        sobolAnalyze Real.sqrt normPpf pb
          ((crossDesign true d g groupOf ((firstRows Z N ω).map pairRow)).map f) true conf (drawLists (w ω)) keep .serial = .ok res ∧
        res.S2 = some S2 ∧ res.S2conf = some S2conf ∧
        Covers (entry S2 j k) (entry S2conf j k) ((closedEffect ν G (fun i => inGroup groupOf j i || inGroup groupOf k i) -
          closedEffect ν G (inGroup groupOf j) - closedEffect ν G (inGroup groupOf k)) / Var[G; Measure.pi ν])} - conf| < ε :=
  C142_second normPpf f g groupOf pb conf keep hg hconf hz ν P Z hZ G hf hGm K hK hV j k hjk hk
    (second_term_free G hGm K hK hV _ _ (fun i => inGroup_disjoint groupOf j k hjk.ne i) _ (div_ne_zero hI hV.ne')) ε hε

omit hz in
/-- **C142**.  For an input or group without influence the indices and the half widths are exactly 0, up to a probability which tends
to 0. -/
theorem C142_inert (k : Nat) (hk : k < g) (hT : totalEffect ν G (inGroup groupOf k) = 0) (ε : ℝ) (hε : 0 < ε) :
    ∃ N0, ∀ N ≥ N0, ∀ R ≥ 2, R ≤ N → ∀ w : Ω → Fin R → Fin N → Fin N, FreshResample P Z N R w →
      1 - ε < P.real {ω | ∃ res,
        sobolAnalyze Real.sqrt normPpf pb
          ((crossDesign second d g groupOf ((firstRows Z N ω).map pairRow)).map f) second conf (drawLists (w ω)) keep .serial = .ok res ∧
        res.S1[k]? = some (some 0) ∧ res.S1conf[k]? = some (some 0) ∧ res.ST[k]? = some (some 0) ∧ res.STconf[k]? = some (some 0)} := by
  have hP : IsProbabilityMeasure P := hZ.indep.isProbabilityMeasure
  obtain ⟨N0, hmain⟩ := outputs_vary G hGm K hK hV hZ ε hε
  refine ⟨N0, fun N hN R hR hRN w hw => ?_⟩
  obtain ⟨bad, hbad, h⟩ := hmain N hN R hR hRN w hw
  set s := inGroup (d := d) groupOf k with hs
  have hnull : P.real {ω | ¬ ∀ i, |G (mix s (Z i ω).1 (Z i ω).2) - G (Z i ω).1| ≤ 0} = 0 := by
    refine rows_bounded hZ.meas hZ.law hZ.indep (fun p => G (mix s p.1 p.2) - G p.1)
      ((hGm.comp (measurable_mix s)).sub (hGm.comp measurable_fst)) 0 ?_
    exact ((totalEffect_zero_iff G hGm K hK s).mp hT).mono fun p hp => by rw [hp]; simp
  set S := {ω | ∃ res,
        sobolAnalyze Real.sqrt normPpf pb
          ((crossDesign second d g groupOf ((firstRows Z N ω).map pairRow)).map f) second conf (drawLists (w ω)) keep .serial = .ok res ∧
        res.S1[k]? = some (some 0) ∧ res.S1conf[k]? = some (some 0) ∧ res.ST[k]? = some (some 0) ∧ res.STconf[k]? = some (some 0)} with hS
  have hcover : Set.univ ⊆ S ∪ (bad ∪ {ω | ¬ ∀ i, |G (mix s (Z i ω).1 (Z i ω).2) - G (Z i ω).1| ≤ 0}) := by
    intro ω _
    by_contra hω
    simp only [Set.mem_union, not_or] at hω
    obtain ⟨nS, nb, nn⟩ := hω
    have hz : ∀ i, G (mix s (Z i ω).1 (Z i ω).2) = G (Z i ω).1 := by
      intro i
      have := not_not.mp nn i
      rw [abs_nonpos_iff] at this
      linarith
    obtain ⟨hv, hvr⟩ := h ω nb
    obtain ⟨res, hrun, hres, -⟩ := sobol_intervals normPpf f second g groupOf (fun i : Fin N => Z i ω) (w ω) pb conf keep hg hconf
      hR G hf hv hvr
    obtain ⟨q1, q2, q3, q4⟩ := hres k hk
    have z1 : ∀ (c : ℝ) (x : Fin N → Fin N), firstAt G c s (List.ofFn fun i => Z (x i) ω) = 0 := by
      intro c x
      unfold firstAt
      rw [rowMean_ofFn, rowMean_ofFn]
      simp [hz]
    have z2 : ∀ x : Fin N → Fin N, totalNum G s (List.ofFn fun i => Z (x i) ω) = 0 := by
      intro x
      unfold totalNum
      rw [rowMean_ofFn]
      simp [hz]
    have zd : (drawVar fun _ : Fin R => (0 : ℝ)) = 0 := by
      unfold drawVar
      simp
    have z1' := fun c => z1 c id
    have z2' := z2 id
    simp only [id] at z1' z2'
    simp only [← hs, z1', z2', z1, z2, zero_div, zd, Real.sqrt_zero, mul_zero] at q1 q2 q3 q4
    rw [← firstRows_eq_ofFn] at hrun
    exact nS ⟨res, hrun, q1, q2, q3, q4⟩
  have h1 := (measureReal_mono hcover (measure_ne_top P _)).trans ((measureReal_union_le S _).trans (add_le_add_right (measureReal_union_le bad _) _))
  rw [probReal_univ, hnull] at h1
  linarith

end claims

/-- The hypotheses can be met: of two uniform inputs the second does nothing, the output is 1 when the first is below one half. -/
example (normPpf : ℝ → ℝ) (hz : stdNormalCDF (normPpf (1 / 2 + 19 / 20 / 2)) = 1 / 2 + 19 / 20 / 2) :
    ∃ (Ω : Type) (_ : MeasurableSpace Ω) (P : Measure Ω) (Z : ℕ → Ω → (Fin 2 → ℝ) × (Fin 2 → ℝ))
      (w : ∀ N R : Nat, Ω → Fin R → Fin N → Fin N), ∀ ε > 0, ∃ N0 R0, ∀ N ≥ N0, ∀ R ≥ R0, R ≤ N →
      |P.real {ω | ∃ res,
        sobolAnalyze Real.sqrt normPpf { names := ["x", "y"], bounds := [[0, 1], [0, 1]] }
          ((crossDesign true 2 2 id ((firstRows Z N ω).map pairRow)).map fun l => lowerHalf (l.getD 0 0)) true (19 / 20)
          (drawLists (w N R ω)) false .serial = .ok res ∧
        Covers res.ST[0]? res.STconf[0]? 1} - 19 / 20| < ε ∧
      1 - ε < P.real {ω | ∃ res,
        sobolAnalyze Real.sqrt normPpf { names := ["x", "y"], bounds := [[0, 1], [0, 1]] }
          ((crossDesign true 2 2 id ((firstRows Z N ω).map pairRow)).map fun l => lowerHalf (l.getD 0 0)) true (19 / 20)
          (drawLists (w N R ω)) false .serial = .ok res ∧
        res.S1[1]? = some (some 0) ∧ res.S1conf[1]? = some (some 0) ∧ res.ST[1]? = some (some 0) ∧ res.STconf[1]? = some (some 0)} := by
  have hp := isProb_unifOn (zero_lt_one (α := ℝ))
  obtain ⟨Ω, m, P, Z, w, hZ, hw⟩ := fresh_exist fun _ : Fin 2 => unifOn 0 1
  refine ⟨Ω, m, P, Z, w, fun ε hε => ?_⟩
  set law := Measure.pi fun _ : Fin 2 => unifOn 0 1 with hlaw
  let G : (Fin 2 → ℝ) → ℝ := fun x => lowerHalf (x 0)
  have hm : Measurable G := measurable_lowerHalf.comp (measurable_pi_apply 0)
  have hf : ∀ x : Fin 2 → ℝ, (fun l : List ℝ => lowerHalf (l.getD 0 0)) (List.ofFn x) = G x := fun x => by simp [G]
  have hK : ∀ᵐ x ∂law, |G x| ≤ 1 := Filter.Eventually.of_forall fun x => by
    show |lowerHalf (x 0)| ≤ 1
    unfold lowerHalf
    split <;> simp
  have hmean : ∫ x, G x ∂law = 1 / 2 := by
    have h1 := integral_comp_eval (μ := fun _ : Fin 2 => unifOn 0 1) (i := (0 : Fin 2)) (f := lowerHalf)
      measurable_lowerHalf.aestronglyMeasurable
    rw [integral_lowerHalf] at h1
    exact h1
  have hvar : Var[G; law] = 1 / 4 := by
    have e : G ^ 2 = G := by
      funext x
      show lowerHalf (x 0) ^ 2 = lowerHalf (x 0)
      unfold lowerHalf
      split <;> norm_num
    rw [variance_eq_sub (memLp_of_ae_le G 1 hm hK), e, hmean]
    norm_num
  have hV : 0 < Var[G; law] := by rw [hvar]; norm_num
  have hin : totalEffect (fun _ => unifOn 0 1) G (inGroup id 1) = 0 := by
    refine (totalEffect_zero_iff G hm 1 hK _).mpr (Filter.Eventually.of_forall fun p => ?_)
    show lowerHalf _ = lowerHalf _
    simp [mix, inGroup]
  have htot : totalEffect (fun _ => unifOn 0 1) G (inGroup id 0) = Var[G; law] := by
    have h1 := totalEffect_eq_sub (fun _ => unifOn 0 1) G (memLp_of_ae_le G 1 hm hK) (inGroup id 0)
    have h2 := totalEffect_eq_sub (fun _ => unifOn 0 1) G (memLp_of_ae_le G 1 hm hK) fun _ => true
    have h3 : ∫ p, (G p.1 - G (mix (inGroup id 0) p.1 p.2)) ^ 2 ∂(law.prod law) =
        ∫ p, (G p.1 - G (mix (fun _ => true) p.1 p.2)) ^ 2 ∂(law.prod law) := by
      congr 1
    have h4 := mean_total (fun _ => unifOn 0 1) G (memLp_of_ae_le G 1 hm hK) (inGroup id 0)
    have h5 := mean_total (fun _ => unifOn 0 1) G (memLp_of_ae_le G 1 hm hK) fun _ => true
    rw [h3] at h4
    rw [← h4, h5, h2]
    have h6 : closedEffect (fun _ => unifOn 0 1) G (fun _ : Fin 2 => !true) = 0 := by
      have := closedEffect_none (fun _ => unifOn 0 1) G (memLp_of_ae_le G 1 hm hK)
      simpa using this
    rw [h6, sub_zero]
  obtain ⟨N1, R1, h1⟩ := C142_influential normPpf (fun l => lowerHalf (l.getD 0 0)) true 2 id
    { names := ["x", "y"], bounds := [[0, 1], [0, 1]] } (19 / 20) false rfl (by norm_num) hz (fun _ => unifOn 0 1) P Z hZ G hf hm 1
    hK hV 0 (by norm_num) (by rw [htot]; exact hV) ε hε
  obtain ⟨N2, h2⟩ := C142_inert normPpf (fun l => lowerHalf (l.getD 0 0)) true 2 id
    { names := ["x", "y"], bounds := [[0, 1], [0, 1]] } (19 / 20) false rfl (by norm_num) (fun _ => unifOn 0 1) P Z hZ G hf hm 1
    hK hV 1 (by norm_num) hin ε hε
  rw [htot, div_self hV.ne'] at h1
  exact ⟨max N1 N2, max R1 2, fun N hN R hR hRN => ⟨(h1 N (le_of_max_le_left hN) R (le_of_max_le_left hR) hRN _ (hw N R)).2,
    h2 N (le_of_max_le_right hN) R (le_of_max_le_right hR) hRN _ (hw N R)⟩⟩

/-- The hypotheses can be met: two uniform inputs which interact. -/
example (normPpf : ℝ → ℝ) (hz : stdNormalCDF (normPpf (1 / 2 + 19 / 20 / 2)) = 1 / 2 + 19 / 20 / 2) :
    ∃ (Ω : Type) (_ : MeasurableSpace Ω) (P : Measure Ω) (Z : ℕ → Ω → (Fin 2 → ℝ) × (Fin 2 → ℝ))
      (w : ∀ N R : Nat, Ω → Fin R → Fin N → Fin N), ∀ ε > 0, ∃ N0 R0, ∀ N ≥ N0, ∀ R ≥ R0, R ≤ N →
      |P.real {ω | ∃ res S2 S2conf,
        sobolAnalyze Real.sqrt normPpf { names := ["x", "y"], bounds := [[0, 1], [0, 1]] }
          ((crossDesign true 2 2 id ((firstRows Z N ω).map pairRow)).map fun l => bothLow fun i => l.getD i 0) true (19 / 20)
          (drawLists (w N R ω)) false .serial = .ok res ∧ res.S2 = some S2 ∧ res.S2conf = some S2conf ∧
        Covers (entry S2 0 1) (entry S2conf 0 1) (1 / 3)} - 19 / 20| < ε := by
  have hp := isProb_unifOn (zero_lt_one (α := ℝ))
  obtain ⟨Ω, m, P, Z, w, hZ, hw⟩ := fresh_exist fun _ : Fin 2 => unifOn 0 1
  refine ⟨Ω, m, P, Z, w, fun ε hε => ?_⟩
  have hvar : Var[bothLow; Measure.pi fun _ => unifOn 0 1] = 3 / 16 := by
    rw [← closedEffect_all _ _ memLp_bothLow, closedEffect_bothLow]
    norm_num
  have hm : Measurable bothLow := by
    have : bothLow = fun x => lowerHalf (x 0) * lowerHalf (x 1) := funext bothLow_eq
    rw [this]
    exact (measurable_lowerHalf.comp (measurable_pi_apply 0)).mul (measurable_lowerHalf.comp (measurable_pi_apply 1))
  have hf : ∀ x : Fin 2 → ℝ, (fun l : List ℝ => bothLow fun i => l.getD i 0) (List.ofFn x) = bothLow x := by
    intro x
    have : (fun i : Fin 2 => (List.ofFn x).getD i 0) = x := by
      funext i
      fin_cases i <;> simp
    show bothLow (fun i : Fin 2 => (List.ofFn x).getD i 0) = _
    rw [this]
  have hK : ∀ᵐ x ∂(Measure.pi fun _ : Fin 2 => unifOn 0 1), |bothLow x| ≤ 1 := by
    refine Filter.Eventually.of_forall fun x => ?_
    rw [bothLow_eq, abs_mul]
    have h1 : ∀ t, |lowerHalf t| ≤ 1 := fun t => by
      unfold lowerHalf
      split <;> simp
    exact mul_le_one₀ (h1 _) (abs_nonneg _) (h1 _)
  have hV : 0 < Var[bothLow; Measure.pi fun _ => unifOn 0 1] := by rw [hvar]; norm_num
  have t3 : closedEffect (fun _ => unifOn 0 1) bothLow (fun i => inGroup id 0 i || inGroup id 1 i) -
      closedEffect (fun _ => unifOn 0 1) bothLow (inGroup id 0) - closedEffect (fun _ => unifOn 0 1) bothLow (inGroup id 1) = 1 / 16 := by
    rw [closedEffect_bothLow, closedEffect_bothLow, closedEffect_bothLow]
    simp [inGroup]
    norm_num
  obtain ⟨N0, R0, h⟩ := C142_interacting normPpf (fun l => bothLow fun i => l.getD i 0) 2 id
    { names := ["x", "y"], bounds := [[0, 1], [0, 1]] } (19 / 20) false rfl (by norm_num) hz (fun _ => unifOn 0 1) P Z hZ bothLow hf hm 1
    hK hV 0 1 (by norm_num) (by norm_num) (by rw [t3]; norm_num) ε hε
  rw [t3, hvar, show (1 / 16 / (3 / 16) : ℝ) = 1 / 3 by norm_num] at h
  exact ⟨N0, R0, fun N hN R hR hRN => h N hN R hR hRN _ (hw N R)⟩

end SALib
