import Verif.Props.SobolInfluence
import Verif.Props.DgsmCoverage
import Verif.Lemmas.StudentRate

/-!
# C144: the Sobol confidence intervals with a fixed number of resamples
-/

namespace SALib

open MeasureTheory ProbabilityTheory Spec

variable {d : Nat}

section claims

variable (normPpf : ℝ → ℝ) (f : List ℝ → ℝ) (second : Bool) (g : Nat) (groupOf : Nat → Nat)
  (pb : Problem ℝ) (conf : ℝ) (keep : Bool) (hg : (extractGroupNames pb).2 = g) (hconf : 0 < conf ∧ conf < 1)
  (hz : stdNormalCDF (normPpf (1 / 2 + conf / 2)) = 1 / 2 + conf / 2)
  (ν : Fin d → Measure ℝ) [∀ i, IsProbabilityMeasure (ν i)] {Ω : Type} [MeasurableSpace Ω] (P : Measure Ω)
  (Z : ℕ → Ω → (Fin d → ℝ) × (Fin d → ℝ)) (hZ : BaseRows ν P Z)
  (G : (Fin d → ℝ) → ℝ) (hf : ∀ x, f (List.ofFn x) = G x)
  (hGm : Measurable G) (K : ℝ) (hK : ∀ᵐ x ∂Measure.pi ν, |G x| ≤ K) (hV : 0 < Var[G; Measure.pi ν])

include hconf hz in
/-- **C144**.  The probability below is less than the confidence level, however many resamples there are. -/
theorem C144_below (R : Nat) (hR : 2 ≤ R) : studentWithin R (normPpf (1 / 2 + conf / 2)) < conf := by
  obtain ⟨hz0, hlev⟩ := normalWithin_level _ conf hconf.1 hz
  exact (studentWithin_lt hR _ hz0).trans_eq hlev

include hconf hz in
/-- **C144**.  It is below the confidence level by at most `(1 + z²) / (2 (R - 1))`. -/
theorem C144_rate (R : Nat) (hR : 2 ≤ R) :
    conf - (1 + normPpf (1 / 2 + conf / 2) ^ 2) / (2 * (R - 1)) ≤ studentWithin R (normPpf (1 / 2 + conf / 2)) := by
  obtain ⟨hz0, hlev⟩ := normalWithin_level _ conf hconf.1 hz
  have := studentWithin_ge hR _ hz0.le
  rwa [hlev] at this

include hconf hz in
/-- **C144**.  So it tends to the confidence level as the number of resamples grows. -/
theorem C144_many (ε : ℝ) (hε : 0 < ε) :
    ∃ R0, ∀ R ≥ R0, |studentWithin R (normPpf (1 / 2 + conf / 2)) - conf| < ε := by
  set z := normPpf (1 / 2 + conf / 2) with hzd
  obtain ⟨n, hn⟩ := exists_nat_gt ((1 + z ^ 2) / (2 * ε))
  refine ⟨n + 2, fun R hR => ?_⟩
  have hR1 : (n : ℝ) + 2 ≤ R := by exact_mod_cast hR
  have hn0 : (0 : ℝ) ≤ n := Nat.cast_nonneg n
  have h1 := C144_below normPpf conf hconf hz R (by omega)
  have h2 := C144_rate normPpf conf hconf hz R (by omega)
  rw [← hzd] at h1 h2
  have h3 : (1 + z ^ 2) / (2 * ((R : ℝ) - 1)) < ε := by
    rw [div_lt_iff₀ (by linarith)]
    rw [div_lt_iff₀ (by linarith)] at hn
    nlinarith
  rw [abs_lt]
  constructor <;> linarith

include hg hconf hz hZ hf hGm hK hV

/-- **C144**.  For every input or group with influence and any fixed number of resamples, each of the intervals `S1 ± S1_conf` and
`ST ± ST_conf` contains its index with a probability which tends to the Student probability. -/
theorem C144_influential (k : Nat) (hk : k < g) (hT : 0 < totalEffect ν G (inGroup groupOf k)) (R : Nat) (hR : 2 ≤ R) (ε : ℝ)
    (hε : 0 < ε) :
    ∃ N0, ∀ N ≥ N0, ∀ w : Ω → Fin R → Fin N → Fin N, FreshResample P Z N R w →
      |P.real {ω | ∃ res,
        sobolAnalyze Real.sqrt normPpf pb
          ((crossDesign second d g groupOf ((firstRows Z N ω).map pairRow)).map f) second conf (drawLists (w ω)) keep .serial = .ok res ∧
        Covers res.S1[k]? res.S1conf[k]? (closedEffect ν G (inGroup groupOf k) / Var[G; Measure.pi ν])} -
          studentWithin R (normPpf (1 / 2 + conf / 2))| < ε ∧
      |P.real {ω | ∃ res,
        sobolAnalyze Real.sqrt normPpf pb
          ((crossDesign second d g groupOf ((firstRows Z N ω).map pairRow)).map f) second conf (drawLists (w ω)) keep .serial = .ok res ∧
        Covers res.ST[k]? res.STconf[k]? (totalEffect ν G (inGroup groupOf k) / Var[G; Measure.pi ν])} -
          studentWithin R (normPpf (1 / 2 + conf / 2))| < ε := by
  obtain ⟨N1, h1⟩ := (first_limits normPpf f second g groupOf pb conf keep hg hconf hz ν P Z hZ G hf hGm K hK hV k hk
    (first_term_free G hGm K hK hV _ hT) ε hε).fixed R hR
  obtain ⟨N2, h2⟩ := (total_limits normPpf f second g groupOf pb conf keep hg hconf hz ν P Z hZ G hf hGm K hK hV k hk
    (total_term_free G hGm K hK hV _ hT) ε hε).fixed R hR
  exact ⟨max N1 N2, fun N hN w hw => ⟨h1 N (le_of_max_le_left hN) w hw _ rfl, h2 N (le_of_max_le_right hN) w hw _ rfl⟩⟩

omit second in
/-- **C144**.  The same for the interval `S2 ± S2_conf` of every pair whose second-order index is not 0. -/
theorem C144_interacting (j k : Nat) (hjk : j < k) (hk : k < g)
    (hI : closedEffect ν G (fun i => inGroup groupOf j i || inGroup groupOf k i) -
      closedEffect ν G (inGroup groupOf j) - closedEffect ν G (inGroup groupOf k) ≠ 0) (R : Nat) (hR : 2 ≤ R) (ε : ℝ) (hε : 0 < ε) :
    ∃ N0, ∀ N ≥ N0, ∀ w : Ω → Fin R → Fin N → Fin N, FreshResample P Z N R w →
      |P.real {ω | ∃ res S2 S2conf,
        sobolAnalyze Real.sqrt normPpf pb
          ((crossDesign true d g groupOf ((firstRows Z N ω).map pairRow)).map f) true conf (drawLists (w ω)) keep .serial = .ok res ∧
        res.S2 = some S2 ∧ res.S2conf = some S2conf ∧
        Covers (entry S2 j k) (entry S2conf j k) ((closedEffect ν G (fun i => inGroup groupOf j i || inGroup groupOf k i) -
          closedEffect ν G (inGroup groupOf j) - closedEffect ν G (inGroup groupOf k)) / Var[G; Measure.pi ν])} -
          studentWithin R (normPpf (1 / 2 + conf / 2))| < ε := by
  obtain ⟨N0, h⟩ := (second_limits normPpf f g groupOf pb conf keep hg hconf hz ν P Z hZ G hf hGm K hK hV j k hjk hk
    (second_term_free G hGm K hK hV _ _ (fun i => inGroup_disjoint groupOf j k hjk.ne i) _ (div_ne_zero hI hV.ne')) ε hε).fixed R hR
  exact ⟨N0, fun N hN w hw => h N hN w hw _ rfl⟩

/-- **C144**.  With a fixed number of resamples the intervals `S1 ± S1_conf` and `ST ± ST_conf` contain the index less often than the
confidence level says, by an amount which does not vanish as the number of rows grows. -/
theorem C144_short (k : Nat) (hk : k < g) (hT : 0 < totalEffect ν G (inGroup groupOf k)) (R : Nat) (hR : 2 ≤ R) :
    ∃ δ > 0, ∃ N0, ∀ N ≥ N0, ∀ w : Ω → Fin R → Fin N → Fin N, FreshResample P Z N R w →
      P.real {ω | ∃ res,
        sobolAnalyze Real.sqrt normPpf pb
          ((crossDesign second d g groupOf ((firstRows Z N ω).map pairRow)).map f) second conf (drawLists (w ω)) keep .serial = .ok res ∧
        Covers res.S1[k]? res.S1conf[k]? (closedEffect ν G (inGroup groupOf k) / Var[G; Measure.pi ν])} ≤ conf - δ ∧
      P.real {ω | ∃ res,
        sobolAnalyze Real.sqrt normPpf pb
          ((crossDesign second d g groupOf ((firstRows Z N ω).map pairRow)).map f) second conf (drawLists (w ω)) keep .serial = .ok res ∧
        Covers res.ST[k]? res.STconf[k]? (totalEffect ν G (inGroup groupOf k) / Var[G; Measure.pi ν])} ≤ conf - δ := by
  have hlt := C144_below normPpf conf hconf hz R hR
  obtain ⟨N0, h⟩ := C144_influential normPpf f second g groupOf pb conf keep hg hconf hz ν P Z hZ G hf hGm K hK hV k hk hT R hR
    ((conf - studentWithin R (normPpf (1 / 2 + conf / 2))) / 2) (by linarith)
  refine ⟨(conf - studentWithin R (normPpf (1 / 2 + conf / 2))) / 2, by linarith, N0, fun N hN w hw => ?_⟩
  obtain ⟨h1, h2⟩ := h N hN w hw
  rw [abs_lt] at h1 h2
  constructor <;> linarith

/-- **C144**.  How many resamples are enough: with `N` large the intervals contain the index with a probability of at least
`conf - (1 + z²) / (2 (R - 1)) - ε`. -/
theorem C144_enough (k : Nat) (hk : k < g) (hT : 0 < totalEffect ν G (inGroup groupOf k)) (R : Nat) (hR : 2 ≤ R) (ε : ℝ)
    (hε : 0 < ε) :
    ∃ N0, ∀ N ≥ N0, ∀ w : Ω → Fin R → Fin N → Fin N, FreshResample P Z N R w →
      conf - (1 + normPpf (1 / 2 + conf / 2) ^ 2) / (2 * (R - 1)) - ε ≤ P.real {ω | ∃ res,
        sobolAnalyze Real.sqrt normPpf pb
          ((crossDesign second d g groupOf ((firstRows Z N ω).map pairRow)).map f) second conf (drawLists (w ω)) keep .serial = .ok res ∧
        Covers res.S1[k]? res.S1conf[k]? (closedEffect ν G (inGroup groupOf k) / Var[G; Measure.pi ν])} ∧
      conf - (1 + normPpf (1 / 2 + conf / 2) ^ 2) / (2 * (R - 1)) - ε ≤ P.real {ω | ∃ res,
        sobolAnalyze Real.sqrt normPpf pb
          ((crossDesign second d g groupOf ((firstRows Z N ω).map pairRow)).map f) second conf (drawLists (w ω)) keep .serial = .ok res ∧
        Covers res.ST[k]? res.STconf[k]? (totalEffect ν G (inGroup groupOf k) / Var[G; Measure.pi ν])} := by
  have hge := C144_rate normPpf conf hconf hz R hR
  obtain ⟨N0, h⟩ := C144_influential normPpf f second g groupOf pb conf keep hg hconf hz ν P Z hZ G hf hGm K hK hV k hk hT R hR ε hε
  refine ⟨N0, fun N hN w hw => ?_⟩
  obtain ⟨h1, h2⟩ := h N hN w hw
  rw [abs_lt] at h1 h2
  constructor <;> linarith

end claims

/-- The hypotheses can be met: two uniform inputs which interact, and 100 resamples as by default. -/
example (normPpf : ℝ → ℝ) (hz : stdNormalCDF (normPpf (1 / 2 + 19 / 20 / 2)) = 1 / 2 + 19 / 20 / 2) :
    ∃ (Ω : Type) (_ : MeasurableSpace Ω) (P : Measure Ω) (Z : ℕ → Ω → (Fin 2 → ℝ) × (Fin 2 → ℝ))
      (w : ∀ N R : Nat, Ω → Fin R → Fin N → Fin N), (∃ δ > 0, ∃ N0, ∀ N ≥ N0,
      P.real {ω | ∃ res,
        sobolAnalyze Real.sqrt normPpf { names := ["x", "y"], bounds := [[0, 1], [0, 1]] }
          ((crossDesign true 2 2 id ((firstRows Z N ω).map pairRow)).map fun l => bothLow fun i => l.getD i 0) true (19 / 20)
          (drawLists (w N 100 ω)) false .serial = .ok res ∧
        Covers res.ST[0]? res.STconf[0]? (totalEffect (fun _ => unifOn 0 1) bothLow (inGroup id 0) / (3 / 16))} ≤ 19 / 20 - δ) ∧
      (∀ ε > 0, ∃ N0, ∀ N ≥ N0,
      19 / 20 - (1 + normPpf (1 / 2 + 19 / 20 / 2) ^ 2) / 198 - ε ≤ P.real {ω | ∃ res,
        sobolAnalyze Real.sqrt normPpf { names := ["x", "y"], bounds := [[0, 1], [0, 1]] }
          ((crossDesign true 2 2 id ((firstRows Z N ω).map pairRow)).map fun l => bothLow fun i => l.getD i 0) true (19 / 20)
          (drawLists (w N 100 ω)) false .serial = .ok res ∧
        Covers res.ST[0]? res.STconf[0]? (totalEffect (fun _ => unifOn 0 1) bothLow (inGroup id 0) / (3 / 16))}) ∧
      ∀ ε > 0, ∃ N0, ∀ N ≥ N0,
      |P.real {ω | ∃ res S2 S2conf,
        sobolAnalyze Real.sqrt normPpf { names := ["x", "y"], bounds := [[0, 1], [0, 1]] }
          ((crossDesign true 2 2 id ((firstRows Z N ω).map pairRow)).map fun l => bothLow fun i => l.getD i 0) true (19 / 20)
          (drawLists (w N 100 ω)) false .serial = .ok res ∧ res.S2 = some S2 ∧ res.S2conf = some S2conf ∧
        Covers (entry S2 0 1) (entry S2conf 0 1) (1 / 3)} - studentWithin 100 (normPpf (1 / 2 + 19 / 20 / 2))| < ε := by
  have hp := isProb_unifOn (zero_lt_one (α := ℝ))
  obtain ⟨Ω, m, P, Z, w, hZ, hw⟩ := fresh_exist fun _ : Fin 2 => unifOn 0 1
  have hvar : Var[bothLow; Measure.pi fun _ => unifOn 0 1] = 3 / 16 := by
    rw [← closedEffect_all _ _ memLp_bothLow, closedEffect_bothLow]
    norm_num
  have hm : Measurable bothLow := by
    have : bothLow = fun x => lowerHalf (x 0) * lowerHalf (x 1) := funext bothLow_eq
    rw [this]
    exact (measurable_lowerHalf.comp (measurable_pi_apply 0)).mul (measurable_lowerHalf.comp (measurable_pi_apply 1))
  have hf : ∀ x : Fin 2 → ℝ, (fun l : List ℝ => bothLow fun i => l.getD i 0) (List.ofFn x) = bothLow x := by
    intro x
    have : (fun i : Fin 2 => (List.ofFn x).getD i 0) = x := by
      funext i
      fin_cases i <;> simp
    show bothLow (fun i : Fin 2 => (List.ofFn x).getD i 0) = _
    rw [this]
  have hK : ∀ᵐ x ∂(Measure.pi fun _ : Fin 2 => unifOn 0 1), |bothLow x| ≤ 1 := by
    refine Filter.Eventually.of_forall fun x => ?_
    rw [bothLow_eq, abs_mul]
    have h1 : ∀ t, |lowerHalf t| ≤ 1 := fun t => by
      unfold lowerHalf
      split <;> simp
    exact mul_le_one₀ (h1 _) (abs_nonneg _) (h1 _)
  have hV : 0 < Var[bothLow; Measure.pi fun _ => unifOn 0 1] := by rw [hvar]; norm_num
  have t3 : closedEffect (fun _ => unifOn 0 1) bothLow (fun i => inGroup id 0 i || inGroup id 1 i) -
      closedEffect (fun _ => unifOn 0 1) bothLow (inGroup id 0) - closedEffect (fun _ => unifOn 0 1) bothLow (inGroup id 1) = 1 / 16 := by
    rw [closedEffect_bothLow, closedEffect_bothLow, closedEffect_bothLow]
    simp [inGroup]
    norm_num
  have hT : 0 < totalEffect (fun _ => unifOn 0 1) bothLow (inGroup id 0) := by
    rw [totalEffect_eq_sub _ _ memLp_bothLow, hvar, closedEffect_bothLow]
    simp [inGroup]
    norm_num
  refine ⟨Ω, m, P, Z, w, ?_, fun ε hε => ?_, fun ε hε => ?_⟩
  · obtain ⟨δ, hδ, N0, h⟩ := C144_short normPpf (fun l => bothLow fun i => l.getD i 0) true 2 id
      { names := ["x", "y"], bounds := [[0, 1], [0, 1]] } (19 / 20) false rfl (by norm_num) hz (fun _ => unifOn 0 1) P Z hZ bothLow hf hm 1
      hK hV 0 (by norm_num) hT 100 (by norm_num)
    rw [hvar] at h
    exact ⟨δ, hδ, N0, fun N hN => (h N hN _ (hw N 100)).2⟩
  · obtain ⟨N0, h⟩ := C144_enough normPpf (fun l => bothLow fun i => l.getD i 0) true 2 id
      { names := ["x", "y"], bounds := [[0, 1], [0, 1]] } (19 / 20) false rfl (by norm_num) hz (fun _ => unifOn 0 1) P Z hZ bothLow hf hm 1
      hK hV 0 (by norm_num) hT 100 (by norm_num) ε hε
    rw [hvar] at h
    refine ⟨N0, fun N hN => ?_⟩
    have := (h N hN _ (hw N 100)).2
    norm_num at this ⊢
    exact this
  · obtain ⟨N0, h⟩ := C144_interacting normPpf (fun l => bothLow fun i => l.getD i 0) 2 id
      { names := ["x", "y"], bounds := [[0, 1], [0, 1]] } (19 / 20) false rfl (by norm_num) hz (fun _ => unifOn 0 1) P Z hZ bothLow hf hm 1
      hK hV 0 1 (by norm_num) (by norm_num) (by rw [t3]; norm_num) 100 (by norm_num) ε hε
    rw [t3, hvar, show (1 / 16 / (3 / 16) : ℝ) = 1 / 3 by norm_num] at h
    exact ⟨N0, fun N hN => h N hN _ (hw N 100)⟩

end SALib
