import Verif.Props.SobolFixed
import Verif.Props.MorrisFixed
import Verif.Props.DgsmFixed
import Verif.Lemmas.StudentMono

/-!
# C144, C145, C146: the confidence intervals with the default settings, and with the fewest resamples
-/

namespace SALib

open MeasureTheory ProbabilityTheory Spec

theorem student_default (z : ℝ) (hz : stdNormalCDF z = 1 / 2 + 19 / 20 / 2) :
    (∀ R ≥ 100, 92 / 100 < studentWithin R z ∧ studentWithin R z < 95 / 100) ∧ studentWithin 2 z < 72 / 100 := by
  obtain ⟨hz0, hlev⟩ := normalWithin_level z (19 / 20) (by norm_num) hz
  have h1 := studentWithin_ge (R := 100) (by norm_num) z hz0.le
  rw [hlev] at h1
  have hz2 : z ≤ 21 / 10 := by
    by_contra hc
    have := normalWithin_mono (not_le.mp hc).le
    linarith [normalWithin_two_one]
  refine ⟨fun R hR => ⟨lt_of_lt_of_le ?_ (studentWithin_mono (by norm_num) hR z hz0.le), ?_⟩, studentWithin_two_lt z hz0.le hlev.le⟩
  · push_cast at h1
    nlinarith
  · have h2 := studentWithin_lt (R := R) (by omega) z hz0
    rw [hlev] at h2
    norm_num at h2 ⊢
    exact h2

section more

variable (normPpf : ℝ → ℝ) (conf : ℝ) (hconf : 0 < conf ∧ conf < 1)
  (hz : stdNormalCDF (normPpf (1 / 2 + conf / 2)) = 1 / 2 + conf / 2)
include hconf hz

/-- **C144**.  The more resamples, the larger the probability to which the coverage tends; it is never below `2 / π · arctan z`. -/
theorem C144_more (R R' : Nat) (hR : 2 ≤ R) (h : R ≤ R') :
    2 / Real.pi * Real.arctan (normPpf (1 / 2 + conf / 2)) ≤ studentWithin R (normPpf (1 / 2 + conf / 2)) ∧
      studentWithin R (normPpf (1 / 2 + conf / 2)) ≤ studentWithin R' (normPpf (1 / 2 + conf / 2)) := by
  have hz0 := (normalWithin_level _ conf hconf.1 hz).1
  rw [← studentWithin_two _ hz0.le]
  exact ⟨studentWithin_mono le_rfl hR _ hz0.le, studentWithin_mono hR h _ hz0.le⟩

end more

/-- The hypotheses can be met: level 95 per cent, 10 and 100 resamples. -/
example (normPpf : ℝ → ℝ) (hz : stdNormalCDF (normPpf (1 / 2 + 19 / 20 / 2)) = 1 / 2 + 19 / 20 / 2) :
    studentWithin 10 (normPpf (1 / 2 + 19 / 20 / 2)) ≤ studentWithin 100 (normPpf (1 / 2 + 19 / 20 / 2)) :=
  (C144_more normPpf (19 / 20) (by norm_num) hz 10 100 (by norm_num) (by norm_num)).2

section sobol

variable {d : Nat} (normPpf : ℝ → ℝ) (f : List ℝ → ℝ) (second : Bool) (g : Nat) (groupOf : Nat → Nat)
  (pb : Problem ℝ) (keep : Bool) (hg : (extractGroupNames pb).2 = g)
  (ν : Fin d → Measure ℝ) [∀ i, IsProbabilityMeasure (ν i)] {Ω : Type} [MeasurableSpace Ω] (P : Measure Ω)
  (Z : ℕ → Ω → (Fin d → ℝ) × (Fin d → ℝ)) (hZ : BaseRows ν P Z)
  (G : (Fin d → ℝ) → ℝ) (hf : ∀ x, f (List.ofFn x) = G x)
  (hGm : Measurable G) (K : ℝ) (hK : ∀ᵐ x ∂Measure.pi ν, |G x| ≤ K) (hV : 0 < Var[G; Measure.pi ν])
include hg hZ hf hGm hK hV

/-- **C144**.  With two resamples, the fewest for which there are intervals, `S1 ± S1_conf` and `ST ± ST_conf` contain their indices with
probability `2 / π · arctan z` in the limit. -/
theorem C144_two (conf : ℝ) (hconf : 0 < conf ∧ conf < 1) (hz : stdNormalCDF (normPpf (1 / 2 + conf / 2)) = 1 / 2 + conf / 2)
    (k : Nat) (hk : k < g) (hT : 0 < totalEffect ν G (inGroup groupOf k)) (ε : ℝ) (hε : 0 < ε) :
    ∃ N0, ∀ N ≥ N0, ∀ w : Ω → Fin 2 → Fin N → Fin N, FreshResample P Z N 2 w →
      |P.real {ω | ∃ res,
        sobolAnalyze Real.sqrt normPpf pb
          ((crossDesign second d g groupOf ((firstRows Z N ω).map pairRow)).map f) second conf (drawLists (w ω)) keep .serial = .ok res ∧
        Covers res.S1[k]? res.S1conf[k]? (closedEffect ν G (inGroup groupOf k) / Var[G; Measure.pi ν])} -
          2 / Real.pi * Real.arctan (normPpf (1 / 2 + conf / 2))| < ε ∧
      |P.real {ω | ∃ res,
        sobolAnalyze Real.sqrt normPpf pb
          ((crossDesign second d g groupOf ((firstRows Z N ω).map pairRow)).map f) second conf (drawLists (w ω)) keep .serial = .ok res ∧
        Covers res.ST[k]? res.STconf[k]? (totalEffect ν G (inGroup groupOf k) / Var[G; Measure.pi ν])} -
          2 / Real.pi * Real.arctan (normPpf (1 / 2 + conf / 2))| < ε := by
  have hz0 := (normalWithin_level _ conf hconf.1 hz).1
  have h := C144_influential normPpf f second g groupOf pb conf keep hg hconf hz ν P Z hZ G hf hGm K hK hV k hk hT 2 le_rfl ε hε
  rwa [studentWithin_two _ hz0.le] at h

variable (hz : stdNormalCDF (normPpf (1 / 2 + 19 / 20 / 2)) = 1 / 2 + 19 / 20 / 2)
include hz

/-- **C144**.  At the default level of 95 per cent these are less than 72 per cent. -/
theorem C144_fewest (k : Nat) (hk : k < g) (hT : 0 < totalEffect ν G (inGroup groupOf k)) :
    ∃ N0, ∀ N ≥ N0, ∀ w : Ω → Fin 2 → Fin N → Fin N, FreshResample P Z N 2 w →
      P.real {ω | ∃ res,
        sobolAnalyze Real.sqrt normPpf pb ((crossDesign second d g groupOf ((firstRows Z N ω).map pairRow)).map f) second (19 / 20)
          (drawLists (w ω)) keep .serial = .ok res ∧
        Covers res.S1[k]? res.S1conf[k]? (closedEffect ν G (inGroup groupOf k) / Var[G; Measure.pi ν])} < 72 / 100 ∧
      P.real {ω | ∃ res,
        sobolAnalyze Real.sqrt normPpf pb ((crossDesign second d g groupOf ((firstRows Z N ω).map pairRow)).map f) second (19 / 20)
          (drawLists (w ω)) keep .serial = .ok res ∧
        Covers res.ST[k]? res.STconf[k]? (totalEffect ν G (inGroup groupOf k) / Var[G; Measure.pi ν])} < 72 / 100 := by
  obtain ⟨-, h2⟩ := student_default _ hz
  obtain ⟨N0, h⟩ := C144_influential normPpf f second g groupOf pb (19 / 20) keep hg (by norm_num) hz ν P Z hZ G hf hGm K hK hV k hk hT
    2 le_rfl _ (sub_pos.mpr h2)
  refine ⟨N0, fun N hN w hw => ?_⟩
  obtain ⟨a, b⟩ := h N hN w hw
  rw [abs_lt] at a b
  constructor <;> linarith

/-- **C144**.  With the defaults, 100 resamples and 95 per cent, or with more resamples, the intervals contain their indices with a probability between 92 and 95 per
cent for every large enough number of rows. -/
theorem C144_default (k : Nat) (hk : k < g) (hT : 0 < totalEffect ν G (inGroup groupOf k)) (R : Nat) (hR : 100 ≤ R) :
    ∃ N0, ∀ N ≥ N0, ∀ w : Ω → Fin R → Fin N → Fin N, FreshResample P Z N R w →
      P.real {ω | ∃ res,
        sobolAnalyze Real.sqrt normPpf pb ((crossDesign second d g groupOf ((firstRows Z N ω).map pairRow)).map f) second (19 / 20)
          (drawLists (w ω)) keep .serial = .ok res ∧
        Covers res.S1[k]? res.S1conf[k]? (closedEffect ν G (inGroup groupOf k) / Var[G; Measure.pi ν])} ∈ Set.Ioo (92 / 100) (95 / 100) ∧
      P.real {ω | ∃ res,
        sobolAnalyze Real.sqrt normPpf pb ((crossDesign second d g groupOf ((firstRows Z N ω).map pairRow)).map f) second (19 / 20)
          (drawLists (w ω)) keep .serial = .ok res ∧
        Covers res.ST[k]? res.STconf[k]? (totalEffect ν G (inGroup groupOf k) / Var[G; Measure.pi ν])} ∈
          Set.Ioo (92 / 100) (95 / 100) := by
  obtain ⟨h1, h2⟩ := (student_default _ hz).1 R hR
  obtain ⟨N0, h⟩ := C144_influential normPpf f second g groupOf pb (19 / 20) keep hg (by norm_num) hz ν P Z hZ G hf hGm K hK hV k hk hT
    R (by omega) _ (lt_min (sub_pos.mpr h1) (sub_pos.mpr h2))
  refine ⟨N0, fun N hN w hw => ?_⟩
  obtain ⟨a, b⟩ := h N hN w hw
  rw [lt_min_iff, abs_lt, abs_lt] at a b
  refine ⟨⟨?_, ?_⟩, ?_, ?_⟩ <;> linarith [a.1.1, a.2.2, b.1.1, b.2.2]

omit second in
/-- **C144**.  The same for the second-order index of a pair whose index is not 0. -/
theorem C144_default_second (j k : Nat) (hjk : j < k) (hk : k < g)
    (hI : closedEffect ν G (fun i => inGroup groupOf j i || inGroup groupOf k i) -
      closedEffect ν G (inGroup groupOf j) - closedEffect ν G (inGroup groupOf k) ≠ 0) (R : Nat) (hR : 100 ≤ R) :
    ∃ N0, ∀ N ≥ N0, ∀ w : Ω → Fin R → Fin N → Fin N, FreshResample P Z N R w →
      P.real {ω | ∃ res S2 S2conf,
        sobolAnalyze Real.sqrt normPpf pb
          ((crossDesign true d g groupOf ((firstRows Z N ω).map pairRow)).map f) true (19 / 20) (drawLists (w ω)) keep .serial = .ok res ∧
        res.S2 = some S2 ∧ res.S2conf = some S2conf ∧
        Covers (entry S2 j k) (entry S2conf j k) ((closedEffect ν G (fun i => inGroup groupOf j i || inGroup groupOf k i) -
          closedEffect ν G (inGroup groupOf j) - closedEffect ν G (inGroup groupOf k)) / Var[G; Measure.pi ν])} ∈
          Set.Ioo (92 / 100) (95 / 100) := by
  obtain ⟨h1, h2⟩ := (student_default _ hz).1 R hR
  obtain ⟨N0, h⟩ := C144_interacting normPpf f g groupOf pb (19 / 20) keep hg (by norm_num) hz ν P Z hZ G hf hGm K hK hV j k hjk hk hI
    R (by omega) _ (lt_min (sub_pos.mpr h1) (sub_pos.mpr h2))
  refine ⟨N0, fun N hN w hw => ?_⟩
  have a := h N hN w hw
  rw [lt_min_iff, abs_lt, abs_lt] at a
  constructor <;> linarith [a.1.1, a.2.2]

end sobol

/-- The hypotheses can be met: the product of two inputs of which each is 0 or 1 according to the half it lies in. -/
example (normPpf : ℝ → ℝ) (hz : stdNormalCDF (normPpf (1 / 2 + 19 / 20 / 2)) = 1 / 2 + 19 / 20 / 2) :
    ∃ (Ω : Type) (_ : MeasurableSpace Ω) (P : Measure Ω) (Z : ℕ → Ω → (Fin 2 → ℝ) × (Fin 2 → ℝ))
      (w : ∀ N R : Nat, Ω → Fin R → Fin N → Fin N), (∃ N0, ∀ N ≥ N0,
      P.real {ω | ∃ res,
        sobolAnalyze Real.sqrt normPpf { names := ["x", "y"], bounds := [[0, 1], [0, 1]] }
          ((crossDesign true 2 2 id ((firstRows Z N ω).map pairRow)).map fun l => bothLow fun i => l.getD i 0) true (19 / 20)
          (drawLists (w N 100 ω)) false .serial = .ok res ∧
        Covers res.ST[0]? res.STconf[0]? (totalEffect (fun _ => unifOn 0 1) bothLow (inGroup id 0) / (3 / 16))} ∈
          Set.Ioo (92 / 100) (95 / 100)) ∧
      (∃ N0, ∀ N ≥ N0,
      P.real {ω | ∃ res,
        sobolAnalyze Real.sqrt normPpf { names := ["x", "y"], bounds := [[0, 1], [0, 1]] }
          ((crossDesign true 2 2 id ((firstRows Z N ω).map pairRow)).map fun l => bothLow fun i => l.getD i 0) true (19 / 20)
          (drawLists (w N 2 ω)) false .serial = .ok res ∧
        Covers res.ST[0]? res.STconf[0]? (totalEffect (fun _ => unifOn 0 1) bothLow (inGroup id 0) / (3 / 16))} < 72 / 100) ∧
      ∃ N0, ∀ N ≥ N0,
      P.real {ω | ∃ res S2 S2conf,
        sobolAnalyze Real.sqrt normPpf { names := ["x", "y"], bounds := [[0, 1], [0, 1]] }
          ((crossDesign true 2 2 id ((firstRows Z N ω).map pairRow)).map fun l => bothLow fun i => l.getD i 0) true (19 / 20)
          (drawLists (w N 100 ω)) false .serial = .ok res ∧ res.S2 = some S2 ∧ res.S2conf = some S2conf ∧
        Covers (entry S2 0 1) (entry S2conf 0 1) (1 / 3)} ∈ Set.Ioo (92 / 100) (95 / 100) := by
  have hp := isProb_unifOn (zero_lt_one (α := ℝ))
  obtain ⟨Ω, m, P, Z, w, hZ, hw⟩ := fresh_exist fun _ : Fin 2 => unifOn 0 1
  have hvar : Var[bothLow; Measure.pi fun _ => unifOn 0 1] = 3 / 16 := by
    rw [← closedEffect_all _ _ memLp_bothLow, closedEffect_bothLow]
    norm_num
  have hm : Measurable bothLow := by
    have : bothLow = fun x => lowerHalf (x 0) * lowerHalf (x 1) := funext bothLow_eq
    rw [this]
    exact (measurable_lowerHalf.comp (measurable_pi_apply 0)).mul (measurable_lowerHalf.comp (measurable_pi_apply 1))
  have hf : ∀ x : Fin 2 → ℝ, (fun l : List ℝ => bothLow fun i => l.getD i 0) (List.ofFn x) = bothLow x := by
    intro x
    have : (fun i : Fin 2 => (List.ofFn x).getD i 0) = x := by
      funext i
      fin_cases i <;> simp
    show bothLow (fun i : Fin 2 => (List.ofFn x).getD i 0) = _
    rw [this]
  have hK : ∀ᵐ x ∂(Measure.pi fun _ : Fin 2 => unifOn 0 1), |bothLow x| ≤ 1 := by
    refine Filter.Eventually.of_forall fun x => ?_
    rw [bothLow_eq, abs_mul]
    have h1 : ∀ t, |lowerHalf t| ≤ 1 := fun t => by
      unfold lowerHalf
      split <;> simp
    exact mul_le_one₀ (h1 _) (abs_nonneg _) (h1 _)
  have hV : 0 < Var[bothLow; Measure.pi fun _ => unifOn 0 1] := by rw [hvar]; norm_num
  have t3 : closedEffect (fun _ => unifOn 0 1) bothLow (fun i => inGroup id 0 i || inGroup id 1 i) -
      closedEffect (fun _ => unifOn 0 1) bothLow (inGroup id 0) - closedEffect (fun _ => unifOn 0 1) bothLow (inGroup id 1) = 1 / 16 := by
    rw [closedEffect_bothLow, closedEffect_bothLow, closedEffect_bothLow]
    simp [inGroup]
    norm_num
  have hT : 0 < totalEffect (fun _ => unifOn 0 1) bothLow (inGroup id 0) := by
    rw [totalEffect_eq_sub _ _ memLp_bothLow, hvar, closedEffect_bothLow]
    simp [inGroup]
    norm_num
  refine ⟨Ω, m, P, Z, w, ?_, ?_, ?_⟩
  · obtain ⟨N0, h⟩ := C144_default normPpf (fun l => bothLow fun i => l.getD i 0) true 2 id
      { names := ["x", "y"], bounds := [[0, 1], [0, 1]] } false rfl (fun _ => unifOn 0 1) P Z hZ bothLow hf hm 1 hK hV hz 0 (by norm_num) hT 100 le_rfl
    rw [hvar] at h
    exact ⟨N0, fun N hN => (h N hN _ (hw N 100)).2⟩
  · obtain ⟨N0, h⟩ := C144_fewest normPpf (fun l => bothLow fun i => l.getD i 0) true 2 id
      { names := ["x", "y"], bounds := [[0, 1], [0, 1]] } false rfl (fun _ => unifOn 0 1) P Z hZ bothLow hf hm 1 hK hV hz 0 (by norm_num) hT
    rw [hvar] at h
    exact ⟨N0, fun N hN => (h N hN _ (hw N 2)).2⟩
  · obtain ⟨N0, h⟩ := C144_default_second normPpf (fun l => bothLow fun i => l.getD i 0) 2 id
      { names := ["x", "y"], bounds := [[0, 1], [0, 1]] } false rfl (fun _ => unifOn 0 1) P Z hZ bothLow hf hm 1 hK hV hz 0 1 (by norm_num) (by norm_num)
      (by rw [t3]; norm_num) 100 le_rfl
    rw [t3, hvar, show (1 / 16 / (3 / 16) : ℝ) = 1 / 3 by norm_num] at h
    exact ⟨N0, fun N hN => h N hN _ (hw N 100)⟩

section morris

variable {D g q : Nat} {Ω : Type} [MeasurableSpace Ω] (P : Measure Ω) (Z : ℕ → Ω → MorrisDraw D g q)
  (hZ : FairDraws P Z) (F : Ppf ℝ) (argsort : List ℝ → List Nat) (f : List ℝ → ℝ) (hq : 0 < q) (groupOf : Nat → Nat)
  (pb pbA : Problem ℝ) (lo hi : Fin D → ℝ) (hS : MorrisSetting D g pb pbA groupOf lo hi)
  (z : ℝ) (localOpt : Bool)
  (j : Fin D) (hj : ∀ i : Fin D, groupOf i = groupOf j → i = j) (x y : Fin D → Fin (2 * q)) (hx : x ∈ starts j) (hy : y ∈ starts j)
  (hxy : |gridEffect f lo hi groupOf j x| ≠ |gridEffect f lo hi groupOf j y|)
include hZ hq hS hj hx hy hxy

/-- **C145**.  With the defaults, 100 resamples and 95 per cent, or with more resamples, the interval contains the mean absolute effect with a probability between 92
and 95 per cent for every large enough number of trajectories. -/
theorem C145_default (hz : stdNormalCDF z = 1 / 2 + 19 / 20 / 2) (R : Nat) (hR : 100 ≤ R) :
    ∃ N0, ∀ N ≥ N0, ∀ w : Ω → Fin D → Fin R → Fin N → Fin N, (∀ i, FairResample P Z N R fun ω => w ω i) →
      P.real {ω | ∃ X pb' res,
        morrisSample F Real.sqrt argsort (fun i => (Z i ω).toTraj) pb N (2 * q) .none localOpt = .ok (X.map (·.map some), pb') ∧
        morrisAnalyze Real.sqrt z (19 / 20) (resampleOf (w ω)) pbA X D (X.map f) false (2 * q) = .ok res ∧
        IntervalContains res (groupOf j) (gridMean j fun x => |gridEffect (q := q) f lo hi groupOf j x|)} ∈
          Set.Ioo (92 / 100) (95 / 100) := by
  obtain ⟨h1, h2⟩ := (student_default _ hz).1 R hR
  obtain ⟨N0, h⟩ := C145_fixed P Z hZ F argsort f hq groupOf pb pbA lo hi hS z (19 / 20) (by norm_num) localOpt j hj x y hx hy hxy
    R (by omega) _ (lt_min (sub_pos.mpr h1) (sub_pos.mpr h2))
  refine ⟨N0, fun N hN w hw => ?_⟩
  have a := h N hN w hw
  rw [lt_min_iff, abs_lt, abs_lt] at a
  constructor <;> linarith [a.1.1, a.2.2]

end morris

/-- The hypotheses can be met: three inputs in two groups on four levels, the second input alone in its group, the product of the first two
inputs as model, level 95% and 100 resamples as by default. -/
example (F : Ppf ℝ) (argsort : List ℝ → List Nat) (z : ℝ) (hz : stdNormalCDF z = 1 / 2 + 19 / 20 / 2) :
    ∃ (Ω : Type) (_ : MeasurableSpace Ω) (P : Measure Ω) (Z : ℕ → Ω → MorrisDraw 3 2 2)
      (w : ∀ N R : Nat, Ω → Fin 3 → Fin R → Fin N → Fin N), ∃ N0, ∀ N ≥ N0,
      P.real {ω | ∃ X pb' res,
        morrisSample F Real.sqrt argsort (fun i => (Z i ω).toTraj) accProblem N 4 .none true = .ok (X.map (·.map some), pb') ∧
        morrisAnalyze Real.sqrt z (19 / 20) (resampleOf (w N 100 ω)) accProblem X 3 (X.map fun r => r.getD 0 0 * r.getD 1 0) false 4 =
          .ok res ∧
        IntervalContains res 1 (gridMean 1 fun x =>
          |gridEffect (q := 2) (fun r => r.getD 0 0 * r.getD 1 0) ![0, 1, -1] ![2, 4, 1] (fun j => j % 2) 1 x|)} ∈
            Set.Ioo (92 / 100) (95 / 100) := by
  obtain ⟨Ω, m, P, Z, w, hZ, hw⟩ := resamples_exist 3 2 2 (by norm_num)
  refine ⟨Ω, m, P, Z, w, ?_⟩
  obtain ⟨N0, h⟩ := C145_default P Z hZ F argsort (fun r => r.getD 0 0 * r.getD 1 0) (by norm_num) _ accProblem accProblem _ _
    accSetting z true 1 (by decide) ![0, 0, 0] ![1, 0, 0] (by simp [starts]) (by simp [starts])
    (by
      simp [gridEffect, gridRow, groupStep, opposite]
      norm_num) hz 100 le_rfl
  exact ⟨N0, fun N hN => h N hN _ (hw N 100)⟩

section groups

variable {D g q : Nat} {Ω : Type} [MeasurableSpace Ω] (P : Measure Ω) (Z : ℕ → Ω → MorrisDraw D g q)
  (hZ : FairDraws P Z) (F : Ppf ℝ) (argsort : List ℝ → List Nat) (f : List ℝ → ℝ) (hq : 0 < q) (groupOf : Nat → Nat)
  (pb pbA : Problem ℝ) (lo hi : Fin D → ℝ) (hS : MorrisSetting D g pb pbA groupOf lo hi)
  (z : ℝ) (localOpt : Bool)
  (j : Fin D) (x y : Fin D → Fin (2 * q)) (hx : x ∈ starts j) (hy : y ∈ starts j)
  (hxy : |gridEffect f lo hi groupOf j x| ≠ |gridEffect f lo hi groupOf j y|)
  (m : Nat) (hm : (Finset.univ.filter fun i : Fin D => groupOf i = groupOf j).card = m)
include hZ hq hS hx hy hxy hm

/-- **C145**, groups.  The same for every group of inputs. -/
theorem C145_group_default (hz : stdNormalCDF z = 1 / 2 + 19 / 20 / 2) (R : Nat) (hR : 100 ≤ R) :
    ∃ N0, ∀ N ≥ N0, ∀ w : Ω → Fin D → Fin R → Fin N → Fin N, FairResamples P Z D N R w →
      P.real {ω | ∃ X pb' res,
        morrisSample F Real.sqrt argsort (fun i => (Z i ω).toTraj) pb N (2 * q) .none localOpt = .ok (X.map (·.map some), pb') ∧
        morrisAnalyze Real.sqrt z (19 / 20) (resampleOf (w ω)) pbA X D (X.map f) false (2 * q) = .ok res ∧
        IntervalContains res (groupOf j)
          (memberMean groupOf (groupOf j) fun i => gridMean i fun x => |gridEffect (q := q) f lo hi groupOf i x|)} ∈
            Set.Ioo (92 / 100) (95 / 100) := by
  obtain ⟨hz0, hlev⟩ := normalWithin_level z (19 / 20) (by norm_num) hz
  have hz2 : z ≤ 21 / 10 := by
    by_contra hc
    have := normalWithin_mono (not_le.mp hc).le
    linarith [normalWithin_two_one]
  obtain ⟨δ, hδ, N1, h1⟩ := C145_group_short P Z hZ F argsort f hq groupOf pb pbA lo hi hS z (19 / 20) (by norm_num) localOpt j x y hx hy hxy
    m hm hz R (by omega)
  obtain ⟨N2, h2⟩ := C145_group_enough P Z hZ F argsort f hq groupOf pb pbA lo hi hS z (19 / 20) (by norm_num) localOpt j x y hx hy hxy
    m hm hz R (by omega) (1 / 1000) (by norm_num)
  refine ⟨max N1 N2, fun N hN w hw => ?_⟩
  have a := h1 N (le_of_max_le_left hN) w hw
  have b := h2 N (le_of_max_le_right hN) w hw
  have hr : (100 : ℝ) ≤ R := by exact_mod_cast hR
  have hfrac : (1 + z ^ 2) / (2 * (R - 1)) ≤ (1 + z ^ 2) / 198 := div_le_div_of_nonneg_left (by positivity) (by norm_num) (by linarith)
  constructor
  · nlinarith
  · linarith

/-- **C145**, groups.  The interval of a group does not contain the mean absolute effect less often than that of an input on its own would, in
the limit. -/
theorem C145_group_better (conf : ℝ) (hc : 0 < conf ∧ conf < 1) (hz : stdNormalCDF z = 1 / 2 + conf / 2) (R : Nat) (hR : 2 ≤ R) (ε : ℝ)
    (hε : 0 < ε) :
    ∃ N0, ∀ N ≥ N0, ∀ w : Ω → Fin D → Fin R → Fin N → Fin N, FairResamples P Z D N R w →
      studentWithin R z - ε < P.real {ω | ∃ X pb' res,
        morrisSample F Real.sqrt argsort (fun i => (Z i ω).toTraj) pb N (2 * q) .none localOpt = .ok (X.map (·.map some), pb') ∧
        morrisAnalyze Real.sqrt z conf (resampleOf (w ω)) pbA X D (X.map f) false (2 * q) = .ok res ∧
        IntervalContains res (groupOf j)
          (memberMean groupOf (groupOf j) fun i => gridMean i fun x => |gridEffect (q := q) f lo hi groupOf i x|)} := by
  have hz0 := (normalWithin_level z conf hc.1 hz).1
  have hm0 : 0 < m := by
    rw [← hm]
    exact Finset.card_pos.mpr ⟨j, by simp⟩
  have hle := studentWithin_le_group (R := R) hm0 z hz0.le
  obtain ⟨N0, h⟩ := C145_group P Z hZ F argsort f hq groupOf pb pbA lo hi hS z conf hc localOpt j x y hx hy hxy m hm R hR ε hε
  refine ⟨N0, fun N hN w hw => ?_⟩
  have := (abs_lt.mp (h N hN w hw)).1
  linarith

end groups

/-- The group of the first and the third input. -/
example (F : Ppf ℝ) (argsort : List ℝ → List Nat) (z : ℝ) (hz : stdNormalCDF z = 1 / 2 + 19 / 20 / 2) :
    ∃ (Ω : Type) (_ : MeasurableSpace Ω) (P : Measure Ω) (Z : ℕ → Ω → MorrisDraw 3 2 2)
      (w : ∀ N R : Nat, Ω → Fin 3 → Fin R → Fin N → Fin N), ∃ N0, ∀ N ≥ N0,
      P.real {ω | ∃ X pb' res,
        morrisSample F Real.sqrt argsort (fun i => (Z i ω).toTraj) accProblem N 4 .none true = .ok (X.map (·.map some), pb') ∧
        morrisAnalyze Real.sqrt z (19 / 20) (resampleOf (w N 100 ω)) accProblem X 3 (X.map fun r => r.getD 0 0 * r.getD 1 0) false 4 =
          .ok res ∧
        IntervalContains res 0 (memberMean (fun j => j % 2) 0 fun i : Fin 3 => gridMean i fun x =>
          |gridEffect (q := 2) (fun r => r.getD 0 0 * r.getD 1 0) ![0, 1, -1] ![2, 4, 1] (fun j => j % 2) i x|)} ∈
            Set.Ioo (92 / 100) (95 / 100) := by
  obtain ⟨Ω, m, P, Z, w, hZ, hw⟩ := joint_resamples_exist 3 2 2 (by norm_num)
  refine ⟨Ω, m, P, Z, w, ?_⟩
  obtain ⟨N0, h⟩ := C145_group_default P Z hZ F argsort (fun r => r.getD 0 0 * r.getD 1 0) (by norm_num) _ accProblem accProblem _ _
    accSetting z true 0 ![0, 0, 0] ![0, 1, 0] (by simp [starts]) (by simp [starts])
    (by
      simp [gridEffect, gridRow, groupStep, opposite]
      norm_num) 2 (by decide) hz 100 le_rfl
  exact ⟨N0, fun N hN => h N hN _ (hw N 100)⟩

/-- The same group with ten resamples. -/
example (F : Ppf ℝ) (argsort : List ℝ → List Nat) (z : ℝ) (hz : stdNormalCDF z = 1 / 2 + 19 / 20 / 2) :
    ∃ (Ω : Type) (_ : MeasurableSpace Ω) (P : Measure Ω) (Z : ℕ → Ω → MorrisDraw 3 2 2)
      (w : ∀ N R : Nat, Ω → Fin 3 → Fin R → Fin N → Fin N), ∀ ε > 0, ∃ N0, ∀ N ≥ N0,
      studentWithin 10 z - ε < P.real {ω | ∃ X pb' res,
        morrisSample F Real.sqrt argsort (fun i => (Z i ω).toTraj) accProblem N 4 .none true = .ok (X.map (·.map some), pb') ∧
        morrisAnalyze Real.sqrt z (19 / 20) (resampleOf (w N 10 ω)) accProblem X 3 (X.map fun r => r.getD 0 0 * r.getD 1 0) false 4 =
          .ok res ∧
        IntervalContains res 0 (memberMean (fun j => j % 2) 0 fun i : Fin 3 => gridMean i fun x =>
          |gridEffect (q := 2) (fun r => r.getD 0 0 * r.getD 1 0) ![0, 1, -1] ![2, 4, 1] (fun j => j % 2) i x|)} := by
  obtain ⟨Ω, m, P, Z, w, hZ, hw⟩ := joint_resamples_exist 3 2 2 (by norm_num)
  refine ⟨Ω, m, P, Z, w, fun ε hε => ?_⟩
  obtain ⟨N0, h⟩ := C145_group_better P Z hZ F argsort (fun r => r.getD 0 0 * r.getD 1 0) (by norm_num) _ accProblem accProblem _ _
    accSetting z true 0 ![0, 0, 0] ![0, 1, 0] (by simp [starts]) (by simp [starts])
    (by
      simp [gridEffect, gridRow, groupStep, opposite]
      norm_num) 2 (by decide) (19 / 20) (by norm_num) hz 10 (by norm_num) ε hε
  exact ⟨N0, fun N hN => h N hN _ (hw N 10)⟩

section dgsm

variable {d : Nat} (lo hi : Fin d → ℝ) (h : ∀ i, lo i < hi i) (delta : ℝ) (hdelta : delta ≠ 0) (f : List ℝ → ℝ) (G : (Fin d → ℝ) → ℝ)
  (hf : ∀ x, f (List.ofFn x) = G x) (hGm : Measurable G) (j : Fin d)
  {Ω : Type} [MeasurableSpace Ω] (P : Measure Ω) (Z : ℕ → Ω → Fin d → ℝ) (hZ : UniformPoints lo hi P Z)
  (Q : ℝ) (hQ : ∀ᵐ x ∂Measure.pi fun i => unifOn (lo i) (hi i), |stepQuot lo hi delta j G x| ≤ Q)
  (pb : Problem ℝ) (hn : pb.numVars = d) (hb : pb.bounds = boundsTable (List.ofFn fun i => (lo i, hi i))) (hd : pb.dists = none)
  (z : ℝ) (hz : stdNormalCDF z = 1 / 2 + 19 / 20 / 2) (hq : 0 < quotVar lo hi delta j G)
include h hf hdelta hGm hZ hQ hn hb hd hz hq

/-- **C146**.  With the defaults, 100 resamples and 95 per cent, or with more resamples, `vi ± dgsm_conf` contains the mean squared quotient with a probability between
92 and 95 per cent for every large enough number of points. -/
theorem C146_default (R : Nat) (hR : 100 ≤ R) :
    ∃ N0, ∀ N ≥ N0, ∀ w : Ω → Fin d → Fin R → Fin N → Fin N, FreshResample P Z N R (fun ω => w ω j) →
      ∀ (F : Ppf ℝ) (junk : Num ℝ) (skip : Nat) (gen : Ω → Nat → Nat → Py (Mat ℝ)) (pre : Ω → Mat ℝ),
      (∀ ω, gen ω (N + skip) d = .ok (pre ω ++ (firstRows Z N ω).map (unitPoint lo hi)) ∧ (pre ω).length = skip ∧ HasCols d (pre ω)) →
      P.real {ω | RunCovers lo hi delta f j z (19 / 20) N skip F junk pb (gen ω) (resampleOf (w ω)) (·.vi)
        (∫ x, stepQuot lo hi delta j G x ^ 2 ∂Measure.pi fun i => unifOn (lo i) (hi i))} ∈ Set.Ioo (92 / 100) (95 / 100) := by
  obtain ⟨h1, h2⟩ := (student_default _ hz).1 R hR
  obtain ⟨N0, hcov⟩ := C146_vi lo hi h delta hdelta f G hf hGm j P Z hZ Q hQ pb hn hb hd z (19 / 20) (by norm_num) hz hq
    R (by omega) _ (lt_min (sub_pos.mpr h1) (sub_pos.mpr h2))
  refine ⟨N0, fun N hN w hw F junk skip gen pre hgen => ?_⟩
  have a := hcov N hN w hw F junk skip gen pre hgen
  rw [lt_min_iff, abs_lt, abs_lt] at a
  constructor <;> linarith [a.1.1, a.2.2]

end dgsm

/-- The hypotheses can be met: the square of one input between 1 and 2, step 1/100, level 95% and 100 resamples as by default. -/
example (z : ℝ) (hz : stdNormalCDF z = 1 / 2 + 19 / 20 / 2) (F : Ppf ℝ) (junk : Num ℝ) (pb : Problem ℝ) (hn : pb.numVars = 1)
    (hb : pb.bounds = boundsTable [(1, 2)]) (hd : pb.dists = none) :
    ∃ (Ω : Type) (_ : MeasurableSpace Ω) (P : Measure Ω) (gen : Nat → Ω → Nat → Nat → Py (Mat ℝ))
      (w : ∀ N R : Nat, Ω → Fin 1 → Fin R → Fin N → Fin N), ∃ N0, ∀ N ≥ N0,
      P.real {ω | RunCovers (fun _ : Fin 1 => 1) (fun _ => 2) (1 / 100) (fun r => r.getD 0 0 ^ 2) 0 z (19 / 20) N 0 F junk pb (gen N ω)
        (resampleOf (w N 100 ω)) (·.vi)
        (∫ x, stepQuot (fun _ => 1) (fun _ => 2) (1 / 100) 0 squareOf x ^ 2 ∂Measure.pi fun _ => unifOn 1 2)} ∈
          Set.Ioo (92 / 100) (95 / 100) := by
  have hlt : ∀ _ : Fin 1, (1 : ℝ) < 2 := fun _ => by norm_num
  have hpr := fun i => isProb_unifOn (hlt i)
  obtain ⟨Ω, mΩ, P, Z, w, h1, h2, h3, h4⟩ := rows_fresh_exist (Measure.pi fun _ : Fin 1 => unifOn 1 2) 1
  have hZ : UniformPoints (fun _ => 1) (fun _ => 2) P Z := ⟨h1, h2, h3⟩
  obtain ⟨v1, v2, v3⟩ := squareOf_vars
  have hf : ∀ x : Fin 1 → ℝ, (fun r : List ℝ => r.getD 0 0 ^ 2) (List.ofFn x) = squareOf x := fun x => by simp [squareOf]
  have hb' : pb.bounds = boundsTable (List.ofFn fun _ : Fin 1 => ((1 : ℝ), (2 : ℝ))) := by simpa using hb
  refine ⟨Ω, mΩ, P, fun N ω _ _ => .ok ((firstRows Z N ω).map (unitPoint (fun _ => 1) fun _ => 2)), w, ?_⟩
  obtain ⟨N1, k1⟩ := C146_default (fun _ => 1) (fun _ => 2) hlt (1 / 100) (by norm_num) (fun r => r.getD 0 0 ^ 2) squareOf hf
    measurable_squareOf 0 P Z hZ 4 squareOf_bounds.2 pb hn hb' hd z hz v2 100 le_rfl
  exact ⟨N1, fun N hN => k1 N hN (w N 100) (h4 N 100 0) F junk 0 _ (fun _ => []) fun ω => ⟨rfl, rfl, by simp [HasCols]⟩⟩

end SALib
