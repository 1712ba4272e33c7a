import Verif.Lemmas.Hoeffding
import Verif.Props.MorrisMean
import Verif.Spec.QuasiMean

/-!
# C136: how far Morris statistics can be off
-/

namespace SALib

open MeasureTheory ProbabilityTheory Spec

variable {D g q : Nat}

theorem memberMean_near (groupOf : Nat → Nat) (c : Nat) (u v : Fin D → ℝ) (ε : ℝ) (hε : 0 ≤ ε) (h : ∀ j, |u j - v j| ≤ ε) :
    |memberMean groupOf c u - memberMean groupOf c v| ≤ ε := by
  unfold memberMean
  rw [← sub_div, ← Finset.sum_sub_distrib]
  generalize Finset.univ.filter (fun j : Fin D => groupOf j = c) = s
  rcases Nat.eq_zero_or_pos s.card with h0 | h0
  · rw [h0]; simpa using hε
  · have hp : (0 : ℝ) < s.card := by exact_mod_cast h0
    rw [abs_div, abs_of_pos hp, div_le_iff₀ hp]
    refine (Finset.abs_sum_le_sum_abs _ _).trans ((Finset.sum_le_card_nsmul s _ ε fun j _ => h j).trans ?_)
    rw [nsmul_eq_mul, mul_comm]

/-- **C136**, Morris.  Sample `N` trajectories with fair independent draws, run a model whose elementary effects on the level grid
are at most `K`, analyse: everything succeeds, and each `mu` and `mu_star` is within `ε` of the mean effect and the mean absolute
effect over the grid, except with a probability of at most `4 D exp(-N ε² / (2 K²))`. -/
theorem C136_morris {Ω : Type} [MeasurableSpace Ω] (P : Measure Ω) (Z : ℕ → Ω → MorrisDraw D g q)
    (hZ : FairDraws P Z) (F : Ppf ℝ) (argsort : List ℝ → List Nat) (f : List ℝ → ℝ) (hq : 0 < q) (groupOf : Nat → Nat)
    (pb pbA : Problem ℝ) (lo hi : Fin D → ℝ) (hS : MorrisSetting D g pb pbA groupOf lo hi)
    (z conf : ℝ) (hc : 0 < conf ∧ conf < 1) (localOpt : Bool) (K : ℝ) (hK0 : 0 < K)
    (hK : ∀ (j : Fin D) (x : Fin D → Fin (2 * q)), |gridEffect f lo hi groupOf j x| ≤ K) (N : Nat) (hN : 0 < N) (ε : ℝ)
    (hε : 0 ≤ ε) :
    P.real {ω | ¬∀ resample : Nat → List (List Nat), ∃ X pb' res,
      morrisSample F Real.sqrt argsort (fun i => (Z i ω).toTraj) pb N (2 * q) .none localOpt = .ok (X.map (·.map some), pb') ∧
      morrisAnalyze Real.sqrt z conf resample pbA X D (X.map f) false (2 * q) = .ok res ∧
      ∀ c < g,
        ReportedNear res.mu[c]? (memberMean groupOf c fun j => gridMean j (gridEffect (q := q) f lo hi groupOf j)) ε ∧
        ReportedNear res.muStar[c]?
          (memberMean groupOf c fun j => gridMean j fun x => |gridEffect (q := q) f lo hi groupOf j x|) ε} ≤
      4 * D * Real.exp (-(N * ε ^ 2 / (2 * K ^ 2))) := by
  have hP : IsProbabilityMeasure P := hZ.indep.isProbabilityMeasure
  have : IsProbabilityMeasure (Measure.map (Z 0) P) := Measure.isProbabilityMeasure_map (hZ.meas 0).aemeasurable
  let h : Fin D × Bool → (Fin D → Fin (2 * q)) → ℝ := fun a x =>
    if a.2 then gridEffect f lo hi groupOf a.1 x else |gridEffect f lo hi groupOf a.1 x|
  have key := rowMeans_hoeffding hZ.meas hZ.law hZ.indep (fun (a : Fin D × Bool) d => h a (lowPoint groupOf a.1 d))
    (fun _ => measurable_of_finite _) (fun _ => K) (fun _ => hK0)
    (fun a => Filter.Eventually.of_forall fun d => by
      simp only [h]
      split
      · exact hK _ _
      · rw [abs_abs]; exact hK _ _) N hN (ε / K) (by positivity)
  have e : Fintype.card (Fin D × Bool) * (2 * Real.exp (-(N * (ε / K) ^ 2 / 2))) =
      4 * D * Real.exp (-(N * ε ^ 2 / (2 * K ^ 2))) := by
    rw [Fintype.card_prod, Fintype.card_fin, Fintype.card_bool]
    have : (N : ℝ) * (ε / K) ^ 2 / 2 = N * ε ^ 2 / (2 * K ^ 2) := by field_simp
    rw [this]
    push_cast
    ring
  rw [e] at key
  refine le_trans (measureReal_mono ?_) key
  intro ω hω
  by_contra hno
  refine hω fun resample => ?_
  have near : ∀ a : Fin D × Bool, |rowMean (firstRows Z N ω) (fun d => h a (lowPoint groupOf a.1 d)) - gridMean a.1 (h a)| ≤ ε := by
    intro a
    by_contra ha
    refine hno ⟨a, ?_⟩
    rw [hZ.integral, mean_lowPoint groupOf a.1 (h a), div_mul_cancel₀ _ hK0.ne']
    exact (not_le.mp ha).le
  obtain ⟨X, pb', res, h1, h2, h3⟩ := morris_formula F Real.sqrt argsort f hq groupOf pb pbA lo hi hS.inputs hS.numVars
    hS.labels hS.groups hS.bounds hS.uniform hS.legal hS.sameLabels hS.sameVars z conf hc resample N hN (fun i => Z i ω) localOpt
  refine ⟨X, pb', res, h1, h2, fun c hcg => ⟨⟨_, (h3 c hcg).1, ?_⟩, ⟨_, (h3 c hcg).2.1, ?_⟩⟩⟩
  · refine memberMean_near groupOf c _ _ ε hε fun j => ?_
    have := near (j, true)
    simp only [h, if_true] at this
    exact this
  · refine memberMean_near groupOf c _ _ ε hε fun j => ?_
    have := near (j, false)
    simp only [h, Bool.false_eq_true, if_false] at this
    exact this

/-- Effects are bounded when outputs are: by four times the bound of the outputs. -/
theorem gridEffect_le (f : List ℝ → ℝ) (lo hi : Fin D → ℝ) (groupOf : Nat → Nat) (hq : 0 < q) (B : ℝ)
    (hB : ∀ x : Fin D → Fin (2 * q), |f (gridRow lo hi x)| ≤ B) (j : Fin D) (x : Fin D → Fin (2 * q)) :
    |gridEffect f lo hi groupOf j x| ≤ 4 * B := by
  unfold gridEffect
  have hq1 : (1 : ℝ) ≤ q := by exact_mod_cast hq
  have hB0 : 0 ≤ B := (abs_nonneg _).trans (hB x)
  have hden : (0 : ℝ) < q / (2 * q - 1) := by
    apply div_pos <;> linarith
  have hhalf : (1 : ℝ) / 2 ≤ q / (2 * q - 1) := by
    rw [div_le_div_iff₀ (by norm_num) (by linarith)]
    linarith
  rw [abs_div, abs_of_pos hden, div_le_iff₀ hden]
  have := abs_sub (f (gridRow lo hi (groupStep groupOf (groupOf j) x))) (f (gridRow lo hi x))
  have h1 := hB (groupStep groupOf (groupOf j) x)
  have h2 := hB x
  nlinarith

/-- Three inputs with different bounds, the first and the third in one group. -/
def accProblem : Problem ℝ :=
  { names := ["x", "y", "w"], bounds := [[0, 2], [1, 4], [-1, 1]], groups := some ["a", "b", "a"] }

theorem accSetting : MorrisSetting 3 2 accProblem accProblem (fun j => j % 2) ![0, 1, -1] ![2, 4, 1] where
  inputs := by omega
  numVars := rfl
  labels := rfl
  groups := by
    refine ⟨["a", "b"], ⟨by decide, by intro l; simp [effectiveLabels, accProblem]; tauto,
      by simp [effectiveLabels, accProblem]⟩, rfl, ?_⟩
    intro j l h
    match j, h with
    | 0, h => simpa [effectiveLabels, accProblem] using h
    | 1, h => simpa [effectiveLabels, accProblem] using h
    | 2, h => simpa [effectiveLabels, accProblem] using h
    | j + 3, h => simp [effectiveLabels, accProblem] at h
  bounds := by simp [boundsTable, accProblem]
  uniform := rfl
  legal := by intro j; fin_cases j <;> simp <;> norm_num
  sameLabels := rfl
  sameVars := rfl

/-- The bound says something: three inputs in two groups, outputs between -1 and 1, four levels, 10000 trajectories.  Each `mu` and `mu_star` is
within 0.2 except with probability 0.05. -/
example : ∃ P : Measure (ℕ → MorrisDraw 3 2 2), FairDraws P (fun i ω => ω i) ∧ ∀ (F : Ppf ℝ) (argsort : List ℝ → List Nat)
    (f : List ℝ → ℝ) (_ : ∀ x, |f x| ≤ 1),
    P.real {ω | ¬∀ resample : Nat → List (List Nat), ∃ X pb' res,
      morrisSample F Real.sqrt argsort (fun i => (ω i).toTraj) accProblem 10000 4 .none false = .ok (X.map (·.map some), pb') ∧
      morrisAnalyze Real.sqrt 2 (19 / 20) resample accProblem X 3 (X.map f) false 4 = .ok res ∧
      ∀ c < 2,
        ReportedNear res.mu[c]? (memberMean (fun j => j % 2) c fun j => gridMean j (gridEffect (q := 2) f ![0, 1, -1] ![2, 4, 1] (fun j => j % 2) j))
          (1 / 5) ∧
        ReportedNear res.muStar[c]?
          (memberMean (fun j => j % 2) c fun j => gridMean j fun x => |gridEffect (q := 2) f ![0, 1, -1] ![2, 4, 1] (fun j => j % 2) j x|) (1 / 5)} ≤
      1 / 20 := by
  obtain ⟨P, hP, hZ⟩ := fairDraws_exist 3 2 2 (by norm_num)
  refine ⟨P, hZ, fun F argsort f hf => ?_⟩
  refine (C136_morris P _ hZ F argsort f (by norm_num) _ accProblem accProblem _ _ accSetting 2 (19 / 20) (by norm_num) false 4 (by norm_num)
    (fun j x => by simpa using gridEffect_le f _ _ _ (by norm_num) 1 (fun x => hf _) j x) 10000 (by norm_num) (1 / 5)
    (by norm_num)).trans ?_
  have h2 : (2 : ℝ) ≤ Real.exp 1 := by linarith [Real.add_one_le_exp (1 : ℝ)]
  have h3 : Real.exp (-(((10000 : ℕ) : ℝ) * (1 / 5) ^ 2 / (2 * 4 ^ 2))) ≤ 1 / 2 ^ 12 := by
    have e : -(((10000 : ℕ) : ℝ) * (1 / 5) ^ 2 / (2 * 4 ^ 2)) = -(25 / 2) := by norm_num
    rw [e, Real.exp_neg, one_div]
    refine inv_anti₀ (by norm_num) ?_
    calc (2 : ℝ) ^ 12 ≤ Real.exp 1 ^ 12 := pow_le_pow_left₀ (by norm_num) h2 12
      _ = Real.exp 12 := by rw [← Real.exp_nat_mul]; norm_num
      _ ≤ _ := Real.exp_le_exp.mpr (by norm_num)
  calc _ ≤ 4 * ((3 : ℕ) : ℝ) * (1 / 2 ^ 12) := mul_le_mul_of_nonneg_left h3 (by norm_num)
    _ ≤ _ := by norm_num

end SALib
