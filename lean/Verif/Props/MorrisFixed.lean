import Verif.Lemmas.FixedResamples
import Verif.Lemmas.StudentRate
import Verif.Props.MorrisCoverage

/-!
# C145: the Morris confidence intervals with a fixed number of resamples
-/

namespace SALib

open MeasureTheory ProbabilityTheory Spec

/-- Fair resamples of rows with finitely many values are independent of the rows. -/
theorem FairResample.fresh {A Ω : Type} [Fintype A] [MeasurableSpace A] [MeasurableSingletonClass A] [MeasurableSpace Ω]
    {P : Measure Ω} [IsProbabilityMeasure P] {Z : ℕ → Ω → A} (hm : ∀ i, Measurable (Z i)) {N R : Nat} {w : Ω → Fin R → Fin N → Fin N}
    (hw : FairResample P Z N R w) : FreshResample P Z N R w := by
  classical
  set T : ℝ := (Fintype.card (Fin R → Fin N → Fin N) : ℝ) with hT
  by_cases hT0 : Fintype.card (Fin R → Fin N → Fin N) = 0
  · have : IsEmpty (Fin R → Fin N → Fin N) := Fintype.card_eq_zero_iff.mp hT0
    exact ⟨fun S _ t => (this.false t).elim⟩
  have hTp : 0 < T := by
    rw [hT]
    exact_mod_cast Nat.pos_of_ne_zero hT0
  have hA : ∀ x : Fin N → A, MeasurableSet {ω | ∀ i : Fin N, Z i ω = x i} := fun x => by
    have : {ω | ∀ i : Fin N, Z i ω = x i} = ⋂ i : Fin N, Z i ⁻¹' {x i} := by
      ext ω
      simp
    rw [this]
    exact MeasurableSet.iInter fun i => hm i (MeasurableSet.singleton _)
  have hle : ∀ (S : Set (Fin N → A)) (t : Fin R → Fin N → Fin N),
      P.real {ω | (fun i : Fin N => Z i ω) ∈ S ∧ w ω = t} ≤ P.real {ω | (fun i : Fin N => Z i ω) ∈ S} / T := by
    intro S t
    have e1 : {ω | (fun i : Fin N => Z i ω) ∈ S} = ⋃ x ∈ Finset.univ.filter (· ∈ S), {ω | ∀ i : Fin N, Z i ω = x i} := by
      ext ω
      simp only [Set.mem_iUnion, Finset.mem_filter, Finset.mem_univ, true_and, exists_prop]
      constructor
      · intro h
        exact ⟨_, h, fun _ => rfl⟩
      · rintro ⟨x, hx, h⟩
        have : (fun i : Fin N => Z i ω) = x := funext h
        show (fun i : Fin N => Z i ω) ∈ S
        rwa [this]
    have e2 : {ω | (fun i : Fin N => Z i ω) ∈ S ∧ w ω = t} ⊆
        ⋃ x ∈ Finset.univ.filter (· ∈ S), {ω | (∀ i : Fin N, Z i ω = x i) ∧ w ω = t} := by
      rintro ω ⟨h1, h2⟩
      simp only [Set.mem_iUnion, Finset.mem_filter, Finset.mem_univ, true_and, exists_prop]
      exact ⟨_, h1, fun _ => rfl, h2⟩
    have e3 : P.real {ω | (fun i : Fin N => Z i ω) ∈ S} =
        ∑ x ∈ Finset.univ.filter (· ∈ S), P.real {ω | ∀ i : Fin N, Z i ω = x i} := by
      rw [e1]
      refine measureReal_biUnion_finset ?_ fun x _ => hA x
      intro x _ y _ hxy
      rw [Function.onFun, Set.disjoint_left]
      intro ω h1 h2
      exact hxy (funext fun i => (h1 i).symm.trans (h2 i))
    rw [e3, Finset.sum_div]
    refine (measureReal_mono e2 (measure_ne_top P _)).trans ((measureReal_biUnion_finset_le _ _).trans (le_of_eq ?_))
    exact Finset.sum_congr rfl fun x _ => hw.fair x t
  constructor
  intro S _ t
  refine le_antisymm (hle S t) ?_
  have hcov : P.real {ω | (fun i : Fin N => Z i ω) ∈ S} ≤
      ∑ t' : Fin R → Fin N → Fin N, P.real {ω | (fun i : Fin N => Z i ω) ∈ S ∧ w ω = t'} := by
    refine le_trans (measureReal_mono (fun ω hω => ?_) (measure_ne_top P _)) (measureReal_biUnion_finset_le Finset.univ _)
    exact Set.mem_biUnion (Finset.mem_univ (w ω)) ⟨hω, rfl⟩
  rw [← Finset.add_sum_erase _ _ (Finset.mem_univ t)] at hcov
  have hrest : ∑ t' ∈ Finset.univ.erase t, P.real {ω | (fun i : Fin N => Z i ω) ∈ S ∧ w ω = t'} ≤
      (T - 1) * (P.real {ω | (fun i : Fin N => Z i ω) ∈ S} / T) := by
    refine (Finset.sum_le_card_nsmul _ _ _ fun t' _ => hle S t').trans (le_of_eq ?_)
    rw [Finset.card_erase_of_mem (Finset.mem_univ t), Finset.card_univ, nsmul_eq_mul, Nat.cast_sub (Nat.pos_of_ne_zero hT0), Nat.cast_one]
  have : P.real {ω | (fun i : Fin N => Z i ω) ∈ S} = T * (P.real {ω | (fun i : Fin N => Z i ω) ∈ S} / T) := by field_simp
  linarith

variable {D g q : Nat}

/-- Intervals around a mean of fair draws with `z` times one bootstrap standard deviation as half width. -/
theorem boot_fixed {Ω : Type} [MeasurableSpace Ω] {P : Measure Ω} {Z : ℕ → Ω → MorrisDraw D g q} (hZ : FairDraws P Z)
    (u : MorrisDraw D g q → ℝ) [Nonempty (MorrisDraw D g q)] (hv : 0 < varOn u) (z : ℝ) (R : Nat) (hR : 2 ≤ R) (ε : ℝ) (hε : 0 < ε) :
    ∃ N0, ∀ N ≥ N0, ∀ w : Ω → Fin R → Fin N → Fin N, FairResample P Z N R w →
      |P.real {ω | |rowMean (firstRows Z N ω) u - (∑ d, u d) / Fintype.card (MorrisDraw D g q)| ≤
        z * √(drawVar fun r => (∑ i, u (Z (w ω r i) ω)) / N)} - studentWithin R z| < ε := by
  have hP : IsProbabilityMeasure P := hZ.indep.isProbabilityMeasure
  have hcard : (0 : ℝ) < Fintype.card (MorrisDraw D g q) := by exact_mod_cast Fintype.card_pos
  set s := √(varOn u) with hs
  have hs0 : 0 < s := Real.sqrt_pos.mpr hv
  have hs2 : s ^ 2 = varOn u := Real.sq_sqrt hv.le
  set μ := (∑ d, u d) / Fintype.card (MorrisDraw D g q) with hμ
  have c0 : ∫ d, (u d - μ) / s ∂(Measure.map (Z 0) P) = 0 := by
    rw [hZ.integral, ← Finset.sum_div, Finset.sum_sub_distrib]
    simp only [Finset.sum_const, Finset.card_univ, nsmul_eq_mul, hμ]
    field_simp
    simp
  have c1 : ∫ d, ((u d - μ) / s) ^ 2 ∂(Measure.map (Z 0) P) = 1 := by
    rw [hZ.integral]
    have : ∀ d, ((u d - μ) / s) ^ 2 = (u d - μ) ^ 2 / varOn u := fun d => by rw [div_pow, hs2]
    rw [Finset.sum_congr rfl fun d _ => this d, ← Finset.sum_div, div_right_comm]
    exact div_self hv.ne'
  obtain ⟨η, hη, N1, h⟩ := student_perturbed hZ.meas hZ.law hZ.indep (fun d => (u d - μ) / s) (fun d => (u d - μ) / s)
    (measurable_of_finite _) (measurable_of_finite _) c0 c1 c0 c1
    (∑ d, |(u d - μ) / s|)
    (Filter.Eventually.of_forall fun d => Finset.single_le_sum (f := fun d => |(u d - μ) / s|) (fun _ _ => abs_nonneg _)
      (Finset.mem_univ d)) R z ε hε
  refine ⟨max N1 1, fun N hN w hw => ?_⟩
  have hNp : 0 < N := le_of_max_le_right hN
  have hNr : (0 : ℝ) < N := by exact_mod_cast hNp
  have hrN : 0 < √(N : ℝ) := Real.sqrt_pos.mpr hNr
  have hrN2 : √(N : ℝ) * √N = N := Real.mul_self_sqrt hNr.le
  have hc : 0 < √(N : ℝ) / s := div_pos hrN hs0
  refine h N (le_of_max_le_left hN) w (FairResample.fresh hZ.meas hw)
    (fun ω => √N / s * (rowMean (firstRows Z N ω) u - μ))
    (fun ω => √N / s * (z * √(drawVar fun r => (∑ i, u (Z (w ω r i) ω)) / N))) _ ∅ (by simp; positivity) fun ω _ => ?_
  have hsum : ∑ k : Fin N, u (Z k ω) = N * rowMean (firstRows Z N ω) u := by
    rw [rowMean_firstRows, mul_div_cancel₀ _ hNr.ne', Finset.sum_range]
  have e0 : bootVec (fun d => (u d - μ) / s) (fun d => (u d - μ) / s) (fun i : Fin N => Z i ω) (w ω) 0 = √N / s * (rowMean (firstRows Z N ω) u - μ) := by
    show (√N)⁻¹ * ∑ i : Fin N, (u (Z i ω) - μ) / s = _
    rw [← Finset.sum_div, Finset.sum_sub_distrib, hsum, Finset.sum_const, Finset.card_univ, Fintype.card_fin, nsmul_eq_mul]
    field_simp
    rw [sq, hrN2]
  have er : ∀ r : Fin R, bootVec (fun d => (u d - μ) / s) (fun d => (u d - μ) / s) (fun i : Fin N => Z i ω) (w ω) r.succ =
      √N / s * ((∑ i, u (Z (w ω r i) ω)) / N - rowMean (firstRows Z N ω) u) := by
    intro r
    show (√N)⁻¹ * ∑ i : Fin N, ((u (Z (w ω r i) ω) - μ) / s - (∑ k : Fin N, (u (Z k ω) - μ) / s) / N) = _
    rw [Finset.sum_sub_distrib, Finset.sum_const, Finset.card_univ, Fintype.card_fin, nsmul_eq_mul, ← Finset.sum_div,
      ← Finset.sum_div, Finset.sum_sub_distrib, Finset.sum_sub_distrib, hsum, Finset.sum_const, Finset.card_univ, Fintype.card_fin,
      nsmul_eq_mul]
    field_simp
    rw [sq, hrN2]
    ring
  refine ⟨?_, ?_, ?_⟩
  · beta_reduce
    rw [abs_mul, abs_of_pos hc, mul_le_mul_iff_right₀ hc]
    rfl
  · rw [e0, sub_self, abs_zero]
    exact hη.le
  · simp only [er]
    rw [drawVar_affine (by omega) fun r => (∑ i, u (Z (w ω r i) ω)) / N, Real.sqrt_mul (sq_nonneg _), Real.sqrt_sq hc.le]
    rw [mul_left_comm, sub_self, abs_zero]
    exact hη.le

section claims

variable {Ω : Type} [MeasurableSpace Ω] (P : Measure Ω) (Z : ℕ → Ω → MorrisDraw D g q)
  (hZ : FairDraws P Z) (F : Ppf ℝ) (argsort : List ℝ → List Nat) (f : List ℝ → ℝ) (hq : 0 < q) (groupOf : Nat → Nat)
  (pb pbA : Problem ℝ) (lo hi : Fin D → ℝ) (hS : MorrisSetting D g pb pbA groupOf lo hi)
  (z conf : ℝ) (hc : 0 < conf ∧ conf < 1) (localOpt : Bool)
  (j : Fin D) (hj : ∀ i : Fin D, groupOf i = groupOf j → i = j) (x y : Fin D → Fin (2 * q)) (hx : x ∈ starts j) (hy : y ∈ starts j)
  (hxy : |gridEffect f lo hi groupOf j x| ≠ |gridEffect f lo hi groupOf j y|)
include hZ hq hS hc hj hx hy hxy

/-- **C145**.  Sample `N` Morris trajectories with fair independent draws, run a model, analyse with a fixed number `R` of fair resamples:
for an input in no group with others, whose absolute effect is not the same everywhere on the level grid, the probability that
`mu_star ± mu_star_conf` contains the mean absolute effect over the grid tends to the Student probability as `N` grows. -/
theorem C145_fixed (R : Nat) (hR : 2 ≤ R) (ε : ℝ) (hε : 0 < ε) :
    ∃ N0, ∀ N ≥ N0, ∀ w : Ω → Fin D → Fin R → Fin N → Fin N, (∀ i, FairResample P Z N R fun ω => w ω i) →
      |P.real {ω | ∃ X pb' res,
        morrisSample F Real.sqrt argsort (fun i => (Z i ω).toTraj) pb N (2 * q) .none localOpt = .ok (X.map (·.map some), pb') ∧
        morrisAnalyze Real.sqrt z conf (resampleOf (w ω)) pbA X D (X.map f) false (2 * q) = .ok res ∧
        IntervalContains res (groupOf j) (gridMean j fun x => |gridEffect (q := q) f lo hi groupOf j x|)} - studentWithin R z| < ε := by
  have hne : Nonempty (MorrisDraw D g q) := ⟨⟨1, fun _ => true, fun _ => ⟨0, hq⟩⟩⟩
  have hgo := groupNumbering_lt _ _ (effectiveLabels pb) groupOf (by rw [hS.labels, hS.numVars]) hS.groups
  obtain ⟨N0, h⟩ := boot_fixed hZ (drawEffect f lo hi groupOf j) (var_drawEffect f lo hi groupOf j x y hx hy hxy) z R hR ε hε
  refine ⟨max N0 1, fun N hN w hw => ?_⟩
  have key := h N (le_of_max_le_left hN) (fun ω => w ω j) (hw j)
  rw [mean_drawEffect f lo hi groupOf j hgo, memberMean_const groupOf _ _ j rfl fun i hi => by rw [hj i hi]] at key
  convert key using 5
  ext ω
  obtain ⟨X, pb', res, h1, h2, h3⟩ := morris_interval F argsort f hq groupOf pb pbA lo hi hS z conf hc N R (le_of_max_le_right hN)
    hR (fun i => Z i ω) (w ω) localOpt
  obtain ⟨a1, a2⟩ := h3 j
  rw [memberMean_const groupOf _ _ j rfl fun i hi => by rw [hj i hi]] at a2
  constructor
  · rintro ⟨X', pb2, res', b1, b2, m, v, b3, b4, b5⟩
    have hX : X' = X := by
      rw [h1] at b1
      injection b1 with b1
      have := congrArg Prod.fst b1
      exact (List.map_injective_iff.mpr (List.map_injective_iff.mpr (Option.some_injective _)) this).symm
    rw [hX, h2] at b2
    cases b2
    rw [a1] at b3
    rw [a2] at b4
    cases b3
    cases b4
    exact b5
  · intro hω
    exact ⟨X, pb', res, h1, h2, _, _, a1, a2, hω⟩

/-- **C145**.  With a fixed number of resamples the interval contains the mean absolute effect less often than the confidence level says,
by an amount which does not vanish as the number of trajectories grows. -/
theorem C145_short (hz : stdNormalCDF z = 1 / 2 + conf / 2) (R : Nat) (hR : 2 ≤ R) :
    ∃ δ > 0, ∃ N0, ∀ N ≥ N0, ∀ w : Ω → Fin D → Fin R → Fin N → Fin N, (∀ i, FairResample P Z N R fun ω => w ω i) →
      P.real {ω | ∃ X pb' res,
        morrisSample F Real.sqrt argsort (fun i => (Z i ω).toTraj) pb N (2 * q) .none localOpt = .ok (X.map (·.map some), pb') ∧
        morrisAnalyze Real.sqrt z conf (resampleOf (w ω)) pbA X D (X.map f) false (2 * q) = .ok res ∧
        IntervalContains res (groupOf j) (gridMean j fun x => |gridEffect (q := q) f lo hi groupOf j x|)} ≤ conf - δ := by
  obtain ⟨hz0, hlevel⟩ := normalWithin_level z conf hc.1 hz
  have hlt : studentWithin R z < conf := (studentWithin_lt hR z hz0).trans_eq hlevel
  obtain ⟨N0, h⟩ := C145_fixed P Z hZ F argsort f hq groupOf pb pbA lo hi hS z conf hc localOpt j hj x y hx hy hxy R hR
    ((conf - studentWithin R z) / 2) (by linarith)
  refine ⟨(conf - studentWithin R z) / 2, by linarith, N0, fun N hN w hw => ?_⟩
  have := (abs_lt.mp (h N hN w hw)).2
  linarith

/-- **C145**.  How many resamples are enough: with `N` large the interval contains the mean absolute effect with a probability of at least
`conf - (1 + z²) / (2 (R - 1)) - ε`. -/
theorem C145_enough (hz : stdNormalCDF z = 1 / 2 + conf / 2) (R : Nat) (hR : 2 ≤ R) (ε : ℝ) (hε : 0 < ε) :
    ∃ N0, ∀ N ≥ N0, ∀ w : Ω → Fin D → Fin R → Fin N → Fin N, (∀ i, FairResample P Z N R fun ω => w ω i) →
      conf - (1 + z ^ 2) / (2 * (R - 1)) - ε ≤ P.real {ω | ∃ X pb' res,
        morrisSample F Real.sqrt argsort (fun i => (Z i ω).toTraj) pb N (2 * q) .none localOpt = .ok (X.map (·.map some), pb') ∧
        morrisAnalyze Real.sqrt z conf (resampleOf (w ω)) pbA X D (X.map f) false (2 * q) = .ok res ∧
        IntervalContains res (groupOf j) (gridMean j fun x => |gridEffect (q := q) f lo hi groupOf j x|)} := by
  obtain ⟨hz0, hlevel⟩ := normalWithin_level z conf hc.1 hz
  have hge := studentWithin_ge hR z hz0.le
  rw [hlevel] at hge
  obtain ⟨N0, h⟩ := C145_fixed P Z hZ F argsort f hq groupOf pb pbA lo hi hS z conf hc localOpt j hj x y hx hy hxy R hR ε hε
  refine ⟨N0, fun N hN w hw => ?_⟩
  have := (abs_lt.mp (h N hN w hw)).1
  linarith

end claims

/-- The hypotheses can be met: three inputs in two groups on four levels, the second input alone in its group, the product of the first two
inputs as model, level 95% and 100 resamples as by default. -/
example (F : Ppf ℝ) (argsort : List ℝ → List Nat) (z : ℝ) (hz : stdNormalCDF z = 1 / 2 + 19 / 20 / 2) :
    ∃ (Ω : Type) (_ : MeasurableSpace Ω) (P : Measure Ω) (Z : ℕ → Ω → MorrisDraw 3 2 2)
      (w : ∀ N R : Nat, Ω → Fin 3 → Fin R → Fin N → Fin N), ∃ δ > 0, ∃ N0, ∀ N ≥ N0,
      P.real {ω | ∃ X pb' res,
        morrisSample F Real.sqrt argsort (fun i => (Z i ω).toTraj) accProblem N 4 .none true = .ok (X.map (·.map some), pb') ∧
        morrisAnalyze Real.sqrt z (19 / 20) (resampleOf (w N 100 ω)) accProblem X 3 (X.map fun r => r.getD 0 0 * r.getD 1 0) false 4 =
          .ok res ∧
        IntervalContains res 1 (gridMean 1 fun x =>
          |gridEffect (q := 2) (fun r => r.getD 0 0 * r.getD 1 0) ![0, 1, -1] ![2, 4, 1] (fun j => j % 2) 1 x|)} ≤ 19 / 20 - δ := by
  obtain ⟨Ω, m, P, Z, w, hZ, hw⟩ := resamples_exist 3 2 2 (by norm_num)
  refine ⟨Ω, m, P, Z, w, ?_⟩
  obtain ⟨δ, hδ, N0, h⟩ := C145_short P Z hZ F argsort (fun r => r.getD 0 0 * r.getD 1 0) (by norm_num) _ accProblem accProblem _ _
    accSetting z (19 / 20) (by norm_num) true 1 (by decide) ![0, 0, 0] ![1, 0, 0] (by simp [starts]) (by simp [starts])
    (by
      simp [gridEffect, gridRow, groupStep, opposite]
      norm_num) hz 100 (by norm_num)
  exact ⟨δ, hδ, N0, fun N hN => h N hN _ (hw N 100)⟩

/-! ### Groups of inputs -/

/-- Index arrays for all inputs drawn independently of the first `N` rows and of each other, all of them equally likely. -/
structure Spec.FairResamples {A Ω : Type} [MeasurableSpace Ω] (P : Measure Ω) (Z : ℕ → Ω → A) (D N R : Nat)
    (w : Ω → Fin D → Fin R → Fin N → Fin N) : Prop where
  fair : ∀ (x : Fin N → A) (t : Fin D → Fin R → Fin N → Fin N), P.real {ω | (∀ i : Fin N, Z i ω = x i) ∧ w ω = t} =
    P.real {ω | ∀ i : Fin N, Z i ω = x i} / Fintype.card (Fin D → Fin R → Fin N → Fin N)

/-- The arrays of all inputs as one array. -/
theorem FairResamples.flat {A Ω : Type} [MeasurableSpace Ω] {P : Measure Ω} {Z : ℕ → Ω → A} {D N R : Nat}
    {w : Ω → Fin D → Fin R → Fin N → Fin N} (hw : FairResamples P Z D N R w) :
    FairResample P Z N (D * R) fun ω k => w ω (finProdFinEquiv.symm k).1 (finProdFinEquiv.symm k).2 := by
  let e : (Fin (D * R) → Fin N → Fin N) ≃ (Fin D → Fin R → Fin N → Fin N) :=
    (Equiv.arrowCongr finProdFinEquiv.symm (Equiv.refl _)).trans (Equiv.curry _ _ _)
  constructor
  intro x t
  rw [Fintype.card_congr e, ← hw.fair x (e t)]
  congr 1
  ext ω
  refine and_congr_right fun _ => ?_
  show (fun k => w ω (finProdFinEquiv.symm k).1 (finProdFinEquiv.symm k).2) = t ↔ w ω = fun i r => t (finProdFinEquiv (i, r))
  constructor
  · intro h
    funext i r
    rw [← h]
    simp
  · intro h
    funext k
    rw [h]
    exact congrArg t (finProdFinEquiv.apply_symm_apply k)

/-- Intervals around a mean of fair draws with `z` times a mean of bootstrap standard deviations as half width. -/
theorem boot_group {Ω : Type} [MeasurableSpace Ω] {P : Measure Ω} {Z : ℕ → Ω → MorrisDraw D g q} (hZ : FairDraws P Z)
    (u : MorrisDraw D g q → ℝ) [Nonempty (MorrisDraw D g q)] (hv : 0 < varOn u) (z : ℝ) (R : Nat) (hR : 2 ≤ R) {n m : Nat}
    (a : Fin m → Fin n) (ha : a.Injective) (ε : ℝ) (hε : 0 < ε) :
    ∃ N0, ∀ N ≥ N0, ∀ w : Ω → Fin n → Fin R → Fin N → Fin N, FairResamples P Z n N R w →
      |P.real {ω | |rowMean (firstRows Z N ω) u - (∑ d, u d) / Fintype.card (MorrisDraw D g q)| ≤
        z * ((∑ i, √(drawVar fun r => (∑ k, u (Z (w ω (a i) r k) ω)) / N)) / m)} - studentGroup m R z| < ε := by
  have hP : IsProbabilityMeasure P := hZ.indep.isProbabilityMeasure
  have hcard : (0 : ℝ) < Fintype.card (MorrisDraw D g q) := by exact_mod_cast Fintype.card_pos
  set s := √(varOn u) with hs
  have hs0 : 0 < s := Real.sqrt_pos.mpr hv
  have hs2 : s ^ 2 = varOn u := Real.sq_sqrt hv.le
  set μ := (∑ d, u d) / Fintype.card (MorrisDraw D g q) with hμ
  have c0 : ∫ d, (u d - μ) / s ∂(Measure.map (Z 0) P) = 0 := by
    rw [hZ.integral, ← Finset.sum_div, Finset.sum_sub_distrib]
    simp only [Finset.sum_const, Finset.card_univ, nsmul_eq_mul, hμ]
    field_simp
    simp
  have c1 : ∫ d, ((u d - μ) / s) ^ 2 ∂(Measure.map (Z 0) P) = 1 := by
    rw [hZ.integral]
    have : ∀ d, ((u d - μ) / s) ^ 2 = (u d - μ) ^ 2 / varOn u := fun d => by rw [div_pow, hs2]
    rw [Finset.sum_congr rfl fun d _ => this d, ← Finset.sum_div, div_right_comm]
    exact div_self hv.ne'
  let γ : Fin m × Fin R → Fin (n * R) := fun p => finProdFinEquiv (a p.1, p.2)
  have hγ : γ.Injective := by
    rintro ⟨i, r⟩ ⟨i', r'⟩ h
    have h2 := Prod.ext_iff.mp (finProdFinEquiv.injective h)
    exact Prod.ext (ha h2.1) h2.2
  obtain ⟨η, hη, N1, h⟩ := width_perturbed hZ.meas hZ.law hZ.indep (fun d => (u d - μ) / s) (fun d => (u d - μ) / s)
    (measurable_of_finite _) (measurable_of_finite _) c0 c1 c0 c1
    (∑ d, |(u d - μ) / s|)
    (Filter.Eventually.of_forall fun d => Finset.single_le_sum (f := fun d => |(u d - μ) / s|) (fun _ _ => abs_nonneg _)
      (Finset.mem_univ d)) (n * R) (groupWidth γ z) (continuous_groupWidth γ z) ε hε
  rw [normalWidth_group γ hγ z] at h
  refine ⟨max N1 1, fun N hN w hw => ?_⟩
  have hNp : 0 < N := le_of_max_le_right hN
  have hNr : (0 : ℝ) < N := by exact_mod_cast hNp
  have hrN : 0 < √(N : ℝ) := Real.sqrt_pos.mpr hNr
  have hrN2 : √(N : ℝ) * √N = N := Real.mul_self_sqrt hNr.le
  have hc : 0 < √(N : ℝ) / s := div_pos hrN hs0
  let w' : Ω → Fin (n * R) → Fin N → Fin N := fun ω k => w ω (finProdFinEquiv.symm k).1 (finProdFinEquiv.symm k).2
  refine h N (le_of_max_le_left hN) w' (FairResample.fresh hZ.meas (FairResamples.flat hw))
    (fun ω => √N / s * (rowMean (firstRows Z N ω) u - μ))
    (fun ω => √N / s * (z * ((∑ i, √(drawVar fun r => (∑ k, u (Z (w ω (a i) r k) ω)) / N)) / m))) _ ∅ (by simp; positivity) fun ω _ => ?_
  have hsum : ∑ k : Fin N, u (Z k ω) = N * rowMean (firstRows Z N ω) u := by
    rw [rowMean_firstRows, mul_div_cancel₀ _ hNr.ne', Finset.sum_range]
  have e0 : bootVec (fun d => (u d - μ) / s) (fun d => (u d - μ) / s) (fun i : Fin N => Z i ω) (w' ω) 0 =
      √N / s * (rowMean (firstRows Z N ω) u - μ) := by
    show (√N)⁻¹ * ∑ i : Fin N, (u (Z i ω) - μ) / s = _
    rw [← Finset.sum_div, Finset.sum_sub_distrib, hsum, Finset.sum_const, Finset.card_univ, Fintype.card_fin, nsmul_eq_mul]
    field_simp
    rw [sq, hrN2]
  have er : ∀ k : Fin (n * R), bootVec (fun d => (u d - μ) / s) (fun d => (u d - μ) / s) (fun i : Fin N => Z i ω) (w' ω) k.succ =
      √N / s * ((∑ i, u (Z (w' ω k i) ω)) / N - rowMean (firstRows Z N ω) u) := by
    intro k
    show (√N)⁻¹ * ∑ i : Fin N, ((u (Z (w' ω k i) ω) - μ) / s - (∑ k : Fin N, (u (Z k ω) - μ) / s) / N) = _
    rw [Finset.sum_sub_distrib, Finset.sum_const, Finset.card_univ, Fintype.card_fin, nsmul_eq_mul, ← Finset.sum_div,
      ← Finset.sum_div, Finset.sum_sub_distrib, Finset.sum_sub_distrib, hsum, Finset.sum_const, Finset.card_univ, Fintype.card_fin,
      nsmul_eq_mul]
    field_simp
    rw [sq, hrN2]
    ring
  refine ⟨?_, ?_, ?_⟩
  · beta_reduce
    rw [abs_mul, abs_of_pos hc, mul_le_mul_iff_right₀ hc]
    rfl
  · rw [e0, sub_self, abs_zero]
    exact hη.le
  · have hw' : ∀ i r, w' ω (γ (i, r)) = w ω (a i) r := fun i r => by
      show w ω (finProdFinEquiv.symm (finProdFinEquiv (a i, r))).1 (finProdFinEquiv.symm (finProdFinEquiv (a i, r))).2 = _
      rw [Equiv.symm_apply_apply]
    simp only [er]
    unfold groupWidth
    have hd : ∀ i, √(drawVar fun r => √N / s * ((∑ k, u (Z (w' ω (γ (i, r)) k) ω)) / N - rowMean (firstRows Z N ω) u)) =
        √N / s * √(drawVar fun r => (∑ k, u (Z (w ω (a i) r k) ω)) / N) := by
      intro i
      simp only [hw']
      rw [drawVar_affine (by omega) fun r => (∑ k, u (Z (w ω (a i) r k) ω)) / N, Real.sqrt_mul (sq_nonneg _), Real.sqrt_sq hc.le]
    simp only [hd]
    rw [← Finset.mul_sum, mul_div_assoc, mul_left_comm z, sub_self, abs_zero]
    exact hη.le

section groups

variable {Ω : Type} [MeasurableSpace Ω] (P : Measure Ω) (Z : ℕ → Ω → MorrisDraw D g q)
  (hZ : FairDraws P Z) (F : Ppf ℝ) (argsort : List ℝ → List Nat) (f : List ℝ → ℝ) (hq : 0 < q) (groupOf : Nat → Nat)
  (pb pbA : Problem ℝ) (lo hi : Fin D → ℝ) (hS : MorrisSetting D g pb pbA groupOf lo hi)
  (z conf : ℝ) (hc : 0 < conf ∧ conf < 1) (localOpt : Bool)
  (j : Fin D) (x y : Fin D → Fin (2 * q)) (hx : x ∈ starts j) (hy : y ∈ starts j)
  (hxy : |gridEffect f lo hi groupOf j x| ≠ |gridEffect f lo hi groupOf j y|)
  (m : Nat) (hm : (Finset.univ.filter fun i : Fin D => groupOf i = groupOf j).card = m)
include hZ hq hS hc hx hy hxy hm

/-- **C145**, groups.  If the resamples of the inputs are independent, as in the code, the probability that `mu_star ± mu_star_conf` of a
group of `m` inputs contains the mean absolute effect over the grid tends to the probability that a standard normal number is at most `z`
times the mean of the standard deviations of `m` sets of `R` others. -/
theorem C145_group (R : Nat) (hR : 2 ≤ R) (ε : ℝ) (hε : 0 < ε) :
    ∃ N0, ∀ N ≥ N0, ∀ w : Ω → Fin D → Fin R → Fin N → Fin N, FairResamples P Z D N R w →
      |P.real {ω | ∃ X pb' res,
        morrisSample F Real.sqrt argsort (fun i => (Z i ω).toTraj) pb N (2 * q) .none localOpt = .ok (X.map (·.map some), pb') ∧
        morrisAnalyze Real.sqrt z conf (resampleOf (w ω)) pbA X D (X.map f) false (2 * q) = .ok res ∧
        IntervalContains res (groupOf j)
          (memberMean groupOf (groupOf j) fun i => gridMean i fun x => |gridEffect (q := q) f lo hi groupOf i x|)} -
          studentGroup m R z| < ε := by
  have hne : Nonempty (MorrisDraw D g q) := ⟨⟨1, fun _ => true, fun _ => ⟨0, hq⟩⟩⟩
  have hgo := groupNumbering_lt _ _ (effectiveLabels pb) groupOf (by rw [hS.labels, hS.numVars]) hS.groups
  set J := Finset.univ.filter fun i : Fin D => groupOf i = groupOf j with hJ
  let a := J.orderEmbOfFin hm
  obtain ⟨N0, h⟩ := boot_group hZ (drawEffect f lo hi groupOf j) (var_drawEffect f lo hi groupOf j x y hx hy hxy) z R hR a a.injective ε hε
  refine ⟨max N0 1, fun N hN w hw => ?_⟩
  have key := h N (le_of_max_le_left hN) w hw
  rw [mean_drawEffect f lo hi groupOf j hgo] at key
  convert key using 5
  ext ω
  obtain ⟨X, pb', res, h1, h2, h3⟩ := morris_interval F argsort f hq groupOf pb pbA lo hi hS z conf hc N R (le_of_max_le_right hN)
    hR (fun i => Z i ω) (w ω) localOpt
  obtain ⟨a1, a2⟩ := h3 j
  have hmm : ∀ v : Fin D → ℝ, memberMean groupOf (groupOf j) (fun i => z * v i) = z * ((∑ k, v (a k)) / m) := by
    intro v
    have e : ∑ k, v (a k) = ∑ i ∈ J, v i := by
      conv_rhs => rw [← Finset.map_orderEmbOfFin_univ J hm, Finset.sum_map]
      rfl
    unfold memberMean
    rw [e, ← hm, ← Finset.mul_sum, mul_div_assoc]
  rw [hmm] at a2
  constructor
  · rintro ⟨X', pb2, res', b1, b2, m, v, b3, b4, b5⟩
    have hX : X' = X := by
      rw [h1] at b1
      injection b1 with b1
      have := congrArg Prod.fst b1
      exact (List.map_injective_iff.mpr (List.map_injective_iff.mpr (Option.some_injective _)) this).symm
    rw [hX, h2] at b2
    cases b2
    rw [a1] at b3
    rw [a2] at b4
    cases b3
    cases b4
    exact b5
  · intro hω
    exact ⟨X, pb', res, h1, h2, _, _, a1, a2, hω⟩

/-- **C145**, groups.  So the interval of a group also contains the mean absolute effect less often than the confidence level says. -/
theorem C145_group_short (hz : stdNormalCDF z = 1 / 2 + conf / 2) (R : Nat) (hR : 2 ≤ R) :
    ∃ δ > 0, ∃ N0, ∀ N ≥ N0, ∀ w : Ω → Fin D → Fin R → Fin N → Fin N, FairResamples P Z D N R w →
      P.real {ω | ∃ X pb' res,
        morrisSample F Real.sqrt argsort (fun i => (Z i ω).toTraj) pb N (2 * q) .none localOpt = .ok (X.map (·.map some), pb') ∧
        morrisAnalyze Real.sqrt z conf (resampleOf (w ω)) pbA X D (X.map f) false (2 * q) = .ok res ∧
        IntervalContains res (groupOf j)
          (memberMean groupOf (groupOf j) fun i => gridMean i fun x => |gridEffect (q := q) f lo hi groupOf i x|)} ≤ conf - δ := by
  obtain ⟨hz0, hlevel⟩ := normalWithin_level z conf hc.1 hz
  have hm0 : 0 < m := by
    rw [← hm]
    exact Finset.card_pos.mpr ⟨j, by simp⟩
  have hlt : studentGroup m R z < conf := (studentGroup_lt hm0 hR z hz0).trans_eq hlevel
  obtain ⟨N0, h⟩ := C145_group P Z hZ F argsort f hq groupOf pb pbA lo hi hS z conf hc localOpt j x y hx hy hxy m hm R hR
    ((conf - studentGroup m R z) / 2) (by linarith)
  refine ⟨(conf - studentGroup m R z) / 2, by linarith, N0, fun N hN w hw => ?_⟩
  have := (abs_lt.mp (h N hN w hw)).2
  linarith

/-- **C145**, groups.  How many resamples are enough: with `N` large the interval contains the mean absolute effect with a probability of at least
`conf - (1 + z²) / (2 (R - 1)) - ε`. -/
theorem C145_group_enough (hz : stdNormalCDF z = 1 / 2 + conf / 2) (R : Nat) (hR : 2 ≤ R) (ε : ℝ) (hε : 0 < ε) :
    ∃ N0, ∀ N ≥ N0, ∀ w : Ω → Fin D → Fin R → Fin N → Fin N, FairResamples P Z D N R w →
      conf - (1 + z ^ 2) / (2 * (R - 1)) - ε ≤ P.real {ω | ∃ X pb' res,
        morrisSample F Real.sqrt argsort (fun i => (Z i ω).toTraj) pb N (2 * q) .none localOpt = .ok (X.map (·.map some), pb') ∧
        morrisAnalyze Real.sqrt z conf (resampleOf (w ω)) pbA X D (X.map f) false (2 * q) = .ok res ∧
        IntervalContains res (groupOf j)
          (memberMean groupOf (groupOf j) fun i => gridMean i fun x => |gridEffect (q := q) f lo hi groupOf i x|)} := by
  obtain ⟨hz0, hlevel⟩ := normalWithin_level z conf hc.1 hz
  have hm0 : 0 < m := by
    rw [← hm]
    exact Finset.card_pos.mpr ⟨j, by simp⟩
  have hge := studentGroup_ge hm0 hR z hz0.le
  rw [hlevel] at hge
  obtain ⟨N0, h⟩ := C145_group P Z hZ F argsort f hq groupOf pb pbA lo hi hS z conf hc localOpt j x y hx hy hxy m hm R hR ε hε
  refine ⟨N0, fun N hN w hw => ?_⟩
  have := (abs_lt.mp (h N hN w hw)).1
  linarith

end groups

/-- Such draws and resamples exist. -/
theorem joint_resamples_exist (D g q : Nat) (hq : 0 < q) :
    ∃ (Ω : Type) (_ : MeasurableSpace Ω) (P : Measure Ω) (Z : ℕ → Ω → MorrisDraw D g q)
      (w : ∀ N R : Nat, Ω → Fin D → Fin R → Fin N → Fin N), FairDraws P Z ∧ ∀ N R, FairResamples P Z D N R (w N R) := by
  obtain ⟨P, hP, hZ⟩ := fairDraws_exist D g q hq
  let B : ℕ × ℕ → Type := fun p => Fin D → Fin p.2 → Fin p.1 → Fin p.1
  have hp : ∀ p, IsProbabilityMeasure (uniformOn (Set.univ : Set (B p))) := fun p => by
    have : Nonempty (B p) := ⟨fun _ _ i => i⟩
    exact uniformOn_isProbabilityMeasure Set.finite_univ Set.univ_nonempty
  let Q : Measure (∀ p, B p) := Measure.infinitePi fun p => uniformOn Set.univ
  have hQ : IsProbabilityMeasure Q := inferInstance
  have hfst : Measure.map Prod.fst (P.prod Q) = P := by rw [Measure.map_fst_prod]; simp
  have hmap : ∀ {β : Type} [MeasurableSpace β] (h : (ℕ → MorrisDraw D g q) → β), Measurable h →
      Measure.map (fun ω : (ℕ → MorrisDraw D g q) × (∀ p, B p) => h ω.1) (P.prod Q) = Measure.map h P := by
    intro β _ h hh
    conv_rhs => rw [← hfst]
    rw [Measure.map_map hh measurable_fst]
    rfl
  have hmi : ∀ i : ℕ, Measurable fun ω : (ℕ → MorrisDraw D g q) × (∀ p, B p) => ω.1 i := fun i =>
    (measurable_pi_apply i).comp measurable_fst
  refine ⟨(ℕ → MorrisDraw D g q) × (∀ p, B p), inferInstance, P.prod Q, fun i ω => ω.1 i, fun N R ω => ω.2 (N, R), ⟨?_, ?_, ?_⟩, ?_⟩
  · exact hmi
  · refine (iIndepFun_iff_map_fun_eq_infinitePi_map hmi).mpr ?_
    have h1 := (iIndepFun_iff_map_fun_eq_infinitePi_map hZ.meas).mp hZ.indep
    rw [hmap (fun ω i => ω i) (measurable_pi_lambda _ fun i => measurable_pi_apply i), h1]
    congr 1
    funext i
    rw [hmap (fun ω => ω i) (measurable_pi_apply i)]
  · intro i d
    rw [← hZ.fair i d, ← Measure.map_apply (hZ.meas i) (MeasurableSet.singleton d), ← hmap (fun ω => ω i) (measurable_pi_apply i),
      Measure.map_apply (hmi i) (MeasurableSet.singleton d)]
  · intro N R
    constructor
    intro x t
    have e1 : {ω : (ℕ → MorrisDraw D g q) × (∀ p, B p) | (∀ k : Fin N, ω.1 k = x k) ∧ ω.2 (N, R) = t} =
        {ω | ∀ k : Fin N, ω k = x k} ×ˢ {v : ∀ p, B p | v (N, R) = t} := by
      ext ω; simp
    have e2 : {ω : (ℕ → MorrisDraw D g q) × (∀ p, B p) | ∀ k : Fin N, ω.1 k = x k} =
        {ω | ∀ k : Fin N, ω k = x k} ×ˢ Set.univ := by
      ext ω; simp
    have e3 : Q.real {v : ∀ p, B p | v (N, R) = t} = 1 / Fintype.card (Fin D → Fin R → Fin N → Fin N) := by
      have h1 : Q.real {v : ∀ p, B p | v (N, R) = t} = (Measure.map (fun v : ∀ p, B p => v (N, R)) Q).real {t} := by
        have hmv : Measurable fun v : ∀ p, B p => v (N, R) := measurable_pi_apply (N, R)
        rw [map_measureReal_apply hmv (MeasurableSet.singleton t)]
        rfl
      rw [h1, Measure.infinitePi_map_eval]
      unfold Measure.real
      rw [uniformOn_univ, Measure.count_singleton]
      simp [B]
    rw [e1, e2, measureReal_prod_prod, measureReal_prod_prod, e3]
    simp [div_eq_mul_inv]

/-- The group of the first and the third input. -/
example (F : Ppf ℝ) (argsort : List ℝ → List Nat) (z : ℝ) (hz : stdNormalCDF z = 1 / 2 + 19 / 20 / 2) :
    ∃ (Ω : Type) (_ : MeasurableSpace Ω) (P : Measure Ω) (Z : ℕ → Ω → MorrisDraw 3 2 2)
      (w : ∀ N R : Nat, Ω → Fin 3 → Fin R → Fin N → Fin N), ∃ δ > 0, ∃ N0, ∀ N ≥ N0,
      P.real {ω | ∃ X pb' res,
        morrisSample F Real.sqrt argsort (fun i => (Z i ω).toTraj) accProblem N 4 .none true = .ok (X.map (·.map some), pb') ∧
        morrisAnalyze Real.sqrt z (19 / 20) (resampleOf (w N 100 ω)) accProblem X 3 (X.map fun r => r.getD 0 0 * r.getD 1 0) false 4 =
          .ok res ∧
        IntervalContains res 0 (memberMean (fun j => j % 2) 0 fun i : Fin 3 => gridMean i fun x =>
          |gridEffect (q := 2) (fun r => r.getD 0 0 * r.getD 1 0) ![0, 1, -1] ![2, 4, 1] (fun j => j % 2) i x|)} ≤ 19 / 20 - δ := by
  obtain ⟨Ω, m, P, Z, w, hZ, hw⟩ := joint_resamples_exist 3 2 2 (by norm_num)
  refine ⟨Ω, m, P, Z, w, ?_⟩
  obtain ⟨δ, hδ, N0, h⟩ := C145_group_short P Z hZ F argsort (fun r => r.getD 0 0 * r.getD 1 0) (by norm_num) _ accProblem accProblem _ _
    accSetting z (19 / 20) (by norm_num) true 0 ![0, 0, 0] ![0, 1, 0] (by simp [starts]) (by simp [starts])
    (by
      simp [gridEffect, gridRow, groupStep, opposite]
      norm_num) 2 (by decide) hz 100 (by norm_num)
  exact ⟨δ, hδ, N0, fun N hN => h N hN _ (hw N 100)⟩

end SALib
