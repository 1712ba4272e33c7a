import Verif.Lemmas.Frequency
import Mathlib.MeasureTheory.Function.ConditionalExpectation.Real
import Mathlib.MeasureTheory.Function.ConditionalExpectation.PullOut
import Mathlib.MeasureTheory.Function.ContinuousMapDense
import Mathlib.MeasureTheory.Function.FactorsThrough
import Mathlib.MeasureTheory.Integral.Prod
import Mathlib.MeasureTheory.Constructions.Pi
import Mathlib.Probability.Moments.Basic
import Mathlib.Analysis.SpecialFunctions.Trigonometric.Series
import Mathlib.MeasureTheory.OuterMeasure.BorelCantelli

/-! # Outputs with alternating signs in the order of one input

The mean of the outputs, with sign `+` for even and `-` for odd rank of one input, tends to zero. -/

namespace SALib

open MeasureTheory ProbabilityTheory Finset

/-- The number of entries below entry `t`. -/
noncomputable def rankIn {N : ℕ} (x : Fin N → ℝ) (t : Fin N) : ℕ := ∑ s, if x s < x t then 1 else 0

noncomputable def rankSign {N : ℕ} (x : Fin N → ℝ) (t : Fin N) : ℝ := (-1) ^ rankIn x t

theorem measurable_rankSign {N : ℕ} (t : Fin N) : Measurable fun x : Fin N → ℝ => rankSign x t := by
  have h : Measurable fun x : Fin N → ℝ => rankIn x t := by
    unfold rankIn
    refine Finset.measurable_sum _ fun s _ => ?_
    exact Measurable.ite (measurableSet_lt (measurable_pi_apply s) (measurable_pi_apply t)) measurable_const measurable_const
  exact (measurable_from_top (f := fun n : ℕ => (-1 : ℝ) ^ n)).comp h

theorem abs_rankSign {N : ℕ} (x : Fin N → ℝ) (t : Fin N) : |rankSign x t| = 1 := by
  unfold rankSign
  rw [abs_pow, abs_neg, abs_one, one_pow]

section

variable {β : Type} [MeasurableSpace β] (law : Measure β) [IsProbabilityMeasure law] (X : β → ℝ) (hX : Measurable X)
  (h : β → ℝ) (mh : Measurable h) (c : ℝ) (hc : ∀ z, |h z| ≤ c)
  (h0 : ∀ ψ : ℝ → ℝ, Measurable ψ → (∃ C, ∀ u, |ψ u| ≤ C) → ∫ z, ψ (X z) * h z ∂law = 0)

include hX mh hc h0

/-- A function that averages out given the input has mean zero against every function of the inputs of all rows. -/
theorem sign_moment {N : ℕ} (S : (Fin N → ℝ) → ℝ) (mS : Measurable S) (C : ℝ) (hS : ∀ x, |S x| ≤ C) (A : Finset (Fin N))
    (hA : A.Nonempty) :
    ∫ z, S (fun t => X (z t)) * ∏ b ∈ A, h (z b) ∂Measure.pi (fun _ : Fin N => law) = 0 := by
  obtain ⟨a, ha⟩ := hA
  obtain ⟨n, rfl⟩ : ∃ n, N = n + 1 := ⟨N - 1, by have := a.2; omega⟩
  have hmp := measurePreserving_piFinSuccAbove (fun _ : Fin (n + 1) => law) a
  have hc0 : 0 ≤ c := by
    obtain ⟨z⟩ : Nonempty β := by
      by_contra hne
      rw [not_nonempty_iff] at hne
      have := measure_univ (μ := law)
      rw [Set.univ_eq_empty_iff.mpr hne, measure_empty] at this
      exact zero_ne_one this
    exact (abs_nonneg _).trans (hc z)
  let e := MeasurableEquiv.piFinSuccAbove (fun _ : Fin (n + 1) => β) a
  have hmeas : Measurable fun z : Fin (n + 1) → β => S (fun t => X (z t)) * ∏ b ∈ A, h (z b) := by
    refine (mS.comp (measurable_pi_lambda _ fun t => hX.comp (measurable_pi_apply t))).mul ?_
    exact Finset.measurable_prod _ fun b _ => mh.comp (measurable_pi_apply b)
  have hbound : ∀ z : Fin (n + 1) → β, ‖S (fun t => X (z t)) * ∏ b ∈ A, h (z b)‖ ≤ C * ∏ _b ∈ A, c := by
    intro z
    rw [Real.norm_eq_abs, abs_mul, Finset.abs_prod]
    refine mul_le_mul (hS _) (Finset.prod_le_prod (fun b _ => abs_nonneg _) fun b _ => hc _)
      (Finset.prod_nonneg fun b _ => abs_nonneg _) ((abs_nonneg _).trans (hS (fun t => X (z t))))
  have hcv : ∫ z, S (fun t => X (z t)) * ∏ b ∈ A, h (z b) ∂Measure.pi (fun _ : Fin (n + 1) => law) =
      ∫ q, S (fun t => X (e.symm q t)) * ∏ b ∈ A, h (e.symm q b) ∂law.prod (Measure.pi fun _ : Fin n => law) := by
    rw [← hmp.integral_comp' (f := e)]
    refine integral_congr_ae (ae_of_all _ fun z => ?_)
    simp only [MeasurableEquiv.symm_apply_apply]
  rw [hcv, integral_prod_symm]
  · refine integral_eq_zero_of_ae (ae_of_all _ fun r => ?_)
    simp only [Pi.zero_apply]
    have key : ∀ z : β, S (fun t => X (e.symm (z, r) t)) * ∏ b ∈ A, h (e.symm (z, r) b) =
        (S (a.insertNth (X z) fun t => X (r t)) * ∏ b ∈ univ.filter (fun b => a.succAbove b ∈ A), h (r b)) * h z := by
      intro z
      have e1 : ∀ t, e.symm (z, r) t = a.insertNth (α := fun _ => β) z r t := fun t => rfl
      have e2 : (fun t => X (e.symm (z, r) t)) = a.insertNth (α := fun _ => ℝ) (X z) fun t => X (r t) := by
        funext t
        rw [e1]
        induction t using a.succAboveCases with
        | x => simp
        | p i => simp
      have e3 : ∏ b ∈ A, h (e.symm (z, r) b) = h z * ∏ b ∈ univ.filter (fun b => a.succAbove b ∈ A), h (r b) := by
        have e4 : ∏ b ∈ A, h (e.symm (z, r) b) = ∏ b, if b ∈ A then h (e.symm (z, r) b) else 1 := by
          rw [← Finset.prod_filter, Finset.filter_mem_eq_inter, Finset.univ_inter]
        rw [e4, Fin.prod_univ_succAbove _ a, Finset.prod_filter, if_pos ha]
        simp [e1]
      rw [e2, e3]
      ring
    simp only [key]
    refine h0 (fun u => S (a.insertNth u fun t => X (r t)) * ∏ b ∈ univ.filter (fun b => a.succAbove b ∈ A), h (r b)) ?_ ?_
    · refine (mS.comp (measurable_pi_lambda _ fun t => ?_)).mul_const _
      induction t using a.succAboveCases with
      | x => simpa using measurable_id'
      | p i => simp
    · refine ⟨C * |∏ b ∈ univ.filter (fun b => a.succAbove b ∈ A), h (r b)|, fun u => ?_⟩
      rw [abs_mul]
      exact mul_le_mul_of_nonneg_right (hS _) (abs_nonneg _)
  · refine Integrable.of_bound ?_ (C * ∏ _b ∈ A, c) (ae_of_all _ fun q => hbound _)
    exact (hmeas.comp e.symm.measurable).aestronglyMeasurable

/-- The moment generating function of the sum with signs. -/
theorem sign_mgf {N : ℕ} (S : Fin N → (Fin N → ℝ) → ℝ) (mS : ∀ t, Measurable (S t)) (hS : ∀ t x, |S t x| = 1)
    (hc0 : 0 < c) (l : ℝ) (hl : 0 < l) :
    Integrable (fun z : Fin N → β => Real.exp (l * ∑ t, S t (fun s => X (z s)) * h (z t))) (Measure.pi fun _ => law) ∧
    ∫ z, Real.exp (l * ∑ t, S t (fun s => X (z s)) * h (z t)) ∂Measure.pi (fun _ : Fin N => law) ≤
      Real.exp (N * (l * c) ^ 2 / 2) := by
  have mI : ∀ t, Measurable fun z : Fin N → β => S t (fun s => X (z s)) := fun t =>
    (mS t).comp (measurable_pi_lambda _ fun s => hX.comp (measurable_pi_apply s))
  have mH : ∀ t, Measurable fun z : Fin N → β => h (z t) := fun t => mh.comp (measurable_pi_apply t)
  have hterm : ∀ (t : Fin N) (z : Fin N → β), |S t (fun s => X (z s)) * h (z t)| ≤ c := fun t z => by
    rw [abs_mul, hS, one_mul]
    exact hc _
  have hint : Integrable (fun z : Fin N → β => Real.exp (l * ∑ t, S t (fun s => X (z s)) * h (z t))) (Measure.pi fun _ => law) := by
    refine Integrable.of_bound ?_ (Real.exp (l * (N * c))) (ae_of_all _ fun z => ?_)
    · exact (Real.measurable_exp.comp ((Finset.measurable_sum _ fun t _ => (mI t).mul (mH t)).const_mul l)).aestronglyMeasurable
    · rw [Real.norm_of_nonneg (Real.exp_nonneg _)]
      refine Real.exp_le_exp.mpr (mul_le_mul_of_nonneg_left ?_ hl.le)
      calc ∑ t, S t (fun s => X (z s)) * h (z t) ≤ ∑ _t : Fin N, c :=
            Finset.sum_le_sum fun t _ => (le_abs_self _).trans (hterm t z)
        _ = N * c := by simp
  refine ⟨hint, ?_⟩
  set q := Real.sinh (l * c) / c with hq
  set C := Real.cosh (l * c) with hC
  have hchord : ∀ v, |v| ≤ c → Real.exp (l * v) ≤ C + q * v := by
    intro v hv
    have h1 : 0 ≤ (1 + v / c) / 2 := by
      have := (abs_le.mp hv).1
      have : -1 ≤ v / c := by rw [le_div_iff₀ hc0]; linarith
      linarith
    have h2 : 0 ≤ (1 - v / c) / 2 := by
      have := (abs_le.mp hv).2
      have : v / c ≤ 1 := by rw [div_le_iff₀ hc0]; linarith
      linarith
    have hconv := convexOn_exp.2 (Set.mem_univ (l * c)) (Set.mem_univ (-(l * c))) h1 h2 (by ring)
    · have e1 : ((1 + v / c) / 2) • (l * c) + ((1 - v / c) / 2) • (-(l * c)) = l * v := by
        simp only [smul_eq_mul]
        field_simp
        ring
      rw [e1] at hconv
      refine hconv.trans (le_of_eq ?_)
      rw [hC, hq, Real.cosh_eq, Real.sinh_eq]
      simp only [smul_eq_mul]
      field_simp
      ring
  have hprod : ∀ z : Fin N → β, Real.exp (l * ∑ t, S t (fun s => X (z s)) * h (z t)) ≤
      ∑ A ∈ (univ : Finset (Fin N)).powerset, C ^ (univ \ A).card * q ^ A.card *
        ((∏ b ∈ A, S b (fun s => X (z s))) * ∏ b ∈ A, h (z b)) := by
    intro z
    rw [Finset.mul_sum, Real.exp_sum]
    calc ∏ t, Real.exp (l * (S t (fun s => X (z s)) * h (z t))) ≤ ∏ t, (q * (S t (fun s => X (z s)) * h (z t)) + C) :=
          Finset.prod_le_prod (fun t _ => Real.exp_nonneg _) fun t _ => by
            rw [add_comm]
            exact hchord _ (hterm t z)
      _ = _ := by
          rw [Finset.prod_add]
          refine Finset.sum_congr rfl fun A _ => ?_
          rw [Finset.prod_const, Finset.prod_mul_distrib, Finset.prod_const, Finset.prod_mul_distrib]
          ring
  have mS' : ∀ A : Finset (Fin N), Measurable fun x : Fin N → ℝ => ∏ b ∈ A, S b x := fun A =>
    Finset.measurable_prod _ fun b _ => mS b
  have hS' : ∀ (A : Finset (Fin N)) x, |∏ b ∈ A, S b x| ≤ 1 := fun A x => by
    rw [Finset.abs_prod, Finset.prod_congr rfl fun b _ => hS b x, Finset.prod_const_one]
  have hintA : ∀ A : Finset (Fin N), Integrable (fun z : Fin N → β => (∏ b ∈ A, S b (fun s => X (z s))) * ∏ b ∈ A, h (z b))
      (Measure.pi fun _ => law) := by
    intro A
    refine Integrable.of_bound ?_ (∏ _b ∈ A, c) (ae_of_all _ fun z => ?_)
    · exact ((Finset.measurable_prod _ fun b _ => mI b).mul (Finset.measurable_prod _ fun b _ => mH b)).aestronglyMeasurable
    · rw [Real.norm_eq_abs, ← Finset.prod_mul_distrib, Finset.abs_prod]
      exact Finset.prod_le_prod (fun b _ => abs_nonneg _) fun b _ => hterm b z
  refine (integral_mono hint (integrable_finsetSum _ fun A _ => (hintA A).const_mul _) hprod).trans ?_
  rw [integral_finsetSum _ fun A _ => (hintA A).const_mul _]
  rw [Finset.sum_eq_single_of_mem ∅ (Finset.empty_mem_powerset _)]
  · simp only [Finset.prod_empty, Finset.sdiff_empty, Finset.card_univ, Fintype.card_fin, Finset.card_empty, pow_zero, mul_one]
    rw [integral_const]
    simp only [probReal_univ, smul_eq_mul, one_mul]
    calc C ^ N ≤ Real.exp ((l * c) ^ 2 / 2) ^ N :=
          pow_le_pow_left₀ (Real.cosh_pos _).le (Real.cosh_le_exp_half_sq _) _
      _ = _ := by
          rw [← Real.exp_nat_mul]
          congr 1
          ring
  · intro A _ hA
    rw [integral_const_mul, sign_moment law X hX h mh c hc h0 _ (mS' A) 1 (hS' A) A (Finset.nonempty_iff_ne_empty.mpr hA), mul_zero]

/-- A large sum with signs is unlikely. -/
theorem sign_tail {N : ℕ} (S : Fin N → (Fin N → ℝ) → ℝ) (mS : ∀ t, Measurable (S t)) (hS : ∀ t x, |S t x| = 1)
    (hc0 : 0 < c) (ε : ℝ) (hε : 0 < ε) :
    (Measure.pi fun _ : Fin N => law).real {z | N * ε ≤ ∑ t, S t (fun s => X (z s)) * h (z t)} ≤
      Real.exp (-(ε ^ 2 / (2 * c ^ 2))) ^ N := by
  have hl : 0 < ε / c ^ 2 := by positivity
  obtain ⟨h1, h2⟩ := sign_mgf law X hX h mh c hc h0 S mS hS hc0 (ε / c ^ 2) hl
  refine (measure_ge_le_exp_mul_mgf (N * ε) hl.le h1).trans ?_
  refine (mul_le_mul_of_nonneg_left h2 (Real.exp_nonneg _)).trans (le_of_eq ?_)
  rw [← Real.exp_add, ← Real.exp_nat_mul]
  congr 1
  field_simp
  ring

/-- The mean with signs tends to zero. -/
theorem sign_ae {Ω : Type} [MeasurableSpace Ω] {P : Measure Ω} {Z : ℕ → Ω → β} (hm : ∀ i, Measurable (Z i))
    (hlaw : ∀ i, Measure.map (Z i) P = law) (hind : iIndepFun Z P) :
    ∀ᵐ ω ∂P, Filter.Tendsto (fun N : ℕ => (∑ t : Fin N, rankSign (fun s : Fin N => X (Z s ω)) t * h (Z t ω)) / N)
      Filter.atTop (nhds 0) := by
  have hP : IsProbabilityMeasure P := by
    refine ⟨?_⟩
    have := measure_univ (μ := law)
    rwa [← hlaw 0, Measure.map_apply (hm 0) MeasurableSet.univ, Set.preimage_univ] at this
  have hc1 : ∀ z, |h z| ≤ max c 1 := fun z => (hc z).trans (le_max_left _ _)
  have hc0 : 0 < max c 1 := lt_of_lt_of_le one_pos (le_max_right _ _)
  generalize max c 1 = c at hc1 hc0
  have hpush : ∀ N : ℕ, Measure.map (fun ω (t : Fin N) => Z t ω) P = Measure.pi fun _ : Fin N => law := by
    intro N
    have hi : iIndepFun (fun t : Fin N => Z t) P := hind.precomp Fin.val_injective
    rw [(iIndepFun_iff_map_fun_eq_pi_map fun t : Fin N => (hm t).aemeasurable).mp hi]
    congr 1
    funext t
    exact hlaw t
  have mall : ∀ N : ℕ, Measurable fun ω (t : Fin N) => Z t ω := fun N => measurable_pi_lambda _ fun t => hm t
  have hone : ∀ σ : ℝ, |σ| = 1 → ∀ n : ℕ, ∀ᵐ ω ∂P, ∀ᶠ N : ℕ in Filter.atTop,
      ω ∉ {ω | N * (1 / ((n : ℝ) + 1)) ≤ ∑ t : Fin N, σ * rankSign (fun s : Fin N => X (Z s ω)) t * h (Z t ω)} := by
    intro σ hσ n
    have hε : (0 : ℝ) < 1 / ((n : ℝ) + 1) := by positivity
    generalize 1 / ((n : ℝ) + 1) = ε at hε
    refine ae_eventually_notMem ?_
    have hr : Real.exp (-(ε ^ 2 / (2 * c ^ 2))) < 1 := by
      rw [Real.exp_lt_one_iff]
      have : 0 < ε ^ 2 / (2 * c ^ 2) := by positivity
      linarith
    have hs := (summable_geometric_of_lt_one (Real.exp_nonneg _) hr).tsum_ofReal_ne_top
    refine ne_top_of_le_ne_top hs (ENNReal.tsum_le_tsum fun N => ?_)
    have mset : MeasurableSet {z : Fin N → β | N * ε ≤ ∑ t, σ * rankSign (fun s => X (z s)) t * h (z t)} := by
      refine measurableSet_le measurable_const (Finset.measurable_sum _ fun t _ => ?_)
      refine (((measurable_rankSign t).comp (measurable_pi_lambda _ fun s => hX.comp (measurable_pi_apply s))).const_mul σ).mul ?_
      exact mh.comp (measurable_pi_apply t)
    have ht := sign_tail law X hX h mh c hc1 h0 (fun t x => σ * rankSign x t) (fun t => (measurable_rankSign t).const_mul σ)
      (fun t x => by rw [abs_mul, hσ, abs_rankSign, one_mul]) hc0 ε hε (N := N)
    rw [← hpush N, measureReal_def, Measure.map_apply (mall N) mset] at ht
    rw [← ENNReal.ofReal_toReal (measure_ne_top P {ω | N * ε ≤ ∑ t : Fin N, σ * rankSign (fun s : Fin N => X (Z s ω)) t * h (Z t ω)})]
    exact ENNReal.ofReal_le_ofReal ht
  have hall := fun σ hσ => ae_all_iff.mpr (hone σ hσ)
  filter_upwards [hall 1 (by norm_num), hall (-1) (by norm_num)] with ω h1 h2
  rw [Metric.tendsto_atTop']
  intro ε hε
  obtain ⟨n, hn⟩ := exists_nat_one_div_lt hε
  obtain ⟨N0, hN0⟩ := Filter.eventually_atTop.mp ((h1 n).and (h2 n))
  refine ⟨N0, fun N hN => ?_⟩
  obtain ⟨a1, a2⟩ := hN0 N hN.le
  simp only [not_le, one_mul, neg_mul, Finset.sum_neg_distrib] at a1 a2
  have hNpos : (0 : ℝ) < N := by exact_mod_cast (Nat.zero_le _).trans_lt hN
  rw [dist_zero_right, Real.norm_eq_abs, abs_div, abs_of_pos hNpos, div_lt_iff₀ hNpos]
  refine (abs_lt.mpr ⟨by linarith, a1⟩).trans_le ?_
  rw [mul_comm]
  exact mul_le_mul_of_nonneg_right hn.le hNpos.le

end

end SALib
