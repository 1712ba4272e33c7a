import Verif.Lemmas.GaussMoments
import Verif.Lemmas.TensorSum
import Verif.Spec.Oakley

/-! # Variance and effects of functions with terms in single inputs and products of two -/

namespace SALib

open Real Finset Spec MeasureTheory ProbabilityTheory

open scoped NNReal

/-! ## One normal input -/

/-- The terms of the function of Oakley and O'Hagan in one input alone. -/
noncomputable def oakleyTerm (a b c m x : ℝ) : ℝ := a * x + b * sin x + c * cos x + m * x ^ 2

theorem integral_combination {n : Nat} (μ : Measure ℝ) (k : Fin n → ℝ) (f : Fin n → ℝ → ℝ) (hf : ∀ i, Integrable (f i) μ) :
    ∫ x, ∑ i, k i * f i x ∂μ = ∑ i, k i * ∫ x, f i x ∂μ := by
  rw [integral_finsetSum _ fun i _ => (hf i).const_mul (k i)]
  exact Finset.sum_congr rfl fun i _ => integral_const_mul _ _

theorem oakleyTerm_memLp (v : ℝ≥0) (a b c m : ℝ) : MemLp (oakleyTerm a b c m) 2 (gaussianReal 0 v) := by
  have h1 : MemLp (fun x : ℝ => x) 2 (gaussianReal 0 v) := memLp_id_gaussianReal 2
  have h2 : MemLp (fun x : ℝ => x ^ 2) 2 (gaussianReal 0 v) := by
    refine (memLp_two_iff_integrable_sq (by fun_prop)).mpr ?_
    simpa only [← pow_mul] using integrable_gauss_pow v 4
  have h3 : MemLp (fun x : ℝ => sin x) 2 (gaussianReal 0 v) :=
    MemLp.of_bound (C := 1) (by fun_prop) (Filter.Eventually.of_forall fun x => abs_sin_le_one x)
  have h4 : MemLp (fun x : ℝ => cos x) 2 (gaussianReal 0 v) :=
    MemLp.of_bound (C := 1) (by fun_prop) (Filter.Eventually.of_forall fun x => abs_cos_le_one x)
  unfold oakleyTerm
  exact (((h1.const_mul a).add (h3.const_mul b)).add (h4.const_mul c)).add (h2.const_mul m)

theorem oakleyTerm_mean (v : ℝ≥0) (a b c m : ℝ) :
    ∫ x, oakleyTerm a b c m x ∂gaussianReal 0 v = c * exp (-(v / 2)) + m * v := by
  have e : ∀ x, oakleyTerm a b c m x = ∑ i, ![a, b, c, m] i *
      ![fun x => x ^ 1 * cos (0 * x), fun x => x ^ 0 * sin (1 * x), fun x => x ^ 0 * cos (1 * x),
        fun x => x ^ 2 * cos (0 * x)] i x := by
    intro x
    simp [Fin.sum_univ_four, oakleyTerm]
  simp_rw [e]
  have hc : ∀ n : Nat, ∀ t : ℝ, Integrable (fun x : ℝ => x ^ n * cos (t * x)) (gaussianReal 0 v) := fun n t =>
    integrable_gauss_mul v n _ (by fun_prop) fun x => abs_cos_le_one _
  have hs : ∀ n : Nat, ∀ t : ℝ, Integrable (fun x : ℝ => x ^ n * sin (t * x)) (gaussianReal 0 v) := fun n t =>
    integrable_gauss_mul v n _ (by fun_prop) fun x => abs_sin_le_one _
  rw [integral_combination]
  · have h1 := gauss_x v
    have h2 := gauss_sin v 1
    have h3 := gauss_cos v 1
    have h4 := gauss_x2 v
    simp only [one_mul, one_pow, mul_one] at h2 h3
    simp [Fin.sum_univ_four, h1, h2, h3, h4]
  · intro i
    fin_cases i
    · exact hc 1 0
    · exact hs 0 1
    · exact hc 0 1
    · exact hc 2 0

theorem oakleyTerm_var (v : ℝ≥0) (a b c m : ℝ) :
    Var[oakleyTerm a b c m; gaussianReal 0 v] = oakleyMain v a b c m := by
  rw [variance_eq_sub (oakleyTerm_memLp v a b c m), oakleyTerm_mean]
  have e : ∀ x, (oakleyTerm a b c m ^ 2) x = ∑ i,
      ![a ^ 2, (b ^ 2 + c ^ 2) / 2, (c ^ 2 - b ^ 2) / 2, m ^ 2, 2 * a * b, 2 * a * c, 2 * a * m, b * c, 2 * b * m,
        2 * c * m] i *
      ![fun x => x ^ 2 * cos (0 * x), fun x => x ^ 0 * cos (0 * x), fun x => x ^ 0 * cos (2 * x),
        fun x => x ^ 4 * cos (0 * x), fun x => x ^ 1 * sin (1 * x), fun x => x ^ 1 * cos (1 * x),
        fun x => x ^ 3 * cos (0 * x), fun x => x ^ 0 * sin (2 * x), fun x => x ^ 2 * sin (1 * x),
        fun x => x ^ 2 * cos (1 * x)] i x := by
    intro x
    simp only [Fin.sum_univ_succ, Fin.sum_univ_zero, Matrix.cons_val_zero, Matrix.cons_val_succ, Pi.pow_apply, oakleyTerm,
      zero_mul, cos_zero, mul_one, pow_zero, one_mul, pow_one, cos_two_mul, sin_two_mul, add_zero]
    linear_combination (-b ^ 2) * sin_sq_add_cos_sq x + 2 * b ^ 2 * sin_sq_add_cos_sq x
  simp_rw [e]
  have hc : ∀ n : Nat, ∀ t : ℝ, Integrable (fun x : ℝ => x ^ n * cos (t * x)) (gaussianReal 0 v) := fun n t =>
    integrable_gauss_mul v n _ (by fun_prop) fun x => abs_cos_le_one _
  have hs : ∀ n : Nat, ∀ t : ℝ, Integrable (fun x : ℝ => x ^ n * sin (t * x)) (gaussianReal 0 v) := fun n t =>
    integrable_gauss_mul v n _ (by fun_prop) fun x => abs_sin_le_one _
  rw [integral_combination]
  · have h1 := gauss_x2 v
    have h3 := gauss_cos v 2
    have h4 := gauss_x4 v
    have h5 := gauss_x_sin v 1
    have h6 := gauss_x_cos v 1
    have h7 := gauss_x3 v
    have h8 := gauss_sin v 2
    have h9 := gauss_xx_sin v 1
    have h10 := gauss_xx_cos v 1
    rw [show -((v : ℝ) * 2 ^ 2 / 2) = -(2 * v) by ring] at h3
    simp only [one_mul, one_pow, mul_one] at h5 h6 h9 h10
    simp only [Fin.sum_univ_succ, Fin.sum_univ_zero, Matrix.cons_val_zero, Matrix.cons_val_succ, zero_mul, cos_zero,
      mul_one, pow_zero, one_mul, pow_one, h1, h3, h4, h5, h6, h7, h8, h9, h10, integral_const, probReal_univ, smul_eq_mul]
    unfold oakleyMain
    ring
  · intro i
    fin_cases i
    · exact hc 2 0
    · exact hc 0 0
    · exact hc 0 2
    · exact hc 4 0
    · exact hs 1 1
    · exact hc 1 1
    · exact hc 3 0
    · exact hs 0 2
    · exact hs 2 1
    · exact hc 2 1

/-! ## Several inputs -/

variable {d : Nat}

/-- A sum of functions of single inputs and of multiples of products of two different inputs. -/
noncomputable def quadModel (h : Fin d → ℝ → ℝ) (w : Fin d × Fin d → ℝ) (x : Fin d → ℝ) : ℝ :=
  (∑ i, h i (x i)) + ∑ p ∈ inputPairs d, w p * (x p.1 * x p.2)

/-- The factors of a product of two inputs. -/
def pairFactor (p : Fin d × Fin d) (t : Fin d) (u : ℝ) : ℝ := if t = p.1 ∨ t = p.2 then u else 1

/-- The factors of a function of one input. -/
def oneFactor (k : Fin d) (f : ℝ → ℝ) (t : Fin d) (u : ℝ) : ℝ := if t = k then f u else 1

theorem prod_pairFactor (p : Fin d × Fin d) (hp : p.1 ≠ p.2) (x : Fin d → ℝ) :
    ∏ t, pairFactor p t (x t) = x p.1 * x p.2 := by
  rw [Fintype.prod_eq_mul p.1 p.2 hp fun t ht => by unfold pairFactor; rw [if_neg (by tauto)]]
  simp [pairFactor]

theorem prod_oneFactor (k : Fin d) (f : ℝ → ℝ) (x : Fin d → ℝ) : ∏ t, oneFactor k f t (x t) = f (x k) := by
  rw [Fintype.prod_eq_single k fun t ht => by unfold oneFactor; rw [if_neg ht]]
  simp [oneFactor]

theorem mem_inputPairs (p : Fin d × Fin d) : p ∈ inputPairs d ↔ p.1 < p.2 := by simp [inputPairs]

theorem pairs_differ (p q : Fin d × Fin d) (hp : p ∈ inputPairs d) (hq : q ∈ inputPairs d) (hne : p ≠ q) :
    ∃ t, (t = p.1 ∨ t = p.2) ∧ ¬(t = q.1 ∨ t = q.2) := by
  rw [mem_inputPairs] at hp hq
  by_contra hc
  push Not at hc
  have h1 := hc p.1 (Or.inl rfl)
  have h2 := hc p.2 (Or.inr rfl)
  apply hne
  rcases h1 with h1 | h1 <;> rcases h2 with h2 | h2
  · rw [h1, h2] at hp; exact absurd hp (lt_irrefl _)
  · exact Prod.ext h1 h2
  · rw [h1, h2] at hp; exact absurd (hp.trans hq) (lt_irrefl _)
  · rw [h1, h2] at hp; exact absurd hp (lt_irrefl _)

variable (ν : Fin d → Measure ℝ) [∀ i, IsProbabilityMeasure (ν i)] (hν : ∀ i, MemLp (fun x : ℝ => x) 2 (ν i))
  (h0 : ∀ i, ∫ x, x ∂ν i = 0) (h : Fin d → ℝ → ℝ) (hh : ∀ i, MemLp (h i) 2 (ν i)) (w : Fin d × Fin d → ℝ)

include hν in
theorem memLp_pairFactor (p : Fin d × Fin d) (t : Fin d) : MemLp (pairFactor p t) 2 (ν t) := by
  by_cases ht : t = p.1 ∨ t = p.2
  · have : pairFactor p t = fun u => u := by funext u; unfold pairFactor; rw [if_pos ht]
    rw [this]; exact hν t
  · have : pairFactor p t = fun _ => 1 := by funext u; unfold pairFactor; rw [if_neg ht]
    rw [this]; exact memLp_const 1

include hν in
theorem memLp_pair (p : Fin d × Fin d) (hp : p.1 ≠ p.2) : MemLp (fun x : Fin d → ℝ => x p.1 * x p.2) 2 (Measure.pi ν) := by
  have := memLp_prod (n := 1) ν (fun _ => pairFactor p) (fun _ t => memLp_pairFactor ν hν p t) 0
  simpa only [prod_pairFactor p hp] using this

include hh in
theorem memLp_coord (i : Fin d) : MemLp (fun x : Fin d → ℝ => h i (x i)) 2 (Measure.pi ν) :=
  (hh i).comp_measurePreserving (measurePreserving_eval ν i)

include h0 in
theorem integral_pair (p : Fin d × Fin d) (hp : p.1 ≠ p.2) : ∫ x : Fin d → ℝ, x p.1 * x p.2 ∂Measure.pi ν = 0 := by
  simp only [← prod_pairFactor p hp]
  rw [integral_fintype_prod_eq_prod]
  refine Finset.prod_eq_zero (Finset.mem_univ p.1) ?_
  simp [pairFactor, h0]

include h0 in
theorem integral_one_pair (k : Fin d) (f : ℝ → ℝ) (p : Fin d × Fin d) (hp : p.1 ≠ p.2) :
    ∫ x : Fin d → ℝ, f (x k) * (x p.1 * x p.2) ∂Measure.pi ν = 0 := by
  have e : ∀ x : Fin d → ℝ, f (x k) * (x p.1 * x p.2) = ∏ t, (fun u => oneFactor k f t u * pairFactor p t u) (x t) := by
    intro x
    rw [Finset.prod_mul_distrib, prod_pairFactor p hp, prod_oneFactor]
  rw [integral_congr_ae (Filter.Eventually.of_forall e),
    integral_fintype_prod_eq_prod (f := fun t u => oneFactor k f t u * pairFactor p t u)]
  by_cases h1 : p.1 = k
  · refine Finset.prod_eq_zero (Finset.mem_univ p.2) ?_
    have : p.2 ≠ k := fun h => hp (h1.trans h.symm)
    simp [pairFactor, oneFactor, this, h0]
  · refine Finset.prod_eq_zero (Finset.mem_univ p.1) ?_
    simp [pairFactor, oneFactor, h1, h0]

include h0 in
theorem integral_pair_pair (p q : Fin d × Fin d) (hp : p ∈ inputPairs d) (hq : q ∈ inputPairs d) :
    ∫ x : Fin d → ℝ, (x p.1 * x p.2) * (x q.1 * x q.2) ∂Measure.pi ν =
      if p = q then (∫ x, x ^ 2 ∂ν p.1) * ∫ x, x ^ 2 ∂ν p.2 else 0 := by
  have hp' : p.1 ≠ p.2 := ((mem_inputPairs p).mp hp).ne
  have hq' : q.1 ≠ q.2 := ((mem_inputPairs q).mp hq).ne
  have e : ∀ x : Fin d → ℝ, (x p.1 * x p.2) * (x q.1 * x q.2) =
      ∏ t, (fun u => pairFactor p t u * pairFactor q t u) (x t) := by
    intro x
    rw [Finset.prod_mul_distrib, prod_pairFactor p hp', prod_pairFactor q hq']
  rw [integral_congr_ae (Filter.Eventually.of_forall e),
    integral_fintype_prod_eq_prod (f := fun t u => pairFactor p t u * pairFactor q t u)]
  by_cases hpq : p = q
  · subst hpq
    rw [if_pos rfl, Fintype.prod_eq_mul p.1 p.2 hp' fun t ht => by simp [pairFactor, ht]]
    simp [pairFactor, sq]
  · rw [if_neg hpq]
    obtain ⟨t, h1, h2⟩ := pairs_differ p q hp hq hpq
    refine Finset.prod_eq_zero (Finset.mem_univ t) ?_
    simp [pairFactor, h1, h2, h0]

include hν hh in
theorem memLp_quad : MemLp (quadModel h w) 2 (Measure.pi ν) := by
  unfold quadModel
  exact (memLp_finsetSum _ fun i _ => memLp_coord ν h hh i).add
    (memLp_finsetSum _ fun p hp => (memLp_pair ν hν p ((mem_inputPairs p).mp hp).ne).const_mul (w p))

include hν h0 hh in
theorem variance_quad : Var[quadModel h w; Measure.pi ν] = ∑ i, Var[h i; ν i] +
    ∑ p ∈ inputPairs d, w p ^ 2 * ((∫ x, x ^ 2 ∂ν p.1) * ∫ x, x ^ 2 ∂ν p.2) := by
  have hA : ∀ i, MemLp (fun x : Fin d → ℝ => h i (x i)) 2 (Measure.pi ν) := fun i => memLp_coord ν h hh i
  have hB' : ∀ p ∈ inputPairs d, MemLp (fun x : Fin d → ℝ => x p.1 * x p.2) 2 (Measure.pi ν) := fun p hp =>
    memLp_pair ν hν p ((mem_inputPairs p).mp hp).ne
  have hB : ∀ p ∈ inputPairs d, MemLp (fun x : Fin d → ℝ => w p * (x p.1 * x p.2)) 2 (Measure.pi ν) := fun p hp =>
    (hB' p hp).const_mul (w p)
  have hSA : MemLp (fun x : Fin d → ℝ => ∑ i, h i (x i)) 2 (Measure.pi ν) := memLp_finsetSum _ fun i _ => hA i
  have hSB : MemLp (fun x : Fin d → ℝ => ∑ p ∈ inputPairs d, w p * (x p.1 * x p.2)) 2 (Measure.pi ν) :=
    memLp_finsetSum _ hB
  have hVA : Var[fun x : Fin d → ℝ => ∑ i, h i (x i); Measure.pi ν] = ∑ i, Var[h i; ν i] := by
    rw [← variance_sum_pi hh]
    congr 1
    funext x
    simp
  have hc : cov[fun x : Fin d → ℝ => ∑ i, h i (x i), fun x : Fin d → ℝ => ∑ p ∈ inputPairs d, w p * (x p.1 * x p.2); Measure.pi ν] =
      0 := by
    rw [covariance_fun_sum_fun_sum' (fun i _ => hA i) hB]
    refine Finset.sum_eq_zero fun i _ => Finset.sum_eq_zero fun p hp => ?_
    have hp' := ((mem_inputPairs p).mp hp).ne
    rw [covariance_const_mul_right, covariance_eq_sub (hA i) (hB' p hp), integral_pair ν h0 p hp']
    have : ∫ x : Fin d → ℝ, ((fun x : Fin d → ℝ => h i (x i)) * fun x : Fin d → ℝ => x p.1 * x p.2) x ∂Measure.pi ν = 0 :=
      integral_one_pair ν h0 i (h i) p hp'
    rw [this]
    ring
  have hVB : Var[fun x : Fin d → ℝ => ∑ p ∈ inputPairs d, w p * (x p.1 * x p.2); Measure.pi ν] =
      ∑ p ∈ inputPairs d, w p ^ 2 * ((∫ x, x ^ 2 ∂ν p.1) * ∫ x, x ^ 2 ∂ν p.2) := by
    rw [variance_fun_sum' hB]
    refine Finset.sum_congr rfl fun p hp => ?_
    have key : ∀ q ∈ inputPairs d, cov[fun x : Fin d → ℝ => w p * (x p.1 * x p.2), fun x => w q * (x q.1 * x q.2);
        Measure.pi ν] = if p = q then w p ^ 2 * ((∫ x, x ^ 2 ∂ν p.1) * ∫ x, x ^ 2 ∂ν p.2) else 0 := by
      intro q hq
      rw [covariance_const_mul_right, covariance_const_mul_left, covariance_eq_sub (hB' p hp) (hB' q hq),
        integral_pair ν h0 p ((mem_inputPairs p).mp hp).ne, integral_pair ν h0 q ((mem_inputPairs q).mp hq).ne]
      have : ∫ x : Fin d → ℝ, ((fun x : Fin d → ℝ => x p.1 * x p.2) * fun x : Fin d → ℝ => x q.1 * x q.2) x ∂Measure.pi ν =
          if p = q then (∫ x, x ^ 2 ∂ν p.1) * ∫ x, x ^ 2 ∂ν p.2 else 0 :=
        integral_pair_pair ν h0 p q hp hq
      rw [this]
      split
      · next he => subst he; ring
      · ring
    rw [Finset.sum_congr rfl key, Finset.sum_ite_eq, if_pos hp]
  unfold quadModel
  rw [variance_fun_add hSA hSB, hVA, hc, hVB]
  ring

include hν h0 hh in
theorem condMean_quad (s : Fin d → Bool) : condMean ν (quadModel h w) s =
    quadModel (fun i t => if s i then h i t else ∫ u, h i u ∂ν i) (fun p => if s p.1 && s p.2 then w p else 0) := by
  funext y
  unfold condMean quadModel
  have e1 : ∀ i, Integrable (fun x : Fin d → ℝ => h i (mix s x y i)) (Measure.pi ν) ∧
      ∫ x : Fin d → ℝ, h i (mix s x y i) ∂Measure.pi ν = if s i then h i (y i) else ∫ u, h i u ∂ν i := by
    intro i
    unfold mix
    cases hs : s i
    · simp only [Bool.false_eq_true, if_false]
      exact ⟨(memLp_coord ν h hh i).integrable one_le_two, integral_comp_eval (hh i).aestronglyMeasurable⟩
    · simp
  have e2 : ∀ p ∈ inputPairs d, Integrable (fun x : Fin d → ℝ => w p * (mix s x y p.1 * mix s x y p.2)) (Measure.pi ν) ∧
      ∫ x : Fin d → ℝ, w p * (mix s x y p.1 * mix s x y p.2) ∂Measure.pi ν =
        (if s p.1 && s p.2 then w p else 0) * (y p.1 * y p.2) := by
    intro p hp
    have hp' := ((mem_inputPairs p).mp hp).ne
    have hi : ∀ i, Integrable (fun x : Fin d → ℝ => x i) (Measure.pi ν) := fun i =>
      (memLp_coord ν (fun _ t => t) hν i).integrable one_le_two
    have h1 : ∀ i, ∫ x : Fin d → ℝ, x i ∂Measure.pi ν = 0 := fun i => by
      rw [← h0 i]
      exact integral_comp_eval (μ := ν) (i := i) (f := fun t : ℝ => t) measurable_id.aestronglyMeasurable
    unfold mix
    cases hs1 : s p.1 <;> cases hs2 : s p.2 <;> simp only [Bool.false_eq_true, if_false, if_true, Bool.and_false,
      Bool.and_true, Bool.and_self, zero_mul]
    · exact ⟨((memLp_pair ν hν p hp').integrable one_le_two).const_mul (w p), by
        rw [integral_const_mul, integral_pair ν h0 p hp', mul_zero]⟩
    · exact ⟨((hi p.1).mul_const _).const_mul _, by rw [integral_const_mul, integral_mul_const, h1]; ring⟩
    · exact ⟨((hi p.2).const_mul _).const_mul _, by rw [integral_const_mul, integral_const_mul, h1]; ring⟩
    · exact ⟨integrable_const _, by simp⟩
  rw [integral_add (integrable_finsetSum _ fun i _ => (e1 i).1) (integrable_finsetSum _ fun p hp => (e2 p hp).1),
    integral_finsetSum _ fun i _ => (e1 i).1, integral_finsetSum _ fun p hp => (e2 p hp).1]
  congr 1
  · exact Finset.sum_congr rfl fun i _ => (e1 i).2
  · exact Finset.sum_congr rfl fun p hp => (e2 p hp).2

include hν h0 hh in
/-- The closed effect of a set of inputs: the terms that contain only these inputs. -/
theorem closedEffect_quad (s : Fin d → Bool) : closedEffect ν (quadModel h w) s = (∑ i, if s i then Var[h i; ν i] else 0) +
    ∑ p ∈ inputPairs d, if s p.1 && s p.2 then w p ^ 2 * ((∫ x, x ^ 2 ∂ν p.1) * ∫ x, x ^ 2 ∂ν p.2) else 0 := by
  unfold closedEffect
  have hh' : ∀ i, MemLp (fun t => if s i then h i t else ∫ u, h i u ∂ν i) 2 (ν i) := by
    intro i
    cases s i
    · simpa using memLp_const _
    · simpa using hh i
  rw [condMean_quad ν hν h0 h hh w s, variance_quad ν hν h0 _ hh']
  congr 1
  · refine Finset.sum_congr rfl fun i _ => ?_
    cases s i
    · simp only [Bool.false_eq_true, if_false]
      rw [variance_eq_integral aemeasurable_const]
      simp
    · simp
  · refine Finset.sum_congr rfl fun p _ => ?_
    cases s p.1 && s p.2 <;> simp

/-- A double sum by diagonal and pairs. -/
theorem sum_diag_pairs (f : Fin d → Fin d → ℝ) :
    ∑ i, ∑ j, f i j = (∑ i, f i i) + ∑ p ∈ inputPairs d, (f p.1 p.2 + f p.2 p.1) := by
  rw [← Finset.sum_product']
  have h1 := Finset.sum_filter_add_sum_filter_not (univ ×ˢ univ : Finset (Fin d × Fin d)) (fun p => p.1 < p.2)
    fun p => f p.1 p.2
  have h2 := Finset.sum_filter_add_sum_filter_not ((univ ×ˢ univ : Finset (Fin d × Fin d)).filter fun p => ¬p.1 < p.2)
    (fun p => p.1 = p.2) fun p => f p.1 p.2
  rw [← h1, ← h2, Finset.sum_add_distrib]
  have h3 : ∑ p ∈ ((univ ×ˢ univ : Finset (Fin d × Fin d)).filter fun p => ¬p.1 < p.2).filter fun p => p.1 = p.2,
      f p.1 p.2 = ∑ i, f i i := by
    refine Finset.sum_bij' (fun p _ => p.1) (fun i _ => (i, i)) ?_ ?_ ?_ ?_ ?_
    · simp
    · simp
    · intro p hp
      simp only [Finset.mem_filter] at hp
      exact Prod.ext rfl hp.2
    · simp
    · intro p hp
      simp only [Finset.mem_filter] at hp
      rw [← hp.2]
  have h4 : ∑ p ∈ ((univ ×ˢ univ : Finset (Fin d × Fin d)).filter fun p => ¬p.1 < p.2).filter fun p => ¬p.1 = p.2,
      f p.1 p.2 = ∑ p ∈ inputPairs d, f p.2 p.1 := by
    refine Finset.sum_bij' (fun p _ => (p.2, p.1)) (fun p _ => (p.2, p.1)) ?_ ?_ ?_ ?_ ?_
    · intro p hp
      simp only [Finset.mem_filter] at hp
      rw [mem_inputPairs]
      exact lt_of_le_of_ne (not_lt.mp hp.1.2) fun h => hp.2 h.symm
    · intro p hp
      rw [mem_inputPairs] at hp
      simp [hp.le, hp.ne']
    · simp
    · simp
    · simp
  have h5 : ∑ p ∈ (univ ×ˢ univ : Finset (Fin d × Fin d)).filter fun p => p.1 < p.2, f p.1 p.2 =
      ∑ p ∈ inputPairs d, f p.1 p.2 := by
    unfold inputPairs
    rw [Finset.univ_product_univ]
  rw [h3, h4, h5]
  ring

/-- The function of Oakley and O'Hagan in this form. -/
theorem oakley_quad (a b c : Fin d → ℝ) (M : Fin d → Fin d → ℝ) : oakley a b c M =
    quadModel (fun i => oakleyTerm (a i) (b i) (c i) (M i i)) (fun p => M p.1 p.2 + M p.2 p.1) := by
  funext x
  unfold oakley quadModel oakleyTerm
  rw [sum_diag_pairs fun i j => M i j * x i * x j]
  simp only [Finset.sum_add_distrib]
  have e1 : ∑ i, M i i * x i * x i = ∑ i, M i i * x i ^ 2 := Finset.sum_congr rfl fun i _ => by ring
  have e2 : ∑ p ∈ inputPairs d, (M p.1 p.2 + M p.2 p.1) * (x p.1 * x p.2) =
      ∑ p ∈ inputPairs d, M p.1 p.2 * x p.1 * x p.2 + ∑ p ∈ inputPairs d, M p.2 p.1 * x p.2 * x p.1 := by
    rw [← Finset.sum_add_distrib]
    exact Finset.sum_congr rfl fun p _ => by ring
  rw [e1, e2]
  ring

end SALib
