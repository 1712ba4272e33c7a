import Verif.Spec.LatinMean
import Verif.Lemmas.DerivMeasure
import Verif.Lemmas.LatinPairs
import Mathlib.MeasureTheory.Constructions.Pi
import Mathlib.MeasureTheory.Integral.Pi
import Mathlib.MeasureTheory.Integral.Bochner.SumMeasure
import Mathlib.Probability.UniformOn
import Mathlib.Probability.Independence.Basic
import Mathlib.GroupTheory.GroupAction.MultipleTransitivity

/-! # Means over random Latin hypercube designs -/

namespace SALib

open MeasureTheory ProbabilityTheory Spec

variable {g N : Nat}

instance instProbUnit : IsProbabilityMeasure (unifOn 0 1) := isProb_unifOn one_pos

instance instProbCube (g : Nat) : IsProbabilityMeasure (cube g) := by unfold cube; infer_instance

/-- The uniform distribution on `N` numbers. -/
noncomputable def unifFin (N : Nat) : Measure (Fin N) := uniformOn Set.univ

theorem isProb_unifFin (hN : 0 < N) : IsProbabilityMeasure (unifFin N) := by
  haveI : Nonempty (Fin N) := ⟨⟨0, hN⟩⟩
  exact uniformOn_isProbabilityMeasure Set.finite_univ Set.univ_nonempty

theorem unifFin_singleton (hN : 0 < N) (i : Fin N) : (unifFin N).real {i} = 1 / N := by
  unfold unifFin
  rw [measureReal_def, uniformOn_univ]
  simp [Measure.count_singleton, ENNReal.toReal_div]

/-- A random stratum and a random position in it make a random number. -/
theorem strata_preserving (hN : 0 < N) :
    MeasurePreserving (fun p : Fin N × ℝ => ((p.1 : ℝ) + p.2) / N) ((unifFin N).prod (unifOn 0 1)) (unifOn 0 1) := by
  haveI := isProb_unifFin hN
  have hN' : (0 : ℝ) < N := by exact_mod_cast hN
  have hm : Measurable (fun p : Fin N × ℝ => ((p.1 : ℝ) + p.2) / N) := by
    refine Measurable.div_const (Measurable.add ?_ measurable_snd) _
    exact (measurable_of_countable fun i : Fin N => ((i : Nat) : ℝ)).comp measurable_fst
  refine ⟨hm, ?_⟩
  haveI : IsProbabilityMeasure (Measure.map (fun p : Fin N × ℝ => ((p.1 : ℝ) + p.2) / N)
    ((unifFin N).prod (unifOn 0 1))) := Measure.isProbabilityMeasure_map hm.aemeasurable
  refine Measure.ext fun B hB => ?_
  have hreal : (Measure.map (fun p : Fin N × ℝ => ((p.1 : ℝ) + p.2) / N) ((unifFin N).prod (unifOn 0 1))).real B =
      (unifOn 0 1).real B := by
    have hf : Measurable (B.indicator (1 : ℝ → ℝ)) := measurable_one.indicator hB
    have hbd : ∀ x, ‖B.indicator (1 : ℝ → ℝ) x‖ ≤ 1 := by
      intro x
      by_cases hx : x ∈ B <;> simp [hx]
    have hii : ∀ a b : ℝ, IntervalIntegrable (B.indicator (1 : ℝ → ℝ)) volume a b := by
      intro a b
      refine (intervalIntegrable_const (c := (1 : ℝ))).mono_fun hf.aestronglyMeasurable ?_
      exact Filter.Eventually.of_forall fun x => by simpa using hbd x
    have hint : Integrable (fun p : Fin N × ℝ => B.indicator (1 : ℝ → ℝ) (((p.1 : ℝ) + p.2) / N))
        ((unifFin N).prod (unifOn 0 1)) := Integrable.of_bound (hf.comp hm).aestronglyMeasurable 1
      (Filter.Eventually.of_forall fun p => hbd _)
    rw [← integral_indicator_one hB, ← integral_indicator_one hB, integral_map hm.aemeasurable hf.aestronglyMeasurable,
      integral_prod _ hint, integral_fintype (Integrable.of_finite)]
    simp only [unifFin_singleton hN, smul_eq_mul]
    have hcell : ∀ i : Fin N, ∫ x, B.indicator (1 : ℝ → ℝ) (((i : ℝ) + x) / N) ∂unifOn 0 1 =
        N * ∫ x in ((i : Nat) : ℝ) / N..((i : Nat) + 1 : ℕ) / N, B.indicator (1 : ℝ → ℝ) x := by
      intro i
      rw [integral_unifOn one_pos]
      have h1 := intervalIntegral.integral_comp_div_add (f := B.indicator (1 : ℝ → ℝ)) (a := 0) (b := 1) hN'.ne'
        ((i : ℝ) / N)
      simp only [sub_zero, inv_one, one_mul]
      rw [show (fun x : ℝ => B.indicator (1 : ℝ → ℝ) (((i : ℝ) + x) / N)) =
        fun x => B.indicator (1 : ℝ → ℝ) (x / N + i / N) by funext x; congr 1; ring, h1, smul_eq_mul]
      congr 2
      · ring
      · push_cast; ring
    rw [Finset.sum_congr rfl fun i _ => by rw [hcell i]]
    rw [Fin.sum_univ_eq_sum_range (fun i => 1 / (N : ℝ) * (N * ∫ x in (i : ℝ) / N..(i + 1 : ℕ) / N,
      B.indicator (1 : ℝ → ℝ) x)) N]
    have := intervalIntegral.sum_integral_adjacent_intervals (f := B.indicator (1 : ℝ → ℝ)) (μ := volume)
      (a := fun i : ℕ => (i : ℝ) / N) (n := N) (fun k _ => hii _ _)
    have e : ∀ i ∈ Finset.range N, 1 / (N : ℝ) * (N * ∫ x in (i : ℝ) / N..(i + 1 : ℕ) / N, B.indicator (1 : ℝ → ℝ) x) =
        ∫ x in (i : ℝ) / N..((i + 1 : ℕ) : ℝ) / N, B.indicator (1 : ℝ → ℝ) x := by
      intro i _
      field_simp
    rw [Finset.sum_congr rfl e, this, integral_unifOn one_pos]
    simp [hN'.ne']
  have h1 := ofReal_measureReal (μ := Measure.map (fun p : Fin N × ℝ => ((p.1 : ℝ) + p.2) / N)
    ((unifFin N).prod (unifOn 0 1))) (s := B)
  have h2 := ofReal_measureReal (μ := unifOn 0 1) (s := B)
  rw [← h1, ← h2, hreal]

/-- A point of the cube, by its cell and its position in the cell. -/
noncomputable def cellPt (c : Fin g → Fin N) (u : Fin g → ℝ) : Fin g → ℝ := fun k => ((c k : ℝ) + u k) / N

theorem measurable_cellPt (c : Fin g → Fin N) : Measurable (cellPt (N := N) c) := by
  refine measurable_pi_lambda _ fun k => ?_
  exact ((measurable_pi_apply k).const_add _).div_const _

theorem cells_preserving (hN : 0 < N) :
    MeasurePreserving (fun p : (Fin g → Fin N) × (Fin g → ℝ) => cellPt p.1 p.2)
      ((Measure.pi fun _ => unifFin N).prod (cube g)) (cube g) := by
  haveI := isProb_unifFin hN
  have h1 := measurePreserving_pi (fun _ : Fin g => (unifFin N).prod (unifOn 0 1)) (fun _ => unifOn 0 1)
    (fun _ => strata_preserving hN)
  have h2 := (measurePreserving_arrowProdEquivProdArrow (Fin N) ℝ (Fin g) (fun _ => unifFin N) (fun _ => unifOn 0 1)).symm
  exact h1.comp h2

theorem unifFin_pi_singleton (hN : 0 < N) (c : Fin g → Fin N) :
    (Measure.pi fun _ : Fin g => unifFin N).real {c} = 1 / (N : ℝ) ^ g := by
  haveI := isProb_unifFin hN
  rw [measureReal_def, Measure.pi_singleton, ENNReal.toReal_prod]
  simp only [← measureReal_def, unifFin_singleton hN]
  simp

/-- The mean over one cell. -/
noncomputable def cellMean (h : (Fin g → ℝ) → ℝ) (c : Fin g → Fin N) : ℝ := ∫ u, h (cellPt c u) ∂cube g

theorem integrable_cell (hN : 0 < N) {h : (Fin g → ℝ) → ℝ} (hh : Integrable h (cube g)) (c : Fin g → Fin N) :
    Integrable (fun u => h (cellPt c u)) (cube g) := by
  haveI := isProb_unifFin hN
  have h1 := (cells_preserving (g := g) hN).integrable_comp_of_integrable hh
  have h2 := h1.prod_right_ae
  rw [ae_iff] at h2
  by_contra hcon
  have h3 : (Measure.pi fun _ : Fin g => unifFin N).real {c} = 0 := by
    rw [measureReal_def]
    rw [measure_mono_null (s := {c}) (fun c' hc' => by rw [Set.mem_singleton_iff.mp hc']; exact hcon) h2]
    rfl
  rw [unifFin_pi_singleton hN] at h3
  have : (0 : ℝ) < 1 / (N : ℝ) ^ g := by positivity
  linarith

/-- The integral over the cube is the mean over the cells. -/
theorem integral_cells (hN : 0 < N) {h : (Fin g → ℝ) → ℝ} (hh : Integrable h (cube g)) :
    ∫ x, h x ∂cube g = (∑ c : Fin g → Fin N, cellMean h c) / (N : ℝ) ^ g := by
  haveI := isProb_unifFin hN
  have hp := cells_preserving (g := g) hN
  have h1 : Integrable (fun p : (Fin g → Fin N) × (Fin g → ℝ) => h (cellPt p.1 p.2))
    ((Measure.pi fun _ : Fin g => unifFin N).prod (cube g)) := hp.integrable_comp_of_integrable hh
  have h2 : ∫ x, h x ∂cube g = ∫ p, h (cellPt p.1 p.2) ∂((Measure.pi fun _ : Fin g => unifFin N).prod (cube g)) := by
    conv_lhs => rw [← hp.map_eq]
    rw [integral_map hp.measurable.aemeasurable (by rw [hp.map_eq]; exact hh.aestronglyMeasurable)]
  rw [h2, integral_prod _ h1, integral_fintype Integrable.of_finite, Finset.sum_div]
  refine Finset.sum_congr rfl fun c _ => ?_
  rw [unifFin_pi_singleton hN, smul_eq_mul, div_mul_eq_mul_div, one_mul]
  rfl

/-! ## Random orders -/

/-- The number of orders that send `s` to `x` and `t` to `y`. -/
theorem card_perm_pair (hN : 2 ≤ N) (s t : Fin N) (hst : s ≠ t) (x y : Fin N) :
    (∑ p : Equiv.Perm (Fin N), if p s = x ∧ p t = y then (1 : ℝ) else 0) / Fintype.card (Equiv.Perm (Fin N)) =
      if x = y then 0 else 1 / ((N : ℝ) * (N - 1)) := by
  have hN2 : (2 : ℝ) ≤ N := by exact_mod_cast hN
  have hcard : (0 : ℝ) < Fintype.card (Equiv.Perm (Fin N)) := by
    exact_mod_cast Fintype.card_pos
  by_cases hxy : x = y
  · subst hxy
    rw [if_pos rfl, Finset.sum_eq_zero, zero_div]
    intro p _
    refine if_neg ?_
    rintro ⟨h1, h2⟩
    exact hst (p.injective (h1.trans h2.symm))
  · rw [if_neg hxy]
    have hsame : ∀ x' y' : Fin N, x' ≠ y' → (∑ p : Equiv.Perm (Fin N), if p s = x' ∧ p t = y' then (1 : ℝ) else 0) =
        ∑ p : Equiv.Perm (Fin N), if p s = x ∧ p t = y then (1 : ℝ) else 0 := by
      intro x' y' hne
      obtain ⟨σ, h1, h2⟩ := MulAction.is_two_pretransitive_iff.mp
        (Equiv.Perm.isMultiplyPretransitive (Fin N) 2) hxy hne
      refine (Fintype.sum_equiv (Equiv.mulLeft σ) _ _ fun p => ?_).symm
      refine if_congr ?_ rfl rfl
      simp only [Equiv.Perm.smul_def] at h1 h2
      rw [Equiv.coe_mulLeft, Equiv.Perm.mul_apply, Equiv.Perm.mul_apply, ← h1, ← h2, σ.apply_eq_iff_eq,
        σ.apply_eq_iff_eq]
    have htot : ∑ x' : Fin N, ∑ y' : Fin N, (∑ p : Equiv.Perm (Fin N), if p s = x' ∧ p t = y' then (1 : ℝ) else 0) =
        Fintype.card (Equiv.Perm (Fin N)) := by
      rw [Finset.sum_congr rfl fun x' _ => Finset.sum_comm, Finset.sum_comm]
      have : ∀ p : Equiv.Perm (Fin N), ∑ x' : Fin N, ∑ y' : Fin N, (if p s = x' ∧ p t = y' then (1 : ℝ) else 0) = 1 := by
        intro p
        rw [Finset.sum_eq_single (p s), Finset.sum_eq_single (p t)]
        · simp
        · intro b _ hb; exact if_neg fun h => hb h.2.symm
        · simp
        · intro b _ hb; exact Finset.sum_eq_zero fun c _ => if_neg fun h => hb h.1.symm
        · simp
      rw [Finset.sum_congr rfl fun p _ => this p]
      simp
    have htot2 : ∑ x' : Fin N, ∑ y' : Fin N, (∑ p : Equiv.Perm (Fin N), if p s = x' ∧ p t = y' then (1 : ℝ) else 0) =
        (N : ℝ) * (N - 1) * ∑ p : Equiv.Perm (Fin N), if p s = x ∧ p t = y then (1 : ℝ) else 0 := by
      have hrow : ∀ x' : Fin N, ∑ y' : Fin N, (∑ p : Equiv.Perm (Fin N), if p s = x' ∧ p t = y' then (1 : ℝ) else 0) =
          ((N : ℝ) - 1) * ∑ p : Equiv.Perm (Fin N), if p s = x ∧ p t = y then (1 : ℝ) else 0 := by
        intro x'
        rw [← Finset.sum_erase_add _ _ (Finset.mem_univ x')]
        rw [Finset.sum_congr rfl fun y' hy' => hsame x' y' (Finset.ne_of_mem_erase hy').symm]
        rw [Finset.sum_const, Finset.card_erase_of_mem (Finset.mem_univ _), Finset.card_univ, Fintype.card_fin,
          nsmul_eq_mul, Nat.cast_sub (by omega), Nat.cast_one]
        rw [Finset.sum_eq_zero (s := (Finset.univ : Finset (Equiv.Perm (Fin N))))
          (f := fun p => if p s = x' ∧ p t = x' then (1 : ℝ) else 0), add_zero]
        intro p _
        exact if_neg fun h => hst (p.injective (h.1.trans h.2.symm))
      rw [Finset.sum_congr rfl fun x' _ => hrow x', Finset.sum_const, Finset.card_univ, Fintype.card_fin, nsmul_eq_mul]
      ring
    rw [htot] at htot2
    have h1 : (N : ℝ) - 1 ≠ 0 := by linarith
    have h0 : (N : ℝ) ≠ 0 := by linarith
    rw [div_eq_div_iff hcard.ne' (mul_ne_zero h0 h1), htot2]
    ring

theorem card_perm_one (hN : 0 < N) (s x : Fin N) :
    (∑ p : Equiv.Perm (Fin N), if p s = x then (1 : ℝ) else 0) / Fintype.card (Equiv.Perm (Fin N)) = 1 / N := by
  have hcard : (0 : ℝ) < Fintype.card (Equiv.Perm (Fin N)) := by
    exact_mod_cast Fintype.card_pos
  have h0 : (N : ℝ) ≠ 0 := by exact_mod_cast hN.ne'
  have hsame : ∀ x' : Fin N, (∑ p : Equiv.Perm (Fin N), if p s = x' then (1 : ℝ) else 0) =
      ∑ p : Equiv.Perm (Fin N), if p s = x then (1 : ℝ) else 0 := by
    intro x'
    refine (Fintype.sum_equiv (Equiv.mulLeft (Equiv.swap x x')) _ _ fun p => ?_).symm
    refine if_congr ?_ rfl rfl
    rw [Equiv.coe_mulLeft, Equiv.Perm.mul_apply]
    have h := (Equiv.swap x x').apply_eq_iff_eq (x := p s) (y := x)
    rw [Equiv.swap_apply_left] at h
    exact h.symm
  have htot : ∑ x' : Fin N, (∑ p : Equiv.Perm (Fin N), if p s = x' then (1 : ℝ) else 0) =
      Fintype.card (Equiv.Perm (Fin N)) := by
    rw [Finset.sum_comm]
    simp
  rw [Finset.sum_congr rfl fun x' _ => hsame x', Finset.sum_const, Finset.card_univ, Fintype.card_fin,
    nsmul_eq_mul] at htot
  rw [div_eq_div_iff hcard.ne' h0, ← htot]
  ring

/-- The mean over all orders of a function of the cells of two rows. -/
theorem mean_orders_pair (hN : 2 ≤ N) (s t : Fin N) (hst : s ≠ t) (a b : (Fin g → Fin N) → ℝ) :
    (∑ p : Fin g → Equiv.Perm (Fin N), a (fun k => p k s) * b (fun k => p k t)) /
        Fintype.card (Fin g → Equiv.Perm (Fin N)) =
      ∑ i, ∑ i', a i * b i' * ∏ k, (if i k = i' k then 0 else 1 / ((N : ℝ) * (N - 1))) := by
  have hexp : ∀ p : Fin g → Equiv.Perm (Fin N), a (fun k => p k s) * b (fun k => p k t) =
      ∑ i, ∑ i', a i * b i' * ∏ k, (if p k s = i k ∧ p k t = i' k then (1 : ℝ) else 0) := by
    intro p
    rw [Finset.sum_eq_single fun k => p k s, Finset.sum_eq_single fun k => p k t]
    · simp
    · intro i' _ hne
      obtain ⟨k, hk⟩ := Function.ne_iff.mp hne
      rw [Finset.prod_eq_zero (Finset.mem_univ k) (if_neg fun h => hk h.2.symm), mul_zero]
    · simp
    · intro i _ hne
      obtain ⟨k, hk⟩ := Function.ne_iff.mp hne
      refine Finset.sum_eq_zero fun i' _ => ?_
      rw [Finset.prod_eq_zero (Finset.mem_univ k) (if_neg fun h => hk h.1.symm), mul_zero]
    · simp
  rw [Finset.sum_congr rfl fun p _ => hexp p, Finset.sum_comm, Finset.sum_div]
  refine Finset.sum_congr rfl fun i _ => ?_
  rw [Finset.sum_comm, Finset.sum_div]
  refine Finset.sum_congr rfl fun i' _ => ?_
  rw [← Finset.mul_sum, mul_div_assoc]
  congr 1
  rw [← Fintype.prod_sum (fun k (q : Equiv.Perm (Fin N)) => if q s = i k ∧ q t = i' k then (1 : ℝ) else 0)]
  rw [Fintype.card_pi, Nat.cast_prod, ← Finset.prod_div_distrib]
  exact Finset.prod_congr rfl fun k _ => card_perm_pair hN s t hst (i k) (i' k)

theorem mean_orders_one (hN : 0 < N) (s : Fin N) (a : (Fin g → Fin N) → ℝ) :
    (∑ p : Fin g → Equiv.Perm (Fin N), a (fun k => p k s)) / Fintype.card (Fin g → Equiv.Perm (Fin N)) =
      (∑ i, a i) / (N : ℝ) ^ g := by
  have hexp : ∀ p : Fin g → Equiv.Perm (Fin N), a (fun k => p k s) =
      ∑ i, a i * ∏ k, (if p k s = i k then (1 : ℝ) else 0) := by
    intro p
    rw [Finset.sum_eq_single fun k => p k s]
    · simp
    · intro i _ hne
      obtain ⟨k, hk⟩ := Function.ne_iff.mp hne
      rw [Finset.prod_eq_zero (Finset.mem_univ k) (if_neg fun h => hk h.symm), mul_zero]
    · simp
  rw [Finset.sum_congr rfl fun p _ => hexp p, Finset.sum_comm, Finset.sum_div, Finset.sum_div]
  refine Finset.sum_congr rfl fun i _ => ?_
  rw [← Finset.mul_sum, mul_div_assoc, div_eq_mul_one_div (a i)]
  congr 1
  rw [← Fintype.prod_sum (fun k (q : Equiv.Perm (Fin N)) => if q s = i k then (1 : ℝ) else 0)]
  rw [Fintype.card_pi, Nat.cast_prod, ← Finset.prod_div_distrib]
  rw [Finset.prod_congr rfl fun k _ => card_perm_one hN s (i k)]
  simp

end SALib
