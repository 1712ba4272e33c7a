import Verif.Lemmas.LatinMean
import Mathlib.Probability.Moments.Variance

/-! # The mean over a random Latin hypercube design -/

namespace SALib

open MeasureTheory ProbabilityTheory Spec

variable {g N : Nat}

/-- The law of the positions within the strata. -/
noncomputable def offLaw (g N : Nat) : Measure (Fin g → Fin N → ℝ) := Measure.pi fun _ => Measure.pi fun _ => unifOn 0 1

instance instProbOffLaw (g N : Nat) : IsProbabilityMeasure (offLaw g N) := by unfold offLaw; infer_instance

/-- Row `s` of the design, in the unit cube. -/
noncomputable def latinPt (p : StrataOrders N g) (o : Fin g → Fin N → ℝ) (s : Fin N) : Fin g → ℝ :=
  cellPt (fun k => p.order k s) fun k => o k (p.order k s)

theorem pick_preserving (c : Fin g → Fin N) :
    MeasurePreserving (fun (o : Fin g → Fin N → ℝ) k => o k (c k)) (offLaw g N) (cube g) :=
  measurePreserving_pi (fun _ : Fin g => Measure.pi fun _ : Fin N => unifOn 0 1) (fun _ => unifOn 0 1)
    fun k => measurePreserving_eval (fun _ : Fin N => unifOn 0 1) (c k)

theorem eval2_preserving (a b : Fin N) (hab : a ≠ b) :
    MeasurePreserving (fun x : Fin N → ℝ => (x a, x b)) (Measure.pi fun _ => unifOn 0 1)
      ((unifOn 0 1).prod (unifOn 0 1)) := by
  have hi := (iIndepFun_pi (μ := fun _ : Fin N => unifOn 0 1) (X := fun _ => id) fun _ => aemeasurable_id).indepFun hab
  refine ⟨(measurable_pi_apply a).prodMk (measurable_pi_apply b), ?_⟩
  have h := hi.map_prod_eq_prod_map_map (measurable_pi_apply a).aemeasurable (measurable_pi_apply b).aemeasurable
  have ha := (measurePreserving_eval (fun _ : Fin N => unifOn 0 1) a).map_eq
  have hb := (measurePreserving_eval (fun _ : Fin N => unifOn 0 1) b).map_eq
  refine h.trans ?_
  exact congrArg₂ Measure.prod ha hb

theorem pick2_preserving (c c' : Fin g → Fin N) (hc : ∀ k, c k ≠ c' k) :
    MeasurePreserving (fun (o : Fin g → Fin N → ℝ) => ((fun k => o k (c k)), fun k => o k (c' k))) (offLaw g N)
      ((cube g).prod (cube g)) := by
  have h1 := measurePreserving_pi (fun _ : Fin g => Measure.pi fun _ : Fin N => unifOn 0 1)
    (fun _ => (unifOn 0 1).prod (unifOn 0 1)) fun k => eval2_preserving (c k) (c' k) (hc k)
  have h2 := measurePreserving_arrowProdEquivProdArrow ℝ ℝ (Fin g) (fun _ => unifOn 0 1) (fun _ => unifOn 0 1)
  exact h2.comp h1

theorem integral_pick (c : Fin g → Fin N) (h : (Fin g → ℝ) → ℝ) (hm : Measurable h) :
    ∫ o, h (cellPt c fun k => o k (c k)) ∂offLaw g N = cellMean h c := by
  have hp := pick_preserving (g := g) c
  have hmm : Measurable fun u => h (cellPt c u) := hm.comp (measurable_cellPt c)
  unfold cellMean
  conv_rhs => rw [← hp.map_eq]
  rw [integral_map hp.measurable.aemeasurable hmm.aestronglyMeasurable]

theorem integrable_pick (hN : 0 < N) (c : Fin g → Fin N) (h : (Fin g → ℝ) → ℝ) (hh : Integrable h (cube g)) :
    Integrable (fun o : Fin g → Fin N → ℝ => h (cellPt c fun k => o k (c k))) (offLaw g N) :=
  (pick_preserving (g := g) c).integrable_comp_of_integrable (integrable_cell hN hh c)

theorem memLp_cell (hN : 0 < N) {h : (Fin g → ℝ) → ℝ} (hm : Measurable h) (hh : MemLp h 2 (cube g))
    (c : Fin g → Fin N) : MemLp (fun u => h (cellPt c u)) 2 (cube g) := by
  have hmm : Measurable fun u => h (cellPt c u) := hm.comp (measurable_cellPt c)
  rw [memLp_two_iff_integrable_sq hmm.aestronglyMeasurable]
  exact integrable_cell hN hh.integrable_sq c

theorem memLp_pick (hN : 0 < N) (c : Fin g → Fin N) {h : (Fin g → ℝ) → ℝ} (hm : Measurable h) (hh : MemLp h 2 (cube g)) :
    MemLp (fun o : Fin g → Fin N → ℝ => h (cellPt c fun k => o k (c k))) 2 (offLaw g N) :=
  (memLp_cell hN hm hh c).comp_measurePreserving (pick_preserving (g := g) c)

theorem integral_pick2 (c c' : Fin g → Fin N) (hc : ∀ k, c k ≠ c' k) (h : (Fin g → ℝ) → ℝ) (hm : Measurable h) :
    ∫ o, h (cellPt c fun k => o k (c k)) * h (cellPt c' fun k => o k (c' k)) ∂offLaw g N =
      cellMean h c * cellMean h c' := by
  have hp := pick2_preserving (g := g) c c' hc
  have h1 : ∫ o, h (cellPt c fun k => o k (c k)) * h (cellPt c' fun k => o k (c' k)) ∂offLaw g N =
      ∫ z, h (cellPt c z.1) * h (cellPt c' z.2) ∂((cube g).prod (cube g)) := by
    conv_rhs => rw [← hp.map_eq]
    rw [integral_map hp.measurable.aemeasurable]
    exact (((hm.comp (measurable_cellPt c)).comp measurable_fst).mul
      ((hm.comp (measurable_cellPt c')).comp measurable_snd)).aestronglyMeasurable
  rw [h1, integral_prod_mul (fun u => h (cellPt c u)) fun u => h (cellPt c' u)]
  rfl

section Random

variable {Ω : Type} [MeasurableSpace Ω] {P : Measure Ω} [IsProbabilityMeasure P] {ord : Ω → StrataOrders N g}
  {off : Ω → Fin g → Fin N → ℝ}

/-- Means over the design: over all orders, and over the positions. -/
theorem FairLatin_integral (hL : FairLatin P ord off) (Φ : StrataOrders N g → (Fin g → Fin N → ℝ) → ℝ)
    (hm : ∀ p, Measurable (Φ p)) (hi : ∀ p, Integrable (Φ p) (offLaw g N)) :
    Integrable (fun ω => Φ (ord ω) (off ω)) P ∧
      ∫ ω, Φ (ord ω) (off ω) ∂P = (∑ p, ∫ o, Φ p o ∂offLaw g N) / Fintype.card (StrataOrders N g) := by
  have hlaw : Measure.map off P = offLaw g N := hL.law
  have hjoint := hL.indep.map_prod_eq_prod_map_map hL.meas_ord.aemeasurable hL.meas_off.aemeasurable
  rw [hlaw] at hjoint
  haveI : IsProbabilityMeasure (Measure.map ord P) := Measure.isProbabilityMeasure_map hL.meas_ord.aemeasurable
  have hmeas : Measurable fun z : StrataOrders N g × (Fin g → Fin N → ℝ) => Φ z.1 z.2 :=
    measurable_from_prod_countable_right hm
  have hint : Integrable (fun z : StrataOrders N g × (Fin g → Fin N → ℝ) => Φ z.1 z.2)
      ((Measure.map ord P).prod (offLaw g N)) := by
    rw [integrable_prod_iff hmeas.aestronglyMeasurable]
    exact ⟨Filter.Eventually.of_forall hi, Integrable.of_finite⟩
  have hpair : Measurable fun ω => (ord ω, off ω) := hL.meas_ord.prodMk hL.meas_off
  rw [← hjoint] at hint
  refine ⟨hint.comp_measurable hpair, ?_⟩
  have h1 : ∫ ω, Φ (ord ω) (off ω) ∂P =
      ∫ z, Φ z.1 z.2 ∂Measure.map (fun ω => (ord ω, off ω)) P := by
    rw [integral_map hpair.aemeasurable hmeas.aestronglyMeasurable]
  rw [h1, hjoint, integral_prod _ (by rw [← hjoint]; exact hint), integral_fintype Integrable.of_finite, Finset.sum_div]
  refine Finset.sum_congr rfl fun p _ => ?_
  rw [measureReal_def, Measure.map_apply hL.meas_ord (measurableSet_singleton p), hL.fair, ENNReal.toReal_inv,
    ENNReal.toReal_natCast, smul_eq_mul, inv_mul_eq_div]

theorem card_orders (N g : Nat) : Fintype.card (StrataOrders N g) = Fintype.card (Fin g → Equiv.Perm (Fin N)) :=
  (Fintype.card_congr (StrataOrders.equivFun N g)).symm

theorem sum_orders (φ : StrataOrders N g → ℝ) : ∑ p, φ p = ∑ p : Fin g → Equiv.Perm (Fin N), φ ⟨p⟩ :=
  (Fintype.sum_equiv (StrataOrders.equivFun N g) _ _ fun _ => rfl).symm

/-- The mean output over the rows of the design. -/
noncomputable def latinAvg (h : (Fin g → ℝ) → ℝ) (p : StrataOrders N g) (o : Fin g → Fin N → ℝ) : ℝ :=
  (∑ s, h (latinPt p o s)) / N

theorem measurable_latinPt (p : StrataOrders N g) (s : Fin N) : Measurable fun o => latinPt p o s := by
  refine (measurable_cellPt _).comp ?_
  exact measurable_pi_lambda _ fun k => (measurable_pi_apply _).comp (measurable_pi_apply k)

theorem latin_row_integral (hN : 0 < N) (hL : FairLatin P ord off) {h : (Fin g → ℝ) → ℝ} (hm : Measurable h)
    (hh : Integrable h (cube g)) (s : Fin N) :
    Integrable (fun ω => h (latinPt (ord ω) (off ω) s)) P ∧
      ∫ ω, h (latinPt (ord ω) (off ω) s) ∂P = ∫ x, h x ∂cube g := by
  obtain ⟨h1, h2⟩ := FairLatin_integral hL (fun p o => h (latinPt p o s)) (fun p => hm.comp (measurable_latinPt p s))
    (fun p => integrable_pick hN _ h hh)
  refine ⟨h1, h2.trans ?_⟩
  rw [integral_cells hN hh, ← mean_orders_one hN s, sum_orders, card_orders]
  congr 1
  exact Finset.sum_congr rfl fun p _ => integral_pick _ h hm

theorem latin_pair_integral (hN : 2 ≤ N) (hL : FairLatin P ord off) {h : (Fin g → ℝ) → ℝ} (hm : Measurable h)
    (hh : MemLp h 2 (cube g)) (s t : Fin N) (hst : s ≠ t) :
    Integrable (fun ω => h (latinPt (ord ω) (off ω) s) * h (latinPt (ord ω) (off ω) t)) P ∧
      ∫ ω, h (latinPt (ord ω) (off ω) s) * h (latinPt (ord ω) (off ω) t) ∂P = pairAvg (cellMean (N := N) h) := by
  obtain ⟨h1, h2⟩ := FairLatin_integral hL (fun p o => h (latinPt p o s) * h (latinPt p o t))
    (fun p => (hm.comp (measurable_latinPt p s)).mul (hm.comp (measurable_latinPt p t)))
    (fun p => (memLp_pick (by omega) (fun k => p.order k s) hm hh).integrable_mul
      (memLp_pick (by omega) (fun k => p.order k t) hm hh))
  refine ⟨h1, h2.trans ?_⟩
  unfold pairAvg
  rw [← mean_orders_pair hN s t hst, sum_orders, card_orders]
  congr 1
  refine Finset.sum_congr rfl fun p _ => ?_
  exact integral_pick2 (fun k => p k s) (fun k => p k t) (fun k e => hst ((p k).injective e)) h hm

theorem latin_avg_integral (hN : 0 < N) (hL : FairLatin P ord off) {h : (Fin g → ℝ) → ℝ} (hm : Measurable h)
    (hh : Integrable h (cube g)) :
    Integrable (fun ω => latinAvg h (ord ω) (off ω)) P ∧
      ∫ ω, latinAvg h (ord ω) (off ω) ∂P = ∫ x, h x ∂cube g := by
  have hN' : (N : ℝ) ≠ 0 := by exact_mod_cast hN.ne'
  unfold latinAvg
  refine ⟨(integrable_finset_sum _ fun s _ => (latin_row_integral hN hL hm hh s).1).div_const _, ?_⟩
  rw [integral_div, integral_finset_sum _ fun s _ => (latin_row_integral hN hL hm hh s).1,
    Finset.sum_congr rfl fun s _ => (latin_row_integral hN hL hm hh s).2]
  simp [hN']

theorem memLp_latinAvg (hN : 0 < N) (hL : FairLatin P ord off) {h : (Fin g → ℝ) → ℝ} (hm : Measurable h)
    (hh : MemLp h 2 (cube g)) : MemLp (fun ω => latinAvg h (ord ω) (off ω)) 2 P := by
  have h1 : ∀ s : Fin N, MemLp (fun ω => h (latinPt (ord ω) (off ω) s)) 2 P := by
    intro s
    rw [memLp_two_iff_integrable_sq]
    · exact (latin_row_integral hN hL (hm.pow_const 2) hh.integrable_sq s).1
    · exact (latin_row_integral hN hL hm (hh.integrable (by norm_num)) s).1.aestronglyMeasurable
  unfold latinAvg
  simp only [div_eq_mul_inv]
  exact (memLp_finset_sum _ fun s _ => h1 s).mul_const _

theorem latin_avg_sq (hN : 2 ≤ N) (hL : FairLatin P ord off) {h : (Fin g → ℝ) → ℝ} (hm : Measurable h)
    (hh : MemLp h 2 (cube g)) :
    ∫ ω, latinAvg h (ord ω) (off ω) ^ 2 ∂P =
      (∫ x, h x ^ 2 ∂cube g) / N + ((N : ℝ) - 1) / N * pairAvg (cellMean (N := N) h) := by
  have hN0 : 0 < N := by omega
  have hN' : (N : ℝ) ≠ 0 := by exact_mod_cast hN0.ne'
  have hprod : ∀ s t : Fin N, Integrable (fun ω => h (latinPt (ord ω) (off ω) s) * h (latinPt (ord ω) (off ω) t)) P ∧
      ∫ ω, h (latinPt (ord ω) (off ω) s) * h (latinPt (ord ω) (off ω) t) ∂P =
        if s = t then ∫ x, h x ^ 2 ∂cube g else pairAvg (cellMean (N := N) h) := by
    intro s t
    by_cases hst : s = t
    · subst hst
      have := latin_row_integral hN0 hL (hm.pow_const 2) hh.integrable_sq s
      simp only [sq] at this ⊢
      simpa using this
    · rw [if_neg hst]
      exact latin_pair_integral hN hL hm hh s t hst
  have hexp : ∀ ω, latinAvg h (ord ω) (off ω) ^ 2 =
      (∑ s, ∑ t, h (latinPt (ord ω) (off ω) s) * h (latinPt (ord ω) (off ω) t)) / (N : ℝ) ^ 2 := by
    intro ω
    unfold latinAvg
    rw [div_pow, sq (∑ s, _), Finset.sum_mul_sum]
  simp only [hexp]
  rw [integral_div, integral_finset_sum _ fun s _ => integrable_finset_sum _ fun t _ => (hprod s t).1]
  rw [Finset.sum_congr rfl fun s _ => (integral_finset_sum _ fun t _ => (hprod s t).1).trans
    (Finset.sum_congr rfl fun t _ => (hprod s t).2)]
  have hrow : ∀ s : Fin N, ∑ t : Fin N, (if s = t then ∫ x, h x ^ 2 ∂cube g else pairAvg (cellMean (N := N) h)) =
      (∫ x, h x ^ 2 ∂cube g) + ((N : ℝ) - 1) * pairAvg (cellMean (N := N) h) := by
    intro s
    rw [← Finset.add_sum_erase _ _ (Finset.mem_univ s), if_pos rfl]
    rw [Finset.sum_congr rfl fun t ht => if_neg (Finset.ne_of_mem_erase ht).symm, Finset.sum_const,
      Finset.card_erase_of_mem (Finset.mem_univ _), Finset.card_univ, Fintype.card_fin, nsmul_eq_mul,
      Nat.cast_sub hN0, Nat.cast_one]
  rw [Finset.sum_congr rfl fun s _ => hrow s, Finset.sum_const, Finset.card_univ, Fintype.card_fin, nsmul_eq_mul]
  field_simp

/-- The variance of the mean over the design. -/
theorem latin_variance (hN : 2 ≤ N) (hL : FairLatin P ord off) {h : (Fin g → ℝ) → ℝ} (hm : Measurable h)
    (hh : MemLp h 2 (cube g)) (μ : ℝ) (hμ : μ = ∫ x, h x ∂cube g) :
    Var[fun ω => latinAvg h (ord ω) (off ω); P] =
      Var[h; cube g] / N + ((N : ℝ) - 1) / N * pairAvg (cellMean (N := N) fun x => h x - μ) := by
  have hN0 : 0 < N := by omega
  have hN' : (N : ℝ) ≠ 0 := by exact_mod_cast hN0.ne'
  have h0 : MemLp (fun x => h x - μ) 2 (cube g) := hh.sub (memLp_const μ)
  have hsq := latin_avg_sq hN hL (h := fun x => h x - μ) (hm.sub_const μ) h0
  have hshift : ∀ ω, latinAvg (fun x => h x - μ) (ord ω) (off ω) = latinAvg h (ord ω) (off ω) - μ := by
    intro ω
    unfold latinAvg
    rw [Finset.sum_sub_distrib, Finset.sum_const, Finset.card_univ, Fintype.card_fin, nsmul_eq_mul]
    field_simp
  rw [variance_eq_integral (memLp_latinAvg hN0 hL hm hh).aemeasurable,
    (latin_avg_integral hN0 hL hm (hh.integrable (by norm_num))).2, ← hμ, variance_eq_integral hm.aemeasurable, ← hμ]
  simp only [hshift] at hsq
  exact hsq

theorem cellMean_sq_le (hN : 0 < N) {h : (Fin g → ℝ) → ℝ} (hm : Measurable h) (hh : MemLp h 2 (cube g))
    (c : Fin g → Fin N) : cellMean h c ^ 2 ≤ cellMean (fun x => h x ^ 2) c := by
  have h1 := memLp_cell hN hm hh c
  have h2 := variance_nonneg (fun u => h (cellPt c u)) (cube g)
  rw [variance_eq_sub h1] at h2
  have h3 : 0 ≤ cellMean (fun x => h x ^ 2) c - cellMean h c ^ 2 := h2
  linarith

/-- For any output: at most `N / (N - 1)` times the variance with independent points. -/
theorem latin_variance_le (hN : 2 ≤ N) (hL : FairLatin P ord off) {h : (Fin g → ℝ) → ℝ} (hm : Measurable h)
    (hh : MemLp h 2 (cube g)) :
    Var[fun ω => latinAvg h (ord ω) (off ω); P] ≤ Var[h; cube g] / ((N : ℝ) - 1) := by
  have hN0 : 0 < N := by omega
  have hN2 : (2 : ℝ) ≤ N := by exact_mod_cast hN
  have h1 : 0 < (N : ℝ) - 1 := by linarith
  have hNp : (0 : ℝ) < N := by linarith
  set μ := ∫ x, h x ∂cube g with hμ
  have h0 : MemLp (fun x => h x - μ) 2 (cube g) := hh.sub (memLp_const μ)
  have hm0 : Measurable fun x => h x - μ := hm.sub_const μ
  have hpow : (0 : ℝ) < (N : ℝ) ^ g := by positivity
  have hzero : ∑ c : Fin g → Fin N, cellMean (fun x => h x - μ) c = 0 := by
    have h2 := integral_cells (N := N) hN0 (h0.integrable (by norm_num))
    rw [integral_sub (hh.integrable (by norm_num)) (integrable_const _), ← hμ, integral_const] at h2
    simp only [probReal_univ, one_smul, sub_self] at h2
    rcases div_eq_zero_iff.mp h2.symm with h3 | h3
    · exact h3
    · exact absurd h3 hpow.ne'
  have hsq : (∑ c : Fin g → Fin N, cellMean (fun x => h x - μ) c ^ 2) / (N : ℝ) ^ g ≤ Var[h; cube g] := by
    rw [variance_eq_integral hm.aemeasurable, ← hμ, integral_cells (N := N) hN0 h0.integrable_sq]
    gcongr with c
    exact cellMean_sq_le hN0 hm0 h0 c
  have hp := pairAvg_le hN _ hzero
  rw [latin_variance hN hL hm hh μ hμ]
  have hp2 : pairAvg (cellMean (N := N) fun x => h x - μ) ≤ Var[h; cube g] / ((N : ℝ) - 1) ^ 2 :=
    hp.trans (by gcongr)
  calc Var[h; cube g] / N + ((N : ℝ) - 1) / N * pairAvg (cellMean (N := N) fun x => h x - μ)
      ≤ Var[h; cube g] / N + ((N : ℝ) - 1) / N * (Var[h; cube g] / ((N : ℝ) - 1) ^ 2) := by gcongr
    _ = Var[h; cube g] / ((N : ℝ) - 1) := by field_simp; ring

/-- For outputs that are monotone in every coordinate: at most the variance with independent points. -/
theorem latin_variance_mono (hN : 2 ≤ N) (hL : FairLatin P ord off) {h : (Fin g → ℝ) → ℝ} (hm : Measurable h)
    (hh : MemLp h 2 (cube g))
    (hmono : ∀ k, (∀ x, InBox (fun _ => 0) (fun _ => 1) x → MonotoneOn (fun t => h (Function.update x k t)) (Set.Icc 0 1)) ∨
      ∀ x, InBox (fun _ => 0) (fun _ => 1) x → AntitoneOn (fun t => h (Function.update x k t)) (Set.Icc 0 1)) :
    Var[fun ω => latinAvg h (ord ω) (off ω); P] ≤ Var[h; cube g] / N := by
  have hN0 : 0 < N := by omega
  have hN2 : (2 : ℝ) ≤ N := by exact_mod_cast hN
  have h1 : 0 < (N : ℝ) - 1 := by linarith
  have hNp : (0 : ℝ) < N := by linarith
  set μ := ∫ x, h x ∂cube g with hμ
  have h0 : MemLp (fun x => h x - μ) 2 (cube g) := hh.sub (memLp_const μ)
  have hpow : (0 : ℝ) < (N : ℝ) ^ g := by positivity
  have hzero : (∑ c : Fin g → Fin N, cellMean (fun x => h x - μ) c) / (N : ℝ) ^ g = 0 := by
    have h2 := integral_cells (N := N) hN0 (h0.integrable (by norm_num))
    rw [integral_sub (hh.integrable (by norm_num)) (integrable_const _), ← hμ, integral_const] at h2
    simp only [probReal_univ, one_smul, sub_self] at h2
    exact h2.symm
  have hcellint : ∀ c : Fin g → Fin N, Integrable (fun u => h (cellPt c u) - μ) (cube g) := fun c =>
    integrable_cell hN0 (h0.integrable (by norm_num)) c
  have hupd : ∀ (i : Fin g → Fin N) k (x : Fin N) u, cellPt (Function.update i k x) u =
      Function.update (cellPt i u) k (((x : ℝ) + u k) / N) := by
    intro i k x u
    funext l
    by_cases hl : l = k
    · subst hl; simp [cellPt]
    · simp [cellPt, hl]
  have hfrac : ∀ (x : Fin N) (t : ℝ), t ∈ Set.Icc (0 : ℝ) 1 → ((x : ℝ) + t) / N ∈ Set.Icc (0 : ℝ) 1 := by
    intro x t ht
    have hx : ((x : Nat) : ℝ) + 1 ≤ N := by exact_mod_cast x.is_lt
    constructor
    · have := ht.1
      positivity
    · rw [div_le_one hNp]
      linarith [ht.2]
  have hbox : ∀ᵐ u ∂cube g, InBox (fun _ : Fin g => (0 : ℝ)) (fun _ => 1) u :=
    ae_inBox (lo := fun _ : Fin g => (0 : ℝ)) (hi := fun _ => 1) fun _ => one_pos
  have hpt : ∀ (i : Fin g → Fin N) u, InBox (fun _ : Fin g => (0 : ℝ)) (fun _ => 1) u →
      InBox (fun _ : Fin g => (0 : ℝ)) (fun _ => 1) (cellPt i u) := fun i u hu k => hfrac (i k) (u k) (hu k)
  have hle := pairAvg_le_sq hN (cellMean (N := N) fun x => h x - μ) (by
    intro k
    rcases hmono k with hk | hk
    · have : ∀ i : Fin g → Fin N, Monotone fun x => cellMean (fun x => h x - μ) (Function.update i k x) := by
        intro i x y hxy
        refine integral_mono_ae (hcellint _) (hcellint _) ?_
        filter_upwards [hbox] with u hu
        simp only [hupd]
        refine sub_le_sub_right (hk _ (hpt i u hu) (hfrac _ _ (hu k)) (hfrac _ _ (hu k)) ?_) _
        have : (x : ℝ) ≤ y := by exact_mod_cast hxy
        gcongr
      exact fun i i' => (this i).monovary (this i')
    · have : ∀ i : Fin g → Fin N, Antitone fun x => cellMean (fun x => h x - μ) (Function.update i k x) := by
        intro i x y hxy
        refine integral_mono_ae (hcellint _) (hcellint _) ?_
        filter_upwards [hbox] with u hu
        simp only [hupd]
        refine sub_le_sub_right (hk _ (hpt i u hu) (hfrac _ _ (hu k)) (hfrac _ _ (hu k)) ?_) _
        have : (x : ℝ) ≤ y := by exact_mod_cast hxy
        gcongr
      exact fun i i' => (this i).monovary (this i'))
  rw [hzero] at hle
  rw [latin_variance hN hL hm hh μ hμ]
  have : ((N : ℝ) - 1) / N * pairAvg (cellMean (N := N) fun x => h x - μ) ≤ 0 :=
    mul_nonpos_of_nonneg_of_nonpos (by positivity) (by simpa using hle)
  linarith

/-- For additive outputs the orders do not matter. -/
theorem latin_variance_additive (hN : 0 < N) (hL : FairLatin P ord off) (φ : Fin g → ℝ → ℝ) (c : ℝ)
    (hφ : ∀ k, MemLp (φ k) 2 (unifOn 0 1)) (hφm : ∀ k, Measurable (φ k)) :
    Var[fun ω => latinAvg (fun x => c + ∑ k, φ k (x k)) (ord ω) (off ω); P] =
      (∑ k, ∑ i : Fin N, Var[fun t => φ k (((i : ℝ) + t) / N); unifOn 0 1]) / (N : ℝ) ^ 2 := by
  have hN' : (N : ℝ) ≠ 0 := by exact_mod_cast hN.ne'
  haveI := isProb_unifFin hN
  have hcell : ∀ k (i : Fin N), MemLp (fun t => φ k (((i : ℝ) + t) / N)) 2 (unifOn 0 1) := by
    intro k i
    have hmm : Measurable fun t : ℝ => φ k (((i : ℝ) + t) / N) :=
      (hφm k).comp ((measurable_id.const_add _).div_const _)
    rw [memLp_two_iff_integrable_sq hmm.aestronglyMeasurable]
    have h1 := ((strata_preserving hN).integrable_comp_of_integrable (hφ k).integrable_sq).prod_right_ae
    rw [ae_iff] at h1
    by_contra hcon
    have h3 : (unifFin N).real {i} = 0 := by
      rw [measureReal_def]
      rw [measure_mono_null (s := {i}) (fun c' hc' => by rw [Set.mem_singleton_iff.mp hc']; exact hcon) h1]
      rfl
    rw [unifFin_singleton hN] at h3
    have : (0 : ℝ) < 1 / N := by positivity
    linarith
  have hre : ∀ ω, latinAvg (fun x => c + ∑ k, φ k (x k)) (ord ω) (off ω) =
      c + (N : ℝ)⁻¹ * (∑ k, fun o : Fin g → Fin N → ℝ => (∑ i : Fin N, fun x : Fin N → ℝ => φ k (((i : ℝ) + x i) / N)) (o k))
        (off ω) := by
    intro ω
    unfold latinAvg latinPt cellPt
    rw [Finset.sum_add_distrib, Finset.sum_comm]
    have : ∀ k, ∑ s : Fin N, φ k ((((ord ω).order k s : Nat) + off ω k ((ord ω).order k s)) / N) =
        ∑ i : Fin N, φ k (((i : ℝ) + off ω k i) / N) := fun k =>
      Equiv.sum_comp ((ord ω).order k) fun i => φ k (((i : ℝ) + off ω k i) / N)
    rw [Finset.sum_congr rfl fun k _ => this k]
    simp only [Finset.sum_apply, Finset.sum_const, Finset.card_univ, Fintype.card_fin, nsmul_eq_mul]
    field_simp
  simp only [hre]
  have hlaw : Measure.map off P = offLaw g N := hL.law
  set Ψ : (Fin g → Fin N → ℝ) → ℝ :=
    ∑ k, fun o : Fin g → Fin N → ℝ => (∑ i : Fin N, fun x : Fin N → ℝ => φ k (((i : ℝ) + x i) / N)) (o k) with hΨ
  have hΨm : Measurable Ψ := by
    rw [hΨ, Finset.sum_fn]
    refine Finset.measurable_sum (M := ℝ) (α := Fin g → Fin N → ℝ) _ fun k _ => ?_
    have hk : Measurable (∑ i : Fin N, fun x : Fin N → ℝ => φ k (((i : ℝ) + x i) / N)) := by
      rw [Finset.sum_fn]
      refine Finset.measurable_sum (M := ℝ) (α := Fin N → ℝ) _ fun i _ => ?_
      exact (hφm k).comp (((measurable_pi_apply i).const_add _).div_const _)
    exact hk.comp (measurable_pi_apply k)
  have hΨo : Measurable fun ω => Ψ (off ω) := hΨm.comp hL.meas_off
  have hinner : ∀ k, MemLp (∑ i : Fin N, fun x : Fin N → ℝ => φ k (((i : ℝ) + x i) / N)) 2
      (Measure.pi fun _ : Fin N => unifOn 0 1) := by
    intro k
    refine memLp_finset_sum' _ fun i _ => ?_
    exact (hcell k i).comp_measurePreserving (measurePreserving_eval (fun _ : Fin N => unifOn 0 1) i)
  have e1 : Var[fun ω => c + (N : ℝ)⁻¹ * Ψ (off ω); P] = ((N : ℝ)⁻¹) ^ 2 * Var[fun ω => Ψ (off ω); P] := by
    rw [variance_const_add (hΨo.const_mul _).aestronglyMeasurable, variance_const_mul]
  have e2 : Var[fun ω => Ψ (off ω); P] = Var[Ψ; offLaw g N] := by
    rw [← hlaw, variance_map (by exact hΨm.aemeasurable) hL.meas_off.aemeasurable]
    rfl
  have e3 : Var[Ψ; offLaw g N] = ∑ k, ∑ i : Fin N, Var[fun t => φ k (((i : ℝ) + t) / N); unifOn 0 1] := by
    rw [hΨ]
    refine (variance_sum_pi hinner).trans ?_
    refine Finset.sum_congr rfl fun k _ => ?_
    exact variance_sum_pi (X := fun (i : Fin N) t => φ k (((i : ℝ) + t) / N)) (hcell k)
  rw [e1, e2, e3, inv_pow, inv_mul_eq_div]

end Random

end SALib
