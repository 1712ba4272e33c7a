import Verif.Spec.DeltaLimit
import Verif.Lemmas.DeltaClasses
import Verif.Lemmas.Resample
import Verif.Props.PawnLimit
import Verif.Props.DeltaDriver
import Verif.Lemmas.DerivMeasure
import Mathlib.MeasureTheory.Function.ConditionalExpectation.Real
import Mathlib.Probability.ConditionalExpectation

/-! # C125: what the first-order index of the delta method estimates -/

namespace SALib
open Spec MeasureTheory ProbabilityTheory Filter Topology

/-- The class count is 48 for all large samples. -/
theorem deltaM_large (n : Nat) (hn : 48 ^ 4 ≤ n) : deltaM n = 48 := by
  have h1 : (1 : ℝ) ≤ n := by
    have : 1 ≤ n := le_trans (by norm_num) hn
    exact_mod_cast this
  have hexp : 1 / 4 ≤ deltaExp n := by
    unfold deltaExp
    have h2 := Real.neg_one_lt_tanh ((1500 - (n : ℝ)) / 500)
    have h3 := Real.tanh_lt_one ((1500 - (n : ℝ)) / 500)
    rw [div_le_div_iff₀ (by norm_num) (by linarith)]
    linarith
  have h48 : (48 : ℝ) ≤ (n : ℝ) ^ deltaExp n := by
    calc (48 : ℝ) = ((48 : ℝ) ^ (4 : ℝ)) ^ (1 / 4 : ℝ) := by
          rw [← Real.rpow_mul (by norm_num)]; norm_num
      _ ≤ (n : ℝ) ^ (1 / 4 : ℝ) := by
          refine Real.rpow_le_rpow (by positivity) ?_ (by norm_num)
          have : ((48 : ℝ) ^ (4 : ℝ)) = ((48 ^ 4 : ℕ) : ℝ) := by norm_num
          rw [this]
          exact_mod_cast hn
      _ ≤ _ := Real.rpow_le_rpow_of_exponent_le h1 hexp
  unfold deltaM
  apply min_eq_right
  have : (48 : ℝ) ≤ ⌈(n : ℝ) ^ deltaExp n⌉₊ := h48.trans (Nat.le_ceil _)
  exact_mod_cast this

section

variable {d : Nat} (law : Measure (Fin d → ℝ)) [IsProbabilityMeasure law] (j : Fin d) (S : Nat) (p : Nat → ℝ)

theorem below_zero : below j S p 0 = ∅ := by ext x; simp [below]

theorem below_all (hS : 0 < S) : below j S p S = Set.univ := by
  ext x; simp [below]; omega

theorem below_lower (k : Nat) (a b : Fin d → ℝ) (h : a j ≤ b j) (hb : b ∈ below j S p k) : a ∈ below j S p k := by
  obtain ⟨h0, h1 | h1⟩ := hb
  · exact ⟨h0, .inl h1⟩
  · exact ⟨h0, .inr (lt_of_le_of_lt h h1)⟩

theorem part_real (h : EqualParts law j S p) (s : Nat) (hs : s < S) : law.real (part j S p s) = 1 / S := by
  obtain ⟨hsub, hpart⟩ := part_eq law j S p h s hs
  rw [hpart, measureReal_sdiff hsub (measurable_below j S p s), below_share law j S p h (by omega) _ (by omega),
    below_share law j S p h (by omega) _ (by omega)]
  push_cast
  ring

theorem measurable_equalPart (h : EqualParts law j S p) (s : Nat) (hs : s < S) : MeasurableSet (part j S p s) := by
  rw [(part_eq law j S p h s hs).2]
  exact (measurable_below j S p (s + 1)).diff (measurable_below j S p s)

theorem classMean_eq (h : EqualParts law j S p) (G : (Fin d → ℝ) → ℝ) (s : Nat) (hs : s < S) :
    classMean law G j S p s = S * ∫ x in part j S p s, G x ∂law := by
  unfold classMean
  rw [ProbabilityTheory.cond, integral_smul_measure, smul_eq_mul, ENNReal.toReal_inv]
  have := part_real law j S p h s hs
  rw [Measure.real] at this
  rw [this, one_div, inv_inv]

theorem classMean_below (h : EqualParts law j S p) (G : (Fin d → ℝ) → ℝ) (hG : Integrable G law) (s : Nat) (hs : s < S) :
    classMean law G j S p s = S * ((∫ x in below j S p (s + 1), G x ∂law) - ∫ x in below j S p s, G x ∂law) := by
  obtain ⟨hsub, hpart⟩ := part_eq law j S p h s hs
  rw [classMean_eq law j S p h G s hs, hpart, setIntegral_sdiff (measurable_below j S p s) hG.integrableOn hsub]

/-- For all large samples whose means agree with the distribution, the index is close to its limit. -/
theorem first_close (hS : 0 < S) (h : EqualParts law j S p) (G : (Fin d → ℝ) → ℝ) (hG : MemLp G 2 law)
    (hv : 0 < Var[G; law]) (ε : ℝ) (hε : 0 < ε) :
    ∃ (κ : Type) (_ : Fintype κ) (f : κ → (Fin d → ℝ) → ℝ),
      (∀ k, f k = (fun x => G x ^ 2) ∨ ∃ s, f k = (below j S p s).indicator (fun _ => 1) ∨
        f k = (below j S p s).indicator G) ∧
      ∃ N0, ∃ δ > 0, ∀ rows : List (Fin d → ℝ), N0 ≤ rows.length →
        (∀ k, |rowMean rows (f k) - ∫ x, f k x ∂law| < δ) →
        ∃ v, sobolFirst (rows.map G) (rows.map fun x => x j) (linspace 0 (rows.length : ℝ) (S + 1)) = some v ∧
          |v - classShare law G j S p| < ε := by
  have hG1 : Integrable G law := hG.integrable (by norm_num)
  set f : Option (Fin (S + 1) × Bool) → (Fin d → ℝ) → ℝ := fun k => match k with
    | none => fun x => G x ^ 2
    | some (s, false) => (below j S p s).indicator fun _ => 1
    | some (s, true) => (below j S p s).indicator G with hf
  refine ⟨Option (Fin (S + 1) × Bool), inferInstance, f, ?_, ?_⟩
  · rintro (_ | ⟨s, _ | _⟩)
    · exact .inl rfl
    · exact .inr ⟨s, .inl rfl⟩
    · exact .inr ⟨s, .inr rfl⟩
  set l : Filter (List (Fin d → ℝ)) := comap List.length atTop ⊓
    comap (fun rows k => rowMean rows (f k)) (𝓝 fun k => ∫ x, f k x ∂law) with hl
  have hlim : ∀ k, Tendsto (fun rows => rowMean rows (f k)) l (𝓝 (∫ x, f k x ∂law)) := by
    intro k
    have h1 : Tendsto (fun rows k => rowMean rows (f k)) l (𝓝 fun k => ∫ x, f k x ∂law) :=
      tendsto_comap.mono_left inf_le_right
    exact (tendsto_pi_nhds.mp h1) k
  have hvar : Var[G; law] = (∫ x, G x ^ 2 ∂law) - (∫ x, G x ∂law) ^ 2 := by
    rw [variance_eq_sub hG]; rfl
  have hcS : ∫ x in below j S p S, G x ∂law = ∫ x, G x ∂law := by rw [below_all j S p hS, setIntegral_univ]
  obtain ⟨v, hev, hvl⟩ := sobolFirst_limit l id (fun x => x j) G S hS (fun k => below j S p k)
    (fun k a b => below_lower j S p k a b) (fun k => ∫ x in below j S p k, G x ∂law) (∫ x, G x ^ 2 ∂law)
    (tendsto_comap.mono_left inf_le_left)
    (by
      intro k hk
      have h1 := hlim (some (⟨k, by omega⟩, false))
      have h2 : ∫ x, f (some (⟨k, by omega⟩, false)) x ∂law = (k : ℝ) / S := by
        show ∫ x, (below j S p k).indicator (fun _ => (1 : ℝ)) x ∂law = _
        rw [integral_indicator_const _ (measurable_below j S p k), below_share law j S p h hS k hk, smul_eq_mul, mul_one]
      rw [h2] at h1
      exact h1)
    (by
      intro k hk
      have h1 := hlim (some (⟨k, by omega⟩, true))
      have h2 : ∫ x, f (some (⟨k, by omega⟩, true)) x ∂law = ∫ x in below j S p k, G x ∂law := by
        show ∫ x, (below j S p k).indicator G x ∂law = _
        rw [integral_indicator (measurable_below j S p k)]
      rw [h2] at h1
      exact h1)
    (below_all j S p hS) (hlim none) (by rw [hcS]; linarith)
  have hL : (∑ s ∈ Finset.range S, 1 / (S : ℝ) * (S * ((∫ x in below j S p (s + 1), G x ∂law) -
      ∫ x in below j S p s, G x ∂law) - ∫ x in below j S p S, G x ∂law) ^ 2) /
      ((∫ x, G x ^ 2 ∂law) - (∫ x in below j S p S, G x ∂law) ^ 2) = classShare law G j S p := by
    unfold classShare
    rw [hcS, ← hvar, ← Finset.mul_sum, one_div, inv_mul_eq_div]
    congr 2
    apply Finset.sum_congr rfl
    intro s hs
    rw [classMean_below law j S p h G hG1 s (Finset.mem_range.mp hs)]
  rw [hL] at hvl
  have hgood := hev.and (hvl.eventually (Metric.ball_mem_nhds _ hε))
  obtain ⟨⟨N0, δ⟩, ⟨-, hδ⟩, hsub⟩ := ((atTop_basis.comap List.length).inf
    (Metric.nhds_basis_ball.comap fun rows k => rowMean rows (f k))).eventually_iff.mp hgood
  refine ⟨N0, δ, hδ, fun rows hN hk => ?_⟩
  obtain ⟨h1, h2⟩ := hsub (x := rows) ⟨hN, (dist_pi_lt_iff hδ).mpr hk⟩
  exact ⟨v rows, h1, h2⟩

end

section

variable {d : Nat}

/-- Samples over which finitely many means agree with the distribution: all but a small share of the draws give an index
close to the limit. -/
theorem delta_draws (law : Measure (Fin d → ℝ)) (j : Fin d) (p : Nat → ℝ) (G : (Fin d → ℝ) → ℝ) {κ : Type} [Fintype κ]
    (f : κ → (Fin d → ℝ) → ℝ) (M0 : Nat) (δ : ℝ) (hδ : 0 < δ) (ε0 ε : ℝ) (hε : 0 < ε) (hm : ε0 < ε)
    (hclose : ∀ rows : List (Fin d → ℝ), M0 ≤ rows.length → (∀ k, |rowMean rows (f k) - ∫ x, f k x ∂law| < δ) →
      ∃ v, sobolFirst (rows.map G) (rows.map fun x => x j) (linspace 0 (rows.length : ℝ) (48 + 1)) = some v ∧
        |v - classShare law G j 48 p| < ε0) (B : ℝ) (rows : List (Fin d → ℝ)) (hN0 : 0 < rows.length)
    (c1 : ∀ k, (rowMean rows fun x => f k x ^ 2) ≤ B) (c2 : ∀ k, |rowMean rows (f k) - ∫ x, f k x ∂law| < δ / 2)
    (n : Nat) (b3 : M0 ≤ n) (b4 : 48 ^ 4 ≤ n) (h5 : Fintype.card κ * B / (δ / 2) ^ 2 / ε < n) :
    drawShare n rows.length (fun t => ¬∃ v, deltaS1 (rows.map G) (rows.map fun x => x j) (deltaM n) n
      (List.ofFn fun i => (t i).1) = some v ∧ |v - classShare law G j 48 p| < ε) ≤ ε := by
  have hn0 : 0 < n := lt_of_lt_of_le (by norm_num) b4
  rw [deltaM_large n b4]
  have hr0 : rows ≠ [] := List.ne_nil_of_length_pos hN0
  classical
  have hcount := resample_near rows hr0 f n hn0 (δ / 2) (half_pos (hδ)) B c1
  have hpow : (0 : ℝ) < (rows.length : ℝ) ^ n := by
    have : (0 : ℝ) < rows.length := by exact_mod_cast hN0
    positivity
  unfold drawShare
  rw [div_le_iff₀ hpow]
  refine le_trans ?_ (hcount.trans (mul_le_mul_of_nonneg_right ?_ hpow.le))
  · rw [Nat.card_eq_fintype_card, Fintype.card_subtype]
    have : (Finset.univ.filter fun t : Fin n → Fin rows.length => ¬∃ v, deltaS1 (rows.map G) (rows.map fun x => x j) 48 n
        (List.ofFn fun i => (t i).1) = some v ∧ |v - classShare law G j 48 p| < ε) ⊆
        Finset.univ.filter fun t : Fin n → Fin rows.length =>
          ∃ k, δ / 2 ≤ |rowMean (drawnRows rows t) (f k) - rowMean rows (f k)| := by
      intro t ht
      have ht := (Finset.mem_filter.mp ht).2
      refine Finset.mem_filter.mpr ⟨Finset.mem_univ _, ?_⟩
      by_contra hno
      push Not at hno
      apply ht
      obtain ⟨v, hv1, hv2⟩ := hclose (drawnRows rows t) (by rw [length_drawnRows]; exact b3) fun k => by
        have e1 := hno k
        have e2 := c2 k
        calc |rowMean (drawnRows rows t) (f k) - ∫ x, f k x ∂law| ≤
            |rowMean (drawnRows rows t) (f k) - rowMean rows (f k)| + |rowMean rows (f k) - ∫ x, f k x ∂law| :=
              abs_sub_le _ _ _
          _ < δ := by linarith
      rw [length_drawnRows] at hv1
      refine ⟨v, ?_, hv2.trans hm⟩
      unfold deltaS1
      rw [takeIdx_drawnRows, takeIdx_drawnRows]
      exact hv1
    exact_mod_cast Finset.card_le_card this
  · have hn' : (0 : ℝ) < n := by exact_mod_cast hn0
    have hd2 : 0 < (δ / 2) ^ 2 := by have := hδ; positivity
    rw [← mul_div_assoc, div_le_iff₀ (by positivity)]
    rw [div_lt_iff₀ hε, div_lt_iff₀ hd2] at h5
    linarith

/-- **C125.**  Rows drawn independently from any distribution of the inputs for which the analysed input has no value of
positive probability, an output with a fourth moment that is not constant.  With probability one, for all large samples and
numbers `n` of resampled rows, all but a small share of the draws of these rows give a first-order index close to the share
of the variance that lies between 48 classes of equal probability of the input. -/
theorem C125_limit (law : Measure (Fin d → ℝ)) [IsProbabilityMeasure law] (j : Fin d) (p : Nat → ℝ)
    (h : EqualParts law j 48 p) (G : (Fin d → ℝ) → ℝ) (hG : Measurable G) (h4 : Integrable (fun x => G x ^ 4) law)
    (hv : 0 < Var[G; law]) {Ω : Type} [MeasurableSpace Ω] (P : Measure Ω) (Z : ℕ → Ω → (Fin d → ℝ))
    (hZ : RandomRows law P Z) :
    ∀ᵐ ω ∂P, ∀ ε > 0, ∃ N0, ∀ N ≥ N0, ∀ n ≥ N0, ∀ X Y : List ℝ, X = (firstRows Z N ω).map (fun x => x j) →
      Y = (firstRows Z N ω).map G →
      drawShare n N (fun t => ¬∃ v, deltaS1 Y X (deltaM n) n (List.ofFn fun i => (t i).1) = some v ∧
        |v - classShare law G j 48 p| < ε) ≤ ε := by
  have hle : ∀ a : ℝ, a ^ 2 ≤ 1 + a ^ 4 := fun a => by nlinarith [sq_nonneg (a ^ 2 - 1), sq_nonneg (a ^ 2)]
  have h2 : Integrable (fun x => G x ^ 2) law := by
    refine ((integrable_const (1 : ℝ)).add h4).mono' (hG.pow_const 2).aestronglyMeasurable (ae_of_all _ fun x => ?_)
    rw [Real.norm_of_nonneg (sq_nonneg _)]
    exact hle _
  have hG2 : MemLp G 2 law := (memLp_two_iff_integrable_sq hG.aestronglyMeasurable).mpr h2
  have hG1 : Integrable G law := hG2.integrable (by norm_num)
  have hseq : ∀ m : ℕ, ∃ (κ : Type) (_ : Fintype κ) (f : κ → (Fin d → ℝ) → ℝ),
      (∀ k, f k = (fun x => G x ^ 2) ∨ ∃ s, f k = (below j 48 p s).indicator (fun _ => 1) ∨
        f k = (below j 48 p s).indicator G) ∧
      ∃ N0, ∃ δ > 0, ∀ rows : List (Fin d → ℝ), N0 ≤ rows.length →
        (∀ k, |rowMean rows (f k) - ∫ x, f k x ∂law| < δ) →
        ∃ v, sobolFirst (rows.map G) (rows.map fun x => x j) (linspace 0 (rows.length : ℝ) (48 + 1)) = some v ∧
          |v - classShare law G j 48 p| < 1 / ((m : ℝ) + 1) :=
    fun m => first_close law j 48 p (by norm_num) h G hG2 hv (1 / ((m : ℝ) + 1)) (by positivity)
  choose κ hκ f hf M0 δ hδ hclose using hseq
  have hmeas : ∀ m k, Measurable (f m k) ∧ Integrable (f m k) law ∧ Integrable (fun x => f m k x ^ 2) law := by
    intro m k
    rcases hf m k with h1 | ⟨s, h1 | h1⟩ <;> rw [h1]
    · refine ⟨hG.pow_const 2, h2, ?_⟩
      have : (fun x => (G x ^ 2) ^ 2) = fun x => G x ^ 4 := by funext x; ring
      rw [this]; exact h4
    · have hs := measurable_below j 48 p s
      refine ⟨measurable_const.indicator hs, (integrable_const _).indicator hs, ?_⟩
      have : (fun x => (below j 48 p s).indicator (fun _ => (1 : ℝ)) x ^ 2) = (below j 48 p s).indicator fun _ => 1 := by
        funext x; by_cases hx : x ∈ below j 48 p s <;> simp [hx]
      rw [this]; exact (integrable_const _).indicator hs
    · have hs := measurable_below j 48 p s
      refine ⟨hG.indicator hs, hG1.indicator hs, ?_⟩
      have : (fun x => (below j 48 p s).indicator G x ^ 2) = (below j 48 p s).indicator fun x => G x ^ 2 := by
        funext x; by_cases hx : x ∈ below j 48 p s <;> simp [hx]
      rw [this]; exact h2.indicator hs
  have hall : ∀ᵐ ω ∂P, ∀ m k, Tendsto (fun N => rowMean (firstRows Z N ω) (f m k)) atTop (𝓝 (∫ x, f m k x ∂law)) ∧
      Tendsto (fun N => rowMean (firstRows Z N ω) fun x => f m k x ^ 2) atTop (𝓝 (∫ x, f m k x ^ 2 ∂law)) := by
    rw [ae_all_iff]
    intro m
    have := hκ m
    rw [ae_all_iff]
    intro k
    obtain ⟨a1, a2, a3⟩ := hmeas m k
    exact (tendsto_rowMean hZ.meas hZ.law hZ.indep (f m k) a1 a2).and
      (tendsto_rowMean hZ.meas hZ.law hZ.indep (fun x => f m k x ^ 2) (a1.pow_const 2) a3)
  filter_upwards [hall] with ω hω ε hε
  obtain ⟨m, hm⟩ := exists_nat_one_div_lt hε
  have := hκ m
  set B := ∑ k, ((∫ x, f m k x ^ 2 ∂law) + 1) with hB
  have hB1 : ∀ᶠ N in atTop, ∀ k, (rowMean (firstRows Z N ω) fun x => f m k x ^ 2) ≤ B := by
    refine eventually_all.mpr fun k => ?_
    have h1 := (hω m k).2.eventually (eventually_lt_nhds (lt_add_one _))
    filter_upwards [h1] with N hN
    refine hN.le.trans ?_
    rw [hB]
    refine Finset.single_le_sum (f := fun k => (∫ x, f m k x ^ 2 ∂law) + 1) (fun i _ => ?_) (Finset.mem_univ k)
    have : 0 ≤ ∫ x, f m i x ^ 2 ∂law := integral_nonneg fun x => sq_nonneg _
    linarith
  have hnear : ∀ᶠ N in atTop, ∀ k, |rowMean (firstRows Z N ω) (f m k) - ∫ x, f m k x ∂law| < δ m / 2 := by
    refine eventually_all.mpr fun k => ?_
    exact (hω m k).1.eventually (Metric.ball_mem_nhds _ (half_pos (hδ m)))
  obtain ⟨N1, hN1⟩ := eventually_atTop.mp (hB1.and hnear)
  obtain ⟨N2, hN2⟩ := exists_nat_gt (Fintype.card (κ m) * B / (δ m / 2) ^ 2 / ε)
  refine ⟨max (max N1 N2) (max (M0 m) (48 ^ 4)), fun N hN n hn X Y hX hY => ?_⟩
  have b1 : N1 ≤ N := (le_max_left _ _).trans ((le_max_left _ _).trans hN)
  have b2 : N2 ≤ n := (le_max_right _ _).trans ((le_max_left _ _).trans hn)
  have b3 : M0 m ≤ n := (le_max_left _ _).trans ((le_max_right _ _).trans hn)
  have b4 : 48 ^ 4 ≤ n := (le_max_right _ _).trans ((le_max_right _ _).trans hn)
  have b5 : 48 ^ 4 ≤ N := (le_max_right _ _).trans ((le_max_right _ _).trans hN)
  have hN0 : 0 < N := lt_of_lt_of_le (by norm_num) b5
  obtain ⟨c1, c2⟩ := hN1 N b1
  have hlen : (firstRows Z N ω).length = N := by simp [firstRows]
  have := delta_draws law j p G (f m) (M0 m) (δ m) (hδ m) _ ε hε hm (hclose m) B (firstRows Z N ω) (by omega) c1 c2 n b3 b4
    (lt_of_lt_of_le hN2 (by exact_mod_cast b2))
  rw [hlen] at this
  rw [hX, hY]
  exact this

/-- The same for all long samples whose means agree with the distribution, for an output with an eighth moment. -/
theorem delta_near (law : Measure (Fin d → ℝ)) [IsProbabilityMeasure law] (j : Fin d) (p : Nat → ℝ)
    (h : EqualParts law j 48 p) (G : (Fin d → ℝ) → ℝ) (hG : Measurable G) (h8 : Integrable (fun x => G x ^ 8) law)
    (hv : 0 < Var[G; law]) (ε : ℝ) (hε : 0 < ε) :
    ∃ n0, ∀ᶠ rows in lawRows law, ∀ n ≥ n0,
      drawShare n rows.length (fun t => ¬∃ v, deltaS1 (rows.map G) (rows.map fun x => x j) (deltaM n) n
        (List.ofFn fun i => (t i).1) = some v ∧ |v - classShare law G j 48 p| < ε) ≤ ε := by
  have hle : ∀ a : ℝ, a ^ 2 ≤ 1 + a ^ 4 := fun a => by nlinarith [sq_nonneg (a ^ 2 - 1), sq_nonneg (a ^ 2)]
  have h4 : Integrable (fun x => G x ^ 4) law := by
    refine ((integrable_const (1 : ℝ)).add h8).mono' (hG.pow_const 4).aestronglyMeasurable (ae_of_all _ fun x => ?_)
    rw [Real.norm_of_nonneg (by positivity)]
    have := hle (G x ^ 2)
    rw [← pow_mul, ← pow_mul] at this
    exact this
  have h2 : Integrable (fun x => G x ^ 2) law := by
    refine ((integrable_const (1 : ℝ)).add h4).mono' (hG.pow_const 2).aestronglyMeasurable (ae_of_all _ fun x => ?_)
    rw [Real.norm_of_nonneg (sq_nonneg _)]
    exact hle _
  have hG2 : MemLp G 2 law := (memLp_two_iff_integrable_sq hG.aestronglyMeasurable).mpr h2
  have hG4 : MemLp (fun x => G x ^ 2) 2 law := by
    refine (memLp_two_iff_integrable_sq (hG.pow_const 2).aestronglyMeasurable).mpr ?_
    simpa only [← pow_mul] using h4
  have hG8 : MemLp (fun x => G x ^ 4) 2 law := by
    refine (memLp_two_iff_integrable_sq (hG.pow_const 4).aestronglyMeasurable).mpr ?_
    simpa only [← pow_mul] using h8
  obtain ⟨κ, hκ, f, hf, M0, δ, hδ, hclose⟩ := first_close law j 48 p (by norm_num) h G hG2 hv (ε / 2) (by linarith)
  have hmeas : ∀ k, (Measurable (f k) ∧ MemLp (f k) 2 law) ∧ Measurable (fun x => f k x ^ 2) ∧
      MemLp (fun x => f k x ^ 2) 2 law := by
    intro k
    rcases hf k with h1 | ⟨s, h1 | h1⟩ <;> rw [h1]
    · refine ⟨⟨hG.pow_const 2, hG4⟩, (hG.pow_const 2).pow_const 2, ?_⟩
      have : (fun x => (G x ^ 2) ^ 2) = fun x => G x ^ 4 := by funext x; ring
      rw [this]; exact hG8
    · have hs := measurable_below j 48 p s
      have m1 : Measurable ((below j 48 p s).indicator fun _ => (1 : ℝ)) := measurable_const.indicator hs
      refine ⟨⟨m1, (memLp_const _).indicator hs⟩, m1.pow_const 2, ?_⟩
      have : (fun x => (below j 48 p s).indicator (fun _ => (1 : ℝ)) x ^ 2) = (below j 48 p s).indicator fun _ => 1 := by
        funext x; by_cases hx : x ∈ below j 48 p s <;> simp [hx]
      rw [this]; exact (memLp_const _).indicator hs
    · have hs := measurable_below j 48 p s
      refine ⟨⟨hG.indicator hs, hG2.indicator hs⟩, (hG.indicator hs).pow_const 2, ?_⟩
      have : (fun x => (below j 48 p s).indicator G x ^ 2) = (below j 48 p s).indicator fun x => G x ^ 2 := by
        funext x; by_cases hx : x ∈ below j 48 p s <;> simp [hx]
      rw [this]; exact hG4.indicator hs
  set B := ∑ k, ((∫ x, f k x ^ 2 ∂law) + 1) with hB
  have hB1 : ∀ᶠ rows in lawRows law, ∀ k, (rowMean rows fun x => f k x ^ 2) ≤ B := by
    refine eventually_all.mpr fun k => ?_
    have h1 := (lawRows_mean law _ (hmeas k).2.1 (hmeas k).2.2).eventually (eventually_lt_nhds (lt_add_one _))
    filter_upwards [h1] with N hN
    refine hN.le.trans ?_
    rw [hB]
    refine Finset.single_le_sum (f := fun k => (∫ x, f k x ^ 2 ∂law) + 1) (fun i _ => ?_) (Finset.mem_univ k)
    have : 0 ≤ ∫ x, f i x ^ 2 ∂law := integral_nonneg fun x => sq_nonneg _
    linarith
  have hnear : ∀ᶠ rows in lawRows law, ∀ k, |rowMean rows (f k) - ∫ x, f k x ∂law| < δ / 2 := by
    refine eventually_all.mpr fun k => ?_
    exact (lawRows_mean law _ (hmeas k).1.1 (hmeas k).1.2).eventually (Metric.ball_mem_nhds _ (half_pos hδ))
  obtain ⟨N2, hN2⟩ := exists_nat_gt (Fintype.card κ * B / (δ / 2) ^ 2 / ε)
  refine ⟨max N2 (max M0 (48 ^ 4)), ?_⟩
  filter_upwards [hB1, hnear, (lawRows_length law).eventually_gt_atTop 0] with rows c1 c2 hN0 n hn
  have b2 : N2 ≤ n := (le_max_left _ _).trans hn
  have b3 : M0 ≤ n := (le_max_left _ _).trans ((le_max_right _ _).trans hn)
  have b4 : 48 ^ 4 ≤ n := (le_max_right _ _).trans ((le_max_right _ _).trans hn)
  exact delta_draws law j p G f M0 δ hδ _ ε hε (by linarith) hclose B rows hN0 c1 c2 n b3 b4
    (lt_of_lt_of_le hN2 (by exact_mod_cast b2))

end

/-! ### The limit compared with the first-order index -/

section

variable {d : Nat} (law : Measure (Fin d → ℝ)) [IsProbabilityMeasure law] (j : Fin d) (S : Nat) (p : Nat → ℝ)

theorem measurable_stretch (A B : Prop) (u v : ℝ) : MeasurableSet {t : ℝ | (A ∨ u ≤ t) ∧ (B ∨ t < v)} :=
  ((MeasurableSet.const A).union measurableSet_Ici).inter ((MeasurableSet.const B).union measurableSet_Iio)

theorem comap_le_inputs : MeasurableSpace.comap (fun x : Fin d → ℝ => x j) inferInstance ≤
    (inferInstance : MeasurableSpace (Fin d → ℝ)) := (measurable_pi_apply j).comap_le

theorem part_input (h : EqualParts law j S p) (s : Nat) (hs : s < S) :
    MeasurableSet[MeasurableSpace.comap (fun x : Fin d → ℝ => x j) inferInstance] (part j S p s) := by
  exact ⟨{t | (s = 0 ∨ p s ≤ t) ∧ (s + 1 = S ∨ t < p (s + 1))}, measurable_stretch _ _ _ _, rfl⟩

/-- The means over the parts are those of the mean output given the input. -/
theorem classMean_given (h : EqualParts law j S p) (G : (Fin d → ℝ) → ℝ) (hG : Integrable G law) (s : Nat) (hs : s < S) :
    classMean law G j S p s = S * ∫ x in part j S p s, meanGiven law G j x ∂law := by
  rw [classMean_eq law j S p h G s hs]
  unfold meanGiven
  rw [setIntegral_condExp (comap_le_inputs j) hG (part_input law j S p h s hs)]

theorem parts_sum (hS : 0 < S) (h : EqualParts law j S p) (g : (Fin d → ℝ) → ℝ) (hg : Integrable g law) :
    ∑ s ∈ Finset.range S, ∫ x in part j S p s, g x ∂law = ∫ x, g x ∂law := by
  have e : ∀ s ∈ Finset.range S, ∫ x in part j S p s, g x ∂law =
      (∫ x in below j S p (s + 1), g x ∂law) - ∫ x in below j S p s, g x ∂law := by
    intro s hs
    obtain ⟨hsub, hpart⟩ := part_eq law j S p h s (Finset.mem_range.mp hs)
    rw [hpart, setIntegral_sdiff (measurable_below j S p s) hg.integrableOn hsub]
  rw [Finset.sum_congr rfl e, Finset.sum_range_sub fun s => ∫ x in below j S p s, g x ∂law, below_all j S p hS,
    below_zero, setIntegral_univ, setIntegral_empty, sub_zero]

/-- Cauchy's inequality on one part. -/
theorem part_jensen (h : EqualParts law j S p) (g : (Fin d → ℝ) → ℝ) (hg : MemLp g 2 law) (s : Nat) (hs : s < S) :
    S * (∫ x in part j S p s, g x ∂law) ^ 2 ≤ ∫ x in part j S p s, g x ^ 2 ∂law := by
  have hSr : (0 : ℝ) < S := by exact_mod_cast (by omega : 0 < S)
  have hg1 : Integrable g law := hg.integrable (by norm_num)
  have hg2 : Integrable (fun x => g x ^ 2) law := hg.integrable_sq
  set I := ∫ x in part j S p s, g x ∂law with hI
  have hnn : 0 ≤ ∫ x in part j S p s, (g x - S * I) ^ 2 ∂law := integral_nonneg fun x => sq_nonneg _
  have e : ∫ x in part j S p s, (g x - S * I) ^ 2 ∂law = (∫ x in part j S p s, g x ^ 2 ∂law) - S * I ^ 2 := by
    have e1 : (fun x => (g x - S * I) ^ 2) = fun x => g x ^ 2 - 2 * (S * I) * g x + (S * I) ^ 2 := by funext x; ring
    have e2 := integral_add (μ := law.restrict (part j S p s)) (f := fun x => g x ^ 2 - 2 * (S * I) * g x)
      (g := fun _ => (S * I) ^ 2) (Integrable.sub hg2.integrableOn (hg1.integrableOn.const_mul _)) (integrable_const _)
    rw [e1, e2, integral_sub hg2.integrableOn (hg1.integrableOn.const_mul _), integral_const_mul, ← hI, setIntegral_const,
      part_real law j S p h s hs, smul_eq_mul]
    field_simp
    ring
  linarith

/-- **C125** (never above).  The limit is nonnegative and at most the first-order index: the variance of the mean output
given the input, divided by the variance of the output.  The inputs may be dependent, the number of classes is any. -/
theorem C125_below (hS : 0 < S) (h : EqualParts law j S p) (G : (Fin d → ℝ) → ℝ) (hG : MemLp G 2 law) :
    0 ≤ classShare law G j S p ∧ classShare law G j S p ≤ Var[meanGiven law G j; law] / Var[G; law] := by
  have hSr : (0 : ℝ) < S := by exact_mod_cast hS
  have hG1 : Integrable G law := hG.integrable (by norm_num)
  have hv : 0 ≤ Var[G; law] := variance_nonneg _ _
  refine ⟨div_nonneg (div_nonneg (Finset.sum_nonneg fun s _ => sq_nonneg _) hSr.le) hv, ?_⟩
  unfold classShare
  refine div_le_div_of_nonneg_right ?_ hv
  set μ := ∫ x, G x ∂law with hμ
  set g := meanGiven law G j with hg
  have hgL : MemLp g 2 law := MemLp.condExp (by norm_num) hG
  have hg1 : Integrable g law := hgL.integrable (by norm_num)
  have hgm : ∫ x, g x ∂law = μ := integral_condExp (comap_le_inputs j)
  have hcL : MemLp (fun x => g x - μ) 2 law := hgL.sub (memLp_const _)
  have hvar : Var[g; law] = ∫ x, (g x - μ) ^ 2 ∂law := by
    rw [variance_eq_integral hgL.aemeasurable, hgm]
  rw [hvar, ← parts_sum law j S p hS h _ hcL.integrable_sq, Finset.sum_div]
  refine Finset.sum_le_sum fun s hs => ?_
  have hs := Finset.mem_range.mp hs
  refine le_trans (le_of_eq ?_) (part_jensen law j S p h _ hcL s hs)
  rw [classMean_given law j S p h G hG1 s hs, integral_sub hg1.integrableOn (integrable_const _), setIntegral_const,
    part_real law j S p h s hs, smul_eq_mul]
  field_simp
  rw [hg]

/-- **C125** (no influence).  If the output is independent of the input, the limit is 0. -/
theorem C125_independent (hS : 0 < S) (h : EqualParts law j S p) (G : (Fin d → ℝ) → ℝ) (hG : Measurable G)
    (hG2 : MemLp G 2 law) (hind : IndepFun G (fun x => x j) law) : classShare law G j S p = 0 := by
  have hSr : (0 : ℝ) < S := by exact_mod_cast hS
  have hc : meanGiven law G j =ᵐ[law] fun _ => ∫ x, G x ∂law :=
    condExp_indep_eq hG.comap_le (comap_le_inputs j) (comap_measurable G).stronglyMeasurable hind
  unfold classShare
  rw [Finset.sum_eq_zero, zero_div, zero_div]
  intro s hs
  have hs := Finset.mem_range.mp hs
  rw [classMean_given law j S p h G (hG2.integrable (by norm_num)) s hs, setIntegral_congr_ae (g := fun _ => ∫ x, G x ∂law)
    (measurable_equalPart law j S p h s hs) (hc.mono fun x hx _ => hx), setIntegral_const, part_real law j S p h s hs, smul_eq_mul]
  field_simp
  simp

end

/-! ### A uniform input with a straight mean -/

section

variable {d : Nat} (law : Measure (Fin d → ℝ)) [IsProbabilityMeasure law] (j : Fin d) (S : Nat) (lo hi : ℝ)

/-- The boundaries between `S` intervals of equal length. -/
noncomputable def evenCuts (lo hi : ℝ) (S : Nat) (s : Nat) : ℝ := lo + s * ((hi - lo) / S)

theorem evenCuts_mono (h : lo < hi) {a b : Nat} (hab : a ≤ b) : evenCuts lo hi S a ≤ evenCuts lo hi S b := by
  unfold evenCuts
  have : (a : ℝ) ≤ b := by exact_mod_cast hab
  have h2 : 0 ≤ (hi - lo) / S := div_nonneg (by linarith) (Nat.cast_nonneg _)
  nlinarith

theorem real_unifOn_Iic (h : lo < hi) (t : ℝ) (h1 : lo ≤ t) (h2 : t ≤ hi) :
    (unifOn lo hi).real (Set.Iic t) = (t - lo) / (hi - lo) := by
  have e : Set.Icc lo hi ∩ Set.Iic t = Set.Icc lo t := by
    ext u; simp only [Set.mem_inter_iff, Set.mem_Icc, Set.mem_Iic]
    constructor
    · rintro ⟨⟨a, b⟩, c⟩; exact ⟨a, c⟩
    · rintro ⟨a, b⟩; exact ⟨⟨a, b.trans h2⟩, b⟩
  unfold unifOn
  rw [Measure.real, cond_apply measurableSet_Icc, e, Real.volume_Icc, Real.volume_Icc, ENNReal.toReal_mul,
    ENNReal.toReal_inv, ENNReal.toReal_ofReal (by linarith), ENNReal.toReal_ofReal (by linarith)]
  rw [inv_mul_eq_div]

theorem evenCuts_equal (h : lo < hi) (hlaw : Measure.map (fun x => x j) law = unifOn lo hi) (hS : 0 < S) :
    EqualParts law j S (evenCuts lo hi S) := by
  have hSr : (0 : ℝ) < S := by exact_mod_cast hS
  have hw : 0 < hi - lo := by linarith
  constructor
  · intro a
    have h1 : law.real {x | x j = a} = (unifOn lo hi).real {a} := by
      rw [← hlaw, map_measureReal_apply (measurable_pi_apply j) (measurableSet_singleton a)]
      rfl
    rw [h1, Measure.real, ENNReal.toReal_eq_zero_iff]
    left
    have := ae_unifOn_ne (lo := lo) (hi := hi) a
    rw [ae_iff] at this
    simpa using this
  · intro s h0 hs
    have h1 : law.real {x | x j ≤ evenCuts lo hi S s} = (unifOn lo hi).real (Set.Iic (evenCuts lo hi S s)) := by
      rw [← hlaw, map_measureReal_apply (measurable_pi_apply j) measurableSet_Iic]
      rfl
    have e0 : evenCuts lo hi S 0 = lo := by simp [evenCuts]
    have e1 : evenCuts lo hi S S = hi := by unfold evenCuts; field_simp; ring
    rw [h1, real_unifOn_Iic lo hi h _ (e0.symm.le.trans (evenCuts_mono S _ _ h (by omega)))
      ((evenCuts_mono S _ _ h (by omega)).trans e1.le)]
    unfold evenCuts
    field_simp
    ring

theorem part_uniform (h : lo < hi) (hlaw : Measure.map (fun x => x j) law = unifOn lo hi) (hS : 0 < S) (s : Nat) (hs : s < S)
    (g : ℝ → ℝ) (hg : Continuous g) :
    ∫ x in part j S (evenCuts lo hi S) s, g (x j) ∂law =
      (hi - lo)⁻¹ * ∫ t in (evenCuts lo hi S s)..(evenCuts lo hi S (s + 1)), g t := by
  have hSr : (0 : ℝ) < S := by exact_mod_cast hS
  set a := evenCuts lo hi S s with ha
  set b := evenCuts lo hi S (s + 1) with hb
  have e0 : evenCuts lo hi S 0 = lo := by simp [evenCuts]
  have e1 : evenCuts lo hi S S = hi := by unfold evenCuts; field_simp; ring
  have hla : lo ≤ a := e0.symm.le.trans (evenCuts_mono S _ _ h (by omega))
  have hbh : b ≤ hi := (evenCuts_mono S _ _ h (by omega)).trans e1.le
  have hab : a ≤ b := evenCuts_mono S _ _ h (by omega)
  set I : Set ℝ := {t | (s = 0 ∨ a ≤ t) ∧ (s + 1 = S ∨ t < b)} with hI
  have hIm : MeasurableSet I := measurable_stretch _ _ _ _
  have hmap : ∫ x in part j S (evenCuts lo hi S) s, g (x j) ∂law = ∫ t in I, g t ∂unifOn lo hi := by
    rw [← hlaw, setIntegral_map hIm hg.aestronglyMeasurable (measurable_pi_apply j).aemeasurable]
    rfl
  rw [hmap, ← integral_indicator hIm]
  have hae : I.indicator g =ᵐ[unifOn lo hi] (Set.Ioc a b).indicator g := by
    filter_upwards [ae_unifOn_mem (lo := lo) (hi := hi), ae_unifOn_ne (lo := lo) (hi := hi) a,
      ae_unifOn_ne (lo := lo) (hi := hi) b] with t ht hta htb
    have : t ∈ I ↔ t ∈ Set.Ioc a b := by
      constructor
      · rintro ⟨h1, h2⟩
        refine ⟨lt_of_le_of_ne ?_ (Ne.symm hta), ?_⟩
        · rcases h1 with h1 | h1
          · subst h1; rw [ha, e0]; exact ht.1
          · exact h1
        · rcases h2 with h2 | h2
          · rw [hb, h2, e1]; exact ht.2
          · exact h2.le
      · rintro ⟨h1, h2⟩
        exact ⟨.inr h1.le, .inr (lt_of_le_of_ne h2 htb)⟩
    by_cases hx : t ∈ I
    · rw [Set.indicator_of_mem hx, Set.indicator_of_mem (this.mp hx)]
    · rw [Set.indicator_of_notMem hx, Set.indicator_of_notMem fun hc => hx (this.mpr hc)]
  rw [integral_congr_ae hae, integral_unifOn h]
  congr 1
  rw [intervalIntegral.integral_of_le h.le, intervalIntegral.integral_of_le hab,
    setIntegral_indicator measurableSet_Ioc, Set.Ioc_inter_Ioc, max_eq_right hla, min_eq_right hbh]

theorem sum_centred_squares (S : Nat) :
    ∑ s ∈ Finset.range S, (2 * (s : ℝ) + 1 - S) ^ 2 = (S : ℝ) * ((S : ℝ) ^ 2 - 1) / 3 := by
  have key : ∀ (n : Nat) (c : ℝ), ∑ s ∈ Finset.range n, (2 * (s : ℝ) + 1 - c) ^ 2 =
      n * (4 * (n : ℝ) ^ 2 - 1) / 3 - 2 * c * (n : ℝ) ^ 2 + n * c ^ 2 := by
    intro n c
    induction n with
    | zero => simp
    | succ n ih => rw [Finset.sum_range_succ, ih]; push_cast; ring
  rw [key]; ring

/-- **C125** (size of the gap).  For a uniform input on which the mean output depends linearly, with any number `S` of
classes, the limit is `1 - 1 / S²` of the first-order index; with the 48 classes of the code, 2303/2304 of it. -/
theorem C125_linear (h : lo < hi) (hlaw : Measure.map (fun x => x j) law = unifOn lo hi) (hS : 0 < S)
    (G : (Fin d → ℝ) → ℝ) (hG : MemLp G 2 law) (a b : ℝ) (hlin : meanGiven law G j =ᵐ[law] fun x => a + b * x j) :
    EqualParts law j S (evenCuts lo hi S) ∧
    classShare law G j S (evenCuts lo hi S) = (1 - 1 / (S : ℝ) ^ 2) * (Var[meanGiven law G j; law] / Var[G; law]) := by
  have hSr : (0 : ℝ) < S := by exact_mod_cast hS
  have hw : 0 < hi - lo := by linarith
  have hE := evenCuts_equal law j S lo hi h hlaw hS
  refine ⟨hE, ?_⟩
  have hG1 : Integrable G law := hG.integrable (by norm_num)
  have hvar : Var[meanGiven law G j; law] = b ^ 2 * (hi - lo) ^ 2 / 12 := by
    have e := variance_map (μ := law) (Y := fun x : Fin d → ℝ => x j) (X := fun t => a + b * t)
      (Measurable.aemeasurable (by fun_prop)) (measurable_pi_apply j).aemeasurable
    rw [hlaw, variance_unifOn h] at e
    rw [variance_congr hlin, e]
    rfl
  have hmean : ∫ x, G x ∂law = a + b * ((lo + hi) / 2) := by
    rw [← integral_condExp (comap_le_inputs j)]
    have : ∫ x, (a + b * x j) ∂law = ∫ t, (a + b * t) ∂unifOn lo hi := by
      rw [← hlaw, integral_map (measurable_pi_apply j).aemeasurable (by fun_prop)]
    rw [show ∫ x, (law[G | MeasurableSpace.comap (fun x => x j) inferInstance]) x ∂law = _ from integral_congr_ae hlin, this,
      integral_unifOn h]
    rw [intervalIntegral.integral_add (by simp) (by apply Continuous.intervalIntegrable; fun_prop),
      intervalIntegral.integral_const, intervalIntegral.integral_const_mul, integral_id, smul_eq_mul]
    field_simp
    ring
  have hcm : ∀ s ∈ Finset.range S, (classMean law G j S (evenCuts lo hi S) s - ∫ x, G x ∂law) ^ 2 =
      (b * (hi - lo) / (2 * S)) ^ 2 * (2 * (s : ℝ) + 1 - S) ^ 2 := by
    intro s hs
    have hs := Finset.mem_range.mp hs
    rw [classMean_given law j S _ hE G hG1 s hs, setIntegral_congr_ae (g := fun x => a + b * x j)
      (measurable_equalPart law j S _ hE s hs) (hlin.mono fun x hx _ => hx),
      part_uniform law j S lo hi h hlaw hS s hs (fun t => a + b * t) (by fun_prop),
      intervalIntegral.integral_add (by simp) (by apply Continuous.intervalIntegrable; fun_prop),
      intervalIntegral.integral_const, intervalIntegral.integral_const_mul, integral_id, smul_eq_mul, hmean]
    rw [← mul_pow]
    congr 1
    unfold evenCuts
    push_cast
    field_simp
    ring
  unfold classShare
  rw [Finset.sum_congr rfl hcm, ← Finset.mul_sum, sum_centred_squares, hvar]
  field_simp
  ring

end

/-! ### The analysis as a whole -/

/-- What `analyze` returns under `S1` for all draws but those that give the first-order estimate far from `c`. -/
theorem delta_report {d : Nat} (j : Fin d) (f : List ℝ → ℝ)
    (s : DeltaSetup ℝ) (hcls : s.classes = deltaM) (pb : Problem ℝ) (hD : pb.numVars = d) (hnames : d ≤ pb.names.length)
    (hsuf : ∀ n ∈ pb.names, ∀ t ∈ ["_raw", "_balanced", "_step", "_conf"], ¬t.toList <:+ n.toList)
    (conf : ℝ) (hconf : 0 < conf ∧ conf < 1) (rows : List (Fin d → ℝ)) (c ε : ℝ) (yres : Option Nat) (n : Nat)
    (hn : n = yres.getD rows.length) (hn1 : 1 ≤ n) (hnN : n ≤ rows.length) :
    drawShare n rows.length (fun t => ¬∀ R : DeltaRandom, (∀ i, (R.rows i).length = n) →
        (R.rows j = List.ofFn fun i => (t i).1) →
        ∃ r v, deltaAnalyze s R pb (rows.map List.ofFn) ((rows.map List.ofFn).map f) conf yres (some .sobol) = .ok r ∧
          entryAt r "S1" j = some (some v) ∧ |v - c| < ε) ≤
      drawShare n rows.length (fun t => ¬∃ v, deltaS1 (rows.map fun x => f (List.ofFn x)) (rows.map fun x => x j) (deltaM n) n
        (List.ofFn fun i => (t i).1) = some v ∧ |v - c| < ε) := by
  have hN1 : 1 ≤ rows.length := hn1.trans hnN
  unfold drawShare
  refine div_le_div_of_nonneg_right ?_ (by positivity)
  generalize hX : rows.map List.ofFn = X
  replace hX := hX.symm
  have hXl : X.length = rows.length := by rw [hX, List.length_map]
  have hcol : IsColumn X j.1 (rows.map fun x => x j) := by
    rw [hX]
    unfold IsColumn
    rw [List.forall₂_map_left_iff, List.forall₂_map_right_iff, List.forall₂_same]
    intro x _
    simp
  refine Nat.cast_le.mpr (Nat.card_le_card_of_injective (fun t => ⟨t.1, ?_⟩) fun a b hab => Subtype.ext (by simpa using hab))
  obtain ⟨t, ht⟩ := t
  rintro ⟨v, hv1, hv2⟩
  refine ht fun R hR hRj => ?_
  have hfit : FitsDelta pb X (X.map f) conf n :=
    ⟨by simp, hconf, hn1, by rw [List.length_map, hXl]; exact hnN, by rw [hD]; exact hnames, by
      intro row hrow
      rw [hX] at hrow
      obtain ⟨x, -, rfl⟩ := List.mem_map.mp hrow
      simp [hD], hsuf⟩
  obtain ⟨r, hr, -, -, -, -, hent⟩ := C103_sobol s hcls R pb X (X.map f) conf yres n (by rw [List.length_map, hXl]; exact hn)
    hfit hR (by rw [hD]; have := j.2; omega)
  obtain ⟨col, w, hc, -, -, hw1, hw2, -⟩ := hent j.1 (by rw [hD]; exact j.2)
  have hcc : col = rows.map fun x => x j := by
    have h1 := isColumn_column X j.1 col hc
    have h2 := isColumn_column X j.1 _ hcol
    rw [h1] at h2
    exact Except.ok.inj h2
  have hY : X.map f = rows.map fun x => f (List.ofFn x) := by rw [hX, List.map_map]; rfl
  unfold deltaS1 at hv1
  rw [hcc, hRj, hY, hv1] at hw2
  cases hw2
  exact ⟨r, v, hr, hw1, hv2⟩

/-- **C125** (the reported index).  The same for the value under `S1` that `analyze` returns for parameter `j` with method
`sobol`, whatever the other draws are; `n` is the number of resampled rows, all rows by default. -/
theorem C125_reported {d : Nat} (law : Measure (Fin d → ℝ)) [IsProbabilityMeasure law] (j : Fin d) (p : Nat → ℝ)
    (h : EqualParts law j 48 p) (f : List ℝ → ℝ) (hf : Measurable fun x : Fin d → ℝ => f (List.ofFn x))
    (h4 : Integrable (fun x : Fin d → ℝ => f (List.ofFn x) ^ 4) law) (hv : 0 < Var[fun x => f (List.ofFn x); law])
    (s : DeltaSetup ℝ) (hcls : s.classes = deltaM) (pb : Problem ℝ) (hD : pb.numVars = d) (hnames : d ≤ pb.names.length)
    (hsuf : ∀ n ∈ pb.names, ∀ t ∈ ["_raw", "_balanced", "_step", "_conf"], ¬t.toList <:+ n.toList)
    (conf : ℝ) (hconf : 0 < conf ∧ conf < 1)
    {Ω : Type} [MeasurableSpace Ω] (P : Measure Ω) (Z : ℕ → Ω → (Fin d → ℝ)) (hZ : RandomRows law P Z) :
    ∀ᵐ ω ∂P, ∀ ε > 0, ∃ N0, ∀ N ≥ N0, ∀ (yres : Option Nat) (n : Nat), n = yres.getD N → N0 ≤ n → n ≤ N →
      ∀ X, X = (firstRows Z N ω).map List.ofFn →
      drawShare n N (fun t => ¬∀ R : DeltaRandom, (∀ i, (R.rows i).length = n) → (R.rows j = List.ofFn fun i => (t i).1) →
        ∃ r v, deltaAnalyze s R pb X (X.map f) conf yres (some .sobol) = .ok r ∧ entryAt r "S1" j = some (some v) ∧
          |v - classShare law (fun x => f (List.ofFn x)) j 48 p| < ε) ≤ ε := by
  filter_upwards [C125_limit law j p h (fun x => f (List.ofFn x)) hf h4 hv P Z hZ] with ω hω ε hε
  obtain ⟨N0, hN0⟩ := hω ε hε
  refine ⟨max N0 1, fun N hN yres n hn hn0 hnN X hX => ?_⟩
  have hn1 : 1 ≤ n := (le_max_right _ _).trans hn0
  have hN1 : 1 ≤ N := hn1.trans hnN
  have hlen : (firstRows Z N ω).length = N := by simp [firstRows]
  have h1 := delta_report j f s hcls pb hD hnames hsuf conf hconf (firstRows Z N ω)
    (classShare law (fun x => f (List.ofFn x)) j 48 p) ε yres n (by rw [hlen]; exact hn) hn1 (by rw [hlen]; exact hnN)
  rw [hlen] at h1
  rw [hX]
  exact h1.trans (hN0 N ((le_max_left _ _).trans hN) n ((le_max_left _ _).trans hn0) _ _ rfl rfl)

/-- One uniform input on [0, 1] and the output `2 x`: the hypotheses hold, the first-order index is 1 and the limit of the
reported index is 2303/2304. -/
example : EqualParts (Measure.pi fun _ : Fin 1 => unifOn 0 1) 0 48 (evenCuts 0 1 48) ∧
    Measurable (fun x : Fin 1 → ℝ => 2 * x 0) ∧
    Integrable (fun x : Fin 1 → ℝ => (2 * x 0) ^ 4) (Measure.pi fun _ : Fin 1 => unifOn 0 1) ∧
    0 < Var[fun x : Fin 1 → ℝ => 2 * x 0; Measure.pi fun _ : Fin 1 => unifOn 0 1] ∧
    classShare (Measure.pi fun _ : Fin 1 => unifOn 0 1) (fun x => 2 * x 0) 0 48 (evenCuts 0 1 48) = 2303 / 2304 := by
  have := isProb_unifOn (lo := 0) (hi := 1) (by norm_num)
  have hlaw : Measure.map (fun x : Fin 1 → ℝ => x 0) (Measure.pi fun _ : Fin 1 => unifOn 0 1) = unifOn 0 1 := by
    have h := Measure.pi_map_eval (fun _ : Fin 1 => unifOn 0 1) 0
    simpa using h
  have hmp : MeasurePreserving (fun x : Fin 1 → ℝ => x 0) (Measure.pi fun _ : Fin 1 => unifOn 0 1) (unifOn 0 1) :=
    ⟨measurable_pi_apply 0, hlaw⟩
  have hL : MemLp (fun x : Fin 1 → ℝ => 2 * x 0) 2 (Measure.pi fun _ : Fin 1 => unifOn 0 1) :=
    (memLp_unifOn (lo := 0) (hi := 1) (by norm_num) (fun t => 2 * t) (by fun_prop)).comp_measurePreserving hmp
  have hvar : Var[fun x : Fin 1 → ℝ => 2 * x 0; Measure.pi fun _ : Fin 1 => unifOn 0 1] = 1 / 3 := by
    have e := variance_map (μ := Measure.pi fun _ : Fin 1 => unifOn 0 1) (Y := fun x : Fin 1 → ℝ => x 0)
      (X := fun t => 0 + 2 * t) (Measurable.aemeasurable (by fun_prop)) (measurable_pi_apply 0).aemeasurable
    rw [hlaw, variance_unifOn (by norm_num)] at e
    have e2 : (fun x : Fin 1 → ℝ => 2 * x 0) = (fun t => 0 + 2 * t) ∘ fun x : Fin 1 → ℝ => x 0 := by
      funext x; simp
    rw [e2, ← e]; norm_num
  have hlin : meanGiven (Measure.pi fun _ : Fin 1 => unifOn 0 1) (fun x => 2 * x 0) 0 = fun x => 2 * x 0 := by
    unfold meanGiven
    refine condExp_of_stronglyMeasurable (comap_le_inputs 0) ?_ (hL.integrable (by norm_num))
    exact (Measurable.const_mul (comap_measurable fun x : Fin 1 → ℝ => x 0) 2).stronglyMeasurable
  obtain ⟨h1, h2⟩ := C125_linear (Measure.pi fun _ : Fin 1 => unifOn 0 1) 0 48 0 1 (by norm_num) hlaw (by norm_num)
    (fun x => 2 * x 0) hL 0 2 (by rw [hlin]; exact ae_of_all _ fun x => by simp)
  refine ⟨h1, by fun_prop, ?_, by rw [hvar]; norm_num, ?_⟩
  · have h4 : MemLp (fun x : Fin 1 → ℝ => (2 * x 0) ^ 4) 2 (Measure.pi fun _ : Fin 1 => unifOn 0 1) :=
      (memLp_unifOn (lo := 0) (hi := 1) (by norm_num) (fun t => (2 * t) ^ 4) (by fun_prop)).comp_measurePreserving hmp
    exact h4.integrable (by norm_num)
  · rw [h2, hlin, hvar]; norm_num

end SALib
