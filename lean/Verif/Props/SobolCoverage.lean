import Verif.Lemmas.SobolConf
import Verif.Lemmas.FixedResamples
import Verif.Props.SobolAccuracy
import Verif.Model.PpfReal

/-!
# C142: how often the Sobol confidence intervals contain the indices
-/

namespace SALib

open MeasureTheory ProbabilityTheory Spec

variable {d : Nat}

/-- The variance term of one base row. -/
noncomputable def Spec.pairDev (ν : Fin d → Measure ℝ) (G : (Fin d → ℝ) → ℝ) (p : (Fin d → ℝ) × (Fin d → ℝ)) : ℝ :=
  ((G p.1 - ∫ x, G x ∂Measure.pi ν) ^ 2 + (G p.2 - ∫ x, G x ∂Measure.pi ν) ^ 2) / 2

/-- The term of one base row in the numerator of the first-order index of the inputs `s`. -/
noncomputable def Spec.firstTerm (ν : Fin d → Measure ℝ) (G : (Fin d → ℝ) → ℝ) (s : Fin d → Bool)
    (p : (Fin d → ℝ) × (Fin d → ℝ)) : ℝ :=
  (G p.2 - ∫ x, G x ∂Measure.pi ν) * (G (mix s p.1 p.2) - G p.1)

/-- The term of one base row in the numerator of the total index of the inputs `s`. -/
noncomputable def Spec.totalTerm (G : (Fin d → ℝ) → ℝ) (s : Fin d → Bool) (p : (Fin d → ℝ) × (Fin d → ℝ)) : ℝ :=
  (G p.1 - G (mix s p.1 p.2)) ^ 2 / 2

/-- The term of one base row in the numerator of the second-order index of the inputs `s` and `t`. -/
noncomputable def Spec.secondTerm (ν : Fin d → Measure ℝ) (G : (Fin d → ℝ) → ℝ) (s t : Fin d → Bool)
    (p : (Fin d → ℝ) × (Fin d → ℝ)) : ℝ :=
  (G (mix s p.2 p.1) - ∫ x, G x ∂Measure.pi ν) * (G (mix t p.1 p.2) - ∫ x, G x ∂Measure.pi ν) -
    (G p.1 - ∫ x, G x ∂Measure.pi ν) * (G p.2 - ∫ x, G x ∂Measure.pi ν) - firstTerm ν G s p - firstTerm ν G t p

/-- A reported value and a reported half width form an interval which contains `v`. -/
def Spec.Covers (value width : Option (Num ℝ)) (v : ℝ) : Prop :=
  ∃ m w, value = some (some m) ∧ width = some (some w) ∧ |m - v| ≤ w

theorem drawVar_shift {R : Nat} (hR : 0 < R) (x : Fin R → ℝ) (c : ℝ) : (drawVar fun r => x r + c) = drawVar x := by
  have hRr : (R : ℝ) ≠ 0 := by exact_mod_cast hR.ne'
  unfold drawVar
  congr 1
  refine Finset.sum_congr rfl fun r _ => ?_
  rw [Finset.sum_add_distrib, Finset.sum_const, Finset.card_univ, Fintype.card_fin, nsmul_eq_mul]
  congr 1
  field_simp
  ring

theorem rowMean_ofFn {β : Type} {N : Nat} (x : Fin N → β) (h : β → ℝ) : rowMean (List.ofFn x) h = (∑ i, h (x i)) / N := by
  unfold rowMean
  rw [List.map_ofFn, List.sum_ofFn, List.length_ofFn]
  rfl

theorem firstRows_eq_ofFn {Ω β : Type} (Z : ℕ → Ω → β) (N : Nat) (ω : Ω) : firstRows Z N ω = List.ofFn fun i : Fin N => Z i ω := by
  unfold firstRows
  apply List.ext_getElem <;> simp

/-- The error of an estimate in the errors of means over the rows. -/
theorem estimate_err (G : (Fin d → ℝ) → ℝ) (rows : List ((Fin d → ℝ) × (Fin d → ℝ))) (hrows : rows ≠ [])
    (h1 h2 : (Fin d → ℝ) × (Fin d → ℝ) → ℝ) (μ V θ c : ℝ) (hV : V ≠ 0) :
    let x2 := rowMean rows fun p => (G p.1 + G p.2) / 2 - μ
    let x3 := rowMean rows fun p => ((G p.1 - μ) ^ 2 + (G p.2 - μ) ^ 2) / 2 - V
    sampleVar G rows = V + x3 - x2 ^ 2 ∧ (sampleVar G rows ≠ 0 →
      (rowMean rows h1 - c * rowMean rows h2) / sampleVar G rows = ratioErr V θ
        (rowMean rows fun p => (h1 p - μ * h2 p - θ * (((G p.1 - μ) ^ 2 + (G p.2 - μ) ^ 2) / 2)) / V)
        (rowMean rows h2) x2 x3 (c - μ) + θ) := by
  intro x2 x3
  have c1 := rowMean_const rows hrows
  have e2 : x2 = rowMean rows (fun p => (G p.1 + G p.2) / 2) - μ := by
    have := rowMean_lin rows (fun p => (G p.1 + G p.2) / 2) (fun _ => μ) 1 (-1)
    rw [c1, one_mul] at this
    rw [show rowMean rows (fun p => (G p.1 + G p.2) / 2) - μ = rowMean rows (fun p => (G p.1 + G p.2) / 2) + -1 * μ by ring, ← this]
    show rowMean rows _ = _
    congr 1; funext p; ring
  have ed : rowMean rows (fun p => ((G p.1 - μ) ^ 2 + (G p.2 - μ) ^ 2) / 2) =
      rowMean rows (fun p => (G p.1 ^ 2 + G p.2 ^ 2) / 2) - 2 * μ * rowMean rows (fun p => (G p.1 + G p.2) / 2) + μ ^ 2 := by
    have a1 := rowMean_lin rows (fun p => (G p.1 + G p.2) / 2) (fun _ => μ ^ 2) (-2 * μ) 1
    rw [c1] at a1
    have a2 := rowMean_lin rows (fun p => (G p.1 ^ 2 + G p.2 ^ 2) / 2)
      (fun p => -2 * μ * ((G p.1 + G p.2) / 2) + 1 * μ ^ 2) 1 1
    rw [a1] at a2
    rw [show ∀ a b : ℝ, a - 2 * μ * b + μ ^ 2 = 1 * a + 1 * (-2 * μ * b + 1 * μ ^ 2) from fun a b => by ring, ← a2]
    congr 1; funext p; ring
  have e3 : x3 = rowMean rows (fun p => ((G p.1 - μ) ^ 2 + (G p.2 - μ) ^ 2) / 2) - V := by
    have := rowMean_lin rows (fun p => ((G p.1 - μ) ^ 2 + (G p.2 - μ) ^ 2) / 2) (fun _ => V) 1 (-1)
    rw [c1, one_mul] at this
    rw [show ∀ a : ℝ, a - V = a + -1 * V from fun a => by ring, ← this]
    show rowMean rows _ = _
    congr 1; funext p; ring
  have e0 : rowMean rows (fun p => (h1 p - μ * h2 p - θ * (((G p.1 - μ) ^ 2 + (G p.2 - μ) ^ 2) / 2)) / V) =
      (rowMean rows h1 - μ * rowMean rows h2 - θ * rowMean rows (fun p => ((G p.1 - μ) ^ 2 + (G p.2 - μ) ^ 2) / 2)) / V := by
    have a1 := rowMean_lin rows h1 h2 1 (-μ)
    have a2 := rowMean_lin rows (fun p => 1 * h1 p + -μ * h2 p) (fun p => ((G p.1 - μ) ^ 2 + (G p.2 - μ) ^ 2) / 2) (1 / V) (-θ / V)
    rw [a1] at a2
    rw [show ∀ a b e : ℝ, (a - μ * b - θ * e) / V = 1 / V * (1 * a + -μ * b) + -θ / V * e from fun a b e => by field_simp; ring, ← a2]
    congr 1; funext p; field_simp; ring
  have ev : sampleVar G rows = V + x3 - x2 ^ 2 := by
    rw [e3, e2, ed]
    unfold sampleVar
    ring
  refine ⟨ev, fun hne => ?_⟩
  unfold ratioErr
  rw [← ev, e0]
  have en : V * ((rowMean rows h1 - μ * rowMean rows h2 - θ * rowMean rows (fun p => ((G p.1 - μ) ^ 2 + (G p.2 - μ) ^ 2) / 2)) / V) -
      (c - μ) * rowMean rows h2 + θ * x2 ^ 2 = rowMean rows h1 - c * rowMean rows h2 - θ * sampleVar G rows := by
    rw [mul_div_cancel₀ _ hV, ev, e3]
    ring
  rw [en]
  field_simp
  ring

section limit

variable {ν : Fin d → Measure ℝ} [∀ i, IsProbabilityMeasure (ν i)] (G : (Fin d → ℝ) → ℝ) (hGm : Measurable G) (K : ℝ)
  (hK : ∀ᵐ x ∂Measure.pi ν, |G x| ≤ K)

include hGm hK

theorem mean_fst_pair : ∫ p, G p.1 ∂((Measure.pi ν).prod (Measure.pi ν)) = ∫ x, G x ∂Measure.pi ν := by
  have := integral_mix ν G (memLp_of_ae_le G K hGm hK) fun _ => false
  simpa only [mix_none] using this

theorem mean_snd_pair : ∫ p, G p.2 ∂((Measure.pi ν).prod (Measure.pi ν)) = ∫ x, G x ∂Measure.pi ν := by
  have := integral_mix ν G (memLp_of_ae_le G K hGm hK) fun _ => true
  simpa only [mix_all] using this

theorem integrable_mixed (s : Fin d → Bool) :
    Integrable (fun p : (Fin d → ℝ) × (Fin d → ℝ) => G (mix s p.1 p.2)) ((Measure.pi ν).prod (Measure.pi ν)) :=
  (memLp_mix ν G (memLp_of_ae_le G K hGm hK) s).integrable one_le_two

theorem integrable_fst_pair : Integrable (fun p : (Fin d → ℝ) × (Fin d → ℝ) => G p.1) ((Measure.pi ν).prod (Measure.pi ν)) :=
  (memLp_fst ν G (memLp_of_ae_le G K hGm hK)).integrable one_le_two

theorem integrable_snd_pair : Integrable (fun p : (Fin d → ℝ) × (Fin d → ℝ) => G p.2) ((Measure.pi ν).prod (Measure.pi ν)) :=
  (memLp_snd ν G (memLp_of_ae_le G K hGm hK)).integrable one_le_two

theorem mean_mixed_sub (s : Fin d → Bool) :
    ∫ p, (G (mix s p.1 p.2) - G p.1) ∂((Measure.pi ν).prod (Measure.pi ν)) = 0 := by
  rw [integral_sub (integrable_mixed G hGm K hK s) (integrable_fst_pair G hGm K hK),
    integral_mix ν G (memLp_of_ae_le G K hGm hK) s, mean_fst_pair G hGm K hK, sub_self]

theorem mean_blockMean (second : Bool) (g : Nat) (groupOf : Nat → Nat) :
    ∫ p, blockMean second g groupOf G p ∂((Measure.pi ν).prod (Measure.pi ν)) = ∫ x, G x ∂Measure.pi ν := by
  have hL := memLp_of_ae_le G K hGm hK
  have i1 := integrable_fst_pair G hGm K hK
  have i2 := integrable_snd_pair G hGm K hK
  have i3 := integrable_mixed G hGm K hK
  have i4 : ∀ s : Fin d → Bool, Integrable (fun p : (Fin d → ℝ) × (Fin d → ℝ) => G (mix s p.2 p.1)) ((Measure.pi ν).prod (Measure.pi ν)) := by
    intro s
    rw [show (fun p : (Fin d → ℝ) × (Fin d → ℝ) => G (mix s p.2 p.1)) = fun p => G (mix (fun j => !s j) p.1 p.2) from
      funext fun p => by rw [mix_flip]]
    exact i3 _
  have m4 : ∀ s : Fin d → Bool, ∫ p, G (mix s p.2 p.1) ∂((Measure.pi ν).prod (Measure.pi ν)) = ∫ x, G x ∂Measure.pi ν := by
    intro s
    rw [show (fun p : (Fin d → ℝ) × (Fin d → ℝ) => G (mix s p.2 p.1)) = fun p => G (mix (fun j => !s j) p.1 p.2) from
      funext fun p => by rw [mix_flip]]
    exact integral_mix ν G hL _
  have i5 : ∀ k, Integrable (fun p : (Fin d → ℝ) × (Fin d → ℝ) => G (mix (inGroup groupOf k) p.1 p.2) +
      if second then G (mix (inGroup groupOf k) p.2 p.1) else 0) ((Measure.pi ν).prod (Measure.pi ν)) := by
    intro k
    cases second
    · simpa using i3 _
    · simp only [if_true]
      exact (i3 _).add (i4 _)
  unfold blockMean
  have i12 : Integrable (fun p : (Fin d → ℝ) × (Fin d → ℝ) => G p.1 + G p.2) ((Measure.pi ν).prod (Measure.pi ν)) := i1.add i2
  rw [integral_div, integral_add i12 (integrable_finsetSum _ fun k _ => i5 k), integral_add i1 i2,
    integral_finsetSum _ fun k _ => i5 k, mean_fst_pair G hGm K hK, mean_snd_pair G hGm K hK]
  have hk : ∀ k, ∫ p, (G (mix (inGroup groupOf k) p.1 p.2) + if second then G (mix (inGroup groupOf k) p.2 p.1) else 0)
      ∂((Measure.pi ν).prod (Measure.pi ν)) = ∫ x, G x ∂Measure.pi ν + if second then ∫ x, G x ∂Measure.pi ν else 0 := by
    intro k
    cases second
    · simp [integral_mix ν G hL]
    · simp only [if_true]
      rw [integral_add (i3 _) (i4 _), integral_mix ν G hL, m4]
  simp only [hk, Finset.sum_const, Finset.card_range, nsmul_eq_mul]
  rw [div_eq_iff (blockSize_ne second g)]
  unfold blockSize
  cases second <;> simp <;> ring

theorem mean_pairDev : ∫ p, pairDev ν G p ∂((Measure.pi ν).prod (Measure.pi ν)) = Var[G; Measure.pi ν] := by
  have hL := memLp_of_ae_le G K hGm hK
  set μ := ∫ x, G x ∂Measure.pi ν with hμ
  have hLμ : MemLp (fun x => G x - μ) 2 (Measure.pi ν) := hL.sub (memLp_const μ)
  have hv : ∫ x, (G x - μ) ^ 2 ∂Measure.pi ν = Var[G; Measure.pi ν] := (variance_eq_integral hGm.aemeasurable).symm
  have h1 : ∫ p, (G p.1 - μ) ^ 2 ∂((Measure.pi ν).prod (Measure.pi ν)) = Var[G; Measure.pi ν] := by
    have := integral_sq_mix ν (fun x => G x - μ) hLμ fun _ => false
    simp only [mix_none] at this
    rw [this, hv]
  have h2 : ∫ p, (G p.2 - μ) ^ 2 ∂((Measure.pi ν).prod (Measure.pi ν)) = Var[G; Measure.pi ν] := by
    have := integral_sq_mix ν (fun x => G x - μ) hLμ fun _ => true
    simp only [mix_all] at this
    rw [this, hv]
  have i1 : Integrable (fun p : (Fin d → ℝ) × (Fin d → ℝ) => (G p.1 - μ) ^ 2) ((Measure.pi ν).prod (Measure.pi ν)) :=
    (memLp_fst ν _ hLμ).integrable_sq
  have i2 : Integrable (fun p : (Fin d → ℝ) × (Fin d → ℝ) => (G p.2 - μ) ^ 2) ((Measure.pi ν).prod (Measure.pi ν)) :=
    (memLp_snd ν _ hLμ).integrable_sq
  unfold pairDev
  rw [integral_div, integral_add i1 i2, h1, h2]
  ring

variable {Ω : Type} [MeasurableSpace Ω] {P : Measure Ω} {Z : ℕ → Ω → (Fin d → ℝ) × (Fin d → ℝ)}

/-- Intervals around an estimate whose numerator is a mean over the rows, centred at the mean output. -/
theorem index_limits (hV : 0 < Var[G; Measure.pi ν]) (hZ : BaseRows ν P Z) (second : Bool) (g : Nat) (groupOf : Nat → Nat)
    (h1 h2 : (Fin d → ℝ) × (Fin d → ℝ) → ℝ) (m1 : Measurable h1) (m2 : Measurable h2) (H1 H2 : ℝ)
    (b1 : ∀ᵐ p ∂(Measure.pi ν).prod (Measure.pi ν), |h1 p| ≤ H1) (b2 : ∀ᵐ p ∂(Measure.pi ν).prod (Measure.pi ν), |h2 p| ≤ H2)
    (θ : ℝ) (e1 : ∫ p, h1 p ∂((Measure.pi ν).prod (Measure.pi ν)) = θ * Var[G; Measure.pi ν])
    (e2 : ∫ p, h2 p ∂((Measure.pi ν).prod (Measure.pi ν)) = 0)
    (hdeg : ¬ ∀ᵐ p ∂(Measure.pi ν).prod (Measure.pi ν), h1 p - (∫ x, G x ∂Measure.pi ν) * h2 p = θ * pairDev ν G p)
    (z : ℝ) (hz : 0 < z) (ε : ℝ) (hε : 0 < ε) :
    CoverageLimits P Z z ε fun N R w cov =>
      ∀ ω, sampleVar G (List.ofFn fun i : Fin N => Z i ω) ≠ 0 →
        (∀ r, sampleVar G (List.ofFn fun i => Z (w ω r i) ω) ≠ 0) →
        (ω ∈ cov ↔ |(rowMean (List.ofFn fun i : Fin N => Z i ω) h1 -
            rowMean (List.ofFn fun i : Fin N => Z i ω) (blockMean second g groupOf G) * rowMean (List.ofFn fun i : Fin N => Z i ω) h2) /
            sampleVar G (List.ofFn fun i : Fin N => Z i ω) - θ| ≤
          z * √(drawVar fun r => (rowMean (List.ofFn fun i => Z (w ω r i) ω) h1 -
            rowMean (List.ofFn fun i : Fin N => Z i ω) (blockMean second g groupOf G) * rowMean (List.ofFn fun i => Z (w ω r i) ω) h2) /
            sampleVar G (List.ofFn fun i => Z (w ω r i) ω))) := by
  set law := (Measure.pi ν).prod (Measure.pi ν) with hlaw
  set μ := ∫ x, G x ∂Measure.pi ν with hμ
  set V := Var[G; Measure.pi ν] with hVd
  have hK0 := bound_pos G K hGm hK hV
  let F : Fin 5 → (Fin d → ℝ) × (Fin d → ℝ) → ℝ := ![
    fun p => (h1 p - μ * h2 p - θ * (((G p.1 - μ) ^ 2 + (G p.2 - μ) ^ 2) / 2)) / V, h2,
    fun p => (G p.1 + G p.2) / 2 - μ, fun p => ((G p.1 - μ) ^ 2 + (G p.2 - μ) ^ 2) / 2 - V,
    fun p => blockMean second g groupOf G p - μ]
  have mG1 : Measurable fun p : (Fin d → ℝ) × (Fin d → ℝ) => G p.1 := hGm.comp measurable_fst
  have mG2 : Measurable fun p : (Fin d → ℝ) × (Fin d → ℝ) => G p.2 := hGm.comp measurable_snd
  have mM := measurable_blockMean G hGm second g groupOf
  have mF : ∀ a, Measurable (F a) := by
    intro a
    fin_cases a
    · show Measurable fun p => (h1 p - μ * h2 p - θ * (((G p.1 - μ) ^ 2 + (G p.2 - μ) ^ 2) / 2)) / V
      fun_prop
    · exact m2
    · show Measurable fun p : (Fin d → ℝ) × (Fin d → ℝ) => (G p.1 + G p.2) / 2 - μ
      fun_prop
    · show Measurable fun p : (Fin d → ℝ) × (Fin d → ℝ) => ((G p.1 - μ) ^ 2 + (G p.2 - μ) ^ 2) / 2 - V
      fun_prop
    · exact mM.sub_const μ
  have hmix := ae_mix_le G K hK
  have hμK : |μ| ≤ K := abs_mean_le G K hK
  let B : Fin 5 → ℝ := ![(H1 + |μ| * H2 + |θ| * (2 * K) ^ 2) / V, H2, 2 * K, (2 * K) ^ 2 + V, 2 * K]
  have hdevb : ∀ p : (Fin d → ℝ) × (Fin d → ℝ), |G p.1| ≤ K → |G p.2| ≤ K →
      |((G p.1 - μ) ^ 2 + (G p.2 - μ) ^ 2) / 2| ≤ (2 * K) ^ 2 := by
    intro p q1 q2
    have a1 : |G p.1 - μ| ≤ 2 * K := by
      have := abs_sub (G p.1) μ
      linarith
    have a2 : |G p.2 - μ| ≤ 2 * K := by
      have := abs_sub (G p.2) μ
      linarith
    have a3 := pow_le_pow_left₀ (abs_nonneg _) a1 2
    have a4 := pow_le_pow_left₀ (abs_nonneg _) a2 2
    rw [sq_abs] at a3 a4
    rw [abs_of_nonneg (by positivity)]
    linarith
  have hbB : ∀ a, ∀ᵐ p ∂law, |F a p| ≤ B a := by
    intro a
    filter_upwards [b1, b2, hmix] with p q1 q2 q3
    have g1 : |G p.1| ≤ K := by simpa only [mix_none] using q3 fun _ => false
    have g2 : |G p.2| ≤ K := by simpa only [mix_all] using q3 fun _ => true
    have g3 := hdevb p g1 g2
    fin_cases a
    · show |(h1 p - μ * h2 p - θ * (((G p.1 - μ) ^ 2 + (G p.2 - μ) ^ 2) / 2)) / V| ≤ (H1 + |μ| * H2 + |θ| * (2 * K) ^ 2) / V
      rw [abs_div, abs_of_pos hV]
      refine div_le_div_of_nonneg_right ?_ hV.le
      have t1 := abs_sub (h1 p - μ * h2 p) (θ * (((G p.1 - μ) ^ 2 + (G p.2 - μ) ^ 2) / 2))
      have t2 := abs_sub (h1 p) (μ * h2 p)
      rw [abs_mul] at t1 t2
      have t3 := mul_le_mul_of_nonneg_left q2 (abs_nonneg μ)
      have t4 := mul_le_mul_of_nonneg_left g3 (abs_nonneg θ)
      linarith
    · exact q2
    · show |(G p.1 + G p.2) / 2 - μ| ≤ 2 * K
      rw [abs_le] at g1 g2 hμK ⊢
      constructor <;> linarith
    · show |((G p.1 - μ) ^ 2 + (G p.2 - μ) ^ 2) / 2 - V| ≤ (2 * K) ^ 2 + V
      have := abs_sub (((G p.1 - μ) ^ 2 + (G p.2 - μ) ^ 2) / 2) V
      rw [abs_of_pos hV] at this
      linarith
    · show |blockMean second g groupOf G p - μ| ≤ 2 * K
      have t1 := blockMean_abs_le second g groupOf G K p q3
      have := abs_sub (blockMean second g groupOf G p) μ
      linarith
  have hb : ∀ a, ∀ᵐ p ∂law, |F a p| ≤ ∑ a, |B a| := fun a => (hbB a).mono fun p hp =>
    hp.trans ((le_abs_self _).trans (Finset.single_le_sum (f := fun a => |B a|) (fun _ _ => abs_nonneg _) (Finset.mem_univ a)))
  have iOf : ∀ (h : (Fin d → ℝ) × (Fin d → ℝ) → ℝ) (C : ℝ), Measurable h → (∀ᵐ p ∂law, |h p| ≤ C) → Integrable h law :=
    fun h C mh hC => Integrable.of_bound mh.aestronglyMeasurable C hC
  have iD : Integrable (fun p : (Fin d → ℝ) × (Fin d → ℝ) => ((G p.1 - μ) ^ 2 + (G p.2 - μ) ^ 2) / 2) law := by
    refine iOf _ ((2 * K) ^ 2) (by fun_prop) (hmix.mono fun p q3 => ?_)
    exact hdevb p (by simpa only [mix_none] using q3 fun _ => false) (by simpa only [mix_all] using q3 fun _ => true)
  have eD : ∫ p, ((G p.1 - μ) ^ 2 + (G p.2 - μ) ^ 2) / 2 ∂law = V := mean_pairDev G hGm K hK
  have F0 : ∀ a, ∫ p, F a p ∂law = 0 := by
    intro a
    fin_cases a
    · show ∫ p, (h1 p - μ * h2 p - θ * (((G p.1 - μ) ^ 2 + (G p.2 - μ) ^ 2) / 2)) / V ∂law = 0
      have j1 := iOf h1 H1 m1 b1
      have j2 : Integrable (fun p => μ * h2 p) law := (iOf h2 H2 m2 b2).const_mul μ
      have j12 : Integrable (fun p => h1 p - μ * h2 p) law := j1.sub j2
      rw [integral_div, integral_sub j12 (iD.const_mul θ), integral_sub j1 j2, integral_const_mul, integral_const_mul, e1, e2, eD]
      ring
    · exact e2
    · show ∫ p, ((G p.1 + G p.2) / 2 - μ) ∂law = 0
      have j1 := integrable_fst_pair (ν := ν) G hGm K hK
      have j2 := integrable_snd_pair (ν := ν) G hGm K hK
      have j3 : Integrable (fun p : (Fin d → ℝ) × (Fin d → ℝ) => (G p.1 + G p.2) / 2) law := (j1.add j2).div_const 2
      rw [integral_sub j3 (integrable_const _), integral_div, integral_add j1 j2, mean_fst_pair G hGm K hK, mean_snd_pair G hGm K hK]
      simp [← hμ]
    · show ∫ p, (((G p.1 - μ) ^ 2 + (G p.2 - μ) ^ 2) / 2 - V) ∂law = 0
      rw [integral_sub iD (integrable_const _), eD]
      simp
    · show ∫ p, (blockMean second g groupOf G p - μ) ∂law = 0
      have jM : Integrable (blockMean second g groupOf G) law :=
        iOf _ K mM (hmix.mono fun p q3 => blockMean_abs_le second g groupOf G K p q3)
      rw [integral_sub jM (integrable_const _), mean_blockMean G hGm K hK]
      simp [← hμ]
  have hs : 0 < ∫ p, F 0 p ^ 2 ∂law := by
    have hnn : 0 ≤ᵐ[law] fun p => F 0 p ^ 2 := Filter.Eventually.of_forall fun p => sq_nonneg _
    have hint : Integrable (fun p => F 0 p ^ 2) law := by
      refine iOf _ ((∑ a, |B a|) ^ 2) ((mF 0).pow_const 2) ((hb 0).mono fun p hp => ?_)
      rw [abs_pow]
      exact pow_le_pow_left₀ (abs_nonneg _) hp 2
    refine lt_of_le_of_ne (integral_nonneg fun p => sq_nonneg _) fun h0 => hdeg ?_
    have := (integral_eq_zero_iff_of_nonneg_ae hnn hint).mp h0.symm
    filter_upwards [this] with p hp
    have hp0 : F 0 p = 0 := by simpa using hp
    have hp1 : (h1 p - μ * h2 p - θ * (((G p.1 - μ) ^ 2 + (G p.2 - μ) ^ 2) / 2)) / V = 0 := hp0
    rw [div_eq_zero_iff] at hp1
    rcases hp1 with hp1 | hp1
    · show h1 p - μ * h2 p = θ * (((G p.1 - μ) ^ 2 + (G p.2 - μ) ^ 2) / 2)
      linarith
    · exact absurd hp1 hV.ne'
  refine (ratio_limits hZ.meas hZ.law hZ.indep F mF F0 _ hb V θ hV hs z hz ε hε).mono fun N R hNp hR2 w cov hcov => ?_
  have hne : ∀ x : Fin N → (Fin d → ℝ) × (Fin d → ℝ), List.ofFn x ≠ [] := by
    intro x h
    have := congrArg List.length h
    simp at this
    omega
  intro ω x y hx hy px py
  have hx' : ∀ a, x a = rowMean (List.ofFn fun i : Fin N => Z i ω) (F a) := fun a => by rw [hx a, firstRows_eq_ofFn]
  have hy' : ∀ a r, y a r = rowMean (List.ofFn fun i => Z (w ω r i) ω) (F a) := fun a r => by rw [hy a r, rowMean_ofFn]
  set c := rowMean (List.ofFn fun i : Fin N => Z i ω) (blockMean second g groupOf G) with hc
  have hx4 : x 4 = c - μ := by
    rw [hx' 4, hc]
    show rowMean _ (fun p => blockMean second g groupOf G p - μ) = _
    have := rowMean_lin (List.ofFn fun i : Fin N => Z i ω) (blockMean second g groupOf G) (fun _ => μ) 1 (-1)
    rw [rowMean_const _ (hne _), one_mul] at this
    rw [show ∀ a : ℝ, a - μ = a + -1 * μ from fun a => by ring, ← this]
    congr 1
    funext p
    ring
  obtain ⟨v1, v2⟩ := estimate_err G (List.ofFn fun i : Fin N => Z i ω) (hne _) h1 h2 μ V θ c hV.ne'
  have v1' : sampleVar G (List.ofFn fun i : Fin N => Z i ω) = V + x 3 - x 2 ^ 2 := by
    rw [hx' 3, hx' 2]
    exact v1
  have hsv : sampleVar G (List.ofFn fun i : Fin N => Z i ω) ≠ 0 := by rw [v1']; exact px.ne'
  have er := fun r => estimate_err G (List.ofFn fun i => Z (w ω r i) ω) (hne _) h1 h2 μ V θ c hV.ne'
  have hsr : ∀ r, sampleVar G (List.ofFn fun i => Z (w ω r i) ω) ≠ 0 := by
    intro r
    have : sampleVar G (List.ofFn fun i => Z (w ω r i) ω) = V + y 3 r - y 2 r ^ 2 := by
      rw [hy' 3, hy' 2]
      exact (er r).1
    rw [this]
    exact (py r).ne'
  rw [hcov ω hsv hsr, v2 hsv, add_sub_cancel_right]
  have hdv : (drawVar fun r => (rowMean (List.ofFn fun i => Z (w ω r i) ω) h1 - c * rowMean (List.ofFn fun i => Z (w ω r i) ω) h2) /
      sampleVar G (List.ofFn fun i => Z (w ω r i) ω)) =
      drawVar fun r => ratioErr V θ (y 0 r) (y 1 r) (y 2 r) (y 3 r) (x 4) := by
    rw [← drawVar_shift (by omega) (fun r => ratioErr V θ (y 0 r) (y 1 r) (y 2 r) (y 3 r) (x 4)) θ]
    congr 1
    funext r
    rw [(er r).2 (hsr r), hy' 0, hy' 1, hy' 2, hy' 3, hx4]
    rfl
  rw [hdv, hx' 0, hx' 1, hx' 2, hx' 3, hx4]
  exact Iff.rfl

end limit

theorem covers_iff {value width : Option (Num ℝ)} {m w : ℝ} (hm : value = some (some m)) (hw : width = some (some w)) (v : ℝ) :
    Covers value width v ↔ |m - v| ≤ w := by
  constructor
  · rintro ⟨m', w', h1, h2, h⟩
    rw [hm] at h1
    rw [hw] at h2
    simp only [Option.some.injEq] at h1 h2
    rwa [h1, h2]
  · exact fun h => ⟨m, w, hm, hw, h⟩

theorem inGroup_disjoint (groupOf : Nat → Nat) (j k : Nat) (h : j ≠ k) (i : Fin d) :
    ¬(inGroup groupOf j i = true ∧ inGroup groupOf k i = true) := by
  unfold inGroup
  simp only [beq_iff_eq]
  omega

section claims

variable (normPpf : ℝ → ℝ) (f : List ℝ → ℝ) (second : Bool) (g : Nat) (groupOf : Nat → Nat)
  (pb : Problem ℝ) (conf : ℝ) (keep : Bool) (hg : (extractGroupNames pb).2 = g) (hconf : 0 < conf ∧ conf < 1)
  (hz : stdNormalCDF (normPpf (1 / 2 + conf / 2)) = 1 / 2 + conf / 2)
  (ν : Fin d → Measure ℝ) [∀ i, IsProbabilityMeasure (ν i)] {Ω : Type} [MeasurableSpace Ω] (P : Measure Ω)
  (Z : ℕ → Ω → (Fin d → ℝ) × (Fin d → ℝ)) (hZ : BaseRows ν P Z)
  (G : (Fin d → ℝ) → ℝ) (hf : ∀ x, f (List.ofFn x) = G x)
  (hGm : Measurable G) (K : ℝ) (hK : ∀ᵐ x ∂Measure.pi ν, |G x| ≤ K) (hV : 0 < Var[G; Measure.pi ν])
include hg hconf hz hZ hf hGm hK hV

theorem first_limits (k : Nat) (hk : k < g)
    (hdeg : ¬ ∀ᵐ p ∂(Measure.pi ν).prod (Measure.pi ν), firstTerm ν G (inGroup groupOf k) p =
      closedEffect ν G (inGroup groupOf k) / Var[G; Measure.pi ν] * pairDev ν G p) (ε : ℝ) (hε : 0 < ε) :
    CoverageLimits P Z (normPpf (1 / 2 + conf / 2)) ε fun N R w cov => cov =
      {ω | ∃ res,
        sobolAnalyze Real.sqrt normPpf pb
          ((crossDesign second d g groupOf ((firstRows Z N ω).map pairRow)).map f) second conf (drawLists (w ω)) keep .serial = .ok res ∧
        Covers res.S1[k]? res.S1conf[k]? (closedEffect ν G (inGroup groupOf k) / Var[G; Measure.pi ν])} := by
  obtain ⟨hz0, -⟩ := normalWithin_level _ conf hconf.1 hz
  have hmix := ae_mix_le G K hK
  have hK0 := bound_pos G K hGm hK hV
  set s := inGroup (d := d) groupOf k with hs
  have mG1 : Measurable fun p : (Fin d → ℝ) × (Fin d → ℝ) => G p.1 := hGm.comp measurable_fst
  have mG2 : Measurable fun p : (Fin d → ℝ) × (Fin d → ℝ) => G p.2 := hGm.comp measurable_snd
  have mGs : Measurable fun p : (Fin d → ℝ) × (Fin d → ℝ) => G (mix s p.1 p.2) := hGm.comp (measurable_mix s)
  have h := index_limits G hGm K hK hV hZ second g groupOf (fun p => G p.2 * (G (mix s p.1 p.2) - G p.1))
    (fun p => G (mix s p.1 p.2) - G p.1) (mG2.mul (mGs.sub mG1)) (mGs.sub mG1) (K * (2 * K)) (2 * K)
    (hmix.mono fun p q => by
      have g1 : |G p.1| ≤ K := by simpa only [mix_none] using q fun _ => false
      have g2 : |G p.2| ≤ K := by simpa only [mix_all] using q fun _ => true
      rw [abs_mul]
      have := abs_sub (G (mix s p.1 p.2)) (G p.1)
      exact mul_le_mul g2 (by linarith [q s]) (abs_nonneg _) hK0.le)
    (hmix.mono fun p q => by
      have g1 : |G p.1| ≤ K := by simpa only [mix_none] using q fun _ => false
      have := abs_sub (G (mix s p.1 p.2)) (G p.1)
      linarith [q s])
    (closedEffect ν G s / Var[G; Measure.pi ν])
    (by rw [mean_first ν G (memLp_of_ae_le G K hGm hK), div_mul_cancel₀ _ hV.ne'])
    (mean_mixed_sub G hGm K hK s)
    (fun hd => hdeg (hd.mono fun p hp => by
      rw [← hp]
      unfold firstTerm
      ring)) _ hz0 ε hε
  refine h.mono fun N R hN hR w cov hcov ω hv hvr => ?_
  rw [hcov]
  obtain ⟨res, hrun, hS, -⟩ := sobol_intervals normPpf f second g groupOf (fun i : Fin N => Z i ω) (w ω) pb conf keep hg hconf
    hR G hf hv hvr
  obtain ⟨q1, q2, -, -⟩ := hS k hk
  rw [← firstRows_eq_ofFn] at hrun
  have key := covers_iff q1 q2 (closedEffect ν G s / Var[G; Measure.pi ν])
  refine Iff.trans ⟨?_, fun hc => ⟨res, hrun, hc⟩⟩ key
  rintro ⟨res', hrun', hc⟩
  rw [hrun] at hrun'
  cases hrun'
  exact hc

/-- **C142**.  The interval `S1 ± S1_conf` contains the first-order index with a probability which tends to the confidence level. -/
theorem C142_first (k : Nat) (hk : k < g)
    (hdeg : ¬ ∀ᵐ p ∂(Measure.pi ν).prod (Measure.pi ν), firstTerm ν G (inGroup groupOf k) p =
      closedEffect ν G (inGroup groupOf k) / Var[G; Measure.pi ν] * pairDev ν G p) (ε : ℝ) (hε : 0 < ε) :
    ∃ N0 R0, ∀ N ≥ N0, ∀ R ≥ R0, R ≤ N → ∀ w : Ω → Fin R → Fin N → Fin N, FreshResample P Z N R w →
      |P.real {ω | ∃ res,
        sobolAnalyze Real.sqrt normPpf pb
          ((crossDesign second d g groupOf ((firstRows Z N ω).map pairRow)).map f) second conf (drawLists (w ω)) keep .serial = .ok res ∧
        Covers res.S1[k]? res.S1conf[k]? (closedEffect ν G (inGroup groupOf k) / Var[G; Measure.pi ν])} - conf| < ε := by
  obtain ⟨-, hlev⟩ := normalWithin_level _ conf hconf.1 hz
  obtain ⟨N0, R0, h⟩ := (first_limits normPpf f second g groupOf pb conf keep hg hconf hz ν P Z hZ G hf hGm K hK hV k hk hdeg ε hε).many
  simp only [hlev] at h
  exact ⟨N0, R0, fun N hN R hR hRN w hw => h N hN R hR hRN w hw _ rfl⟩

theorem total_limits (k : Nat) (hk : k < g)
    (hdeg : ¬ ∀ᵐ p ∂(Measure.pi ν).prod (Measure.pi ν), totalTerm G (inGroup groupOf k) p =
      totalEffect ν G (inGroup groupOf k) / Var[G; Measure.pi ν] * pairDev ν G p) (ε : ℝ) (hε : 0 < ε) :
    CoverageLimits P Z (normPpf (1 / 2 + conf / 2)) ε fun N R w cov => cov =
      {ω | ∃ res,
        sobolAnalyze Real.sqrt normPpf pb
          ((crossDesign second d g groupOf ((firstRows Z N ω).map pairRow)).map f) second conf (drawLists (w ω)) keep .serial = .ok res ∧
        Covers res.ST[k]? res.STconf[k]? (totalEffect ν G (inGroup groupOf k) / Var[G; Measure.pi ν])} := by
  obtain ⟨hz0, -⟩ := normalWithin_level _ conf hconf.1 hz
  have hmix := ae_mix_le G K hK
  have hK0 := bound_pos G K hGm hK hV
  set s := inGroup (d := d) groupOf k with hs
  have mG1 : Measurable fun p : (Fin d → ℝ) × (Fin d → ℝ) => G p.1 := hGm.comp measurable_fst
  have mGs : Measurable fun p : (Fin d → ℝ) × (Fin d → ℝ) => G (mix s p.1 p.2) := hGm.comp (measurable_mix s)
  have h := index_limits G hGm K hK hV hZ second g groupOf (fun p => 1 / 2 * (G p.1 - G (mix s p.1 p.2)) ^ 2)
    (fun _ => 0) (((mG1.sub mGs).pow_const 2).const_mul (1 / 2)) measurable_const ((2 * K) ^ 2) 0
    (hmix.mono fun p q => by
      have g1 : |G p.1| ≤ K := by simpa only [mix_none] using q fun _ => false
      have g2 := abs_sub (G p.1) (G (mix s p.1 p.2))
      have g3 := pow_le_pow_left₀ (abs_nonneg _) (show |G p.1 - G (mix s p.1 p.2)| ≤ 2 * K by linarith [q s]) 2
      rw [sq_abs] at g3
      rw [abs_of_nonneg (by positivity)]
      have := sq_nonneg (G p.1 - G (mix s p.1 p.2))
      linarith)
    (Filter.Eventually.of_forall fun p => by simp)
    (totalEffect ν G s / Var[G; Measure.pi ν])
    (by rw [integral_const_mul, mean_total ν G (memLp_of_ae_le G K hGm hK), div_mul_cancel₀ _ hV.ne'])
    (by simp)
    (fun hd => hdeg (hd.mono fun p hp => by
      rw [← hp]
      unfold totalTerm
      ring)) _ hz0 ε hε
  have ht : ∀ rows : List ((Fin d → ℝ) × (Fin d → ℝ)), rows ≠ [] → ∀ c : ℝ,
      rowMean rows (fun p => 1 / 2 * (G p.1 - G (mix s p.1 p.2)) ^ 2) - c * rowMean rows (fun _ => 0) = totalNum G s rows := by
    intro rows hr c
    have := rowMean_lin rows (fun p => (G p.1 - G (mix s p.1 p.2)) ^ 2) (fun _ => 0) (1 / 2) 0
    simp only [mul_zero, zero_mul, add_zero] at this
    rw [rowMean_const rows hr, mul_zero, sub_zero, this]
    rfl
  refine h.mono fun N R hN hR w cov hcov ω hv hvr => ?_
  rw [hcov]
  obtain ⟨res, hrun, hS, -⟩ := sobol_intervals normPpf f second g groupOf (fun i : Fin N => Z i ω) (w ω) pb conf keep hg hconf
    hR G hf hv hvr
  obtain ⟨-, -, q1, q2⟩ := hS k hk
  rw [← firstRows_eq_ofFn] at hrun
  have key := covers_iff q1 q2 (totalEffect ν G s / Var[G; Measure.pi ν])
  simp only [ht _ (rows_ne_nil _ G 1 one_ne_zero hv), ht _ (rows_ne_nil _ G 1 one_ne_zero (hvr _))]
  refine Iff.trans ⟨?_, fun hc => ⟨res, hrun, hc⟩⟩ key
  rintro ⟨res', hrun', hc⟩
  rw [hrun] at hrun'
  cases hrun'
  exact hc

/-- **C142**.  The interval `ST ± ST_conf` contains the total index with a probability which tends to the confidence level. -/
theorem C142_total (k : Nat) (hk : k < g)
    (hdeg : ¬ ∀ᵐ p ∂(Measure.pi ν).prod (Measure.pi ν), totalTerm G (inGroup groupOf k) p =
      totalEffect ν G (inGroup groupOf k) / Var[G; Measure.pi ν] * pairDev ν G p) (ε : ℝ) (hε : 0 < ε) :
    ∃ N0 R0, ∀ N ≥ N0, ∀ R ≥ R0, R ≤ N → ∀ w : Ω → Fin R → Fin N → Fin N, FreshResample P Z N R w →
      |P.real {ω | ∃ res,
        sobolAnalyze Real.sqrt normPpf pb
          ((crossDesign second d g groupOf ((firstRows Z N ω).map pairRow)).map f) second conf (drawLists (w ω)) keep .serial = .ok res ∧
        Covers res.ST[k]? res.STconf[k]? (totalEffect ν G (inGroup groupOf k) / Var[G; Measure.pi ν])} - conf| < ε := by
  obtain ⟨-, hlev⟩ := normalWithin_level _ conf hconf.1 hz
  obtain ⟨N0, R0, h⟩ := (total_limits normPpf f second g groupOf pb conf keep hg hconf hz ν P Z hZ G hf hGm K hK hV k hk hdeg ε hε).many
  simp only [hlev] at h
  exact ⟨N0, R0, fun N hN R hR hRN w hw => h N hN R hR hRN w hw _ rfl⟩

omit second in
theorem second_limits (j k : Nat) (hjk : j < k) (hk : k < g)
    (hdeg : ¬ ∀ᵐ p ∂(Measure.pi ν).prod (Measure.pi ν), secondTerm ν G (inGroup groupOf j) (inGroup groupOf k) p =
      (closedEffect ν G (fun i => inGroup groupOf j i || inGroup groupOf k i) -
        closedEffect ν G (inGroup groupOf j) - closedEffect ν G (inGroup groupOf k)) / Var[G; Measure.pi ν] * pairDev ν G p)
    (ε : ℝ) (hε : 0 < ε) :
    CoverageLimits P Z (normPpf (1 / 2 + conf / 2)) ε fun N R w cov => cov =
      {ω | ∃ res S2 S2conf,
        sobolAnalyze Real.sqrt normPpf pb
          ((crossDesign true d g groupOf ((firstRows Z N ω).map pairRow)).map f) true conf (drawLists (w ω)) keep .serial = .ok res ∧
        res.S2 = some S2 ∧ res.S2conf = some S2conf ∧
        Covers (entry S2 j k) (entry S2conf j k) ((closedEffect ν G (fun i => inGroup groupOf j i || inGroup groupOf k i) -
          closedEffect ν G (inGroup groupOf j) - closedEffect ν G (inGroup groupOf k)) / Var[G; Measure.pi ν])} := by
  obtain ⟨hz0, -⟩ := normalWithin_level _ conf hconf.1 hz
  have hmix := ae_mix_le G K hK
  have hK0 := bound_pos G K hGm hK hV
  have hL := memLp_of_ae_le G K hGm hK
  have hst := fun i : Fin d => inGroup_disjoint groupOf j k hjk.ne i
  set s := inGroup (d := d) groupOf j with hs
  set t := inGroup (d := d) groupOf k with ht
  have hflip : ∀ p : (Fin d → ℝ) × (Fin d → ℝ), G (mix s p.2 p.1) = G (mix (fun i => !s i) p.1 p.2) := fun p => by rw [mix_flip]
  have mG1 : Measurable fun p : (Fin d → ℝ) × (Fin d → ℝ) => G p.1 := hGm.comp measurable_fst
  have mG2 : Measurable fun p : (Fin d → ℝ) × (Fin d → ℝ) => G p.2 := hGm.comp measurable_snd
  have mGs : Measurable fun p : (Fin d → ℝ) × (Fin d → ℝ) => G (mix s p.1 p.2) := hGm.comp (measurable_mix s)
  have mGt : Measurable fun p : (Fin d → ℝ) × (Fin d → ℝ) => G (mix t p.1 p.2) := hGm.comp (measurable_mix t)
  have mGf : Measurable fun p : (Fin d → ℝ) × (Fin d → ℝ) => G (mix s p.2 p.1) :=
    hGm.comp ((measurable_mix s).comp measurable_swap)
  have i1 := integrable_fst_pair (ν := ν) G hGm K hK
  have i2 := integrable_snd_pair (ν := ν) G hGm K hK
  have is := integrable_mixed (ν := ν) G hGm K hK s
  have if' : Integrable (fun p : (Fin d → ℝ) × (Fin d → ℝ) => G (mix s p.2 p.1)) ((Measure.pi ν).prod (Measure.pi ν)) := by
    rw [show (fun p : (Fin d → ℝ) × (Fin d → ℝ) => G (mix s p.2 p.1)) = fun p => G (mix (fun i => !s i) p.1 p.2) from funext hflip]
    exact integrable_mixed (ν := ν) G hGm K hK _
  have ef : ∫ p, G (mix s p.2 p.1) ∂((Measure.pi ν).prod (Measure.pi ν)) = ∫ x, G x ∂Measure.pi ν := by
    rw [show (fun p : (Fin d → ℝ) × (Fin d → ℝ) => G (mix s p.2 p.1)) = fun p => G (mix (fun i => !s i) p.1 p.2) from funext hflip]
    exact integral_mix ν G hL _
  have b2 : ∀ u v : ℝ, |u| ≤ K → |v| ≤ K → |u * v| ≤ K ^ 2 := fun u v hu hv => by
    rw [abs_mul, sq]
    exact mul_le_mul hu hv (abs_nonneg _) hK0.le
  have bfirst : ∀ r : Fin d → Bool, ∀ᵐ p ∂(Measure.pi ν).prod (Measure.pi ν), |G p.2 * (G (mix r p.1 p.2) - G p.1)| ≤ 2 * K ^ 2 := fun r =>
    hmix.mono fun p q => by
      have g1 : |G p.1| ≤ K := by simpa only [mix_none] using q fun _ => false
      have g2 : |G p.2| ≤ K := by simpa only [mix_all] using q fun _ => true
      rw [mul_sub]
      have := abs_sub (G p.2 * G (mix r p.1 p.2)) (G p.2 * G p.1)
      linarith [b2 _ _ g2 (q r), b2 _ _ g2 g1]
  have bA : ∀ᵐ p ∂(Measure.pi ν).prod (Measure.pi ν), |G (mix s p.2 p.1) * G (mix t p.1 p.2) - G p.1 * G p.2| ≤ 2 * K ^ 2 :=
    hmix.mono fun p q => by
      have g1 : |G p.1| ≤ K := by simpa only [mix_none] using q fun _ => false
      have g2 : |G p.2| ≤ K := by simpa only [mix_all] using q fun _ => true
      have g3 : |G (mix s p.2 p.1)| ≤ K := by rw [hflip]; exact q _
      have := abs_sub (G (mix s p.2 p.1) * G (mix t p.1 p.2)) (G p.1 * G p.2)
      linarith [b2 _ _ g3 (q t), b2 _ _ g1 g2]
  have mA : Measurable fun p : (Fin d → ℝ) × (Fin d → ℝ) => G (mix s p.2 p.1) * G (mix t p.1 p.2) - G p.1 * G p.2 :=
    (mGf.mul mGt).sub (mG1.mul mG2)
  have mS : Measurable fun p : (Fin d → ℝ) × (Fin d → ℝ) => G p.2 * (G (mix s p.1 p.2) - G p.1) := mG2.mul (mGs.sub mG1)
  have mT : Measurable fun p : (Fin d → ℝ) × (Fin d → ℝ) => G p.2 * (G (mix t p.1 p.2) - G p.1) := mG2.mul (mGt.sub mG1)
  have iA := Integrable.of_bound mA.aestronglyMeasurable _ bA
  have iS := Integrable.of_bound mS.aestronglyMeasurable _ (bfirst s)
  have iT := Integrable.of_bound mT.aestronglyMeasurable _ (bfirst t)
  have iAS : Integrable (fun p : (Fin d → ℝ) × (Fin d → ℝ) => G (mix s p.2 p.1) * G (mix t p.1 p.2) - G p.1 * G p.2 -
      G p.2 * (G (mix s p.1 p.2) - G p.1)) ((Measure.pi ν).prod (Measure.pi ν)) := iA.sub iS
  have ifs : Integrable (fun p : (Fin d → ℝ) × (Fin d → ℝ) => G (mix s p.2 p.1) - G (mix s p.1 p.2))
    ((Measure.pi ν).prod (Measure.pi ν)) := if'.sub is
  have ifs1 : Integrable (fun p : (Fin d → ℝ) × (Fin d → ℝ) => G (mix s p.2 p.1) - G (mix s p.1 p.2) + G p.1)
    ((Measure.pi ν).prod (Measure.pi ν)) := ifs.add i1
  have h := index_limits G hGm K hK hV hZ true g groupOf
    (fun p => G (mix s p.2 p.1) * G (mix t p.1 p.2) - G p.1 * G p.2 - G p.2 * (G (mix s p.1 p.2) - G p.1) -
      G p.2 * (G (mix t p.1 p.2) - G p.1))
    (fun p => G (mix s p.2 p.1) - G (mix s p.1 p.2) + G p.1 - G p.2) ((mA.sub mS).sub mT) (((mGf.sub mGs).add mG1).sub mG2) (6 * K ^ 2) (4 * K)
    (by
      filter_upwards [bA, bfirst s, bfirst t] with p q1 q2 q3
      have t1 := abs_sub (G (mix s p.2 p.1) * G (mix t p.1 p.2) - G p.1 * G p.2 - G p.2 * (G (mix s p.1 p.2) - G p.1))
        (G p.2 * (G (mix t p.1 p.2) - G p.1))
      have t2 := abs_sub (G (mix s p.2 p.1) * G (mix t p.1 p.2) - G p.1 * G p.2) (G p.2 * (G (mix s p.1 p.2) - G p.1))
      linarith)
    (hmix.mono fun p q => by
      have g1 : |G p.1| ≤ K := by simpa only [mix_none] using q fun _ => false
      have g2 : |G p.2| ≤ K := by simpa only [mix_all] using q fun _ => true
      have g3 : |G (mix s p.2 p.1)| ≤ K := by rw [hflip]; exact q _
      have g4 := q s
      rw [abs_le] at g1 g2 g3 g4 ⊢
      constructor <;> linarith)
    ((closedEffect ν G (fun i => s i || t i) - closedEffect ν G s - closedEffect ν G t) / Var[G; Measure.pi ν])
    (by rw [integral_sub iAS iT, integral_sub iA iS, mean_second ν G hL s t hst, mean_first ν G hL, mean_first ν G hL,
      div_mul_cancel₀ _ hV.ne'])
    (by
      rw [integral_sub ifs1 i2, integral_add ifs i1, integral_sub if' is, ef, integral_mix ν G hL s, mean_fst_pair G hGm K hK,
        mean_snd_pair G hGm K hK]
      ring)
    (fun hd => hdeg (hd.mono fun p hp => by
      rw [← hp]
      unfold secondTerm firstTerm
      ring)) _ hz0 ε hε
  have hn : ∀ (rows : List ((Fin d → ℝ) × (Fin d → ℝ))) (c : ℝ),
      rowMean rows (fun p => G (mix s p.2 p.1) * G (mix t p.1 p.2) - G p.1 * G p.2 - G p.2 * (G (mix s p.1 p.2) - G p.1) -
        G p.2 * (G (mix t p.1 p.2) - G p.1)) -
        c * rowMean rows (fun p => G (mix s p.2 p.1) - G (mix s p.1 p.2) + G p.1 - G p.2) = secondAt G c s t rows := by
    intro rows c
    unfold secondAt
    congr 1
    have a1 := rowMean_lin rows (fun p => G (mix s p.2 p.1) * G (mix t p.1 p.2) - G p.1 * G p.2)
      (fun p => G p.2 * (G (mix s p.1 p.2) - G p.1)) 1 (-1)
    have a2 := rowMean_lin rows (fun p => 1 * (G (mix s p.2 p.1) * G (mix t p.1 p.2) - G p.1 * G p.2) +
      -1 * (G p.2 * (G (mix s p.1 p.2) - G p.1))) (fun p => G p.2 * (G (mix t p.1 p.2) - G p.1)) 1 (-1)
    rw [a1] at a2
    rw [show ∀ a b e : ℝ, a - b - e = 1 * (1 * a + -1 * b) + -1 * e from fun a b e => by ring, ← a2]
    congr 1
    funext p
    ring
  refine h.mono fun N R hN hR w cov hcov ω hv hvr => ?_
  rw [hcov]
  obtain ⟨res, hrun, -, hS⟩ := sobol_intervals normPpf f true g groupOf (fun i : Fin N => Z i ω) (w ω) pb conf keep hg hconf
    hR G hf hv hvr
  obtain ⟨S2, S2c, e1, e2, hS2⟩ := hS rfl
  obtain ⟨q1, q2⟩ := hS2 j k hjk hk
  rw [← firstRows_eq_ofFn] at hrun
  have key := covers_iff q1 q2 ((closedEffect ν G (fun i => s i || t i) - closedEffect ν G s - closedEffect ν G t) / Var[G; Measure.pi ν])
  simp only [hn]
  refine Iff.trans ⟨?_, fun hc => ⟨res, S2, S2c, hrun, e1, e2, hc⟩⟩ key
  rintro ⟨res', T, Tc, hrun', f1, f2, hc⟩
  rw [hrun] at hrun'
  cases hrun'
  rw [e1] at f1
  rw [e2] at f2
  cases f1
  cases f2
  exact hc

omit second in
/-- **C142**.  The interval `S2 ± S2_conf` contains the second-order index with a probability which tends to the confidence level. -/
theorem C142_second (j k : Nat) (hjk : j < k) (hk : k < g)
    (hdeg : ¬ ∀ᵐ p ∂(Measure.pi ν).prod (Measure.pi ν), secondTerm ν G (inGroup groupOf j) (inGroup groupOf k) p =
      (closedEffect ν G (fun i => inGroup groupOf j i || inGroup groupOf k i) -
        closedEffect ν G (inGroup groupOf j) - closedEffect ν G (inGroup groupOf k)) / Var[G; Measure.pi ν] * pairDev ν G p)
    (ε : ℝ) (hε : 0 < ε) :
    ∃ N0 R0, ∀ N ≥ N0, ∀ R ≥ R0, R ≤ N → ∀ w : Ω → Fin R → Fin N → Fin N, FreshResample P Z N R w →
      |P.real {ω | ∃ res S2 S2conf,
        sobolAnalyze Real.sqrt normPpf pb
          ((crossDesign true d g groupOf ((firstRows Z N ω).map pairRow)).map f) true conf (drawLists (w ω)) keep .serial = .ok res ∧
        res.S2 = some S2 ∧ res.S2conf = some S2conf ∧
        Covers (entry S2 j k) (entry S2conf j k) ((closedEffect ν G (fun i => inGroup groupOf j i || inGroup groupOf k i) -
          closedEffect ν G (inGroup groupOf j) - closedEffect ν G (inGroup groupOf k)) / Var[G; Measure.pi ν])} - conf| < ε := by
  obtain ⟨-, hlev⟩ := normalWithin_level _ conf hconf.1 hz
  obtain ⟨N0, R0, h⟩ := (second_limits normPpf f g groupOf pb conf keep hg hconf hz ν P Z hZ G hf hGm K hK hV j k hjk hk hdeg ε hε).many
  simp only [hlev] at h
  exact ⟨N0, R0, fun N hN R hR hRN w hw => h N hN R hR hRN w hw _ rfl⟩

end claims

/-- There are base rows with fair resamples of every size. -/
theorem fresh_exist (ν : Fin d → Measure ℝ) [∀ i, IsProbabilityMeasure (ν i)] :
    ∃ (Ω : Type) (_ : MeasurableSpace Ω) (P : Measure Ω) (Z : ℕ → Ω → (Fin d → ℝ) × (Fin d → ℝ))
      (w : ∀ N R : Nat, Ω → Fin R → Fin N → Fin N), BaseRows ν P Z ∧ ∀ N R, FreshResample P Z N R (w N R) := by
  have hZ := baseRows_exist ν
  set P := Measure.infinitePi fun _ : ℕ => (Measure.pi ν).prod (Measure.pi ν) with hP
  let B : ℕ × ℕ → Type := fun p => Fin p.2 → Fin p.1 → Fin p.1
  have hp : ∀ p, IsProbabilityMeasure (uniformOn (Set.univ : Set (B p))) := fun p => by
    have : Nonempty (B p) := ⟨fun _ i => i⟩
    exact uniformOn_isProbabilityMeasure Set.finite_univ Set.univ_nonempty
  let Q : Measure (∀ p, B p) := Measure.infinitePi fun p => uniformOn Set.univ
  have hQ : IsProbabilityMeasure Q := inferInstance
  have hfst : Measure.map Prod.fst (P.prod Q) = P := by rw [Measure.map_fst_prod]; simp
  have hmap : ∀ {β : Type} [MeasurableSpace β] (h : (ℕ → (Fin d → ℝ) × (Fin d → ℝ)) → β), Measurable h →
      Measure.map (fun ω : (ℕ → (Fin d → ℝ) × (Fin d → ℝ)) × (∀ p, B p) => h ω.1) (P.prod Q) = Measure.map h P := by
    intro β _ h hh
    conv_rhs => rw [← hfst]
    rw [Measure.map_map hh measurable_fst]
    rfl
  have hmi : ∀ i : ℕ, Measurable fun ω : (ℕ → (Fin d → ℝ) × (Fin d → ℝ)) × (∀ p, B p) => ω.1 i := fun i =>
    (measurable_pi_apply i).comp measurable_fst
  refine ⟨(ℕ → (Fin d → ℝ) × (Fin d → ℝ)) × (∀ p, B p), inferInstance, P.prod Q, fun i ω => ω.1 i, fun N R ω => ω.2 (N, R), ⟨?_, ?_, ?_⟩, ?_⟩
  · exact hmi
  · refine (iIndepFun_iff_map_fun_eq_infinitePi_map hmi).mpr ?_
    have h1 := (iIndepFun_iff_map_fun_eq_infinitePi_map hZ.meas).mp hZ.indep
    rw [hmap (fun ω i => ω i) (measurable_pi_lambda _ fun i => measurable_pi_apply i), h1]
    congr 1
    funext i
    rw [hmap (fun ω => ω i) (measurable_pi_apply i)]
  · intro i
    rw [hmap (fun ω => ω i) (measurable_pi_apply i)]
    exact hZ.law i
  · intro N R
    constructor
    intro S hS t
    have e1 : {ω : (ℕ → (Fin d → ℝ) × (Fin d → ℝ)) × (∀ p, B p) | (fun i : Fin N => ω.1 i) ∈ S ∧ ω.2 (N, R) = t} =
        {ω | (fun i : Fin N => ω i) ∈ S} ×ˢ {v : ∀ p, B p | v (N, R) = t} := by
      ext ω; simp
    have e2 : {ω : (ℕ → (Fin d → ℝ) × (Fin d → ℝ)) × (∀ p, B p) | (fun i : Fin N => ω.1 i) ∈ S} =
        {ω | (fun i : Fin N => ω i) ∈ S} ×ˢ Set.univ := by
      ext ω; simp
    have e3 : Q.real {v : ∀ p, B p | v (N, R) = t} = 1 / Fintype.card (Fin R → Fin N → Fin N) := by
      have h1 : Q.real {v : ∀ p, B p | v (N, R) = t} = (Measure.map (fun v : ∀ p, B p => v (N, R)) Q).real {t} := by
        have hmv : Measurable fun v : ∀ p, B p => v (N, R) := measurable_pi_apply (N, R)
        rw [map_measureReal_apply hmv (MeasurableSet.singleton t)]
        rfl
      rw [h1, Measure.infinitePi_map_eval]
      unfold Measure.real
      rw [uniformOn_univ, Measure.count_singleton]
      simp [B]
    rw [e1, e2, measureReal_prod_prod, measureReal_prod_prod, e3]
    simp [div_eq_mul_inv]

/-- A base row with low values in the first matrix and high values in the second is met with positive probability. -/
theorem opposite_row (C : (Fin 2 → ℝ) × (Fin 2 → ℝ) → Prop)
    (h : ∀ᵐ p ∂(Measure.pi fun _ : Fin 2 => unifOn 0 1).prod (Measure.pi fun _ : Fin 2 => unifOn 0 1), C p) :
    ∃ p, C p ∧ (∀ i, lowerHalf (p.1 i) = 1) ∧ ∀ i, lowerHalf (p.2 i) = 0 := by
  have hp := isProb_unifOn (zero_lt_one (α := ℝ))
  have hu : ∀ a b : ℝ, 0 ≤ a → a < b → b ≤ 1 → unifOn 0 1 (Set.Ico a b) ≠ 0 := by
    intro a b ha hab hb h0
    unfold unifOn at h0
    rw [cond_apply measurableSet_Icc, mul_eq_zero] at h0
    rcases h0 with h0 | h0
    · simp at h0
    · have : Set.Icc (0 : ℝ) 1 ∩ Set.Ico a b = Set.Ico a b := Set.inter_eq_right.mpr fun x hx => ⟨ha.trans hx.1, hx.2.le.trans hb⟩
      rw [this, Real.volume_Ico] at h0
      simp at h0
      linarith
  let A : Set ((Fin 2 → ℝ) × (Fin 2 → ℝ)) := (Set.univ.pi fun _ => Set.Ico 0 (1 / 2)) ×ˢ (Set.univ.pi fun _ => Set.Ico (1 / 2) 1)
  have hA : ((Measure.pi fun _ : Fin 2 => unifOn 0 1).prod (Measure.pi fun _ : Fin 2 => unifOn 0 1)) A ≠ 0 := by
    simp only [A]
    rw [Measure.prod_prod, Measure.pi_pi, Measure.pi_pi]
    exact mul_ne_zero (Finset.prod_ne_zero_iff.mpr fun _ _ => hu _ _ le_rfl (by norm_num) (by norm_num))
      (Finset.prod_ne_zero_iff.mpr fun _ _ => hu _ _ (by norm_num) (by norm_num) le_rfl)
  obtain ⟨p, hpA, hpC⟩ := ((frequently_ae_mem_iff.mpr hA).and_eventually h).exists
  refine ⟨p, hpC, fun i => if_pos (hpA.1 i trivial).2, fun i => if_neg (not_lt.mpr (hpA.2 i trivial).1)⟩

/-- The hypotheses can be met: two uniform inputs, the model which is 1 when both are below one half, level 95%. -/
example (normPpf : ℝ → ℝ) (hz : stdNormalCDF (normPpf (1 / 2 + 19 / 20 / 2)) = 1 / 2 + 19 / 20 / 2) :
    ∃ (Ω : Type) (_ : MeasurableSpace Ω) (P : Measure Ω) (Z : ℕ → Ω → (Fin 2 → ℝ) × (Fin 2 → ℝ))
      (w : ∀ N R : Nat, Ω → Fin R → Fin N → Fin N), ∀ ε > 0, ∃ N0 R0, ∀ N ≥ N0, ∀ R ≥ R0, R ≤ N →
      |P.real {ω | ∃ res,
        sobolAnalyze Real.sqrt normPpf { names := ["x", "y"], bounds := [[0, 1], [0, 1]] }
          ((crossDesign true 2 2 id ((firstRows Z N ω).map pairRow)).map fun l => bothLow fun i => l.getD i 0) true (19 / 20)
          (drawLists (w N R ω)) false .serial = .ok res ∧
        Covers res.S1[0]? res.S1conf[0]? (1 / 3)} - 19 / 20| < ε ∧
      |P.real {ω | ∃ res,
        sobolAnalyze Real.sqrt normPpf { names := ["x", "y"], bounds := [[0, 1], [0, 1]] }
          ((crossDesign true 2 2 id ((firstRows Z N ω).map pairRow)).map fun l => bothLow fun i => l.getD i 0) true (19 / 20)
          (drawLists (w N R ω)) false .serial = .ok res ∧
        Covers res.ST[0]? res.STconf[0]? (2 / 3)} - 19 / 20| < ε ∧
      |P.real {ω | ∃ res S2 S2conf,
        sobolAnalyze Real.sqrt normPpf { names := ["x", "y"], bounds := [[0, 1], [0, 1]] }
          ((crossDesign true 2 2 id ((firstRows Z N ω).map pairRow)).map fun l => bothLow fun i => l.getD i 0) true (19 / 20)
          (drawLists (w N R ω)) false .serial = .ok res ∧ res.S2 = some S2 ∧ res.S2conf = some S2conf ∧
        Covers (entry S2 0 1) (entry S2conf 0 1) (1 / 3)} - 19 / 20| < ε := by
  have hp := isProb_unifOn (zero_lt_one (α := ℝ))
  obtain ⟨Ω, m, P, Z, w, hZ, hw⟩ := fresh_exist fun _ : Fin 2 => unifOn 0 1
  refine ⟨Ω, m, P, Z, w, fun ε hε => ?_⟩
  have hvar : Var[bothLow; Measure.pi fun _ => unifOn 0 1] = 3 / 16 := by
    rw [← closedEffect_all _ _ memLp_bothLow, closedEffect_bothLow]
    norm_num
  have hm : Measurable bothLow := by
    have : bothLow = fun x => lowerHalf (x 0) * lowerHalf (x 1) := funext bothLow_eq
    rw [this]
    exact (measurable_lowerHalf.comp (measurable_pi_apply 0)).mul (measurable_lowerHalf.comp (measurable_pi_apply 1))
  have hf : ∀ x : Fin 2 → ℝ, (fun l : List ℝ => bothLow fun i => l.getD i 0) (List.ofFn x) = bothLow x := by
    intro x
    have : (fun i : Fin 2 => (List.ofFn x).getD i 0) = x := by
      funext i
      fin_cases i <;> simp
    show bothLow (fun i : Fin 2 => (List.ofFn x).getD i 0) = _
    rw [this]
  have hK : ∀ᵐ x ∂(Measure.pi fun _ : Fin 2 => unifOn 0 1), |bothLow x| ≤ 1 := by
    refine Filter.Eventually.of_forall fun x => ?_
    rw [bothLow_eq, abs_mul]
    have h1 : ∀ t, |lowerHalf t| ≤ 1 := fun t => by
      unfold lowerHalf
      split <;> simp
    exact mul_le_one₀ (h1 _) (abs_nonneg _) (h1 _)
  have hV : 0 < Var[bothLow; Measure.pi fun _ => unifOn 0 1] := by rw [hvar]; norm_num
  have hmean : ∫ x, bothLow x ∂(Measure.pi fun _ : Fin 2 => unifOn 0 1) = 1 / 4 := by
    simp only [bothLow_eq]
    have := integral_fintype_prod_eq_prod (𝕜 := ℝ) (μ := fun _ : Fin 2 => unifOn 0 1) (fun _ : Fin 2 => lowerHalf)
    simp only [Fin.prod_univ_two, integral_lowerHalf] at this
    rw [this]
    norm_num
  have t1 : closedEffect (fun _ => unifOn 0 1) bothLow (inGroup id 0) / Var[bothLow; Measure.pi fun _ => unifOn 0 1] = 1 / 3 := by
    rw [hvar, closedEffect_bothLow]
    simp [inGroup]
    norm_num
  have t2 : totalEffect (fun _ => unifOn 0 1) bothLow (inGroup id 0) / Var[bothLow; Measure.pi fun _ => unifOn 0 1] = 2 / 3 := by
    rw [totalEffect_eq_sub _ _ memLp_bothLow, hvar, closedEffect_bothLow]
    simp [inGroup]
    norm_num
  have t3 : (closedEffect (fun _ => unifOn 0 1) bothLow (fun i => inGroup id 0 i || inGroup id 1 i) -
      closedEffect (fun _ => unifOn 0 1) bothLow (inGroup id 0) - closedEffect (fun _ => unifOn 0 1) bothLow (inGroup id 1)) /
      Var[bothLow; Measure.pi fun _ => unifOn 0 1] = 1 / 3 := by
    rw [hvar, closedEffect_bothLow, closedEffect_bothLow, closedEffect_bothLow]
    simp [inGroup]
    norm_num
  obtain ⟨N1, R1, h1⟩ := C142_first normPpf (fun l => bothLow fun i => l.getD i 0) true 2 id
    { names := ["x", "y"], bounds := [[0, 1], [0, 1]] } (19 / 20) false rfl (by norm_num) hz (fun _ => unifOn 0 1) P Z hZ bothLow hf hm 1
    hK hV 0 (by norm_num) (by
      intro h
      obtain ⟨p, hpC, hlo, hhi⟩ := opposite_row _ h
      rw [t1] at hpC
      unfold firstTerm pairDev at hpC
      rw [hmean] at hpC
      norm_num [bothLow_eq, mix, inGroup, hlo, hhi] at hpC) ε hε
  obtain ⟨N2, R2, h2⟩ := C142_total normPpf (fun l => bothLow fun i => l.getD i 0) true 2 id
    { names := ["x", "y"], bounds := [[0, 1], [0, 1]] } (19 / 20) false rfl (by norm_num) hz (fun _ => unifOn 0 1) P Z hZ bothLow hf hm 1
    hK hV 0 (by norm_num) (by
      intro h
      obtain ⟨p, hpC, hlo, hhi⟩ := opposite_row _ h
      rw [t2] at hpC
      unfold totalTerm pairDev at hpC
      rw [hmean] at hpC
      norm_num [bothLow_eq, mix, inGroup, hlo, hhi] at hpC) ε hε
  obtain ⟨N3, R3, h3⟩ := C142_second normPpf (fun l => bothLow fun i => l.getD i 0) 2 id
    { names := ["x", "y"], bounds := [[0, 1], [0, 1]] } (19 / 20) false rfl (by norm_num) hz (fun _ => unifOn 0 1) P Z hZ bothLow hf hm 1
    hK hV 0 1 (by norm_num) (by norm_num) (by
      intro h
      obtain ⟨p, hpC, hlo, hhi⟩ := opposite_row _ h
      rw [t3] at hpC
      unfold secondTerm firstTerm pairDev at hpC
      rw [hmean] at hpC
      norm_num [bothLow_eq, mix, inGroup, hlo, hhi] at hpC) ε hε
  rw [t1] at h1
  rw [t2] at h2
  rw [t3] at h3
  refine ⟨max N1 (max N2 N3), max R1 (max R2 R3), fun N hN R hR hRN => ⟨?_, ?_, ?_⟩⟩
  · exact h1 N (by omega) R (by omega) hRN _ (hw N R)
  · exact h2 N (by omega) R (by omega) hRN _ (hw N R)
  · exact h3 N (by omega) R (by omega) hRN _ (hw N R)

end SALib
