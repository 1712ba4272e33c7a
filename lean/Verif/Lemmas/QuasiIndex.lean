import Verif.Lemmas.QuasiMean
import Verif.Lemmas.SobolExpect

/-! # The numerators of the Sobol' indices on evenly spread base rows -/

namespace SALib

open MeasureTheory ProbabilityTheory Spec

variable {d : ℕ} {lo hi : Fin d → ℝ} {k : Fin d → ℕ}

theorem memLp_of_bounded (h : ∀ j, lo j < hi j) {K : ℝ} {G : (Fin d → ℝ) → ℝ} (hGm : Measurable G)
    (hK : ∀ x, InBox lo hi x → |G x| ≤ K) : MemLp G 2 (Measure.pi fun j => unifOn (lo j) (hi j)) := by
  have := fun j => isProb_unifOn (h j)
  refine MemLp.of_bound hGm.aestronglyMeasurable K ?_
  filter_upwards [ae_inBox h] with x hx
  exact hK x hx

section
variable (h : ∀ j, lo j < hi j) {K δ : ℝ} {G : (Fin d → ℝ) → ℝ} (hGm : Measurable G)
  (hK : ∀ x, InBox lo hi x → |G x| ≤ K) (hv : VariesAtMost lo hi k δ G)
  {rows : List ((Fin d → ℝ) × (Fin d → ℝ))} (hr : EvenRows lo hi k rows)
include h hK hv

theorem cellFn_fst : CellFn lo hi k K δ fun p => G p.1 := by
  have := cellFn_mix h hK hv fun _ => false
  simpa only [mix_none] using this

theorem cellFn_snd : CellFn lo hi k K δ fun p => G p.2 := by
  have := cellFn_mix h hK hv fun _ => true
  simpa only [mix_all] using this

theorem cellFn_flip (s : Fin d → Bool) : CellFn lo hi k K δ fun p => G (mix s p.2 p.1) := by
  have := cellFn_mix h hK hv fun j => !s j
  simpa only [mix_flip s] using this

include hGm hr

theorem first_err (s : Fin d → Bool) :
    |rowMean rows (fun p => G p.2 * (G (mix s p.1 p.2) - G p.1)) -
      closedEffect (fun j => unifOn (lo j) (hi j)) G s| ≤ 4 * K * δ := by
  have := fun j => isProb_unifOn (h j)
  have hG := memLp_of_bounded h hGm hK
  have hc := (cellFn_snd h hK hv).mul ((cellFn_mix h hK hv s).sub (cellFn_fst h hK hv))
  have hm := hr.mean h hc ((memLp_snd _ G hG).integrable_mul ((memLp_mix _ G hG s).sub (memLp_fst _ G hG)))
  rw [mean_first _ G hG s] at hm
  refine hm.trans (le_of_eq ?_)
  ring

theorem total_err (s : Fin d → Bool) :
    |totalNum G s rows - totalEffect (fun j => unifOn (lo j) (hi j)) G s| ≤ 4 * K * δ := by
  have := fun j => isProb_unifOn (h j)
  have hG := memLp_of_bounded h hGm hK
  have hd := (cellFn_fst h hK hv).sub (cellFn_mix h hK hv s)
  have hd2 := (memLp_fst _ G hG).sub (memLp_mix _ G hG s)
  have hm := hr.mean h (hd.mul hd) (hd2.integrable_mul hd2)
  simp only [← sq] at hm
  rw [← mean_total _ G hG s]
  unfold totalNum
  rw [← mul_sub, abs_mul, abs_of_pos (by norm_num : (0 : ℝ) < 1 / 2)]
  refine (mul_le_mul_of_nonneg_left hm (by norm_num)).trans (le_of_eq ?_)
  ring

theorem diff_err (s t : Fin d → Bool) :
    |rowMean rows (fun p => G (mix s p.1 p.2) - G (mix t p.1 p.2))| ≤ 2 * δ := by
  have := fun j => isProb_unifOn (h j)
  have hG := memLp_of_bounded h hGm hK
  have i1 := (memLp_mix _ G hG s).integrable one_le_two
  have i2 := (memLp_mix _ G hG t).integrable one_le_two
  have hm := hr.mean h ((cellFn_mix h hK hv s).sub (cellFn_mix h hK hv t)) (i1.sub i2)
  rw [integral_sub i1 i2, integral_mix _ G hG, integral_mix _ G hG, sub_self, sub_zero] at hm
  refine hm.trans (le_of_eq ?_)
  ring

theorem var_err :
    |sampleVar G rows - Var[G; Measure.pi fun j => unifOn (lo j) (hi j)]| ≤ 4 * K * δ := by
  have := fun j => isProb_unifOn (h j)
  have hG := memLp_of_bounded h hGm hK
  have m1 := memLp_fst _ G hG
  have m2 := memLp_snd _ G hG
  have c1 := cellFn_fst h hK hv
  have c2 := cellFn_snd h hK hv
  have hA := hr.mean h (((c1.mul c1).add (c2.mul c2)).smul (1 / 2))
    (((m1.integrable_mul m1).add (m2.integrable_mul m2)).const_mul (1 / 2))
  have hB := hr.mean h ((c1.add c2).smul (1 / 2)) (((m1.integrable one_le_two).add (m2.integrable one_le_two)).const_mul (1 / 2))
  have hBs := hr.size ((c1.add c2).smul (1 / 2))
  have eA : ∫ p, 1 / 2 * (G p.1 * G p.1 + G p.2 * G p.2) ∂((Measure.pi fun j => unifOn (lo j) (hi j)).prod
      (Measure.pi fun j => unifOn (lo j) (hi j))) = ∫ x, G x ^ 2 ∂(Measure.pi fun j => unifOn (lo j) (hi j)) := by
    have e1 := integral_sq_mix _ G hG fun _ => false
    have e2 := integral_sq_mix _ G hG fun _ => true
    simp only [mix_none, mix_all] at e1 e2
    rw [integral_const_mul]
    simp only [← sq]
    rw [integral_add m1.integrable_sq m2.integrable_sq]
    rw [e1, e2]
    ring
  have eB : ∫ p, 1 / 2 * (G p.1 + G p.2) ∂((Measure.pi fun j => unifOn (lo j) (hi j)).prod
      (Measure.pi fun j => unifOn (lo j) (hi j))) = ∫ x, G x ∂(Measure.pi fun j => unifOn (lo j) (hi j)) := by
    have e1 := integral_mix _ G hG fun _ => false
    have e2 := integral_mix _ G hG fun _ => true
    simp only [mix_none, mix_all] at e1 e2
    rw [integral_const_mul, integral_add (m1.integrable one_le_two) (m2.integrable one_le_two), e1, e2]
    ring
  rw [eA] at hA
  rw [eB] at hB
  have hI : |∫ x, G x ∂(Measure.pi fun j => unifOn (lo j) (hi j))| ≤ K := by
    rw [← Real.norm_eq_abs]
    refine (norm_integral_le_of_norm_le_const (C := K) ?_).trans ?_
    · filter_upwards [ae_inBox h] with x hx
      exact hK x hx
    · simp
  have hK0 : 0 ≤ K := (abs_nonneg _).trans hI
  rw [variance_eq_sub hG]
  unfold sampleVar
  have r1 : (fun p : (Fin d → ℝ) × (Fin d → ℝ) => (G p.1 ^ 2 + G p.2 ^ 2) / 2) =
      fun p => 1 / 2 * (G p.1 * G p.1 + G p.2 * G p.2) := by funext p; ring
  have r2 : (fun p : (Fin d → ℝ) × (Fin d → ℝ) => (G p.1 + G p.2) / 2) = fun p => 1 / 2 * (G p.1 + G p.2) := by
    funext p; ring
  rw [r1, r2]
  simp only [Pi.pow_apply]
  rw [abs_of_pos (by norm_num : (0 : ℝ) < 1 / 2)] at hA hB hBs
  set a := rowMean rows fun p => 1 / 2 * (G p.1 * G p.1 + G p.2 * G p.2)
  set b := rowMean rows fun p => 1 / 2 * (G p.1 + G p.2)
  set I := ∫ x, G x ∂(Measure.pi fun j => unifOn (lo j) (hi j))
  set I2 := ∫ x, G x ^ 2 ∂(Measure.pi fun j => unifOn (lo j) (hi j))
  have e : a - b ^ 2 - (I2 - I ^ 2) = (a - I2) - (b + I) * (b - I) := by ring
  rw [e]
  have hbI : |b + I| ≤ 2 * K := (abs_add_le _ _).trans (by linarith)
  have hprod : |(b + I) * (b - I)| ≤ 2 * K * (1 / 2 * (δ + δ)) := by
    rw [abs_mul]
    exact mul_le_mul hbI hB (abs_nonneg _) (by linarith)
  refine (abs_sub _ _).trans ?_
  refine (add_le_add hA hprod).trans (le_of_eq ?_)
  ring

end

/-! ## Numerators -/

theorem cellFn_blockMean (h : ∀ j, lo j < hi j) {K δ : ℝ} {G : (Fin d → ℝ) → ℝ} (hK : ∀ x, InBox lo hi x → |G x| ≤ K)
    (hv : VariesAtMost lo hi k δ G) (second : Bool) (g : ℕ) (groupOf : ℕ → ℕ) :
    CellFn lo hi k K δ (blockMean second g groupOf G) := by
  have hB : (0 : ℝ) < blockSize second g := by
    unfold blockSize
    cases second <;> · simp only [Bool.false_eq_true, if_true, if_false]; positivity
  have hsum : ∀ n : ℕ, CellFn lo hi k (n * (K + if second then K else 0)) (n * (δ + if second then δ else 0))
      fun p => ∑ i ∈ Finset.range n, (G (mix (inGroup groupOf i) p.1 p.2) +
        if second then G (mix (inGroup groupOf i) p.2 p.1) else 0) := by
    intro n
    induction n with
    | zero =>
      constructor <;> intros <;> simp
    | succ n ih =>
      have hstep : CellFn lo hi k (K + if second then K else 0) (δ + if second then δ else 0)
          fun p => G (mix (inGroup groupOf n) p.1 p.2) +
            if second then G (mix (inGroup groupOf n) p.2 p.1) else 0 := by
        cases second
        · simpa using cellFn_mix h hK hv (inGroup groupOf n)
        · simpa using (cellFn_mix h hK hv (inGroup groupOf n)).add (cellFn_flip h hK hv (inGroup groupOf n))
      have := ih.add hstep
      simp only [Finset.sum_range_succ]
      convert this using 1 <;> push_cast <;> ring
  have := (((cellFn_fst h hK hv).add (cellFn_snd h hK hv)).add (hsum g)).smul (1 / (blockSize second g : ℝ))
  unfold blockMean
  rw [abs_of_pos (by positivity)] at this
  convert this using 1
  · field_simp
    unfold blockSize
    cases second <;> simp <;> ring
  · field_simp
    unfold blockSize
    cases second <;> simp <;> ring
  · funext p
    ring

section
variable (h : ∀ j, lo j < hi j) {K δ : ℝ} {G : (Fin d → ℝ) → ℝ} (hGm : Measurable G)
  (hK : ∀ x, InBox lo hi x → |G x| ≤ K) (hv : VariesAtMost lo hi k δ G)
  {rows : List ((Fin d → ℝ) × (Fin d → ℝ))} (hr : EvenRows lo hi k rows)
  {M : (Fin d → ℝ) × (Fin d → ℝ) → ℝ} (hM : CellFn lo hi k K δ M)
include h hGm hK hv hr hM

theorem firstNum_err (s : Fin d → Bool) :
    |firstNum G M s rows - closedEffect (fun j => unifOn (lo j) (hi j)) G s| ≤ 6 * K * δ := by
  have h1 := first_err h hGm hK hv hr s
  have h2 := diff_err h hGm hK hv hr s fun _ => false
  simp only [mix_none] at h2
  have h3 := hr.size hM
  have hK0 : 0 ≤ K := (abs_nonneg _).trans h3
  have hp : |rowMean rows M * rowMean rows (fun p => G (mix s p.1 p.2) - G p.1)| ≤ K * (2 * δ) := by
    rw [abs_mul]
    exact mul_le_mul h3 h2 (abs_nonneg _) hK0
  unfold firstNum
  rw [abs_le] at h1 hp ⊢
  constructor <;> linarith [h1.1, h1.2, hp.1, hp.2]

theorem secondNum_err (s t : Fin d → Bool) (hst : ∀ j, ¬(s j = true ∧ t j = true)) :
    |secondNum G M s t rows - (closedEffect (fun j => unifOn (lo j) (hi j)) G (fun j => s j || t j) -
      closedEffect (fun j => unifOn (lo j) (hi j)) G s - closedEffect (fun j => unifOn (lo j) (hi j)) G t)| ≤
      16 * K * δ := by
  have := fun j => isProb_unifOn (h j)
  have hG := memLp_of_bounded h hGm hK
  have h1 := first_err h hGm hK hv hr s
  have h2 := first_err h hGm hK hv hr t
  have m1 : MemLp (fun p : (Fin d → ℝ) × (Fin d → ℝ) => G (mix s p.2 p.1)) 2
      ((Measure.pi fun j => unifOn (lo j) (hi j)).prod (Measure.pi fun j => unifOn (lo j) (hi j))) := by
    simp only [mix_flip s]
    exact memLp_mix _ G hG _
  have h0 := hr.mean h
    (((cellFn_flip h hK hv s).mul (cellFn_mix h hK hv t)).sub ((cellFn_fst h hK hv).mul (cellFn_snd h hK hv)))
    ((m1.integrable_mul (memLp_mix _ G hG t)).sub ((memLp_fst _ G hG).integrable_mul (memLp_snd _ G hG)))
  simp only [Pi.mul_apply] at h0
  have h0' := h0
  rw [mean_second _ G hG s t hst] at h0'
  have h3 := hr.size hM
  have hK0 : 0 ≤ K := (abs_nonneg _).trans h3
  have i1 := m1.integrable one_le_two
  have i2 := (memLp_mix _ G hG s).integrable one_le_two
  have i3 := (memLp_fst _ G hG).integrable one_le_two
  have i4 := (memLp_snd _ G hG).integrable one_le_two
  have h4 := hr.mean h ((((cellFn_flip h hK hv s).sub (cellFn_mix h hK hv s)).add (cellFn_fst h hK hv)).sub
    (cellFn_snd h hK hv)) (((i1.sub i2).add i3).sub i4)
  have hz : ∫ p, (G (mix s p.2 p.1) - G (mix s p.1 p.2) + G p.1 - G p.2)
      ∂((Measure.pi fun j => unifOn (lo j) (hi j)).prod (Measure.pi fun j => unifOn (lo j) (hi j))) = 0 := by
    have e0 := integral_mix _ G hG fun j => !s j
    have e1 := integral_mix _ G hG s
    have e2 := integral_mix _ G hG fun _ => false
    have e3 := integral_mix _ G hG fun _ => true
    simp only [mix_none, mix_all, ← mix_flip s] at e0 e2 e3
    have j12 : Integrable (fun p : (Fin d → ℝ) × (Fin d → ℝ) => G (mix s p.2 p.1) - G (mix s p.1 p.2))
      ((Measure.pi fun j => unifOn (lo j) (hi j)).prod (Measure.pi fun j => unifOn (lo j) (hi j))) := i1.sub i2
    have j123 : Integrable (fun p : (Fin d → ℝ) × (Fin d → ℝ) => G (mix s p.2 p.1) - G (mix s p.1 p.2) + G p.1)
      ((Measure.pi fun j => unifOn (lo j) (hi j)).prod (Measure.pi fun j => unifOn (lo j) (hi j))) := j12.add i3
    rw [integral_sub j123 i4, integral_add j12 i3, integral_sub i1 i2, e0, e1, e2, e3]
    ring
  rw [hz, sub_zero] at h4
  have hp : |rowMean rows M * rowMean rows (fun p => G (mix s p.2 p.1) - G (mix s p.1 p.2) + G p.1 - G p.2)| ≤
      K * (4 * δ) := by
    rw [abs_mul]
    exact mul_le_mul h3 (h4.trans (le_of_eq (by ring))) (abs_nonneg _) hK0
  unfold secondNum
  rw [abs_le] at h0' h1 h2 hp ⊢
  constructor <;> linarith [h0'.1, h0'.2, h1.1, h1.2, h2.1, h2.2, hp.1, hp.2]

end

/-- The error of a quotient. -/
theorem quot_err {a v A V e₁ e₂ r : ℝ} (h1 : |a - A| ≤ e₁) (h2 : |v - V| ≤ e₂) (hV : e₂ < V) (hA : |A| ≤ r * V) :
    |a / v - A / V| ≤ (e₁ + r * e₂) / (V - e₂) := by
  have he₂ : 0 ≤ e₂ := (abs_nonneg _).trans h2
  have hVpos : 0 < V := lt_of_le_of_lt he₂ hV
  have hv : V - e₂ ≤ v := by rw [abs_le] at h2; linarith
  have hvpos : 0 < v := by linarith
  have e : a / v - A / V = ((a - A) + A / V * (V - v)) / v := by
    field_simp
    ring
  have hAV : |A / V| ≤ r := by rw [abs_div, abs_of_pos hVpos, div_le_iff₀ hVpos]; exact hA
  have hr : 0 ≤ r := (abs_nonneg _).trans hAV
  have hnum : |(a - A) + A / V * (V - v)| ≤ e₁ + r * e₂ := by
    refine (abs_add_le _ _).trans (add_le_add h1 ?_)
    rw [abs_mul]
    exact mul_le_mul hAV (by rw [abs_sub_comm]; exact h2) (abs_nonneg _) hr
  rw [e, abs_div, abs_of_pos hvpos]
  exact div_le_div₀ ((abs_nonneg _).trans hnum) hnum (by linarith) hv

end SALib
