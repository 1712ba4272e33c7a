import Verif.Lemmas.TorusEffects
import Verif.Lemmas.TensorSum
import Verif.Lemmas.DerivMeasure

/-! # Means along a curve without interference are means over the cube -/

namespace SALib

open Real Finset Spec MeasureTheory ProbabilityTheory

/-- The mean of the `k`-th power of the sine. -/
noncomputable def sineMoment (k : Nat) : ℝ := ∫ a in (0 : ℝ)..1, sin (2 * π * a) ^ k

theorem sineMoment_input (k : Nat) : ∫ x in (0 : ℝ)..1, inputSine x ^ k = sineMoment k := by
  unfold sineMoment inputSine
  rw [← integral_half_turn (fun a => sin (2 * π * a) ^ k)]
  · refine intervalIntegral.integral_congr fun x _ => ?_
    congr 2
    ring
  · fun_prop
  · intro a
    beta_reduce
    rw [show 2 * π * (a + 1) = 2 * π * a + 2 * π by ring, sin_add_two_pi]
  · intro a
    rw [show 2 * π * (1 / 2 - a) = π - 2 * π * a by ring, sin_pi_sub]

theorem continuous_inputSine : Continuous inputSine := by unfold inputSine; fun_prop

theorem sine_power_tw (k : Nat) : ∃ c : ℤ × ℤ → ℂ,
    (∀ θ : ℝ, ((sin (2 * π * θ) ^ k : ℝ) : ℂ) = ∑ q ∈ torusSet 1 k, c q * tw (q.1 * θ)) ∧
    (∑ q ∈ torusSet 1 k, if q.1 = 0 then c q else 0) = (sineMoment k : ℂ) := by
  have h1 := torusPoly_sin (m := 1) le_rfl 1 0 (by simp) 0
  obtain ⟨c, hc⟩ := TorusPoly.pow (m := 1) le_rfl h1 k
  have e : ∀ θ : ℝ, ((sin (2 * π * θ) ^ k : ℝ) : ℂ) = ∑ q ∈ torusSet 1 k, c q * tw (q.1 * θ) := by
    intro θ
    have := hc θ 0
    simpa using this
  refine ⟨c, e, ?_⟩
  unfold sineMoment
  rw [← intervalIntegral.integral_ofReal]
  simp_rw [e]
  rw [integral_sum_tw]

/-- Along a curve without interference the mean of a product of powers is the product of the means. -/
theorem curve_mean_prod {D : Nat} (freq : Nat → Nat) (i : Fin D) (K : Nat) (hno : NoInterference freq i K) (u : ℝ)
    (e : Fin D → Nat) (hi : e i = 0) (hK : ∑ j, e j ≤ K) :
    ∫ t in (0 : ℝ)..1, ∏ j : Fin D, sin (2 * π * (freq j * t + u)) ^ e j = ∏ j, sineMoment (e j) := by
  classical
  choose c hc h0 using sine_power_tw
  apply Complex.ofReal_injective
  rw [← intervalIntegral.integral_ofReal]
  have hprod : ∀ t : ℝ, ((∏ j : Fin D, sin (2 * π * (freq j * t + u)) ^ e j : ℝ) : ℂ) =
      ∑ κ ∈ Fintype.piFinset fun j : Fin D => torusSet 1 (e j),
        ((∏ j, c (e j) (κ j)) * tw (((∑ j, (κ j).1 : ℤ) : ℝ) * u)) * tw (((∑ j, (κ j).1 * freq j : ℤ) : ℝ) * t) := by
    intro t
    rw [Complex.ofReal_prod]
    simp_rw [hc]
    rw [Finset.prod_univ_sum]
    refine Finset.sum_congr rfl fun κ _ => ?_
    rw [Finset.prod_mul_distrib, mul_assoc, ← tw_add]
    congr 1
    have : ∀ (S : Finset (Fin D)) (x : Fin D → ℝ), ∏ j ∈ S, tw (x j) = tw (∑ j ∈ S, x j) := by
      intro S x
      induction S using Finset.induction_on with
      | empty => simp [tw_zero]
      | insert s S hs ih => rw [Finset.prod_insert hs, Finset.sum_insert hs, tw_add, ih]
    rw [this]
    congr 1
    push_cast
    rw [Finset.sum_mul, Finset.sum_mul, ← Finset.sum_add_distrib]
    exact Finset.sum_congr rfl fun j _ => by ring
  simp_rw [hprod]
  rw [integral_sum_tw]
  have hz : ∀ κ ∈ Fintype.piFinset fun j : Fin D => torusSet 1 (e j),
      (∑ j, (κ j).1 * freq j : ℤ) = 0 ↔ ∀ j, (κ j).1 = 0 := by
    intro κ hκ
    constructor
    · intro h
      have hb : ∀ j, |(κ j).1| ≤ e j := by
        intro j
        have := (mem_torusSet (m := 1) le_rfl).mp (Fintype.mem_piFinset.mp hκ j)
        have h2 := abs_nonneg (κ j).2
        push_cast at this
        linarith
      refine hno (fun j => (κ j).1) ?_ ?_ h
      · have := hb i
        rw [hi] at this
        exact abs_nonpos_iff.mp (by simpa using this)
      · calc ∑ j, |(κ j).1| ≤ ∑ j, (e j : ℤ) := Finset.sum_le_sum fun j _ => hb j
          _ ≤ K := by exact_mod_cast hK
    · intro h
      exact Finset.sum_eq_zero fun j _ => by rw [h j, zero_mul]
  have hsum : ∀ κ ∈ Fintype.piFinset fun j : Fin D => torusSet 1 (e j),
      (if (∑ j, (κ j).1 * freq j : ℤ) = 0 then (∏ j, c (e j) (κ j)) * tw (((∑ j, (κ j).1 : ℤ) : ℝ) * u) else 0) =
      ∏ j, if (κ j).1 = 0 then c (e j) (κ j) else 0 := by
    intro κ hκ
    by_cases h : ∀ j, (κ j).1 = 0
    · rw [if_pos ((hz κ hκ).mpr h), Finset.prod_congr rfl fun j _ => if_pos (h j)]
      rw [Finset.sum_eq_zero fun j _ => h j]
      simp [tw_zero]
    · rw [if_neg fun h' => h ((hz κ hκ).mp h')]
      push Not at h
      obtain ⟨j, hj⟩ := h
      exact (Finset.prod_eq_zero (Finset.mem_univ j) (if_neg hj)).symm
  rw [Finset.sum_congr rfl hsum, ← Finset.prod_univ_sum (fun j : Fin D => torusSet 1 (e j))
    fun j q => if q.1 = 0 then c (e j) q else 0, Complex.ofReal_prod]
  exact Finset.prod_congr rfl fun j _ => h0 (e j)

/-- Means and variances of a sum of products of a function of the input and a function of the time. -/
theorem parts_of_products {n : Nat} (c : Fin n → ℝ) (A B : Fin n → ℝ → ℝ) (hA : ∀ m, Continuous (A m))
    (hB : ∀ m, Continuous (B m)) (F : ℝ → ℝ → ℝ) (hF : ∀ x t, F x t = ∑ m, c m * (A m x * B m t)) :
    meanIT F = ∑ m, c m * ((∫ x in (0 : ℝ)..1, A m x) * ∫ t in (0 : ℝ)..1, B m t) ∧
    varIT F = (∑ m, ∑ m', c m * c m' * ((∫ x in (0 : ℝ)..1, A m x * A m' x) * ∫ t in (0 : ℝ)..1, B m t * B m' t)) -
      meanIT F ^ 2 ∧
    inputPart F = (∑ m, ∑ m', c m * c m' * ((∫ x in (0 : ℝ)..1, A m x * A m' x) *
      ((∫ t in (0 : ℝ)..1, B m t) * ∫ t in (0 : ℝ)..1, B m' t))) - meanIT F ^ 2 ∧
    timePart F = (∑ m, ∑ m', c m * c m' * (((∫ x in (0 : ℝ)..1, A m x) * ∫ x in (0 : ℝ)..1, A m' x) *
      ∫ t in (0 : ℝ)..1, B m t * B m' t)) - meanIT F ^ 2 := by
  have ii : ∀ {g : ℝ → ℝ}, Continuous g → IntervalIntegrable g volume 0 1 := fun hg => hg.intervalIntegrable 0 1
  -- integral of a sum
  have lin : ∀ {k : Nat} (d : Fin k → ℝ) (g : Fin k → ℝ → ℝ), (∀ m, Continuous (g m)) →
      ∫ x in (0 : ℝ)..1, ∑ m, d m * g m x = ∑ m, d m * ∫ x in (0 : ℝ)..1, g m x := by
    intro k d g hg
    rw [intervalIntegral.integral_finsetSum fun m _ => ii ((hg m).const_mul (d m) : Continuous fun x => d m * g m x)]
    exact Finset.sum_congr rfl fun m _ => intervalIntegral.integral_const_mul _ _
  have hcont : ∀ {k : Nat} (d : Fin k → ℝ) (g : Fin k → ℝ → ℝ), (∀ m, Continuous (g m)) →
      Continuous fun x => ∑ m, d m * g m x := by
    intro k d g hg
    exact continuous_finsetSum _ fun m _ => (hg m).const_mul (d m)
  -- mean of a square of a sum
  have sq : ∀ {k : Nat} (d : Fin k → ℝ) (g : Fin k → ℝ → ℝ), (∀ m, Continuous (g m)) →
      ∫ x in (0 : ℝ)..1, (∑ m, d m * g m x) ^ 2 = ∑ m, ∑ m', d m * d m' * ∫ x in (0 : ℝ)..1, g m x * g m' x := by
    intro k d g hg
    have e : ∀ x, (∑ m, d m * g m x) ^ 2 = ∑ m, 1 * ∑ m', (d m * d m') * (g m x * g m' x) := by
      intro x
      rw [_root_.sq, Finset.sum_mul_sum]
      refine Finset.sum_congr rfl fun m _ => ?_
      rw [one_mul]
      exact Finset.sum_congr rfl fun m' _ => by ring
    simp_rw [e]
    rw [lin (fun _ => 1) (fun m x => ∑ m', (d m * d m') * (g m x * g m' x))
      fun m => hcont _ _ fun m' => (hg m).mul (hg m')]
    refine Finset.sum_congr rfl fun m _ => ?_
    rw [one_mul, lin (fun m' => d m * d m') (fun m' x => g m x * g m' x) fun m' => (hg m).mul (hg m')]
  -- centring
  have shift : ∀ {g h : ℝ → ℝ} (μ : ℝ), Continuous g → Continuous h →
      ∫ x in (0 : ℝ)..1, (g x - (2 * μ * h x - μ ^ 2)) =
      (∫ x in (0 : ℝ)..1, g x) - 2 * μ * (∫ x in (0 : ℝ)..1, h x) + μ ^ 2 := by
    intro g h μ hg hh
    have h1 : Continuous fun x => 2 * μ * h x := hh.const_mul _
    have h2 : Continuous fun x => 2 * μ * h x - μ ^ 2 := h1.sub continuous_const
    rw [intervalIntegral.integral_sub (ii hg) (ii h2), intervalIntegral.integral_sub (ii h1) (ii continuous_const),
      intervalIntegral.integral_const_mul]
    simp
    ring
  have centre : ∀ {g : ℝ → ℝ}, Continuous g → ∫ x in (0 : ℝ)..1, (g x - ∫ x in (0 : ℝ)..1, g x) ^ 2 =
      (∫ x in (0 : ℝ)..1, g x ^ 2) - (∫ x in (0 : ℝ)..1, g x) ^ 2 := by
    intro g hg
    generalize hm : ∫ x in (0 : ℝ)..1, g x = μ
    have e : ∀ x, (g x - μ) ^ 2 = g x ^ 2 - (2 * μ * g x - μ ^ 2) := by intro x; ring
    simp_rw [e]
    rw [shift (g := fun x => g x ^ 2) μ (hg.pow 2) hg, hm]
    ring
  have inner : ∀ x, ∫ t in (0 : ℝ)..1, F x t = ∑ m, (c m * ∫ t in (0 : ℝ)..1, B m t) * A m x := by
    intro x
    simp_rw [hF, ← mul_assoc]
    rw [lin (fun m => c m * A m x) B hB]
    exact Finset.sum_congr rfl fun m _ => by ring
  have outer : ∀ t, ∫ x in (0 : ℝ)..1, F x t = ∑ m, (c m * ∫ x in (0 : ℝ)..1, A m x) * B m t := by
    intro t
    have e : ∀ x, F x t = ∑ m, (c m * B m t) * A m x := by
      intro x; rw [hF]; exact Finset.sum_congr rfl fun m _ => by ring
    simp_rw [e]
    rw [lin (fun m => c m * B m t) A hA]
    exact Finset.sum_congr rfl fun m _ => by ring
  have hmean : meanIT F = ∑ m, c m * ((∫ x in (0 : ℝ)..1, A m x) * ∫ t in (0 : ℝ)..1, B m t) := by
    unfold meanIT
    simp_rw [inner]
    rw [lin _ A hA]
    exact Finset.sum_congr rfl fun m _ => by ring
  have hmean' : ∫ t in (0 : ℝ)..1, ∑ m, (c m * ∫ x in (0 : ℝ)..1, A m x) * B m t = meanIT F := by
    rw [hmean, lin _ B hB]
    exact Finset.sum_congr rfl fun m _ => by ring
  have hmean'' : ∫ x in (0 : ℝ)..1, ∑ m, (c m * ∫ t in (0 : ℝ)..1, B m t) * A m x = meanIT F := by
    rw [hmean, lin _ A hA]
    exact Finset.sum_congr rfl fun m _ => by ring
  refine ⟨hmean, ?_, ?_, ?_⟩
  · unfold varIT
    generalize meanIT F = μ at hmean'' ⊢
    have e : ∀ x, ∫ t in (0 : ℝ)..1, (F x t - μ) ^ 2 =
        (∑ m, ∑ m', c m * c m' * (A m x * A m' x * ∫ t in (0 : ℝ)..1, B m t * B m' t)) -
          (2 * μ * (∑ m, (c m * ∫ t in (0 : ℝ)..1, B m t) * A m x) - μ ^ 2) := by
      intro x
      have hFc : Continuous (F x) := by
        have : F x = fun t => ∑ m, (c m * A m x) * B m t := by
          funext t; rw [hF]; exact Finset.sum_congr rfl fun m _ => by ring
        rw [this]
        exact hcont _ _ hB
      have e2 : ∀ t, (F x t - μ) ^ 2 = F x t ^ 2 - (2 * μ * F x t - μ ^ 2) := by intro t; ring
      simp_rw [e2]
      rw [shift (g := fun t => F x t ^ 2) (h := F x) μ (hFc.pow 2) hFc, inner]
      have e3 : ∀ t, F x t ^ 2 = (∑ m, (c m * A m x) * B m t) ^ 2 := by
        intro t; rw [hF]; congr 1; exact Finset.sum_congr rfl fun m _ => by ring
      simp_rw [e3]
      rw [sq _ B hB]
      rw [show ∀ a b : ℝ, a - b + μ ^ 2 = a - (b - μ ^ 2) from fun a b => by ring]
      congr 1
      exact Finset.sum_congr rfl fun m _ => Finset.sum_congr rfl fun m' _ => by ring
    simp_rw [e]
    have c1 : Continuous fun x => ∑ m, ∑ m', c m * c m' * (A m x * A m' x * ∫ t in (0 : ℝ)..1, B m t * B m' t) :=
      continuous_finsetSum _ fun m _ => hcont _ _ fun m' => ((hA m).mul (hA m')).mul continuous_const
    have c2 : Continuous fun x => ∑ m, (c m * ∫ t in (0 : ℝ)..1, B m t) * A m x := hcont _ _ hA
    rw [shift μ c1 c2, hmean'']
    have h1 : (∫ x in (0 : ℝ)..1, ∑ m, ∑ m', c m * c m' * (A m x * A m' x * ∫ t in (0 : ℝ)..1, B m t * B m' t)) =
        ∑ m, ∑ m', c m * c m' * ((∫ x in (0 : ℝ)..1, A m x * A m' x) * ∫ t in (0 : ℝ)..1, B m t * B m' t) := by
      have c0 : ∀ m, Continuous fun x => ∑ m', c m * c m' * (A m x * A m' x * ∫ t in (0 : ℝ)..1, B m t * B m' t) :=
        fun m => hcont _ _ fun m' => ((hA m).mul (hA m')).mul continuous_const
      rw [intervalIntegral.integral_finsetSum fun m _ => ii (c0 m)]
      refine Finset.sum_congr rfl fun m _ => ?_
      rw [lin (fun m' => c m * c m') (fun m' x => A m x * A m' x * ∫ t in (0 : ℝ)..1, B m t * B m' t)
        fun m' => ((hA m).mul (hA m')).mul continuous_const]
      refine Finset.sum_congr rfl fun m' _ => ?_
      rw [intervalIntegral.integral_mul_const]
    rw [h1]
    ring
  · unfold inputPart
    simp_rw [inner]
    have := centre (hcont (fun m => c m * ∫ t in (0 : ℝ)..1, B m t) A hA)
    rw [hmean''] at this
    rw [this, sq _ A hA]
    congr 1
    exact Finset.sum_congr rfl fun m _ => Finset.sum_congr rfl fun m' _ => by ring
  · unfold timePart
    simp_rw [outer]
    have := centre (hcont (fun m => c m * ∫ x in (0 : ℝ)..1, A m x) B hB)
    rw [hmean'] at this
    rw [this, sq _ B hB]
    congr 1
    exact Finset.sum_congr rfl fun m _ => Finset.sum_congr rfl fun m' _ => by ring

end SALib
