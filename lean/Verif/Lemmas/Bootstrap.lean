import Verif.Props.BootstrapMean

/-! # The spread of bootstrap means -/

namespace SALib
open Spec

/-- The fourth moment of a sum of `n` independent draws from numbers with sum zero. -/
theorem sum_draws_four {Ω : Type} [Fintype Ω] (z : Ω → ℝ) (hz : ∑ t, z t = 0) (n : Nat) :
    (Fintype.card Ω : ℝ) ^ 2 * ∑ d : Fin n → Ω, (∑ i, z (d i)) ^ 4 =
      (Fintype.card Ω : ℝ) ^ n * (n * Fintype.card Ω * ∑ t, z t ^ 4 + 3 * n * ((n : ℝ) - 1) * (∑ t, z t ^ 2) ^ 2) := by
  induction n with
  | zero => simp
  | succ n ih =>
    obtain ⟨h1, h2⟩ := sum_draws_sq z hz n (fun _ => 1)
    simp only [one_mul, one_pow, Finset.sum_const, Finset.card_univ, Fintype.card_fin, nsmul_eq_mul, mul_one] at h1 h2
    have e : ∀ g : (Fin (n + 1) → Ω) → ℝ, ∑ d, g d = ∑ t : Ω, ∑ d : Fin n → Ω, g (Fin.cons t d) := by
      intro g
      rw [← (Fin.consEquiv (fun _ => Ω)).sum_comp, Fintype.sum_prod_type]
      rfl
    have h4 : ∀ a b : ℝ, (a + b) ^ 4 = a ^ 4 + 4 * a ^ 3 * b + 6 * a ^ 2 * b ^ 2 + 4 * b ^ 3 * a + b ^ 4 := fun a b => by ring
    rw [e]
    simp only [Fin.sum_univ_succ, Fin.cons_zero, Fin.cons_succ, h4, Finset.sum_add_distrib]
    simp only [Finset.sum_const, nsmul_eq_mul, ← Finset.mul_sum, ← Finset.sum_mul, h1, mul_zero, Finset.card_univ,
      Fintype.card_fun, Fintype.card_fin, add_zero, hz, zero_mul]
    push_cast
    linear_combination (Fintype.card Ω : ℝ) * ih + 6 * (Fintype.card Ω : ℝ) * (∑ t, z t ^ 2) * h2

theorem draws_four_le {Ω : Type} [Fintype Ω] [Nonempty Ω] (z : Ω → ℝ) (hz : ∑ t, z t = 0) (K : ℝ) (hK : ∀ t, |z t| ≤ K)
    (n : Nat) : ∑ d : Fin n → Ω, (∑ i, z (d i)) ^ 4 ≤ (Fintype.card Ω : ℝ) ^ n * (3 * n ^ 2 * K ^ 4) := by
  have hc : (0 : ℝ) < Fintype.card Ω := by exact_mod_cast Fintype.card_pos
  have hK0 : 0 ≤ K := (abs_nonneg _).trans (hK (Classical.arbitrary Ω))
  set c : ℝ := (Fintype.card Ω : ℝ) with hcd
  have h2 : ∑ t, z t ^ 2 ≤ c * K ^ 2 := by
    refine (Finset.sum_le_card_nsmul _ _ (K ^ 2) fun t _ => ?_).trans (by rw [nsmul_eq_mul, Finset.card_univ])
    rw [← sq_abs]
    exact pow_le_pow_left₀ (abs_nonneg _) (hK t) 2
  have h4 : ∑ t, z t ^ 4 ≤ c * K ^ 4 := by
    refine (Finset.sum_le_card_nsmul _ _ (K ^ 4) fun t _ => ?_).trans (by rw [nsmul_eq_mul, Finset.card_univ])
    rw [show z t ^ 4 = |z t| ^ 4 from by rw [← abs_pow, abs_of_nonneg (by positivity)]]
    exact pow_le_pow_left₀ (abs_nonneg _) (hK t) 4
  have h22 : (∑ t, z t ^ 2) ^ 2 ≤ c ^ 2 * K ^ 4 := by
    calc (∑ t, z t ^ 2) ^ 2 ≤ (c * K ^ 2) ^ 2 := pow_le_pow_left₀ (Finset.sum_nonneg fun t _ => sq_nonneg _) h2 2
      _ = c ^ 2 * K ^ 4 := by ring
  rcases Nat.eq_zero_or_pos n with rfl | hn
  · simp
  have hn1 : (1 : ℝ) ≤ n := by exact_mod_cast hn
  have hcn : 0 < c ^ n := by positivity
  have key := sum_draws_four z hz n
  rw [← hcd] at key
  have hle : n * c * ∑ t, z t ^ 4 + 3 * n * ((n : ℝ) - 1) * (∑ t, z t ^ 2) ^ 2 ≤ c ^ 2 * (3 * n ^ 2 * K ^ 4) := by
    have a1 : n * c * ∑ t, z t ^ 4 ≤ n * c * (c * K ^ 4) := mul_le_mul_of_nonneg_left h4 (by positivity)
    have a2 : 3 * n * ((n : ℝ) - 1) * (∑ t, z t ^ 2) ^ 2 ≤ 3 * n * ((n : ℝ) - 1) * (c ^ 2 * K ^ 4) :=
      mul_le_mul_of_nonneg_left h22 (mul_nonneg (by positivity) (by linarith))
    have a3 : n * c * (c * K ^ 4) + 3 * n * ((n : ℝ) - 1) * (c ^ 2 * K ^ 4) =
        c ^ 2 * (3 * n ^ 2 * K ^ 4) - 2 * n * (c ^ 2 * K ^ 4) := by ring
    have a4 : 0 ≤ 2 * (n : ℝ) * (c ^ 2 * K ^ 4) := by positivity
    linarith
  refine le_of_mul_le_mul_left ?_ (show 0 < c ^ 2 by positivity)
  rw [key]
  calc _ ≤ c ^ n * (c ^ 2 * (3 * n ^ 2 * K ^ 4)) := mul_le_mul_of_nonneg_left hle hcn.le
    _ = _ := by ring

theorem count_markov {Ω : Type} [Fintype Ω] (G : Ω → ℝ) (hG : ∀ t, 0 ≤ G t) (a : ℝ) :
    ((Finset.univ.filter fun t => a ≤ G t).card : ℝ) * a ≤ ∑ t, G t := by
  rw [← nsmul_eq_mul]
  refine (Finset.card_nsmul_le_sum _ _ a fun t ht => (Finset.mem_filter.mp ht).2).trans ?_
  exact Finset.sum_le_sum_of_subset_of_nonneg (Finset.filter_subset _ _) fun t _ _ => hG t

theorem drawVar_split {R : Nat} (hR : 2 ≤ R) (x : Fin R → ℝ) (m : ℝ) :
    drawVar x = (∑ r, (x r - m) ^ 2 - (∑ r, (x r - m)) ^ 2 / R) / ((R : ℝ) - 1) := by
  have hR2 : (2 : ℝ) ≤ R := by exact_mod_cast hR
  unfold drawVar
  congr 1
  set a := ∑ r, (x r - m) with ha
  have h1 : (∑ s, x s) / R = m + a / R := by
    rw [ha, Finset.sum_sub_distrib]
    simp only [Finset.sum_const, Finset.card_univ, Fintype.card_fin, nsmul_eq_mul]
    field_simp
    ring
  rw [h1]
  have h2 : ∀ r, (x r - (m + a / R)) ^ 2 = (x r - m) ^ 2 - 2 * (a / R) * (x r - m) + (a / R) ^ 2 := fun r => by ring
  rw [Finset.sum_congr rfl fun r _ => h2 r, Finset.sum_add_distrib, Finset.sum_sub_distrib, ← Finset.mul_sum, ← ha]
  simp only [Finset.sum_const, Finset.card_univ, Fintype.card_fin, nsmul_eq_mul]
  field_simp
  ring

/-- The sample variance of `R` bootstrap means of `N` numbers is near the variance of the numbers divided by `N`, except for
a share of the index arrays of the order of `1 / R`, whatever `N` and the numbers. -/
theorem boot_rare (K : ℝ) (η : ℝ) (hη : 0 < η) :
    ∃ C : ℝ, ∀ N R : Nat, 0 < N → 2 ≤ R → ∀ h : Fin N → ℝ, (∀ i, |h i| ≤ K) →
      ((Finset.univ.filter fun d : Fin R → Fin N → Fin N =>
        η ≤ |N * drawVar (fun r => (∑ i, h (d r i)) / N) - popVar h|).card : ℝ) ≤
          C / R * Fintype.card (Fin R → Fin N → Fin N) := by
  set L := 2 * K with hL
  refine ⟨108 * L ^ 4 / η ^ 2 + 12 * L ^ 2 / η, fun N R hN hR h hK => ?_⟩
  have hNr : (0 : ℝ) < N := by exact_mod_cast hN
  have hR2 : (2 : ℝ) ≤ R := by exact_mod_cast hR
  have hR1 : (0 : ℝ) < (R : ℝ) - 1 := by linarith
  have hRr : (0 : ℝ) < R := by linarith
  have : Nonempty (Fin N) := ⟨⟨0, hN⟩⟩
  have hK0 : 0 ≤ K := (abs_nonneg _).trans (hK (Classical.arbitrary _))
  set m := (∑ s, h s) / N with hm
  have hmK : |m| ≤ K := by
    rw [hm, abs_div, abs_of_pos hNr, div_le_iff₀ hNr]
    refine (Finset.abs_sum_le_sum_abs _ _).trans ((Finset.sum_le_card_nsmul _ _ K fun i _ => hK i).trans ?_)
    rw [nsmul_eq_mul, Finset.card_univ, Fintype.card_fin, mul_comm]
  have hzL : ∀ i, |h i - m| ≤ L := fun i => by
    have := abs_sub (h i) m
    linarith [hK i]
  have hz : ∑ i, (h i - m) = 0 := by
    have := sum_centred h
    rwa [Fintype.card_fin] at this
  set v := popVar h with hv
  have hv0 : 0 ≤ v := div_nonneg (Finset.sum_nonneg fun _ _ => sq_nonneg _) hNr.le
  have hvL : v ≤ L ^ 2 := by
    rw [hv, popVar, ← hm, div_le_iff₀ hNr]
    refine (Finset.sum_le_card_nsmul _ _ (L ^ 2) fun i _ => ?_).trans ?_
    · rw [← sq_abs]
      exact pow_le_pow_left₀ (abs_nonneg _) (hzL i) 2
    · rw [nsmul_eq_mul, Finset.card_univ, Fintype.card_fin, mul_comm]
  let B := Fin N → Fin N
  let g : B → ℝ := fun b => (∑ i, h (b i)) / N - m
  have hg : ∀ b, g b = (∑ i, (h (b i) - m)) / N := by
    intro b
    show (∑ i, h (b i)) / N - m = _
    rw [Finset.sum_sub_distrib]
    simp only [Finset.sum_const, Finset.card_univ, Fintype.card_fin, nsmul_eq_mul]
    field_simp
  set cB : ℝ := (Fintype.card B : ℝ) with hcB
  have hcBN : cB = (N : ℝ) ^ N := by rw [hcB]; simp [B]
  have hcB0 : 0 < cB := by rw [hcBN]; positivity
  obtain ⟨s1, s2⟩ := sum_draws_sq (fun i => h i - m) hz N (fun _ => 1)
  simp only [one_mul, one_pow, Finset.sum_const, Finset.card_univ, Fintype.card_fin, nsmul_eq_mul, mul_one] at s1 s2
  have hvS : ∑ i, (h i - m) ^ 2 = N * v := by
    rw [hv, popVar, ← hm]; field_simp
  have g1 : ∑ b, g b = 0 := by
    simp only [hg]
    rw [← Finset.sum_div, s1, zero_div]
  have g2 : ∑ b, g b ^ 2 = cB * (v / N) := by
    simp only [hg, div_pow]
    rw [← Finset.sum_div, hcBN]
    rw [hvS] at s2
    have : ∑ d : Fin N → Fin N, (∑ i, (h (d i) - m)) ^ 2 = (N : ℝ) ^ N * N * v := by
      apply mul_left_cancel₀ hNr.ne'
      rw [s2]; ring
    rw [this]
    field_simp
  have g4 : ∑ b, g b ^ 4 ≤ cB * (3 * L ^ 4 / N ^ 2) := by
    simp only [hg, div_pow]
    rw [← Finset.sum_div, hcBN, div_le_iff₀ (by positivity)]
    refine (draws_four_le (fun i => h i - m) hz L hzL N).trans (le_of_eq ?_)
    rw [Fintype.card_fin]
    field_simp
  let U : B → ℝ := fun b => g b ^ 2 - v / N
  have hU : ∑ b, U b = 0 := by
    show ∑ b, (g b ^ 2 - v / N) = 0
    rw [Finset.sum_sub_distrib, g2]
    simp only [Finset.sum_const, Finset.card_univ, nsmul_eq_mul]
    rw [← hcB, sub_self]
  have hU2 : ∑ b, U b ^ 2 ≤ cB * (3 * L ^ 4 / N ^ 2) := by
    refine le_trans ?_ g4
    have e : ∀ b, U b ^ 2 = g b ^ 4 - 2 * (v / N) * g b ^ 2 + (v / N) ^ 2 := fun b => by
      show (g b ^ 2 - v / N) ^ 2 = _
      ring
    rw [Finset.sum_congr rfl fun b _ => e b, Finset.sum_add_distrib, Finset.sum_sub_distrib, ← Finset.mul_sum, g2]
    simp only [Finset.sum_const, Finset.card_univ, nsmul_eq_mul]
    rw [← hcB]
    have : 0 ≤ cB * (v / N) ^ 2 := by positivity
    nlinarith
  obtain ⟨-, u2⟩ := sum_draws_sq U hU R (fun _ => 1)
  obtain ⟨-, q2⟩ := sum_draws_sq g g1 R (fun _ => 1)
  simp only [one_mul, one_pow, Finset.sum_const, Finset.card_univ, Fintype.card_fin, nsmul_eq_mul, mul_one] at u2 q2
  rw [← hcB] at u2 q2
  have hT : (Fintype.card (Fin R → Fin N → Fin N) : ℝ) = cB ^ R := by
    rw [hcB, Fintype.card_fun, Fintype.card_fin]
    push_cast
    rfl
  set T : ℝ := cB ^ R with hTd
  have hT0 : 0 < T := by positivity
  rw [hT]
  have U2 : ∑ d : Fin R → B, (∑ r, U (d r)) ^ 2 ≤ T * (R * (3 * L ^ 4 / N ^ 2)) := by
    refine le_of_mul_le_mul_left ?_ hcB0
    rw [u2]
    calc T * R * ∑ b, U b ^ 2 ≤ T * R * (cB * (3 * L ^ 4 / N ^ 2)) := mul_le_mul_of_nonneg_left hU2 (by positivity)
      _ = _ := by ring
  have Q2 : ∑ d : Fin R → B, (∑ r, g (d r)) ^ 2 = T * (R * (v / N)) := by
    apply mul_left_cancel₀ hcB0.ne'
    rw [q2, g2]; ring
  -- the two sets of index arrays
  set A1 := Finset.univ.filter fun d : Fin R → B => (η / 3) ^ 2 ≤ ((N : ℝ) / (R - 1)) ^ 2 * (∑ r, U (d r)) ^ 2 with hA1
  set A2 := Finset.univ.filter fun d : Fin R → B => η / 3 ≤ (N : ℝ) / (R * (R - 1)) * (∑ r, g (d r)) ^ 2 with hA2
  have hinv : 1 / ((R : ℝ) - 1) ≤ 2 / R := by
    rw [div_le_div_iff₀ hR1 hRr]; linarith
  have c1 : (A1.card : ℝ) ≤ 108 * L ^ 4 / η ^ 2 / R * T := by
    have := count_markov (fun d : Fin R → B => ((N : ℝ) / (R - 1)) ^ 2 * (∑ r, U (d r)) ^ 2) (fun d => by positivity) ((η / 3) ^ 2)
    rw [← hA1, ← Finset.mul_sum] at this
    have h2 : ((N : ℝ) / (R - 1)) ^ 2 * (T * (R * (3 * L ^ 4 / N ^ 2))) = T * (3 * L ^ 4) * R * (1 / (R - 1)) ^ 2 := by
      field_simp
    have h3 : T * (3 * L ^ 4) * R * (1 / ((R : ℝ) - 1)) ^ 2 ≤ T * (3 * L ^ 4) * R * (2 / R) ^ 2 :=
      mul_le_mul_of_nonneg_left (pow_le_pow_left₀ (by positivity) hinv 2) (by positivity)
    have h4 : (A1.card : ℝ) * (η / 3) ^ 2 ≤ T * (3 * L ^ 4) * R * (2 / R) ^ 2 :=
      this.trans ((mul_le_mul_of_nonneg_left U2 (by positivity)).trans (h2.le.trans h3))
    rw [← le_div_iff₀ (by positivity)] at h4
    refine h4.trans (le_of_eq ?_)
    field_simp
    ring
  have c2 : (A2.card : ℝ) ≤ 6 * L ^ 2 / η / R * T := by
    have := count_markov (fun d : Fin R → B => (N : ℝ) / (R * (R - 1)) * (∑ r, g (d r)) ^ 2) (fun d => by positivity) (η / 3)
    rw [← hA2, ← Finset.mul_sum, Q2] at this
    have h2 : (N : ℝ) / (R * (R - 1)) * (T * (R * (v / N))) = T * v * (1 / (R - 1)) := by
      field_simp
    have h3 : T * v * (1 / ((R : ℝ) - 1)) ≤ T * L ^ 2 * (2 / R) :=
      mul_le_mul (mul_le_mul_of_nonneg_left hvL hT0.le) hinv (by positivity) (by positivity)
    have h4 := this.trans (h2.le.trans h3)
    rw [← le_div_iff₀ (by positivity)] at h4
    refine h4.trans (le_of_eq ?_)
    field_simp
    ring
  by_cases hbig : 6 * L ^ 2 / η < R
  swap
  · push Not at hbig
    have h1 : ((Finset.univ.filter fun d : Fin R → Fin N → Fin N =>
        η ≤ |N * drawVar (fun r => (∑ i, h (d r i)) / N) - v|).card : ℝ) ≤ T := by
      rw [← hT]
      exact_mod_cast Finset.card_le_univ _
    refine h1.trans (le_mul_of_one_le_left hT0.le ?_)
    rw [le_div_iff₀ hRr, one_mul]
    have e : 12 * L ^ 2 / η = 6 * L ^ 2 / η + 6 * L ^ 2 / η := by ring
    have : 0 ≤ 108 * L ^ 4 / η ^ 2 := by positivity
    have : 0 ≤ 6 * L ^ 2 / η := by positivity
    linarith
  have hsmall : v / (R - 1) < η / 3 := by
    have h1 : v / ((R : ℝ) - 1) ≤ L ^ 2 * (2 / R) := by
      rw [div_eq_mul_one_div]
      exact mul_le_mul hvL hinv (by positivity) (by positivity)
    refine h1.trans_lt ?_
    rw [div_lt_iff₀ hη] at hbig
    rw [← mul_div_assoc, div_lt_iff₀ hRr]
    linarith
  have hsub : (Finset.univ.filter fun d : Fin R → Fin N → Fin N =>
      η ≤ |N * drawVar (fun r => (∑ i, h (d r i)) / N) - v|) ⊆ A1 ∪ A2 := by
    intro d hd
    rw [Finset.mem_filter] at hd
    by_contra hno
    rw [Finset.mem_union, not_or, hA1, hA2] at hno
    simp only [Finset.mem_filter, Finset.mem_univ, true_and, not_le] at hno
    obtain ⟨n1, n2⟩ := hno
    rw [← mul_pow] at n1
    have n1' := abs_lt_of_sq_lt_sq n1 (by positivity)
    have e : N * drawVar (fun r => (∑ i, h (d r i)) / N) - v =
        (N : ℝ) / (R - 1) * (∑ r, U (d r)) - (N : ℝ) / (R * (R - 1)) * (∑ r, g (d r)) ^ 2 + v / (R - 1) := by
      rw [drawVar_split hR _ m]
      have e1 : ∑ r, ((∑ i, h (d r i)) / N - m) ^ 2 = ∑ r, U (d r) + R * (v / N) := by
        show ∑ r, (g (d r)) ^ 2 = ∑ r, (g (d r) ^ 2 - v / N) + R * (v / N)
        rw [Finset.sum_sub_distrib]
        simp
      have e2 : ∑ r, ((∑ i, h (d r i)) / N - m) = ∑ r, g (d r) := rfl
      rw [e1, e2]
      field_simp
      ring
    have hlt := hd.2
    rw [e] at hlt
    have p1 := abs_lt.mp n1'
    have p2 : 0 ≤ (N : ℝ) / (R * (R - 1)) * (∑ r, g (d r)) ^ 2 := by positivity
    have p3 : 0 ≤ v / ((R : ℝ) - 1) := by positivity
    have : |(N : ℝ) / (R - 1) * (∑ r, U (d r)) - (N : ℝ) / (R * (R - 1)) * (∑ r, g (d r)) ^ 2 + v / (R - 1)| < η := by
      rw [abs_lt]
      constructor <;> linarith [p1.1, p1.2]
    linarith
  have hcard : ((Finset.univ.filter fun d : Fin R → Fin N → Fin N =>
      η ≤ |N * drawVar (fun r => (∑ i, h (d r i)) / N) - v|).card : ℝ) ≤ A1.card + A2.card := by
    exact_mod_cast (Finset.card_le_card hsub).trans (Finset.card_union_le _ _)
  refine hcard.trans ((add_le_add c1 c2).trans ?_)
  have e : (108 * L ^ 4 / η ^ 2 + 12 * L ^ 2 / η) / R * T = 108 * L ^ 4 / η ^ 2 / R * T + 6 * L ^ 2 / η / R * T +
      6 * L ^ 2 / η / R * T := by ring
  rw [e]
  have : 0 ≤ 6 * L ^ 2 / η / R * T := by positivity
  linarith

end SALib
