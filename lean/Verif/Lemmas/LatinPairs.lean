import Mathlib.Algebra.BigOperators.Ring.Finset
import Mathlib.Algebra.BigOperators.Field
import Mathlib.Algebra.BigOperators.Fin
import Mathlib.Algebra.Order.BigOperators.Ring.Finset
import Mathlib.Algebra.Order.Chebyshev
import Mathlib.Data.Fintype.BigOperators
import Mathlib.Data.Fintype.Pi
import Mathlib.Data.Real.Basic
import Mathlib.Tactic.Linarith
import Mathlib.Tactic.Positivity
import Mathlib.Tactic.FieldSimp
import Mathlib.Tactic.Ring

/-! # Mean products over two cells that agree in no coordinate -/

namespace SALib

variable {g N : Nat}

/-- The mean of `a i * a i'` over all pairs of cells that agree in no coordinate. -/
noncomputable def pairAvg (a : (Fin g → Fin N) → ℝ) : ℝ :=
  ∑ i, ∑ i', a i * a i' * ∏ k, (if i k = i' k then 0 else 1 / ((N : ℝ) * (N - 1)))

/-- Projections of functions on `Fin N`: on the mean, and on what is left. -/
noncomputable def projKer (N : Nat) (b : Prop) [Decidable b] (x y : Fin N) : ℝ :=
  if b then (if x = y then 1 else 0) - 1 / (N : ℝ) else 1 / (N : ℝ)

theorem projKer_symm (b : Prop) [Decidable b] (x y : Fin N) : projKer N b x y = projKer N b y x := by
  unfold projKer
  by_cases h : x = y
  · subst h; rfl
  · have h2 : ¬ y = x := fun e => h e.symm
    simp only [h, h2, if_false]

theorem projKer_comp (hN : 0 < N) (b : Prop) [Decidable b] (x y : Fin N) :
    ∑ m, projKer N b x m * projKer N b m y = projKer N b x y := by
  have hN' : (N : ℝ) ≠ 0 := by exact_mod_cast hN.ne'
  unfold projKer
  by_cases hb : b
  · simp only [hb, if_true]
    have : ∀ m : Fin N, ((if x = m then (1 : ℝ) else 0) - 1 / N) * ((if m = y then (1 : ℝ) else 0) - 1 / N) =
        (if x = m then (if x = y then (1 : ℝ) else 0) else 0) - (if x = m then 1 / (N : ℝ) else 0)
          - (if m = y then 1 / (N : ℝ) else 0) + 1 / (N : ℝ) * (1 / N) := by
      intro m
      by_cases h1 : x = m <;> by_cases h2 : m = y
      · subst h1; subst h2; simp; ring
      · subst h1; simp [h2]; ring
      · subst h2; simp [h1]; ring
      · simp [h1, h2]
    rw [Finset.sum_congr rfl fun m _ => this m]
    simp only [Finset.sum_add_distrib, Finset.sum_sub_distrib, Finset.sum_ite_eq, Finset.sum_ite_eq', Finset.mem_univ,
      if_true, Finset.sum_const, Finset.card_univ, Fintype.card_fin, nsmul_eq_mul]
    field_simp
    ring
  · simp only [hb, if_false, Finset.sum_const, Finset.card_univ, Fintype.card_fin, nsmul_eq_mul]
    field_simp

/-- The part of the sum of squares belonging to the coordinates `u`. -/
noncomputable def projForm (u : Finset (Fin g)) (a : (Fin g → Fin N) → ℝ) : ℝ :=
  ∑ i, ∑ i', a i * a i' * ∏ k, projKer N (k ∈ u) (i k) (i' k)

theorem projForm_nonneg (hN : 0 < N) (u : Finset (Fin g)) (a : (Fin g → Fin N) → ℝ) : 0 ≤ projForm u a := by
  have h : projForm u a = ∑ m : Fin g → Fin N, (∑ i, a i * ∏ k, projKer N (k ∈ u) (i k) (m k)) ^ 2 := by
    unfold projForm
    have e : ∀ i i' : Fin g → Fin N, ∏ k, projKer N (k ∈ u) (i k) (i' k) =
        ∑ m : Fin g → Fin N, (∏ k, projKer N (k ∈ u) (i k) (m k)) * ∏ k, projKer N (k ∈ u) (i' k) (m k) := by
      intro i i'
      rw [Finset.prod_congr rfl fun k _ => (projKer_comp hN (k ∈ u) (i k) (i' k)).symm, Fintype.prod_sum]
      refine Finset.sum_congr rfl fun m _ => ?_
      rw [← Finset.prod_mul_distrib]
      exact Finset.prod_congr rfl fun k _ => by rw [projKer_symm _ (m k)]
    have e2 : ∀ i : Fin g → Fin N, ∑ i', a i * a i' * ∏ k, projKer N (k ∈ u) (i k) (i' k) =
        ∑ m : Fin g → Fin N, ∑ i', a i * (∏ k, projKer N (k ∈ u) (i k) (m k)) *
          (a i' * ∏ k, projKer N (k ∈ u) (i' k) (m k)) := by
      intro i
      rw [Finset.sum_comm]
      refine Finset.sum_congr rfl fun i' _ => ?_
      rw [e, Finset.mul_sum]
      exact Finset.sum_congr rfl fun m _ => by ring
    rw [Finset.sum_congr rfl fun i _ => e2 i, Finset.sum_comm]
    refine Finset.sum_congr rfl fun m _ => ?_
    rw [sq, Finset.sum_mul_sum]
  rw [h]
  exact Finset.sum_nonneg fun _ _ => sq_nonneg _

theorem sum_projForm (c : ℝ) (ker : Fin N → Fin N → ℝ)
    (hker : ∀ x y, ker x y = projKer N False x y + c * projKer N True x y) (a : (Fin g → Fin N) → ℝ) :
    ∑ i, ∑ i', a i * a i' * ∏ k, ker (i k) (i' k) = ∑ u : Finset (Fin g), c ^ u.card * projForm u a := by
  have e : ∀ i i' : Fin g → Fin N, ∏ k, ker (i k) (i' k) =
      ∑ u : Finset (Fin g), c ^ u.card * ∏ k, projKer N (k ∈ u) (i k) (i' k) := by
    intro i i'
    rw [Finset.prod_congr rfl fun k _ => (hker (i k) (i' k)).trans (add_comm _ _), Finset.prod_add,
      Finset.powerset_univ]
    refine Finset.sum_congr rfl fun u _ => ?_
    have h1 : ∏ k, projKer N (k ∈ u) (i k) (i' k) =
        (∏ k ∈ u, projKer N (k ∈ u) (i k) (i' k)) * ∏ k ∈ Finset.univ \ u, projKer N (k ∈ u) (i k) (i' k) := by
      rw [mul_comm, Finset.prod_sdiff (Finset.subset_univ u)]
    rw [h1, Finset.prod_mul_distrib, Finset.prod_const, mul_assoc]
    congr 2
    · exact Finset.prod_congr rfl fun k hk => by simp [projKer, hk]
    · refine Finset.prod_congr rfl fun k hk => ?_
      have : k ∉ u := (Finset.mem_sdiff.mp hk).2
      simp [projKer, this]
  simp only [e, Finset.mul_sum]
  rw [Finset.sum_congr rfl fun i _ => Finset.sum_comm, Finset.sum_comm]
  refine Finset.sum_congr rfl fun u _ => ?_
  unfold projForm
  simp only [Finset.mul_sum]
  exact Finset.sum_congr rfl fun i _ => Finset.sum_congr rfl fun i' _ => by ring

theorem sum_projForm_sq (a : (Fin g → Fin N) → ℝ) : ∑ u : Finset (Fin g), projForm u a = ∑ i, a i ^ 2 := by
  have h := sum_projForm (g := g) (N := N) 1 (fun x y => if x = y then 1 else 0) (by intro x y; simp [projKer]) a
  simp only [one_pow, one_mul] at h
  rw [← h]
  refine Finset.sum_congr rfl fun i _ => ?_
  rw [Finset.sum_eq_single i]
  · simp [sq]
  · intro i' _ hne
    obtain ⟨k, hk⟩ := Function.ne_iff.mp hne
    rw [Finset.prod_eq_zero (Finset.mem_univ k) (if_neg (fun e => hk e.symm)), mul_zero]
  · simp

theorem pairAvg_eq (hN : 2 ≤ N) (a : (Fin g → Fin N) → ℝ) :
    pairAvg a = (∑ u : Finset (Fin g), (-1 / ((N : ℝ) - 1)) ^ u.card * projForm u a) / (N : ℝ) ^ g := by
  have hN2 : (2 : ℝ) ≤ N := by exact_mod_cast hN
  have h1 : (N : ℝ) - 1 ≠ 0 := by linarith
  have h0 : (N : ℝ) ≠ 0 := by linarith
  have h := sum_projForm (g := g) (N := N) (-1 / ((N : ℝ) - 1)) (fun x y => if x = y then 0 else 1 / ((N : ℝ) - 1))
    (by
      intro x y
      unfold projKer
      by_cases hxy : x = y
      · simp only [hxy, if_true, if_false]; field_simp; ring
      · simp only [hxy, if_true, if_false]; field_simp; ring) a
  rw [← h, Finset.sum_div]
  unfold pairAvg
  refine Finset.sum_congr rfl fun i _ => ?_
  rw [Finset.sum_div]
  refine Finset.sum_congr rfl fun i' _ => ?_
  rw [mul_div_assoc]
  congr 1
  have hc : (N : ℝ) ^ g = ∏ _k : Fin g, (N : ℝ) := by simp
  rw [hc, ← Finset.prod_div_distrib]
  refine Finset.prod_congr rfl fun k _ => ?_
  split
  · simp
  · rw [div_div, mul_comm]

theorem projForm_empty (a : (Fin g → Fin N) → ℝ) : projForm ∅ a = (∑ i, a i) ^ 2 / (N : ℝ) ^ g := by
  unfold projForm
  simp only [Finset.notMem_empty, projKer, if_false, Finset.prod_const, Finset.card_univ, Fintype.card_fin]
  rw [sq, Finset.sum_mul_sum, Finset.sum_div]
  refine Finset.sum_congr rfl fun i _ => ?_
  rw [Finset.sum_div]
  refine Finset.sum_congr rfl fun i' _ => ?_
  rw [one_div, inv_pow, div_eq_mul_inv]

/-- If the cells have mean zero, the mean product over pairs that agree nowhere is at most the mean square over
`(N - 1)²`. -/
theorem pairAvg_le (hN : 2 ≤ N) (a : (Fin g → Fin N) → ℝ) (h0 : ∑ i, a i = 0) :
    pairAvg a ≤ (∑ i, a i ^ 2) / (N : ℝ) ^ g / ((N : ℝ) - 1) ^ 2 := by
  have hN2 : (2 : ℝ) ≤ N := by exact_mod_cast hN
  have h1 : 1 ≤ (N : ℝ) - 1 := by linarith
  have hpow : (0 : ℝ) < (N : ℝ) ^ g := by positivity
  rw [pairAvg_eq hN, div_right_comm, div_le_div_iff_of_pos_right hpow, ← sum_projForm_sq, Finset.sum_div]
  refine Finset.sum_le_sum fun u _ => ?_
  have hnn := projForm_nonneg (by omega) u a
  rcases Nat.lt_or_ge u.card 1 with hc | hc
  · have : u = ∅ := Finset.card_eq_zero.mp (by omega)
    subst this
    rw [projForm_empty, h0]
    simp
  · rw [mul_comm, div_eq_mul_inv (projForm u a)]
    refine mul_le_mul_of_nonneg_left ?_ hnn
    rcases Nat.even_or_odd u.card with he | ho
    · obtain ⟨m, hm⟩ := he
      have hm1 : 1 ≤ m := by omega
      have hx : (-1 / ((N : ℝ) - 1)) ^ 2 = (((N : ℝ) - 1) ^ 2)⁻¹ := by
        rw [div_pow, neg_one_sq, one_div]
      rw [hm, ← two_mul, pow_mul, hx]
      have hle : (((N : ℝ) - 1) ^ 2)⁻¹ ≤ 1 := inv_le_one_of_one_le₀ (one_le_pow₀ h1)
      exact pow_le_of_le_one (by positivity) hle (by omega)
    · have : (-1 / ((N : ℝ) - 1)) ^ u.card ≤ 0 := by
        refine ho.pow_nonpos ?_
        exact div_nonpos_of_nonpos_of_nonneg (by norm_num) (by linarith)
      exact this.trans (by positivity)

/-! ## Functions that are monotone in every coordinate -/

/-- Weights of pairs: the two coordinates differ, or are drawn independently. -/
noncomputable def pairWt (N : Nat) (b : Prop) [Decidable b] (x y : Fin N) : ℝ :=
  if b then (if x = y then 0 else 1 / ((N : ℝ) * (N - 1))) else 1 / ((N : ℝ) * N)

theorem pairWt_nonneg (hN : 2 ≤ N) (b : Prop) [Decidable b] (x y : Fin N) : 0 ≤ pairWt N b x y := by
  have hN2 : (2 : ℝ) ≤ N := by exact_mod_cast hN
  have h1 : 0 ≤ (N : ℝ) - 1 := by linarith
  unfold pairWt
  split
  · split
    · exact le_refl _
    · positivity
  · positivity

/-- The mean product over pairs whose coordinates in `u` differ. -/
noncomputable def pairForm (u : Finset (Fin g)) (a : (Fin g → Fin N) → ℝ) : ℝ :=
  ∑ i, ∑ i', a i * a i' * ∏ k, pairWt N (k ∈ u) (i k) (i' k)

theorem sum_update (k : Fin g) (F : (Fin g → Fin N) → ℝ) :
    ∑ i, ∑ x, F (Function.update i k x) = N * ∑ i, F i := by
  have inv : Function.Involutive fun p : (Fin g → Fin N) × Fin N => (Function.update p.1 k p.2, p.1 k) := by
    rintro ⟨i, x⟩
    simp
  have h := Equiv.sum_comp inv.toPerm (fun p : (Fin g → Fin N) × Fin N => F p.1)
  rw [Fintype.sum_prod_type, Fintype.sum_prod_type] at h
  simp only [Finset.sum_const, Finset.card_univ, Fintype.card_fin, nsmul_eq_mul] at h
  rw [← Finset.mul_sum] at h
  exact h

theorem sum_ne_le (hN : 2 ≤ N) (p q : Fin N → ℝ) (hm : Monovary p q) :
    ∑ x, ∑ y, p x * q y * pairWt N True x y ≤ ∑ x, ∑ y, p x * q y * pairWt N False x y := by
  have hN2 : (2 : ℝ) ≤ N := by exact_mod_cast hN
  have h1 : 0 < (N : ℝ) - 1 := by linarith
  have h0 : 0 < (N : ℝ) := by linarith
  have hch := hm.sum_mul_sum_le_card_mul_sum
  rw [Fintype.card_fin] at hch
  have e1 : ∑ x, ∑ y, p x * q y * pairWt N True x y = ((∑ x, p x) * (∑ y, q y) - ∑ x, p x * q x) / ((N : ℝ) * (N - 1)) := by
    have : ∀ x y, p x * q y * pairWt N True x y =
        (p x * q y - if x = y then p x * q y else 0) / ((N : ℝ) * (N - 1)) := by
      intro x y
      unfold pairWt
      by_cases h : x = y
      · simp [h]
      · simp only [if_true, h, if_false, sub_zero]; ring
    simp only [this, ← Finset.sum_div, Finset.sum_sub_distrib, Finset.sum_ite_eq, Finset.mem_univ, if_true]
    rw [Finset.sum_mul_sum]
  have e2 : ∑ x, ∑ y, p x * q y * pairWt N False x y = ((∑ x, p x) * (∑ y, q y)) / ((N : ℝ) * N) := by
    simp only [pairWt, if_false, ← Finset.sum_mul]
    rw [Finset.sum_mul_sum, mul_one_div]
  rw [e1, e2, div_le_div_iff₀ (by positivity) (by positivity)]
  nlinarith [mul_le_mul_of_nonneg_left hch h0.le]

theorem pairForm_insert_le (hN : 2 ≤ N) (u : Finset (Fin g)) (k : Fin g) (hk : k ∉ u) (a : (Fin g → Fin N) → ℝ)
    (hm : ∀ i i', Monovary (fun x => a (Function.update i k x)) (fun x => a (Function.update i' k x))) :
    pairForm (insert k u) a ≤ pairForm u a := by
  have h0 : 0 < (N : ℝ) := by
    have : 0 < N := by omega
    exact_mod_cast this
  have hsplit : ∀ v : Finset (Fin g), N * (N * pairForm v a) = ∑ i : Fin g → Fin N, ∑ i' : Fin g → Fin N,
      (∑ x, ∑ y, a (Function.update i k x) * a (Function.update i' k y) * pairWt N (k ∈ v) x y) *
        ∏ l ∈ Finset.univ.erase k, pairWt N (l ∈ v) (i l) (i' l) := by
    intro v
    unfold pairForm
    rw [← sum_update k, Finset.mul_sum]
    refine Finset.sum_congr rfl fun i _ => ?_
    rw [Finset.mul_sum]
    rw [Finset.sum_congr rfl fun x _ => (sum_update k fun i' => a (Function.update i k x) * a i' *
      ∏ l, pairWt N (l ∈ v) (Function.update i k x l) (i' l)).symm, Finset.sum_comm]
    refine Finset.sum_congr rfl fun i' _ => ?_
    rw [Finset.sum_mul]
    refine Finset.sum_congr rfl fun x _ => ?_
    rw [Finset.sum_mul]
    refine Finset.sum_congr rfl fun y _ => ?_
    rw [← Finset.mul_prod_erase _ _ (Finset.mem_univ k)]
    simp only [Function.update_self]
    rw [Finset.prod_congr rfl (s₁ := Finset.univ.erase k) (g := fun l => pairWt N (l ∈ v) (i l) (i' l))]
    · ring
    · intro l hl
      rw [Function.update_of_ne (Finset.ne_of_mem_erase hl), Function.update_of_ne (Finset.ne_of_mem_erase hl)]
  have hle : N * (N * pairForm (insert k u) a) ≤ N * (N * pairForm u a) := by
    rw [hsplit, hsplit]
    refine Finset.sum_le_sum fun i _ => Finset.sum_le_sum fun i' _ => ?_
    have hrest : ∏ l ∈ Finset.univ.erase k, pairWt N (l ∈ insert k u) (i l) (i' l) =
        ∏ l ∈ Finset.univ.erase k, pairWt N (l ∈ u) (i l) (i' l) := by
      refine Finset.prod_congr rfl fun l hl => ?_
      simp [pairWt, Finset.mem_insert, Finset.ne_of_mem_erase hl]
    rw [hrest]
    refine mul_le_mul_of_nonneg_right ?_ (Finset.prod_nonneg fun l _ => pairWt_nonneg hN _ _ _)
    have := sum_ne_le hN _ _ (hm i i')
    simpa [pairWt, hk] using this
  exact le_of_mul_le_mul_left (le_of_mul_le_mul_left hle h0) h0

/-- If the cells move together in every coordinate, the mean product over pairs that agree nowhere is at most the
squared mean. -/
theorem pairAvg_le_sq (hN : 2 ≤ N) (a : (Fin g → Fin N) → ℝ)
    (hm : ∀ k i i', Monovary (fun x => a (Function.update i k x)) (fun x => a (Function.update i' k x))) :
    pairAvg a ≤ ((∑ i, a i) / (N : ℝ) ^ g) ^ 2 := by
  have h1 : ∀ u : Finset (Fin g), pairForm u a ≤ pairForm ∅ a := by
    intro u
    induction u using Finset.induction_on with
    | empty => exact le_refl _
    | insert k u hk ih => exact (pairForm_insert_le hN u k hk a (hm k)).trans ih
  have h2 : pairForm Finset.univ a = pairAvg a := by
    unfold pairForm pairAvg
    simp [pairWt]
  have h3 : pairForm ∅ a = ((∑ i, a i) / (N : ℝ) ^ g) ^ 2 := by
    unfold pairForm
    simp only [Finset.notMem_empty, pairWt, if_false, Finset.prod_const, Finset.card_univ, Fintype.card_fin]
    simp only [← Finset.sum_mul]
    rw [← Finset.sum_mul_sum]
    rw [div_pow, one_pow, mul_pow, div_pow]
    ring
  rw [← h2, ← h3]
  exact h1 _

end SALib
