import Verif.Props.BootstrapMean
import Verif.Spec.SobolMean

/-! Means over rows drawn with replacement are close to the means over all rows, for most draws. -/

namespace SALib
open Spec

/-- The rows that a draw selects. -/
def drawnRows {β : Type} (rows : List β) {n : Nat} (d : Fin n → Fin rows.length) : List β := List.ofFn fun i => rows[d i]

theorem length_drawnRows {β : Type} (rows : List β) {n : Nat} (d : Fin n → Fin rows.length) :
    (drawnRows rows d).length = n := by simp [drawnRows]

theorem rowMean_drawnRows {β : Type} (rows : List β) {n : Nat} (d : Fin n → Fin rows.length) (h : β → ℝ) :
    rowMean (drawnRows rows d) h = (∑ i, h rows[d i]) / n := by
  unfold rowMean drawnRows
  rw [List.map_ofFn, List.sum_ofFn, List.length_ofFn]
  rfl

theorem rowMean_fin {β : Type} (rows : List β) (h : β → ℝ) : rowMean rows h = (∑ t : Fin rows.length, h rows[t]) / rows.length := by
  unfold rowMean
  congr 1
  conv_lhs => rw [← List.ofFn_getElem (xs := rows)]
  rw [List.map_ofFn, List.sum_ofFn]
  rfl

theorem takeIdx_drawnRows {β : Type} (rows : List β) {n : Nat} (d : Fin n → Fin rows.length) (y : β → ℝ) :
    takeIdx (rows.map y) (List.ofFn fun i => (d i).1) = (drawnRows rows d).map y := by
  unfold takeIdx drawnRows
  rw [List.map_ofFn, List.map_ofFn]
  congr 1
  funext i
  simp [List.getD]

/-- Markov's inequality for equally likely outcomes. -/
theorem card_far_le {Ω : Type} [Fintype Ω] [Nonempty Ω] (g : Ω → ℝ) (m : ℝ) (hm : (∑ s, g s) / Fintype.card Ω = m) (δ : ℝ)
    (hδ : 0 < δ) (p : Ω → Prop) [DecidablePred p] (hp : ∀ t, p t → δ ≤ |g t - m|) :
    ((Finset.univ.filter p).card : ℝ) ≤ varOn g / δ ^ 2 * Fintype.card Ω := by
  have hc : (0 : ℝ) < Fintype.card Ω := by exact_mod_cast Fintype.card_pos
  have h1 : ((Finset.univ.filter p).card : ℝ) * δ ^ 2 ≤ ∑ t, (g t - m) ^ 2 := by
    calc ((Finset.univ.filter p).card : ℝ) * δ ^ 2 = ∑ t ∈ Finset.univ.filter p, δ ^ 2 := by
          rw [Finset.sum_const, nsmul_eq_mul]
      _ ≤ ∑ t ∈ Finset.univ.filter p, (g t - m) ^ 2 := by
          refine Finset.sum_le_sum fun t ht => ?_
          have := hp t (Finset.mem_filter.mp ht).2
          rw [← sq_abs (g t - m)]
          exact pow_le_pow_left₀ hδ.le this 2
      _ ≤ _ := Finset.sum_le_sum_of_subset_of_nonneg (Finset.filter_subset _ _) fun t _ _ => sq_nonneg _
  unfold varOn
  rw [hm, div_div, div_mul_eq_mul_div, mul_comm (Fintype.card Ω : ℝ) (δ ^ 2), mul_div_mul_right _ _ hc.ne',
    le_div_iff₀ (by positivity)]
  exact h1

theorem popVar_le {N : Nat} (f : Fin N → ℝ) : popVar f ≤ (∑ t, f t ^ 2) / N := by
  unfold popVar
  rcases Nat.eq_zero_or_pos N with h | h
  · subst h; simp
  · have hN : (0 : ℝ) < N := by exact_mod_cast h
    refine div_le_div_of_nonneg_right ?_ hN.le
    set m := (∑ s, f s) / N with hm
    have e : ∑ s, f s = N * m := by rw [hm]; field_simp
    have : ∑ t, (f t - m) ^ 2 = ∑ t, f t ^ 2 - N * m ^ 2 := by
      simp only [sub_sq, Finset.sum_add_distrib, Finset.sum_sub_distrib, ← Finset.sum_mul, ← Finset.mul_sum,
        Finset.sum_const, Finset.card_univ, Fintype.card_fin, nsmul_eq_mul]
      rw [e]; ring
    rw [this]
    have : (0 : ℝ) ≤ N * m ^ 2 := by positivity
    linarith

open Classical in
/-- All but a small share of the draws have all means of finitely many statistics close to those of the rows. -/
theorem resample_near {β κ : Type} [Fintype κ] (rows : List β) (h0 : rows ≠ []) (h : κ → β → ℝ) (n : Nat) (hn : 0 < n)
    (δ : ℝ) (hδ : 0 < δ) (B : ℝ) (hB : ∀ k, (rowMean rows fun b => h k b ^ 2) ≤ B) :
    ((Finset.univ.filter fun d : Fin n → Fin rows.length =>
        ∃ k, δ ≤ |rowMean (drawnRows rows d) (h k) - rowMean rows (h k)|).card : ℝ) ≤
      Fintype.card κ * (B / (n * δ ^ 2)) * (rows.length : ℝ) ^ n := by
  have hN := List.length_pos_iff.mpr h0
  have hn' : (0 : ℝ) < n := by exact_mod_cast hn
  have : Nonempty (Fin rows.length) := ⟨⟨0, hN⟩⟩
  have hsub : (Finset.univ.filter fun d : Fin n → Fin rows.length =>
      ∃ k, δ ≤ |rowMean (drawnRows rows d) (h k) - rowMean rows (h k)|) ⊆
      Finset.univ.biUnion fun k => Finset.univ.filter fun d : Fin n → Fin rows.length =>
        δ ≤ |rowMean (drawnRows rows d) (h k) - rowMean rows (h k)| := by
    intro d hd
    obtain ⟨k, hk⟩ := (Finset.mem_filter.mp hd).2
    exact Finset.mem_biUnion.mpr ⟨k, Finset.mem_univ _, Finset.mem_filter.mpr ⟨Finset.mem_univ _, hk⟩⟩
  have hone : ∀ k, ((Finset.univ.filter fun d : Fin n → Fin rows.length =>
        δ ≤ |rowMean (drawnRows rows d) (h k) - rowMean rows (h k)|).card : ℝ) ≤
      B / (n * δ ^ 2) * (rows.length : ℝ) ^ n := by
    intro k
    obtain ⟨h1, h2⟩ := varOn_mean hN hn fun t : Fin rows.length => h k rows[t]
    have hcard : (Fintype.card (Fin n → Fin rows.length) : ℝ) = (rows.length : ℝ) ^ n := by simp
    have := card_far_le (fun d : Fin n → Fin rows.length => (∑ i, h k rows[d i]) / n) (rowMean rows (h k))
      (by rw [hcard, rowMean_fin]; exact h1) δ hδ
      (fun d => δ ≤ |rowMean (drawnRows rows d) (h k) - rowMean rows (h k)|)
      (fun d hd => by rw [rowMean_drawnRows] at hd; exact hd)
    refine this.trans ?_
    rw [hcard, h2]
    refine mul_le_mul_of_nonneg_right ?_ (by positivity)
    rw [div_div]
    refine div_le_div_of_nonneg_right ?_ (by positivity)
    refine (popVar_le _).trans ?_
    rw [← rowMean_fin rows fun b => h k b ^ 2]
    exact hB k
  calc _ ≤ ((Finset.univ.biUnion fun k => Finset.univ.filter fun d : Fin n → Fin rows.length =>
        δ ≤ |rowMean (drawnRows rows d) (h k) - rowMean rows (h k)|).card : ℝ) := by
        exact_mod_cast Finset.card_le_card hsub
    _ ≤ ∑ k, ((Finset.univ.filter fun d : Fin n → Fin rows.length =>
        δ ≤ |rowMean (drawnRows rows d) (h k) - rowMean rows (h k)|).card : ℝ) := by
        exact_mod_cast Finset.card_biUnion_le
    _ ≤ ∑ _k : κ, B / (n * δ ^ 2) * (rows.length : ℝ) ^ n := Finset.sum_le_sum fun k _ => hone k
    _ = _ := by rw [Finset.sum_const, Finset.card_univ, nsmul_eq_mul, mul_assoc]

end SALib
