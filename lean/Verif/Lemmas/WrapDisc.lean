import Verif.Model.Discrepancy
import Mathlib.NumberTheory.ZetaValues

/-! # The wrap-around discrepancy is positive

`3/2 - d + d^2 = 4/3 + B(d)` with the Bernoulli polynomial `B(d) = d^2 - d + 1/6`, which is a positive definite kernel
by its Fourier series. -/

namespace SALib
open Real Finset

/-- The Bernoulli polynomial of degree 2. -/
noncomputable def bern2 (d : ℝ) : ℝ := d ^ 2 - d + 1 / 6

theorem bern2_hasSum {x : ℝ} (h0 : 0 ≤ x) (h1 : x ≤ 1) :
    HasSum (fun n : ℕ => 1 / (n : ℝ) ^ 2 * Real.cos (2 * π * n * x)) (π ^ 2 * bern2 x) := by
  have h := hasSum_one_div_nat_pow_mul_cos (k := 1) one_ne_zero (x := x) ⟨h0, h1⟩
  have e : (Polynomial.map (algebraMap ℚ ℝ) (Polynomial.bernoulli (2 * 1))).eval x = bern2 x := by
    simp [Polynomial.bernoulli, Finset.sum_range_succ, bern2, Nat.choose, bernoulli_two, bernoulli_one, bernoulli_zero]
    ring
  rw [e] at h
  convert h using 1
  have hf : ((Nat.factorial (2 * 1) : ℕ) : ℝ) = 2 := by norm_num [Nat.factorial]
  rw [hf]
  ring

variable {ι : Type} [Fintype ι]

theorem bern2_psd (w y : ι → ℝ) (hy : ∀ i, 0 ≤ y i ∧ y i ≤ 1) :
    0 ≤ ∑ i, ∑ j, w i * w j * bern2 |y i - y j| := by
  have hpair : ∀ i j, HasSum (fun n : ℕ => w i * w j * (1 / (n : ℝ) ^ 2 * Real.cos (2 * π * n * |y i - y j|)))
      (w i * w j * (π ^ 2 * bern2 |y i - y j|)) := by
    intro i j
    have hle : |y i - y j| ≤ 1 := by
      rw [abs_le]; have := hy i; have := hy j; constructor <;> linarith
    exact (bern2_hasSum (abs_nonneg _) hle).mul_left _
  have hall : HasSum (fun n : ℕ => ∑ i, ∑ j, w i * w j * (1 / (n : ℝ) ^ 2 * Real.cos (2 * π * n * |y i - y j|)))
      (∑ i, ∑ j, w i * w j * (π ^ 2 * bern2 |y i - y j|)) :=
    hasSum_sum fun i _ => hasSum_sum fun j _ => hpair i j
  have hterm : ∀ n : ℕ, 0 ≤ ∑ i, ∑ j, w i * w j * (1 / (n : ℝ) ^ 2 * Real.cos (2 * π * n * |y i - y j|)) := by
    intro n
    have hcos : ∀ i j, Real.cos (2 * π * n * |y i - y j|) =
        Real.cos (2 * π * n * y i) * Real.cos (2 * π * n * y j) +
          Real.sin (2 * π * n * y i) * Real.sin (2 * π * n * y j) := by
      intro i j
      rw [← Real.cos_sub, ← mul_sub]
      rcases abs_choice (y i - y j) with h | h
      · rw [h]
      · rw [h, mul_neg, Real.cos_neg]
    have e : (∑ i, ∑ j, w i * w j * (1 / (n : ℝ) ^ 2 * Real.cos (2 * π * n * |y i - y j|))) =
        1 / (n : ℝ) ^ 2 * ((∑ i, w i * Real.cos (2 * π * n * y i)) ^ 2 +
          (∑ i, w i * Real.sin (2 * π * n * y i)) ^ 2) := by
      rw [sq (∑ i, w i * Real.cos _), sq (∑ i, w i * Real.sin _), Finset.sum_mul_sum, Finset.sum_mul_sum,
        ← Finset.sum_add_distrib, Finset.mul_sum]
      refine Finset.sum_congr rfl fun i _ => ?_
      rw [← Finset.sum_add_distrib, Finset.mul_sum]
      refine Finset.sum_congr rfl fun j _ => ?_
      rw [hcos]; ring
    rw [e]
    positivity
  have h0 := hall.nonneg hterm
  have e : (∑ i, ∑ j, w i * w j * (π ^ 2 * bern2 |y i - y j|)) =
      π ^ 2 * ∑ i, ∑ j, w i * w j * bern2 |y i - y j| := by
    rw [Finset.mul_sum]
    refine Finset.sum_congr rfl fun i _ => ?_
    rw [Finset.mul_sum]
    refine Finset.sum_congr rfl fun j _ => ?_
    ring
  rw [e] at h0
  exact nonneg_of_mul_nonneg_right h0 (by positivity)

/-- The product of two such kernels. -/
theorem bern2_psd_mul (x y : ι → ℝ) (hx : ∀ i, 0 ≤ x i ∧ x i ≤ 1) (hy : ∀ i, 0 ≤ y i ∧ y i ≤ 1) :
    0 ≤ ∑ i, ∑ j, bern2 |x i - x j| * bern2 |y i - y j| := by
  have hpair : ∀ i j, HasSum (fun n : ℕ => (1 / (n : ℝ) ^ 2 * Real.cos (2 * π * n * |x i - x j|)) * bern2 |y i - y j|)
      ((π ^ 2 * bern2 |x i - x j|) * bern2 |y i - y j|) := by
    intro i j
    have hle : |x i - x j| ≤ 1 := by
      rw [abs_le]; have := hx i; have := hx j; constructor <;> linarith
    exact (bern2_hasSum (abs_nonneg _) hle).mul_right _
  have hall : HasSum
      (fun n : ℕ => ∑ i, ∑ j, (1 / (n : ℝ) ^ 2 * Real.cos (2 * π * n * |x i - x j|)) * bern2 |y i - y j|)
      (∑ i, ∑ j, (π ^ 2 * bern2 |x i - x j|) * bern2 |y i - y j|) :=
    hasSum_sum fun i _ => hasSum_sum fun j _ => hpair i j
  have hterm : ∀ n : ℕ,
      0 ≤ ∑ i, ∑ j, (1 / (n : ℝ) ^ 2 * Real.cos (2 * π * n * |x i - x j|)) * bern2 |y i - y j| := by
    intro n
    have hcos : ∀ i j, Real.cos (2 * π * n * |x i - x j|) =
        Real.cos (2 * π * n * x i) * Real.cos (2 * π * n * x j) +
          Real.sin (2 * π * n * x i) * Real.sin (2 * π * n * x j) := by
      intro i j
      rw [← Real.cos_sub, ← mul_sub]
      rcases abs_choice (x i - x j) with h | h
      · rw [h]
      · rw [h, mul_neg, Real.cos_neg]
    have e : (∑ i, ∑ j, (1 / (n : ℝ) ^ 2 * Real.cos (2 * π * n * |x i - x j|)) * bern2 |y i - y j|) =
        1 / (n : ℝ) ^ 2 * ((∑ i, ∑ j, Real.cos (2 * π * n * x i) * Real.cos (2 * π * n * x j) * bern2 |y i - y j|) +
          ∑ i, ∑ j, Real.sin (2 * π * n * x i) * Real.sin (2 * π * n * x j) * bern2 |y i - y j|) := by
      rw [← Finset.sum_add_distrib, Finset.mul_sum]
      refine Finset.sum_congr rfl fun i _ => ?_
      rw [← Finset.sum_add_distrib, Finset.mul_sum]
      refine Finset.sum_congr rfl fun j _ => ?_
      rw [hcos]; ring
    rw [e]
    have h1 := bern2_psd (fun i => Real.cos (2 * π * n * x i)) y hy
    have h2 := bern2_psd (fun i => Real.sin (2 * π * n * x i)) y hy
    exact mul_nonneg (by positivity) (add_nonneg h1 h2)
  have h0 := hall.nonneg hterm
  have e : (∑ i, ∑ j, (π ^ 2 * bern2 |x i - x j|) * bern2 |y i - y j|) =
      π ^ 2 * ∑ i, ∑ j, bern2 |x i - x j| * bern2 |y i - y j| := by
    rw [Finset.mul_sum]
    refine Finset.sum_congr rfl fun i _ => ?_
    rw [Finset.mul_sum]
    refine Finset.sum_congr rfl fun j _ => ?_
    ring
  rw [e] at h0
  exact nonneg_of_mul_nonneg_right h0 (by positivity)

theorem exists_gap (x : ι → ℝ) (hx : ∀ i, 0 ≤ x i) : ∃ ε : ℝ, 0 < ε ∧ ε ≤ 1 ∧ ∀ i, x i = 0 ∨ ε ≤ x i := by
  classical
  have : ∀ s : Finset ι, ∃ ε : ℝ, 0 < ε ∧ ε ≤ 1 ∧ ∀ i ∈ s, x i = 0 ∨ ε ≤ x i := by
    intro s
    induction s using Finset.induction_on with
    | empty => exact ⟨1, one_pos, le_refl _, by simp⟩
    | insert a s ha ih =>
      obtain ⟨ε, h0, h1, h⟩ := ih
      rcases (hx a).eq_or_lt with ha0 | ha0
      · refine ⟨ε, h0, h1, ?_⟩
        intro i hi
        rcases Finset.mem_insert.mp hi with rfl | hi
        · exact Or.inl ha0.symm
        · exact h i hi
      · refine ⟨min ε (x a), lt_min h0 ha0, (min_le_left _ _).trans h1, ?_⟩
        intro i hi
        rcases Finset.mem_insert.mp hi with rfl | hi
        · exact Or.inr (min_le_right _ _)
        · exact (h i hi).imp id ((min_le_left _ _).trans)
  obtain ⟨ε, h0, h1, h⟩ := this Finset.univ
  exact ⟨ε, h0, h1, fun i => h i (Finset.mem_univ i)⟩

theorem bern2_pos [Nonempty ι] (x : ι → ℝ) (hx : ∀ i, 0 ≤ x i ∧ x i ≤ 1) :
    0 < ∑ i, ∑ j, bern2 |x i - x j| := by
  have h0 : 0 ≤ ∑ i, ∑ j, bern2 |x i - x j| := by
    have := bern2_psd (fun _ => 1) x hx
    simpa using this
  rcases h0.eq_or_lt with he | hlt
  · exfalso
    -- adding one more point `z` with weight `-t` shows that the potential vanishes everywhere
    have hpot : ∀ z : ℝ, 0 ≤ z → z ≤ 1 → ∑ i, bern2 |x i - z| = 0 := by
      intro z hz0 hz1
      set G := ∑ i, bern2 |x i - z| with hG
      have hq : ∀ t : ℝ, 0 ≤ -(2 * t * G) + t ^ 2 * (1 / 6) := by
        intro t
        have h := bern2_psd (fun o : Option ι => o.elim (-t) fun _ => 1) (fun o => o.elim z x) (by
          intro o; cases o with
          | none => exact ⟨hz0, hz1⟩
          | some i => exact hx i)
        simp only [Fintype.sum_option, Option.elim] at h
        have e1 : ∑ j, -t * 1 * bern2 |z - x j| = -t * G := by
          rw [hG, Finset.mul_sum]
          refine Finset.sum_congr rfl fun j _ => ?_
          rw [abs_sub_comm]; ring
        have e2 : ∑ i, (1 * -t * bern2 |x i - z| + ∑ j, 1 * 1 * bern2 |x i - x j|) = -t * G := by
          rw [Finset.sum_add_distrib, hG, Finset.mul_sum]
          have : ∑ i, ∑ j, 1 * 1 * bern2 |x i - x j| = 0 := by rw [he]; simp
          rw [this, add_zero]
          refine Finset.sum_congr rfl fun j _ => ?_
          ring
        have e3 : bern2 |z - z| = 1 / 6 := by simp [bern2]
        rw [e1, e2, e3] at h
        nlinarith [h]
      have h6 := hq (6 * G)
      nlinarith [h6, sq_nonneg G]
    obtain ⟨ε, hε0, hε1, hgap⟩ := exists_gap x fun i => (hx i).1
    have e1 := hpot (ε / 2 + ε / 4) (by linarith) (by linarith)
    have e2 := hpot (ε / 2 - ε / 4) (by linarith) (by linarith)
    have e3 := hpot (ε / 2) (by linarith) (by linarith)
    have hsum : ∑ i, (bern2 |x i - (ε / 2 + ε / 4)| + bern2 |x i - (ε / 2 - ε / 4)| - 2 * bern2 |x i - ε / 2|) =
        ∑ _i : ι, 2 * (ε / 4) ^ 2 := by
      refine Finset.sum_congr rfl fun i _ => ?_
      rcases hgap i with h | h
      · rw [h, abs_of_nonpos (by linarith), abs_of_nonpos (by linarith), abs_of_nonpos (by linarith)]
        unfold bern2; ring
      · rw [abs_of_nonneg (by linarith), abs_of_nonneg (by linarith), abs_of_nonneg (by linarith)]
        unfold bern2; ring
    rw [Finset.sum_sub_distrib, Finset.sum_add_distrib, ← Finset.mul_sum, e1, e2, e3] at hsum
    simp only [Finset.sum_const, nsmul_eq_mul] at hsum
    have hc : (0 : ℝ) < (Finset.univ : Finset ι).card := by exact_mod_cast Finset.card_pos.mpr Finset.univ_nonempty
    have : 0 < ((Finset.univ : Finset ι).card : ℝ) * (2 * (ε / 4) ^ 2) := by positivity
    linarith
  · exact hlt

theorem list_sum_fin {β : Type} (l : List β) (f : β → ℝ) : (l.map f).sum = ∑ i : Fin l.length, f (l.get i) := by
  rw [← List.sum_ofFn]
  congr 1
  conv_lhs => rw [← List.ofFn_get l]
  rw [List.map_ofFn]
  rfl

/-- The wrap-around discrepancy of at least one point of the unit square is positive. -/
theorem discWD_pos (pts : List (ℝ × ℝ)) (hne : pts ≠ [])
    (h : ∀ p ∈ pts, (0 ≤ p.1 ∧ p.1 ≤ 1) ∧ 0 ≤ p.2 ∧ p.2 ≤ 1) : 0 < discWD pts := by
  have hlen : 0 < pts.length := List.length_pos_iff.mpr hne
  haveI : Nonempty (Fin pts.length) := ⟨⟨0, hlen⟩⟩
  have hN : (0 : ℝ) < (pts.length : ℝ) := by exact_mod_cast hlen
  have hx : ∀ i : Fin pts.length, 0 ≤ (pts.get i).1 ∧ (pts.get i).1 ≤ 1 := fun i => (h _ (List.get_mem _ _)).1
  have hy : ∀ i : Fin pts.length, 0 ≤ (pts.get i).2 ∧ (pts.get i).2 ≤ 1 := fun i => (h _ (List.get_mem _ _)).2
  have p1 := bern2_pos _ hx
  have p2 := bern2_pos _ hy
  have p12 := bern2_psd_mul _ _ hx hy
  unfold discWD
  rw [list_sum_fin]
  simp only [list_sum_fin]
  have e : (∑ i : Fin pts.length, ∑ j : Fin pts.length,
      (3 / 2 - |(pts.get i).1 - (pts.get j).1| + |(pts.get i).1 - (pts.get j).1| ^ 2) *
        (3 / 2 - |(pts.get i).2 - (pts.get j).2| + |(pts.get i).2 - (pts.get j).2| ^ 2)) =
      (pts.length : ℝ) ^ 2 * (4 / 3) ^ 2 + (4 / 3 * (∑ i : Fin pts.length, ∑ j : Fin pts.length,
        bern2 |(pts.get i).1 - (pts.get j).1|) + 4 / 3 * (∑ i : Fin pts.length, ∑ j : Fin pts.length,
        bern2 |(pts.get i).2 - (pts.get j).2|) + ∑ i : Fin pts.length, ∑ j : Fin pts.length,
        bern2 |(pts.get i).1 - (pts.get j).1| * bern2 |(pts.get i).2 - (pts.get j).2|) := by
    have c : (pts.length : ℝ) ^ 2 * (4 / 3) ^ 2 = ∑ _i : Fin pts.length, ∑ _j : Fin pts.length, (4 / 3 : ℝ) ^ 2 := by
      simp; ring
    rw [c, Finset.mul_sum, Finset.mul_sum, ← Finset.sum_add_distrib, ← Finset.sum_add_distrib,
      ← Finset.sum_add_distrib]
    refine Finset.sum_congr rfl fun i _ => ?_
    rw [Finset.mul_sum, Finset.mul_sum, ← Finset.sum_add_distrib, ← Finset.sum_add_distrib,
      ← Finset.sum_add_distrib]
    refine Finset.sum_congr rfl fun j _ => ?_
    unfold bern2; ring
  rw [e]
  have : 1 / (pts.length : ℝ) ^ 2 * ((pts.length : ℝ) ^ 2 * (4 / 3) ^ 2) = (4 / 3) ^ 2 := by
    field_simp
  rw [mul_add, this]
  have hpos : 0 < 1 / (pts.length : ℝ) ^ 2 := by positivity
  have := mul_pos hpos (show 0 < 4 / 3 * (∑ i : Fin pts.length, ∑ j : Fin pts.length,
        bern2 |(pts.get i).1 - (pts.get j).1|) + 4 / 3 * (∑ i : Fin pts.length, ∑ j : Fin pts.length,
        bern2 |(pts.get i).2 - (pts.get j).2|) + ∑ i : Fin pts.length, ∑ j : Fin pts.length,
        bern2 |(pts.get i).1 - (pts.get j).1| * bern2 |(pts.get i).2 - (pts.get j).2| by linarith)
  linarith

end SALib
