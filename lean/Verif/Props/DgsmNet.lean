import Verif.Spec.DgsmNet
import Verif.Props.DgsmBound
import Verif.Props.QuasiMean
import Verif.Props.LatinMean
import Verif.Lemmas.Hoeffding
import Mathlib.Analysis.Calculus.MeanValue

/-! # C138: DGSM on the points of the Sobol sequence -/

namespace SALib

open MeasureTheory ProbabilityTheory Spec

variable {d : Nat}

/-! ### The digits of a row -/

/-- Row `n` with `2 ^ q ≤ n < 2 ^ (q + 1)`: an odd multiple of `2 ^ -(q + 1)`, as integer. -/
theorem xSeq_odd (v : Nat → Nat) (hv : ∀ j, 1 ≤ j → j ≤ 31 → DirNum j (v j)) (q n : Nat) (hq : q < 31)
    (h1 : 2 ^ q ≤ n) (h2 : n < 2 ^ (q + 1)) :
    ∃ p, p % 2 = 1 ∧ p < 2 ^ (q + 1) ∧ xSeq v n = p * 2 ^ (30 - q) := by
  have hpos : 0 < 2 ^ q := by positivity
  obtain ⟨hlt, hlow⟩ := xSeq_low v (q + 1) (by omega) (fun j a b => hv j a (by omega)) n h2
  have hbit : (xSeq v n).testBit (30 - q) = true := by
    have hl : ∀ n, n < 2 ^ q → (xSeq v n).testBit (30 - q) = false :=
      fun n hn => (xSeq_low v q (by omega) (fun j a b => hv j a (by omega)) n hn).2 _ (by omega)
    have htop : xSeq v (2 ^ q) = xSeq v (2 ^ q - 1) ^^^ v (q + 1) := by
      conv_lhs => rw [show 2 ^ q = (2 ^ q - 1) + 1 by omega]
      rw [xSeq, leastZeroBit_all_ones]
    have hd := (hv (q + 1) (by omega) (by omega)).2.1
    rw [show 31 - (q + 1) = 30 - q by omega] at hd
    have hs := xSeq_block v q 1 (n - 2 ^ q) (by rw [Nat.pow_succ] at h2; omega)
    rw [one_mul, show 2 ^ q + (n - 2 ^ q) = n by omega] at hs
    rw [hs, Nat.testBit_xor, htop, Nat.testBit_xor, hl _ (by omega), hd, hl _ (by rw [Nat.pow_succ] at h2; omega)]
    rfl
  have hdvd : 2 ^ (30 - q) ∣ xSeq v n := by
    rw [Nat.dvd_iff_mod_eq_zero]
    apply Nat.eq_of_testBit_eq
    intro i
    rw [Nat.testBit_mod_two_pow, Nat.zero_testBit]
    by_cases hi : i < 30 - q
    · rw [hlow i (by omega)]; simp
    · simp [hi]
  obtain ⟨p, hp⟩ := hdvd
  refine ⟨p, ?_, ?_, by rw [hp]; ring⟩
  · rw [hp, Nat.testBit_eq_decide_div_mod_eq, Nat.mul_div_cancel_left _ (by positivity)] at hbit
    simpa using hbit
  · rw [hp] at hlt
    have e : 2 ^ 31 = 2 ^ (30 - q) * 2 ^ (q + 1) := by rw [← pow_add]; congr 1; omega
    rw [e] at hlt
    exact Nat.lt_of_mul_lt_mul_left hlt

/-- Every such multiple is the value of one of these rows. -/
theorem xSeq_hit (v : Nat → Nat) (hv : ∀ j, 1 ≤ j → j ≤ 31 → DirNum j (v j)) (q p : Nat) (hq : q < 31) (hp : p % 2 = 1)
    (hp2 : p < 2 ^ (q + 1)) : ∃ n, 2 ^ q ≤ n ∧ n < 2 ^ (q + 1) ∧ xSeq v n = p * 2 ^ (30 - q) := by
  have hv' : ∀ j, 1 ≤ j → j ≤ q + 1 → DirNum j (v j) := fun j a b => hv j a (by omega)
  have hmap : ∀ n ∈ Finset.range (2 ^ (q + 1)), xSeq v n >>> (31 - (q + 1)) ∈ Finset.range (2 ^ (q + 1)) := by
    intro n hn
    rw [Finset.mem_range] at hn ⊢
    exact shiftRight_lt (q + 1) _ (by omega) (xSeq_low v (q + 1) (by omega) hv' n hn).1
  obtain ⟨n, hn, hne⟩ := Finset.surjOn_of_injOn_of_card_le (fun n => xSeq v n >>> (31 - (q + 1))) hmap
    (fun a ha b hb hab => xSeq_inj v (q + 1) (by omega) hv' a b (Finset.mem_range.mp ha) (Finset.mem_range.mp hb) hab)
    le_rfl (Finset.mem_coe.mpr (Finset.mem_range.mpr hp2))
  have hn := Finset.mem_range.mp hn
  simp only at hne
  rw [show 31 - (q + 1) = 30 - q by omega] at hne
  have hx : xSeq v n = p * 2 ^ (30 - q) := by
    rw [← hne]
    apply Nat.eq_of_testBit_eq
    intro i
    rw [← Nat.shiftLeft_eq, Nat.testBit_shiftLeft, Nat.testBit_shiftRight]
    by_cases hi : i ≥ 30 - q
    · rw [show 30 - q + (i - (30 - q)) = i by omega]; simp [hi]
    · rw [(xSeq_low v (q + 1) (by omega) hv' n hn).2 i (by omega)]; simp [hi]
  refine ⟨n, ?_, hn, hx⟩
  by_contra hlt
  have hl := (xSeq_low v q (by omega) (fun j a b => hv j a (by omega)) n (by omega)).2 (30 - q) (by omega)
  rw [hx, ← Nat.shiftLeft_eq, Nat.testBit_shiftLeft] at hl
  simp [hp] at hl

theorem pow31_split (q : Nat) (hq : q < 31) : (2 : ℝ) ^ 31 = 2 ^ (30 - q) * 2 ^ (q + 1) := by
  rw [← pow_add]; congr 1; omega

/-- The row with a given place of its top digit. -/
theorem scaledPoint_fraction (v : ℕ → ℕ → ℕ) (hdir : ∀ i, i < 21201 → ∀ j, 1 ≤ j → j ≤ 31 → DirNum j (v i j))
    (lo hi : Fin d → ℝ) (hD : d ≤ 21201) (j : Fin d) (q n : Nat) (hq : q < 31) (h1 : 2 ^ q ≤ n) (h2 : n < 2 ^ (q + 1)) :
    ∃ p : Nat, p % 2 = 1 ∧ p < 2 ^ (q + 1) ∧
      scaledPoint v lo hi 0 n j = lo j + (hi j - lo j) * (p / 2 ^ (q + 1)) := by
  have hj := j.2
  obtain ⟨p, e1, e2, e3⟩ := xSeq_odd (v (0 + j)) (hdir _ (by omega)) q n hq h1 h2
  refine ⟨p, e1, e2, ?_⟩
  have hp := pow31_split q hq
  unfold scaledPoint
  rw [e3, hp]
  push_cast
  field_simp
  ring

/-- A row from the first on lies strictly within the bounds. -/
theorem scaledPoint_inside (v : ℕ → ℕ → ℕ) (hdir : ∀ i, i < 21201 → ∀ j, 1 ≤ j → j ≤ 31 → DirNum j (v i j))
    (lo hi : Fin d → ℝ) (h : ∀ i, lo i < hi i) (hD : d ≤ 21201) (n : Nat) (h0 : 0 < n) (hn : n < 2 ^ 31) (j : Fin d) :
    lo j < scaledPoint v lo hi 0 n j ∧ scaledPoint v lo hi 0 n j < hi j := by
  have hlog : Nat.log 2 n < 31 := Nat.log_lt_of_lt_pow (by omega) hn
  obtain ⟨p, e1, e2, e3⟩ := scaledPoint_fraction v hdir lo hi hD j (Nat.log 2 n) n hlog
    (Nat.pow_log_le_self 2 (by omega)) (Nat.lt_pow_succ_log_self (by norm_num) n)
  have hw : 0 < hi j - lo j := by linarith [h j]
  have hp0 : (0 : ℝ) < p := by exact_mod_cast (by omega : 0 < p)
  have hp1 : (p : ℝ) < 2 ^ (Nat.log 2 n + 1) := by exact_mod_cast e2
  have hpow : (0 : ℝ) < 2 ^ (Nat.log 2 n + 1) := by positivity
  rw [e3]
  constructor
  · have : 0 < (hi j - lo j) * (p / 2 ^ (Nat.log 2 n + 1)) := by positivity
    linarith
  · have : (p : ℝ) / 2 ^ (Nat.log 2 n + 1) < 1 := by rwa [div_lt_one hpow]
    nlinarith

theorem scaledPoint_inBox (v : ℕ → ℕ → ℕ) (hdir : ∀ i, i < 21201 → ∀ j, 1 ≤ j → j ≤ 31 → DirNum j (v i j))
    (lo hi : Fin d → ℝ) (h : ∀ i, lo i < hi i) (hD : d ≤ 21201) (n : Nat) (hn : n < 2 ^ 31) :
    InBox lo hi (scaledPoint v lo hi 0 n) := by
  intro j
  rcases Nat.eq_zero_or_pos n with rfl | h0
  · simp [scaledPoint, xSeq, (h j).le]
  · obtain ⟨a, b⟩ := scaledPoint_inside v hdir lo hi h hD n h0 hn j
    exact ⟨a.le, b.le⟩

/-! ### The base points of `finite_diff.sample` -/

/-- The rows `skip, …, skip + N - 1`, scaled to the bounds. -/
noncomputable def netRows (v : ℕ → ℕ → ℕ) (lo hi : Fin d → ℝ) (skip N : Nat) : List (Fin d → ℝ) :=
  (List.range N).map fun n => scaledPoint v lo hi 0 (skip + n)

theorem mem_netRows {v : ℕ → ℕ → ℕ} {lo hi : Fin d → ℝ} {skip N : Nat} {x : Fin d → ℝ}
    (hx : x ∈ netRows v lo hi skip N) : ∃ n, skip ≤ n ∧ n < skip + N ∧ x = scaledPoint v lo hi 0 n := by
  obtain ⟨n, hn, rfl⟩ := List.mem_map.mp hx
  exact ⟨skip + n, by omega, by have := List.mem_range.mp hn; omega, rfl⟩

/-- The generator gives these rows, after `skip` others. -/
theorem netRows_gen (v : ℕ → ℕ → ℕ) (lo hi : Fin d → ℝ) (h : ∀ i, lo i < hi i) (skip N : Nat) :
    ∃ pre : Mat ℝ, pre.length = skip ∧ HasCols d pre ∧
      ((List.range (N + skip)).map fun n => (List.range d).map fun i => ((xSeq (v i) n : Nat) : ℝ) / 2 ^ 31) =
        pre ++ (netRows v lo hi skip N).map (unitPoint lo hi) := by
  refine ⟨(List.range skip).map fun n => (List.range d).map fun i => ((xSeq (v i) n : Nat) : ℝ) / 2 ^ 31, by simp, ?_, ?_⟩
  · intro r hr
    obtain ⟨n, -, rfl⟩ := List.mem_map.mp hr
    simp
  · rw [show N + skip = skip + N by omega, List.range_add, List.map_append, List.map_map]
    congr 1
    unfold netRows
    rw [List.map_map]
    refine List.map_congr_left fun n _ => ?_
    simp only [Function.comp]
    unfold unitPoint scaledPoint
    refine List.ext_getElem (by simp) fun i h1 h2 => ?_
    have hi' : i < d := by simpa using h1
    have hw : hi ⟨i, hi'⟩ - lo ⟨i, hi'⟩ ≠ 0 := by linarith [h ⟨i, hi'⟩]
    simp only [List.getElem_map, List.getElem_range, List.getElem_ofFn, Nat.zero_add]
    field_simp
    ring

theorem netRows_mean_eq (v : ℕ → ℕ → ℕ) (lo hi : Fin d → ℝ) (skip N : Nat) (g : (Fin d → ℝ) → ℝ) :
    rowMean (netRows v lo hi skip N) g = (∑ n ∈ Finset.Ico skip (skip + N), g (scaledPoint v lo hi 0 n)) / N := by
  unfold rowMean netRows
  rw [List.map_map, List.length_map, List.length_range, Finset.sum_Ico_eq_sum_range, Nat.add_sub_cancel_left]
  rfl

/-- The mean of a function over whole blocks, against its integral. -/
theorem netRows_mean (L N skip : ℕ) (hN : 0 < N) (hNL : N + skip ≤ 2 ^ L) (hL : L ≤ 31) (hD : d ≤ 21201)
    (v : ℕ → ℕ → ℕ) (heq : sobolSequence (α := ℝ) directions L (N + skip) d =
      .ok ((List.range (N + skip)).map fun n => (List.range d).map fun i => ((xSeq (v i) n : Nat) : ℝ) / 2 ^ 31))
    (lo hi : Fin d → ℝ) (h : ∀ i, lo i < hi i) (k : Fin d → ℕ) (m : ℕ)
    (hm : netLoss directions (usedCols k) + ∑ j, k j ≤ m) (hdN : 2 ^ m ∣ N) (hds : 2 ^ m ∣ skip) (g : (Fin d → ℝ) → ℝ)
    (hg : Measurable g) (δ : ℝ) (hv : VariesAtMost lo hi k δ g)
    (hint : Integrable g (Measure.pi fun i => unifOn (lo i) (hi i))) :
    |rowMean (netRows v lo hi skip N) g - ∫ x, g x ∂Measure.pi fun i => unifOn (lo i) (hi i)| ≤ δ := by
  obtain ⟨c, hc⟩ := hdN
  obtain ⟨B, hB⟩ := hds
  have hp := placed_preserving lo hi h
  have hI : ∫ u, g (placed lo hi id u) ∂(Measure.pi fun _ : Fin d => unifOn 0 1) =
      ∫ x, g x ∂Measure.pi fun i => unifOn (lo i) (hi i) := by
    rw [← hp.map_eq, integral_map hp.measurable.aemeasurable hg.aestronglyMeasurable]
    rfl
  have hvar : VariesAtMost (fun _ => 0) (fun _ => 1) k δ fun u => g (placed lo hi id u) := by
    intro i hi' x y hx hy
    have tr : ∀ u : Fin d → ℝ, GridBox (fun _ => 0) (fun _ => 1) k i u → GridBox lo hi k i (placed lo hi id u) := by
      intro u hu j
      obtain ⟨a, b⟩ := hu j
      have hw : 0 < hi j - lo j := by linarith [h j]
      simp only [sub_zero, one_mul, zero_add] at a b
      unfold placed
      simp only [id]
      constructor <;> nlinarith
    exact hv i hi' _ _ (tr x hx) (tr y hy)
  have hint' : Integrable (fun u => g (placed lo hi id u)) (Measure.pi fun _ : Fin d => unifOn 0 1) :=
    hp.integrable_comp_of_integrable hint
  set I := ∫ x, g x ∂Measure.pi fun i => unifOn (lo i) (hi i) with hIdef
  have hblock : ∀ b, b < c → |(∑ n ∈ Finset.Ico ((B + b) * 2 ^ m) ((B + b + 1) * 2 ^ m), g (scaledPoint v lo hi 0 n)) -
      2 ^ m * I| ≤ 2 ^ m * δ := by
    intro b hb
    have hle : (B + b + 1) * 2 ^ m ≤ N + skip := by
      rw [hc, hB, ← mul_add, mul_comm]
      exact Nat.mul_le_mul_left _ (by omega)
    have := C100_mean L (N + skip) (by omega) hNL hL hD _ heq k m (B + b) hm hle _ δ hvar hint'
    rw [hI] at this
    have hpow : (0 : ℝ) < 2 ^ m := by positivity
    have e : ∑ n ∈ Finset.Ico ((B + b) * 2 ^ m) ((B + b + 1) * 2 ^ m), g (placed lo hi id (rowPoint d
        ((List.range (N + skip)).map fun n => (List.range d).map fun i => ((xSeq (v i) n : Nat) : ℝ) / 2 ^ 31) n)) =
        ∑ n ∈ Finset.Ico ((B + b) * 2 ^ m) ((B + b + 1) * 2 ^ m), g (scaledPoint v lo hi 0 n) := by
      refine Finset.sum_congr rfl fun n hn => ?_
      have hn := (Finset.mem_Ico.mp hn).2
      have h1 : n < N + skip := by omega
      have hr : rowPoint d ((List.range (N + skip)).map fun n => (List.range d).map fun i =>
          ((xSeq (v i) n : Nat) : ℝ) / 2 ^ 31) n = fun j : Fin d => ((xSeq (v j) n : ℕ) : ℝ) / 2 ^ 31 := by
        funext j
        have h2 := j.2
        simp [rowPoint, h1, h2]
      rw [hr]
      refine congrArg g (funext fun j => ?_)
      unfold placed scaledPoint
      rw [Nat.zero_add]
      exact add_comm _ _
    rw [e, div_sub' hpow.ne', abs_div, abs_of_pos hpow, div_le_iff₀ hpow] at this
    linarith
  have hsum : ∀ b, b ≤ c → |(∑ n ∈ Finset.Ico (B * 2 ^ m) ((B + b) * 2 ^ m), g (scaledPoint v lo hi 0 n)) -
      b * (2 ^ m * I)| ≤ b * (2 ^ m * δ) := by
    intro b
    induction b with
    | zero => simp
    | succ b ih =>
      intro hb
      rw [← Finset.sum_Ico_consecutive _ (Nat.mul_le_mul_right (2 ^ m) (by omega : B ≤ B + b))
        (Nat.mul_le_mul_right (2 ^ m) (by omega : B + b ≤ B + (b + 1)))]
      have h1 := abs_le.mp (ih (by omega))
      have h2 := abs_le.mp (hblock b (by omega))
      rw [← add_assoc]
      push_cast
      rw [abs_le]
      constructor <;> linarith
  have hfin := hsum c le_rfl
  rw [netRows_mean_eq]
  have e1 : B * 2 ^ m = skip := by rw [hB]; ring
  have e2 : (B + c) * 2 ^ m = skip + N := by rw [hB, hc]; ring
  rw [e1, e2] at hfin
  have hNr : (0 : ℝ) < N := by exact_mod_cast hN
  have e3 : (c : ℝ) * 2 ^ m = N := by rw [hc]; push_cast; ring
  rw [← mul_assoc, ← mul_assoc, e3] at hfin
  rw [div_sub' hNr.ne', abs_div, abs_of_pos hNr, div_le_iff₀ hNr]
  linarith

/-! ### The difference quotients -/

theorem stepped_dist {a b delta x : ℝ} (hx : a ≤ x ∧ x ≤ b) : |stepped a b delta x - x| ≤ |x * delta| := by
  have e : x * (1 + delta) = x + x * delta := by ring
  unfold stepped
  rw [e]
  generalize x * delta = s
  rw [abs_le]
  rcases abs_cases s with ⟨h1, h2⟩ | ⟨h1, h2⟩ <;> rw [h1] <;> constructor
  · have : x ≤ max (min (x + s) b) a := le_max_of_le_left (le_min (by linarith) hx.2)
    linarith
  · have : max (min (x + s) b) a ≤ x + s := max_le (min_le_left _ _) (by linarith)
    linarith
  · have : x + s ≤ max (min (x + s) b) a := le_max_of_le_left (le_min le_rfl (by linarith))
    linarith
  · have : max (min (x + s) b) a ≤ x := max_le ((min_le_left _ _).trans (by linarith)) hx.1
    linarith

/-- The quotient over a step that is not lost, against the derivative. -/
theorem stepQuot_deriv (lo hi : Fin d → ℝ) (j : Fin d) (G G' : (Fin d → ℝ) → ℝ) (hP : PartialDeriv lo hi j G G') (c : ℝ)
    (hc : 0 ≤ c) (hs : SlopeAtMost lo hi j c G') (delta : ℝ) (x : Fin d → ℝ) (hx : InBox lo hi x)
    (hne : stepped (lo j) (hi j) delta (x j) ≠ x j) :
    |stepQuot lo hi delta j G x - G' x| ≤ c * |x j * delta| := by
  set t := stepped (lo j) (hi j) delta (x j) with ht
  have htm : t ∈ Set.Icc (lo j) (hi j) := stepped_mem _ _ _ _ ((hx j).1.trans (hx j).2)
  have hsub : Set.uIcc (x j) t ⊆ Set.Icc (lo j) (hi j) := Set.uIcc_subset_Icc (hx j) htm
  have key := Convex.norm_image_sub_le_of_norm_hasDerivWithin_le (f := fun s => G (setInput x j s) - G' x * s)
    (f' := fun s => G' (setInput x j s) - G' x) (C := c * |t - x j|) (s := Set.uIcc (x j) t) (x := x j) (y := t)
    (by
      intro s hs'
      have hd := hP.deriv (setInput x j s) (inBox_setInput j hx (hsub hs'))
      simp only [setInput_setInput, setInput_at] at hd
      have hl : HasDerivWithinAt (fun s => G' x * s) (G' x) (Set.uIcc (x j) t) s := by
        simpa using (hasDerivWithinAt_id s (Set.uIcc (x j) t)).const_mul (G' x)
      exact (hd.mono hsub).sub hl)
    (by
      intro s hs'
      have h1 := hs x hx s (hsub hs').1 (hsub hs').2
      have h2 : |s - x j| ≤ |t - x j| := Set.abs_sub_left_of_mem_uIcc hs'
      rw [Real.norm_eq_abs]
      exact h1.trans (mul_le_mul_of_nonneg_left h2 hc))
    (convex_uIcc _ _) Set.left_mem_uIcc Set.right_mem_uIcc
  simp only [setInput_self, Real.norm_eq_abs] at key
  have hpos : 0 < |t - x j| := abs_pos.mpr (sub_ne_zero.mpr hne)
  have e : stepQuot lo hi delta j G x - G' x =
      (G (setInput x j t) - G' x * t - (G x - G' x * x j)) / (t - x j) := by
    unfold stepQuot
    rw [← ht]
    field_simp [sub_ne_zero.mpr hne]
    ring
  rw [e, abs_div, div_le_iff₀ hpos]
  refine key.trans (mul_le_mul_of_nonneg_right ?_ hpos.le)
  exact mul_le_mul_of_nonneg_left (stepped_dist (hx j)) hc

/-! ### Sampling, model, analysis -/

/-- The squared quotient of one base point; not finite if the step is lost. -/
noncomputable def stepNum (lo hi : Fin d → ℝ) (delta : ℝ) (j : Fin d) (G : (Fin d → ℝ) → ℝ) (x : Fin d → ℝ) : Num ℝ :=
  (npDiv (G (setInput x j (stepped (lo j) (hi j) delta (x j))) - G x) (stepped (lo j) (hi j) delta (x j) - x j)).map (· ^ 2)

theorem stepNum_some (lo hi : Fin d → ℝ) (delta : ℝ) (j : Fin d) (G : (Fin d → ℝ) → ℝ) (x : Fin d → ℝ)
    (hne : stepped (lo j) (hi j) delta (x j) ≠ x j) :
    stepNum lo hi delta j G x = some (stepQuot lo hi delta j G x ^ 2) := by
  unfold stepNum
  rw [npDiv_some _ _ (sub_ne_zero.mpr hne)]
  rfl

theorem stepNum_none (lo hi : Fin d → ℝ) (delta : ℝ) (j : Fin d) (G : (Fin d → ℝ) → ℝ) (x : Fin d → ℝ)
    (he : stepped (lo j) (hi j) delta (x j) = x j) : stepNum lo hi delta j G x = none := by
  unfold stepNum npDiv
  rw [if_pos (sub_eq_zero.mpr he)]
  rfl

/-- What the analysis reports, in terms of the rows of the sequence. -/
theorem net_run (F : Ppf ℝ) (junk : Num ℝ) (lo hi : Fin d → ℝ) (h : ∀ i, lo i < hi i) (hd : 0 < d) (pb : Problem ℝ)
    (hnum : pb.numVars = d) (hb : pb.bounds = boundsTable (List.ofFn fun i => (lo i, hi i))) (hdist : pb.dists = none)
    (gen : Nat → Nat → Py (Mat ℝ)) (v : ℕ → ℕ → ℕ) (N skip : ℕ) (hgen : gen (N + skip) d =
      .ok ((List.range (N + skip)).map fun n => (List.range d).map fun i => ((xSeq (v i) n : Nat) : ℝ) / 2 ^ 31))
    (delta z conf : ℝ) (hconf : 0 < conf ∧ conf < 1) (draws : Nat → List (List Nat))
    (hdraws : ∀ j < d, ∀ r ∈ draws j, ∀ i ∈ r, i < N) (f : List ℝ → ℝ) (G : (Fin d → ℝ) → ℝ)
    (hf : ∀ x, f (List.ofFn x) = G x) :
    ∃ Xs pb' res, finiteDiffSample F gen junk pb N delta skip = .ok (Xs.map (·.map some), pb') ∧
      dgsmAnalyze Real.sqrt (Real.pi ^ 2) z conf pb' Xs (Xs.map f) draws = .ok res ∧
      ∀ j : Fin d, res.vi[(j : Nat)]? = some (npMeanN ((netRows v lo hi skip N).map (stepNum lo hi delta j G))) ∧
        res.dgsm[(j : Nat)]? = some ((npVar ((netRows v lo hi skip N).map G)).bind fun D =>
          (npMeanN ((netRows v lo hi skip N).map (stepNum lo hi delta j G))).bind fun vi =>
            npDiv (vi * (hi j - lo j) ^ 2) (D * Real.pi ^ 2)) := by
  obtain ⟨pre, hpre, hcols, hrows⟩ := netRows_gen v lo hi h skip N
  rw [hrows] at hgen
  set rows := netRows v lo hi skip N with hrowsdef
  have hrl : rows.length = N := by simp [hrowsdef, netRows]
  set bs : List (ℝ × ℝ) := List.ofFn fun i => (lo i, hi i) with hbs
  have hbl : bs.length = d := by simp [hbs]
  have hbne : bs ≠ [] := by
    intro e; rw [e] at hbl; simp at hbl; omega
  have hlegal : ∀ p ∈ bs, p.1 < p.2 := by
    intro p hp
    obtain ⟨i, rfl⟩ := (List.mem_ofFn).mp hp
    exact h i
  set U := pre ++ rows.map (unitPoint lo hi) with hU
  set X := U.map (applyCols (bs.map fun p x => x * (p.2 - p.1) + p.1)) with hX
  have hUc : HasCols d U := by
    intro r hr
    rcases List.mem_append.mp hr with hr | hr
    · exact hcols r hr
    · obtain ⟨x, -, rfl⟩ := List.mem_map.mp hr
      simp [unitPoint]
  have hXc : HasCols d X := by
    intro r hr
    obtain ⟨u, hu, rfl⟩ := List.mem_map.mp hr
    simp [applyCols, hUc u hu, hbl]
  have hXl : X.length = N + skip := by
    rw [hX, hU]; simp [hpre, hrl]; omega
  have hdrop : X.drop skip = rows.map List.ofFn := by
    rw [hX, hU, List.map_append, List.drop_append, List.drop_eq_nil_of_le (by simp [hpre]), List.nil_append,
      List.length_map, hpre, Nat.sub_self, List.drop_zero, List.map_map]
    apply List.map_congr_left
    intro x _
    exact applyCols_unitPoint lo hi h x
  have hsc := scaleSamples_legal F pb bs U hb hdist hbne hlegal
  rw [hbl] at hsc
  set lo' : Nat → ℝ := fun k => if hk : k < d then lo ⟨k, hk⟩ else 0 with hlo'
  set hi' : Nat → ℝ := fun k => if hk : k < d then hi ⟨k, hk⟩ else 0 with hhi'
  obtain ⟨Xs, res, hs, ha, hval⟩ := dgsm_sampled F gen junk pb _ N delta skip U X lo' hi'
    (by rw [hnum]; exact hgen) (by rw [hnum]; exact hsc) hXl (by rw [hnum]; exact hXc)
    (by
      intro k hk
      rw [hnum] at hk
      refine ⟨[], ?_⟩
      rw [hb, boundsTable, List.getElem?_map, hbs, List.getElem?_eq_getElem (by simpa using hk), List.getElem_ofFn]
      simp [hlo', hhi', hk])
    Real.sqrt (Real.pi ^ 2) z conf hconf draws (by rw [hnum]; exact hdraws) f
  refine ⟨Xs, _, res, hs, ha, fun j => ?_⟩
  have hlo : lo' j = lo j := by simp [hlo']
  have hhi : hi' j = hi j := by simp [hhi']
  obtain ⟨h1, -, h3⟩ := hval j (by rw [hnum]; exact j.2)
  have hq : (X.drop skip).map (fdQuot lo' hi' delta f j) = rows.map (stepNum lo hi delta j G) := by
    rw [hdrop, List.map_map]
    apply List.map_congr_left
    intro x _
    simp only [Function.comp]
    unfold fdQuot stepNum
    rw [hlo, hhi, ofFn_getD, ofFn_set, hf, hf]
    rfl
  have hy : (X.drop skip).map f = rows.map G := by
    rw [hdrop, List.map_map]
    exact List.map_congr_left fun x _ => hf x
  rw [hq] at h1 h3
  rw [hy, hlo, hhi] at h3
  exact ⟨h1, h3⟩

/-- No step is lost. -/
theorem net_steps (v : ℕ → ℕ → ℕ) (hdir : ∀ i, i < 21201 → ∀ j, 1 ≤ j → j ≤ 31 → DirNum j (v i j)) (lo hi : Fin d → ℝ)
    (h : ∀ i, lo i < hi i) (hD : d ≤ 21201) (N skip s M : ℕ) (hs : 2 ^ s ≤ skip) (hM : N + skip ≤ 2 ^ M) (hM31 : M ≤ 31)
    (delta : ℝ) (hdelta : delta ≠ 0) (j : Fin d)
    (hz : ∀ q, s < q → q ≤ M → ¬ ZeroAtFraction (lo j) (hi j) q) (x : Fin d → ℝ) (hx : x ∈ netRows v lo hi skip N) :
    stepped (lo j) (hi j) delta (x j) ≠ x j := by
  obtain ⟨n, n1, n2, rfl⟩ := mem_netRows hx
  have hs0 : 0 < 2 ^ s := by positivity
  have hn0 : n ≠ 0 := by omega
  have hn31 : n < 2 ^ 31 := lt_of_lt_of_le (by omega) (Nat.pow_le_pow_right (by norm_num) hM31)
  obtain ⟨a, b⟩ := scaledPoint_inside v hdir lo hi h hD n (by omega) hn31 j
  refine stepped_ne ⟨a, b⟩ ?_ hdelta
  have hlM : Nat.log 2 n < M := Nat.log_lt_of_lt_pow hn0 (by omega)
  obtain ⟨p, e1, e2, e3⟩ := scaledPoint_fraction v hdir lo hi hD j (Nat.log 2 n) n (by omega)
    (Nat.pow_log_le_self 2 hn0) (Nat.lt_pow_succ_log_self (by norm_num) n)
  intro h0
  have hsl : s ≤ Nat.log 2 n := (Nat.le_log_iff_pow_le (by norm_num) hn0).mpr (by omega)
  exact hz _ (by omega) (by omega) ⟨p, e1, e2, by rw [← e3]; exact h0⟩

/-- **C138**, every value is finite: if at least `2 ^ s` rows are skipped, at most `2 ^ M` are used, and zero is not at a
fraction of the range of input `j` with denominator `2 ^ (s + 1)`, …, `2 ^ M`, then `vi` of input `j` is the mean of the
squared difference quotients, whatever the model. -/
theorem C138_finite (F : Ppf ℝ) (junk : Num ℝ) (bits : ℕ → ℕ) (lo hi : Fin d → ℝ) (h : ∀ i, lo i < hi i)
    (hD : d ≤ 21201) (pb : Problem ℝ) (hnum : pb.numVars = d)
    (hb : pb.bounds = boundsTable (List.ofFn fun i => (lo i, hi i))) (hdist : pb.dists = none) (N skip s M : ℕ)
    (hN : 0 < N) (hbits : N + skip ≤ 2 ^ bits (N + skip)) (hbits' : bits (N + skip) ≤ 31) (hs : 2 ^ s ≤ skip)
    (hM : N + skip ≤ 2 ^ M) (hM31 : M ≤ 31) (delta z conf : ℝ) (hdelta : delta ≠ 0) (hconf : 0 < conf ∧ conf < 1)
    (draws : Nat → List (List Nat)) (hdraws : ∀ j < d, ∀ r ∈ draws j, ∀ i ∈ r, i < N) (f : List ℝ → ℝ) (j : Fin d)
    (hz : ∀ q, s < q → q ≤ M → ¬ ZeroAtFraction (lo j) (hi j) q) :
    ∃ Xs pb' res, finiteDiffSample F (fun n D => sobolSequence directions (bits n) n D) junk pb N delta skip =
        .ok (Xs.map (·.map some), pb') ∧
      dgsmAnalyze Real.sqrt (Real.pi ^ 2) z conf pb' Xs (Xs.map f) draws = .ok res ∧
      ∃ w, res.vi[(j : Nat)]? = some (some w) ∧ 0 ≤ w := by
  obtain ⟨v, hdir, heq, -⟩ := sobolSequence_counts (α := ℝ)
  obtain ⟨Xs, pb', res, h1, h2, h3⟩ := net_run F junk lo hi h j.pos pb hnum hb hdist
    (fun n D => sobolSequence directions (bits n) n D) v N skip (heq _ _ d (by omega) hbits hbits' hD) delta z conf hconf
    draws hdraws f (fun x => f (List.ofFn x)) fun _ => rfl
  refine ⟨Xs, pb', res, h1, h2, rowMean (netRows v lo hi skip N) fun x => stepQuot lo hi delta j (fun x => f (List.ofFn x)) x ^ 2, ?_, ?_⟩
  · rw [(h3 j).1]
    have : (netRows v lo hi skip N).map (stepNum lo hi delta j fun x => f (List.ofFn x)) =
        ((netRows v lo hi skip N).map fun x => stepQuot lo hi delta j (fun x => f (List.ofFn x)) x ^ 2).map some := by
      rw [List.map_map]
      exact List.map_congr_left fun x hx =>
        stepNum_some lo hi delta j _ x (net_steps v hdir lo hi h hD N skip s M hs hM hM31 delta hdelta j hz x hx)
    rw [this, npMeanN_some _ (by simp [netRows]; omega), List.length_map]
    rfl
  · unfold rowMean
    refine div_nonneg (List.sum_nonneg fun y hy => ?_) (by positivity)
    obtain ⟨x, -, rfl⟩ := List.mem_map.mp hy
    positivity

theorem npMeanN_none {l : List (Num ℝ)} (hl : none ∈ l) : npMeanN l = none := by
  cases hm : npMeanN l with
  | none => rfl
  | some m =>
    obtain ⟨l', rfl, -, -⟩ := npMeanN_eq_some l m hm
    simp at hl

/-- **C138**, a lost step: if zero is at a fraction of the range of input `j` with denominator `2 ^ q` and the rows used
include `2 ^ (q - 1)`, …, `2 ^ q - 1`, then `vi` and `dgsm` of input `j` are not finite, whatever the model and the
step. -/
theorem C138_lost (F : Ppf ℝ) (junk : Num ℝ) (bits : ℕ → ℕ) (lo hi : Fin d → ℝ) (h : ∀ i, lo i < hi i)
    (hD : d ≤ 21201) (pb : Problem ℝ) (hnum : pb.numVars = d)
    (hb : pb.bounds = boundsTable (List.ofFn fun i => (lo i, hi i))) (hdist : pb.dists = none) (N skip q : ℕ)
    (hN : 0 < N) (hbits : N + skip ≤ 2 ^ bits (N + skip)) (hbits' : bits (N + skip) ≤ 31) (hq : 1 ≤ q)
    (hs : skip ≤ 2 ^ (q - 1)) (hM : 2 ^ q ≤ N + skip) (delta z conf : ℝ) (hconf : 0 < conf ∧ conf < 1)
    (draws : Nat → List (List Nat)) (hdraws : ∀ j < d, ∀ r ∈ draws j, ∀ i ∈ r, i < N) (f : List ℝ → ℝ) (j : Fin d)
    (hz : ZeroAtFraction (lo j) (hi j) q) :
    ∃ Xs pb' res, finiteDiffSample F (fun n D => sobolSequence directions (bits n) n D) junk pb N delta skip =
        .ok (Xs.map (·.map some), pb') ∧
      dgsmAnalyze Real.sqrt (Real.pi ^ 2) z conf pb' Xs (Xs.map f) draws = .ok res ∧
      res.vi[(j : Nat)]? = some none ∧ res.dgsm[(j : Nat)]? = some none := by
  obtain ⟨v, hdir, heq, -⟩ := sobolSequence_counts (α := ℝ)
  obtain ⟨Xs, pb', res, h1, h2, h3⟩ := net_run F junk lo hi h j.pos pb hnum hb hdist
    (fun n D => sobolSequence directions (bits n) n D) v N skip (heq _ _ d (by omega) hbits hbits' hD) delta z conf hconf
    draws hdraws f (fun x => f (List.ofFn x)) fun _ => rfl
  obtain ⟨p, p1, p2, p3⟩ := hz
  obtain ⟨q, rfl⟩ : ∃ q', q = q' + 1 := ⟨q - 1, by omega⟩
  have hq31 : q < 31 := by
    have : 2 ^ (q + 1) ≤ 2 ^ 31 := hM.trans (hbits.trans (Nat.pow_le_pow_right (by norm_num) hbits'))
    have := (Nat.pow_le_pow_iff_right (by norm_num : 1 < 2)).mp this
    omega
  have hj := j.2
  obtain ⟨n, n1, n2, n3⟩ := xSeq_hit (v (0 + j)) (hdir _ (by omega)) q p hq31 p1 p2
  rw [Nat.add_sub_cancel] at hs
  have hx0 : scaledPoint v lo hi 0 n j = 0 := by
    have hp := pow31_split q hq31
    rw [← p3]
    unfold scaledPoint
    rw [n3, hp]
    push_cast
    field_simp
    ring
  have hmem : none ∈ (netRows v lo hi skip N).map (stepNum lo hi delta j fun x => f (List.ofFn x)) := by
    refine List.mem_map.mpr ⟨scaledPoint v lo hi 0 n, ?_, ?_⟩
    · exact List.mem_map.mpr ⟨n - skip, List.mem_range.mpr (by omega), by rw [show skip + (n - skip) = n by omega]⟩
    · have h31 : 2 ^ (q + 1) ≤ 2 ^ 31 := Nat.pow_le_pow_right (by norm_num) hq31
      have hbox := scaledPoint_inBox v hdir lo hi h hD n (n2.trans_le h31) j
      apply stepNum_none
      rw [hx0] at hbox ⊢
      unfold stepped
      rw [zero_mul, min_eq_left hbox.2, max_eq_left hbox.1]
  refine ⟨Xs, pb', res, h1, h2, ?_, ?_⟩
  · rw [(h3 j).1, npMeanN_none hmem]
  · rw [(h3 j).2, npMeanN_none hmem]
    cases npVar ((netRows v lo hi skip N).map fun x => f (List.ofFn x)) <;> rfl

/-- **C138**, no row skipped: the first base point has every input at its lower bound, where the step is lost if that
bound is zero, or negative and the step positive. -/
theorem C138_first_row (F : Ppf ℝ) (junk : Num ℝ) (bits : ℕ → ℕ) (lo hi : Fin d → ℝ) (h : ∀ i, lo i < hi i)
    (hD : d ≤ 21201) (pb : Problem ℝ) (hnum : pb.numVars = d)
    (hb : pb.bounds = boundsTable (List.ofFn fun i => (lo i, hi i))) (hdist : pb.dists = none) (N : ℕ)
    (hN : 0 < N) (hbits : N ≤ 2 ^ bits N) (hbits' : bits N ≤ 31) (delta z conf : ℝ) (hdelta : 0 < delta)
    (hconf : 0 < conf ∧ conf < 1)
    (draws : Nat → List (List Nat)) (hdraws : ∀ j < d, ∀ r ∈ draws j, ∀ i ∈ r, i < N) (f : List ℝ → ℝ) (j : Fin d)
    (hz : lo j ≤ 0) :
    ∃ Xs pb' res, finiteDiffSample F (fun n D => sobolSequence directions (bits n) n D) junk pb N delta 0 =
        .ok (Xs.map (·.map some), pb') ∧
      dgsmAnalyze Real.sqrt (Real.pi ^ 2) z conf pb' Xs (Xs.map f) draws = .ok res ∧
      res.vi[(j : Nat)]? = some none ∧ res.dgsm[(j : Nat)]? = some none := by
  obtain ⟨v, hdir, heq, -⟩ := sobolSequence_counts (α := ℝ)
  obtain ⟨Xs, pb', res, h1, h2, h3⟩ := net_run F junk lo hi h j.pos pb hnum hb hdist
    (fun n D => sobolSequence directions (bits n) n D) v N 0 (heq _ _ d (by omega) hbits hbits' hD) delta z conf hconf
    draws hdraws f (fun x => f (List.ofFn x)) fun _ => rfl
  have hmem : none ∈ (netRows v lo hi 0 N).map (stepNum lo hi delta j fun x => f (List.ofFn x)) := by
    refine List.mem_map.mpr ⟨scaledPoint v lo hi 0 0, ?_, ?_⟩
    · exact List.mem_map.mpr ⟨0, List.mem_range.mpr hN, rfl⟩
    · apply stepNum_none
      have hx0 : scaledPoint v lo hi 0 0 j = lo j := by simp [scaledPoint, xSeq]
      rw [hx0]
      unfold stepped
      have : lo j * (1 + delta) ≤ lo j := by nlinarith
      exact max_eq_right ((min_le_left _ _).trans this)
  refine ⟨Xs, pb', res, h1, h2, ?_, ?_⟩
  · rw [(h3 j).1, npMeanN_none hmem]
  · rw [(h3 j).2, npMeanN_none hmem]
    cases npVar ((netRows v lo hi 0 N).map fun x => f (List.ofFn x)) <;> rfl

theorem sq_near {a b K e : ℝ} (ha : |a| ≤ K) (hb : |b| ≤ K) (h : |a - b| ≤ e) : |a ^ 2 - b ^ 2| ≤ 2 * K * e := by
  have e1 : a ^ 2 - b ^ 2 = (a + b) * (a - b) := by ring
  rw [e1, abs_mul]
  have h1 : |a + b| ≤ 2 * K := (abs_add_le a b).trans (by linarith)
  exact mul_le_mul h1 h (abs_nonneg _) ((abs_nonneg _).trans h1)

theorem variesAtMost_sq {lo hi : Fin d → ℝ} (h : ∀ i, lo i < hi i) {k : Fin d → Nat} {δ K : ℝ} {G : (Fin d → ℝ) → ℝ}
    (hK : ∀ x, InBox lo hi x → |G x| ≤ K) (hv : VariesAtMost lo hi k δ G) :
    VariesAtMost lo hi k (2 * K * δ) fun x => G x ^ 2 := by
  intro i hi' x y hx hy
  have inb : ∀ z, GridBox lo hi k i z → InBox lo hi z := by
    intro z hz j
    obtain ⟨a, b⟩ := hz j
    have hw : 0 < hi j - lo j := by linarith [h j]
    have hp : (0 : ℝ) < 2 ^ k j := by positivity
    have h1 : (0 : ℝ) ≤ (i j : ℝ) / 2 ^ k j := by positivity
    have h2 : ((i j : ℝ) + 1) / 2 ^ k j ≤ 1 := by
      rw [div_le_one hp]
      exact_mod_cast hi' j
    constructor
    · nlinarith
    · nlinarith
  exact sq_near (hK x (inb x hx)) (hK y (inb y hy)) (hv i hi' x y hx hy)

theorem netMean_near {β : Type} (rows : List β) (hr : rows ≠ []) (a b : β → ℝ) (e : ℝ)
    (h : ∀ x ∈ rows, |a x - b x| ≤ e) : |rowMean rows a - rowMean rows b| ≤ e := by
  have hl : (0 : ℝ) < rows.length := by exact_mod_cast List.length_pos_of_ne_nil hr
  have key : |(rows.map a).sum - (rows.map b).sum| ≤ rows.length * e := by
    clear hr hl
    induction rows with
    | nil => simp
    | cons x l ih =>
      have h1 := abs_le.mp (ih fun y hy => h y (by simp [hy]))
      have h2 := abs_le.mp (h x (by simp))
      simp only [List.map_cons, List.sum_cons, List.length_cons, Nat.cast_add, Nat.cast_one]
      rw [abs_le]
      constructor <;> linarith
  unfold rowMean
  rw [← sub_div, abs_div, abs_of_pos hl, div_le_iff₀ hl]
  linarith

/-- **C138**, the numbers.  Divide the range of input `i` into `2 ^ k i` parts; the model is bounded by `K` and varies by
at most `δ` within a box, its derivative in input `j` is bounded by `K'`, varies by at most `δ'` within a box and changes
along input `j` by at most `c` per unit.  If `2 ^ m` divides the number of rows and of skipped rows, with `m` at least
the sum of the `k i` and the loss of the divided columns, then `vi` is within `2 K' (δ' + c M |delta|)` of the mean of the
squared derivative, and `dgsm` is within an explicit distance of the derivative-based index, hence above the total index
less that distance. -/
theorem C138_accuracy (F : Ppf ℝ) (junk : Num ℝ) (bits : ℕ → ℕ) (lo hi : Fin d → ℝ) (h : ∀ i, lo i < hi i)
    (hD : d ≤ 21201) (pb : Problem ℝ) (hnum : pb.numVars = d)
    (hb : pb.bounds = boundsTable (List.ofFn fun i => (lo i, hi i))) (hdist : pb.dists = none) (N skip s Mx : ℕ)
    (hN : 0 < N) (hbits : N + skip ≤ 2 ^ bits (N + skip)) (hbits' : bits (N + skip) ≤ 31) (hs : 2 ^ s ≤ skip)
    (hMx : N + skip ≤ 2 ^ Mx) (hMx31 : Mx ≤ 31) (delta z conf : ℝ) (hdelta : delta ≠ 0) (hconf : 0 < conf ∧ conf < 1)
    (draws : Nat → List (List Nat)) (hdraws : ∀ j < d, ∀ r ∈ draws j, ∀ i ∈ r, i < N) (j : Fin d)
    (hz : ∀ q, s < q → q ≤ Mx → ¬ ZeroAtFraction (lo j) (hi j) q) (k : Fin d → ℕ) (m : ℕ)
    (hm : netLoss directions (usedCols k) + ∑ i, k i ≤ m) (hdN : 2 ^ m ∣ N) (hds : 2 ^ m ∣ skip)
    (f : List ℝ → ℝ) (G G' : (Fin d → ℝ) → ℝ) (hf : ∀ x, f (List.ofFn x) = G x) (hGm : Measurable G)
    (hG'm : Measurable G') (hP : PartialDeriv lo hi j G G') (K K' δ δ' c M V : ℝ) (hK : ∀ x, InBox lo hi x → |G x| ≤ K)
    (hK' : ∀ x, InBox lo hi x → |G' x| ≤ K') (hv : VariesAtMost lo hi k δ G) (hv' : VariesAtMost lo hi k δ' G')
    (hc : SlopeAtMost lo hi j c G') (hc0 : 0 ≤ c) (hM1 : |lo j| ≤ M) (hM2 : |hi j| ≤ M)
    (hV : V = Var[G; Measure.pi fun i => unifOn (lo i) (hi i)]) (hlarge : 4 * K * δ < V) :
    ∃ Xs pb' res, finiteDiffSample F (fun n D => sobolSequence directions (bits n) n D) junk pb N delta skip =
        .ok (Xs.map (·.map some), pb') ∧
      dgsmAnalyze Real.sqrt (Real.pi ^ 2) z conf pb' Xs (Xs.map f) draws = .ok res ∧
      ReportedNear res.vi[(j : Nat)]? (∫ x, G' x ^ 2 ∂Measure.pi fun i => unifOn (lo i) (hi i))
        (2 * K' * (δ' + c * (M * |delta|))) ∧
      ∃ w, res.dgsm[(j : Nat)]? = some (some w) ∧
        |w - derivIndex lo hi j G G'| ≤ ((hi j - lo j) ^ 2 / Real.pi ^ 2 * (2 * K' * (δ' + c * (M * |delta|))) +
          derivIndex lo hi j G G' * (4 * K * δ)) / (V - 4 * K * δ) ∧
        totalIndex lo hi j G - ((hi j - lo j) ^ 2 / Real.pi ^ 2 * (2 * K' * (δ' + c * (M * |delta|))) +
          derivIndex lo hi j G G' * (4 * K * δ)) / (V - 4 * K * δ) ≤ w := by
  have := fun i => isProb_unifOn (h i)
  obtain ⟨v, hdir, heq, -⟩ := sobolSequence_counts (α := ℝ)
  have heq' := heq (bits (N + skip)) (N + skip) d (by omega) hbits hbits' hD
  obtain ⟨Xs, pb', res, h1, h2, h3⟩ := net_run F junk lo hi h j.pos pb hnum hb hdist
    (fun n D => sobolSequence directions (bits n) n D) v N skip heq' delta z conf hconf
    draws hdraws f G hf
  set rows := netRows v lo hi skip N with hrows
  set μ := Measure.pi fun i => unifOn (lo i) (hi i) with hμ
  have hrne : rows ≠ [] := by
    simp [hrows, netRows]; omega
  have hbox : ∀ x ∈ rows, InBox lo hi x := by
    intro x hx
    obtain ⟨n, -, n2, rfl⟩ := mem_netRows hx
    have h31 : (2 : ℕ) ^ Mx ≤ 2 ^ 31 := Nat.pow_le_pow_right (by norm_num) hMx31
    exact scaledPoint_inBox v hdir lo hi h hD n (by omega)
  have hstep := net_steps v hdir lo hi h hD N skip s Mx hs hMx hMx31 delta hdelta j hz
  have hGL := memLp_of_bounded h hGm hK
  have hG'L := memLp_of_bounded h hG'm hK'
  -- the mean of the squared quotients
  have hvi : |rowMean rows (fun x => stepQuot lo hi delta j G x ^ 2) - ∫ x, G' x ^ 2 ∂μ| ≤
      2 * K' * (δ' + c * (M * |delta|)) := by
    have a1 := netMean_near rows hrne (fun x => stepQuot lo hi delta j G x ^ 2) (fun x => G' x ^ 2)
      (2 * K' * (c * (M * |delta|))) (by
        intro x hx
        refine sq_near (abs_stepQuot_le j G G' hP K' hK' delta x (hbox x hx)) (hK' x (hbox x hx)) ?_
        refine (stepQuot_deriv lo hi j G G' hP c hc0 hc delta x (hbox x hx) (hstep x hx)).trans ?_
        refine mul_le_mul_of_nonneg_left ?_ hc0
        rw [abs_mul]
        refine mul_le_mul_of_nonneg_right ?_ (abs_nonneg _)
        obtain ⟨b1, b2⟩ := hbox x hx j
        have := abs_le.mp hM1
        have := abs_le.mp hM2
        rw [abs_le]
        constructor <;> linarith)
    have a2 := netRows_mean (bits (N + skip)) N skip hN hbits hbits' hD v heq' lo hi h k m hm hdN hds
      (fun x => G' x ^ 2) (hG'm.pow_const 2) _ (variesAtMost_sq h hK' hv') hG'L.integrable_sq
    have := abs_le.mp a1
    have := abs_le.mp a2
    rw [abs_le]
    constructor <;> linarith
  -- the variance
  have hGb : |rowMean rows G| ≤ K := by
    have := netMean_near rows hrne G (fun _ => 0) K fun x hx => by simpa using hK x (hbox x hx)
    simpa [rowMean] using this
  have hIb : |∫ x, G x ∂μ| ≤ K := by
    have := norm_integral_le_of_norm_le_const (μ := μ) (f := G) (C := K)
      ((ae_inBox h).mono fun x hx => by simpa using hK x hx)
    simpa using this
  have hvar : |rowMean rows (fun x => G x ^ 2) - rowMean rows G ^ 2 - V| ≤ 4 * K * δ := by
    have a1 := netRows_mean (bits (N + skip)) N skip hN hbits hbits' hD v heq' lo hi h k m hm hdN hds
      (fun x => G x ^ 2) (hGm.pow_const 2) _ (variesAtMost_sq h hK hv) hGL.integrable_sq
    have a2 := netRows_mean (bits (N + skip)) N skip hN hbits hbits' hD v heq' lo hi h k m hm hdN hds
      G hGm _ hv (hGL.integrable one_le_two)
    have a3 := abs_le.mp (sq_near hGb hIb a2)
    have a1 := abs_le.mp a1
    rw [hV, variance_eq_sub hGL]
    simp only [Pi.pow_apply]
    rw [abs_le]
    constructor <;> linarith
  have hV0 : 0 < V := by
    have : 0 ≤ 4 * K * δ := (abs_nonneg _).trans hvar
    linarith
  have hmean : npMeanN (rows.map (stepNum lo hi delta j G)) =
      some (rowMean rows fun x => stepQuot lo hi delta j G x ^ 2) := by
    have : rows.map (stepNum lo hi delta j G) = (rows.map fun x => stepQuot lo hi delta j G x ^ 2).map some := by
      rw [List.map_map]
      exact List.map_congr_left fun x hx => stepNum_some lo hi delta j _ x (hstep x hx)
    rw [this, npMeanN_some _ (by simpa using hrne), List.length_map]
    rfl
  have hder : derivIndex lo hi j G G' = (hi j - lo j) ^ 2 / Real.pi ^ 2 * (∫ x, G' x ^ 2 ∂μ) / V := by
    unfold derivIndex
    rw [← hμ, ← hV]
    have := hV0.ne'
    have := Real.pi_ne_zero
    field_simp
  have hw2 : 0 ≤ (hi j - lo j) ^ 2 / Real.pi ^ 2 := by positivity
  have hnum' : |(hi j - lo j) ^ 2 / Real.pi ^ 2 * (rowMean rows fun x => stepQuot lo hi delta j G x ^ 2) -
      (hi j - lo j) ^ 2 / Real.pi ^ 2 * ∫ x, G' x ^ 2 ∂μ| ≤
        (hi j - lo j) ^ 2 / Real.pi ^ 2 * (2 * K' * (δ' + c * (M * |delta|))) := by
    rw [← mul_sub, abs_mul, abs_of_nonneg hw2]
    exact mul_le_mul_of_nonneg_left hvi hw2
  have hI0 : 0 ≤ ∫ x, G' x ^ 2 ∂μ := integral_nonneg fun x => by positivity
  obtain ⟨q1, q2⟩ := quotient_near hnum' hvar hlarge (c := derivIndex lo hi j G G') (by
    rw [abs_of_nonneg (mul_nonneg hw2 hI0), hder, div_mul_cancel₀ _ hV0.ne'])
  rw [← hder] at q2
  refine ⟨Xs, pb', res, h1, h2, ⟨_, by rw [(h3 j).1, hmean], hvi⟩, _, ?_, q2, ?_⟩
  · rw [(h3 j).2, hmean, npVar_rows rows hrne G]
    simp only [Option.bind_some]
    rw [npDiv_some _ _ (mul_ne_zero q1 (by positivity))]
    refine congrArg (fun r => some (some r)) ?_
    generalize rowMean rows (fun x => stepQuot lo hi delta j G x ^ 2) = a at *
    generalize rowMean rows (fun x => G x ^ 2) - rowMean rows G ^ 2 = b at *
    rw [mul_comm a, div_mul_eq_mul_div, div_div, mul_comm b]
  · have hle := C98_derivative lo hi h G G' hGm hG'm hG'L j hP
    have := abs_le.mp q2
    linarith

/-- The hypotheses of `C138_finite` are met with the default number of skipped rows and symmetric bounds, for any
number of rows. -/
example (b : ℝ) (hb : 0 < b) (q : ℕ) (hq : 10 < q) : ¬ ZeroAtFraction (-b) b q := by
  rintro ⟨p, h1, -, h3⟩
  have hp : (0 : ℝ) < 2 ^ q := by positivity
  have h4 : (2 : ℝ) * p = 2 ^ q := by
    field_simp at h3
    nlinarith
  have h5 : 2 * p = 2 ^ q := by exact_mod_cast h4
  obtain ⟨r, rfl⟩ : ∃ r, q = r + 2 := ⟨q - 2, by omega⟩
  rw [show 2 ^ (r + 2) = 4 * 2 ^ r by ring] at h5
  omega

/-- A lost step with the default number of skipped rows: bounds -1 and 2047, 1024 rows. -/
example : ZeroAtFraction (-1) 2047 11 ∧ 1024 ≤ 2 ^ (11 - 1) ∧ 2 ^ 11 ≤ 1024 + 1024 := by
  refine ⟨⟨1, rfl, by norm_num, by norm_num⟩, by norm_num, by norm_num⟩

/-- **C138**, an instance: the squared distance from 101 between 100 and 101, for which the default step gives a `dgsm`
below the total index (`C98_step_fail`).  With the step `10 ^ -6`, 1024 rows and the default number of skipped rows the
reported `dgsm` is above the total index, which is 1. -/
theorem C138_instance (F : Ppf ℝ) (junk : Num ℝ) (z : ℝ) (draws : Nat → List (List Nat))
    (hdraws : ∀ j < 1, ∀ r ∈ draws j, ∀ i ∈ r, i < 1024) :
    ∃ Xs pb' res, finiteDiffSample F (fun n D => sobolSequence directions (Nat.clog 2 n) n D) junk
        { names := ["x"], bounds := [[100, 101]] } 1024 (1 / 1000000) 1024 = .ok (Xs.map (·.map some), pb') ∧
      dgsmAnalyze Real.sqrt (Real.pi ^ 2) z (19 / 20) pb' Xs (Xs.map fun row => (row.getD 0 0 - 101) ^ 2) draws = .ok res ∧
      ∃ w, res.dgsm[0]? = some (some w) ∧ 1 < w := by
  have hbx : ∀ x : Fin 1 → ℝ, InBox (fun _ => 100) (fun _ => 101) x → -1 ≤ x 0 - 101 ∧ x 0 - 101 ≤ 0 := by
    intro x hx
    have := hx 0
    constructor <;> linarith [this.1, this.2]
  have hcell : ∀ (i : Fin 1 → ℕ), (∀ j, i j < 2 ^ 10) → ∀ x y : Fin 1 → ℝ,
      GridBox (fun _ => 100) (fun _ => 101) (fun _ => 10) i x → GridBox (fun _ => 100) (fun _ => 101) (fun _ => 10) i y →
      |x 0 - y 0| ≤ 1 / 1024 ∧ (-1 ≤ x 0 - 101 ∧ x 0 - 101 ≤ 0) ∧ -1 ≤ y 0 - 101 ∧ y 0 - 101 ≤ 0 := by
    intro i hi x y hx hy
    obtain ⟨a, b⟩ := hx 0
    obtain ⟨a', b'⟩ := hy 0
    have h0 : (0 : ℝ) ≤ i 0 := by positivity
    have h1 : (i 0 : ℝ) + 1 ≤ 1024 := by
      have := hi 0
      norm_num at this
      exact_mod_cast this
    norm_num at a b a' b'
    refine ⟨?_, ⟨?_, ?_⟩, ?_, ?_⟩
    · rw [abs_le]; constructor <;> linarith
    all_goals linarith
  obtain ⟨Xs, pb', res, h1, h2, -, w, h3, h4, -⟩ := C138_accuracy F junk (Nat.clog 2) (fun _ : Fin 1 => 100) (fun _ => 101)
    (fun _ => by norm_num) (by norm_num) { names := ["x"], bounds := [[100, 101]] } rfl (by simp [boundsTable]) rfl 1024
    1024 10 11 (by norm_num) (Nat.le_pow_clog (by norm_num) _)
    (by
      have : Nat.clog 2 (1024 + 1024) ≤ 11 := (Nat.clog_le_iff_le_pow (by norm_num)).mpr (by norm_num)
      omega) (by norm_num) (by norm_num) (by norm_num) (1 / 1000000) z (19 / 20) (by norm_num) (by norm_num)
    draws hdraws 0
    (by
      rintro q - - ⟨p, -, -, hp⟩
      have : (0 : ℝ) ≤ (101 - 100) * ((p : ℝ) / 2 ^ q) := by
        have : (0 : ℝ) ≤ (p : ℝ) / 2 ^ q := by positivity
        linarith
      linarith)
    (fun _ => 10) 10
    (by
      have e : usedCols (fun _ : Fin 1 => 10) = {0} := by decide
      rw [e, Fin.sum_univ_one]
      have : netLoss directions {0} = 0 := by
        unfold netLoss
        rw [Finset.sum_singleton]
        rfl
      omega) (by norm_num) (by norm_num)
    (fun row => (row.getD 0 0 - 101) ^ 2) parabola (fun x => 2 * (x 0 - 101)) (fun x => by simp [parabola])
    measurable_parabola (by fun_prop)
    { deriv := by
        intro x _
        have hd : HasDerivAt (fun t : ℝ => (t - 101) ^ 2) (2 * (x 0 - 101)) (x 0) := by
          have := ((hasDerivAt_id (x 0)).sub_const 101).pow 2
          simp only [id, Nat.cast_ofNat, Nat.add_one_sub_one, pow_one, mul_one] at this
          exact this
        have e : (fun t => parabola (setInput x 0 t)) = fun t : ℝ => (t - 101) ^ 2 := by
          funext t
          simp [parabola, setInput]
        rw [e]
        exact hd.hasDerivWithinAt
      cont := by
        intro x _
        simp only [setInput_at]
        fun_prop }
    1 2 (2 / 1024) (2 / 1024) 2 101 (4 / 45)
    (by
      intro x hx
      obtain ⟨a, b⟩ := hbx x hx
      unfold parabola
      rw [abs_of_nonneg (sq_nonneg _)]
      nlinarith)
    (by
      intro x hx
      obtain ⟨a, b⟩ := hbx x hx
      rw [abs_le]
      constructor <;> linarith)
    (by
      intro i hi x y hx hy
      obtain ⟨a, b, c⟩ := hcell i hi x y hx hy
      have := sq_near (K := 1) (abs_le.mpr ⟨b.1, by linarith [b.2]⟩) (abs_le.mpr ⟨c.1, by linarith [c.2]⟩)
        (show |x 0 - 101 - (y 0 - 101)| ≤ 1 / 1024 by rw [sub_sub_sub_cancel_right]; exact a)
      unfold parabola
      linarith)
    (by
      intro i hi x y hx hy
      obtain ⟨a, -, -⟩ := hcell i hi x y hx hy
      rw [← mul_sub, sub_sub_sub_cancel_right, abs_mul, abs_two]
      linarith)
    (by
      intro x _ t _ _
      simp only [setInput_at]
      rw [← mul_sub, sub_sub_sub_cancel_right, abs_mul, abs_two])
    (by norm_num) (by norm_num) (by norm_num) variance_parabola.symm (by norm_num)
  refine ⟨Xs, pb', res, h1, h2, w, h3, ?_⟩
  have hint : ∫ x : Fin 1 → ℝ, (2 * (x 0 - 101)) ^ 2 ∂(Measure.pi fun _ : Fin 1 => unifOn 100 101) = 4 / 3 := by
    rw [integral_one (fun t => (2 * (t - 101)) ^ 2) (by fun_prop)]
    simp only [mul_pow]
    rw [intervalIntegral.integral_const_mul, integral_distance]
    norm_num
  have hder : derivIndex (fun _ : Fin 1 => 100) (fun _ => 101) 0 parabola (fun x => 2 * (x 0 - 101)) = 15 / Real.pi ^ 2 := by
    unfold derivIndex
    rw [hint, variance_parabola]
    have := Real.pi_ne_zero
    field_simp
    norm_num
  rw [hder] at h4
  have h5 := (abs_le.mp h4).1
  have hpi : (0 : ℝ) < Real.pi ^ 2 := by positivity
  have hpi' : Real.pi ^ 2 < 10 := by nlinarith [Real.pi_lt_d2, Real.pi_pos]
  have hr : 1 / 10 < 1 / Real.pi ^ 2 := one_div_lt_one_div_of_lt hpi hpi'
  rw [show (15 : ℝ) / Real.pi ^ 2 = 15 * (1 / Real.pi ^ 2) by ring,
    show ((101 : ℝ) - 100) ^ 2 / Real.pi ^ 2 = 1 / Real.pi ^ 2 by norm_num] at h5
  generalize 1 / Real.pi ^ 2 = r at h5 hr
  norm_num at h5
  linarith

end SALib
