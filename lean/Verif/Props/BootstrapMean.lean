import Verif.Props.FastConf
import Verif.Props.Dgsm
import Mathlib.Algebra.Order.Chebyshev

/-! # C120: the bootstraps of Morris and DGSM, averaged over all draws -/

namespace SALib
open Spec

/-- The population variance over a finite space of equally likely outcomes. -/
noncomputable def Spec.varOn {Ω : Type} [Fintype Ω] (g : Ω → ℝ) : ℝ :=
  (∑ t, (g t - (∑ s, g s) / Fintype.card Ω) ^ 2) / Fintype.card Ω

theorem sum_centred {Ω : Type} [Fintype Ω] [Nonempty Ω] (g : Ω → ℝ) :
    ∑ t, (g t - (∑ s, g s) / Fintype.card Ω) = 0 := by
  have : (Fintype.card Ω : ℝ) ≠ 0 := by exact_mod_cast Fintype.card_ne_zero
  rw [Finset.sum_sub_distrib]
  simp only [Finset.sum_const, Finset.card_univ, nsmul_eq_mul]
  field_simp
  ring

/-- The variance of the mean of `n` draws is the variance divided by `n`. -/
theorem varOn_mean {N n : Nat} (hN : 0 < N) (hn : 0 < n) (f : Fin N → ℝ) :
    (∑ d : Fin n → Fin N, (∑ i, f (d i)) / n) / (N : ℝ) ^ n = (∑ t, f t) / N ∧
    varOn (fun d : Fin n → Fin N => (∑ i, f (d i)) / n) = popVar f / n := by
  have hNr : (0 : ℝ) < N := by exact_mod_cast hN
  have hnr : (0 : ℝ) < n := by exact_mod_cast hn
  have : Nonempty (Fin N) := ⟨⟨0, hN⟩⟩
  set m := (∑ s, f s) / N with hm
  have hz : ∑ t, (f t - m) = 0 := by
    have := sum_centred f
    rwa [Fintype.card_fin] at this
  obtain ⟨h1, h2⟩ := sum_draws_sq (fun t => f t - m) hz n (fun _ => 1 / (n : ℝ))
  have hd : ∀ d : Fin n → Fin N, ∑ i, 1 / (n : ℝ) * (f (d i) - m) = (∑ i, f (d i)) / n - m := by
    intro d
    rw [← Finset.mul_sum, Finset.sum_sub_distrib]
    simp only [Finset.sum_const, Finset.card_univ, Fintype.card_fin, nsmul_eq_mul]
    field_simp
  simp only [hd] at h1 h2
  have hmean : (∑ d : Fin n → Fin N, (∑ i, f (d i)) / n) / (N : ℝ) ^ n = m := by
    rw [Finset.sum_sub_distrib] at h1
    simp only [Finset.sum_const, Finset.card_univ, Fintype.card_fun, Fintype.card_fin, nsmul_eq_mul] at h1
    push_cast at h1
    rw [div_eq_iff (by positivity)]
    linarith
  refine ⟨hmean, ?_⟩
  unfold varOn
  simp only [Fintype.card_fun, Fintype.card_fin, Nat.cast_pow, hmean]
  rw [Fintype.card_fin] at h2
  have h3 : ∑ i : Fin n, (1 / (n : ℝ)) ^ 2 = 1 / (n : ℝ) := by
    simp only [Finset.sum_const, Finset.card_univ, Fintype.card_fin, nsmul_eq_mul]
    field_simp
  rw [h3] at h2
  unfold popVar
  rw [← hm, div_eq_iff (by positivity)]
  apply mul_left_cancel₀ hNr.ne'
  rw [h2]
  field_simp

/-- The sample variance with `ddof=1`. -/
noncomputable def Spec.drawVar {R : Nat} (x : Fin R → ℝ) : ℝ :=
  (∑ r, (x r - (∑ s, x s) / R) ^ 2) / ((R : ℝ) - 1)

/-- The sample variance of independent draws is the variance, on average. -/
theorem mean_drawVar {Ω : Type} [Fintype Ω] [Nonempty Ω] (g : Ω → ℝ) {R : Nat} (hR : 2 ≤ R) :
    (∑ d : Fin R → Ω, drawVar (g ∘ d)) / (Fintype.card Ω : ℝ) ^ R = varOn g := by
  have hc : (0 : ℝ) < Fintype.card Ω := by exact_mod_cast Fintype.card_pos
  have hR1 : (0 : ℝ) < (R : ℝ) - 1 := by
    have : (2 : ℝ) ≤ R := by exact_mod_cast hR
    linarith
  have hRr : (0 : ℝ) < R := by linarith
  set m := (∑ s, g s) / Fintype.card Ω with hm
  have hz := sum_centred g
  rw [← hm] at hz
  set S := ∑ t, (g t - m) ^ 2 with hS
  have hsplit : ∀ d : Fin R → Ω, ∑ r, ((g ∘ d) r - (∑ s, (g ∘ d) s) / R) ^ 2 =
      ∑ r, (g (d r) - m) ^ 2 - (∑ r, 1 * (g (d r) - m)) ^ 2 / R := by
    intro d
    simp only [one_mul, Function.comp]
    set a := ∑ r, (g (d r) - m) with ha
    have h1 : (∑ s, g (d s)) / R = m + a / R := by
      rw [ha, Finset.sum_sub_distrib]
      simp only [Finset.sum_const, Finset.card_univ, Fintype.card_fin, nsmul_eq_mul]
      field_simp
      ring
    rw [h1]
    have h2 : ∀ r, (g (d r) - (m + a / R)) ^ 2 = (g (d r) - m) ^ 2 - 2 * (a / R) * (g (d r) - m) + (a / R) ^ 2 := by
      intro r; ring
    rw [Finset.sum_congr rfl fun r _ => h2 r, Finset.sum_add_distrib, Finset.sum_sub_distrib, ← Finset.mul_sum, ← ha]
    simp only [Finset.sum_const, Finset.card_univ, Fintype.card_fin, nsmul_eq_mul]
    field_simp
    ring
  have hone : ∀ r : Fin R, (Fintype.card Ω : ℝ) * ∑ d : Fin R → Ω, (g (d r) - m) ^ 2 =
      (Fintype.card Ω : ℝ) ^ R * S := by
    intro r
    have := (sum_draws_sq (fun t => g t - m) hz R (fun i => if i = r then 1 else 0)).2
    simpa using this
  have hall := (sum_draws_sq (fun t => g t - m) hz R (fun _ => 1)).2
  rw [show (∑ _i : Fin R, (1 : ℝ) ^ 2) = R by simp] at hall
  unfold drawVar varOn
  rw [← Finset.sum_div, Finset.sum_congr rfl fun d _ => hsplit d, Finset.sum_sub_distrib, ← Finset.sum_div,
    Finset.sum_comm, ← hm, ← hS]
  have htot : (Fintype.card Ω : ℝ) * ∑ r : Fin R, ∑ d : Fin R → Ω, (g (d r) - m) ^ 2 =
      R * ((Fintype.card Ω : ℝ) ^ R * S) := by
    rw [Finset.mul_sum, Finset.sum_congr rfl fun r _ => hone r]
    simp
  have hP : (0 : ℝ) < (Fintype.card Ω : ℝ) ^ R := by positivity
  rw [div_div, div_eq_div_iff (by positivity) hc.ne']
  rw [sub_mul, mul_comm _ (Fintype.card Ω : ℝ), htot, div_mul_eq_mul_div, mul_comm _ (Fintype.card Ω : ℝ), hall, ← hS]
  field_simp

theorem mapM_id_ofFn {n : Nat} (v : Fin n → ℝ) : (List.ofFn fun i => some (v i)).mapM id = some (List.ofFn v) := by
  induction n with
  | zero => rfl
  | succ n ih =>
    rw [List.ofFn_succ, List.ofFn_succ, List.mapM_cons, ih]
    rfl

theorem npMeanN_ofFn {n : Nat} (hn : 0 < n) (v : Fin n → ℝ) :
    npMeanN (List.ofFn fun i => some (v i)) = some ((∑ i, v i) / n) := by
  have hnr : (n : ℝ) ≠ 0 := by exact_mod_cast hn.ne'
  unfold npMeanN
  rw [mapM_id_ofFn]
  unfold npMean npDiv
  simp [List.sum_ofFn, hn.ne']

theorem npStd1N_ofFn {R : Nat} (hR : 2 ≤ R) (v : Fin R → ℝ) :
    npStd1N Real.sqrt (List.ofFn fun i => some (v i)) = some (Real.sqrt (drawVar v)) := by
  have hR1 : ((R : ℝ) - 1) ≠ 0 := by
    have : (2 : ℝ) ≤ R := by exact_mod_cast hR
    linarith
  have hnr : (R : ℝ) ≠ 0 := by exact_mod_cast (by omega : R ≠ 0)
  unfold npStd1N
  rw [mapM_id_ofFn]
  have hm : npMean (List.ofFn v) = some ((∑ s, v s) / R) := by
    unfold npMean npDiv
    simp only [List.sum_ofFn, List.length_ofFn, if_neg hnr]
  have hs : npDiv (((List.ofFn v).map fun x => (x - (∑ s, v s) / R) ^ 2).sum) (((List.ofFn v).length : ℝ) - 1) =
      some (drawVar v) := by
    unfold npDiv drawVar
    simp only [List.map_ofFn, List.sum_ofFn, List.length_ofFn, if_neg hR1, Function.comp]
  change npStd1 Real.sqrt (List.ofFn v) = _
  unfold npStd1
  rw [hm]
  change (npDiv _ _ >>= _) = _
  rw [hs]
  rfl

theorem drawVar_nonneg {R : Nat} (hR : 2 ≤ R) (v : Fin R → ℝ) : 0 ≤ drawVar v := by
  have : (2 : ℝ) ≤ R := by exact_mod_cast hR
  unfold drawVar
  apply div_nonneg
  · exact Finset.sum_nonneg fun _ _ => sq_nonneg _
  · linarith

theorem sum_sq_conf {N n R : Nat} (hN : 0 < N) (hn : 0 < n) (hR : 2 ≤ R) (z : ℝ) (f : Fin N → ℝ) :
    (∑ draws : Fin R → Fin n → Fin N, (z * Real.sqrt (drawVar fun r => (∑ i, f (draws r i)) / n)) ^ 2) /
      ((N : ℝ) ^ n) ^ R = z ^ 2 * (popVar f / n) := by
  have : Nonempty (Fin N) := ⟨⟨0, hN⟩⟩
  have h := mean_drawVar (fun d : Fin n → Fin N => (∑ i, f (d i)) / n) hR
  rw [(varOn_mean hN hn f).2] at h
  simp only [Fintype.card_fun, Fintype.card_fin, Nat.cast_pow] at h
  rw [← h, ← mul_div_assoc, Finset.mul_sum]
  congr 1
  apply Finset.sum_congr rfl
  intro d _
  rw [mul_pow, Real.sq_sqrt (drawVar_nonneg hR _)]
  rfl

/-- **C120** (Morris).  Averaged over all draws, the resampled `mu_star` is `mu_star`, and the square of
`mu_star_conf` is `z² v / N`, where `v` is the variance of the absolute effects of the `N` trajectories. -/
theorem C120_morris {N R : Nat} (hN : 0 < N) (hR : 2 ≤ R) (z : ℝ) (ee : Fin N → ℝ) :
    ∃ (ms : (Fin N → Fin N) → ℝ) (c : (Fin R → Fin N → Fin N) → ℝ),
      (∀ d : Fin N → Fin N, npMeanN ((List.ofFn fun i => (d i : Nat)).map fun i =>
        ((List.ofFn fun i => some (ee i)).getD i none).map abs) = some (ms d)) ∧
      (∀ draws, confOf Real.sqrt z (drawLists draws) (List.ofFn fun i => some (ee i)) = some (c draws)) ∧
      (∑ d, ms d) / (N : ℝ) ^ N = (∑ i, |ee i|) / N ∧
      (∑ draws, c draws ^ 2) / ((N : ℝ) ^ N) ^ R = z ^ 2 * (popVar (fun i => |ee i|) / N) := by
  have hms : ∀ d : Fin N → Fin N, npMeanN ((List.ofFn fun i => (d i : Nat)).map fun i =>
      ((List.ofFn fun i => some (ee i)).getD i none).map abs) = some ((∑ i, |ee (d i)|) / N) := by
    intro d
    rw [List.map_ofFn, ← npMeanN_ofFn hN]
    congr 1
    congr 1
    funext i
    simp [List.getD_eq_getElem?_getD]
  refine ⟨fun d => (∑ i, |ee (d i)|) / N, fun draws =>
    z * Real.sqrt (drawVar fun r => (∑ i, |ee (draws r i)|) / N), hms, ?_, ?_, ?_⟩
  · intro draws
    unfold confOf drawLists
    rw [List.map_ofFn]
    have : ((fun r => npMeanN (r.map fun i => ((List.ofFn fun i => some (ee i)).getD i none).map abs)) ∘
        fun r => List.ofFn fun i => (draws r i : Nat)) = fun r => some ((∑ i, |ee (draws r i)|) / N) := by
      funext r
      exact hms (draws r)
    rw [this, npStd1N_ofFn hR]
    rfl
  · exact (varOn_mean hN hN fun i => |ee i|).1
  · exact sum_sq_conf hN hN hR z fun i => |ee i|

/-- **C120** (DGSM).  Averaged over all draws, the resampled `vi` is `vi`, and the square of `dgsm_conf` is
`z² v / N`, where `v` is the variance of the squared difference quotients; the width of the range and the variance
of the output, which enter `dgsm`, do not. -/
theorem C120_dgsm {N R : Nat} (hN : 0 < N) (hR : 2 ≤ R) (z : ℝ) (base pert dx : Fin N → ℝ)
    (hdx : ∀ i, dx i ≠ 0) :
    ∃ (vi : (Fin N → Fin N) → ℝ) (c : (Fin R → Fin N → Fin N) → ℝ),
      (∀ d : Fin N → Fin N, calcViMean (List.ofFn (base ∘ d)) (List.ofFn (pert ∘ d)) (List.ofFn (dx ∘ d)) =
        some (vi d)) ∧
      (∀ pi2 b0 b1, ∃ g, ∀ draws, calcDgsm Real.sqrt pi2 z (List.ofFn base) (List.ofFn pert) (List.ofFn dx) [b0, b1]
        (drawLists draws) = .ok (g, some (c draws))) ∧
      (∑ d, vi d) / (N : ℝ) ^ N = (∑ i, ((pert i - base i) / dx i) ^ 2) / N ∧
      (∑ draws, c draws ^ 2) / ((N : ℝ) ^ N) ^ R =
        z ^ 2 * (popVar (fun i => ((pert i - base i) / dx i) ^ 2) / N) := by
  have hvi : ∀ d : Fin N → Fin N,
      calcViMean (List.ofFn (base ∘ d)) (List.ofFn (pert ∘ d)) (List.ofFn (dx ∘ d)) =
        some ((∑ i, ((pert (d i) - base (d i)) / dx (d i)) ^ 2) / N) := by
    intro d
    unfold calcViMean dfdxSq
    rw [← npMeanN_ofFn hN]
    congr 1
    apply List.ext_getElem (by simp)
    intro i h1 h2
    simp [npDiv, hdx]
  have htake : ∀ (l : Fin N → ℝ) (d : Fin N → Fin N),
      takeIdx (List.ofFn l) (List.ofFn fun i => (d i : Nat)) = List.ofFn (l ∘ d) := by
    intro l d
    unfold takeIdx
    rw [List.map_ofFn]
    congr 1
    funext i
    exact getD_ofFn_fin l (d i)
  refine ⟨fun d => (∑ i, ((pert (d i) - base (d i)) / dx (d i)) ^ 2) / N, fun draws =>
    z * Real.sqrt (drawVar fun r => (∑ i, ((pert (draws r i) - base (draws r i)) / dx (draws r i)) ^ 2) / N),
    hvi, ?_, ?_, ?_⟩
  · intro pi2 b0 b1
    refine ⟨(npVar (List.ofFn base)).bind fun D =>
      (calcViMean (List.ofFn base) (List.ofFn pert) (List.ofFn dx)).bind fun vi =>
        npDiv (vi * (b1 - b0) ^ 2) (D * pi2), fun draws => ?_⟩
    unfold calcDgsm drawLists
    rw [List.map_ofFn]
    have : ((fun r => calcViMean (takeIdx (List.ofFn base) r) (takeIdx (List.ofFn pert) r)
          (takeIdx (List.ofFn dx) r)) ∘ fun r => List.ofFn fun i => (draws r i : Nat)) =
        fun r => some ((∑ i, ((pert (draws r i) - base (draws r i)) / dx (draws r i)) ^ 2) / N) := by
      funext r
      simp only [Function.comp, htake]
      exact hvi (draws r)
    rw [this]
    change (Except.ok (_, Option.map (z * ·) (npStd1N Real.sqrt (List.ofFn _))) : Py _) = _
    rw [npStd1N_ofFn hR]
    rfl
  · exact (varOn_mean hN hN fun i => ((pert i - base i) / dx i) ^ 2).1
  · exact sum_sq_conf hN hN hR z fun i => ((pert i - base i) / dx i) ^ 2

/-- The variance with `ddof=0` falls short of the sample variance. -/
theorem popVar_eq_drawVar {N : Nat} (hN : 2 ≤ N) (f : Fin N → ℝ) :
    popVar f = ((N : ℝ) - 1) / N * drawVar f := by
  have : (2 : ℝ) ≤ N := by exact_mod_cast hN
  have h1 : ((N : ℝ) - 1) ≠ 0 := by linarith
  unfold popVar drawVar
  rw [div_mul_div_comm, mul_comm ((N : ℝ) - 1), mul_div_mul_right _ _ h1]

/-- **C120** (size).  On average the square of `mu_star_conf` is the share `(N - 1) / N` of the square of `z` standard
errors of `mu_star`, and `mu_star_conf` is, on average, below `z` standard errors; with one trajectory it is 0. -/
theorem C120_size {N R : Nat} (hN : 0 < N) (hR : 2 ≤ R) {z : ℝ} (hz : 0 ≤ z) (ee : Fin N → ℝ) :
    ∃ c : (Fin R → Fin N → Fin N) → ℝ,
      (∀ draws, confOf Real.sqrt z (drawLists draws) (List.ofFn fun i => some (ee i)) = some (c draws)) ∧
      (∀ draws, 0 ≤ c draws) ∧
      (2 ≤ N → (∑ draws, c draws ^ 2) / ((N : ℝ) ^ N) ^ R =
        ((N : ℝ) - 1) / N * (z * Real.sqrt (drawVar (fun i => |ee i|) / N)) ^ 2) ∧
      (2 ≤ N → (∑ draws, c draws) / ((N : ℝ) ^ N) ^ R ≤
        Real.sqrt (((N : ℝ) - 1) / N) * (z * Real.sqrt (drawVar (fun i => |ee i|) / N))) ∧
      (N = 1 → ∀ draws, c draws = 0) := by
  obtain ⟨ms, c, -, hc, -, hsq⟩ := C120_morris (R := R) hN hR z ee
  have hc0 : ∀ draws, 0 ≤ c draws := by
    intro draws
    have h := hc draws
    unfold confOf at h
    rw [Option.map_eq_some_iff] at h
    obtain ⟨s, hs, hsc⟩ := h
    rw [← hsc]
    apply mul_nonneg hz
    unfold npStd1N npStd1 at hs
    simp only [Option.bind_eq_bind, Option.bind_eq_some_iff, Option.pure_def, Option.some.injEq] at hs
    obtain ⟨_, _, _, _, _, _, rfl⟩ := hs
    exact Real.sqrt_nonneg _
  have hNr : (0 : ℝ) < N := by exact_mod_cast hN
  have hP : (0 : ℝ) < ((N : ℝ) ^ N) ^ R := by positivity
  have hsq2 : 2 ≤ N → (∑ draws, c draws ^ 2) / ((N : ℝ) ^ N) ^ R =
        ((N : ℝ) - 1) / N * (z * Real.sqrt (drawVar (fun i => |ee i|) / N)) ^ 2 := by
    intro h2
    rw [hsq, popVar_eq_drawVar h2, mul_pow, Real.sq_sqrt (div_nonneg (drawVar_nonneg h2 _) hNr.le)]
    ring
  refine ⟨c, hc, hc0, hsq2, ?_, ?_⟩
  · intro h2
    have h2r : (2 : ℝ) ≤ N := by exact_mod_cast h2
    have hA : 0 ≤ ((N : ℝ) - 1) / N := div_nonneg (by linarith) hNr.le
    apply le_of_sq_le_sq _ (by positivity)
    rw [mul_pow, Real.sq_sqrt hA, ← hsq2 h2]
    have hcs := sq_sum_le_card_mul_sum_sq (s := (Finset.univ : Finset (Fin R → Fin N → Fin N))) (f := c)
    rw [div_pow, div_le_div_iff₀ (by positivity) hP]
    simp only [Finset.card_univ, Fintype.card_fun, Fintype.card_fin] at hcs
    push_cast at hcs
    nlinarith [hcs, hP]
  · rintro rfl draws
    have : popVar (fun i : Fin 1 => |ee i|) = 0 := by
      unfold popVar
      simp
    rw [this] at hsq
    simp only [mul_zero, Nat.cast_one, one_pow, div_one] at hsq
    rw [Finset.sum_eq_zero_iff_of_nonneg fun _ _ => sq_nonneg _] at hsq
    exact pow_eq_zero_iff (two_ne_zero) |>.mp (hsq draws (Finset.mem_univ _))

example := C120_size (N := 3) (R := 100) (by norm_num) (by norm_num) (by norm_num : (0 : ℝ) ≤ 49 / 25) ![-1, 2, 4]

/-- Three trajectories with effects -1, 2, 4 and a hundred resamples. -/
example := C120_morris (N := 3) (R := 100) (by norm_num) (by norm_num) (49 / 25) ![-1, 2, 4]

example : popVar (fun i => |(![-1, 2, 4] : Fin 3 → ℝ) i|) = 14 / 9 := by
  unfold popVar
  simp [Fin.sum_univ_succ]
  norm_num

example := C120_dgsm (N := 2) (R := 100) (by norm_num) (by norm_num) (49 / 25) ![1, 2] ![2, 4] ![1 / 100, 1 / 50]
  (by intro i; fin_cases i <;> norm_num)

end SALib
