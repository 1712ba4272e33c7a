import Verif.Props.FastVariance
import Mathlib.Algebra.BigOperators.Fin
import Mathlib.Data.Fin.Tuple.Basic
import Mathlib.Data.List.FinRange
import Mathlib.SetTheory.Cardinal.Finite
import Mathlib.Data.Fintype.BigOperators
import Mathlib.Tactic.NormNum.Prime

/-! # C118: what the FAST confidence values measure

`bootstrap` draws half as many outputs as the block has, with replacement, and takes the Fourier transform of
the outputs in the order in which they were drawn.  The position of an output on the search curve is lost. -/

namespace SALib
open Spec Real

theorem getD_ofFn_fin {n : Nat} (y : Fin n → ℝ) (i : Fin n) : (List.ofFn y).getD i 0 = y i := by
  rw [List.getD_eq_getElem?_getD, List.getElem?_ofFn]
  simp

theorem power_ofFn {n : Nat} (y : Fin n → ℝ) (k : Nat) :
    power n (fun i => (List.ofFn y).getD i 0) k =
      (∑ i : Fin n, y i * cos (2 * π * k * (i : Nat) / n)) ^ 2 +
        (∑ i : Fin n, y i * sin (2 * π * k * (i : Nat) / n)) ^ 2 := by
  unfold power
  rw [Finset.sum_range, Finset.sum_range]
  simp only [getD_ofFn_fin]

/-- Sums of cosines and sines over a full period. -/
theorem sum_cos_sin (n k : Nat) (hk : ¬ n ∣ k) :
    ∑ i : Fin n, cos (2 * π * k * (i : Nat) / n) = 0 ∧ ∑ i : Fin n, sin (2 * π * k * (i : Nat) / n) = 0 := by
  rcases Nat.eq_zero_or_pos n with rfl | hn
  · simp
  have h := sum_unitRoot n k (by omega) hk
  have hc : ∀ i : Nat, unitRoot n ^ (k * i) =
      (cos (2 * π * k * i / n) : ℝ) - (sin (2 * π * k * i / n) : ℝ) * Complex.I := by
    intro i
    rw [unitRoot_pow]
    have : (-2 * π * Complex.I * k * i / n : ℂ) =
        ((-(2 * π * k * i / n) : ℝ) : ℂ) * Complex.I := by push_cast; ring
    rw [this, Complex.exp_mul_I]
    rw [← Complex.ofReal_cos, ← Complex.ofReal_sin, cos_neg, sin_neg]
    push_cast
    ring
  rw [Finset.sum_range] at h
  simp only [hc] at h
  have h1 := congrArg Complex.re h
  have h2 := congrArg Complex.im h
  simp only [Complex.re_sum, Complex.im_sum, Complex.mul_re, Complex.mul_im, Complex.sub_re,
    Complex.sub_im, Complex.ofReal_re, Complex.ofReal_im, Complex.I_re, Complex.I_im, mul_zero, mul_one,
    sub_zero, zero_sub, add_zero, Complex.zero_re, Complex.zero_im, Finset.sum_neg_distrib] at h1 h2
  exact ⟨by simpa using h1, by simpa using h2⟩

/-- Second moment of a weighted sum of independent uniform draws from centred values. -/
theorem sum_draws_sq {Ω : Type} [Fintype Ω] (z : Ω → ℝ) (hz : ∑ t, z t = 0) :
    ∀ (n : Nat) (c : Fin n → ℝ),
      (∑ d : Fin n → Ω, ∑ i, c i * z (d i)) = 0 ∧
      (Fintype.card Ω : ℝ) * ∑ d : Fin n → Ω, (∑ i, c i * z (d i)) ^ 2 =
        (Fintype.card Ω : ℝ) ^ n * (∑ i, c i ^ 2) * ∑ t, z t ^ 2 := by
  intro n
  induction n with
  | zero => intro c; simp
  | succ n ih =>
    intro c
    obtain ⟨h1, h2⟩ := ih (fun i => c i.succ)
    have e : ∀ g : (Fin (n + 1) → Ω) → ℝ, ∑ d, g d = ∑ t : Ω, ∑ d : Fin n → Ω, g (Fin.cons t d) := by
      intro g
      rw [← (Fin.consEquiv (fun _ => Ω)).sum_comp, Fintype.sum_prod_type]
      rfl
    constructor
    · rw [e]
      simp only [Fin.sum_univ_succ, Fin.cons_zero, Fin.cons_succ, Finset.sum_add_distrib, h1]
      simp only [Finset.sum_const, nsmul_eq_mul]
      rw [← Finset.mul_sum, ← Finset.mul_sum, hz]
      simp
    · rw [e]
      simp only [Fin.sum_univ_succ, Fin.cons_zero, Fin.cons_succ, add_sq, Finset.sum_add_distrib]
      simp only [Finset.sum_const, nsmul_eq_mul, ← Finset.mul_sum, h1, mul_zero, mul_pow, Finset.card_univ,
        Fintype.card_fun, Fintype.card_fin, add_zero]
      push_cast
      have h3 : (Fintype.card Ω : ℝ) * (Fintype.card Ω * ∑ d : Fin n → Ω, (∑ i, c i.succ * z (d i)) ^ 2) =
        Fintype.card Ω * ((Fintype.card Ω : ℝ) ^ n * (∑ i : Fin n, c i.succ ^ 2) * ∑ t, z t ^ 2) := by rw [h2]
      linear_combination h3

/-- The population variance of `T` numbers. -/
noncomputable def Spec.popVar {T : Nat} (f : Fin T → ℝ) : ℝ :=
  (∑ t, (f t - (∑ s, f s) / T) ^ 2) / T

/-- **C118** (spectrum).  Averaged over all draws, every frequency of a resample carries the same power: the
variance of the block times the number of draws, whatever the order of the outputs. -/
theorem C118_flat {T : Nat} (hT : 0 < T) (f : Fin T → ℝ) (n k : Nat) (hk : ¬ n ∣ k) :
    (∑ d : Fin n → Fin T, power n (fun i => (List.ofFn (f ∘ d)).getD i 0) k) / (T : ℝ) ^ n = n * popVar f := by
  have hTr : (0 : ℝ) < T := by exact_mod_cast hT
  set m := (∑ s, f s) / T with hm
  have hz : ∑ t, (f t - m) = 0 := by
    rw [Finset.sum_sub_distrib]
    simp only [Finset.sum_const, Finset.card_univ, Fintype.card_fin, nsmul_eq_mul, hm]
    field_simp
    ring
  obtain ⟨hc, hs⟩ := sum_cos_sin n k hk
  have key : ∀ c : Fin n → ℝ, ∑ i, c i = 0 → ∀ d : Fin n → Fin T,
      ∑ i, (f ∘ d) i * c i = ∑ i, c i * (f (d i) - m) := by
    intro c h0 d
    simp only [mul_sub, Finset.sum_sub_distrib, ← Finset.sum_mul, h0, zero_mul, sub_zero, Function.comp]
    exact Finset.sum_congr rfl fun i _ => mul_comm _ _
  simp only [power_ofFn]
  rw [Finset.sum_add_distrib]
  have h1 := (sum_draws_sq (fun t => f t - m) hz n (fun i => cos (2 * π * k * (i : Nat) / n))).2
  have h2 := (sum_draws_sq (fun t => f t - m) hz n (fun i => sin (2 * π * k * (i : Nat) / n))).2
  simp only [key _ hc, key _ hs]
  rw [Fintype.card_fin] at h1 h2
  have h3 : ∑ i : Fin n, cos (2 * π * k * (i : Nat) / n) ^ 2 + ∑ i : Fin n, sin (2 * π * k * (i : Nat) / n) ^ 2 = n := by
    rw [← Finset.sum_add_distrib]
    simp
  rw [div_eq_iff (by positivity)]
  apply mul_left_cancel₀ hTr.ne'
  rw [mul_add, h1, h2, popVar, ← hm]
  rw [← add_mul, ← mul_add, h3]
  field_simp

theorem not_dvd_of_band {n k : Nat} (h1 : 1 ≤ k) (h2 : k ≤ (n - 1) / 2) : ¬ n ∣ k := by
  intro h
  have := Nat.le_of_dvd (by omega) h
  omega

/-- **C118** (centre).  Averaged over all draws, the part of the total power in the harmonics is `M` times that of
one frequency, and the part below the base frequency is that of `⌊ω/2⌋` frequencies, for every block of
outputs and every order: as ratios of averages the resampled `S1` is `M / h` and `1 - ST` is `⌊ω/2⌋ / h`, where
`h` is the number of frequencies. -/
theorem C118_centre {T : Nat} (hT : 0 < T) (f : Fin T → ℝ) (n M w : Nat) (hw : 1 ≤ w)
    (hMw : 2 * (M * w) ≤ n - 1) (hM : 0 < M) :
    (((n - 1) / 2 : Nat) : ℝ) * ∑ d : Fin n → Fin T, harmonicPower n (fun i => (List.ofFn (f ∘ d)).getD i 0) M w =
        M * ∑ d : Fin n → Fin T, totalPower n (fun i => (List.ofFn (f ∘ d)).getD i 0) ∧
    (((n - 1) / 2 : Nat) : ℝ) * ∑ d : Fin n → Fin T, bandPower n (fun i => (List.ofFn (f ∘ d)).getD i 0) (w / 2) =
        ((w / 2 : Nat) : ℝ) * ∑ d : Fin n → Fin T, totalPower n (fun i => (List.ofFn (f ∘ d)).getD i 0) := by
  have hTn : (T : ℝ) ^ n ≠ 0 := by positivity
  have hflat : ∀ k, ¬ n ∣ k →
      ∑ d : Fin n → Fin T, power n (fun i => (List.ofFn (f ∘ d)).getD i 0) k = n * popVar f * (T : ℝ) ^ n := by
    intro k hk
    rw [← C118_flat hT f n k hk, div_mul_cancel₀ _ hTn]
  have hband : ∀ K, K ≤ (n - 1) / 2 → ∑ d : Fin n → Fin T, bandPower n (fun i => (List.ofFn (f ∘ d)).getD i 0) K =
      K * (n * popVar f * (T : ℝ) ^ n) := by
    intro K hK
    unfold bandPower
    rw [Finset.sum_comm, Finset.sum_congr rfl fun k hk => hflat k (not_dvd_of_band (Finset.mem_Icc.mp hk).1
      ((Finset.mem_Icc.mp hk).2.trans hK))]
    simp
  have hharm : ∑ d : Fin n → Fin T, harmonicPower n (fun i => (List.ofFn (f ∘ d)).getD i 0) M w =
      M * (n * popVar f * (T : ℝ) ^ n) := by
    unfold harmonicPower
    rw [Finset.sum_comm, Finset.sum_congr rfl fun k hk => hflat (k * w) ?_]
    · simp
    · obtain ⟨h1, h2⟩ := Finset.mem_Icc.mp hk
      have h3 : 1 * 1 ≤ k * w := Nat.mul_le_mul h1 hw
      have h4 : k * w ≤ M * w := Nat.mul_le_mul_right _ h2
      exact not_dvd_of_band (by omega) (by omega)
  have hMw2 : 1 * w ≤ M * w := Nat.mul_le_mul_right _ hM
  unfold totalPower
  rw [hharm, hband _ le_rfl, hband (w / 2) (by omega)]
  constructor <;> ring


/-- Multiplication by `u` modulo `n`. -/
theorem exists_mulPerm {n u : Nat} (h : Nat.Coprime u n) :
    ∃ σ : Equiv.Perm (Fin n), ∀ i : Fin n, (σ i : Nat) = u * i % n := by
  rcases Nat.eq_zero_or_pos n with rfl | hn
  · exact ⟨Equiv.refl _, fun i => i.elim0⟩
  let g : Fin n → Fin n := fun i => ⟨u * i % n, Nat.mod_lt _ hn⟩
  have hinj : Function.Injective g := by
    intro a b hab
    have h1 : u * a ≡ u * b [MOD n] := by
      have := congrArg Fin.val hab
      exact this
    have h2 := Nat.ModEq.cancel_left_of_coprime h.symm h1
    have h3 : (a : Nat) % n = b % n := h2
    rw [Nat.mod_eq_of_lt a.2, Nat.mod_eq_of_lt b.2] at h3
    exact Fin.ext h3
  exact ⟨Equiv.ofBijective g ⟨hinj, Finite.surjective_of_injective hinj⟩, fun i => rfl⟩

theorem cos_sin_mod (n k u i : Nat) :
    cos (2 * π * k * ((u * i % n : Nat) : ℝ) / n) = cos (2 * π * ((k * u : Nat) : ℝ) * i / n) ∧
    sin (2 * π * k * ((u * i % n : Nat) : ℝ) / n) = sin (2 * π * ((k * u : Nat) : ℝ) * i / n) := by
  rcases Nat.eq_zero_or_pos n with rfl | hn
  · simp
  have hnr : (n : ℝ) ≠ 0 := by exact_mod_cast hn.ne'
  have h : (2 * π * ((k * u : Nat) : ℝ) * i / n) =
      2 * π * k * ((u * i % n : Nat) : ℝ) / n + ((k * (u * i / n) : Nat) : ℝ) * (2 * π) := by
    have h1 : ((u * i : Nat) : ℝ) = n * ((u * i / n : Nat) : ℝ) + ((u * i % n : Nat) : ℝ) := by
      exact_mod_cast (Nat.div_add_mod (u * i) n).symm
    push_cast at h1 ⊢
    field_simp
    linear_combination (k : ℝ) * h1
  rw [h, cos_add_nat_mul_two_pi, sin_add_nat_mul_two_pi]
  exact ⟨rfl, rfl⟩

/-- Reading the data with step `u` moves frequency `k` to frequency `k u`. -/
theorem power_step {n : Nat} (y : Fin n → ℝ) (σ : Equiv.Perm (Fin n)) (u : Nat)
    (hσ : ∀ i : Fin n, (σ i : Nat) = u * i % n) (k : Nat) :
    power n (fun i => (List.ofFn (y ∘ σ)).getD i 0) (k * u) = power n (fun i => (List.ofFn y).getD i 0) k := by
  rw [power_ofFn, power_ofFn]
  rw [← Equiv.sum_comp σ (fun i => y i * cos (2 * π * k * (i : Nat) / n)),
    ← Equiv.sum_comp σ (fun i => y i * sin (2 * π * k * (i : Nat) / n))]
  simp only [hσ, (cos_sin_mod n k u _).1, (cos_sin_mod n k u _).2, Function.comp]

theorem npVar_perm (l l' : List ℝ) (h : l.Perm l') : npVar l = npVar l' := by
  unfold npVar npMean
  rw [h.sum_eq, h.length_eq]
  congr 1
  funext m
  rw [(h.map _).sum_eq, List.length_map, List.length_map, h.length_eq]

/-- For odd lengths the total power does not depend on the order. -/
theorem totalPower_perm {n : Nat} (hodd : n % 2 = 1) (y : Fin n → ℝ) (σ : Equiv.Perm (Fin n)) :
    totalPower n (fun i => (List.ofFn (y ∘ σ)).getD i 0) = totalPower n (fun i => (List.ofFn y).getD i 0) := by
  have h1 := C69_variance (List.ofFn y) (by simp; omega)
  have h2 := C69_variance (List.ofFn (y ∘ σ)) (by simp; omega)
  rw [npVar_perm _ _ (σ.ofFn_comp_perm y), h1] at h2
  simp only [List.length_ofFn] at h2
  rw [if_neg (by omega), if_neg (by omega), add_zero, add_zero] at h2
  have hn : (0 : ℝ) < n := by exact_mod_cast (by omega : 0 < n)
  have h3 := Option.some.inj h2
  rw [div_left_inj' (by positivity)] at h3
  linarith

/-- Averaged over all draws, the share of each frequency in the total power is the same when the number of draws is
an odd prime. -/
theorem sum_share {T n : Nat} (hp : n.Prime) (hodd : n % 2 = 1) (f : Fin T → ℝ) (k : Nat) (h1 : 1 ≤ k)
    (h2 : k ≤ (n - 1) / 2) :
    ∑ d : Fin n → Fin T, power n (fun i => (List.ofFn (f ∘ d)).getD i 0) k /
        totalPower n (fun i => (List.ofFn (f ∘ d)).getD i 0) =
      ∑ d : Fin n → Fin T, power n (fun i => (List.ofFn (f ∘ d)).getD i 0) 1 /
        totalPower n (fun i => (List.ofFn (f ∘ d)).getD i 0) := by
  have hc : Nat.Coprime k n :=
    ((Nat.Prime.coprime_iff_not_dvd hp).mpr (not_dvd_of_band h1 h2)).symm
  obtain ⟨σ, hσ⟩ := exists_mulPerm hc
  rw [← (Equiv.arrowCongr σ.symm (Equiv.refl (Fin T))).sum_comp]
  apply Finset.sum_congr rfl
  intro d _
  have e : f ∘ (Equiv.arrowCongr σ.symm (Equiv.refl (Fin T))) d = (f ∘ d) ∘ σ := by
    funext i; simp [Equiv.arrowCongr]
  rw [e, totalPower_perm hodd]
  have := power_step (f ∘ d) σ k hσ 1
  rw [one_mul] at this
  rw [this]

theorem const_ofFn {n : Nat} (hn : 0 < n) (y : Fin n → ℝ) :
    (∃ c, ∀ x ∈ List.ofFn y, x = c) ↔ ∀ i j, y i = y j := by
  constructor
  · rintro ⟨c, hc⟩ i j
    rw [hc (y i) (by simp), hc (y j) (by simp)]
  · intro h
    refine ⟨y ⟨0, hn⟩, ?_⟩
    intro x hx
    obtain ⟨i, rfl⟩ := (List.mem_ofFn' _ _).mp hx
    exact h _ _

open Classical in
/-- **C118** (mean).  When the number of outputs in a resample is an odd prime, the average over all draws of the
resampled `S1` is exactly `M / h` and that of the resampled `ST` is exactly `1 - ⌊ω/2⌋ / h`, where `h = (n - 1) / 2`
is the number of frequencies: the same for every parameter, every model and every order of the outputs
(resamples of equal outputs give nan and are left out of the average). -/
theorem C118_mean_fail {T n : Nat} (hp : n.Prime) (f : Fin T → ℝ) (M : Nat) (hM : 0 < M) (hn : 2 * M < n) :
    ∃ s t : (Fin n → Fin T) → Num ℝ,
      (∀ d, computeOrders (List.ofFn (f ∘ d)) n M ((n - 1) / (2 * M)) = .ok (s d, t d)) ∧
      (∀ d, (s d = none ↔ ∀ i j, f (d i) = f (d j)) ∧ (t d = none ↔ ∀ i j, f (d i) = f (d j))) ∧
      ∑ d, (s d).getD 0 =
        (Finset.univ.filter fun d : Fin n → Fin T => ¬ ∀ i j, f (d i) = f (d j)).card * (M / (((n : ℝ) - 1) / 2)) ∧
      ∑ d, (t d).getD 0 =
        (Finset.univ.filter fun d : Fin n → Fin T => ¬ ∀ i j, f (d i) = f (d j)).card *
          (1 - ((n - 1) / (2 * M) / 2 : Nat) / (((n : ℝ) - 1) / 2)) := by
  have hodd : n % 2 = 1 := by
    rcases hp.eq_two_or_odd with h | h
    · omega
    · exact h
  set w := (n - 1) / (2 * M) with hwdef
  have hw : 1 ≤ w := (Nat.one_le_div_iff (by omega)).mpr (by omega)
  have hle : 2 * M * w ≤ n - 1 := Nat.mul_div_le _ _
  have hMw : 2 * (M * w) ≤ n - 1 := by rw [← mul_assoc]; exact hle
  have hMw1 : 1 * w ≤ M * w := Nat.mul_le_mul_right _ hM
  let V : (Fin n → Fin T) → ℝ := fun d => totalPower n (fun i => (List.ofFn (f ∘ d)).getD i 0)
  let P : (Fin n → Fin T) → Nat → ℝ := fun d => power n (fun i => (List.ofFn (f ∘ d)).getD i 0)
  have hV : ∀ d, V d = 0 ↔ ∀ i j, f (d i) = f (d j) := by
    intro d
    have := C69_nan_iff_constant (List.ofFn (f ∘ d)) (by simpa using hodd)
    simp only [List.length_ofFn] at this
    rw [const_ofFn hp.pos] at this
    exact this
  have hVsum : ∀ d, V d = ∑ k ∈ Finset.Icc 1 ((n - 1) / 2), P d k := fun d => rfl
  have hh : (0 : ℝ) < ((n : ℝ) - 1) / 2 := by
    have : (2 : ℝ) < n := by exact_mod_cast (by omega : 2 < n)
    linarith
  have hhn : (((n - 1) / 2 : Nat) : ℝ) = ((n : ℝ) - 1) / 2 := by
    have h1 : ((2 * ((n - 1) / 2) : Nat) : ℝ) = ((n - 1 : Nat) : ℝ) := by
      congr 1; omega
    rw [Nat.cast_sub hp.one_lt.le] at h1
    push_cast at h1
    linarith
  set C := (Finset.univ.filter fun d : Fin n → Fin T => ¬ ∀ i j, f (d i) = f (d j)).card with hC
  have hones : ∑ d, V d / V d = C := by
    rw [hC, Finset.card_filter]
    push_cast
    apply Finset.sum_congr rfl
    intro d _
    by_cases h : V d = 0
    · rw [h, if_neg (not_not.mpr ((hV d).mp h))]; simp
    · rw [div_self h, if_pos (fun hc => h ((hV d).mpr hc))]
  have hshare : ∀ k, 1 ≤ k → k ≤ (n - 1) / 2 → ∑ d, P d k / V d = C / (((n : ℝ) - 1) / 2) := by
    have h1 : ∑ d, V d / V d = (((n - 1) / 2 : Nat) : ℝ) * ∑ d, P d 1 / V d := by
      have : ∀ d, V d / V d = ∑ k ∈ Finset.Icc 1 ((n - 1) / 2), P d k / V d := by
        intro d
        rw [← Finset.sum_div, ← hVsum]
      rw [Finset.sum_congr rfl fun d _ => this d, Finset.sum_comm,
        Finset.sum_congr rfl fun k hk => sum_share hp hodd f k (Finset.mem_Icc.mp hk).1 (Finset.mem_Icc.mp hk).2]
      rw [Finset.sum_const, Nat.card_Icc, nsmul_eq_mul, Nat.add_sub_cancel]
    intro k hk1 hk2
    have h2 := sum_share hp hodd f k hk1 hk2
    rw [hones, hhn] at h1
    rw [eq_div_iff hh.ne', h1, mul_comm]
    congr 1
  refine ⟨fun d => npDiv (harmonicPower n (fun i => (List.ofFn (f ∘ d)).getD i 0) M w) (V d),
    fun d => (npDiv (bandPower n (fun i => (List.ofFn (f ∘ d)).getD i 0) (w / 2)) (V d)).map (1 - ·), ?_, ?_, ?_, ?_⟩
  · intro d
    have := computeOrders_eq (List.ofFn (f ∘ d)) M w hw (by simpa using hp.one_lt) (by simpa using hMw)
      (by simp; omega)
    simp only [List.length_ofFn] at this
    exact this
  · intro d
    rw [← hV d]
    unfold npDiv
    by_cases h : V d = 0 <;> simp [h]
  · have : ∀ d, (npDiv (harmonicPower n (fun i => (List.ofFn (f ∘ d)).getD i 0) M w) (V d)).getD 0 =
        ∑ k ∈ Finset.Icc 1 M, P d (k * w) / V d := by
      intro d
      rw [← Finset.sum_div]
      unfold npDiv
      by_cases h : V d = 0
      · simp [h]
      · rw [if_neg h]; rfl
    rw [Finset.sum_congr rfl fun d _ => this d, Finset.sum_comm]
    rw [Finset.sum_congr rfl fun k hk => hshare (k * w) ?_ ?_]
    · simp only [Finset.sum_const, Nat.card_Icc, nsmul_eq_mul, Nat.add_sub_cancel]
      ring
    · have := Nat.mul_le_mul (Finset.mem_Icc.mp hk).1 hw
      omega
    · have := Nat.mul_le_mul_right w (Finset.mem_Icc.mp hk).2
      omega
  · have : ∀ d, ((npDiv (bandPower n (fun i => (List.ofFn (f ∘ d)).getD i 0) (w / 2)) (V d)).map (1 - ·)).getD 0 =
        V d / V d - ∑ k ∈ Finset.Icc 1 (w / 2), P d k / V d := by
      intro d
      rw [← Finset.sum_div]
      unfold npDiv
      by_cases h : V d = 0
      · simp [h]
      · rw [if_neg h, div_self h]; rfl
    rw [Finset.sum_congr rfl fun d _ => this d, Finset.sum_sub_distrib, hones, Finset.sum_comm,
      Finset.sum_congr rfl fun k hk => hshare k (Finset.mem_Icc.mp hk).1
        ((Finset.mem_Icc.mp hk).2.trans (by omega))]
    simp only [Finset.sum_const, Nat.card_Icc, nsmul_eq_mul, Nat.add_sub_cancel]
    ring

/-- The index lists of `R` resamples. -/
def Spec.drawLists {R n T : Nat} (draws : Fin R → Fin n → Fin T) : List (List Nat) :=
  List.ofFn fun r => List.ofFn fun i => (draws r i : Nat)

theorem mapM_ofFn_ok {β γ : Type} {n : Nat} (g : Fin n → γ) (F : γ → Py β) (v : Fin n → β)
    (h : ∀ i, F (g i) = .ok (v i)) : (List.ofFn g).mapM F = .ok (List.ofFn v) := by
  induction n with
  | zero => rfl
  | succ n ih =>
    rw [List.ofFn_succ, List.ofFn_succ, List.mapM_cons, h 0, ih (fun i => g i.succ) (fun i => v i.succ) fun i => h _]
    rfl

theorem pyGet_ofFn {T : Nat} (f : Fin T → ℝ) (i : Fin T) : pyGet (List.ofFn f) i = .ok (f i) := by
  rw [pyGet_ok _ _ (by simp)]
  simp

/-- **C118** (spread).  The confidence values are `bnd` times the standard deviations of the indices of the
resamples, each computed from the outputs in the order in which they were drawn. -/
theorem C118_spread_partial (bnd : ℝ) {T R n : Nat} (f : Fin T → ℝ) (M : Nat) (draws : Fin R → Fin n → Fin T)
    (s t : Fin R → Num ℝ)
    (h : ∀ r, computeOrders (List.ofFn (f ∘ draws r)) n M ((n - 1) / (2 * M)) = .ok (s r, t r)) :
    fastBootstrap bnd (List.ofFn f) M (drawLists draws) =
      .ok ((npStd1N Real.sqrt (List.ofFn s)).map (bnd * ·), (npStd1N Real.sqrt (List.ofFn t)).map (bnd * ·)) := by
  unfold fastBootstrap drawLists
  rw [mapM_ofFn_ok _ _ (fun r => (s r, t r))]
  · simp only [pyBind_ok, List.map_ofFn]
    rfl
  · intro r
    rw [mapM_ofFn_ok _ _ (f ∘ draws r) (fun i => pyGet_ofFn f _)]
    simp only [pyBind_ok, List.length_ofFn]
    exact h r

theorem fastBootstrap_comp (bnd : ℝ) {T R n : Nat} (f : Fin T → ℝ) (σ : Equiv.Perm (Fin T)) (M : Nat)
    (draws : Fin R → Fin n → Fin T) :
    fastBootstrap bnd (List.ofFn (f ∘ σ)) M (drawLists draws) =
      fastBootstrap bnd (List.ofFn f) M (drawLists fun r i => σ (draws r i)) := by
  unfold fastBootstrap drawLists
  have e : ∀ (g : Fin T → ℝ) (ds : Fin R → Fin n → Fin T),
      (List.ofFn fun r => List.ofFn fun i => (ds r i : Nat)).mapM (fun idx => (do
        let y ← idx.mapM fun i => pyGet (List.ofFn g) i
        computeOrders y y.length M ((y.length - 1) / (2 * M)) : Py (Num ℝ × Num ℝ))) =
      (List.ofFn fun r => List.ofFn (g ∘ ds r)).mapM
        (fun y => computeOrders y y.length M ((y.length - 1) / (2 * M))) := by
    intro g ds
    have : (List.ofFn fun r => List.ofFn fun i => (ds r i : Nat)) =
        (List.finRange R).map (fun r => List.ofFn fun i => (ds r i : Nat)) := List.ofFn_eq_map
    rw [this]
    have : (List.ofFn fun r => List.ofFn (g ∘ ds r)) = (List.finRange R).map (fun r => List.ofFn (g ∘ ds r)) :=
      List.ofFn_eq_map
    rw [this, List.mapM_map, List.mapM_map]
    apply mapM_congr_mem
    intro r _
    simp only [Function.comp]
    rw [mapM_ofFn_ok _ _ (fun i => g (ds r i)) (fun i => pyGet_ofFn g _)]
    rfl
  rw [e, e]
  rfl

/-- **C118** (order).  Two blocks that hold the same outputs in different orders get the same confidence values with
the same frequency: for every set of results, as many draws lead into it from one block as from the other.  The
indices `S1` and `ST` of the two blocks may be opposite (`C118_opposite_fail`). -/
theorem C118_order (bnd : ℝ) {T : Nat} (f : Fin T → ℝ) (σ : Equiv.Perm (Fin T)) (M R n : Nat)
    (P : Py (Num ℝ × Num ℝ) → Prop) :
    Nat.card {draws : Fin R → Fin n → Fin T // P (fastBootstrap bnd (List.ofFn (f ∘ σ)) M (drawLists draws))} =
      Nat.card {draws : Fin R → Fin n → Fin T // P (fastBootstrap bnd (List.ofFn f) M (drawLists draws))} := by
  apply Nat.card_congr
  refine Equiv.subtypeEquiv (Equiv.arrowCongr (Equiv.refl _) (Equiv.arrowCongr (Equiv.refl _) σ)) ?_
  intro draws
  rw [fastBootstrap_comp]
  rfl

/-- The outputs of a model that oscillates `w` times over a block. -/
noncomputable def Spec.wave (T w : Nat) (i : Fin T) : ℝ := cos (2 * π * w * (i : Nat) / T)

theorem power_wave (T w k : Nat) (hw1 : 1 ≤ w) (hw2 : w ≤ (T - 1) / 2) (hk1 : 1 ≤ k) (hk2 : k ≤ (T - 1) / 2)
    (h : k ≠ w) : power T (fun i => (List.ofFn (wave T w)).getD i 0) k = 0 := by
  rw [power_ofFn]
  have hs := sum_cos_sin T (k + w) (fun hd => by have := Nat.le_of_dvd (by omega) hd; omega)
  obtain ⟨j, ε, hj, hε, hjk⟩ : ∃ (j : Nat) (ε : ℝ), ¬ T ∣ j ∧ (ε = 1 ∨ ε = -1) ∧ ((k : ℝ) - w = ε * j) := by
    rcases lt_or_gt_of_ne h with hlt | hgt
    · refine ⟨w - k, -1, fun hd => by have := Nat.le_of_dvd (by omega) hd; omega, Or.inr rfl, ?_⟩
      rw [Nat.cast_sub hlt.le]; ring
    · refine ⟨k - w, 1, fun hd => by have := Nat.le_of_dvd (by omega) hd; omega, Or.inl rfl, ?_⟩
      rw [Nat.cast_sub hgt.le]; ring
  have hd := sum_cos_sin T j hj
  have e1 : ∀ i : Fin T, wave T w i * cos (2 * π * k * (i : Nat) / T) =
      (cos (2 * π * ((k + w : Nat) : ℝ) * (i : Nat) / T) + cos (2 * π * (j : ℝ) * (i : Nat) / T)) / 2 := by
    intro i
    unfold wave
    have a1 : 2 * π * ((k + w : Nat) : ℝ) * (i : Nat) / T = 2 * π * k * (i : Nat) / T + 2 * π * w * (i : Nat) / T := by
      push_cast; ring
    have a2 : cos (2 * π * (j : ℝ) * (i : Nat) / T) = cos (2 * π * k * (i : Nat) / T - 2 * π * w * (i : Nat) / T) := by
      have : 2 * π * k * (i : Nat) / T - 2 * π * w * (i : Nat) / T = ε * (2 * π * (j : ℝ) * (i : Nat) / T) := by
        have : 2 * π * k * (i : Nat) / T - 2 * π * w * (i : Nat) / T = 2 * π * ((k : ℝ) - w) * (i : Nat) / T := by ring
        rw [this, hjk]; ring
      rw [this]
      rcases hε with rfl | rfl
      · rw [one_mul]
      · rw [neg_one_mul, cos_neg]
    rw [a1, a2, cos_add, cos_sub]
    ring
  have e2 : ∀ i : Fin T, wave T w i * sin (2 * π * k * (i : Nat) / T) =
      (sin (2 * π * ((k + w : Nat) : ℝ) * (i : Nat) / T) + ε * sin (2 * π * (j : ℝ) * (i : Nat) / T)) / 2 := by
    intro i
    unfold wave
    have a1 : 2 * π * ((k + w : Nat) : ℝ) * (i : Nat) / T = 2 * π * k * (i : Nat) / T + 2 * π * w * (i : Nat) / T := by
      push_cast; ring
    have a2 : ε * sin (2 * π * (j : ℝ) * (i : Nat) / T) =
        sin (2 * π * k * (i : Nat) / T - 2 * π * w * (i : Nat) / T) := by
      have : 2 * π * k * (i : Nat) / T - 2 * π * w * (i : Nat) / T = ε * (2 * π * (j : ℝ) * (i : Nat) / T) := by
        have : 2 * π * k * (i : Nat) / T - 2 * π * w * (i : Nat) / T = 2 * π * ((k : ℝ) - w) * (i : Nat) / T := by ring
        rw [this, hjk]; ring
      rw [this]
      rcases hε with rfl | rfl
      · rw [one_mul, one_mul]
      · rw [neg_one_mul, neg_one_mul, sin_neg]
    rw [a1, a2, sin_add, sin_sub]
    ring
  simp only [e1, e2]
  rw [← Finset.sum_div, ← Finset.sum_div, Finset.sum_add_distrib, Finset.sum_add_distrib, ← Finset.mul_sum,
    hs.1, hs.2, hd.1, hd.2]
  simp

theorem totalPower_wave (T w : Nat) (hodd : T % 2 = 1) (hw1 : 1 ≤ w) (hw2 : w ≤ (T - 1) / 2) :
    totalPower T (fun i => (List.ofFn (wave T w)).getD i 0) = power T (fun i => (List.ofFn (wave T w)).getD i 0) w ∧
      totalPower T (fun i => (List.ofFn (wave T w)).getD i 0) ≠ 0 := by
  constructor
  · unfold totalPower bandPower
    rw [Finset.sum_eq_single w]
    · intro k hk h
      exact power_wave T w k hw1 hw2 (Finset.mem_Icc.mp hk).1 (Finset.mem_Icc.mp hk).2 h
    · intro h
      exact absurd (Finset.mem_Icc.mpr ⟨hw1, hw2⟩) h
  · have h := C69_nan_iff_constant (List.ofFn (wave T w)) (by simpa using hodd)
    simp only [List.length_ofFn] at h
    intro h0
    rw [h, const_ofFn (by omega)] at h0
    have hs := (sum_cos_sin T w (not_dvd_of_band hw1 hw2)).1
    have h1 : ∀ i : Fin T, cos (2 * π * w * (i : Nat) / T) = 1 := by
      intro i
      have := h0 i ⟨0, by omega⟩
      simpa [wave] using this
    rw [Finset.sum_congr rfl fun i _ => h1 i] at hs
    simp at hs
    omega

/-- **C118** (opposite).  Two blocks that hold the same outputs in different orders: for the first the analysis
reports `S1 = ST = 1`, for the second `S1 = ST = 0`.  By `C118_order` their confidence values have the same
distribution. -/
theorem C118_opposite_fail (T M : Nat) (hT : T.Prime) (hM : 0 < M) (h4 : 4 * M < T) :
    (∃ σ : Equiv.Perm (Fin T), wave T ((T - 1) / (2 * M)) = wave T 1 ∘ σ) ∧
    computeOrders (List.ofFn (wave T ((T - 1) / (2 * M)))) T M ((T - 1) / (2 * M)) = .ok (some 1, some 1) ∧
    computeOrders (List.ofFn (wave T 1)) T M ((T - 1) / (2 * M)) = .ok (some 0, some 0) := by
  have hodd : T % 2 = 1 := by
    rcases hT.eq_two_or_odd with h | h
    · omega
    · exact h
  set w := (T - 1) / (2 * M) with hwdef
  have hw : 2 ≤ w := (Nat.le_div_iff_mul_le (by omega)).mpr (by omega)
  have hle : 2 * M * w ≤ T - 1 := Nat.mul_div_le _ _
  have hMw : 2 * (M * w) ≤ T - 1 := by rw [← mul_assoc]; exact hle
  have hMw1 : 1 * w ≤ M * w := Nat.mul_le_mul_right _ hM
  have hw2 : w ≤ (T - 1) / 2 := by omega
  have hb1 : ∀ k ∈ Finset.Icc 1 M, 1 ≤ k * w ∧ k * w ≤ (T - 1) / 2 := by
    intro k hk
    have h1 := Nat.mul_le_mul (Finset.mem_Icc.mp hk).1 hw
    have h2 := Nat.mul_le_mul_right w (Finset.mem_Icc.mp hk).2
    omega
  refine ⟨?_, ?_, ?_⟩
  · have hc : Nat.Coprime w T := ((Nat.Prime.coprime_iff_not_dvd hT).mpr (not_dvd_of_band (by omega) hw2)).symm
    obtain ⟨σ, hσ⟩ := exists_mulPerm hc
    refine ⟨σ, ?_⟩
    funext i
    have := (cos_sin_mod T 1 w i).1
    simp only [wave, Function.comp, hσ]
    rw [this]
    simp
  · have h := computeOrders_eq (List.ofFn (wave T w)) M w (by omega) (by simp; omega) (by simpa using hMw)
      (by simp; omega)
    simp only [List.length_ofFn] at h
    rw [h]
    obtain ⟨ht, hne⟩ := totalPower_wave T w hodd (by omega) hw2
    have h1 : harmonicPower T (fun i => (List.ofFn (wave T w)).getD i 0) M w =
        totalPower T (fun i => (List.ofFn (wave T w)).getD i 0) := by
      rw [ht]
      unfold harmonicPower
      rw [Finset.sum_eq_single 1]
      · rw [one_mul]
      · intro k hk hk1
        refine power_wave T w (k * w) (by omega) hw2 (hb1 k hk).1 (hb1 k hk).2 ?_
        intro he
        have : k * w = 1 * w := by omega
        exact hk1 (Nat.eq_of_mul_eq_mul_right (by omega) this)
      · intro h
        exact absurd (Finset.mem_Icc.mpr ⟨le_rfl, hM⟩) h
    have h2 : bandPower T (fun i => (List.ofFn (wave T w)).getD i 0) (w / 2) = 0 := by
      unfold bandPower
      apply Finset.sum_eq_zero
      intro k hk
      have hk' := Finset.mem_Icc.mp hk
      exact power_wave T w k (by omega) hw2 hk'.1 (by omega) (by omega)
    rw [h1, h2]
    unfold npDiv
    rw [if_neg hne, if_neg hne, div_self hne]
    simp
  · have h := computeOrders_eq (List.ofFn (wave T 1)) M w (by omega) (by simp; omega) (by simpa using hMw)
      (by simp; omega)
    simp only [List.length_ofFn] at h
    rw [h]
    obtain ⟨ht, hne⟩ := totalPower_wave T 1 hodd le_rfl (by omega)
    have h1 : harmonicPower T (fun i => (List.ofFn (wave T 1)).getD i 0) M w = 0 := by
      unfold harmonicPower
      apply Finset.sum_eq_zero
      intro k hk
      refine power_wave T 1 (k * w) le_rfl (by omega) (hb1 k hk).1 (hb1 k hk).2 ?_
      have := Nat.mul_le_mul (Finset.mem_Icc.mp hk).1 hw
      omega
    have h2 : bandPower T (fun i => (List.ofFn (wave T 1)).getD i 0) (w / 2) =
        totalPower T (fun i => (List.ofFn (wave T 1)).getD i 0) := by
      rw [ht]
      unfold bandPower
      rw [Finset.sum_eq_single 1]
      · intro k hk hk1
        have hk' := Finset.mem_Icc.mp hk
        exact power_wave T 1 k le_rfl (by omega) hk'.1 (by omega) hk1
      · intro h
        exact absurd (Finset.mem_Icc.mpr ⟨le_rfl, by omega⟩) h
    rw [h1, h2]
    unfold npDiv
    rw [if_neg hne, if_neg hne, div_self hne]
    simp

/-- The default `M = 4` with blocks of 73 outputs (more than `4 M^2 = 64`, as the sampler wants): resamples of 37
outputs have `S1` equal to 2/9 and `ST` equal to 8/9 on average, for every model. -/
example (f : Fin 73 → ℝ) :=
  C118_mean_fail (n := 37) (by norm_num) f 4 (by norm_num) (by norm_num)

example : (4 : ℝ) / (((37 : ℝ) - 1) / 2) = 2 / 9 ∧
    (1 : ℝ) - (((37 - 1) / (2 * 4) / 2 : Nat) : ℝ) / (((37 : ℝ) - 1) / 2) = 8 / 9 := by
  constructor <;> norm_num

example := C118_opposite_fail 73 4 (by norm_num) (by norm_num) (by norm_num)

example (f : Fin 65 → ℝ) := C118_centre (by norm_num) f 33 4 4 (by norm_num) (by norm_num) (by norm_num)

end SALib
