import Verif.Lemmas.TorusPoly

/-! # The spectrum of a trigonometric polynomial of two angles along the line `(w t + u, t)` -/

namespace SALib

open Real Finset Spec

theorem tw_nat_mul (x : ℝ) (n : Nat) : tw (n * x) = tw x ^ n := by
  induction n with
  | zero => simp [tw_zero]
  | succ n ih => rw [pow_succ, ← ih, ← tw_add]; congr 1; push_cast; ring

theorem sum_tw_period (N : Nat) (hN : 0 < N) (z : ℤ) :
    ∑ n ∈ range N, tw (z * ((n : ℝ) / N)) = if (N : ℤ) ∣ z then (N : ℂ) else 0 := by
  have hN' : (N : ℝ) ≠ 0 := by positivity
  have e : ∀ n : Nat, tw (z * ((n : ℝ) / N)) = tw (z / N) ^ n := by
    intro n; rw [← tw_nat_mul]; congr 1; ring
  simp_rw [e]
  by_cases h : (N : ℤ) ∣ z
  · rw [if_pos h]
    obtain ⟨w, rfl⟩ := h
    have : tw (((N * w : ℤ) : ℝ) / N) = 1 := by
      rw [tw_eq_one_iff]; exact ⟨w, by push_cast; field_simp⟩
    rw [this]; simp
  · rw [if_neg h]
    have h1 : tw (z / N) ≠ 1 := by
      intro h1
      obtain ⟨w, hw⟩ := (tw_eq_one_iff _).mp h1
      apply h
      refine ⟨w, ?_⟩
      rw [div_eq_iff hN'] at hw
      have : (z : ℝ) = ((N * w : ℤ) : ℝ) := by push_cast; linarith
      exact_mod_cast this
    have h2 : tw (z / N) ^ N = 1 := by
      rw [← tw_nat_mul, show (N : ℝ) * (z / N) = z by field_simp]; exact tw_int z
    rw [geom_sum_eq h1, h2]; simp

theorem power_eq_norm (N : Nat) (y : Nat → ℝ) (k : Nat) :
    power N y k = ‖∑ n ∈ range N, (y n : ℂ) * tw (-((k : ℝ) * ((n : ℝ) / N)))‖ ^ 2 ∧
    power N y k = ‖∑ n ∈ range N, (y n : ℂ) * tw ((k : ℝ) * ((n : ℝ) / N))‖ ^ 2 := by
  have key : ∀ σ : ℝ, σ ^ 2 = 1 →
      ‖∑ n ∈ range N, (y n : ℂ) * (((cos (2 * π * k * n / N) : ℝ) : ℂ) +
        ((σ * sin (2 * π * k * n / N) : ℝ) : ℂ) * Complex.I)‖ ^ 2 = power N y k := by
    intro σ hσ
    have : ∑ n ∈ range N, (y n : ℂ) * (((cos (2 * π * k * n / N) : ℝ) : ℂ) +
        ((σ * sin (2 * π * k * n / N) : ℝ) : ℂ) * Complex.I) =
        ((∑ n ∈ range N, y n * cos (2 * π * k * n / N) : ℝ) : ℂ) +
          ((σ * ∑ n ∈ range N, y n * sin (2 * π * k * n / N) : ℝ) : ℂ) * Complex.I := by
      push_cast
      rw [Finset.mul_sum, Finset.sum_mul, ← Finset.sum_add_distrib]
      exact Finset.sum_congr rfl fun n _ => by ring
    rw [this, ← Complex.normSq_eq_norm_sq, Complex.normSq_add_mul_I, mul_pow, hσ, one_mul]
    rfl
  constructor
  · rw [← key (-1) (by norm_num)]
    congr 2
    refine Finset.sum_congr rfl fun n _ => ?_
    rw [tw_eq]
    have : 2 * π * -((k : ℝ) * ((n : ℝ) / N)) = -(2 * π * k * n / N) := by ring
    rw [this, ← Complex.ofReal_cos, ← Complex.ofReal_sin, Real.cos_neg, Real.sin_neg, neg_one_mul]
  · rw [← key 1 (by norm_num)]
    congr 2
    refine Finset.sum_congr rfl fun n _ => ?_
    rw [tw_eq]
    have : 2 * π * ((k : ℝ) * ((n : ℝ) / N)) = 2 * π * k * n / N := by ring
    rw [this, ← Complex.ofReal_cos, ← Complex.ofReal_sin, one_mul]

theorem norm_sq_sum_unique {β : Type} (A : Finset β) (c : β → ℂ) (P : β → Prop) [DecidablePred P]
    (h : ∀ s ∈ A, ∀ s' ∈ A, P s → P s' → s = s') :
    ‖∑ s ∈ A, if P s then c s else 0‖ ^ 2 = ∑ s ∈ A, if P s then ‖c s‖ ^ 2 else 0 := by
  classical
  by_cases hA : ∃ s ∈ A, P s
  · obtain ⟨s, hs, hP⟩ := hA
    rw [Finset.sum_eq_single_of_mem s hs, Finset.sum_eq_single_of_mem s hs, if_pos hP, if_pos hP]
    · intro s' hs' hne; rw [if_neg fun h' => hne (h s' hs' s hs h' hP)]
    · intro s' hs' hne; rw [if_neg fun h' => hne (h s' hs' s hs h' hP)]
  · push Not at hA
    rw [Finset.sum_eq_zero fun s hs => if_neg (hA s hs), Finset.sum_eq_zero fun s hs => if_neg (hA s hs)]
    simp

/-- Twice the squared amplitude at a frequency below the Nyquist frequency. -/
theorem power_of_tw {β : Type} (A : Finset β) (c : β → ℂ) (x : β → ℤ) (N : Nat) (y : Nat → ℝ)
    (hy : ∀ n < N, (y n : ℂ) = ∑ s ∈ A, c s * tw (x s * ((n : ℝ) / N))) (hinj : Set.InjOn x A)
    (hx : ∀ s ∈ A, 2 * |x s| < N) (r : Nat) (hr : 0 < r) (hr2 : 2 * r < N) :
    2 * power N y r = N ^ 2 * ∑ s ∈ A, if |x s| = r then ‖c s‖ ^ 2 else 0 := by
  have hN : 0 < N := by omega
  have one : ∀ (z : ℤ), |z| = r → ‖∑ n ∈ range N, (y n : ℂ) * tw (-((z : ℝ) * ((n : ℝ) / N)))‖ ^ 2 =
      N ^ 2 * ∑ s ∈ A, if x s = z then ‖c s‖ ^ 2 else 0 := by
    intro z hz
    have h1 : ∑ n ∈ range N, (y n : ℂ) * tw (-((z : ℝ) * ((n : ℝ) / N))) =
        (N : ℂ) * ∑ s ∈ A, if x s = z then c s else 0 := by
      have e : ∀ n ∈ range N, (y n : ℂ) * tw (-((z : ℝ) * ((n : ℝ) / N))) =
          ∑ s ∈ A, c s * tw (((x s - z : ℤ) : ℝ) * ((n : ℝ) / N)) := by
        intro n hn
        rw [hy n (Finset.mem_range.mp hn), Finset.sum_mul]
        refine Finset.sum_congr rfl fun s _ => ?_
        rw [mul_assoc, ← tw_add]
        congr 2
        push_cast
        ring
      rw [Finset.sum_congr rfl e, Finset.sum_comm, Finset.mul_sum]
      refine Finset.sum_congr rfl fun s hs => ?_
      rw [← Finset.mul_sum, sum_tw_period N hN]
      have hd : (N : ℤ) ∣ x s - z ↔ x s = z := by
        constructor
        · intro h
          have hlt : |x s - z| < N := by
            have := hx s hs
            have h3 := abs_sub (x s) z
            omega
          have := Int.eq_zero_of_abs_lt_dvd h hlt
          omega
        · intro h; rw [h]; simp
      by_cases h : x s = z
      · rw [if_pos (hd.mpr h), if_pos h]; ring
      · rw [if_neg fun h' => h (hd.mp h'), if_neg h]; ring
    rw [h1, norm_mul, mul_pow, norm_sq_sum_unique]
    · simp
    · intro s hs s' hs' h h'; exact hinj hs hs' (h.trans h'.symm)
  have hp := (power_eq_norm N y r).1
  have hm := (power_eq_norm N y r).2
  have h1 := one r (by simp)
  have h2 := one (-r) (by simp)
  have e1 : ∀ n : Nat, -(((r : ℤ) : ℝ) * ((n : ℝ) / N)) = -((r : ℝ) * ((n : ℝ) / N)) := by intro n; push_cast; ring
  have e2 : ∀ n : Nat, -(((-(r : ℤ) : ℤ) : ℝ) * ((n : ℝ) / N)) = (r : ℝ) * ((n : ℝ) / N) := by
    intro n; push_cast; ring
  simp_rw [e1] at h1
  simp_rw [e2] at h2
  rw [two_mul]
  nth_rewrite 1 [hp]
  rw [hm, h1, h2, ← mul_add, ← Finset.sum_add_distrib]
  congr 1
  refine Finset.sum_congr rfl fun s _ => ?_
  have hne : (r : ℤ) ≠ -r := by omega
  have habs : |x s| = r ↔ x s = r ∨ x s = -r := by
    constructor
    · intro h; exact eq_or_eq_neg_of_abs_eq h
    · rintro (h | h) <;> rw [h] <;> simp
  by_cases ha : x s = r
  · rw [if_pos ha, if_neg (by omega), if_pos (habs.mpr (Or.inl ha)), add_zero]
  · by_cases hb : x s = -r
    · rw [if_neg ha, if_pos hb, if_pos (habs.mpr (Or.inr hb)), zero_add]
    · rw [if_neg ha, if_neg hb, if_neg fun h => (habs.mp h).elim ha hb, add_zero]

/-- The same summed over a set of frequencies. -/
theorem sum_power_of_tw {β : Type} (A : Finset β) (c : β → ℂ) (x : β → ℤ) (N : Nat) (y : Nat → ℝ)
    (hy : ∀ n < N, (y n : ℂ) = ∑ s ∈ A, c s * tw (x s * ((n : ℝ) / N))) (hinj : Set.InjOn x A)
    (hx : ∀ s ∈ A, 2 * |x s| < N) (R : Finset Nat) (hR : ∀ r ∈ R, 0 < r ∧ 2 * r < N) :
    2 * ∑ r ∈ R, power N y r = N ^ 2 * ∑ s ∈ A, if (x s).natAbs ∈ R then ‖c s‖ ^ 2 else 0 := by
  rw [Finset.mul_sum, Finset.sum_congr rfl fun r hr => power_of_tw A c x N y hy hinj hx r (hR r hr).1 (hR r hr).2,
    ← Finset.mul_sum, Finset.sum_comm]
  congr 1
  refine Finset.sum_congr rfl fun s _ => ?_
  have : ∀ r : Nat, |x s| = r ↔ (x s).natAbs = r := by intro r; rw [Int.abs_eq_natAbs]; omega
  simp_rw [this]
  rw [Finset.sum_ite_eq R (x s).natAbs fun _ => ‖c s‖ ^ 2]

/-- The three sums the FAST analysis takes, for a trigonometric polynomial of degree `M` whose first angle runs with
frequency `w` and whose second angle counts `m` frequencies per degree, `2Mm ≤ w` and `2Mw < N`. -/
theorem torus_powers (N M w m : Nat) (hm : 1 ≤ m) (hM : 1 ≤ M) (hmw : 2 * M * m ≤ w) (hN : 2 * M * w < N) (c : ℤ × ℤ → ℂ)
    (u : ℝ) (y : Nat → ℝ)
    (hy : ∀ n < N, (y n : ℂ) = ∑ q ∈ torusSet m M, c q * tw (q.1 * (w * ((n : ℝ) / N) + u) + q.2 * ((n : ℝ) / N))) :
    2 * totalPower N y = N ^ 2 * ∑ q ∈ (torusSet m M).filter (· ≠ 0), ‖c q‖ ^ 2 ∧
    2 * harmonicPower N y M w = N ^ 2 * ∑ q ∈ ((torusSet m M).filter (· ≠ 0)).filter (·.2 = 0), ‖c q‖ ^ 2 ∧
    2 * bandPower N y (w / 2) = N ^ 2 * ∑ q ∈ ((torusSet m M).filter (· ≠ 0)).filter (·.1 = 0), ‖c q‖ ^ 2 := by
  classical
  have hw : 1 ≤ w := by
    have : 1 * 1 ≤ M * m := Nat.mul_le_mul hM hm
    have : 2 * M * m = 2 * (M * m) := by ring
    omega
  have hmz : (1 : ℤ) ≤ m := by exact_mod_cast hm
  have hMz : (1 : ℤ) ≤ M := by exact_mod_cast hM
  have hmwz : 2 * ((m : ℤ) * M) ≤ w := by
    have : ((2 * M * m : Nat) : ℤ) ≤ w := by exact_mod_cast hmw
    push_cast at this; linarith [mul_comm (m : ℤ) M]
  have hNz : 2 * ((M : ℤ) * w) < N := by
    have : ((2 * M * w : Nat) : ℤ) < N := by exact_mod_cast hN
    push_cast at this; linarith
  have hwz : (1 : ℤ) ≤ w := by exact_mod_cast hw
  set A := torusSet m M with hA
  let x : ℤ × ℤ → ℤ := fun q => q.1 * w + q.2
  have hmem : ∀ q ∈ A, (m : ℤ) * |q.1| + |q.2| ≤ (m : ℤ) * M := fun q hq => (mem_torusSet hm).mp hq
  -- a nonzero first frequency leaves less than `w - m` for the second
  have hsmall : ∀ q ∈ A, 2 * |q.2| + 2 * m * |q.1| ≤ w := by
    intro q hq
    have := hmem q hq
    nlinarith
  have hl : ∀ l : ℤ, l ≠ 0 → 1 ≤ |l| := fun l h => Int.one_le_abs h
  have hinj : Set.InjOn x A := by
    intro q hq q' hq' h
    have h1 := hsmall q hq
    have h2 := hsmall q' hq'
    have e : (q.1 - q'.1) * w = q'.2 - q.2 := by
      simp only [x] at h
      linarith [sub_mul q.1 q'.1 (w : ℤ)]
    have hz : q.1 = q'.1 := by
      by_contra hne
      have h3 := hl (q.1 - q'.1) (sub_ne_zero.mpr hne)
      have h4 : (w : ℤ) ≤ |q.1 - q'.1| * w := by nlinarith
      have h5 : |(q.1 - q'.1) * w| = |q.1 - q'.1| * w := by rw [abs_mul, abs_of_pos (a := (w : ℤ)) (by omega)]
      have h6 : |q'.2 - q.2| ≤ |q'.2| + |q.2| := abs_sub _ _
      rw [← e, h5] at h6
      have h7 : |q.1 - q'.1| ≤ |q.1| + |q'.1| := abs_sub _ _
      have h8 : (1 : ℤ) ≤ |q.1| + |q'.1| := by omega
      have h9 : (m : ℤ) ≤ m * (|q.1| + |q'.1|) := by nlinarith
      nlinarith
    refine Prod.ext hz ?_
    rw [hz, sub_self, zero_mul] at e
    omega
  have hbound : ∀ q ∈ A, 2 * |x q| < N := by
    intro q hq
    have h1 := hmem q hq
    have h2 : |x q| ≤ |q.1| * w + |q.2| := by
      have := abs_add_le (q.1 * (w : ℤ)) q.2
      rwa [abs_mul, abs_of_pos (a := (w : ℤ)) (by omega)] at this
    have h3 : |q.1| ≤ M := by
      have h0 := abs_nonneg q.2
      exact le_of_mul_le_mul_left (by linarith) (show (0 : ℤ) < m by omega)
    have h4 : |q.2| ≤ (M - |q.1|) * w := by
      have h5 : |q.2| ≤ (M - |q.1|) * m := by linarith [sub_mul (M : ℤ) |q.1| m, mul_comm (m : ℤ) M, mul_comm (m : ℤ) |q.1|]
      have h6 : (m : ℤ) ≤ w := by nlinarith
      have h7 : (M - |q.1|) * (m : ℤ) ≤ (M - |q.1|) * w := mul_le_mul_of_nonneg_left h6 (by omega)
      linarith
    have h5 : |q.1| * (w : ℤ) + (M - |q.1|) * w = M * w := by ring
    linarith
  have hy' : ∀ n < N, (y n : ℂ) = ∑ q ∈ A, (c q * tw (q.1 * u)) * tw (x q * ((n : ℝ) / N)) := by
    intro n hn
    rw [hy n hn]
    refine Finset.sum_congr rfl fun q _ => ?_
    rw [mul_assoc, ← tw_add]
    congr 2
    simp only [x]
    push_cast
    ring
  have hnorm : ∀ q, ‖c q * tw (q.1 * u)‖ = ‖c q‖ := by intro q; rw [norm_mul, norm_tw, mul_one]
  have key := sum_power_of_tw A _ x N y hy' hinj hbound
  simp only [hnorm] at key
  have hx0 : ∀ q ∈ A, x q = 0 → q = 0 := by
    intro q hq h
    have h0 : (0 : ℤ × ℤ) ∈ A := by
      rw [hA, mem_torusSet hm]; simp; positivity
    exact hinj hq h0 (by rw [h]; simp [x])
  refine ⟨?_, ?_, ?_⟩
  · unfold totalPower bandPower
    rw [key _ (by intro r hr; have := Finset.mem_Icc.mp hr; omega), Finset.sum_filter]
    congr 1
    refine Finset.sum_congr rfl fun q hq => if_congr ?_ rfl rfl
    rw [Finset.mem_Icc]
    have h1 := hbound q hq
    constructor
    · rintro ⟨h2, -⟩ rfl
      simp [x] at h2
    · intro h2
      have : x q ≠ 0 := fun h => h2 (hx0 q hq h)
      rw [Int.abs_eq_natAbs] at h1
      omega
  · unfold harmonicPower
    have himg : ∑ k ∈ Finset.Icc 1 M, power N y (k * w) = ∑ r ∈ (Finset.Icc 1 M).image (· * w), power N y r := by
      rw [Finset.sum_image]
      intro a _ b _ h
      exact Nat.eq_of_mul_eq_mul_right (by omega) h
    rw [himg, key, Finset.filter_filter, Finset.sum_filter]
    · congr 1
      refine Finset.sum_congr rfl fun q hq => if_congr ?_ rfl rfl
      rw [Finset.mem_image]
      constructor
      · rintro ⟨k, hk, h⟩
        have hk' := Finset.mem_Icc.mp hk
        have hpos : ∃ σ : ℤ, (σ = 1 ∨ σ = -1) ∧ x q = σ * k * w := by
          have h2 : ((x q).natAbs : ℤ) = ((k * w : Nat) : ℤ) := by exact_mod_cast h.symm
          rw [Int.natCast_natAbs] at h2
          push_cast at h2
          rcases abs_eq (by positivity) |>.mp h2 with h3 | h3
          · exact ⟨1, Or.inl rfl, by rw [h3]; ring⟩
          · exact ⟨-1, Or.inr rfl, by rw [h3]; ring⟩
        obtain ⟨σ, hσ, h2⟩ := hpos
        have hin : ((σ * k, 0) : ℤ × ℤ) ∈ A := by
          rw [hA, mem_torusSet hm, abs_mul]
          have : |σ| = 1 := by rcases hσ with rfl | rfl <;> simp
          rw [this]
          simp only [one_mul, Nat.abs_cast, abs_zero, add_zero]
          exact mul_le_mul_of_nonneg_left (by exact_mod_cast hk'.2) (by omega)
        have : q = (σ * k, 0) := hinj hq hin (by rw [h2]; simp [x])
        rw [this]
        refine ⟨fun h0 => ?_, rfl⟩
        have h3 : σ * (k : ℤ) = 0 := congrArg Prod.fst h0
        rcases mul_eq_zero.mp h3 with h4 | h4
        · rcases hσ with rfl | rfl <;> omega
        · omega
      · rintro ⟨h1, h2⟩
        have h3 := hmem q hq
        rw [h2, abs_zero, add_zero] at h3
        have h4 : |q.1| ≤ M := le_of_mul_le_mul_left h3 (by omega)
        have h5 : q.1 ≠ 0 := fun h => h1 (Prod.ext h h2)
        rw [Int.abs_eq_natAbs] at h4
        refine ⟨q.1.natAbs, Finset.mem_Icc.mpr ⟨by omega, by omega⟩, ?_⟩
        simp only [x, h2, add_zero, Int.natAbs_mul, Int.natAbs_natCast]
    · intro r hr
      obtain ⟨k, hk, rfl⟩ := Finset.mem_image.mp hr
      have hk' := Finset.mem_Icc.mp hk
      have h1 : 1 * 1 ≤ k * w := Nat.mul_le_mul hk'.1 hw
      have h2 : k * w ≤ M * w := Nat.mul_le_mul_right _ hk'.2
      have h3 : 2 * M * w = 2 * (M * w) := by ring
      exact ⟨by omega, by omega⟩
  · unfold bandPower
    rw [key, Finset.filter_filter, Finset.sum_filter]
    · congr 1
      refine Finset.sum_congr rfl fun q hq => if_congr ?_ rfl rfl
      rw [Finset.mem_Icc]
      have hs := hsmall q hq
      constructor
      · rintro ⟨h1, h2⟩
        refine ⟨fun h0 => by rw [h0] at h1; simp [x] at h1, ?_⟩
        by_contra hne
        have h3 := hl q.1 hne
        have h4 : |q.1| * w - |q.2| ≤ |x q| := by
          have := abs_sub_abs_le_abs_add (q.1 * (w : ℤ)) q.2
          rwa [abs_mul, abs_of_pos (a := (w : ℤ)) (by omega)] at this
        have h5 : 2 * |x q| ≤ w := by rw [Int.abs_eq_natAbs]; omega
        have h6 : (m : ℤ) ≤ m * |q.1| := by nlinarith
        nlinarith
      · rintro ⟨h1, h2⟩
        have h3 : x q = q.2 := by simp [x, h2]
        have h4 : q.2 ≠ 0 := fun h => h1 (Prod.ext h2 h)
        rw [h3]
        rw [h2] at hs
        rw [abs_zero, mul_zero, add_zero, Int.abs_eq_natAbs] at hs
        omega
    · intro r hr
      have := Finset.mem_Icc.mp hr
      have h3 : w ≤ M * w := Nat.le_mul_of_pos_left _ (by omega)
      have h4 : 2 * M * w = 2 * (M * w) := by ring
      omega

end SALib
