import Verif.Model.FloatCount
import Verif.Lemmas.FloatScale

/-! # Integer quotients by way of floating point -/

namespace SALib

variable {F : Fmt}

theorem isFloat_nat (hp : 1 ≤ F.p) (he : F.emin ≤ 0) {n : Nat} (h : n ≤ 2 ^ F.p) :
    IsFloat F n := by
  refine isFloat_of_le hp (m := n) (e := 0) he ?_ (by simp)
  rw [abs_of_nonneg (by omega)]
  exact_mod_cast h

/-- A quotient of non-negative integers rounds to a number with the same whole part. -/
theorem floor_fl_div (hp : 1 ≤ F.p) (hF : F.emin + F.p ≤ 0) (a b : Nat) (hb : 0 < b)
    (ha : a < 2 ^ F.p) : ⌊fl F ((a : ℚ) / b)⌋ = (a / b : Nat) := by
  have hbq : (0 : ℚ) < b := by exact_mod_cast hb
  have he : F.emin ≤ 0 := by omega
  rw [Int.floor_eq_iff]
  constructor
  · have hk : IsFloat F ((a / b : Nat) : ℚ) :=
      isFloat_nat hp he ((Nat.div_le_self a b).trans ha.le)
    have := le_fl_of_le (x := (a : ℚ) / b) hp hk (by
      rw [le_div_iff₀ hbq]; exact_mod_cast Nat.div_mul_le_self a b)
    exact_mod_cast this
  · have hk : (a : ℚ) + 1 ≤ b * (((a / b : Nat) : ℚ) + 1) := by
      have := Nat.lt_mul_div_succ a hb
      exact_mod_cast this
    have hu := two_zpow_pos (-(F.p : ℤ))
    have hau : (a : ℚ) + 1 ≤ 2 ^ F.p := by exact_mod_cast ha
    have hinv : (2 : ℚ) ^ (-(F.p : ℤ)) * 2 ^ F.p = 1 := by
      rw [← zpow_natCast, ← zpow_add₀ (by norm_num)]; simp
    rcases lt_or_ge a b with hab | hab
    · -- below one
      have hz : IsFloat F (1 - (2 : ℚ) ^ (-(F.p : ℤ))) := by
        refine ⟨2 ^ F.p - 1, -F.p, by omega, ?_, ?_⟩
        · have h1 : (1 : ℤ) ≤ 2 ^ F.p := one_le_pow₀ (by norm_num)
          rw [abs_of_nonneg (by omega)]; omega
        · push_cast; rw [sub_mul, one_mul, mul_comm ((2 : ℚ) ^ F.p), hinv]
      have hle : (a : ℚ) / b ≤ 1 - (2 : ℚ) ^ (-(F.p : ℤ)) := by
        rw [div_le_iff₀ hbq]
        have hab' : (a : ℚ) + 1 ≤ b := by exact_mod_cast hab
        rcases le_total (b : ℚ) (2 ^ F.p) with h | h
        · have : (2 : ℚ) ^ (-(F.p : ℤ)) * b ≤ 1 := by
            rw [← hinv]; exact mul_le_mul_of_nonneg_left h hu.le
          linarith
        · have h1 : 0 ≤ 1 - (2 : ℚ) ^ (-(F.p : ℤ)) := by
            have := two_zpow_le (a := -(F.p : ℤ)) (b := 0) (by omega)
            rw [zpow_zero] at this; linarith
          have h2 := mul_le_mul_of_nonneg_left h h1
          have h3 : (1 - (2 : ℚ) ^ (-(F.p : ℤ))) * 2 ^ F.p = 2 ^ F.p - 1 := by
            rw [sub_mul, hinv, one_mul]
          linarith
      have := fl_le_of_le hp hz hle
      have h0 : (((a / b : Nat) : ℤ) : ℚ) = 0 := by rw [Nat.div_eq_of_lt hab]; simp
      rw [h0]
      linarith
    · have h1 : (1 : ℚ) ≤ (a : ℚ) / b := by
        rw [le_div_iff₀ hbq, one_mul]; exact_mod_cast hab
      have hn : (2 : ℚ) ^ (F.emin + F.p - 1) ≤ |(a : ℚ) / b| := by
        rw [abs_of_pos (by linarith)]
        refine (two_zpow_le (b := 0) (by omega)).trans ?_
        rw [zpow_zero]; exact h1
      have h2 := fl_err_normal hn
      rw [abs_of_pos (by linarith : (0 : ℚ) < (a : ℚ) / b)] at h2
      have h3 := (abs_le.1 h2).2
      have h4 : (a : ℚ) / b * (2 : ℚ) ^ (-(F.p : ℤ)) < 1 / b := by
        rw [div_mul_eq_mul_div, div_lt_div_iff_of_pos_right hbq]
        calc (a : ℚ) * (2 : ℚ) ^ (-(F.p : ℤ)) < 2 ^ F.p * (2 : ℚ) ^ (-(F.p : ℤ)) :=
              mul_lt_mul_of_pos_right (by linarith) hu
          _ = 1 := by rw [mul_comm, hinv]
      have h5 : ((a : ℚ) + 1) / b ≤ ((a / b : Nat) : ℚ) + 1 := by
        rw [div_le_iff₀ hbq]; linarith
      rw [add_div] at h5
      rw [Int.cast_natCast]
      linarith

theorem intDivFl_eq (hp : 1 ≤ F.p) (hF : F.emin + F.p ≤ 0) (a b : Nat) (hb : 0 < b)
    (ha : a < 2 ^ F.p) : intDivFl F a b = (a / b : Nat) := floor_fl_div hp hF a b hb ha

/-- Halves are exact. -/
theorem isFloat_half (hp : 1 ≤ F.p) (hF : F.emin + F.p ≤ 0) (n : Nat) (h : n ≤ 2 ^ F.p) :
    IsFloat F ((n : ℚ) / 2) := by
  refine isFloat_of_le hp (m := n) (e := -1) (by omega) ?_ (by norm_num; ring)
  rw [abs_of_nonneg (by omega)]
  exact_mod_cast h

theorem ceil_half (n : Nat) : ⌈(n : ℚ) / 2⌉ = ((n + 1) / 2 : Nat) := by
  rw [Int.ceil_eq_iff]
  rcases Nat.even_or_odd' n with ⟨k, rfl | rfl⟩
  · rw [show (2 * k + 1) / 2 = k by omega]; push_cast; constructor <;> linarith
  · rw [show (2 * k + 1 + 1) / 2 = k + 1 by omega]; push_cast; constructor <;> linarith

/-! ## The frequencies of FAST -/

/-- Entry `k` of the rounded grid lies close to the exact one. -/
theorem linspaceEntryFl_err (hp : 2 ≤ F.p) (hF : F.emin + F.p ≤ 0) (m n k : Nat) (hn : 2 ≤ n)
    (hmn : n ≤ m) (hk : k + 1 < n) (hm : m ≤ 2 ^ F.p) :
    |linspaceEntryFl F 1 m n k - (1 + (k : ℚ) * ((m : ℚ) - 1) / ((n : ℚ) - 1))|
      ≤ 4 * m * (2 : ℚ) ^ (-(F.p : ℤ)) := by
  have hp1 : 1 ≤ F.p := by omega
  have he : F.emin ≤ 0 := by omega
  have hmf : IsFloat F (m : ℚ) := isFloat_nat hp1 he hm
  have h1f : IsFloat F 1 := isFloat_one hp1 he
  have hn1 : (1 : ℚ) ≤ (n : ℚ) - 1 := by
    have : (2 : ℚ) ≤ n := by exact_mod_cast hn
    linarith
  have hmnq : (n : ℚ) ≤ m := by exact_mod_cast hmn
  have hkn : (k : ℚ) + 1 ≤ (n : ℚ) - 1 := by
    have : (k : ℚ) + 1 + 1 ≤ n := by exact_mod_cast hk
    linarith
  have hk0 : (0 : ℚ) ≤ k := by positivity
  have hd : fsub F (m : ℚ) 1 = (m : ℚ) - 1 := by
    unfold fsub
    refine fl_eq hp1 ?_
    have : ((m - 1 : Nat) : ℚ) = (m : ℚ) - 1 := by
      have : 1 ≤ m := by omega
      push_cast [this]; ring
    rw [← this]
    exact isFloat_nat hp1 he ((Nat.sub_le _ _).trans hm)
  have hu := two_zpow_pos (-(F.p : ℤ))
  have hu4 := u_le_quarter hp
  have hnorm : ∀ x : ℚ, 1 ≤ x → |fl F x - x| ≤ x * (2 : ℚ) ^ (-(F.p : ℤ)) := by
    intro x hx
    have := fl_err_normal (F := F) (x := x) (by
      rw [abs_of_pos (by linarith)]
      refine (two_zpow_le (b := 0) (by omega)).trans ?_
      rw [zpow_zero]; exact hx)
    rwa [abs_of_pos (by linarith : 0 < x)] at this
  set s : ℚ := ((m : ℚ) - 1) / ((n : ℚ) - 1) with hs
  have hs1 : 1 ≤ s := by rw [hs, le_div_iff₀ (by linarith)]; linarith
  set st := fdiv F (fsub F (m : ℚ) 1) ((n : ℚ) - 1) with hst
  have hst_eq : st = fl F s := by rw [hst, hd]; rfl
  have hste := hnorm s hs1
  have hst1 : 1 ≤ st := by
    rw [hst_eq]; exact le_fl_of_le hp1 h1f hs1
  have hval : linspaceEntryFl F 1 m n k = fadd F (fmul F k st) 1 := by
    unfold linspaceEntryFl
    rw [if_neg (by omega), if_neg (by omega), if_neg (by rw [← hst]; linarith)]
  rw [hval, mul_div_assoc]
  rw [← hst_eq] at hste
  rcases Nat.eq_zero_or_pos k with h0 | hkpos
  · subst h0
    have : fadd F (fmul F ((0 : Nat) : ℚ) st) 1 = 1 := by
      unfold fadd fmul
      rw [Nat.cast_zero, zero_mul, fl_zero, zero_add, fl_eq hp1 h1f]
    rw [this]
    simp only [Nat.cast_zero, zero_mul, add_zero, sub_self, abs_zero]
    positivity
  have hk1 : (1 : ℚ) ≤ k := by exact_mod_cast hkpos
  have hks : (k : ℚ) * s ≤ m - 2 := by
    have h1 : (k : ℚ) * s = ((m : ℚ) - 1) - ((n : ℚ) - 1 - k) * s := by
      have : ((n : ℚ) - 1) * s = (m : ℚ) - 1 := by rw [hs]; field_simp
      linarith
    nlinarith
  have hkst1 : 1 ≤ (k : ℚ) * st := by nlinarith
  have hq := hnorm _ hkst1
  have hq1 : 1 ≤ fmul F k st := le_fl_of_le hp1 h1f hkst1
  have hy := hnorm (fmul F k st + 1) (by linarith)
  change |fadd F (fmul F k st) 1 - (fmul F k st + 1)| ≤ _ at hy
  change |fmul F k st - k * st| ≤ _ at hq
  generalize fadd F (fmul F k st) 1 = y at *
  generalize fmul F k st = q at *
  generalize (2 : ℚ) ^ (-(F.p : ℤ)) = u at *
  have a1 : |(k : ℚ) * st - k * s| ≤ k * s * u := by
    rw [← mul_sub, abs_mul, abs_of_nonneg hk0, mul_assoc]
    exact mul_le_mul_of_nonneg_left hste hk0
  have a2 : (k : ℚ) * st ≤ k * s * (1 + u) := by linarith [(abs_le.1 a1).2]
  have a3 : |q - k * s| ≤ k * s * (2 * u + u * u) := by
    have := abs_sub_le q (k * st) (k * s)
    have := mul_le_mul_of_nonneg_right a2 hu.le
    nlinarith
  have a4 : q ≤ k * s * (1 + 2 * u + u * u) := by linarith [(abs_le.1 a3).2]
  have a5 : |y - (1 + k * s)| ≤ (q + 1) * u + k * s * (2 * u + u * u) := by
    have h1 := abs_sub_le y (q + 1) (1 + k * s)
    have e : q + 1 - (1 + k * s) = q - k * s := by ring
    rw [e] at h1
    linarith
  have hks0 : 0 ≤ (k : ℚ) * s := by positivity
  have a6 : (q + 1) * u ≤ (k * s * (1 + 2 * u + u * u) + 1) * u :=
    mul_le_mul_of_nonneg_right (by linarith) hu.le
  refine a5.trans ?_
  have b1 : (k : ℚ) * s * u * u ≤ k * s * u * (1 / 4) :=
    mul_le_mul_of_nonneg_left hu4 (by positivity)
  have b2 : (k : ℚ) * s * u * u * u ≤ k * s * u * u * (1 / 4) :=
    mul_le_mul_of_nonneg_left hu4 (by positivity)
  have b3 : (k : ℚ) * s * u ≤ (m - 2) * u := mul_le_mul_of_nonneg_right hks hu.le
  nlinarith

/-- The frequency differs from the exact one only where that needs no rounding down, and then by
one at most. -/
theorem floor_linspaceEntryFl (hp : 2 ≤ F.p) (hF : F.emin + F.p ≤ 0) (m n k : Nat) (hn : 2 ≤ n)
    (hmn : n ≤ m) (hk : k < n) (hsmall : 4 * m * (n - 1) < 2 ^ F.p) :
    ⌊linspaceEntryFl F 1 m n k⌋ = (1 + k * (m - 1) / (n - 1) : Nat) ∨
      (⌊linspaceEntryFl F 1 m n k⌋ = (k * (m - 1) / (n - 1) : Nat) ∧ (n - 1) ∣ k * (m - 1) ∧
        0 < k ∧ k + 1 < n ∧ n < m) := by
  have hp1 : 1 ≤ F.p := by omega
  have he : F.emin ≤ 0 := by omega
  have hm : m ≤ 2 ^ F.p := by nlinarith [Nat.sub_add_cancel (show 1 ≤ n by omega)]
  obtain ⟨d, rfl⟩ : ∃ d, n = d + 1 := ⟨n - 1, by omega⟩
  obtain ⟨t, rfl⟩ : ∃ t, m = t + 1 := ⟨m - 1, by omega⟩
  simp only [Nat.add_sub_cancel] at hsmall ⊢
  by_cases hlast : k + 1 = d + 1
  · left
    have hkd : k = d := by omega
    have hv : linspaceEntryFl F 1 ((t + 1 : Nat) : ℚ) (d + 1) k = ((t + 1 : Nat) : ℚ) := by
      unfold linspaceEntryFl
      rw [if_neg (by omega), if_pos hlast]
    rw [hv, hkd, Nat.mul_div_cancel_left _ (by omega), Nat.add_comm 1 t]
    exact Int.floor_natCast _
  have hk' : k + 1 < d + 1 := by omega
  have hd : 0 < d := by omega
  have hdq : (0 : ℚ) < d := by exact_mod_cast hd
  have herr := linspaceEntryFl_err hp hF (t + 1) (d + 1) k hn hmn hk' hm
  set q := k * t / d with hq
  have hmod := Nat.div_add_mod (k * t) d
  rw [← hq] at hmod
  have hmodlt := Nat.mod_lt (k * t) hd
  set r := k * t % d with hr
  have hex : (k : ℚ) * (((t + 1 : Nat) : ℚ) - 1) / (((d + 1 : Nat) : ℚ) - 1) = q + r / d := by
    have h1 : ((d * q + r : Nat) : ℚ) = ((k * t : Nat) : ℚ) := by rw [hmod]
    push_cast at h1 ⊢
    rw [add_sub_cancel_right, add_sub_cancel_right, ← h1]
    field_simp
  rw [hex] at herr
  have hu := two_zpow_pos (-(F.p : ℤ))
  have hinv : (2 : ℚ) ^ (-(F.p : ℤ)) * 2 ^ F.p = 1 := by
    rw [← zpow_natCast, ← zpow_add₀ (by norm_num)]; simp
  have hlt : 4 * ((t + 1 : Nat) : ℚ) * (2 : ℚ) ^ (-(F.p : ℤ)) < 1 / d := by
    rw [lt_div_iff₀ hdq]
    have h1 : (4 * ((t + 1 : Nat) : ℚ) * d) < 2 ^ F.p := by exact_mod_cast hsmall
    have h2 := mul_lt_mul_of_pos_left h1 hu
    rw [hinv] at h2
    linarith
  have hb := abs_le.1 herr
  generalize hy : linspaceEntryFl F 1 ((t + 1 : Nat) : ℚ) (d + 1) k = y at *
  generalize 4 * ((t + 1 : Nat) : ℚ) * (2 : ℚ) ^ (-(F.p : ℤ)) = ε at *
  have hr1 : (r : ℚ) / d ≤ 1 - 1 / d := by
    have : (r : ℚ) + 1 ≤ d := by exact_mod_cast hmodlt
    rw [div_le_iff₀ hdq, sub_mul, one_div, inv_mul_cancel₀ hdq.ne']; linarith
  have hd1 : (1 : ℚ) / d ≤ 1 := by
    rw [div_le_one hdq]; exact_mod_cast hd
  rcases Nat.eq_zero_or_pos r with h0 | hpos
  · -- a whole number
    rw [h0] at hb
    simp only [Nat.cast_zero, zero_div, add_zero] at hb
    rcases le_or_gt ((q : ℚ) + 1) y with hge | hlt'
    · left
      rw [Int.floor_eq_iff]; push_cast; constructor <;> linarith
    · right
      refine ⟨?_, Nat.dvd_of_mod_eq_zero (hr ▸ h0), ?_, hk', ?_⟩
      · rw [Int.floor_eq_iff]; push_cast; constructor <;> linarith
      · rcases Nat.eq_zero_or_pos k with hk0 | hk0
        · exfalso
          have hq0 : q = 0 := by rw [hq, hk0]; simp
          have h1f : IsFloat F 1 := isFloat_one hp1 he
          have : (1 : ℚ) ≤ y := by
            rw [← hy]
            unfold linspaceEntryFl
            rw [if_neg (by omega), if_neg (by omega), hk0]
            split_ifs <;>
            · unfold fadd fmul fdiv
              simp only [Nat.cast_zero, zero_div, fl_zero, zero_mul, zero_add]
              rw [fl_eq hp1 h1f]
          rw [hq0] at hlt'
          simp only [Nat.cast_zero, zero_add] at hlt'
          linarith
        · exact hk0
      · -- with a step of one nothing is rounded
        rcases hmn.lt_or_eq with h | h
        · exact h
        · exfalso
          have htd : t = d := by omega
          have hqk : q = k := by rw [hq, htd, Nat.mul_div_cancel _ hd]
          have h1f : IsFloat F 1 := isFloat_one hp1 he
          have hdf : IsFloat F ((d : Nat) : ℚ) := isFloat_nat hp1 he (by omega)
          have hkf : IsFloat F ((k : Nat) : ℚ) := isFloat_nat hp1 he (by omega)
          have hkf1 : IsFloat F ((k : ℚ) + 1) := by
            have := isFloat_nat (F := F) (n := k + 1) hp1 he (by omega)
            exact_mod_cast this
          have : y = (k : ℚ) + 1 := by
            rw [← hy]
            unfold linspaceEntryFl
            have e1 : fsub F ((t + 1 : Nat) : ℚ) 1 = d := by
              unfold fsub; push_cast; rw [add_sub_cancel_right, htd, fl_eq hp1 hdf]
            have e2 : fdiv F (fsub F ((t + 1 : Nat) : ℚ) 1) (((d + 1 : Nat) : ℚ) - 1) = 1 := by
              rw [e1]; unfold fdiv; push_cast
              rw [add_sub_cancel_right, div_self hdq.ne', fl_eq hp1 h1f]
            simp only [e2]
            rw [if_neg (by omega), if_neg (by omega), if_neg (by norm_num)]
            unfold fadd fmul
            rw [mul_one, fl_eq hp1 hkf, fl_eq hp1 hkf1]
          rw [this, hqk] at hlt'
          exact lt_irrefl _ hlt'
  · left
    have hr2 : (1 : ℚ) / d ≤ r / d := by
      rw [div_le_div_iff_of_pos_right hdq]; exact_mod_cast hpos
    rw [Int.floor_eq_iff]; push_cast; constructor <;> linarith

end SALib
