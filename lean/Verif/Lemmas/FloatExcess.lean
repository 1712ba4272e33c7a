import Verif.Lemmas.FloatLevels

/-! # One level too many -/

namespace SALib

variable {F : Fmt}

/-- When the rounded reciprocal of the step exceeds the count, the last level is below 1. -/
theorem levelOf_lt_one {S : Nat} (h : SmallCount F S) (hq : (S : ℚ) < fl F (1 / stepOf F S)) : levelOf F S S < 1 := by
  have hp : 1 ≤ F.p := by have := h.prec; omega
  have hS : (0 : ℚ) < S := by exact_mod_cast h.pos
  have hd := stepOf_pos h
  set q := fl F (1 / stepOf F S) with hqd
  set L := Nat.log 2 S with hL
  have hSlow : 2 ^ L ≤ S := Nat.pow_log_le_self 2 (by have := h.pos; omega)
  have hSup : S + 1 ≤ 2 ^ (L + 1) := Nat.lt_pow_succ_log_self (by norm_num) S
  have hlogS : Int.log 2 (S : ℚ) = (L : ℤ) := by rw [Int.log_natCast]
  have hLp : L + 4 ≤ F.p := by
    have : 2 ^ (L + 4) ≤ 2 ^ F.p := by
      calc 2 ^ (L + 4) = 2 ^ L * 16 := by rw [pow_add]; norm_num
        _ ≤ S * 16 := by omega
        _ ≤ 2 ^ F.p := h.le
    exact (Nat.pow_le_pow_iff_right (by norm_num)).mp this
  have mult : ∀ x : ℚ, IsFloat F x → (S : ℚ) ≤ x → ∃ n : ℤ, x = n * (2 : ℚ) ^ ((L : ℤ) - F.p + 1) := by
    intro x hx hSx
    obtain ⟨n, hn⟩ := hx.div_ulp hp
    have hle : (L : ℤ) - F.p + 1 ≤ ulpExp F x := by
      refine le_trans ?_ (log_le_ulpExp x)
      have := Int.log_mono_right (b := 2) hS hSx
      rw [hlogS] at this
      rw [abs_of_pos (lt_of_lt_of_le hS hSx)]
      omega
    obtain ⟨k, hk⟩ := two_zpow_div_int hle
    refine ⟨n * k, ?_⟩
    have h1 := two_zpow_pos (ulpExp F x)
    have h2 := two_zpow_pos ((L : ℤ) - F.p + 1)
    rw [div_eq_iff h1.ne'] at hn
    rw [div_eq_iff h2.ne'] at hk
    rw [hn, hk]
    push_cast
    ring
  have hgap : (S : ℚ) + (2 : ℚ) ^ ((L : ℤ) - F.p + 1) ≤ q := by
    obtain ⟨n, hn⟩ := mult q (isFloat_fl hp _) hq.le
    obtain ⟨m, hm⟩ := mult S h.isFloat_count le_rfl
    have h2 := two_zpow_pos ((L : ℤ) - F.p + 1)
    rw [hn, hm] at hq ⊢
    have hlt : (m : ℚ) < n := lt_of_mul_lt_mul_right hq h2.le
    have : (m : ℚ) + 1 ≤ n := by exact_mod_cast Int.add_one_le_iff.mpr (by exact_mod_cast hlt)
    nlinarith
  have hhalf : (2 : ℚ) ^ ((L : ℤ) - F.p + 1) = 2 * ((2 : ℚ) ^ L * halfUlp F) := by
    unfold halfUlp
    rw [zpow_add_one₀ (by norm_num), sub_eq_add_neg, zpow_add₀ (by norm_num), zpow_natCast]
    ring
  rw [hhalf] at hgap
  have hrecip : (S : ℚ) + (2 : ℚ) ^ L * halfUlp F ≤ 1 / stepOf F S := by
    have hn := fl_nearest hp (1 / stepOf F S) S h.isFloat_count
    rw [← hqd] at hn
    by_contra hc
    rw [not_le] at hc
    rw [abs_of_pos (by linarith)] at hn
    rcases le_total (S : ℚ) (1 / stepOf F S) with hh | hh
    · rw [abs_of_nonpos (by linarith)] at hn
      linarith
    · rw [abs_of_nonneg (by linarith)] at hn
      linarith
  have hu := halfUlp_pos (F := F)
  have h2L : (0 : ℚ) < (2 : ℚ) ^ L := by positivity
  have hsmall : (2 : ℚ) ^ L * halfUlp F ≤ 1 / 16 := by
    have : ((2 ^ L : ℕ) : ℚ) ≤ S := by exact_mod_cast hSlow
    push_cast at this
    have h3 := h.mul_le
    nlinarith
  have hSup' : (S : ℚ) + 1 ≤ 2 * (2 : ℚ) ^ L := by
    have : ((S + 1 : ℕ) : ℚ) ≤ ((2 ^ (L + 1) : ℕ) : ℚ) := by exact_mod_cast hSup
    push_cast at this
    rw [pow_succ] at this
    linarith
  have hx : S * stepOf F S < 1 - halfUlp F / 2 := by
    rw [le_div_iff₀ hd] at hrecip
    have : stepOf F S * (2 * (2 : ℚ) ^ L) > 1 := by
      have : stepOf F S * (S + 2 ^ L * halfUlp F) < stepOf F S * (2 * (2 : ℚ) ^ L) := by
        apply mul_lt_mul_of_pos_left _ hd
        linarith
      have h5 : 1 - halfUlp F ≤ S * stepOf F S := by linarith [(abs_le.mp (stepOf_near h)).1]
      have h6 : stepOf F S * (S + 1) ≤ stepOf F S * (2 * 2 ^ L) := mul_le_mul_of_nonneg_left hSup' hd.le
      have h7 : 4 * halfUlp F ≤ stepOf F S := by
        have : S * (4 * halfUlp F) ≤ S * stepOf F S := by linarith [h.halfUlp_le, h.mul_le]
        exact le_of_mul_le_mul_left this hS
      nlinarith
    nlinarith
  have hle : levelOf F S S ≤ 1 := levelOf_le_one h S le_rfl
  rcases lt_or_eq_of_le hle with hlt | heq
  · exact hlt
  · exfalso
    have hg : IsFloat F (1 - halfUlp F) := by
      refine ⟨2 ^ F.p - 1, -(F.p : ℤ), by have := h.range; omega, ?_, ?_⟩
      · have : (1 : ℤ) ≤ 2 ^ F.p := one_le_pow₀ (by norm_num)
        rw [abs_of_nonneg (by omega)]; omega
      · unfold halfUlp
        rw [zpow_neg, zpow_natCast]
        push_cast
        have : (2 : ℚ) ^ F.p ≠ 0 := by positivity
        field_simp
    have hn := fl_nearest hp (S * stepOf F S) (1 - halfUlp F) hg
    unfold levelOf at heq
    rw [heq, abs_of_pos (by linarith)] at hn
    rcases le_total (1 - halfUlp F) (S * stepOf F S) with hh | hh
    · rw [abs_of_nonpos (by linarith)] at hn
      linarith
    · rw [abs_of_nonneg (by linarith)] at hn
      linarith

end SALib
