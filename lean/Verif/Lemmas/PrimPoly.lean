import Verif.Spec.PrimPoly
import Mathlib.RingTheory.AdjoinRoot
import Mathlib.RingTheory.Polynomial.Basic
import Mathlib.GroupTheory.OrderOfElement
import Mathlib.Data.List.Prime
import Mathlib.Data.Nat.Prime.Basic
import Mathlib.Algebra.Field.ZMod

/-! # Primitivity from the order of `x`

Powers of `x` modulo many polynomials of one degree at once: entry `i` of a list (highest power first) holds in bit `l`
the coefficient belonging to polynomial `l`. -/

namespace SALib
open Spec Polynomial

/-! ## One polynomial: order implies irreducible -/

theorem primitive_of_order {s : Nat} (hs : 1 ≤ s) (P : (ZMod 2)[X]) (hd : P.natDegree = s) (hm : P.Monic)
    (hord : ∀ k : Nat, P ∣ X ^ k - 1 ↔ 2 ^ s - 1 ∣ k) : PrimitivePoly s P := by
  haveI : Fact (Nat.Prime 2) := ⟨Nat.prime_two⟩
  refine ⟨hd, ?_, hord⟩
  have hE : 0 < 2 ^ s - 1 := by
    have := Nat.one_lt_two_pow (n := s) (by omega)
    omega
  -- `x^k mod P`, for `k < 2^s - 1`, as nonzero polynomials of degree below `s`
  let S := {p : degreeLT (ZMod 2) s // p ≠ 0}
  haveI : Fintype (degreeLT (ZMod 2) s) := Fintype.ofEquiv _ (degreeLTEquiv (ZMod 2) s).toEquiv.symm
  classical
  have hcard : Fintype.card S = 2 ^ s - 1 := by
    rw [Fintype.card_subtype_compl, Fintype.card_subtype_eq, Fintype.card_congr (degreeLTEquiv (ZMod 2) s).toEquiv]
    simp
  have hP0 : P ≠ 0 := hm.ne_zero
  have hlt : ∀ q : (ZMod 2)[X], q %ₘ P ∈ degreeLT (ZMod 2) s := by
    intro q
    rw [mem_degreeLT, ← hd, ← degree_eq_natDegree hP0]
    exact degree_modByMonic_lt q hm
  have hunit : ∀ k : Nat, ∃ m : Nat, P ∣ X ^ k * X ^ m - 1 := by
    intro k
    refine ⟨(2 ^ s - 1) * k - k, ?_⟩
    rw [← pow_add, hord]
    have : k + ((2 ^ s - 1) * k - k) = (2 ^ s - 1) * k := by
      have := Nat.le_mul_of_pos_left k hE
      omega
    rw [this]
    exact Dvd.intro _ rfl
  have hPu : ¬ IsUnit P := by
    intro hu
    have := natDegree_eq_zero_of_isUnit hu
    omega
  have hne : ∀ k : Nat, X ^ k %ₘ P ≠ 0 := by
    intro k h0
    rw [modByMonic_eq_zero_iff_dvd hm] at h0
    obtain ⟨m, hm'⟩ := hunit k
    have h1 : P ∣ 1 := by
      have := dvd_sub (h0.mul_right (X ^ m)) hm'
      simpa using this
    exact hPu (isUnit_of_dvd_one h1)
  have hcong : ∀ p q : (ZMod 2)[X], p %ₘ P = q %ₘ P → P ∣ p - q := by
    intro p q h
    rw [← modByMonic_eq_zero_iff_dvd hm, sub_modByMonic, h, sub_self]
  let f : Fin (2 ^ s - 1) → S := fun k => ⟨⟨X ^ k.val %ₘ P, hlt _⟩, by
    intro h
    exact hne k.val (by simpa using congrArg Subtype.val h)⟩
  have hinj : Function.Injective f := by
    have key : ∀ i j : Nat, i ≤ j → j < 2 ^ s - 1 → X ^ i %ₘ P = X ^ j %ₘ P → i = j := by
      intro i j hij hj h
      have h1 := hcong _ _ h.symm
      obtain ⟨m, hm'⟩ := hunit i
      have h2 : P ∣ X ^ (j - i) - 1 := by
        have e : (X ^ (j - i) - 1 : (ZMod 2)[X]) =
            (X ^ j - X ^ i) * X ^ m - (X ^ (j - i) - 1) * (X ^ i * X ^ m - 1) := by
          have : (X ^ j : (ZMod 2)[X]) = X ^ (j - i) * X ^ i := by rw [← pow_add]; congr 1; omega
          rw [this]; ring
        rw [e]
        exact dvd_sub (h1.mul_right _) (hm'.mul_left _)
      rw [hord] at h2
      have := Nat.eq_zero_of_dvd_of_lt h2 (by omega)
      omega
    intro i j h
    have h' : X ^ i.val %ₘ P = X ^ j.val %ₘ P := by
      have := congrArg (fun t : S => (t.val : (ZMod 2)[X])) h
      exact this
    ext
    rcases Nat.le_total i.val j.val with hij | hij
    · exact key _ _ hij j.isLt h'
    · exact (key _ _ hij i.isLt h'.symm).symm
  have hsurj : Function.Surjective f :=
    ((Fintype.bijective_iff_injective_and_card f).mpr ⟨hinj, by rw [hcard, Fintype.card_fin]⟩).2
  -- a proper factor is a power of `x`, hence a unit
  have hfac : ∀ g : (ZMod 2)[X], g ≠ 0 → g ∣ P → g.degree < s → IsUnit g := by
    intro g hg0 hgP hgd
    obtain ⟨k, hk⟩ := hsurj ⟨⟨g, mem_degreeLT.mpr hgd⟩, fun h => hg0 (congrArg Subtype.val h)⟩
    have hk' : X ^ k.val %ₘ P = g := congrArg (fun t : S => (t.val : (ZMod 2)[X])) hk
    have h1 : P ∣ X ^ k.val - g := by
      apply hcong
      rw [← hk', (modByMonic_eq_self_iff hm).mpr (degree_modByMonic_lt _ hm)]
    obtain ⟨m, hm'⟩ := hunit k.val
    have h2 : g ∣ X ^ k.val := by
      have := dvd_add (hgP.trans h1) (dvd_refl g)
      simpa using this
    have h3 : g ∣ 1 := by
      have := dvd_sub (h2.mul_right (X ^ m)) (hgP.trans hm')
      simpa using this
    exact isUnit_of_dvd_one h3
  refine ⟨hPu, ?_⟩
  intro a b hab
  have ha0 : a ≠ 0 := by rintro rfl; simp at hab; exact hP0 hab
  have hb0 : b ≠ 0 := by rintro rfl; simp at hab; exact hP0 hab
  have hdeg : a.natDegree + b.natDegree = s := by rw [← natDegree_mul ha0 hb0, ← hab, hd]
  by_cases ha : a.natDegree < s
  · left
    apply hfac a ha0 (hab ▸ Dvd.intro _ rfl)
    rw [degree_eq_natDegree ha0]
    exact_mod_cast ha
  · right
    apply hfac b hb0 (hab ▸ Dvd.intro_left _ rfl)
    rw [degree_eq_natDegree hb0]
    have : b.natDegree < s := by omega
    exact_mod_cast this

end SALib
