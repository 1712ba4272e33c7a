import Verif.Spec.Fast
import Mathlib.Analysis.SpecialFunctions.Integrals.Basic
import Mathlib.Analysis.SpecialFunctions.Trigonometric.Inverse
import Mathlib.Algebra.MvPolynomial.Eval
import Mathlib.Algebra.MvPolynomial.Degrees

/-! # Trigonometric polynomials of two angles: algebra, integrals, values along a line on the torus -/

namespace SALib

open Real Finset

/-- `exp(2πix)`. -/
noncomputable def tw (x : ℝ) : ℂ := Complex.exp (2 * π * x * Complex.I)

theorem tw_zero : tw 0 = 1 := by simp [tw]

theorem tw_add (x y : ℝ) : tw (x + y) = tw x * tw y := by
  unfold tw
  rw [← Complex.exp_add]
  congr 1
  push_cast
  ring

theorem tw_eq (x : ℝ) : tw x = ((2 * π * x : ℝ) : ℂ).cos + ((2 * π * x : ℝ) : ℂ).sin * Complex.I := by
  unfold tw
  rw [← Complex.exp_mul_I]
  congr 1
  push_cast
  ring

theorem norm_tw (x : ℝ) : ‖tw x‖ = 1 := by
  unfold tw
  rw [show (2 * π * x * Complex.I : ℂ) = ((2 * π * x : ℝ) : ℂ) * Complex.I by push_cast; ring]
  exact Complex.norm_exp_ofReal_mul_I _

theorem conj_tw (x : ℝ) : (starRingEnd ℂ) (tw x) = tw (-x) := by
  unfold tw
  rw [← Complex.exp_conj]
  congr 1
  simp only [map_mul, Complex.conj_ofReal, Complex.conj_I, Complex.conj_ofNat]
  push_cast
  ring

theorem tw_int (z : ℤ) : tw z = 1 := by
  unfold tw
  rw [Complex.exp_eq_one_iff]
  exact ⟨z, by push_cast; ring⟩

theorem tw_eq_one_iff (x : ℝ) : tw x = 1 ↔ ∃ z : ℤ, x = z := by
  unfold tw
  rw [Complex.exp_eq_one_iff]
  constructor
  · rintro ⟨z, h⟩
    refine ⟨z, ?_⟩
    have hp : (2 * π * Complex.I : ℂ) ≠ 0 := Complex.two_pi_I_ne_zero
    have : (x : ℂ) = z := by
      apply mul_right_cancel₀ hp
      rw [← h]; ring
    exact_mod_cast this
  · rintro ⟨z, rfl⟩
    exact ⟨z, by push_cast; ring⟩

theorem continuous_tw : Continuous tw := by unfold tw; fun_prop

/-- The sine as a combination of two exponentials. -/
theorem sin_eq_tw (x : ℝ) : ((sin (2 * π * x) : ℝ) : ℂ) = -Complex.I / 2 * tw x + Complex.I / 2 * tw (-x) := by
  rw [tw_eq, tw_eq]
  push_cast
  rw [show (2 * π * -x : ℂ) = -(2 * π * x) by ring, Complex.cos_neg, Complex.sin_neg]
  linear_combination (Complex.sin (2 * π * x)) * Complex.I_sq

theorem integral_tw (z : ℤ) : ∫ a in (0 : ℝ)..1, tw (z * a) = if z = 0 then 1 else 0 := by
  by_cases h : z = 0
  · subst h
    simp [tw_zero]
  · rw [if_neg h]
    have e : ∀ a : ℝ, tw (z * a) = Complex.exp ((2 * π * Complex.I * z) * a) := by
      intro a; unfold tw; congr 1; push_cast; ring
    have hc : (2 * π * Complex.I * z : ℂ) ≠ 0 :=
      mul_ne_zero Complex.two_pi_I_ne_zero (by exact_mod_cast h)
    simp_rw [e]
    rw [integral_exp_mul_complex hc]
    have := tw_int z
    unfold tw at this
    rw [show (2 * π * Complex.I * z * (1 : ℝ) : ℂ) = 2 * π * ((z : ℝ) : ℂ) * Complex.I by push_cast; ring, this]
    simp

theorem integral_sum_tw {β : Type} (S : Finset β) (d : β → ℂ) (x : β → ℤ) :
    ∫ a in (0 : ℝ)..1, ∑ s ∈ S, d s * tw (x s * a) = ∑ s ∈ S, if x s = 0 then d s else 0 := by
  rw [intervalIntegral.integral_finsetSum]
  · refine Finset.sum_congr rfl fun s _ => ?_
    rw [intervalIntegral.integral_const_mul, integral_tw]
    split <;> simp
  · intro s _
    apply Continuous.intervalIntegrable
    exact continuous_const.mul (continuous_tw.comp (by fun_prop))

theorem integral_sum_tw2 {β : Type} (S : Finset β) (d : β → ℂ) (x y : β → ℤ) (a : ℝ) :
    ∫ b in (0 : ℝ)..1, ∑ s ∈ S, d s * tw (x s * a + y s * b) =
      ∑ s ∈ S.filter fun s => y s = 0, d s * tw (x s * a) := by
  have e : ∀ b : ℝ, ∑ s ∈ S, d s * tw (x s * a + y s * b) = ∑ s ∈ S, (d s * tw (x s * a)) * tw (y s * b) := by
    intro b; refine Finset.sum_congr rfl fun s _ => ?_; rw [tw_add]; ring
  simp_rw [e]
  rw [integral_sum_tw S _ y, Finset.sum_filter]

theorem integral_integral_tw {β : Type} (S : Finset β) (d : β → ℂ) (x y : β → ℤ) :
    ∫ a in (0 : ℝ)..1, ∫ b in (0 : ℝ)..1, ∑ s ∈ S, d s * tw (x s * a + y s * b) =
      ∑ s ∈ S.filter fun s => y s = 0 ∧ x s = 0, d s := by
  simp_rw [integral_sum_tw2]
  rw [integral_sum_tw, ← Finset.sum_filter, Finset.filter_filter]

/-- A squared modulus as a double sum. -/
theorem sq_sum_tw {β : Type} (S : Finset β) (d : β → ℂ) (x : β → ℝ) (g : ℝ) (h : (g : ℂ) = ∑ s ∈ S, d s * tw (x s)) :
    ((g ^ 2 : ℝ) : ℂ) = ∑ p ∈ S ×ˢ S, d p.1 * (starRingEnd ℂ) (d p.2) * tw (x p.1 - x p.2) := by
  have h2 : (g : ℂ) = ∑ s ∈ S, (starRingEnd ℂ) (d s) * tw (-x s) := by
    rw [← Complex.conj_ofReal, h, map_sum]
    refine Finset.sum_congr rfl fun s _ => ?_
    rw [map_mul, conj_tw]
  push_cast
  rw [sq]
  nth_rewrite 1 [h]
  rw [h2, Finset.sum_mul_sum, Finset.sum_product]
  refine Finset.sum_congr rfl fun s _ => Finset.sum_congr rfl fun s' _ => ?_
  rw [sub_eq_add_neg, tw_add]
  ring

theorem sum_diag {β : Type} [DecidableEq β] (S : Finset β) (d : β → ℂ) (P : β × β → Prop) [DecidablePred P]
    (hP : ∀ s ∈ S, ∀ s' ∈ S, P (s, s') ↔ s = s') :
    ∑ p ∈ (S ×ˢ S).filter P, d p.1 * (starRingEnd ℂ) (d p.2) = ((∑ s ∈ S, ‖d s‖ ^ 2 : ℝ) : ℂ) := by
  rw [Finset.sum_filter, Finset.sum_product]
  push_cast
  refine Finset.sum_congr rfl fun s hs => ?_
  rw [Finset.sum_eq_single_of_mem s hs, if_pos ((hP s hs s hs).mpr rfl), Complex.mul_conj, Complex.normSq_eq_norm_sq]
  · push_cast; rfl
  · intro s' hs' hne
    rw [if_neg fun h => hne ((hP s hs s' hs').mp h).symm]

/-- Parseval's identity for one angle. -/
theorem integral_sq_tw {β : Type} (S : Finset β) (d : β → ℂ) (x : β → ℤ) (hx : Set.InjOn x S) (g : ℝ → ℝ)
    (h : ∀ a, (g a : ℂ) = ∑ s ∈ S, d s * tw (x s * a)) : ∫ a in (0 : ℝ)..1, g a ^ 2 = ∑ s ∈ S, ‖d s‖ ^ 2 := by
  classical
  apply Complex.ofReal_injective
  rw [← intervalIntegral.integral_ofReal]
  have e : ∀ a : ℝ, ((g a ^ 2 : ℝ) : ℂ) =
      ∑ p ∈ S ×ˢ S, d p.1 * (starRingEnd ℂ) (d p.2) * tw (((x p.1 - x p.2 : ℤ) : ℝ) * a) := by
    intro a
    rw [sq_sum_tw S d (fun s => x s * a) (g a) (h a)]
    refine Finset.sum_congr rfl fun p _ => ?_
    congr 2
    push_cast
    ring
  simp_rw [e]
  rw [integral_sum_tw, ← Finset.sum_filter]
  refine sum_diag S d (fun p => x p.1 - x p.2 = 0) fun s hs s' hs' => ?_
  rw [sub_eq_zero]
  exact ⟨fun h => hx hs hs' h, fun h => by rw [h]⟩

/-- Parseval's identity for two angles. -/
theorem integral_integral_sq_tw (S : Finset (ℤ × ℤ)) (d : ℤ × ℤ → ℂ) (g : ℝ → ℝ → ℝ)
    (h : ∀ a b, (g a b : ℂ) = ∑ s ∈ S, d s * tw (s.1 * a + s.2 * b)) :
    ∫ a in (0 : ℝ)..1, ∫ b in (0 : ℝ)..1, g a b ^ 2 = ∑ s ∈ S, ‖d s‖ ^ 2 := by
  classical
  apply Complex.ofReal_injective
  rw [← intervalIntegral.integral_ofReal]
  simp_rw [← intervalIntegral.integral_ofReal]
  have e : ∀ a b : ℝ, ((g a b ^ 2 : ℝ) : ℂ) = ∑ p ∈ S ×ˢ S, d p.1 * (starRingEnd ℂ) (d p.2) *
      tw (((p.1.1 - p.2.1 : ℤ) : ℝ) * a + ((p.1.2 - p.2.2 : ℤ) : ℝ) * b) := by
    intro a b
    rw [sq_sum_tw S d (fun s => s.1 * a + s.2 * b) (g a b) (h a b)]
    refine Finset.sum_congr rfl fun p _ => ?_
    congr 2
    push_cast
    ring
  simp_rw [e]
  rw [integral_integral_tw]
  refine sum_diag S d (fun p => p.1.2 - p.2.2 = 0 ∧ p.1.1 - p.2.1 = 0) fun s hs s' hs' => ?_
  rw [sub_eq_zero, sub_eq_zero, Prod.ext_iff]
  exact And.comm

/-! ## Trigonometric polynomials of bounded degree -/

/-- Frequencies of degree at most `d` when the second angle counts `m` frequencies per degree. -/
noncomputable def torusSet (m d : Nat) : Finset (ℤ × ℤ) :=
  ((Finset.Icc (-(d : ℤ)) d) ×ˢ (Finset.Icc (-((m * d : Nat) : ℤ)) ((m * d : Nat) : ℤ))).filter
    fun q => (m : ℤ) * |q.1| + |q.2| ≤ (m : ℤ) * d

theorem mem_torusSet {m d : Nat} (hm : 1 ≤ m) {q : ℤ × ℤ} :
    q ∈ torusSet m d ↔ (m : ℤ) * |q.1| + |q.2| ≤ (m : ℤ) * d := by
  unfold torusSet
  rw [Finset.mem_filter, Finset.mem_product, Finset.mem_Icc, Finset.mem_Icc, ← abs_le, ← abs_le]
  refine ⟨fun h => h.2, fun h => ⟨⟨?_, ?_⟩, h⟩⟩
  · have h0 := abs_nonneg q.2
    have hm' : (0 : ℤ) < m := by exact_mod_cast hm
    exact le_of_mul_le_mul_left (by linarith) hm'
  · have h0 : 0 ≤ (m : ℤ) * |q.1| := by positivity
    push_cast
    linarith

/-- `F` is a trigonometric polynomial of degree at most `d`. -/
def TorusPoly (m d : Nat) (F : ℝ → ℝ → ℂ) : Prop :=
  ∃ c : ℤ × ℤ → ℂ, ∀ a b, F a b = ∑ q ∈ torusSet m d, c q * tw (q.1 * a + q.2 * b)

section
variable {m : Nat} (hm : 1 ≤ m)
include hm

omit hm in
theorem torusPoly_of_support (d : Nat) (S : Finset (ℤ × ℤ)) (hS : S ⊆ torusSet m d) (c : ℤ × ℤ → ℂ)
    (F : ℝ → ℝ → ℂ) (h : ∀ a b, F a b = ∑ q ∈ S, c q * tw (q.1 * a + q.2 * b)) : TorusPoly m d F := by
  classical
  refine ⟨fun q => if q ∈ S then c q else 0, fun a b => ?_⟩
  rw [h, ← Finset.sum_subset hS (f := fun q => (if q ∈ S then c q else 0) * tw (q.1 * a + q.2 * b))]
  · exact Finset.sum_congr rfl fun q hq => by rw [if_pos hq]
  · intro q _ hq; rw [if_neg hq, zero_mul]

theorem TorusPoly.mono {d e : Nat} (h : d ≤ e) {F : ℝ → ℝ → ℂ} (hF : TorusPoly m d F) : TorusPoly m e F := by
  obtain ⟨c, hc⟩ := hF
  refine torusPoly_of_support e (torusSet m d) (fun q hq => ?_) c F hc
  rw [mem_torusSet hm] at hq ⊢
  have : (m : ℤ) * d ≤ m * e := mul_le_mul_of_nonneg_left (by exact_mod_cast h) (by positivity)
  exact hq.trans this

theorem torusPoly_const (d : Nat) (v : ℂ) : TorusPoly m d fun _ _ => v := by
  refine torusPoly_of_support d {0} (fun q hq => ?_) (fun _ => v) _ fun a b => ?_
  · rw [Finset.mem_singleton] at hq
    subst hq
    rw [mem_torusSet hm]
    simp
    positivity
  · simp [tw_zero]

omit hm in
theorem TorusPoly.add {d : Nat} {F G : ℝ → ℝ → ℂ} (hF : TorusPoly m d F) (hG : TorusPoly m d G) :
    TorusPoly m d fun a b => F a b + G a b := by
  obtain ⟨c, hc⟩ := hF
  obtain ⟨c', hc'⟩ := hG
  refine ⟨fun q => c q + c' q, fun a b => ?_⟩
  beta_reduce
  rw [hc, hc', ← Finset.sum_add_distrib]
  exact Finset.sum_congr rfl fun q _ => by ring

theorem torusPoly_sum {β : Type} {d : Nat} (S : Finset β) (F : β → ℝ → ℝ → ℂ) (h : ∀ s ∈ S, TorusPoly m d (F s)) :
    TorusPoly m d fun a b => ∑ s ∈ S, F s a b := by
  classical
  induction S using Finset.induction_on with
  | empty => simpa using torusPoly_const hm d 0
  | insert s S hs ih =>
    have := TorusPoly.add (h s (by simp)) (ih fun s' hs' => h s' (by simp [hs']))
    simpa [Finset.sum_insert hs] using this

theorem TorusPoly.mul {d e : Nat} {F G : ℝ → ℝ → ℂ} (hF : TorusPoly m d F) (hG : TorusPoly m e G) :
    TorusPoly m (d + e) fun a b => F a b * G a b := by
  classical
  obtain ⟨c, hc⟩ := hF
  obtain ⟨c', hc'⟩ := hG
  refine ⟨fun r => ∑ p ∈ (torusSet m d ×ˢ torusSet m e).filter fun p => p.1 + p.2 = r, c p.1 * c' p.2, fun a b => ?_⟩
  beta_reduce
  rw [hc, hc', Finset.sum_mul_sum, ← Finset.sum_product']
  rw [← Finset.sum_fiberwise_of_maps_to (t := torusSet m (d + e)) (g := fun p : (ℤ × ℤ) × (ℤ × ℤ) => p.1 + p.2)]
  · refine Finset.sum_congr rfl fun r _ => ?_
    rw [Finset.sum_mul]
    refine Finset.sum_congr rfl fun p hp => ?_
    have hr := (Finset.mem_filter.mp hp).2
    rw [← hr]
    have : tw (((p.1 + p.2).1 : ℤ) * a + ((p.1 + p.2).2 : ℤ) * b) =
        tw (p.1.1 * a + p.1.2 * b) * tw (p.2.1 * a + p.2.2 * b) := by
      rw [← tw_add, Prod.fst_add, Prod.snd_add]
      congr 1
      push_cast
      ring
    rw [this]
    ring
  · intro p hp
    obtain ⟨h1, h2⟩ := Finset.mem_product.mp hp
    rw [mem_torusSet hm] at h1 h2 ⊢
    have e1 := abs_add_le p.1.1 p.2.1
    have e2 := abs_add_le p.1.2 p.2.2
    have hm' : (0 : ℤ) ≤ m := by positivity
    have e3 := mul_le_mul_of_nonneg_left e1 hm'
    rw [Prod.fst_add, Prod.snd_add]
    push_cast
    linarith

theorem TorusPoly.pow {d : Nat} {F : ℝ → ℝ → ℂ} (hF : TorusPoly m d F) (k : Nat) :
    TorusPoly m (d * k) fun a b => F a b ^ k := by
  induction k with
  | zero => simpa using torusPoly_const hm 0 1
  | succ k ih => simpa [pow_succ, Nat.mul_succ] using TorusPoly.mul hm ih hF

theorem torusPoly_prod {β : Type} (S : Finset β) (d : β → Nat) (F : β → ℝ → ℝ → ℂ)
    (h : ∀ s ∈ S, TorusPoly m (d s) (F s)) : TorusPoly m (∑ s ∈ S, d s) fun a b => ∏ s ∈ S, F s a b := by
  classical
  induction S using Finset.induction_on with
  | empty => simpa using torusPoly_const hm 0 1
  | insert s S hs ih =>
    have := TorusPoly.mul hm (h s (by simp)) (ih fun s' hs' => h s' (by simp [hs']))
    simpa [Finset.sum_insert hs, Finset.prod_insert hs] using this

theorem torusPoly_sin (l k : ℤ) (h : (m : ℤ) * |l| + |k| ≤ m) (u : ℝ) :
    TorusPoly m 1 fun a b => ((sin (2 * π * (l * a + k * b + u)) : ℝ) : ℂ) := by
  have h1 : TorusPoly m 1 fun a b => -Complex.I / 2 * tw u * tw (l * a + k * b) := by
    refine torusPoly_of_support 1 {(l, k)} (fun q hq => ?_) (fun _ => -Complex.I / 2 * tw u) _ fun a b => by simp
    rw [Finset.mem_singleton] at hq
    subst hq
    rw [mem_torusSet hm]
    simpa using h
  have h2 : TorusPoly m 1 fun a b => Complex.I / 2 * tw (-u) * tw (-(l * a + k * b)) := by
    refine torusPoly_of_support 1 {(-l, -k)} (fun q hq => ?_) (fun _ => Complex.I / 2 * tw (-u)) _ fun a b => ?_
    · rw [Finset.mem_singleton] at hq
      subst hq
      rw [mem_torusSet hm]
      simpa using h
    · rw [Finset.sum_singleton]
      congr 2
      push_cast
      ring
  have := TorusPoly.add h1 h2
  refine this.imp fun c hc a b => ?_
  rw [← hc]
  beta_reduce
  rw [sin_eq_tw, tw_add _ u, neg_add _ u, tw_add _ (-u)]
  ring

/-- A polynomial of total degree at most `M` in sines of degree one. -/
theorem torusPoly_eval {σ : Type} [DecidableEq σ] (M : Nat) (p : MvPolynomial σ ℝ) (hp : p.totalDegree ≤ M)
    (S : σ → ℝ → ℝ → ℝ) (hS : ∀ j, TorusPoly m 1 fun a b => (S j a b : ℂ)) :
    TorusPoly m M fun a b => ((MvPolynomial.eval (fun j => S j a b) p : ℝ) : ℂ) := by
  simp_rw [MvPolynomial.eval_eq, Complex.ofReal_sum]
  refine torusPoly_sum hm p.support _ fun e he => ?_
  have h1 : TorusPoly m (0 + ∑ j ∈ e.support, 1 * e j) fun a b =>
      ((MvPolynomial.coeff e p : ℝ) : ℂ) * ∏ j ∈ e.support, (S j a b : ℂ) ^ e j :=
    TorusPoly.mul hm (torusPoly_const hm 0 _) (torusPoly_prod hm _ _ _ fun j _ => TorusPoly.pow hm (hS j) (e j))
  have h2 : (0 + ∑ j ∈ e.support, 1 * e j) ≤ M := by
    have := MvPolynomial.le_totalDegree he
    simp only [one_mul, zero_add]
    exact this.trans hp
  have := TorusPoly.mono hm h2 h1
  simpa using this

end

end SALib
