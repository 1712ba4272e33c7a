import Verif.Props.FastConf
import Verif.Props.RbdFast
import Verif.Props.DeltaFirst
import Mathlib.Data.Fintype.Perm
import Mathlib.Logic.Equiv.Fin.Basic

/-! # C119: inputs that have nothing to do with the output

Averages over all assignments of the outputs to the rows of the sample. -/

namespace SALib
open Spec Real

/-- Second moment of a weighted sum of centred values in random order. -/
theorem sum_perm_sq {N : Nat} (hN : 2 ≤ N) (z c : Fin N → ℝ) (hz : ∑ t, z t = 0) :
    ((N : ℝ) - 1) * ∑ p : Equiv.Perm (Fin N), (∑ i, c i * z (p i)) ^ 2 =
      (N.factorial : ℝ) * ((∑ i, c i ^ 2) - (∑ i, c i) ^ 2 / N) * ∑ t, z t ^ 2 := by
  have hNr : (0 : ℝ) < N := by exact_mod_cast (by omega : 0 < N)
  set S := ∑ t, z t ^ 2 with hS
  let E : Fin N → Fin N → ℝ := fun i j => ∑ p : Equiv.Perm (Fin N), z (p i) * z (p j)
  have hdiag : ∀ i, (N : ℝ) * E i i = N.factorial * S := by
    intro i
    have h1 : ∀ j, E j j = E i i := by
      intro j
      refine Fintype.sum_equiv (Equiv.mulRight (Equiv.swap i j)) _ _ fun p => ?_
      rw [Equiv.coe_mulRight, Equiv.Perm.mul_apply, Equiv.swap_apply_left]
    have h2 : ∑ j, E j j = N.factorial * S := by
      rw [Finset.sum_comm]
      have : ∀ p : Equiv.Perm (Fin N), ∑ j, z (p j) * z (p j) = S := by
        intro p
        rw [hS, ← Equiv.sum_comp p (fun t => z t ^ 2)]
        exact Finset.sum_congr rfl fun j _ => by ring
      rw [Finset.sum_congr rfl fun p _ => this p]
      simp [Fintype.card_perm]
    rw [Finset.sum_congr rfl fun j _ => h1 j] at h2
    simpa using h2
  have hoff : ∀ i j, i ≠ j → ((N : ℝ) - 1) * E i j = - E i i := by
    intro i j hij
    have h1 : ∀ j', j' ≠ i → E i j' = E i j := by
      intro j' hj'
      refine Fintype.sum_equiv (Equiv.mulRight (Equiv.swap j j')) _ _ fun p => ?_
      rw [Equiv.coe_mulRight, Equiv.Perm.mul_apply, Equiv.Perm.mul_apply, Equiv.swap_apply_left,
        Equiv.swap_apply_of_ne_of_ne hij hj'.symm]
    have h2 : ∑ j', E i j' = 0 := by
      rw [Finset.sum_comm]
      apply Finset.sum_eq_zero
      intro p _
      rw [← Finset.mul_sum, Equiv.sum_comp p z, hz, mul_zero]
    rw [← Finset.sum_erase_add _ _ (Finset.mem_univ i),
      Finset.sum_congr rfl fun j' hj' => h1 j' (Finset.ne_of_mem_erase hj')] at h2
    rw [Finset.sum_const, Finset.card_erase_of_mem (Finset.mem_univ _), Finset.card_univ, Fintype.card_fin,
      nsmul_eq_mul, Nat.cast_sub (by omega), Nat.cast_one] at h2
    linarith
  have hexp : ∑ p : Equiv.Perm (Fin N), (∑ i, c i * z (p i)) ^ 2 = ∑ i, ∑ j, c i * c j * E i j := by
    have : ∀ p : Equiv.Perm (Fin N), (∑ i, c i * z (p i)) ^ 2 = ∑ i, ∑ j, c i * c j * (z (p i) * z (p j)) := by
      intro p
      rw [sq, Finset.sum_mul_sum]
      exact Finset.sum_congr rfl fun i _ => Finset.sum_congr rfl fun j _ => by ring
    rw [Finset.sum_congr rfl fun p _ => this p, Finset.sum_comm]
    apply Finset.sum_congr rfl
    intro i _
    rw [Finset.sum_comm]
    exact Finset.sum_congr rfl fun j _ => by rw [Finset.mul_sum]
  have hval : ∀ i j, ((N : ℝ) - 1) * E i j = N.factorial * S * ((if i = j then 1 else 0) - 1 / N) := by
    intro i j
    have hd := hdiag i
    have hd' : E i i = N.factorial * S / N := by field_simp; linarith
    by_cases h : i = j
    · subst h
      rw [if_pos rfl, hd']
      field_simp
    · rw [if_neg h, hoff i j h, hd']
      field_simp
      ring
  rw [hexp, Finset.mul_sum]
  have h3 : ∀ i, ((N : ℝ) - 1) * ∑ j, c i * c j * E i j =
      N.factorial * S * (c i ^ 2 - c i * (∑ j, c j) / N) := by
    intro i
    rw [Finset.mul_sum]
    have : ∀ j, ((N : ℝ) - 1) * (c i * c j * E i j) =
        N.factorial * S * (c i * (if i = j then c j else 0)) - N.factorial * S * (c i * c j / N) := by
      intro j
      rw [show ((N : ℝ) - 1) * (c i * c j * E i j) = c i * c j * (((N : ℝ) - 1) * E i j) by ring, hval]
      split_ifs <;> ring
    rw [Finset.sum_congr rfl fun j _ => this j, Finset.sum_sub_distrib, ← Finset.mul_sum, ← Finset.mul_sum,
      ← Finset.mul_sum, ← Finset.sum_div, ← Finset.mul_sum]
    simp only [Finset.sum_ite_eq, Finset.mem_univ, if_true]
    ring
  rw [Finset.sum_congr rfl fun i _ => h3 i, ← Finset.mul_sum, Finset.sum_sub_distrib, ← Finset.sum_div,
    ← Finset.sum_mul]
  ring

/-- In random order every frequency carries the same power on average. -/
theorem sum_perm_power {N : Nat} (hN : 2 ≤ N) (f : Fin N → ℝ) (k : Nat) (hk : ¬ N ∣ k) :
    ((N : ℝ) - 1) * ∑ p : Equiv.Perm (Fin N), power N (fun i => (List.ofFn (f ∘ p)).getD i 0) k =
      N.factorial * ((N : ℝ) ^ 2 * popVar f) := by
  have hTr : (0 : ℝ) < N := by exact_mod_cast (by omega : 0 < N)
  set m := (∑ s, f s) / N with hm
  have hz : ∑ t, (f t - m) = 0 := by
    rw [Finset.sum_sub_distrib]
    simp only [Finset.sum_const, Finset.card_univ, Fintype.card_fin, nsmul_eq_mul, hm]
    field_simp
    ring
  obtain ⟨hc, hs⟩ := sum_cos_sin N k hk
  have key : ∀ c : Fin N → ℝ, ∑ i, c i = 0 → ∀ d : Equiv.Perm (Fin N),
      ∑ i, (f ∘ d) i * c i = ∑ i, c i * (f (d i) - m) := by
    intro c h0 d
    simp only [mul_sub, Finset.sum_sub_distrib, ← Finset.sum_mul, h0, zero_mul, sub_zero, Function.comp]
    exact Finset.sum_congr rfl fun i _ => mul_comm _ _
  simp only [power_ofFn]
  rw [Finset.sum_add_distrib]
  have h1 := sum_perm_sq hN (fun t => f t - m) (fun i => cos (2 * π * k * (i : Nat) / N)) hz
  have h2 := sum_perm_sq hN (fun t => f t - m) (fun i => sin (2 * π * k * (i : Nat) / N)) hz
  simp only [key _ hc, key _ hs]
  rw [hc] at h1
  rw [hs] at h2
  have h3 : ∑ i : Fin N, cos (2 * π * k * (i : Nat) / N) ^ 2 + ∑ i : Fin N, sin (2 * π * k * (i : Nat) / N) ^ 2 = N := by
    rw [← Finset.sum_add_distrib]
    simp
  rw [mul_add, h1, h2, popVar, ← hm]
  have h4 : ∑ i : Fin N, cos (2 * π * k * (i : Nat) / N) ^ 2 =
      N - ∑ i : Fin N, sin (2 * π * k * (i : Nat) / N) ^ 2 := by linarith
  rw [h4]
  field_simp
  ring

theorem npVar_ofFn {N : Nat} (hN : 0 < N) (f : Fin N → ℝ) : npVar (List.ofFn f) = some (popVar f) := by
  have hTr : (N : ℝ) ≠ 0 := by exact_mod_cast hN.ne'
  unfold npVar npMean npDiv popVar
  simp only [List.length_ofFn, List.map_ofFn, List.sum_ofFn, if_neg hTr]
  rfl

theorem popVar_pos {N : Nat} (f : Fin N → ℝ) (hf : ∃ i j, f i ≠ f j) : popVar f ≠ 0 := by
  obtain ⟨i, j, hij⟩ := hf
  have hN : 0 < N := i.pos
  have h := npVar_ofFn hN f
  intro h0
  rw [h0] at h
  have := (npVar_zero_iff (List.ofFn f) (by rw [← List.length_pos_iff]; simpa using hN)).mp h
  exact hij ((const_ofFn hN f).mp this i j)

/-- A reordering list as a permutation. -/
theorem exists_orderPerm {N : Nat} (l : List Nat) (h : l.Perm (List.range N)) :
    ∃ σ : Equiv.Perm (Fin N), ∀ k : Fin N, l[(k : Nat)]? = some (σ k : Nat) := by
  have hlen : l.length = N := by simpa using h.length_eq
  have hnd : l.Nodup := h.nodup_iff.mpr List.nodup_range
  have hlt : ∀ k : Fin N, l[(k : Nat)]'(by omega) < N := by
    intro k
    exact List.mem_range.mp (h.mem_iff.mp (List.getElem_mem _))
  let g : Fin N → Fin N := fun k => ⟨l[(k : Nat)]'(by omega), hlt k⟩
  have hinj : Function.Injective g := by
    intro a b hab
    have h1 := congrArg Fin.val hab
    have := (hnd.getElem_inj_iff).mp h1
    exact Fin.ext this
  refine ⟨Equiv.ofBijective g ⟨hinj, Finite.surjective_of_injective hinj⟩, fun k => ?_⟩
  rw [List.getElem?_eq_getElem (by omega)]
  rfl

/-- **C119** (RBD-FAST).  An input that has nothing to do with the output: averaged over all assignments of the
outputs to the rows the raw index is `2M / (N - 1)`; the bias correction brings this down to
`2M / ((N - 1) (N - 2M))`. -/
theorem C119_rbd (argsort : List ℝ → List Nat) (hs : ∀ X, IsArgsort X (argsort X)) {N : Nat} (X : List ℝ)
    (hX : X.length = N) (f : Fin N → ℝ) (hf : ∃ i j, f i ≠ f j) (M : Nat) (hM : 2 * M < N) (hN : 2 ≤ N) :
    ∃ raw out : Equiv.Perm (Fin N) → ℝ,
      (∀ p : Equiv.Perm (Fin N), ∃ Z, permuteOutputs argsort X (List.ofFn (f ∘ p)) = .ok Z ∧ rbdFirstOrder Z M = some (raw p) ∧
        rbdIndex argsort X (List.ofFn (f ∘ p)) M = .ok (some (out p))) ∧
      (∑ p, raw p) / N.factorial = 2 * M / ((N : ℝ) - 1) ∧
      (∑ p, out p) / N.factorial = 2 * M / (((N : ℝ) - 1) * (N - 2 * M)) := by
  have hNr : (0 : ℝ) < N := by exact_mod_cast (by omega : 0 < N)
  have hN1 : (0 : ℝ) < (N : ℝ) - 1 := by
    have : (2 : ℝ) ≤ N := by exact_mod_cast hN
    linarith
  have hNM : (0 : ℝ) < (N : ℝ) - 2 * M := by
    have : ((2 * M : Nat) : ℝ) < N := by exact_mod_cast hM
    push_cast at this
    linarith
  have hfac : (0 : ℝ) < N.factorial := by exact_mod_cast N.factorial_pos
  have hv := popVar_pos f hf
  obtain ⟨up, down, hperm, -, -, -, -, hZ⟩ := C42_reorder argsort X (hs X)
  rw [hX] at hperm
  obtain ⟨τ, hτ⟩ := exists_orderPerm _ hperm
  let P : Equiv.Perm (Fin N) → Nat → ℝ := fun p => power N (fun i => (List.ofFn (f ∘ p)).getD i 0)
  let r : Equiv.Perm (Fin N) → ℝ := fun p =>
    (∑ k ∈ Finset.Icc 1 M, 2 * P p k) / ((N : ℝ) ^ 2 * popVar f)
  have hraw : ∀ p : Equiv.Perm (Fin N), rbdFirstOrder (List.ofFn (f ∘ p)) M = some (r p) := by
    intro p
    have hvp : npVar (List.ofFn (f ∘ p)) = some (popVar f) := by
      rw [npVar_perm _ _ (p.ofFn_comp_perm f), npVar_ofFn (by omega)]
    rw [C43_raw_value _ (by simp; omega) M _ hvp hv]
    simp only [List.length_ofFn]
    rw [show min M (N / 2) = M by omega]
    congr 2
    apply Finset.sum_congr rfl
    intro k hk
    have := Finset.mem_Icc.mp hk
    rw [if_neg (by omega)]
  have hsumr : (∑ p, r p) / N.factorial = 2 * M / ((N : ℝ) - 1) := by
    have h1 : ∀ k ∈ Finset.Icc 1 M, ∑ p : Equiv.Perm (Fin N), 2 * P p k =
        2 * (N.factorial * ((N : ℝ) ^ 2 * popVar f)) / ((N : ℝ) - 1) := by
      intro k hk
      have hk' := Finset.mem_Icc.mp hk
      have := sum_perm_power hN f k (fun hd => by have := Nat.le_of_dvd (by omega) hd; omega)
      rw [← Finset.mul_sum, eq_div_iff hN1.ne', ← this]
      ring
    rw [← Finset.sum_div, Finset.sum_comm, Finset.sum_congr rfl h1]
    simp only [Finset.sum_const, Nat.card_Icc, Nat.add_sub_cancel, nsmul_eq_mul]
    field_simp
  let g : ℝ → ℝ := fun s => s - (2 * M : ℝ) / N / (1 - (2 * M : ℝ) / N) * (1 - s)
  refine ⟨fun p => r (p * τ), fun p => g (r (p * τ)), ?_, ?_, ?_⟩
  · intro p
    obtain ⟨Z, h1, h2, h3⟩ := hZ ℝ (List.ofFn (f ∘ p)) (by simp [hX])
    have hZl : Z.length = N := by simpa using h2.length_eq
    have hZe : Z = List.ofFn (f ∘ (p * τ)) := by
      apply List.ext_getElem?
      intro k
      by_cases hk : k < N
      · rw [h3 k _ (hτ ⟨k, hk⟩)]
        simp [hk]
      · rw [List.getElem?_eq_none (by omega), List.getElem?_eq_none (by simp; omega)]
    have hr := hraw (p * τ)
    rw [← hZe] at hr
    refine ⟨Z, h1, hr, ?_⟩
    unfold rbdIndex
    rw [h1, pyBind_ok, hr]
    unfold unskewS1
    simp only [List.length_ofFn]
    rw [if_neg (by omega), if_neg (by omega)]
    rfl
  · rw [← hsumr]
    congr 1
    exact Equiv.sum_comp (Equiv.mulRight τ) r
  · have h1 : ∑ p : Equiv.Perm (Fin N), g (r (p * τ)) = ∑ p, g (r p) :=
      Equiv.sum_comp (Equiv.mulRight τ) (fun p => g (r p))
    have h2 : ∑ p : Equiv.Perm (Fin N), g (r p) =
        (N / ((N : ℝ) - 2 * M)) * ∑ p, r p - N.factorial * ((2 * M) / ((N : ℝ) - 2 * M)) := by
      have : ∀ p, g (r p) = (N / ((N : ℝ) - 2 * M)) * r p - (2 * M) / ((N : ℝ) - 2 * M) := by
        intro p
        simp only [g]
        have : 1 - (2 * M : ℝ) / N = (N - 2 * M) / N := by field_simp
        rw [this]
        field_simp
        ring
      rw [Finset.sum_congr rfl fun p _ => this p, Finset.sum_sub_distrib, ← Finset.mul_sum]
      simp [Fintype.card_perm]
    rw [h1, h2]
    have h3 : ∑ p, r p = 2 * M / ((N : ℝ) - 1) * N.factorial := by
      rw [← hsumr]; field_simp
    rw [h3]
    field_simp
    ring

/-- **C119** (FAST).  Outputs in random order along the search curve: averaged over all orders `S1` is `M / h` and
`ST` is `1 - ⌊ω/2⌋ / h`, where `h = (N - 1) / 2` is the number of frequencies of a block of odd length `N`. -/
theorem C119_fast {N : Nat} (hodd : N % 2 = 1) (f : Fin N → ℝ) (hf : ∃ i j, f i ≠ f j) (M : Nat) (hM : 0 < M)
    (hMN : 2 * M < N) :
    ∃ s t : Equiv.Perm (Fin N) → ℝ,
      (∀ p : Equiv.Perm (Fin N), computeOrders (List.ofFn (f ∘ p)) N M ((N - 1) / (2 * M)) = .ok (some (s p), some (t p))) ∧
      (∑ p, s p) / N.factorial = M / (((N : ℝ) - 1) / 2) ∧
      (∑ p, t p) / N.factorial = 1 - ((N - 1) / (2 * M) / 2 : Nat) / (((N : ℝ) - 1) / 2) := by
  have hN : 2 ≤ N := by omega
  have hNr : (0 : ℝ) < N := by exact_mod_cast (by omega : 0 < N)
  have hN1 : (0 : ℝ) < (N : ℝ) - 1 := by
    have : (2 : ℝ) ≤ N := by exact_mod_cast hN
    linarith
  have hfac : (0 : ℝ) < N.factorial := by exact_mod_cast N.factorial_pos
  have hv := popVar_pos f hf
  set w := (N - 1) / (2 * M) with hwdef
  have hw : 1 ≤ w := (Nat.one_le_div_iff (by omega)).mpr (by omega)
  have hle : 2 * M * w ≤ N - 1 := Nat.mul_div_le _ _
  have hMw : 2 * (M * w) ≤ N - 1 := by rw [← mul_assoc]; exact hle
  have hMw1 : 1 * w ≤ M * w := Nat.mul_le_mul_right _ hM
  let P : Equiv.Perm (Fin N) → Nat → ℝ := fun p => power N (fun i => (List.ofFn (f ∘ p)).getD i 0)
  have hV : ∀ p : Equiv.Perm (Fin N), totalPower N (fun i => (List.ofFn (f ∘ p)).getD i 0) =
      (N : ℝ) ^ 2 * popVar f / 2 := by
    intro p
    have h := C69_variance (List.ofFn (f ∘ p)) (by simp; omega)
    rw [npVar_perm _ _ (p.ofFn_comp_perm f), npVar_ofFn (by omega)] at h
    simp only [List.length_ofFn] at h
    rw [if_neg (by omega), add_zero, Option.some.injEq] at h
    rw [h]
    field_simp
  have hVne : (N : ℝ) ^ 2 * popVar f / 2 ≠ 0 := by positivity
  have hP : ∀ k, 1 ≤ k → k ≤ (N - 1) / 2 → ∑ p, P p k = N.factorial * ((N : ℝ) ^ 2 * popVar f) / ((N : ℝ) - 1) := by
    intro k h1 h2
    rw [eq_div_iff hN1.ne', ← sum_perm_power hN f k (not_dvd_of_band h1 h2)]
    ring
  refine ⟨fun p => (∑ k ∈ Finset.Icc 1 M, P p (k * w)) / ((N : ℝ) ^ 2 * popVar f / 2),
    fun p => 1 - (∑ k ∈ Finset.Icc 1 (w / 2), P p k) / ((N : ℝ) ^ 2 * popVar f / 2), ?_, ?_, ?_⟩
  · intro p
    have := computeOrders_eq (List.ofFn (f ∘ p)) M w hw (by simp; omega) (by simpa using hMw) (by simp; omega)
    simp only [List.length_ofFn] at this
    rw [this, hV, npDiv_some _ _ hVne, npDiv_some _ _ hVne]
    rfl
  · rw [← Finset.sum_div, Finset.sum_comm, Finset.sum_congr rfl fun k hk => hP (k * w) ?_ ?_]
    · simp only [Finset.sum_const, Nat.card_Icc, Nat.add_sub_cancel, nsmul_eq_mul]
      field_simp
    · have := Nat.mul_le_mul (Finset.mem_Icc.mp hk).1 hw
      omega
    · have := Nat.mul_le_mul_right w (Finset.mem_Icc.mp hk).2
      omega
  · rw [Finset.sum_sub_distrib, ← Finset.sum_div, Finset.sum_comm,
      Finset.sum_congr rfl fun k hk => hP k (Finset.mem_Icc.mp hk).1 ((Finset.mem_Icc.mp hk).2.trans (by omega))]
    simp only [Finset.sum_const, Nat.card_Icc, Nat.add_sub_cancel, nsmul_eq_mul, Finset.card_univ,
      Fintype.card_perm, Fintype.card_fin, mul_one]
    field_simp

theorem sum_map_nodup {N : Nat} (l : List Nat) (hnd : l.Nodup) (hl : ∀ i ∈ l, i < N) (g : Nat → ℝ) :
    (l.map g).sum = ∑ i : Fin N, (if (i : Nat) ∈ l then 1 else 0) * g i := by
  rw [← List.sum_toFinset g hnd, ← Finset.sum_range (fun i => (if i ∈ l then (1 : ℝ) else 0) * g i)]
  rw [← Finset.sum_subset (s₁ := l.toFinset) (s₂ := Finset.range N)]
  · apply Finset.sum_congr rfl
    intro i hi
    rw [if_pos (List.mem_toFinset.mp hi), one_mul]
  · intro i hi
    exact Finset.mem_range.mpr (hl i (List.mem_toFinset.mp hi))
  · intro i _ hi
    rw [if_neg (fun h => hi (List.mem_toFinset.mpr h)), zero_mul]

theorem sumSq_ofFn {N : Nat} (f : Fin N → ℝ) :
    Spec.mean (List.ofFn f) = (∑ s, f s) / N ∧
      Spec.sumSq (List.ofFn f) (Spec.mean (List.ofFn f)) = ∑ t, (f t - (∑ s, f s) / N) ^ 2 := by
  have h1 : Spec.mean (List.ofFn f) = (∑ s, f s) / N := by
    unfold Spec.mean
    rw [List.sum_ofFn, List.length_ofFn]
  refine ⟨h1, ?_⟩
  rw [h1]
  unfold Spec.sumSq
  rw [List.map_ofFn, List.sum_ofFn]
  rfl

/-- **C119** (delta).  The first-order index of the delta module on an input that has nothing to do with the output:
averaged over all assignments of the outputs to the rows it is `(M - 1) / (N - 1)`, where `M` is the number of
classes. -/
theorem C119_delta {N : Nat} (X : List ℝ) (hX : X.length = N) (f : Fin N → ℝ) (hf : ∃ i j, f i ≠ f j) (M : Nat)
    (hM : 1 ≤ M) (hMN : M ≤ N) (hN : 2 ≤ N) :
    ∃ s : Equiv.Perm (Fin N) → ℝ,
      (∀ p : Equiv.Perm (Fin N), sobolFirst (List.ofFn (f ∘ p)) X (linspace 0 (N : ℝ) (M + 1)) = some (s p)) ∧
      (∑ p, s p) / N.factorial = ((M : ℝ) - 1) / (N - 1) := by
  have hNr : (0 : ℝ) < N := by exact_mod_cast (by omega : 0 < N)
  have hN1 : (0 : ℝ) < (N : ℝ) - 1 := by
    have : (2 : ℝ) ≤ N := by exact_mod_cast hN
    linarith
  have hfac : (0 : ℝ) < N.factorial := by exact_mod_cast N.factorial_pos
  obtain ⟨p1, p2, p3, p4⟩ := linspace_partition (α := ℝ) N M hM
  have hl : (linspace (0 : ℝ) N (M + 1)).length - 1 = M := by rw [length_linspace]; rfl
  set m := linspace (0 : ℝ) N (M + 1) with hm
  rw [← hX] at p4
  have hcls : ∀ j < M, classOf (rankOrdinal X) m j ≠ [] := by
    intro j hj
    have := classOf_nonempty X M hM (by omega) j hj
    rwa [hX] at this
  let C : Nat → List Nat := classOf (rankOrdinal X) m
  have hCnd : ∀ j, (C j).Nodup := fun j => List.Nodup.filter _ List.nodup_range
  have hClt : ∀ j, ∀ i ∈ C j, i < N := by
    intro j i hi
    have := List.mem_range.mp (List.mem_filter.mp hi).1
    rwa [length_rankOrdinal, hX] at this
  have hCpos : ∀ j < M, (0 : ℝ) < (C j).length := by
    intro j hj
    exact_mod_cast List.length_pos_iff.mpr (hcls j hj)
  have hClen : ((List.range M).map fun j => ((C j).length : ℝ)).sum = N := by
    have h := (classOf_partition X m p1 p2 p3 p4).length_eq
    rw [hl, List.length_flatMap, List.length_range, hX] at h
    have h2 := congrArg (fun n : Nat => (n : ℝ)) h
    simp only [Nat.cast_list_sum, List.map_map] at h2
    exact h2
  set μ := (∑ s, f s) / N with hμ
  set SS := ∑ t, (f t - μ) ^ 2 with hSS
  have hz : ∑ t, (f t - μ) = 0 := by
    rw [Finset.sum_sub_distrib]
    simp only [Finset.sum_const, Finset.card_univ, Fintype.card_fin, nsmul_eq_mul, hμ]
    field_simp
    ring
  have hmean : ∀ p : Equiv.Perm (Fin N), Spec.mean (List.ofFn (f ∘ p)) = μ ∧
      Spec.sumSq (List.ofFn (f ∘ p)) (Spec.mean (List.ofFn (f ∘ p))) = SS := by
    intro p
    obtain ⟨h1, h2⟩ := sumSq_ofFn (f ∘ p)
    have e : ∑ s, (f ∘ p) s = ∑ s, f s := Equiv.sum_comp p f
    rw [e] at h1 h2
    refine ⟨h1, ?_⟩
    rw [h2]
    exact Equiv.sum_comp p (fun t => (f t - μ) ^ 2)
  have hSSne : SS ≠ 0 := by
    have := popVar_pos f hf
    intro h0
    apply this
    unfold popVar
    rw [← hμ, ← hSS, h0, zero_div]
  let c : Nat → Fin N → ℝ := fun j i => (if (i : Nat) ∈ C j then 1 else 0) / (C j).length
  let d : Equiv.Perm (Fin N) → Nat → ℝ := fun p j => ∑ i, c j i * (f (p i) - μ)
  have hcount : ∀ j, ∑ i : Fin N, (if (i : Nat) ∈ C j then (1 : ℝ) else 0) = (C j).length := by
    intro j
    have h1 := sum_map_nodup (C j) (hCnd j) (hClt j) (fun _ => 1)
    simp only [mul_one, List.map_const', List.sum_replicate, nsmul_eq_mul] at h1
    exact h1.symm
  have hcm : ∀ (p : Equiv.Perm (Fin N)) (j : Nat), j < M →
      Spec.mean (Spec.classValues (List.ofFn (f ∘ p)) X m j) - μ = d p j := by
    intro p j hj
    have hp := hCpos j hj
    have h1 : (Spec.classValues (List.ofFn (f ∘ p)) X m j).sum =
        ∑ i : Fin N, (if (i : Nat) ∈ C j then 1 else 0) * f (p i) := by
      unfold Spec.classValues
      rw [sum_map_nodup (C j) (hCnd j) (hClt j)]
      simp only [getD_ofFn_fin, Function.comp]
    have h2 : (Spec.classValues (List.ofFn (f ∘ p)) X m j).length = (C j).length := by
      simp [Spec.classValues, C]
    unfold Spec.mean
    rw [h1, h2]
    simp only [d, c, mul_sub, Finset.sum_sub_distrib, ← Finset.sum_mul, ← Finset.sum_div, hcount]
    rw [div_self hp.ne', one_mul, Finset.sum_div]
    congr 1
    exact Finset.sum_congr rfl fun i _ => by ring
  have hval : ∀ p : Equiv.Perm (Fin N), sobolFirst (List.ofFn (f ∘ p)) X m =
      some (((List.range M).map fun j => ((C j).length : ℝ) * d p j ^ 2).sum / SS) := by
    intro p
    have hne : List.ofFn (f ∘ p) ≠ [] := by
      rw [← List.length_pos_iff]; simp; omega
    have hY : ptpZero (List.ofFn (f ∘ p)) = false := by
      by_contra h
      have h : ptpZero (List.ofFn (f ∘ p)) = true := by simpa using h
      have h2 := (const_ofFn (by omega) (f ∘ p)).mp ((ptpZero_iff _ hne).mp h)
      obtain ⟨i, j, hij⟩ := hf
      have := h2 (p.symm i) (p.symm j)
      simp at this
      exact hij this
    obtain ⟨hT, he⟩ := sobolFirst_eq (List.ofFn (f ∘ p)) X m (by simp [hX]) hY hne p1 p2 p3 p4
      (by rw [hl]; exact hcls)
    rw [he, (hmean p).2, hl]
    congr 1
    have hsplit := sumSq_classes (List.ofFn (f ∘ p)) X m (by simp [hX]) p1 p2 p3 p4
      (Spec.mean (List.ofFn (f ∘ p)))
    rw [(hmean p).2, (hmean p).1, hl] at hsplit
    have hj : ∀ j ∈ List.range M, Spec.sumSq (Spec.classValues (List.ofFn (f ∘ p)) X m j) μ =
        Spec.sumSq (Spec.classValues (List.ofFn (f ∘ p)) X m j)
          (Spec.mean (Spec.classValues (List.ofFn (f ∘ p)) X m j)) + ((C j).length : ℝ) * d p j ^ 2 := by
      intro j hj
      have hjM := List.mem_range.mp hj
      rw [sumSq_split _ (by unfold Spec.classValues; simpa using hcls j hjM) μ, hcm p j hjM]
      congr 2
      simp [Spec.classValues, C]
    rw [List.map_congr_left hj, List.sum_map_add] at hsplit
    rw [eq_div_iff hSSne, sub_mul, one_mul, div_mul_cancel₀ _ hSSne]
    linarith
  refine ⟨_, hval, ?_⟩
  have hsq : ∀ j ∈ List.range M, ∑ p : Equiv.Perm (Fin N), ((C j).length : ℝ) * d p j ^ 2 =
      N.factorial * SS / ((N : ℝ) - 1) * (1 - (C j).length / N) := by
    intro j hj
    have hp := hCpos j (List.mem_range.mp hj)
    have h1 := sum_perm_sq hN (fun t => f t - μ) (c j) hz
    have h2 : ∑ i, c j i = 1 := by
      simp only [c, ← Finset.sum_div, hcount]
      exact div_self hp.ne'
    have h3 : ∑ i, c j i ^ 2 = 1 / (C j).length := by
      have : ∀ i, c j i ^ 2 = (if (i : Nat) ∈ C j then 1 else 0) / ((C j).length : ℝ) ^ 2 := by
        intro i
        simp only [c]
        split_ifs <;> simp
      rw [Finset.sum_congr rfl fun i _ => this i, ← Finset.sum_div, hcount]
      field_simp
    rw [h2, h3] at h1
    rw [← Finset.mul_sum]
    have h4 : ∑ p : Equiv.Perm (Fin N), d p j ^ 2 =
        N.factorial * (1 / (C j).length - 1 ^ 2 / N) * SS / ((N : ℝ) - 1) := by
      rw [eq_div_iff hN1.ne', mul_comm]
      exact h1
    rw [h4]
    field_simp
  rw [← Finset.sum_div]
  have hswap : ∑ p : Equiv.Perm (Fin N), ((List.range M).map fun j => ((C j).length : ℝ) * d p j ^ 2).sum =
      ((List.range M).map fun j => ∑ p : Equiv.Perm (Fin N), ((C j).length : ℝ) * d p j ^ 2).sum := by
    simp only [sum_range_list]
    rw [Finset.sum_comm]
  have hlast : ((List.range M).map fun j => N.factorial * SS / ((N : ℝ) - 1) * (1 - ((C j).length : ℝ) / N)).sum =
      N.factorial * SS / ((N : ℝ) - 1) * (M - 1) := by
    rw [sum_range_list] at hClen ⊢
    rw [← Finset.mul_sum, Finset.sum_sub_distrib, ← Finset.sum_div, hClen, div_self hNr.ne']
    simp
  rw [hswap, List.map_congr_left hsq, hlast]
  field_simp

/-! Hypotheses met: the default settings of the three analyses. -/

/-- RBD-FAST with `M = 10` harmonics and 101 rows: 0.2 before and about 0.0025 after the correction. -/
example (argsort : List ℝ → List Nat) (hs : ∀ X, IsArgsort X (argsort X)) :=
  C119_rbd argsort hs (N := 101) ((List.range 101).map fun (i : Nat) => (i : ℝ)) (by simp)
    (fun i => if i = 0 then 1 else 0) ⟨0, 1, by simp⟩ 10 (by norm_num) (by norm_num)

example : (2 : ℝ) * 10 / (101 - 1) = 1 / 5 ∧ (2 : ℝ) * 10 / ((101 - 1) * (101 - 2 * 10)) = 1 / 405 := by
  constructor <;> norm_num

example := C119_fast (N := 65) (by norm_num) (fun i => if i = 0 then 1 else 0) ⟨0, 1, by simp⟩ 4 (by norm_num)
  (by norm_num)

example := C119_delta (N := 100) ((List.range 100).map fun (i : Nat) => (i : ℝ)) (by simp)
    (fun i => if i = 0 then 1 else 0) ⟨0, 1, by simp⟩ 5 (by norm_num) (by norm_num) (by norm_num)

end SALib
