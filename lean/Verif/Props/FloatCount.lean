import Verif.Lemmas.FloatCount
import Verif.Props.FastSample

/-!
# C107: integers that the code gets by way of floating point
-/

namespace SALib

variable {F : Fmt}

/-- **C107.** `int(a / b)` and `math.floor(a / b)` are the integer quotient, for every numerator that
the format holds exactly. -/
theorem C107_int_div (hp : 2 ≤ F.p) (hF : F.emin + F.p ≤ 0) (a b q r : Nat) (hb : r < b)
    (ha : a < 2 ^ F.p) (h : a = q * b + r) : intDivFl F a b = q := by
  rw [intDivFl_eq (by omega) hF a b (by omega) ha, h, Nat.mul_comm, Nat.mul_add_div (by omega),
    Nat.div_eq_of_lt hb, Nat.add_zero]

example : intDivFl binary64 (2 ^ 53 - 1) 3 = 3002399751580330 :=
  C107_int_div (by decide) (by decide) _ 3 _ 1 (by decide) (by decide) (by decide)

/-- Beyond that it is not. -/
theorem C107_int_div_limit : intDivFl binary64 (2 ^ 53 + 1) 1 ≠ 2 ^ 53 + 1 := by decide +kernel

/-- **C107**, the sizes that the analyses recover: the number of base points of `sobol.analyze`, the
number and length of the trajectories of `morris.analyze`, the number of points and the highest
frequency of `fast.analyze`, and its halves, are what integer division gives. -/
theorem C107_counts {α : Type} [Field α] [LinearOrder α] (hp : 2 ≤ F.p) (hF : F.emin + F.p ≤ 0)
    (size : Nat) (hs : size < 2 ^ F.p) :
    (∀ (pb : Problem α) second conf, sobolCheckFl F pb size second conf =
      (sobolCheck pb size second conf).map fun r => (r.1, (r.2 : ℤ))) ∧
    (∀ g, morrisCountsFl F size g = if size < g + 1 then none
      else some (((size / (g + 1) : Nat) : ℤ), ((size / (size / (g + 1)) : Nat) : ℤ))) ∧
    (∀ D M, 0 < D → 0 < M → D ≤ size → fastCountsFl F size D M =
      (((size / D : Nat) : ℤ), (((size / D - 1) / (2 * M) : Nat) : ℤ))) ∧
    ceilHalfFl F size = ((size + 1) / 2 : Nat) ∧ floorHalfFl F size = (size / 2 : Nat) ∧
    halfSampleFl F size = ((size + 1) / 2 : Nat) := by
  have hp1 : 1 ≤ F.p := by omega
  refine ⟨?_, ?_, ?_, ?_, ?_, ?_⟩
  · intro pb second conf
    unfold sobolCheckFl sobolCheck
    simp only []
    rw [intDivFl_eq hp1 hF _ _ (by omega) hs, intDivFl_eq hp1 hF _ _ (by omega) hs]
    split_ifs <;> rfl
  · intro g
    unfold morrisCountsFl
    simp only []
    rw [intDivFl_eq hp1 hF _ _ (by omega) hs]
    by_cases h : size < g + 1
    · rw [if_pos h, if_pos (by rw [Nat.div_eq_of_lt h]; rfl)]
    · have hpos : 0 < size / (g + 1) := Nat.div_pos (by omega) (by omega)
      rw [if_neg h, if_neg (by omega), Int.toNat_natCast, intDivFl_eq hp1 hF _ _ hpos hs]
  · intro D M hD hM hle
    have hpos : 0 < size / D := Nat.div_pos hle hD
    have hlt : size / D - 1 < 2 ^ F.p := by have := Nat.div_le_self size D; omega
    unfold fastCountsFl
    simp only []
    rw [intDivFl_eq hp1 hF _ _ hD hs, show (((size / D : Nat) : ℤ) - 1).toNat = size / D - 1 by omega,
      intDivFl_eq hp1 hF _ _ (by omega) hlt]
  · unfold ceilHalfFl fdiv
    rw [fl_eq hp1 (isFloat_half hp1 hF size hs.le), ceil_half]
  · have := intDivFl_eq hp1 hF size 2 (by omega) hs
    unfold intDivFl at this
    unfold floorHalfFl
    exact_mod_cast this
  · unfold halfSampleFl fmul
    rw [mul_one_div, fl_eq hp1 (isFloat_half hp1 hF size hs.le), ceil_half]

example : 2 ≤ binary64.p ∧ binary64.emin + binary64.p ≤ 0 ∧ 8192 < 2 ^ binary64.p := by decide

/-- **C107**, the frequencies of FAST: for every sample that could be stored, the highest frequency is
exact; each of the others is the exact one or the next lower one; they are at least 1, their first `M`
harmonics stay below half the highest frequency, and, when there is room for different ones, they are
strictly increasing. -/
theorem C107_frequencies (hp : 2 ≤ F.p) (hF : F.emin + F.p ≤ 0) (N M D : Nat) (omega : List ℤ)
    (hs : N * D < 2 ^ F.p) (h : fastOmegaFl F N M D = .ok omega) :
    ∃ (w0 : Nat) (exact : List Nat) (rest : List ℤ), fastOmega N M D = .ok (w0 :: exact) ∧
      omega = (w0 : ℤ) :: rest ∧ w0 = (N - 1) / (2 * M) ∧ rest.length + 1 = D ∧
      List.Forall₂ (fun (e : Nat) (w : ℤ) => w = e ∨ w = (e : ℤ) - 1) exact rest ∧
      (∀ w ∈ rest, 1 ≤ w) ∧
      (∀ w ∈ rest, ∀ k : Nat, 1 ≤ k → k ≤ M → 1 ≤ k * w ∧ k * w ≤ (w0 / 2 : Nat)) ∧
      (D - 1 ≤ w0 / (2 * M) → rest.Pairwise (· < ·)) := by
  have hp1 : 1 ≤ F.p := by omega
  have he : F.emin ≤ 0 := by omega
  unfold fastOmegaFl at h
  by_cases h1 : N ≤ 4 * M ^ 2
  · rw [if_pos h1] at h; cases h
  rw [if_neg h1] at h
  by_cases h2 : M = 0
  · rw [if_pos h2] at h; cases h
  rw [if_neg h2] at h
  by_cases h3 : D = 0
  · rw [if_pos h3] at h; cases h
  rw [if_neg h3] at h
  have hND : N ≤ N * D := Nat.le_mul_of_pos_right _ (by omega)
  have hN : N - 1 < 2 ^ F.p := by omega
  have hw0le : (N - 1) / (2 * M) ≤ N - 1 := Nat.div_le_self _ _
  simp only [] at h
  rw [intDivFl_eq hp1 hF (N - 1) (2 * M) (by omega) hN, Int.toNat_natCast,
    intDivFl_eq hp1 hF _ (2 * M) (by omega) (by omega), Int.toNat_natCast] at h
  have hex : fastOmega N M D = .ok ((N - 1) / (2 * M) ::
      if D - 1 ≤ (N - 1) / (2 * M) / (2 * M) then linspaceFloor ((N - 1) / (2 * M) / (2 * M)) (D - 1)
      else (List.range (D - 1)).map fun k => k % ((N - 1) / (2 * M) / (2 * M)) + 1) := by
    unfold fastOmega
    rw [if_neg h1, if_neg h2, if_neg h3]
  obtain ⟨w0', rest', e0, ew, el, -, -, hge, hhar, -⟩ := C39_no_alias N M D _ hex
  have hmle : 4 * ((N - 1) / (2 * M) / (2 * M)) ≤ N := by
    have a := Nat.div_mul_le_self ((N - 1) / (2 * M)) (2 * M)
    have b := Nat.div_mul_le_self (N - 1) (2 * M)
    have c : 2 ≤ 2 * M := by omega
    have d1 := Nat.mul_le_mul_left ((N - 1) / (2 * M) / (2 * M)) c
    have d2 := Nat.mul_le_mul_left ((N - 1) / (2 * M)) c
    omega
  generalize hm : (N - 1) / (2 * M) / (2 * M) = m at *
  generalize hw : (N - 1) / (2 * M) = w0 at *
  simp only [List.cons.injEq] at e0
  obtain ⟨e0a, e0b⟩ := e0
  -- the two lists agree up to one
  have key : ∀ exact : List Nat, ∀ rest : List ℤ,
      List.Forall₂ (fun (e : Nat) (w : ℤ) => w = e ∨ w = (e : ℤ) - 1) exact rest →
      (∀ w ∈ rest, 1 ≤ w) → (∀ w ∈ exact, ∀ k, 1 ≤ k → k ≤ M → 1 ≤ k * w ∧ k * w ≤ w0 / 2) →
      ∀ w ∈ rest, ∀ k : Nat, 1 ≤ k → k ≤ M → 1 ≤ k * w ∧ k * w ≤ (w0 / 2 : Nat) := by
    intro exact rest hf h1' hh w hwm k hk1 hkM
    obtain ⟨i, hi, rfl⟩ := List.getElem_of_mem hwm
    have hi' : i < exact.length := by rw [hf.length_eq]; exact hi
    have hrel := hf.get hi' hi
    simp only [List.get_eq_getElem] at hrel
    have hx := (hh exact[i] (List.getElem_mem _) k hk1 hkM).2
    have hr1 := h1' _ hwm
    have hle : rest[i] ≤ (exact[i] : ℤ) := by omega
    have hk0 : (0 : ℤ) < k := by exact_mod_cast hk1
    refine ⟨by nlinarith, ?_⟩
    have hxz : (k : ℤ) * (exact[i] : ℤ) ≤ (w0 / 2 : Nat) := by exact_mod_cast hx
    nlinarith
  have hhar' : ∀ w ∈ rest', ∀ k, 1 ≤ k → k ≤ M → 1 ≤ k * w ∧ k * w ≤ w0 / 2 := by
    rw [e0a]; exact hhar
  by_cases hc : D - 1 ≤ m
  · rw [if_pos (by omega)] at h
    rw [if_pos hc] at e0b hex
    cases h
    have hent : ∀ k < D - 1, (⌊linspaceEntryFl F 1 m (D - 1) k⌋ = (1 + k * (m - 1) / (D - 1 - 1) : Nat) ∨
        (⌊linspaceEntryFl F 1 m (D - 1) k⌋ = (k * (m - 1) / (D - 1 - 1) : Nat) ∧
          (D - 1 - 1) ∣ k * (m - 1) ∧ 0 < k ∧ k + 1 < D - 1 ∧ D - 1 < m)) := by
      intro k hk
      by_cases hn : 2 ≤ D - 1
      · refine floor_linspaceEntryFl hp hF m (D - 1) k hn hc hk ?_
        have : 4 * m * (D - 1 - 1) ≤ N * D := Nat.mul_le_mul hmle (by omega)
        omega
      · left
        have hk0 : k = 0 := by omega
        subst hk0
        unfold linspaceEntryFl
        rw [if_pos (by omega)]
        unfold fadd fmul
        rw [Nat.cast_zero, zero_mul, fl_zero, zero_add, fl_eq hp1 (isFloat_one hp1 he)]
        simp
    have hpos : ∀ w ∈ linspaceFloorFl F m (D - 1), 1 ≤ w := by
      intro w hwm
      obtain ⟨k, hk, rfl⟩ := List.mem_map.1 hwm
      rcases hent k (List.mem_range.1 hk) with h' | ⟨h', hdvd, hk0, hk1, hlt⟩
      · rw [h']; push_cast; have : (0 : ℤ) ≤ (k * (m - 1) / (D - 1 - 1) : Nat) := by positivity
        push_cast at this; omega
      · rw [h']
        have : 1 ≤ k * (m - 1) / (D - 1 - 1) := by
          rw [Nat.le_div_iff_mul_le (by omega)]
          calc 1 * (D - 1 - 1) ≤ 1 * (m - 1) := by omega
            _ ≤ k * (m - 1) := Nat.mul_le_mul_right _ hk0
        exact_mod_cast this
    have hf2 : List.Forall₂ (fun (e : Nat) (w : ℤ) => w = e ∨ w = (e : ℤ) - 1)
        (linspaceFloor m (D - 1)) (linspaceFloorFl F m (D - 1)) := by
      unfold linspaceFloor linspaceFloorFl
      rw [List.forall₂_map_left_iff, List.forall₂_map_right_iff, List.forall₂_same]
      intro k hk
      rcases hent k (List.mem_range.1 hk) with h' | ⟨h', -⟩
      · left; exact h'
      · right; rw [h']; push_cast; ring
    refine ⟨w0, linspaceFloor m (D - 1), linspaceFloorFl F m (D - 1), hex, rfl, rfl, ?_, hf2, hpos,
      key _ _ hf2 hpos (e0b ▸ hhar'), ?_⟩
    · simp [linspaceFloorFl]; omega
    · intro _
      unfold linspaceFloorFl
      rw [List.pairwise_map]
      refine List.pairwise_lt_range.imp_of_mem ?_
      intro a b ha hb hab
      have hb' := List.mem_range.1 hb
      have hn1 : 0 < D - 1 - 1 := by omega
      generalize hnn : D - 1 - 1 = d at *
      have hdm : d ≤ m - 1 := by omega
      have hdm' : D - 1 < m → d < m - 1 := by omega
      generalize m - 1 = t at *
      have hab' : a * t + t ≤ b * t := by
        have := Nat.mul_le_mul_right t (show a + 1 ≤ b by omega)
        rwa [Nat.add_mul, Nat.one_mul] at this
      have hle : ⌊linspaceEntryFl F 1 m (D - 1) a⌋ ≤ (1 + a * t / d : Nat) := by
        rcases hent a (List.mem_range.1 ha) with h' | ⟨h', -⟩
        · exact h'.le
        · rw [h']; push_cast; omega
      rcases hent b hb' with h' | ⟨h', ⟨q, hq⟩, -, -, hlt⟩
      · rw [h']
        refine lt_of_le_of_lt hle ?_
        have : a * t / d + 1 ≤ b * t / d := by
          rw [← Nat.add_div_right _ hn1]
          exact Nat.div_le_div_right (by omega)
        exact_mod_cast (by omega : 1 + a * t / d < 1 + b * t / d)
      · rw [h', hq, Nat.mul_div_cancel_left _ hn1]
        refine lt_of_le_of_lt hle ?_
        have h5 : a * t + d < d * q := by have := hdm' hlt; omega
        have h6 : (a * t / d + 1) * d < q * d := by
          have := Nat.div_mul_le_self (a * t) d
          rw [Nat.add_mul, Nat.one_mul, Nat.mul_comm q d]; omega
        have h7 := Nat.lt_of_mul_lt_mul_right h6
        exact_mod_cast (by omega : 1 + a * t / d < q)
  · rw [if_neg (by omega)] at h
    rw [if_neg hc] at e0b hex
    cases h
    have hf2 : List.Forall₂ (fun (e : Nat) (w : ℤ) => w = e ∨ w = (e : ℤ) - 1)
        ((List.range (D - 1)).map fun k => k % m + 1)
        ((List.range (D - 1)).map fun k : Nat => (k : ℤ) % (m : ℤ) + 1) := by
      rw [List.forall₂_map_left_iff, List.forall₂_map_right_iff, List.forall₂_same]
      intro k _
      left; push_cast; rfl
    have hpos : ∀ w ∈ (List.range (D - 1)).map fun k : Nat => (k : ℤ) % (m : ℤ) + 1, 1 ≤ w := by
      intro w hwm
      obtain ⟨k, -, rfl⟩ := List.mem_map.1 hwm
      have : (0 : ℤ) ≤ (k : ℤ) % (m : ℤ) := by exact_mod_cast Nat.zero_le (k % m)
      omega
    exact ⟨w0, _, _, hex, rfl, rfl, by simp; omega, hf2, hpos, key _ _ hf2 hpos (e0b ▸ hhar'),
      fun hc' => absurd (hm ▸ hc') hc⟩

/-- The hypotheses are met by 1985 points for 24 parameters; there a frequency is lower than in exact
arithmetic: the thirteenth is 15, not 16. -/
theorem C107_lower_frequency : (∃ omega, fastOmegaFl binary64 1985 4 24 = .ok omega ∧ omega[12]? = some 15) ∧
    (∃ exact, fastOmega 1985 4 24 = .ok exact ∧ exact[12]? = some 16) ∧
    1985 * 24 < 2 ^ binary64.p := by
  refine ⟨⟨_, rfl, by decide +kernel⟩, ⟨_, rfl, by decide +kernel⟩, by decide⟩

end SALib
