import Verif.Props.DeltaDriver
import Verif.Props.BootstrapMean

/-! # C50, C103: first classes; what `S1_conf` of the delta module is -/

namespace SALib

section
variable {α : Type} [Field α] [LinearOrder α] [IsStrictOrderedRing α]

/-- **C50**, before merging: one class per pair of neighbouring edges; the first class has both of its edges, the others
only the upper one. -/
theorem C50_initial (edges X : List α) (minSize : Nat) :
    (binsIndices edges X minSize).1.length = edges.length - 1 ∧
    ∀ (k : Nat) (lo hi : α), edges[k]? = some lo → edges[k + 1]? = some hi → ∃ cls,
      (binsIndices edges X minSize).1[k]? = some cls ∧
      ∀ i, i ∈ cls ↔ ∃ x, X[i]? = some x ∧ x ≤ hi ∧ (lo < x ∨ k = 0 ∧ lo = x) := by
  refine ⟨by simp [binsIndices, initBins], ?_⟩
  intro k lo hi hlo hhi
  have hk : k < edges.length - 1 := by
    have := (List.getElem?_eq_some_iff.mp hhi).1
    omega
  have glo : edges.getD k 0 = lo := by rw [List.getD_eq_getElem?_getD, hlo]; rfl
  have ghi : edges.getD (k + 1) 0 = hi := by rw [List.getD_eq_getElem?_getD, hhi]; rfl
  refine ⟨_, by simp only [binsIndices, initBins]; rw [List.getElem?_map, List.getElem?_range hk]; rfl, ?_⟩
  intro i
  beta_reduce
  by_cases h0 : k = 0
  · rw [if_pos h0, mem_whereIdx, glo, ghi]
    simp only [Bool.and_eq_true, decide_eq_true_eq, h0, true_and]
    constructor
    · rintro ⟨x, h1, h2, h3⟩; exact ⟨x, h1, h3, lt_or_eq_of_le h2⟩
    · rintro ⟨x, h1, h3, h2⟩; exact ⟨x, h1, le_of_lt_or_eq h2, h3⟩
  · rw [if_neg h0, mem_whereIdx, glo, ghi]
    simp only [Bool.and_eq_true, decide_eq_true_eq, h0, false_and, or_false]
    constructor
    · rintro ⟨x, h1, h2, h3⟩; exact ⟨x, h1, h3, h2⟩
    · rintro ⟨x, h1, h3, h2⟩; exact ⟨x, h1, h2, h3⟩

/-- Edges `0, 1, 2`: the value `1` is in the first class, the merged classes are one. -/
example : binsIndices [(0 : ℚ), 1, 2] [0, 1, 2, 3] 3 = ([[0, 1], [2]], [[0, 1, 2]]) := by decide +kernel
end

/-- **C103**, `S1_conf`: `z` times the standard deviation (`ddof=1`) of the first-order indices of the resampled rows,
outputs and inputs resampled together.  All these indices are in `[0, 1]`, so that it is at most
`z / 2 · √(B / (B - 1))` with `B` resamples. -/
theorem C103_conf (z : ℝ) (hz : 0 ≤ z) (Y col : List ℝ) (y : Nat) (hy : 1 ≤ y) (B : Nat) (hB : 2 ≤ B)
    (boot : Fin B → List Nat) (hb : ∀ t, (boot t).length = y) :
    ∃ v : Fin B → ℝ, (∀ t, deltaS1 Y col (deltaM y) y (boot t) = some (v t) ∧ 0 ≤ v t ∧ v t ≤ 1) ∧
      sobolFirstConf Real.sqrt z Y col (linspace 0 (y : ℝ) (deltaM y + 1)) (List.ofFn boot) =
        some (z * Real.sqrt ((∑ t, (v t - (∑ u, v u) / B) ^ 2) / (B - 1))) ∧
      z * Real.sqrt ((∑ t, (v t - (∑ u, v u) / B) ^ 2) / (B - 1)) ≤ z / 2 * Real.sqrt (B / (B - 1)) := by
  have h := fun t => C51_analyze Y col y hy (boot t) (hb t)
  choose v hv using h
  have hB1 : (0 : ℝ) < (B : ℝ) - 1 := by
    have : (2 : ℝ) ≤ B := by exact_mod_cast hB
    linarith
  have hB0 : (0 : ℝ) < B := by linarith
  refine ⟨v, hv, ?_, ?_⟩
  · unfold sobolFirstConf
    have e : (List.ofFn boot).map (fun r => sobolFirst (takeIdx Y r) (takeIdx col r) (linspace 0 (y : ℝ) (deltaM y + 1))) =
        List.ofFn fun t => some (v t) := by
      rw [List.map_ofFn]
      congr 1
      funext t
      exact (hv t).1
    rw [e, npStd1N_ofFn hB]
    simp [Spec.drawVar]
  · have hq : ∑ t, (v t - (∑ u, v u) / B) ^ 2 ≤ B / 4 := by
      have h1 : ∑ t, (v t - (∑ u, v u) / B) ^ 2 = ∑ t, v t ^ 2 - (∑ u, v u) ^ 2 / B := by
        simp only [sub_sq, Finset.sum_add_distrib, Finset.sum_sub_distrib, Finset.sum_const, Finset.card_univ,
          Fintype.card_fin, nsmul_eq_mul, ← Finset.mul_sum, ← Finset.sum_mul]
        field_simp
        ring
      have h2 : ∑ t, v t ^ 2 ≤ ∑ t, v t := Finset.sum_le_sum fun t _ => by nlinarith [(hv t).2.1, (hv t).2.2]
      rw [h1]
      have h3 : ∑ t, v t - (∑ u, v u) ^ 2 / B ≤ B / 4 := by
        rw [sub_le_iff_le_add, ← sub_le_iff_le_add', le_div_iff₀ hB0]
        nlinarith [sq_nonneg ((∑ t, v t) - B / 2)]
      linarith
    have h4 : Real.sqrt ((∑ t, (v t - (∑ u, v u) / B) ^ 2) / (B - 1)) ≤ 1 / 2 * Real.sqrt (B / (B - 1)) := by
      have e : (1 : ℝ) / 2 * Real.sqrt (B / (B - 1)) = Real.sqrt (B / 4 / (B - 1)) := by
        rw [show (B : ℝ) / 4 / (B - 1) = (1 / 2) ^ 2 * (B / (B - 1)) by field_simp; norm_num,
          Real.sqrt_mul (by positivity), Real.sqrt_sq (by norm_num)]
      rw [e]
      exact Real.sqrt_le_sqrt (div_le_div_of_nonneg_right hq hB1.le)
    calc _ ≤ z * (1 / 2 * Real.sqrt (B / (B - 1))) := mul_le_mul_of_nonneg_left h4 hz
      _ = _ := by ring

/-- Two resamples of three rows. -/
example : ∃ c, sobolFirstConf Real.sqrt 2 [1, 5, 2] [3, 1, 2] (linspace 0 ((3 : Nat) : ℝ) (deltaM 3 + 1))
    (List.ofFn ![[0, 1, 2], [2, 2, 1]]) = some c ∧ c ≤ 2 / 2 * Real.sqrt (2 / (2 - 1)) := by
  obtain ⟨v, -, h2, h3⟩ := C103_conf 2 (by norm_num) [1, 5, 2] [3, 1, 2] 3 (by norm_num) 2 le_rfl ![[0, 1, 2], [2, 2, 1]]
    (by intro t; fin_cases t <;> rfl)
  exact ⟨_, h2, by exact_mod_cast h3⟩

end SALib
