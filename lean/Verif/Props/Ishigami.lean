import Verif.Model.TestFunctions
import Verif.Lemmas.Ishigami
import Verif.Lemmas.DesignEval
import Verif.Props.SobolMean
import Verif.Props.SobolGConv
import Mathlib.Analysis.Real.Pi.Bounds

/-!
# C91: the Ishigami function
-/

namespace SALib

open MeasureTheory ProbabilityTheory Spec

theorem ishigamiRow_cons (A B x0 x1 x2 : ℝ) (rest : List ℝ) :
    ishigamiRow A B (x0 :: x1 :: x2 :: rest) = .ok (Real.sin x0 + A * Real.sin x1 ^ 2 + B * x2 ^ 4 * Real.sin x0) := rfl

/-- **C91**, evaluation.  Every row with three entries or more gives the value of the function at its first three
entries, and one shorter row makes the evaluation fail. -/
theorem C91_evaluate (A B : ℝ) (X : Mat ℝ) :
    ((∀ row ∈ X, 3 ≤ row.length) → ∃ Y, ishigami A B X = .ok Y ∧ Y.length = X.length ∧
      ∀ (i : Nat) (x0 x1 x2 : ℝ) (rest : List ℝ), X[i]? = some (x0 :: x1 :: x2 :: rest) →
        Y[i]? = some (Real.sin x0 + A * Real.sin x1 ^ 2 + B * x2 ^ 4 * Real.sin x0)) ∧
    ((∃ row ∈ X, row.length < 3) → ishigami A B X = .error .indexError) := by
  constructor
  · intro h
    refine ⟨X.map fun row => Real.sin (row.getD 0 0) + A * Real.sin (row.getD 1 0) ^ 2 +
      B * row.getD 2 0 ^ 4 * Real.sin (row.getD 0 0), ?_, by simp, ?_⟩
    · apply mapM_ok_of
      intro row hrow
      have := h row hrow
      match row, this with
      | x0 :: x1 :: x2 :: rest, _ => rfl
    · intro i x0 x1 x2 rest hi
      rw [List.getElem?_map, hi]
      rfl
  · rintro ⟨row, hrow, hlen⟩
    unfold ishigami
    induction X with
    | nil => cases hrow
    | cons r rs ih =>
      rw [List.mapM_cons]
      by_cases hr : r.length < 3
      · have : ishigamiRow A B r = .error .indexError := by
          match r, hr with
          | [], _ => rfl
          | [_], _ => rfl
          | [_, _], _ => rfl
        rw [this]; rfl
      · have hrow' : row ∈ rs := by
          rcases List.mem_cons.mp hrow with rfl | h
          · exact absurd hlen hr
          · exact h
        match r, hr with
        | x0 :: x1 :: x2 :: rest, _ =>
          rw [ishigamiRow_cons, pyBind_ok, ih hrow', pyBind_error]
        | [], hr => simp at hr
        | [_], hr => simp at hr
        | [_, _], hr => simp at hr

/-- One row has more than three entries; one row too short. -/
example : (∀ row ∈ ([[0, 0, 0], [1, 2, 3, 4]] : Mat ℝ), 3 ≤ row.length) ∧
    ∃ row ∈ ([[0, 0, 0], [1, 2]] : Mat ℝ), row.length < 3 := by simp

/-- **C91**, the effects.  For independent inputs, uniform from -π to π, and every set of inputs: the closed and the
total effect. -/
theorem C91_effects (A B : ℝ) (s : Fin 3 → Bool) :
    let f := fun x : Fin 3 → ℝ => Real.sin (x 0) + A * Real.sin (x 1) ^ 2 + B * x 2 ^ 4 * Real.sin (x 0)
    Var[f; Measure.pi fun _ => unifPi] = ishigamiVar A B ∧
    closedEffect (fun _ => unifPi) f s =
      (if s 0 then ishigamiV1 B + (if s 2 then ishigamiV13 B else 0) else 0) + (if s 1 then ishigamiV2 A else 0) ∧
    totalEffect (fun _ => unifPi) f s =
      (if s 0 then ishigamiV1 B else 0) + (if s 0 ∨ s 2 then ishigamiV13 B else 0) + if s 1 then ishigamiV2 A else 0 :=
  ⟨var_ishi A B, closedEffect_ishi A B s, totalEffect_ishi A B s⟩

theorem ishigamiVar_pos (A B : ℝ) : 0 < ishigamiVar A B := by
  unfold ishigamiVar
  nlinarith [sq_nonneg A, sq_nonneg (B * Real.pi ^ 4 / 5 + 1), sq_nonneg (B * Real.pi ^ 4)]

/-- **C91**, sampling, evaluation and analysis.  For base rows that are drawn independently, uniformly from -π to π,
the evaluation of the design succeeds, and with probability one the reported indices converge to the ratios of the
partial variances to the variance. -/
theorem C91_converges (A B : ℝ) (normPpf : ℝ → ℝ) (pb : Problem ℝ) (second : Bool) (conf : ℝ) (keep : Bool)
    (hg : (extractGroupNames pb).2 = 3) (hconf : 0 < conf ∧ conf < 1)
    {Ω : Type} [MeasurableSpace Ω] (P : Measure Ω)
    (Z : ℕ → Ω → (Fin 3 → ℝ) × (Fin 3 → ℝ)) (hZ : BaseRows (fun _ => unifPi) P Z) :
    ∀ᵐ ω ∂P, ∀ ε > 0, ∃ N0, ∀ N ≥ N0, ∀ r : List (List Nat), r ≠ [] → ∃ Y res,
      ishigami A B (crossDesign second 3 3 id ((firstRows Z N ω).map pairRow)) = .ok Y ∧
      sobolAnalyze Real.sqrt normPpf pb Y second conf r keep .serial = .ok res ∧
      (∀ i : Fin 3, ∃ v, res.S1[i.1]? = some (some v) ∧
        |v - ![ishigamiV1 B, ishigamiV2 A, 0] i / ishigamiVar A B| < ε) ∧
      (∀ i : Fin 3, ∃ v, res.ST[i.1]? = some (some v) ∧
        |v - ![ishigamiV1 B + ishigamiV13 B, ishigamiV2 A, ishigamiV13 B] i / ishigamiVar A B| < ε) ∧
      (second = true → ∃ S2, res.S2 = some S2 ∧ ∀ j k : Fin 3, j < k → ∃ v, entry S2 j k = some (some v) ∧
        |v - (if j = 0 ∧ k = 2 then ishigamiV13 B else 0) / ishigamiVar A B| < ε) := by
  let f : List ℝ → ℝ := fun l => Real.sin (l.getD 0 0) + A * Real.sin (l.getD 1 0) ^ 2 +
    B * l.getD 2 0 ^ 4 * Real.sin (l.getD 0 0)
  have hf : ∀ x : Fin 3 → ℝ, f (List.ofFn x) = ishi A B x := by
    intro x
    simp [f, ishi]
  have hF : ∀ x : Fin 3 → ℝ, ishigamiRow A B (List.ofFn x) = .ok (f (List.ofFn x)) := by
    intro x
    simp only [List.ofFn_succ, f]
    rfl
  have hV : 0 < Var[ishi A B; Measure.pi fun _ => unifPi] := by
    rw [var_ishi]; exact ishigamiVar_pos A B
  filter_upwards [C90_consistent normPpf f second 3 id pb conf keep hg hconf (fun _ => unifPi) P Z hZ (ishi A B) hf
    (continuous_ishi A B).measurable (memLp_ishi A B) hV] with ω hω
  intro ε hε
  obtain ⟨N0, hN0⟩ := hω ε hε
  refine ⟨N0, fun N hN r hr => ?_⟩
  obtain ⟨res, hrun, h1, h2⟩ := hN0 N hN r hr
  rw [var_ishi] at h1 h2
  simp only [closedEffect_ishi, totalEffect_ishi] at h1 h2
  refine ⟨_, res, mapM_design _ f hF second 3 id _, hrun, ?_, ?_, ?_⟩
  · intro i
    have := (h1 i.1 i.2).1
    fin_cases i <;> simpa [inGroup] using this
  · intro i
    have := (h1 i.1 i.2).2
    fin_cases i <;> simpa [inGroup] using this
  · intro hs
    obtain ⟨S2, hS2, h⟩ := h2 hs
    refine ⟨S2, hS2, fun j k hjk => ?_⟩
    have := h j.1 k.1 hjk k.2
    fin_cases j <;> fin_cases k <;> first | (exfalso; revert hjk; decide) | simpa [inGroup] using this

/-- **C91**, the documented values: for `A = 7` and `B = 0.1` the first-order indices are 0.3139, 0.4424 and 0, to four
decimals. -/
theorem C91_documented : |ishigamiV1 (1 / 10) / ishigamiVar 7 (1 / 10) - 3139 / 10000| < 1 / 20000 ∧
    |ishigamiV2 7 / ishigamiVar 7 (1 / 10) - 4424 / 10000| < 1 / 20000 := by
  have h1 : (3141592 : ℝ) / 1000000 < Real.pi := by have := Real.pi_gt_d6; norm_num at this ⊢; linarith
  have h2 : Real.pi < (3141593 : ℝ) / 1000000 := by have := Real.pi_lt_d6; norm_num at this ⊢; linarith
  have hp := Real.pi_pos
  have hV := ishigamiVar_pos 7 (1 / 10)
  have l4 : ((3141592 : ℝ) / 1000000) ^ 4 ≤ Real.pi ^ 4 := pow_le_pow_left₀ (by norm_num) h1.le 4
  have u4 : Real.pi ^ 4 ≤ ((3141593 : ℝ) / 1000000) ^ 4 := pow_le_pow_left₀ hp.le h2.le 4
  have l8 : ((3141592 : ℝ) / 1000000) ^ 8 ≤ Real.pi ^ 8 := pow_le_pow_left₀ (by norm_num) h1.le 8
  have u8 : Real.pi ^ 8 ≤ ((3141593 : ℝ) / 1000000) ^ 8 := pow_le_pow_left₀ hp.le h2.le 8
  have e8 : Real.pi ^ 8 = Real.pi ^ 4 * Real.pi ^ 4 := by ring
  norm_num at l4 u4 l8 u8
  constructor
  · rw [abs_lt, lt_sub_iff_add_lt, sub_lt_iff_lt_add, lt_div_iff₀ hV, div_lt_iff₀ hV]
    unfold ishigamiV1 ishigamiVar
    constructor <;> nlinarith
  · rw [abs_lt, lt_sub_iff_add_lt, sub_lt_iff_lt_add, lt_div_iff₀ hV, div_lt_iff₀ hV]
    unfold ishigamiV2 ishigamiVar
    constructor <;> nlinarith

/-- The hypotheses are met: a problem with three parameters, and rows drawn from the distribution. -/
example : (extractGroupNames ({ names := ["x1", "x2", "x3"], bounds := [[-3, 3], [-3, 3], [-3, 3]] } : Problem ℝ)).2 = 3 ∧
    BaseRows (d := 3) (fun _ => unifPi) (Measure.infinitePi fun _ : ℕ =>
      (Measure.pi fun _ : Fin 3 => unifPi).prod (Measure.pi fun _ : Fin 3 => unifPi)) fun i ω => ω i :=
  ⟨rfl, baseRows_exist _⟩

end SALib
