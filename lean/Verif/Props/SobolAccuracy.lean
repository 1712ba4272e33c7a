import Verif.Lemmas.Hoeffding
import Verif.Props.SobolMean
import Verif.Props.QuasiMean

/-!
# C136: how far Sobol indices from random samples can be off
-/

namespace SALib

open MeasureTheory ProbabilityTheory Spec

variable {d : Nat}

theorem rowMean_abs_le {β : Type} (rows : List β) (h : β → ℝ) (K : ℝ) (hK : 0 ≤ K) (hb : ∀ p ∈ rows, |h p| ≤ K) :
    |rowMean rows h| ≤ K := by
  have h1 : ∀ l : List β, (∀ p ∈ l, |h p| ≤ K) → |(l.map h).sum| ≤ l.length * K := by
    intro l hl
    induction l with
    | nil => simp
    | cons a l ih =>
      simp only [List.map_cons, List.sum_cons, List.length_cons, Nat.cast_succ]
      have := ih fun p hp => hl p (by simp [hp])
      have ha := hl a (by simp)
      have := abs_add_le (h a) (l.map h).sum
      linarith
  unfold rowMean
  rcases Nat.eq_zero_or_pos rows.length with h0 | h0
  · rw [h0]; simpa using hK
  · have hp : (0 : ℝ) < rows.length := by exact_mod_cast h0
    rw [abs_div, abs_of_pos hp, div_le_iff₀ hp]
    linarith [h1 rows hb]

theorem blockMean_abs_le (second : Bool) (g : Nat) (groupOf : Nat → Nat) (G : (Fin d → ℝ) → ℝ) (K : ℝ)
    (p : (Fin d → ℝ) × (Fin d → ℝ)) (hb : ∀ s : Fin d → Bool, |G (mix s p.1 p.2)| ≤ K) :
    |blockMean second g groupOf G p| ≤ K := by
  have h1 : |G p.1| ≤ K := by simpa only [mix_none] using hb fun _ => false
  have h2 : |G p.2| ≤ K := by simpa only [mix_all] using hb fun _ => true
  have hf : ∀ s : Fin d → Bool, |G (mix s p.2 p.1)| ≤ K := fun s => by rw [mix_flip]; exact hb _
  have hK : 0 ≤ K := (abs_nonneg _).trans h1
  have hs : |∑ k ∈ Finset.range g, (G (mix (inGroup groupOf k) p.1 p.2) +
      if second then G (mix (inGroup groupOf k) p.2 p.1) else 0)| ≤ g * (K + if second then K else 0) := by
    refine (Finset.abs_sum_le_sum_abs _ _).trans ?_
    refine (Finset.sum_le_card_nsmul _ _ (K + if second then K else 0) fun k _ => ?_).trans ?_
    · refine (abs_add_le _ _).trans (add_le_add (hb _) ?_)
      split
      · exact hf _
      · simp
    · rw [Finset.card_range, nsmul_eq_mul]
  unfold blockMean
  have hpos : (0 : ℝ) < (blockSize second g : ℝ) := by
    unfold blockSize
    cases second <;> simp <;> positivity
  rw [abs_div, abs_of_pos hpos, div_le_iff₀ hpos]
  have h3 := abs_add_le (G p.1 + G p.2) (∑ k ∈ Finset.range g, (G (mix (inGroup groupOf k) p.1 p.2) +
      if second then G (mix (inGroup groupOf k) p.2 p.1) else 0))
  have h4 := abs_add_le (G p.1) (G p.2)
  have h5 : (K + K) + g * (K + if second then K else 0) = K * (blockSize second g : ℝ) := by
    unfold blockSize
    cases second <;> simp <;> ring
  linarith

section near

variable (G : (Fin d → ℝ) → ℝ) (rows : List ((Fin d → ℝ) × (Fin d → ℝ))) (K δ : ℝ)

theorem sampleVar_near (m q : ℝ) (hδ : 0 ≤ δ) (hm : |m| ≤ K)
    (hb : ∀ p ∈ rows, |G p.1| ≤ K ∧ |G p.2| ≤ K)
    (n1 : |rowMean rows (fun p => (G p.1 ^ 2 + G p.2 ^ 2) / 2) - q| ≤ δ * K ^ 2)
    (n2 : |rowMean rows (fun p => (G p.1 + G p.2) / 2) - m| ≤ δ * K) :
    |sampleVar G rows - (q - m ^ 2)| ≤ 3 * δ * K ^ 2 := by
  have hK : 0 ≤ K := (abs_nonneg _).trans hm
  have h2 : |rowMean rows (fun p => (G p.1 + G p.2) / 2)| ≤ K := by
    refine rowMean_abs_le rows _ K hK fun p hp => ?_
    obtain ⟨a, b⟩ := hb p hp
    have := abs_add_le (G p.1) (G p.2)
    rw [abs_div, abs_two]
    linarith
  unfold sampleVar
  generalize rowMean rows (fun p => (G p.1 ^ 2 + G p.2 ^ 2) / 2) = u at n1
  generalize rowMean rows (fun p => (G p.1 + G p.2) / 2) = v at n2 h2
  have e : u - v ^ 2 - (q - m ^ 2) = (u - q) - (v - m) * (v + m) := by ring
  rw [e]
  have h3 : |(v - m) * (v + m)| ≤ δ * K * (K + K) := by
    rw [abs_mul]
    exact mul_le_mul n2 ((abs_add_le _ _).trans (add_le_add h2 hm)) (abs_nonneg _) (by positivity)
  have := abs_sub (u - q) ((v - m) * (v + m))
  nlinarith

theorem firstNum_near (M : (Fin d → ℝ) × (Fin d → ℝ) → ℝ) (s : Fin d → Bool) (A : ℝ) (hK : 0 ≤ K)
    (hM : ∀ p ∈ rows, |M p| ≤ K)
    (n3 : |rowMean rows (fun p => G p.2 * (G (mix s p.1 p.2) - G p.1)) - A| ≤ δ * (2 * K ^ 2))
    (n4 : |rowMean rows (fun p => G (mix s p.1 p.2) - G p.1)| ≤ δ * (2 * K)) :
    |firstNum G M s rows - A| ≤ 4 * δ * K ^ 2 := by
  have h2 := rowMean_abs_le rows M K hK hM
  unfold firstNum
  generalize rowMean rows (fun p => G p.2 * (G (mix s p.1 p.2) - G p.1)) = u at n3
  generalize rowMean rows (fun p => G (mix s p.1 p.2) - G p.1) = v at n4
  have h3 : |rowMean rows M * v| ≤ K * (δ * (2 * K)) := by
    rw [abs_mul]
    exact mul_le_mul h2 n4 (abs_nonneg _) hK
  have e : u - rowMean rows M * v - A = (u - A) - rowMean rows M * v := by ring
  rw [e]
  have := abs_sub (u - A) (rowMean rows M * v)
  nlinarith

theorem totalNum_near (s : Fin d → Bool) (A : ℝ)
    (n5 : |rowMean rows (fun p => (G p.1 - G (mix s p.1 p.2)) ^ 2) - 2 * A| ≤ δ * (4 * K ^ 2)) :
    |totalNum G s rows - A| ≤ 2 * δ * K ^ 2 := by
  unfold totalNum
  generalize rowMean rows (fun p => (G p.1 - G (mix s p.1 p.2)) ^ 2) = u at n5
  have e : 1 / 2 * u - A = (u - 2 * A) / 2 := by ring
  rw [e, abs_div, abs_two]
  linarith

theorem secondNum_near (M : (Fin d → ℝ) × (Fin d → ℝ) → ℝ) (s t : Fin d → Bool) (A B C : ℝ) (hK : 0 ≤ K)
    (hM : ∀ p ∈ rows, |M p| ≤ K)
    (n3 : |rowMean rows (fun p => G p.2 * (G (mix s p.1 p.2) - G p.1)) - A| ≤ δ * (2 * K ^ 2))
    (n3' : |rowMean rows (fun p => G p.2 * (G (mix t p.1 p.2) - G p.1)) - B| ≤ δ * (2 * K ^ 2))
    (n6 : |rowMean rows (fun p => G (mix s p.2 p.1) * G (mix t p.1 p.2) - G p.1 * G p.2) - C| ≤ δ * (2 * K ^ 2))
    (n7 : |rowMean rows (fun p => G (mix s p.2 p.1) - G (mix s p.1 p.2) + G p.1 - G p.2)| ≤ δ * (4 * K)) :
    |secondNum G M s t rows - (C - A - B)| ≤ 10 * δ * K ^ 2 := by
  have h2 := rowMean_abs_le rows M K hK hM
  unfold secondNum
  generalize rowMean rows (fun p => G p.2 * (G (mix s p.1 p.2) - G p.1)) = u at n3
  generalize rowMean rows (fun p => G p.2 * (G (mix t p.1 p.2) - G p.1)) = u' at n3'
  generalize rowMean rows (fun p => G (mix s p.2 p.1) * G (mix t p.1 p.2) - G p.1 * G p.2) = w at n6
  generalize rowMean rows (fun p => G (mix s p.2 p.1) - G (mix s p.1 p.2) + G p.1 - G p.2) = v at n7
  have h3 : |rowMean rows M * v| ≤ K * (δ * (4 * K)) := by
    rw [abs_mul]
    exact mul_le_mul h2 n7 (abs_nonneg _) hK
  rw [abs_le] at *
  constructor <;> nlinarith

end near

section means

variable {ν : Fin d → Measure ℝ} [∀ i, IsProbabilityMeasure (ν i)] (G : (Fin d → ℝ) → ℝ) (K : ℝ)

theorem ae_mix_le (hK : ∀ᵐ x ∂Measure.pi ν, |G x| ≤ K) :
    ∀ᵐ p ∂(Measure.pi ν).prod (Measure.pi ν), ∀ s : Fin d → Bool, |G (mix s p.1 p.2)| ≤ K :=
  ae_all_iff.mpr fun s => (mix_preserving ν s).quasiMeasurePreserving.ae hK

theorem memLp_of_ae_le (hGm : Measurable G) (hK : ∀ᵐ x ∂Measure.pi ν, |G x| ≤ K) : MemLp G 2 (Measure.pi ν) :=
  MemLp.of_bound hGm.aestronglyMeasurable K (by simpa only [Real.norm_eq_abs] using hK)

variable {Ω : Type} [MeasurableSpace Ω] {P : Measure Ω} {Z : ℕ → Ω → (Fin d → ℝ) × (Fin d → ℝ)}

theorem ae_rows_le (hK : ∀ᵐ x ∂Measure.pi ν, |G x| ≤ K) (hZ : BaseRows ν P Z) :
    ∀ᵐ ω ∂P, ∀ N, ∀ p ∈ firstRows Z N ω, ∀ s : Fin d → Bool, |G (mix s p.1 p.2)| ≤ K := by
  have h : ∀ᵐ ω ∂P, ∀ i, ∀ s : Fin d → Bool, |G (mix s (Z i ω).1 (Z i ω).2)| ≤ K := by
    refine ae_all_iff.mpr fun i => ?_
    have := ae_mix_le G K hK
    rw [← hZ.law i] at this
    exact ae_of_ae_map (hZ.meas i).aemeasurable this
  filter_upwards [h] with ω hω
  intro N p hp
  simp only [firstRows, List.mem_map, List.mem_range] at hp
  obtain ⟨i, -, rfl⟩ := hp
  exact hω i

theorem abs_mean_le (hK : ∀ᵐ x ∂Measure.pi ν, |G x| ≤ K) : |∫ x, G x ∂Measure.pi ν| ≤ K := by
  have := norm_integral_le_of_norm_le_const (μ := Measure.pi ν) (f := G) (C := K) (by simpa only [Real.norm_eq_abs] using hK)
  simpa using this

theorem bound_pos (hGm : Measurable G) (hK : ∀ᵐ x ∂Measure.pi ν, |G x| ≤ K) (hV : 0 < Var[G; Measure.pi ν]) : 0 < K := by
  by_contra h
  have h0 : G =ᵐ[Measure.pi ν] 0 := by
    filter_upwards [hK] with x hx
    exact abs_nonpos_iff.mp (hx.trans (not_lt.mp h))
  rw [variance_congr h0] at hV
  simp [variance_zero] at hV

end means

/-- The functionals whose means over the rows enter the indices: those of the variance, of S1 and ST, and of S2. -/
noncomputable def accTerm (G : (Fin d → ℝ) → ℝ) (groupOf : Nat → Nat) {g : Nat} :
    (Fin 2 ⊕ Fin g × Fin 3) ⊕ (Fin g ⊕ Fin g × Fin g) → (Fin d → ℝ) × (Fin d → ℝ) → ℝ
  | .inl (.inl 0) => fun p => (G p.1 ^ 2 + G p.2 ^ 2) / 2
  | .inl (.inl 1) => fun p => (G p.1 + G p.2) / 2
  | .inl (.inr (k, 0)) => fun p => G p.2 * (G (mix (inGroup groupOf k) p.1 p.2) - G p.1)
  | .inl (.inr (k, 1)) => fun p => G (mix (inGroup groupOf k) p.1 p.2) - G p.1
  | .inl (.inr (k, 2)) => fun p => (G p.1 - G (mix (inGroup groupOf k) p.1 p.2)) ^ 2
  | .inr (.inl k) => fun p =>
      G (mix (inGroup groupOf k) p.2 p.1) - G (mix (inGroup groupOf k) p.1 p.2) + G p.1 - G p.2
  | .inr (.inr (j, k)) => fun p =>
      G (mix (inGroup groupOf j) p.2 p.1) * G (mix (inGroup groupOf k) p.1 p.2) - G p.1 * G p.2

/-- Their bounds. -/
noncomputable def accBound (K : ℝ) {g : Nat} : (Fin 2 ⊕ Fin g × Fin 3) ⊕ (Fin g ⊕ Fin g × Fin g) → ℝ
  | .inl (.inl 0) => K ^ 2
  | .inl (.inl 1) => K
  | .inl (.inr (_, 0)) => 2 * K ^ 2
  | .inl (.inr (_, 1)) => 2 * K
  | .inl (.inr (_, 2)) => 4 * K ^ 2
  | .inr (.inl _) => 4 * K
  | .inr (.inr _) => 2 * K ^ 2

section terms

variable (G : (Fin d → ℝ) → ℝ) (groupOf : Nat → Nat) (g : Nat)

theorem measurable_accTerm (hGm : Measurable G) (a : (Fin 2 ⊕ Fin g × Fin 3) ⊕ (Fin g ⊕ Fin g × Fin g)) :
    Measurable (accTerm G groupOf a) := by
  have m1 : Measurable fun p : (Fin d → ℝ) × (Fin d → ℝ) => G p.1 := hGm.comp measurable_fst
  have m2 : Measurable fun p : (Fin d → ℝ) × (Fin d → ℝ) => G p.2 := hGm.comp measurable_snd
  have mx : ∀ s, Measurable fun p : (Fin d → ℝ) × (Fin d → ℝ) => G (mix s p.1 p.2) := fun s => hGm.comp (measurable_mix s)
  have mf : ∀ s, Measurable fun p : (Fin d → ℝ) × (Fin d → ℝ) => G (mix s p.2 p.1) := fun s =>
    hGm.comp ((measurable_mix s).comp measurable_swap)
  rcases a with (a | ⟨k, a⟩) | (k | ⟨j, k⟩)
  · fin_cases a
    · exact ((m1.pow_const 2).add (m2.pow_const 2)).div_const 2
    · exact (m1.add m2).div_const 2
  · fin_cases a
    · exact m2.mul ((mx _).sub m1)
    · exact (mx _).sub m1
    · exact (m1.sub (mx _)).pow_const 2
  · exact (((mf _).sub (mx _)).add m1).sub m2
  · exact ((mf _).mul (mx _)).sub (m1.mul m2)

theorem accBound_pos (K : ℝ) (hK : 0 < K) (a : (Fin 2 ⊕ Fin g × Fin 3) ⊕ (Fin g ⊕ Fin g × Fin g)) : 0 < accBound K a := by
  rcases a with (a | ⟨k, a⟩) | (k | ⟨j, k⟩)
  · fin_cases a <;> simp only [accBound] <;> positivity
  · fin_cases a <;> simp only [accBound] <;> positivity
  · simp only [accBound]; positivity
  · simp only [accBound]; positivity

theorem abs_mul_le_sq {x y K : ℝ} (hx : |x| ≤ K) (hy : |y| ≤ K) : |x * y| ≤ K ^ 2 := by
  rw [abs_mul, sq]
  exact mul_le_mul hx hy (abs_nonneg _) ((abs_nonneg _).trans hx)

theorem accTerm_le (K : ℝ) (p : (Fin d → ℝ) × (Fin d → ℝ)) (hb : ∀ s : Fin d → Bool, |G (mix s p.1 p.2)| ≤ K)
    (a : (Fin 2 ⊕ Fin g × Fin 3) ⊕ (Fin g ⊕ Fin g × Fin g)) : |accTerm G groupOf a p| ≤ accBound K a := by
  have h1 : |G p.1| ≤ K := by simpa only [mix_none] using hb fun _ => false
  have h2 : |G p.2| ≤ K := by simpa only [mix_all] using hb fun _ => true
  have hf : ∀ s : Fin d → Bool, |G (mix s p.2 p.1)| ≤ K := fun s => by rw [mix_flip]; exact hb _
  have hK : 0 ≤ K := (abs_nonneg _).trans h1
  have q1 := abs_mul_le_sq h1 h1
  have q2 := abs_mul_le_sq h2 h2
  rcases a with (a | ⟨k, a⟩) | (k | ⟨j, k⟩)
  · fin_cases a
    · show |(G p.1 ^ 2 + G p.2 ^ 2) / 2| ≤ K ^ 2
      rw [abs_le] at *
      constructor <;> nlinarith
    · show |(G p.1 + G p.2) / 2| ≤ K
      rw [abs_le] at *
      constructor <;> linarith
  · have q3 := abs_mul_le_sq h2 (hb (inGroup groupOf k))
    have q4 := abs_mul_le_sq h2 h1
    have h3 := hb (inGroup groupOf k)
    fin_cases a
    · show |G p.2 * (G (mix (inGroup groupOf k) p.1 p.2) - G p.1)| ≤ 2 * K ^ 2
      rw [abs_le] at *
      constructor <;> nlinarith
    · show |G (mix (inGroup groupOf k) p.1 p.2) - G p.1| ≤ 2 * K
      rw [abs_le] at *
      constructor <;> linarith
    · show |(G p.1 - G (mix (inGroup groupOf k) p.1 p.2)) ^ 2| ≤ 4 * K ^ 2
      have h4 : |G p.1 - G (mix (inGroup groupOf k) p.1 p.2)| ≤ 2 * K := by
        rw [abs_le] at *
        constructor <;> linarith
      have := abs_mul_le_sq h4 h4
      rw [sq]
      linarith
  · have h3 := hb (inGroup groupOf k)
    have h4 := hf (inGroup groupOf k)
    show |G (mix (inGroup groupOf k) p.2 p.1) - G (mix (inGroup groupOf k) p.1 p.2) + G p.1 - G p.2| ≤ 4 * K
    clear hb hf q1 q2
    rw [abs_le] at *
    constructor <;> linarith
  · have q3 := abs_mul_le_sq (hf (inGroup groupOf j)) (hb (inGroup groupOf k))
    have q4 := abs_mul_le_sq h1 h2
    show |G (mix (inGroup groupOf j) p.2 p.1) * G (mix (inGroup groupOf k) p.1 p.2) - G p.1 * G p.2| ≤ 2 * K ^ 2
    clear hb hf q1 q2 h1 h2
    rw [abs_le] at *
    constructor <;> linarith

end terms

/-- What holds once every functional is within `δ` times its bound of its mean. -/
theorem indices_near {ν : Fin d → Measure ℝ} [∀ i, IsProbabilityMeasure (ν i)] (normPpf : ℝ → ℝ) (f : List ℝ → ℝ)
    (second : Bool) (g : Nat) (groupOf : Nat → Nat) (pb : Problem ℝ) (conf : ℝ) (keep : Bool)
    (hg : (extractGroupNames pb).2 = g) (hconf : 0 < conf ∧ conf < 1) (G : (Fin d → ℝ) → ℝ)
    (hf : ∀ x, f (List.ofFn x) = G x) (hGm : Measurable G) (K : ℝ) (hK : ∀ᵐ x ∂Measure.pi ν, |G x| ≤ K) (δ : ℝ) (hδ : 0 ≤ δ)
    (hlarge : 3 * δ * K ^ 2 < Var[G; Measure.pi ν]) (rows : List ((Fin d → ℝ) × (Fin d → ℝ)))
    (hb : ∀ p ∈ rows, ∀ s : Fin d → Bool, |G (mix s p.1 p.2)| ≤ K)
    (near : ∀ a : Fin 2 ⊕ Fin g × Fin 3, |rowMean rows (accTerm G groupOf (.inl a)) -
      ∫ p, accTerm G groupOf (.inl a) p ∂(Measure.pi ν).prod (Measure.pi ν)| ≤ δ * accBound K (.inl a : _ ⊕ (Fin g ⊕ Fin g × Fin g)))
    (r : List (List Nat)) (hr : r ≠ []) :
    ∃ res, sobolAnalyze Real.sqrt normPpf pb ((crossDesign second d g groupOf (rows.map pairRow)).map f) second conf r keep
        .serial = .ok res ∧
      (∀ k < g, ReportedNear res.S1[k]? (closedEffect ν G (inGroup groupOf k) / Var[G; Measure.pi ν])
          (7 * δ * K ^ 2 / (Var[G; Measure.pi ν] - 3 * δ * K ^ 2)) ∧
        ReportedNear res.ST[k]? (totalEffect ν G (inGroup groupOf k) / Var[G; Measure.pi ν])
          (5 * δ * K ^ 2 / (Var[G; Measure.pi ν] - 3 * δ * K ^ 2))) ∧
      (second = true →
        (∀ a : Fin g ⊕ Fin g × Fin g, |rowMean rows (accTerm G groupOf (.inr a)) -
          ∫ p, accTerm G groupOf (.inr a) p ∂(Measure.pi ν).prod (Measure.pi ν)| ≤ δ * accBound K (.inr a : (Fin 2 ⊕ Fin g × Fin 3) ⊕ _)) →
        ∃ S2, res.S2 = some S2 ∧ ∀ j k, j < k → k < g → ReportedNear (entry S2 j k)
          ((closedEffect ν G (fun i => inGroup groupOf j i || inGroup groupOf k i) -
            closedEffect ν G (inGroup groupOf j) - closedEffect ν G (inGroup groupOf k)) / Var[G; Measure.pi ν])
          (16 * δ * K ^ 2 / (Var[G; Measure.pi ν] - 3 * δ * K ^ 2))) := by
  have hG := memLp_of_ae_le G K hGm hK
  have hGf : (fun x : Fin d → ℝ => f (List.ofFn x)) = G := funext hf
  have hm := abs_mean_le G K hK
  have hK0 : 0 ≤ K := (abs_nonneg _).trans hm
  have l1 := memLp_fst ν G hG
  have l2 := memLp_snd ν G hG
  have lx := memLp_mix ν G hG
  have a1 : ∫ p, G p.1 ^ 2 ∂((Measure.pi ν).prod (Measure.pi ν)) = ∫ x, G x ^ 2 ∂Measure.pi ν := by
    have := integral_sq_mix ν G hG fun _ => false
    simpa only [mix_none] using this
  have a2 : ∫ p, G p.2 ^ 2 ∂((Measure.pi ν).prod (Measure.pi ν)) = ∫ x, G x ^ 2 ∂Measure.pi ν := by
    have := integral_sq_mix ν G hG fun _ => true
    simpa only [mix_all] using this
  have a3 : ∫ p, G p.1 ∂((Measure.pi ν).prod (Measure.pi ν)) = ∫ x, G x ∂Measure.pi ν := by
    have := integral_mix ν G hG fun _ => false
    simpa only [mix_none] using this
  have a4 : ∫ p, G p.2 ∂((Measure.pi ν).prod (Measure.pi ν)) = ∫ x, G x ∂Measure.pi ν := by
    have := integral_mix ν G hG fun _ => true
    simpa only [mix_all] using this
  have b1 : ∫ p, (G p.1 ^ 2 + G p.2 ^ 2) / 2 ∂((Measure.pi ν).prod (Measure.pi ν)) = ∫ x, G x ^ 2 ∂Measure.pi ν := by
    rw [integral_div, integral_add l1.integrable_sq l2.integrable_sq, a1, a2]; ring
  have b2 : ∫ p, (G p.1 + G p.2) / 2 ∂((Measure.pi ν).prod (Measure.pi ν)) = ∫ x, G x ∂Measure.pi ν := by
    rw [integral_div, integral_add (l1.integrable one_le_two) (l2.integrable one_le_two), a3, a4]
    ring
  have b5 : ∀ k, ∫ p, (G (mix (inGroup groupOf k) p.1 p.2) - G p.1) ∂((Measure.pi ν).prod (Measure.pi ν)) = 0 := by
    intro k
    rw [integral_sub ((lx _).integrable one_le_two) (l1.integrable one_le_two), integral_mix ν G hG, a3, sub_self]
  have hb1 : ∀ p ∈ rows, |G p.1| ≤ K ∧ |G p.2| ≤ K := fun p hp =>
    ⟨by simpa only [mix_none] using hb p hp fun _ => false, by simpa only [mix_all] using hb p hp fun _ => true⟩
  have hM : ∀ p ∈ rows, |blockMean second g groupOf G p| ≤ K := fun p hp =>
    blockMean_abs_le second g groupOf G K p (hb p hp)
  have nv : |sampleVar G rows - Var[G; Measure.pi ν]| ≤ 3 * δ * K ^ 2 := by
    have n1 := near (.inl 0)
    have n2 := near (.inl 1)
    simp only [accTerm, accBound, b1, b2] at n1 n2
    have := sampleVar_near G rows K δ _ _ hδ hm hb1 n1 n2
    rwa [variance_eq_sub hG]
  have hv0 : sampleVar G rows ≠ 0 := (quotient_near (a := 0) (A := 0) (α := 0) (c := 0) (by simp) nv hlarge (by simp)).1
  have n3 : ∀ k < g, |rowMean rows (fun p => G p.2 * (G (mix (inGroup groupOf k) p.1 p.2) - G p.1)) -
      closedEffect ν G (inGroup groupOf k)| ≤ δ * (2 * K ^ 2) := by
    intro k hk
    have := near (.inr (⟨k, hk⟩, 0))
    simp only [accTerm, accBound] at this
    rwa [mean_first ν G hG] at this
  have n4 : ∀ k < g, |rowMean rows (fun p => G (mix (inGroup groupOf k) p.1 p.2) - G p.1)| ≤ δ * (2 * K) := by
    intro k hk
    have := near (.inr (⟨k, hk⟩, 1))
    simp only [accTerm, accBound] at this
    rwa [b5, sub_zero] at this
  have key := C89_formula normPpf f second g groupOf rows pb conf r keep hg hconf hr (by rw [hGf]; exact hv0)
  simp only [hGf] at key
  obtain ⟨res, hrun, hS, hS2⟩ := key
  refine ⟨res, hrun, fun k hk => ⟨⟨_, (hS k hk).1, ?_⟩, ⟨_, (hS k hk).2, ?_⟩⟩, fun hs near2 => ?_⟩
  · have e1 := firstNum_near G rows K δ (blockMean second g groupOf G) (inGroup groupOf k) _ hK0 hM (n3 k hk) (n4 k hk)
    have c1 : |closedEffect ν G (inGroup groupOf k)| ≤ 1 * Var[G; Measure.pi ν] := by
      have h0 : 0 ≤ closedEffect ν G (inGroup groupOf k) := variance_nonneg _ _
      rw [one_mul, abs_of_nonneg h0]
      exact closedEffect_le ν G hG _
    have := (quotient_near e1 nv hlarge c1).2
    rwa [show 4 * δ * K ^ 2 + 1 * (3 * δ * K ^ 2) = 7 * δ * K ^ 2 by ring] at this
  · have e2 : |totalNum G (inGroup groupOf k) rows - totalEffect ν G (inGroup groupOf k)| ≤ 2 * δ * K ^ 2 := by
      refine totalNum_near G rows K δ _ _ ?_
      have := near (.inr (⟨k, hk⟩, 2))
      simp only [accTerm, accBound] at this
      have h2 : ∫ p, (G p.1 - G (mix (inGroup groupOf k) p.1 p.2)) ^ 2 ∂((Measure.pi ν).prod (Measure.pi ν)) =
          2 * totalEffect ν G (inGroup groupOf k) := by
        rw [← mean_total ν G hG]; ring
      rwa [h2] at this
    have c2 : |totalEffect ν G (inGroup groupOf k)| ≤ 1 * Var[G; Measure.pi ν] := by
      have h0 : 0 ≤ totalEffect ν G (inGroup groupOf k) := integral_nonneg fun _ => variance_nonneg _ _
      rw [one_mul, abs_of_nonneg h0, totalEffect_eq_sub ν G hG]
      have := variance_nonneg (condMean ν G fun j => !inGroup groupOf k j) (Measure.pi ν)
      unfold closedEffect
      linarith
    have := (quotient_near e2 nv hlarge c2).2
    rwa [show 2 * δ * K ^ 2 + 1 * (3 * δ * K ^ 2) = 5 * δ * K ^ 2 by ring] at this
  · obtain ⟨S2, hs2, he⟩ := hS2 hs
    refine ⟨S2, hs2, fun j k hjk hk => ⟨_, he j k hjk hk, ?_⟩⟩
    have hj : j < g := by omega
    have hst : ∀ i : Fin d, ¬(inGroup groupOf j i = true ∧ inGroup groupOf k i = true) := by
      intro i h
      simp only [inGroup, beq_iff_eq] at h
      exact hjk.ne (h.1.symm.trans h.2)
    have n6 := near2 (.inr (⟨j, hj⟩, ⟨k, hk⟩))
    have n7 := near2 (.inl ⟨j, hj⟩)
    simp only [accTerm, accBound] at n6 n7
    rw [mean_second ν G hG _ _ hst] at n6
    rw [integral_anti G hGm hG, sub_zero] at n7
    have e3 := secondNum_near G rows K δ (blockMean second g groupOf G) _ _ _ _ _ hK0 hM (n3 j hj) (n3 k hk) n6 n7
    have c3 : |closedEffect ν G (fun i => inGroup groupOf j i || inGroup groupOf k i) -
            closedEffect ν G (inGroup groupOf j) - closedEffect ν G (inGroup groupOf k)| ≤ 2 * Var[G; Measure.pi ν] := by
      have u1 := closedEffect_le ν G hG fun i => inGroup groupOf j i || inGroup groupOf k i
      have u2 := closedEffect_le ν G hG (inGroup groupOf j)
      have u3 := closedEffect_le ν G hG (inGroup groupOf k)
      have v1 : 0 ≤ closedEffect ν G fun i => inGroup groupOf j i || inGroup groupOf k i := variance_nonneg _ _
      have v2 : 0 ≤ closedEffect ν G (inGroup groupOf j) := variance_nonneg _ _
      have v3 : 0 ≤ closedEffect ν G (inGroup groupOf k) := variance_nonneg _ _
      rw [abs_le]
      constructor <;> linarith
    have := (quotient_near e3 nv hlarge c3).2
    rwa [show 10 * δ * K ^ 2 + 2 * (3 * δ * K ^ 2) = 16 * δ * K ^ 2 by ring] at this

/-- The arithmetic of the error: `δ = ε V / (c K²)` with `b + 3 ≤ c` makes `b δ K² / (V - 3 δ K²)` at most `ε`. -/
theorem error_le {V K ε b c : ℝ} (hV : 0 < V) (hK : 0 < K) (hε : 0 < ε) (hε1 : ε ≤ 1) (hb : 0 < b) (hc : b + 3 ≤ c) :
    3 * (ε * V / (c * K ^ 2)) * K ^ 2 < V ∧
      b * (ε * V / (c * K ^ 2)) * K ^ 2 / (V - 3 * (ε * V / (c * K ^ 2)) * K ^ 2) ≤ ε := by
  have hc0 : 0 < c := by linarith
  have e : ε * V / (c * K ^ 2) * K ^ 2 = ε * V / c := by field_simp
  rw [mul_assoc 3, mul_assoc b, e]
  have hu : 0 < ε * V / c := by positivity
  have hcu : c * (ε * V / c) = ε * V := by field_simp
  have h1 : ε * V ≤ V := by nlinarith
  generalize ε * V / c = u at hu hcu
  have h3 : 3 * u < V := by nlinarith
  refine ⟨h3, ?_⟩
  rw [div_le_iff₀ (by linarith)]
  nlinarith

theorem exponent_eq {V K ε c : ℝ} (N : Nat) (hK : 0 < K) (hc : c ≠ 0) :
    (N : ℝ) * (ε * V / (c * K ^ 2)) ^ 2 / 2 = N * ε ^ 2 * V ^ 2 / (2 * c ^ 2 * K ^ 4) := by
  field_simp

section probability

variable {ν : Fin d → Measure ℝ} [∀ i, IsProbabilityMeasure (ν i)] {Ω : Type} [MeasurableSpace Ω] (P : Measure Ω)
  (Z : ℕ → Ω → (Fin d → ℝ) × (Fin d → ℝ)) (hZ : BaseRows ν P Z) (G : (Fin d → ℝ) → ℝ)
include hZ

/-- The probability that some functional of a kind is off. -/
theorem terms_hoeffding (groupOf : Nat → Nat) (g : Nat) (hGm : Measurable G) (K : ℝ) (hK0 : 0 < K)
    (hK : ∀ᵐ x ∂Measure.pi ν, |G x| ≤ K) (N : Nat) (hN : 0 < N) (δ : ℝ) (hδ : 0 ≤ δ) {ι : Type} [Fintype ι]
    (e : ι → (Fin 2 ⊕ Fin g × Fin 3) ⊕ (Fin g ⊕ Fin g × Fin g)) (Bad : Set Ω)
    (hbad : ∀ ω, (∀ p ∈ firstRows Z N ω, ∀ s : Fin d → Bool, |G (mix s p.1 p.2)| ≤ K) →
      (∀ a, |rowMean (firstRows Z N ω) (accTerm G groupOf (e a)) -
        ∫ p, accTerm G groupOf (e a) p ∂(Measure.pi ν).prod (Measure.pi ν)| ≤ δ * accBound K (e a)) → ω ∉ Bad) :
    P.real Bad ≤ Fintype.card ι * (2 * Real.exp (-(N * δ ^ 2 / 2))) := by
  have hP : IsProbabilityMeasure P := hZ.indep.isProbabilityMeasure
  have hbt : ∀ a, ∀ᵐ p ∂(Measure.pi ν).prod (Measure.pi ν), |accTerm G groupOf (e a) p| ≤ accBound K (e a) := by
    intro a
    filter_upwards [ae_mix_le G K hK] with p hp
    exact accTerm_le G groupOf g K p hp (e a)
  refine le_trans ?_ (rowMeans_hoeffding hZ.meas hZ.law hZ.indep (fun a => accTerm G groupOf (e a))
    (fun a => measurable_accTerm G groupOf g hGm (e a)) (fun a => accBound K (e a)) (fun a => accBound_pos g K hK0 (e a)) hbt N
    hN δ hδ)
  refine ENNReal.toReal_mono (measure_ne_top _ _) (measure_mono_ae ?_)
  filter_upwards [ae_rows_le G K hK hZ] with ω hω
  intro hB
  by_contra hno
  refine hbad ω (hω N) (fun a => ?_) hB
  by_contra ha
  exact hno ⟨a, (not_le.mp ha).le⟩

end probability

/-- **C136**, S1 and ST.  Let the model be bounded by `K` and its variance be `V`, and let `N` base rows be drawn at random.
Then the analysis of the outputs of the design succeeds and reports every S1 and ST within `ε`, except with a probability of at
most `(4 + 6 g) exp(-N ε² V² / (200 K⁴))`. -/
theorem C136_first (normPpf : ℝ → ℝ) (f : List ℝ → ℝ) (second : Bool) (g : Nat) (groupOf : Nat → Nat)
    (pb : Problem ℝ) (conf : ℝ) (keep : Bool) (hg : (extractGroupNames pb).2 = g) (hconf : 0 < conf ∧ conf < 1)
    (ν : Fin d → Measure ℝ) [∀ i, IsProbabilityMeasure (ν i)] {Ω : Type} [MeasurableSpace Ω] (P : Measure Ω)
    (Z : ℕ → Ω → (Fin d → ℝ) × (Fin d → ℝ)) (hZ : BaseRows ν P Z)
    (G : (Fin d → ℝ) → ℝ) (hf : ∀ x, f (List.ofFn x) = G x)
    (hGm : Measurable G) (K : ℝ) (hK : ∀ᵐ x ∂Measure.pi ν, |G x| ≤ K) (hV : 0 < Var[G; Measure.pi ν])
    (N : Nat) (hN : 0 < N) (ε : ℝ) (hε : 0 < ε) (hε1 : ε ≤ 1) :
    P.real {ω | ¬∀ r : List (List Nat), r ≠ [] → ∃ res,
      sobolAnalyze Real.sqrt normPpf pb
        ((crossDesign second d g groupOf ((firstRows Z N ω).map pairRow)).map f) second conf r keep .serial = .ok res ∧
      ∀ k < g, ReportedNear res.S1[k]? (closedEffect ν G (inGroup groupOf k) / Var[G; Measure.pi ν]) ε ∧
        ReportedNear res.ST[k]? (totalEffect ν G (inGroup groupOf k) / Var[G; Measure.pi ν]) ε} ≤
      (4 + 6 * g) * Real.exp (-(N * ε ^ 2 * Var[G; Measure.pi ν] ^ 2 / (200 * K ^ 4))) := by
  have hK0 := bound_pos G K hGm hK hV
  obtain ⟨hl, h7⟩ := error_le (b := 7) (c := 10) hV hK0 hε hε1 (by norm_num) (by norm_num)
  obtain ⟨-, h5⟩ := error_le (b := 5) (c := 10) hV hK0 hε hε1 (by norm_num) (by norm_num)
  refine (terms_hoeffding P Z hZ G groupOf g hGm K hK0 hK N hN (ε * Var[G; Measure.pi ν] / (10 * K ^ 2)) (by positivity)
    (Sum.inl : Fin 2 ⊕ Fin g × Fin 3 → _) _ fun ω hb near hω => ?_).trans (le_of_eq ?_)
  rotate_left
  · rw [exponent_eq N hK0 (by norm_num)]
    simp only [Fintype.card_sum, Fintype.card_prod, Fintype.card_fin]
    push_cast
    rw [show (2 : ℝ) * 10 ^ 2 = 200 by norm_num]
    ring
  · refine hω fun r hr => ?_
    obtain ⟨res, hrun, hS, -⟩ := indices_near normPpf f second g groupOf pb conf keep hg hconf G hf hGm K hK _
      (by positivity) hl _ hb near r hr
    refine ⟨res, hrun, fun k hk => ?_⟩
    obtain ⟨⟨s, q1, q2⟩, ⟨t, q3, q4⟩⟩ := hS k hk
    exact ⟨⟨s, q1, q2.trans h7⟩, ⟨t, q3, q4.trans h5⟩⟩

/-- **C136**, S2: with the second-order design every S1, ST and S2 is within `ε`, except with a probability of at most
`(4 + 8 g + 2 g²) exp(-N ε² V² / (722 K⁴))`. -/
theorem C136_second (normPpf : ℝ → ℝ) (f : List ℝ → ℝ) (g : Nat) (groupOf : Nat → Nat)
    (pb : Problem ℝ) (conf : ℝ) (keep : Bool) (hg : (extractGroupNames pb).2 = g) (hconf : 0 < conf ∧ conf < 1)
    (ν : Fin d → Measure ℝ) [∀ i, IsProbabilityMeasure (ν i)] {Ω : Type} [MeasurableSpace Ω] (P : Measure Ω)
    (Z : ℕ → Ω → (Fin d → ℝ) × (Fin d → ℝ)) (hZ : BaseRows ν P Z)
    (G : (Fin d → ℝ) → ℝ) (hf : ∀ x, f (List.ofFn x) = G x)
    (hGm : Measurable G) (K : ℝ) (hK : ∀ᵐ x ∂Measure.pi ν, |G x| ≤ K) (hV : 0 < Var[G; Measure.pi ν])
    (N : Nat) (hN : 0 < N) (ε : ℝ) (hε : 0 < ε) (hε1 : ε ≤ 1) :
    P.real {ω | ¬∀ r : List (List Nat), r ≠ [] → ∃ res S2,
      sobolAnalyze Real.sqrt normPpf pb
        ((crossDesign true d g groupOf ((firstRows Z N ω).map pairRow)).map f) true conf r keep .serial = .ok res ∧
      (∀ k < g, ReportedNear res.S1[k]? (closedEffect ν G (inGroup groupOf k) / Var[G; Measure.pi ν]) ε ∧
        ReportedNear res.ST[k]? (totalEffect ν G (inGroup groupOf k) / Var[G; Measure.pi ν]) ε) ∧
      res.S2 = some S2 ∧ ∀ j k, j < k → k < g → ReportedNear (entry S2 j k)
        ((closedEffect ν G (fun i => inGroup groupOf j i || inGroup groupOf k i) -
          closedEffect ν G (inGroup groupOf j) - closedEffect ν G (inGroup groupOf k)) / Var[G; Measure.pi ν]) ε} ≤
      (4 + 8 * g + 2 * g ^ 2) * Real.exp (-(N * ε ^ 2 * Var[G; Measure.pi ν] ^ 2 / (722 * K ^ 4))) := by
  have hK0 := bound_pos G K hGm hK hV
  obtain ⟨hl, h16⟩ := error_le (b := 16) (c := 19) hV hK0 hε hε1 (by norm_num) (by norm_num)
  obtain ⟨-, h7⟩ := error_le (b := 7) (c := 19) hV hK0 hε hε1 (by norm_num) (by norm_num)
  obtain ⟨-, h5⟩ := error_le (b := 5) (c := 19) hV hK0 hε hε1 (by norm_num) (by norm_num)
  refine (terms_hoeffding P Z hZ G groupOf g hGm K hK0 hK N hN (ε * Var[G; Measure.pi ν] / (19 * K ^ 2)) (by positivity)
    id _ fun ω hb near hω => ?_).trans (le_of_eq ?_)
  rotate_left
  · rw [exponent_eq N hK0 (by norm_num)]
    simp only [Fintype.card_sum, Fintype.card_prod, Fintype.card_fin]
    push_cast
    rw [show (2 : ℝ) * 19 ^ 2 = 722 by norm_num]
    ring
  · refine hω fun r hr => ?_
    obtain ⟨res, hrun, hS, hS2⟩ := indices_near normPpf f true g groupOf pb conf keep hg hconf G hf hGm K hK _
      (by positivity) hl _ hb (fun a => near (.inl a)) r hr
    obtain ⟨S2, hs2, h2⟩ := hS2 rfl fun a => near (.inr a)
    refine ⟨res, S2, hrun, fun k hk => ?_, hs2, fun j k hjk hk => ?_⟩
    · obtain ⟨⟨s, q1, q2⟩, ⟨t, q3, q4⟩⟩ := hS k hk
      exact ⟨⟨s, q1, q2.trans h7⟩, ⟨t, q3, q4.trans h5⟩⟩
    · obtain ⟨s, q1, q2⟩ := h2 j k hjk hk
      exact ⟨s, q1, q2.trans h16⟩

/-- **C136**, the number of samples: `N ≥ 200 K⁴ / (ε² V²) · log((4 + 6 g) / η)` base rows are enough for all S1 and ST to be
within `ε` with probability at least `1 - η`. -/
theorem C136_size (normPpf : ℝ → ℝ) (f : List ℝ → ℝ) (second : Bool) (g : Nat) (groupOf : Nat → Nat)
    (pb : Problem ℝ) (conf : ℝ) (keep : Bool) (hg : (extractGroupNames pb).2 = g) (hconf : 0 < conf ∧ conf < 1)
    (ν : Fin d → Measure ℝ) [∀ i, IsProbabilityMeasure (ν i)] {Ω : Type} [MeasurableSpace Ω] (P : Measure Ω)
    (Z : ℕ → Ω → (Fin d → ℝ) × (Fin d → ℝ)) (hZ : BaseRows ν P Z)
    (G : (Fin d → ℝ) → ℝ) (hf : ∀ x, f (List.ofFn x) = G x)
    (hGm : Measurable G) (K : ℝ) (hK : ∀ᵐ x ∂Measure.pi ν, |G x| ≤ K) (hV : 0 < Var[G; Measure.pi ν])
    (ε : ℝ) (hε : 0 < ε) (hε1 : ε ≤ 1) (η : ℝ) (hη : 0 < η) (hη1 : η ≤ 1) (N : Nat)
    (hN : 200 * K ^ 4 / (ε ^ 2 * Var[G; Measure.pi ν] ^ 2) * Real.log ((4 + 6 * g) / η) ≤ N) :
    P.real {ω | ¬∀ r : List (List Nat), r ≠ [] → ∃ res,
      sobolAnalyze Real.sqrt normPpf pb
        ((crossDesign second d g groupOf ((firstRows Z N ω).map pairRow)).map f) second conf r keep .serial = .ok res ∧
      ∀ k < g, ReportedNear res.S1[k]? (closedEffect ν G (inGroup groupOf k) / Var[G; Measure.pi ν]) ε ∧
        ReportedNear res.ST[k]? (totalEffect ν G (inGroup groupOf k) / Var[G; Measure.pi ν]) ε} ≤ η := by
  have hK0 := bound_pos G K hGm hK hV
  have h4 : (0 : ℝ) < 4 + 6 * g := by positivity
  have hlog : 0 < Real.log ((4 + 6 * g) / η) := by
    apply Real.log_pos
    rw [lt_div_iff₀ hη]
    have : (0 : ℝ) ≤ g := Nat.cast_nonneg g
    linarith
  have hN0 : 0 < N := by
    have : (0 : ℝ) < N := lt_of_lt_of_le (by positivity) hN
    exact_mod_cast this
  refine (C136_first normPpf f second g groupOf pb conf keep hg hconf ν P Z hZ G hf hGm K hK hV N hN0 ε hε hε1).trans ?_
  have h1 : Real.log ((4 + 6 * g) / η) ≤ N * ε ^ 2 * Var[G; Measure.pi ν] ^ 2 / (200 * K ^ 4) := by
    rw [le_div_iff₀ (by positivity)]
    rw [div_mul_eq_mul_div, div_le_iff₀ (by positivity)] at hN
    linarith
  have h2 : Real.exp (-(N * ε ^ 2 * Var[G; Measure.pi ν] ^ 2 / (200 * K ^ 4))) ≤ η / (4 + 6 * g) := by
    refine (Real.exp_le_exp.mpr (neg_le_neg h1)).trans (le_of_eq ?_)
    rw [Real.exp_neg, Real.exp_log (by positivity), inv_div]
  calc _ ≤ (4 + 6 * (g : ℝ)) * (η / (4 + 6 * g)) := mul_le_mul_of_nonneg_left h2 h4.le
    _ = η := by field_simp

/-- The hypotheses are met, and the bound says something: for the product of two steps (indices 1/3 and 2/3) and 2²³ random base
rows, all S1 and ST are within 0.1 with probability at least 0.95. -/
example (normPpf : ℝ → ℝ) :
    (Measure.infinitePi fun _ : ℕ => (Measure.pi fun _ : Fin 2 => unifOn 0 1).prod (Measure.pi fun _ : Fin 2 => unifOn 0 1)).real
      {ω | ¬∀ r : List (List Nat), r ≠ [] → ∃ res,
        sobolAnalyze Real.sqrt normPpf { names := ["x", "y"], bounds := [[0, 1], [0, 1]] }
          ((crossDesign false 2 2 id ((firstRows (fun i ω => ω i) (2 ^ 23) ω).map pairRow)).map
            fun l => bothLow fun i => l.getD i 0) false (19 / 20) r false .serial = .ok res ∧
        ∀ k < 2, ReportedNear res.S1[k]? (closedEffect (fun _ => unifOn 0 1) bothLow (inGroup id k) /
            Var[bothLow; Measure.pi fun _ => unifOn 0 1]) (1 / 10) ∧
          ReportedNear res.ST[k]? (totalEffect (fun _ => unifOn 0 1) bothLow (inGroup id k) /
            Var[bothLow; Measure.pi fun _ => unifOn 0 1]) (1 / 10)} ≤ 1 / 20 := by
  have hp := isProb_unifOn (zero_lt_one (α := ℝ))
  have hvar : Var[bothLow; Measure.pi fun _ => unifOn 0 1] = 3 / 16 := by
    rw [← closedEffect_all _ _ memLp_bothLow, closedEffect_bothLow]
    norm_num
  have hm : Measurable bothLow := by
    have : bothLow = fun x => lowerHalf (x 0) * lowerHalf (x 1) := funext bothLow_eq
    rw [this]
    exact (measurable_lowerHalf.comp (measurable_pi_apply 0)).mul (measurable_lowerHalf.comp (measurable_pi_apply 1))
  refine C136_size normPpf (fun l => bothLow fun i => l.getD i 0) false 2 id _ (19 / 20) false rfl (by norm_num)
    (fun _ => unifOn 0 1) _ _ (baseRows_exist _) bothLow ?_ hm 1 ?_ (by rw [hvar]; norm_num) (1 / 10) (by norm_num) (by norm_num)
    (1 / 20) (by norm_num) (by norm_num) _ ?_
  · intro x
    have : (fun i : Fin 2 => (List.ofFn x).getD i 0) = x := by
      funext i
      fin_cases i <;> simp
    show bothLow (fun i : Fin 2 => (List.ofFn x).getD i 0) = _
    rw [this]
  · refine Filter.Eventually.of_forall fun x => ?_
    rw [bothLow_eq, abs_mul]
    have h1 : ∀ t, |lowerHalf t| ≤ 1 := fun t => by
      unfold lowerHalf
      split <;> simp
    exact mul_le_one₀ (h1 _) (abs_nonneg _) (h1 _)
  · rw [hvar]
    have hlog : Real.log ((4 + 6 * ((2 : ℕ) : ℝ)) / (1 / 20)) ≤ 9 := by
      rw [Real.log_le_iff_le_exp (by norm_num)]
      have h2 : (2 : ℝ) ≤ Real.exp 1 := by linarith [Real.add_one_le_exp (1 : ℝ)]
      have : Real.exp 9 = Real.exp 1 ^ 9 := by rw [← Real.exp_nat_mul]; norm_num
      rw [this]
      calc _ ≤ (2 : ℝ) ^ 9 := by norm_num
        _ ≤ _ := pow_le_pow_left₀ (by norm_num) h2 9
    push_cast
    push_cast at hlog
    linarith

end SALib
