import Verif.Spec.QuasiMean
import Verif.Lemmas.DerivMeasure
import Verif.Lemmas.SobolRows
import Mathlib.MeasureTheory.Integral.Bochner.Set
import Mathlib.MeasureTheory.Constructions.Pi

/-! # Means over points that are spread evenly over the cells of a partition -/

namespace SALib

open MeasureTheory ProbabilityTheory Spec

/-- Points that fall equally often into cells of equal probability: the mean of a function over the points differs
from its integral by no more than the function varies within a cell. -/
theorem cell_mean {Ω ι : Type} [MeasurableSpace Ω] (μ : Measure Ω) [IsProbabilityMeasure μ] [Fintype ι] [DecidableEq ι]
    (C : ι → Set Ω) (hC : ∀ i, MeasurableSet (C i)) (hdisj : Pairwise (Function.onFun Disjoint C))
    (hprob : ∀ i, μ.real (C i) = 1 / Fintype.card ι) (N c : ℕ) (hN : N = c * Fintype.card ι) (hN0 : 0 < N)
    (z : ℕ → Ω) (idx : ℕ → ι) (hidx : ∀ n < N, z n ∈ C (idx n))
    (hcount : ∀ i, ((Finset.range N).filter fun n => idx n = i).card = c) (h : Ω → ℝ) (hint : Integrable h μ) (ε : ℝ)
    (hosc : ∀ i, ∀ x ∈ C i, ∀ y ∈ C i, |h x - h y| ≤ ε) :
    |(∑ n ∈ Finset.range N, h (z n)) / N - ∫ x, h x ∂μ| ≤ ε := by
  have hNR : (0 : ℝ) < N := by exact_mod_cast hN0
  have hcard : (0 : ℝ) < Fintype.card ι := by
    rcases Nat.eq_zero_or_pos (Fintype.card ι) with h0 | h0
    · rw [h0, Nat.mul_zero] at hN; omega
    · exact_mod_cast h0
  have hNc : (N : ℝ) = c * Fintype.card ι := by exact_mod_cast hN
  -- the cells carry all the mass
  have hU : μ (⋃ i, C i) = 1 := by
    rw [measure_iUnion hdisj hC, tsum_fintype]
    have h1 : ∀ i, μ (C i) = ENNReal.ofReal (1 / Fintype.card ι) := by
      intro i
      rw [← hprob i, ofReal_measureReal]
    simp only [h1]
    rw [Finset.sum_const, Finset.card_univ, nsmul_eq_mul, ← ENNReal.ofReal_natCast,
      ← ENNReal.ofReal_mul (by positivity), mul_one_div_cancel hcard.ne', ENNReal.ofReal_one]
  have hae : ∀ᵐ x ∂μ, x ∈ ⋃ i, C i := by
    rw [← prob_compl_eq_zero_iff (MeasurableSet.iUnion hC)] at hU
    exact hU
  have hsum : ∫ x, h x ∂μ = ∑ i, ∫ x in C i, h x ∂μ := by
    rw [← integral_iUnion_fintype hC hdisj fun i => hint.integrableOn, Measure.restrict_eq_self_of_ae_mem hae]
  -- one point against its cell
  have hone : ∀ n < N, |h (z n) - Fintype.card ι * ∫ x in C (idx n), h x ∂μ| ≤ ε := by
    intro n hn
    have hconst : ∫ _ in C (idx n), h (z n) ∂μ = h (z n) / Fintype.card ι := by
      rw [setIntegral_const, hprob, smul_eq_mul]; ring
    have hdiff : h (z n) - Fintype.card ι * ∫ x in C (idx n), h x ∂μ =
        Fintype.card ι * ∫ x in C (idx n), (h (z n) - h x) ∂μ := by
      rw [integral_sub (integrable_const _) hint.integrableOn, hconst]
      field_simp
    have hle : ‖∫ x in C (idx n), (h (z n) - h x) ∂μ‖ ≤ ε * μ.real (C (idx n)) :=
      norm_setIntegral_le_of_norm_le_const (measure_lt_top _ _)
        fun x hx => hosc (idx n) _ (hidx n hn) x hx
    rw [hdiff, abs_mul, abs_of_pos hcard]
    rw [Real.norm_eq_abs, hprob] at hle
    calc (Fintype.card ι : ℝ) * |∫ x in C (idx n), (h (z n) - h x) ∂μ| ≤
          Fintype.card ι * (ε * (1 / Fintype.card ι)) := by gcongr
      _ = ε := by field_simp
  have hcells : ∑ n ∈ Finset.range N, Fintype.card ι * ∫ x in C (idx n), h x ∂μ = N * ∫ x, h x ∂μ := by
    rw [← Finset.sum_fiberwise (Finset.range N) idx, hsum, Finset.mul_sum]
    refine Finset.sum_congr rfl fun i _ => ?_
    rw [Finset.sum_congr rfl fun n hn => by rw [(Finset.mem_filter.mp hn).2], Finset.sum_const, hcount, nsmul_eq_mul,
      hNc]
    ring
  have hrew : (∑ n ∈ Finset.range N, h (z n)) / N - ∫ x, h x ∂μ =
      (∑ n ∈ Finset.range N, (h (z n) - Fintype.card ι * ∫ x in C (idx n), h x ∂μ)) / N := by
    rw [Finset.sum_sub_distrib, hcells]
    field_simp
  rw [hrew, abs_div, abs_of_pos hNR, div_le_iff₀ hNR]
  refine (Finset.abs_sum_le_sum_abs _ _).trans ?_
  refine (Finset.sum_le_sum fun n hn => hone n (Finset.mem_range.mp hn)).trans ?_
  rw [Finset.sum_const, Finset.card_range, nsmul_eq_mul, mul_comm]

/-! ## Dyadic cells of a box -/

/-- The `i`-th of the `2^k` equal parts of `[lo, hi)`. -/
def dyCell (lo hi : ℝ) (k i : ℕ) : Set ℝ :=
  Set.Ico (lo + (hi - lo) * (i / 2 ^ k)) (lo + (hi - lo) * ((i + 1) / 2 ^ k))

theorem dyCell_sub (lo hi : ℝ) (h : lo < hi) (k i : ℕ) (hi' : i < 2 ^ k) : dyCell lo hi k i ⊆ Set.Icc lo hi := by
  intro x hx
  have hk : (0 : ℝ) < 2 ^ k := by positivity
  have h1 : (0 : ℝ) ≤ i / 2 ^ k := by positivity
  have h2 : ((i : ℝ) + 1) / 2 ^ k ≤ 1 := by
    rw [div_le_one hk]
    exact_mod_cast hi'
  obtain ⟨hx1, hx2⟩ := hx
  constructor
  · nlinarith
  · nlinarith

theorem unifOn_dyCell (lo hi : ℝ) (h : lo < hi) (k i : ℕ) (hi' : i < 2 ^ k) :
    unifOn lo hi (dyCell lo hi k i) = ENNReal.ofReal (1 / 2 ^ k) := by
  have hk : (0 : ℝ) < 2 ^ k := by positivity
  have hw : 0 < hi - lo := by linarith
  unfold unifOn
  rw [cond_apply measurableSet_Icc, Set.inter_eq_right.mpr (dyCell_sub lo hi h k i hi'), dyCell, Real.volume_Icc,
    Real.volume_Ico, ← ENNReal.ofReal_inv_of_pos hw, ← ENNReal.ofReal_mul (by positivity)]
  congr 1
  field_simp
  ring

theorem dyCell_disj (lo hi : ℝ) (h : lo < hi) (k i i' : ℕ) (hne : i ≠ i') (x : ℝ) (hx : x ∈ dyCell lo hi k i)
    (hx' : x ∈ dyCell lo hi k i') : False := by
  have hk : (0 : ℝ) < 2 ^ k := by positivity
  have hw : 0 < hi - lo := by linarith
  have aux : ∀ a b : ℕ, a < b → x ∈ dyCell lo hi k a → x ∈ dyCell lo hi k b → False := by
    intro a b hab h1 h2
    have h3 := h1.2
    have h4 := h2.1
    have h5 : ((a : ℝ) + 1) / 2 ^ k ≤ b / 2 ^ k := by
      gcongr
      exact_mod_cast hab
    nlinarith
  rcases lt_or_gt_of_ne hne with hlt | hgt
  · exact aux i i' hlt hx hx'
  · exact aux i' i hgt hx' hx

theorem dyCell_diam (lo hi : ℝ) (h : lo < hi) (k i : ℕ) (x y : ℝ) (hx : x ∈ dyCell lo hi k i)
    (hy : y ∈ dyCell lo hi k i) : |x - y| ≤ (hi - lo) / 2 ^ k := by
  obtain ⟨h1, h2⟩ := hx
  obtain ⟨h3, h4⟩ := hy
  have e : (hi - lo) * (((i : ℝ) + 1) / 2 ^ k) = (hi - lo) * (i / 2 ^ k) + (hi - lo) / 2 ^ k := by ring
  rw [abs_le]
  constructor <;> linarith

variable {d : ℕ}

/-- The cells of pairs of points. -/
def pairCell (lo hi : Fin d → ℝ) (k : Fin d → ℕ) (i : ((j : Fin d) → Fin (2 ^ k j)) × ((j : Fin d) → Fin (2 ^ k j))) :
    Set ((Fin d → ℝ) × (Fin d → ℝ)) :=
  (Set.univ.pi fun j => dyCell (lo j) (hi j) (k j) (i.1 j)) ×ˢ (Set.univ.pi fun j => dyCell (lo j) (hi j) (k j) (i.2 j))

theorem pairCell_meas (lo hi : Fin d → ℝ) (k : Fin d → ℕ) (i : ((j : Fin d) → Fin (2 ^ k j)) × ((j : Fin d) → Fin (2 ^ k j))) :
    MeasurableSet (pairCell lo hi k i) :=
  (MeasurableSet.univ_pi fun _ => measurableSet_Ico).prod (MeasurableSet.univ_pi fun _ => measurableSet_Ico)

theorem pairCell_disj (lo hi : Fin d → ℝ) (h : ∀ j, lo j < hi j) (k : Fin d → ℕ) :
    Pairwise (Function.onFun Disjoint (pairCell lo hi k)) := by
  intro i i' hne
  refine Set.disjoint_left.mpr fun p hp hp' => hne ?_
  obtain ⟨h1, h2⟩ := hp
  obtain ⟨h1', h2'⟩ := hp'
  refine Prod.ext (funext fun j => ?_) (funext fun j => ?_)
  · by_contra hj
    exact dyCell_disj (lo j) (hi j) (h j) (k j) _ _ (fun e => hj (Fin.ext e)) _ (h1 j trivial) (h1' j trivial)
  · by_contra hj
    exact dyCell_disj (lo j) (hi j) (h j) (k j) _ _ (fun e => hj (Fin.ext e)) _ (h2 j trivial) (h2' j trivial)

theorem pairCell_prob (lo hi : Fin d → ℝ) (h : ∀ j, lo j < hi j) (k : Fin d → ℕ)
    (i : ((j : Fin d) → Fin (2 ^ k j)) × ((j : Fin d) → Fin (2 ^ k j))) :
    ((Measure.pi fun j => unifOn (lo j) (hi j)).prod (Measure.pi fun j => unifOn (lo j) (hi j))).real
      (pairCell lo hi k i) = 1 / Fintype.card (((j : Fin d) → Fin (2 ^ k j)) × ((j : Fin d) → Fin (2 ^ k j))) := by
  have := fun j => isProb_unifOn (h j)
  have hp : ∀ a : (j : Fin d) → Fin (2 ^ k j),
      (Measure.pi fun j => unifOn (lo j) (hi j)) (Set.univ.pi fun j => dyCell (lo j) (hi j) (k j) (a j)) =
        ENNReal.ofReal (∏ j, 1 / 2 ^ k j) := by
    intro a
    rw [Measure.pi_pi, Finset.prod_congr rfl fun j _ => unifOn_dyCell (lo j) (hi j) (h j) (k j) (a j) (a j).2,
      ENNReal.ofReal_prod_of_nonneg fun j _ => by positivity]
  have h0 : (0 : ℝ) ≤ ∏ j, 1 / 2 ^ k j := Finset.prod_nonneg fun j _ => by positivity
  unfold pairCell Measure.real
  rw [Measure.prod_prod, hp, hp, ← ENNReal.ofReal_mul h0, ENNReal.toReal_ofReal (mul_nonneg h0 h0)]
  simp only [Fintype.card_prod, Fintype.card_pi, Fintype.card_fin]
  push_cast
  rw [← Finset.prod_mul_distrib, ← Finset.prod_mul_distrib, one_div, ← Finset.prod_inv_distrib]
  refine Finset.prod_congr rfl fun j _ => ?_
  field_simp

/-- Base rows that fall equally often into every cell. -/
structure EvenRows (lo hi : Fin d → ℝ) (k : Fin d → ℕ) (rows : List ((Fin d → ℝ) × (Fin d → ℝ))) : Prop where
  even : ∃ (N c : ℕ) (z : ℕ → (Fin d → ℝ) × (Fin d → ℝ)) (idx : ℕ → ((j : Fin d) → Fin (2 ^ k j)) × ((j : Fin d) → Fin (2 ^ k j))),
    0 < N ∧ N = c * Fintype.card (((j : Fin d) → Fin (2 ^ k j)) × ((j : Fin d) → Fin (2 ^ k j))) ∧ rows = (List.range N).map z ∧
    (∀ n < N, z n ∈ pairCell lo hi k (idx n)) ∧ ∀ i, ((Finset.range N).filter fun n => idx n = i).card = c

/-- Within the cells, `h` is at most `B` in size and varies by at most `ε`. -/
structure CellFn (lo hi : Fin d → ℝ) (k : Fin d → ℕ) (B ε : ℝ) (h : (Fin d → ℝ) × (Fin d → ℝ) → ℝ) : Prop where
  size : ∀ i, ∀ p ∈ pairCell lo hi k i, |h p| ≤ B
  osc : ∀ i, ∀ p ∈ pairCell lo hi k i, ∀ p' ∈ pairCell lo hi k i, |h p - h p'| ≤ ε

namespace CellFn

variable {lo hi : Fin d → ℝ} {k : Fin d → ℕ} {B ε B' ε' : ℝ} {h h' : (Fin d → ℝ) × (Fin d → ℝ) → ℝ}

theorem add (a : CellFn lo hi k B ε h) (b : CellFn lo hi k B' ε' h') :
    CellFn lo hi k (B + B') (ε + ε') fun p => h p + h' p := by
  constructor
  · intro i p hp
    exact (abs_add_le _ _).trans (add_le_add (a.size i p hp) (b.size i p hp))
  · intro i p hp p' hp'
    have e : h p + h' p - (h p' + h' p') = (h p - h p') + (h' p - h' p') := by ring
    rw [e]
    exact (abs_add_le _ _).trans (add_le_add (a.osc i p hp p' hp') (b.osc i p hp p' hp'))

theorem smul (a : CellFn lo hi k B ε h) (c : ℝ) : CellFn lo hi k (|c| * B) (|c| * ε) fun p => c * h p := by
  constructor
  · intro i p hp
    rw [abs_mul]
    exact mul_le_mul_of_nonneg_left (a.size i p hp) (abs_nonneg _)
  · intro i p hp p' hp'
    rw [← mul_sub, abs_mul]
    exact mul_le_mul_of_nonneg_left (a.osc i p hp p' hp') (abs_nonneg _)

theorem sub (a : CellFn lo hi k B ε h) (b : CellFn lo hi k B' ε' h') :
    CellFn lo hi k (B + B') (ε + ε') fun p => h p - h' p := by
  have := a.add (b.smul (-1))
  simpa [sub_eq_add_neg] using this

theorem mul (a : CellFn lo hi k B ε h) (b : CellFn lo hi k B' ε' h') :
    CellFn lo hi k (B * B') (B * ε' + B' * ε) fun p => h p * h' p := by
  constructor
  · intro i p hp
    rw [abs_mul]
    exact mul_le_mul (a.size i p hp) (b.size i p hp) (abs_nonneg _) ((abs_nonneg _).trans (a.size i p hp))
  · intro i p hp p' hp'
    have e : h p * h' p - h p' * h' p' = h p * (h' p - h' p') + h' p' * (h p - h p') := by ring
    rw [e]
    refine (abs_add_le _ _).trans (add_le_add ?_ ?_)
    · rw [abs_mul]
      exact mul_le_mul (a.size i p hp) (b.osc i p hp p' hp') (abs_nonneg _) ((abs_nonneg _).trans (a.size i p hp))
    · rw [abs_mul]
      exact mul_le_mul (b.size i p' hp') (a.osc i p hp p' hp') (abs_nonneg _) ((abs_nonneg _).trans (b.size i p' hp'))

end CellFn

variable {lo hi : Fin d → ℝ} {k : Fin d → ℕ}

theorem sum_map_range_list (N : ℕ) {β : Type} (z : ℕ → β) (h : β → ℝ) :
    rowMean ((List.range N).map z) h = (∑ n ∈ Finset.range N, h (z n)) / N := by
  unfold rowMean
  rw [List.map_map, list_sum_range, List.length_map, List.length_range]
  rfl

/-- The mean over even rows is close to the integral. -/
theorem EvenRows.mean {rows : List ((Fin d → ℝ) × (Fin d → ℝ))} (hr : EvenRows lo hi k rows) (h : ∀ j, lo j < hi j)
    {B ε : ℝ} {u : (Fin d → ℝ) × (Fin d → ℝ) → ℝ} (hu : CellFn lo hi k B ε u)
    (hint : Integrable u ((Measure.pi fun j => unifOn (lo j) (hi j)).prod (Measure.pi fun j => unifOn (lo j) (hi j)))) :
    |rowMean rows u - ∫ p, u p ∂((Measure.pi fun j => unifOn (lo j) (hi j)).prod
      (Measure.pi fun j => unifOn (lo j) (hi j)))| ≤ ε := by
  have := fun j => isProb_unifOn (h j)
  obtain ⟨N, c, z, idx, hN0, hN, rfl, hz, hc⟩ := hr.even
  rw [sum_map_range_list]
  exact cell_mean _ (pairCell lo hi k) (pairCell_meas lo hi k) (pairCell_disj lo hi h k) (pairCell_prob lo hi h k) N c
    hN hN0 z idx hz hc u hint ε hu.osc

theorem EvenRows.size {rows : List ((Fin d → ℝ) × (Fin d → ℝ))} (hr : EvenRows lo hi k rows) {B ε : ℝ}
    {u : (Fin d → ℝ) × (Fin d → ℝ) → ℝ} (hu : CellFn lo hi k B ε u) : |rowMean rows u| ≤ B := by
  obtain ⟨N, c, z, idx, hN0, hN, rfl, hz, hc⟩ := hr.even
  have hNR : (0 : ℝ) < N := by exact_mod_cast hN0
  rw [sum_map_range_list, abs_div, abs_of_pos hNR, div_le_iff₀ hNR]
  refine (Finset.abs_sum_le_sum_abs _ _).trans ?_
  refine (Finset.sum_le_sum fun n hn => hu.size _ _ (hz n (Finset.mem_range.mp hn))).trans ?_
  rw [Finset.sum_const, Finset.card_range, nsmul_eq_mul, mul_comm]

/-- The output with some inputs from A and the others from B. -/
theorem cellFn_mix (h : ∀ j, lo j < hi j) {K δ : ℝ} {G : (Fin d → ℝ) → ℝ} (hK : ∀ x, InBox lo hi x → |G x| ≤ K)
    (hv : VariesAtMost lo hi k δ G) (s : Fin d → Bool) : CellFn lo hi k K δ fun p => G (mix s p.1 p.2) := by
  have hgrid : ∀ i, ∀ p ∈ pairCell lo hi k i,
      GridBox lo hi k (fun j => if s j then (i.2 j : ℕ) else i.1 j) (mix s p.1 p.2) := by
    intro i p hp j
    simp only [mix]
    split
    · exact hp.2 j trivial
    · exact hp.1 j trivial
  have hlt : ∀ i : ((j : Fin d) → Fin (2 ^ k j)) × ((j : Fin d) → Fin (2 ^ k j)), ∀ j,
      (if s j then (i.2 j : ℕ) else i.1 j) < 2 ^ k j := by
    intro i j
    split
    · exact (i.2 j).2
    · exact (i.1 j).2
  constructor
  · intro i p hp
    exact hK _ fun j => dyCell_sub (lo j) (hi j) (h j) (k j) _ (hlt i j) (hgrid i p hp j)
  · intro i p hp p' hp'
    exact hv _ (hlt i) _ _ (hgrid i p hp) (hgrid i p' hp')

/-- A function that changes by at most `δ` when every input moves by at most one part of its range. -/
theorem variesAtMost_of_modulus (h : ∀ j, lo j < hi j) {δ : ℝ} {G : (Fin d → ℝ) → ℝ}
    (hG : ∀ x y, InBox lo hi x → InBox lo hi y → (∀ j, |x j - y j| ≤ (hi j - lo j) / 2 ^ k j) → |G x - G y| ≤ δ) :
    VariesAtMost lo hi k δ G := fun i hi' x y hx hy =>
  hG x y (fun j => dyCell_sub (lo j) (hi j) (h j) (k j) (i j) (hi' j) (hx j))
    (fun j => dyCell_sub (lo j) (hi j) (h j) (k j) (i j) (hi' j) (hy j))
    fun j => dyCell_diam (lo j) (hi j) (h j) (k j) (i j) _ _ (hx j) (hy j)

end SALib
