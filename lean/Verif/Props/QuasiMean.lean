import Verif.Lemmas.QuasiIndex
import Verif.Props.SobolNet
import Verif.Props.SobolMean
import Verif.Props.SobolRead
import Verif.Lemmas.TensorSum

/-! # C100: error bounds for the Sobol' indices computed from the Sobol sequence -/

namespace SALib

open MeasureTheory ProbabilityTheory Spec

variable {d : ℕ}

/-- A digit string as a cell of the interval. -/
theorem mem_dyCell (lo hi : ℝ) (h : lo < hi) (k X : ℕ) (hk : k ≤ 31) :
    (X : ℝ) / 2 ^ 31 * (hi - lo) + lo ∈ dyCell lo hi k (X >>> (31 - k)) := by
  obtain ⟨h1, h2⟩ := (inStratum_iff (α := ℝ) k (X >>> (31 - k)) X hk).mpr rfl
  have hw : 0 < hi - lo := by linarith
  constructor
  · nlinarith
  · nlinarith

theorem shiftRight_lt (k X : ℕ) (hk : k ≤ 31) (hX : X < 2 ^ 31) : X >>> (31 - k) < 2 ^ k := by
  rw [Nat.shiftRight_eq_div_pow, Nat.div_lt_iff_lt_mul (by positivity), ← pow_add, show k + (31 - k) = 31 by omega]
  exact hX

/-- Columns scaled to the bounds. -/
def scaleCols (lo hi : Fin d → ℝ) : List (ℝ → Num ℝ) := List.ofFn fun j => fun x => some (x * (hi j - lo j) + lo j)

theorem scaleSamples_cols (F : Ppf ℝ) (lo hi : Fin d → ℝ) (h : ∀ j, lo j < hi j) (hd : 0 < d) (pb : Problem ℝ)
    (hb : pb.bounds = boundsTable (List.ofFn fun j => (lo j, hi j))) (hdist : pb.dists = none) (params : Mat ℝ) :
    scaleSamples F d params pb = .ok (params.map (applyCols (scaleCols lo hi)), { pb with sampleScaled := true }) := by
  have hne : (List.ofFn fun j => (lo j, hi j)) ≠ [] := by
    intro he
    have := congrArg List.length he
    rw [List.length_ofFn] at this
    exact absurd this hd.ne'
  have hleg : ∀ p ∈ List.ofFn fun j => (lo j, hi j), p.1 < p.2 := by
    intro p hp
    obtain ⟨j, rfl⟩ := List.mem_ofFn.mp hp
    exact h j
  have := scaleUniform_legal _ hne hleg params
  rw [List.length_ofFn] at this
  unfold scaleSamples
  rw [hdist, hb, this]
  simp only [pyBind_ok, pyPure, List.map_map]
  congr 2
  refine List.map_congr_left fun row _ => ?_
  unfold applyCols scaleCols
  simp only [Function.comp]
  refine List.ext_getElem? fun i => ?_
  simp only [List.getElem?_map, List.getElem?_zipWith, List.getElem?_ofFn]
  by_cases hi' : i < d
  · simp only [hi', dif_pos]
    cases row[i]? <;> rfl
  · simp only [hi', dif_neg, not_false_eq_true]
    cases row[i]? <;> rfl

/-- The point of columns `from, …, from + d - 1` of row `n` of the sequence, scaled to the bounds. -/
noncomputable def scaledPoint (v : ℕ → ℕ → ℕ) (lo hi : Fin d → ℝ) (start n : ℕ) : Fin d → ℝ :=
  fun j => (xSeq (v (start + j)) n : ℝ) / 2 ^ 31 * (hi j - lo j) + lo j

theorem applyBoth_row (v : ℕ → ℕ → ℕ) (lo hi : Fin d → ℝ) (n : ℕ) :
    applyBoth d (scaleCols lo hi) ((List.range (2 * d)).map fun i => ((xSeq (v i) n : ℕ) : ℝ) / 2 ^ 31) =
      (pairRow (scaledPoint v lo hi 0 n, scaledPoint v lo hi d n)).map some := by
  unfold applyBoth pairRow applyCols scaleCols
  rw [List.map_append]
  congr 1
  · refine List.ext_getElem? fun i => ?_
    by_cases hi' : i < d
    · have h2 : i < 2 * d := by omega
      simp [scaledPoint, hi', h2]
    · simp [hi']
  · refine List.ext_getElem? fun i => ?_
    by_cases hi' : i < d
    · have h2 : d + i < 2 * d := by omega
      simp [List.getElem?_zipWith, List.getElem?_drop, scaledPoint, hi', h2]
    · simp [hi']

/-- Rows of an aligned block with given leading digits, counted; columns without digits do not matter. -/
theorem digits_count (v : ℕ → ℕ → ℕ) (hdir : ∀ i, i < 21201 → ∀ j, 1 ≤ j → j ≤ 31 → DirNum j (v i j))
    (hcount : ∀ (S : Finset Nat) (k : Nat → Nat) (m B : Nat), (∀ d ∈ S, d < 21201) → m ≤ 31 →
        netLoss directions S + ∑ d ∈ S, k d ≤ m → (B + 1) * 2 ^ m ≤ 2 ^ 31 →
        ∀ i : Nat → Nat, (∀ d ∈ S, i d < 2 ^ k d) →
        ((Finset.Ico (B * 2 ^ m) ((B + 1) * 2 ^ m)).filter fun n =>
          ∀ d ∈ S, xSeq (v d) n >>> (31 - k d) = i d).card = 2 ^ (m - ∑ d ∈ S, k d))
    (D : ℕ) (hD : D ≤ 21201) (S : Finset ℕ) (kk ii : ℕ → ℕ) (hS : ∀ e ∈ S, e < D) (hS' : ∀ e < D, kk e ≠ 0 → e ∈ S)
    (m B : ℕ) (hm : netLoss directions S + ∑ e ∈ S, kk e ≤ m) (hB : (B + 1) * 2 ^ m ≤ 2 ^ 31)
    (hii : ∀ e < D, ii e < 2 ^ kk e) :
    ((Finset.range (2 ^ m)).filter fun n => ∀ e < D, xSeq (v e) (B * 2 ^ m + n) >>> (31 - kk e) = ii e).card =
      2 ^ (m - ∑ e ∈ S, kk e) := by
  have e1 : (B + 1) * 2 ^ m = B * 2 ^ m + 2 ^ m := by ring
  have hm31 : m ≤ 31 := (Nat.pow_le_pow_iff_right (by norm_num : 1 < 2)).mp (by omega)
  rw [← hcount S kk m B (fun e he => lt_of_lt_of_le (hS e he) hD) hm31 hm hB ii fun e he => hii e (hS e he)]
  refine Finset.card_bij (fun n _ => B * 2 ^ m + n) ?_ ?_ ?_
  · intro n hn
    rw [Finset.mem_filter, Finset.mem_range] at hn
    rw [Finset.mem_filter, Finset.mem_Ico]
    exact ⟨⟨by omega, by omega⟩, fun e he => hn.2 e (hS e he)⟩
  · intro a _ b _ hab
    omega
  · intro b hb
    rw [Finset.mem_filter, Finset.mem_Ico] at hb
    obtain ⟨⟨hb1, hb2⟩, hb3⟩ := hb
    have hbe : B * 2 ^ m + (b - B * 2 ^ m) = b := by omega
    refine ⟨b - B * 2 ^ m, ?_, hbe⟩
    rw [Finset.mem_filter, Finset.mem_range]
    refine ⟨by omega, fun e he => ?_⟩
    rw [hbe]
    by_cases hk : kk e = 0
    · have h1 := hii e he
      have h2 := xSeq_lt (v e) (hdir e (by omega)) b (by omega)
      rw [hk] at h1 ⊢
      rw [Nat.shiftRight_eq_div_pow, Nat.div_eq_of_lt h2]
      omega
    · exact hb3 e (hS' e he hk)

theorem mem_usedCols (k : Fin d → ℕ) (e : ℕ) : e ∈ usedCols k ↔ ∃ h : e < d, k ⟨e, h⟩ ≠ 0 := by
  unfold usedCols
  rw [Finset.mem_image]
  constructor
  · rintro ⟨j, hj, rfl⟩
    exact ⟨j.2, (Finset.mem_filter.mp hj).2⟩
  · rintro ⟨h, hk⟩
    exact ⟨⟨e, h⟩, Finset.mem_filter.mpr ⟨Finset.mem_univ _, hk⟩, rfl⟩

theorem sum_usedCols (k : Fin d → ℕ) (kk : ℕ → ℕ) (hkk : ∀ j : Fin d, kk j = k j) :
    ∑ e ∈ usedCols k, kk e = ∑ j, k j := by
  unfold usedCols
  rw [Finset.sum_image fun a _ b _ hab => Fin.ext hab, Finset.sum_congr rfl fun j _ => hkk j]
  exact Finset.sum_filter_ne_zero _

theorem sum_usedPairCols (k : Fin d → ℕ) (kk : ℕ → ℕ) (hkk : ∀ j : Fin d, kk j = k j)
    (hkk' : ∀ j : Fin d, kk (d + j) = k j) : ∑ e ∈ usedPairCols k, kk e = 2 * ∑ j, k j := by
  unfold usedPairCols
  rw [Finset.sum_union, sum_usedCols k kk hkk, Finset.sum_image fun a _ b _ hab => Nat.add_left_cancel hab,
    sum_usedCols k (fun e => kk (d + e)) hkk']
  · ring
  · rw [Finset.disjoint_left]
    intro e h1 h2
    obtain ⟨h, -⟩ := (mem_usedCols k e).mp h1
    obtain ⟨e', -, rfl⟩ := Finset.mem_image.mp h2
    omega

theorem mem_usedPairCols_lt (k : Fin d → ℕ) (e : ℕ) (he : e ∈ usedPairCols k) : e < 2 * d := by
  unfold usedPairCols at he
  rcases Finset.mem_union.mp he with h | h
  · obtain ⟨h, -⟩ := (mem_usedCols k e).mp h
    omega
  · obtain ⟨e', h', rfl⟩ := Finset.mem_image.mp h
    obtain ⟨h, -⟩ := (mem_usedCols k e').mp h'
    omega

/-- The base rows that `saltelli.sample` draws are spread evenly over the cells. -/
theorem evenRows_saltelli (v : ℕ → ℕ → ℕ) (hdir : ∀ i, i < 21201 → ∀ j, 1 ≤ j → j ≤ 31 → DirNum j (v i j))
    (hcount : ∀ (S : Finset Nat) (k : Nat → Nat) (m B : Nat), (∀ d ∈ S, d < 21201) → m ≤ 31 →
        netLoss directions S + ∑ d ∈ S, k d ≤ m → (B + 1) * 2 ^ m ≤ 2 ^ 31 →
        ∀ i : Nat → Nat, (∀ d ∈ S, i d < 2 ^ k d) →
        ((Finset.Ico (B * 2 ^ m) ((B + 1) * 2 ^ m)).filter fun n =>
          ∀ d ∈ S, xSeq (v d) n >>> (31 - k d) = i d).card = 2 ^ (m - ∑ d ∈ S, k d))
    (lo hi : Fin d → ℝ) (h : ∀ j, lo j < hi j) (hD : 2 * d ≤ 21201) (k : Fin d → ℕ) (m B : ℕ)
    (hm : netLoss directions (usedPairCols k) + 2 * ∑ j, k j ≤ m) (hB : (B + 1) * 2 ^ m ≤ 2 ^ 31) :
    EvenRows lo hi k ((List.range (2 ^ m)).map fun n =>
      (scaledPoint v lo hi 0 (B * 2 ^ m + n), scaledPoint v lo hi d (B * 2 ^ m + n))) := by
  have e1 : (B + 1) * 2 ^ m = B * 2 ^ m + 2 ^ m := by ring
  have hm31 : m ≤ 31 := (Nat.pow_le_pow_iff_right (by norm_num : 1 < 2)).mp (by omega)
  have hk31 : ∀ j, k j ≤ 31 := fun j => by
    have := Finset.single_le_sum (f := k) (fun _ _ => Nat.zero_le _) (Finset.mem_univ j)
    omega
  have hcell : ∀ j, ∀ i < 2 * d, ∀ n < 2 ^ m, xSeq (v i) (B * 2 ^ m + n) >>> (31 - k j) < 2 ^ k j := fun j i hi' n hn =>
    shiftRight_lt (k j) _ (hk31 j) (xSeq_lt (v i) (hdir i (by omega)) _ (by omega))
  have hpos : ∀ j, 0 < 2 ^ k j := fun j => by positivity
  set dig : (j : Fin d) → ℕ → ℕ → Fin (2 ^ k j) := fun j i n =>
    if hh : xSeq (v i) (B * 2 ^ m + n) >>> (31 - k j) < 2 ^ k j then ⟨_, hh⟩ else ⟨0, hpos j⟩ with hdig
  have hdigv : ∀ j, ∀ i < 2 * d, ∀ n < 2 ^ m, (dig j i n : ℕ) = xSeq (v i) (B * 2 ^ m + n) >>> (31 - k j) := by
    intro j i hi' n hn
    rw [hdig]
    simp only [dif_pos (hcell j i hi' n hn)]
  have hcard : Fintype.card (((j : Fin d) → Fin (2 ^ k j)) × ((j : Fin d) → Fin (2 ^ k j))) = 2 ^ (2 * ∑ j, k j) := by
    simp only [Fintype.card_prod, Fintype.card_pi, Fintype.card_fin]
    rw [Finset.prod_pow_eq_pow_sum, ← pow_add]
    congr 1
    ring
  refine ⟨2 ^ m, 2 ^ (m - 2 * ∑ j, k j), _, fun n => (fun j => dig j j n, fun j => dig j (d + j) n), by positivity, ?_,
    rfl, ?_, ?_⟩
  · rw [hcard, ← pow_add]
    congr 1
    omega
  · intro n hn
    constructor
    · intro j _
      simp only
      rw [hdigv j j (by have := j.2; omega) n hn]
      simp only [scaledPoint, Nat.zero_add]
      exact mem_dyCell (lo j) (hi j) (h j) (k j) _ (hk31 j)
    · intro j _
      simp only
      rw [hdigv j (d + j) (by have := j.2; omega) n hn]
      exact mem_dyCell (lo j) (hi j) (h j) (k j) _ (hk31 j)
  · intro i
    set kk : ℕ → ℕ := fun e => if he : e < d then k ⟨e, he⟩ else if he' : e - d < d then k ⟨e - d, he'⟩ else 0 with hkk
    set ii : ℕ → ℕ := fun e => if he : e < d then (i.1 ⟨e, he⟩ : ℕ) else if he' : e - d < d then
      (i.2 ⟨e - d, he'⟩ : ℕ) else 0 with hii
    have k1 : ∀ j : Fin d, kk j = k j := fun j => by rw [hkk]; simp only [dif_pos j.2]
    have k2 : ∀ j : Fin d, kk (d + j) = k j := fun j => by
      have h1 : ¬ d + (j : ℕ) < d := by omega
      have h2 : d + (j : ℕ) - d = j := by omega
      rw [hkk]
      simp only [dif_neg h1, h2, dif_pos j.2]
    have i1 : ∀ j : Fin d, ii j = i.1 j := fun j => by rw [hii]; simp only [dif_pos j.2]
    have i2 : ∀ j : Fin d, ii (d + j) = i.2 j := fun j => by
      have h1 : ¬ d + (j : ℕ) < d := by omega
      have h2 : d + (j : ℕ) - d = j := by omega
      have h3 : ∀ (e : ℕ) (he : e < d), e = j → (i.2 ⟨e, he⟩ : ℕ) = i.2 j := by
        rintro e he rfl
        rfl
      rw [hii]
      simp only [dif_neg h1]
      rw [dif_pos (by omega)]
      exact h3 _ _ h2
    have hcases : ∀ P : ℕ → Prop, (∀ j : Fin d, P j) → (∀ j : Fin d, P (d + j)) → ∀ e < 2 * d, P e := by
      intro P h1 h2 e he
      by_cases hed : e < d
      · exact h1 ⟨e, hed⟩
      · have := h2 ⟨e - d, by omega⟩
        simp only at this
        rwa [show d + (e - d) = e by omega] at this
    have hsum := sum_usedPairCols k kk k1 k2
    have hc := digits_count v hdir hcount (2 * d) hD (usedPairCols k) kk ii (mem_usedPairCols_lt k)
      (hcases _ (fun j hj => by
          rw [k1] at hj
          exact Finset.mem_union_left _ ((mem_usedCols k j).mpr ⟨j.2, hj⟩)) (fun j hj => by
          rw [k2] at hj
          exact Finset.mem_union_right _ (Finset.mem_image.mpr ⟨j, (mem_usedCols k j).mpr ⟨j.2, hj⟩, rfl⟩)))
      m B (by rw [hsum]; exact hm) hB
      (hcases _ (fun j => by rw [k1, i1]; exact (i.1 j).2) (fun j => by rw [k2, i2]; exact (i.2 j).2))
    rw [hsum] at hc
    rw [← hc]
    congr 1
    refine Finset.filter_congr fun n hn => ?_
    rw [Finset.mem_range] at hn
    constructor
    · intro he
      refine hcases _ (fun j => ?_) (fun j => ?_)
      · rw [k1, i1, ← he, hdigv j j (by have := j.2; omega) n hn]
      · rw [k2, i2, ← he, hdigv j (d + j) (by have := j.2; omega) n hn]
    · intro he
      refine Prod.ext (funext fun j => Fin.ext ?_) (funext fun j => Fin.ext ?_)
      · have hj := j.2
        have := he j (by omega)
        rw [k1, i1] at this
        simp only
        rw [hdigv j j (by omega) _ hn, this]
      · have hj := j.2
        have := he (d + j) (by omega)
        rw [k2, i2] at this
        simp only
        rw [hdigv j (d + j) (by omega) _ hn, this]

/-- **C100**, means: a block of `2^m` rows of the sequence that starts at a multiple of `2^m`.  Divide the range of
coordinate `j` into `2^(k j)` parts.  If the function varies by at most `δ` within each box, and `t + ∑ k j ≤ m` with the
loss `t` of the divided columns, the mean over the block differs from the integral over the unit cube by at most `δ`. -/
theorem C100_mean (L N : ℕ) (hN : 0 < N) (hNL : N ≤ 2 ^ L) (hL : L ≤ 31) (hD : d ≤ 21201) (M : Mat ℝ)
    (hM : sobolSequence directions L N d = .ok M) (k : Fin d → ℕ) (m B : ℕ)
    (hm : netLoss directions (usedCols k) + ∑ j, k j ≤ m) (hB : (B + 1) * 2 ^ m ≤ N) (G : (Fin d → ℝ) → ℝ) (δ : ℝ)
    (hv : VariesAtMost (fun _ => 0) (fun _ => 1) k δ G) (hint : Integrable G (Measure.pi fun _ => unifOn 0 1)) :
    |(∑ n ∈ Finset.Ico (B * 2 ^ m) ((B + 1) * 2 ^ m), G (rowPoint d M n)) / 2 ^ m -
      ∫ x, G x ∂Measure.pi fun _ => unifOn 0 1| ≤ δ := by
  obtain ⟨v, hdir, heq, hcount⟩ := sobolSequence_counts (α := ℝ)
  rw [heq L N d hN hNL hL hD] at hM
  cases hM
  obtain ⟨hm31, hB31⟩ := block_exp_le L N m B hNL hL hB
  have hk31 : ∀ j, k j ≤ 31 := fun j => by
    have := Finset.single_le_sum (f := k) (fun _ _ => Nat.zero_le _) (Finset.mem_univ j)
    omega
  have := isProb_unifOn (zero_lt_one (α := ℝ))
  have hpos : ∀ j, 0 < 2 ^ k j := fun j => by positivity
  have e : (B + 1) * 2 ^ m = B * 2 ^ m + 2 ^ m := by ring
  set dig : (j : Fin d) → ℕ → Fin (2 ^ k j) := fun j n =>
    if hh : xSeq (v j) (B * 2 ^ m + n) >>> (31 - k j) < 2 ^ k j then ⟨_, hh⟩ else ⟨0, hpos j⟩ with hdig
  have hdigv : ∀ j : Fin d, ∀ n < 2 ^ m, (dig j n : ℕ) = xSeq (v j) (B * 2 ^ m + n) >>> (31 - k j) := by
    intro j n hn
    have hj := j.2
    rw [hdig]
    simp only [dif_pos (shiftRight_lt (k j) _ (hk31 j) (xSeq_lt (v j) (hdir j (by omega)) (B * 2 ^ m + n) (by omega)))]
  have hcard : Fintype.card ((j : Fin d) → Fin (2 ^ k j)) = 2 ^ (∑ j, k j) := by
    simp only [Fintype.card_pi, Fintype.card_fin]
    exact Finset.prod_pow_eq_pow_sum _ _ _
  have hrow : ∀ n < 2 ^ m, rowPoint d ((List.range N).map fun n => (List.range d).map fun i =>
      ((xSeq (v i) n : Nat) : ℝ) / 2 ^ 31) (B * 2 ^ m + n) =
        fun j : Fin d => ((xSeq (v j) (B * 2 ^ m + n) : ℕ) : ℝ) / 2 ^ 31 := by
    intro n hn
    funext j
    have h1 : B * 2 ^ m + n < N := by omega
    have h2 := j.2
    simp [rowPoint, h1, h2]
  have hcell := cell_mean (Measure.pi fun _ : Fin d => unifOn 0 1)
    (fun i : (j : Fin d) → Fin (2 ^ k j) => Set.univ.pi fun j => dyCell 0 1 (k j) (i j))
    (fun i => MeasurableSet.univ_pi fun _ => measurableSet_Ico)
    (by
      intro i i' hne
      refine Set.disjoint_left.mpr fun p hp hp' => hne (funext fun j => ?_)
      by_contra hj
      exact dyCell_disj 0 1 zero_lt_one (k j) _ _ (fun e => hj (Fin.ext e)) _ (hp j trivial) (hp' j trivial))
    (by
      intro i
      unfold Measure.real
      rw [Measure.pi_pi, Finset.prod_congr rfl fun j _ => unifOn_dyCell 0 1 zero_lt_one (k j) (i j) (i j).2,
        ← ENNReal.ofReal_prod_of_nonneg fun j _ => by positivity,
        ENNReal.toReal_ofReal (Finset.prod_nonneg fun j _ => by positivity), hcard]
      push_cast
      rw [← Finset.prod_pow_eq_pow_sum, one_div, ← Finset.prod_inv_distrib]
      refine Finset.prod_congr rfl fun j _ => ?_
      rw [one_div])
    (2 ^ m) (2 ^ (m - ∑ j, k j)) (by rw [hcard, ← pow_add]; congr 1; omega) (by positivity)
    (fun n => rowPoint d ((List.range N).map fun n => (List.range d).map fun i =>
      ((xSeq (v i) n : Nat) : ℝ) / 2 ^ 31) (B * 2 ^ m + n)) (fun n j => dig j n)
    (by
      intro n hn j _
      rw [hrow n hn]
      simp only
      rw [hdigv j n hn]
      have := mem_dyCell 0 1 zero_lt_one (k j) (xSeq (v j) (B * 2 ^ m + n)) (hk31 j)
      simpa using this)
    (by
      intro i
      set kk : ℕ → ℕ := fun e => if he : e < d then k ⟨e, he⟩ else 0 with hkk
      set ii : ℕ → ℕ := fun e => if he : e < d then (i ⟨e, he⟩ : ℕ) else 0 with hii
      have k1 : ∀ j : Fin d, kk j = k j := fun j => by rw [hkk]; simp only [dif_pos j.2]
      have i1 : ∀ j : Fin d, ii j = i j := fun j => by rw [hii]; simp only [dif_pos j.2]
      have hsum := sum_usedCols k kk k1
      have hc := digits_count v hdir hcount d hD (usedCols k) kk ii
        (fun e he => by obtain ⟨h, -⟩ := (mem_usedCols k e).mp he; exact h)
        (fun e he hk => (mem_usedCols k e).mpr ⟨he, by rw [← k1 ⟨e, he⟩]; exact hk⟩) m B (by rw [hsum]; exact hm) hB31
        (fun e he => by
          have h1 := k1 ⟨e, he⟩
          have h2 := i1 ⟨e, he⟩
          simp only at h1 h2
          rw [h1, h2]
          exact (i ⟨e, he⟩).2)
      rw [hsum] at hc
      rw [← hc]
      congr 1
      refine Finset.filter_congr fun n hn => ?_
      rw [Finset.mem_range] at hn
      constructor
      · intro he a ha
        have h1 := k1 ⟨a, ha⟩
        have h2 := i1 ⟨a, ha⟩
        simp only at h1 h2
        rw [h1, h2, ← he, hdigv ⟨a, ha⟩ n hn]
      · intro he
        refine funext fun j => Fin.ext ?_
        have := he j j.2
        rw [k1, i1] at this
        rw [hdigv j n hn, this])
    G hint δ (by
      intro i x hx y hy
      exact hv (fun j => i j) (fun j => (i j).2) x y (fun j => hx j trivial) (fun j => hy j trivial))
  rw [Finset.sum_Ico_eq_sum_range, show (B + 1) * 2 ^ m - B * 2 ^ m = 2 ^ m by rw [e, Nat.add_sub_cancel_left]]
  push_cast at hcell
  exact hcell

theorem crossDesign_map_some (second : Bool) (g : ℕ) (groupOf : ℕ → ℕ) (rows : List ((Fin d → ℝ) × (Fin d → ℝ))) :
    crossDesign second d g groupOf (rows.map fun p => (pairRow p).map some) =
      (crossDesign second d g groupOf (rows.map pairRow)).map (·.map (some : ℝ → Num ℝ)) := by
  have hc : HasCols (2 * d) (rows.map pairRow) := by
    intro row hrow
    obtain ⟨p, -, rfl⟩ := List.mem_map.mp hrow
    simp [pairRow]
    omega
  have hap : ∀ row : List ℝ, row.length = d →
      applyCols (List.replicate d (some : ℝ → Num ℝ)) row = row.map some := by
    intro row hrow
    refine List.ext_getElem? fun i => ?_
    unfold applyCols
    rw [List.getElem?_zipWith, List.getElem?_map, List.getElem?_replicate]
    by_cases hi : i < d
    · simp [hi, hrow]
    · simp [hi, hrow]
  have h := map_applyCols_design (List.replicate d (some : ℝ → Num ℝ)) second d g groupOf (rows.map pairRow)
    (by simp) hc
  have e1 : (crossDesign second d g groupOf (rows.map pairRow)).map (applyCols (List.replicate d (some : ℝ → Num ℝ))) =
      (crossDesign second d g groupOf (rows.map pairRow)).map (·.map (some : ℝ → Num ℝ)) :=
    List.map_congr_left fun row hrow => hap row (cols_crossDesign second d g groupOf _ hc row hrow)
  have e2 : (rows.map pairRow).map (applyBoth d (List.replicate d (some : ℝ → Num ℝ))) =
      rows.map fun p => (pairRow p).map some := by
    rw [List.map_map]
    refine List.map_congr_left fun p _ => ?_
    simp only [Function.comp, applyBoth]
    rw [hap _ (by simp [pairRow]), hap _ (by simp [pairRow]), pairRow_take, pairRow_drop, pairRow, List.map_append]
  rw [← e1, h, e2]

/-- **C100**, sampling: `saltelli.sample` with `N = 2^m` succeeds and returns the cross design of base rows that are spread
evenly over the cells. -/
theorem saltelli_evenRows (F : Ppf ℝ) (bits : ℕ → ℕ) (lo hi : Fin d → ℝ) (h : ∀ j, lo j < hi j) (hd : 0 < d)
    (hD : 2 * d ≤ 21201) (pb : Problem ℝ) (hnum : pb.numVars = d)
    (hb : pb.bounds = boundsTable (List.ofFn fun j => (lo j, hi j))) (hdist : pb.dists = none)
    (hlab : ∀ gs, pb.groups = some gs → gs ≠ [] → gs.length = pb.numVars) (second : Bool) (m : ℕ)
    (hbits : 2 ^ m + max (2 ^ m) 16 ≤ 2 ^ bits (2 ^ m + max (2 ^ m) 16)) (hbits' : bits (2 ^ m + max (2 ^ m) 16) ≤ 31) :
    ∃ labels g groupOf rows, SamplerLabels pb labels ∧ GroupNumbering d labels g groupOf ∧
      saltelliSample F (fun n D => sobolSequence directions (bits n) n D) pb (2 ^ m) second none =
        .ok (crossDesign second d g groupOf (rows.map fun p => (pairRow p).map some),
          { pb with sampleScaled := true }) ∧
      ∀ k : Fin d → ℕ, netLoss directions (usedPairCols k) + 2 * ∑ j, k j ≤ m → EvenRows lo hi k rows := by
  obtain ⟨v, hdir, heq, hcount⟩ := sobolSequence_counts (α := ℝ)
  have hpos : 0 < 2 ^ m := by positivity
  have hskip : saltelliSkip (2 ^ m) none = .ok (max (2 ^ m) 16) := by
    simp only [saltelliSkip, hpos.ne', if_false]
    rw [Nat.clog_pow 2 m (by norm_num)]
  obtain ⟨B, hB⟩ := saltelliSkip_aligned m _ hskip
  have hseq := heq (bits (2 ^ m + max (2 ^ m) 16)) (2 ^ m + max (2 ^ m) 16) (2 * d) (by omega) hbits hbits' hD
  have hlab' : ∀ gs, checkGroups pb = some gs → gs.length = d := by
    intro gs hgs
    rcases checkGroups_spec pb with ⟨h', -⟩ | ⟨gs', h1, h2, -, x, hx, -⟩
    · rw [h'] at hgs; cases hgs
    · rw [h1] at hgs; cases hgs
      rw [← hnum]
      exact hlab gs h2 (List.ne_nil_of_mem hx)
  set base := (List.range (2 ^ m + max (2 ^ m) 16)).map fun n => (List.range (2 * d)).map fun i =>
    ((xSeq (v i) n : Nat) : ℝ) / 2 ^ 31 with hbase
  have hcols : HasCols (2 * d) base := by
    intro row hrow
    obtain ⟨n, -, rfl⟩ := List.mem_map.mp hrow
    simp
  obtain ⟨g, groupOf, hgn, -, -, hcs⟩ := C11_cross_design second d (2 ^ m) (max (2 ^ m) 16) (checkGroups pb) base hcols
    (by simp [hbase]; omega) hlab'
  refine ⟨checkGroups pb, g, groupOf, (List.range (2 ^ m)).map fun n =>
      (scaledPoint v lo hi 0 (B * 2 ^ m + n), scaledPoint v lo hi d (B * 2 ^ m + n)), checkGroups_spec pb, hgn, ?_, ?_⟩
  · unfold saltelliSample
    rw [hskip]
    simp only [pyBind_ok, hnum]
    rw [hseq]
    simp only [pyBind_ok]
    rw [hcs]
    simp only [pyBind_ok]
    rw [scaleSamples_cols F lo hi h hd pb hb hdist]
    refine congrArg₂ (fun Z p => (Except.ok (Z, p) : Py (Mat (Num ℝ) × Problem ℝ))) ?_ (by simp only [hnum])
    have htd : HasCols (2 * d) ((base.drop (max (2 ^ m) 16)).take (2 ^ m)) := fun row hrow =>
      hcols row (List.mem_of_mem_drop (List.mem_of_mem_take hrow))
    rw [map_applyCols_design (scaleCols lo hi) second d g groupOf _ (by simp [scaleCols]) htd]
    refine congrArg (crossDesign second d g groupOf) ?_
    rw [List.map_map, hbase, ← List.map_drop, ← List.map_take, List.map_map]
    refine List.ext_getElem? fun n => ?_
    simp only [List.getElem?_map]
    by_cases hn : n < 2 ^ m
    · rw [List.getElem?_take_of_lt hn, List.getElem?_drop, List.getElem?_range (by omega), List.getElem?_range hn]
      simp only [Option.map_some, Function.comp]
      rw [applyBoth_row, hB]
    · rw [List.getElem?_eq_none (by simp; omega), List.getElem?_eq_none (by simp; omega)]
      rfl
  · intro k hm
    refine evenRows_saltelli v hdir hcount lo hi h hD k m B hm ?_
    have h31 : 2 ^ bits (2 ^ m + max (2 ^ m) 16) ≤ 2 ^ 31 := Nat.pow_le_pow_right (by norm_num) hbits'
    have e : (B + 1) * 2 ^ m = B * 2 ^ m + 2 ^ m := by ring
    omega

/-- **C100**, the indices.  Inputs uniform within their bounds.  Divide the range of input `j` into `2^(k j)` parts.  The
output is at most `K` in size, varies by at most `δ` within each box, and has variance `V > 4 K δ`.  With `N = 2^m` and
`t + 2 ∑ k j ≤ m`, `t` the loss of the columns of the divided inputs, the sampler succeeds, the analysis succeeds, and every index it reports is within an explicit
distance of the true index of its group. -/
theorem C100_saltelli (F : Ppf ℝ) (normPpf : ℝ → ℝ) (bits : ℕ → ℕ) (lo hi : Fin d → ℝ) (h : ∀ j, lo j < hi j)
    (hd : 0 < d) (hD : 2 * d ≤ 21201) (pb : Problem ℝ) (hnum : pb.numVars = d) (hnames : pb.names.length = d)
    (hnd : pb.names.Nodup) (hb : pb.bounds = boundsTable (List.ofFn fun j => (lo j, hi j))) (hdist : pb.dists = none)
    (hlab : ∀ gs, pb.groups = some gs → gs ≠ [] → gs.length = pb.numVars)
    (hsingle : ¬ ∃ gs l, pb.groups = some gs ∧ 2 ≤ gs.length ∧ ∀ g ∈ gs, g = l) (second : Bool) (m : ℕ) (k : Fin d → ℕ)
    (hbits : 2 ^ m + max (2 ^ m) 16 ≤ 2 ^ bits (2 ^ m + max (2 ^ m) 16)) (hbits' : bits (2 ^ m + max (2 ^ m) 16) ≤ 31)
    (hm : netLoss directions (usedPairCols k) + 2 * ∑ j, k j ≤ m)
    (conf : ℝ) (r : List (List Nat)) (keep : Bool) (hconf : 0 < conf ∧ conf < 1) (hr : r ≠ [])
    (f : List (Num ℝ) → ℝ) (G : (Fin d → ℝ) → ℝ) (hf : ∀ x, G x = f (List.ofFn fun j => some (x j)))
    (hGm : Measurable G) (K δ V : ℝ) (hK : ∀ x, InBox lo hi x → |G x| ≤ K) (hv : VariesAtMost lo hi k δ G)
    (hV : V = Var[G; Measure.pi fun j => unifOn (lo j) (hi j)]) (hlarge : 4 * K * δ < V) :
    ∃ labels g groupOf X q res, SamplerLabels pb labels ∧ GroupNumbering d labels g groupOf ∧
      saltelliSample F (fun n D => sobolSequence directions (bits n) n D) pb (2 ^ m) second none = .ok (X, q) ∧
      sobolAnalyze Real.sqrt normPpf q (X.map f) second conf r keep .serial = .ok res ∧
      (∀ i < g,
        ReportedNear res.S1[i]? (closedEffect (fun j => unifOn (lo j) (hi j)) G (inGroup groupOf i) / V)
          (10 * K * δ / (V - 4 * K * δ)) ∧
        ReportedNear res.ST[i]? (totalEffect (fun j => unifOn (lo j) (hi j)) G (inGroup groupOf i) / V)
          (8 * K * δ / (V - 4 * K * δ))) ∧
      (second = true → ∃ S2, res.S2 = some S2 ∧ ∀ i j, i < j → j < g →
        ReportedNear (entry S2 i j)
          ((closedEffect (fun j => unifOn (lo j) (hi j)) G (fun l => inGroup groupOf i l || inGroup groupOf j l) -
            closedEffect (fun j => unifOn (lo j) (hi j)) G (inGroup groupOf i) -
            closedEffect (fun j => unifOn (lo j) (hi j)) G (inGroup groupOf j)) / V)
          (24 * K * δ / (V - 4 * K * δ))) := by
  obtain ⟨labels, g, groupOf, rows, hl, hgn, hrun, heven⟩ :=
    saltelli_evenRows F bits lo hi h hd hD pb hnum hb hdist hlab second m hbits hbits'
  have hrows := heven k hm
  have := fun j => isProb_unifOn (h j)
  have hG := memLp_of_bounded h hGm hK
  set f' : List ℝ → ℝ := fun row => f (row.map some) with hf'
  have hGf : (fun x : Fin d → ℝ => f' (List.ofFn x)) = G := by
    funext x
    rw [hf x, hf']
    simp only [List.map_ofFn]
    rfl
  have hve := var_err h hGm hK hv hrows
  rw [← hV] at hve
  have hsv : sampleVar G rows ≠ 0 := by
    intro h0
    rw [h0, abs_le] at hve
    linarith [hve.1]
  have hg := numbering_count pb labels g groupOf hl (hnum ▸ hgn) hnd (by rw [hnum, hnames]) hlab hsingle
  have hgq : (extractGroupNames { pb with sampleScaled := true }).2 = g := by rw [hg]; rfl
  obtain ⟨res, hres, h1, h2⟩ := C89_formula normPpf f' second g groupOf rows { pb with sampleScaled := true } conf r keep
    hgq hconf hr (by rw [hGf]; exact hsv)
  rw [hGf] at h1 h2
  have hM := cellFn_blockMean h hK hv second g groupOf
  have hXf : (crossDesign second d g groupOf (rows.map fun p => (pairRow p).map (some : ℝ → Num ℝ))).map f =
      (crossDesign second d g groupOf (rows.map pairRow)).map f' := by
    rw [crossDesign_map_some, List.map_map]
    rfl
  have hcl : ∀ s, |closedEffect (fun j => unifOn (lo j) (hi j)) G s| ≤ V := by
    intro s
    rw [abs_of_nonneg (closedEffect_nonneg _ G hG s), hV]
    exact closedEffect_le _ G hG s
  refine ⟨labels, g, groupOf, _, _, res, hl, hgn, hrun, by rw [hXf]; exact hres, ?_, ?_⟩
  · intro i hi'
    obtain ⟨e1, e2⟩ := h1 i hi'
    constructor
    · refine ⟨_, e1, ?_⟩
      have := quot_err (firstNum_err h hGm hK hv hrows hM (inGroup groupOf i)) hve hlarge (r := 1)
        (by rw [one_mul]; exact hcl _)
      refine this.trans (le_of_eq ?_)
      congr 1
      ring
    · refine ⟨_, e2, ?_⟩
      have htot : |totalEffect (fun j => unifOn (lo j) (hi j)) G (inGroup groupOf i)| ≤ 1 * V := by
        have e := totalEffect_eq_sub _ G hG (inGroup groupOf i)
        rw [← hV] at e
        have hn := closedEffect_nonneg (fun j => unifOn (lo j) (hi j)) G hG fun l => !inGroup groupOf i l
        have hle := (abs_le.mp (hcl fun l => !inGroup groupOf i l)).2
        rw [e, abs_of_nonneg (by linarith)]
        linarith
      have := quot_err (total_err h hGm hK hv hrows (inGroup groupOf i)) hve hlarge htot
      refine this.trans (le_of_eq ?_)
      congr 1
      ring
  · intro hs
    obtain ⟨S2, hS2, h2'⟩ := h2 hs
    refine ⟨S2, hS2, fun i j hij hj => ⟨_, h2' i j hij hj, ?_⟩⟩
    have hdisj : ∀ l : Fin d, ¬(inGroup groupOf i l = true ∧ inGroup groupOf j l = true) := by
      rintro l ⟨ha, hb⟩
      simp only [inGroup, beq_iff_eq] at ha hb
      omega
    have hint : |closedEffect (fun j => unifOn (lo j) (hi j)) G (fun l => inGroup groupOf i l || inGroup groupOf j l) -
            closedEffect (fun j => unifOn (lo j) (hi j)) G (inGroup groupOf i) -
            closedEffect (fun j => unifOn (lo j) (hi j)) G (inGroup groupOf j)| ≤ 2 * V := by
      have a1 := abs_le.mp (hcl fun l => inGroup groupOf i l || inGroup groupOf j l)
      have a2 := abs_le.mp (hcl (inGroup groupOf i))
      have a3 := abs_le.mp (hcl (inGroup groupOf j))
      have b1 := closedEffect_nonneg (fun j => unifOn (lo j) (hi j)) G hG fun l => inGroup groupOf i l || inGroup groupOf j l
      have b2 := closedEffect_nonneg (fun j => unifOn (lo j) (hi j)) G hG (inGroup groupOf i)
      have b3 := closedEffect_nonneg (fun j => unifOn (lo j) (hi j)) G hG (inGroup groupOf j)
      rw [abs_le]
      constructor <;> linarith [a1.2, a2.2, a3.2]
    have := quot_err (secondNum_err h hGm hK hv hrows hM _ _ hdisj) hve hlarge hint
    refine this.trans (le_of_eq ?_)
    congr 1
    ring

/-- **C100**, step functions: if the output is constant within each box of the grid, the reported indices are the true
ones, without any sampling error. -/
theorem C100_exact (F : Ppf ℝ) (normPpf : ℝ → ℝ) (bits : ℕ → ℕ) (lo hi : Fin d → ℝ) (h : ∀ j, lo j < hi j)
    (hd : 0 < d) (hD : 2 * d ≤ 21201) (pb : Problem ℝ) (hnum : pb.numVars = d) (hnames : pb.names.length = d)
    (hnd : pb.names.Nodup) (hb : pb.bounds = boundsTable (List.ofFn fun j => (lo j, hi j))) (hdist : pb.dists = none)
    (hlab : ∀ gs, pb.groups = some gs → gs ≠ [] → gs.length = pb.numVars)
    (hsingle : ¬ ∃ gs l, pb.groups = some gs ∧ 2 ≤ gs.length ∧ ∀ g ∈ gs, g = l) (second : Bool) (m : ℕ) (k : Fin d → ℕ)
    (hbits : 2 ^ m + max (2 ^ m) 16 ≤ 2 ^ bits (2 ^ m + max (2 ^ m) 16)) (hbits' : bits (2 ^ m + max (2 ^ m) 16) ≤ 31)
    (hm : netLoss directions (usedPairCols k) + 2 * ∑ j, k j ≤ m)
    (conf : ℝ) (r : List (List Nat)) (keep : Bool) (hconf : 0 < conf ∧ conf < 1) (hr : r ≠ [])
    (f : List (Num ℝ) → ℝ) (G : (Fin d → ℝ) → ℝ) (hf : ∀ x, G x = f (List.ofFn fun j => some (x j)))
    (hGm : Measurable G) (K V : ℝ) (hK : ∀ x, InBox lo hi x → |G x| ≤ K) (hv : VariesAtMost lo hi k 0 G)
    (hV : V = Var[G; Measure.pi fun j => unifOn (lo j) (hi j)]) (hV0 : V ≠ 0) :
    ∃ labels g groupOf X q res, SamplerLabels pb labels ∧ GroupNumbering d labels g groupOf ∧
      saltelliSample F (fun n D => sobolSequence directions (bits n) n D) pb (2 ^ m) second none = .ok (X, q) ∧
      sobolAnalyze Real.sqrt normPpf q (X.map f) second conf r keep .serial = .ok res ∧
      (∀ i < g,
        res.S1[i]? = some (some (closedEffect (fun j => unifOn (lo j) (hi j)) G (inGroup groupOf i) / V)) ∧
        res.ST[i]? = some (some (totalEffect (fun j => unifOn (lo j) (hi j)) G (inGroup groupOf i) / V))) ∧
      (second = true → ∃ S2, res.S2 = some S2 ∧ ∀ i j, i < j → j < g → entry S2 i j = some (some
          ((closedEffect (fun j => unifOn (lo j) (hi j)) G (fun l => inGroup groupOf i l || inGroup groupOf j l) -
            closedEffect (fun j => unifOn (lo j) (hi j)) G (inGroup groupOf i) -
            closedEffect (fun j => unifOn (lo j) (hi j)) G (inGroup groupOf j)) / V))) := by
  have hVpos : 0 < V := lt_of_le_of_ne (by rw [hV]; exact variance_nonneg _ _) (Ne.symm hV0)
  have hexact : ∀ (o : Option (Option ℝ)) (x c : ℝ), ReportedNear o x (c * K * 0 / (V - 4 * K * 0)) → o = some (some x) := by
    rintro o x c ⟨s, rfl, hs⟩
    rw [mul_zero, zero_div, abs_nonpos_iff, sub_eq_zero] at hs
    rw [hs]
  obtain ⟨labels, g, groupOf, X, q, res, h1, h2, h3, h4, h5, h6⟩ := C100_saltelli F normPpf bits lo hi h hd hD pb hnum
    hnames hnd hb hdist hlab hsingle second m k hbits hbits' hm conf r keep hconf hr f G hf hGm K 0 V hK hv hV
    (by rw [mul_zero]; exact hVpos)
  refine ⟨labels, g, groupOf, X, q, res, h1, h2, h3, h4, fun i hi' => ?_, fun hs => ?_⟩
  · exact ⟨hexact _ _ _ (h5 i hi').1, hexact _ _ _ (h5 i hi').2⟩
  · obtain ⟨S2, hS2, h7⟩ := h6 hs
    exact ⟨S2, hS2, fun i j hij hj => hexact _ _ _ (h7 i j hij hj)⟩

/-! ### A concrete model -/

/-- 1 below one half, 0 above. -/
noncomputable def lowerHalf (t : ℝ) : ℝ := if t < 1 / 2 then 1 else 0

/-- Both inputs below one half. -/
noncomputable def bothLow : (Fin 2 → ℝ) → ℝ := tensorSum (n := 1) (fun _ => 1) fun _ _ => lowerHalf

theorem measurable_lowerHalf : Measurable lowerHalf :=
  Measurable.ite measurableSet_Iio measurable_const measurable_const

theorem memLp_lowerHalf : MemLp lowerHalf 2 (unifOn 0 1) := by
  have := isProb_unifOn (zero_lt_one (α := ℝ))
  refine MemLp.of_bound measurable_lowerHalf.aestronglyMeasurable 1 (Filter.Eventually.of_forall fun t => ?_)
  unfold lowerHalf
  split <;> simp

theorem integral_lowerHalf : ∫ t, lowerHalf t ∂unifOn 0 1 = 1 / 2 := by
  have := isProb_unifOn (zero_lt_one (α := ℝ))
  have e : lowerHalf = Set.indicator (Set.Iio (1 / 2)) fun _ => 1 := by
    funext t
    simp [lowerHalf, Set.indicator]
  have hset : Set.Icc (0 : ℝ) 1 ∩ Set.Iio (1 / 2) = Set.Ico 0 (1 / 2) := by
    ext t
    simp only [Set.mem_inter_iff, Set.mem_Icc, Set.mem_Iio, Set.mem_Ico]
    constructor
    · rintro ⟨⟨h1, -⟩, h2⟩
      exact ⟨h1, h2⟩
    · rintro ⟨h1, h2⟩
      exact ⟨⟨h1, by linarith⟩, h2⟩
  rw [e, integral_indicator_const _ measurableSet_Iio, smul_eq_mul, mul_one]
  unfold Measure.real unifOn
  rw [cond_apply measurableSet_Icc, hset, Real.volume_Icc, Real.volume_Ico]
  simp

theorem bothLow_eq (x : Fin 2 → ℝ) : bothLow x = lowerHalf (x 0) * lowerHalf (x 1) := by
  simp [bothLow, tensorSum]

theorem closedEffect_bothLow (s : Fin 2 → Bool) : closedEffect (fun _ => unifOn 0 1) bothLow s =
    (if s 0 then 1 / 2 else 1 / 4) * (if s 1 then 1 / 2 else 1 / 4) - 1 / 16 := by
  have := isProb_unifOn (zero_lt_one (α := ℝ))
  have e : ∀ t, lowerHalf t * lowerHalf t = lowerHalf t := fun t => by unfold lowerHalf; split <;> simp
  unfold bothLow
  rw [closedEffect_tensorSum _ _ _ fun _ _ => memLp_lowerHalf]
  simp only [e, integral_lowerHalf, Fin.prod_univ_two, Finset.univ_unique, Finset.sum_singleton]
  by_cases h0 : s 0 = true <;> by_cases h1 : s 1 = true <;> simp [h0, h1] <;> norm_num

theorem memLp_bothLow : MemLp bothLow 2 (Measure.pi fun _ => unifOn 0 1) := by
  have := isProb_unifOn (zero_lt_one (α := ℝ))
  exact memLp_tensorSum _ _ _ fun _ _ => memLp_lowerHalf

theorem variesAtMost_bothLow : VariesAtMost (fun _ : Fin 2 => 0) (fun _ => 1) (fun _ => 1) 0 bothLow := by
  intro i hi x y hx hy
  have hsame : ∀ j, lowerHalf (x j) = lowerHalf (y j) := by
    intro j
    obtain ⟨h1, h2⟩ := hx j
    obtain ⟨h3, h4⟩ := hy j
    have hlt : i j < 2 := hi j
    unfold lowerHalf
    have hij : i j = 0 ∨ i j = 1 := by omega
    rcases hij with h | h
    · rw [h] at h1 h2 h3 h4
      norm_num at h1 h2 h3 h4
      rw [if_pos (by linarith), if_pos (by linarith)]
    · rw [h] at h1 h2 h3 h4
      norm_num at h1 h2 h3 h4
      rw [if_neg (by linarith), if_neg (by linarith)]
  rw [bothLow_eq, bothLow_eq, hsame 0, hsame 1, sub_self, abs_zero]

/-- **C100**, an instance: two inputs on `[0, 1]`, output 1 when both are below one half.  With `N = 128` base rows
the analysis reports first-order indices 1/3, total indices 2/3 and second-order index 1/3, exactly the true values. -/
theorem C100_instance (F : Ppf ℝ) (normPpf : ℝ → ℝ) (r : List (List Nat)) (hr : r ≠ []) :
    ∃ X q res, saltelliSample F (fun n D => sobolSequence directions (Nat.clog 2 n) n D)
        { names := ["x", "y"], bounds := [[0, 1], [0, 1]] } 128 true none = .ok (X, q) ∧
      sobolAnalyze Real.sqrt normPpf q (X.map fun row => if (row.getD 0 none).any (· < 1 / 2) ∧
        (row.getD 1 none).any (· < 1 / 2) then 1 else 0) true (19 / 20) r false .serial = .ok res ∧
      res.S1[0]? = some (some (1 / 3)) ∧ res.S1[1]? = some (some (1 / 3)) ∧
      res.ST[0]? = some (some (2 / 3)) ∧ res.ST[1]? = some (some (2 / 3)) ∧
      ∃ S2, res.S2 = some S2 ∧ entry S2 0 1 = some (some (1 / 3)) := by
  have hp := isProb_unifOn (zero_lt_one (α := ℝ))
  have hvar : Var[bothLow; Measure.pi fun _ => unifOn 0 1] = 3 / 16 := by
    rw [← closedEffect_all _ _ memLp_bothLow, closedEffect_bothLow]
    norm_num
  obtain ⟨labels, g, groupOf, X, q, res, h1, h2, h3, h4, h5, h6⟩ := C100_exact F normPpf (Nat.clog 2)
    (fun _ : Fin 2 => 0) (fun _ => 1) (fun _ => zero_lt_one) (by norm_num) (by norm_num)
    { names := ["x", "y"], bounds := [[0, 1], [0, 1]] } rfl rfl (by decide) (by simp [boundsTable]) rfl
    (by simp) (by simp) true 7 (fun _ => 1) (Nat.le_pow_clog (by norm_num) _) (by decide +kernel) (by decide +kernel)
    (19 / 20) r false (by norm_num) hr (fun row => if (row.getD 0 none).any (· < 1 / 2) ∧
        (row.getD 1 none).any (· < 1 / 2) then 1 else 0) bothLow (by
      intro x
      rw [bothLow_eq]
      unfold lowerHalf
      by_cases a : x 0 < 2⁻¹ <;> by_cases b : x 1 < 2⁻¹ <;> simp [a, b])
    (by
      have : bothLow = fun x => lowerHalf (x 0) * lowerHalf (x 1) := funext bothLow_eq
      rw [this]
      exact (measurable_lowerHalf.comp (measurable_pi_apply 0)).mul (measurable_lowerHalf.comp (measurable_pi_apply 1)))
    1 (3 / 16) (by
      intro x _
      rw [bothLow_eq]
      unfold lowerHalf
      split <;> split <;> simp) variesAtMost_bothLow hvar.symm (by norm_num)
  have hlab : labels = none := by
    rcases h1 with ⟨h, -⟩ | ⟨gs, -, h, -⟩
    · exact h
    · cases h
  subst hlab
  obtain ⟨rfl, hgo⟩ := h2
  have htot : ∀ s, totalEffect (fun _ => unifOn 0 1) bothLow s = 3 / 16 -
      ((if !s 0 then 1 / 2 else 1 / 4) * (if !s 1 then 1 / 2 else 1 / 4) - 1 / 16) := by
    intro s
    rw [totalEffect_eq_sub _ _ memLp_bothLow, hvar, closedEffect_bothLow]
  have g00 : inGroup groupOf 0 (0 : Fin 2) = true := by simp [inGroup, hgo]
  have g01 : inGroup groupOf 0 (1 : Fin 2) = false := by simp [inGroup, hgo]
  have g10 : inGroup groupOf 1 (0 : Fin 2) = false := by simp [inGroup, hgo]
  have g11 : inGroup groupOf 1 (1 : Fin 2) = true := by simp [inGroup, hgo]
  obtain ⟨S2, hS2, h7⟩ := h6 rfl
  refine ⟨X, q, res, h3, h4, ?_, ?_, ?_, ?_, S2, hS2, ?_⟩
  · rw [(h5 0 (by norm_num)).1, closedEffect_bothLow, g00, g01]
    norm_num
  · rw [(h5 1 (by norm_num)).1, closedEffect_bothLow, g10, g11]
    norm_num
  · rw [(h5 0 (by norm_num)).2, htot, g00, g01]
    norm_num
  · rw [(h5 1 (by norm_num)).2, htot, g10, g11]
    norm_num
  · rw [h7 0 1 (by norm_num) (by norm_num), closedEffect_bothLow, closedEffect_bothLow, closedEffect_bothLow, g00, g01,
      g10, g11]
    norm_num

/-- The hypotheses of `C100_mean` are met: the product of two coordinates over 1024 rows; divided into 32 parts each, it
varies by at most 1/16 within a box. -/
example : ∃ M : Mat ℝ, sobolSequence directions 10 1024 2 = .ok M ∧
    |(∑ n ∈ Finset.Ico 0 1024, rowPoint 2 M n 0 * rowPoint 2 M n 1) / 2 ^ 10 -
      ∫ x : Fin 2 → ℝ, x 0 * x 1 ∂Measure.pi fun _ => unifOn 0 1| ≤ 1 / 16 := by
  have hp := isProb_unifOn (zero_lt_one (α := ℝ))
  obtain ⟨M, hM, -⟩ := C23_all_dimensions (α := ℝ) 10 1024 2 (by norm_num) (by norm_num) (by norm_num) (by norm_num)
  refine ⟨M, hM, ?_⟩
  have hbox : ∀ x : Fin 2 → ℝ, InBox (fun _ => 0) (fun _ => 1) x → |x 0 * x 1| ≤ 1 := by
    intro x hx
    rw [abs_mul, abs_of_nonneg (hx 0).1, abs_of_nonneg (hx 1).1]
    exact mul_le_one₀ (hx 0).2 (hx 1).1 (hx 1).2
  have hmeas : Measurable fun x : Fin 2 → ℝ => x 0 * x 1 := (measurable_pi_apply 0).mul (measurable_pi_apply 1)
  have := C100_mean (d := 2) 10 1024 (by norm_num) (by norm_num) (by norm_num) (by norm_num) M hM (fun _ => 5) 10 0
    (by decide +kernel) (by norm_num) (fun x => x 0 * x 1) (1 / 16)
    (variesAtMost_of_modulus (fun _ => zero_lt_one) (by
      intro x y hx hy hxy
      have e : x 0 * x 1 - y 0 * y 1 = x 0 * (x 1 - y 1) + y 1 * (x 0 - y 0) := by ring
      have a0 := hxy 0
      have a1 := hxy 1
      norm_num at a0 a1
      rw [e]
      refine (abs_add_le _ _).trans ?_
      rw [abs_mul, abs_mul, abs_of_nonneg (hx 0).1, abs_of_nonneg (hy 1).1]
      have b1 : x 0 * |x 1 - y 1| ≤ 1 * (1 / 32) := mul_le_mul (hx 0).2 a1 (abs_nonneg _) (by norm_num)
      have b2 : y 1 * |x 0 - y 0| ≤ 1 * (1 / 32) := mul_le_mul (hy 1).2 a0 (abs_nonneg _) (by norm_num)
      linarith))
    ((memLp_of_bounded (fun _ => zero_lt_one) hmeas hbox).integrable one_le_two)
  simpa using this

end SALib
