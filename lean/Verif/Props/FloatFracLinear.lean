import Verif.Props.FloatFracFact
import Verif.Props.FloatDiscrepancy

/-! # Sampling, a linear model and the fractional factorial analysis with their rounding (C147) -/

namespace SALib
open Spec

variable {F : Fmt}

/-- The sample, row by row. -/
theorem ffSampleFl_eq (pb : Problem ℚ) (bs : List (ℚ × ℚ)) (k : Nat)
    (hb : pb.bounds = boundsTable bs) (hn : pb.numVars = bs.length) (hlegal : ∀ p ∈ bs, p.1 < p.2)
    (h : pb.numVars ≤ 512) (hk : LeastPower pb.numVars k) (hnames : pb.names.length = pb.numVars) :
    ∃ pb', ffSampleFl F pb = .ok ((List.range (2 * 2 ^ k)).map (fun r => (List.range (2 ^ k)).map fun j =>
        scaleEntryFl F ((coded ℚ k r j + 1) / 2) ((ffBounds bs k).getD j (0, 1))), pb') ∧
      pb'.numVars = 2 ^ k ∧ pb'.names.length = 2 ^ k := by
  obtain ⟨k', pb', hk', he', hpb', -⟩ := C47_extension pb h
  have hkk := leastPower_unique _ _ _ hk hk'
  subst hkk
  have h2 : 2 ^ k ≤ 512 := by
    obtain ⟨k', -, hk9, hk'⟩ := findSmallest_some pb.numVars h
    rw [leastPower_unique _ _ _ hk hk']
    exact (Nat.pow_le_pow_right (by norm_num) hk9).trans (by norm_num)
  have hlen : (ffBounds bs k).length = 2 ^ k := by
    have := hk.1
    rw [hn] at this
    simp only [ffBounds, List.length_append, List.length_replicate]; omega
  have hne : ffBounds bs k ≠ [] := by
    intro h0; rw [h0] at hlen; have := Nat.two_pow_pos k; simp at hlen; omega
  have hleg : ∀ p ∈ ffBounds bs k, p.1 < p.2 := by
    intro p hp
    rcases List.mem_append.mp hp with hp | hp
    · exact hlegal p hp
    · rw [List.mem_replicate] at hp; rw [hp.2]; exact one_pos
  have hbd : pb.bounds ++ List.replicate (2 ^ k - pb.numVars) [0, 1] = boundsTable (ffBounds bs k) := by
    rw [hb, hn]; simp [boundsTable, ffBounds]
  have hsc := scaleUniformFl_legal (F := F) (ffBounds bs k) hne hleg
    (((List.range (2 * 2 ^ k)).map fun r => (List.range (2 ^ k)).map fun j => coded ℚ k r j).map
      fun row => row.map fun c => (c + 1) / 2)
  rw [hlen] at hsc
  refine ⟨{ pb' with sampleScaled := true }, ?_, by rw [hpb'], ?_⟩
  · unfold ffSampleFl
    rw [generateContrast_eq _ k h hk, pyBind_ok, he', pyBind_ok, hpb']
    simp only [hbd]
    rw [ffSize_eq _ k h2 (leastPower_pow k), pyBind_ok, hsc, pyBind_ok, pyPure]
    congr 2
    rw [List.map_map, List.map_map]
    refine List.map_congr_left fun r _ => ?_
    apply List.ext_getElem
    · simp [hlen]
    · intro j h1 h3
      have hj : j < (ffBounds bs k).length := by simp at h3; omega
      simp [List.getD, List.getElem?_eq_getElem hj]
  · have := hk.1
    rw [hpb']; simp; omega

/-- Sample, evaluate a model that is linear up to `ε` in the sampled values, analyse, with rounding throughout: the
main effect of an input is half the distance of its two sampled values times its coefficient, and that of a
dummy is 0, up to `ε` and the rounding of the additions. -/
theorem C147_linear (hp : 1 ≤ F.p) (orderM : Nat → Nat → SumTree) (order : Nat → SumTree)
    (hoM : ∀ j, SumOrder (orderM j)) (ho : SumOrder order) (pb : Problem ℚ) (bs : List (ℚ × ℚ)) (k : Nat)
    (he : F.emin ≤ -((k + 1 : ℕ) : ℤ)) (so : Bool)
    (hb : pb.bounds = boundsTable bs) (hn : pb.numVars = bs.length) (hlegal : ∀ p ∈ bs, p.1 < p.2)
    (hfl : ∀ p ∈ bs, IsFloat F p.1) (h : pb.numVars ≤ 512) (hk : LeastPower pb.numVars k)
    (hnames : pb.names.length = pb.numVars) :
    ∃ X pb', ffSampleFl F pb = .ok (X, pb') ∧ X.length = 2 * 2 ^ k ∧
      ∀ (Y : List ℚ) (c0 : ℚ) (c : Nat → ℚ) (ε : ℚ), Y.length = X.length → (∀ y ∈ Y, IsFloat F y) →
        (∀ (r : Nat) (row : List ℚ) (y : ℚ), X[r]? = some row → Y[r]? = some y →
          |y - (c0 + ∑ j ∈ Finset.range bs.length, c j * row.getD j 0)| ≤ ε) →
        ∃ res, ffAnalyzeFl F orderM order pb' Y so = .ok res ∧ res.ME.length = 2 ^ k ∧
          ∀ j < 2 ^ k, ∃ e, res.ME[j]? = some e ∧
            (∀ lo hi, bs[j]? = some (lo, hi) → |e - c j * (fl F (fl F (hi - lo) + lo) - lo) / 2| ≤ ε +
              (((1 + (2 : ℚ) ^ (-(F.p : ℤ))) ^ (2 * 2 ^ k - 1) - 1) * ((Y.map (|·|)).sum / (2 * 2 ^ k)) +
                (2 : ℚ) ^ (F.emin - 1))) ∧
            (bs.length ≤ j → |e| ≤ ε +
              (((1 + (2 : ℚ) ^ (-(F.p : ℤ))) ^ (2 * 2 ^ k - 1) - 1) * ((Y.map (|·|)).sum / (2 * 2 ^ k)) +
                (2 : ℚ) ^ (F.emin - 1))) := by
  have h2 : 2 ^ k ≤ 512 := by
    obtain ⟨k', -, hk9, hk'⟩ := findSmallest_some pb.numVars h
    rw [leastPower_unique _ _ _ hk hk']
    exact (Nat.pow_le_pow_right (by norm_num) hk9).trans (by norm_num)
  have hkn : bs.length ≤ 2 ^ k := hn ▸ hk.1
  obtain ⟨pb', hs, hnum, hnl⟩ := ffSampleFl_eq (F := F) pb bs k hb hn hlegal h hk hnames
  refine ⟨_, pb', hs, by simp, ?_⟩
  intro Y c0 c ε hYl hYf hYm
  rw [List.length_map, List.length_range] at hYl
  obtain ⟨res, hres, -, hml, hme, -, -⟩ := C147_error hp orderM order hoM ho pb' k he Y so (by omega)
    (by rw [hnum]; exact leastPower_pow k) (by omega) hYl hYf
  refine ⟨res, hres, hml, fun j hj => ?_⟩
  obtain ⟨e, hej, herr⟩ := hme j hj
  refine ⟨e, hej, ?_⟩
  generalize (((1 + (2 : ℚ) ^ (-(F.p : ℤ))) ^ (2 * 2 ^ k - 1) - 1) * ((Y.map (|·|)).sum / (2 * 2 ^ k)) +
    (2 : ℚ) ^ (F.emin - 1)) = D at herr ⊢
  -- the two sampled values of an input
  set lo : Nat → ℚ := fun i => ((ffBounds bs k).getD i (0, 1)).1 with hlo
  set up : Nat → ℚ := fun i => scaleEntryFl F 1 ((ffBounds bs k).getD i (0, 1)) with hup
  have hval : ∀ r, ∀ i < bs.length, scaleEntryFl F ((coded ℚ k r i + 1) / 2) ((ffBounds bs k).getD i (0, 1)) =
      lo i + (coded ℚ k r i + 1) / 2 * (up i - lo i) := by
    intro r i hi
    have hB : (ffBounds bs k).getD i (0, 1) = bs[i] := by
      simp only [ffBounds, List.getD]
      rw [List.getElem?_append_left hi, List.getElem?_eq_getElem hi]; rfl
    rcases coded_pm (α := ℚ) k r i with hc | hc
    · have e1 : ((1 : ℚ) + 1) / 2 = 1 := by norm_num
      rw [hc, e1, one_mul, add_sub_cancel]
    · have e0 : ((-1 : ℚ) + 1) / 2 = 0 := by norm_num
      rw [hc, e0, zero_mul, add_zero]
      simp only [hlo, hB]
      exact scaleEntryFl_zero hp (hfl _ (List.getElem_mem hi))
  set L : Nat → ℚ := fun r => c0 + ∑ i ∈ Finset.range bs.length, c i * (lo i + (coded ℚ k r i + 1) / 2 * (up i - lo i)) with hL
  have hYr : ∀ r < 2 * 2 ^ k, |Y.getD r 0 - L r| ≤ ε := by
    intro r hr
    have hrY : r < Y.length := by omega
    have hXr : ((List.range (2 * 2 ^ k)).map (fun r => (List.range (2 ^ k)).map fun j =>
        scaleEntryFl F ((coded ℚ k r j + 1) / 2) ((ffBounds bs k).getD j (0, 1))))[r]? =
        some ((List.range (2 ^ k)).map fun j =>
          scaleEntryFl F ((coded ℚ k r j + 1) / 2) ((ffBounds bs k).getD j (0, 1))) := by
      rw [List.getElem?_map, List.getElem?_range hr]; rfl
    have := hYm r _ (Y[r]) hXr (List.getElem?_eq_getElem hrY)
    have hg : Y.getD r 0 = Y[r] := by simp [List.getD, List.getElem?_eq_getElem hrY]
    rw [hg]
    refine le_of_eq_of_le ?_ this
    congr 2
    refine congrArg (c0 + ·) (Finset.sum_congr rfl ?_)
    intro i hi
    have hi' := Finset.mem_range.mp hi
    have hik : i < 2 ^ k := lt_of_lt_of_le hi' hkn
    rw [← hval r i hi']
    simp [List.getD, hik]
  have hpow : (0 : ℚ) < 2 * 2 ^ k := by positivity
  have key : 1 / (2 * 2 ^ k) * ∑ r ∈ Finset.range (2 * 2 ^ k), L r * coded ℚ k r j =
      if j < bs.length then c j * (up j - lo j) / 2 else 0 := by
    have hterm : ∀ r, L r * coded ℚ k r j =
        (c0 + ∑ i ∈ Finset.range bs.length, c i * ((lo i + up i) / 2)) * coded ℚ k r j +
        ∑ i ∈ Finset.range bs.length, c i * ((up i - lo i) / 2) * (coded ℚ k r i * coded ℚ k r j) := by
      intro r
      simp only [hL]
      rw [add_mul, add_mul, add_assoc, Finset.sum_mul, Finset.sum_mul, ← Finset.sum_add_distrib]
      congr 1
      apply Finset.sum_congr rfl
      intro i _
      ring
    simp only [hterm]
    rw [Finset.sum_add_distrib, ← Finset.mul_sum, sum_coded, mul_zero, zero_add, Finset.sum_comm]
    have hin : ∀ i ∈ Finset.range bs.length, ∑ r ∈ Finset.range (2 * 2 ^ k),
        c i * ((up i - lo i) / 2) * (coded ℚ k r i * coded ℚ k r j) =
        if i = j then c j * ((up j - lo j) / 2) * (2 * 2 ^ k) else 0 := by
      intro i hi
      rw [← Finset.mul_sum, sum_coded_mul k i j (lt_of_lt_of_le (Finset.mem_range.mp hi) hkn) hj]
      split
      · rename_i hij; rw [hij]
      · ring
    rw [Finset.sum_congr rfl hin, Finset.sum_ite_eq']
    simp only [Finset.mem_range]
    split
    · field_simp
    · ring
  have hdiff : |1 / (2 * 2 ^ k) * ∑ r ∈ Finset.range (2 * 2 ^ k), Y.getD r 0 * coded ℚ k r j -
      1 / (2 * 2 ^ k) * ∑ r ∈ Finset.range (2 * 2 ^ k), L r * coded ℚ k r j| ≤ ε := by
    rw [← mul_sub, ← Finset.sum_sub_distrib, abs_mul, abs_of_pos (by positivity), one_div, inv_mul_le_iff₀ hpow]
    refine (Finset.abs_sum_le_sum_abs _ _).trans ?_
    have : ∀ r ∈ Finset.range (2 * 2 ^ k), |Y.getD r 0 * coded ℚ k r j - L r * coded ℚ k r j| ≤ ε := by
      intro r hr
      rw [← sub_mul, abs_mul]
      have h1 : |coded ℚ k r j| = 1 := by rcases coded_pm (α := ℚ) k r j with hc | hc <;> rw [hc] <;> simp
      rw [h1, mul_one]
      exact hYr r (Finset.mem_range.mp hr)
    refine (Finset.sum_le_card_nsmul _ _ _ this).trans ?_
    rw [Finset.card_range, nsmul_eq_mul]
    push_cast
    exact le_rfl
  have hall : |e - if j < bs.length then c j * (up j - lo j) / 2 else 0| ≤ ε + D := by
    rw [← key]
    have := abs_sub_le e (1 / (2 * 2 ^ k) * ∑ r ∈ Finset.range (2 * 2 ^ k), Y.getD r 0 * coded ℚ k r j)
      (1 / (2 * 2 ^ k) * ∑ r ∈ Finset.range (2 * 2 ^ k), L r * coded ℚ k r j)
    linarith
  constructor
  · intro l u hlu
    have hjb : j < bs.length := (List.getElem?_eq_some_iff.mp hlu).1
    have hB : (ffBounds bs k).getD j (0, 1) = (l, u) := by
      simp only [ffBounds, List.getD]
      rw [List.getElem?_append_left hjb, hlu]; rfl
    rw [if_pos hjb] at hall
    simp only [hlo, hup, hB] at hall
    rwa [scaleEntryFl_one hp] at hall
  · intro hjb
    rw [if_neg (by omega), sub_zero] at hall
    exact hall

/-- Three inputs (one dummy) and the outputs of `x + 2 z`, each rounded: within `2 ^ -50` of the exact values. -/
example :
    let bs : List (ℚ × ℚ) := [(fl binary64 (1 / 10), 3), (2, 5), (-1, fl binary64 (1 / 3))]
    let pb : Problem ℚ := { names := ["x", "y", "z"], bounds := boundsTable bs }
    binary64.emin ≤ -((2 + 1 : ℕ) : ℤ) ∧ pb.numVars = bs.length ∧ (∀ p ∈ bs, p.1 < p.2) ∧
      (∀ p ∈ bs, IsFloat binary64 p.1) ∧ LeastPower pb.numVars 2 ∧ pb.names.length = pb.numVars ∧
      (ffSampleFl binary64 pb).map (fun s => s.1.all fun row =>
        decide (|fl binary64 (row.getD 0 0 + 2 * row.getD 2 0) - (row.getD 0 0 + 2 * row.getD 2 0)| ≤ 1 / 2 ^ 50)) =
        .ok true := by
  refine ⟨by decide, by decide, by decide +kernel, ?_, ⟨by decide, by decide⟩, by decide, by decide +kernel⟩
  intro p hp
  simp only [List.mem_cons, List.not_mem_nil, or_false] at hp
  rcases hp with rfl | rfl | rfl
  · exact isFloat_fl (by decide) _
  · exact ⟨2, 0, by decide, by decide, by norm_num⟩
  · exact ⟨-1, 0, by decide, by decide, by norm_num⟩

end SALib
