import Verif.Lemmas.FloatSobol
import Verif.Props.SobolRead
import Verif.Props.SobolIndices
import Verif.Props.SobolParallel
import Verif.Props.FloatDgsm

/-! # Sobol indices in floating point -/

namespace SALib
open Spec

variable {F : Fmt} (order orderR : Nat → SumTree) (sqrt : ℚ → ℚ) (Z conf : ℚ) (pb : Problem ℚ) (Y : List ℚ)
  (second : Bool) (r : List (List Nat)) (D N : Nat)

theorem isFloat_getD {l : List ℚ} (h : ∀ y ∈ l, IsFloat F y) (i : Nat) : IsFloat F (l.getD i 0) := by
  rw [List.getD_eq_getElem?_getD]
  by_cases hi : i < l.length
  · rw [List.getElem?_eq_getElem hi]; exact h _ (List.getElem_mem hi)
  · rw [List.getElem?_eq_none (by omega)]; exact isFloat_zero

/-- **C113**, accuracy.  There are one `m` near the mean of the outputs and one `w` near their variance, taken
around `m`.  If the square root of `w` is 0, every index is nan.  Otherwise there are normalised outputs `y`,
each of them two roundings away from `(Y i - m) / sqrt w`, and one number `v` near the variance of the
outputs of `A` and `B`, so that: if those outputs are all equal the indices are 0; if `v` is 0 they are nan; and
otherwise S1 is `N + 3`, ST `N + 5` and S2 `N + 5` roundings away from the documented
estimators of `y`.  Here `step` is the number of rows per base point. -/
theorem C113_accuracy (hp : 1 ≤ F.p) (ho : SumOrder order) (hs : ∀ t, 0 ≤ sqrt t)
    (hD : (extractGroupNames pb).2 = D) (hconf : 0 < conf ∧ conf < 1) (hr : r ≠ []) (hN : 0 < N)
    (step : Nat) (hstep : step = if second then 2 * D + 2 else D + 2)
    (hY : Y.length = N * step) (hYf : ∀ y ∈ Y, IsFloat F y) :
    ∃ res m w E, sobolAnalyzeFl F order orderR sqrt Z pb Y second conf r = .ok res ∧
      E = avg (N * step) (fun i => Y.getD i 0) ∧
      RoundedFrom F (N * step) 1 (avg (N * step) fun i => |Y.getD i 0|) E m ∧
      RoundedFrom F (N * step + 3) 2 (avg (N * step) (fun i => (Y.getD i 0 - E) ^ 2) + (m - E) ^ 2)
        (avg (N * step) (fun i => (Y.getD i 0 - E) ^ 2) + (m - E) ^ 2) w ∧
      (sqrt w = 0 → ∀ S ∈ res.S1 ++ res.ST, S = none) ∧
      (sqrt w ≠ 0 → ∃ (y : Nat → ℚ) (μ v : ℚ) (a b : Nat → ℚ) (ab ba : Nat → Nat → ℚ),
        (∀ i < N * step, RoundedFrom F 2 1 (|Y.getD i 0 - m| / sqrt w) ((Y.getD i 0 - m) / sqrt w) (y i)) ∧
        (∀ i, a i = y (i * step) ∧ b i = y (i * step + (step - 1))) ∧
        (∀ k i, ab k i = y (i * step + (k + 1)) ∧ ba k i = y (i * step + (k + 1 + D))) ∧
        RoundedFrom F (2 * N) 1 (avg2 N (fun i => |a i|) fun i => |b i|) (avg2 N a b) μ ∧
        RoundedFrom F (2 * N + 3) 2 (var2 N a b + (μ - avg2 N a b) ^ 2) (var2 N a b + (μ - avg2 N a b) ^ 2) v ∧
        ((∀ i < N, a i = a 0 ∧ b i = a 0) → ∀ S ∈ res.S1 ++ res.ST, S = some 0) ∧
        (¬ (∀ i < N, a i = a 0 ∧ b i = a 0) →
          (v = 0 → ∀ S ∈ res.S1 ++ res.ST, S = none) ∧
          (v ≠ 0 → 0 < v ∧ ∀ k < D,
            (∃ S, res.S1[k]? = some (some S) ∧ RoundedFrom F (N + 3) (2 / v + 1)
              (avg N (fun i => |b i * (ab k i - a i)|) / v) (avg N (fun i => b i * (ab k i - a i)) / v) S) ∧
            (∃ S, res.ST[k]? = some (some S) ∧ 0 ≤ S ∧ RoundedFrom F (N + 5) (2 / v + 1)
              (1 / 2 * avg N (fun i => (a i - ab k i) ^ 2) / v) (1 / 2 * avg N (fun i => (a i - ab k i) ^ 2) / v) S) ∧
            (second = true → ∀ j < k, ∃ S2 S, res.S2 = some S2 ∧ entry S2 j k = some (some S) ∧
              RoundedFrom F (N + 5) (7 / v + 3)
                (avg N (fun i => |ba j i * ab k i| + |a i * b i|) / v + avg N (fun i => |b i * (ab j i - a i)|) / v +
                  avg N (fun i => |b i * (ab k i - a i)|) / v)
                (avg N (fun i => ba j i * ab k i - a i * b i) / v - avg N (fun i => b i * (ab j i - a i)) / v -
                  avg N (fun i => b i * (ab k i - a i)) / v) S)))) := by
  subst hstep
  have hYne : Y ≠ [] := by
    rw [← List.length_pos_iff, hY]
    refine Nat.mul_pos hN ?_
    split <;> omega
  obtain ⟨m, w, hw, hm, -, -, hmf, hmr, hwr⟩ := varFl_rounded hp ho hYne hYf (fun i => Y.getD i 0) (fun i _ => rfl)
  rw [hY] at hmr hwr
  refine ⟨_, m, w, _, sobolAnalyzeFl_eq order orderR sqrt Z pb Y second conf r D N hD hconf hr hN hY, rfl, hmr, hwr, ?_, ?_⟩
  · intro hw0
    have hn : normaliseFl F order sqrt Y = none := by
      unfold normaliseFl std0Fl
      rw [hm, hw]
      simp [hw0]
    rw [hn]
    intro S hS
    simp only [runFl, nanResult, List.mem_append, List.mem_replicate] at hS
    rcases hS with h | h <;> exact h.2
  · intro hw0
    have hspos : 0 < sqrt w := lt_of_le_of_ne (hs _) (Ne.symm hw0)
    have hn : normaliseFl F order sqrt Y = some (Y.map fun y => fdiv F (fsub F y m) (sqrt w)) := by
      unfold normaliseFl std0Fl
      rw [hm, hw]
      simp [hw0]
    rw [hn]
    clear hn
    generalize sqrt w = s at hspos
    set Y' := Y.map fun y => fdiv F (fsub F y m) s with hY'
    have hY'f : ∀ y ∈ Y', IsFloat F y := by
      intro y hy
      obtain ⟨x, -, rfl⟩ := List.mem_map.mp hy
      exact isFloat_fl hp _
    set y : Nat → ℚ := fun i => Y'.getD i 0 with hy
    have hyf : ∀ i, IsFloat F (y i) := fun i => isFloat_getD hY'f i
    set step := if second then 2 * D + 2 else D + 2 with hstep
    set a : Nat → ℚ := fun i => y (i * step) with ha
    set b : Nat → ℚ := fun i => y (i * step + (step - 1)) with hb
    set ab : Nat → Nat → ℚ := fun k i => y (i * step + (k + 1)) with hab
    set ba : Nat → Nat → ℚ := fun k i => y (i * step + (k + 1 + D)) with hba
    obtain ⟨μ, v, hv, hvn, hvf, hμr, hvr⟩ := var2Fl_rounded hp ho hN (a := a) (b := b) (fun i => hyf _) (fun i => hyf _)
    have hres : runFl F order orderR sqrt Z D N second r (some Y') =
        serialIndicesFl F order orderR sqrt Z (sepOf second D N y) r D second := rfl
    have hS1 : (runFl F order orderR sqrt Z D N second r (some Y')).S1 =
        (List.range D).map fun k => firstOrderFl F order (col N a) (col N (ab k)) (col N b) := by
      rw [hres]
      simp only [serialIndicesFl, sepOf]
      apply List.map_congr_left
      intro k hk
      have := List.mem_range.mp hk
      simp [List.getD, this, ha, hb, hab, hstep, rowsPer]
    have hST : (runFl F order orderR sqrt Z D N second r (some Y')).ST =
        (List.range D).map fun k => totalOrderFl F order (col N a) (col N (ab k)) (col N b) := by
      rw [hres]
      simp only [serialIndicesFl, sepOf]
      apply List.map_congr_left
      intro k hk
      have := List.mem_range.mp hk
      simp [List.getD, this, ha, hb, hab, hstep, rowsPer]
    have hS2 : second = true → (runFl F order orderR sqrt Z D N second r (some Y')).S2 =
        some ((List.range D).map fun j => (List.range D).map fun k => if j < k then
          secondOrderFl F order (col N a) (col N (ab j)) (col N (ab k)) (col N (ba j)) (col N b) else none) := by
      intro hsec
      rw [hres]
      simp only [serialIndicesFl, sepOf]
      rw [if_pos hsec]
      congr 1
      apply List.map_congr_left
      intro j hj
      apply List.map_congr_left
      intro k hk
      have := List.mem_range.mp hk
      have := List.mem_range.mp hj
      simp [List.getD, *, rowsPer]
    have hABf : ∀ x ∈ col N a ++ col N b, IsFloat F x := by
      intro x hx
      rcases List.mem_append.mp hx with h | h
      · obtain ⟨i, -, rfl⟩ := List.mem_map.mp h; exact hyf _
      · obtain ⟨i, -, rfl⟩ := List.mem_map.mp h; exact hyf _
    have hABne : col N a ++ col N b ≠ [] := by
      rw [← List.length_pos_iff]; simp [col]; omega
    have hptp : ptpZeroFl F (col N a ++ col N b) = true ↔ ∀ i < N, a i = a 0 ∧ b i = a 0 := by
      rw [ptpZeroFl_eq hp hABf, ptpZero_iff _ hABne]
      constructor
      · rintro ⟨c, hc⟩ i hi
        have h1 : ∀ i < N, a i = c := fun i hi => hc _ (by
          rw [List.mem_append]; left; exact List.mem_map.mpr ⟨i, List.mem_range.mpr hi, rfl⟩)
        have h2 : ∀ i < N, b i = c := fun i hi => hc _ (by
          rw [List.mem_append]; right; exact List.mem_map.mpr ⟨i, List.mem_range.mpr hi, rfl⟩)
        exact ⟨(h1 i hi).trans (h1 0 hN).symm, (h2 i hi).trans (h1 0 hN).symm⟩
      · intro h
        refine ⟨a 0, fun x hx => ?_⟩
        rcases List.mem_append.mp hx with hx | hx
        · obtain ⟨i, hi, rfl⟩ := List.mem_map.mp hx
          exact (h i (List.mem_range.mp hi)).1
        · obtain ⟨i, hi, rfl⟩ := List.mem_map.mp hx
          exact (h i (List.mem_range.mp hi)).2
    refine ⟨y, μ, v, a, b, ab, ba, ?_, fun i => ⟨rfl, rfl⟩, fun k i => ⟨rfl, rfl⟩, hμr, hvr, ?_, ?_⟩
    · intro i hi
      rw [← hY] at hi
      have e : y i = fdiv F (fsub F (Y.getD i 0) m) s := by
        simp only [hy, hY', List.getD, List.getElem?_map, List.getElem?_eq_getElem hi, Option.map_some, Option.getD_some]
      rw [e]
      have h1 := (RoundedFrom.of_within (fsub_within hp (isFloat_getD hYf i) hmf)).quot le_rfl hspos
      norm_num at h1
      exact h1
    · intro hc S hS
      rw [hS1, hST] at hS
      have ht := hptp.mpr hc
      rcases List.mem_append.mp hS with h | h
      · obtain ⟨k, -, rfl⟩ := List.mem_map.mp h
        exact if_pos ht
      · obtain ⟨k, -, rfl⟩ := List.mem_map.mp h
        exact if_pos ht
    · intro hc
      have hnt : ¬ ptpZeroFl F (col N a ++ col N b) = true := fun h => hc (hptp.mp h)
      have hf1 : ∀ k, firstOrderFl F order (col N a) (col N (ab k)) (col N b) =
          firstRatioFl F order (col N a) (col N (ab k)) (col N b) := fun k => if_neg hnt
      have hf2 : ∀ k, totalOrderFl F order (col N a) (col N (ab k)) (col N b) =
          totalRatioFl F order (col N a) (col N (ab k)) (col N b) := fun k => if_neg hnt
      have q1 := fun k => firstRatioFl_rounded (b := b) (ab := ab k) hp ho hN (fun i => hyf (i * step))
        (fun i => hyf _) hv hvn
      have q2 := fun k => totalRatioFl_rounded (b := b) (ab := ab k) hp ho hN (fun i => hyf (i * step))
        (fun i => hyf _) hv hvn
      refine ⟨?_, ?_⟩
      · intro hv0 S hS
        rw [hS1, hST] at hS
        rcases List.mem_append.mp hS with h | h
        · obtain ⟨k, -, rfl⟩ := List.mem_map.mp h
          simp only [hf1]
          rcases q1 k with h | ⟨h, -⟩
          · exact h.2
          · exact absurd hv0 h.ne'
        · obtain ⟨k, -, rfl⟩ := List.mem_map.mp h
          simp only [hf2]
          rcases q2 k with h | ⟨h, -⟩
          · exact h.2
          · exact absurd hv0 h.ne'
      · intro hv0
        have hvp : 0 < v := lt_of_le_of_ne hvn (Ne.symm hv0)
        have q1' : ∀ k, ∃ S, firstRatioFl F order (col N a) (col N (ab k)) (col N b) = some S ∧ IsFloat F S ∧
            RoundedFrom F (N + 3) (2 / v + 1) (avg N (fun i => |b i * (ab k i - a i)|) / v)
              (avg N (fun i => b i * (ab k i - a i)) / v) S := by
          intro k
          rcases q1 k with h | ⟨-, h⟩
          · exact absurd h.1 hv0
          · exact h
        have hX : ∀ k, |avg N (fun i => b i * (ab k i - a i)) / v| ≤ avg N (fun i => |b i * (ab k i - a i)|) / v := by
          intro k
          rw [abs_div, abs_of_pos hvp]
          gcongr
          exact abs_avg_le fun i => le_rfl
        refine ⟨hvp, fun k hk => ⟨?_, ?_, ?_⟩⟩
        · obtain ⟨S, h1, -, h2⟩ := q1' k
          refine ⟨S, ?_, h2⟩
          rw [hS1, List.getElem?_map, List.getElem?_range hk, Option.map_some, hf1, h1]
        · rcases q2 k with h | ⟨-, S, h1, -, h2, h3⟩
          · exact absurd h.1 hv0
          · refine ⟨S, ?_, h2, h3⟩
            rw [hST, List.getElem?_map, List.getElem?_range hk, Option.map_some, hf2, h1]
        · intro hsec j hj
          obtain ⟨Sj, hj1, hjf, hj2⟩ := q1' j
          obtain ⟨Sk, hk1, hkf, hk2⟩ := q1' k
          rcases crossRatioFl_rounded (a := a) (b := b) (abk := ab k) (baj := ba j) hp ho hN hv hvn with h | ⟨-, V, hV, hVf, hVr⟩
          · exact absurd h.1 hv0
          · have hX0 : |avg N (fun i => ba j i * ab k i - a i * b i) / v| ≤
                avg N (fun i => |ba j i * ab k i| + |a i * b i|) / v := by
              rw [abs_div, abs_of_pos hvp]
              gcongr
              exact abs_avg_le fun i => abs_sub _ _
            have d1 := hVr.minus hp hj2 hX0 (hX j) hVf hjf
            have hX1 : |avg N (fun i => ba j i * ab k i - a i * b i) / v - avg N (fun i => b i * (ab j i - a i)) / v| ≤
                avg N (fun i => |ba j i * ab k i| + |a i * b i|) / v + avg N (fun i => |b i * (ab j i - a i)|) / v :=
              (abs_sub _ _).trans (add_le_add hX0 (hX j))
            have hk2' := hk2.mono (m := N + 3 + 1) (by omega) le_rfl (by positivity) le_rfl
              ((abs_nonneg _).trans (hX k))
            have d2 := d1.minus hp hk2' hX1 (hX k) (isFloat_fl hp _) hkf
            refine ⟨_, fsub F (fsub F V Sj) Sk, hS2 hsec, ?_, ?_⟩
            · have hjD : j < D := by omega
              simp only [entry, List.getElem?_map, List.getElem?_range hjD, List.getElem?_range hk,
                Option.map_some, Option.bind_some, if_pos hj]
              unfold secondOrderFl
              rw [if_neg hnt, hf1, hf1, hj1, hk1, hV]
              rfl
            · convert d2 using 1
              ring

/-! ### Signs -/

theorem totalRatioFl_nonneg (hp : 1 ≤ F.p) (o : Nat → SumTree) (A AB B : List ℚ) {S : ℚ}
    (h : totalRatioFl F o A AB B = some S) : 0 ≤ S := by
  unfold totalRatioFl at h
  cases hm : meanFl F o ((List.zipWith (fsub F) A AB).map fun d => fmul F d d) with
  | none => rw [hm] at h; cases h
  | some m =>
    have hsq : ∀ y ∈ (List.zipWith (fsub F) A AB).map (fun d => fmul F d d), IsFloat F y ∧ 0 ≤ y := by
      intro y hy
      obtain ⟨x, -, rfl⟩ := List.mem_map.mp hy
      exact ⟨isFloat_fl hp _, fl_nonneg (mul_self_nonneg _)⟩
    have hm0 := meanFl_nonneg hp (fun y hy => (hsq y hy).1) (fun y hy => (hsq y hy).2) hm
    cases hv : varFl F o (A ++ B) with
    | none => simp [hm, hv] at h
    | some v =>
      have hv0 : 0 ≤ v := by
        unfold varFl at hv
        cases hμ : meanFl F o (A ++ B) with
        | none => simp [hμ] at hv
        | some μ =>
          rw [hμ] at hv
          exact meanFl_nonneg hp (fun y hy => (devSqFl_spec hp μ _ y hy).1) (fun y hy => (devSqFl_spec hp μ _ y hy).2) hv
      simp only [hm, hv, Option.bind_eq_bind, Option.bind_some, ratioFl] at h
      split at h
      · cases h
      · cases h
        exact fl_nonneg (div_nonneg (fl_nonneg (by positivity)) hv0)

theorem std1FlN_nonneg {o : Nat → SumTree} (hs : ∀ t, 0 ≤ sqrt t) {l : List (Num ℚ)} {x : ℚ}
    (h : std1FlN F o sqrt l = some x) : 0 ≤ x := by
  unfold std1FlN at h
  cases hl : l.mapM id with
  | none => simp [hl] at h
  | some l' =>
    simp only [hl, Option.bind_eq_bind, Option.bind_some, std1Fl] at h
    cases hm : meanFl F o l' with
    | none => simp [hm] at h
    | some m =>
      simp only [hm, Option.bind_some] at h
      split at h
      · cases h
      · cases h; exact hs _

theorem confFl_nonneg {o : Nat → SumTree} (hs : ∀ t, 0 ≤ sqrt t) (hZ : 0 ≤ Z) {e : Est ℚ} {x : ℚ}
    (h : (e.std1Fl F o sqrt).map (fmul F Z) = some x) : 0 ≤ x := by
  cases e with
  | scalarZero => cases h
  | vec vs =>
    unfold Est.std1Fl at h
    cases hv : std1FlN F o sqrt vs with
    | none => simp [hv] at h
    | some y =>
      simp only [hv, Option.map_some] at h
      cases h
      exact fl_nonneg (mul_nonneg hZ (std1FlN_nonneg sqrt hs hv))

/-- **C113**, signs: whatever the outputs, no total-order index and no confidence value is negative. -/
theorem C113_nonneg (hp : 1 ≤ F.p) (hs : ∀ t, 0 ≤ sqrt t) (hZ : 0 ≤ Z) (res : SobolResult ℚ)
    (h : sobolAnalyzeFl F order orderR sqrt Z pb Y second conf r = .ok res) : NonnegResult res := by
  unfold sobolAnalyzeFl at h
  cases hc : sobolCheck pb Y.length second conf with
  | error e => rw [hc] at h; cases h
  | ok DN =>
    obtain ⟨D, N⟩ := DN
    rw [hc] at h
    simp only [pyBind_ok] at h
    split at h
    · cases h
    · cases hn : normaliseFl F order sqrt Y with
      | none =>
        rw [hn] at h
        cases h
        refine ⟨?_, ?_, ?_, ?_⟩
        · intro v hv; cases (List.mem_replicate.mp hv).2
        · intro v hv; cases (List.mem_replicate.mp hv).2
        · intro v hv; cases (List.mem_replicate.mp hv).2
        · intro M hM row hrow v hv
          cases second
          · cases hM
          · cases hM
            rw [(List.mem_replicate.mp hrow).2] at hv
            cases (List.mem_replicate.mp hv).2
      | some Y' =>
        rw [hn] at h
        simp only at h
        cases hsep : separateOutputValues Y' D N second with
        | error e => rw [hsep] at h; cases h
        | ok s =>
          rw [hsep] at h
          cases h
          refine ⟨?_, ?_, ?_, ?_⟩
          · intro v hv
            obtain ⟨j, -, hj⟩ := List.mem_map.mp hv
            unfold totalOrderFl at hj
            split at hj
            · cases hj; exact le_rfl
            · exact totalRatioFl_nonneg hp _ _ _ _ hj
          · intro v hv
            obtain ⟨j, -, hj⟩ := List.mem_map.mp hv
            simp only at hj
            split at hj
            · cases hj; exact le_rfl
            · exact confFl_nonneg sqrt Z hs hZ hj
          · intro v hv
            obtain ⟨j, -, hj⟩ := List.mem_map.mp hv
            simp only at hj
            split at hj
            · cases hj; exact le_rfl
            · exact confFl_nonneg sqrt Z hs hZ hj
          · intro M hM row hrow v hv
            cases second
            · cases hM
            · cases hM
              obtain ⟨j, -, rfl⟩ := List.mem_map.mp hrow
              obtain ⟨k, -, hk⟩ := List.mem_map.mp hv
              simp only at hk
              split at hk
              · exact confFl_nonneg sqrt Z hs hZ hk
              · cases hk

/-! ### Outputs with the sign changed -/

/-- All entries with the sign changed. -/
abbrev negL (l : List ℚ) : List ℚ := l.map fun x => -x

theorem negL_getD (l : List ℚ) (i : Nat) : (negL l).getD i 0 = -l.getD i 0 := by
  simp only [List.getD_eq_getElem?_getD, List.getElem?_map]
  cases l[i]? <;> simp

theorem sumFl_neg (l : List ℚ) (t : SumTree) : sumFl F (negL l) t = -sumFl F l t := by
  induction t with
  | leaf i => exact negL_getD l i
  | node a b iha ihb => simp only [sumFl, iha, ihb, fadd]; rw [← fl_neg]; congr 1; ring

theorem meanFl_neg (o : Nat → SumTree) (l : List ℚ) : meanFl F o (negL l) = (meanFl F o l).map fun x => -x := by
  unfold meanFl
  rw [List.length_map, sumFl_neg]
  split
  · rfl
  · rw [Option.map_some, fdiv, fdiv, neg_div, fl_neg]

theorem fsub_neg (x y : ℚ) : fsub F (-x) (-y) = -fsub F x y := by
  unfold fsub; rw [← fl_neg]; congr 1; ring

theorem devSqFl_neg (m : ℚ) (l : List ℚ) : devSqFl F (-m) (negL l) = devSqFl F m l := by
  unfold devSqFl
  rw [List.map_map]
  apply List.map_congr_left
  intro x _
  simp only [Function.comp, fsub_neg, fmul, neg_mul_neg]

theorem varFl_neg (o : Nat → SumTree) (l : List ℚ) : varFl F o (negL l) = varFl F o l := by
  unfold varFl
  rw [meanFl_neg]
  cases meanFl F o l with
  | none => rfl
  | some m => simp only [Option.map_some, Option.bind_eq_bind, Option.bind_some, devSqFl_neg]

theorem normaliseFl_neg (o : Nat → SumTree) (Y : List ℚ) :
    normaliseFl F o sqrt (negL Y) = (normaliseFl F o sqrt Y).map negL := by
  unfold normaliseFl std0Fl
  rw [meanFl_neg, varFl_neg]
  cases meanFl F o Y with
  | none => rfl
  | some m =>
    cases varFl F o Y with
    | none => rfl
    | some v =>
      simp only [Option.map_some, Option.bind_eq_bind, Option.bind_some]
      split
      · rfl
      · simp only [Option.map_some, List.map_map]
        congr 1
        apply List.map_congr_left
        intro x _
        simp only [Function.comp, fsub_neg, fdiv, neg_div, fl_neg]

theorem negL_append (A B : List ℚ) : negL A ++ negL B = negL (A ++ B) := by simp [negL]

theorem zip_neg_sub (A B : List ℚ) :
    List.zipWith (fsub F) (negL A) (negL B) = negL (List.zipWith (fsub F) A B) := by
  unfold negL
  rw [List.zipWith_map, List.map_zipWith]
  congr 1
  funext x y
  exact fsub_neg x y

theorem zip_neg_mul (A B : List ℚ) :
    List.zipWith (fmul F) (negL A) (negL B) = List.zipWith (fmul F) A B := by
  unfold negL
  rw [List.zipWith_map]
  congr 1
  funext x y
  simp only [fmul, neg_mul_neg]

theorem firstRatioFl_neg (o : Nat → SumTree) (A AB B : List ℚ) :
    firstRatioFl F o (negL A) (negL AB) (negL B) = firstRatioFl F o A AB B := by
  unfold firstRatioFl
  rw [zip_neg_sub, zip_neg_mul, negL_append, varFl_neg]

theorem totalRatioFl_neg (o : Nat → SumTree) (A AB B : List ℚ) :
    totalRatioFl F o (negL A) (negL AB) (negL B) = totalRatioFl F o A AB B := by
  unfold totalRatioFl
  rw [zip_neg_sub, negL_append, varFl_neg]
  congr 2
  rw [List.map_map]
  apply List.map_congr_left
  intro x _
  simp only [Function.comp, fmul, neg_mul_neg]

theorem crossRatioFl_neg (o : Nat → SumTree) (A ABk BAj B : List ℚ) :
    crossRatioFl F o (negL A) (negL ABk) (negL BAj) (negL B) = crossRatioFl F o A ABk BAj B := by
  unfold crossRatioFl
  rw [zip_neg_mul, zip_neg_mul, negL_append, varFl_neg]

theorem foldl_max_neg (x : ℚ) (l : List ℚ) : (negL l).foldl max (-x) = -l.foldl min x := by
  induction l generalizing x with
  | nil => rfl
  | cons y l ih =>
    simp only [List.map_cons, List.foldl_cons]
    rw [← ih, max_neg_neg]

theorem foldl_min_neg (x : ℚ) (l : List ℚ) : (negL l).foldl min (-x) = -l.foldl max x := by
  induction l generalizing x with
  | nil => rfl
  | cons y l ih =>
    simp only [List.map_cons, List.foldl_cons]
    rw [← ih, min_neg_neg]

theorem ptpZeroFl_neg (l : List ℚ) : ptpZeroFl F (negL l) = ptpZeroFl F l := by
  cases l with
  | nil => rfl
  | cons x xs =>
    simp only [List.map_cons, ptpZeroFl]
    rw [foldl_max_neg, foldl_min_neg, fsub, fsub, neg_sub_neg]

theorem resample_neg (X : List ℚ) (r : List (List Nat)) : resample (negL X) r = (resample X r).map negL := by
  unfold resample
  rw [List.map_map]
  apply List.map_congr_left
  intro c _
  simp only [Function.comp, List.map_filterMap]
  apply List.filterMap_congr
  intro i _
  rw [List.getElem?_map]

theorem ptpZero2Fl_neg (A B : List (List ℚ)) : ptpZero2Fl F (A.map negL) (B.map negL) = ptpZero2Fl F A B := by
  unfold ptpZero2Fl
  rw [← ptpZeroFl_neg (A.flatten ++ B.flatten)]
  simp [negL, List.map_flatten]

/-- The four arrays with the sign changed. -/
def negSep (s : Separated ℚ) : Separated ℚ where
  A := negL s.A
  B := negL s.B
  AB := s.AB.map negL
  BA := s.BA.map negL

theorem getD_negL (l : List (List ℚ)) (j : Nat) : (l.map negL).getD j [] = negL (l.getD j []) := by
  simp only [List.getD_eq_getElem?_getD, List.getElem?_map]
  cases l[j]? <;> simp

theorem serialIndicesFl_neg (s : Separated ℚ) :
    serialIndicesFl F order orderR sqrt Z (negSep s) r D second =
      serialIndicesFl F order orderR sqrt Z s r D second := by
  have f1 : ∀ A AB B : List ℚ, firstOrderFl F order (negL A) (negL AB) (negL B) = firstOrderFl F order A AB B := by
    intro A AB B; unfold firstOrderFl; rw [negL_append, ptpZeroFl_neg, firstRatioFl_neg]
  have f2 : ∀ A AB B : List ℚ, totalOrderFl F order (negL A) (negL AB) (negL B) = totalOrderFl F order A AB B := by
    intro A AB B; unfold totalOrderFl; rw [negL_append, ptpZeroFl_neg, totalRatioFl_neg]
  have f3 : ∀ A ABj ABk BAj B : List ℚ, secondOrderFl F order (negL A) (negL ABj) (negL ABk) (negL BAj) (negL B) =
      secondOrderFl F order A ABj ABk BAj B := by
    intro A ABj ABk BAj B
    unfold secondOrderFl
    rw [negL_append, ptpZeroFl_neg, crossRatioFl_neg, f1, f1]
  have g1 : ∀ A AB B : List (List ℚ), firstOrderRFl F orderR (A.map negL) (AB.map negL) (B.map negL) =
      firstOrderRFl F orderR A AB B := by
    intro A AB B
    unfold firstOrderRFl
    rw [ptpZero2Fl_neg, List.zip_map, List.zipWith_map]
    simp only [Prod.map, firstRatioFl_neg]
  have g2 : ∀ A AB B : List (List ℚ), totalOrderRFl F orderR (A.map negL) (AB.map negL) (B.map negL) =
      totalOrderRFl F orderR A AB B := by
    intro A AB B
    unfold totalOrderRFl
    rw [ptpZero2Fl_neg, List.zip_map, List.zipWith_map]
    simp only [Prod.map, totalRatioFl_neg]
  have g3 : ∀ A ABj ABk BAj B : List (List ℚ), secondOrderRFl F orderR (A.map negL) (ABj.map negL) (ABk.map negL)
      (BAj.map negL) (B.map negL) = secondOrderRFl F orderR A ABj ABk BAj B := by
    intro A ABj ABk BAj B
    unfold secondOrderRFl
    rw [ptpZero2Fl_neg, List.zip_map, List.zip_map, List.zip_map, List.zipWith_map]
    simp only [Prod.map, firstRatioFl_neg, crossRatioFl_neg]
  unfold serialIndicesFl negSep
  simp only [getD_negL, resample_neg, f1, f2, f3, g1, g2, g3, ptpZero2Fl_neg]

/-- **C113**, sign of the outputs: changing the sign of all outputs changes no bit of the result. -/
theorem C113_neg (hD : (extractGroupNames pb).2 = D) (hconf : 0 < conf ∧ conf < 1) (hr : r ≠ []) (hN : 0 < N)
    (hY : Y.length = N * (if second then 2 * D + 2 else D + 2)) :
    sobolAnalyzeFl F order orderR sqrt Z pb (Y.map fun y => -y) second conf r =
      sobolAnalyzeFl F order orderR sqrt Z pb Y second conf r := by
  rw [sobolAnalyzeFl_eq order orderR sqrt Z pb _ second conf r D N hD hconf hr hN (by rw [List.length_map]; exact hY),
    sobolAnalyzeFl_eq order orderR sqrt Z pb Y second conf r D N hD hconf hr hN hY, normaliseFl_neg]
  cases normaliseFl F order sqrt Y with
  | none => rfl
  | some Y' =>
    simp only [Option.map_some, runFl]
    congr 1
    rw [← serialIndicesFl_neg]
    congr 1
    unfold sepOf negSep
    simp only [negL_getD]
    congr 1
    · simp [col, negL]
    · simp [col, negL]
    · simp [col, negL, Function.comp_def]
    · cases second <;> simp [col, negL, Function.comp_def]

/-! ### Ignored groups -/

theorem zip_sub_self (A : List ℚ) : List.zipWith (fsub F) A A = A.map fun _ => 0 := by
  rw [List.zipWith_self]
  apply List.map_congr_left
  intro x _
  rw [fsub, sub_self, fl_zero]

theorem ratioFl_zero (v : ℚ) : ratioFl F 0 v = if v = 0 then none else some 0 := by
  unfold ratioFl fdiv
  rw [zero_div, fl_zero]

/-- The variance decides whether any ratio is finite. -/
theorem ratios_none (o : Nat → SumTree) {A B : List ℚ} (h : ∀ v, varFl F o (A ++ B) = some v → v = 0) (AB : List ℚ) :
    firstRatioFl F o A AB B = none ∧ totalRatioFl F o A AB B = none := by
  unfold firstRatioFl totalRatioFl
  cases hv : varFl F o (A ++ B) with
  | none => constructor <;> simp [Option.bind_eq_none_iff]
  | some v =>
    have := h v hv
    subst this
    constructor <;> simp [Option.bind_eq_none_iff, ratioFl]

theorem ratios_same (o : Nat → SumTree) {A B : List ℚ} (hlen : A.length = B.length) {v : ℚ}
    (h : varFl F o (A ++ B) = some v) (hv : v ≠ 0) :
    firstRatioFl F o A A B = some 0 ∧ totalRatioFl F o A A B = some 0 := by
  have hA : A ≠ [] := by
    rintro rfl
    have : B = [] := by cases B with
      | nil => rfl
      | cons b B => simp at hlen
    subst this
    simp [varFl, meanFl] at h
  have hB : B ≠ [] := by rintro rfl; exact hA (List.length_eq_zero_iff.mp hlen)
  have hz : ∀ x ∈ A.map (fun _ => (0 : ℚ)), x = 0 := by
    intro x hx; obtain ⟨y, -, rfl⟩ := List.mem_map.mp hx; rfl
  unfold firstRatioFl totalRatioFl
  rw [zip_sub_self, h, meanFl_zeros, meanFl_zeros]
  · simp only [Option.bind_eq_bind, Option.bind_some, fmul, mul_zero, fl_zero, ratioFl_zero, if_neg hv]
    exact ⟨trivial, trivial⟩
  · simp [hA]
  · intro x hx
    obtain ⟨y, hy, rfl⟩ := List.mem_map.mp hx
    rw [hz y hy, fmul, mul_zero, fl_zero]
  · intro h0
    have := congrArg List.length h0
    simp only [List.length_zipWith, List.length_map, List.length_nil, hlen, min_self] at this
    exact hB (List.length_eq_zero_iff.mp this)
  · intro x hx
    rw [List.zipWith_map_right] at hx
    obtain ⟨i, hi, rfl⟩ := List.getElem_of_mem hx
    rw [List.getElem_zipWith, fmul, mul_zero, fl_zero]

theorem zipWith3_resample {γ : Type} (f : List ℚ → List ℚ → List ℚ → γ) (A AB B : List ℚ) :
    List.zipWith (fun a (p : List ℚ × List ℚ) => f a p.1 p.2) (resample A r) ((resample AB r).zip (resample B r)) =
      r.map fun c => f (c.filterMap (A[·]?)) (c.filterMap (AB[·]?)) (c.filterMap (B[·]?)) := by
  unfold resample
  induction r with
  | nil => rfl
  | cons c r ih => simp_all

theorem length_filterMap_get {A B : List ℚ} (h : A.length = B.length) (c : List Nat) :
    (c.filterMap (A[·]?)).length = (c.filterMap (B[·]?)).length := by
  induction c with
  | nil => rfl
  | cons i c ih =>
    rw [List.filterMap_cons, List.filterMap_cons]
    by_cases hi : i < A.length
    · rw [List.getElem?_eq_getElem hi, List.getElem?_eq_getElem (h ▸ hi)]
      simpa using ih
    · rw [List.getElem?_eq_none (by omega), List.getElem?_eq_none (by omega)]
      exact ih

theorem length_mapM_id {γ : Type} (l : List (Num γ)) (l' : List γ) (h : l.mapM id = some l') : l'.length = l.length := by
  induction l generalizing l' with
  | nil => cases h; rfl
  | cons a l ih =>
    rw [List.mapM_cons] at h
    cases a with
    | none => cases h
    | some x =>
      cases hl : l.mapM id with
      | none => simp [hl] at h
      | some t =>
        simp only [hl, id, Option.bind_eq_bind, Option.bind_some] at h
        cases h
        simp [ih t hl]

/-- An index that is exactly 0, or else the indices of the kind are all nan. -/
def Spec.ZeroOrNan (l : List (Num ℚ)) (k : Nat) : Prop := l[k]? = some (some 0) ∨ ∀ S ∈ l, S = none

theorem serialIndicesFl_ignored (hs : sqrt 0 = 0) (s : Separated ℚ) (hlen : s.A.length = s.B.length) (k : Nat)
    (hk : k < D) (hAB : s.AB.getD k [] = s.A) :
    ZeroOrNan (serialIndicesFl F order orderR sqrt Z s r D second).S1 k ∧
      ZeroOrNan (serialIndicesFl F order orderR sqrt Z s r D second).ST k ∧
      ZeroOrNan (serialIndicesFl F order orderR sqrt Z s r D second).S1conf k ∧
      ZeroOrNan (serialIndicesFl F order orderR sqrt Z s r D second).STconf k := by
  have aux : ∀ f : Nat → Num ℚ, (f k = some 0 ∨ ∀ j, f j = none) → ZeroOrNan ((List.range D).map f) k := by
    rintro f (h | h)
    · left; rw [List.getElem?_map, List.getElem?_range hk, Option.map_some, h]
    · right
      intro S hS
      obtain ⟨j, -, rfl⟩ := List.mem_map.mp hS
      exact h j
  have main : (firstOrderFl F order s.A s.A s.B = some 0 ∧ totalOrderFl F order s.A s.A s.B = some 0) ∨
      ∀ AB, firstOrderFl F order s.A AB s.B = none ∧ totalOrderFl F order s.A AB s.B = none := by
    unfold firstOrderFl totalOrderFl
    cases hp : ptpZeroFl F (s.A ++ s.B)
    · simp only [Bool.false_eq_true, if_false]
      by_cases hv : ∀ v, varFl F order (s.A ++ s.B) = some v → v = 0
      · right; exact fun AB => ratios_none order hv AB
      · push Not at hv
        obtain ⟨v, hv, hv0⟩ := hv
        left; exact ratios_same order hlen hv hv0
    · left; exact ⟨rfl, rfl⟩
  have confs : ptpZero2Fl F (resample s.A r) (resample s.B r) = false →
      (∀ AB, ((firstOrderRFl F orderR (resample s.A r) (resample AB r) (resample s.B r)).std1Fl F order sqrt).map
          (fmul F Z) = none ∧
        ((totalOrderRFl F orderR (resample s.A r) (resample AB r) (resample s.B r)).std1Fl F order sqrt).map
          (fmul F Z) = none) ∨
      (((firstOrderRFl F orderR (resample s.A r) (resample s.A r) (resample s.B r)).std1Fl F order sqrt).map
          (fmul F Z) = some 0 ∧
        ((totalOrderRFl F orderR (resample s.A r) (resample s.A r) (resample s.B r)).std1Fl F order sqrt).map
          (fmul F Z) = some 0) := by
    intro hp
    unfold firstOrderRFl totalOrderRFl
    simp only [hp, Bool.false_eq_true, if_false, Est.std1Fl]
    by_cases hr2 : 2 ≤ r.length
    · by_cases hv : ∃ c ∈ r, ∀ v, varFl F orderR (c.filterMap (s.A[·]?) ++ c.filterMap (s.B[·]?)) = some v → v = 0
      · obtain ⟨c, hc, hv⟩ := hv
        left
        intro AB
        have h := ratios_none orderR hv (c.filterMap (AB[·]?))
        rw [zipWith3_resample r (firstRatioFl F orderR), zipWith3_resample r (totalRatioFl F orderR)]
        unfold std1FlN
        rw [mapM_none _ (List.mem_map.mpr ⟨c, hc, h.1⟩), mapM_none _ (List.mem_map.mpr ⟨c, hc, h.2⟩)]
        exact ⟨rfl, rfl⟩
      · push Not at hv
        right
        have h : ∀ c ∈ r, firstRatioFl F orderR (c.filterMap (s.A[·]?)) (c.filterMap (s.A[·]?)) (c.filterMap (s.B[·]?)) =
            some 0 ∧ totalRatioFl F orderR (c.filterMap (s.A[·]?)) (c.filterMap (s.A[·]?)) (c.filterMap (s.B[·]?)) =
            some 0 := fun c hc => by
          obtain ⟨v, hv, hv0⟩ := hv c hc
          exact ratios_same orderR (length_filterMap_get hlen c) hv hv0
        rw [zipWith3_resample r (firstRatioFl F orderR), zipWith3_resample r (totalRatioFl F orderR)]
        unfold std1FlN
        rw [mapM_some_map r _ (fun _ => 0) fun c hc => (h c hc).1,
          mapM_some_map r _ (fun _ => 0) fun c hc => (h c hc).2]
        have hz : std1Fl F order sqrt (r.map fun _ => (0 : ℚ)) = some 0 :=
          std1Fl_zeros hs (by simpa using hr2) (by simp)
        simp only [Option.bind_eq_bind, Option.bind_some, hz, Option.map_some, fmul, mul_zero, fl_zero]
        exact ⟨trivial, trivial⟩
    · left
      have hshort : ∀ l : List (Num ℚ), l.length ≤ 1 → std1FlN F order sqrt l = none := by
        intro l hl
        unfold std1FlN
        cases hm : l.mapM id with
        | none => rfl
        | some l' =>
          have hl' : l'.length = l.length := length_mapM_id l l' hm
          simp only [Option.bind_eq_bind, Option.bind_some, std1Fl]
          cases meanFl F order l' with
          | none => rfl
          | some m => simp only [Option.bind_some]; rw [if_pos (by omega)]
      intro AB
      rw [zipWith3_resample r (firstRatioFl F orderR), zipWith3_resample r (totalRatioFl F orderR),
        hshort _ (by rw [List.length_map]; omega), hshort _ (by rw [List.length_map]; omega)]
      exact ⟨rfl, rfl⟩
  refine ⟨aux _ ?_, aux _ ?_, aux _ ?_, aux _ ?_⟩
  · simp only [hAB]; exact main.imp (·.1) fun h j => (h _).1
  · simp only [hAB]; exact main.imp (·.2) fun h j => (h _).2
  · cases hp : ptpZero2Fl F (resample s.A r) (resample s.B r)
    · simp only [Bool.false_eq_true, if_false, hAB]
      exact (confs hp).symm.imp (·.1) fun h j => (h _).1
    · left; rfl
  · cases hp : ptpZero2Fl F (resample s.A r) (resample s.B r)
    · simp only [Bool.false_eq_true, if_false, hAB]
      exact (confs hp).symm.imp (·.2) fun h j => (h _).2
    · left; rfl

/-- **C113**, ignored groups: sample by the cross-sampling design and evaluate a model that does not read
group `k`.  Unless all values of the kind are nan, S1, ST and both confidence values of `k` are exactly 0: no
rounding error is taken for an effect. -/
theorem C113_ignored {β : Type} (hs : sqrt 0 = 0) (f : List β → ℚ) (g k C : Nat) (groupOf : Nat → Nat)
    (base : List (List β)) (hg : (extractGroupNames pb).2 = g) (hk : k < g) (hconf : 0 < conf ∧ conf < 1) (hr : r ≠ [])
    (hbase : base ≠ []) (hcols : ∀ row ∈ base, row.length = 2 * C) (hf : Ignores f C groupOf k) :
    ∃ res, sobolAnalyzeFl F order orderR sqrt Z pb ((crossDesign second C g groupOf base).map f) second conf r = .ok res ∧
      ZeroOrNan res.S1 k ∧ ZeroOrNan res.ST k ∧ ZeroOrNan res.S1conf k ∧ ZeroOrNan res.STconf k := by
  have hlen : ((crossDesign second C g groupOf base).map f).length = base.length * rowsPer second g := by
    rw [List.length_map, length_crossDesign]; rfl
  refine ⟨_, sobolAnalyzeFl_eq order orderR sqrt Z pb _ second conf r g base.length hg hconf hr
    (List.length_pos_iff.mpr hbase) hlen, ?_⟩
  cases hn : normaliseFl F order sqrt ((crossDesign second C g groupOf base).map f) with
  | none =>
    have : ∀ S ∈ List.replicate g (none : Num ℚ), S = none := fun S hS => (List.mem_replicate.mp hS).2
    exact ⟨.inr this, .inr this, .inr this, .inr this⟩
  | some Y' =>
    obtain ⟨m, s, -, -, -, rfl⟩ := normaliseFl_length hn
    set φ : List β → ℚ := fun x => fdiv F (fsub F (f x) m) s with hφ
    have hφi : Ignores φ C groupOf k := by
      intro x x' h1 h2 h3
      simp only [hφ, hf x x' h1 h2 h3]
    have hsep := C12_reads_right_rows φ second C g groupOf base
    have e : ((crossDesign second C g groupOf base).map f).map (fun y => fdiv F (fsub F y m) s) =
        (crossDesign second C g groupOf base).map φ := by rw [List.map_map]; rfl
    rw [separate_cols _ second g base.length (by rw [← e, List.length_map]; exact hlen)] at hsep
    simp only [runFl]
    rw [e, Except.ok.inj hsep]
    refine serialIndicesFl_ignored order orderR sqrt Z second r g hs _ (by simp) k hk ?_
    rw [List.getD_eq_getElem?_getD, List.getElem?_map, List.getElem?_range hk, Option.map_some, Option.getD_some]
    apply List.map_congr_left
    intro row hrow
    have := hcols row hrow
    exact ignores_replace φ C groupOf k hφi _ _ (by simp; omega) (by simp; omega)

/-! ### Constant outputs -/

theorem ptpZeroFl_const {l : List ℚ} (hl : l ≠ []) {c : ℚ} (h : ∀ y ∈ l, y = c) : ptpZeroFl F l = true := by
  cases l with
  | nil => exact absurd rfl hl
  | cons x xs =>
    rw [ptpZeroFl, h _ (foldl_max_top x xs).1, h _ (foldl_min_bot x xs).1, fsub, sub_self, fl_zero]
    rfl

/-- **C113**, constant outputs: either everything is nan, or S1, ST and both confidence values are all exactly 0.
Which of the two it is depends on the rounding of the mean (`C113_constant_nan` and the example below it). -/
theorem C113_constant (hD : (extractGroupNames pb).2 = D) (hconf : 0 < conf ∧ conf < 1) (hr : r ≠ []) (hN : 0 < N)
    (hdr : ∀ c ∈ r, c.length = N ∧ ∀ i ∈ c, i < N)
    (hY : Y.length = N * (if second then 2 * D + 2 else D + 2)) (c : ℚ) (hc : ∀ y ∈ Y, y = c) :
    ∃ res, sobolAnalyzeFl F order orderR sqrt Z pb Y second conf r = .ok res ∧
      ((∀ S ∈ res.S1 ++ res.ST ++ res.S1conf ++ res.STconf, S = none) ∨
        ∀ S ∈ res.S1 ++ res.ST ++ res.S1conf ++ res.STconf, S = some 0) := by
  refine ⟨_, sobolAnalyzeFl_eq order orderR sqrt Z pb _ second conf r D N hD hconf hr hN hY, ?_⟩
  cases hn : normaliseFl F order sqrt Y with
  | none =>
    left
    simp only [runFl, nanResult, List.mem_append]
    rintro S (((h | h) | h) | h) <;> exact (List.mem_replicate.mp h).2
  | some Y' =>
    right
    obtain ⟨m, s, -, -, -, rfl⟩ := normaliseFl_length hn
    have hst : ∀ i o, i < N → o < rowsPer second D → i * rowsPer second D + o < Y.length := by
      intro i o hi ho
      rw [hY]
      calc i * rowsPer second D + o < (i + 1) * rowsPer second D := by rw [add_mul]; omega
        _ ≤ N * rowsPer second D := Nat.mul_le_mul_right _ hi
    have hy : ∀ i, i < Y.length → (Y.map fun y => fdiv F (fsub F y m) s).getD i 0 = fdiv F (fsub F c m) s := by
      intro i hi
      rw [List.getD_eq_getElem?_getD, List.getElem?_map, List.getElem?_eq_getElem hi, Option.map_some, Option.getD_some,
        hc _ (List.getElem_mem hi)]
    have h2 : 2 ≤ rowsPer second D := by unfold rowsPer; split <;> omega
    simp only [runFl]
    set S := sepOf second D N fun i => (Y.map fun y => fdiv F (fsub F y m) s).getD i 0 with hS
    have hA : ∀ y ∈ S.A, y = fdiv F (fsub F c m) s := by
      intro y hy'
      obtain ⟨i, hi, rfl⟩ := List.mem_map.mp hy'
      exact hy _ (hst i 0 (List.mem_range.mp hi) (by omega))
    have hB : ∀ y ∈ S.B, y = fdiv F (fsub F c m) s := by
      intro y hy'
      obtain ⟨i, hi, rfl⟩ := List.mem_map.mp hy'
      exact hy _ (hst i _ (List.mem_range.mp hi) (by omega))
    have hAne : S.A ≠ [] := col_ne_nil hN _
    have hz1 : ptpZeroFl F (S.A ++ S.B) = true := by
      refine ptpZeroFl_const (c := fdiv F (fsub F c m) s) (by simp [hAne]) fun y hy' => ?_
      rcases List.mem_append.mp hy' with h | h
      · exact hA y h
      · exact hB y h
    have hres : ∀ X : List ℚ, (∀ y ∈ X, y = fdiv F (fsub F c m) s) →
        ∀ y ∈ (resample X r).flatten, y = fdiv F (fsub F c m) s := by
      intro X hX y hy'
      obtain ⟨l, hl, hyl⟩ := List.mem_flatten.mp hy'
      obtain ⟨c', -, rfl⟩ := List.mem_map.mp hl
      obtain ⟨i, -, hi⟩ := List.mem_filterMap.mp hyl
      exact hX y (List.mem_of_getElem? hi)
    have hz2 : ptpZero2Fl F (resample S.A r) (resample S.B r) = true := by
      refine ptpZeroFl_const (c := fdiv F (fsub F c m) s) ?_ fun y hy' => ?_
      · obtain ⟨c', r', rfl⟩ := List.exists_cons_of_ne_nil hr
        obtain ⟨hl, hi⟩ := hdr c' (by simp)
        obtain ⟨i, c'', rfl⟩ := List.exists_cons_of_ne_nil (l := c') (by rintro rfl; simp at hl; omega)
        have hiA : i < S.A.length := by
          have := hi i (by simp)
          rw [hS]; simpa [sepOf, length_col] using this
        simp [resample, List.filterMap_cons, List.getElem?_eq_getElem hiA]
      · rcases List.mem_append.mp hy' with h | h
        · exact hres _ hA y h
        · exact hres _ hB y h
    intro x hx
    simp only [serialIndicesFl, firstOrderFl, totalOrderFl, hz1, hz2, if_true, List.mem_append, List.mem_map] at hx
    rcases hx with ((⟨_, -, h⟩ | ⟨_, -, h⟩) | ⟨_, -, h⟩) | ⟨_, -, h⟩ <;> exact h.symm

theorem sumFl_const (hp : 1 ≤ F.p) {l : List ℚ} {z e : ℤ} (he : F.emin ≤ e)
    (hz : |z| * l.length ≤ 2 ^ F.p) (hc : ∀ y ∈ l, y = z * (2 : ℚ) ^ e) (t : SumTree) (ht : t.leaves.length ≤ l.length)
    (hin : ∀ i ∈ t.leaves, i < l.length) : sumFl F l t = t.leaves.length * (z * (2 : ℚ) ^ e) := by
  induction t with
  | leaf i =>
    have hi := hin i (by simp [SumTree.leaves])
    rw [sumFl, List.getD_eq_getElem?_getD, List.getElem?_eq_getElem hi, Option.getD_some, hc _ (List.getElem_mem hi)]
    simp [SumTree.leaves]
  | node a b iha ihb =>
    simp only [SumTree.leaves, List.length_append] at ht ⊢
    have ha : ∀ i ∈ a.leaves, i < l.length := fun i hi => hin i (by simp [SumTree.leaves, hi])
    have hb : ∀ i ∈ b.leaves, i < l.length := fun i hi => hin i (by simp [SumTree.leaves, hi])
    rw [sumFl, iha (by omega) ha, ihb (by omega) hb, fadd]
    rw [fl_eq hp]
    · push_cast; ring
    · refine isFloat_of_le hp (m := (a.leaves.length + b.leaves.length) * z) (e := e) he ?_ (by push_cast; ring)
      rw [abs_mul, abs_of_nonneg (by positivity), mul_comm]
      refine le_trans ?_ hz
      gcongr
      exact_mod_cast ht

/-- **C113**, constant outputs whose sum is exact, whole numbers for example: everything is nan. -/
theorem C113_constant_nan (hp : 1 ≤ F.p) (ho : SumOrder order) (hs : sqrt 0 = 0) (hD : (extractGroupNames pb).2 = D)
    (hconf : 0 < conf ∧ conf < 1) (hr : r ≠ []) (hN : 0 < N)
    (hY : Y.length = N * (if second then 2 * D + 2 else D + 2)) (z e : ℤ) (he : F.emin ≤ e)
    (hz : |z| * Y.length ≤ 2 ^ F.p) (hc : ∀ y ∈ Y, y = z * (2 : ℚ) ^ e) :
    ∃ res, sobolAnalyzeFl F order orderR sqrt Z pb Y second conf r = .ok res ∧
      ∀ S ∈ res.S1 ++ res.ST ++ res.S1conf ++ res.STconf, S = none := by
  refine ⟨_, sobolAnalyzeFl_eq order orderR sqrt Z pb _ second conf r D N hD hconf hr hN hY, ?_⟩
  have hl : 0 < Y.length := by rw [hY]; positivity
  have hne : Y ≠ [] := List.length_pos_iff.mp hl
  have hperm := ho Y.length hl
  have hsum := sumFl_const (F := F) hp he hz hc (order Y.length) (by rw [hperm.length_eq]; simp)
    fun i hi => List.mem_range.mp (hperm.mem_iff.mp hi)
  rw [hperm.length_eq, List.length_range] at hsum
  have hzf : IsFloat F (z * (2 : ℚ) ^ e) := by
    refine isFloat_of_le hp he (le_trans ?_ hz) rfl
    exact le_mul_of_one_le_right (abs_nonneg z) (by exact_mod_cast hl)
  have hm : meanFl F order Y = some (z * (2 : ℚ) ^ e) := by
    rw [meanFl, if_neg (by omega), hsum, fdiv, mul_div_cancel_left₀ _ (by positivity), fl_eq hp hzf]
  have hdev : ∀ y ∈ devSqFl F (z * (2 : ℚ) ^ e) Y, y = 0 := by
    intro y hy
    obtain ⟨x, hx, rfl⟩ := List.mem_map.mp hy
    simp only [hc x hx, fsub, sub_self, fl_zero, fmul, mul_zero]
  have hn : normaliseFl F order sqrt Y = none := by
    unfold normaliseFl std0Fl varFl
    rw [hm]
    simp only [Option.bind_eq_bind, Option.bind_some]
    rw [meanFl_zeros (by simpa [devSqFl] using hne) hdev]
    simp [hs]
  rw [hn]
  simp only [runFl, nanResult, List.mem_append]
  rintro S (((h | h) | h) | h) <;> exact (List.mem_replicate.mp h).2

/-- The hypotheses are met in binary64 (with any non-negative function for the square root): two parameters of which
the model ignores the first, two base points, two resamples of which one has the same point twice.  The values of the
first parameter are exactly 0, those of the second are finite and not 0. -/
example :
    let pb : Problem ℚ := { names := ["x", "y"], bounds := boundsTable [(0, 1), (0, 1)] }
    let f : List ℚ → ℚ := fun x => fl binary64 (x.getD 1 0 / 10)
    let Y := (crossDesign true 2 2 id [[0, 0, 1, 5], [3, 2, 0, 1]]).map f
    (extractGroupNames pb).2 = 2 ∧ Ignores f 2 id 0 ∧ (∀ y ∈ Y, IsFloat binary64 y) ∧ Y.length = 2 * 6 ∧
      SumOrder leftOrder ∧ (∀ t : ℚ, 0 ≤ |t|) ∧
      (sobolAnalyzeFl binary64 leftOrder leftOrder (fun t => |t|) 2 pb Y true (1 / 2) [[0, 1], [0, 0]]).map
        (fun r => ((r.S1, r.ST), r.S1conf, r.STconf)) =
        .ok (([some 0, some (2573485501354569 / 1125899906842624)], [some 0, some (8363827879402349 / 4503599627370496)]),
          [some 0, some (470580205961975 / 36028797018963968)], [some 0, some (2941126287262371 / 144115188075855872)]) := by
  intro pb f Y
  refine ⟨by decide +kernel, ?_, ?_, by decide +kernel, leftOrder_sumOrder, abs_nonneg, by decide +kernel⟩
  · intro x y hx hy h
    have := h 1 (by simp)
    simp only [f, List.getD_eq_getElem?_getD, this]
  · intro y hy
    obtain ⟨x, -, rfl⟩ := List.mem_map.mp hy
    exact isFloat_fl (by decide) _

/-- Both cases of `C113_constant`: the outputs 1, 1, 1 give nan, since their mean is exact.  The outputs 0.1, 0.1,
0.1 give 0: their sum is rounded to 0.30000000000000004, the mean is not 0.1 and the deviation is not 0. -/
example :
    let pb : Problem ℚ := { names := ["x"], bounds := boundsTable [(0, 1)] }
    let run := fun c : ℚ => (sobolAnalyzeFl binary64 leftOrder leftOrder (fun t => |t|) 2 pb [c, c, c] false (1 / 2)
      [[0], [0]]).map fun r => ((r.S1, r.ST), r.S1conf, r.STconf)
    run 1 = .ok (([none], [none]), [none], [none]) ∧
      run (fl binary64 (1 / 10)) = .ok (([some 0], [some 0]), [some 0], [some 0]) := by
  intro pb run
  exact ⟨by decide +kernel, by decide +kernel⟩

end SALib
