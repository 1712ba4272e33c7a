import Verif.Props.SobolMean
import Verif.Props.BootstrapMean
import Verif.Props.FastConf

/-! # The confidence widths of the Sobol indices as sample variances over resampled rows -/

namespace SALib

open Spec

variable {d : Nat}

/-- Numerator of the first-order index of the inputs `s` over the rows, for outputs centred at `c`. -/
noncomputable def firstAt (G : (Fin d → ℝ) → ℝ) (c : ℝ) (s : Fin d → Bool) (rows : List ((Fin d → ℝ) × (Fin d → ℝ))) : ℝ :=
  rowMean rows (fun p => G p.2 * (G (mix s p.1 p.2) - G p.1)) - c * rowMean rows (fun p => G (mix s p.1 p.2) - G p.1)

/-- Numerator of the second-order index of the inputs `s` and `t` over the rows, for outputs centred at `c`. -/
noncomputable def secondAt (G : (Fin d → ℝ) → ℝ) (c : ℝ) (s t : Fin d → Bool) (rows : List ((Fin d → ℝ) × (Fin d → ℝ))) : ℝ :=
  rowMean rows (fun p => G (mix s p.2 p.1) * G (mix t p.1 p.2) - G p.1 * G p.2) -
    rowMean rows (fun p => G p.2 * (G (mix s p.1 p.2) - G p.1)) -
    rowMean rows (fun p => G p.2 * (G (mix t p.1 p.2) - G p.1)) -
    c * rowMean rows (fun p => G (mix s p.2 p.1) - G (mix s p.1 p.2) + G p.1 - G p.2)

section norm

variable (rows : List ((Fin d → ℝ) × (Fin d → ℝ))) (G : (Fin d → ℝ) → ℝ) (m σ : ℝ) (hσ : σ ≠ 0) (hv : sampleVar G rows ≠ 0)
include hσ hv

theorem rows_ne_nil : rows ≠ [] := by
  rintro rfl
  exact hv (sampleVar_nil _)

theorem npVar_rows_norm : npVar (rows.map (fun p => (G p.1 - m) / σ) ++ rows.map (fun p => (G p.2 - m) / σ)) =
    some (sampleVar G rows / σ ^ 2) := by
  have hrows := rows_ne_nil rows G σ hσ hv
  have haff : rows.map (fun p => (G p.1 - m) / σ) ++ rows.map (fun p => (G p.2 - m) / σ) =
      (rows.map (fun p => G p.1) ++ rows.map fun p => G p.2).map fun y => σ⁻¹ * y + -m / σ := by
    rw [List.map_append, List.map_map, List.map_map]
    congr 1 <;>
    · apply List.map_congr_left
      intro p _
      simp only [Function.comp]
      field_simp
      ring
  rw [haff, npVar_affine, npVar_pair rows hrows]
  simp only [Option.map_some, Option.some.injEq]
  rw [inv_pow]
  show _ * sampleVar G rows = _
  field_simp

theorem ptp_rows_norm : ptpZero (rows.map (fun p => (G p.1 - m) / σ) ++ rows.map (fun p => (G p.2 - m) / σ)) = false := by
  have hrows := rows_ne_nil rows G σ hσ hv
  rw [← Bool.not_eq_true]
  intro h
  obtain ⟨c, hc⟩ := (ptpZero_iff _ (by simp [hrows])).mp h
  have h1 := npVar_rows_norm rows G m σ hσ hv
  rw [npVar_const _ (by simp [hrows]) c hc] at h1
  have := Option.some.inj h1
  exact div_ne_zero hv (pow_ne_zero 2 hσ) this.symm

theorem first_norm (s : Fin d → Bool) :
    firstOrder (rows.map fun p => (G p.1 - m) / σ) (rows.map fun p => (G (mix s p.1 p.2) - m) / σ)
        (rows.map fun p => (G p.2 - m) / σ) = some (firstAt G m s rows / sampleVar G rows) :=
  firstOrder_norm rows G m σ _ s hσ (rows_ne_nil rows G σ hσ hv) (ptp_rows_norm rows G m σ hσ hv) (npVar_rows_norm rows G m σ hσ hv) hv

theorem total_norm (s : Fin d → Bool) :
    totalOrder (rows.map fun p => (G p.1 - m) / σ) (rows.map fun p => (G (mix s p.1 p.2) - m) / σ)
        (rows.map fun p => (G p.2 - m) / σ) = some (totalNum G s rows / sampleVar G rows) := by
  obtain ⟨w, hw, -, h⟩ := totalOrder_map rows (fun p => (G p.1 - m) / σ)
    (fun p => (G (mix s p.1 p.2) - m) / σ) (fun p => (G p.2 - m) / σ) (rows_ne_nil rows G σ hσ hv) (ptp_rows_norm rows G m σ hσ hv)
  rw [npVar_rows_norm rows G m σ hσ hv] at hw
  cases hw
  rw [h, sum_map_eq_rowMean]
  have e : (fun p : (Fin d → ℝ) × (Fin d → ℝ) => ((G p.1 - m) / σ - (G (mix s p.1 p.2) - m) / σ) ^ 2) =
      fun p => (1 / σ ^ 2) * (G p.1 - G (mix s p.1 p.2)) ^ 2 + 0 * (0 : ℝ) := by
    funext p; field_simp; ring
  rw [e, rowMean_lin rows (fun p => (G p.1 - G (mix s p.1 p.2)) ^ 2) fun _ => 0]
  unfold totalNum
  congr 1
  field_simp
  ring

theorem second_norm (s t : Fin d → Bool) :
    secondOrder (rows.map fun p => (G p.1 - m) / σ) (rows.map fun p => (G (mix s p.1 p.2) - m) / σ)
        (rows.map fun p => (G (mix t p.1 p.2) - m) / σ) (rows.map fun p => (G (mix s p.2 p.1) - m) / σ)
        (rows.map fun p => (G p.2 - m) / σ) = some (secondAt G m s t rows / sampleVar G rows) := by
  have hrows := rows_ne_nil rows G σ hσ hv
  have hp := ptp_rows_norm rows G m σ hσ hv
  have hnv := npVar_rows_norm rows G m σ hσ hv
  obtain ⟨w, hw, hwpos, h⟩ := secondOrder_map rows (fun p => (G p.1 - m) / σ)
    (fun p => (G (mix s p.1 p.2) - m) / σ) (fun p => (G (mix t p.1 p.2) - m) / σ)
    (fun p => (G (mix s p.2 p.1) - m) / σ) (fun p => (G p.2 - m) / σ) hrows hp
  obtain ⟨w1, hw1, -, h1⟩ := firstOrder_map rows (fun p => (G p.1 - m) / σ)
    (fun p => (G (mix s p.1 p.2) - m) / σ) (fun p => (G p.2 - m) / σ) hrows hp
  obtain ⟨w2, hw2, -, h2⟩ := firstOrder_map rows (fun p => (G p.1 - m) / σ)
    (fun p => (G (mix t p.1 p.2) - m) / σ) (fun p => (G p.2 - m) / σ) hrows hp
  rw [first_norm rows G m σ hσ hv] at h1 h2
  rw [hnv] at hw hw1 hw2
  cases hw; cases hw1; cases hw2
  rw [h, ← Option.some.inj h1, ← Option.some.inj h2, sum_map_eq_rowMean]
  have e : (fun p : (Fin d → ℝ) × (Fin d → ℝ) =>
        (G (mix s p.2 p.1) - m) / σ * ((G (mix t p.1 p.2) - m) / σ) - (G p.1 - m) / σ * ((G p.2 - m) / σ)) =
      fun p => (1 / σ ^ 2) * (G (mix s p.2 p.1) * G (mix t p.1 p.2) - G p.1 * G p.2) +
        (-m / σ ^ 2) * (G (mix s p.2 p.1) + G (mix t p.1 p.2) - G p.1 - G p.2) := by
    funext p; field_simp; ring
  rw [e, rowMean_lin rows (fun p => G (mix s p.2 p.1) * G (mix t p.1 p.2) - G p.1 * G p.2)
    fun p => G (mix s p.2 p.1) + G (mix t p.1 p.2) - G p.1 - G p.2]
  have e2 : rowMean rows (fun p => G (mix s p.2 p.1) + G (mix t p.1 p.2) - G p.1 - G p.2) =
      rowMean rows (fun p => G (mix s p.2 p.1) - G (mix s p.1 p.2) + G p.1 - G p.2) +
      rowMean rows (fun p => G (mix s p.1 p.2) - G p.1) + rowMean rows (fun p => G (mix t p.1 p.2) - G p.1) := by
    have a1 := rowMean_lin rows
      (fun p => G (mix s p.2 p.1) - G (mix s p.1 p.2) + G p.1 - G p.2)
      (fun p => G (mix s p.1 p.2) - G p.1) 1 1
    have a2 := rowMean_lin rows
      (fun p => 1 * (G (mix s p.2 p.1) - G (mix s p.1 p.2) + G p.1 - G p.2) + 1 * (G (mix s p.1 p.2) - G p.1))
      (fun p => G (mix t p.1 p.2) - G p.1) 1 1
    rw [one_mul, one_mul] at a1 a2
    rw [← a1, ← a2]
    congr 1; funext p; ring
  rw [e2]
  unfold secondAt firstAt
  congr 2
  field_simp
  ring

end norm

/-! ### Resampled columns -/

theorem resample_ofFn {β : Type} {N R : Nat} (x : Fin N → β) (φ : β → ℝ) (t : Fin R → Fin N → Fin N) :
    resample ((List.ofFn x).map φ) (drawLists t) = List.ofFn fun r => (List.ofFn fun i => x (t r i)).map φ := by
  unfold resample drawLists
  rw [List.map_ofFn]
  congr 1
  funext r
  simp only [Function.comp_apply]
  have h : ∀ l : List (Fin N), (l.map fun i : Fin N => (i : Nat)).filterMap (((List.ofFn x).map φ)[·]?) = l.map fun i => φ (x i) := by
    intro l
    induction l with
    | nil => rfl
    | cons a l ih => simp [ih]
  rw [show (List.ofFn fun i => (t r i : Nat)) = (List.ofFn fun i => t r i).map fun i : Fin N => (i : Nat) from by
    rw [List.map_ofFn]; rfl, h, List.map_ofFn, List.map_ofFn]
  rfl

theorem zipWith_ofFn3 {A B C D : Type} {R : Nat} (F : A → B × C → D) (a : Fin R → A) (b : Fin R → B) (c : Fin R → C) :
    List.zipWith F (List.ofFn a) ((List.ofFn b).zip (List.ofFn c)) = List.ofFn fun r => F (a r) (b r, c r) := by
  apply List.ext_getElem <;> simp

theorem zipWith_ofFn2 {A B D : Type} {R : Nat} (F : A → B → D) (a : Fin R → A) (b : Fin R → B) :
    List.zipWith F (List.ofFn a) (List.ofFn b) = List.ofFn fun r => F (a r) (b r) := by
  apply List.ext_getElem <;> simp

theorem zip_ofFn2 {A B : Type} {R : Nat} (a : Fin R → A) (b : Fin R → B) :
    (List.ofFn a).zip (List.ofFn b) = List.ofFn fun r => (a r, b r) := by
  apply List.ext_getElem <;> simp

theorem firstOrderR_ofFn {R : Nat} (a ab b : Fin R → List ℝ) (h2 : ptpZero2 (List.ofFn a) (List.ofFn b) = false)
    (hp : ∀ r, ptpZero (a r ++ b r) = false) :
    firstOrderR (List.ofFn a) (List.ofFn ab) (List.ofFn b) = .vec (List.ofFn fun r => firstOrder (a r) (ab r) (b r)) := by
  unfold firstOrderR
  rw [h2, if_neg (by simp), zipWith_ofFn3]
  congr 2
  funext r
  unfold firstOrder
  simp only [hp r, Bool.false_eq_true, if_false]

theorem totalOrderR_ofFn {R : Nat} (a ab b : Fin R → List ℝ) (h2 : ptpZero2 (List.ofFn a) (List.ofFn b) = false)
    (hp : ∀ r, ptpZero (a r ++ b r) = false) :
    totalOrderR (List.ofFn a) (List.ofFn ab) (List.ofFn b) = .vec (List.ofFn fun r => totalOrder (a r) (ab r) (b r)) := by
  unfold totalOrderR
  rw [h2, if_neg (by simp), zipWith_ofFn3]
  congr 2
  funext r
  unfold totalOrder
  simp only [hp r, Bool.false_eq_true, if_false]

theorem secondOrderR_ofFn {R : Nat} (a abj abk baj b : Fin R → List ℝ) (h2 : ptpZero2 (List.ofFn a) (List.ofFn b) = false)
    (hp : ∀ r, ptpZero (a r ++ b r) = false) :
    secondOrderR (List.ofFn a) (List.ofFn abj) (List.ofFn abk) (List.ofFn baj) (List.ofFn b) =
      .vec (List.ofFn fun r => secondOrder (a r) (abj r) (abk r) (baj r) (b r)) := by
  unfold secondOrderR
  rw [h2, if_neg (by simp), firstOrderR_ofFn a abj b h2 hp, firstOrderR_ofFn a abk b h2 hp, zip_ofFn2, zip_ofFn2, zipWith_ofFn2]
  simp only [Est.sub, zipWith_ofFn2]
  congr 2
  funext r
  unfold secondOrder
  simp only [hp r, Bool.false_eq_true, if_false]
  cases npMean (List.zipWith (fun p q => p - q) (List.zipWith (· * ·) (baj r) (abk r)) (List.zipWith (· * ·) (a r) (b r))) with
  | none => rfl
  | some m =>
    cases npVar (a r ++ b r) with
    | none => rfl
    | some v =>
      simp only [Option.bind_eq_bind, Option.bind_some]
      cases npDiv m v with
      | none => rfl
      | some q =>
        cases firstOrder (a r) (abj r) (b r) with
        | none => rfl
        | some q1 => cases firstOrder (a r) (abk r) (b r) <;> rfl

theorem ptpZero2_ofFn {R : Nat} (a b : Fin R → List ℝ) (r : Fin R) (hp : ptpZero (a r ++ b r) = false) (ha : a r ≠ []) :
    ptpZero2 (List.ofFn a) (List.ofFn b) = false := by
  unfold ptpZero2
  rw [← Bool.not_eq_true]
  intro h
  have hsub : ∀ y ∈ a r ++ b r, y ∈ (List.ofFn a).flatten ++ (List.ofFn b).flatten := by
    intro y hy
    rw [List.mem_append] at hy ⊢
    rcases hy with hy | hy
    · exact Or.inl (List.mem_flatten.mpr ⟨_, List.mem_ofFn.mpr ⟨r, rfl⟩, hy⟩)
    · exact Or.inr (List.mem_flatten.mpr ⟨_, List.mem_ofFn.mpr ⟨r, rfl⟩, hy⟩)
  have hne : (List.ofFn a).flatten ++ (List.ofFn b).flatten ≠ [] := by
    obtain ⟨y, hy⟩ := List.exists_mem_of_ne_nil _ ha
    exact List.ne_nil_of_mem (hsub y (List.mem_append_left _ hy))
  obtain ⟨c, hc⟩ := (ptpZero_iff _ hne).mp h
  have : ptpZero (a r ++ b r) = true := (ptpZero_iff _ (by simp [ha])).mpr ⟨c, fun y hy => hc y (hsub y hy)⟩
  rw [hp] at this
  cases this

/-- What the analysis reports on a design, with `R` resamples given by index arrays: estimates over the rows, and half widths from
the estimates over the resampled rows, centred at the mean of the outputs at the original rows. -/
theorem sobol_intervals (normPpf : ℝ → ℝ) (f : List ℝ → ℝ) (second : Bool) (g : Nat) (groupOf : Nat → Nat) {N R : Nat}
    (x : Fin N → (Fin d → ℝ) × (Fin d → ℝ)) (t : Fin R → Fin N → Fin N) (pb : Problem ℝ) (conf : ℝ) (keep : Bool)
    (hg : (extractGroupNames pb).2 = g) (hconf : 0 < conf ∧ conf < 1) (hR : 2 ≤ R) (G : (Fin d → ℝ) → ℝ)
    (hf : ∀ y, f (List.ofFn y) = G y)
    (hv : sampleVar G (List.ofFn x) ≠ 0) (hvr : ∀ r, sampleVar G (List.ofFn fun i => x (t r i)) ≠ 0) :
    let c := rowMean (List.ofFn x) (blockMean second g groupOf G)
    let z := normPpf (1 / 2 + conf / 2)
    let pick := fun r => List.ofFn fun i => x (t r i)
    ∃ res, sobolAnalyze Real.sqrt normPpf pb ((crossDesign second d g groupOf ((List.ofFn x).map pairRow)).map f) second conf
        (drawLists t) keep .serial = .ok res ∧
      (∀ k < g, res.S1[k]? = some (some (firstAt G c (inGroup groupOf k) (List.ofFn x) / sampleVar G (List.ofFn x))) ∧
        res.S1conf[k]? = some (some (z * √(drawVar fun r => firstAt G c (inGroup groupOf k) (pick r) / sampleVar G (pick r)))) ∧
        res.ST[k]? = some (some (totalNum G (inGroup groupOf k) (List.ofFn x) / sampleVar G (List.ofFn x))) ∧
        res.STconf[k]? = some (some (z * √(drawVar fun r => totalNum G (inGroup groupOf k) (pick r) / sampleVar G (pick r))))) ∧
      (second = true → ∃ S2 S2c, res.S2 = some S2 ∧ res.S2conf = some S2c ∧ ∀ j k, j < k → k < g →
        entry S2 j k = some (some (secondAt G c (inGroup groupOf j) (inGroup groupOf k) (List.ofFn x) / sampleVar G (List.ofFn x))) ∧
        entry S2c j k = some (some (z * √(drawVar fun r => secondAt G c (inGroup groupOf j) (inGroup groupOf k) (pick r) /
          sampleVar G (pick r))))) := by
  intro c z pick
  have hGf : (fun y : Fin d → ℝ => f (List.ofFn y)) = G := funext hf
  have hr : drawLists t ≠ [] := by
    intro h
    have := congrArg List.length h
    simp [drawLists] at this
    omega
  obtain ⟨m, σ, hm, hσ, hp, hnv, hrun⟩ := sobolAnalyze_design normPpf f second g groupOf (List.ofFn x) pb conf (drawLists t) keep hg hconf
    hr (by rw [hGf]; exact hv)
  rw [hGf] at hm
  simp only [hf] at hrun
  have hmc : m = c := hm
  let r0 : Fin R := ⟨0, by omega⟩
  have hpr : ∀ r, ptpZero ((pick r).map (fun p => (G p.1 - m) / σ) ++ (pick r).map (fun p => (G p.2 - m) / σ)) = false := fun r =>
    ptp_rows_norm (pick r) G m σ hσ (hvr r)
  have hne : ∀ r, pick r ≠ [] := fun r => rows_ne_nil (pick r) G σ hσ (hvr r)
  have hA : resample ((List.ofFn x).map fun p => (G p.1 - m) / σ) (drawLists t) =
    List.ofFn fun r => (pick r).map fun p => (G p.1 - m) / σ := resample_ofFn x _ t
  have hB : resample ((List.ofFn x).map fun p => (G p.2 - m) / σ) (drawLists t) =
    List.ofFn fun r => (pick r).map fun p => (G p.2 - m) / σ := resample_ofFn x _ t
  have hp2 : ptpZero2 (List.ofFn fun r => (pick r).map fun p => (G p.1 - m) / σ)
      (List.ofFn fun r => (pick r).map fun p => (G p.2 - m) / σ) = false :=
    ptpZero2_ofFn (fun r => (pick r).map fun p => (G p.1 - m) / σ) (fun r => (pick r).map fun p => (G p.2 - m) / σ) r0 (hpr r0)
      (by simpa using hne r0)
  refine ⟨_, hrun, ?_, ?_⟩
  · intro k hk
    refine ⟨?_, ?_, ?_, ?_⟩
    · simp only [serialIndices, List.getElem?_map, List.getElem?_range hk, Option.map_some]
      rw [List.getD_eq_getElem?_getD, List.getElem?_map, List.getElem?_range hk]
      simp only [Option.map_some, Option.getD_some]
      rw [first_norm _ G m σ hσ hv, hmc]
    · simp only [serialIndices, List.getElem?_map, List.getElem?_range hk, Option.map_some, hA, hB, hp2]
      rw [List.getD_eq_getElem?_getD, List.getElem?_map, List.getElem?_range hk]
      simp only [Option.map_some, Option.getD_some, resample_ofFn, Bool.false_eq_true, if_false]
      rw [firstOrderR_ofFn _ _ _ hp2 hpr]
      simp only [Est.std1, pick, first_norm _ G m σ hσ (hvr _)]
      rw [npStd1N_ofFn hR, hmc]
      rfl
    · simp only [serialIndices, List.getElem?_map, List.getElem?_range hk, Option.map_some]
      rw [List.getD_eq_getElem?_getD, List.getElem?_map, List.getElem?_range hk]
      simp only [Option.map_some, Option.getD_some]
      rw [total_norm _ G m σ hσ hv]
    · simp only [serialIndices, List.getElem?_map, List.getElem?_range hk, Option.map_some, hA, hB, hp2]
      rw [List.getD_eq_getElem?_getD, List.getElem?_map, List.getElem?_range hk]
      simp only [Option.map_some, Option.getD_some, resample_ofFn, Bool.false_eq_true, if_false]
      rw [totalOrderR_ofFn _ _ _ hp2 hpr]
      simp only [Est.std1, pick, total_norm _ G m σ hσ (hvr _)]
      rw [npStd1N_ofFn hR]
      rfl
  · rintro rfl
    refine ⟨_, _, by simp only [serialIndices, if_true]; rfl, by simp only [serialIndices, if_true]; rfl, ?_⟩
    intro j k hjk hk
    have hj : j < g := by omega
    constructor
    · simp only [entry, List.getElem?_map, List.getElem?_range hk, List.getElem?_range hj,
        Option.map_some, Option.bind_some, if_pos hjk]
      simp only [List.getD_eq_getElem?_getD, List.getElem?_map, List.getElem?_range hk,
        List.getElem?_range hj, Option.map_some, Option.getD_some]
      rw [second_norm _ G m σ hσ hv, hmc]
    · simp only [entry, List.getElem?_map, List.getElem?_range hk, List.getElem?_range hj,
        Option.map_some, Option.bind_some, if_pos hjk]
      simp only [List.getD_eq_getElem?_getD, List.getElem?_map, List.getElem?_range hk,
        List.getElem?_range hj, Option.map_some, Option.getD_some, hA, hB, resample_ofFn]
      rw [secondOrderR_ofFn _ _ _ _ _ hp2 hpr]
      simp only [Est.std1, pick, second_norm _ G m σ hσ (hvr _)]
      rw [npStd1N_ofFn hR, hmc]
      rfl

end SALib
