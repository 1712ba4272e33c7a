import Verif.Spec.SobolMean
import Verif.Props.SobolIndices

/-! The reported Sobol indices in terms of means over the base rows. -/

namespace SALib

open Spec

variable {d : Nat}

theorem rowMean_lin {β : Type} (rows : List β) (u w : β → ℝ) (c e : ℝ) :
    rowMean rows (fun r => c * u r + e * w r) = c * rowMean rows u + e * rowMean rows w := by
  have : (rows.map fun r => c * u r + e * w r).sum = c * (rows.map u).sum + e * (rows.map w).sum := by
    induction rows with
    | nil => simp
    | cons r rs ih => simp only [List.map_cons, List.sum_cons, ih]; ring
  unfold rowMean
  rw [this]
  ring

theorem sum_map_eq_rowMean {β : Type} (rows : List β) (h : β → ℝ) :
    (rows.map h).sum / (rows.length : ℝ) = rowMean rows h := rfl

theorem rowMean_const {β : Type} (rows : List β) (hr : rows ≠ []) (c : ℝ) : rowMean rows (fun _ => c) = c := by
  unfold rowMean
  have : (rows.length : ℝ) ≠ 0 := by simpa using hr
  rw [List.map_const', List.sum_replicate, nsmul_eq_mul]
  field_simp

theorem replaceIn_ofFn (groupOf : Nat → Nat) (k : Nat) (x y : Fin d → ℝ) :
    replaceIn (fun j => groupOf j == k) (List.ofFn x) (List.ofFn y) = List.ofFn (mix (inGroup groupOf k) x y) := by
  apply List.ext_getElem
  · simp [replaceIn]
  · intro i h1 h2
    simp [replaceIn, mix, inGroup]

theorem pairRow_take (p : (Fin d → ℝ) × (Fin d → ℝ)) : (pairRow p).take d = List.ofFn p.1 := by
  simp [pairRow]

theorem pairRow_drop (p : (Fin d → ℝ) × (Fin d → ℝ)) : (pairRow p).drop d = List.ofFn p.2 := by
  simp [pairRow]

theorem npVar_pair {β : Type} (rows : List β) (hr : rows ≠ []) (a b : β → ℝ) :
    npVar (rows.map a ++ rows.map b) =
      some (rowMean rows (fun r => (a r ^ 2 + b r ^ 2) / 2) - rowMean rows (fun r => (a r + b r) / 2) ^ 2) := by
  have hl : (rows.length : ℝ) ≠ 0 := by simpa using hr
  rw [npVar_some _ (by simp [hr])]
  congr 1
  have h1 : ∀ m : ℝ, ((rows.map a ++ rows.map b).map fun x => (x - m) ^ 2).sum =
      (rows.map fun r => a r ^ 2 + b r ^ 2).sum - 2 * m * (rows.map fun r => a r + b r).sum +
        2 * rows.length * m ^ 2 := by
    intro m
    rw [List.map_append, List.sum_append, List.map_map, List.map_map]
    clear hr hl
    induction rows with
    | nil => simp
    | cons r rs ih =>
      simp only [List.map_cons, List.sum_cons, Function.comp, List.length_cons, Nat.cast_add, Nat.cast_one] at ih ⊢
      linear_combination ih
  have h2 : (rows.map a ++ rows.map b).sum = (rows.map fun r => a r + b r).sum := by
    rw [List.sum_append]
    clear hr hl h1
    induction rows with
    | nil => simp
    | cons r rs ih => simp only [List.map_cons, List.sum_cons] at ih ⊢; linear_combination ih
  have e1 : rowMean rows (fun r => (a r ^ 2 + b r ^ 2) / 2) =
      1 / 2 * ((rows.map fun r => a r ^ 2 + b r ^ 2).sum / rows.length) := by
    rw [sum_map_eq_rowMean]
    have := rowMean_lin rows (fun r => a r ^ 2 + b r ^ 2) (fun _ => 0) (1 / 2) 0
    simp only [zero_mul, add_zero] at this
    rw [← this]
    congr 1; funext r; ring
  have e2 : rowMean rows (fun r => (a r + b r) / 2) = 1 / 2 * ((rows.map fun r => a r + b r).sum / rows.length) := by
    rw [sum_map_eq_rowMean]
    have := rowMean_lin rows (fun r => a r + b r) (fun _ => 0) (1 / 2) 0
    simp only [zero_mul, add_zero] at this
    rw [← this]
    congr 1; funext r; ring
  rw [h1, h2, e1, e2]
  simp only [List.length_append, List.length_map, Nat.cast_add]
  field_simp
  ring

theorem list_sum_range (g : Nat) (h : Nat → ℝ) : ((List.range g).map h).sum = ∑ k ∈ Finset.range g, h k := by
  induction g with
  | zero => simp
  | succ n ih => rw [List.range_succ, Finset.sum_range_succ, ← ih]; simp

theorem blockSize_ne (second : Bool) (g : Nat) : (blockSize second g : ℝ) ≠ 0 := by
  have : 0 < blockSize second g := by unfold blockSize; split <;> omega
  exact_mod_cast this.ne'

theorem sum_crossBlock (f : List ℝ → ℝ) (second : Bool) (g : Nat) (groupOf : Nat → Nat)
    (p : (Fin d → ℝ) × (Fin d → ℝ)) :
    ((Spec.crossBlock second g groupOf ((pairRow p).take d) ((pairRow p).drop d)).map f).sum =
      blockMean second g groupOf (fun x => f (List.ofFn x)) p * (blockSize second g : ℝ) := by
  unfold blockMean
  rw [div_mul_cancel₀ _ (blockSize_ne second g), pairRow_take, pairRow_drop]
  unfold Spec.crossBlock
  simp only [replaceIn_ofFn, Finset.sum_add_distrib]
  cases second
  · simp only [Bool.false_eq_true, if_false, List.append_nil, List.map_append, List.map_map, List.map_cons, List.map_nil,
      List.sum_append, list_sum_range, Finset.sum_const_zero, List.sum_cons, List.sum_nil, Function.comp]
    ring
  · simp only [if_true, List.map_append, List.map_map, List.map_cons, List.map_nil,
      List.sum_append, list_sum_range, List.sum_cons, List.sum_nil, Function.comp]
    ring

/-- The mean of all outputs of the design. -/
theorem npMean_design (f : List ℝ → ℝ) (second : Bool) (g : Nat) (groupOf : Nat → Nat)
    (rows : List ((Fin d → ℝ) × (Fin d → ℝ))) (hr : rows ≠ []) :
    npMean ((crossDesign second d g groupOf (rows.map pairRow)).map f) =
      some (rowMean rows (blockMean second g groupOf fun x => f (List.ofFn x))) := by
  have hl : (rows.length : ℝ) ≠ 0 := by simpa using hr
  have hlen : ((crossDesign second d g groupOf (rows.map pairRow)).map f).length =
      rows.length * blockSize second g := by rw [List.length_map, length_crossDesign, List.length_map]
  have hb := blockSize_ne second g
  have hne : (crossDesign second d g groupOf (rows.map pairRow)).map f ≠ [] := by
    intro h
    rw [h] at hlen
    have : ((rows.length * blockSize second g : ℕ) : ℝ) = 0 := by rw [← hlen]; simp
    rw [Nat.cast_mul] at this
    exact mul_ne_zero hl hb this
  rw [npMean_some _ hne, hlen]
  have hs : ((crossDesign second d g groupOf (rows.map pairRow)).map f).sum =
      (rows.map (blockMean second g groupOf fun x => f (List.ofFn x))).sum * (blockSize second g : ℝ) := by
    unfold crossDesign
    clear hl hlen hne hr
    induction rows with
    | nil => simp
    | cons r rs ih =>
      simp only [List.map_cons, List.flatten_cons, List.map_append, List.sum_append, List.sum_cons] at ih ⊢
      rw [ih, sum_crossBlock]
      ring
  rw [hs]
  unfold rowMean
  push_cast
  field_simp

theorem sampleVar_nil (G : (Fin d → ℝ) → ℝ) : sampleVar G [] = 0 := by simp [sampleVar, rowMean]

/-- The run of the analyser on the outputs of a design. -/
theorem sobolAnalyze_design (normPpf : ℝ → ℝ) (f : List ℝ → ℝ) (second : Bool) (g : Nat) (groupOf : Nat → Nat)
    (rows : List ((Fin d → ℝ) × (Fin d → ℝ))) (pb : Problem ℝ) (conf : ℝ) (r : List (List Nat)) (keep : Bool)
    (hg : (extractGroupNames pb).2 = g) (hconf : 0 < conf ∧ conf < 1) (hr : r ≠ [])
    (hv : sampleVar (fun x => f (List.ofFn x)) rows ≠ 0) :
    ∃ m σ, m = rowMean rows (blockMean second g groupOf fun x => f (List.ofFn x)) ∧ σ ≠ 0 ∧
      let φ := fun x : Fin d → ℝ => (f (List.ofFn x) - m) / σ
      ptpZero (rows.map (fun p => φ p.1) ++ rows.map (fun p => φ p.2)) = false ∧
      npVar (rows.map (fun p => φ p.1) ++ rows.map (fun p => φ p.2)) =
        some (sampleVar (fun x => f (List.ofFn x)) rows / σ ^ 2) ∧
      sobolAnalyze Real.sqrt normPpf pb ((crossDesign second d g groupOf (rows.map pairRow)).map f) second conf r
        keep .serial = .ok (serialIndices Real.sqrt (normPpf (1 / 2 + conf / 2))
          { A := rows.map fun p => φ p.1
            B := rows.map fun p => φ p.2
            AB := (List.range g).map fun k => rows.map fun p => φ (mix (inGroup groupOf k) p.1 p.2)
            BA := if second then (List.range g).map fun k => rows.map fun p => φ (mix (inGroup groupOf k) p.2 p.1)
              else [] } r g keep second) := by
  have hrows : rows ≠ [] := by
    rintro rfl
    exact hv (sampleVar_nil _)
  have hsize : ((crossDesign second d g groupOf (rows.map pairRow)).map f).length =
      rows.length * blockSize second g := by rw [List.length_map, length_crossDesign, List.length_map]
  have hcheck : sobolCheck pb ((crossDesign second d g groupOf (rows.map pairRow)).map f).length second conf =
      .ok (g, rows.length) := by
    unfold sobolCheck
    rw [hsize, hg]
    simp only [hconf, and_self, not_true_eq_false, if_false]
    unfold blockSize
    cases second
    · simp only [Bool.false_eq_true, if_false, false_and, not_false_eq_true, true_and]
      rw [if_pos (by simp), Nat.mul_div_cancel _ (by omega)]
    · simp only [if_true, true_and]
      rw [if_pos (by simp), Nat.mul_div_cancel _ (by omega)]
  have hsep0 := C12_reads_right_rows f second d g groupOf (rows.map pairRow)
  have hvar : npVar (rows.map (fun p => f (List.ofFn p.1)) ++ rows.map fun p => f (List.ofFn p.2)) =
      some (sampleVar (fun x => f (List.ofFn x)) rows) := npVar_pair rows hrows _ _
  have hnc : ¬ ∃ c, ∀ y ∈ rows.map (fun p => f (List.ofFn p.1)) ++ rows.map fun p => f (List.ofFn p.2), y = c := by
    rintro ⟨c, hc⟩
    rw [npVar_const _ (by simp [hrows]) c hc] at hvar
    exact hv (Option.some.inj hvar).symm
  have hmemA : ∀ p ∈ rows, f (List.ofFn p.1) ∈ (crossDesign second d g groupOf (rows.map pairRow)).map f := by
    intro p hp
    refine List.mem_map_of_mem ?_
    unfold crossDesign
    rw [List.mem_flatten]
    refine ⟨_, List.mem_map_of_mem (List.mem_map_of_mem hp), ?_⟩
    rw [pairRow_take]
    simp [Spec.crossBlock]
  have hmemB : ∀ p ∈ rows, f (List.ofFn p.2) ∈ (crossDesign second d g groupOf (rows.map pairRow)).map f := by
    intro p hp
    refine List.mem_map_of_mem ?_
    unfold crossDesign
    rw [List.mem_flatten]
    refine ⟨_, List.mem_map_of_mem (List.mem_map_of_mem hp), ?_⟩
    rw [pairRow_drop]
    simp [Spec.crossBlock]
  have hY : (crossDesign second d g groupOf (rows.map pairRow)).map f ≠ [] := by
    obtain ⟨p, hp⟩ := List.exists_mem_of_ne_nil rows hrows
    exact List.ne_nil_of_mem (hmemA p hp)
  have hpY : ptpZero ((crossDesign second d g groupOf (rows.map pairRow)).map f) = false := by
    rw [← Bool.not_eq_true]
    intro h
    obtain ⟨c, hc⟩ := (ptpZero_iff _ hY).mp h
    refine hnc ⟨c, fun y hy => ?_⟩
    rw [List.mem_append, List.mem_map, List.mem_map] at hy
    rcases hy with ⟨p, hp, rfl⟩ | ⟨p, hp, rfl⟩
    · exact hc _ (hmemA p hp)
    · exact hc _ (hmemB p hp)
  obtain ⟨w, hw, hwpos⟩ := npVar_pos _ hY hpY
  have hσ : Real.sqrt w ≠ 0 := (Real.sqrt_pos.mpr hwpos).ne'
  set m := rowMean rows (blockMean second g groupOf fun x => f (List.ofFn x)) with hm
  have hnorm : normalise Real.sqrt ((crossDesign second d g groupOf (rows.map pairRow)).map f) =
      some (((crossDesign second d g groupOf (rows.map pairRow)).map f).map fun y => (y - m) / Real.sqrt w) := by
    unfold normalise
    rw [npMean_design f second g groupOf rows hrows, hw]
    simp only [Option.bind_eq_bind, Option.bind_some]
    rw [if_neg hσ]
  refine ⟨m, Real.sqrt w, rfl, hσ, ?_⟩
  have haff : rows.map (fun p => (f (List.ofFn p.1) - m) / Real.sqrt w) ++
        rows.map (fun p => (f (List.ofFn p.2) - m) / Real.sqrt w) =
      (rows.map (fun p => f (List.ofFn p.1)) ++ rows.map fun p => f (List.ofFn p.2)).map
        fun y => (Real.sqrt w)⁻¹ * y + -m / Real.sqrt w := by
    rw [List.map_append, List.map_map, List.map_map]
    congr 1 <;>
    · apply List.map_congr_left
      intro p _
      simp only [Function.comp]
      field_simp
      ring
  refine ⟨?_, ?_, ?_⟩
  · rw [← Bool.not_eq_true]
    intro h
    obtain ⟨c, hc⟩ := (ptpZero_iff _ (by simp [hrows])).mp h
    refine hnc ⟨c * Real.sqrt w + m, fun y hy => ?_⟩
    have : (y - m) / Real.sqrt w = c := by
      rw [List.mem_append, List.mem_map, List.mem_map] at hy
      rcases hy with ⟨p, hp, rfl⟩ | ⟨p, hp, rfl⟩
      · exact hc _ (List.mem_append_left _ (List.mem_map_of_mem (f := fun p => (f (List.ofFn p.1) - m) / Real.sqrt w) hp))
      · exact hc _ (List.mem_append_right _ (List.mem_map_of_mem (f := fun p => (f (List.ofFn p.2) - m) / Real.sqrt w) hp))
    rw [← this]
    field_simp
    ring
  · rw [haff, npVar_affine, hvar]
    simp only [Option.map_some, Option.some.injEq]
    rw [inv_pow]
    field_simp
  · have hsep := C12_reads_right_rows (fun x => (f x - m) / Real.sqrt w) second d g groupOf (rows.map pairRow)
    rw [show (crossDesign second d g groupOf (rows.map pairRow)).map (fun x => (f x - m) / Real.sqrt w) =
      ((crossDesign second d g groupOf (rows.map pairRow)).map f).map fun y => (y - m) / Real.sqrt w by
        rw [List.map_map]; rfl] at hsep
    simp only [List.length_map, List.map_map, Function.comp_def, pairRow_take, pairRow_drop, replaceIn_ofFn] at hsep
    have hr' : r.length ≠ 0 := by simpa using hr
    have hb' : rows.length ≠ 0 := by simpa using hrows
    unfold sobolAnalyze
    rw [hcheck]
    simp only [pyBind_ok, hr', hb', or_self, if_false, hnorm]
    simp only [List.map_map, Function.comp_def, hsep, pyBind_ok, pyPure]

end SALib
