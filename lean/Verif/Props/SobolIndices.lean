import Verif.Lemmas.Stats
import Verif.Props.SobolRead
import Mathlib.Analysis.Real.Sqrt

/-!
# C13, C15, C16: what the Sobol indices are for special models
-/

set_option linter.unusedSectionVars false

namespace SALib
open Spec

variable {α : Type} [Field α] [LinearOrder α] [IsStrictOrderedRing α]

theorem firstOrder_map {β : Type} (base : List β) (a ab b : β → α) (hb : base ≠ [])
    (hp : ptpZero (base.map a ++ base.map b) = false) :
    ∃ v, npVar (base.map a ++ base.map b) = some v ∧ 0 < v ∧
      firstOrder (base.map a) (base.map ab) (base.map b) =
        some ((base.map fun r => b r * (ab r - a r)).sum / base.length / v) := by
  obtain ⟨v, hv, hpos⟩ := npVar_pos (base.map a ++ base.map b) (by simp [hb]) hp
  refine ⟨v, hv, hpos, ?_⟩
  unfold firstOrder
  simp only [hp, Bool.false_eq_true, if_false, hv]
  rw [List.zipWith_map, List.zipWith_self, List.zipWith_map, List.zipWith_self,
    npMean_some _ (by simpa using hb)]
  simp only [Option.bind_eq_bind, Option.bind_some, List.length_map]
  exact npDiv_some _ _ hpos.ne'

theorem totalOrder_map {β : Type} (base : List β) (a ab b : β → α) (hb : base ≠ [])
    (hp : ptpZero (base.map a ++ base.map b) = false) :
    ∃ v, npVar (base.map a ++ base.map b) = some v ∧ 0 < v ∧
      totalOrder (base.map a) (base.map ab) (base.map b) =
        some (1 / 2 * ((base.map fun r => (a r - ab r) ^ 2).sum / base.length) / v) := by
  obtain ⟨v, hv, hpos⟩ := npVar_pos (base.map a ++ base.map b) (by simp [hb]) hp
  refine ⟨v, hv, hpos, ?_⟩
  unfold totalOrder
  simp only [hp, Bool.false_eq_true, if_false, hv]
  rw [List.zipWith_map, List.zipWith_self, List.map_map, npMean_some _ (by simpa using hb)]
  simp only [Option.bind_eq_bind, Option.bind_some, List.length_map, Function.comp_def]
  exact npDiv_some _ _ hpos.ne'

theorem secondOrder_map {β : Type} (base : List β) (a abj abk baj b : β → α) (hb : base ≠ [])
    (hp : ptpZero (base.map a ++ base.map b) = false) :
    ∃ v, npVar (base.map a ++ base.map b) = some v ∧ 0 < v ∧
      secondOrder (base.map a) (base.map abj) (base.map abk) (base.map baj) (base.map b) =
        some ((base.map fun r => baj r * abk r - a r * b r).sum / base.length / v -
          (base.map fun r => b r * (abj r - a r)).sum / base.length / v -
          (base.map fun r => b r * (abk r - a r)).sum / base.length / v) := by
  obtain ⟨v, hv, hpos, h1⟩ := firstOrder_map base a abj b hb hp
  obtain ⟨v', hv', -, h2⟩ := firstOrder_map base a abk b hb hp
  rw [hv] at hv'
  cases hv'
  refine ⟨v, hv, hpos, ?_⟩
  unfold secondOrder
  simp only [hp, Bool.false_eq_true, if_false, hv, h1, h2]
  rw [List.zipWith_map, List.zipWith_self, List.zipWith_map, List.zipWith_self, List.zipWith_map,
    List.zipWith_self, npMean_some _ (by simpa using hb)]
  simp only [Option.bind_eq_bind, Option.bind_some, List.length_map]
  rw [npDiv_some _ _ hpos.ne']
  rfl

theorem normalise_some (sqrt : α → α) (Y Y' : List α) (h : normalise sqrt Y = some Y') :
    ∃ m s, s ≠ 0 ∧ Y' = Y.map fun y => (y - m) / s := by
  unfold normalise at h
  cases hm : npMean Y with
  | none => simp [hm] at h
  | some m =>
    cases hv : npVar Y with
    | none => simp [hm, hv] at h
    | some v =>
      simp only [hm, hv, Option.bind_eq_bind, Option.bind_some] at h
      split at h
      · cases h
      · rename_i hs
        cases h
        exact ⟨m, sqrt v, hs, rfl⟩

theorem normalise_nonconstant (sqrt : α → α) (hs : ∀ v, 0 < v → sqrt v ≠ 0) (Y : List α)
    (y y' : α) (hy : y ∈ Y) (hy' : y' ∈ Y) (hne : y ≠ y') : ∃ Y', normalise sqrt Y = some Y' := by
  have hY : Y ≠ [] := List.ne_nil_of_mem hy
  have hp : ptpZero Y = false := by
    rw [← Bool.not_eq_true]
    intro h
    obtain ⟨c, hc⟩ := (ptpZero_iff Y hY).mp h
    exact hne ((hc y hy).trans (hc y' hy').symm)
  obtain ⟨v, hv, hpos⟩ := npVar_pos Y hY hp
  unfold normalise
  rw [npMean_some Y hY, hv]
  simp only [Option.bind_eq_bind, Option.bind_some]
  rw [if_neg (hs v hpos)]
  exact ⟨_, rfl⟩

/-- The model `f` does not depend on the coordinates of group `k`. -/
def Spec.Ignores {β γ : Type} (f : List β → γ) (D : Nat) (groupOf : Nat → Nat) (k : Nat) : Prop :=
  ∀ x y : List β, x.length = D → y.length = D → (∀ j, groupOf j ≠ k → x[j]? = y[j]?) → f x = f y

theorem ignores_replace {β γ : Type} (f : List β → γ) (D : Nat) (groupOf : Nat → Nat) (k : Nat)
    (hf : Ignores f D groupOf k) (A B : List β) (hA : A.length = D) (hB : B.length = D) :
    f (replaceIn (fun j => groupOf j == k) A B) = f A := by
  apply hf _ _ (by rw [length_replaceIn _ _ _ (by omega)]; exact hA) hA
  intro j hj
  unfold replaceIn
  by_cases hlt : j < D
  · rw [List.getElem?_eq_getElem (by simp; omega), List.getElem?_eq_getElem (by omega)]
    simp [hj]
  · rw [List.getElem?_eq_none (by simp; omega), List.getElem?_eq_none (by omega)]

/-- **C13** (part).  Sample by the cross-sampling design, evaluate a model that ignores group `k`,
analyse: if the outputs are not all equal, S1 and ST of `k` are exactly 0, and so is every S2 whose
*first* factor is `k`.  Missing: S2 with `k` as the *second* factor, which is not 0 in general - see
`C13_second_position_fails`. -/
theorem C13_ignored_factor_partial {β : Type} (sqrt normPpf : α → α) (hsqrt : ∀ v, 0 < v → sqrt v ≠ 0)
    (f : List β → α) (second : Bool) (D g k : Nat) (groupOf : Nat → Nat) (base : List (List β))
    (pb : Problem α) (conf : α) (r : List (List Nat)) (keep : Bool)
    (hg : (extractGroupNames pb).2 = g) (hk : k < g) (hconf : 0 < conf ∧ conf < 1) (hr : r ≠ [])
    (hcols : ∀ row ∈ base, row.length = 2 * D)
    (hf : Ignores f D groupOf k)
    (hvar : ∃ y ∈ (crossDesign second D g groupOf base).map f,
      ∃ y' ∈ (crossDesign second D g groupOf base).map f, y ≠ y') :
    ∃ res, sobolAnalyze sqrt normPpf pb ((crossDesign second D g groupOf base).map f) second conf r keep
        .serial = .ok res ∧
      res.S1[k]? = some (some 0) ∧ res.ST[k]? = some (some 0) ∧
      (second = true → ∀ m, k < m → m < g →
        ∃ S2, res.S2 = some S2 ∧ entry S2 k m = some (some 0)) := by
  obtain ⟨y, hy, y', hy', hne⟩ := hvar
  have hbase : base ≠ [] := by
    rintro rfl
    simp [crossDesign] at hy
  have hsize : ((crossDesign second D g groupOf base).map f).length =
      base.length * blockSize second g := by rw [List.length_map, length_crossDesign]
  have hcheck : sobolCheck pb ((crossDesign second D g groupOf base).map f).length second conf =
      .ok (g, base.length) := by
    unfold sobolCheck
    rw [hsize, hg]
    simp only [hconf, and_self, not_true_eq_false, if_false]
    unfold blockSize
    cases second
    · simp only [Bool.false_eq_true, if_false, false_and, not_false_eq_true, true_and]
      rw [if_pos (by simp), Nat.mul_div_cancel _ (by omega)]
    · simp only [if_true, true_and]
      rw [if_pos (by simp), Nat.mul_div_cancel _ (by omega)]
  obtain ⟨Y', hnorm⟩ := normalise_nonconstant sqrt hsqrt _ y y' hy hy' hne
  obtain ⟨m, s, hs, rfl⟩ := normalise_some sqrt _ _ hnorm
  set φ : List β → α := fun x => (f x - m) / s with hφ
  have hφi : Ignores φ D groupOf k := by
    intro x x' h1 h2 h3
    simp only [hφ, hf x x' h1 h2 h3]
  have hsep := C12_reads_right_rows φ second D g groupOf base
  rw [show (crossDesign second D g groupOf base).map φ =
    ((crossDesign second D g groupOf base).map f).map fun y => (y - m) / s by
      rw [List.map_map]; rfl] at hsep
  have hr' : r.length ≠ 0 := by simpa using hr
  have hb' : base.length ≠ 0 := by simpa using hbase
  have hrun : ∀ sep, separateOutputValues (((crossDesign second D g groupOf base).map f).map
      fun y => (y - m) / s) g base.length second = .ok sep →
      sobolAnalyze sqrt normPpf pb ((crossDesign second D g groupOf base).map f) second conf r
      keep .serial = .ok (serialIndices sqrt (normPpf (1 / 2 + conf / 2)) sep r g keep second) := by
    intro sep hsep
    unfold sobolAnalyze
    rw [hcheck]
    simp only [pyBind_ok, hr', hb', or_self, if_false, hnorm, hsep, pyPure]
  have hAB : base.map (fun row =>
        φ (replaceIn (fun j => groupOf j == k) (row.take D) (row.drop D))) =
      base.map fun row => φ (row.take D) := by
    apply List.map_congr_left
    intro row hrow
    have := hcols row hrow
    exact ignores_replace φ D groupOf k hφi _ _ (by simp; omega) (by simp; omega)
  have hBA : base.map (fun row =>
        φ (replaceIn (fun j => groupOf j == k) (row.drop D) (row.take D))) =
      base.map fun row => φ (row.drop D) := by
    apply List.map_congr_left
    intro row hrow
    have := hcols row hrow
    exact ignores_replace φ D groupOf k hφi _ _ (by simp; omega) (by simp; omega)
  refine ⟨_, hrun _ hsep, ?_, ?_, ?_⟩
  · simp only [serialIndices, List.getElem?_map, List.getElem?_range hk, Option.map_some]
    rw [List.getD_eq_getElem?_getD, List.getElem?_map, List.getElem?_range hk]
    simp only [Option.map_some, Option.getD_some, hAB]
    cases hp : ptpZero (base.map (fun row => φ (row.take D)) ++ base.map fun row => φ (row.drop D))
    · obtain ⟨v, -, -, h⟩ := firstOrder_map base (fun row => φ (row.take D))
        (fun row => φ (row.take D)) (fun row => φ (row.drop D)) hbase hp
      rw [h]
      simp
    · unfold firstOrder; simp [hp]
  · simp only [serialIndices, List.getElem?_map, List.getElem?_range hk, Option.map_some]
    rw [List.getD_eq_getElem?_getD, List.getElem?_map, List.getElem?_range hk]
    simp only [Option.map_some, Option.getD_some, hAB]
    cases hp : ptpZero (base.map (fun row => φ (row.take D)) ++ base.map fun row => φ (row.drop D))
    · obtain ⟨v, -, -, h⟩ := totalOrder_map base (fun row => φ (row.take D))
        (fun row => φ (row.take D)) (fun row => φ (row.drop D)) hbase hp
      rw [h]
      simp
    · unfold totalOrder; simp [hp]
  · rintro rfl n hkn hn
    simp only [serialIndices, if_true]
    refine ⟨_, rfl, ?_⟩
    simp only [entry, List.getElem?_map, List.getElem?_range hk, List.getElem?_range hn,
      Option.map_some, Option.bind_some, if_pos hkn]
    simp only [List.getD_eq_getElem?_getD, List.getElem?_map, List.getElem?_range hk,
      List.getElem?_range hn, Option.map_some, Option.getD_some, hAB, hBA]
    cases hp : ptpZero (base.map (fun row => φ (row.take D)) ++ base.map fun row => φ (row.drop D))
    · obtain ⟨v, -, -, h⟩ := secondOrder_map base (fun row => φ (row.take D))
        (fun row => φ (row.take D))
        (fun row => φ (replaceIn (fun j => groupOf j == n) (row.take D) (row.drop D)))
        (fun row => φ (row.drop D)) (fun row => φ (row.drop D)) hbase hp
      rw [h]
      have e : (base.map fun row => φ (row.drop D) *
            φ (replaceIn (fun j => groupOf j == n) (row.take D) (row.drop D)) -
            φ (row.take D) * φ (row.drop D)) =
          base.map fun row => φ (row.drop D) *
            (φ (replaceIn (fun j => groupOf j == n) (row.take D) (row.drop D)) - φ (row.take D)) := by
        apply List.map_congr_left
        intro row _
        ring
      rw [e]
      simp
    · unfold secondOrder; simp [hp]

/-- **C13**, negation of the missing part: two parameters, the model is the first one; the base points
A = (0, ·), B = (1, ·) and A = (3, ·), B = (0, ·).  The model ignores the second parameter, yet the
reported S2 of the pair is not 0 (here computed by the estimator on the four output columns). -/
theorem C13_second_position_fails :
    let f : List ℚ → ℚ := fun x => x.headD 0
    let base : List (List ℚ) := [[0, 0, 1, 0], [3, 0, 0, 0]]
    Ignores f 2 id 1 ∧
    ∃ s v, separateOutputValues ((crossDesign true 2 2 id base).map f) 2 2 true = .ok s ∧
      secondOrder s.A (s.AB.getD 0 []) (s.AB.getD 1 []) (s.BA.getD 0 []) s.B = some v ∧ v ≠ 0 := by
  intro f base
  refine ⟨?_, { A := [0, 3], B := [1, 0], AB := [[1, 0], [0, 3]], BA := [[0, 3], [1, 0]] }, 8 / 3, ?_, ?_,
    by norm_num⟩
  · intro x y hx hy h
    have := h 0 (by simp)
    simp only [f, List.headD_eq_head?_getD, List.head?_eq_getElem?, this]
  · decide +kernel
  · decide +kernel

/-- The hypotheses of `C13_ignored_factor_partial` are met (over the rationals, with the identity in the
place of the square root): the model is the second parameter, factor 0 is ignored. -/
example :
    let f : List ℚ → ℚ := fun x => x.getD 1 0
    let base : List (List ℚ) := [[0, 0, 1, 5], [3, 2, 0, 1]]
    Ignores f 2 id 0 ∧
    ∃ y ∈ (crossDesign true 2 2 id base).map f, ∃ y' ∈ (crossDesign true 2 2 id base).map f, y ≠ y' := by
  intro f base
  refine ⟨?_, 0, by decide +kernel, 5, by decide +kernel, by norm_num⟩
  intro x y hx hy h
  have := h 1 (by simp)
  simp only [f, List.getD_eq_getElem?_getD, this]

/-! ## C15 -/

section neg

theorem firstOrder_neg (A AB B : List α) :
    firstOrder (A.map (-·)) (AB.map (-·)) (B.map (-·)) = firstOrder A AB B := by
  have e : A.map (-·) ++ B.map (-·) = (A ++ B).map (-·) := by simp
  have hv : npVar ((A ++ B).map (-·)) = npVar (A ++ B) := by
    have := npVar_affine (A ++ B) (-1) 0
    simp only [neg_mul, one_mul, add_zero] at this
    rw [this]; simp
  have hz : List.zipWith (fun b d => b * d) (B.map (-·))
        (List.zipWith (fun ab a => ab - a) (AB.map (-·)) (A.map (-·))) =
      List.zipWith (fun b d => b * d) B (List.zipWith (fun ab a => ab - a) AB A) := by
    have : List.zipWith (fun ab a => ab - a) (AB.map (-·)) (A.map (-·)) =
        (List.zipWith (fun ab a => ab - a) AB A).map (-·) := by
      rw [List.zipWith_map, List.map_zipWith]
      congr 1; funext a b; ring
    rw [this, List.zipWith_map]
    congr 1; funext a b; ring
  unfold firstOrder
  simp only [e, hv, hz, ptpZero_map_inj _ neg_injective]

theorem totalOrder_neg (A AB B : List α) :
    totalOrder (A.map (-·)) (AB.map (-·)) (B.map (-·)) = totalOrder A AB B := by
  have e : A.map (-·) ++ B.map (-·) = (A ++ B).map (-·) := by simp
  have hv : npVar ((A ++ B).map (-·)) = npVar (A ++ B) := by
    have := npVar_affine (A ++ B) (-1) 0
    simp only [neg_mul, one_mul, add_zero] at this
    rw [this]; simp
  have hz : (List.zipWith (fun a ab => a - ab) (A.map (-·)) (AB.map (-·))).map (· ^ 2) =
      (List.zipWith (fun a ab => a - ab) A AB).map (· ^ 2) := by
    rw [List.zipWith_map, List.map_zipWith, List.map_zipWith]
    congr 1; funext a b; ring
  unfold totalOrder
  simp only [e, hv, hz, ptpZero_map_inj _ neg_injective]

theorem zipWith_mul_neg (X Y : List α) :
    List.zipWith (· * ·) (X.map (-·)) (Y.map (-·)) = List.zipWith (· * ·) X Y := by
  rw [List.zipWith_map]
  congr 1; funext a b; ring

theorem secondOrder_neg (A ABj ABk BAj B : List α) :
    secondOrder (A.map (-·)) (ABj.map (-·)) (ABk.map (-·)) (BAj.map (-·)) (B.map (-·)) =
      secondOrder A ABj ABk BAj B := by
  have e : A.map (-·) ++ B.map (-·) = (A ++ B).map (-·) := by simp
  have hv : npVar ((A ++ B).map (-·)) = npVar (A ++ B) := by
    have := npVar_affine (A ++ B) (-1) 0
    simp only [neg_mul, one_mul, add_zero] at this
    rw [this]; simp
  unfold secondOrder
  simp only [firstOrder_neg, zipWith_mul_neg]
  simp only [e, hv, ptpZero_map_inj _ neg_injective]

theorem ptpZero2_neg (A B : List (List α)) :
    ptpZero2 (A.map (·.map (-·))) (B.map (·.map (-·))) = ptpZero2 A B := by
  unfold ptpZero2
  rw [← List.map_flatten, ← List.map_flatten, ← List.map_append, ptpZero_map_inj _ neg_injective]

theorem npVar_neg (l : List α) : npVar (l.map (-·)) = npVar l := by
  have := npVar_affine l (-1) 0
  simp only [neg_mul, one_mul, add_zero] at this
  rw [this]; simp

theorem firstOrderR_neg (A AB B : List (List α)) :
    firstOrderR (A.map (·.map (-·))) (AB.map (·.map (-·))) (B.map (·.map (-·))) =
      firstOrderR A AB B := by
  unfold firstOrderR
  rw [ptpZero2_neg, List.zip_map, List.zipWith_map]
  congr 2
  congr 1
  funext a p
  have hz : List.zipWith (fun b d => b * d) (p.2.map (-·))
        (List.zipWith (fun ab a => ab - a) (p.1.map (-·)) (a.map (-·))) =
      List.zipWith (fun b d => b * d) p.2 (List.zipWith (fun ab a => ab - a) p.1 a) := by
    have : List.zipWith (fun ab a => ab - a) (p.1.map (-·)) (a.map (-·)) =
        (List.zipWith (fun ab a => ab - a) p.1 a).map (-·) := by
      rw [List.zipWith_map, List.map_zipWith]
      congr 1; funext a b; ring
    rw [this, List.zipWith_map]
    congr 1; funext a b; ring
  simp only [Prod.map_fst, Prod.map_snd, hz, ← List.map_append, npVar_neg]

theorem totalOrderR_neg (A AB B : List (List α)) :
    totalOrderR (A.map (·.map (-·))) (AB.map (·.map (-·))) (B.map (·.map (-·))) =
      totalOrderR A AB B := by
  unfold totalOrderR
  rw [ptpZero2_neg, List.zip_map, List.zipWith_map]
  congr 2
  congr 1
  funext a p
  have hz : (List.zipWith (fun a ab => a - ab) (a.map (-·)) (p.1.map (-·))).map (· ^ 2) =
      (List.zipWith (fun a ab => a - ab) a p.1).map (· ^ 2) := by
    rw [List.zipWith_map, List.map_zipWith, List.map_zipWith]
    congr 1; funext a b; ring
  simp only [Prod.map_fst, Prod.map_snd, hz, ← List.map_append, npVar_neg]

theorem secondOrderR_neg (A ABj ABk BAj B : List (List α)) :
    secondOrderR (A.map (·.map (-·))) (ABj.map (·.map (-·))) (ABk.map (·.map (-·)))
      (BAj.map (·.map (-·))) (B.map (·.map (-·))) = secondOrderR A ABj ABk BAj B := by
  unfold secondOrderR
  rw [ptpZero2_neg, firstOrderR_neg, firstOrderR_neg, List.zip_map, List.zip_map, List.zipWith_map]
  simp only [Prod.map_fst, Prod.map_snd, zipWith_mul_neg, ← List.map_append, npVar_neg]

theorem resample_map {β : Type} (f : α → β) (X : List α) (r : List (List Nat)) :
    (r.map fun col => col.filterMap ((X.map f)[·]?)) = (resample X r).map (·.map f) := by
  unfold resample
  rw [List.map_map]
  apply List.map_congr_left
  intro col _
  simp only [Function.comp, List.map_filterMap]
  apply List.filterMap_congr
  intro i _
  rw [List.getElem?_map]

/-- All outputs replaced by their negatives. -/
def Separated.neg (s : Separated α) : Separated α :=
  { A := s.A.map (-·), B := s.B.map (-·), AB := s.AB.map (·.map (-·)), BA := s.BA.map (·.map (-·)) }

theorem getD_map_nil {β γ : Type} (f : List β → List γ) (hf : f [] = []) (l : List (List β)) (j : Nat) :
    (l.map f).getD j [] = f (l.getD j []) := by
  rw [List.getD_eq_getElem?_getD, List.getElem?_map, List.getD_eq_getElem?_getD]
  cases l[j]? <;> simp [hf]

theorem serialIndices_neg (sqrt : α → α) (Z : α) (s : Separated α) (r : List (List Nat)) (D : Nat)
    (keep second : Bool) :
    serialIndices sqrt Z s.neg r D keep second = serialIndices sqrt Z s r D keep second := by
  have hr : ∀ X : List α, resample (X.map (-·)) r = (resample X r).map (·.map (-·)) :=
    fun X => resample_map _ X r
  unfold serialIndices Separated.neg
  simp only [getD_map_nil (fun l : List α => l.map (-·)) rfl, hr, firstOrder_neg, totalOrder_neg,
    secondOrder_neg, firstOrderR_neg, totalOrderR_neg, secondOrderR_neg, ptpZero2_neg]

theorem taskValue_neg (sqrt : α → α) (Z : α) (s : Separated α) (r : List (List Nat)) (t : Task) :
    taskValue sqrt Z s.neg r t = taskValue sqrt Z s r t := by
  have hr : ∀ X : List α, resample (X.map (-·)) r = (resample X r).map (·.map (-·)) :=
    fun X => resample_map _ X r
  unfold taskValue Separated.neg
  simp only [getD_map_nil (fun l : List α => l.map (-·)) rfl, hr, firstOrder_neg, totalOrder_neg,
    secondOrder_neg, firstOrderR_neg, totalOrderR_neg, secondOrderR_neg]

theorem separate_map {β γ : Type} (f : β → γ) (Y : List β) (D N : Nat) (second : Bool) :
    separateOutputValues (Y.map f) D N second =
      (separateOutputValues Y D N second).map fun s =>
        { A := s.A.map f, B := s.B.map f, AB := s.AB.map (·.map f), BA := s.BA.map (·.map f) } := by
  have hcol : ∀ (g : Nat → Nat) (step : Nat) (L : List Nat),
      L.mapM (fun j => assignColumn N ((strided Y (g j) step).map f)) =
        (L.mapM fun j => assignColumn N (strided Y (g j) step)).map (·.map (·.map f)) := by
    intro g step L
    induction L with
    | nil => rfl
    | cons j L ih =>
      rw [List.mapM_cons, List.mapM_cons, ih]
      unfold assignColumn
      rw [List.length_map]
      by_cases h : (strided Y (g j) step).length = N
      · simp only [h, if_true, pyBind_ok]
        cases L.mapM (fun j => if (strided Y (g j) step).length = N then
            .ok (strided Y (g j) step) else (.error .valueError : Py (List β))) <;> rfl
      · simp only [h, if_false]; rfl
  unfold separateOutputValues
  simp only [strided_map, hcol (fun j => j + 1), hcol (fun j => j + 1 + D)]
  generalize (if second then 2 * D + 2 else D + 2 : Nat) = step
  cases (List.range D).mapM fun j => assignColumn N (strided Y (j + 1) step) with
  | error e => rfl
  | ok AB =>
    cases second
    · rfl
    · simp only [if_true]
      cases (List.range D).mapM fun j => assignColumn N (strided Y (j + 1 + D) step) with
      | error e => rfl
      | ok BA => rfl

end neg

theorem normalise_affine (a b : ℝ) (ha : a ≠ 0) (Y : List ℝ) :
    normalise Real.sqrt (Y.map fun y => a * y + b) =
      (normalise Real.sqrt Y).map fun Y' => if 0 < a then Y' else Y'.map (-·) := by
  by_cases hY : Y = []
  · subst hY; simp [normalise, npMean_nil]
  · unfold normalise
    rw [npMean_affine Y a b hY, npVar_affine, npMean_some Y hY, npVar_some Y hY]
    simp only [Option.bind_eq_bind, Option.bind_some, Option.map_some]
    set v := (Y.map fun x => (x - Y.sum / (Y.length : ℝ)) ^ 2).sum / (Y.length : ℝ) with hv
    have hsq : Real.sqrt (a ^ 2 * v) = |a| * Real.sqrt v := by
      rw [Real.sqrt_mul (sq_nonneg a), Real.sqrt_sq_eq_abs]
    rw [hsq]
    by_cases h0 : Real.sqrt v = 0
    · simp [h0]
    · have : |a| * Real.sqrt v ≠ 0 := mul_ne_zero (abs_ne_zero.mpr ha) h0
      simp only [this, h0, if_false, Option.map_some, List.map_map, Option.some.injEq]
      by_cases hpos : 0 < a
      · simp only [hpos, if_true]
        apply List.map_congr_left
        intro y _
        simp only [Function.comp, abs_of_pos hpos]
        field_simp
        ring
      · have hneg : a < 0 := lt_of_le_of_ne (not_lt.mp hpos) ha
        simp only [hpos, if_false, List.map_map]
        apply List.map_congr_left
        intro y _
        simp only [Function.comp, abs_of_neg hneg]
        field_simp
        ring

/-- **C15.** Replacing every output `y` by `a*y+b` with `a ≠ 0` changes nothing in the whole result of
the analysis: indices, confidence values, resamples, and rejections, in serial and in parallel mode. -/
theorem C15_affine_invariance (normPpf : ℝ → ℝ) (pb : Problem ℝ) (Y : List ℝ) (second : Bool) (conf : ℝ)
    (r : List (List Nat)) (keep : Bool) (mode : Mode) (a b : ℝ) (ha : a ≠ 0) :
    sobolAnalyze Real.sqrt normPpf pb (Y.map fun y => a * y + b) second conf r keep mode =
      sobolAnalyze Real.sqrt normPpf pb Y second conf r keep mode := by
  unfold sobolAnalyze
  rw [List.length_map, normalise_affine a b ha]
  cases hc : sobolCheck pb Y.length second conf with
  | error e => rfl
  | ok DN =>
    obtain ⟨D, N⟩ := DN
    simp only [pyBind_ok]
    by_cases h0 : N = 0 ∨ r.length = 0
    · simp only [h0, if_true]; rfl
    · simp only [h0, if_false]
      cases hn : normalise Real.sqrt Y with
      | none => rfl
      | some Y' =>
        simp only [Option.map_some]
        by_cases hpos : 0 < a
        · simp only [hpos, if_true]
        · simp only [hpos, if_false]
          rw [separate_map]
          cases hs : separateOutputValues Y' D N second with
          | error e => rfl
          | ok s =>
            simp only [Except.map, pyBind_ok]
            have e : (⟨s.A.map (-·), s.B.map (-·), s.AB.map (·.map (-·)), s.BA.map (·.map (-·))⟩ :
                Separated ℝ) = s.neg := rfl
            rw [e]
            cases mode with
            | serial => simp only [serialIndices_neg]
            | parallel np cpu =>
              have : ∀ ts, sobolParallel Real.sqrt (normPpf (1 / 2 + conf / 2)) s.neg r ts =
                  sobolParallel Real.sqrt (normPpf (1 / 2 + conf / 2)) s r ts := by
                intro ts; unfold sobolParallel; simp only [taskValue_neg]
              simp only [funext this]

/-- The equality is about accepted analyses too: a problem with one parameter and four outputs. -/
example : ∃ res, sobolAnalyze Real.sqrt id ({ names := ["x"], bounds := [[0, 1]] } : Problem ℝ)
    [0, 1, 2, 3] true (1 / 2) [[0]] false .serial = .ok res := by
  have h1 : sobolCheck ({ names := ["x"], bounds := [[0, 1]] } : Problem ℝ) [(0 : ℝ), 1, 2, 3].length true
      (1 / 2) = .ok (1, 1) := by
    simp [sobolCheck, extractGroupNames, pdUnique]
    norm_num
  obtain ⟨Y', hY'⟩ := normalise_nonconstant Real.sqrt (fun v hv => (Real.sqrt_pos.mpr hv).ne')
    [0, 1, 2, 3] 0 1 (by simp) (by simp) (by norm_num)
  obtain ⟨m, s, -, rfl⟩ := normalise_some _ _ _ hY'
  unfold sobolAnalyze
  rw [h1]
  simp only [pyBind_ok, hY']
  rw [if_neg (by simp)]
  simp [separateOutputValues, strided, assignColumn]

/-! ## C16 -/

/-- **C16**, negation.  When all outputs are equal, every reported index is nan (not 0): the
normalisation `(Y - mean) / std` divides 0 by 0 before the constant-output branch is reached. -/
theorem C16_constant_gives_nan (sqrt normPpf : α → α) (hsqrt : sqrt 0 = 0) (pb : Problem α) (c : α)
    (n : Nat) (second : Bool) (conf : α) (r : List (List Nat)) (keep : Bool) (res : SobolResult α)
    (hn : 0 < n)
    (hrun : sobolAnalyze sqrt normPpf pb (List.replicate n c) second conf r keep .serial = .ok res) :
    (∀ v ∈ res.S1, v = none) ∧ (∀ v ∈ res.ST, v = none) ∧ (∀ v ∈ res.S1conf, v = none) ∧
      ∀ v ∈ res.STconf, v = none := by
  unfold sobolAnalyze at hrun
  cases hc : sobolCheck pb (List.replicate n c).length second conf with
  | error e => rw [hc] at hrun; cases hrun
  | ok DN =>
    obtain ⟨D, N⟩ := DN
    rw [hc] at hrun
    simp only [pyBind_ok] at hrun
    by_cases h0 : N = 0 ∨ r.length = 0
    · rw [if_pos h0] at hrun; cases hrun
    · rw [if_neg h0] at hrun
      have hne : List.replicate n c ≠ [] := by
        intro h; simp at h; omega
      have hnorm : normalise sqrt (List.replicate n c) = none := by
        unfold normalise
        rw [npMean_some _ hne, npVar_const _ hne c (fun x hx => (List.mem_replicate.mp hx).2)]
        simp [hsqrt]
      rw [hnorm] at hrun
      cases hrun
      refine ⟨?_, ?_, ?_, ?_⟩ <;> exact fun v hv => (List.mem_replicate.mp hv).2

/-- **C16** (part).  The estimators themselves do return 0 on constant A and B columns, as their warning
says; missing: they are never reached with constant outputs, see `C16_constant_gives_nan`. -/
theorem C16_estimators_zero_partial (A AB AB' BA B : List α) (hA : A ≠ []) (c : α)
    (h : ∀ y ∈ A ++ B, y = c) :
    firstOrder A AB B = some 0 ∧ totalOrder A AB B = some 0 ∧ secondOrder A AB AB' BA B = some 0 := by
  have hp : ptpZero (A ++ B) = true := (ptpZero_iff _ (by simp [hA])).mpr ⟨c, h⟩
  unfold firstOrder totalOrder secondOrder
  simp [hp]

/-- A constant model is accepted by the analyser (so the nan theorem is about real runs). -/
example : ∃ res, sobolAnalyze (id : ℚ → ℚ) id { names := ["x"], bounds := [[0, 1]] }
    (List.replicate 4 7) true (1 / 2) [[0]] false .serial = .ok res :=
  ⟨nanResult 1 1 false true, by decide +kernel⟩

end SALib
