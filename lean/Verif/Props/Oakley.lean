import Verif.Lemmas.OakleyTable
import Verif.Props.Tables
import Verif.Lemmas.SobolExpect
import Verif.Spec.DerivMeasure

/-!
# The function of Oakley and O'Hagan and its sensitivity indices (C132)

`evaluate` computes the published function.  For independent normal inputs with mean 0 its variance and the effects of
every set of inputs are given in closed form, for any number of inputs, any coefficients and any variances.

The example in the file and the package's own test give first-order indices that they call analytic.  They are those of
inputs with standard deviation 1; the problem stated there has the standard deviation 0.835.
-/

namespace SALib

open Spec Real Finset MeasureTheory ProbabilityTheory NNReal

/-- `evaluate` gives the published function of every row. -/
theorem C132_evaluate {d : Nat} (X : List (Fin d → ℝ)) (a b c : Fin d → ℝ) (M : Fin d → Fin d → ℝ) :
    oakleyEval (X.map List.ofFn) [List.ofFn a, List.ofFn b, List.ofFn c] (List.ofFn fun i => List.ofFn (M i)) =
      .ok (X.map (Spec.oakley a b c M)) := by
  have hd : ∀ u v : Fin d → ℝ, vecDot (List.ofFn u) (List.ofFn v) = .ok (∑ i, u i * v i) := by
    intro u v
    unfold vecDot dotList
    rw [if_pos (by simp)]
    congr 1
    rw [← List.sum_ofFn]
    congr 1
    apply List.ext_getElem <;> simp
  have hrow : ∀ x : Fin d → ℝ, oakleyRow (List.ofFn a) (List.ofFn b) (List.ofFn c) (List.ofFn fun i => List.ofFn (M i))
      (List.ofFn x) = .ok (Spec.oakley a b c M x) := by
    intro x
    have hm : (List.ofFn fun i => List.ofFn (M i)).mapM (fun row => vecDot row (List.ofFn x)) =
        .ok (List.ofFn fun i => ∑ j, M i j * x j) := by
      have e : (List.ofFn fun i => List.ofFn (M i)) = (List.finRange d).map fun i => List.ofFn (M i) :=
        List.ofFn_eq_map
      rw [e, List.mapM_map]
      exact (mapM_ok_of _ (fun i => ∑ j, M i j * x j) _ fun i _ => hd (M i) x).trans (by rw [List.ofFn_eq_map])
    unfold oakleyRow
    rw [hd, List.map_ofFn, List.map_ofFn, hm, hd, hd]
    simp only [pyBind_ok]
    rw [hd]
    show Except.ok _ = Except.ok _
    congr 1
    unfold Spec.oakley
    congr 1
    refine Finset.sum_congr rfl fun i _ => ?_
    rw [Finset.mul_sum]
    exact Finset.sum_congr rfl fun j _ => by ring
  show (X.map List.ofFn).mapM _ = _
  rw [List.mapM_map]
  exact mapM_ok_of _ _ X fun x _ => hrow x

theorem forall₂_left {β γ : Type} {R : β → γ → Prop} {l : List β} {m : List γ} (h : List.Forall₂ R l m) (x : β)
    (hx : x ∈ l) : ∃ y ∈ m, R x y := by
  induction h with
  | nil => cases hx
  | cons h1 _ ih =>
    rcases List.mem_cons.mp hx with rfl | hx
    · exact ⟨_, by simp, h1⟩
    · obtain ⟨y, hy, hr⟩ := ih hx
      exact ⟨y, List.mem_cons_of_mem _ hy, hr⟩

theorem vecDot_ok (u v : List ℝ) (y : ℝ) (h : vecDot u v = .ok y) : u.length = v.length := by
  unfold vecDot at h
  split at h
  · assumption
  · cases h

theorem vecDot_error (u v : List ℝ) (e : PyErr) (h : vecDot u v = .error e) : e = .valueError := by
  unfold vecDot at h
  split at h
  · cases h
  · cases h; rfl

/-- `evaluate` fails only with a `ValueError`; if it succeeds, `A` has three rows, and these, the rows of `X`, and `M` in
both directions all have the same length. -/
theorem C132_refused (X A M : Mat ℝ) :
    (∀ e, oakleyEval X A M = .error e → e = .valueError) ∧
      ((∃ Y, oakleyEval X A M = .ok Y) → A.length = 3 ∧ ∀ x ∈ X, (∀ a ∈ A, a.length = x.length) ∧ M.length = x.length ∧
        ∀ r ∈ M, r.length = x.length) := by
  unfold oakleyEval
  split
  · next a1 a2 a3 =>
    refine ⟨fun e he => ?_, ?_⟩
    · obtain ⟨x, -, hx⟩ := mapM_error _ _ e he
      unfold oakleyRow at hx
      cases h1 : vecDot a1 x with
      | error e1 => rw [h1] at hx; cases hx; exact vecDot_error _ _ _ h1
      | ok t1 =>
      rw [h1] at hx
      cases h2 : vecDot a2 (x.map Real.sin) with
      | error e1 => rw [h2] at hx; cases hx; exact vecDot_error _ _ _ h2
      | ok t2 =>
      rw [h2] at hx
      cases h3 : vecDot a3 (x.map Real.cos) with
      | error e1 => rw [h3] at hx; cases hx; exact vecDot_error _ _ _ h3
      | ok t3 =>
      rw [h3] at hx
      cases h4 : M.mapM (fun row => vecDot row x) with
      | error e1 =>
        rw [h4] at hx
        cases hx
        obtain ⟨r, -, hr⟩ := mapM_error _ _ _ h4
        exact vecDot_error _ _ _ hr
      | ok t4 =>
      rw [h4] at hx
      cases h5 : vecDot x t4 with
      | error e1 => simp only [pyBind_ok, h5] at hx; cases hx; exact vecDot_error _ _ _ h5
      | ok t5 => simp only [pyBind_ok, h5] at hx; cases hx
    · rintro ⟨Y, hY⟩
      refine ⟨rfl, fun x hx => ?_⟩
      rw [mapM_ok_iff] at hY
      obtain ⟨y, -, hy⟩ := forall₂_left hY x hx
      unfold oakleyRow at hy
      obtain ⟨t1, h1, hy⟩ := pyBind_inv _ _ _ hy
      obtain ⟨t2, h2, hy⟩ := pyBind_inv _ _ _ hy
      obtain ⟨t3, h3, hy⟩ := pyBind_inv _ _ _ hy
      obtain ⟨t4, h4, hy⟩ := pyBind_inv _ _ _ hy
      obtain ⟨t5, h5, hy⟩ := pyBind_inv _ _ _ hy
      rw [mapM_ok_iff] at h4
      refine ⟨?_, ?_, fun r hr => ?_⟩
      · have l1 := vecDot_ok _ _ _ h1
        have l2 := vecDot_ok _ _ _ h2
        have l3 := vecDot_ok _ _ _ h3
        rw [List.length_map] at l2 l3
        simp [l1, l2, l3]
      · rw [h4.length_eq, ← vecDot_ok _ _ _ h5]
      · obtain ⟨z, -, hz⟩ := forall₂_left h4 r hr
        exact vecDot_ok _ _ _ hz
  · next hne =>
    refine ⟨fun e he => by cases he; rfl, ?_⟩
    rintro ⟨Y, hY⟩
    cases hY

example : oakleyEval [[1, 0]] [[1, 2], [0, 0]] [[1, 0], [0, 1]] = .error .valueError := rfl

example : oakleyEval ([![0, 0]].map List.ofFn) [List.ofFn ![1, 2], List.ofFn ![3, 4], List.ofFn ![5, 6]]
    (List.ofFn fun i => List.ofFn (![![1, 2], ![3, 4]] i)) = .ok [11] := by
  rw [C132_evaluate]
  simp [Spec.oakley, Fin.sum_univ_two]
  norm_num

/-! ## Effects -/

section effects

variable {d : Nat} (v : Fin d → ℝ≥0) (a b c : Fin d → ℝ) (M : Fin d → Fin d → ℝ)

theorem gauss_lp (v : ℝ≥0) : MemLp (fun x : ℝ => x) 2 (gaussianReal 0 v) := by
  have := oakleyTerm_memLp v 1 0 0 0
  unfold oakleyTerm at this
  simpa using this

/-- The variance, the variance explained by a set of inputs, and the part that is lost without one input: every input has
the variance of its own terms, every pair the square of the sum of its two coefficients times both variances. -/
theorem C132_effects (ν : Fin d → Measure ℝ) (hν : ν = fun i => gaussianReal 0 (v i)) :
    Var[Spec.oakley a b c M; Measure.pi ν] = (∑ i, oakleyMain (v i) (a i) (b i) (c i) (M i i)) +
        ∑ p ∈ inputPairs d, (M p.1 p.2 + M p.2 p.1) ^ 2 * (v p.1 * v p.2) ∧
    (∀ s, closedEffect ν (Spec.oakley a b c M) s = (∑ i, if s i then oakleyMain (v i) (a i) (b i) (c i) (M i i) else 0) +
        ∑ p ∈ inputPairs d, if s p.1 && s p.2 then (M p.1 p.2 + M p.2 p.1) ^ 2 * (v p.1 * v p.2) else 0) ∧
    (∀ i, closedEffect ν (Spec.oakley a b c M) (onlyInput i) = oakleyMain (v i) (a i) (b i) (c i) (M i i)) ∧
    ∀ i, totalEffect ν (Spec.oakley a b c M) (onlyInput i) = oakleyMain (v i) (a i) (b i) (c i) (M i i) +
      ∑ j ∈ univ.erase i, (M i j + M j i) ^ 2 * (v i * v j) := by
  subst hν
  have hl : ∀ i, MemLp (fun x : ℝ => x) 2 (gaussianReal 0 (v i)) := fun i => gauss_lp (v i)
  have h0 : ∀ i, ∫ x, x ∂gaussianReal 0 (v i) = 0 := fun i => gauss_x (v i)
  have h2 : ∀ i, ∫ x, x ^ 2 ∂gaussianReal 0 (v i) = v i := fun i => gauss_x2 (v i)
  have hh : ∀ i, MemLp (oakleyTerm (a i) (b i) (c i) (M i i)) 2 (gaussianReal 0 (v i)) := fun i => oakleyTerm_memLp _ _ _ _ _
  have hG := memLp_quad (fun i => gaussianReal 0 (v i)) hl (fun i => oakleyTerm (a i) (b i) (c i) (M i i)) hh
    fun p => M p.1 p.2 + M p.2 p.1
  have hV := variance_quad (fun i => gaussianReal 0 (v i)) hl h0 (fun i => oakleyTerm (a i) (b i) (c i) (M i i)) hh
    fun p => M p.1 p.2 + M p.2 p.1
  have hC := closedEffect_quad (fun i => gaussianReal 0 (v i)) hl h0 (fun i => oakleyTerm (a i) (b i) (c i) (M i i)) hh
    fun p => M p.1 p.2 + M p.2 p.1
  simp only [h2, oakleyTerm_var] at hV hC
  have hone : ∀ i, closedEffect (fun i => gaussianReal 0 (v i)) (Spec.oakley a b c M) (onlyInput i) =
      oakleyMain (v i) (a i) (b i) (c i) (M i i) := by
    intro i
    rw [oakley_quad, hC]
    have e1 : ∑ p ∈ inputPairs d, (if onlyInput i p.1 && onlyInput i p.2 then
        (M p.1 p.2 + M p.2 p.1) ^ 2 * ((v p.1 : ℝ) * v p.2) else 0) = 0 := by
      refine Finset.sum_eq_zero fun p hp => if_neg ?_
      have := ((mem_inputPairs p).mp hp).ne
      simp only [onlyInput, Bool.and_eq_true, decide_eq_true_eq]
      rintro ⟨h1, h2⟩
      exact this (h1.trans h2.symm)
    rw [e1, add_zero]
    simp [onlyInput]
  refine ⟨by rw [oakley_quad, hV], fun s => by rw [oakley_quad, hC], hone, fun i => ?_⟩
  rw [oakley_quad, totalEffect_eq_sub _ _ hG, hV, hC, add_sub_add_comm, ← Finset.sum_sub_distrib, ← Finset.sum_sub_distrib]
  congr 1
  · rw [Finset.sum_eq_single i]
    · simp [onlyInput]
    · intro j _ hj
      simp [onlyInput, hj]
    · simp
  · have e1 : ∀ p ∈ inputPairs d, ((M p.1 p.2 + M p.2 p.1) ^ 2 * ((v p.1 : ℝ) * v p.2) -
        if (!onlyInput i p.1) && !onlyInput i p.2 then (M p.1 p.2 + M p.2 p.1) ^ 2 * ((v p.1 : ℝ) * v p.2) else 0) =
        (if p.1 = i then (M i p.2 + M p.2 i) ^ 2 * ((v i : ℝ) * v p.2) else 0) +
          if p.2 = i then (M i p.1 + M p.1 i) ^ 2 * ((v i : ℝ) * v p.1) else 0 := by
      intro p hp
      have hne := ((mem_inputPairs p).mp hp).ne
      by_cases h1 : p.1 = i <;> by_cases h2 : p.2 = i
      · exact absurd (h1.trans h2.symm) hne
      · subst h1; simp [onlyInput, h2]
      · subst h2; simp [onlyInput, h1]; ring
      · simp [onlyInput, h1, h2]
    rw [Finset.sum_congr rfl e1]
    have e2 := sum_diag_pairs fun k j => if k = i then (M i j + M j i) ^ 2 * ((v i : ℝ) * v j) else 0
    have e3 : ∑ k, ∑ j, (if k = i then (M i j + M j i) ^ 2 * ((v i : ℝ) * v j) else 0) =
        ∑ j, (M i j + M j i) ^ 2 * ((v i : ℝ) * v j) := by
      rw [Finset.sum_comm]
      simp
    rw [e3, ← Finset.add_sum_erase _ _ (Finset.mem_univ i)] at e2
    simp only [Finset.sum_ite_eq', Finset.mem_univ, if_true] at e2
    linarith

end effects

/-! ## The listed indices -/

/-- The tables as real matrices. -/
noncomputable def realMat (T : Mat ℚ) : Mat ℝ := T.map fun row => row.map fun q => (q : ℝ)

theorem table_example (x : Fin 15 → ℝ) : oakleyEval [List.ofFn x] (realMat oakleyTableA) (realMat oakleyTableM) =
    .ok [Spec.oakley (fun i => (tableA 0 i : ℝ)) (fun i => (tableA 1 i : ℝ)) (fun i => (tableA 2 i : ℝ))
      (fun i j => (tableM i j : ℝ)) x] := by
  have hA : oakleyTableA = [List.ofFn (tableA 0), List.ofFn (tableA 1), List.ofFn (tableA 2)] := by decide +kernel
  have hM : oakleyTableM = List.ofFn fun i => List.ofFn (tableM i) := by decide +kernel
  have := C132_evaluate [x] (fun i => (tableA 0 i : ℝ)) (fun i => (tableA 1 i : ℝ)) (fun i => (tableA 2 i : ℝ))
    (fun i j => (tableM i j : ℝ))
  rw [hA, hM]
  unfold realMat
  simp only [List.map_cons, List.map_nil, List.map_ofFn] at this ⊢
  exact this

theorem table_index (v : ℚ) (w : ℝ≥0) (hw : (w : ℝ) = v) (G : (Fin 15 → ℝ) → ℝ)
    (hG : ∀ x, oakleyEval [List.ofFn x] (realMat oakleyTableA) (realMat oakleyTableM) = .ok [G x]) (i : Fin 15) :
    Var[G; Measure.pi fun _ => gaussianReal 0 w] = (tableTotal v).at (exp (-((v : ℝ) / 2))) ∧
      closedEffect (fun _ => gaussianReal 0 w) G (onlyInput i) = (tableMain v i).at (exp (-((v : ℝ) / 2))) := by
  have e : G = Spec.oakley (fun i => (tableA 0 i : ℝ)) (fun i => (tableA 1 i : ℝ)) (fun i => (tableA 2 i : ℝ))
      (fun i j => (tableM i j : ℝ)) := by
    funext x
    have := (hG x).symm.trans (table_example x)
    injection this with this
    injection this
  obtain ⟨h1, -, h3, -⟩ := C132_effects (fun _ : Fin 15 => w) (fun i => (tableA 0 i : ℝ)) (fun i => (tableA 1 i : ℝ))
    (fun i => (tableA 2 i : ℝ)) (fun i j => (tableM i j : ℝ)) _ rfl
  rw [e]
  refine ⟨?_, ?_⟩
  · rw [h1, ← total_quart]
    simp only [hw, oakleyMain_quart]
  · rw [h3 i, hw, oakleyMain_quart]

theorem exp_half_bounds : ((0.60653065 : ℚ) : ℝ) ≤ exp (-(((1 : ℚ) : ℝ) / 2)) ∧
    exp (-(((1 : ℚ) : ℝ) / 2)) ≤ ((0.60653065 : ℚ) : ℝ) + ((0.00000002 : ℚ) : ℝ) := by
  have h := abs_le.mp (Real.exp_bound (x := -(((1 : ℚ) : ℝ) / 2)) (by norm_num [abs_le]) (n := 12) (by norm_num))
  norm_num [Finset.sum_range_succ, Nat.factorial] at h ⊢
  exact ⟨by linarith [h.1], by linarith [h.2]⟩

theorem exp_stated_bounds : ((0.70566651 : ℚ) : ℝ) ≤ exp (-(((0.835 ^ 2 : ℚ) : ℝ) / 2)) ∧
    exp (-(((0.835 ^ 2 : ℚ) : ℝ) / 2)) ≤ ((0.70566651 : ℚ) : ℝ) + ((0.00000002 : ℚ) : ℝ) := by
  have h := abs_le.mp (Real.exp_bound (x := -(((0.835 ^ 2 : ℚ) : ℝ) / 2)) (by norm_num [abs_le]) (n := 10) (by norm_num))
  norm_num [Finset.sum_range_succ, Nat.factorial] at h ⊢
  exact ⟨by linarith [h.1], by linarith [h.2]⟩

/-- The listed values are the first-order indices, to 2e-5, of the function with the tables of the example and inputs of
standard deviation 1. -/
theorem C132_listed_partial (G : (Fin 15 → ℝ) → ℝ)
    (hG : ∀ x, oakleyEval [List.ofFn x] (realMat oakleyTableA) (realMat oakleyTableM) = .ok [G x]) (i : Fin 15) :
    |closedEffect (fun _ => gaussianReal 0 1) G (onlyInput i) / Var[G; Measure.pi fun _ => gaussianReal 0 1] -
      ((oakleyListed.getD i 0 : ℚ) : ℝ)| ≤ 0.00002 := by
  obtain ⟨h1, h2⟩ := table_index 1 1 (by simp) G hG i
  rw [h1, h2]
  have := (tableCheck_sound 1 _ _ _ _ check_unit _ (by norm_num) exp_half_bounds.1 exp_half_bounds.2
    (Real.exp_le_one_iff.mpr (by norm_num)) (by norm_num) i).2
  refine this.trans (le_of_eq ?_)
  norm_num

/-- The full claim fails: for the inputs that the example states (`bounds`, mean 0 and standard deviation 0.835) the
first-order indices are, to 1e-6, those of another list. -/
theorem C132_stated (G : (Fin 15 → ℝ) → ℝ)
    (hG : ∀ x, oakleyEval [List.ofFn x] (realMat oakleyTableA) (realMat oakleyTableM) = .ok [G x])
    (ν : Fin 15 → Measure ℝ) (hν : ν = fun i : Fin 15 =>
      gaussianReal ((oakleyBounds.getD i []).getD 0 0 : ℚ) (((oakleyBounds.getD i []).getD 1 0 : ℚ) ^ 2 : ℝ).toNNReal) :
    (∀ i : Fin 15, |closedEffect ν G (onlyInput i) / Var[G; Measure.pi ν] - ((oakleyCorrect.getD i 0 : ℚ) : ℝ)| ≤ 0.000001) ∧
      closedEffect ν G (onlyInput 11) / Var[G; Measure.pi ν] > ((oakleyListed.getD 11 0 : ℚ) : ℝ) + 0.0195 := by
  have hb : ∀ i : Fin 15, (oakleyBounds.getD i []).getD 0 0 = 0 ∧ (oakleyBounds.getD i []).getD 1 0 = 0.835 := by
    decide +kernel
  have e : ν = fun _ => gaussianReal 0 ((0.835 : ℝ) ^ 2).toNNReal := by
    rw [hν]
    funext i
    rw [(hb i).1, (hb i).2]
    norm_num
  have key : ∀ i : Fin 15, |closedEffect ν G (onlyInput i) / Var[G; Measure.pi ν] - ((oakleyCorrect.getD i 0 : ℚ) : ℝ)| ≤
      0.000001 := by
    intro i
    rw [e]
    obtain ⟨h1, h2⟩ := table_index (0.835 ^ 2) ((0.835 : ℝ) ^ 2).toNNReal
      (by rw [Real.coe_toNNReal _ (by positivity)]; norm_num) G hG i
    rw [h1, h2]
    have := (tableCheck_sound (0.835 ^ 2) _ _ _ _ check_stated _ (by norm_num) exp_stated_bounds.1 exp_stated_bounds.2
      (Real.exp_le_one_iff.mpr (by norm_num)) (by norm_num) i).2
    refine this.trans (le_of_eq ?_)
    norm_num
  refine ⟨key, ?_⟩
  have := (abs_le.mp (key 11)).1
  have h1 : ((oakleyCorrect.getD (11 : Fin 15) 0 : ℚ) : ℝ) = 0.155213 := by
    have : oakleyCorrect.getD (11 : Fin 15) 0 = 0.155213 := by decide +kernel
    rw [this]; norm_num
  have h2 : ((oakleyListed.getD 11 0 : ℚ) : ℝ) = 0.135708 := by
    have : oakleyListed.getD 11 0 = 0.135708 := by decide +kernel
    rw [this]; norm_num
  rw [h1] at this
  rw [h2]
  linarith

/-- There is such a function `G`. -/
example : ∃ G : (Fin 15 → ℝ) → ℝ, ∀ x, oakleyEval [List.ofFn x] (realMat oakleyTableA) (realMat oakleyTableM) = .ok [G x] :=
  ⟨_, table_example⟩

/-- Two inputs of variance 1, `f = 3 x1 + x1 x2`: first-order effect 9 and total effect 10 of the first input. -/
example : closedEffect (fun _ => gaussianReal 0 1) (Spec.oakley ![3, 0] 0 0 ![![0, 1], ![0, 0]]) (onlyInput 0) = 9 ∧
    totalEffect (fun _ => gaussianReal 0 1) (Spec.oakley ![3, 0] 0 0 ![![0, 1], ![0, 0]]) (onlyInput 0) = 10 := by
  obtain ⟨-, -, h1, h2⟩ := C132_effects (fun _ : Fin 2 => 1) ![3, 0] 0 0 ![![0, 1], ![0, 0]] _ rfl
  have he : (univ : Finset (Fin 2)).erase 0 = {1} := by decide
  rw [h1 0, h2 0, he]
  norm_num [oakleyMain]

end SALib
