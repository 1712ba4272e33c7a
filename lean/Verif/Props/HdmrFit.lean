import Verif.Lemmas.Cov
import Verif.Props.HdmrTerms

/-! # HDMR: variance decomposition and emulation (C57, C77, C78, C79) -/

set_option linter.unusedSectionVars false

namespace SALib

open Finset

variable {α : Type} [Field α] [LinearOrder α] [IsStrictOrderedRing α]

namespace Spec

/-- The terms, a constant and a remainder add up to the output, row by row. -/
def AddsUp (Y : List α) (f0 : α) (Yem : List (List α)) (e : List α) : Prop :=
  ∀ r < Y.length, Y.getD r 0 = f0 + (∑ j ∈ range Yem.length, (Yem.getD j []).getD r 0) + e.getD r 0

end Spec

open Spec

theorem getD_mem_length (Yem : List (List α)) (R j : Nat) (hcol : ∀ c ∈ Yem, c.length = R) (hj : j < Yem.length) :
    (Yem.getD j []).length = R := by
  rw [List.getD, List.getElem?_eq_getElem hj]
  exact hcol _ (List.getElem_mem hj)

theorem rest_getD (Yem : List (List α)) (R j r : Nat) (hcol : ∀ c ∈ Yem, c.length = R) (hj : j < Yem.length)
    (hr : r < R) : (vecSub (sumColumns R Yem) (Yem.getD j [])).getD r 0 =
      (∑ k ∈ range Yem.length, (Yem.getD k []).getD r 0) - (Yem.getD j []).getD r 0 := by
  rw [vecSub_getD _ _ _ (by simpa [sumColumns] using hr) (by rw [getD_mem_length Yem R j hcol hj]; exact hr),
    sumColumns_getD _ _ _ hr]

theorem hdmrAncova_eq (Y : List α) (Yem : List (List α)) (V : α) (j : Nat) (hR : 2 ≤ Y.length)
    (hcol : ∀ c ∈ Yem, c.length = Y.length) (hV : V ≠ 0) (hj : j < Yem.length) :
    hdmrAncova Y Yem V j =
      (some (devSum Y.length (fun i => (Yem.getD j []).getD i 0) (fun i => Y.getD i 0) / ((Y.length : α) - 1) / V),
       some (devSum Y.length (fun i => (Yem.getD j []).getD i 0) (fun i => (Yem.getD j []).getD i 0) /
        (Y.length : α) / V),
       some (devSum Y.length (fun i => (Yem.getD j []).getD i 0)
        (fun i => (∑ k ∈ range Yem.length, (Yem.getD k []).getD i 0) - (Yem.getD j []).getD i 0) /
        ((Y.length : α) - 1) / V)) := by
  have hl := getD_mem_length Yem Y.length j hcol hj
  unfold hdmrAncova numDiv
  simp only []
  rw [npCov_devSum _ _ Y.length hl rfl hR, npVar_devSum _ Y.length hl (by omega),
    npCov_devSum _ _ Y.length hl (by simp [vecSub, sumColumns, -List.getD_eq_getElem?_getD, hl]) hR]
  simp only [Option.bind_eq_bind, Option.bind_some, npDiv_some _ _ hV]
  rw [devSum_congr Y.length _ _ _ _ (fun i _ => rfl) fun i hi => rest_getD Yem Y.length j i hcol hj hi]

/-- The relation between the three indices for `hdmr`, whatever the fit: `S` is `R/(R-1)` times `Sa`, plus `Sb`,
plus the covariance of the term with the part of the output that is not fitted. -/
theorem C57_hdmr_general (Y : List α) (f0 : α) (Yem : List (List α)) (e : List α) (V : α) (j : Nat)
    (hR : 2 ≤ Y.length) (hcol : ∀ c ∈ Yem, c.length = Y.length) (he : e.length = Y.length) (hV : V ≠ 0)
    (hj : j < Yem.length) (hadd : AddsUp Y f0 Yem e) :
    ∃ S Sa Sb E, hdmrAncova Y Yem V j = (some S, some Sa, some Sb) ∧ npCov (Yem.getD j []) e = some E ∧
      S = (Y.length : α) / ((Y.length : α) - 1) * Sa + Sb + E / V := by
  have hl := getD_mem_length Yem Y.length j hcol hj
  have h2 : (2 : α) ≤ (Y.length : α) := by exact_mod_cast hR
  have h1 : (Y.length : α) - 1 ≠ 0 := by intro h; linarith
  have h0 : (Y.length : α) ≠ 0 := by intro h; linarith
  refine ⟨_, _, _, _, hdmrAncova_eq Y Yem V j hR hcol hV hj, npCov_devSum _ _ Y.length hl he hR, ?_⟩
  have hs : devSum Y.length (fun i => (Yem.getD j []).getD i 0) (fun i => Y.getD i 0) =
      devSum Y.length (fun i => (Yem.getD j []).getD i 0) (fun i => (Yem.getD j []).getD i 0) +
      devSum Y.length (fun i => (Yem.getD j []).getD i 0)
        (fun i => (∑ k ∈ range Yem.length, (Yem.getD k []).getD i 0) - (Yem.getD j []).getD i 0) +
      devSum Y.length (fun i => (Yem.getD j []).getD i 0) (fun i => e.getD i 0) := by
    rw [← devSum_add_right, ← devSum_add_right, ← devSum_shift_right Y.length _ (fun i => _ + _ + _) f0]
    apply devSum_congr
    · intro i _; rfl
    · intro i hi
      rw [hadd i hi]; ring
  rw [hs]
  field_simp

/-- **C57 fails** for `hdmr`: when the components add up exactly to the centred output, `S` exceeds `Sa + Sb` by
`Sa / (R-1)`, because `Sa` is computed with `np.var` (divisor `R`) and the others with `np.cov` (divisor `R-1`). -/
theorem C57_hdmr_gap (Y : List α) (f0 : α) (Yem : List (List α)) (V : α) (j : Nat) (hR : 2 ≤ Y.length)
    (hcol : ∀ c ∈ Yem, c.length = Y.length) (hV : 0 < V) (hj : j < Yem.length)
    (hadd : AddsUp Y f0 Yem (List.replicate Y.length 0)) :
    ∃ S Sa Sb, hdmrAncova Y Yem V j = (some S, some Sa, some Sb) ∧ S - (Sa + Sb) = Sa / ((Y.length : α) - 1) ∧
      ((∃ r r', r < Y.length ∧ r' < Y.length ∧ (Yem.getD j []).getD r 0 ≠ (Yem.getD j []).getD r' 0) →
        Sa + Sb < S) := by
  have h2 : (2 : α) ≤ (Y.length : α) := by exact_mod_cast hR
  have h1 : (0 : α) < (Y.length : α) - 1 := by linarith
  have hl := getD_mem_length Yem Y.length j hcol hj
  obtain ⟨S, Sa, Sb, E, hanc, hE, hS⟩ := C57_hdmr_general Y f0 Yem _ V j hR hcol (by simp) hV.ne' hj hadd
  have hE0 : E = 0 := by
    rw [npCov_devSum _ _ Y.length hl (by simp) hR] at hE
    have hz : devSum Y.length (fun i => (Yem.getD j []).getD i 0)
        (fun i => (List.replicate Y.length (0 : α)).getD i 0) = 0 := by
      refine Eq.trans ?_ (devSum_const_right Y.length (fun i => (Yem.getD j []).getD i 0) 0)
      apply devSum_congr
      · intro i _; rfl
      · intro i hi; simp [List.getD, hi]
    rw [hz, zero_div] at hE
    exact (Option.some.inj hE).symm
  refine ⟨S, Sa, Sb, hanc, ?_, ?_⟩
  · rw [hS, hE0]
    have := h1.ne'
    field_simp
    ring
  · rintro ⟨r, r', hr, hr', hne⟩
    have hSa : 0 < Sa := by
      rw [hdmrAncova_eq Y Yem V j hR hcol hV.ne' hj] at hanc
      simp only [Prod.mk.injEq, Option.some.injEq] at hanc
      rw [← hanc.2.1]
      have := devSum_self_pos Y.length (fun i => (Yem.getD j []).getD i 0) r r' hr hr' hne
      have h0 : (0 : α) < (Y.length : α) := by linarith
      positivity
    rw [hS, hE0, zero_div, add_zero]
    have : 1 < (Y.length : α) / ((Y.length : α) - 1) := by rw [lt_div_iff₀ h1]; linarith
    nlinarith

/-- Two components on four points: `S = 4/3`, `Sa = 1` of the variance for the only varying one. -/
example : hdmrAncova ([1, 3, 1, 3] : List ℚ) [[-1, 1, -1, 1], [0, 0, 0, 0]] 1 0 = (some (4 / 3), some 1, some 0) := by
  decide +kernel

example : AddsUp ([1, 3, 1, 3] : List ℚ) 2 [[-1, 1, -1, 1], [0, 0, 0, 0]] (List.replicate 4 0) := by
  intro r hr
  simp only [List.length_cons, List.length_nil] at hr
  interval_cases r <;> decide +kernel

/-! ### C79: sum of the indices -/

/-- **C79**: the indices `S` of all terms add up to the covariance of the emulated output with the output over `V`;
on an exact fit, with `V` the population variance as in `_compute`, to `R/(R-1)`. -/
theorem C79_hdmr_sum (Y : List α) (Yem : List (List α)) (V : α) (hR : 2 ≤ Y.length)
    (hcol : ∀ c ∈ Yem, c.length = Y.length) (hV : V ≠ 0) :
    ∃ S : Nat → α, (∀ j < Yem.length, (hdmrAncova Y Yem V j).1 = some (S j)) ∧
      numDiv (npCov (sumColumns Y.length Yem) Y) V = some (∑ j ∈ range Yem.length, S j) := by
  refine ⟨_, fun j hj => congrArg Prod.fst (hdmrAncova_eq Y Yem V j hR hcol hV hj), ?_⟩
  unfold numDiv
  rw [npCov_devSum _ _ Y.length (by simp [sumColumns]) rfl hR]
  simp only [Option.bind_eq_bind, Option.bind_some, npDiv_some _ _ hV]
  rw [devSum_congr Y.length _ _ _ _ (fun i hi => sumColumns_getD Y.length Yem i hi) (fun i _ => rfl),
    devSum_sum_left, Finset.sum_div, Finset.sum_div]

theorem C79_hdmr_exact (Y : List α) (f0 : α) (Yem : List (List α)) (V : α) (hR : 2 ≤ Y.length)
    (hcol : ∀ c ∈ Yem, c.length = Y.length) (hV : V ≠ 0) (hVY : npVar Y = some V)
    (hadd : AddsUp Y f0 Yem (List.replicate Y.length 0)) :
    ∃ S : Nat → α, (∀ j < Yem.length, (hdmrAncova Y Yem V j).1 = some (S j)) ∧
      ∑ j ∈ range Yem.length, S j = (Y.length : α) / ((Y.length : α) - 1) := by
  have h2 : (2 : α) ≤ (Y.length : α) := by exact_mod_cast hR
  have h1 : (Y.length : α) - 1 ≠ 0 := by intro h; linarith
  have h0 : (Y.length : α) ≠ 0 := by intro h; linarith
  obtain ⟨S, hS, hsum⟩ := C79_hdmr_sum Y Yem V hR hcol hV
  refine ⟨S, hS, ?_⟩
  rw [npVar_devSum Y Y.length rfl (by omega)] at hVY
  have hVY := Option.some.inj hVY
  unfold numDiv at hsum
  rw [npCov_devSum _ _ Y.length (by simp [sumColumns]) rfl hR] at hsum
  simp only [Option.bind_eq_bind, Option.bind_some, npDiv_some _ _ hV] at hsum
  rw [← Option.some.inj hsum]
  have hs : devSum Y.length (fun i => (sumColumns Y.length Yem).getD i 0) (fun i => Y.getD i 0) =
      devSum Y.length (fun i => Y.getD i 0) (fun i => Y.getD i 0) := by
    rw [devSum_comm, ← devSum_shift_right Y.length _ (fun i => (sumColumns Y.length Yem).getD i 0) f0]
    apply devSum_congr
    · intro i _; rfl
    · intro i hi
      rw [sumColumns_getD _ _ _ hi, hadd i hi]
      simp only [List.getD, List.getElem?_replicate, hi, if_true, Option.getD_some]
      ring
  rw [hs]
  have hd : devSum Y.length (fun i => Y.getD i 0) (fun i => Y.getD i 0) = V * (Y.length : α) := by
    rw [← hVY]; field_simp
  rw [hd]
  field_simp

example : ((List.range 2).mapM fun j =>
      (hdmrAncova ([1, 3, 1, 5] : List ℚ) [[-1, 1, -1, 1], [-1 / 2, -1 / 2, -1 / 2, 3 / 2]] (11 / 4) j).1).map
        List.sum = some (4 / 3) ∧ npVar ([1, 3, 1, 5] : List ℚ) = some (11 / 4) := by
  decide +kernel

/-! ### C77: the emulator on the training points -/

theorem matVec_length (A : Mat α) (v : List α) : (matVec A v).length = A.length := by simp [matVec]

theorem backfitSweep_shape (T B : List (Mat α)) (Yres : List α) (C : List (List α)) (w : Nat)
    (hT : ∀ j < B.length, (T.getD j []).length = w) (hC : C.length = B.length) (hw : ∀ c ∈ C, c.length = w) :
    (backfitSweep T B Yres C).length = B.length ∧ ∀ c ∈ backfitSweep T B Yres C, c.length = w := by
  unfold backfitSweep
  have : ∀ (js : List Nat) (C : List (List α)), (∀ j ∈ js, j < B.length) → C.length = B.length →
      (∀ c ∈ C, c.length = w) →
      (js.foldl (fun C j => C.set j (matVec (T.getD j []) ((List.range B.length).foldl (fun y z =>
        if j ≠ z then vecSub y (matVec (B.getD z []) (C.getD z [])) else y) Yres))) C).length = B.length ∧
      ∀ c ∈ js.foldl (fun C j => C.set j (matVec (T.getD j []) ((List.range B.length).foldl (fun y z =>
        if j ≠ z then vecSub y (matVec (B.getD z []) (C.getD z [])) else y) Yres))) C, c.length = w := by
    intro js
    induction js with
    | nil => intro C _ h1 h2; exact ⟨h1, h2⟩
    | cons j js ih =>
      intro C hj h1 h2
      rw [List.foldl_cons]
      apply ih _ (fun k hk => hj k (by simp [hk])) (by simpa using h1)
      intro c hc
      rcases List.mem_or_eq_of_mem_set hc with h | h
      · exact h2 c h
      · rw [h, matVec_length]; exact hT j (hj j (by simp))
  exact this (List.range B.length) C (fun j hj => List.mem_range.mp hj) hC hw

theorem backfitLoop_shape (T B : List (Mat α)) (Yres : List α) (w : Nat)
    (hT : ∀ j < B.length, (T.getD j []).length = w) (it : Nat) : ∀ (v : α) (C : List (List α)),
    C.length = B.length → (∀ c ∈ C, c.length = w) →
    (backfitLoop T B Yres it v C).length = B.length ∧ ∀ c ∈ backfitLoop T B Yres it v C, c.length = w := by
  induction it with
  | zero => intro v C h1 h2; exact ⟨h1, h2⟩
  | succ it ih =>
    intro v C h1 h2
    unfold backfitLoop
    split
    · obtain ⟨a, b⟩ := backfitSweep_shape T B Yres C w hT h1 h2
      exact ih _ _ a b
    · exact ⟨h1, h2⟩

theorem hdmrFirst_shape (T B : List (Mat α)) (Yres : List α) (w maxiter : Nat)
    (hT : ∀ j < B.length, (T.getD j []).length = w) :
    (hdmrFirst T B Yres maxiter).2.2.length = B.length ∧
      ∀ c ∈ (hdmrFirst T B Yres maxiter).2.2, c.length = w := by
  unfold hdmrFirst
  apply backfitLoop_shape T B Yres w hT
  · simp
  · intro c hc
    obtain ⟨j, hj, rfl⟩ := List.mem_map.mp hc
    rw [matVec_length]
    exact hT j (List.mem_range.mp hj)

/-- The basis matrices have one entry per term. -/
theorem hdmrBasis_lengths (m d o : Nat) (X : Mat α) (B1 B2 B3 : List (Mat α))
    (h : hdmrBasis m d o X = .ok (B1, B2, B3)) :
    B1.length = d ∧ B2.length = (hdmrC2 d o).length ∧ B3.length = (hdmrC3 d o).length := by
  unfold hdmrBasis at h
  cases h1 : (List.range d).mapM fun j => (do
      let col ← inputColumn X j
      let coln ← normColumn col
      return coln.map fun x => bSplineRow m x : Py (Mat α)) with
  | error e => rw [h1] at h; simp only [pyBind_error] at h; cases h
  | ok B =>
    rw [h1] at h
    simp only [pyBind_ok, pyPure] at h
    have h := (Except.ok.inj h)
    simp only [Prod.mk.injEq] at h
    obtain ⟨rfl, rfl, rfl⟩ := h
    have hl := mapM_ok_iff _ _ _ |>.mp h1
    refine ⟨?_, by simp, by simp⟩
    simpa using hl.length_eq.symm

/-- **C77**: with a single fit (`K = 1`, so `R = N` and the rows in their order), emulating the training inputs
with the training outputs gives exactly the stored fitted values. -/
theorem C77_hdmr_train (reg : Mat α → Mat α) (m d o maxiter : Nat) (X : Mat α) (Y : List α) (B1 B2 B3 : List (Mat α))
    (hB : hdmrBasis m d o X = .ok (B1, B2, B3)) (hY : Y.length = X.length)
    (hreg : ∀ B ∈ B1, (reg B).length = m + 3) (ho : 1 ≤ o) (ho3 : o ≤ 3) (hd : 2 ≤ d) (hd3 : o = 3 → 3 ≤ d) :
    hdmrEmulate d (hdmrFit reg o maxiter B1 B2 B3 Y X.length).C1 (hdmrFit reg o maxiter B1 B2 B3 Y X.length).C2
        (hdmrFit reg o maxiter B1 B2 B3 Y X.length).C3 X (Y.sum / (Y.length : α)) =
      .ok (hdmrFit reg o maxiter B1 B2 B3 Y X.length).Ye := by
  obtain ⟨l1, l2, l3⟩ := hdmrBasis_lengths m d o X B1 B2 B3 hB
  have hT : ∀ j < B1.length, ((B1.map reg).getD j []).length = m + 3 := by
    intro j hj
    simp only [List.getD, List.getElem?_map, List.getElem?_eq_getElem hj, Option.map_some, Option.getD_some]
    exact hreg _ (List.getElem_mem hj)
  obtain ⟨s1, s2⟩ := hdmrFirst_shape (B1.map reg) B1 (Y.map fun y => y - Y.sum / (X.length : α)) (m + 3) maxiter hT
  have hc2 : 2 ≤ o → (hdmrC2 d o).length ≠ 0 := by
    intro h
    unfold hdmrC2
    rw [if_pos (by omega), length_combinations, List.length_range]
    exact (Nat.choose_pos hd).ne'
  have hc3 : o = 3 → (hdmrC3 d o).length ≠ 0 := by
    intro h
    unfold hdmrC3
    rw [if_pos h, length_combinations, List.length_range]
    exact (Nat.choose_pos (hd3 h)).ne'
  have hm : ((hdmrFit reg o maxiter B1 B2 B3 Y X.length).C1.getD 0 []).length - 3 = m := by
    have hmem : (hdmrFirst (B1.map reg) B1 (Y.map fun y => y - Y.sum / (X.length : α)) maxiter).2.2.getD 0 [] ∈
        (hdmrFirst (B1.map reg) B1 (Y.map fun y => y - Y.sum / (X.length : α)) maxiter).2.2 := by
      rw [List.getD, List.getElem?_eq_getElem (by rw [s1, l1]; omega)]
      exact List.getElem_mem _
    have := s2 _ hmem
    unfold hdmrFit
    simp only [] at this ⊢
    omega
  have hord : emulateOrder (hdmrFit reg o maxiter B1 B2 B3 Y X.length).C2
      (hdmrFit reg o maxiter B1 B2 B3 Y X.length).C3 = o := by
    unfold emulateOrder hdmrFit
    simp only []
    interval_cases o
    · simp
    · simp [hdmrHigher, l2, hc2]
    · simp [hdmrHigher, l3, hc3]
  unfold hdmrEmulate
  rw [hm, hord]
  simp only []
  rw [hB]
  simp only [pyBind_ok, pyPure]
  congr 1
  unfold hdmrFit
  simp only [hY]
  rw [show (fun s : α => s + Y.sum / (X.length : α)) = fun s => Y.sum / (X.length : α) + s from
    funext fun s => add_comm _ _]
  congr 2
  interval_cases o
  · have e2 : B2 = [] := List.length_eq_zero_iff.mp (by rw [l2]; simp [hdmrC2])
    have e3 : B3 = [] := List.length_eq_zero_iff.mp (by rw [l3]; simp [hdmrC3])
    rw [e2, e3]
    simp [hdmrFirst]
  · have e3 : B3 = [] := List.length_eq_zero_iff.mp (by rw [l3]; simp [hdmrC3])
    rw [e3]
    simp [hdmrFirst, hdmrHigher]
  · simp [hdmrFirst, hdmrHigher]

/-- The hypotheses: three points in two inputs, second order, `m = 1`; the stand-in for the inverse has `m + 3 = 4`
rows per matrix. -/
example : (hdmrBasis 1 2 2 ([[0, 2], [1, 0], [1 / 2, 1]] : Mat ℚ)).map (fun b => (b.1.length, b.2.1.length)) =
      .ok (2, 1) ∧
    ∀ B : Mat ℚ, ((fun B : Mat ℚ => List.replicate 4 (B.map fun r => r.getD 0 0)) B).length = 1 + 3 :=
  ⟨by decide +kernel, fun B => by simp⟩

end SALib
