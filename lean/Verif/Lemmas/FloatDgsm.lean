import Verif.Model.FloatDgsm
import Verif.Lemmas.FloatSum
import Verif.Lemmas.FloatMorris
import Verif.Props.FiniteDiff
import Verif.Props.SobolSeq
import Verif.Props.Dgsm

/-! # Lemmas on finite differences and DGSM with their rounding -/

namespace SALib
open Spec

variable {F : Fmt}

/-! ### Sobol points need no rounding -/

theorem sobolSequenceFl_map (dirs : List (List Nat)) (L N D : Nat) :
    sobolSequenceFl F dirs L N D = (sobolSequence (α := ℚ) dirs L N D).map fun M => M.map (·.map (fl F)) := by
  unfold sobolSequenceFl sobolSequence
  by_cases h1 : D > dirs.length + 1
  · simp only [if_pos h1]; rfl
  by_cases h2 : N = 0
  · simp only [if_neg h1, if_pos h2]; rfl
  by_cases h3 : L > sobolScale
  · simp only [if_neg h1, if_neg h2, if_pos h3]; rfl
  simp only [if_neg h1, if_neg h2, if_neg h3]
  cases (List.range D).mapM fun i => (do
    let V ← directionNumbers dirs L i
    columnInts V N : Py (List Nat)) with
  | error e => rfl
  | ok cols =>
    simp only [Except.map, pyPure, pyBind_ok, fdiv, List.map_map, Function.comp_def]

theorem isFloat_dyadic (hp : 31 ≤ F.p) (he : F.emin ≤ -31) (X : Nat) (hX : X < 2 ^ 31) :
    IsFloat F ((X : ℚ) / 2 ^ 31) := by
  refine ⟨X, -31, he, ?_, ?_⟩
  · rw [abs_of_nonneg (by positivity)]
    have : (2 : ℤ) ^ 31 ≤ 2 ^ F.p := pow_le_pow_right₀ (by norm_num) hp
    have : (X : ℤ) < 2 ^ 31 := by exact_mod_cast hX
    omega
  · rw [div_eq_mul_inv]
    norm_num

theorem sobolSequenceFl_exact (hp : 31 ≤ F.p) (he : F.emin ≤ -31) (dirs : List (List Nat)) (hT : TableOk dirs)
    (L N D : Nat) (hN : 0 < N) (hNL : N ≤ 2 ^ L) (hL : L ≤ 31) (hD : D ≤ dirs.length + 1) :
    sobolSequenceFl F dirs L N D = sobolSequence dirs L N D := by
  obtain ⟨M, hM, -, -, -, hx⟩ := C19_range (α := ℚ) dirs hT L N D hN hNL hL hD
  rw [sobolSequenceFl_map, hM]
  show Except.ok _ = _
  congr 1
  conv_rhs => rw [← List.map_id M]
  refine List.map_congr_left fun row hrow => ?_
  conv_rhs => rw [id, ← List.map_id row]
  refine List.map_congr_left fun x hxr => ?_
  obtain ⟨X, hX, rfl⟩ := hx row hrow x hxr
  exact fl_eq (by omega) (isFloat_dyadic hp he X hX)

/-! ### The sampler in closed form -/

/-- The moved value. -/
def stepFl (F : Fmt) (lo hi delta x : ℚ) : ℚ := clip lo hi (fl F (x + fl F (x * delta)))

/-- The block of rows for one base point. -/
def fdRowsFl (F : Fmt) (D : Nat) (lo hi : Nat → ℚ) (delta : ℚ) (row : List ℚ) : Mat ℚ :=
  row :: (List.range D).map fun j => row.set j (stepFl F (lo j) (hi j) delta (row.getD j 0))

theorem fdRowFl_eq (hp : 1 ≤ F.p) (D : Nat) (bounds : List (List ℚ)) (delta : ℚ) (row : List ℚ) (j : Nat)
    (lo hi : ℚ) (rest : List ℚ) (hb : bounds[j]? = some (lo :: hi :: rest)) (hr : row.length = D) (hj : j < D)
    (hf : ∀ x ∈ row, IsFloat F x) :
    fdRowFl F D bounds delta row j = .ok (row.set j (stepFl F lo hi delta (row.getD j 0))) := by
  have hjr : j < row.length := by omega
  have hz : List.zipWith (fadd F) row ((List.replicate D 0).set j (fmul F row[j] delta)) =
      row.set j (fl F (row[j] + fl F (row[j] * delta))) := by
    apply List.ext_getElem
    · simp [hr]
    · intro c h1 h2
      have hc : c < row.length := by simpa using h2
      simp only [List.getElem_zipWith, List.getElem_set, List.getElem_replicate]
      by_cases hcj : j = c
      · subst hcj
        simp [fadd, fmul]
      · simp only [hcj, if_false, fadd, add_zero]
        exact fl_eq hp (hf _ (List.getElem_mem hc))
  unfold fdRowFl
  have g1 : pyGet bounds j = .ok (lo :: hi :: rest) := by unfold pyGet; rw [hb]
  have g2 : pyGet row j = .ok row[j] := by
    unfold pyGet; simp [List.getElem?_eq_getElem hjr]
  rw [g1, pyBind_ok, g2, pyBind_ok]
  simp only [hz]
  have g3 : pyGet (lo :: hi :: rest) 1 = .ok hi := rfl
  have g4 : pyGet (lo :: hi :: rest) 0 = .ok lo := rfl
  have g5 : pyGet (row.set j (fl F (row[j] + fl F (row[j] * delta)))) j =
      .ok (fl F (row[j] + fl F (row[j] * delta))) := by
    unfold pyGet; simp [hjr]
  rw [g3, pyBind_ok, g4, pyBind_ok, g5, pyBind_ok]
  have hclip : ∀ v, pyMaxF (pyMinF v hi) lo = clip lo hi v := by
    intro v
    unfold pyMaxF pyMinF clip
    grind
  rw [hclip]
  simp only [pyPure, Except.ok.injEq]
  rw [List.set_set]
  simp [stepFl, List.getD, List.getElem?_eq_getElem hjr]

theorem fdBlockFl_eq (hp : 1 ≤ F.p) (D : Nat) (bounds : List (List ℚ)) (lo hi : Nat → ℚ) (delta : ℚ) (X : Mat ℚ)
    (hb : ∀ j < D, ∃ rest, bounds[j]? = some (lo j :: hi j :: rest)) (st : Mat ℚ × Nat) (i : Nat)
    (row : List ℚ) (hrow : X[i]? = some row) (hr : row.length = D) (hf : ∀ x ∈ row, IsFloat F x) :
    fdBlockFl F D bounds delta X st i = (fdRowsFl F D lo hi delta row).foldlM (putRow D) st := by
  unfold fdBlockFl
  have g : pyGet X i = .ok row := by unfold pyGet; simp [hrow]
  rw [g, pyBind_ok]
  unfold fdRowsFl
  rw [List.foldlM_cons]
  congr 1
  funext st
  rw [List.foldlM_map]
  apply foldlM_congr_mem
  intro j hj st
  have hj := List.mem_range.mp hj
  obtain ⟨rest, hbj⟩ := hb j hj
  rw [fdRowFl_eq hp D bounds delta row j (lo j) (hi j) rest hbj hr hj hf, pyBind_ok]

theorem length_fdRowsFl (D : Nat) (lo hi : Nat → ℚ) (delta : ℚ) (row : List ℚ) :
    (fdRowsFl F D lo hi delta row).length = D + 1 := by
  simp [fdRowsFl]

theorem hasCols_fdRowsFl (D : Nat) (lo hi : Nat → ℚ) (delta : ℚ) (row : List ℚ) (hr : row.length = D) :
    HasCols D (fdRowsFl F D lo hi delta row) := by
  intro r h
  unfold fdRowsFl at h
  rcases List.mem_cons.mp h with h | h
  · rw [h]; exact hr
  · obtain ⟨j, -, rfl⟩ := List.mem_map.mp h
    simpa using hr

/-- The whole loop: one block of rows after the other. -/
theorem finiteDiffSampleFl_eq (hp : 1 ≤ F.p) (dirs : List (List Nat)) (L : Nat) (junk : ℚ) (pb : Problem ℚ)
    (N : Nat) (delta : ℚ) (skip : Nat) (U X : Mat ℚ) (lo hi : Nat → ℚ)
    (hgen : sobolSequenceFl F dirs L (N + skip) pb.numVars = .ok U)
    (hscale : scaleUniformFl F pb.numVars U pb.bounds = .ok X)
    (hX : X.length = N + skip) (hcols : HasCols pb.numVars X)
    (hf : ∀ row ∈ X, ∀ x ∈ row, IsFloat F x)
    (hb : ∀ j < pb.numVars, ∃ rest, pb.bounds[j]? = some (lo j :: hi j :: rest)) :
    finiteDiffSampleFl F dirs L junk pb N delta skip =
      .ok ((X.drop skip).flatMap (fdRowsFl F pb.numVars lo hi delta)) := by
  unfold finiteDiffSampleFl
  simp only [hgen, pyBind_ok, hscale]
  have hrange : List.range' skip N = (List.range N).map (skip + ·) := by
    rw [List.range'_eq_map_range]
  have hdrop : X.drop skip = (List.range N).map fun i => X.getD (skip + i) [] := by
    apply List.ext_getElem
    · simp [hX]
    · intro i h1 h2
      have : skip + i < X.length := by simp at h1; omega
      simp [List.getD, List.getElem?_eq_getElem this]
  have hfold : ∀ st, (List.range' skip N).foldlM (fdBlockFl F pb.numVars pb.bounds delta X) st =
      ((X.drop skip).flatMap (fdRowsFl F pb.numVars lo hi delta)).foldlM (putRow pb.numVars) st := by
    intro st
    rw [foldlM_flatMap, hdrop, hrange, List.foldlM_map, List.foldlM_map]
    apply foldlM_congr_mem
    intro i hi st
    have : skip + i < X.length := by rw [hX]; have := List.mem_range.mp hi; omega
    refine (fdBlockFl_eq hp pb.numVars pb.bounds lo _ delta X hb st (skip + i) X[skip + i]
      (List.getElem?_eq_getElem this) (hcols _ (List.getElem_mem _)) (hf _ (List.getElem_mem _))).trans ?_
    simp [List.getD, List.getElem?_eq_getElem this]
  have hlen : ((X.drop skip).flatMap (fdRowsFl F pb.numVars lo hi delta)).length =
      N * (pb.numVars + 1) := by
    rw [List.length_flatMap]
    simp only [length_fdRowsFl]
    simp [hX]
  rw [hfold, putRow_seq]
  · simp only [pyBind_ok, List.take_zero, List.nil_append, Nat.zero_add, hlen, pyPure]
    simp
  · intro r hr
    obtain ⟨row, hrow, hr⟩ := List.mem_flatMap.mp hr
    exact hasCols_fdRowsFl _ _ _ _ _ (hcols _ (List.drop_subset _ _ hrow)) r hr
  · simp [hlen]

/-! ### One step -/

theorem stepFl_isFloat (hp : 1 ≤ F.p) {lo hi delta x : ℚ} (hl : IsFloat F lo) (hh : IsFloat F hi) :
    IsFloat F (stepFl F lo hi delta x) := by
  unfold stepFl clip
  rcases max_choice (min (fl F (x + fl F (x * delta))) hi) lo with h | h <;> rw [h]
  · rcases min_choice (fl F (x + fl F (x * delta))) hi with h | h <;> rw [h]
    · exact isFloat_fl hp _
    · exact hh
  · exact hl

/-- For a positive value the step goes up, to at most twice the value. -/
theorem stepFl_pos (hp : 1 ≤ F.p) {lo hi delta x : ℚ} (hx : IsFloat F x) (hlo : lo ≤ x) (hhi : x ≤ hi)
    (h0 : 0 ≤ x) (hd0 : 0 ≤ delta) (hd1 : delta ≤ 1) :
    x ≤ stepFl F lo hi delta x ∧ stepFl F lo hi delta x ≤ 2 * x := by
  have h2 : IsFloat F (2 * x) := by
    obtain ⟨m, e, he, hm, hx⟩ := hx
    exact ⟨m, e + 1, by omega, hm, by rw [hx, zpow_add_one₀ (by norm_num)]; ring⟩
  have a : 0 ≤ fl F (x * delta) := fl_nonneg (mul_nonneg h0 hd0)
  have b : fl F (x * delta) ≤ x := fl_le_of_le hp hx (by nlinarith)
  have c : x ≤ fl F (x + fl F (x * delta)) := le_fl_of_le hp hx (by linarith)
  have d : fl F (x + fl F (x * delta)) ≤ 2 * x := fl_le_of_le hp h2 (by linarith)
  unfold stepFl clip
  refine ⟨(le_min c hhi).trans (le_max_left _ _), max_le ((min_le_left _ _).trans d) (by linarith)⟩

theorem stepFl_neg (lo hi delta x : ℚ) (h : lo ≤ hi) : stepFl F (-hi) (-lo) delta (-x) = -stepFl F lo hi delta x := by
  unfold stepFl clip
  rw [neg_mul, fl_neg, ← neg_add, fl_neg]
  generalize fl F (x + fl F (x * delta)) = v
  rcases le_total v lo with h1 | h1 <;> rcases le_total v hi with h2 | h2 <;>
    simp [min_def, max_def] <;> grind

theorem stepFl_exact (hp : 1 ≤ F.p) {lo hi delta x : ℚ} (hl : IsFloat F lo) (hh : IsFloat F hi) (hx : IsFloat F x)
    (hlo : lo ≤ x) (hhi : x ≤ hi) (hd0 : 0 ≤ delta) (hd1 : delta ≤ 1) :
    IsFloat F (stepFl F lo hi delta x - x) := by
  rcases le_total 0 x with h0 | h0
  · obtain ⟨h1, h2⟩ := stepFl_pos (lo := lo) (hi := hi) hp hx hlo hhi h0 hd0 hd1
    exact sterbenz hp (stepFl_isFloat hp hl hh) hx (by linarith) h2
  · have hn := stepFl_neg (F := F) lo hi delta x (by linarith)
    obtain ⟨h1, h2⟩ := stepFl_pos (lo := -hi) (hi := -lo) hp hx.neg (by linarith) (by linarith) (by linarith) hd0 hd1
    rw [hn] at h1 h2
    have := sterbenz hp (stepFl_isFloat (delta := delta) (x := x) hp hl hh).neg hx.neg (by linarith) h2
    have := this.neg
    rwa [show -(-stepFl F lo hi delta x - -x) = stepFl F lo hi delta x - x by ring] at this

/-- A step of at least two units in the last place is not lost. -/
theorem moved_ne (hp : 2 ≤ F.p) {delta x : ℚ} (hd : (2 : ℚ) ^ (1 - (F.p : ℤ)) ≤ delta)
    (hn : (2 : ℚ) ^ (F.emin + F.p - 1) ≤ |x * delta|) (hx : IsFloat F x) : fl F (x + fl F (x * delta)) ≠ x := by
  intro h
  have hu := two_zpow_pos (-(F.p : ℤ))
  have hu4 := u_le_quarter hp
  have e : (2 : ℚ) ^ (1 - (F.p : ℤ)) = 2 * (2 : ℚ) ^ (-(F.p : ℤ)) := by
    rw [sub_eq_add_neg, zpow_add₀ (by norm_num)]; norm_num
  rw [e] at hd
  have h1 := fl_err_normal hn
  have h2 := fl_add_err (by omega) hx (isFloat_fl (F := F) (by omega) (x * delta))
  rw [h] at h2
  generalize (2 : ℚ) ^ (-(F.p : ℤ)) = u at *
  generalize fl F (x * delta) = t at *
  have hx0 : 0 < |x * delta| := lt_of_lt_of_le (two_zpow_pos _) hn
  rw [abs_mul, abs_of_pos (show 0 < delta by linarith)] at h1 hx0
  have hxp : 0 < |x| := by
    by_contra hc
    have : |x| = 0 := le_antisymm (not_lt.mp hc) (abs_nonneg _)
    rw [this] at hx0; simp at hx0
  have h3 : |x - (x + t)| = |t| := by rw [show x - (x + t) = -t by ring, abs_neg]
  rw [h3] at h2
  have h4 := abs_add_le x t
  have h5 : |x| * delta - |t| ≤ |x| * delta * u := by
    have := abs_sub_abs_le_abs_sub (x * delta) t
    rw [abs_sub_comm, abs_mul, abs_of_pos (show 0 < delta by linarith)] at this
    linarith
  have h6 : |t| ≥ |x| * (2 * u) * (1 - u) := by
    have : |x| * (2 * u) * (1 - u) ≤ |x| * delta * (1 - u) := by
      have := mul_le_mul_of_nonneg_left hd hxp.le
      exact mul_le_mul_of_nonneg_right this (by linarith)
    linarith
  have h7 : |t| * (1 - u) ≤ |x| * u := by nlinarith
  have h8 : |x| * (2 * u) * (1 - u) * (1 - u) ≤ |t| * (1 - u) :=
    mul_le_mul_of_nonneg_right h6 (by linarith)
  have h9 : |x| * u * (2 * (1 - u) * (1 - u) - 1) ≤ 0 := by nlinarith
  have h10 : 0 < 2 * (1 - u) * (1 - u) - 1 := by nlinarith
  have := mul_pos (mul_pos hxp hu) h10
  linarith

theorem roundEven_near {n : ℤ} {x : ℚ} (h0 : (n : ℚ) ≤ x) (h1 : x < n + 1 / 2) : roundEven x = n := by
  have hf : ⌊x⌋ = n := Int.floor_eq_iff.2 ⟨h0, by linarith⟩
  unfold roundEven
  rw [hf, if_pos (by linarith)]

theorem fl_tiny {y : ℚ} (h0 : 0 ≤ y) (h1 : y < (2 : ℚ) ^ (F.emin - 1)) : fl F y = 0 := by
  rcases h0.eq_or_lt with rfl | h0
  · exact fl_zero
  have hu : ulpExp F y = F.emin := by
    refine max_eq_right ?_
    have := (log_le_abs h0.ne').trans_lt (by rwa [abs_of_pos h0])
    have := two_zpow_lt_iff.1 this
    omega
  have hpos := two_zpow_pos F.emin
  rw [zpow_sub_one₀ (by norm_num)] at h1
  unfold fl
  rw [hu, roundEven_near (n := 0) (by push_cast; positivity) (by
    push_cast; rw [zero_add, div_lt_iff₀ hpos]; linarith)]
  simp

theorem moved_eq_pos (hp : 2 ≤ F.p) {delta x : ℚ} (hd0 : 0 ≤ delta) (hd : delta ≤ (2 : ℚ) ^ (-(F.p : ℤ) - 2))
    (hx : IsFloat F x) (h0 : 0 < x) : fl F (x + fl F (x * delta)) = x := by
  obtain ⟨m, hm⟩ := hx.div_ulp (by omega)
  have hlt := abs_div_ulp_lt (F := F) x
  have hq := emin_le_ulpExp (F := F) x
  generalize hqq : ulpExp F x = q at hm hlt hq
  have hU := two_zpow_pos q
  have hxm : x = m * (2 : ℚ) ^ q := by rw [← hm]; field_simp
  rw [hm] at hlt
  have hm1 : (m : ℚ) + 1 ≤ 2 ^ F.p := by
    have : |m| < 2 ^ F.p := by exact_mod_cast hlt
    have := (abs_lt.mp this).2
    have : m + 1 ≤ 2 ^ F.p := by omega
    exact_mod_cast this
  have hm0 : (0 : ℚ) < m := by
    rw [hxm] at h0
    exact (mul_pos_iff_of_pos_right hU).mp h0
  have hy : x * delta < (2 : ℚ) ^ (q - 2) := by
    have a : x < (2 : ℚ) ^ F.p * (2 : ℚ) ^ q := by rw [hxm]; nlinarith
    have e : (2 : ℚ) ^ (q - 2) = (2 : ℚ) ^ F.p * (2 : ℚ) ^ q * (2 : ℚ) ^ (-(F.p : ℤ) - 2) := by
      rw [← zpow_natCast (2 : ℚ) F.p, ← zpow_add₀ (by norm_num), ← zpow_add₀ (by norm_num)]
      congr 1; ring
    rw [e]
    have hz := two_zpow_pos (-(F.p : ℤ) - 2)
    calc x * delta ≤ x * (2 : ℚ) ^ (-(F.p : ℤ) - 2) := mul_le_mul_of_nonneg_left hd h0.le
      _ < _ := mul_lt_mul_of_pos_right a hz
  have hy0 : 0 ≤ x * delta := mul_nonneg h0.le hd0
  have e4 : (2 : ℚ) ^ (q - 2) = (2 : ℚ) ^ q / 4 := by
    rw [zpow_sub₀ (by norm_num)]; norm_num
  have ht : 0 ≤ fl F (x * delta) ∧ fl F (x * delta) ≤ (2 : ℚ) ^ q / 4 := by
    refine ⟨fl_nonneg hy0, ?_⟩
    by_cases hc : F.emin ≤ q - 2
    · rw [← e4]
      refine fl_le_of_le (by omega) ⟨1, q - 2, hc, ?_, by simp⟩ hy.le
      have : (2 : ℤ) ^ 1 ≤ 2 ^ F.p := pow_le_pow_right₀ (by norm_num) (by omega)
      simp; omega
    · rw [fl_tiny hy0 (hy.trans_le (two_zpow_le (by omega)))]
      positivity
  generalize fl F (x * delta) = t at ht
  have hxt : 0 < x + t := by linarith
  have hu : ulpExp F (x + t) = q := by
    refine le_antisymm ?_ ?_
    · refine max_le ?_ hq
      have : x + t < (2 : ℚ) ^ (q + F.p) := by
        rw [zpow_add₀ (by norm_num), zpow_natCast, hxm]; nlinarith
      have := (log_le_abs hxt.ne').trans_lt (by rwa [abs_of_pos hxt])
      have := two_zpow_lt_iff.1 this
      omega
    · rw [← hqq]
      unfold ulpExp
      refine max_le_max ?_ le_rfl
      have : Int.log 2 |x| ≤ Int.log 2 |x + t| :=
        Int.log_mono_right (abs_pos.2 h0.ne') (by rw [abs_of_pos h0, abs_of_pos hxt]; linarith)
      omega
  unfold fl
  rw [hu, roundEven_near (n := m), hxm]
  · rw [le_div_iff₀ hU, ← hxm]; linarith
  · rw [div_lt_iff₀ hU, hxm]; nlinarith

/-- A step of less than a quarter of a unit in the last place is always lost. -/
theorem moved_eq (hp : 2 ≤ F.p) {delta x : ℚ} (hd0 : 0 ≤ delta) (hd : delta ≤ (2 : ℚ) ^ (-(F.p : ℤ) - 2))
    (hx : IsFloat F x) : fl F (x + fl F (x * delta)) = x := by
  rcases lt_trichotomy x 0 with h | rfl | h
  · have := moved_eq_pos hp hd0 hd hx.neg (by linarith)
    rw [neg_mul, fl_neg, ← neg_add, fl_neg] at this
    linarith
  · rw [zero_mul, fl_zero, add_zero, fl_zero]
  · exact moved_eq_pos hp hd0 hd hx h

/-! ### The analysis in closed form -/

/-- The quotients of one parameter: change of the output over change of the input, squared. -/
def quotFl (F : Fmt) (w : Nat) (X : Mat ℚ) (Y : List ℚ) (j i : Nat) : Num ℚ :=
  quotSqFl F (fsub F (Y.getD (i * w + (1 + j)) 0) (Y.getD (i * w) 0))
    (fsub F ((X.getD (i * w + (1 + j)) []).getD j 0) ((X.getD (i * w) []).getD j 0))

theorem dfdxSqFl_idx (r : List Nat) (b p x : Nat → ℚ) :
    dfdxSqFl F (r.map b) (r.map p) (r.map x) = r.map fun i => quotSqFl F (fsub F (p i) (b i)) (x i) := by
  unfold dfdxSqFl
  rw [List.zipWith_map, List.zipWith_self, List.zipWith_map, List.zipWith_self]

/-- One parameter in closed form. -/
theorem dgsmOneFl_eq (order : Nat → SumTree) (sqrt : ℚ → ℚ) (pi2 z : ℚ) (pb : Problem ℚ) (X : Mat ℚ) (Y : List ℚ)
    (draws : Nat → List (List Nat)) (N j : Nat) (lo hi : ℚ) (rest : List ℚ)
    (hY : Y.length = N * (pb.numVars + 1)) (hX : X.length = N * (pb.numVars + 1))
    (hcols : HasCols pb.numVars X) (hj : j < pb.numVars)
    (hb : pb.bounds[j]? = some (lo :: hi :: rest))
    (hdraws : ∀ r ∈ draws j, ∀ i ∈ r, i < N) :
    dgsmOneFl F order sqrt pi2 z pb X Y draws j = .ok
      ((meanFlN F order ((List.range N).map (quotFl F (pb.numVars + 1) X Y j)),
        (((List.range N).map (quotFl F (pb.numVars + 1) X Y j)).mapM id).bind (std0Fl F order sqrt)),
       ((varFl F order ((List.range N).map fun i => Y.getD (i * (pb.numVars + 1)) 0)).bind fun D =>
          (meanFlN F order ((List.range N).map (quotFl F (pb.numVars + 1) X Y j))).bind fun vi =>
            dgsmIndexFl F pi2 lo hi D vi),
       (std1FlN F order sqrt ((draws j).map fun r => meanFlN F order (r.map (quotFl F (pb.numVars + 1) X Y j)))).map
          (fmul F z)) := by
  set w := pb.numVars + 1 with hw
  have e0 : strided Y 0 w = (List.range N).map fun i => Y.getD (i * w) 0 := by
    simpa using strided_eq Y N w 0 0 hY (by omega)
  have e1 : strided Y (j + 1) w = (List.range N).map fun i => Y.getD (i * w + (1 + j)) 0 := by
    rw [strided_eq Y N w (j + 1) 0 hY (by omega), Nat.add_comm j 1]
  have x0 : strided X 0 w = (List.range N).map fun i => X.getD (i * w) [] := by
    simpa using strided_eq X N w 0 [] hX (by omega)
  have x1 : strided X (j + 1) w = (List.range N).map fun i => X.getD (i * w + (1 + j)) [] := by
    rw [strided_eq X N w (j + 1) [] hX (by omega), Nat.add_comm j 1]
  have hrow : ∀ i < N, ∀ a < w, pyGet (X.getD (i * w + a) []) j = .ok ((X.getD (i * w + a) []).getD j 0) := by
    intro i hi a ha
    have hlt : i * w + a < X.length := by
      rw [hX]
      calc i * w + a < i * w + w := by omega
        _ = (i + 1) * w := by ring
        _ ≤ N * w := Nat.mul_le_mul_right _ hi
    have hl : (X.getD (i * w + a) []).length = pb.numVars := by
      rw [List.getD, List.getElem?_eq_getElem hlt]
      exact hcols _ (List.getElem_mem _)
    have key : ∀ row : List ℚ, j < row.length → pyGet row j = .ok (row.getD j 0) := by
      intro row hr
      unfold pyGet
      simp [List.getD, List.getElem?_eq_getElem hr]
    exact key _ (by rw [hl]; exact hj)
  have m0 : ((List.range N).map fun i => X.getD (i * w) []).mapM (fun row => pyGet row j) =
      .ok ((List.range N).map fun i => (X.getD (i * w) []).getD j 0) := by
    rw [mapM_ok_of (g := fun row => row.getD j 0)]
    · rw [List.map_map]; rfl
    · intro row hr
      obtain ⟨i, hi, rfl⟩ := List.mem_map.mp hr
      have := hrow i (List.mem_range.mp hi) 0 (by omega)
      simpa using this
  have m1 : ((List.range N).map fun i => X.getD (i * w + (1 + j)) []).mapM (fun row => pyGet row j) =
      .ok ((List.range N).map fun i => (X.getD (i * w + (1 + j)) []).getD j 0) := by
    rw [mapM_ok_of (g := fun row => row.getD j 0)]
    · rw [List.map_map]; rfl
    · intro row hr
      obtain ⟨i, hi, rfl⟩ := List.mem_map.mp hr
      exact hrow i (List.mem_range.mp hi) (1 + j) (by omega)
  unfold dgsmOneFl
  simp only [← hw]
  rw [x0, x1, m0, pyBind_ok, m1, pyBind_ok]
  have g : pyGet pb.bounds j = .ok (lo :: hi :: rest) := by unfold pyGet; rw [hb]
  rw [g, pyBind_ok, e0, e1, List.zipWith_map, List.zipWith_self]
  unfold calcDgsmFl
  have g3 : pyGet (lo :: hi :: rest) 1 = .ok hi := rfl
  have g4 : pyGet (lo :: hi :: rest) 0 = .ok lo := rfl
  rw [g3, pyBind_ok, g4, pyBind_ok]
  have hq : dfdxSqFl F ((List.range N).map fun i => Y.getD (i * w) 0)
      ((List.range N).map fun i => Y.getD (i * w + (1 + j)) 0)
      ((List.range N).map fun i =>
        fsub F ((X.getD (i * w + (1 + j)) []).getD j 0) ((X.getD (i * w) []).getD j 0)) =
      (List.range N).map (quotFl F w X Y j) := dfdxSqFl_idx _ _ _ _
  have hs : ((draws j).map fun r => calcViMeanFl F order (takeIdx ((List.range N).map fun i => Y.getD (i * w) 0) r)
      (takeIdx ((List.range N).map fun i => Y.getD (i * w + (1 + j)) 0) r)
      (takeIdx ((List.range N).map fun i => fsub F ((X.getD (i * w + (1 + j)) []).getD j 0)
        ((X.getD (i * w) []).getD j 0)) r)) =
      (draws j).map fun r => meanFlN F order (r.map (quotFl F w X Y j)) := by
    apply List.map_congr_left
    intro r hr
    rw [takeIdx_map N _ r (hdraws r hr), takeIdx_map N _ r (hdraws r hr), takeIdx_map N _ r (hdraws r hr)]
    unfold calcViMeanFl
    rw [dfdxSqFl_idx]
    rfl
  simp only [calcViStatsFl, calcViMeanFl] at hs ⊢
  rw [hs, hq]
  rfl

/-- The result of the analysis of a sample with the right shape. -/
theorem dgsmAnalyzeFl_eq (order : Nat → SumTree) (sqrt : ℚ → ℚ) (pi2 z conf : ℚ) (pb : Problem ℚ) (X : Mat ℚ)
    (Y : List ℚ) (draws : Nat → List (List Nat)) (N : Nat) (lo hi : Nat → ℚ)
    (hconf : 0 < conf ∧ conf < 1)
    (hY : Y.length = N * (pb.numVars + 1)) (hX : X.length = N * (pb.numVars + 1))
    (hcols : HasCols pb.numVars X)
    (hb : ∀ j < pb.numVars, ∃ rest, pb.bounds[j]? = some (lo j :: hi j :: rest))
    (hdraws : ∀ j < pb.numVars, ∀ r ∈ draws j, ∀ i ∈ r, i < N) :
    ∃ res, dgsmAnalyzeFl F order sqrt pi2 z conf pb X Y draws = .ok res ∧ res.names = pb.names ∧
      ∀ j < pb.numVars,
        res.vi[j]? = some (meanFlN F order ((List.range N).map (quotFl F (pb.numVars + 1) X Y j))) ∧
        res.viStd[j]? = some ((((List.range N).map (quotFl F (pb.numVars + 1) X Y j)).mapM id).bind
          (std0Fl F order sqrt)) ∧
        res.dgsm[j]? = some ((varFl F order ((List.range N).map fun i => Y.getD (i * (pb.numVars + 1)) 0)).bind
          fun D => (meanFlN F order ((List.range N).map (quotFl F (pb.numVars + 1) X Y j))).bind fun vi =>
            dgsmIndexFl F pi2 (lo j) (hi j) D vi) ∧
        res.dgsmConf[j]? = some ((std1FlN F order sqrt ((draws j).map fun r =>
          meanFlN F order (r.map (quotFl F (pb.numVars + 1) X Y j)))).map (fmul F z)) := by
  have htake : X.take Y.length = X := by rw [List.take_of_length_le (by omega)]
  have hm := mapM_ok_of (l := List.range pb.numVars) (f := dgsmOneFl F order sqrt pi2 z pb X Y draws) (g := fun j =>
      ((meanFlN F order ((List.range N).map (quotFl F (pb.numVars + 1) X Y j)),
        (((List.range N).map (quotFl F (pb.numVars + 1) X Y j)).mapM id).bind (std0Fl F order sqrt)),
       ((varFl F order ((List.range N).map fun i => Y.getD (i * (pb.numVars + 1)) 0)).bind fun D =>
          (meanFlN F order ((List.range N).map (quotFl F (pb.numVars + 1) X Y j))).bind fun vi =>
            dgsmIndexFl F pi2 (lo j) (hi j) D vi),
       (std1FlN F order sqrt ((draws j).map fun r => meanFlN F order (r.map (quotFl F (pb.numVars + 1) X Y j)))).map
          (fmul F z)))
    (by
      intro j hj
      have hj := List.mem_range.mp hj
      obtain ⟨rest, hbj⟩ := hb j hj
      exact dgsmOneFl_eq order sqrt pi2 z pb X Y draws N j (lo j) (hi j) rest hY hX hcols hj hbj (hdraws j hj))
  unfold dgsmAnalyzeFl
  rw [if_neg (by rw [hY]; simp), if_neg (by simpa using hconf), if_neg (by omega), htake, hm, pyBind_ok]
  refine ⟨_, rfl, rfl, ?_⟩
  intro j hj
  simp [hj]

theorem mapM_some_map {β γ : Type} (l : List β) (f : β → Num γ) (g : β → γ) (h : ∀ x ∈ l, f x = some (g x)) :
    (l.map f).mapM id = some (l.map g) := by
  induction l with
  | nil => rfl
  | cons a l ih =>
    rw [List.map_cons, List.mapM_cons, h a (by simp), ih fun x hx => h x (List.mem_cons_of_mem _ hx)]
    rfl

theorem mapM_none {γ : Type} (l : List (Num γ)) (h : none ∈ l) : l.mapM id = none := by
  induction l with
  | nil => simp at h
  | cons a l ih =>
    rw [List.mapM_cons]
    rcases List.mem_cons.mp h with h | h
    · rw [← h]; rfl
    · rw [ih h]
      cases a <;> rfl

theorem abs_fl (x : ℚ) : |fl F x| = fl F |x| := by
  rcases le_total 0 x with h | h
  · rw [abs_of_nonneg h, abs_of_nonneg (fl_nonneg h)]
  · have : 0 ≤ fl F (-x) := fl_nonneg (by linarith)
    rw [abs_of_nonpos h, fl_neg, abs_of_nonpos (by rw [fl_neg] at this; linarith)]

theorem isFloat_two_zpow (hp : 1 ≤ F.p) {k : ℤ} (hk : F.emin ≤ k) : IsFloat F ((2 : ℚ) ^ k) := by
  refine ⟨1, k, hk, ?_, by simp⟩
  have : (2 : ℤ) ^ 1 ≤ 2 ^ F.p := pow_le_pow_right₀ (by norm_num) hp
  simp only [abs_one]; omega

/-- A squared quotient against its exact value. -/
theorem quotSqFl_within (hp : 2 ≤ F.p) (he : F.emin ≤ 0) {a b s : ℚ} (ha : IsFloat F a) (hb : IsFloat F b)
    (hs : s ≠ 0) {k : ℤ} (hk : F.emin + 2 * F.p + 1 ≤ 2 * k) (hq : a = b ∨ (2 : ℚ) ^ k ≤ |(a - b) / s|) :
    ∃ q, quotSqFl F (fsub F a b) s = some q ∧ IsFloat F q ∧ 0 ≤ q ∧
      Within ((2 : ℚ) ^ (-(F.p : ℤ))) 5 (((a - b) / s) ^ 2) q ∧ (q = 0 ∨ (2 : ℚ) ^ (2 * k - 2) ≤ q) := by
  have hp1 : 1 ≤ F.p := by omega
  have hu := two_zpow_pos (-(F.p : ℤ))
  have hu4 := u_le_quarter hp
  refine ⟨fmul F (fdiv F (fsub F a b) s) (fdiv F (fsub F a b) s), by rw [quotSqFl, if_neg hs], isFloat_fl hp1 _, fl_nonneg (mul_self_nonneg _), ?_, ?_⟩
  · rcases hq with rfl | hq
    · simp [fsub, fdiv, fmul, fl_zero, Within]
    have hd : Within ((2 : ℚ) ^ (-(F.p : ℤ))) 1 ((a - b) / s) (fsub F a b / s) :=
      (Within.of_err (fl_sub_err hp1 ha hb)).div_const s
    have hbig : (2 : ℚ) ^ (k - 1) ≤ |fsub F a b / s| := by
      have h1 := abs_sub_abs_le_abs_sub ((a - b) / s) (fsub F a b / s)
      rw [abs_sub_comm] at h1
      unfold Within at hd
      rw [zpow_sub_one₀ (by norm_num)]
      rw [pow_one] at hd
      have h2 : 2 ^ (-(F.p : ℤ)) * |(a - b) / s| ≤ 1 / 4 * |(a - b) / s| :=
        mul_le_mul_of_nonneg_right hu4 (abs_nonneg _)
      have h3 := two_zpow_pos k
      linarith
    have hr := hd.trans hu.le (fl_within (F := F) (fsub F a b / s)
      (Or.inr ((two_zpow_le (by omega)).trans hbig)))
    have hrb : (2 : ℚ) ^ (k - 1) ≤ |fdiv F (fsub F a b) s| := by
      rw [fdiv, abs_fl]
      exact le_fl_of_le hp1 (isFloat_two_zpow hp1 (by omega)) hbig
    have hsq := hr.mul hu.le hr
    have hnorm : (2 : ℚ) ^ (F.emin + F.p - 1) ≤ |fdiv F (fsub F a b) s * fdiv F (fsub F a b) s| := by
      rw [abs_mul]
      refine (two_zpow_le (show F.emin + F.p - 1 ≤ (k - 1) + (k - 1) by omega)).trans ?_
      rw [zpow_add₀ (by norm_num)]
      exact mul_le_mul hrb hrb (two_zpow_pos _).le (abs_nonneg _)
    have := hsq.trans hu.le (fl_within (F := F) _ (Or.inr hnorm))
    rw [pow_two]
    exact this
  · rcases hq with rfl | hq
    · left; simp [fsub, fdiv, fmul, fl_zero]
    right
    have hbig : (2 : ℚ) ^ (k - 1) ≤ |fsub F a b / s| := by
      have hd : Within ((2 : ℚ) ^ (-(F.p : ℤ))) 1 ((a - b) / s) (fsub F a b / s) :=
        (Within.of_err (fl_sub_err hp1 ha hb)).div_const s
      have h1 := abs_sub_abs_le_abs_sub ((a - b) / s) (fsub F a b / s)
      rw [abs_sub_comm] at h1
      unfold Within at hd
      rw [zpow_sub_one₀ (by norm_num)]
      rw [pow_one] at hd
      have h2 : 2 ^ (-(F.p : ℤ)) * |(a - b) / s| ≤ 1 / 4 * |(a - b) / s| :=
        mul_le_mul_of_nonneg_right hu4 (abs_nonneg _)
      have h3 := two_zpow_pos k
      linarith
    have hrb : (2 : ℚ) ^ (k - 1) ≤ |fdiv F (fsub F a b) s| := by
      rw [fdiv, abs_fl]
      exact le_fl_of_le hp1 (isFloat_two_zpow hp1 (by omega)) hbig
    refine le_fl_of_le hp1 (isFloat_two_zpow hp1 (by omega)) ?_
    rw [← abs_mul_self, abs_mul, show 2 * k - 2 = (k - 1) + (k - 1) by ring, zpow_add₀ (by norm_num)]
    exact mul_le_mul hrb hrb (two_zpow_pos _).le (abs_nonneg _)

theorem sum_within {u : ℚ} {n : Nat} (l : List Nat) (f g : Nat → ℚ) (h0 : ∀ i ∈ l, 0 ≤ f i)
    (h : ∀ i ∈ l, Within u n (f i) (g i)) : Within u n (l.map f).sum (l.map g).sum := by
  have hs : 0 ≤ (l.map f).sum := List.sum_nonneg (by
    intro x hx
    obtain ⟨i, hi, rfl⟩ := List.mem_map.mp hx
    exact h0 i hi)
  unfold Within
  rw [abs_of_nonneg hs]
  clear hs
  induction l with
  | nil => simp
  | cons a l ih =>
    simp only [List.map_cons, List.sum_cons]
    have h1 := ih (fun i hi => h0 i (List.mem_cons_of_mem _ hi)) (fun i hi => h i (List.mem_cons_of_mem _ hi))
    have h2 := h a (by simp)
    unfold Within at h2
    rw [abs_of_nonneg (h0 a (by simp))] at h2
    rw [show g a + (l.map g).sum - (f a + (l.map f).sum) = (g a - f a) + ((l.map g).sum - (l.map f).sum) by ring]
    refine (abs_add_le _ _).trans ?_
    rw [mul_add]
    exact add_le_add h2 h1

/-- A mean of non-negative numbers that are not too small. -/
theorem meanFl_within (hp : 2 ≤ F.p) {order : Nat → SumTree} (ho : SumOrder order) {N : Nat} (hN : 0 < N)
    (hN2 : N ≤ 2 ^ F.p) {n : Nat} (f g : Nat → ℚ) (h0 : ∀ i < N, 0 ≤ f i) (g0 : ∀ i < N, 0 ≤ g i)
    (hf : ∀ i < N, IsFloat F (g i)) (h : ∀ i < N, Within ((2 : ℚ) ^ (-(F.p : ℤ))) n (f i) (g i))
    (hbig : ∀ i < N, g i = 0 ∨ (2 : ℚ) ^ (F.emin + 2 * F.p - 1) ≤ g i) :
    ∃ v, meanFl F order ((List.range N).map g) = some v ∧
      Within ((2 : ℚ) ^ (-(F.p : ℤ))) (n + N) (((List.range N).map f).sum / N) v := by
  have hp1 : 1 ≤ F.p := by omega
  have hu := two_zpow_pos (-(F.p : ℤ))
  set xs := (List.range N).map g with hxs
  have hlen : xs.length = N := by simp [hxs]
  have hne : xs ≠ [] := by rw [← List.length_pos_iff]; omega
  have hxf : ∀ x ∈ xs, IsFloat F x := by
    intro x hx
    obtain ⟨i, hi, rfl⟩ := List.mem_map.mp hx
    exact hf i (List.mem_range.mp hi)
  have hx0 : ∀ x ∈ xs, 0 ≤ x := by
    intro x hx
    obtain ⟨i, hi, rfl⟩ := List.mem_map.mp hx
    exact g0 i (List.mem_range.mp hi)
  refine ⟨fdiv F (sumFl F xs (order N)) N, by rw [meanFl, if_neg (by omega), hlen], ?_⟩
  have h1 := sum_within (List.range N) f g (fun i hi => h0 i (List.mem_range.mp hi))
    (fun i hi => h i (List.mem_range.mp hi))
  have h2 := sumFl_within hp1 ho hne hxf hx0
  rw [hlen] at h2
  have h3 := (h1.trans hu.le h2).div_const (N : ℚ)
  have hN' : (0 : ℚ) < N := by exact_mod_cast hN
  have h4 : sumFl F xs (order N) / N = 0 ∨ (2 : ℚ) ^ (F.emin + F.p - 1) ≤ |sumFl F xs (order N) / N| := by
    by_cases hz : ∀ x ∈ xs, x = 0
    · left; rw [sumFl_zeros hz, zero_div]
    · right
      push Not at hz
      obtain ⟨x, hx, hxz⟩ := hz
      obtain ⟨i, hi, rfl⟩ := List.mem_map.mp hx
      have hi' := List.mem_range.mp hi
      obtain ⟨s0, s1⟩ := le_sumFl hp1 hxf hx0 (order N)
      have hmem : i ∈ (order N).leaves := (ho N hN).symm.subset hi
      have := s1 i hmem
      rw [hxs, List.getD_eq_getElem?_getD, List.getElem?_map, List.getElem?_range hi', ← hxs] at this
      simp only [Option.map_some, Option.getD_some] at this
      have hb := ((hbig i hi').resolve_left hxz).trans this
      rw [abs_of_nonneg (div_nonneg s0 hN'.le), le_div_iff₀ hN']
      refine le_trans ?_ hb
      rw [show F.emin + 2 * F.p - 1 = (F.emin + F.p - 1) + F.p by ring, zpow_add₀ (by norm_num), zpow_natCast]
      exact mul_le_mul_of_nonneg_left (by exact_mod_cast hN2) (two_zpow_pos _).le
  have h5 := h3.trans hu.le (fl_within (F := F) _ h4)
  rw [show n + (N - 1) + 1 = n + N by omega] at h5
  exact h5

end SALib
