import Verif.Model.FloatLatin
import Verif.Spec.FloatLatin
import Verif.Lemmas.FloatMorris
import Verif.Props.Latin

/-! # Latin hypercube sampling with its rounding: lemmas -/

namespace SALib
open Spec

variable {F : Fmt}

theorem fl_one_add (hp : 2 ≤ F.p) (he : F.emin + F.p ≤ 0) : fl F (1 + (2 : ℚ) ^ (-(F.p : ℤ))) = 1 := by
  have hu := two_zpow_pos (-(F.p : ℤ))
  have hu4 := u_le_quarter (F := F) hp
  have hlog : Int.log 2 |1 + (2 : ℚ) ^ (-(F.p : ℤ))| = 0 := by
    have hpos : (0 : ℚ) < 1 + (2 : ℚ) ^ (-(F.p : ℤ)) := by linarith
    have h1 := log_le_abs hpos.ne'
    have h2 := abs_lt_log (1 + (2 : ℚ) ^ (-(F.p : ℤ)))
    rw [abs_of_pos hpos] at *
    have a : (2 : ℚ) ^ Int.log 2 (1 + (2 : ℚ) ^ (-(F.p : ℤ))) < (2 : ℚ) ^ (1 : ℤ) := by
      rw [zpow_one]; linarith
    have b : (2 : ℚ) ^ (0 : ℤ) < (2 : ℚ) ^ (Int.log 2 (1 + (2 : ℚ) ^ (-(F.p : ℤ))) + 1) := by
      rw [zpow_zero]; linarith
    have a' := two_zpow_lt_iff.1 a
    have b' := two_zpow_lt_iff.1 b
    omega
  have hue : ulpExp F (1 + (2 : ℚ) ^ (-(F.p : ℤ))) = 1 - F.p := by
    unfold ulpExp
    rw [hlog]
    exact (max_eq_left (by omega)).trans (by ring)
  obtain ⟨q, hq⟩ : ∃ q : Nat, F.p = q + 2 := ⟨F.p - 2, by omega⟩
  have hdiv : (1 + (2 : ℚ) ^ (-(F.p : ℤ))) / (2 : ℚ) ^ (1 - (F.p : ℤ)) = ((2 * 2 ^ q : ℤ) : ℚ) + 1 / 2 := by
    rw [hq]
    push_cast
    rw [show (1 : ℤ) - ((q : ℤ) + 2) = -(q : ℤ) - 1 by ring, show -((q : ℤ) + 2) = -(q : ℤ) - 2 by ring,
      zpow_sub₀ (by norm_num), zpow_sub₀ (by norm_num), zpow_neg, zpow_natCast]
    field_simp
  have hfloor : ⌊((2 * 2 ^ q : ℤ) : ℚ) + 1 / 2⌋ = 2 * 2 ^ q := by
    rw [Int.floor_eq_iff]
    constructor <;> push_cast <;> linarith
  have hre : roundEven (((2 * 2 ^ q : ℤ) : ℚ) + 1 / 2) = 2 * 2 ^ q := by
    unfold roundEven
    rw [hfloor]
    rw [if_neg (by linarith), if_neg (by linarith), if_pos ⟨_, rfl⟩]
  unfold fl
  rw [hue, hdiv, hre, hq]
  push_cast
  rw [show (1 : ℤ) - ((q : ℤ) + 2) = -(q : ℤ) - 1 by ring, zpow_sub₀ (by norm_num), zpow_neg, zpow_natCast]
  field_simp

theorem isFloat_two_mul {x : ℚ} (h : IsFloat F x) : IsFloat F (2 * x) := by
  obtain ⟨m, e, he, hm, rfl⟩ := h
  exact ⟨m, e + 1, by omega, hm, by rw [zpow_add_one₀ (by norm_num)]; ring⟩

/-- The edges of the cells as the code computes them. -/
def latinEdge (F : Fmt) (N j : Nat) : ℚ := fmul F j (fdiv F 1 N)

theorem latinStep (hF : F.emin + 2 * F.p + 4 ≤ 0) {N : Nat} (hN : 0 < N) (h8 : 8 * N ≤ 2 ^ F.p) :
    |fdiv F 1 N - 1 / N| ≤ 1 / N * (2 : ℚ) ^ (-(F.p : ℤ)) ∧
      (2 : ℚ) ^ (F.emin + F.p - 1) ≤ 1 / 2 * (1 / (N : ℚ)) := by
  have hN' : (0 : ℚ) < N := by exact_mod_cast hN
  have hlow : (2 : ℚ) ^ (-(F.p : ℤ)) ≤ 1 / N := by
    rw [zpow_neg, zpow_natCast, ← one_div]
    refine one_div_le_one_div_of_le hN' ?_
    have : N ≤ 2 ^ F.p := by omega
    exact_mod_cast this
  have hsm : (2 : ℚ) ^ (F.emin + F.p - 1) ≤ 1 / 2 * (2 : ℚ) ^ (-(F.p : ℤ)) := by
    have : (2 : ℚ) ^ (F.emin + F.p - 1) ≤ (2 : ℚ) ^ (-(F.p : ℤ) - 1) := two_zpow_le (by omega)
    rw [zpow_sub_one₀ (by norm_num) (-(F.p : ℤ))] at this
    linarith
  have hpos : (0 : ℚ) < 1 / N := by positivity
  refine ⟨?_, by linarith⟩
  have := fl_err_normal (F := F) (x := 1 / (N : ℚ)) (by rw [abs_of_pos hpos]; have := two_zpow_pos (-(F.p : ℤ)); linarith)
  rwa [abs_of_pos hpos] at this

theorem latinEdge_near (hF : F.emin + 2 * F.p + 4 ≤ 0) {N : Nat} (hN : 0 < N) (h8 : 8 * N ≤ 2 ^ F.p) (j : Nat) :
    |latinEdge F N j - (j : ℚ) / N| ≤ 3 * (2 : ℚ) ^ (-(F.p : ℤ)) * ((j : ℚ) / N) := by
  have hN' : (0 : ℚ) < N := by exact_mod_cast hN
  have hp : 3 ≤ F.p := by
    by_contra h
    have : 2 ^ F.p ≤ 2 ^ 2 := Nat.pow_le_pow_right (by norm_num) (by omega)
    omega
  have hu := two_zpow_pos (-(F.p : ℤ))
  have hu4 := u_le_quarter (F := F) (by omega)
  obtain ⟨hd, hsm⟩ := latinStep hF hN h8
  rcases Nat.eq_zero_or_pos j with rfl | hj
  · simp [latinEdge, fmul, fl_zero]
  have hj' : (1 : ℚ) ≤ j := by exact_mod_cast hj
  set d := fdiv F 1 N with hdd
  set u := (2 : ℚ) ^ (-(F.p : ℤ)) with huu
  have hpos : (0 : ℚ) < 1 / N := by positivity
  rw [abs_le] at hd
  have hdlow : 1 / 2 * (1 / (N : ℚ)) ≤ d := by nlinarith
  have hjd : d ≤ j * d := by nlinarith
  have he := fl_err_normal (F := F) (x := j * d) (by rw [abs_of_pos (by nlinarith)]; linarith)
  rw [abs_of_pos (by nlinarith : (0 : ℚ) < j * d), ← huu] at he
  rw [abs_le] at he
  have hjN : (j : ℚ) / N = j * (1 / N) := by ring
  have h1 : j * d ≤ j / N + j / N * u := by rw [hjN]; nlinarith
  have h2 : j / N - j / N * u ≤ j * d := by rw [hjN]; nlinarith
  have hjN0 : (0 : ℚ) ≤ j / N := by positivity
  have h3 : j * d * u ≤ 5 / 4 * (j / N) * u := by
    have : j * d ≤ 5 / 4 * (j / N) := by nlinarith
    nlinarith
  have h4 : (j : ℚ) / N * u ≥ 0 := by positivity
  unfold latinEdge fmul
  rw [← hdd, abs_le]
  constructor <;> nlinarith

theorem latinEdge_ascending (hF : F.emin + 2 * F.p + 4 ≤ 0) {N : Nat} (hN : 0 < N) (h8 : 8 * N ≤ 2 ^ F.p) (j : Nat)
    (hj : j < N) : latinEdge F N j < latinEdge F N (j + 1) := by
  have hN' : (0 : ℚ) < N := by exact_mod_cast hN
  have a := latinEdge_near hF hN h8 j
  have b := latinEdge_near hF hN h8 (j + 1)
  have hu := two_zpow_pos (-(F.p : ℤ))
  have huN : 8 * (2 : ℚ) ^ (-(F.p : ℤ)) ≤ 1 / N := by
    rw [zpow_neg, zpow_natCast, le_div_iff₀ hN', mul_assoc, inv_mul_eq_div, mul_div_assoc', div_le_one (by positivity)]
    exact_mod_cast h8
  have h1 : (j : ℚ) / N ≤ 1 := by rw [div_le_one hN']; exact_mod_cast hj.le
  have h2 : ((j + 1 : Nat) : ℚ) / N ≤ 1 := by rw [div_le_one hN']; exact_mod_cast hj
  have h3 : ((j + 1 : Nat) : ℚ) / N = j / N + 1 / N := by push_cast; ring
  rw [abs_le] at a b
  nlinarith

theorem latinEdge_last (hF : F.emin + 2 * F.p + 4 ≤ 0) {N : Nat} (hN : 0 < N) (h8 : 8 * N ≤ 2 ^ F.p) :
    latinEdge F N N ≤ 1 := by
  have hN' : (0 : ℚ) < N := by exact_mod_cast hN
  have hp : 3 ≤ F.p := by
    by_contra h
    have : 2 ^ F.p ≤ 2 ^ 2 := Nat.pow_le_pow_right (by norm_num) (by omega)
    omega
  obtain ⟨hd, -⟩ := latinStep hF hN h8
  rw [abs_le] at hd
  rw [← fl_one_add (F := F) (by omega) (by omega)]
  refine fl_mono (by omega) ?_
  calc (N : ℚ) * fdiv F 1 N ≤ N * (1 / N + 1 / N * (2 : ℚ) ^ (-(F.p : ℤ))) := by
        refine mul_le_mul_of_nonneg_left ?_ hN'.le; linarith
    _ = 1 + (2 : ℚ) ^ (-(F.p : ℤ)) := by field_simp

theorem latinEdge_isFloat (hp : 1 ≤ F.p) (N j : Nat) : IsFloat F (latinEdge F N j) := isFloat_fl hp _

/-- The width of a cell is exact. -/
theorem latinEdge_width (hF : F.emin + 2 * F.p + 4 ≤ 0) {N : Nat} (hN : 0 < N) (h8 : 8 * N ≤ 2 ^ F.p) (j : Nat)
    (hj : j < N) : IsFloat F (latinEdge F N (j + 1) - latinEdge F N j) := by
  have hN' : (0 : ℚ) < N := by exact_mod_cast hN
  have hp : 3 ≤ F.p := by
    by_contra h
    have : 2 ^ F.p ≤ 2 ^ 2 := Nat.pow_le_pow_right (by norm_num) (by omega)
    omega
  have hlt := latinEdge_ascending hF hN h8 j hj
  rcases Nat.eq_zero_or_pos j with rfl | hj0
  · have : latinEdge F N 0 = 0 := by simp [latinEdge, fmul, fl_zero]
    rw [this, sub_zero]
    exact latinEdge_isFloat (by omega) _ _
  refine sterbenz (by omega) (latinEdge_isFloat (by omega) _ _) (latinEdge_isFloat (by omega) _ _) ?_ ?_
  · have h0 := latinEdge_near hF hN h8 j
    have hu8 : (2 : ℚ) ^ (-(F.p : ℤ)) ≤ 1 / 8 := by
      have : (2 : ℚ) ^ (-(F.p : ℤ)) ≤ (2 : ℚ) ^ (-3 : ℤ) := two_zpow_le (by omega)
      norm_num at this ⊢; linarith
    have hx : (0 : ℚ) ≤ j / N := by positivity
    rw [abs_le] at h0
    nlinarith
  · rcases Nat.lt_or_ge j 2 with h2 | h2
    · have : j = 1 := by omega
      subst this
      have e1 : latinEdge F N 1 = fdiv F 1 N := by
        unfold latinEdge fmul; rw [Nat.cast_one, one_mul]; exact fl_fl (by omega) _
      have e2 : latinEdge F N (1 + 1) = 2 * fdiv F 1 N := by
        unfold latinEdge fmul
        rw [show ((1 + 1 : Nat) : ℚ) = 2 by norm_num]
        exact fl_eq (by omega) (isFloat_two_mul (isFloat_fl (by omega) _))
      rw [e1, e2]
    · have ha := latinEdge_near hF hN h8 (j + 1)
      have hb := latinEdge_near hF hN h8 j
      have hu8 : (2 : ℚ) ^ (-(F.p : ℤ)) ≤ 1 / 8 := by
        have : (2 : ℚ) ^ (-(F.p : ℤ)) ≤ (2 : ℚ) ^ (-3 : ℤ) := two_zpow_le (by omega)
        norm_num at this ⊢; linarith
      obtain ⟨hd, hsm⟩ := latinStep hF hN h8
      have hj2 : (2 : ℚ) ≤ j := by exact_mod_cast h2
      set d := fdiv F 1 N with hdd
      have hpos : (0 : ℚ) < 1 / N := by positivity
      rw [abs_le] at hd
      have hdlow : 1 / 2 * (1 / (N : ℚ)) ≤ d := by nlinarith
      have hjd : d ≤ j * d := by nlinarith
      have he := fl_err_normal (F := F) (x := j * d) (by rw [abs_of_pos (by nlinarith)]; linarith)
      rw [abs_of_pos (by nlinarith : (0 : ℚ) < j * d), abs_le] at he
      refine fl_le_of_le (by omega) (isFloat_two_mul (latinEdge_isFloat (by omega) _ _)) ?_
      unfold latinEdge fmul
      rw [← hdd]
      push_cast
      nlinarith

theorem latinDrawFl_cell (hF : F.emin + 2 * F.p + 4 ≤ 0) {N : Nat} (h8 : 8 * N ≤ 2 ^ F.p)
    (draws : LatinDraws ℚ) (g s : Nat) (hs : s < N) (hu : 0 ≤ draws.u s g ∧ draws.u s g < 1) :
    ∃ x, (latinDrawFl F draws N g)[s]? = some x ∧ IsFloat F x ∧ latinEdge F N s ≤ x ∧ x ≤ latinEdge F N (s + 1) := by
  have hN : 0 < N := by omega
  have hp : 3 ≤ F.p := by
    by_contra h
    have : 2 ^ F.p ≤ 2 ^ 2 := Nat.pow_le_pow_right (by norm_num) (by omega)
    omega
  have hp1 : 1 ≤ F.p := by omega
  have hw := latinEdge_width hF hN h8 s hs
  have hlt := latinEdge_ascending hF hN h8 s hs
  have hl := latinEdge_isFloat hp1 N s
  have hh := latinEdge_isFloat hp1 N (s + 1)
  refine ⟨fadd F (latinEdge F N s) (fmul F (fsub F (latinEdge F N (s + 1)) (latinEdge F N s)) (draws.u s g)), ?_,
    isFloat_fl hp1 _, ?_, ?_⟩
  · simp [latinDrawFl, hs, latinEdge]
  · refine le_fl_of_le hp1 hl ?_
    have : 0 ≤ fmul F (fsub F (latinEdge F N (s + 1)) (latinEdge F N s)) (draws.u s g) :=
      fl_nonneg (mul_nonneg (fl_nonneg (by linarith)) hu.1)
    linarith
  · refine fl_le_of_le hp1 hh ?_
    have hsub : fsub F (latinEdge F N (s + 1)) (latinEdge F N s) = latinEdge F N (s + 1) - latinEdge F N s :=
      fl_eq hp1 hw
    have : fmul F (fsub F (latinEdge F N (s + 1)) (latinEdge F N s)) (draws.u s g) ≤
        latinEdge F N (s + 1) - latinEdge F N s := by
      refine fl_le_of_le hp1 hw ?_
      rw [hsub]
      nlinarith [hu.1, hu.2]
    linarith

/-- The sample is filled as in exact arithmetic. -/
theorem latinUnitFl_form (F : Fmt) (junk : ℚ) (pb : Problem ℚ) (N : Nat) (hN : 0 < N)
    (hlab : ∀ gs, latinLabels pb = some gs → gs.length = pb.numVars) :
    ∃ ng groupOf, GroupNumbering pb.numVars (latinLabels pb) ng groupOf ∧ (∀ v < pb.numVars, groupOf v < ng) ∧
      ∀ draws : LatinDraws ℚ, latinUnitFl F draws junk pb N =
        .ok ((List.range N).map fun s => (List.range pb.numVars).map fun v =>
          (draws.shuffle (groupOf v) (latinDrawFl F draws N (groupOf v))).getD s 0) := by
  obtain ⟨ng, groupOf, h1, h2, h3⟩ := latinUnit_form junk pb N hN hlab
  exact ⟨ng, groupOf, h1, h2, fun draws =>
    h3 { u := draws.u, shuffle := fun g _ => draws.shuffle g (latinDrawFl F draws N g) }⟩

/-- A permutation of a list can be read off with a renumbering. -/
theorem perm_renumber {β : Type} {l l' : List β} (h : l'.Perm l) :
    ∃ cell : Nat → Nat, (∀ s < l.length, cell s < l.length) ∧ (∀ j < l.length, ∃! s, s < l.length ∧ cell s = j) ∧
      ∀ s < l.length, l'[s]? = l[cell s]? := by
  classical
  have hlen := h.length_eq
  refine ⟨fun s => if hs : s < l'.length then (h.idxBij ⟨s, hs⟩ : Nat) else 0, ?_, ?_, ?_⟩
  · intro s hs
    simp only [dif_pos (show s < l'.length by omega)]
    exact (h.idxBij _).2
  · intro j hj
    refine ⟨h.symm.idxBij ⟨j, hj⟩, ⟨by have := (h.symm.idxBij ⟨j, hj⟩).2; omega, ?_⟩, ?_⟩
    · simp only [dif_pos (h.symm.idxBij ⟨j, hj⟩).2]
      exact congrArg Fin.val (h.idxBij_leftInverse_idxBij_symm ⟨j, hj⟩)
    · rintro s ⟨hs, hc⟩
      have hs' : s < l'.length := by omega
      simp only [dif_pos hs'] at hc
      have : h.idxBij ⟨s, hs'⟩ = ⟨j, hj⟩ := Fin.ext hc
      rw [← this, h.idxBij_rightInverse_idxBij_symm ⟨s, hs'⟩]
  · intro s hs
    have hs' : s < l'.length := by omega
    simp only [dif_pos hs']
    rw [List.getElem?_eq_getElem hs', List.getElem?_eq_getElem (h.idxBij ⟨s, hs'⟩).2]
    exact congrArg some (h.getElem_idxBij_eq_getElem ⟨s, hs'⟩).symm

end SALib
