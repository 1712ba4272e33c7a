import Verif.Lemmas.FloatFast
import Verif.Props.FloatCount
import Verif.Props.FloatScale

/-! # C115: the eFAST sampler in floating point -/

namespace SALib
open Spec Real

variable {F : Fmt}

/-- **C115**, the unit cube: every point is a number of the format in [0,1], near the point of the search curve with the
rounded frequencies.  The error is the square root of the error of the sine, as the arcsine is vertical at its ends. -/
theorem C115_unit (hp : 5 ≤ F.p) (he : F.emin + 2 * F.p ≤ 0) (T : TrigFl) (δ : ℝ) (hT : TrigNear F T δ) (u : Nat → ℚ)
    (hu : ∀ i, 0 ≤ u i ∧ u i ≤ 1) (N M D : Nat) (hN : 4 * M ^ 2 < N) (hM : 0 < M) (hD : 0 < D) (hs : N * D < 2 ^ F.p) :
    ∃ (X : Mat ℚ) (freq : Nat → Nat → Nat), fastUnitFl F T u N M D = .ok X ∧ X.length = N * D ∧ HasCols D X ∧
      (∀ i < D, freq i i = (N - 1) / (2 * M)) ∧
      (∀ i < D, ∀ j < D, j ≠ i → 1 ≤ freq i j ∧ M * freq i j ≤ (N - 1) / (2 * M) / 2) ∧
      ∀ i < D, ∀ n < N, ∀ j < D, ∃ x, entry X (i * N + n) j = some x ∧ IsFloat F x ∧ 0 ≤ x ∧ x ≤ 1 ∧
        |(x : ℝ) - searchCurve N (freq i j) (2 * π * u i) n|
          ≤ √(δ / 2) + δ + 16 * (freq i j + 1) * (2 : ℝ) ^ (-(F.p : ℤ)) := by
  have ho : ∃ omega, fastOmegaFl F N M D = .ok omega := by
    unfold fastOmegaFl
    rw [if_neg (by omega), if_neg (by omega), if_neg (by omega)]
    exact ⟨_, rfl⟩
  obtain ⟨omega, ho⟩ := ho
  obtain ⟨w0, exact', rest, -, e, ew, hl, -, h1, h2, -⟩ := C107_frequencies (by omega) (by omega) N M D omega hs ho
  have hNp : N < 2 ^ F.p := lt_of_le_of_lt (Nat.le_mul_of_pos_right N hD) hs
  have hlen : omega.length = D := by rw [e]; simpa using hl
  have hX := fastUnitFl_eq T u N M D omega ho hlen
  have hpn := abs_le.mp hT.pi_near
  have hε : (2 : ℝ) ^ (1 - (F.p : ℤ)) ≤ 1 / 16 := by
    calc (2 : ℝ) ^ (1 - (F.p : ℤ)) ≤ (2 : ℝ) ^ (-4 : ℤ) := zpow_le_zpow_right₀ (by norm_num) (by omega)
      _ = 1 / 16 := by norm_num
  have hpi3 := pi_gt_d2
  have hpi4 := pi_lt_d2
  have hP3 : 3 ≤ T.pi := by
    have : (3 : ℝ) ≤ T.pi := by linarith
    exact_mod_cast this
  have hP4 : T.pi ≤ 4 := by
    have : (T.pi : ℝ) ≤ 4 := by linarith
    exact_mod_cast this
  have hP0 : 0 < T.pi := by linarith
  have hrn : (2 : ℚ) ^ (F.emin + F.p - 1) ≤ 1 / T.pi := by
    have h4 : 1 / 4 ≤ 1 / T.pi := one_div_le_one_div_of_le hP0 hP4
    have : (2 : ℚ) ^ (F.emin + F.p - 1) ≤ (2 : ℚ) ^ (-2 : ℤ) := two_zpow_le (by omega)
    refine this.trans (le_trans (by norm_num) h4)
  refine ⟨_, blockFreq (omega.map Int.toNat), hX, by simp, ?_, ?_, ?_, ?_⟩
  · intro row hr
    obtain ⟨r, -, rfl⟩ := List.mem_map.mp hr
    simp
  · intro i hi
    rw [← ew]
    simp [blockFreq, e]
  · intro i hi j hj hji
    have hmem : ∃ w ∈ rest, blockFreq (omega.map Int.toNat) i j = w.toNat := by
      have hget : ∀ k < rest.length, ∃ w ∈ rest, (omega.map Int.toNat).getD (k + 1) 0 = w.toNat := by
        intro k hk
        refine ⟨rest[k], List.getElem_mem _, ?_⟩
        rw [e, List.map_cons, List.getD_cons_succ, List.getD_eq_getElem?_getD, List.getElem?_map,
          List.getElem?_eq_getElem hk]
        rfl
      unfold blockFreq
      rw [if_neg hji]
      split
      · exact hget j (by omega)
      · obtain ⟨j', rfl⟩ : ∃ j', j = j' + 1 := ⟨j - 1, by omega⟩
        exact hget j' (by omega)
    obtain ⟨w, hw, hf⟩ := hmem
    rw [hf]
    have a := h1 w hw
    have b := (h2 w hw M hM le_rfl).2
    obtain ⟨w', rfl⟩ := Int.eq_ofNat_of_zero_le (by omega : 0 ≤ w)
    rw [← ew, Int.toNat_natCast]
    exact ⟨by omega, by exact_mod_cast b⟩
  · intro i hi n hn j hj
    have h1 : (i * N + n) / N = i := by
      rw [mul_comm, Nat.mul_add_div (by omega), Nat.div_eq_of_lt hn, add_zero]
    have h2 : (i * N + n) % N = n := by rw [mul_comm, Nat.mul_add_mod, Nat.mod_eq_of_lt hn]
    have h3 : i * N + n < N * D := by
      calc i * N + n < i * N + N := by omega
        _ = N * (i + 1) := by ring
        _ ≤ N * D := Nat.mul_le_mul_left _ (by omega)
    have hunit := fastCurveFl_unit (F := F) (by omega) (by omega) hP0 hrn
      (fun t => hT.asin_le _ (hT.sin_le t)) (blockFreq (omega.map Int.toNat) i j) (fastGridFl F T N n)
      (fmul F (fmul F 2 T.pi) (u i))
    refine ⟨_, ?_, hunit.1, hunit.2.1, hunit.2.2, fastCurveFl_err hp he hT hNp hn (hu i).1 (hu i).2⟩
    unfold entry
    rw [List.getElem?_map, List.getElem?_range h3, Option.map_some, Option.bind_some, List.getElem?_map,
      List.getElem?_range hj, h1, h2]
    rfl

/-- **C115**, the sample: within the lower bound, within the upper bound where the width of the range is a number of the
format or the search curve keeps away from its end, and near the exactly scaled point of the search curve. -/
theorem C115_sample (hp : 5 ≤ F.p) (he : F.emin + 2 * F.p ≤ 0) (T : TrigFl) (δ : ℝ) (hT : TrigNear F T δ) (u : Nat → ℚ)
    (hu : ∀ i, 0 ≤ u i ∧ u i ≤ 1) (pb : Problem ℚ) (bs : List (ℚ × ℚ)) (N M : Nat) (hN : 4 * M ^ 2 < N) (hM : 0 < M)
    (hD : pb.numVars = bs.length) (hb : pb.bounds = boundsTable bs) (hne : bs ≠ []) (hlegal : ∀ b ∈ bs, b.1 < b.2)
    (hfl : ∀ b ∈ bs, IsFloat F b.1 ∧ IsFloat F b.2) (hs : N * bs.length < 2 ^ F.p) :
    ∃ (X : Mat ℚ) (freq : Nat → Nat → Nat), fastSampleFl F T u pb N M = .ok X ∧ X.length = N * bs.length ∧
      HasCols bs.length X ∧ (∀ i < bs.length, freq i i = (N - 1) / (2 * M)) ∧
      (∀ i < bs.length, ∀ j < bs.length, j ≠ i → 1 ≤ freq i j ∧ M * freq i j ≤ (N - 1) / (2 * M) / 2) ∧
      ∀ i < bs.length, ∀ n < N, ∀ j lo hi, bs[j]? = some (lo, hi) → ∃ y, entry X (i * N + n) j = some y ∧ IsFloat F y ∧
        lo ≤ y ∧ (IsFloat F (hi - lo) → y ≤ hi) ∧
        (searchCurve N (freq i j) (2 * π * u i) n ≤ 1 - (√(δ / 2) + δ + 16 * (freq i j + 2) * (2 : ℝ) ^ (-(F.p : ℤ))) →
          y ≤ hi) ∧
        |(y : ℝ) - (lo + searchCurve N (freq i j) (2 * π * u i) n * (hi - lo))|
          ≤ (√(δ / 2) + δ + 16 * (freq i j + 1) * (2 : ℝ) ^ (-(F.p : ℤ))) * (hi - lo) +
            (2 : ℝ) ^ (3 - (F.p : ℤ)) * max |(lo : ℝ)| |(hi : ℝ)| + (2 : ℝ) ^ F.emin := by
  obtain ⟨X, freq, hX, hXl, hXc, hf1, hf2, hpt⟩ := C115_unit hp he T δ hT u hu N M bs.length hN hM
    (List.length_pos_iff.mpr hne) hs
  obtain ⟨Z, hZ, hshape, hent⟩ := C106_in_bounds_partial (F := F) (by omega) bs X hne hlegal hfl hXc (by
    intro row hrow x hx
    obtain ⟨r, hr, rfl⟩ := List.mem_iff_getElem.mp hrow
    obtain ⟨c, hc, rfl⟩ := List.mem_iff_getElem.mp hx
    have hc' : c < bs.length := by rw [← hXc _ hrow]; exact hc
    have hN0 : 0 < N := by omega
    rw [hXl] at hr
    obtain ⟨x, hx, -, h0, h1, -⟩ := hpt (r / N) (by rw [Nat.div_lt_iff_lt_mul hN0, mul_comm]; exact hr) (r % N)
      (Nat.mod_lt _ hN0) c hc'
    rw [Nat.div_add_mod' r N] at hx
    unfold entry at hx
    rw [List.getElem?_eq_getElem (by rw [hXl]; exact hr), Option.bind_some, List.getElem?_eq_getElem hc] at hx
    rw [Option.some.inj hx]
    exact ⟨h0, h1⟩)
  refine ⟨Z, freq, ?_, ?_, ?_, hf1, hf2, ?_⟩
  · unfold fastSampleFl
    rw [hD, hX, pyBind_ok, hb, hZ]
  · have := congrArg List.length hshape
    simp only [List.length_map] at this
    rw [← this, hXl]
  · intro row hrow
    have h1 : row.length ∈ Z.map List.length := List.mem_map_of_mem hrow
    rw [← hshape] at h1
    obtain ⟨r, hr, e⟩ := List.mem_map.mp h1
    rw [← e, hXc r hr]
  intro i hi n hn j lo hi' hbj
  have hj : j < bs.length := (List.getElem?_eq_some_iff.mp hbj).1
  obtain ⟨x, hx, hxf, hx0, hx1, hxe⟩ := hpt i hi n hn j hj
  obtain ⟨y, hy, hyf, hlo, herr, -, hup, hexact⟩ := hent _ _ _ _ _ hx hbj
  have hlt : lo < hi' := hlegal _ (List.mem_of_getElem? hbj)
  have hltr : (lo : ℝ) < hi' := by exact_mod_cast hlt
  refine ⟨y, hy, hyf, hlo, fun h => (hexact h).1, fun h => hup ?_, ?_⟩
  · have e2 : (2 : ℝ) ^ (1 - (F.p : ℤ)) = 2 * (2 : ℝ) ^ (-(F.p : ℤ)) := by
      rw [sub_eq_add_neg, zpow_add₀ (by norm_num), zpow_one]
    have h1 := (abs_le.mp hxe).2
    have h2 : (0 : ℝ) < (2 : ℝ) ^ (-(F.p : ℤ)) := by positivity
    have : (x : ℝ) ≤ ((1 - (2 : ℚ) ^ (1 - (F.p : ℤ)) : ℚ) : ℝ) := by
      push_cast
      rw [e2]
      linarith
    exact_mod_cast this
  · have h1 : |(y : ℝ) - (lo + x * (hi' - lo))| ≤ (2 : ℝ) ^ (3 - (F.p : ℤ)) * max |(lo : ℝ)| |(hi' : ℝ)| + (2 : ℝ) ^ F.emin := by
      have : ((|y - (lo + x * (hi' - lo))| : ℚ) : ℝ) ≤
          (((2 : ℚ) ^ (3 - (F.p : ℤ)) * max |lo| |hi'| + (2 : ℚ) ^ F.emin : ℚ) : ℝ) := by exact_mod_cast herr
      push_cast at this
      exact this
    set g := searchCurve N (freq i j) (2 * π * u i) n
    have h2 : |((lo : ℝ) + x * (hi' - lo)) - (lo + g * (hi' - lo))| ≤
        (√(δ / 2) + δ + 16 * (freq i j + 1) * (2 : ℝ) ^ (-(F.p : ℤ))) * (hi' - lo) := by
      have e : ((lo : ℝ) + x * (hi' - lo)) - (lo + g * (hi' - lo)) = (x - g) * (hi' - lo) := by ring
      rw [e, abs_mul, abs_of_pos (by linarith : (0 : ℝ) < hi' - lo)]
      exact mul_le_mul_of_nonneg_right hxe (by linarith)
    have := abs_sub_le (y : ℝ) (lo + x * (hi' - lo)) (lo + g * (hi' - lo))
    linarith

/-- A rational number within `δ` of a real number, no larger than `B`. -/
theorem exists_rat_near {a δ : ℝ} {B : ℚ} (hB : 0 < B) (hδ : 0 < δ) (ha : |a| < B + δ) :
    ∃ r : ℚ, |r| ≤ B ∧ |(r : ℝ) - a| ≤ δ := by
  have h := abs_lt.mp ha
  have hBr : (0 : ℝ) < B := by exact_mod_cast hB
  have hlt : max (a - δ) (-(B : ℝ)) < min (a + δ) (B : ℝ) := by
    rw [max_lt_iff, lt_min_iff, lt_min_iff]
    refine ⟨⟨by linarith, by linarith⟩, by linarith, by linarith⟩
  obtain ⟨r, h1, h2⟩ := exists_rat_btwn hlt
  rw [max_lt_iff] at h1
  rw [lt_min_iff] at h2
  refine ⟨r, ?_, abs_le.mpr ⟨by linarith, by linarith⟩⟩
  rw [abs_le]
  constructor
  · have := h1.2.le
    exact_mod_cast this
  · have := h2.2.le
    exact_mod_cast this

/-- π in binary64. -/
def pi64 : ℚ := 884279719003555 / 281474976710656

theorem pi64_near : (pi64 : ℝ) < π ∧ π < pi64 + (2 : ℝ) ^ (-52 : ℤ) := by
  have h1 := pi_gt_d20
  have h2 := pi_lt_d20
  unfold pi64
  push_cast
  constructor
  · refine lt_trans ?_ h1; norm_num
  · refine lt_trans h2 ?_; norm_num

/-- **C115**, the limit: a sine and an arcsine that are as good as one can wish, and a draw, for which a value of the
sample lies above its upper bound. -/
theorem C115_above : ∃ (T : TrigFl) (hi y : ℚ) (X : Mat ℚ), TrigNear binary64 T ((2 : ℝ) ^ (-53 : ℤ)) ∧
    IsFloat binary64 (-5) ∧ RoundsTo binary64 (1 / 5) hi ∧
    fastSampleFl binary64 T (fun _ => 1 / 4) { names := ["x", "y"], bounds := [[-5, hi], [0, 1]] } 65 4 = .ok X ∧
    entry X 0 0 = some y ∧ hi < y := by
  obtain ⟨hp1, hp2⟩ := pi64_near
  have e52 : (2 : ℝ) ^ (-52 : ℤ) = 2 * (2 : ℝ) ^ (-53 : ℤ) := by norm_num
  have hδ : (0 : ℝ) < (2 : ℝ) ^ (-53 : ℤ) := by positivity
  have hδ1 : (2 : ℝ) ^ (-53 : ℤ) ≤ 1 := by norm_num
  rw [e52] at hp2
  generalize (2 : ℝ) ^ (-53 : ℤ) = d at *
  have hS : ∀ t : ℚ, ∃ r : ℚ, |r| ≤ 1 ∧ |(r : ℝ) - sin t| ≤ d := fun t =>
    exists_rat_near one_pos hδ (by have := abs_sin_le_one t; push_cast; linarith)
  have hA : ∀ x : ℚ, ∃ r : ℚ, |r| ≤ pi64 / 2 ∧ |(r : ℝ) - arcsin x| ≤ d := fun x =>
    exists_rat_near (by unfold pi64; norm_num) hδ (by
      have h1 := arcsin_le_pi_div_two x
      have h2 := neg_pi_div_two_le_arcsin x
      push_cast
      rw [abs_lt]; constructor <;> linarith)
  choose S hS using hS
  choose A hA using hA
  let T : TrigFl := ⟨pi64, fun t => if t = pi64 / 2 then 1 else S t, fun x => if x = 1 then pi64 / 2 else A x⟩
  have hpi0 : 0 ≤ pi64 / 2 := by unfold pi64; norm_num
  have hT : TrigNear binary64 T (d) := by
    refine ⟨⟨7074237752028440, -51, by decide, by decide, ?_⟩, ?_, ?_, ?_, ?_, ?_⟩
    · show pi64 = _
      unfold pi64; norm_num
    · show |(pi64 : ℝ) - π| ≤ (2 : ℝ) ^ (-52 : ℤ)
      rw [e52, abs_le]; constructor <;> linarith
    · intro t
      show |if t = pi64 / 2 then 1 else S t| ≤ 1
      split
      · simp
      · exact (hS t).1
    · intro t
      show |((if t = pi64 / 2 then 1 else S t : ℚ) : ℝ) - sin t| ≤ _
      split
      · rename_i h
        rw [h]
        push_cast
        rw [← cos_pi_div_two_sub, abs_of_nonneg (by linarith [cos_le_one (π / 2 - (pi64 : ℝ) / 2)])]
        have h1 := one_sub_sq_div_two_le_cos (x := π / 2 - (pi64 : ℝ) / 2)
        have h2 : 0 ≤ π / 2 - (pi64 : ℝ) / 2 := by linarith
        have h3 : π / 2 - (pi64 : ℝ) / 2 ≤ d := by linarith
        nlinarith
      · exact (hS t).2
    · intro x _
      show |if x = 1 then pi64 / 2 else A x| ≤ pi64 / 2
      split
      · rw [abs_of_nonneg hpi0]
      · exact (hA x).1
    · intro x _
      show |((if x = 1 then pi64 / 2 else A x : ℚ) : ℝ) - arcsin x| ≤ _
      split
      · rename_i h
        rw [h]
        push_cast
        rw [arcsin_one, abs_le]; constructor <;> linarith
      · exact (hA x).2
  let hi : ℚ := fl binary64 (1 / 5)
  have hcurve : ∀ w, fastCurveFl binary64 T w (fastGridFl binary64 T 65 0)
      (fmul binary64 (fmul binary64 2 T.pi) (1 / 4)) = 1 := by
    intro w
    have e1 : fastGridFl binary64 T 65 0 = 0 := by
      unfold fastGridFl fmul; rw [Nat.cast_zero, mul_zero, fl_zero]
    have e2 : fadd binary64 (fmul binary64 w 0) (fmul binary64 (fmul binary64 2 pi64) (1 / 4)) = pi64 / 2 := by
      unfold fmul
      rw [mul_zero, fl_zero]
      decide +kernel
    unfold fastCurveFl
    rw [e1]
    show fadd binary64 (1 / 2) (fmul binary64 (fdiv binary64 1 pi64) (T.asin (T.sin (fadd binary64 (fmul binary64 w 0)
      (fmul binary64 (fmul binary64 2 pi64) (1 / 4)))))) = 1
    rw [e2]
    have e3 : T.asin (T.sin (pi64 / 2)) = pi64 / 2 := by
      show (if (if pi64 / 2 = pi64 / 2 then 1 else S (pi64 / 2)) = 1 then pi64 / 2 else _) = _
      simp
    rw [e3]
    decide +kernel
  have hX := fastUnitFl_eq (F := binary64) T (fun _ => 1 / 4) 65 4 2 [8, 1] (by decide +kernel) rfl
  obtain ⟨U, hU, hU0⟩ : ∃ U, fastUnitFl binary64 T (fun _ => 1 / 4) 65 4 2 = .ok U ∧ U[0]? = some [1, 1] :=
    ⟨_, hX, by
      rw [List.getElem?_map, List.getElem?_range (by decide), Option.map_some]
      simp only [Nat.zero_div, Nat.zero_mod, hcurve]
      rfl⟩
  refine ⟨T, hi, scaleEntryFl binary64 1 (-5, hi), U.map fun row => List.zipWith (scaleEntryFl binary64) row
    [(-5, hi), (0, 1)], hT, ⟨-5, 0, by decide, by decide, by norm_num⟩, fl_roundsTo (by decide) _, ?_, ?_,
    by decide +kernel⟩
  · unfold fastSampleFl
    show (fastUnitFl binary64 T (fun _ => 1 / 4) 65 4 2 >>= fun X => scaleUniformFl binary64 2 X [[-5, hi], [0, 1]]) = _
    rw [hU, pyBind_ok]
    exact scaleUniformFl_legal [(-5, hi), (0, 1)] (by simp) (by
      simp only [List.forall_mem_cons]
      exact ⟨by decide +kernel, by norm_num, by simp⟩) _
  · unfold entry
    rw [List.getElem?_map, hU0]
    rfl

/-- The hypotheses of `C115_sample` are met: 65 points, 4 harmonics, a sine and an arcsine as in `C115_above`. -/
example : ∃ (T : TrigFl) (X : Mat ℚ) (y : ℚ), TrigNear binary64 T ((2 : ℝ) ^ (-53 : ℤ)) ∧
    fastSampleFl binary64 T (fun _ => 1 / 4) { names := ["x", "y"], bounds := boundsTable [(-5, 3), (0, 1)] } 65 4 = .ok X ∧
    entry X 64 1 = some y ∧ 0 ≤ y ∧ y ≤ 1 := by
  obtain ⟨T, -, -, -, hT, -⟩ := C115_above
  obtain ⟨X, freq, hX, -, -, -, -, h⟩ := C115_sample (F := binary64) (by decide) (by decide) T _ hT (fun _ => 1 / 4)
    (fun _ => by norm_num) { names := ["x", "y"], bounds := boundsTable [(-5, 3), (0, 1)] } [(-5, 3), (0, 1)] 65 4
    (by decide) (by decide) rfl rfl (by simp) (by
      simp only [List.forall_mem_cons]; exact ⟨by norm_num, by norm_num, by simp⟩) (by
      simp only [List.forall_mem_cons]
      exact ⟨⟨⟨-5, 0, by decide, by decide, by norm_num⟩, ⟨3, 0, by decide, by decide, by norm_num⟩⟩,
        ⟨isFloat_zero, isFloat_one (by decide) (by decide)⟩, by simp⟩) (by decide)
  obtain ⟨y, hy, -, h0, h1, -⟩ := h 0 (by decide) 64 (by decide) 1 0 1 rfl
  exact ⟨T, X, y, hT, hX, by simpa using hy, h0, h1 (by rw [sub_zero]; exact isFloat_one (by decide) (by decide))⟩

end SALib
