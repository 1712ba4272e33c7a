import Verif.Lemmas.QuadVariance
import Verif.Model.Oakley
import Mathlib.Analysis.Complex.ExponentialBounds

/-! # The numbers of the example of Oakley and O'Hagan -/

namespace SALib

open Spec Real Finset

/-- Row `k` of the table `A`. -/
def tableA (k : Nat) (i : Fin 15) : ℚ := (oakleyTableA.getD k []).getD i 0

/-- An entry of the table `M`. -/
def tableM (i j : Fin 15) : ℚ := (oakleyTableM.getD i []).getD j 0

/-- Four rational coefficients of `1, e, e^2, e^4`. -/
structure Quart where
  (c0 c1 c2 c4 : ℚ)

/-- Its value. -/
def Quart.at {α : Type} [Field α] (q : Quart) (e : α) : α := q.c0 + q.c1 * e + q.c2 * e ^ 2 + q.c4 * e ^ 4

/-- A bound of its slope on `[0, 1]`. -/
def Quart.slope (q : Quart) : ℚ := |q.c1| + 2 * |q.c2| + 4 * |q.c4|

/-- `p - l * q`. -/
def Quart.subMul (p : Quart) (l : ℚ) (q : Quart) : Quart := ⟨p.c0 - l * q.c0, p.c1 - l * q.c1, p.c2 - l * q.c2, p.c4 - l * q.c4⟩

/-- Variance of the terms in input `i` alone. -/
def tableMain (v : ℚ) (i : Fin 15) : Quart :=
  let a := tableA 0 i
  let b := tableA 1 i
  let c := tableA 2 i
  let m := tableM i i
  ⟨a ^ 2 * v + b ^ 2 / 2 + c ^ 2 / 2 + 2 * m ^ 2 * v ^ 2, 2 * a * b * v - 2 * c * m * v ^ 2, -c ^ 2, (c ^ 2 - b ^ 2) / 2⟩

/-- Variance of all terms. -/
def tableTotal (v : ℚ) : Quart :=
  ⟨(∑ i, (tableMain v i).c0) + ∑ p ∈ inputPairs 15, (tableM p.1 p.2 + tableM p.2 p.1) ^ 2 * (v * v),
    ∑ i, (tableMain v i).c1, ∑ i, (tableMain v i).c2, ∑ i, (tableMain v i).c4⟩

theorem quart_near (q : Quart) (lo δ : ℚ) (e : ℝ) (h0 : 0 ≤ lo) (h1 : (lo : ℝ) ≤ e) (h2 : e ≤ (lo : ℝ) + δ) (h3 : e ≤ 1) :
    |q.at e - (q.at lo : ℚ)| ≤ ((δ * q.slope : ℚ) : ℝ) := by
  have hl : (0 : ℝ) ≤ lo := by exact_mod_cast h0
  have hl1 : (lo : ℝ) ≤ 1 := h1.trans h3
  have he : 0 ≤ e := hl.trans h1
  have b1 : 0 ≤ e - lo := by linarith
  have b2 : e - lo ≤ δ := by linarith
  have b3 : 0 ≤ e + lo := by linarith
  have e4 : |(e + lo) * (e ^ 2 + lo ^ 2)| ≤ 4 := by
    rw [abs_of_nonneg (by positivity)]
    nlinarith [mul_nonneg he he, mul_nonneg hl hl, mul_le_one₀ h3 he h3, mul_le_one₀ hl1 hl hl1]
  have e2 : |e + lo| ≤ 2 := by
    rw [abs_of_nonneg b3]; linarith
  have key : q.at e - ((q.at lo : ℚ) : ℝ) =
      (e - lo) * (q.c1 + (q.c2 : ℝ) * (e + lo) + (q.c4 : ℝ) * ((e + lo) * (e ^ 2 + lo ^ 2))) := by
    unfold Quart.at
    push_cast
    ring
  rw [key, abs_mul, abs_of_nonneg b1]
  have : |(q.c1 : ℝ) + (q.c2 : ℝ) * (e + lo) + (q.c4 : ℝ) * ((e + lo) * (e ^ 2 + lo ^ 2))| ≤ (q.slope : ℝ) := by
    unfold Quart.slope
    push_cast
    refine (abs_add_three _ _ _).trans ?_
    rw [abs_mul, abs_mul]
    have := mul_le_mul_of_nonneg_left e2 (abs_nonneg (q.c2 : ℝ))
    have := mul_le_mul_of_nonneg_left e4 (abs_nonneg (q.c4 : ℝ))
    linarith
  push_cast
  exact mul_le_mul b2 this (abs_nonneg _) (b1.trans b2)

theorem oakleyMain_quart (v : ℚ) (i : Fin 15) :
    oakleyMain v (tableA 0 i) (tableA 1 i) (tableA 2 i) (tableM i i) = (tableMain v i).at (exp (-((v : ℝ) / 2))) := by
  have h2 : exp (-((v : ℝ) / 2)) ^ 4 = exp (-(2 * (v : ℝ))) := by rw [← Real.exp_nat_mul]; congr 1; push_cast; ring
  unfold oakleyMain tableMain Quart.at
  rw [h2]
  push_cast
  ring

theorem total_quart (v : ℚ) (e : ℝ) : ∑ i, (tableMain v i).at e +
    ∑ p ∈ inputPairs 15, ((tableM p.1 p.2 : ℝ) + tableM p.2 p.1) ^ 2 * (v * v) = (tableTotal v).at e := by
  unfold tableTotal Quart.at
  push_cast
  simp only [Finset.sum_add_distrib, Finset.sum_mul]
  ring

/-- The check that makes a list of indices correct to `tol`. -/
def tableCheck (v lo δ tol : ℚ) (L : List ℚ) : Prop :=
  let T := tableTotal v
  let low := T.at lo - δ * T.slope
  0 < low ∧ ∀ i : Fin 15, let D := (tableMain v i).subMul (L.getD i 0) T
    |D.at lo| + δ * D.slope ≤ tol * low

instance (v lo δ tol : ℚ) (L : List ℚ) : Decidable (tableCheck v lo δ tol L) := by unfold tableCheck; infer_instance

theorem tableCheck_sound (v lo δ tol : ℚ) (L : List ℚ) (h : tableCheck v lo δ tol L) (e : ℝ) (h0 : 0 ≤ lo)
    (h1 : (lo : ℝ) ≤ e) (h2 : e ≤ (lo : ℝ) + δ) (h3 : e ≤ 1) (ht : 0 ≤ tol) (i : Fin 15) :
    0 < (tableTotal v).at e ∧
      |(tableMain v i).at e / (tableTotal v).at e - ((L.getD i 0 : ℚ) : ℝ)| ≤ (tol : ℝ) := by
  obtain ⟨ha, hb⟩ := h
  specialize hb i
  have n1 := abs_le.mp (quart_near (tableTotal v) lo δ e h0 h1 h2 h3)
  have n2 := quart_near ((tableMain v i).subMul (L.getD i 0) (tableTotal v)) lo δ e h0 h1 h2 h3
  simp only at ha hb
  have ha' : (0 : ℝ) < (((tableTotal v).at lo : ℚ) : ℝ) - ((δ * (tableTotal v).slope : ℚ) : ℝ) := by exact_mod_cast ha
  have hT : 0 < (tableTotal v).at e := by linarith [n1.1]
  refine ⟨hT, ?_⟩
  have es : ((tableMain v i).subMul (L.getD i 0) (tableTotal v)).at e =
      (tableMain v i).at e - ((L.getD i 0 : ℚ) : ℝ) * (tableTotal v).at e := by
    unfold Quart.subMul Quart.at
    push_cast
    ring
  have hb' : |((((tableMain v i).subMul (L.getD i 0) (tableTotal v)).at lo : ℚ) : ℝ)| +
      ((δ * ((tableMain v i).subMul (L.getD i 0) (tableTotal v)).slope : ℚ) : ℝ) ≤
      (tol : ℝ) * ((((tableTotal v).at lo : ℚ) : ℝ) - ((δ * (tableTotal v).slope : ℚ) : ℝ)) := by exact_mod_cast hb
  have n3 : |((tableMain v i).subMul (L.getD i 0) (tableTotal v)).at e| ≤ (tol : ℝ) * (tableTotal v).at e := by
    have t1 := abs_sub_abs_le_abs_sub (((tableMain v i).subMul (L.getD i 0) (tableTotal v)).at e)
      ((((tableMain v i).subMul (L.getD i 0) (tableTotal v)).at lo : ℚ) : ℝ)
    have ht' : (0 : ℝ) ≤ tol := by exact_mod_cast ht
    have := mul_le_mul_of_nonneg_left (show (((tableTotal v).at lo : ℚ) : ℝ) - ((δ * (tableTotal v).slope : ℚ) : ℝ) ≤
      (tableTotal v).at e by linarith [n1.1]) ht'
    linarith
  rw [es] at n3
  have e5 : (tableMain v i).at e / (tableTotal v).at e - ((L.getD i 0 : ℚ) : ℝ) =
      ((tableMain v i).at e - ((L.getD i 0 : ℚ) : ℝ) * (tableTotal v).at e) / (tableTotal v).at e := by
    field_simp
  rw [e5, abs_div, abs_of_pos hT, div_le_iff₀ hT]
  exact n3

theorem check_unit : tableCheck 1 0.60653065 0.00000002 0.00002 oakleyListed := by decide +kernel

theorem check_stated : tableCheck (0.835 ^ 2) 0.70566651 0.00000002 0.000001 oakleyCorrect := by decide +kernel

end SALib
