import Verif.Model.PpfReal
import Verif.Spec.Dists
import Verif.Props.ScaleDists

/-!
# C06: non-uniform scaling is the inverse CDF of the named distribution
-/

namespace SALib
open Spec Real

/-- **C06**, triangular, three-value form `[start, stop, peak]` with `start < stop`: the scaled value
of `u` is the point of `(start, stop)` with cumulative probability `u`. -/
theorem C06_triang (nf tf) (start stop peak u : ℝ) (h : start < stop) (h0 : 0 ≤ stop)
    (hp0 : 0 ≤ peak) (hp1 : peak < 1) (hu0 : 0 < u) (hu1 : u < 1) :
    ∃ f x, columnMap (realPpf nf tf) "triang" [start, stop, peak] = .ok f ∧ f u = some x ∧
      start < x ∧ x < stop ∧ triangCDF start (start + peak * (stop - start)) stop x = u := by
  have hs : 0 < stop - start := sub_pos.mpr h
  refine ⟨triangPpf peak (stop - start) start,
    (if u < peak then sqrt (peak * u) else 1 - sqrt ((1 - peak) * (1 - u))) * (stop - start) + start,
    ?_, ?_, ?_⟩
  · have hc : ¬(stop < 0 ∨ peak < 0 ∨ 1 ≤ peak ∨ stop < start) := by
      rintro (h | h | h | h) <;> linarith
    simp [columnMap, rowPair, hc, realPpf]
  · unfold triangPpf
    rw [if_pos ⟨hp0, hp1.le, hs, hu0.le, hu1.le⟩, if_neg hu0.ne', if_neg hu1.ne]
  · by_cases hq : u < peak
    · rw [if_pos hq]
      have hpos : 0 < peak * u := mul_pos (hu0.trans hq) hu0
      have hsp := sqrt_pos.mpr hpos
      have hlt : sqrt (peak * u) < peak := by
        rw [sqrt_lt' (hu0.trans hq)]; nlinarith
      have hx0 : start < sqrt (peak * u) * (stop - start) + start := by nlinarith
      have hxm : sqrt (peak * u) * (stop - start) + start < start + peak * (stop - start) := by
        nlinarith
      have hx1 : sqrt (peak * u) * (stop - start) + start < stop := by nlinarith
      refine ⟨hx0, hx1, ?_⟩
      unfold triangCDF
      rw [if_neg (not_le.mpr hx0), if_pos hxm]
      have hsq : sqrt (peak * u) ^ 2 = peak * u := sq_sqrt hpos.le
      have hpk : peak ≠ 0 := (hu0.trans hq).ne'
      have e1 : (sqrt (peak * u) * (stop - start) + start - start) ^ 2
          = peak * u * (stop - start) ^ 2 := by linear_combination (stop - start) ^ 2 * hsq
      rw [e1]
      field_simp
      ring
    · rw [if_neg hq]
      have hq' : peak ≤ u := not_lt.mp hq
      have hpos : 0 < (1 - peak) * (1 - u) := mul_pos (by linarith) (by linarith)
      have hsp := sqrt_pos.mpr hpos
      have hlt : sqrt ((1 - peak) * (1 - u)) ≤ 1 - peak := by
        rw [sqrt_le_left (by linarith)]; nlinarith
      have hlt1 : sqrt ((1 - peak) * (1 - u)) < 1 := by
        rw [sqrt_lt' one_pos]; nlinarith
      have hx0 : start < (1 - sqrt ((1 - peak) * (1 - u))) * (stop - start) + start := by nlinarith
      have hxm : start + peak * (stop - start) ≤
          (1 - sqrt ((1 - peak) * (1 - u))) * (stop - start) + start := by nlinarith
      have hx1 : (1 - sqrt ((1 - peak) * (1 - u))) * (stop - start) + start < stop := by nlinarith
      refine ⟨hx0, hx1, ?_⟩
      unfold triangCDF
      rw [if_neg (not_le.mpr hx0), if_neg (not_lt.mpr hxm), if_pos hx1]
      have hsq : sqrt ((1 - peak) * (1 - u)) ^ 2 = (1 - peak) * (1 - u) := sq_sqrt hpos.le
      have e1 : (stop - ((1 - sqrt ((1 - peak) * (1 - u))) * (stop - start) + start)) ^ 2
          = (1 - peak) * (1 - u) * (stop - start) ^ 2 := by linear_combination (stop - start) ^ 2 * hsq
      rw [e1]
      have e2 : stop - (start + peak * (stop - start)) = (1 - peak) * (stop - start) := by ring
      rw [e2]
      have hpk : (1 - peak) ≠ 0 := by linarith
      field_simp
      ring

/-- **C06**, triangular, deprecated two-value form: the start is 0. -/
theorem C06_triang_two_values (nf tf) (stop peak : ℝ) :
    columnMap (realPpf nf tf) "triang" [stop, peak] =
      columnMap (realPpf nf tf) "triang" [0, stop, peak] := rfl

/-- **C06**, log-uniform on `[a, b]`, `0 < a < b`. -/
theorem C06_logunif (nf tf) (a b u : ℝ) (rest : List ℝ) (ha : 0 < a) (hab : a < b) (hu0 : 0 < u)
    (hu1 : u < 1) :
    ∃ f x, columnMap (realPpf nf tf) "logunif" (a :: b :: rest) = .ok f ∧ f u = some x ∧
      a < x ∧ x < b ∧ loguniformCDF a b x = u := by
  have hl : log a < log b := log_lt_log ha hab
  refine ⟨loguniformPpf a b, exp (log a + u * (log b - log a)), ?_, ?_, ?_⟩
  · simp [columnMap, rowPair, realPpf]
  · unfold loguniformPpf
    rw [if_pos ⟨ha, hab, hu0.le, hu1.le⟩, if_neg hu0.ne', if_neg hu1.ne]
  · have h1 : a < exp (log a + u * (log b - log a)) := by
      rw [← log_lt_iff_lt_exp ha]; nlinarith
    have h2 : exp (log a + u * (log b - log a)) < b := by
      rw [← lt_log_iff_exp_lt (ha.trans hab)]; nlinarith
    refine ⟨h1, h2, ?_⟩
    unfold loguniformCDF
    rw [if_neg (not_le.mpr h1), if_pos h2, log_exp]
    have : log b - log a ≠ 0 := by linarith
    field_simp
    ring

/-- **C06**, Weibull with shape `k`, scale `l`, location `x0`. -/
theorem C06_weibull (nf tf) (k l x0 u : ℝ) (hk : 0 < k) (hl : 0 < l) (hu0 : 0 < u) (hu1 : u < 1) :
    ∃ f x, columnMap (realPpf nf tf) "weibull" [k, l, x0] = .ok f ∧ f u = some x ∧
      x0 < x ∧ weibullCDF k l x0 x = u := by
  have hlog : 0 < -log (1 - u) := by
    have : log (1 - u) < 0 := log_neg (by linarith) (by linarith)
    linarith
  have hpow : 0 < (-log (1 - u)) ^ (1 / k) := rpow_pos_of_pos hlog _
  refine ⟨weibullPpf k l x0, (-log (1 - u)) ^ (1 / k) * l + x0, ?_, ?_, ?_, ?_⟩
  · have hc : ¬(k ≤ 0 ∨ l ≤ 0) := by rintro (h | h) <;> linarith
    simp [columnMap, rowPair, hc, realPpf]
  · unfold weibullPpf
    rw [if_pos ⟨hk, hl, hu0.le, hu1.le⟩, if_neg hu0.ne', if_neg hu1.ne]
  · nlinarith [mul_pos hpow hl]
  · unfold weibullCDF
    rw [if_neg (not_le.mpr (by nlinarith [mul_pos hpow hl]))]
    have e : ((-log (1 - u)) ^ (1 / k) * l + x0 - x0) / l = (-log (1 - u)) ^ (1 / k) := by
      field_simp; ring
    rw [e, ← rpow_mul hlog.le, one_div, inv_mul_cancel₀ hk.ne', rpow_one, neg_neg,
      exp_log (by linarith)]
    ring

/-- **C06**, Weibull without a location: the location is 0. -/
theorem C06_weibull_two_values (nf tf) (k l : ℝ) :
    columnMap (realPpf nf tf) "weibull" [k, l] =
      columnMap (realPpf nf tf) "weibull" [k, l, 0] := rfl

/-- **C06**, consequence: scaled values are ordered as the unit values (stated for the three
distributions at once: any two unit values, the same column). -/
theorem C06_monotone (nf tf) (d : String) (b : List ℝ) (f : ℝ → Num ℝ) (u v x y : ℝ)
    (hd : (d = "triang" ∧ ∃ s e p, b = [s, e, p] ∧ s < e ∧ 0 ≤ e ∧ 0 ≤ p ∧ p < 1) ∨
      (d = "logunif" ∧ ∃ lo hi, b = [lo, hi] ∧ 0 < lo ∧ lo < hi) ∨
      (d = "weibull" ∧ ∃ k l loc, b = [k, l, loc] ∧ 0 < k ∧ 0 < l))
    (hf : columnMap (realPpf nf tf) d b = .ok f)
    (hu : 0 < u) (huv : u ≤ v) (hv : v < 1) (hx : f u = some x) (hy : f v = some y) : x ≤ y := by
  rcases hd with ⟨rfl, s, e, p, rfl, hse, he, hp0, hp1⟩ | ⟨rfl, lo, hi, rfl, hlo, hlh⟩ |
    ⟨rfl, k, l, loc, rfl, hk, hl⟩
  · have hs : 0 < e - s := sub_pos.mpr hse
    have hc : ¬(e < 0 ∨ p < 0 ∨ 1 ≤ p ∨ e < s) := by rintro (h | h | h | h) <;> linarith
    simp only [columnMap, rowPair, pyBind_ok, if_true, hc, if_false, realPpf, pyPure,
      Except.ok.injEq] at hf
    subst hf
    unfold triangPpf at hx hy
    rw [if_pos ⟨hp0, hp1.le, hs, hu.le, by linarith⟩, if_neg hu.ne', if_neg (by linarith)] at hx
    rw [if_pos ⟨hp0, hp1.le, hs, by linarith, hv.le⟩, if_neg (by linarith), if_neg hv.ne] at hy
    cases hx; cases hy
    have key : (if u < p then sqrt (p * u) else 1 - sqrt ((1 - p) * (1 - u))) ≤
        (if v < p then sqrt (p * v) else 1 - sqrt ((1 - p) * (1 - v))) := by
      by_cases h1 : u < p
      · rw [if_pos h1]
        by_cases h2 : v < p
        · rw [if_pos h2]; exact sqrt_le_sqrt (by nlinarith)
        · rw [if_neg h2]
          have a1 : sqrt (p * u) ≤ p := by rw [sqrt_le_left hp0]; nlinarith
          have a2 : sqrt ((1 - p) * (1 - v)) ≤ 1 - p := by
            rw [sqrt_le_left (by linarith)]; nlinarith [not_lt.mp h2]
          linarith
      · rw [if_neg h1]
        have h2 : ¬ v < p := by linarith
        rw [if_neg h2]
        have : sqrt ((1 - p) * (1 - v)) ≤ sqrt ((1 - p) * (1 - u)) := sqrt_le_sqrt (by nlinarith)
        linarith
    have := mul_le_mul_of_nonneg_right key hs.le
    linarith
  · have hl : log lo < log hi := log_lt_log hlo hlh
    simp only [columnMap, rowPair, pyBind_ok, realPpf, pyPure] at hf
    simp at hf
    subst hf
    unfold loguniformPpf at hx hy
    rw [if_pos ⟨hlo, hlh, hu.le, by linarith⟩, if_neg hu.ne', if_neg (by linarith)] at hx
    rw [if_pos ⟨hlo, hlh, by linarith, hv.le⟩, if_neg (by linarith), if_neg hv.ne] at hy
    cases hx; cases hy
    apply exp_le_exp.mpr
    nlinarith
  · have hc : ¬(k ≤ 0 ∨ l ≤ 0) := by rintro (h | h) <;> linarith
    simp [columnMap, rowPair, hc, realPpf] at hf
    subst hf
    unfold weibullPpf at hx hy
    rw [if_pos ⟨hk, hl, hu.le, by linarith⟩, if_neg hu.ne', if_neg (by linarith)] at hx
    rw [if_pos ⟨hk, hl, by linarith, hv.le⟩, if_neg (by linarith), if_neg hv.ne] at hy
    cases hx; cases hy
    have h1 : log (1 - u) < 0 := log_neg (by linarith) (by linarith)
    have h2 : log (1 - v) ≤ log (1 - u) := log_le_log (by linarith) (by linarith)
    have h3 : (-log (1 - u)) ^ (1 / k) ≤ (-log (1 - v)) ^ (1 / k) :=
      rpow_le_rpow (by linarith) (by linarith) (by positivity)
    nlinarith

/-- The hypotheses are met, e.g. by the documented triangular example `[1, 3, 0.5]`. -/
example (nf tf) : ∃ f x, columnMap (realPpf nf tf) "triang" [1, 3, 1/2] = .ok f ∧
    f (1/4) = some x ∧ 1 < x ∧ x < 3 ∧ triangCDF 1 (1 + 1/2 * (3 - 1)) 3 x = 1/4 :=
  C06_triang nf tf 1 3 (1/2) (1/4) (by norm_num) (by norm_num) (by norm_num) (by norm_num)
    (by norm_num) (by norm_num)

example (nf tf) : ∃ f x, columnMap (realPpf nf tf) "logunif" [1, 10] = .ok f ∧
    f (1/4) = some x ∧ 1 < x ∧ x < 10 ∧ loguniformCDF 1 10 x = 1/4 :=
  C06_logunif nf tf 1 10 (1/4) [] (by norm_num) (by norm_num) (by norm_num) (by norm_num)

example (nf tf) : ∃ f x, columnMap (realPpf nf tf) "weibull" [3/2, 1, 5] = .ok f ∧
    f (1/4) = some x ∧ 5 < x ∧ weibullCDF (3/2) 1 5 x = 1/4 :=
  C06_weibull nf tf (3/2) 1 5 (1/4) (by norm_num) (by norm_num) (by norm_num) (by norm_num)

/-- Observation recorded in DESIGN.md: 'logunif' parameters are never checked; illegal ones are
accepted and produce a non-finite sample. -/
theorem C06_logunif_illegal_not_rejected (nf tf) :
    ∃ f, columnMap (realPpf nf tf) "logunif" [3, 2] = .ok f ∧ f (1/2) = none := by
  refine ⟨loguniformPpf 3 2, by simp [columnMap, rowPair, realPpf], ?_⟩
  unfold loguniformPpf
  rw [if_neg]
  norm_num

end SALib
