import Verif.Spec.FloatMorrisStats

/-! # Bootstrap confidence values of Sobol indices -/

namespace SALib.Spec

/-- `S` is near the first-order estimator of the columns `a`, `b`, `ab` with variance `v`. -/
def NearFirst (F : Fmt) (N : Nat) (v : ℚ) (a b ab : Nat → ℚ) (S : ℚ) : Prop :=
  RoundedFrom F (N + 3) (2 / v + 1) (avg N (fun i => |b i * (ab i - a i)|) / v)
    (avg N (fun i => b i * (ab i - a i)) / v) S

/-- `S` is near the total-order estimator. -/
def NearTotal (F : Fmt) (N : Nat) (v : ℚ) (a ab : Nat → ℚ) (S : ℚ) : Prop :=
  RoundedFrom F (N + 5) (2 / v + 1) (1 / 2 * avg N (fun i => (a i - ab i) ^ 2) / v)
    (1 / 2 * avg N (fun i => (a i - ab i) ^ 2) / v) S

/-- `S` is near the second-order estimator. -/
def NearSecond (F : Fmt) (N : Nat) (v : ℚ) (a b abj abk baj : Nat → ℚ) (S : ℚ) : Prop :=
  RoundedFrom F (N + 5) (7 / v + 3)
    (avg N (fun i => |baj i * abk i| + |a i * b i|) / v + avg N (fun i => |b i * (abj i - a i)|) / v +
      avg N (fun i => |b i * (abk i - a i)|) / v)
    (avg N (fun i => baj i * abk i - a i * b i) / v - avg N (fun i => b i * (abj i - a i)) / v -
      avg N (fun i => b i * (abk i - a i)) / v) S

/-- `c` is `Z` times the root of a number near the sample variance of `s 0, ..., s (R - 1)`; nan for fewer than 2. -/
def NearHalfWidth (F : Fmt) (sqrt : ℚ → ℚ) (Z : ℚ) (R : Nat) (s : Nat → ℚ) (c : Option ℚ) : Prop :=
  (R < 2 → c = none) ∧ (2 ≤ R → ∃ μ w x, RoundedFrom F R 1 (avg R fun t => |s t|) (avg R s) μ ∧
    RoundedFrom F (R + 3) (R / (R - 1) + 1) (effectVar R s + R / (R - 1) * (μ - avg R s) ^ 2)
      (effectVar R s + R / (R - 1) * (μ - avg R s) ^ 2) w ∧ c = some x ∧ RoundsTo F (Z * sqrt w) x)

end SALib.Spec
