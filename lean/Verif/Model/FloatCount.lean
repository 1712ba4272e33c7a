import Verif.Model.Float
import Verif.Model.Fast
import Verif.Model.SobolAnalyze

/-! # Integers that the code gets by way of floating point

`/` of Python gives a float even for integers; the code then takes `int`, `math.floor`, `math.ceil` or
`np.floor` of it.  The quotient of two Python integers is the correctly rounded exact quotient. -/

namespace SALib

/-- `int(a / b)` and `math.floor(a / b)` of non-negative integers. -/
def intDivFl (F : Fmt) (a b : Nat) : ℤ := ⌊fdiv F a b⌋

/-- Size checks of `sobol.analyze` with `int(Y.size / (2 * D + 2))`: `analyze/sobol.py` 121-135. -/
def sobolCheckFl (F : Fmt) {α : Type} [Field α] [LinearOrder α] (pb : Problem α) (size : Nat)
    (second : Bool) (conf : α) : Py (Nat × ℤ) :=
  let D := (extractGroupNames pb).2
  if ¬ (0 < conf ∧ conf < 1) then .error .runtimeError
  else if second ∧ size % (2 * D + 2) = 0 then .ok (D, intDivFl F size (2 * D + 2))
  else if ¬ second ∧ size % (D + 2) = 0 then .ok (D, intDivFl F size (D + 2))
  else .error .runtimeError

/-- `num_trajectories` and `trajectory_size` of `morris.analyze`: `analyze/morris.py` 149-150; `g` is
the number of groups.  `None` when the second division is by zero. -/
def morrisCountsFl (F : Fmt) (size g : Nat) : Option (ℤ × ℤ) :=
  let n := intDivFl F size (g + 1)
  if n = 0 then none else some (n, intDivFl F size n.toNat)

/-- `N` and `omega_0` of `fast.analyze`: `analyze/fast.py` 74 and 83. -/
def fastCountsFl (F : Fmt) (size D M : Nat) : ℤ × ℤ :=
  let N := intDivFl F size D
  (N, intDivFl F (N - 1).toNat (2 * M))

/-- `math.ceil(N / 2)`: `analyze/fast.py` 109. -/
def ceilHalfFl (F : Fmt) (N : Nat) : ℤ := ⌈fdiv F N 2⌉

/-- `math.floor(omega / 2.0)`: `analyze/fast.py` 115. -/
def floorHalfFl (F : Fmt) (w : Nat) : ℤ := ⌊fdiv F w 2⌋

/-- `math.ceil(T_data * 0.5)`: `analyze/fast.py` 128. -/
def halfSampleFl (F : Fmt) (T : Nat) : ℤ := ⌈fmul F T (1 / 2)⌉

/-- Entry `k` of `np.linspace(a, b, n)` (NumPy, outside /repo): `arange(n) * step + a`, with the last
entry set to `b`; when the step underflows to zero, `arange(n) / (n - 1) * (b - a) + a`. -/
def linspaceEntryFl (F : Fmt) (a b : ℚ) (n k : Nat) : ℚ :=
  let delta := fsub F b a
  let step := fdiv F delta ((n : ℚ) - 1)
  if n ≤ 1 then fadd F (fmul F k delta) a
  else if k + 1 = n then b
  else if step = 0 then fadd F (fmul F (fdiv F k ((n : ℚ) - 1)) delta) a
  else fadd F (fmul F k step) a

/-- `np.floor(np.linspace(1, m, n))`: `fast_sampler.py` 67. -/
def linspaceFloorFl (F : Fmt) (m n : Nat) : List ℤ :=
  (List.range n).map fun k => ⌊linspaceEntryFl F 1 m n k⌋

/-- The vector `omega` with its rounding: `fast_sampler.py` 54-69. -/
def fastOmegaFl (F : Fmt) (N M D : Nat) : Py (List ℤ) :=
  if N ≤ 4 * M ^ 2 then .error .valueError
  else if M = 0 then .error .zeroDivisionError
  else if D = 0 then .error .indexError
  else
    let w0 := intDivFl F (N - 1) (2 * M)
    let m := intDivFl F w0.toNat (2 * M)
    .ok (w0 :: if (D : ℤ) - 1 ≤ m then linspaceFloorFl F m.toNat (D - 1)
      else (List.range (D - 1)).map fun k : Nat => (k : ℤ) % m + 1)

end SALib
