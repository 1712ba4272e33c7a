import Verif.Model.FracFact
import Mathlib.Analysis.SpecialFunctions.Trigonometric.Basic

/-! # The function of Oakley and O'Hagan (`src/SALib/test_functions/oakley2004.py`), in real arithmetic

Matrices are given by their rows; the number of columns of a matrix `M` without rows is not kept. -/

namespace SALib

/-- `u @ v` for two vectors: NumPy raises a `ValueError` for different lengths. -/
noncomputable def vecDot (u v : List ℝ) : Py ℝ := if u.length = v.length then .ok (dotList u v) else .error .valueError

/-- One value: 24. -/
noncomputable def oakleyRow (a1 a2 a3 : List ℝ) (M : Mat ℝ) (x : List ℝ) : Py ℝ := do
  let t1 ← vecDot a1 x
  let t2 ← vecDot a2 (x.map Real.sin)
  let t3 ← vecDot a3 (x.map Real.cos)
  let Mx ← M.mapM fun row => vecDot row x
  let t4 ← vecDot x Mx
  return t1 + t2 + t3 + t4

/-- `evaluate(X, A, M)`: 6-26; unpacking `A` (18) raises a `ValueError` unless it has three rows. -/
noncomputable def oakleyEval (X A M : Mat ℝ) : Py (List ℝ) :=
  match A with
  | [a1, a2, a3] => X.mapM (oakleyRow a1 a2 a3 M)
  | _ => .error .valueError

/-- `M` of the example: 31-259. -/
def oakleyTableM : Mat ℚ :=
  [
   [-0.0225, -0.185, 0.134, 0.369, 0.172, 0.137, -0.440, -0.0814, 0.713, -0.444, 0.504, -0.0241, -0.0459, 0.217, 0.0559],
   [0.257, 0.0538, 0.258, 0.238, -0.591, -0.0816, -0.287, 0.416, 0.498, 0.0839, -0.111, 0.0332, -0.140, -0.0310, -0.223],
   [-0.0560, 0.195, 0.0955, -0.286, -0.144, 0.224, 0.145, 0.290, 0.231, -0.319, -0.290, -0.210, 0.431, 0.0244, 0.0449],
   [0.664, 0.431, 0.299, -0.162, -0.315, -0.390, 0.177, 0.0580, 0.172, 0.135, -0.353, 0.251, -0.0188, 0.365, -0.325],
   [-0.121, 0.125, 0.107, 0.0466, -0.217, 0.195, -0.0655, 0.0244, -0.0968, 0.194, 0.334, 0.313, -0.0836, -0.253, 0.373],
   [-0.284, -0.328, -0.105, -0.221, -0.137, -0.144, -0.115, 0.224, -0.0304, -0.515, 0.0173, 0.0390, 0.361, 0.309, 0.0500],
   [-0.0779, 0.00375, 0.887, -0.266, -0.0793, -0.0427, -0.187, -0.356, -0.175, 0.0887, 0.400, -0.0560, 0.137, 0.215, -0.0113],
   [-0.0923, 0.592, 0.0313, -0.0331, -0.243, -0.0998, 0.0345, 0.0951, -0.338, 0.00639, -0.612, 0.0813, 0.887, 0.143, 0.148],
   [-0.132, 0.529, 0.127, 0.0451, 0.584, 0.373, 0.114, -0.295, -0.570, 0.463, -0.0941, 0.140, -0.386, -0.449, -0.146],
   [0.0581, -0.323, 0.0931, 0.0724, -0.569, 0.526, 0.237, -0.0118, 0.0718, 0.0783, -0.134, 0.227, 0.144, -0.452, -0.556],
   [0.661, 0.346, 0.141, 0.519, -0.280, -0.160, -0.0684, -0.204, 0.0697, 0.231, -0.0444, -0.165, 0.216, 0.00427, -0.0874],
   [0.316, -0.0276, 0.134, 0.135, 0.0540, -0.174, 0.175, 0.0603, -0.179, -0.311, -0.254, 0.0258, -0.430, -0.623, -0.0340],
   [-0.290, 0.0341, 0.0349, -0.121, 0.0260, -0.335, -0.414, 0.0532, -0.271, -0.0263, 0.410, 0.266, 0.156, -0.187, 0.0199],
   [-0.244, -0.441, 0.0126, 0.249, 0.0711, 0.246, 0.175, 0.00853, 0.251, -0.147, -0.0846, 0.369, -0.300, 0.110, -0.757],
   [0.0415, -0.260, 0.464, -0.361, -0.950, -0.165, 0.00309, 0.0528, 0.225, 0.384, 0.456, -0.186, 0.00823, 0.167, 0.160]
  ]

/-- `A` of the example: 261-315. -/
def oakleyTableA : Mat ℚ :=
  [
   [0.0118, 0.0456, 0.2297, 0.0393, 0.1177, 0.3865, 0.3897, 0.6061, 0.6159, 0.4005, 1.0741, 1.1474, 0.7880, 1.1242, 1.1982],
   [0.4341, 0.0887, 0.0512, 0.3233, 0.1489, 1.0360, 0.9892, 0.9672, 0.8977, 0.8083, 1.8426, 2.4712, 2.3946, 2.0045, 2.2621],
   [0.1044, 0.2057, 0.0774, 0.2730, 0.1253, 0.7526, 0.8570, 1.0331, 0.8388, 0.7970, 2.2145, 2.0382, 2.4004, 2.0541, 1.9845]
  ]

/-- `bounds` of the example, mean and standard deviation of each input as `dists` is `["norm"] * 15`: 317-326. -/
def oakleyBounds : Mat ℚ := List.replicate 15 [0, 0.835]

/-- `analytic` of the example: 337-355 (also `tests/test_test_functions.py` 187-205). -/
def oakleyListed : List ℚ :=
  [0.00156, 0.000186, 0.001307, 0.003045, 0.002905, 0.023035, 0.024151, 0.026517, 0.046036, 0.014945, 0.101823, 0.135708, 0.101989, 0.105169, 0.122818]

end SALib
