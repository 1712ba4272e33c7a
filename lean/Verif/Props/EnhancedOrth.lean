import Mathlib.Analysis.Matrix.PosDef
import Mathlib.LinearAlgebra.Matrix.Determinant.Misc
import Mathlib.LinearAlgebra.Matrix.ToLinearEquiv
import Mathlib.Algebra.Polynomial.Roots
import Mathlib.Algebra.Polynomial.BigOperators
import Verif.Model.EnhancedOrth
import Verif.Props.EnhancedBasis

/-! # Enhanced HDMR: the polynomials are orthonormal on the sample (C82) -/

namespace SALib

open Finset

namespace Spec

/-- Average of a function over the sample. -/
noncomputable def sampleMean (xs : List ℝ) (f : ℝ → ℝ) : ℝ := (xs.map f).sum / xs.length

/-- A polynomial given by its coefficients, lowest power first. -/
noncomputable def polyAt {n : Nat} (c : Fin n → ℝ) (x : ℝ) : ℝ := ∑ k, c k * x ^ k.val

end Spec

open Spec

theorem sampleMean_sum {ι : Type} (xs : List ℝ) (s : Finset ι) (f : ι → ℝ → ℝ) :
    sampleMean xs (fun x => ∑ i ∈ s, f i x) = ∑ i ∈ s, sampleMean xs (f i) := by
  unfold sampleMean
  rw [← Finset.sum_div]
  congr 1
  induction xs with
  | nil => simp
  | cons x xs ih => simp [ih, Finset.sum_add_distrib]

theorem sampleMean_mul (xs : List ℝ) (a : ℝ) (f : ℝ → ℝ) : sampleMean xs (fun x => a * f x) = a * sampleMean xs f := by
  unfold sampleMean
  rw [List.sum_map_mul_left, mul_div_assoc]

theorem sampleMean_pow (xs : List ℝ) (k : Nat) : sampleMean xs (fun x => x ^ k) = sampleMoment xs k := rfl

theorem sampleMean_polyAt (xs : List ℝ) {n : Nat} (c : Fin n → ℝ) (m : Nat) :
    sampleMean xs (fun x => polyAt c x * x ^ m) = ∑ k, c k * sampleMoment xs (m + k.val) := by
  have : (fun x => polyAt c x * x ^ m) = fun x => ∑ k, c k * x ^ (m + k.val) := by
    funext x
    unfold polyAt
    rw [Finset.sum_mul]
    apply Finset.sum_congr rfl
    intro k _
    rw [pow_add]; ring
  rw [this, sampleMean_sum]
  apply Finset.sum_congr rfl
  intro k _
  rw [sampleMean_mul, sampleMean_pow]

theorem sampleMean_polyAt_poly (xs : List ℝ) {n m : Nat} (c : Fin n → ℝ) (e : Fin m → ℝ) :
    sampleMean xs (fun x => polyAt c x * polyAt e x) =
      ∑ a, e a * sampleMean xs (fun x => polyAt c x * x ^ a.val) := by
  have : (fun x => polyAt c x * polyAt e x) = fun x => ∑ a, e a * (polyAt c x * x ^ a.val) := by
    funext x
    conv_lhs => rw [polyAt.eq_def e, Finset.mul_sum]
    apply Finset.sum_congr rfl
    intro k _
    ring
  rw [this, sampleMean_sum]
  apply Finset.sum_congr rfl
  intro a _
  rw [sampleMean_mul]

/-! ### Determinants of moments -/

/-- Expanding along an added row of moments. -/
theorem laplace_moments (xs : List ℝ) (j m : Nat) :
    ∑ k : Fin (j + 2), (-1) ^ (j + k.val + 1) * (momentMinor xs j k).det * sampleMoment xs (m + k.val) =
      (Matrix.of fun a b : Fin (j + 2) => sampleMoment xs ((if a = Fin.last (j + 1) then m else a.val) + b.val)).det := by
  rw [Matrix.det_succ_row _ (Fin.last (j + 1))]
  apply Finset.sum_congr rfl
  intro k _
  have h1 : ((Matrix.of fun a b : Fin (j + 2) =>
      sampleMoment xs ((if a = Fin.last (j + 1) then m else a.val) + b.val)).submatrix (Fin.last (j + 1)).succAbove
        k.succAbove) = momentMinor xs j k := by
    ext a b
    simp only [Matrix.submatrix_apply, Matrix.of_apply, momentMinor, Fin.succAbove_last]
    rw [if_neg (Fin.castSucc_lt_last a).ne]
    rfl
  rw [h1]
  simp only [Matrix.of_apply, if_true, Fin.val_last]
  rw [show j + 1 + k.val = j + k.val + 1 by ring]
  ring

theorem det_repeated (xs : List ℝ) (j m : Nat) (hm : m ≤ j) :
    (Matrix.of fun a b : Fin (j + 2) =>
      sampleMoment xs ((if a = Fin.last (j + 1) then m else a.val) + b.val)).det = 0 := by
  have hne : (⟨m, by omega⟩ : Fin (j + 2)) ≠ Fin.last (j + 1) := by
    intro h
    have := congrArg Fin.val h
    simp at this
    omega
  refine Matrix.det_zero_of_row_eq hne ?_
  funext b
  simp [hne]

theorem det_last (xs : List ℝ) (j : Nat) :
    (Matrix.of fun a b : Fin (j + 2) =>
      sampleMoment xs ((if a = Fin.last (j + 1) then j + 1 else a.val) + b.val)).det = (momentMatrix xs (j + 2)).det := by
  congr 1
  ext a b
  simp only [Matrix.of_apply, momentMatrix]
  split
  · rename_i h; rw [h]; rfl
  · rfl

theorem minor_last (xs : List ℝ) (j : Nat) : momentMinor xs j (Fin.last (j + 1)) = momentMatrix xs (j + 1) := by
  ext a b
  simp [momentMinor, momentMatrix]

/-! ### Positivity -/

theorem quad_moments (xs : List ℝ) (n : Nat) (v : Fin n → ℝ) :
    v ⬝ᵥ (momentMatrix xs n).mulVec v = sampleMean xs (fun x => polyAt v x * polyAt v x) := by
  rw [sampleMean_polyAt_poly]
  unfold dotProduct
  apply Finset.sum_congr rfl
  intro a _
  rw [sampleMean_polyAt]
  congr 1
  unfold Matrix.mulVec dotProduct
  apply Finset.sum_congr rfl
  intro b _
  simp [momentMatrix, mul_comm]

/-- A polynomial with fewer coefficients than the sample has values does not vanish on the sample. -/
theorem polyAt_zero (xs : List ℝ) (n : Nat) (hn : n ≤ xs.toFinset.card) (v : Fin n → ℝ) (hv : v ≠ 0) :
    ∃ x ∈ xs, polyAt v x ≠ 0 := by
  by_contra hcon
  push Not at hcon
  apply hv
  set P : Polynomial ℝ := ∑ k, Polynomial.C (v k) * Polynomial.X ^ k.val with hP
  have heval : ∀ x, P.eval x = polyAt v x := by
    intro x
    rw [hP, Polynomial.eval_finset_sum]
    simp [polyAt]
  have hcoeff : ∀ k : Fin n, P.coeff k.val = v k := by
    intro k
    rw [hP, Polynomial.finset_sum_coeff]
    simp only [Polynomial.coeff_C_mul, Polynomial.coeff_X_pow]
    rw [Finset.sum_eq_single k]
    · simp
    · intro b _ hb
      rw [if_neg]
      · simp
      · intro h; exact hb (Fin.ext h.symm)
    · simp
  have hdeg : P.degree < n := by
    rw [hP]
    refine lt_of_le_of_lt (Polynomial.degree_sum_le _ _) ?_
    rw [Finset.sup_lt_iff (by exact WithBot.bot_lt_coe n)]
    intro k _
    refine lt_of_le_of_lt (Polynomial.degree_C_mul_X_pow_le _ _) ?_
    exact_mod_cast k.isLt
  have hz : P = 0 := by
    by_contra hne
    apply hne
    apply Polynomial.eq_zero_of_natDegree_lt_card_of_eval_eq_zero' P xs.toFinset
    · intro x hx
      rw [heval]
      exact hcon x (List.mem_toFinset.mp hx)
    · exact lt_of_lt_of_le ((Polynomial.natDegree_lt_iff_degree_lt hne).mpr hdeg) hn
  funext k
  rw [← hcoeff k, hz]
  simp

theorem det_moments_pos (xs : List ℝ) (n : Nat) (hn : n ≤ xs.toFinset.card) (hx : xs ≠ []) :
    0 < (momentMatrix xs n).det := by
  have hpos : (momentMatrix xs n).PosDef := by
    refine Matrix.PosDef.of_dotProduct_mulVec_pos ?_ ?_
    · ext a b
      simp [momentMatrix, add_comm]
    · intro v hv
      have hst : star v = v := by funext k; simp
      rw [hst, quad_moments]
      obtain ⟨x, hxm, hne⟩ := polyAt_zero xs n hn v hv
      unfold sampleMean
      apply div_pos
      · have hmem : polyAt v x * polyAt v x ∈ xs.map fun x => polyAt v x * polyAt v x := List.mem_map.mpr ⟨x, hxm, rfl⟩
        have hle := List.single_le_sum (l := xs.map fun x => polyAt v x * polyAt v x) (by
          intro y hy
          obtain ⟨z, -, rfl⟩ := List.mem_map.mp hy
          exact mul_self_nonneg _) _ hmem
        exact lt_of_lt_of_le (mul_self_pos.mpr hne) hle
      · exact_mod_cast List.length_pos_iff.mpr hx
  exact hpos.det_pos

/-- With too few values the moment matrix is singular. -/
theorem det_moments_zero (xs : List ℝ) (n : Nat) (hn : xs.toFinset.card < n) : (momentMatrix xs n).det = 0 := by
  rw [← Matrix.exists_mulVec_eq_zero_iff]
  set P : Polynomial ℝ := ∏ r ∈ xs.toFinset, (Polynomial.X - Polynomial.C r) with hP
  have hmon : P.Monic := Polynomial.monic_prod_of_monic _ _ fun r _ => Polynomial.monic_X_sub_C r
  have hdeg : P.natDegree = xs.toFinset.card := by
    rw [hP, Polynomial.natDegree_prod_of_monic _ _ fun r _ => Polynomial.monic_X_sub_C r]
    simp
  have heval : ∀ x ∈ xs, P.eval x = 0 := by
    intro x hx
    rw [hP, Polynomial.eval_prod]
    exact Finset.prod_eq_zero (List.mem_toFinset.mpr hx) (by simp)
  have hat : ∀ x, polyAt (fun k : Fin n => P.coeff k.val) x = P.eval x := by
    intro x
    rw [Polynomial.eval_eq_sum_range' (show P.natDegree < n by omega), ← Fin.sum_univ_eq_sum_range
      (fun i => P.coeff i * x ^ i)]
    rfl
  refine ⟨fun k => P.coeff k.val, ?_, ?_⟩
  · intro h
    have := congrFun h ⟨P.natDegree, by omega⟩
    simp only [Pi.zero_apply] at this
    rw [Polynomial.coeff_natDegree, hmon.leadingCoeff] at this
    exact one_ne_zero this
  · funext b
    have h1 : (momentMatrix xs n).mulVec (fun k => P.coeff k.val) b =
        ∑ k : Fin n, P.coeff k.val * sampleMoment xs (b.val + k.val) := by
      unfold Matrix.mulVec dotProduct
      apply Finset.sum_congr rfl
      intro k _
      simp [momentMatrix, mul_comm]
    rw [h1, ← sampleMean_polyAt xs (fun k : Fin n => P.coeff k.val)]
    unfold sampleMean
    have : xs.map (fun x => polyAt (fun k : Fin n => P.coeff k.val) x * x ^ b.val) = xs.map fun _ => 0 := by
      apply List.map_congr_left
      intro x hx
      rw [hat, heval x hx, zero_mul]
    rw [this]
    simp

/-! ### The coefficients -/

theorem mapM_some_eq {β γ : Type} (f : β → γ) (l : List β) : l.mapM (fun x => some (f x)) = some (l.map f) := by
  induction l with
  | nil => rfl
  | cons x xs ih => simp [ih]

noncomputable def orthValue (xs : List ℝ) (j : Nat) (k : Fin (j + 2)) : ℝ :=
  (-1) ^ (j + k.val + 1) * (momentMinor xs j k).det /
    Real.sqrt ((momentMatrix xs (j + 1)).det * (momentMatrix xs (j + 2)).det)

theorem polyval_finRange {n : Nat} (c : Fin n → ℝ) (x : ℝ) :
    npPolyval (((List.finRange n).reverse).map c) x = polyAt c x := by
  have h : ∀ (n : Nat) (c : Fin n → ℝ) (a : ℝ),
      (((List.finRange n).reverse).map c).foldl (fun acc b => acc * x + b) a = a * x ^ n + polyAt c x := by
    intro n
    induction n with
    | zero => intro c a; simp [polyAt]
    | succ n ih =>
      intro c a
      rw [List.finRange_succ_last, List.reverse_append, List.reverse_singleton, List.singleton_append, List.map_cons,
        List.foldl_cons, ← List.map_reverse, List.map_map, ih]
      unfold polyAt
      rw [Fin.sum_univ_castSucc]
      simp only [Function.comp, Fin.val_castSucc, Fin.val_last]
      ring
  unfold npPolyval
  rw [h]
  ring

theorem orthCoeffs_eq (xs : List ℝ) (j : Nat) (c : List ℝ) (h : orthCoeffs xs j = some c) :
    0 < (momentMatrix xs (j + 1)).det * (momentMatrix xs (j + 2)).det ∧
      c = ((List.finRange (j + 2)).reverse).map (orthValue xs j) := by
  have hpos : 0 < (momentMatrix xs (j + 1)).det * (momentMatrix xs (j + 2)).det := by
    by_contra hn
    have hnone : ∀ k, orthCoeff xs j k = none := by
      intro k
      unfold orthCoeff
      simp only []
      rw [if_pos (not_lt.mp hn)]
    unfold orthCoeffs at h
    rw [List.finRange_succ_last] at h
    simp [hnone] at h
  refine ⟨hpos, ?_⟩
  have hsome : ∀ k, orthCoeff xs j k = some (orthValue xs j k) := by
    intro k
    unfold orthCoeff
    simp only []
    rw [if_neg (not_le.mpr hpos)]
    rfl
  unfold orthCoeffs at h
  have : (fun k => orthCoeff xs j k) = fun k => some (orthValue xs j k) := by funext k; exact hsome k
  rw [this, mapM_some_eq] at h
  exact (Option.some.inj h).symm

/-- The polynomials are defined exactly when the sample has enough different values. -/
theorem C82_defined (xs : List ℝ) (j : Nat) : (orthCoeffs xs j).isSome ↔ j + 2 ≤ xs.toFinset.card := by
  constructor
  · intro h
    obtain ⟨c, hc⟩ := Option.isSome_iff_exists.mp h
    by_contra hn
    have := (orthCoeffs_eq xs j c hc).1
    rw [det_moments_zero xs (j + 2) (by omega), mul_zero] at this
    exact lt_irrefl _ this
  · intro h
    have hx : xs ≠ [] := by rintro rfl; simp at h
    have hpos : 0 < (momentMatrix xs (j + 1)).det * (momentMatrix xs (j + 2)).det :=
      mul_pos (det_moments_pos xs _ (by omega) hx) (det_moments_pos xs _ h hx)
    have hsome : ∀ k, orthCoeff xs j k = some (orthValue xs j k) := by
      intro k
      unfold orthCoeff
      simp only []
      rw [if_neg (not_le.mpr hpos)]
      rfl
    have : (fun k => orthCoeff xs j k) = fun k => some (orthValue xs j k) := by funext k; exact hsome k
    unfold orthCoeffs
    rw [this, mapM_some_eq]
    rfl

theorem orth_power (xs : List ℝ) (j m : Nat) :
    sampleMean xs (fun x => polyAt (orthValue xs j) x * x ^ m) =
      (Matrix.of fun a b : Fin (j + 2) =>
        sampleMoment xs ((if a = Fin.last (j + 1) then m else a.val) + b.val)).det /
        Real.sqrt ((momentMatrix xs (j + 1)).det * (momentMatrix xs (j + 2)).det) := by
  rw [sampleMean_polyAt, ← laplace_moments, Finset.sum_div]
  apply Finset.sum_congr rfl
  intro k _
  unfold orthValue
  ring

theorem orth_lower (xs : List ℝ) (j m : Nat) (hm : m ≤ j) :
    sampleMean xs (fun x => polyAt (orthValue xs j) x * x ^ m) = 0 := by
  rw [orth_power, det_repeated xs j m hm, zero_div]

/-- **C82**: the polynomials have mean zero on the sample, and are orthonormal. -/
theorem C82_orthonormal (xs : List ℝ) (j l : Nat) (cj cl : List ℝ) (hj : orthCoeffs xs j = some cj)
    (hl : orthCoeffs xs l = some cl) :
    sampleMean xs (fun x => npPolyval cj x) = 0 ∧
      sampleMean xs (fun x => npPolyval cj x * npPolyval cl x) = if j = l then 1 else 0 := by
  obtain ⟨hpj, rfl⟩ := orthCoeffs_eq xs j cj hj
  obtain ⟨hpl, rfl⟩ := orthCoeffs_eq xs l cl hl
  simp only [polyval_finRange]
  have horth : ∀ j l, j < l → sampleMean xs (fun x => polyAt (orthValue xs l) x * polyAt (orthValue xs j) x) = 0 := by
    intro j l hjl
    rw [sampleMean_polyAt_poly]
    apply Finset.sum_eq_zero
    intro a _
    rw [orth_lower xs l a.val (by omega), mul_zero]
  constructor
  · have := orth_lower xs j 0 (Nat.zero_le _)
    simpa using this
  · rcases lt_trichotomy j l with h | h | h
    · rw [if_neg h.ne]
      rw [← horth j l h]
      congr 1
      funext x
      ring
    · subst h
      rw [if_pos rfl, sampleMean_polyAt_poly, Fin.sum_univ_castSucc]
      rw [Finset.sum_eq_zero (fun a _ => by
        rw [Fin.val_castSucc, orth_lower xs j a.val (by omega), mul_zero]), zero_add, Fin.val_last, orth_power, det_last]
      unfold orthValue
      rw [minor_last, Fin.val_last, show j + (j + 1) + 1 = 2 * (j + 1) by ring, pow_mul]
      simp only [neg_one_sq, one_pow, one_mul]
      rw [div_mul_div_comm, Real.mul_self_sqrt hpj.le, div_self hpj.ne']
    · rw [if_neg h.ne']
      exact horth l j h

theorem getD_flatMap_const (p d i j : Nat) (f : Nat → List ℝ) (hf : ∀ i, (f i).length = p) (hi : i < d) (hj : j < p) :
    ((List.range d).flatMap f).getD (i * p + j) 0 = (f i).getD j 0 := by
  have hlen : ∀ n, ((List.range n).flatMap f).length = n * p := by
    intro n
    induction n with
    | zero => simp
    | succ n ih => rw [List.range_succ, List.flatMap_append, List.length_append, ih]; simp [hf]; ring
  induction d with
  | zero => omega
  | succ d ih =>
    rw [List.range_succ, List.flatMap_append, List.flatMap_singleton]
    rcases Nat.lt_succ_iff_lt_or_eq.mp hi with h | h
    · rw [List.getD, List.getElem?_append_left, ← List.getD, ih h]
      rw [hlen]
      have : (i + 1) * p ≤ d * p := Nat.mul_le_mul_right p h
      have e : (i + 1) * p = i * p + p := by ring
      omega
    · subst h
      rw [List.getD, List.getElem?_append_right (by rw [hlen]; omega), hlen, Nat.add_sub_cancel_left]
      rfl

/-- The first-order columns of the basis matrix built from the sample: mean zero, mean square one, and the columns of
one input are uncorrelated. -/
theorem C82_columns (p d : Nat) (rows : List (List ℝ)) (coeff : Nat → Nat → List ℝ)
    (hc : ∀ i < d, ∀ j < p, orthCoeffs (rows.map fun r => r.getD i 0) j = some (coeff j i)) (i j l : Nat) (hi : i < d)
    (hj : j < p) (hl : l < p) :
    (rows.map fun r => (ehFirstCols p d coeff r).getD (i * p + j) 0).sum = 0 ∧
      (rows.map fun r => (ehFirstCols p d coeff r).getD (i * p + j) 0 * (ehFirstCols p d coeff r).getD (i * p + l) 0).sum =
        if j = l then (rows.length : ℝ) else 0 := by
  have hget : ∀ q < p, ∀ r, (ehFirstCols p d coeff r).getD (i * p + q) 0 = npPolyval (coeff q i) (r.getD i 0) := by
    intro q hq r
    unfold ehFirstCols
    rw [getD_flatMap_const p d i q _ (by simp) hi hq]
    simp [List.getD, hq]
  have hfun : ∀ q < p, (fun r => (ehFirstCols p d coeff r).getD (i * p + q) 0) =
      fun r => npPolyval (coeff q i) (r.getD i 0) := by
    intro q hq
    funext r
    exact hget q hq r
  have ho := C82_orthonormal _ j l _ _ (hc i hi j hj) (hc i hi l hl)
  unfold sampleMean at ho
  rw [List.map_map, List.map_map, List.length_map] at ho
  have hne : (rows.length : ℝ) ≠ 0 := by
    have hd := (C82_defined (rows.map fun r => r.getD i 0) j).mp (by rw [hc i hi j hj]; rfl)
    have : rows ≠ [] := by rintro rfl; simp at hd
    exact_mod_cast (List.length_pos_iff.mpr this).ne'
  constructor
  · rw [hfun j hj]
    exact (div_eq_zero_iff.mp ho.1).resolve_right hne
  · have e : (fun r => (ehFirstCols p d coeff r).getD (i * p + j) 0 * (ehFirstCols p d coeff r).getD (i * p + l) 0) =
        fun r => npPolyval (coeff j i) (r.getD i 0) * npPolyval (coeff l i) (r.getD i 0) := by
      funext r
      rw [hget j hj, hget l hl]
    rw [e]
    have h2 := ho.2
    rw [div_eq_iff hne] at h2
    rw [show (fun r : List ℝ => npPolyval (coeff j i) (r.getD i 0) * npPolyval (coeff l i) (r.getD i 0)) =
      ((fun x => npPolyval (coeff j i) x * npPolyval (coeff l i) x) ∘ fun r => r.getD i 0) from rfl, h2]
    split <;> simp

/-- On the sample `{0, 1}` the first polynomial is `2 x - 1`; there is no second one. -/
example : orthCoeffs [0, 1] 0 = some [2, -1] ∧ orthCoeffs [0, 1] 1 = none := by
  have hcard : ([0, 1] : List ℝ).toFinset.card = 2 := by
    rw [List.card_toFinset]; simp [List.dedup, List.pwFilter]
  constructor
  · obtain ⟨c, hc⟩ := Option.isSome_iff_exists.mp ((C82_defined [0, 1] 0).mpr (by rw [hcard]))
    rw [hc, (orthCoeffs_eq _ _ _ hc).2]
    have hs : Real.sqrt (1 / 4) = 1 / 2 := by
      rw [show (1 / 4 : ℝ) = (1 / 2) ^ 2 by norm_num, Real.sqrt_sq (by norm_num)]
    have hd : (momentMatrix [0, 1] 1).det * (momentMatrix [0, 1] 2).det = 1 / 4 := by
      rw [Matrix.det_fin_two, Matrix.det_fin_one]
      norm_num [momentMatrix, sampleMoment]
    have h1 : orthValue [0, 1] 0 1 = 2 := by
      unfold orthValue
      rw [hd, hs, Matrix.det_fin_one]
      norm_num [momentMinor, sampleMoment]
    have h0 : orthValue [0, 1] 0 0 = -1 := by
      unfold orthValue
      rw [hd, hs, Matrix.det_fin_one]
      norm_num [momentMinor, sampleMoment]
    have hr : (List.finRange (0 + 2)).reverse = [1, 0] := by decide
    rw [hr]
    simp [h1, h0]
  · cases h : orthCoeffs [0, 1] 1 with
    | none => rfl
    | some c =>
      have := (C82_defined [0, 1] 1).mp (by rw [h]; rfl)
      omega

end SALib
