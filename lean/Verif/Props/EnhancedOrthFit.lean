import Verif.Props.EnhancedDriver
import Verif.Props.EnhancedFit

/-! # C123: the fit of `enhanced_hdmr` on orthonormal columns -/

set_option linter.unusedSectionVars false

namespace SALib

open Spec Finset

variable {α : Type} [Field α] [LinearOrder α] [IsStrictOrderedRing α]

/-- The blocks have orthonormal columns. -/
def OrthonormalBlocks (R w : Nat) (Bs : List (Mat α)) : Prop :=
  ∀ i < Bs.length, ∀ j < Bs.length, ∀ k < w, ∀ l < w,
    ∑ r ∈ range R, blkAt Bs i r k * blkAt Bs j r l = if i = j ∧ k = l then (R : α) else 0

section Blocks

variable (solve : Mat α → List α → Py (List α)) (hsolve : SolvesSystems solve) (hreg : SolvesRegular solve)
  (R w : Nat) (hR : 0 < R) (Bs : List (Mat α)) (hB : ∀ j < Bs.length, Shape R w (Bs.getD j []))
  (horth : OrthonormalBlocks R w Bs)

include hsolve hreg hR hB horth

/-- The system of a block always has a solution. -/
theorem orthBlock_solves (lam : α) (hl : 0 ≤ lam) (i : Nat) (hi : i < Bs.length) (y : List α) :
    ∃ x, solve (scaledGram (R : α) w lam (Bs.getD i [])) (scaledRhs (R : α) w (Bs.getD i []) y) = .ok x := by
  have hRp : (0 : α) < (R : α) := by exact_mod_cast hR
  refine hreg _ _ w (by simp [scaledGram]) ?_ (by simp [scaledRhs]) ?_
  · intro row hrow
    obtain ⟨k, -, rfl⟩ := List.mem_map.mp hrow
    simp
  · intro v hv j hj
    have h := hv j hj
    have el : ∀ l < w, ((scaledGram (R : α) w lam (Bs.getD i [])).getD j []).getD l 0 = if j = l then 1 + lam else 0 := by
      intro l hl
      have e := horth i hi i hi j hj l hl
      have e2 : ((scaledGram (R : α) w lam (Bs.getD i [])).getD j []).getD l 0 =
          (∑ r ∈ range R, blkAt Bs i r j * blkAt Bs i r l) / (R : α) + if j = l then lam else 0 := by
        unfold blkAt
        rw [← map_sum_range (fun row => row.getD j 0 * row.getD l 0) (Bs.getD i []) R (hB i hi).1]
        simp [scaledGram, List.getD, hj, hl]
      rw [e2, e]
      by_cases hjl : j = l
      · rw [if_pos ⟨rfl, hjl⟩, if_pos hjl, if_pos hjl, div_self hRp.ne']
      · rw [if_neg (fun h => hjl h.2), if_neg hjl, if_neg hjl, zero_div, add_zero]
    rw [sum_congr rfl fun l hl => by rw [el l (mem_range.mp hl)]] at h
    simp only [ite_mul, zero_mul] at h
    rw [sum_ite_eq, if_pos (mem_range.mpr hj)] at h
    rcases mul_eq_zero.mp h with h | h
    · exact absurd h (by positivity)
    · exact h

theorem ehRidge_exists (lam : α) (hl : 0 ≤ lam) (y : List α) (hy : y.length = R) :
    ∃ st, ehRidge solve (R : α) w lam Bs y = .ok st ∧ EhState R w Bs st := by
  have hRp : (R : α) ≠ 0 := by exact_mod_cast hR.ne'
  obtain ⟨xs, hxs, hlen⟩ := mapM_exists_ok (fun B => solve (scaledGram (R : α) w lam B) (scaledRhs (R : α) w B y)) Bs
    fun B hBm => by
      obtain ⟨i, hi, rfl⟩ := List.mem_iff_getElem.mp hBm
      have := orthBlock_solves solve hsolve hreg R w hR Bs hB horth lam hl i hi y
      simpa [List.getD, hi] using this
  refine ⟨(xs, List.zipWith matVec Bs xs), ?_, ?_⟩
  · unfold ehRidge
    rw [hxs, pyBind_ok]
    rfl
  · have hx : ∀ i, (hi : i < Bs.length) → ∃ x, xs[i]? = some x ∧ x.length = w := by
      intro i hi
      have h2 := (mapM_ok_iff _ _ _).mp hxs
      have := h2.get (i := i) hi (by omega)
      refine ⟨xs[i]'(by omega), List.getElem?_eq_getElem _, ?_⟩
      have hsh := hB i hi
      rw [show Bs.getD i [] = Bs[i] by simp [List.getD, hi]] at hsh
      exact (solved_normal solve hsolve (R : α) hRp R w lam _ hsh y hy _ this).1
    refine ⟨⟨hlen, ?_⟩, by simp [hlen], ?_⟩
    · intro row hrow
      obtain ⟨i, hi, rfl⟩ := List.mem_iff_getElem.mp hrow
      obtain ⟨x, h1, h2⟩ := hx i (by have h : i < xs.length := hi; omega)
      rw [List.getElem?_eq_getElem hi] at h1
      rw [Option.some.inj h1]
      exact h2
    · intro z hz r hr
      obtain ⟨x, h1, h2⟩ := hx z hz
      have e : (List.zipWith matVec Bs xs).getD z [] = matVec (Bs.getD z []) x := by
        simp [List.getD, List.getElem?_zipWith, h1, hz]
      simp only []
      rw [e, matVec_getD _ _ R w r (hB z hz) h2 hr]
      refine sum_congr rfl fun k _ => ?_
      unfold blkAt coefAt
      rw [show xs.getD z [] = x by simp [List.getD, h1]]

theorem ehUpdate_exists (y : List α) (hy : y.length = R) (st : List (List α) × List (List α)) (hst : EhState R w Bs st)
    (i : Nat) (hi : i < Bs.length) :
    ∃ st', ehUpdate solve (R : α) w Bs y st i = .ok st' ∧ EhState R w Bs st' ∧
      (∀ z k, z ≠ i → coefAt st'.1 z k = coefAt st.1 z k) ∧
      ∀ k < w, coefAt st'.1 i k = (∑ r ∈ range R, blkAt Bs i r k * y.getD r 0) / (R : α) := by
  have hRp : (R : α) ≠ 0 := by exact_mod_cast hR.ne'
  obtain ⟨x, hx⟩ := orthBlock_solves solve hsolve hreg R w hR Bs hB horth 0 le_rfl i hi
    (subColumns y (((List.range Bs.length).erase i).map fun z => st.2.getD z []))
  have he : ∃ st', ehUpdate solve (R : α) w Bs y st i = .ok st' := by
    refine ⟨(st.1.set i x, st.2.set i (matVec (Bs.getD i []) x)), ?_⟩
    unfold ehUpdate
    simp only []
    rw [hx, pyBind_ok]
    rfl
  obtain ⟨st', hst'⟩ := he
  obtain ⟨h1, -, ⟨v, hv⟩, hn⟩ := ehUpdate_ok solve hsolve (R : α) hRp R w Bs hB y hy st st' hst i hi hst'
  refine ⟨st', hst', h1, fun z k hz => by rw [hv, Function.update_of_ne hz], fun k hk => ?_⟩
  have h := hn k hk
  have e1 : ∑ r ∈ range R, blkAt Bs i r k *
      (∑ z ∈ (range Bs.length).erase i, ∑ k ∈ range w, blkAt Bs z r k * coefAt st.1 z k) = 0 := by
    simp only [mul_sum]
    rw [sum_comm]
    refine sum_eq_zero fun z hz => ?_
    rw [sum_comm]
    refine sum_eq_zero fun l hl => ?_
    have := horth i hi z (mem_range.mp (mem_of_mem_erase hz)) k hk l (mem_range.mp hl)
    rw [if_neg (fun h => (ne_of_mem_erase hz) h.1.symm)] at this
    calc ∑ r ∈ range R, blkAt Bs i r k * (blkAt Bs z r l * coefAt st.1 z l)
        = (∑ r ∈ range R, blkAt Bs i r k * blkAt Bs z r l) * coefAt st.1 z l := by
          rw [sum_mul]; exact sum_congr rfl fun r _ => by ring
      _ = 0 := by rw [this, zero_mul]
  have e2 : ∑ r ∈ range R, blkAt Bs i r k * (∑ k' ∈ range w, blkAt Bs i r k' * coefAt st'.1 i k') =
      (R : α) * coefAt st'.1 i k := by
    simp only [mul_sum]
    rw [sum_comm]
    have : ∀ l ∈ range w, ∑ r ∈ range R, blkAt Bs i r k * (blkAt Bs i r l * coefAt st'.1 i l) =
        if k = l then (R : α) * coefAt st'.1 i l else 0 := by
      intro l hl
      have := horth i hi i hi k hk l (mem_range.mp hl)
      calc ∑ r ∈ range R, blkAt Bs i r k * (blkAt Bs i r l * coefAt st'.1 i l)
          = (∑ r ∈ range R, blkAt Bs i r k * blkAt Bs i r l) * coefAt st'.1 i l := by
            rw [sum_mul]; exact sum_congr rfl fun r _ => by ring
        _ = _ := by
            rw [this]
            by_cases hkl : k = l
            · rw [if_pos ⟨rfl, hkl⟩, if_pos hkl]
            · rw [if_neg (fun h => hkl h.2), if_neg hkl, zero_mul]
    rw [sum_congr rfl this, sum_ite_eq, if_pos (mem_range.mpr hk)]
  rw [sum_congr rfl fun r _ => show blkAt Bs i r k * _ = blkAt Bs i r k * y.getD r 0 -
      blkAt Bs i r k * (∑ z ∈ (range Bs.length).erase i, ∑ k ∈ range w, blkAt Bs z r k * coefAt st.1 z k) -
      blkAt Bs i r k * (∑ k' ∈ range w, blkAt Bs i r k' * coefAt st'.1 i k') by ring,
    sum_sub_distrib, sum_sub_distrib, e1, e2, sub_zero, sub_eq_zero] at h
  rw [h]
  field_simp

theorem ehSweep_exists (y : List α) (hy : y.length = R) (st : List (List α) × List (List α)) (hst : EhState R w Bs st) :
    ∃ st', ehSweep solve (R : α) w Bs y st = .ok st' ∧ EhState R w Bs st' ∧
      ∀ i < Bs.length, ∀ k < w, coefAt st'.1 i k = (∑ r ∈ range R, blkAt Bs i r k * y.getD r 0) / (R : α) := by
  have hgen : ∀ n ≤ Bs.length, ∃ st', (List.range n).foldlM (ehUpdate solve (R : α) w Bs y) st = .ok st' ∧
      EhState R w Bs st' ∧
      ∀ i < n, ∀ k < w, coefAt st'.1 i k = (∑ r ∈ range R, blkAt Bs i r k * y.getD r 0) / (R : α) := by
    intro n
    induction n with
    | zero => exact fun _ => ⟨st, rfl, hst, fun i hi => by omega⟩
    | succ n ih =>
      intro hn
      obtain ⟨s1, h1, h2, h3⟩ := ih (by omega)
      obtain ⟨s2, h4, h5, h6, h7⟩ := ehUpdate_exists solve hsolve hreg R w hR Bs hB horth y hy s1 h2 n (by omega)
      refine ⟨s2, ?_, h5, fun i hi k hk => ?_⟩
      · rw [List.range_succ, List.foldlM_append, h1, pyBind_ok, List.foldlM_cons, h4, pyBind_ok]
        rfl
      · rcases Nat.lt_succ_iff_lt_or_eq.mp hi with h | rfl
        · rw [h6 i k h.ne, h3 i h k hk]
        · exact h7 k hk
  exact hgen Bs.length le_rfl

theorem ehBackfit_exists (y : List α) (hy : y.length = R) (it : Nat) : ∀ st : List (List α) × List (List α),
    EhState R w Bs st → ∃ st', ehBackfit solve (R : α) w Bs y (it + 1) st = .ok st' ∧ EhState R w Bs st' ∧
      ∀ i < Bs.length, ∀ k < w, coefAt st'.1 i k = (∑ r ∈ range R, blkAt Bs i r k * y.getD r 0) / (R : α) := by
  induction it with
  | zero =>
    intro st hst
    obtain ⟨s1, h1, h2, h3⟩ := ehSweep_exists solve hsolve hreg R w hR Bs hB horth y hy st hst
    refine ⟨s1, ?_, h2, h3⟩
    unfold ehBackfit
    rw [h1, pyBind_ok, if_pos (Or.inr rfl)]
    rfl
  | succ it ih =>
    intro st hst
    obtain ⟨s1, h1, h2, h3⟩ := ehSweep_exists solve hsolve hreg R w hR Bs hB horth y hy st hst
    by_cases hc : maxSquareChange st.1 s1.1 < 1 / 10000 ∨ it + 1 = 0
    · refine ⟨s1, ?_, h2, h3⟩
      unfold ehBackfit
      rw [h1, pyBind_ok, if_pos hc]
      rfl
    · obtain ⟨s2, h4, h5⟩ := ih s1 h2
      refine ⟨s2, ?_, h5⟩
      unfold ehBackfit
      rw [h1, pyBind_ok, if_neg hc, h4]

/-- The fit of one order on orthonormal columns: it succeeds, and the coefficients are the projections of the output. -/
theorem ehOrder_orthonormal (lam : α) (hl : 0 ≤ lam) (maxIter : Nat) (y : List α) (hy : y.length = R) :
    ∃ xs res, ehOrder solve (R : α) w lam maxIter Bs y = .ok (xs, res) ∧ Shape Bs.length w xs ∧ res.length = R ∧
      (∀ i < Bs.length, ∀ k < w, coefAt xs i k = (∑ r ∈ range R, blkAt Bs i r k * y.getD r 0) / (R : α)) ∧
      ∀ r < R, res.getD r 0 = y.getD r 0 - fitAt Bs.length w (blkAt Bs) (coefAt xs) r := by
  have hRp : (0 : α) < (R : α) := by exact_mod_cast hR
  obtain ⟨st, h1, h2⟩ := ehRidge_exists solve hsolve hreg R w hR Bs hB horth lam hl y hy
  obtain ⟨st', h3, h4, h5⟩ := ehBackfit_exists solve hsolve hreg R w hR Bs hB horth y hy maxIter st h2
  have ho : ehOrder solve (R : α) w lam maxIter Bs y = .ok (st'.1, subColumns y st'.2) := by
    unfold ehOrder
    rw [h1, pyBind_ok, h3, pyBind_ok]
    rfl
  have hB' : ∀ B ∈ Bs, Shape R w B := by
    intro B hBm
    obtain ⟨i, hi, rfl⟩ := List.mem_iff_getElem.mp hBm
    have := hB i hi
    rwa [show Bs.getD i [] = Bs[i] by simp [List.getD, hi]] at this
  obtain ⟨a1, a2, a3, -, -⟩ := C94_enhanced solve hsolve (R : α) hRp R w maxIter lam hl Bs hB' y hy _ _ ho
  exact ⟨_, _, ho, a1, a2, h5, a3⟩

end Blocks

/-! ### Both orders -/

theorem ehBlocks_blkAt (B : Mat α) (s w n R i r k : Nat) (hB : B.length = R) (hi : i < n) (hr : r < R) (hk : k < w) :
    blkAt (ehBlocks B s w n) i r k = (B.getD r []).getD (s + i * w + k) 0 := by
  unfold blkAt ehBlocks colSlice
  have e : ((List.range n).map fun i => B.map fun row => (row.take (s + (i + 1) * w)).drop (s + i * w)).getD i [] =
      B.map fun row => (row.take (s + (i + 1) * w)).drop (s + i * w) := by simp [List.getD, hi]
  rw [e]
  have hr' : r < B.length := by omega
  simp only [List.getD, List.getElem?_map, List.getElem?_eq_getElem hr', Option.map_some, Option.getD_some,
    List.getElem?_drop, List.getElem?_take]
  rw [if_pos (by rw [Nat.add_mul]; omega)]

theorem ehBlocks_shape (B : Mat α) (s w n R T : Nat) (hB : Shape R T B) (hT : s + n * w ≤ T) :
    ∀ j < (ehBlocks B s w n).length, Shape R w ((ehBlocks B s w n).getD j []) := by
  intro j hj
  have hj' : j < n := by simpa [ehBlocks] using hj
  have e : (ehBlocks B s w n).getD j [] = B.map fun row => colSlice row (s + j * w) (s + (j + 1) * w) := by
    simp [ehBlocks, List.getD, hj']
  rw [e]
  refine ⟨by rw [List.length_map, hB.1], fun row hrow => ?_⟩
  obtain ⟨b, hb, rfl⟩ := List.mem_map.mp hrow
  have h1 : (j + 1) * w ≤ n * w := Nat.mul_le_mul_right w hj'
  have h2 : (j + 1) * w = j * w + w := by ring
  unfold colSlice
  rw [List.length_drop, List.length_take, hB.2 b hb]
  omega

theorem ehBlocks_orthonormal (B : Mat α) (s w n R T : Nat) (hB : B.length = R) (hT : s + n * w ≤ T)
    (horth : OrthonormalCols R T B) : OrthonormalBlocks R w (ehBlocks B s w n) := by
  intro i hi j hj k hk l hl
  have hi' : i < n := by simpa [ehBlocks] using hi
  have hj' : j < n := by simpa [ehBlocks] using hj
  rw [sum_congr rfl fun r hr => by
    rw [ehBlocks_blkAt B s w n R i r k hB hi' (mem_range.mp hr) hk, ehBlocks_blkAt B s w n R j r l hB hj' (mem_range.mp hr) hl]]
  have hbound : ∀ i < n, ∀ k < w, s + i * w + k < T := by
    intro i hi k hk
    have h1 : (i + 1) * w ≤ n * w := Nat.mul_le_mul_right w hi
    have h2 : (i + 1) * w = i * w + w := by ring
    omega
  rw [horth _ (hbound i hi' k hk) _ (hbound j hj' l hl)]
  by_cases h : i = j ∧ k = l
  · rw [if_pos h, if_pos (by rw [h.1, h.2])]
  · rw [if_neg h, if_neg]
    intro he
    apply h
    have he : w * i + k = w * j + l := by rw [Nat.mul_comm w i, Nat.mul_comm w j]; omega
    have hw : 0 < w := by omega
    have hd : (w * i + k) / w = (w * j + l) / w := by rw [he]
    rw [Nat.mul_add_div hw, Nat.mul_add_div hw, Nat.div_eq_of_lt hk, Nat.div_eq_of_lt hl] at hd
    refine ⟨by omega, ?_⟩
    have hij : i = j := by omega
    rw [hij] at he
    omega

theorem coefBlocks_getD (xs : List (List α)) (n w i k : Nat) (hs : Shape n w xs) (hi : i < n) (hk : k < w) :
    xs.flatten.getD (i * w + k) 0 = coefAt xs i k := by
  have hgen : ∀ (xs : List (List α)), (∀ row ∈ xs, row.length = w) → ∀ i < xs.length,
      xs.flatten.getD (i * w + k) 0 = coefAt xs i k := by
    intro xs
    induction xs with
    | nil => intro _ i hi; simp at hi
    | cons x xs ih =>
      intro hall i hi
      have hx := hall x (by simp)
      cases i with
      | zero =>
        simp [coefAt, List.getD, List.getElem?_append_left (show k < x.length by omega)]
      | succ i =>
        have e : (i + 1) * w + k = x.length + (i * w + k) := by rw [hx]; ring
        rw [List.flatten_cons, e, List.getD, List.getElem?_append_right (by omega), Nat.add_sub_cancel_left, ← List.getD,
          ih (fun r hr => hall r (by simp [hr])) i (by simpa using hi)]
        rfl
  exact hgen xs hs.2 i (by rw [hs.1]; exact hi)

theorem flatten_length (xs : List (List α)) (n w : Nat) (hs : Shape n w xs) : xs.flatten.length = n * w := by
  obtain ⟨rfl, h⟩ := hs
  induction xs with
  | nil => simp
  | cons x xs ih =>
    rw [List.flatten_cons, List.length_append, ih fun r hr => h r (by simp [hr]), h x (by simp), List.length_cons]
    ring

/-- **C123**: on a sample whose basis columns are orthonormal the fit without the extended base succeeds, and every
coefficient is the average of the output times its column, whatever `l2_penalty` and `max_iter` are. -/
theorem C123_projection (solve : Mat α → List α → Py (List α)) (hsolve : SolvesSystems solve) (hreg : SolvesRegular solve)
    (R d p : Nat) (hR : 0 < R) (lam : α) (hl : 0 ≤ lam) (maxIter : Nat) (B : Mat α)
    (hB : Shape R (d * p + d.choose 2 * p ^ 2) B) (horth : OrthonormalCols R (d * p + d.choose 2 * p ^ 2) B) (y : List α)
    (hy : y.length = R) :
    ∃ x, ehPlain solve R d p 2 lam maxIter B y = .ok x ∧ x.length = d * p + d.choose 2 * p ^ 2 ∧
      ∀ c < d * p + d.choose 2 * p ^ 2, x.getD c 0 = project R B (fun r => y.getD r 0) c := by
  have hnt : (ehNt p 2 false).2.1 = p ^ 2 := by simp [ehNt]
  have hnc : (ehNc d 2).2.1 = d.choose 2 := by simp [ehNc]
  have hlen1 : (ehBlocks B 0 p d).length = d := by simp [ehBlocks]
  have hlen2 : (ehBlocks B (p * d) (p ^ 2) (d.choose 2)).length = d.choose 2 := by simp [ehBlocks]
  have hpd : p * d = d * p := Nat.mul_comm _ _
  obtain ⟨x1, res1, h1, h2, h3, h4, h5⟩ := ehOrder_orthonormal solve hsolve hreg R p hR (ehBlocks B 0 p d)
    (ehBlocks_shape B 0 p d R _ hB (by omega)) (ehBlocks_orthonormal B 0 p d R _ hB.1 (by omega) horth) lam hl maxIter y hy
  obtain ⟨x2, res2, g1, g2, g3, g4, g5⟩ := ehOrder_orthonormal solve hsolve hreg R (p ^ 2) hR
    (ehBlocks B (p * d) (p ^ 2) (d.choose 2)) (ehBlocks_shape B (p * d) (p ^ 2) (d.choose 2) R _ hB (by omega))
    (ehBlocks_orthonormal B (p * d) (p ^ 2) (d.choose 2) R _ hB.1 (by omega) horth) lam hl maxIter res1 h3
  rw [hlen1] at h2 h4 h5
  rw [hlen2] at g2 g4
  have hl1 := flatten_length x1 d p h2
  have hl2 := flatten_length x2 (d.choose 2) (p ^ 2) g2
  refine ⟨x1.flatten ++ x2.flatten, ?_, by rw [List.length_append, hl1, hl2], fun c hc => ?_⟩
  · unfold ehPlain
    rw [h1, pyBind_ok, if_pos (by norm_num), hnt, hnc, g1, pyBind_ok, if_neg (by norm_num)]
    rfl
  · by_cases hc1 : c < d * p
    · have hp : 0 < p := Nat.pos_of_ne_zero fun h => by rw [h, Nat.mul_zero] at hc1; omega
      have hi : c / p < d := Nat.div_lt_of_lt_mul (by rw [Nat.mul_comm]; exact hc1)
      have hk : c % p < p := Nat.mod_lt _ hp
      have hce : c / p * p + c % p = c := by rw [Nat.mul_comm]; exact Nat.div_add_mod c p
      rw [List.getD, List.getElem?_append_left (by omega), ← List.getD]
      rw [← hce, coefBlocks_getD x1 d p (c / p) (c % p) h2 hi hk, h4 _ hi _ hk]
      unfold project
      congr 1
      refine sum_congr rfl fun r hr => ?_
      rw [ehBlocks_blkAt B 0 p d R _ r _ hB.1 hi (mem_range.mp hr) hk, Nat.zero_add]
    · have hp : 0 < p ^ 2 := Nat.pos_of_ne_zero fun h => by rw [h, Nat.mul_zero] at hc; omega
      obtain ⟨e, rfl⟩ := Nat.exists_eq_add_of_le (not_lt.mp hc1)
      have he : e < d.choose 2 * p ^ 2 := by omega
      have hi : e / p ^ 2 < d.choose 2 := Nat.div_lt_of_lt_mul (by rw [Nat.mul_comm]; exact he)
      have hk : e % p ^ 2 < p ^ 2 := Nat.mod_lt _ hp
      have hee : e / p ^ 2 * p ^ 2 + e % p ^ 2 = e := by rw [Nat.mul_comm]; exact Nat.div_add_mod e _
      rw [List.getD, List.getElem?_append_right (by omega), hl1, Nat.add_sub_cancel_left, ← List.getD]
      rw [show x2.flatten.getD e 0 = coefAt x2 (e / p ^ 2) (e % p ^ 2) by
        conv_lhs => rw [← hee]
        exact coefBlocks_getD x2 _ _ _ _ g2 hi hk, g4 _ hi _ hk]
      unfold project
      congr 1
      have hcol : ∀ r ∈ range R, blkAt (ehBlocks B (p * d) (p ^ 2) (d.choose 2)) (e / p ^ 2) r (e % p ^ 2) =
          (B.getD r []).getD (d * p + e) 0 := by
        intro r hr
        rw [ehBlocks_blkAt B (p * d) (p ^ 2) (d.choose 2) R _ r _ hB.1 hi (mem_range.mp hr) hk]
        congr 1
        omega
      rw [sum_congr rfl fun r hr => by rw [hcol r hr, h5 r (mem_range.mp hr), mul_sub], sum_sub_distrib, sub_eq_self]
      have hfit : ∀ r ∈ range R, (B.getD r []).getD (d * p + e) 0 * fitAt d p (blkAt (ehBlocks B 0 p d)) (coefAt x1) r =
          ∑ i ∈ range d, ∑ k ∈ range p, (B.getD r []).getD (d * p + e) 0 * (B.getD r []).getD (0 + i * p + k) 0 *
            coefAt x1 i k := by
        intro r hr
        unfold fitAt
        rw [mul_sum]
        refine sum_congr rfl fun i hi => ?_
        rw [mul_sum]
        refine sum_congr rfl fun k hk => ?_
        rw [ehBlocks_blkAt B 0 p d R i r k hB.1 (mem_range.mp hi) (mem_range.mp hr) (mem_range.mp hk), mul_assoc]
      rw [sum_congr rfl hfit, sum_comm]
      refine sum_eq_zero fun i hi => ?_
      rw [sum_comm]
      refine sum_eq_zero fun k hk => ?_
      have h1 : (i + 1) * p ≤ d * p := Nat.mul_le_mul_right p (mem_range.mp hi)
      have h2 : (i + 1) * p = i * p + p := by ring
      have hk' := mem_range.mp hk
      rw [← sum_mul, horth _ hc _ (by omega), if_neg (by omega), zero_mul]

/-! ### The indices -/

/-- The columns of term `j`. -/
def termCols (d p : Nat) (j : Nat) : Finset Nat :=
  Finset.Ico (firstColumn d p false j) (firstColumn d p false j + columnsOf d p false j)

theorem termValue_cols (d p : Nat) (B : Mat α) (x : List α) (j r : Nat) :
    termValue d p false B x j r = ∑ c ∈ termCols d p j, (B.getD r []).getD c 0 * x.getD c 0 := by
  unfold termValue termCols
  rw [Finset.sum_Ico_eq_sum_range, Nat.add_sub_cancel_left]

theorem firstColumn_succ (d p : Nat) (ext : Bool) (j : Nat) :
    firstColumn d p ext (j + 1) = firstColumn d p ext j + columnsOf d p ext j := by
  unfold firstColumn
  rw [Finset.sum_range_succ]

theorem firstColumn_mono (d p : Nat) (ext : Bool) : Monotone (firstColumn d p ext) :=
  monotone_nat_of_le_succ fun j => by rw [firstColumn_succ]; omega

theorem firstColumn_end (d p : Nat) : firstColumn d p false (hdmrN d 2) = d * p + d.choose 2 * p ^ 2 := by
  have hn : hdmrN d 2 = d + d.choose 2 := by
    have := congrArg (fun t => t.2.1) (ehNc_eq d 2)
    simp only [] at this
    unfold hdmrN
    rw [← this]
    simp [hdmrC3, ehNc]
  rw [hn, firstColumn_high]
  simp [ehNt, Nat.mul_comm]

theorem termCols_disjoint (d p : Nat) (j l : Nat) (h : j ≠ l) : Disjoint (termCols d p j) (termCols d p l) := by
  rw [Finset.disjoint_left]
  intro c h1 h2
  unfold termCols at h1 h2
  rw [← firstColumn_succ] at h1 h2
  have h1 := Finset.mem_Ico.mp h1
  have h2 := Finset.mem_Ico.mp h2
  rcases Nat.lt_or_gt_of_ne h with h | h
  · have := firstColumn_mono d p false (show j + 1 ≤ l from h)
    omega
  · have := firstColumn_mono d p false (show l + 1 ≤ j from h)
    omega

theorem termCols_subset (d p : Nat) (j : Nat) (h : j < hdmrN d 2) : termCols d p j ⊆ range (d * p + d.choose 2 * p ^ 2) := by
  intro c hc
  have hc := Finset.mem_Ico.mp hc
  rw [← firstColumn_succ] at hc
  have := firstColumn_mono d p false (show j + 1 ≤ hdmrN d 2 from h)
  rw [firstColumn_end] at this
  exact mem_range.mpr (by omega)

theorem termCols_sum (d p : Nat) (f : Nat → α) (n : Nat) :
    ∑ j ∈ range n, ∑ c ∈ termCols d p j, f c = ∑ c ∈ range (firstColumn d p false n), f c := by
  induction n with
  | zero => simp [firstColumn]
  | succ n ih =>
    rw [Finset.sum_range_succ, ih, firstColumn_succ, termCols, Finset.sum_range_add_sum_Ico _ (by omega)]

section Ortho

variable (R T : Nat) (B : Mat α) (horth : OrthonormalCols R T B)

include horth

theorem span_mul (x z : Nat → α) (A A' : Finset Nat) (hA : A ⊆ range T) (hA' : A' ⊆ range T) :
    ∑ r ∈ range R, (∑ c ∈ A, (B.getD r []).getD c 0 * x c) * (∑ c ∈ A', (B.getD r []).getD c 0 * z c) =
      (R : α) * ∑ c ∈ A ∩ A', x c * z c := by
  have h1 : ∀ r ∈ range R, (∑ c ∈ A, (B.getD r []).getD c 0 * x c) * (∑ c ∈ A', (B.getD r []).getD c 0 * z c) =
      ∑ c ∈ A, ∑ c' ∈ A', (B.getD r []).getD c 0 * (B.getD r []).getD c' 0 * (x c * z c') := by
    intro r _
    rw [Finset.sum_mul_sum]
    exact sum_congr rfl fun c _ => sum_congr rfl fun c' _ => by ring
  rw [sum_congr rfl h1, sum_comm, ← Finset.sum_filter_add_sum_filter_not A (· ∈ A')]
  have h2 : ∀ c ∈ A, ∑ r ∈ range R, ∑ c' ∈ A', (B.getD r []).getD c 0 * (B.getD r []).getD c' 0 * (x c * z c') =
      if c ∈ A' then (R : α) * (x c * z c) else 0 := by
    intro c hc
    rw [sum_comm]
    have h3 : ∀ c' ∈ A', ∑ r ∈ range R, (B.getD r []).getD c 0 * (B.getD r []).getD c' 0 * (x c * z c') =
        if c = c' then (R : α) * (x c * z c') else 0 := by
      intro c' hc'
      rw [← sum_mul, horth c (mem_range.mp (hA hc)) c' (mem_range.mp (hA' hc'))]
      split <;> simp
    rw [sum_congr rfl h3, sum_ite_eq]
  rw [Finset.sum_filter_add_sum_filter_not, sum_congr rfl h2, ← Finset.sum_filter, Finset.filter_mem_eq_inter, mul_sum]

theorem span_project (hR : 0 < R) (y : Nat → α) (x : Nat → α) (A : Finset Nat) :
    ∑ r ∈ range R, (∑ c ∈ A, (B.getD r []).getD c 0 * x c) * y r = (R : α) * ∑ c ∈ A, x c * project R B y c := by
  have hRp : (R : α) ≠ 0 := by exact_mod_cast hR.ne'
  simp only [sum_mul]
  rw [sum_comm, mul_sum]
  refine sum_congr rfl fun c _ => ?_
  unfold project
  rw [show (R : α) * (x c * ((∑ r ∈ range R, (B.getD r []).getD c 0 * y r) / (R : α))) =
    x c * ∑ r ∈ range R, (B.getD r []).getD c 0 * y r by field_simp, mul_sum]
  exact sum_congr rfl fun r _ => by ring

end Ortho

theorem devSum_zero_mean (R : Nat) (f g : Nat → α) (hf : ∑ r ∈ range R, f r = 0) :
    devSum R f g = ∑ r ∈ range R, f r * g r := by
  unfold devSum
  have : meanOn R f = 0 := by unfold meanOn; rw [hf, zero_div]
  rw [this]
  simp only [sub_zero, mul_sub]
  rw [sum_sub_distrib, ← sum_mul, hf, zero_mul, sub_zero]

theorem span_zero_mean (R : Nat) (B : Mat α) (x : Nat → α) (A : Finset Nat)
    (h0 : ∀ c ∈ A, ∑ r ∈ range R, (B.getD r []).getD c 0 = 0) :
    ∑ r ∈ range R, ∑ c ∈ A, (B.getD r []).getD c 0 * x c = 0 := by
  rw [sum_comm]
  exact sum_eq_zero fun c hc => by rw [← sum_mul, h0 c hc, zero_mul]

/-- **C123**: with orthonormal columns of average zero and the coefficients of `C123_projection`, the index of a term is the
sum of its squared coefficients over the variance of the output (times `R / (R - 1)`), none of it is from correlation, and the
indices of all terms add up to at most `R / (R - 1)`, with equality when the terms reproduce the output. -/
theorem C123_shares (R d p : Nat) (h2 : 2 ≤ R) (B : Mat α) (horth : OrthonormalCols R (d * p + d.choose 2 * p ^ 2) B)
    (h0 : ∀ c < d * p + d.choose 2 * p ^ 2, ∑ r ∈ range R, (B.getD r []).getD c 0 = 0) (y : Nat → α)
    (hV : 0 < devSum R y y) (x : List α) (hx : ∀ c < d * p + d.choose 2 * p ^ 2, x.getD c 0 = project R B y c)
    (S Sa Sb : Nat → α) (hS : ShareOn (hdmrN d 2) R y (termValue d p false B x) S Sa Sb) :
    (∀ j < hdmrN d 2, S j = (R : α) / ((R : α) - 1) * ((∑ k ∈ range (columnsOf d p false j),
        project R B y (firstColumn d p false j + k) ^ 2) / (devSum R y y / (R : α))) ∧ Sa j = S j ∧ Sb j = 0) ∧
    ∑ j ∈ range (hdmrN d 2), S j ≤ (R : α) / ((R : α) - 1) ∧
    ((∃ f0, ∀ r < R, y r = f0 + ∑ j ∈ range (hdmrN d 2), termValue d p false B x j r) →
      ∑ j ∈ range (hdmrN d 2), S j = (R : α) / ((R : α) - 1)) := by
  set T := d * p + d.choose 2 * p ^ 2 with hT
  have hRpos : (0 : α) < (R : α) := by exact_mod_cast (by omega : 0 < R)
  have hR1 : (0 : α) < (R : α) - 1 := by
    have : (1 : α) < (R : α) := by exact_mod_cast (by omega : 1 < R)
    linarith
  set P := project R B y with hP
  have hF : ∀ j < hdmrN d 2, ∀ r, termValue d p false B x j r = ∑ c ∈ termCols d p j, (B.getD r []).getD c 0 * P c := by
    intro j hj r
    rw [termValue_cols]
    exact sum_congr rfl fun c hc => by rw [hx c (mem_range.mp (termCols_subset d p j hj hc))]
  have hz : ∀ j < hdmrN d 2, ∑ r ∈ range R, termValue d p false B x j r = 0 := by
    intro j hj
    rw [sum_congr rfl fun r _ => hF j hj r]
    exact span_zero_mean R B P _ fun c hc => h0 c (mem_range.mp (termCols_subset d p j hj hc))
  have hFy : ∀ j < hdmrN d 2, devSum R (termValue d p false B x j) y = (R : α) * ∑ c ∈ termCols d p j, P c ^ 2 := by
    intro j hj
    rw [devSum_zero_mean R _ _ (hz j hj), sum_congr rfl fun r _ => by rw [hF j hj r],
      span_project R T B horth (by omega) y P (termCols d p j)]
    exact congrArg _ (sum_congr rfl fun c _ => (sq _).symm)
  have hFF : ∀ j < hdmrN d 2, ∀ l < hdmrN d 2, devSum R (termValue d p false B x j) (termValue d p false B x l) =
      if j = l then (R : α) * ∑ c ∈ termCols d p j, P c ^ 2 else 0 := by
    intro j hj l hl
    rw [devSum_zero_mean R _ _ (hz j hj), sum_congr rfl fun r _ => by rw [hF j hj r, hF l hl r],
      span_mul R T B horth P P _ _ (termCols_subset d p j hj) (termCols_subset d p l hl)]
    by_cases hjl : j = l
    · subst hjl
      rw [if_pos rfl, Finset.inter_self]
      exact congrArg _ (sum_congr rfl fun c _ => (sq _).symm)
    · rw [if_neg hjl, Finset.disjoint_iff_inter_eq_empty.mp (termCols_disjoint d p j l hjl), sum_empty, mul_zero]
  have hval : ∀ j < hdmrN d 2, S j = (R : α) / ((R : α) - 1) * ((∑ c ∈ termCols d p j, P c ^ 2) / (devSum R y y / (R : α))) := by
    intro j hj
    rw [(hS j hj).1, hFy j hj]
    field_simp
  have htot : ∑ j ∈ range (hdmrN d 2), S j =
      (R : α) / ((R : α) - 1) * (((R : α) * ∑ c ∈ range T, P c ^ 2) / devSum R y y) := by
    rw [sum_congr rfl fun j hj => hval j (mem_range.mp hj), ← mul_sum, ← sum_div, termCols_sum, firstColumn_end, ← hT]
    field_simp
  have hres : devSum R (fun r => y r - ∑ c ∈ range T, (B.getD r []).getD c 0 * P c)
      (fun r => y r - ∑ c ∈ range T, (B.getD r []).getD c 0 * P c) = devSum R y y - (R : α) * ∑ c ∈ range T, P c ^ 2 := by
    set G : Nat → α := fun r => ∑ c ∈ range T, (B.getD r []).getD c 0 * P c with hG
    have hGz : ∑ r ∈ range R, G r = 0 := span_zero_mean R B P _ fun c hc => h0 c (mem_range.mp hc)
    have hGy : devSum R G y = (R : α) * ∑ c ∈ range T, P c ^ 2 := by
      rw [devSum_zero_mean R _ _ hGz, hG, span_project R T B horth (by omega) y P (range T)]
      exact congrArg _ (sum_congr rfl fun c _ => (sq _).symm)
    have hGG : devSum R G G = (R : α) * ∑ c ∈ range T, P c ^ 2 := by
      rw [devSum_zero_mean R _ _ hGz, hG, span_mul R T B horth P P _ _ (Finset.Subset.refl _) (Finset.Subset.refl _),
        Finset.inter_self]
      exact congrArg _ (sum_congr rfl fun c _ => (sq _).symm)
    have hsplit : ∀ f : Nat → α, devSum R f y = devSum R f (fun r => y r - G r) + devSum R f G := by
      intro f
      rw [← devSum_add_right]
      exact devSum_congr R _ _ _ _ (fun _ _ => rfl) fun r _ => by ring
    have e1 := hsplit (fun r => y r - G r)
    have e2 := hsplit y
    have e3 := hsplit G
    rw [devSum_comm R (fun r => y r - G r) y, devSum_comm R (fun r => y r - G r) G] at e1
    rw [devSum_comm R y G] at e2
    linarith
  refine ⟨fun j hj => ⟨?_, ?_, ?_⟩, ?_, ?_⟩
  · rw [hval j hj, termCols, Finset.sum_Ico_eq_sum_range, Nat.add_sub_cancel_left]
  · rw [(hS j hj).1, (hS j hj).2.1, hFy j hj, hFF j hj j hj, if_pos rfl]
  · rw [(hS j hj).2.2, devSum_comm, devSum_sum_left, sum_eq_zero, zero_div, zero_div]
    intro l hl
    rw [hFF l (mem_range.mp (mem_of_mem_erase hl)) j hj, if_neg (ne_of_mem_erase hl)]
  · rw [htot]
    have hnn : 0 ≤ devSum R (fun r => y r - ∑ c ∈ range T, (B.getD r []).getD c 0 * P c)
        (fun r => y r - ∑ c ∈ range T, (B.getD r []).getD c 0 * P c) := by
      unfold devSum
      exact sum_nonneg fun r _ => mul_self_nonneg _
    rw [hres] at hnn
    refine mul_le_of_le_one_right (by positivity) ?_
    rw [div_le_one hV]
    linarith
  · rintro ⟨f0, hf⟩
    have hzero : devSum R (fun r => y r - ∑ c ∈ range T, (B.getD r []).getD c 0 * P c)
        (fun r => y r - ∑ c ∈ range T, (B.getD r []).getD c 0 * P c) = 0 := by
      rw [devSum_congr R _ (fun r => y r - ∑ c ∈ range T, (B.getD r []).getD c 0 * P c) _ (fun _ => f0) (fun _ _ => rfl)
        (fun r hr => ?_), devSum_const_right]
      rw [hf r hr, sum_congr rfl fun j hj => hF j (mem_range.mp hj) r, termCols_sum, firstColumn_end, ← hT]
      ring
    rw [hres] at hzero
    rw [htot, ← sub_eq_zero.mp hzero, div_self hV.ne', mul_one]

/-! ### Any sample -/

theorem fitAt_terms (R d p : Nat) (B : Mat α) (hB : B.length = R) (x : List α) (x1 : List (List α)) (s w n j0 : Nat)
    (hs : ∀ i < n, firstColumn d p false (j0 + i) = s + i * w) (hw : ∀ i < n, columnsOf d p false (j0 + i) = w)
    (hx : ∀ i < n, ∀ k < w, x.getD (s + i * w + k) 0 = coefAt x1 i k) (r : Nat) (hr : r < R) :
    fitAt n w (blkAt (ehBlocks B s w n)) (coefAt x1) r = ∑ i ∈ range n, termValue d p false B x (j0 + i) r := by
  unfold fitAt termValue
  refine sum_congr rfl fun i hi => ?_
  have hi := mem_range.mp hi
  rw [hw i hi, hs i hi]
  refine sum_congr rfl fun k hk => ?_
  have hk := mem_range.mp hk
  rw [ehBlocks_blkAt B s w n R i r k hB hi hr hk, hx i hi k hk]

/-- **C123**: the coefficients of a fit without the extended base, on any sample.  What the terms of the inputs leave of the
output is orthogonal to the columns of the last input, what all terms leave is orthogonal to those of the last pair. -/
theorem C123_fit (solve : Mat α → List α → Py (List α)) (hsolve : SolvesSystems solve) (R d p : Nat) (hR : 0 < R) (lam : α)
    (hl : 0 ≤ lam) (maxIter : Nat) (B : Mat α) (hB : Shape R (d * p + d.choose 2 * p ^ 2) B) (y x : List α) (hy : y.length = R)
    (h : ehPlain solve R d p 2 lam maxIter B y = .ok x) :
    x.length = d * p + d.choose 2 * p ^ 2 ∧
    (∀ i, d = i + 1 → ∀ k < p, ∑ r ∈ range R, (B.getD r []).getD (firstColumn d p false i + k) 0 *
      (y.getD r 0 - ∑ j ∈ range d, termValue d p false B x j r) = 0) ∧
    ∀ i, hdmrN d 2 = d + (i + 1) → ∀ k < p ^ 2, ∑ r ∈ range R, (B.getD r []).getD (firstColumn d p false (d + i) + k) 0 *
      (y.getD r 0 - ∑ j ∈ range (hdmrN d 2), termValue d p false B x j r) = 0 := by
  have hRp : (0 : α) < (R : α) := by exact_mod_cast hR
  have hnt : (ehNt p 2 false).2.1 = p ^ 2 := by simp [ehNt]
  have hnc : (ehNc d 2).2.1 = d.choose 2 := by simp [ehNc]
  have hn : hdmrN d 2 = d + d.choose 2 := by
    have := congrArg (fun t => t.2.1) (ehNc_eq d 2)
    simp only [] at this
    unfold hdmrN
    rw [← this]
    simp [hdmrC3, ehNc]
  have hlen1 : (ehBlocks B 0 p d).length = d := by simp [ehBlocks]
  have hlen2 : (ehBlocks B (p * d) (p ^ 2) (d.choose 2)).length = d.choose 2 := by simp [ehBlocks]
  have hpd : p * d = d * p := Nat.mul_comm _ _
  unfold ehPlain at h
  obtain ⟨⟨x1, res1⟩, h1, h⟩ := pyBind_inv _ _ _ h
  rw [if_pos (by norm_num), hnt, hnc] at h
  obtain ⟨⟨x2, res2⟩, h2, h⟩ := pyBind_inv _ _ _ h
  rw [if_neg (by norm_num)] at h
  have hx : x = x1.flatten ++ x2.flatten := (Except.ok.inj h).symm
  have hall : ∀ (s w n : Nat), s + n * w ≤ d * p + d.choose 2 * p ^ 2 → ∀ b ∈ ehBlocks B s w n, Shape R w b := by
    intro s w n hT b hb
    obtain ⟨i, hi, rfl⟩ := List.mem_iff_getElem.mp hb
    have := ehBlocks_shape B s w n R _ hB hT i hi
    rwa [show (ehBlocks B s w n).getD i [] = (ehBlocks B s w n)[i] by simp [List.getD, hi]] at this
  obtain ⟨a1, a2, a3, -, a5⟩ := C94_enhanced solve hsolve (R : α) hRp R p maxIter lam hl _ (hall 0 p d (by omega)) y hy _ _ h1
  obtain ⟨b1, b2, b3, -, b5⟩ := C94_enhanced solve hsolve (R : α) hRp R (p ^ 2) maxIter lam hl _
    (hall (p * d) (p ^ 2) (d.choose 2) (by omega)) res1 a2 _ _ h2
  rw [hlen1] at a1 a3 a5
  rw [hlen2] at b1 b3 b5
  have hl1 := flatten_length x1 d p a1
  have hl2 := flatten_length x2 (d.choose 2) (p ^ 2) b1
  have hx1 : ∀ i < d, ∀ k < p, x.getD (0 + i * p + k) 0 = coefAt x1 i k := by
    intro i hi k hk
    have e1 : (i + 1) * p ≤ d * p := Nat.mul_le_mul_right p hi
    have e2 : (i + 1) * p = i * p + p := by ring
    rw [hx, Nat.zero_add, List.getD, List.getElem?_append_left (by omega), ← List.getD, coefBlocks_getD x1 d p i k a1 hi hk]
  have hx2 : ∀ i < d.choose 2, ∀ k < p ^ 2, x.getD (p * d + i * p ^ 2 + k) 0 = coefAt x2 i k := by
    intro i hi k hk
    rw [hx, List.getD, List.getElem?_append_right (by omega), ← List.getD,
      show p * d + i * p ^ 2 + k - x1.flatten.length = i * p ^ 2 + k by omega, coefBlocks_getD x2 _ _ i k b1 hi hk]
  have hf1 : ∀ r < R, fitAt d p (blkAt (ehBlocks B 0 p d)) (coefAt x1) r = ∑ j ∈ range d, termValue d p false B x j r := by
    intro r hr
    rw [fitAt_terms R d p B hB.1 x x1 0 p d 0 (fun i hi => by rw [Nat.zero_add, firstColumn_low d p false i hi.le, Nat.zero_add])
      (fun i hi => by unfold columnsOf; rw [if_pos (by omega)]) hx1 r hr]
    simp
  have hf2 : ∀ r < R, fitAt (d.choose 2) (p ^ 2) (blkAt (ehBlocks B (p * d) (p ^ 2) (d.choose 2))) (coefAt x2) r =
      ∑ i ∈ range (d.choose 2), termValue d p false B x (d + i) r := fun r hr =>
    fitAt_terms R d p B hB.1 x x2 (p * d) (p ^ 2) (d.choose 2) d (fun i _ => by rw [firstColumn_high, hnt])
      (fun i _ => by rw [columnsOf_eq d p false _ (by omega), hnt]) hx2 r hr
  refine ⟨by rw [hx, List.length_append, hl1, hl2], ?_, ?_⟩
  · intro i hi k hk
    refine Eq.trans (sum_congr rfl fun r hr => ?_) (a5 i hi k hk)
    have hr := mem_range.mp hr
    rw [a3 r hr, hf1 r hr, ehBlocks_blkAt B 0 p d R i r k hB.1 (by omega) hr hk, firstColumn_low d p false i (by omega),
      Nat.zero_add]
  · intro i hi k hk
    have hi' : d.choose 2 = i + 1 := by omega
    refine Eq.trans (sum_congr rfl fun r hr => ?_) (b5 i hi' k hk)
    have hr := mem_range.mp hr
    rw [b3 r hr, a3 r hr, hf1 r hr, hf2 r hr, ehBlocks_blkAt B _ _ _ R i r k hB.1 (by omega) hr hk, firstColumn_high, hnt, hn,
      Finset.sum_range_add, sub_sub]

/-! ### A case: two inputs with two values each -/

def signRows : Mat ℚ := [[1, 1, 1], [1, -1, -1], [-1, 1, -1], [-1, -1, 1]]

theorem signRows_orthonormal : Shape 4 (2 * 1 + Nat.choose 2 2 * 1 ^ 2) signRows ∧
    OrthonormalCols 4 (2 * 1 + Nat.choose 2 2 * 1 ^ 2) signRows ∧
    ∀ c < 2 * 1 + Nat.choose 2 2 * 1 ^ 2, ∑ r ∈ range 4, (signRows.getD r []).getD c 0 = 0 := by
  have e : 2 * 1 + Nat.choose 2 2 * 1 ^ 2 = 3 := by decide
  rw [e]
  refine ⟨⟨rfl, by decide⟩, ?_, ?_⟩
  · intro a ha b hb
    interval_cases a <;> interval_cases b <;> norm_num [signRows, Finset.sum_range_succ]
  · intro c hc
    interval_cases c <;> norm_num [signRows, Finset.sum_range_succ]

/-- The projections of the output 1, 0, 0, 0 less its average, with any penalty and number of passes. -/
example : ehPlain solveOne 4 2 1 2 (1 / 100) 100 signRows (centre [1, 0, 0, 0]) = .ok [1 / 4, 1 / 4, 1 / 4] ∧
    ehPlain solveOne 4 2 1 2 10 999 signRows (centre [1, 0, 0, 0]) = .ok [1 / 4, 1 / 4, 1 / 4] := by
  constructor <;> decide +kernel

/-- Columns that are not orthogonal. -/
example : Shape 4 (2 * 1 + Nat.choose 2 2 * 1 ^ 2) ([[1, 2, 2], [0, 1, 0], [3, 1, 3], [1, 0, 0]] : Mat ℚ) ∧
    ∃ x, ehPlain solveOne 4 2 1 2 (1 / 100) 1 [[1, 2, 2], [0, 1, 0], [3, 1, 3], [1, 0, 0]] [1, -1, 2, -2] = .ok x := by
  refine ⟨⟨rfl, by decide⟩, ?_⟩
  have h : (ehPlain solveOne 4 2 1 2 (1 / 100) 1 [[1, 2, 2], [0, 1, 0], [3, 1, 3], [1, 0, 0]] [1, -1, 2, -2]).isOk = true := by
    decide +kernel
  cases he : ehPlain solveOne 4 2 1 2 (1 / 100) 1 [[1, 2, 2], [0, 1, 0], [3, 1, 3], [1, 0, 0]] [1, -1, 2, -2] with
  | error e => rw [he] at h; cases h
  | ok x => exact ⟨x, rfl⟩

example : ∃ S Sa Sb : Nat → ℚ, ShareOn (hdmrN 2 2) 4 (fun r => ([1, 0, 0, 0] : List ℚ).getD r 0)
    (termValue 2 1 false signRows [1 / 4, 1 / 4, 1 / 4]) S Sa Sb ∧
    0 < devSum 4 (fun r => ([1, 0, 0, 0] : List ℚ).getD r 0) (fun r => ([1, 0, 0, 0] : List ℚ).getD r 0) ∧
    ∀ c < 3, ([1 / 4, 1 / 4, 1 / 4] : List ℚ).getD c 0 = project 4 signRows (fun r => ([1, 0, 0, 0] : List ℚ).getD r 0) c := by
  refine ⟨_, _, _, fun j _ => ⟨rfl, rfl, rfl⟩, ?_, ?_⟩
  · norm_num [devSum, meanOn, Finset.sum_range_succ]
  · intro c hc
    interval_cases c <;> norm_num [project, signRows, Finset.sum_range_succ]

end SALib
