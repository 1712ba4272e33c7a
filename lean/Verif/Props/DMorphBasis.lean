import Verif.Lemmas.DMorphCopies
import Verif.Lemmas.Svd
import Verif.Props.DMorph
import Verif.Props.EnhancedBasis
import Mathlib.Data.List.GetD

/-! # C95: D-MORPH on the base of order two -/

namespace SALib

open Matrix Spec

variable {m : Nat}

theorem flatten_getD (bl : List (List ℝ)) (L : Nat) (hL0 : 0 < L) (hL : ∀ x ∈ bl, x.length = L) (k : Nat) :
    bl.flatten.getD k 0 = (bl.getD (k / L) []).getD (k % L) 0 := by
  induction bl generalizing k with
  | nil => simp
  | cons x bl ih =>
    have hx : x.length = L := hL x (by simp)
    rw [List.flatten_cons]
    by_cases hk : k < L
    · rw [Nat.div_eq_of_lt hk, Nat.mod_eq_of_lt hk, List.getD_append _ _ _ _ (by omega)]
      rfl
    · have hk' : L ≤ k := by omega
      rw [List.getD_append_right _ _ _ _ (by omega), hx, ih (fun y hy => hL y (by simp [hy])),
        Nat.div_eq_sub_div hL0 hk', List.getD_cons_succ, Nat.mod_eq_sub_mod hk']

/-- Width of the block of a pair. -/
def pairWidth (p : Nat) (ext : Bool) : Nat := if ext then p ^ 2 + 2 * p else p ^ 2

theorem termBlock_pair_length (p d : Nat) (ext : Bool) (b0 : List ℝ) (hb : b0.length = d * p) (c : List Nat)
    (hc : c ∈ hdmrC2 d 2) : (termBlock (phi p b0) ext c).length = pairWidth p ext := by
  obtain ⟨-, h2, h3⟩ := mem_hdmrC2 d 2 c hc
  match c, h3 with
  | [i, j], _ =>
    have hi := phi_length p d i b0 hb (h2 i (by simp))
    have hj := phi_length p d j b0 hb (h2 j (by simp))
    have ht : (tensor [phi p b0 i, phi p b0 j]).length = p ^ 2 := by
      rw [tensor_length _ p]
      · rfl
      · intro u hu
        rcases List.mem_cons.mp hu with rfl | hu
        · exact hi
        · rw [List.mem_singleton.mp hu]; exact hj
    unfold pairWidth
    cases ext
    · simp [termBlock, ht]
    · simp [termBlock, ht, hi, hj]; ring

theorem row_getD (p d : Nat) (hp : 0 < p) (ext : Bool) (b0 : List ℝ) (hb : b0.length = d * p) (q : Nat) :
    (ehBasisRow p d 2 ext b0).getD q 0 =
      if q < p * d then b0.getD q 0 else
        (((hdmrC2 d 2).map (termBlock (phi p b0) ext)).getD ((q - p * d) / pairWidth p ext) []).getD
          ((q - p * d) % pairWidth p ext) 0 := by
  have hW : 0 < pairWidth p ext := by
    unfold pairWidth
    split <;> positivity
  rw [ehBasisRow_eq p d 2 ext b0 hb, show hdmrC3 d 2 = [] by simp [hdmrC3]]
  simp only [List.map_nil, List.flatten_nil, List.append_nil]
  split
  · rename_i h
    exact List.getD_append _ _ _ _ (by rw [hb, Nat.mul_comm]; exact h)
  · rename_i h
    rw [List.getD_append_right _ _ _ _ (by rw [hb, Nat.mul_comm]; omega), hb, Nat.mul_comm d p]
    apply flatten_getD _ _ hW
    intro x hx
    obtain ⟨c, hc, rfl⟩ := List.mem_map.mp hx
    exact termBlock_pair_length p d ext b0 hb c hc

theorem phi_getD (p d i a : Nat) (b0 : List ℝ) (hb : b0.length = d * p) (hi : i < d) (ha : a < p) :
    (phi p b0 i).getD a 0 = b0.getD (i * p + a) 0 := by
  rw [← phi_eq p d i b0 hb hi]
  simp [List.getD, ha]

/-- The pair of block `ct`. -/
def pairAt (d ct : Nat) : List Nat := (hdmrC2 d 2).getD ct []

theorem pairAt_spec (d ct : Nat) (h : ct < d.choose 2) :
    ∃ i j, pairAt d ct = [i, j] ∧ i < j ∧ j < d ∧ pairAt d ct ∈ hdmrC2 d 2 := by
  have hl : (hdmrC2 d 2).length = d.choose 2 := by
    rw [show hdmrC2 d 2 = combinations 2 (List.range d) by simp [hdmrC2], length_combinations, List.length_range]
  have hm : pairAt d ct ∈ hdmrC2 d 2 := by
    unfold pairAt
    rw [List.getD, List.getElem?_eq_getElem (by omega)]
    exact List.getElem_mem _
  obtain ⟨h1, h2, h3⟩ := mem_hdmrC2 d 2 _ hm
  match hc : pairAt d ct, h3 with
  | [i, j], _ =>
    rw [hc] at h1 h2 hm
    simp only [List.pairwise_cons, List.mem_singleton, forall_eq] at h1
    exact ⟨i, j, rfl, h1.1, h2 j (by simp), hm⟩

/-- The first-order column that column `q` of the extended base copies. -/
def srcCol (p d q : Nat) : Nat :=
  let ct := (q - p * d) / (p ^ 2 + 2 * p)
  let a := (q - p * d) % (p ^ 2 + 2 * p)
  if a < p then (pairAt d ct).getD 0 0 * p + a else (pairAt d ct).getD 1 0 * p + (a - p)

theorem blockNo_lt (p d q W : Nat) (hW : 0 < W) (h1 : p * d ≤ q) (hq : q < p * d + d.choose 2 * W) :
    (q - p * d) / W < d.choose 2 := by
  rw [Nat.div_lt_iff_lt_mul hW]
  omega

theorem mul_add_lt (i d p a : Nat) (hi : i < d) (ha : a < p) : i * p + a < p * d := by
  calc i * p + a < i * p + p := by omega
    _ = (i + 1) * p := by ring
    _ ≤ d * p := Nat.mul_le_mul_right p hi
    _ = p * d := Nat.mul_comm _ _

theorem srcCol_lt (p d q : Nat) (hp : 0 < p) (hc : IsCopy p d q) (hq : q < p * d + d.choose 2 * (p ^ 2 + 2 * p)) :
    srcCol p d q < p * d := by
  obtain ⟨i, j, h1, h2, h3, -⟩ := pairAt_spec d _ (blockNo_lt p d q _ (by positivity) hc.1 hq)
  have := hc.2
  unfold srcCol
  simp only [h1]
  split
  · exact mul_add_lt _ _ _ _ (by simp; omega) (by omega)
  · exact mul_add_lt _ _ _ _ (by simp; omega) (by omega)

theorem row_copy (p d q : Nat) (hp : 0 < p) (b0 : List ℝ) (hb : b0.length = d * p) (hc : IsCopy p d q)
    (hq : q < p * d + d.choose 2 * (p ^ 2 + 2 * p)) :
    (ehBasisRow p d 2 true b0).getD q 0 = (ehBasisRow p d 2 true b0).getD (srcCol p d q) 0 := by
  obtain ⟨i, j, h1, h2, h3, hm⟩ := pairAt_spec d _ (blockNo_lt p d q _ (by positivity) hc.1 hq)
  have hlt := srcCol_lt p d q hp hc hq
  have hc1 := hc.1
  have hc2 := hc.2
  rw [row_getD p d hp true b0 hb q, row_getD p d hp true b0 hb (srcCol p d q), if_neg (by omega), if_pos hlt]
  have hpw : pairWidth p true = p ^ 2 + 2 * p := rfl
  have hli : ∀ ct, ((hdmrC2 d 2).map (termBlock (phi p b0) true)).getD ct [] = termBlock (phi p b0) true (pairAt d ct) := by
    intro ct
    unfold pairAt
    rw [List.getD, List.getD, List.getElem?_map]
    cases (hdmrC2 d 2)[ct]? <;> rfl
  rw [hli, hpw, h1]
  have li := phi_length p d i b0 hb (by omega)
  have lj := phi_length p d j b0 hb (by omega)
  unfold srcCol
  simp only [h1, termBlock, if_true]
  split
  · rename_i h
    rw [List.append_assoc, List.getD_append _ _ _ _ (by omega), phi_getD p d i _ b0 hb (by omega) h]
    rfl
  · rename_i h
    rw [List.append_assoc, List.getD_append_right _ _ _ _ (by omega), List.getD_append _ _ _ _ (by omega), li,
      phi_getD p d j _ b0 hb (by omega) (by omega)]
    rfl

theorem div_unique (i p a i' a' : Nat) (ha : a < p) (ha' : a' < p) (h : i * p + a = i' * p + a') : i = i' ∧ a = a' := by
  have e1 : (i * p + a) / p = i := by
    rw [Nat.mul_comm, Nat.mul_add_div (by omega), Nat.div_eq_of_lt ha, Nat.add_zero]
  have e2 : (i' * p + a') / p = i' := by
    rw [Nat.mul_comm, Nat.mul_add_div (by omega), Nat.div_eq_of_lt ha', Nat.add_zero]
  have : i = i' := by rw [← e1, h, e2]
  subst this
  exact ⟨rfl, by omega⟩

theorem srcCol_inj (p d q q' : Nat) (hp : 0 < p) (hc : IsCopy p d q) (hc' : IsCopy p d q')
    (hq : q < p * d + d.choose 2 * (p ^ 2 + 2 * p))
    (hbl : (q - p * d) / (p ^ 2 + 2 * p) = (q' - p * d) / (p ^ 2 + 2 * p)) (hs : srcCol p d q = srcCol p d q') : q = q' := by
  obtain ⟨i, j, h1, h2, h3, -⟩ := pairAt_spec d _ (blockNo_lt p d q _ (by positivity) hc.1 hq)
  have hc1 := hc.2
  have hc2 := hc'.2
  have hc3 := hc.1
  have hc4 := hc'.1
  have ha : (q - p * d) % (p ^ 2 + 2 * p) = (q' - p * d) % (p ^ 2 + 2 * p) := by
    unfold srcCol at hs
    simp only [← hbl, h1, List.getD_cons_zero, List.getD_cons_succ] at hs
    split at hs <;> split at hs
    · exact (div_unique _ _ _ _ _ (by omega) (by omega) hs).2
    · have := (div_unique _ _ _ _ _ (by omega) (by omega) hs).1
      omega
    · have := (div_unique _ _ _ _ _ (by omega) (by omega) hs).1
      omega
    · have := (div_unique _ _ _ _ _ (by omega) (by omega) hs).2
      omega
  have m1 := Nat.mod_add_div (q - p * d) (p ^ 2 + 2 * p)
  have m2 := Nat.mod_add_div (q' - p * d) (p ^ 2 + 2 * p)
  rw [ha, hbl, m2] at m1
  omega

/-- Position in the extended base of column `k` of the ordinary base. -/
def keepCol (p d k : Nat) : Nat :=
  if k < p * d then k else p * d + (k - p * d) / p ^ 2 * (p ^ 2 + 2 * p) + (2 * p + (k - p * d) % p ^ 2)

theorem keepCol_div (p d k : Nat) (hp : 0 < p) (hk : ¬ k < p * d) :
    (keepCol p d k - p * d) / (p ^ 2 + 2 * p) = (k - p * d) / p ^ 2 ∧
      (keepCol p d k - p * d) % (p ^ 2 + 2 * p) = 2 * p + (k - p * d) % p ^ 2 := by
  have hm : (k - p * d) % p ^ 2 < p ^ 2 := Nat.mod_lt _ (by positivity)
  have e : keepCol p d k - p * d = (2 * p + (k - p * d) % p ^ 2) + (p ^ 2 + 2 * p) * ((k - p * d) / p ^ 2) := by
    unfold keepCol
    rw [if_neg hk, Nat.mul_comm (p ^ 2 + 2 * p)]
    generalize (k - p * d) % p ^ 2 = a
    omega
  rw [e, Nat.add_mul_div_left _ _ (by positivity), Nat.add_mul_mod_self_left, Nat.div_eq_of_lt (by omega), Nat.zero_add]
  exact ⟨rfl, Nat.mod_eq_of_lt (by omega)⟩

theorem keepCol_not_copy (p d k : Nat) (hp : 0 < p) : ¬ IsCopy p d (keepCol p d k) := by
  intro h
  by_cases hk : k < p * d
  · have := h.1
    unfold keepCol at this
    rw [if_pos hk] at this
    omega
  · have := h.2
    rw [(keepCol_div p d k hp hk).2] at this
    exact absurd this (by generalize (k - p * d) % p ^ 2 = a; omega)

theorem keepCol_lt (p d k : Nat) (hp : 0 < p) (hk : k < p * d + d.choose 2 * p ^ 2) :
    keepCol p d k < p * d + d.choose 2 * (p ^ 2 + 2 * p) := by
  by_cases h : k < p * d
  · unfold keepCol
    rw [if_pos h]
    omega
  · have h1 := blockNo_lt p d k (p ^ 2) (by positivity) (by omega) hk
    have hm : (k - p * d) % p ^ 2 < p ^ 2 := Nat.mod_lt _ (by positivity)
    have h2 : ((k - p * d) / p ^ 2 + 1) * (p ^ 2 + 2 * p) ≤ d.choose 2 * (p ^ 2 + 2 * p) := Nat.mul_le_mul_right _ h1
    rw [Nat.add_mul, Nat.one_mul] at h2
    unfold keepCol
    rw [if_neg h]
    omega

theorem keepCol_inj (p d k k' : Nat) (hp : 0 < p) (h : keepCol p d k = keepCol p d k') : k = k' := by
  have hge : ∀ k, ¬ k < p * d → p * d ≤ keepCol p d k := by
    intro k hk
    unfold keepCol
    rw [if_neg hk, Nat.add_assoc]
    exact Nat.le_add_right _ _
  have hlt : ∀ k, k < p * d → keepCol p d k = k := by
    intro k hk
    unfold keepCol
    rw [if_pos hk]
  by_cases h1 : k < p * d <;> by_cases h2 : k' < p * d
  · rw [hlt k h1, hlt k' h2] at h; exact h
  · have := hge k' h2; rw [hlt k h1] at h; omega
  · have := hge k h1; rw [hlt k' h2] at h; omega
  · obtain ⟨a1, a2⟩ := keepCol_div p d k hp h1
    obtain ⟨b1, b2⟩ := keepCol_div p d k' hp h2
    rw [h] at a1 a2
    have m1 := Nat.mod_add_div (k - p * d) (p ^ 2)
    have m2 := Nat.mod_add_div (k' - p * d) (p ^ 2)
    rw [← a1, b1, show (k - p * d) % p ^ 2 = (k' - p * d) % p ^ 2 by omega, m2] at m1
    omega

theorem keepCol_surj (p d q : Nat) (hp : 0 < p) (hq : q < p * d + d.choose 2 * (p ^ 2 + 2 * p)) (hc : ¬ IsCopy p d q) :
    ∃ k < p * d + d.choose 2 * p ^ 2, keepCol p d k = q := by
  by_cases h : q < p * d
  · exact ⟨q, by omega, by unfold keepCol; rw [if_pos h]⟩
  · have hge : p * d ≤ q := by omega
    have ha : 2 * p ≤ (q - p * d) % (p ^ 2 + 2 * p) := by
      by_contra hh
      exact hc ⟨hge, by omega⟩
    have hlt : (q - p * d) % (p ^ 2 + 2 * p) < p ^ 2 + 2 * p := Nat.mod_lt _ (by positivity)
    have hb := blockNo_lt p d q _ (by positivity) hge hq
    have hm := Nat.mod_add_div (q - p * d) (p ^ 2 + 2 * p)
    generalize (q - p * d) / (p ^ 2 + 2 * p) = ct at *
    generalize hgen : (q - p * d) % (p ^ 2 + 2 * p) = a at *
    refine ⟨p * d + ct * p ^ 2 + (a - 2 * p), ?_, ?_⟩
    · have h2 : (ct + 1) * p ^ 2 ≤ d.choose 2 * p ^ 2 := Nat.mul_le_mul_right _ hb
      rw [Nat.add_mul, Nat.one_mul] at h2
      omega
    · have e : p * d + ct * p ^ 2 + (a - 2 * p) - p * d = (a - 2 * p) + p ^ 2 * ct := by
        rw [Nat.mul_comm (p ^ 2)]; omega
      unfold keepCol
      rw [if_neg (by omega), e, Nat.add_mul_div_left _ _ (by positivity), Nat.add_mul_mod_self_left,
        Nat.div_eq_of_lt (by omega), Nat.mod_eq_of_lt (by omega), Nat.zero_add]
      rw [Nat.mul_comm (p ^ 2 + 2 * p)] at hm
      omega

theorem row_keep (p d k : Nat) (hp : 0 < p) (b0 : List ℝ) (hb : b0.length = d * p)
    (hk : k < p * d + d.choose 2 * p ^ 2) :
    (ehBasisRow p d 2 true b0).getD (keepCol p d k) 0 = (ehBasisRow p d 2 false b0).getD k 0 := by
  rw [row_getD p d hp true b0 hb, row_getD p d hp false b0 hb]
  by_cases h : k < p * d
  · have : keepCol p d k = k := by unfold keepCol; rw [if_pos h]
    rw [this, if_pos h, if_pos h]
  · have h1 : ¬ keepCol p d k < p * d := by
      unfold keepCol
      rw [if_neg h, Nat.add_assoc, Nat.not_lt]
      exact Nat.le_add_right _ _
    rw [if_neg h, if_neg h1]
    obtain ⟨a1, a2⟩ := keepCol_div p d k hp h
    have hpw : pairWidth p true = p ^ 2 + 2 * p := rfl
    have hpw' : pairWidth p false = p ^ 2 := rfl
    rw [hpw, hpw', a1, a2]
    obtain ⟨i, j, h1, h2, h3, hm⟩ := pairAt_spec d _ (blockNo_lt p d k _ (by positivity) (by omega) hk)
    have hli : ∀ ext ct, ((hdmrC2 d 2).map (termBlock (phi p b0) ext)).getD ct [] = termBlock (phi p b0) ext (pairAt d ct) := by
      intro ext ct
      unfold pairAt
      rw [List.getD, List.getD, List.getElem?_map]
      cases (hdmrC2 d 2)[ct]? <;> cases ext <;> rfl
    rw [hli, hli, h1]
    have li := phi_length p d i b0 hb (by omega)
    have lj := phi_length p d j b0 hb (by omega)
    simp only [termBlock, if_true, Bool.false_eq_true, if_false, List.nil_append]
    generalize (k - p * d) % p ^ 2 = a
    rw [List.getD_append_right _ _ _ _ (by rw [List.length_append]; omega), List.length_append, li, lj]
    congr 1
    omega

/-- The extended base of order two, one row for each sample. -/
noncomputable def extBase (p d : Nat) (b0 : Fin m → List ℝ) :
    Matrix (Fin m) (Fin (p * d + d.choose 2 * (p ^ 2 + 2 * p))) ℝ :=
  Matrix.of fun r q => (ehBasisRow p d 2 true (b0 r)).getD q.val 0

theorem extBase_det (p d : Nat) (hp : 0 < p) (b0 : Fin m → List ℝ) (hb : ∀ r, (b0 r).length = d * p) (N : ℝ) (hN : N ≠ 0)
    (hind : ∀ c : Fin (p * d + d.choose 2 * p ^ 2) → ℝ,
      (∀ r, ∑ k, (ehBasisRow p d 2 false (b0 r)).getD k.val 0 * c k = 0) → c = 0)
    (z : Fin (p * d + d.choose 2 * (p ^ 2 + 2 * p)) → ℝ) (hz : ∀ r, ∑ i, extBase p d b0 r i * z i = 0)
    (hcost : hierarchyCost d p 2 (extBase p d b0) N z = 0) : z = 0 := by
  refine det_of_copies p d hp (extBase p d b0) N hN
    (fun q => if h : IsCopy p d q then ⟨srcCol p d q, by have := srcCol_lt p d q hp h q.isLt; omega⟩ else q)
    (le_refl _) ?_ ?_ ?_ ?_ z hz hcost
  · intro q hq
    rw [dif_pos hq]
    exact srcCol_lt p d q hp hq q.isLt
  · intro q hq r
    rw [dif_pos hq]
    exact row_copy p d q hp (b0 r) (hb r) hq q.isLt
  · intro q q' hq hq' hbl hs
    rw [dif_pos hq, dif_pos hq'] at hs
    exact Fin.ext (srcCol_inj p d q q' hp hq hq' q.isLt hbl (Fin.mk.inj hs))
  · intro c hc0 hc
    have hk := hind (fun k => c ⟨keepCol p d k, keepCol_lt p d k hp k.isLt⟩) (by
      intro r
      refine Eq.trans ?_ (hc r)
      refine Finset.sum_of_injOn (fun k => ⟨keepCol p d k.val, keepCol_lt p d k hp k.isLt⟩) ?_ ?_ ?_ ?_
      · intro a _ b _ hab
        exact Fin.ext (keepCol_inj p d a b hp (Fin.mk.inj hab))
      · intro a _
        exact Finset.mem_coe.mpr (Finset.mem_univ _)
      · intro q _ hq
        by_cases hcp : IsCopy p d q
        · rw [hc0 q hcp, mul_zero]
        · obtain ⟨k, hk, e⟩ := keepCol_surj p d q hp q.isLt hcp
          exact absurd ⟨⟨k, hk⟩, by simp, Fin.ext e⟩ hq
      · intro k _
        show _ = (ehBasisRow p d 2 true (b0 r)).getD (keepCol p d k) 0 * _
        rw [row_keep p d k hp (b0 r) (hb r) k.isLt])
    funext q
    by_cases hcp : IsCopy p d q
    · exact hc0 q hcp
    · obtain ⟨k, hk', e⟩ := keepCol_surj p d q hp q.isLt hcp
      have := congrFun hk ⟨k, hk'⟩
      simp only [e] at this
      exact this

/-- **C95.** For order two: when the sample has at least as many points as the extended base has columns, and the columns
of the ordinary base are linearly independent on it, D-MORPH returns the least-squares solution that least violates the
hierarchical orthogonality, and no other does. -/
theorem C95_order_two_partial (p d : Nat) (hp : 0 < p) (b0 : Fin m → List ℝ) (hb : ∀ r, (b0 r).length = d * p)
    (pinvH : Matrix (Fin (p * d + d.choose 2 * (p ^ 2 + 2 * p))) (Fin (p * d + d.choose 2 * (p ^ 2 + 2 * p))) ℝ →
      Matrix (Fin (p * d + d.choose 2 * (p ^ 2 + 2 * p))) (Fin (p * d + d.choose 2 * (p ^ 2 + 2 * p))) ℝ)
    (pinv : (k : Nat) → Matrix (Fin k) (Fin k) ℝ → Matrix (Fin k) (Fin k) ℝ)
    (matrixRank : Matrix (Fin (p * d + d.choose 2 * (p ^ 2 + 2 * p))) (Fin (p * d + d.choose 2 * (p ^ 2 + 2 * p))) ℝ → Nat)
    (svd : Matrix (Fin (p * d + d.choose 2 * (p ^ 2 + 2 * p))) (Fin (p * d + d.choose 2 * (p ^ 2 + 2 * p))) ℝ →
      Matrix (Fin (p * d + d.choose 2 * (p ^ 2 + 2 * p))) (Fin (p * d + d.choose 2 * (p ^ 2 + 2 * p))) ℝ ×
      Matrix (Fin (p * d + d.choose 2 * (p ^ 2 + 2 * p))) (Fin (p * d + d.choose 2 * (p ^ 2 + 2 * p))) ℝ)
    (Y : Fin m → ℝ) (N bootstrap : ℝ) (hN : N ≠ 0) (hbs : 0 < bootstrap)
    (hext : DMorphExternals pinvH pinv matrixRank svd (bootstrap⁻¹ • ((extBase p d b0)ᵀ * extBase p d b0))
      (costMatrix d p 2 (extBase p d b0) N) (p * d + d.choose 2 * (p ^ 2 + 2 * p) - (extBase p d b0).rank))
    (hm : p * d + d.choose 2 * (p ^ 2 + 2 * p) ≤ m)
    (hind : ∀ c : Fin (p * d + d.choose 2 * p ^ 2) → ℝ,
      (∀ r, ∑ k, (ehBasisRow p d 2 false (b0 r)).getD k.val 0 * c k = 0) → c = 0) :
    LeastSquares (extBase p d b0) Y (ehExtended pinvH pinv matrixRank svd d p 2 (extBase p d b0) Y N bootstrap) ∧
    ∀ z, LeastSquares (extBase p d b0) Y z →
      hierarchyCost d p 2 (extBase p d b0) N
          (ehExtended pinvH pinv matrixRank svd d p 2 (extBase p d b0) Y N bootstrap) ≤
        hierarchyCost d p 2 (extBase p d b0) N z ∧
      (hierarchyCost d p 2 (extBase p d b0) N z ≤ hierarchyCost d p 2 (extBase p d b0) N
          (ehExtended pinvH pinv matrixRank svd d p 2 (extBase p d b0) Y N bootstrap) →
        z = ehExtended pinvH pinv matrixRank svd d p 2 (extBase p d b0) Y N bootstrap) :=
  C95_dmorph_partial pinvH pinv matrixRank svd d p 2 (extBase p d b0) Y N bootstrap hbs hext hm
    (fun z => extBase_det p d hp b0 hb N hN hind z)

/-- External functions as assumed exist, for all matrices at once. -/
theorem externals_exist (n : Nat) :
    ∃ (pinvH : Matrix (Fin n) (Fin n) ℝ → Matrix (Fin n) (Fin n) ℝ)
      (pinv : (k : Nat) → Matrix (Fin k) (Fin k) ℝ → Matrix (Fin k) (Fin k) ℝ)
      (matrixRank : Matrix (Fin n) (Fin n) ℝ → Nat)
      (svd : Matrix (Fin n) (Fin n) ℝ → Matrix (Fin n) (Fin n) ℝ × Matrix (Fin n) (Fin n) ℝ),
      ∀ a cost k, DMorphExternals pinvH pinv matrixRank svd a cost k := by
  choose pinvH hp using fun A : Matrix (Fin n) (Fin n) ℝ => exists_pinv A
  choose pinv hq using fun (k : Nat) (A : Matrix (Fin k) (Fin k) ℝ) => exists_pinv A
  choose U s Vh hs using fun A : Matrix (Fin n) (Fin n) ℝ => exists_svd A
  exact ⟨pinvH, pinv, Matrix.rank, fun A => (U A, Vh A), fun a cost k => ⟨hp a, rfl, ⟨_, hs _⟩, hq _ _⟩⟩

theorem row_two_one (x y : ℝ) (ext : Bool) :
    ehBasisRow 1 2 2 ext [x, y] = [x, y] ++ (if ext then [x, y] else []) ++ [x * y] := by
  rw [ehBasisRow_eq 1 2 2 ext [x, y] rfl]
  simp [hdmrC2, hdmrC3, combinations, termBlock, phi, colSlice, tensor, List.range_succ]

/-- Five samples of two inputs with one polynomial each. -/
def fiveRows : Fin 5 → List ℝ := ![[1, 0], [0, 1], [1, 1], [1, 2], [2, 1]]

theorem fiveRows_independent (c : Fin 3 → ℝ)
    (hc : ∀ r, ∑ k : Fin 3, (ehBasisRow 1 2 2 false (fiveRows r)).getD k.val 0 * c k = 0) : c = 0 := by
  have h0 := hc 0
  have h1 := hc 1
  have h2 := hc 2
  rw [show fiveRows 0 = [1, 0] from rfl, row_two_one, Fin.sum_univ_three] at h0
  rw [show fiveRows 1 = [0, 1] from rfl, row_two_one, Fin.sum_univ_three] at h1
  rw [show fiveRows 2 = [1, 1] from rfl, row_two_one, Fin.sum_univ_three] at h2
  simp at h0 h1 h2
  rw [h0, h1] at h2
  funext k
  fin_cases k
  · exact h0
  · exact h1
  · simpa using h2

/-- The hypotheses of `C95_order_two_partial` hold for these samples: the extended base has five columns, of which three
are independent. -/
example (Y : Fin 5 → ℝ) : ∃ pinvH pinv matrixRank svd,
    LeastSquares (extBase 1 2 fiveRows) Y (ehExtended pinvH pinv matrixRank svd 2 1 2 (extBase 1 2 fiveRows) Y 5 3) ∧
    ∀ z, LeastSquares (extBase 1 2 fiveRows) Y z →
      hierarchyCost 2 1 2 (extBase 1 2 fiveRows) 5
        (ehExtended pinvH pinv matrixRank svd 2 1 2 (extBase 1 2 fiveRows) Y 5 3) ≤
          hierarchyCost 2 1 2 (extBase 1 2 fiveRows) 5 z := by
  obtain ⟨pinvH, pinv, matrixRank, svd, h⟩ := externals_exist (1 * 2 + Nat.choose 2 2 * (1 ^ 2 + 2 * 1))
  refine ⟨pinvH, pinv, matrixRank, svd, ?_⟩
  have := C95_order_two_partial 1 2 Nat.one_pos fiveRows (by intro r; fin_cases r <;> rfl) pinvH pinv matrixRank svd Y 5 3
    (by norm_num) (by norm_num) (h _ _ _) (by decide) (by
      intro c hc
      exact fiveRows_independent c hc)
  exact ⟨this.1, fun z hz => (this.2 z hz).1⟩

theorem even_spread (pinvH : Matrix (Fin 5) (Fin 5) ℝ → Matrix (Fin 5) (Fin 5) ℝ)
    (pinv : (k : Nat) → Matrix (Fin k) (Fin k) ℝ → Matrix (Fin k) (Fin k) ℝ)
    (matrixRank : Matrix (Fin 5) (Fin 5) ℝ → Nat)
    (svd : Matrix (Fin 5) (Fin 5) ℝ → Matrix (Fin 5) (Fin 5) ℝ × Matrix (Fin 5) (Fin 5) ℝ)
    (hext : ∀ a cost k, DMorphExternals pinvH pinv matrixRank svd a cost k) (A : Matrix (Fin 1) (Fin 5) ℝ)
    (hbm : ∀ r q, A r q = 1) :
    ∃ z, LeastSquares A (fun _ => 1) z ∧ hierarchyCost 2 1 2 A 1 z <
        hierarchyCost 2 1 2 A 1 (ehExtended pinvH pinv matrixRank svd 2 1 2 A (fun _ => 1) 1 1) := by
  have hrank : A.rank = 1 := by
    have h1 : A.rank ≤ 1 := A.rank_le_height
    have h2 : A.rank ≠ 0 := by
      intro h
      have hr : LinearMap.range A.mulVecLin = ⊥ := Submodule.finrank_eq_zero.mp h
      have h3 : A.mulVecLin = 0 := LinearMap.range_eq_bot.mp hr
      have h4 := congrFun (LinearMap.congr_fun h3 (Pi.single 0 1)) 0
      rw [mulVecLin_apply, mulVec_single_one, col_apply, hbm] at h4
      exact one_ne_zero h4
    omega
  have hres := C95_few_samples pinvH pinv matrixRank svd A (costMatrix 2 1 2 A 1) (fun _ => 1) 1 one_pos (by decide) hrank
    (hext _ _ _)
  have hX := (hext ((1:ℝ)⁻¹ • (Aᵀ * A)) 0 0).gram
  unfold ehExtended
  rw [hres]
  set a := (1:ℝ)⁻¹ • (Aᵀ * A) with ha
  have haij : ∀ i j, a i j = 1 := by
    intro i j
    rw [ha, inv_one, one_smul, mul_apply, Fin.sum_univ_one, transpose_apply, hbm, hbm, mul_one]
  have hb : (1:ℝ)⁻¹ • Aᵀ *ᵥ (fun _ => (1:ℝ)) = a *ᵥ Pi.single 0 1 := by
    funext i
    rw [mulVec_single_one]
    simp only [inv_one, one_smul]
    rw [col_apply, haij]
    simp [mulVec, dotProduct, hbm]
  rw [hb]
  generalize hx : pinvH a *ᵥ a *ᵥ Pi.single 0 1 = x
  have hconst : ∀ i j, x i = x j := by
    intro i j
    rw [← hx, mulVec_mulVec, ← hX.symm_right, transpose_mul, ← mulVec_mulVec]
    show ∑ k, a k i * _ = ∑ k, a k j * _
    simp only [haij]
  have hsum : ∑ k, x k = 1 := by
    have h1 : a *ᵥ x = a *ᵥ Pi.single 0 1 := by
      rw [← hx, mulVec_mulVec, mulVec_mulVec, hX.left]
    have h2 := congrFun h1 0
    rw [mulVec_single_one, col_apply, haij] at h2
    refine Eq.trans ?_ h2
    show _ = ∑ k, a 0 k * x k
    simp only [haij, one_mul]
  have hx5 : ∀ i, x i = 1 / 5 := by
    intro i
    have e : ∑ k, x k = ∑ _k : Fin 5, x i := Finset.sum_congr rfl fun k _ => hconst k i
    rw [e, Finset.sum_const, Finset.card_univ, Fintype.card_fin] at hsum
    have : (5:ℝ) * x i = 1 := by simpa using hsum
    linarith
  have hcost : ∀ z : Fin 5 → ℝ, hierarchyCost 2 1 2 A 1 z = 3 * (z 2 + z 3 + z 4) ^ 2 := by
    intro z
    simp [hierarchyCost, violation, component, Fin.sum_univ_five, hbm]
    ring
  refine ⟨Pi.single 0 1, ?_, ?_⟩
  · intro z
    have e : ∀ r : Fin 1, ∑ i : Fin 5, A r i * (Pi.single 0 1 : Fin 5 → ℝ) i = 1 := by
      intro r
      simp [hbm, Fin.sum_univ_five]
    have : ∑ r : Fin 1, ((1:ℝ) - ∑ i : Fin 5, A r i * (Pi.single 0 1 : Fin 5 → ℝ) i) ^ 2 = 0 := by
      simp only [e]
      simp
    rw [this]
    exact Finset.sum_nonneg fun _ _ => sq_nonneg _
  · rw [hcost, hcost, hx5, hx5, hx5]
    have e : ∀ i : Fin 5, i ≠ 0 → (Pi.single 0 1 : Fin 5 → ℝ) i = 0 := fun i hi => Pi.single_eq_of_ne hi _
    rw [e 2 (by decide), e 3 (by decide), e 4 (by decide)]
    norm_num

/-- **C95 (failing part).** One sample at which both polynomials are one: the output is fitted without any component of
order two, which costs nothing, but what is returned spreads it evenly over the five columns. -/
theorem C95_few_samples_fail (pinvH : Matrix (Fin 5) (Fin 5) ℝ → Matrix (Fin 5) (Fin 5) ℝ)
    (pinv : (k : Nat) → Matrix (Fin k) (Fin k) ℝ → Matrix (Fin k) (Fin k) ℝ)
    (matrixRank : Matrix (Fin 5) (Fin 5) ℝ → Nat)
    (svd : Matrix (Fin 5) (Fin 5) ℝ → Matrix (Fin 5) (Fin 5) ℝ × Matrix (Fin 5) (Fin 5) ℝ)
    (hext : ∀ a cost k, DMorphExternals pinvH pinv matrixRank svd a cost k) :
    ∃ z, LeastSquares (extBase 1 2 fun _ : Fin 1 => [1, 1]) (fun _ => 1) z ∧
      hierarchyCost 2 1 2 (extBase 1 2 fun _ : Fin 1 => [1, 1]) 1 z <
        hierarchyCost 2 1 2 (extBase 1 2 fun _ : Fin 1 => [1, 1]) 1
          (ehExtended pinvH pinv matrixRank svd 2 1 2 (extBase 1 2 fun _ : Fin 1 => [1, 1]) (fun _ => 1) 1 1) := by
  have hbm : ∀ r q, (extBase 1 2 fun _ : Fin 1 => [1, 1]) r q = 1 := by
    intro r q
    show (ehBasisRow 1 2 2 true ([1, 1] : List ℝ)).getD q.val 0 = 1
    rw [row_two_one]
    simp only [if_true, mul_one, List.cons_append, List.nil_append]
    change Fin 5 at q
    fin_cases q <;> rfl
  exact even_spread pinvH pinv matrixRank svd hext _ hbm

/-- The hypothesis of `C95_few_samples_fail` is met. -/
example : ∃ pinvH pinv matrixRank svd,
    ∀ a cost k, DMorphExternals (n := 5) pinvH pinv matrixRank svd a cost k := externals_exist 5

end SALib
