import Verif.Props.EnhancedTerms

/-! # Enhanced HDMR: columns of the basis matrix, component functions (C80, C81) -/

set_option linter.unusedSectionVars false

namespace SALib

open Finset

variable {α : Type} [Field α] [LinearOrder α] [IsStrictOrderedRing α]

namespace Spec

/-- All products of one entry from each list; the first list varies slowest. -/
def tensor : List (List α) → List α
  | [] => [1]
  | u :: us => u.flatMap fun a => (tensor us).map fun t => a * t

/-- The columns of a term in terms of the first-order columns `φ i` of its inputs: with the extended base the columns
of all terms nested in it, then the products. -/
def termBlock (φ : Nat → List α) (ext : Bool) : List Nat → List α
  | [i] => φ i
  | [i, j] => (if ext then φ i ++ φ j else []) ++ tensor [φ i, φ j]
  | [i, j, k] => (if ext then φ i ++ φ j ++ φ k ++ tensor [φ i, φ j] ++ tensor [φ i, φ k] ++ tensor [φ j, φ k]
      else []) ++ tensor [φ i, φ j, φ k]
  | _ => []

end Spec

open Spec

/-! ### Slices and blocks -/

theorem colSlice_prefix (b0 b : List α) (s e : Nat) (h : b0 <+: b) (he : e ≤ b0.length) :
    colSlice b s e = colSlice b0 s e := by
  obtain ⟨t, rfl⟩ := h
  unfold colSlice
  rw [List.take_append_of_le_length he]

theorem flatten_slice (pre post : List α) (bl : List (List α)) (L i : Nat) (hL : ∀ x ∈ bl, x.length = L)
    (hi : i < bl.length) (a : Nat) :
    colSlice (pre ++ bl.flatten ++ post) (pre.length + i * L + a) (pre.length + (i + 1) * L) = (bl.getD i []).drop a := by
  have hlen : ∀ n ≤ bl.length, (bl.take n).flatten.length = n * L := by
    intro n hn
    rw [List.length_flatten]
    have : (bl.take n).map List.length = List.replicate n L := by
      apply List.ext_getElem
      · simp [hn]
      · intro k h1 h2
        simp only [List.getElem_map, List.getElem_take, List.getElem_replicate]
        exact hL _ (List.getElem_mem _)
    rw [this, List.sum_replicate_nat]
  have hsplit : bl = bl.take i ++ bl.getD i [] :: bl.drop (i + 1) := by
    conv_lhs => rw [← List.take_append_drop i bl, List.drop_eq_getElem_cons hi]
    simp [List.getD, hi]
  have hl2 : (bl.getD i []).length = L := by
    rw [List.getD, List.getElem?_eq_getElem hi]; exact hL _ (List.getElem_mem _)
  have hfl : bl.flatten = (bl.take i).flatten ++ (bl.getD i [] ++ (bl.drop (i + 1)).flatten) := by
    conv_lhs => rw [hsplit]
    rw [List.flatten_append, List.flatten_cons]
  unfold colSlice
  rw [hfl]
  have e1 : pre ++ ((bl.take i).flatten ++ (bl.getD i [] ++ (bl.drop (i + 1)).flatten)) ++ post =
      (pre ++ (bl.take i).flatten) ++ (bl.getD i [] ++ ((bl.drop (i + 1)).flatten ++ post)) := by
    simp [List.append_assoc]
  have e2 : (pre ++ (bl.take i).flatten).length = pre.length + i * L := by
    rw [List.length_append, hlen i hi.le]
  rw [e1, show pre.length + (i + 1) * L = (pre ++ (bl.take i).flatten).length + L by rw [e2]; ring,
    List.take_length_add_append, List.take_append_of_le_length hl2.ge, List.take_of_length_le hl2.le, ← e2,
    List.drop_length_add_append]

/-! ### Products -/

theorem cart_blocks_sorted (p : Nat) (c : List Nat) (hc : c.Pairwise (· < ·)) :
    ∀ t, t ∈ cartProd (c.map fun i => List.range' (i * p) p) → t.Pairwise (· < ·) := by
  induction c with
  | nil => intro t ht; rw [mem_cartProd] at ht; cases ht; exact List.Pairwise.nil
  | cons i c ih =>
    intro t ht
    rw [mem_cartProd] at ht
    have hc' := List.pairwise_cons.mp hc
    cases ht with
    | @cons x _ t' _ hx ht' =>
      rw [List.pairwise_cons]
      refine ⟨?_, ih hc'.2 t' ((mem_cartProd _ _).mpr ht')⟩
      intro y hy
      obtain ⟨n, hn, rfl⟩ := List.mem_iff_getElem.mp hy
      have hlen := ht'.length_eq
      have hy' := List.Forall₂.get ht' hn (by rw [← hlen]; exact hn)
      simp only [List.get_eq_getElem, List.getElem_map] at hy'
      have hn' : n < c.length := by rw [List.length_map] at hlen; omega
      have hlt := hc'.1 c[n] (List.getElem_mem _)
      have h1 := List.mem_range'_1.mp hx
      have h2 := List.mem_range'_1.mp hy'
      have h3 : (i + 1) * p ≤ c[n] * p := Nat.mul_le_mul_right p hlt
      have h4 : (i + 1) * p = i * p + p := by ring
      omega

theorem prodUnique_blocks (p : Nat) (c : List Nat) (hc : c.Pairwise (· < ·)) :
    prodUnique (c.map fun i => List.range' (i * p) p) = cartProd (c.map fun i => List.range' (i * p) p) := by
  rw [prodUnique_eq]
  · rw [List.filter_eq_self]
    intro t ht
    exact decide_eq_true (cart_blocks_sorted p c hc t ht)
  · intro l hl
    obtain ⟨i, -, rfl⟩ := List.mem_map.mp hl
    exact range'_lt _ _
  · intro t ht _
    have hs := cart_blocks_sorted p c hc t ht
    rw [(hs.imp fun h => h.le).insertionSort_eq]
    exact ht

theorem cart_products (b : List α) (ls : List (List Nat)) :
    (cartProd ls).map (fun k => (k.map fun l => b.getD l 0).prod) = tensor (ls.map fun l => l.map fun x => b.getD x 0) := by
  induction ls with
  | nil => simp [cartProd, tensor]
  | cons l ls ih =>
    rw [cartProd, List.map_cons, tensor, List.map_flatMap, List.flatMap_map]
    congr 1
    funext a
    rw [List.map_map, ← ih, List.map_map]
    apply List.map_congr_left
    intro t _
    simp

/-- The first-order columns of input `i` in a row of first-order columns. -/
def phi (p : Nat) (b0 : List α) (i : Nat) : List α := colSlice b0 (i * p) ((i + 1) * p)

theorem phi_eq (p d i : Nat) (b0 : List α) (hb : b0.length = d * p) (hi : i < d) :
    (List.range' (i * p) p).map (fun x => b0.getD x 0) = phi p b0 i := by
  have hle : (i + 1) * p ≤ b0.length := by rw [hb]; exact Nat.mul_le_mul_right p hi
  have h4 : (i + 1) * p = i * p + p := by ring
  unfold phi colSlice
  apply List.ext_getElem
  · simp; omega
  · intro n h1 h2
    simp at h1
    simp [List.getD, List.getElem?_eq_getElem (show i * p + n < b0.length by omega)]

theorem phi_length (p d i : Nat) (b0 : List α) (hb : b0.length = d * p) (hi : i < d) : (phi p b0 i).length = p := by
  rw [← phi_eq p d i b0 hb hi]; simp

theorem appendProducts_eq (p d : Nat) (c : List Nat) (b0 b : List α) (hb : b0.length = d * p) (hpre : b0 <+: b)
    (hc : c.Pairwise (· < ·)) (hd : ∀ i ∈ c, i < d) :
    appendProducts p c b = b ++ tensor (c.map (phi p b0)) := by
  have hfold : ∀ (L : List (List Nat)) (b : List α), b0 <+: b → (∀ k ∈ L, ∀ l ∈ k, l < b0.length) →
      L.foldl (fun b k => b ++ [(k.map fun l => b.getD l 0).prod]) b =
        b ++ L.map fun k => (k.map fun l => b0.getD l 0).prod := by
    intro L
    induction L with
    | nil => intro b _ _; simp
    | cons k L ih =>
      intro b hpre hk
      have he : (k.map fun l => b.getD l 0) = k.map fun l => b0.getD l 0 := by
        apply List.map_congr_left
        intro l hl
        obtain ⟨t, rfl⟩ := hpre
        rw [List.getD, List.getElem?_append_left (hk k (by simp) l hl), List.getD]
      rw [List.foldl_cons, ih _ (hpre.trans (List.prefix_append _ _)) fun k' hk' => hk k' (by simp [hk']), he]
      simp
  unfold appendProducts
  rw [prodUnique_blocks p c hc, hfold _ b hpre, cart_products, List.map_map]
  · congr 2
    apply List.map_congr_left
    intro i hi
    exact phi_eq p d i b0 hb (hd i hi)
  · intro k hk l hl
    rw [mem_cartProd] at hk
    obtain ⟨n, hn, rfl⟩ := List.mem_iff_getElem.mp hl
    have hlen := hk.length_eq
    have hy' := List.Forall₂.get hk hn (by rw [← hlen]; exact hn)
    simp only [List.get_eq_getElem, List.getElem_map] at hy'
    have hn' : n < c.length := by rw [List.length_map] at hlen; omega
    have h1 := List.mem_range'_1.mp hy'
    have h2 : (c[n] + 1) * p ≤ d * p := Nat.mul_le_mul_right p (hd c[n] (List.getElem_mem _))
    have h4 : (c[n] + 1) * p = c[n] * p + p := by ring
    rw [hb]
    omega

theorem tensor_length (us : List (List α)) (p : Nat) (h : ∀ u ∈ us, u.length = p) : (tensor us).length = p ^ us.length := by
  induction us with
  | nil => simp [tensor]
  | cons u us ih =>
    rw [tensor, List.length_flatMap]
    have : (u.map fun a => ((tensor us).map fun t => a * t).length) = List.replicate u.length (p ^ us.length) := by
      rw [List.eq_replicate_iff]
      refine ⟨by simp, ?_⟩
      intro x hx
      obtain ⟨a, -, rfl⟩ := List.mem_map.mp hx
      rw [List.length_map, ih fun v hv => h v (by simp [hv])]
    rw [this, List.sum_replicate_nat, h u (by simp), List.length_cons, pow_succ']

/-! ### Layout -/

theorem ehPairStep_eq (p d : Nat) (ext : Bool) (b0 b : List α) (c : List Nat) (hb : b0.length = d * p) (hpre : b0 <+: b)
    (hc : c.Pairwise (· < ·)) (hd : ∀ i ∈ c, i < d) (hlen : c.length = 2) :
    ehPairStep p ext b c = b ++ termBlock (phi p b0) ext c := by
  match c, hlen with
  | [i, j], _ =>
    have hi : (i + 1) * p ≤ b0.length := by rw [hb]; exact Nat.mul_le_mul_right p (hd i (by simp))
    have hj : (j + 1) * p ≤ b0.length := by rw [hb]; exact Nat.mul_le_mul_right p (hd j (by simp))
    unfold ehPairStep
    simp only [List.getD_cons_zero, List.getD_cons_succ]
    cases ext
    · simp only [Bool.false_eq_true, if_false]
      rw [appendProducts_eq p d [i, j] b0 b hb hpre hc hd]
      simp [termBlock]
    · simp only [if_true]
      have e1 : appendSlice b (i * p) ((i + 1) * p) = b ++ phi p b0 i := by
        unfold appendSlice; rw [colSlice_prefix b0 b _ _ hpre hi]; rfl
      have hpre1 : b0 <+: b ++ phi p b0 i := hpre.trans (List.prefix_append _ _)
      have e2 : appendSlice (b ++ phi p b0 i) (j * p) ((j + 1) * p) = b ++ phi p b0 i ++ phi p b0 j := by
        unfold appendSlice; rw [colSlice_prefix b0 _ _ _ hpre1 hj]; rfl
      rw [e1, e2, appendProducts_eq p d [i, j] b0 _ hb (hpre1.trans (List.prefix_append _ _)) hc hd]
      simp [termBlock]

theorem foldl_blocks (f : List α → List Nat → List α) (g : List Nat → List α) (b0 : List α) (L : List (List Nat))
    (hstep : ∀ c ∈ L, ∀ b, b0 <+: b → f b c = b ++ g c) : ∀ b, b0 <+: b → L.foldl f b = b ++ (L.map g).flatten := by
  induction L with
  | nil => intro b _; simp
  | cons c L ih =>
    intro b hb
    rw [List.foldl_cons, hstep c (by simp) b hb,
      ih (fun c' hc' => hstep c' (by simp [hc'])) _ (hb.trans (List.prefix_append _ _))]
    simp

theorem phi_flatten (p d : Nat) (b0 : List α) (hb : b0.length = d * p) :
    ((List.range d).map (phi p b0)).flatten = b0 := by
  have : ∀ n ≤ d, ((List.range n).map (phi p b0)).flatten = b0.take (n * p) := by
    intro n hn
    induction n with
    | zero => simp
    | succ n ih =>
      rw [List.range_succ, List.map_append, List.flatten_append, ih (by omega)]
      simp only [List.map_cons, List.map_nil, List.flatten_cons, List.flatten_nil, List.append_nil, phi, colSlice]
      rw [show (n + 1) * p = n * p + p by ring]
      conv_rhs => rw [← List.take_append_drop (n * p) (b0.take (n * p + p))]
      rw [List.take_take, min_eq_left (by omega)]
  rw [this d le_rfl, ← hb, List.take_length]

/-- The columns up to second order. -/
theorem layout2 (p d o : Nat) (ext : Bool) (b0 : List α) (hb : b0.length = d * p) :
    (if o > 1 then (prodUnique [List.range (d - 1), List.range' 1 (d - 1)]).foldl (ehPairStep p ext) b0 else b0) =
      b0 ++ ((hdmrC2 d o).map (termBlock (phi p b0) ext)).flatten := by
  split
  · rename_i ho
    rw [prodUnique_pairs, show hdmrC2 d o = combinations 2 (List.range d) by unfold hdmrC2; rw [if_pos ho]]
    apply foldl_blocks _ _ b0 _ _ b0 (List.prefix_refl _)
    intro c hc b hpre
    obtain ⟨h1, h2, h3⟩ := combinations_range_sorted d 2 c hc
    exact ehPairStep_eq p d ext b0 b c hb hpre h1 h2 h3
  · rename_i ho
    unfold hdmrC2
    rw [if_neg ho]
    simp

theorem pair_count (d : Nat) (hd : 3 ≤ d) : d ≤ (combinations 2 (List.range d)).length := by
  rw [length_combinations, List.length_range, Nat.choose_two_right, Nat.le_div_iff_mul_le (by omega)]
  exact Nat.mul_le_mul_left d (by omega)

/-- What the code really copies for the second-order part of a third-order term `(i, j, k)`: the products of the
pairs numbered `i`, `j` and `k`. -/
def ehTripleBlock (φ : Nat → List α) (d : Nat) (ext : Bool) (c : List Nat) : List α :=
  let P := fun n => tensor (((combinations 2 (List.range d)).getD n []).map φ)
  (if ext then (c.map φ).flatten ++ (c.map P).flatten else []) ++ tensor (c.map φ)

theorem ehPairSlice_eq (p d n : Nat) (b0 b : List α) (hb : b0.length = d * p) (hn : n < d) (hd : 3 ≤ d)
    (hpre : b0 ++ ((combinations 2 (List.range d)).map (termBlock (phi p b0) true)).flatten <+: b) :
    ehPairSlice p d b n = b ++ tensor (((combinations 2 (List.range d)).getD n []).map (phi p b0)) := by
  have hblen : ∀ x ∈ (combinations 2 (List.range d)).map (termBlock (phi p b0) true), x.length = p ^ 2 + 2 * p := by
    intro x hx
    obtain ⟨c, hc, rfl⟩ := List.mem_map.mp hx
    obtain ⟨-, h2, h3⟩ := combinations_range_sorted d 2 c hc
    match c, h3 with
    | [i, j], _ =>
      have l1 := phi_length p d i b0 hb (h2 i (by simp))
      have l2 := phi_length p d j b0 hb (h2 j (by simp))
      simp only [termBlock, if_true, List.length_append, l1, l2]
      rw [tensor_length _ p (by intro u hu; simp at hu; rcases hu with rfl | rfl <;> assumption)]
      simp; ring
  have hnp : n < (combinations 2 (List.range d)).length := lt_of_lt_of_le hn (pair_count d hd)
  obtain ⟨t, rfl⟩ := hpre
  unfold ehPairSlice appendSlice
  congr 1
  have e1 : p * d + 2 * p * (n + 1) + n * p ^ 2 = b0.length + n * (p ^ 2 + 2 * p) + 2 * p := by rw [hb]; ring
  have e2 : p * d + (n + 1) * (p ^ 2 + 2 * p) = b0.length + (n + 1) * (p ^ 2 + 2 * p) := by rw [hb]; ring
  rw [e1, e2, flatten_slice b0 t _ (p ^ 2 + 2 * p) n hblen (by simpa using hnp)]
  have hg : ((combinations 2 (List.range d)).map (termBlock (phi p b0) true)).getD n [] =
      termBlock (phi p b0) true ((combinations 2 (List.range d)).getD n []) := by
    simp [List.getD, hnp]
  rw [hg]
  have hmem : (combinations 2 (List.range d)).getD n [] ∈ combinations 2 (List.range d) := by
    rw [List.getD, List.getElem?_eq_getElem hnp]; exact List.getElem_mem _
  obtain ⟨-, h2, h3⟩ := combinations_range_sorted d 2 _ hmem
  generalize (combinations 2 (List.range d)).getD n [] = c at h2 h3
  match c, h3 with
  | [i, j], _ =>
    have l1 := phi_length p d i b0 hb (h2 i (by simp))
    have l2 := phi_length p d j b0 hb (h2 j (by simp))
    simp only [termBlock, if_true, List.map_cons, List.map_nil]
    rw [List.drop_append_of_le_length (by simp [l1, l2]; omega), List.drop_of_length_le (by simp [l1, l2]; omega),
      List.nil_append]

theorem ehTripleStep_eq (p d : Nat) (ext : Bool) (b0 b : List α) (c : List Nat) (hb : b0.length = d * p)
    (hpre : b0 ++ ((combinations 2 (List.range d)).map (termBlock (phi p b0) ext)).flatten <+: b)
    (hc : c.Pairwise (· < ·)) (hd : ∀ i ∈ c, i < d) (hlen : c.length = 3) :
    ehTripleStep p d ext b c = b ++ ehTripleBlock (phi p b0) d ext c := by
  match c, hlen with
  | [i, j, k], _ =>
    have h3 : (i < j ∧ i < k) ∧ j < k := by simpa using hc
    have hk := hd k (by simp)
    have hpre0 : b0 <+: b := (List.prefix_append _ _).trans hpre
    have sl : ∀ n < d, ∀ b : List α, b0 <+: b → appendSlice b (n * p) ((n + 1) * p) = b ++ phi p b0 n := by
      intro n hn b hp
      unfold appendSlice
      rw [colSlice_prefix b0 b _ _ hp (by rw [hb]; exact Nat.mul_le_mul_right p hn)]
      rfl
    unfold ehTripleStep ehTripleBlock
    simp only [List.getD_cons_zero, List.getD_cons_succ]
    cases ext
    · simp only [Bool.false_eq_true, if_false]
      rw [appendProducts_eq p d [i, j, k] b0 b hb hpre0 hc hd]
      simp
    · simp only [if_true]
      have q := fun (x y : List α) => List.prefix_append x y
      rw [sl i (by omega) b hpre0, sl j (by omega) _ (hpre0.trans (q _ _)),
        sl k (by omega) _ ((hpre0.trans (q _ _)).trans (q _ _)),
        ehPairSlice_eq p d i b0 _ hb (by omega) (by omega) (((hpre.trans (q _ _)).trans (q _ _)).trans (q _ _)),
        ehPairSlice_eq p d j b0 _ hb (by omega) (by omega)
          ((((hpre.trans (q _ _)).trans (q _ _)).trans (q _ _)).trans (q _ _)),
        ehPairSlice_eq p d k b0 _ hb (by omega) (by omega)
          (((((hpre.trans (q _ _)).trans (q _ _)).trans (q _ _)).trans (q _ _)).trans (q _ _)),
        appendProducts_eq p d [i, j, k] b0 _ hb
          (((((((hpre0.trans (q _ _)).trans (q _ _)).trans (q _ _)).trans (q _ _)).trans (q _ _)).trans (q _ _))) hc hd]
      simp

/-- The exact layout of the basis matrix, for every order. -/
theorem ehBasisRow_eq (p d o : Nat) (ext : Bool) (b0 : List α) (hb : b0.length = d * p) :
    ehBasisRow p d o ext b0 = b0 ++ ((hdmrC2 d o).map (termBlock (phi p b0) ext)).flatten ++
      ((hdmrC3 d o).map (ehTripleBlock (phi p b0) d ext)).flatten := by
  unfold ehBasisRow
  simp only []
  rw [layout2 p d o ext b0 hb]
  split
  · rename_i ho
    have h2 : hdmrC2 d o = combinations 2 (List.range d) := by unfold hdmrC2; rw [if_pos (by omega)]
    have h3 : hdmrC3 d o = combinations 3 (List.range d) := by unfold hdmrC3; rw [if_pos ho]
    rw [prodUnique_triples, h2, h3]
    apply foldl_blocks _ _ (b0 ++ ((combinations 2 (List.range d)).map (termBlock (phi p b0) ext)).flatten) _ _ _
      (List.prefix_refl _)
    intro c hc b hpre
    obtain ⟨e1, e2, e3⟩ := combinations_range_sorted d 3 c hc
    exact ehTripleStep_eq p d ext b0 b c hb hpre e1 e2 e3
  · rename_i ho
    unfold hdmrC3
    rw [if_neg ho]
    simp

/-- **C80**, as far as it holds: up to second order, without the extended base, or with three parameters, the columns
are those of the terms in order, each with the columns of the terms nested in it. -/
theorem C80_layout_partial (p d o : Nat) (ext : Bool) (b0 : List α) (hb : b0.length = d * p)
    (h : o ≠ 3 ∨ ext = false ∨ d ≤ 3) :
    ehBasisRow p d o ext b0 = ((hdmrTerms d o).map (termBlock (phi p b0) ext)).flatten := by
  rw [ehBasisRow_eq p d o ext b0 hb]
  unfold hdmrTerms
  rw [List.map_append, List.map_append, List.flatten_append, List.flatten_append, List.map_map]
  congr 1
  · congr 1
    conv_lhs => rw [← phi_flatten p d b0 hb]
    rfl
  · congr 1
    apply List.map_congr_left
    intro c hc
    obtain ⟨e1, e2, e3⟩ := mem_hdmrC3 d o c hc
    match c, e3 with
    | [i, j, k], _ =>
      cases ext
      · simp [ehTripleBlock, termBlock]
      · have h3 : (i < j ∧ i < k) ∧ j < k := by simpa using e1
        have hk := e2 k (by simp)
        have ho : o = 3 := by
          by_contra ho
          unfold hdmrC3 at hc
          rw [if_neg ho] at hc
          simp at hc
        have hd3 : d = 3 := by
          rcases h with h | h | h
          · exact absurd ho h
          · cases h
          · omega
        subst hd3
        have : i = 0 ∧ j = 1 ∧ k = 2 := by omega
        obtain ⟨rfl, rfl, rfl⟩ := this
        have hp : combinations 2 (List.range 3) = [[0, 1], [0, 2], [1, 2]] := by decide
        simp [ehTripleBlock, termBlock, hp]

/-- **C80 fails** with the extended base, order 3 and four or more parameters: the block of the term `(0, 1, 2)`
contains the products of the pairs `(0,1)`, `(0,2)` and `(0,3)`, instead of `(1,2)`. -/
theorem C80_layout_fail (p d : Nat) (b0 : List α) (hb : b0.length = d * p) (hd : 4 ≤ d) :
    ∃ rest, ehBasisRow p d 3 true b0 = ehBasisRow p d 2 true b0 ++
      (phi p b0 0 ++ phi p b0 1 ++ phi p b0 2 ++ tensor [phi p b0 0, phi p b0 1] ++ tensor [phi p b0 0, phi p b0 2] ++
        tensor [phi p b0 0, phi p b0 3] ++ tensor [phi p b0 0, phi p b0 1, phi p b0 2]) ++ rest := by
  obtain ⟨d, rfl⟩ : ∃ d', d = d' + 4 := ⟨d - 4, by omega⟩
  have hr : List.range (d + 4) = 0 :: 1 :: 2 :: 3 :: List.range' 4 d := by
    rw [List.range_eq_range', show d + 4 = (d + 3) + 1 by rfl, List.range'_succ, List.range'_succ, List.range'_succ,
      List.range'_succ]
  have h3 : combinations 3 (List.range (d + 4)) = [0, 1, 2] :: (combinations 3 (List.range (d + 4))).tail := by
    rw [hr]; simp [combinations]
  have hp : ∀ n < 3, (combinations 2 (List.range (d + 4))).getD n [] = [[0, 1], [0, 2], [0, 3]].getD n [] := by
    intro n hn
    rw [hr]
    interval_cases n <;> simp [combinations]
  refine ⟨((combinations 3 (List.range (d + 4))).tail.map (ehTripleBlock (phi p b0) (d + 4) true)).flatten, ?_⟩
  rw [ehBasisRow_eq p _ 3 true b0 hb, ehBasisRow_eq p _ 2 true b0 hb]
  have e3 : hdmrC3 (d + 4) 3 = combinations 3 (List.range (d + 4)) := rfl
  have e2 : hdmrC2 (d + 4) 3 = hdmrC2 (d + 4) 2 := rfl
  have e4 : hdmrC3 (d + 4) 2 = [] := rfl
  rw [e3, e2, e4, h3]
  simp only [List.map_cons, List.flatten_cons, List.map_nil, List.flatten_nil, List.append_nil, List.tail_cons,
    ehTripleBlock, if_true]
  rw [hp 0 (by omega), hp 1 (by omega), hp 2 (by omega)]
  simp [List.append_assoc]

/-- Two inputs, two polynomials: first-order columns, then `(φ₀, φ₁, products)`. -/
example : ehBasisRow 2 2 2 true ([2, 3, 5, 7] : List ℚ) = [2, 3, 5, 7, 2, 3, 5, 7, 10, 14, 15, 21] ∧
    ehBasisRow 1 4 3 true ([2, 3, 5, 7] : List ℚ) =
      [2, 3, 5, 7] ++ [2, 3, 6, 2, 5, 10, 2, 7, 14, 3, 5, 15, 3, 7, 21, 5, 7, 35] ++
      [2, 3, 5, 6, 10, 14, 30, 2, 3, 7, 6, 10, 15, 42, 2, 5, 7, 6, 14, 15, 70, 3, 5, 7, 10, 14, 15, 105] := by
  decide +kernel

/-! ### C81: component functions -/

theorem zipWith_flatten (f : α → α → α) (us vs : List (List α)) (h : us.map List.length = vs.map List.length) :
    List.zipWith f us.flatten vs.flatten = (List.zipWith (List.zipWith f) us vs).flatten := by
  induction us generalizing vs with
  | nil => simp
  | cons u us ih =>
    cases vs with
    | nil => simp at h
    | cons v vs =>
      rw [List.map_cons, List.map_cons, List.cons.injEq] at h
      rw [List.flatten_cons, List.flatten_cons, List.zipWith_append h.1, List.zipWith_cons_cons, List.flatten_cons,
        ih vs h.2]

theorem block_sums (pre post : List α) (bl : List (List α)) (L : Nat) (hL : ∀ x ∈ bl, x.length = L) :
    (List.range bl.length).map (fun i => (colSlice (pre ++ bl.flatten ++ post) (pre.length + i * L)
      (pre.length + (i + 1) * L)).sum) = bl.map List.sum := by
  apply List.ext_getElem
  · simp
  · intro i h1 h2
    have hi : i < bl.length := by simpa using h1
    have := flatten_slice pre post bl L i hL hi 0
    rw [Nat.add_zero, List.drop_zero] at this
    simp only [List.getElem_map, List.getElem_range]
    rw [this]
    simp [List.getD, hi]

theorem flatten_length_const (bl : List (List α)) (L : Nat) (hL : ∀ x ∈ bl, x.length = L) :
    bl.flatten.length = L * bl.length := by
  rw [List.length_flatten]
  have : bl.map List.length = List.replicate bl.length L := by
    rw [List.eq_replicate_iff]
    refine ⟨by simp, fun x hx => ?_⟩
    obtain ⟨a, ha, rfl⟩ := List.mem_map.mp hx
    exact hL a ha
  rw [this, List.sum_replicate_nat, mul_comm]

/-- **C81**: when the columns and the coefficients are laid out term by term, the component function of every term is
its own columns times its own coefficients. -/
theorem C81_components (d p o : Nat) (ext : Bool) (B X : List Nat → List α)
    (hB : ∀ c ∈ hdmrTerms d o, (B c).length = Spec.termColumns p ext c.length)
    (hX : ∀ c ∈ hdmrTerms d o, (X c).length = Spec.termColumns p ext c.length) :
    ehComp d p o ext (((hdmrTerms d o).map B).flatten) (((hdmrTerms d o).map X).flatten) =
      (hdmrTerms d o).map fun c => dotList (B c) (X c) := by
  have hyt : List.zipWith (· * ·) ((hdmrTerms d o).map B).flatten ((hdmrTerms d o).map X).flatten =
      ((hdmrTerms d o).map fun c => List.zipWith (· * ·) (B c) (X c)).flatten := by
    have hz : List.zipWith (List.zipWith fun x y : α => x * y) ((hdmrTerms d o).map B) ((hdmrTerms d o).map X) =
        (hdmrTerms d o).map fun c => List.zipWith (fun x y => x * y) (B c) (X c) := by
      rw [List.zipWith_map, List.zipWith_self]
    rw [zipWith_flatten, hz]
    rw [List.map_map, List.map_map]
    apply List.map_congr_left
    intro c hc
    simp only [Function.comp]
    rw [hB c hc, hX c hc]
  have hZ : ∀ c ∈ hdmrTerms d o, (List.zipWith (· * ·) (B c) (X c)).length = Spec.termColumns p ext c.length := by
    intro c hc
    rw [List.length_zipWith, hB c hc, hX c hc, min_self]
  unfold ehComp
  simp only []
  rw [hyt]
  have hmem1 : ∀ i < d, [i] ∈ hdmrTerms d o := by
    intro i hi
    unfold hdmrTerms
    exact List.mem_append_left _ (List.mem_append_left _ (List.mem_map.mpr ⟨i, List.mem_range.mpr hi, rfl⟩))
  have hmem2 : ∀ c ∈ hdmrC2 d o, c ∈ hdmrTerms d o := by
    intro c hc
    exact List.mem_append_left _ (List.mem_append_right _ hc)
  have hmem3 : ∀ c ∈ hdmrC3 d o, c ∈ hdmrTerms d o := fun c hc => List.mem_append_right _ hc
  obtain ⟨Z, hZd⟩ : ∃ Z : List Nat → List α, Z = fun c => List.zipWith (· * ·) (B c) (X c) := ⟨_, rfl⟩
  have hZ' : ∀ c ∈ hdmrTerms d o, (Z c).length = Spec.termColumns p ext c.length := by rw [hZd]; exact hZ
  have hdot : (fun c => dotList (B c) (X c)) = fun c => (Z c).sum := by rw [hZd]; rfl
  rw [hdot, ← hZd]
  have L1 : ∀ x ∈ ((List.range d).map fun i => [i]).map Z, x.length = p := by
    intro x hx
    obtain ⟨c, hc, rfl⟩ := List.mem_map.mp hx
    obtain ⟨i, hi, rfl⟩ := List.mem_map.mp hc
    rw [hZ' _ (hmem1 i (List.mem_range.mp hi))]
    rfl
  have L2 : ∀ x ∈ (hdmrC2 d o).map Z, x.length = (ehNt p o ext).2.1 := by
    intro x hx
    obtain ⟨c, hc, rfl⟩ := List.mem_map.mp hx
    rw [hZ' _ (hmem2 c hc), (mem_hdmrC2 d o c hc).2.2]
    have ho : o > 1 := by
      by_contra h
      unfold hdmrC2 at hc
      rw [if_neg h] at hc
      simp at hc
    simp [ehNt, ho, Spec.termColumns]
  have L3 : ∀ x ∈ (hdmrC3 d o).map Z, x.length = (ehNt p o ext).2.2 := by
    intro x hx
    obtain ⟨c, hc, rfl⟩ := List.mem_map.mp hx
    rw [hZ' _ (hmem3 c hc), (mem_hdmrC3 d o c hc).2.2]
    have ho : o = 3 := by
      by_contra h
      unfold hdmrC3 at hc
      rw [if_neg h] at hc
      simp at hc
    simp [ehNt, ho, Spec.termColumns]
  have hsplit : ((hdmrTerms d o).map Z).flatten = (((List.range d).map fun i => [i]).map Z).flatten ++
      ((hdmrC2 d o).map Z).flatten ++ ((hdmrC3 d o).map Z).flatten := by
    unfold hdmrTerms
    rw [List.map_append, List.map_append, List.flatten_append, List.flatten_append]
  have s1 := block_sums [] (((hdmrC2 d o).map Z).flatten ++ ((hdmrC3 d o).map Z).flatten) _ p L1
  have s2 := block_sums (((List.range d).map fun i => [i]).map Z).flatten ((hdmrC3 d o).map Z).flatten _ _ L2
  have s3 := block_sums ((((List.range d).map fun i => [i]).map Z).flatten ++ ((hdmrC2 d o).map Z).flatten) [] _ _ L3
  have n1 := flatten_length_const _ p L1
  have n2 := flatten_length_const _ _ L2
  simp only [List.length_map, List.length_range] at s1 s2 s3 n1 n2
  rw [List.nil_append, ← List.append_assoc, ← hsplit] at s1
  rw [← hsplit, n1] at s2
  rw [List.append_nil, ← hsplit, List.length_append, n1, n2] at s3
  simp only [List.length_nil, Nat.zero_add] at s1
  rw [ehNc_eq]
  simp only []
  have e1 : (ehNt p o ext).1 = p := rfl
  rw [e1, s1]
  have hterms : (hdmrTerms d o).map (fun c => (Z c).sum) = (((List.range d).map fun i => [i]).map Z).map List.sum ++
      ((hdmrC2 d o).map Z).map List.sum ++ ((hdmrC3 d o).map Z).map List.sum := by
    unfold hdmrTerms
    simp [List.map_map, Function.comp_def]
  rw [hterms]
  congr 1
  · congr 1
    split
    · exact s2
    · rename_i h
      unfold hdmrC2
      rw [if_neg h]
      rfl
  · split
    · exact s3
    · rename_i h
      unfold hdmrC3
      rw [if_neg h]
      rfl

/-- The columns of all terms together are as many as the code allocates. -/
theorem C81_width (d p o : Nat) (ext : Bool) (B : List Nat → List α)
    (hB : ∀ c ∈ hdmrTerms d o, (B c).length = Spec.termColumns p ext c.length) :
    (((hdmrTerms d o).map B).flatten).length = ehTotal d p o ext := by
  have hsum : ∀ (T : List (List Nat)) (L : Nat), (∀ c ∈ T, (B c).length = L) → ((T.map B).flatten).length = L * T.length := by
    intro T L hT
    rw [flatten_length_const (T.map B) L (by
      intro x hx
      obtain ⟨c, hc, rfl⟩ := List.mem_map.mp hx
      exact hT c hc), List.length_map]
  unfold hdmrTerms
  unfold hdmrTerms at hB
  rw [List.map_append, List.map_append, List.flatten_append, List.flatten_append, List.length_append, List.length_append]
  rw [hsum _ p, hsum (hdmrC2 d o) (ehNt p o ext).2.1, hsum (hdmrC3 d o) (ehNt p o ext).2.2]
  · unfold ehTotal
    rw [ehNc_eq]
    simp only [List.length_map, List.length_range]
    rfl
  · intro c hc
    rw [hB c (List.mem_append_right _ hc), (mem_hdmrC3 d o c hc).2.2]
    have ho : o = 3 := by
      by_contra h
      unfold hdmrC3 at hc
      rw [if_neg h] at hc
      simp at hc
    simp [ehNt, ho, Spec.termColumns]
  · intro c hc
    rw [hB c (List.mem_append_left _ (List.mem_append_right _ hc)), (mem_hdmrC2 d o c hc).2.2]
    have ho : o > 1 := by
      by_contra h
      unfold hdmrC2 at hc
      rw [if_neg h] at hc
      simp at hc
    simp [ehNt, ho, Spec.termColumns]
  · intro c hc
    rw [hB c (List.mem_append_left _ (List.mem_append_left _ hc))]
    obtain ⟨i, -, rfl⟩ := List.mem_map.mp hc
    rfl

/-- Three parameters, order 3, degree 2, extended basis: 6 + 3·8 + 26 columns. -/
example : ehTotal 3 2 3 true = 56 := by decide

/-- The emulator adds up the products of all columns with their coefficients, and nothing else: the mean of the output,
which the fit had subtracted, is not added back. -/
theorem C81_emulate (d p o : Nat) (ext : Bool) (B X : List Nat → List α)
    (hB : ∀ c ∈ hdmrTerms d o, (B c).length = Spec.termColumns p ext c.length)
    (hX : ∀ c ∈ hdmrTerms d o, (X c).length = Spec.termColumns p ext c.length) :
    ehEmulate d p o ext (((hdmrTerms d o).map B).flatten) (((hdmrTerms d o).map X).flatten) =
      dotList (((hdmrTerms d o).map B).flatten) (((hdmrTerms d o).map X).flatten) := by
  unfold ehEmulate
  rw [C81_components d p o ext B X hB hX]
  generalize hdmrTerms d o = L at hB hX
  induction L with
  | nil => simp [dotList]
  | cons c L ih =>
    have hl : (B c).length = (X c).length := by rw [hB c (by simp), hX c (by simp)]
    have := ih (fun c' hc' => hB c' (by simp [hc'])) fun c' hc' => hX c' (by simp [hc'])
    simp only [List.map_cons, List.sum_cons, List.flatten_cons, this]
    unfold dotList
    rw [List.zipWith_append hl, List.sum_append]

/-- The blocks of the terms have the number of columns reserved for them. -/
theorem termBlock_length (p d o : Nat) (ext : Bool) (b0 : List α) (hb : b0.length = d * p) :
    ∀ c ∈ hdmrTerms d o, (termBlock (phi p b0) ext c).length = Spec.termColumns p ext c.length := by
  intro c hc
  have hph := fun i hi => phi_length p d i b0 hb hi
  have ht : ∀ c : List Nat, (∀ i ∈ c, i < d) → (tensor (c.map (phi p b0))).length = p ^ c.length := by
    intro c hc
    rw [tensor_length _ p, List.length_map]
    intro u hu
    obtain ⟨i, hi, rfl⟩ := List.mem_map.mp hu
    exact hph i (hc i hi)
  unfold hdmrTerms at hc
  rcases List.mem_append.mp hc with h | h
  · rcases List.mem_append.mp h with h | h
    · obtain ⟨i, hi, rfl⟩ := List.mem_map.mp h
      simp [termBlock, hph i (List.mem_range.mp hi), Spec.termColumns]
    · obtain ⟨-, h2, h3⟩ := mem_hdmrC2 d o c h
      match c, h3 with
      | [i, j], _ =>
        have t := ht [i, j] h2
        simp only [List.map_cons, List.map_nil] at t
        have l1 := hph i (h2 i (by simp))
        have l2 := hph j (h2 j (by simp))
        cases ext <;> simp [termBlock, t, l1, l2, Spec.termColumns] <;> ring
  · obtain ⟨-, h2, h3⟩ := mem_hdmrC3 d o c h
    match c, h3 with
    | [i, j, k], _ =>
      have t := ht [i, j, k] h2
      have t1 := ht [i, j] (fun x hx => h2 x (by simp at hx ⊢; tauto))
      have t2 := ht [i, k] (fun x hx => h2 x (by simp at hx ⊢; tauto))
      have t3 := ht [j, k] (fun x hx => h2 x (by simp at hx ⊢; tauto))
      simp only [List.map_cons, List.map_nil] at t t1 t2 t3
      have l1 := hph i (h2 i (by simp))
      have l2 := hph j (h2 j (by simp))
      have l3 := hph k (h2 k (by simp))
      cases ext <;> simp [termBlock, t, t1, t2, t3, l1, l2, l3, Spec.termColumns] <;> ring

/-- Two inputs, one polynomial each, second order: the basis row of the example above, coefficients `1 … 12`. -/
example : ehComp 2 2 2 true (ehBasisRow 2 2 2 true ([2, 3, 5, 7] : List ℚ)) [1, 2, 3, 4, 5, 6, 7, 8, 9, 10, 11, 12] =
    [8, 43, 10 + 18 + 35 + 56 + 90 + 140 + 165 + 252] := by
  decide +kernel

end SALib
