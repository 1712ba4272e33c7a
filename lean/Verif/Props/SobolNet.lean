import Verif.Lemmas.SobolRec
import Verif.Spec.SobolNet
import Verif.Props.DirectionsPrim
import Verif.Props.SaltelliStrat
import Mathlib.Tactic.IntervalCases

/-! # C99: the Sobol sequence stratifies several columns at once -/

set_option linter.unusedSectionVars false

namespace SALib
open Spec Polynomial

/-- The polynomial that generates column `d`. -/
noncomputable def colPoly (dirs : List (List Nat)) (d : Nat) : (ZMod 2)[X] :=
  if d = 0 then X else codePoly ((dirs.getD (d - 1) []).length - 1) ((dirs.getD (d - 1) []).headD 0)

theorem directions_degree : ∀ m ∈ directions, m.length - 1 ≤ 18 := by
  intro m hm
  obtain ⟨n, hn, rfl⟩ := List.mem_map.mp hm
  have := directionCodes_piece.upTo n hn
  omega

theorem getD_directions_mem (d : Nat) (h0 : d ≠ 0) (hd : d < 21201) :
    directions.getD (d - 1) [] ∈ directions := by
  have hlt : d - 1 < directions.length := by rw [length_directions]; omega
  rw [List.getD_eq_getElem _ _ hlt]
  exact List.getElem_mem hlt

theorem colPoly_prim (d : Nat) (hd : d < 21201) :
    Irreducible (colPoly directions d) ∧ (colPoly directions d).natDegree = colDegree directions d := by
  unfold colPoly colDegree
  by_cases h0 : d = 0
  · rw [if_pos h0, if_pos h0]
    exact ⟨irreducible_X, natDegree_X⟩
  · rw [if_neg h0, if_neg h0]
    have := C23_primitive _ (getD_directions_mem d h0 hd)
    exact ⟨this.2.1, this.1⟩

theorem colPoly_ne_X (d : Nat) (h0 : d ≠ 0) (hd : d < 21201) : colPoly directions d ≠ X := by
  intro h
  unfold colPoly at h
  rw [if_neg h0] at h
  have hm := getD_directions_mem d h0 hd
  have h2 := two_le_of_fullRow (C23_table.2.1 _ hm)
  have := congrArg (fun P : (ZMod 2)[X] => P.coeff 0) h
  simp only [coeff_X_zero] at this
  rw [coeff_codePoly_zero _ _ (by omega)] at this
  exact one_ne_zero this

/-- No two columns use the same polynomial. -/
theorem colPoly_ne (d d' : Nat) (hd : d < 21201) (hd' : d' < 21201) (hlt : d < d') :
    colPoly directions d ≠ colPoly directions d' := by
  by_cases h0 : d = 0
  · intro h
    apply colPoly_ne_X d' (by omega) hd'
    rw [← h, h0]
    rfl
  · intro h
    have h1 : d - 1 < directions.length := by rw [length_directions]; omega
    have h2 : d' - 1 < directions.length := by rw [length_directions]; omega
    have hp := List.pairwise_iff_getElem.mp C23_table.2.2 (d - 1) (d' - 1) h1 h2 (by omega)
    have hdeg : colDegree directions d = colDegree directions d' := by
      rw [← (colPoly_prim d hd).2, ← (colPoly_prim d' hd').2, h]
    unfold colDegree at hdeg
    unfold colPoly at h
    rw [if_neg h0, if_neg (by omega)] at hdeg h
    rw [List.getD_eq_getElem _ _ h1, List.getD_eq_getElem _ _ h2] at hdeg h
    have f1 := C23_table.2.1 _ (List.getElem_mem h1)
    have f2 := C23_table.2.1 _ (List.getElem_mem h2)
    have l1 := two_le_of_fullRow f1
    have l2 := two_le_of_fullRow f2
    rw [← hdeg] at h
    have he : directions[d - 1].length - 2 = directions[d - 1].length - 1 - 1 := by omega
    have he' : directions[d' - 1].length - 2 = directions[d - 1].length - 1 - 1 := by omega
    have := codePoly_inj _ _ _ (he ▸ f1.2) (he' ▸ f2.2) h
    unfold RowBefore at hp
    omega

theorem colPoly_coprime (d d' : Nat) (hd : d < 21201) (hd' : d' < 21201) (hne : d ≠ d') :
    IsCoprime (colPoly directions d) (colPoly directions d') := by
  refine coprime_of_irreducible (colPoly_prim d hd).1 (colPoly_prim d' hd').1 ?_
  rcases lt_or_gt_of_ne hne with h | h
  · exact colPoly_ne d d' hd hd' h
  · exact (colPoly_ne d' d hd' hd h).symm

variable {α : Type} [Field α]

/-- The direction numbers the generator uses for a column satisfy the recurrence of its polynomial. -/
theorem directionNumbers_rows (d : Nat) (hd : d < 21201) (V : List Nat)
    (hV : directionNumbers directions 31 d = .ok V) :
    ∃ w : Nat → Nat, DimRows (colPoly directions d) (dimRow w) ∧ ∀ j, 1 ≤ j → j ≤ 31 → w j = V.getD j 0 := by
  unfold directionNumbers at hV
  by_cases h0 : d = 0
  · rw [h0] at hV ⊢
    simp only [if_true] at hV
    obtain ⟨W, h1, -, h3⟩ := firstDirections_ok 31
    rw [h1] at hV
    cases hV
    refine ⟨firstDir, dimRows_first, fun j hj1 hj2 => ?_⟩
    rw [h3 j hj1 hj2, firstDir, if_pos hj2, Nat.one_shiftLeft]
    rfl
  · simp only [h0, if_false] at hV
    have hlt : d - 1 < directions.length := by rw [length_directions]; omega
    rw [List.getElem?_eq_getElem hlt] at hV
    have hmem := List.getElem_mem hlt
    have hrow := C23_table.2.1 _ hmem
    have h2 := two_le_of_fullRow hrow
    obtain ⟨W, h1, -, h3⟩ := laterDirections_ok directions[d - 1] 31 h2
    simp only at hV
    rw [h1] at hV
    cases hV
    obtain ⟨w, hw, hag⟩ := isDir_extend _ h2 _ h3
    refine ⟨w, ?_, hag⟩
    have := dimRows_later _ hrow.1 ((directions_degree _ hmem).trans (by norm_num)) (C23_primitive _ hmem) w hw
    unfold colPoly
    rw [if_neg h0, List.getD_eq_getElem _ _ hlt]
    exact this

/-- The generated points in closed form, with direction numbers continued beyond 31 bits. -/
theorem sobolSequence_net :
    ∃ (V : Nat → List Nat) (v : Nat → Nat → Nat),
      (∀ d, d < 21201 → directionNumbers directions 31 d = .ok (V d) ∧
        DimRows (colPoly directions d) (dimRow (v d)) ∧
        ∀ j, 1 ≤ j → j ≤ 31 → v d j = (V d).getD j 0 ∧ DirNum j (v d j)) ∧
      ∀ L N D, 0 < N → N ≤ 2 ^ L → L ≤ 31 → D ≤ 21201 →
        sobolSequence (α := α) directions L N D = .ok ((List.range N).map fun n => (List.range D).map fun i =>
          ((xSeq (v i) n : Nat) : α) / 2 ^ 31) := by
  obtain ⟨V, hdir, hnum, heq⟩ := sobolSequence_dirs (α := α) directions directions_tableOk
  rw [length_directions] at hdir hnum heq
  have hw : ∀ d, ∃ w : Nat → Nat, d < 21201 → DimRows (colPoly directions d) (dimRow w) ∧
      ∀ j, 1 ≤ j → j ≤ 31 → w j = (V d).getD j 0 := by
    intro d
    by_cases hd : d < 21201
    · obtain ⟨w, hw⟩ := directionNumbers_rows d hd (V d) (hdir d (by omega))
      exact ⟨w, fun _ => hw⟩
    · exact ⟨fun _ => 0, fun h => absurd h hd⟩
  choose v hv using hw
  refine ⟨V, v, fun d hd => ⟨hdir d (by omega), (hv d hd).1, fun j h1 hj => ⟨(hv d hd).2 j h1 hj, ?_⟩⟩, ?_⟩
  · rw [(hv d hd).2 j h1 hj]
    exact hnum d (by omega) j h1 hj
  · intro L N D hN hNL hL hD
    rw [heq L N D hN hNL hL (by omega)]
    congr 1
    refine List.map_congr_left fun n hn => List.map_congr_left fun d hd => ?_
    rw [List.mem_range] at hn hd
    rw [xSeq_congr (v d) _ L n (by omega) fun j h1 hj => (hv d (by omega)).2 j h1 (by omega)]

section
variable [LinearOrder α] [IsStrictOrderedRing α]

/-- Counting on the generated matrix is counting on the integers. -/
theorem blockCount_of (v : Nat → Nat → Nat) (N D m B : Nat) (S : Finset Nat) (hS : ∀ d ∈ S, d < D) (k i : Nat → Nat)
    (hk : ∀ d ∈ S, k d ≤ 31) (hB : (B + 1) * 2 ^ m ≤ N) (c : Nat)
    (h : ((Finset.Ico (B * 2 ^ m) ((B + 1) * 2 ^ m)).filter fun n =>
      ∀ d ∈ S, xSeq (v d) n >>> (31 - k d) = i d).card = c) :
    BlockCount ((List.range N).map fun n => (List.range D).map fun i => ((xSeq (v i) n : Nat) : α) / 2 ^ 31)
      m B S k i c := by
  unfold BlockCount
  rw [← h, ← Set.ncard_coe_finset]
  congr 1
  ext n
  simp only [Finset.coe_filter, Finset.mem_Ico, Set.mem_setOf_eq, and_assoc]
  refine and_congr_right fun h1 => and_congr_right fun h2 => forall₂_congr fun d hd => ?_
  rw [colEntry_table N D _ n d (by omega) (hS d hd)]
  simp only [Option.some.injEq, exists_eq_left']
  exact inStratum_iff (k d) (i d) _ (hk d hd)

/-- The generated points, with the count of their leading digits in every aligned block. -/
theorem sobolSequence_counts :
    ∃ v : Nat → Nat → Nat, (∀ d, d < 21201 → ∀ j, 1 ≤ j → j ≤ 31 → DirNum j (v d j)) ∧
      (∀ L N D, 0 < N → N ≤ 2 ^ L → L ≤ 31 → D ≤ 21201 →
        sobolSequence (α := α) directions L N D = .ok ((List.range N).map fun n => (List.range D).map fun i =>
          ((xSeq (v i) n : Nat) : α) / 2 ^ 31)) ∧
      ∀ (S : Finset Nat) (k : Nat → Nat) (m B : Nat), (∀ d ∈ S, d < 21201) → m ≤ 31 →
        netLoss directions S + ∑ d ∈ S, k d ≤ m → (B + 1) * 2 ^ m ≤ 2 ^ 31 →
        ∀ i : Nat → Nat, (∀ d ∈ S, i d < 2 ^ k d) →
        ((Finset.Ico (B * 2 ^ m) ((B + 1) * 2 ^ m)).filter fun n =>
          ∀ d ∈ S, xSeq (v d) n >>> (31 - k d) = i d).card = 2 ^ (m - ∑ d ∈ S, k d) := by
  obtain ⟨V, v, hv, heq⟩ := sobolSequence_net (α := α)
  refine ⟨v, fun d hd j h1 hj => ((hv d hd).2.2 j h1 hj).2, heq, ?_⟩
  intro S k m B hS hm31 hm hB i hi
  have hkd : ∀ d ∈ S, k d ≤ 31 := fun d hd => by
    have := Finset.single_le_sum (f := k) (fun _ _ => Nat.zero_le _) hd
    omega
  have hcount := net_count S v (fun d hd j h1 hj => ((hv d (hS d hd)).2.2 j h1 hj).2) k hkd m hm31
    (fun l hl => rows_indep S (colPoly directions) (fun d => dimRow (v d)) (fun d hd => (hv d (hS d hd)).2.1)
      (fun d hd d' hd' hne => colPoly_coprime d d' (hS d hd) (hS d' hd') hne)
      k hkd m (by
        rw [Finset.sum_add_distrib, Finset.sum_congr rfl fun d hd => congrArg (· - 1) (colPoly_prim d (hS d hd)).2]
        have : netLoss directions S = ∑ d ∈ S, (colDegree directions d - 1) := rfl
        omega) l hl) B hB i hi
  have hsplit : 2 ^ m = 2 ^ (m - ∑ d ∈ S, k d) * 2 ^ (∑ d ∈ S, k d) := by rw [← pow_add]; congr 1; omega
  have hpos : 0 < 2 ^ (∑ d ∈ S, k d) := by positivity
  exact Nat.eq_of_mul_eq_mul_right hpos (hcount.trans hsplit)

theorem block_exp_le (L N m B : Nat) (hNL : N ≤ 2 ^ L) (hL : L ≤ 31) (hB : (B + 1) * 2 ^ m ≤ N) :
    m ≤ 31 ∧ (B + 1) * 2 ^ m ≤ 2 ^ 31 := by
  have h31 : 2 ^ L ≤ 2 ^ 31 := Nat.pow_le_pow_right (by norm_num) hL
  have h1 : 1 * 2 ^ m ≤ (B + 1) * 2 ^ m := Nat.mul_le_mul_right _ (by omega)
  exact ⟨(Nat.pow_le_pow_iff_right (by norm_num : 1 < 2)).mp (by omega), by omega⟩

/-- **C99.** Sobol's theorem for the shipped table: take any columns `S`, with loss `t = ∑ (degree - 1)`, and any
dyadic box with sides `2^-(k d)` in those columns.  If `t + ∑ k d ≤ m`, every block of `2^m` rows that starts at a
multiple of `2^m` has exactly `2^m * volume` rows in the box. -/
theorem C99_net (L N D : Nat) (hN : 0 < N) (hNL : N ≤ 2 ^ L) (hL : L ≤ 31) (hD : D ≤ 21201) (M : Mat α)
    (hM : sobolSequence directions L N D = .ok M) (S : Finset Nat) (hS : ∀ d ∈ S, d < D) (k : Nat → Nat)
    (m B : Nat) (hm : netLoss directions S + ∑ d ∈ S, k d ≤ m) (hB : (B + 1) * 2 ^ m ≤ N) (i : Nat → Nat)
    (hi : ∀ d ∈ S, i d < 2 ^ k d) : BlockCount M m B S k i (2 ^ (m - ∑ d ∈ S, k d)) := by
  obtain ⟨v, -, heq, hcount⟩ := sobolSequence_counts (α := α)
  rw [heq L N D hN hNL hL hD] at hM
  cases hM
  obtain ⟨hm31, hB31⟩ := block_exp_le L N m B hNL hL hB
  refine blockCount_of v N D m B S hS k i (fun d hd => ?_) hB _
    (hcount S k m B (fun d hd => lt_of_lt_of_le (hS d hd) hD) hm31 hm hB31 i hi)
  have := Finset.single_le_sum (f := k) (fun _ _ => Nat.zero_le _) hd
  omega

/-- **C99**, means: if a function of the row only depends on which dyadic box of sides `2^-(k d)`, `d ∈ S`, the row
lies in, and `t + ∑ k d ≤ m`, its mean over every aligned block of `2^m` rows is its mean over the boxes: the sample
mean is the integral, without error. -/
theorem C99_step_mean (L N D : Nat) (hN : 0 < N) (hNL : N ≤ 2 ^ L) (hL : L ≤ 31) (hD : D ≤ 21201) (M : Mat α)
    (hM : sobolSequence directions L N D = .ok M) (S : Finset Nat) (hS : ∀ d ∈ S, d < D) (k : Nat → Nat)
    (m B : Nat) (hm : netLoss directions S + ∑ d ∈ S, k d ≤ m) (hB : (B + 1) * 2 ^ m ≤ N)
    (f : List α → α) (g : ((d : Nat) → d ∈ S → Nat) → α)
    (hf : ∀ row i, (∀ d hd, ∃ x, row[d]? = some x ∧ InStratum (k d) (i d hd) x) → f row = g i) :
    (∑ n ∈ Finset.Ico (B * 2 ^ m) ((B + 1) * 2 ^ m), f (M.getD n [])) / 2 ^ m =
      (∑ i ∈ S.pi fun d => Finset.range (2 ^ k d), g i) / 2 ^ (∑ d ∈ S, k d) := by
  obtain ⟨v, hdir, heq, hcount⟩ := sobolSequence_counts (α := α)
  rw [heq L N D hN hNL hL hD] at hM
  cases hM
  obtain ⟨hm31, hB31⟩ := block_exp_le L N m B hNL hL hB
  have hkd : ∀ d ∈ S, k d ≤ 31 := fun d hd => by
    have := Finset.single_le_sum (f := k) (fun _ _ => Nat.zero_le _) hd
    omega
  set box : Nat → (d : Nat) → d ∈ S → Nat := fun n d _ => xSeq (v d) n >>> (31 - k d) with hbox
  have hval : ∀ n ∈ Finset.Ico (B * 2 ^ m) ((B + 1) * 2 ^ m),
      f (((List.range N).map fun n => (List.range D).map fun i => ((xSeq (v i) n : Nat) : α) / 2 ^ 31).getD n []) =
        g (box n) := by
    intro n hn
    rw [Finset.mem_Ico] at hn
    have hlt : n < N := by omega
    apply hf
    intro d hd
    refine ⟨((xSeq (v d) n : Nat) : α) / 2 ^ 31, by simp [hlt, hS d hd], ?_⟩
    exact (inStratum_iff (k d) _ _ (hkd d hd)).mpr rfl
  have hmem : ∀ n ∈ Finset.Ico (B * 2 ^ m) ((B + 1) * 2 ^ m), box n ∈ S.pi fun d => Finset.range (2 ^ k d) := by
    intro n hn
    rw [Finset.mem_Ico] at hn
    rw [Finset.mem_pi]
    intro d hd
    have hd2 := lt_of_lt_of_le (hS d hd) hD
    rw [Finset.mem_range, hbox]
    simp only
    rw [Nat.shiftRight_eq_div_pow, Nat.div_lt_iff_lt_mul (by positivity), ← pow_add,
      show k d + (31 - k d) = 31 by have := hkd d hd; omega]
    exact xSeq_lt (v d) (hdir d hd2) n (by omega)
  rw [Finset.sum_congr rfl hval, ← Finset.sum_fiberwise_of_maps_to hmem]
  have hfib : ∀ i ∈ S.pi fun d => Finset.range (2 ^ k d),
      ∑ n ∈ (Finset.Ico (B * 2 ^ m) ((B + 1) * 2 ^ m)).filter (fun n => box n = i), g (box n) =
        2 ^ (m - ∑ d ∈ S, k d) * g i := by
    intro i hi
    rw [Finset.mem_pi] at hi
    rw [Finset.sum_congr rfl fun n hn => congrArg g (Finset.mem_filter.mp hn).2, Finset.sum_const, nsmul_eq_mul]
    congr 1
    have := hcount S k m B (fun d hd => lt_of_lt_of_le (hS d hd) hD) hm31 hm hB31
      (fun d => if hd : d ∈ S then i d hd else 0) (fun d hd => by
        rw [dif_pos hd]
        exact Finset.mem_range.mp (hi d hd))
    have hsame : (Finset.Ico (B * 2 ^ m) ((B + 1) * 2 ^ m)).filter (fun n => box n = i) =
        (Finset.Ico (B * 2 ^ m) ((B + 1) * 2 ^ m)).filter (fun n => ∀ d ∈ S,
          xSeq (v d) n >>> (31 - k d) = if hd : d ∈ S then i d hd else 0) := by
      refine Finset.filter_congr fun n _ => ?_
      constructor
      · rintro rfl d hd
        rw [dif_pos hd]
      · intro h
        funext d hd
        have := h d hd
        rwa [dif_pos hd] at this
    rw [hsame, this]
    push_cast
    rfl
  rw [Finset.sum_congr rfl hfib, ← Finset.mul_sum]
  have hsplit : (2 : α) ^ m = 2 ^ (m - ∑ d ∈ S, k d) * 2 ^ (∑ d ∈ S, k d) := by rw [← pow_add]; congr 1; omega
  rw [hsplit, mul_div_mul_left _ _ (by positivity)]

end

/-! ### Orthants -/

/-- Lower factor of the leading digits of the first 31 columns; bit `k` of entry `d` is the entry `d, k`. -/
def orthLow : List Nat :=
  [1, 3, 7, 15, 25, 49, 115, 149, 261, 637, 1765, 2273, 5259, 11607, 24057, 55015, 124361, 261879, 435445,
  634275, 1598227, 3260457, 7756883, 16216087, 21296623, 59715389, 97562011, 211004077, 371357275, 760262585,
  1115260387]

/-- Upper factor. -/
def orthUp : List Nat :=
  [1, 2147483646, 613566756, 1629052680, 1983316912, 218101280, 1105232832, 1054447744, 1797233920, 471290368,
  813407232, 356304896, 1954967552, 1936121856, 906903552, 151552000, 1392836608, 1101398016, 206831616,
  125304832, 1485832192, 358612992, 4194304, 1954545664, 1426063360, 973078528, 2080374784, 1476395008,
  805306368, 536870912, 1073741824]

def lowBit (d k : Nat) : Bool := (orthLow.getD d 0).testBit k
def upBit (k j : Nat) : Bool := (orthUp.getD k 0).testBit j

/-- Entry `d, j` of the product of the two factors. -/
def prodBit (d j : Nat) : Bool := (List.range 31).foldl (fun a k => a ^^ (lowBit d k && upBit k j)) false

def orthOk (d : Nat) : Bool :=
  match directionNumbers directions 31 d with
  | .ok V => (List.range 31).all fun j => (V.getD (j + 1) 0).testBit 30 == prodBit d j
  | .error _ => false

set_option maxRecDepth 100000 in
theorem orth_factors : (List.range 31).all orthOk = true := by decide +kernel

theorem orth_triangular : (∀ d < 31, lowBit d d = true ∧ upBit d d = true) ∧
    ∀ d < 31, ∀ k < d, lowBit k d = false ∧ upBit d k = false := by
  decide +kernel

/-- A truth value in the field of two elements. -/
def bz (b : Bool) : ZMod 2 := if b then 1 else 0

theorem bz_xor (a b : Bool) : bz (a ^^ b) = bz a + bz b := by cases a <;> cases b <;> decide

theorem bz_and (a b : Bool) : bz (a && b) = bz a * bz b := by cases a <;> cases b <;> decide

theorem bz_prodBit (d j : Nat) : bz (prodBit d j) = ∑ k ∈ Finset.range 31, bz (lowBit d k) * bz (upBit k j) := by
  have hfold : ∀ (l : List Nat) (a : Bool), bz (l.foldl (fun a k => a ^^ (lowBit d k && upBit k j)) a) =
      bz a + (l.map fun k => bz (lowBit d k) * bz (upBit k j)).sum := by
    intro l
    induction l with
    | nil => intro a; simp
    | cons k l ih =>
      intro a
      rw [List.foldl_cons, ih, bz_xor, bz_and, List.map_cons, List.sum_cons, add_assoc]
  unfold prodBit
  rw [hfold, sum_list_range]
  simp [bz]

/-- The leading digits of the first `D` direction numbers of the first `D` columns form a regular matrix. -/
theorem orth_indep (D : Nat) (hD : D ≤ 31) (l : Nat → ZMod 2)
    (h : ∀ j < D, ∑ d ∈ Finset.range D, l d * bz (prodBit d j) = 0) : ∀ d < D, l d = 0 := by
  obtain ⟨hone, hzero⟩ := orth_triangular
  set y : Nat → ZMod 2 := fun k => ∑ d ∈ Finset.range D, l d * bz (lowBit d k) with hy
  have hyj : ∀ j < D, ∑ k ∈ Finset.range 31, y k * bz (upBit k j) = 0 := by
    intro j hj
    rw [← h j hj]
    simp only [bz_prodBit, hy, Finset.sum_mul, Finset.mul_sum]
    rw [Finset.sum_comm]
    simp only [mul_assoc]
  have hy0 : ∀ k, k < D → y k = 0 := by
    intro k
    induction k using Nat.strong_induction_on with
    | _ k ih =>
      intro hk
      have := hyj k hk
      rw [Finset.sum_eq_single k] at this
      · rwa [(hone k (by omega)).2, show bz true = 1 from rfl, mul_one] at this
      · intro k' hk' hne
        rw [Finset.mem_range] at hk'
        rcases lt_or_gt_of_ne hne with hlt | hgt
        · rw [ih k' hlt (by omega), zero_mul]
        · rw [(hzero k' hk' k hgt).2, show bz false = 0 from rfl, mul_zero]
      · intro hn
        exact absurd (Finset.mem_range.mpr (show k < 31 by omega)) hn
  have hdown : ∀ e d, d + e + 1 = D → l d = 0 := by
    intro e
    induction e using Nat.strong_induction_on with
    | _ e ih =>
      intro d hd
      have := hy0 d (by omega)
      rw [hy] at this
      simp only at this
      rw [Finset.sum_eq_single d] at this
      · rwa [(hone d (by omega)).1, show bz true = 1 from rfl, mul_one] at this
      · intro d' hd' hne
        rw [Finset.mem_range] at hd'
        rcases lt_or_gt_of_ne hne with hlt | hgt
        · rw [(hzero d (by omega) d' hlt).1, show bz false = 0 from rfl, mul_zero]
        · rw [ih (D - 1 - d') (by omega) d' (by omega), zero_mul]
      · intro hn
        exact absurd (Finset.mem_range.mpr (show d < D by omega)) hn
  intro d hd
  exact hdown (D - 1 - d) d (by omega)

section
variable [LinearOrder α] [IsStrictOrderedRing α]

/-- **C99**, orthants: in the first `D ≤ 31` columns, every block of `2^D` rows that starts at a multiple of `2^D` has
exactly one row in each of the `2^D` boxes obtained by halving every side. -/
theorem C99_orthants (L N D : Nat) (hN : 0 < N) (hNL : N ≤ 2 ^ L) (hL : L ≤ 31) (M : Mat α)
    (hM : sobolSequence directions L N D = .ok M) (hD : D ≤ 31) (B : Nat) (hB : (B + 1) * 2 ^ D ≤ N)
    (i : Nat → Nat) (hi : ∀ d < D, i d < 2) : BlockCount M D B (Finset.range D) (fun _ => 1) i 1 := by
  obtain ⟨V, v, hv, heq⟩ := sobolSequence_net (α := α)
  rw [heq L N D hN hNL hL (by omega)] at hM
  cases hM
  have h31 : 2 ^ L ≤ 2 ^ 31 := Nat.pow_le_pow_right (by norm_num) hL
  have hrow : ∀ d < 31, ∀ j < 31, dimRow (v d) 0 j = bz (prodBit d j) := by
    intro d hd j hj
    have hc := List.all_eq_true.mp orth_factors d (List.mem_range.mpr hd)
    obtain ⟨hV, -, hag⟩ := hv d (by omega)
    unfold orthOk at hc
    rw [hV] at hc
    have := List.all_eq_true.mp hc j (List.mem_range.mpr hj)
    rw [beq_iff_eq] at this
    unfold dimRow zbit bz
    rw [(hag (j + 1) (by omega) (by omega)).1, ← this]
  refine blockCount_of v N D D B (Finset.range D) (fun d hd => Finset.mem_range.mp hd) _ i (fun _ _ => by norm_num)
    hB _ ?_
  have hcount := net_count (Finset.range D) v
    (fun d hd j h1 hj => ((hv d (by have := Finset.mem_range.mp hd; omega)).2.2 j h1 hj).2) (fun _ => 1)
    (fun _ _ => by norm_num) D hD (fun l hl d hd b hb => by
      obtain rfl : b = 0 := by omega
      refine orth_indep D hD (fun d => l d 0) (fun j hj => ?_) d (Finset.mem_range.mp hd)
      rw [← hl j hj]
      refine Finset.sum_congr rfl fun d hd => ?_
      rw [Finset.sum_range_one, hrow d (by have := Finset.mem_range.mp hd; omega) j (by omega)])
    B (by omega) i (fun d hd => by simpa using hi d (Finset.mem_range.mp hd))
  rw [Finset.sum_const, Finset.card_range, smul_eq_mul, mul_one] at hcount
  have hpos : 0 < 2 ^ D := by positivity
  exact Nat.eq_of_mul_eq_mul_right hpos (hcount.trans (one_mul _).symm)

set_option maxRecDepth 100000 in
theorem netLoss_two : netLoss directions {0, 1} = 0 := by decide +kernel

/-- **C99**, two columns: in the first two columns, every block of `2^m` rows that starts at a multiple of `2^m` has
exactly one row in each box `2^-k × 2^-(m - k)` of the dyadic grid. -/
theorem C99_first_two (L N D : Nat) (hN : 0 < N) (hNL : N ≤ 2 ^ L) (hL : L ≤ 31) (hD2 : 2 ≤ D) (hD : D ≤ 21201)
    (M : Mat α) (hM : sobolSequence directions L N D = .ok M) (m k B : Nat) (hk : k ≤ m)
    (hB : (B + 1) * 2 ^ m ≤ N) (a b : Nat) (ha : a < 2 ^ k) (hb : b < 2 ^ (m - k)) :
    ∃! n, B * 2 ^ m ≤ n ∧ n < (B + 1) * 2 ^ m ∧ (∃ x, colEntry M 0 n = some x ∧ InStratum k a x) ∧
      ∃ x, colEntry M 1 n = some x ∧ InStratum (m - k) b x := by
  have hsum : ∑ d ∈ ({0, 1} : Finset Nat), (fun d => if d = 0 then k else m - k) d = m := by
    rw [Finset.sum_pair (by norm_num)]
    simp only [if_true, one_ne_zero, if_false]
    omega
  have := C99_net L N D hN hNL hL hD M hM {0, 1} (fun d hd => by
      simp only [Finset.mem_insert, Finset.mem_singleton] at hd; omega)
    (fun d => if d = 0 then k else m - k) m B (by rw [netLoss_two, hsum, zero_add]) hB
    (fun d => if d = 0 then a else b) (fun d hd => by
      simp only [Finset.mem_insert, Finset.mem_singleton] at hd
      rcases hd with rfl | rfl <;> simpa)
  rw [hsum, Nat.sub_self, pow_zero] at this
  obtain ⟨n, hn⟩ := Set.ncard_eq_one.mp this
  have hiff : ∀ n', (B * 2 ^ m ≤ n' ∧ n' < (B + 1) * 2 ^ m ∧ (∃ x, colEntry M 0 n' = some x ∧ InStratum k a x) ∧
      ∃ x, colEntry M 1 n' = some x ∧ InStratum (m - k) b x) ↔ n' = n := by
    intro n'
    rw [← Set.mem_singleton_iff, ← hn, Set.mem_setOf_eq]
    simp [InDyadicBox]
  exact ⟨n, (hiff n).mpr rfl, fun n' h => (hiff n').mp h⟩

/-- **C99**, Saltelli sample: for `N = 2^m` and the default number of skipped points, the `N` base points that are
used (columns `0, ..., D - 1` are the A point, `D, ..., 2 D - 1` the B point) have exactly `N * volume` points in every
dyadic box in any columns `S` with `t + ∑ k d ≤ m`. -/
theorem C99_saltelli (m L D skip : Nat) (hskip : saltelliSkip (2 ^ m) none = .ok skip)
    (hL : 2 ^ m + skip ≤ 2 ^ L) (hL' : L ≤ 31) (hD : 2 * D ≤ 21201) :
    ∃ M : Mat α, sobolSequence directions L (2 ^ m + skip) (2 * D) = .ok M ∧
      ∀ (S : Finset Nat) (k i : Nat → Nat), (∀ d ∈ S, d < 2 * D ∧ i d < 2 ^ k d) →
        netLoss directions S + ∑ d ∈ S, k d ≤ m → BlockCount (M.drop skip) m 0 S k i (2 ^ (m - ∑ d ∈ S, k d)) := by
  have hpos : 0 < 2 ^ m := by positivity
  obtain ⟨B, hB⟩ := saltelliSkip_aligned m skip hskip
  obtain ⟨M, hM, -⟩ := C23_all_dimensions (α := α) L (2 ^ m + skip) (2 * D) (by omega) hL hL' hD
  refine ⟨M, hM, fun S k i hS hm => ?_⟩
  have hmul : (B + 1) * 2 ^ m = 2 ^ m + skip := by rw [hB]; ring
  have := C99_net L (2 ^ m + skip) (2 * D) (by omega) hL hL' hD M hM S (fun d hd => (hS d hd).1) k m B hm
    (by omega) i (fun d hd => (hS d hd).2)
  unfold BlockCount at this ⊢
  rw [← this]
  refine Set.ncard_congr (fun n _ => skip + n) ?_ ?_ ?_
  · rintro n ⟨-, h2, h3⟩
    refine ⟨by omega, by omega, fun d hd => ?_⟩
    obtain ⟨x, hx, hin⟩ := h3 d hd
    refine ⟨x, ?_, hin⟩
    unfold colEntry at hx ⊢
    rwa [List.getElem?_drop] at hx
  · intro n n' _ _ h
    omega
  · rintro n ⟨h1, h2, h3⟩
    refine ⟨n - skip, ⟨by omega, by omega, fun d hd => ?_⟩, by omega⟩
    obtain ⟨x, hx, hin⟩ := h3 d hd
    refine ⟨x, ?_, hin⟩
    unfold colEntry at hx ⊢
    rw [List.getElem?_drop, show skip + (n - skip) = n by omega]
    exact hx

end

/-- The loss of the first columns: 0 for two, then 1, 3 and 5. -/
example : (List.range 6).map (fun D => netLoss directions (Finset.range D)) = [0, 0, 0, 1, 3, 5] := by
  decide +kernel

/-- The hypotheses of `C99_net` are met: the first three columns, loss 1, halved in each column, blocks of 16: every
octant holds two of rows 16, ..., 31. -/
example : ∃ M : Mat ℚ, sobolSequence directions 5 32 3 = .ok M ∧ ∀ i : Nat → Nat, (∀ d ∈ ({0, 1, 2} : Finset Nat), i d < 2) →
    BlockCount M 4 1 {0, 1, 2} (fun _ => 1) i 2 := by
  obtain ⟨M, hM, -⟩ := C23_all_dimensions (α := ℚ) 5 32 3 (by norm_num) (by norm_num) (by norm_num) (by norm_num)
  refine ⟨M, hM, fun i hi => ?_⟩
  exact C99_net 5 32 3 (by norm_num) (by norm_num) (by norm_num) (by norm_num) M hM {0, 1, 2} (by simp)
    (fun _ => 1) 4 1 (by decide +kernel) (by norm_num) i (by simpa using hi)

set_option maxRecDepth 100000 in
/-- The loss cannot be left out: in columns 1 and 2, loss 1, none of the first four rows lies in `[0, 1/2) × [1/2, 1)`,
though one of them would have to. -/
example : sobolSequence (α := ℚ) directions 2 4 3 =
      .ok [[0, 0, 0], [1/2, 1/2, 1/2], [3/4, 1/4, 1/4], [1/4, 3/4, 3/4]] ∧
    BlockCount (α := ℚ) [[0, 0, 0], [1/2, 1/2, 1/2], [3/4, 1/4, 1/4], [1/4, 3/4, 3/4]] 2 0 {1, 2} (fun _ => 1)
      (fun d => d - 1) 0 := by
  refine ⟨by decide +kernel, ?_⟩
  unfold BlockCount
  rw [Set.ncard_eq_zero (Set.Finite.subset (Set.finite_Iio 4) fun n h => h.2.1)]
  ext n
  simp only [Set.mem_setOf_eq, Set.mem_empty_iff_false, iff_false, not_and]
  intro _ h2 hbox
  obtain ⟨x, hx, hx1, hx2⟩ := hbox 1 (by simp)
  obtain ⟨y, hy, hy1, hy2⟩ := hbox 2 (by simp)
  norm_num at hx1 hx2 hy1 hy2
  have h4 : n < 4 := h2
  interval_cases n <;> simp [colEntry] at hx hy <;> linarith

end SALib
