import Verif.Props.EnhancedOrthFit
import Verif.Props.EnhancedOrth

/-! # C123: enhanced HDMR of samples with independent inputs -/

set_option linter.unusedSectionVars false

namespace SALib

open Spec Finset

/-! ### The basis -/

theorem foldl_min_max (vs : List ℝ) (a b : ℝ) (hab : a ≤ b) (h : vs.foldl max b - vs.foldl min a = 0) :
    a = b ∧ ∀ v ∈ vs, v = a := by
  induction vs generalizing a b with
  | nil => exact ⟨by simp at h; linarith, by simp⟩
  | cons v vs ih =>
    rw [List.foldl_cons, List.foldl_cons] at h
    obtain ⟨h1, h2⟩ := ih (min a v) (max b v) ((min_le_left _ _).trans (hab.trans (le_max_left _ _))) h
    have e1 := min_le_left a v
    have e2 := min_le_right a v
    have e3 := le_max_left b v
    have e4 := le_max_right b v
    have hv : v = a := by linarith
    refine ⟨by linarith, fun w hw => ?_⟩
    rcases List.mem_cons.mp hw with rfl | hw
    · exact hv
    · rw [h2 w hw, hv, min_self]

theorem normColumn_inv (l c : List ℝ) (h : normColumn l = .ok c) : ∃ a b, b ≠ 0 ∧ c = l.map fun x => (x - a) / b := by
  cases l with
  | nil => simp [normColumn] at h
  | cons v vs =>
    unfold normColumn at h
    simp only [] at h
    by_cases h0 : vs.foldl max v - vs.foldl min v = 0
    · rw [if_pos h0] at h; cases h
    · rw [if_neg h0] at h
      exact ⟨_, _, h0, (Except.ok.inj h).symm⟩

theorem normColumn_exists (l : List ℝ) (h : 2 ≤ l.toFinset.card) :
    ∃ a b, b ≠ 0 ∧ normColumn l = .ok (l.map fun x => (x - a) / b) := by
  cases l with
  | nil => simp at h
  | cons v vs =>
    have h0 : vs.foldl max v - vs.foldl min v ≠ 0 := by
      intro h0
      have := (foldl_min_max vs v v le_rfl h0).2
      have hs : (v :: vs).toFinset ⊆ {v} := by
        intro w hw
        rcases List.mem_cons.mp (List.mem_toFinset.mp hw) with rfl | hw
        · simp
        · simp [this w hw]
      have := Finset.card_le_card hs
      simp only [Finset.card_singleton] at this
      omega
    refine ⟨vs.foldl min v, _, h0, ?_⟩
    unfold normColumn
    simp only []
    rw [if_neg h0]

theorem card_affine (l : List ℝ) (a b : ℝ) (hb : b ≠ 0) :
    (l.map fun x => (x - a) / b).toFinset.card = l.toFinset.card := by
  have : (l.map fun x => (x - a) / b).toFinset = l.toFinset.image fun x => (x - a) / b := by
    ext z; simp
  rw [this, Finset.card_image_of_injective]
  intro x y h
  have h := (div_left_inj' hb).mp h
  linarith

/-- The first-order columns are polynomials of the inputs, orthonormal and with average zero on the sample. -/
theorem ehFirst_inv (p d : Nat) (X : Mat ℝ) (C : Mat ℝ) (h : ehFirst p d X = .ok C) :
    ∃ φ : Nat → Nat → ℝ → ℝ,
      C = (List.range X.length).map (fun r => (List.range d).flatMap fun i => (List.range p).map fun j =>
        φ i j ((X.getD r []).getD i 0)) ∧
      ∀ i < d, ∀ j < p, ∑ r ∈ range X.length, φ i j ((X.getD r []).getD i 0) = 0 ∧
        ∀ l < p, ∑ r ∈ range X.length, φ i j ((X.getD r []).getD i 0) * φ i l ((X.getD r []).getD i 0) =
          if j = l then (X.length : ℝ) else 0 := by
  unfold ehFirst at h
  obtain ⟨cols, h1, h⟩ := pyBind_inv _ _ _ h
  obtain ⟨coeff, h2, h⟩ := pyBind_inv _ _ _ h
  have h := (Except.ok.inj h).symm
  have hcl : cols.length = d := by rw [((mapM_ok_iff _ _ _).mp h1).length_eq.symm, List.length_range]
  have hcl2 : coeff.length = d := by rw [((mapM_ok_iff _ _ _).mp h2).length_eq.symm, hcl]
  have hcol : ∀ i, ∃ g : ℝ → ℝ, i < d → cols[i]? = some (X.map fun row => g (row.getD i 0)) := by
    intro i
    by_cases hi : i < d
    · obtain ⟨c, hc1, hc2⟩ := mapM_range_inv _ d cols h1 i hi
      obtain ⟨a, b, -, rfl⟩ := normColumn_inv _ _ hc2
      exact ⟨fun x => (x - a) / b, fun _ => by rw [hc1, List.map_map]; rfl⟩
    · exact ⟨fun x => x, fun h => absurd h hi⟩
  choose g hg using hcol
  have hco : ∀ i < d, ∀ j < p, orthCoeffs (X.map fun row => g i (row.getD i 0)) j = some ((coeff.getD i []).getD j []) := by
    intro i hi j hj
    have h3 := ((mapM_ok_iff _ _ _).mp h2).get (i := i) (by omega) (by omega)
    obtain ⟨c, hc1, hc2⟩ := mapM_range_inv _ p _ h3 j hj
    have e1 : cols[i]'(by omega) = X.map fun row => g i (row.getD i 0) := by
      have := hg i hi
      rw [List.getElem?_eq_getElem (by omega)] at this
      exact Option.some.inj this
    have e2 : (coeff.getD i []).getD j [] = c := by
      rw [List.get_eq_getElem] at hc1
      rw [List.getD, List.getD, List.getElem?_eq_getElem (show i < coeff.length by omega), Option.getD_some, hc1,
        Option.getD_some]
    rw [List.get_eq_getElem, e1] at hc2
    rw [e2]
    cases ho : orthCoeffs (X.map fun row => g i (row.getD i 0)) j with
    | none => rw [ho] at hc2; cases hc2
    | some c' => rw [ho] at hc2; rw [Except.ok.inj hc2]
  refine ⟨fun i j x => npPolyval ((coeff.getD i []).getD j []) (g i x), ?_, ?_⟩
  · rw [h]
    refine List.map_congr_left fun r hr => ?_
    have hr := List.mem_range.mp hr
    unfold ehFirstCols
    refine List.flatMap_congr fun i hi => ?_
    have hi := List.mem_range.mp hi
    refine List.map_congr_left fun j _ => ?_
    congr 1
    rw [List.getD, List.getElem?_map, hg i hi, Option.map_some, Option.getD_some]
    simp [List.getD, hr]
  · intro i hi j hj
    have hX : ∀ f : ℝ → ℝ, sampleMean (X.map fun row => g i (row.getD i 0)) f =
        (∑ r ∈ range X.length, f (g i ((X.getD r []).getD i 0))) / (X.length : ℝ) := by
      intro f
      unfold sampleMean
      rw [List.length_map, List.map_map]
      congr 1
      rw [← map_sum_range (fun row => f (g i (row.getD i 0))) X X.length rfl]
      rfl
    by_cases hN : X.length = 0
    · simp [hN]
    have hNp : (X.length : ℝ) ≠ 0 := by exact_mod_cast hN
    refine ⟨?_, fun l hl => ?_⟩
    · have := (C82_orthonormal _ j j _ _ (hco i hi j hj) (hco i hi j hj)).1
      rw [hX, div_eq_zero_iff] at this
      exact this.resolve_right hNp
    · have := (C82_orthonormal _ j l _ _ (hco i hi j hj) (hco i hi l hl)).2
      rw [hX (fun x => npPolyval ((coeff.getD i []).getD j []) x * npPolyval ((coeff.getD i []).getD l []) x),
        div_eq_iff hNp] at this
      rw [this]
      split <;> simp

/-- **C123**: the basis exists exactly when every input takes more than `poly_order` different values in the sample. -/
theorem C123_basis (p d : Nat) (hp : 1 ≤ p) (X : Mat ℝ) :
    (∃ C, ehFirst p d X = .ok C) ↔ ∀ i < d, p + 1 ≤ (X.map fun row => row.getD i 0).toFinset.card := by
  constructor
  · rintro ⟨C, h⟩ i hi
    unfold ehFirst at h
    obtain ⟨cols, h1, h⟩ := pyBind_inv _ _ _ h
    obtain ⟨coeff, h2, -⟩ := pyBind_inv _ _ _ h
    obtain ⟨c, hc1, hc2⟩ := mapM_range_inv _ d cols h1 i hi
    obtain ⟨a, b, hb, rfl⟩ := normColumn_inv _ _ hc2
    have hcl : i < cols.length := by
      rw [((mapM_ok_iff _ _ _).mp h1).length_eq.symm, List.length_range]; exact hi
    have h3 := ((mapM_ok_iff _ _ _).mp h2).get (i := i) hcl (by rw [((mapM_ok_iff _ _ _).mp h2).length_eq.symm]; exact hcl)
    obtain ⟨c, -, hc4⟩ := mapM_range_inv _ p _ h3 (p - 1) (by omega)
    rw [List.get_eq_getElem] at hc4
    rw [List.getElem?_eq_getElem hcl] at hc1
    rw [Option.some.inj hc1] at hc4
    have hs : (orthCoeffs ((X.map fun row => row.getD i 0).map fun x => (x - a) / b) (p - 1)).isSome := by
      cases ho : orthCoeffs ((X.map fun row => row.getD i 0).map fun x => (x - a) / b) (p - 1) with
      | none => rw [ho] at hc4; cases hc4
      | some c' => rfl
    have := (C82_defined _ _).mp hs
    rw [card_affine _ a b hb] at this
    omega
  · intro h
    have hcol : ∀ i, ∃ c : List ℝ, i < d → normColumn (X.map fun row => row.getD i 0) = .ok c ∧ p + 1 ≤ c.toFinset.card := by
      intro i
      by_cases hi : i < d
      · obtain ⟨a, b, hb, hn⟩ := normColumn_exists _ (le_trans (by omega) (h i hi))
        exact ⟨_, fun _ => ⟨hn, by rw [card_affine _ a b hb]; exact h i hi⟩⟩
      · exact ⟨[], fun h => absurd h hi⟩
    choose c hc using hcol
    obtain ⟨cols, h1, -⟩ := mapM_exists_ok (fun i => normColumn (X.map fun row => row.getD i 0)) (List.range d)
      fun i hi => ⟨c i, (hc i (List.mem_range.mp hi)).1⟩
    have hcard : ∀ xs ∈ cols, p + 1 ≤ xs.toFinset.card := by
      intro xs hxs
      obtain ⟨i, hi, rfl⟩ := List.mem_iff_getElem.mp hxs
      have hi' : i < d := by rwa [((mapM_ok_iff _ _ _).mp h1).length_eq.symm, List.length_range] at hi
      obtain ⟨b, hb1, hb2⟩ := mapM_range_inv _ d cols h1 i hi'
      rw [(hc i hi').1] at hb2
      rw [List.getElem?_eq_getElem hi] at hb1
      rw [Option.some.inj hb1, ← Except.ok.inj hb2]
      exact (hc i hi').2
    obtain ⟨coeff, h2, -⟩ := mapM_exists_ok (fun xs => (List.range p).mapM fun j => nanRaises (orthCoeffs xs j)) cols
      fun xs hxs => by
        obtain ⟨y, hy, -⟩ := mapM_exists_ok (fun j => nanRaises (orthCoeffs xs j)) (List.range p) fun j hj => by
          have hs := (C82_defined xs j).mpr (by have := hcard xs hxs; have := List.mem_range.mp hj; omega)
          obtain ⟨c, hc⟩ := Option.isSome_iff_exists.mp hs
          exact ⟨c, by rw [hc]; rfl⟩
        exact ⟨y, hy⟩
    unfold ehFirst
    rw [h1, pyBind_ok, h2, pyBind_ok]
    exact ⟨_, rfl⟩

/-! ### The columns as products of functions of the inputs -/

/-- Which polynomial of every input a column has as a factor. -/
abbrev ColKey := Nat → Option Nat

def keyOne (i k : Nat) : ColKey := fun n => if n = i then some k else none

def keyTwo (i k j l : Nat) : ColKey := fun n => if n = i then some k else if n = j then some l else none

def factorOf (φ : Nat → Nat → ℝ → ℝ) (i : Nat) : Option Nat → ℝ → ℝ
  | none => fun _ => 1
  | some k => φ i k

def colKeys (p d : Nat) : List ColKey :=
  ((List.range d).flatMap fun i => (List.range p).map fun k => keyOne i k) ++
    (combinations 2 (List.range d)).flatMap fun c => (List.range p).flatMap fun k => (List.range p).map fun l =>
      keyTwo (c.getD 0 0) k (c.getD 1 0) l

theorem prod_keyOne (φ : Nat → Nat → ℝ → ℝ) (d i k : Nat) (hi : i < d) (x : Nat → ℝ) :
    ∏ n ∈ range d, factorOf φ n (keyOne i k n) (x n) = φ i k (x i) := by
  rw [Finset.prod_eq_single_of_mem i (mem_range.mpr hi)]
  · simp [keyOne, factorOf]
  · intro n _ hn
    simp [keyOne, hn, factorOf]

theorem prod_keyTwo (φ : Nat → Nat → ℝ → ℝ) (d i k j l : Nat) (hi : i < d) (hj : j < d) (hij : i ≠ j) (x : Nat → ℝ) :
    ∏ n ∈ range d, factorOf φ n (keyTwo i k j l n) (x n) = φ i k (x i) * φ j l (x j) := by
  rw [Finset.prod_eq_mul_of_mem i j (mem_range.mpr hi) (mem_range.mpr hj) hij]
  · simp [keyTwo, factorOf, hij.symm]
  · intro n _ hn
    simp [keyTwo, hn.1, hn.2, factorOf]

theorem pair_of_mem (d : Nat) (c : List Nat) (hc : c ∈ combinations 2 (List.range d)) :
    ∃ i j, c = [i, j] ∧ i < j ∧ j < d := by
  obtain ⟨h1, h2, h3⟩ := combinations_range_sorted d 2 c hc
  match c, h3 with
  | [i, j], _ =>
    exact ⟨i, j, rfl, by simpa using h1, h2 j (by simp)⟩

theorem colKeys_nodup (p d : Nat) : (colKeys p d).Nodup := by
  unfold colKeys
  rw [List.nodup_append]
  refine ⟨?_, ?_, ?_⟩
  · rw [List.nodup_flatMap]
    refine ⟨fun i _ => ?_, ?_⟩
    · refine List.Nodup.map (fun k k' h => ?_) List.nodup_range
      have := congrFun h i
      simpa [keyOne] using this
    · refine List.nodup_range.imp ?_
      intro i j hij f h1 h2
      obtain ⟨k, -, rfl⟩ := List.mem_map.mp h1
      obtain ⟨l, -, h⟩ := List.mem_map.mp h2
      have := congrFun h i
      simp [keyOne, hij] at this
  · rw [List.nodup_flatMap]
    refine ⟨fun c hc => ?_, ?_⟩
    · obtain ⟨i, j, rfl, hij, -⟩ := pair_of_mem d c hc
      simp only [List.getD_cons_zero, List.getD_cons_succ]
      rw [List.nodup_flatMap]
      refine ⟨fun k _ => ?_, ?_⟩
      · refine List.Nodup.map (fun l l' h => ?_) List.nodup_range
        have := congrFun h j
        simpa [keyTwo, hij.ne'] using this
      · refine List.nodup_range.imp ?_
        intro k k' hk f h1 h2
        obtain ⟨l, -, rfl⟩ := List.mem_map.mp h1
        obtain ⟨l', -, h⟩ := List.mem_map.mp h2
        have := congrFun h i
        simp [keyTwo] at this
        exact hk this.symm
    · have hnd : (combinations 2 (List.range d)).Pairwise (· ≠ ·) :=
        (combinations_lex 2 (List.range d) List.pairwise_lt_range).imp fun {a b} h (he : a = b) => lex_irrefl a (by
          rw [← he] at h
          exact h)
      refine hnd.imp_of_mem ?_
      intro c c' hc hc' hne f h1 h2
      obtain ⟨i, j, rfl, hij, -⟩ := pair_of_mem d c hc
      obtain ⟨i', j', rfl, hij', -⟩ := pair_of_mem d c' hc'
      obtain ⟨k, -, h1⟩ := List.mem_flatMap.mp h1
      obtain ⟨l, -, rfl⟩ := List.mem_map.mp h1
      obtain ⟨k', -, h2⟩ := List.mem_flatMap.mp h2
      obtain ⟨l', -, h⟩ := List.mem_map.mp h2
      simp only [List.getD_cons_zero, List.getD_cons_succ] at h
      have e : ∀ n, (n = i' ∨ n = j') ↔ (n = i ∨ n = j) := by
        intro n
        have := congrArg Option.isSome (congrFun h n)
        unfold keyTwo at this
        by_cases a : n = i' <;> by_cases b : n = j' <;> by_cases c : n = i <;> by_cases d : n = j <;>
          simp [a, b, c, d] at this ⊢ <;> simp_all
      apply hne
      have e1 := (e i).mpr (Or.inl rfl)
      have e2 := (e j).mpr (Or.inr rfl)
      have e3 := (e i').mp (Or.inl rfl)
      have e4 := (e j').mp (Or.inr rfl)
      have : i = i' ∧ j = j' := by omega
      rw [this.1, this.2]
  · intro f h1 f' h2 he
    subst he
    obtain ⟨i, -, h1⟩ := List.mem_flatMap.mp h1
    obtain ⟨k, -, rfl⟩ := List.mem_map.mp h1
    obtain ⟨c, hc, h2⟩ := List.mem_flatMap.mp h2
    obtain ⟨i', j', rfl, hij, -⟩ := pair_of_mem d c hc
    obtain ⟨k', -, h2⟩ := List.mem_flatMap.mp h2
    obtain ⟨l', -, h⟩ := List.mem_map.mp h2
    simp only [List.getD_cons_zero, List.getD_cons_succ] at h
    have e1 := congrFun h i'
    have e2 := congrFun h j'
    by_cases a : i' = i
    · have : j' ≠ i := by omega
      simp [keyTwo, keyOne, hij.ne', this] at e2
    · simp [keyTwo, keyOne, a] at e1

theorem colKeys_range (p d : Nat) (f : ColKey) (hf : f ∈ colKeys p d) :
    (∀ n, d ≤ n → f n = none) ∧ (∀ n k, f n = some k → k < p) ∧ ∃ n < d, f n ≠ none := by
  unfold colKeys at hf
  rcases List.mem_append.mp hf with h | h
  · obtain ⟨i, hi, h⟩ := List.mem_flatMap.mp h
    obtain ⟨k, hk, rfl⟩ := List.mem_map.mp h
    have hi := List.mem_range.mp hi
    have hk := List.mem_range.mp hk
    refine ⟨fun n hn => ?_, fun n k' h => ?_, i, hi, by simp [keyOne]⟩
    · unfold keyOne; rw [if_neg (by omega)]
    · unfold keyOne at h
      split at h
      · rw [← Option.some.inj h]; exact hk
      · cases h
  · obtain ⟨c, hc, h⟩ := List.mem_flatMap.mp h
    obtain ⟨i, j, rfl, hij, hj⟩ := pair_of_mem d c hc
    obtain ⟨k, hk, h⟩ := List.mem_flatMap.mp h
    obtain ⟨l, hl, rfl⟩ := List.mem_map.mp h
    have hl := List.mem_range.mp hl
    have hk := List.mem_range.mp hk
    simp only [List.getD_cons_zero, List.getD_cons_succ]
    refine ⟨fun n hn => ?_, fun n k' h => ?_, i, by omega, by simp [keyTwo]⟩
    · unfold keyTwo; rw [if_neg (by omega), if_neg (by omega)]
    · unfold keyTwo at h
      split at h
      · rw [← Option.some.inj h]; exact hk
      · split at h
        · rw [← Option.some.inj h]; exact hl
        · cases h

theorem colKeys_length (p d : Nat) : (colKeys p d).length = d * p + d.choose 2 * p ^ 2 := by
  unfold colKeys
  rw [List.length_append, List.length_flatMap, List.length_flatMap]
  simp only [List.length_map, List.length_range, List.length_flatMap, List.map_const', List.sum_replicate_nat,
    length_combinations]
  ring

/-- Every column of the basis matrix is a product of polynomials of different inputs. -/
theorem basisRow_keys (p d : Nat) (φ : Nat → Nat → ℝ → ℝ) (x : Nat → ℝ) :
    ehBasisRow p d 2 false ((List.range d).flatMap fun i => (List.range p).map fun j => φ i j (x i)) =
      (colKeys p d).map fun f => ∏ n ∈ range d, factorOf φ n (f n) (x n) := by
  set b0 := (List.range d).flatMap fun i => (List.range p).map fun j => φ i j (x i) with hb0
  have hlen : b0.length = d * p := by
    rw [hb0, List.length_flatMap]
    simp only [List.length_map, List.length_range, List.map_const', List.sum_replicate_nat]
  have hphi : ∀ i < d, phi p b0 i = (List.range p).map fun j => φ i j (x i) := by
    intro i hi
    rw [← phi_eq p d i b0 hlen hi, List.range'_eq_map_range, List.map_map]
    refine List.map_congr_left fun j hj => ?_
    have hj := List.mem_range.mp hj
    simp only [Function.comp]
    rw [hb0, getD_flatMap_const p d i j _ (by simp) hi hj]
    simp [List.getD, hj]
  rw [C80_layout_partial p d 2 false b0 hlen (Or.inl (by norm_num))]
  unfold hdmrTerms colKeys
  rw [show hdmrC3 d 2 = [] by simp [hdmrC3], show hdmrC2 d 2 = combinations 2 (List.range d) by simp [hdmrC2], List.append_nil,
    List.map_append, List.flatten_append, List.map_append]
  congr 1
  · rw [List.map_map, ← List.flatMap_def, List.map_flatMap]
    refine List.flatMap_congr fun i hi => ?_
    have hi := List.mem_range.mp hi
    simp only [Function.comp, termBlock]
    rw [hphi i hi, List.map_map]
    exact List.map_congr_left fun k _ => (prod_keyOne φ d i k hi x).symm
  · rw [← List.flatMap_def, List.map_flatMap]
    refine List.flatMap_congr fun c hc => ?_
    obtain ⟨i, j, rfl, hij, hj⟩ := pair_of_mem d c hc
    simp only [termBlock, tensor, List.getD_cons_zero, List.getD_cons_succ]
    rw [hphi i (by omega), hphi j hj, List.map_flatMap]
    simp only [Bool.false_eq_true, if_false, List.nil_append, List.map_cons, List.map_nil, mul_one]
    rw [List.flatMap_map]
    refine List.flatMap_congr fun k _ => ?_
    rw [List.map_map, List.flatMap_map, ← List.map_eq_flatMap, List.map_map]
    exact List.map_congr_left fun l _ => (prod_keyTwo φ d i k j l (by omega) hj hij.ne x).symm

/-- **C123**: independent inputs make all columns of the basis matrix orthonormal, with average zero. -/
theorem C123_orthonormal (p d : Nat) (X : Mat ℝ) (hN : 0 < X.length) (hind : IndependentColumns d X) (C : Mat ℝ)
    (h : ehFirst p d X = .ok C) :
    Shape X.length (d * p + d.choose 2 * p ^ 2) (C.map (ehBasisRow p d 2 false)) ∧
      OrthonormalCols X.length (d * p + d.choose 2 * p ^ 2) (C.map (ehBasisRow p d 2 false)) ∧
      ∀ c < d * p + d.choose 2 * p ^ 2, ∑ r ∈ range X.length, ((C.map (ehBasisRow p d 2 false)).getD r []).getD c 0 = 0 := by
  obtain ⟨φ, rfl, horth⟩ := ehFirst_inv p d X C h
  have hNp : (X.length : ℝ) ≠ 0 := by exact_mod_cast hN.ne'
  have hrow : ((List.range X.length).map (fun r => (List.range d).flatMap fun i => (List.range p).map fun j =>
        φ i j ((X.getD r []).getD i 0))).map (ehBasisRow p d 2 false) =
      (List.range X.length).map fun r => (colKeys p d).map fun f => ∏ n ∈ range d, factorOf φ n (f n) ((X.getD r []).getD n 0) := by
    rw [List.map_map]
    refine List.map_congr_left fun r _ => ?_
    exact basisRow_keys p d φ fun i => (X.getD r []).getD i 0
  rw [hrow]
  have hl := colKeys_length p d
  have hget : ∀ r < X.length, ∀ c (hc : c < (colKeys p d).length),
      (((List.range X.length).map fun r => (colKeys p d).map fun f =>
        ∏ n ∈ range d, factorOf φ n (f n) ((X.getD r []).getD n 0)).getD r []).getD c 0 =
      ∏ n ∈ range d, factorOf φ n ((colKeys p d)[c] n) ((X.getD r []).getD n 0) := by
    intro r hr c hc
    simp only [List.getD, List.getElem?_map, List.getElem?_range hr, Option.map_some, Option.getD_some,
      List.getElem?_eq_getElem hc]
  have hpair : ∀ i < d, ∀ a b : Option Nat, (∀ k, a = some k → k < p) → (∀ k, b = some k → k < p) →
      (∑ r ∈ range X.length, factorOf φ i a ((X.getD r []).getD i 0) * factorOf φ i b ((X.getD r []).getD i 0)) /
        (X.length : ℝ) = if a = b then 1 else 0 := by
    intro i hi a b ha hb
    match a, b with
    | none, none => simp [factorOf, hNp]
    | none, some k =>
      simp only [factorOf, one_mul]
      rw [(horth i hi k (hb k rfl)).1]
      simp
    | some k, none =>
      simp only [factorOf, mul_one]
      rw [(horth i hi k (ha k rfl)).1]
      simp
    | some k, some l =>
      simp only [factorOf]
      rw [(horth i hi k (ha k rfl)).2 l (hb l rfl)]
      by_cases hkl : k = l
      · rw [if_pos hkl, if_pos (by rw [hkl]), div_self hNp]
      · rw [if_neg hkl, if_neg (by simpa using hkl), zero_div]
  have hprod : ∀ f g : ColKey, (∀ n k, f n = some k → k < p) → (∀ n k, g n = some k → k < p) →
      ∑ r ∈ range X.length, (∏ n ∈ range d, factorOf φ n (f n) ((X.getD r []).getD n 0)) *
        (∏ n ∈ range d, factorOf φ n (g n) ((X.getD r []).getD n 0)) =
      (X.length : ℝ) * ∏ n ∈ range d, if f n = g n then 1 else 0 := by
    intro f g hf hg
    have := hind fun n x => factorOf φ n (f n) x * factorOf φ n (g n) x
    rw [div_eq_iff hNp, Finset.prod_congr rfl fun n hn => hpair n (mem_range.mp hn) (f n) (g n) (hf n) (hg n)] at this
    simp only [Finset.prod_mul_distrib] at this
    rw [this, mul_comm]
  refine ⟨⟨by simp, ?_⟩, ?_, ?_⟩
  · intro row hrow
    obtain ⟨r, -, rfl⟩ := List.mem_map.mp hrow
    rw [List.length_map, hl]
  · intro a ha b hb
    rw [← hl] at ha hb
    rw [sum_congr rfl fun r hr => by rw [hget r (mem_range.mp hr) a ha, hget r (mem_range.mp hr) b hb]]
    have ka := colKeys_range p d _ (List.getElem_mem ha)
    have kb := colKeys_range p d _ (List.getElem_mem hb)
    rw [hprod _ _ ka.2.1 kb.2.1]
    by_cases hab : a = b
    · subst hab
      simp
    · rw [if_neg hab]
      have hne : (colKeys p d)[a] ≠ (colKeys p d)[b] := fun he => hab ((colKeys_nodup p d).getElem_inj_iff.mp he)
      obtain ⟨n, hn⟩ := Function.ne_iff.mp hne
      have hnd : n < d := by
        by_contra hnd
        exact hn (by rw [ka.1 n (by omega), kb.1 n (by omega)])
      rw [Finset.prod_eq_zero (mem_range.mpr hnd) (by rw [if_neg hn]), mul_zero]
  · intro c hc
    rw [← hl] at hc
    have kc := colKeys_range p d _ (List.getElem_mem hc)
    have := hprod (colKeys p d)[c] (fun _ => none) kc.2.1 (by simp)
    obtain ⟨n, hn, hn'⟩ := kc.2.2
    rw [Finset.prod_eq_zero (mem_range.mpr hn) (by rw [if_neg hn']), mul_zero] at this
    refine Eq.trans (sum_congr rfl fun r hr => ?_) this
    rw [hget r (mem_range.mp hr) c hc]
    simp [factorOf]

/-! ### The analysis -/

theorem pickRows_range (B : Mat ℝ) : pickRows (List.range B.length) B = B := by
  apply List.ext_getElem
  · simp [pickRows]
  · intro n h1 h2
    simp [pickRows, List.getD, h2]

theorem takeIdx_range (Y : List ℝ) : takeIdx Y (List.range Y.length) = Y := by
  apply List.ext_getElem
  · simp [takeIdx]
  · intro n h1 h2
    simp [takeIdx, List.getD, h2]

/-- **C123**: one fit to a sample with independent inputs.  Whenever the settings are accepted and every input takes more than
`poly_order` values the analysis finishes; it reports for every term the sum of the squares of the projections of the output on
its columns over the variance of the output, times `N / (N - 1)`, none of it as due to correlation, whatever the penalty and the
number of passes; and the indices add up to at most `N / (N - 1)`. -/
theorem C123_independent (sqrt : ℝ → ℝ) (hs : sqrt 0 = 0) (mult : ℝ) (solve : Mat ℝ → List ℝ → Py (List ℝ))
    (hsolve : SolvesSystems solve) (hreg : SolvesRegular solve)
    (morph : Mat ℝ → List ℝ → Py (List ℝ)) (fppf : Nat → Nat → Option ℝ) (perm : Nat → List Nat)
    (pb : EhProblem ℝ) (X : Mat ℝ) (d : Nat) (xb : List (List ℝ)) (Y : List ℝ) (p : Nat)
    (subset : Option Nat) (maxIter : Nat) (lam alpha : ℝ) (hd : 0 < d)
    (ha : EhAccepted pb X.length d Y.length xb 2 p 1 subset maxIter lam alpha false)
    (hperm : ∀ k < 1, (perm k).Perm (List.range X.length))
    (hval : ∀ i < d, p + 1 ≤ (X.map fun row => row.getD i 0).toFinset.card) (hind : IndependentColumns d X)
    (hY : ∃ a < X.length, ∃ b < X.length, Y.getD a 0 ≠ Y.getD b 0) :
    ∃ C r, ∃ S : Nat → ℝ, ehFirst p d X = .ok C ∧
      ehAnalyze sqrt mult solve morph fppf perm (ehFirst p d) pb X d xb Y 2 p 1 (subset.map fun r : Nat => (r : Int)) maxIter lam
        alpha false false = .ok (r, none) ∧
      (∀ j < hdmrN d 2, S j = (X.length : ℝ) / ((X.length : ℝ) - 1) * ((∑ k ∈ range (columnsOf d p false j),
          project X.length (C.map (ehBasisRow p d 2 false)) (fun i => Y.getD i 0) (firstColumn d p false j + k) ^ 2) /
            (devSum X.length (fun i => Y.getD i 0) (fun i => Y.getD i 0) / (X.length : ℝ))) ∧
        r.S[j]? = some (some (S j)) ∧ r.Sa[j]? = some (some (S j)) ∧ r.Sb[j]? = some (some 0)) ∧
      r.S.length = hdmrN d 2 ∧ ∑ j ∈ range (hdmrN d 2), S j ≤ (X.length : ℝ) / ((X.length : ℝ) - 1) := by
  have hN := ha.rows
  have hYl := ha.outputs
  obtain ⟨C, hC⟩ := (C123_basis p d ha.degree.1 X).mpr hval
  obtain ⟨hshape, horth, h0⟩ := C123_orthonormal p d X (by omega) hind C hC
  set B := C.map (ehBasisRow p d 2 false) with hB
  have hrows : hdmrRows perm X.length 1 X.length 0 = List.range X.length := by simp [hdmrRows]
  have hpick : pickRows (List.range X.length) B = B := by
    have := pickRows_range B
    rwa [hshape.1] at this
  have htake : takeIdx Y (List.range X.length) = Y := by
    have := takeIdx_range Y
    rwa [hYl] at this
  obtain ⟨x, hx1, hx2, hx3⟩ := C123_projection solve hsolve hreg X.length d p (by omega) lam ha.penalty.1 maxIter B hshape horth
    (centre Y) (by simp [centre, hYl])
  have hsol : ehSolution solve morph X.length d p 2 lam maxIter false B (centre Y) = .ok x := by
    unfold ehSolution
    rw [if_neg (by simp), hx1]
  have hproj : ∀ c < d * p + d.choose 2 * p ^ 2, x.getD c 0 = project X.length B (fun i => Y.getD i 0) c := by
    intro c hc
    rw [hx3 c hc]
    unfold project
    congr 1
    beta_reduce
    rw [sum_congr rfl fun r hr => by
      rw [centre_getD Y r (by rw [hYl]; exact mem_range.mp hr), mul_add], sum_add_distrib, ← sum_mul, h0 c hc, zero_mul, add_zero]
  obtain ⟨res, hres⟩ := (C123_finishes sqrt mult solve morph fppf perm (ehFirst p d) pb X d xb Y 2 p 1 subset maxIter lam alpha
    false false hd).mpr ⟨rfl, ha, C, hC, fun k hk => ⟨x, by
      obtain rfl : k = 0 := by omega
      rw [if_pos rfl, hrows, hpick, htake]
      exact hsol⟩⟩
  obtain ⟨C', terms, r, x', S, Sa, Sb, hC', hr, -, -, hfit, hrep, -, -, -⟩ := C123_results sqrt hs mult solve morph fppf perm
    (ehFirst p d) pb X d xb Y 2 p 1 subset maxIter lam alpha false false hd res hres hperm X.length (by rw [if_pos rfl])
    (fun k hk => by
      obtain rfl : k = 0 := by omega
      obtain ⟨a, ha, b, hb, hab⟩ := hY
      rw [hrows]
      exact ⟨a, List.mem_range.mpr ha, b, List.mem_range.mpr hb, hab⟩)
  rw [hC] at hC'
  obtain rfl := Except.ok.inj hC'
  obtain ⟨hf1, hf2⟩ := hfit 0 (by norm_num)
  rw [hrows, hpick, htake, hsol] at hf1
  rw [hrows, hpick] at hf2
  obtain rfl := Except.ok.inj hf1
  have hsh : ShareOn (hdmrN d 2) X.length (fun i => Y.getD i 0) (termValue d p false B (x' 0)) (S · 0) (Sa · 0) (Sb · 0) := by
    intro j hj
    have e := hf2 j hj
    have hg : ∀ i < X.length, Y.getD ((List.range X.length).getD i 0) 0 = Y.getD i 0 := by
      intro i hi
      simp [List.getD, hi]
    rwa [devSum_congr X.length _ _ _ _ (fun _ _ => rfl) hg, devSum_congr X.length _ _ _ _ hg hg] at e
  obtain ⟨a, ha', b, hb', hab⟩ := hY
  obtain ⟨s1, s2, -⟩ := C123_shares X.length d p (by omega) B horth h0 (fun i => Y.getD i 0)
    (devSum_self_pos X.length _ a b ha' hb' hab) (x' 0) hproj _ _ _ hsh
  have hm : ∀ f : Nat → ℝ, meanOver 1 f = f 0 := fun f => by simp [meanOver]
  refine ⟨C, r, (S · 0), hC, by rw [hres, hr]; rfl, fun j hj => ⟨(s1 j hj).1, ?_, ?_, ?_⟩, hrep.all.1, s2⟩
  · rw [(hrep.all.2.2 j hj).1, hm]
  · rw [(hrep.partA.2.2 j hj).1, hm, (s1 j hj).2.1]
  · rw [(hrep.partB.2.2 j hj).1, hm, (s1 j hj).2.2]

/-! ### Grids -/

theorem sum_range_rows (X : Mat ℝ) (f : List ℝ → ℝ) : ∑ r ∈ range X.length, f (X.getD r []) = (X.map f).sum := by
  induction X with
  | nil => simp
  | cons x X ih =>
    rw [List.length_cons, Finset.sum_range_succ', List.map_cons, List.sum_cons, ← ih, add_comm]
    rfl

theorem gridOf_sum (ls : List (List ℝ)) : ∀ f : Nat → ℝ → ℝ,
    ((gridOf ls).map fun row => ∏ i ∈ range ls.length, f i (row.getD i 0)).sum =
      ∏ i ∈ range ls.length, ((ls.getD i []).map (f i)).sum := by
  induction ls with
  | nil => intro f; simp [gridOf]
  | cons l ls ih =>
    intro f
    have h1 : ∀ v : ℝ, (((gridOf ls).map (v :: ·)).map fun row => ∏ i ∈ range (l :: ls).length, f i (row.getD i 0)).sum =
        f 0 v * ∏ i ∈ range ls.length, ((ls.getD i []).map (f (i + 1))).sum := by
      intro v
      rw [List.map_map, ← ih fun i => f (i + 1), ← List.sum_map_mul_left]
      congr 1
      refine List.map_congr_left fun row _ => ?_
      simp only [Function.comp, List.length_cons]
      rw [Finset.prod_range_succ', mul_comm]
      rfl
    rw [gridOf, List.map_flatMap, List.flatMap_def, List.sum_flatten, List.map_map]
    simp only [Function.comp_def, h1]
    rw [List.sum_map_mul_right, List.length_cons, Finset.prod_range_succ', mul_comm]
    rfl

theorem gridOf_length (ls : List (List ℝ)) : (gridOf ls).length = (ls.map List.length).prod := by
  induction ls with
  | nil => simp [gridOf]
  | cons l ls ih => simp [gridOf, List.length_flatMap, ih]

/-- **C123**: the inputs of a full grid are independent. -/
theorem C123_grid (ls : List (List ℝ)) (hne : ∀ l ∈ ls, l ≠ []) : IndependentColumns ls.length (gridOf ls) := by
  intro f
  set d := ls.length with hd
  have hlen : ((gridOf ls).length : ℝ) = ∏ i ∈ range d, ((ls.getD i []).length : ℝ) := by
    have := gridOf_sum ls fun _ _ => 1
    simpa using this
  have hpos : ∀ i ∈ range d, ((ls.getD i []).length : ℝ) ≠ 0 := by
    intro i hi
    have hi := mem_range.mp hi
    rw [List.getD, List.getElem?_eq_getElem hi, Option.getD_some]
    have := List.length_pos_iff.mpr (hne _ (List.getElem_mem hi))
    exact_mod_cast this.ne'
  have hall := Finset.prod_ne_zero_iff.mpr hpos
  rw [sum_range_rows (gridOf ls) fun row => ∏ i ∈ range d, f i (row.getD i 0), gridOf_sum, hlen, ← Finset.prod_div_distrib]
  refine Finset.prod_congr rfl fun i hi => ?_
  rw [sum_range_rows (gridOf ls) fun row => f i (row.getD i 0)]
  have h1 := gridOf_sum ls fun n x => if n = i then f i x else 1
  have e1 : ∀ row : List ℝ, ∏ n ∈ range ls.length, (if n = i then f i (row.getD n 0) else 1) = f i (row.getD i 0) := by
    intro row
    rw [Finset.prod_eq_single_of_mem i hi]
    · simp
    · intro n _ hn
      rw [if_neg hn]
  simp only [e1] at h1
  rw [h1, ← Finset.mul_prod_erase _ _ hi, ← Finset.mul_prod_erase (range d) (fun i => ((ls.getD i []).length : ℝ)) hi]
  have e2 : ∏ n ∈ (range ls.length).erase i, ((ls.getD n []).map fun x => if n = i then f i x else 1).sum =
      ∏ n ∈ (range d).erase i, ((ls.getD n []).length : ℝ) := by
    refine Finset.prod_congr rfl fun n hn => ?_
    rw [show (fun x : ℝ => if n = i then f i x else 1) = fun _ => 1 by
      funext x; rw [if_neg (ne_of_mem_erase hn)]]
    simp
  rw [e2]
  simp only [if_true]
  have h3 : ∏ n ∈ (range d).erase i, ((ls.getD n []).length : ℝ) ≠ 0 :=
    Finset.prod_ne_zero_iff.mpr fun n hn => hpos n (mem_of_mem_erase hn)
  have h4 := hpos i hi
  field_simp

/-! ### A case: a grid of 20 x 20 points -/

/-- A solver. -/
noncomputable def solveExactly (A : Mat ℝ) (b : List ℝ) : Py (List ℝ) :=
  open Classical in
  if h : ∃ x : List ℝ, x.length = b.length ∧
      ∀ i < b.length, ∑ j ∈ range b.length, (A.getD i []).getD j 0 * x.getD j 0 = b.getD i 0 then .ok h.choose
  else .error .valueError

theorem solveExactly_solves : SolvesSystems solveExactly := by
  intro A b w x _ hb h
  unfold solveExactly at h
  split at h
  · rename_i he
    rw [← Except.ok.inj h, ← hb]
    exact he.choose_spec
  · cases h

theorem solveExactly_regular : SolvesRegular solveExactly := by
  intro A b w hA _ hb hreg
  let L : (Fin w → ℝ) →ₗ[ℝ] (Fin w → ℝ) := Matrix.mulVecLin (Matrix.of fun i j : Fin w => (A.getD i []).getD j 0)
  have hinj : Function.Injective L := by
    rw [← LinearMap.ker_eq_bot, LinearMap.ker_eq_bot']
    intro v hv
    have := hreg (fun j => if h : j < w then v ⟨j, h⟩ else 0) (fun i hi => by
      have := congrFun hv ⟨i, hi⟩
      simp only [L, Matrix.mulVecLin_apply, Matrix.mulVec, dotProduct, Matrix.of_apply, Pi.zero_apply] at this
      rw [Finset.sum_range]
      simpa using this)
    funext j
    have := this j j.2
    simpa using this
  obtain ⟨v, hv⟩ := (LinearMap.injective_iff_surjective.mp hinj) fun i => b.getD i 0
  have he : ∃ x : List ℝ, x.length = b.length ∧
      ∀ i < b.length, ∑ j ∈ range b.length, (A.getD i []).getD j 0 * x.getD j 0 = b.getD i 0 := by
    refine ⟨List.ofFn v, by rw [List.length_ofFn, hb], fun i hi => ?_⟩
    rw [hb] at hi ⊢
    have := congrFun hv ⟨i, hi⟩
    simp only [L, Matrix.mulVecLin_apply, Matrix.mulVec, dotProduct, Matrix.of_apply] at this
    rw [Finset.sum_range, ← this]
    refine Finset.sum_congr rfl fun j _ => ?_
    simp [List.getD]
  exact ⟨_, by unfold solveExactly; rw [dif_pos he]⟩

/-- The values of an input. -/
noncomputable def gridLevels : List ℝ := (List.range 20).map fun i : Nat => (i : ℝ)

/-- The sample. -/
noncomputable def gridSample : Mat ℝ := gridOf [gridLevels, gridLevels]

theorem gridSample_length : gridSample.length = 400 := by
  unfold gridSample
  rw [gridOf_length]
  simp [gridLevels]

/-- The output: the number of the row. -/
noncomputable def gridOutput : List ℝ := (List.range 400).map fun i : Nat => (i : ℝ)

theorem gridSample_values (i : Nat) (hi : i < 2) : 3 ≤ (gridSample.map fun row => row.getD i 0).toFinset.card := by
  have hsub : gridLevels.toFinset ⊆ (gridSample.map fun row => row.getD i 0).toFinset := by
    intro v hv
    have hv := List.mem_toFinset.mp hv
    rw [List.mem_toFinset, List.mem_map]
    refine ⟨[v, v], ?_, by interval_cases i <;> rfl⟩
    unfold gridSample
    simp only [gridOf]
    simp [hv]
  have hc : gridLevels.toFinset.card = 20 := by
    rw [List.toFinset_card_of_nodup]
    · simp [gridLevels]
    · exact List.nodup_range.map Nat.cast_injective
  have := Finset.card_le_card hsub
  omega

theorem gridSample_case : EhAccepted (⟨none, none, none⟩ : EhProblem ℝ) gridSample.length 2 gridOutput.length [[0, 19], [0, 19]] 2 2 1 none 100
      (1 / 100) (99 / 100) false ∧
    (∀ k < 1, (List.range gridSample.length).Perm (List.range gridSample.length)) ∧
    (∀ i < 2, 2 + 1 ≤ (gridSample.map fun row => row.getD i 0).toFinset.card) ∧ IndependentColumns 2 gridSample ∧
    SolvesSystems solveExactly ∧ SolvesRegular solveExactly ∧
    ∃ a < gridSample.length, ∃ b < gridSample.length, gridOutput.getD a 0 ≠ gridOutput.getD b 0 := by
  refine ⟨?_, fun _ _ => List.Perm.refl _, gridSample_values, ?_, solveExactly_solves, solveExactly_regular, 0, ?_, 1, ?_, ?_⟩
  · constructor <;> first | (rw [gridSample_length]; simp [gridOutput]; done) | (intro l h; cases h; done) | norm_num
  · exact C123_grid [gridLevels, gridLevels] (by simp [gridLevels])
  · rw [gridSample_length]; norm_num
  · rw [gridSample_length]; norm_num
  · simp [gridOutput, List.getD]

/-- The hypotheses of `C123_results` are met. -/
example : ∃ res, ehAnalyze (fun x => x) 1 solveExactly (fun _ _ => .error .valueError) (fun _ _ => some 4)
    (fun _ => List.range gridSample.length) (ehFirst 2 2) ⟨none, none, none⟩ gridSample 2 [[0, 19], [0, 19]] gridOutput 2 2 1
    ((none : Option Nat).map fun r : Nat => (r : Int)) 100 (1 / 100) (99 / 100) false false = .ok res := by
  obtain ⟨h1, h2, h3, h4, h5, h6, h7⟩ := gridSample_case
  obtain ⟨-, r, -, -, h, -⟩ := C123_independent (fun x => x) rfl 1 solveExactly h5 h6 (fun _ _ => .error .valueError)
    (fun _ _ => some 4) (fun _ => List.range gridSample.length) ⟨none, none, none⟩ gridSample 2 [[0, 19], [0, 19]] gridOutput 2
    none 100 (1 / 100) (99 / 100) (by norm_num) h1 h2 h3 h4 h7
  exact ⟨_, h⟩

/-- A sample of which an input takes two values has no basis of degree 2. -/
example : ¬∃ C, ehFirst 2 2 [[0, 1], [1, 2], [0, 3], [1, 4]] = .ok C := by
  rw [C123_basis 2 2 (by norm_num)]
  intro h
  have := h 0 (by norm_num)
  norm_num at this

end SALib
