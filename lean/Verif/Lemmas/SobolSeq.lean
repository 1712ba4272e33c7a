import Verif.Model.SobolSequence
import Verif.Spec.Sobol
import Verif.Lemmas.ListAux
import Mathlib.Data.Nat.Bitwise
import Mathlib.Tactic.Ring
import Mathlib.Tactic.Linarith
import Mathlib.Tactic.Positivity

/-! # The direction numbers and the integer sequence -/

namespace SALib
open Spec

/-- Loop invariant rule for a `for` loop over a range. -/
theorem foldlM_inv {β : Type} (f : β → Nat → Py β) (P : Nat → β → Prop) (start n : Nat) (b : β)
    (h0 : P start b)
    (hstep : ∀ i b, start ≤ i → i < start + n → P i b → ∃ b', f b i = .ok b' ∧ P (i + 1) b') :
    ∃ b', (List.range' start n).foldlM f b = .ok b' ∧ P (start + n) b' := by
  induction n generalizing start b with
  | zero => exact ⟨b, rfl, h0⟩
  | succ n ih =>
    obtain ⟨b1, h1, hP1⟩ := hstep start b le_rfl (by omega) h0
    obtain ⟨b2, h2, hP2⟩ := ih (start + 1) b1 hP1 (fun i b hi hi' hP => hstep i b (by omega) (by omega) hP)
    refine ⟨b2, ?_, by rwa [show start + (n + 1) = start + 1 + n by omega]⟩
    rw [List.range'_succ, List.foldlM_cons, h1]
    exact h2

theorem vSet_ok (V : List Nat) (i x : Nat) (h : i < V.length) : vSet V i x = .ok (V.set i x) := by
  simp [vSet, h]

theorem vGet_ok (V : List Nat) (i : Nat) (h : i < V.length) : vGet V i = .ok (V.getD i 0) := by
  simp [vGet, List.getElem?_eq_getElem h, List.getD_eq_getElem?_getD]

theorem getD_set_self (V : List Nat) (i x : Nat) (h : i < V.length) : (V.set i x).getD i 0 = x := by
  simp [List.getD_eq_getElem?_getD, h]

theorem getD_set_ne (V : List Nat) (i j x : Nat) (h : i ≠ j) :
    (V.set i x).getD j 0 = V.getD j 0 := by
  simp [List.getD_eq_getElem?_getD, List.getElem?_set_ne h]

/-- The recurrence, as a function of the earlier direction numbers. -/
def recVal (a s : Nat) (v : Nat → Nat) (j : Nat) : Nat :=
  (List.range' 1 (s - 1)).foldl (fun x k => x ^^^ (((a >>> (s - 1 - k)) &&& 1) * v (j - k)))
    (v (j - s) ^^^ (v (j - s) >>> s))

theorem recVal_congr (a s : Nat) (v w : Nat → Nat) (j : Nat) (hs : 1 ≤ s) (hsj : s < j)
    (h : ∀ i, 1 ≤ i → i < j → v i = w i) : recVal a s v j = recVal a s w j := by
  unfold recVal
  rw [h (j - s) (by omega) (by omega)]
  apply List.foldl_ext
  intro x k hk
  rw [List.mem_range'_1] at hk
  rw [h (j - k) (by omega) (by omega)]

/-- Equations that determine the direction numbers `1..L` of a table row. -/
def IsDir (m : List Nat) (L : Nat) (v : Nat → Nat) : Prop :=
  (∀ j, 1 ≤ j → j ≤ L → j ≤ m.length - 1 → v j = m.getD j 0 <<< (sobolScale - j)) ∧
  ∀ j, m.length - 1 < j → j ≤ L → v j = recVal (m.getD 0 0) (m.length - 1) v j

theorem IsDir_unique (m : List Nat) (L L' : Nat) (v w : Nat → Nat) (hm : 2 ≤ m.length)
    (hv : IsDir m L v) (hw : IsDir m L' w) (j : Nat) (h1 : 1 ≤ j) (hL : j ≤ L) (hL' : j ≤ L') :
    v j = w j := by
  induction j using Nat.strong_induction_on with
  | _ j ih =>
    by_cases hj : j ≤ m.length - 1
    · rw [hv.1 j h1 hL hj, hw.1 j h1 hL' hj]
    · rw [hv.2 j (by omega) hL, hw.2 j (by omega) hL']
      exact recVal_congr _ _ _ _ j (by omega) (by omega)
        (fun i hi hi' => ih i hi' hi (by omega) (by omega))

theorem initialDirections_ok (m : List Nat) (n : Nat) (V : List Nat) (hV : n < V.length)
    (hm : n < m.length) :
    ∃ V', initialDirections m n V = .ok V' ∧ V'.length = V.length ∧
      ∀ j, 1 ≤ j → j ≤ n → V'.getD j 0 = m.getD j 0 <<< (sobolScale - j) := by
  obtain ⟨V', h1, h2, h3⟩ := foldlM_inv (fun V j => do
      let mj ← vGet m j
      vSet V j (mj <<< (sobolScale - j)))
    (fun i V' => V'.length = V.length ∧
      ∀ j, 1 ≤ j → j < i → V'.getD j 0 = m.getD j 0 <<< (sobolScale - j)) 1 n V
    ⟨rfl, fun j h1 h2 => by omega⟩ (by
      rintro i W hi hi' ⟨hl, hP⟩
      refine ⟨W.set i (m.getD i 0 <<< (sobolScale - i)), ?_, by simpa using hl, ?_⟩
      · simp only [vGet_ok m i (by omega), pyBind_ok]
        exact vSet_ok W i _ (by omega)
      · intro j hj1 hj2
        by_cases hji : j = i
        · subst hji; exact getD_set_self W j _ (by omega)
        · rw [getD_set_ne W i j _ (Ne.symm hji)]
          exact hP j hj1 (by omega))
  exact ⟨V', h1, h2, fun j hj1 hj2 => h3 j hj1 (by omega)⟩

theorem recurrenceStep_ok (a s : Nat) (V : List Nat) (j : Nat) (hs : 1 ≤ s) (hsj : s < j)
    (hj : j < V.length) :
    ∃ V', recurrenceStep a s V j = .ok V' ∧ V'.length = V.length ∧
      (∀ i, i < j → V'.getD i 0 = V.getD i 0) ∧
      V'.getD j 0 = recVal a s (fun i => V.getD i 0) j := by
  unfold recurrenceStep
  rw [vGet_ok V (j - s) (by omega), pyBind_ok, vSet_ok V j _ hj, pyBind_ok]
  set x := V.getD (j - s) 0 ^^^ V.getD (j - s) 0 >>> s with hx
  obtain ⟨V', h1, h2, h3, h4⟩ := foldlM_inv (fun V k => do
      let v ← vGet V j
      let w ← vGet V (j - k)
      vSet V j (v ^^^ (((a >>> (s - 1 - k)) &&& 1) * w)))
    (fun k W => W.length = V.length ∧ (∀ i, i < j → W.getD i 0 = V.getD i 0) ∧
      W.getD j 0 = (List.range' 1 (k - 1)).foldl
        (fun x k => x ^^^ (((a >>> (s - 1 - k)) &&& 1) * V.getD (j - k) 0)) x)
    1 (s - 1) (V.set j x)
    ⟨by simp, fun i hi => getD_set_ne V j i x (by omega), getD_set_self V j x hj⟩ (by
      rintro k W hk hk' ⟨hl, hP, hQ⟩
      refine ⟨W.set j (W.getD j 0 ^^^ (((a >>> (s - 1 - k)) &&& 1) * W.getD (j - k) 0)), ?_,
        by simpa using hl, ?_, ?_⟩
      · simp only [vGet_ok W j (by omega), pyBind_ok, vGet_ok W (j - k) (by omega)]
        exact vSet_ok W j _ (by omega)
      · intro i hi
        rw [getD_set_ne W j i _ (by omega)]
        exact hP i hi
      · rw [getD_set_self W j _ (by omega), hQ, hP (j - k) (by omega)]
        rw [show k + 1 - 1 = (k - 1) + 1 by omega, List.range'_concat, List.foldl_append]
        simp only [List.foldl_cons, List.foldl_nil]
        rw [show 1 + 1 * (k - 1) = k by omega])
  refine ⟨V', h1, h2, h3, ?_⟩
  rw [h4, show 1 + (s - 1) - 1 = s - 1 by omega]
  rfl

theorem laterDirections_ok (m : List Nat) (L : Nat) (hm : 2 ≤ m.length) :
    ∃ V, laterDirections m L (List.replicate (L + 1) 0) = .ok V ∧ V.length = L + 1 ∧
      IsDir m L (fun j => V.getD j 0) := by
  unfold laterDirections
  rw [vGet_ok m 0 (by omega), pyBind_ok]
  by_cases hL : L ≤ m.length - 1
  · simp only [hL, if_true]
    obtain ⟨V, h1, h2, h3⟩ := initialDirections_ok m L (List.replicate (L + 1) 0) (by simp) (by omega)
    refine ⟨V, h1, by simpa using h2, fun j h1 h2 _ => h3 j h1 h2, fun j h1 h2 => by omega⟩
  · simp only [hL, if_false]
    obtain ⟨V, h1, h2, h3⟩ := initialDirections_ok m (m.length - 1) (List.replicate (L + 1) 0)
      (by simp; omega) (by omega)
    rw [h1, pyBind_ok]
    obtain ⟨W, g1, g2, g3⟩ := foldlM_inv (recurrenceStep (m.getD 0 0) (m.length - 1))
      (fun i W => W.length = L + 1 ∧
        (∀ j, 1 ≤ j → j ≤ m.length - 1 → W.getD j 0 = m.getD j 0 <<< (sobolScale - j)) ∧
        ∀ j, m.length - 1 < j → j < i →
          W.getD j 0 = recVal (m.getD 0 0) (m.length - 1) (fun i => W.getD i 0) j)
      (m.length - 1 + 1) (L - (m.length - 1)) V
      ⟨by simpa using h2, h3, fun j h1 h2 => by omega⟩ (by
        rintro i W hi hi' ⟨hl, hP, hQ⟩
        obtain ⟨W', k1, k2, k3, k4⟩ := recurrenceStep_ok (m.getD 0 0) (m.length - 1) W i (by omega)
          (by omega) (by omega)
        refine ⟨W', k1, by omega, ?_, ?_⟩
        · intro j hj1 hj2
          rw [k3 j (by omega)]
          exact hP j hj1 hj2
        · intro j hj1 hj2
          by_cases hji : j = i
          · subst hji
            rw [k4]
            exact recVal_congr _ _ _ _ j (by omega) (by omega) (fun i _ hi => (k3 i hi).symm)
          · rw [k3 j (by omega), hQ j hj1 (by omega)]
            exact recVal_congr _ _ _ _ j (by omega) (by omega) (fun i _ hi => (k3 i (by omega)).symm))
    exact ⟨W, g1, g2, fun j h1 _ h3 => g3.1 j h1 h3, fun j h1 h2 => g3.2 j h1 (by omega)⟩

theorem firstDirections_ok (L : Nat) :
    ∃ V, firstDirections L (List.replicate (L + 1) 0) = .ok V ∧ V.length = L + 1 ∧
      ∀ j, 1 ≤ j → j ≤ L → V.getD j 0 = 1 <<< (sobolScale - j) := by
  obtain ⟨V', h1, h2, h3⟩ := foldlM_inv (fun V j => vSet V j (1 <<< (sobolScale - j)))
    (fun i V' => V'.length = L + 1 ∧
      ∀ j, 1 ≤ j → j < i → V'.getD j 0 = 1 <<< (sobolScale - j)) 1 L (List.replicate (L + 1) 0)
    ⟨by simp, fun j h1 h2 => by omega⟩ (by
      rintro i W hi hi' ⟨hl, hP⟩
      refine ⟨W.set i (1 <<< (sobolScale - i)), vSet_ok W i _ (by omega), by simpa using hl, ?_⟩
      intro j hj1 hj2
      by_cases hji : j = i
      · subst hji; exact getD_set_self W j _ (by omega)
      · rw [getD_set_ne W i j _ (Ne.symm hji)]
        exact hP j hj1 (by omega))
  exact ⟨V', h1, h2, fun j hj1 hj2 => h3 j hj1 (by omega)⟩

/-- What the argument needs of the `j`-th direction number: below `2^31`, lowest set bit at `31 - j`. -/
def DirNum (j v : Nat) : Prop :=
  v < 2 ^ 31 ∧ v.testBit (31 - j) = true ∧ ∀ i, i < 31 - j → v.testBit i = false

theorem dirNum_shift (j x : Nat) (hj1 : 1 ≤ j) (hj : j ≤ 31) (hodd : Odd x) (hx : x < 2 ^ j) :
    DirNum j (x <<< (31 - j)) := by
  refine ⟨?_, ?_, ?_⟩
  · rw [Nat.shiftLeft_eq]
    calc x * 2 ^ (31 - j) < 2 ^ j * 2 ^ (31 - j) := by
          apply Nat.mul_lt_mul_of_pos_right hx; positivity
      _ = 2 ^ 31 := by rw [← pow_add]; congr 1; omega
  · rw [Nat.testBit_shiftLeft]
    simp [Nat.testBit_zero, Nat.odd_iff.mp hodd]
  · intro i hi
    rw [Nat.testBit_shiftLeft]
    simp; omega

theorem foldl_xor_inv (P : Nat → Prop) (f : Nat → Nat) (l : List Nat) (x : Nat) (hx : P x)
    (hstep : ∀ y k, k ∈ l → P y → P (y ^^^ f k)) : P (l.foldl (fun y k => y ^^^ f k) x) := by
  induction l generalizing x with
  | nil => exact hx
  | cons k l ih =>
    rw [List.foldl_cons]
    exact ih _ (hstep x k (by simp) hx) (fun y k hk => hstep y k (by simp [hk]))

theorem dirNum_rec (a s j : Nat) (v : Nat → Nat) (hs : 1 ≤ s) (hsj : s < j) (hj : j ≤ 31)
    (hv : ∀ i, 1 ≤ i → i < j → DirNum i (v i)) : DirNum j (recVal a s v j) := by
  unfold recVal
  apply foldl_xor_inv (DirNum j) (fun k => ((a >>> (s - 1 - k)) &&& 1) * v (j - k))
  · obtain ⟨h1, h2, h3⟩ := hv (j - s) (by omega) (by omega)
    refine ⟨Nat.xor_lt_two_pow h1 (lt_of_le_of_lt (Nat.shiftRight_le _ _) h1), ?_, ?_⟩
    · rw [Nat.testBit_xor, Nat.testBit_shiftRight, h3 (31 - j) (by omega),
        show s + (31 - j) = 31 - (j - s) by omega, h2]
      rfl
    · intro i hi
      rw [Nat.testBit_xor, Nat.testBit_shiftRight, h3 i (by omega), h3 (s + i) (by omega)]
      rfl
  · rintro y k hk ⟨y1, y2, y3⟩
    rw [List.mem_range'_1] at hk
    obtain ⟨h1, h2, h3⟩ := hv (j - k) (by omega) (by omega)
    have hb : (a >>> (s - 1 - k)) &&& 1 = 0 ∨ (a >>> (s - 1 - k)) &&& 1 = 1 := by
      rw [Nat.and_one_is_mod]; omega
    rcases hb with hb | hb
    · rw [hb, zero_mul, Nat.xor_zero]; exact ⟨y1, y2, y3⟩
    · rw [hb, one_mul]
      refine ⟨Nat.xor_lt_two_pow y1 h1, ?_, ?_⟩
      · rw [Nat.testBit_xor, y2, h3 (31 - j) (by omega)]; rfl
      · intro i hi
        rw [Nat.testBit_xor, y3 i hi, h3 i (by omega)]; rfl

theorem isDir_dirNum (m : List Nat) (hm : RowOk m) (L : Nat) (hL : L ≤ 31) (v : Nat → Nat)
    (hv : IsDir m L v) (j : Nat) (h1 : 1 ≤ j) (hj : j ≤ L) : DirNum j (v j) := by
  obtain ⟨a, ms, rfl, hne, hms⟩ := hm
  have hlen : 1 ≤ ms.length := List.length_pos_iff.mpr hne
  induction j using Nat.strong_induction_on with
  | _ j ih =>
    by_cases hjs : j ≤ (a :: ms).length - 1
    · rw [hv.1 j h1 hj hjs]
      simp only [List.length_cons, Nat.add_sub_cancel] at hjs
      obtain ⟨j, rfl⟩ : ∃ j', j = j' + 1 := ⟨j - 1, by omega⟩
      have hx : ms[j]? = some ((a :: ms).getD (j + 1) 0) := by
        rw [List.getD_eq_getElem?_getD, List.getElem?_cons_succ,
          List.getElem?_eq_getElem (by omega)]; rfl
      obtain ⟨ho, hlt⟩ := hms j _ hx
      exact dirNum_shift (j + 1) _ h1 (by omega) ho hlt
    · rw [hv.2 j (by omega) hj]
      apply dirNum_rec _ _ j v _ _ (by omega)
      · intro i hi hij
        exact ih i hij hi (by omega)
      · simp; omega
      · omega

/-! ## The integer sequence -/

/-- `X_0 = 0`, `X_{n+1} = X_n xor V[index of the lowest zero bit of n]`. -/
def xSeq (v : Nat → Nat) : Nat → Nat
  | 0 => 0
  | n + 1 => xSeq v n ^^^ v (leastZeroBit n)

theorem one_le_leastZeroBit (n : Nat) : 1 ≤ leastZeroBit n := by
  rw [leastZeroBit]; split <;> omega

/-- Values that are not all ones in their `k` low bits have their lowest zero bit among them. -/
theorem leastZeroBit_le (k n : Nat) (h : n % 2 ^ k + 1 < 2 ^ k) : leastZeroBit n ≤ k := by
  induction k generalizing n with
  | zero => simp [Nat.mod_one] at h
  | succ k ih =>
    rw [leastZeroBit]
    split
    · omega
    · rename_i hodd
      have : leastZeroBit (n / 2) ≤ k := by
        apply ih
        rw [Nat.pow_succ'] at h
        have hm : n % (2 * 2 ^ k) = n % 2 + 2 * (n / 2 % 2 ^ k) := Nat.mod_mul
        omega
      omega

/-- The lowest zero bit depends only on the low bits, if there is a zero among them. -/
theorem leastZeroBit_mod (k n n' : Nat) (hn : n % 2 ^ k + 1 < 2 ^ k) (hmod : n % 2 ^ k = n' % 2 ^ k) :
    leastZeroBit n = leastZeroBit n' := by
  induction k generalizing n n' with
  | zero => simp [Nat.mod_one] at hn
  | succ k ih =>
    rw [leastZeroBit, leastZeroBit.eq_1 n']
    rw [Nat.pow_succ'] at hn hmod
    have hm : n % (2 * 2 ^ k) = n % 2 + 2 * (n / 2 % 2 ^ k) := Nat.mod_mul
    have hm' : n' % (2 * 2 ^ k) = n' % 2 + 2 * (n' / 2 % 2 ^ k) := Nat.mod_mul
    have h1 : n % 2 = n' % 2 := by omega
    rw [h1]
    split
    · rfl
    · rw [ih (n / 2) (n' / 2) (by omega) (by omega)]

theorem leastZeroBit_all_ones (k : Nat) : leastZeroBit (2 ^ k - 1) = k + 1 := by
  induction k with
  | zero => rw [leastZeroBit]; simp
  | succ k ih =>
    rw [leastZeroBit]
    have hpos : 0 < 2 ^ k := by positivity
    rw [if_neg (by rw [Nat.pow_succ]; omega)]
    rw [show (2 ^ (k + 1) - 1) / 2 = 2 ^ k - 1 by rw [Nat.pow_succ]; omega, ih]

theorem columnInts_ok (V : List Nat) (L N : Nat) (hV : V.length = L + 1) (hN : 0 < N) (hNL : N ≤ 2 ^ L) :
    columnInts V N = .ok ((List.range N).map (xSeq fun j => V.getD j 0)) := by
  unfold columnInts
  obtain ⟨st, h1, h2⟩ := foldlM_inv (fun (st : Nat × List Nat) j => do
      let v ← vGet V (leastZeroBit (j - 1))
      let X := st.1 ^^^ v
      return (X, st.2 ++ [X]))
    (fun j st => st = (xSeq (fun j => V.getD j 0) (j - 1),
      (List.range j).map (xSeq fun j => V.getD j 0))) 1 (N - 1) (0, [0])
    (by simp [xSeq]) (by
      rintro j st hj hj' rfl
      refine ⟨_, ?_, rfl⟩
      have hle : leastZeroBit (j - 1) ≤ L := leastZeroBit_le L (j - 1) (by
        rw [Nat.mod_eq_of_lt (by omega)]; omega)
      rw [vGet_ok V _ (by omega), pyBind_ok]
      rw [show j + 1 - 1 = j - 1 + 1 by omega, List.range_succ, List.map_append]
      obtain ⟨j, rfl⟩ : ∃ i, j = i + 1 := ⟨j - 1, by omega⟩
      simp only [Nat.add_sub_cancel, xSeq, List.map_cons, List.map_nil]
      rfl)
  rw [h1, h2, pyBind_ok]
  simp only [show 1 + (N - 1) = N by omega]
  rfl

theorem xSeq_congr (v w : Nat → Nat) (L n : Nat) (hn : n < 2 ^ L)
    (h : ∀ j, 1 ≤ j → j ≤ L → v j = w j) : xSeq v n = xSeq w n := by
  induction n with
  | zero => rfl
  | succ n ih =>
    rw [xSeq, xSeq, ih (by omega), h _ (one_le_leastZeroBit n)
      (leastZeroBit_le L n (by rw [Nat.mod_eq_of_lt (by omega)]; omega))]

/-- Within an aligned block the sequence repeats its beginning, shifted by the block's first value. -/
theorem xSeq_block (v : Nat → Nat) (k b n : Nat) (hn : n < 2 ^ k) :
    xSeq v (b * 2 ^ k + n) = xSeq v (b * 2 ^ k) ^^^ xSeq v n := by
  induction n with
  | zero => simp [xSeq]
  | succ n ih =>
    rw [← Nat.add_assoc, xSeq, ih (by omega), xSeq, Nat.xor_assoc]
    congr 2
    rw [leastZeroBit_mod k (b * 2 ^ k + n) n]
    · rw [Nat.mul_add_mod_of_lt (by omega)]; omega
    · rw [Nat.mul_add_mod_of_lt (by omega), Nat.mod_eq_of_lt (by omega)]

theorem xSeq_low (v : Nat → Nat) (k : Nat) (hk : k ≤ 31) (hv : ∀ j, 1 ≤ j → j ≤ k → DirNum j (v j))
    (n : Nat) (hn : n < 2 ^ k) :
    xSeq v n < 2 ^ 31 ∧ ∀ i, i < 31 - k → (xSeq v n).testBit i = false := by
  induction n with
  | zero => simp [xSeq]
  | succ n ih =>
    obtain ⟨h1, h2⟩ := ih (by omega)
    have hle : leastZeroBit n ≤ k := leastZeroBit_le k n (by rw [Nat.mod_eq_of_lt (by omega)]; omega)
    obtain ⟨d1, d2, d3⟩ := hv _ (one_le_leastZeroBit n) hle
    refine ⟨Nat.xor_lt_two_pow h1 d1, fun i hi => ?_⟩
    rw [xSeq, Nat.testBit_xor, h2 i hi, d3 i (by omega)]
    rfl

theorem xor_left_cancel (a b c : Nat) (h : a ^^^ b = a ^^^ c) : b = c := by
  have := congrArg (a ^^^ ·) h
  simpa [← Nat.xor_assoc] using this

/-- The `k` leading bits of `X_n` determine `n` among the first `2^k` indices. -/
theorem xSeq_inj (v : Nat → Nat) (k : Nat) (hk : k ≤ 31) (hv : ∀ j, 1 ≤ j → j ≤ k → DirNum j (v j))
    (n n' : Nat) (hn : n < 2 ^ k) (hn' : n' < 2 ^ k)
    (h : xSeq v n >>> (31 - k) = xSeq v n' >>> (31 - k)) : n = n' := by
  induction k generalizing n n' with
  | zero => simp at hn hn'; omega
  | succ k ih =>
    have hv' : ∀ j, 1 ≤ j → j ≤ k → DirNum j (v j) := fun j h1 h2 => hv j h1 (by omega)
    have hbit : ∀ i, 31 - (k + 1) ≤ i → (xSeq v n).testBit i = (xSeq v n').testBit i := by
      intro i hi
      have := congrArg (fun x => x.testBit (i - (31 - (k + 1)))) h
      simp only [Nat.testBit_shiftRight] at this
      rwa [show 31 - (k + 1) + (i - (31 - (k + 1))) = i by omega] at this
    -- the bit below the `k` leading ones tells the two halves apart
    have hlow : ∀ n, n < 2 ^ k → (xSeq v n).testBit (31 - (k + 1)) = false :=
      fun n hn => (xSeq_low v k (by omega) hv' n hn).2 _ (by omega)
    have hpos : 0 < 2 ^ k := by positivity
    have htop : xSeq v (2 ^ k) = xSeq v (2 ^ k - 1) ^^^ v (k + 1) := by
      conv_lhs => rw [show 2 ^ k = (2 ^ k - 1) + 1 by omega]
      rw [xSeq, leastZeroBit_all_ones]
    have hfirst : (xSeq v (2 ^ k)).testBit (31 - (k + 1)) = true := by
      rw [htop, Nat.testBit_xor, hlow _ (by omega), (hv (k + 1) (by omega) le_rfl).2.1]; rfl
    have hsplit : ∀ n, n < 2 ^ k → xSeq v (2 ^ k + n) = xSeq v (2 ^ k) ^^^ xSeq v n := by
      intro n hn
      simpa using xSeq_block v k 1 n hn
    have hhigh : ∀ n, n < 2 ^ k → (xSeq v (2 ^ k + n)).testBit (31 - (k + 1)) = true := by
      intro n hn
      rw [hsplit n hn, Nat.testBit_xor, hfirst, hlow n hn]; rfl
    have hIH : ∀ n n', n < 2 ^ k → n' < 2 ^ k →
        (∀ i, 31 - (k + 1) ≤ i → (xSeq v n).testBit i = (xSeq v n').testBit i) → n = n' := by
      intro n n' hn hn' hb
      apply ih (by omega) hv' n n' hn hn'
      apply Nat.eq_of_testBit_eq
      intro i
      rw [Nat.testBit_shiftRight, Nat.testBit_shiftRight]
      exact hb _ (by omega)
    rw [Nat.pow_succ] at hn hn'
    by_cases h1 : n < 2 ^ k <;> by_cases h2 : n' < 2 ^ k
    · exact hIH n n' h1 h2 hbit
    · obtain ⟨c, rfl⟩ : ∃ c, n' = 2 ^ k + c := ⟨n' - 2 ^ k, by omega⟩
      have := hbit _ le_rfl
      rw [hlow n h1, hhigh c (by omega)] at this
      cases this
    · obtain ⟨c, rfl⟩ : ∃ c, n = 2 ^ k + c := ⟨n - 2 ^ k, by omega⟩
      have := hbit _ le_rfl
      rw [hlow n' h2, hhigh c (by omega)] at this
      cases this
    · obtain ⟨c, rfl⟩ : ∃ c, n = 2 ^ k + c := ⟨n - 2 ^ k, by omega⟩
      obtain ⟨c', rfl⟩ : ∃ c', n' = 2 ^ k + c' := ⟨n' - 2 ^ k, by omega⟩
      congr 1
      apply hIH c c' (by omega) (by omega)
      intro i hi
      have := hbit i hi
      rw [hsplit c (by omega), hsplit c' (by omega), Nat.testBit_xor, Nat.testBit_xor] at this
      simpa using this

end SALib
