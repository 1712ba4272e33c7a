import Verif.Lemmas.Hadamard
import Verif.Lemmas.Scale
import Verif.Props.Scale
import Verif.Props.MorrisOpt
import Verif.Props.FastAnalyze
import Mathlib.Tactic.FieldSimp

/-! # Fractional factorial design and analysis (C44-C47, C71) -/

namespace SALib
open Spec

section design
variable {α : Type} [Field α] [LinearOrder α] [IsStrictOrderedRing α]

theorem generateContrast_eq (n k : Nat) (h : n ≤ 512) (hk : LeastPower n k) :
    generateContrast (α := α) n = .ok ((List.range (2 * 2 ^ k)).map fun r =>
      (List.range (2 ^ k)).map fun j => coded α k r j) := by
  unfold generateContrast
  rw [findSmallest_eq n k h hk]
  exact congrArg Except.ok (contrast_eq k)

theorem ffSize_eq (n k : Nat) (h : n ≤ 512) (hk : LeastPower n k) : ffSize n = .ok (2 ^ k) := by
  unfold ffSize
  rw [findSmallest_eq n k h hk]

theorem entry_grid {β : Type} (R C : Nat) (f : Nat → Nat → β) (r j : Nat) (hr : r < R) (hj : j < C) :
    entry ((List.range R).map fun r => (List.range C).map fun j => f r j) r j = some (f r j) := by
  unfold entry
  simp [hr, hj]

/-- **C44**, the design.  For every supported number of factors, with `2^k` the least power of two that is
large enough, the contrast matrix has `2 * 2^k` runs and `2^k` columns with entries `1` and `-1`; every
column sums to zero and any two different columns are orthogonal. -/
theorem C44_design (n k : Nat) (h : n ≤ 512) (hk : LeastPower n k) :
    ∃ C : Mat α, generateContrast n = .ok C ∧ C.length = 2 * 2 ^ k ∧ HasCols (2 ^ k) C ∧
      ∃ x : Nat → Nat → α,
        (∀ r < 2 * 2 ^ k, ∀ j < 2 ^ k, entry C r j = some (x r j) ∧ (x r j = 1 ∨ x r j = -1)) ∧
        (∀ j < 2 ^ k, ∑ r ∈ Finset.range (2 * 2 ^ k), x r j = 0) ∧
        (∀ i < 2 ^ k, ∀ j < 2 ^ k, i ≠ j → ∑ r ∈ Finset.range (2 * 2 ^ k), x r i * x r j = 0) := by
  refine ⟨_, generateContrast_eq n k h hk, by simp, ?_, coded α k, ?_, ?_, ?_⟩
  · intro row hrow
    obtain ⟨r, -, rfl⟩ := List.mem_map.mp hrow
    simp
  · intro r hr j hj
    exact ⟨entry_grid _ _ _ r j hr hj, coded_pm k r j⟩
  · intro j _
    exact sum_coded k j
  · intro i hi j hj hij
    rw [sum_coded_mul k i j hi hj, if_neg hij]

/-- The hypotheses of `C44_design` at five factors: the design has eight columns. -/
example : (5 : Nat) ≤ 512 ∧ LeastPower 5 3 := by
  refine ⟨by norm_num, by norm_num, ?_⟩
  intro k' hk'
  interval_cases k' <;> norm_num

/-! ### Extension by dummies -/

/-- **C47.** Up to 512 parameters: the problem is extended to the least sufficient power of two by dummies
with bounds `[0, 1]` behind the user's parameters, and extending again changes nothing. -/
theorem C47_extension (pb : Problem α) (h : pb.numVars ≤ 512) :
    ∃ k pb', LeastPower pb.numVars k ∧ extendBounds pb = .ok pb' ∧
      pb' = { pb with
        bounds := pb.bounds ++ List.replicate (2 ^ k - pb.numVars) [0, 1]
        names := pb.names ++ (List.range (2 ^ k - pb.numVars)).map fun v => "dummy_" ++ toString v
        numVars := 2 ^ k } ∧
      extendBounds pb' = .ok pb' := by
  obtain ⟨k, -, hk9, hk⟩ := findSmallest_some pb.numVars h
  have h2 : 2 ^ k ≤ 512 := (Nat.pow_le_pow_right (by norm_num) hk9).trans (by norm_num)
  refine ⟨k, _, hk, ?_, rfl, ?_⟩
  · unfold extendBounds
    rw [ffSize_eq _ k h hk, pyBind_ok]
    simp only []
    by_cases hd : 0 < 2 ^ k - pb.numVars
    · rw [if_pos hd, List.map_const', List.length_range]; rfl
    · rw [if_neg hd]
      have h0 : 2 ^ k - pb.numVars = 0 := by omega
      have h1 : pb.numVars = 2 ^ k := le_antisymm hk.1 (by omega)
      simp only [h0, List.replicate_zero, List.append_nil, List.range_zero, List.map_nil]
      rw [← h1]
      rfl
  · unfold extendBounds
    rw [ffSize_eq _ k h2 (leastPower_pow k), pyBind_ok]
    simp only [Nat.sub_self, lt_irrefl, if_false]
    rfl

/-- **C47**, limit: more than 512 parameters fail with a `TypeError` in sampling, extension and analysis. -/
theorem C47_too_many (F : Ppf α) (pb : Problem α) (Y : List α) (so : Bool) (h : 512 < pb.numVars) :
    extendBounds pb = .error .typeError ∧ ffSample F pb = .error .typeError ∧
      ffAnalyze pb Y so = .error .typeError := by
  have hf := findSmallest_none _ h
  have h1 : extendBounds pb = .error .typeError := by
    unfold extendBounds ffSize; rw [hf]; rfl
  refine ⟨h1, ?_, ?_⟩
  · unfold ffSample generateContrast; rw [hf]; rfl
  · unfold ffAnalyze; rw [h1]; rfl

/-! ### Sample -/

/-- The bounds in effect: the user's, then `[0, 1]` for every dummy. -/
def Spec.ffBounds (bs : List (α × α)) (k : Nat) : List (α × α) :=
  bs ++ List.replicate (2 ^ k - bs.length) (0, 1)

theorem ffSample_eq (F : Ppf α) (pb : Problem α) (bs : List (α × α)) (k : Nat)
    (hb : pb.bounds = boundsTable bs) (hn : pb.numVars = bs.length) (hd : pb.dists = none)
    (hlegal : ∀ p ∈ bs, p.1 < p.2) (h : pb.numVars ≤ 512) (hk : LeastPower pb.numVars k) :
    ffSample F pb = .ok ((List.range (2 * 2 ^ k)).map (fun r => (List.range (2 ^ k)).map fun j =>
        some (((ffBounds bs k).getD j (0, 1)).1 + (coded α k r j + 1) / 2 *
          (((ffBounds bs k).getD j (0, 1)).2 - ((ffBounds bs k).getD j (0, 1)).1))),
      { pb with
        bounds := boundsTable (ffBounds bs k)
        names := pb.names ++ (List.range (2 ^ k - pb.numVars)).map fun v => "dummy_" ++ toString v
        numVars := 2 ^ k
        sampleScaled := true }) := by
  obtain ⟨k', pb', hk', he, hpb', -⟩ := C47_extension pb h
  have hkk := leastPower_unique _ _ _ hk hk'
  subst hkk
  have h2 : 2 ^ k ≤ 512 := by
    obtain ⟨k', -, hk9, hk'⟩ := findSmallest_some pb.numVars h
    rw [leastPower_unique _ _ _ hk hk']
    exact (Nat.pow_le_pow_right (by norm_num) hk9).trans (by norm_num)
  have hlen : (ffBounds bs k).length = 2 ^ k := by
    have := hk.1
    rw [hn] at this
    simp only [ffBounds, List.length_append, List.length_replicate]; omega
  have hne : ffBounds bs k ≠ [] := by
    intro h0; rw [h0] at hlen; have := Nat.two_pow_pos k; simp at hlen; omega
  have hleg : ∀ p ∈ ffBounds bs k, p.1 < p.2 := by
    intro p hp
    rcases List.mem_append.mp hp with hp | hp
    · exact hlegal p hp
    · rw [List.mem_replicate] at hp; rw [hp.2]; exact one_pos
  have hbd : pb.bounds ++ List.replicate (2 ^ k - pb.numVars) [0, 1] = boundsTable (ffBounds bs k) := by
    rw [hb, hn]; simp [boundsTable, ffBounds]
  unfold ffSample
  rw [generateContrast_eq _ k h hk, pyBind_ok, he, pyBind_ok, hpb']
  simp only [hbd]
  rw [ffSize_eq _ k h2 (leastPower_pow k), pyBind_ok]
  unfold scaleSamples
  simp only [hd]
  have hsc := scaleUniform_legal (ffBounds bs k) hne hleg
    (((List.range (2 * 2 ^ k)).map fun r => (List.range (2 ^ k)).map fun j => coded α k r j).map
      fun row => row.map fun c => (c + 1) / 2)
  rw [hlen] at hsc
  rw [hsc]
  simp only [pyBind_ok, pyPure, Except.ok.injEq, Prod.mk.injEq, and_true, List.map_map]
  apply List.map_congr_left
  intro r _
  apply List.ext_getElem
  · simp [hlen]
  · intro j h1 h3
    have hj : j < 2 ^ k := by simpa using h3
    simp [List.getD, List.getElem?_eq_getElem (show j < (ffBounds bs k).length by omega)]
    ring

theorem card_coded (k j : Nat) (s : α) (hs : s = 1 ∨ s = -1) :
    ((Finset.range (2 * 2 ^ k)).filter fun r => coded α k r j = s).card = 2 ^ k := by
  have h11 : (1 : α) ≠ -1 := by
    intro h; have : (0 : α) < 1 := one_pos; linarith
  rw [Finset.card_filter, sum_range_fold]
  have : ∀ i ∈ Finset.range (2 ^ k), ((if coded α k i j = s then 1 else 0) +
      if coded α k (2 ^ k + i) j = s then 1 else 0) = 1 := by
    intro i hi
    rw [coded_low k i j (Finset.mem_range.mp hi), coded_high]
    rcases sign_pm (α := α) k i j with h | h <;> rcases hs with rfl | rfl <;> rw [h] <;>
      simp [h11, h11.symm]
  rw [Finset.sum_congr rfl this]
  simp

/-- **C44**, the sample: with legal bounds and no distributions every run has every parameter (and dummy)
exactly at one of its two bounds, at each of them in exactly half of the runs. -/
theorem C44_sample (F : Ppf α) (pb : Problem α) (bs : List (α × α)) (k : Nat)
    (hb : pb.bounds = boundsTable bs) (hn : pb.numVars = bs.length) (hd : pb.dists = none)
    (hlegal : ∀ p ∈ bs, p.1 < p.2) (h : pb.numVars ≤ 512) (hk : LeastPower pb.numVars k) :
    ∃ out pb', ffSample F pb = .ok (out, pb') ∧ out.length = 2 * 2 ^ k ∧ HasCols (2 ^ k) out ∧
      ∀ (j : Nat) (lo hi : α), (ffBounds bs k)[j]? = some (lo, hi) →
        (∀ r < 2 * 2 ^ k, entry out r j = some (some lo) ∨ entry out r j = some (some hi)) ∧
        ((Finset.range (2 * 2 ^ k)).filter fun r => entry out r j = some (some lo)).card = 2 ^ k ∧
        ((Finset.range (2 * 2 ^ k)).filter fun r => entry out r j = some (some hi)).card = 2 ^ k := by
  refine ⟨_, _, ffSample_eq F pb bs k hb hn hd hlegal h hk, by simp, ?_, ?_⟩
  · intro row hrow
    obtain ⟨r, -, rfl⟩ := List.mem_map.mp hrow
    simp
  · intro j lo hi hj
    have hlen : (ffBounds bs k).length = 2 ^ k := by
      have := hk.1
      rw [hn] at this
      simp only [ffBounds, List.length_append, List.length_replicate]; omega
    have hjk : j < 2 ^ k := by
      rw [← hlen]; exact (List.getElem?_eq_some_iff.mp hj).1
    have hget : (ffBounds bs k).getD j (0, 1) = (lo, hi) := by simp [List.getD, hj]
    have hlt : lo < hi := by
      have hm := List.mem_of_getElem? hj
      rcases List.mem_append.mp hm with hp | hp
      · exact hlegal _ hp
      · rw [List.mem_replicate] at hp; rw [Prod.mk.injEq] at hp; rw [hp.2.1, hp.2.2]; exact one_pos
    have hent : ∀ r < 2 * 2 ^ k, entry ((List.range (2 * 2 ^ k)).map fun r =>
        (List.range (2 ^ k)).map fun j => some (((ffBounds bs k).getD j (0, 1)).1 +
          (coded α k r j + 1) / 2 *
          (((ffBounds bs k).getD j (0, 1)).2 - ((ffBounds bs k).getD j (0, 1)).1))) r j =
        some (some (lo + (coded α k r j + 1) / 2 * (hi - lo))) := by
      intro r hr
      rw [entry_grid _ _ _ r j hr hjk, hget]
    have hlo : ∀ r, lo + (coded α k r j + 1) / 2 * (hi - lo) = lo ↔ coded α k r j = -1 := by
      intro r
      rcases coded_pm (α := α) k r j with hc | hc <;> rw [hc]
      · constructor
        · intro he; exfalso; norm_num at he; linarith
        · intro he; exfalso; have : (0 : α) < 1 := one_pos; linarith
      · simp
    have hhi : ∀ r, lo + (coded α k r j + 1) / 2 * (hi - lo) = hi ↔ coded α k r j = 1 := by
      intro r
      rcases coded_pm (α := α) k r j with hc | hc <;> rw [hc]
      · norm_num
      · constructor
        · intro he; exfalso; norm_num at he; linarith
        · intro he; exfalso; have : (0 : α) < 1 := one_pos; linarith
    refine ⟨?_, ?_, ?_⟩
    · intro r hr
      rw [hent r hr]
      rcases coded_pm (α := α) k r j with hc | hc
      · right; rw [(hhi r).mpr hc]
      · left; rw [(hlo r).mpr hc]
    · refine (congrArg Finset.card (Finset.filter_congr ?_)).trans
        (card_coded (α := α) k j (-1) (Or.inr rfl))
      intro r hr
      rw [hent r (Finset.mem_range.mp hr), Option.some.injEq, Option.some.injEq]
      exact hlo r
    · refine (congrArg Finset.card (Finset.filter_congr ?_)).trans
        (card_coded (α := α) k j 1 (Or.inl rfl))
      intro r hr
      rw [hent r (Finset.mem_range.mp hr), Option.some.injEq, Option.some.injEq]
      exact hhi r

/-- Observation recorded in DESIGN.md: a problem with distributions whose number of parameters is not a
power of two cannot be sampled (the list of distributions is not extended). -/
theorem C44_dists_fail (F : Ppf α) (pb : Problem α) (ds : List String) (k : Nat) (hd : pb.dists = some ds)
    (hl : ds.length = pb.numVars) (h : pb.numVars ≤ 512) (hk : LeastPower pb.numVars k)
    (hp : pb.numVars ≠ 2 ^ k) : ffSample F pb = .error .valueError := by
  obtain ⟨k', pb', hk', he, hpb', -⟩ := C47_extension pb h
  have hkk := leastPower_unique _ _ _ hk hk'
  subst hkk
  have h2 : 2 ^ k ≤ 512 := by
    obtain ⟨k', -, hk9, hk'⟩ := findSmallest_some pb.numVars h
    rw [leastPower_unique _ _ _ hk hk']
    exact (Nat.pow_le_pow_right (by norm_num) hk9).trans (by norm_num)
  unfold ffSample
  rw [generateContrast_eq _ k h hk, pyBind_ok, he, pyBind_ok, hpb']
  simp only []
  rw [ffSize_eq _ k h2 (leastPower_pow k), pyBind_ok]
  unfold scaleSamples
  simp only [hd]
  rw [if_pos (by omega)]
  rfl

end design

/-! ### Analysis -/

section analysis
variable {α : Type} [Field α] [LinearOrder α] [IsStrictOrderedRing α]

theorem dotList_map (R : Nat) (Y : List α) (hY : Y.length = R) (f : Nat → α) :
    dotList Y ((List.range R).map f) = ∑ r ∈ Finset.range R, Y.getD r 0 * f r := by
  unfold dotList
  rw [← sum_range_list]
  congr 1
  apply List.ext_getElem
  · simp [hY]
  · intro r h1 h2
    have : r < Y.length := by simp at h2; omega
    simp [List.getD, List.getElem?_eq_getElem this]

theorem matColumn_grid (R C : Nat) (f : Nat → Nat → α) (j : Nat) (hj : j < C) :
    matColumn ((List.range R).map fun r => (List.range C).map fun j => f r j) j =
      (List.range R).map fun r => f r j := by
  unfold matColumn
  rw [List.map_map]
  apply List.map_congr_left
  intro r _
  simp [List.getD, hj]

/-- All pairs of the double loop, in order. -/
theorem pair_index (n a b : Nat) (ha : a < n) (hb : b < a) :
    ((List.range n).flatMap fun col => (List.range col).map fun col2 => (col, col2))[a * (a - 1) / 2 + b]? =
      some (a, b) ∧
    ((List.range n).flatMap fun col => (List.range col).map fun col2 => (col, col2)).length =
      n * (n - 1) / 2 := by
  have hlen : ∀ n, ((List.range n).flatMap fun col => (List.range col).map fun col2 => (col, col2)).length =
      n * (n - 1) / 2 := by
    intro n
    induction n with
    | zero => rfl
    | succ n ih =>
      rw [List.range_succ, List.flatMap_append, List.length_append, ih]
      simp only [List.flatMap_cons, List.flatMap_nil, List.append_nil, List.length_map, List.length_range,
        Nat.add_sub_cancel]
      cases n with
      | zero => rfl
      | succ n =>
        rw [Nat.add_sub_cancel, show (n + 1 + 1) * (n + 1) = (n + 1) * n + (n + 1) * 2 by ring,
          Nat.add_mul_div_right _ _ (by norm_num)]
  refine ⟨?_, hlen n⟩
  induction n with
  | zero => omega
  | succ n ih =>
    rw [List.range_succ, List.flatMap_append]
    by_cases han : a < n
    · rw [List.getElem?_append_left]
      · exact ih han
      · have := (List.getElem?_eq_some_iff.mp (ih han)).1
        exact this
    · have : a = n := by omega
      subst this
      rw [List.getElem?_append_right (by rw [hlen]; omega), hlen, Nat.add_sub_cancel_left]
      simp [hb]

/-- The reported main effects in closed form, for outputs of the right number. -/
theorem ffAnalyze_eq (pb : Problem α) (k : Nat) (Y : List α) (so : Bool) (h : pb.numVars ≤ 512)
    (hk : LeastPower pb.numVars k) (hnames : pb.names.length = pb.numVars)
    (hY : Y.length = 2 * 2 ^ k) :
    ∃ res, ffAnalyze pb Y so = .ok res ∧
      res.names = pb.names ++ (List.range (2 ^ k - pb.numVars)).map (fun v => "dummy_" ++ toString v) ∧
      res.ME = (List.range (2 ^ k)).map (fun j =>
        1 / (2 * 2 ^ k) * ∑ r ∈ Finset.range (2 * 2 ^ k), Y.getD r 0 * coded α k r j) ∧
      (so = false → res.interactions = none) ∧
      (so = true → ∃ ie, res.interactions = some ie ∧ ie.length = 2 ^ k * (2 ^ k - 1) / 2 ∧
        ∀ a < 2 ^ k, ∀ b < a, ∃ na nb, res.names[a]? = some na ∧ res.names[b]? = some nb ∧
          ie[a * (a - 1) / 2 + b]? = some ((nb, na), 1 / (2 * 2 ^ k) *
            ∑ r ∈ Finset.range (2 * 2 ^ k), Y.getD r 0 * (coded α k r a * coded α k r b))) := by
  obtain ⟨k', pb', hk', he, hpb', -⟩ := C47_extension pb h
  have hkk := leastPower_unique _ _ _ hk hk'
  subst hkk
  have h2 : 2 ^ k ≤ 512 := by
    obtain ⟨k', -, hk9, hk'⟩ := findSmallest_some pb.numVars h
    rw [leastPower_unique _ _ _ hk hk']
    exact (Nat.pow_le_pow_right (by norm_num) hk9).trans (by norm_num)
  have hnum : pb'.numVars = 2 ^ k := by rw [hpb']
  have hnm : pb'.names = pb.names ++
      (List.range (2 ^ k - pb.numVars)).map (fun v => "dummy_" ++ toString v) := by rw [hpb']
  have hnl : pb'.names.length = 2 ^ k := by
    rw [hnm]; have := hk.1; simp; omega
  have hme : (List.range (2 ^ k)).map (fun j => 1 / (2 * ((2 ^ k : Nat) : α)) * dotList Y (matColumn
      ((List.range (2 * 2 ^ k)).map fun r => (List.range (2 ^ k)).map fun j => coded α k r j) j)) =
      (List.range (2 ^ k)).map fun j =>
        1 / (2 * 2 ^ k) * ∑ r ∈ Finset.range (2 * 2 ^ k), Y.getD r 0 * coded α k r j := by
    apply List.map_congr_left
    intro j hj
    rw [matColumn_grid _ _ _ j (List.mem_range.mp hj), dotList_map _ Y hY]
    push_cast
    rfl
  unfold ffAnalyze
  rw [he, pyBind_ok, hnum, ffSize_eq _ k h2 (leastPower_pow k), pyBind_ok,
    generateContrast_eq _ k h2 (leastPower_pow k), pyBind_ok, if_neg (by simp [hY])]
  rw [hme]
  cases so with
  | false => exact ⟨_, rfl, hnm, rfl, fun _ => rfl, fun h => by cases h⟩
  | true =>
    have hie : ffInteractions pb' Y = .ok
        (((List.range (2 ^ k)).flatMap fun col => (List.range col).map fun col2 => (col, col2)).map
          fun p => ((pb'.names.getD p.2 "", pb'.names.getD p.1 ""), 1 / (2 * 2 ^ k) *
            ∑ r ∈ Finset.range (2 * 2 ^ k), Y.getD r 0 * (coded α k r p.1 * coded α k r p.2))) := by
      unfold ffInteractions
      rw [hnum, ffSize_eq _ k h2 (leastPower_pow k), pyBind_ok,
        generateContrast_eq _ k h2 (leastPower_pow k), pyBind_ok]
      apply mapM_ok_of
      rintro ⟨a, b⟩ hp
      obtain ⟨a', ha', hb'⟩ := List.mem_flatMap.mp hp
      obtain ⟨b', hb'', heq⟩ := List.mem_map.mp hb'
      cases heq
      have ha := List.mem_range.mp ha'
      have hb := List.mem_range.mp hb''
      simp only []
      rw [pyGet_ok _ _ (show b < pb'.names.length by omega), pyBind_ok,
        pyGet_ok _ _ (show a < pb'.names.length by omega), pyBind_ok,
        matColumn_grid _ _ _ a ha, matColumn_grid _ _ _ b (by omega)]
      have hz : List.zipWith (· * ·) ((List.range (2 * 2 ^ k)).map fun r => coded α k r a)
          ((List.range (2 * 2 ^ k)).map fun r => coded α k r b) =
          (List.range (2 * 2 ^ k)).map fun r => coded α k r a * coded α k r b := by
        rw [List.zipWith_map, List.zipWith_self]
      rw [hz, if_neg (by simp [hY]), dotList_map _ Y hY]
      push_cast
      simp [List.getD, List.getElem?_eq_getElem (show b < pb'.names.length by omega),
        List.getElem?_eq_getElem (show a < pb'.names.length by omega)]
    rw [if_pos rfl, hie, pyBind_ok]
    refine ⟨_, rfl, hnm, rfl, fun h => (by cases h), fun _ => ⟨_, rfl, ?_, ?_⟩⟩
    · rw [List.length_map]
      have := Nat.two_pow_pos k
      by_cases h1 : 2 ^ k = 1
      · rw [h1]; rfl
      · exact (pair_index (2 ^ k) 1 0 (by omega) (by omega)).2
    · intro a ha b hb
      refine ⟨pb'.names[a]'(by omega), pb'.names[b]'(by omega), List.getElem?_eq_getElem _,
        List.getElem?_eq_getElem _, ?_⟩
      rw [List.getElem?_map, (pair_index (2 ^ k) a b ha hb).1]
      simp [List.getD, List.getElem?_eq_getElem (show b < pb'.names.length by omega),
        List.getElem?_eq_getElem (show a < pb'.names.length by omega)]

/-- Outputs of the wrong number are rejected. -/
theorem C45_reject (pb : Problem α) (k : Nat) (Y : List α) (so : Bool) (h : pb.numVars ≤ 512)
    (hk : LeastPower pb.numVars k) (hY : Y.length ≠ 2 * 2 ^ k) :
    ffAnalyze pb Y so = .error .valueError := by
  obtain ⟨k', pb', hk', he, hpb', -⟩ := C47_extension pb h
  have hkk := leastPower_unique _ _ _ hk hk'
  subst hkk
  have h2 : 2 ^ k ≤ 512 := by
    obtain ⟨k', -, hk9, hk'⟩ := findSmallest_some pb.numVars h
    rw [leastPower_unique _ _ _ hk hk']
    exact (Nat.pow_le_pow_right (by norm_num) hk9).trans (by norm_num)
  have hnum : pb'.numVars = 2 ^ k := by rw [hpb']
  unfold ffAnalyze
  rw [he, pyBind_ok, hnum, ffSize_eq _ k h2 (leastPower_pow k), pyBind_ok,
    generateContrast_eq _ k h2 (leastPower_pow k), pyBind_ok, if_pos (by simpa using hY)]

/-- **C45.** Sample, run a model that is linear in the parameters (dummies have coefficient 0), analyse: the
main effect of parameter `j` is half its range times its coefficient; in particular 0 for every dummy. -/
theorem C45_linear (F : Ppf α) (pb : Problem α) (bs : List (α × α)) (k : Nat)
    (hb : pb.bounds = boundsTable bs) (hn : pb.numVars = bs.length) (hd : pb.dists = none)
    (hlegal : ∀ p ∈ bs, p.1 < p.2) (h : pb.numVars ≤ 512) (hk : LeastPower pb.numVars k)
    (hnames : pb.names.length = pb.numVars) (so : Bool)
    (c0 : α) (c : Nat → α) (model : List (Num α) → α)
    (hmodel : ∀ xs : List α, xs.length = 2 ^ k →
      model (xs.map some) = c0 + ∑ j ∈ Finset.range pb.numVars, c j * xs.getD j 0) :
    ∃ out pb' res, ffSample F pb = .ok (out, pb') ∧ ffAnalyze pb' (out.map model) so = .ok res ∧
      res.ME.length = 2 ^ k ∧
      (∀ (j : Nat) (lo hi : α), bs[j]? = some (lo, hi) → res.ME[j]? = some (c j * (hi - lo) / 2)) ∧
      (∀ j, pb.numVars ≤ j → j < 2 ^ k → res.ME[j]? = some 0) := by
  have h2 : 2 ^ k ≤ 512 := by
    obtain ⟨k', -, hk9, hk'⟩ := findSmallest_some pb.numVars h
    rw [leastPower_unique _ _ _ hk hk']
    exact (Nat.pow_le_pow_right (by norm_num) hk9).trans (by norm_num)
  set B : Nat → α × α := fun j => (ffBounds bs k).getD j (0, 1) with hB
  set out : Mat (Num α) := (List.range (2 * 2 ^ k)).map (fun r => (List.range (2 ^ k)).map fun j =>
        some ((B j).1 + (coded α k r j + 1) / 2 * ((B j).2 - (B j).1))) with hout
  set pb' : Problem α := { pb with
        bounds := boundsTable (ffBounds bs k)
        names := pb.names ++ (List.range (2 ^ k - pb.numVars)).map fun v => "dummy_" ++ toString v
        numVars := 2 ^ k
        sampleScaled := true } with hpb'
  have hs : ffSample F pb = .ok (out, pb') := ffSample_eq F pb bs k hb hn hd hlegal h hk
  have hnl : pb'.names.length = pb'.numVars := by
    have := hk.1
    simp [hpb']; omega
  obtain ⟨res, hres, -, hME, -, -⟩ := ffAnalyze_eq pb' k (out.map model) so h2 (leastPower_pow k) hnl
    (by simp [hout])
  have hYr : ∀ r < 2 * 2 ^ k, (out.map model).getD r 0 = c0 + ∑ i ∈ Finset.range pb.numVars,
      c i * ((B i).1 + (coded α k r i + 1) / 2 * ((B i).2 - (B i).1)) := by
    intro r hr
    have : (out.map model).getD r 0 = model ((List.range (2 ^ k)).map fun j =>
        some ((B j).1 + (coded α k r j + 1) / 2 * ((B j).2 - (B j).1))) := by
      simp [hout, List.getD, hr]
    rw [this]
    have hm := hmodel ((List.range (2 ^ k)).map fun j =>
      (B j).1 + (coded α k r j + 1) / 2 * ((B j).2 - (B j).1)) (by simp)
    rw [List.map_map] at hm
    refine hm.trans ?_
    congr 1
    apply Finset.sum_congr rfl
    intro i hi
    have : i < 2 ^ k := lt_of_lt_of_le (Finset.mem_range.mp hi) hk.1
    simp [List.getD, this]
  have hpow : (2 : α) * 2 ^ k ≠ 0 := by positivity
  have key : ∀ j < 2 ^ k, 1 / (2 * 2 ^ k) * ∑ r ∈ Finset.range (2 * 2 ^ k),
      (out.map model).getD r 0 * coded α k r j =
      if j < pb.numVars then c j * ((B j).2 - (B j).1) / 2 else 0 := by
    intro j hj
    rw [Finset.sum_congr rfl fun r hr => by rw [hYr r (Finset.mem_range.mp hr)]]
    have hterm : ∀ r, (c0 + ∑ i ∈ Finset.range pb.numVars,
        c i * ((B i).1 + (coded α k r i + 1) / 2 * ((B i).2 - (B i).1))) * coded α k r j =
        (c0 + ∑ i ∈ Finset.range pb.numVars, c i * (((B i).1 + (B i).2) / 2)) * coded α k r j +
        ∑ i ∈ Finset.range pb.numVars,
          c i * (((B i).2 - (B i).1) / 2) * (coded α k r i * coded α k r j) := by
      intro r
      rw [add_mul, add_mul, add_assoc, Finset.sum_mul, Finset.sum_mul, ← Finset.sum_add_distrib]
      congr 1
      apply Finset.sum_congr rfl
      intro i _
      ring
    simp only [hterm]
    rw [Finset.sum_add_distrib, ← Finset.mul_sum, sum_coded, mul_zero, zero_add, Finset.sum_comm]
    have hin : ∀ i ∈ Finset.range pb.numVars, ∑ r ∈ Finset.range (2 * 2 ^ k),
        c i * (((B i).2 - (B i).1) / 2) * (coded α k r i * coded α k r j) =
        if i = j then c j * (((B j).2 - (B j).1) / 2) * (2 * 2 ^ k) else 0 := by
      intro i hi
      rw [← Finset.mul_sum, sum_coded_mul k i j (lt_of_lt_of_le (Finset.mem_range.mp hi) hk.1) hj]
      split
      · rename_i hij; rw [hij]
      · ring
    rw [Finset.sum_congr rfl hin, Finset.sum_ite_eq']
    simp only [Finset.mem_range]
    split
    · field_simp
    · ring
  refine ⟨out, pb', res, hs, hres, by rw [hME]; simp, ?_, ?_⟩
  · intro j lo hi hj
    have hjn : j < pb.numVars := by rw [hn]; exact (List.getElem?_eq_some_iff.mp hj).1
    have hjk : j < 2 ^ k := lt_of_lt_of_le hjn hk.1
    have hBj : B j = (lo, hi) := by
      simp only [hB, ffBounds, List.getD]
      rw [List.getElem?_append_left (by omega), hj]; rfl
    rw [hME, List.getElem?_map, List.getElem?_range hjk]
    simp only [Option.map_some]
    rw [key j hjk, if_pos hjn, hBj]
  · intro j hjn hjk
    rw [hME, List.getElem?_map, List.getElem?_range hjk]
    simp only [Option.map_some]
    rw [key j hjk, if_neg (by omega)]

/-- The hypotheses of `C45_linear` for three parameters (one dummy) and the model `1 + 2 x + 3 z`. -/
example (F : Ppf ℚ) : ∃ out pb' res,
    ffSample F { names := ["x", "y", "z"], bounds := [[0, 1], [2, 5], [-1, 1]] } = .ok (out, pb') ∧
    ffAnalyze pb' (out.map fun row => 1 + 2 * (row.getD 0 none).getD 0 + 3 * (row.getD 2 none).getD 0)
      true = .ok res ∧
    res.ME[0]? = some 1 ∧ res.ME[2]? = some 3 ∧ res.ME[3]? = some 0 := by
  obtain ⟨out, pb', res, h1, h2, -, h3, h4⟩ := C45_linear F
    { names := ["x", "y", "z"], bounds := [[0, 1], [2, 5], [-1, 1]] } [((0 : ℚ), 1), (2, 5), (-1, 1)] 2
    rfl rfl rfl (by intro p hp; simp at hp; rcases hp with h | h | h <;> rw [h] <;> norm_num)
    (by simp) ⟨by simp, fun k' hk' => by interval_cases k' <;> simp⟩ rfl true 1
    (fun j => if j = 0 then 2 else if j = 2 then 3 else 0)
    (fun row => 1 + 2 * (row.getD 0 none).getD 0 + 3 * (row.getD 2 none).getD 0)
    (by
      intro xs hxs
      match xs, hxs with
      | [a, b, c, d], _ => simp [Finset.sum_range_succ]; ring)
  refine ⟨out, pb', res, h1, h2, ?_, ?_, ?_⟩
  · rw [h3 0 0 1 rfl]; norm_num
  · rw [h3 2 (-1) 1 rfl]; norm_num
  · rw [h4 3 (by simp) (by norm_num)]

/-- **C46.** Changing the outputs by a constant and any combination of products of two coded factors
(`coded` are the signs of the design, C44) leaves every reported main effect unchanged. -/
theorem C46_foldover (pb : Problem α) (k : Nat) (Y Y' : List α) (so : Bool) (h : pb.numVars ≤ 512)
    (hk : LeastPower pb.numVars k) (hnames : pb.names.length = pb.numVars)
    (hY : Y.length = 2 * 2 ^ k) (hY' : Y'.length = 2 * 2 ^ k) (C : Mat α)
    (hC : generateContrast pb.numVars = .ok C) (c : α) (q : Nat → Nat → α)
    (hdiff : ∀ r < 2 * 2 ^ k, ∃ row y, C[r]? = some row ∧ Y[r]? = some y ∧
      Y'[r]? = some (y + c + ∑ a ∈ Finset.range (2 ^ k), ∑ b ∈ Finset.range (2 ^ k),
        q a b * row.getD a 0 * row.getD b 0)) :
    ∃ res res', ffAnalyze pb Y so = .ok res ∧ ffAnalyze pb Y' so = .ok res' ∧ res'.ME = res.ME := by
  rw [generateContrast_eq _ k h hk] at hC
  cases hC
  obtain ⟨res, hres, -, hME, -, -⟩ := ffAnalyze_eq pb k Y so h hk hnames hY
  obtain ⟨res', hres', -, hME', -, -⟩ := ffAnalyze_eq pb k Y' so h hk hnames hY'
  refine ⟨res, res', hres, hres', ?_⟩
  rw [hME, hME']
  apply List.map_congr_left
  intro j hj
  congr 1
  have hval : ∀ r ∈ Finset.range (2 * 2 ^ k), Y'.getD r 0 * coded α k r j =
      Y.getD r 0 * coded α k r j + c * coded α k r j +
      ∑ a ∈ Finset.range (2 ^ k), ∑ b ∈ Finset.range (2 ^ k),
        q a b * (coded α k r a * coded α k r b * coded α k r j) := by
    intro r hr
    obtain ⟨row, y, h1, h2, h3⟩ := hdiff r (Finset.mem_range.mp hr)
    rw [List.getElem?_map, List.getElem?_range (Finset.mem_range.mp hr), Option.map_some,
      Option.some.injEq] at h1
    subst h1
    have e1 : Y.getD r 0 = y := by simp [List.getD, h2]
    have e2 : Y'.getD r 0 = y + c + ∑ a ∈ Finset.range (2 ^ k), ∑ b ∈ Finset.range (2 ^ k),
        q a b * coded α k r a * coded α k r b := by
      simp only [List.getD, h3, Option.getD_some]
      congr 1
      apply Finset.sum_congr rfl
      intro a ha
      apply Finset.sum_congr rfl
      intro b hb
      simp [Finset.mem_range.mp ha, Finset.mem_range.mp hb]
    rw [e1, e2, add_mul, add_mul, Finset.sum_mul]
    congr 1
    apply Finset.sum_congr rfl
    intro a _
    rw [Finset.sum_mul]
    apply Finset.sum_congr rfl
    intro b _
    ring
  rw [Finset.sum_congr rfl hval, Finset.sum_add_distrib, Finset.sum_add_distrib, ← Finset.mul_sum,
    sum_coded, mul_zero, add_zero, Finset.sum_comm]
  have : ∀ a ∈ Finset.range (2 ^ k), ∑ r ∈ Finset.range (2 * 2 ^ k), ∑ b ∈ Finset.range (2 ^ k),
      q a b * (coded α k r a * coded α k r b * coded α k r j) = 0 := by
    intro a _
    rw [Finset.sum_comm]
    apply Finset.sum_eq_zero
    intro b _
    rw [← Finset.mul_sum, sum_coded_mul3, mul_zero]
  rw [Finset.sum_eq_zero this, add_zero]

/-- The hypotheses of `C46_foldover` for two factors: outputs that differ by a constant and a product. -/
example : ∃ res res',
    ffAnalyze { names := ["x", "y"], bounds := [[(0 : ℚ), 1], [0, 1]] } [(3 : ℚ), 1, 4, 1] true = .ok res ∧
    ffAnalyze { names := ["x", "y"], bounds := [[(0 : ℚ), 1], [0, 1]] } [(3 : ℚ) + 7 + 5, 1 + 7 - 5, 4 + 7 + 5,
      1 + 7 - 5] true = .ok res' ∧ res'.ME = res.ME := by
  refine C46_foldover _ 1 _ _ true (by simp) ⟨by simp, fun k' hk' => by interval_cases k'; simp⟩ rfl rfl rfl
    [[1, 1], [1, -1], [-1, -1], [-1, 1]] (by decide +kernel) 7
    (fun a b => if a = 0 ∧ b = 1 then 5 else 0) ?_
  intro r hr
  norm_num at hr
  interval_cases r <;> refine ⟨_, _, rfl, rfl, ?_⟩ <;> simp [Finset.sum_range_succ] <;> norm_num

/-- **C71.** Interactions.  For outputs that are a second-order polynomial in the coded factors, the
interaction list names every unordered pair once (the pair `(b, a)`, `b < a`, at position `a(a-1)/2 + b`), and
its value is the sum of the coefficients of all pairs with the same alias, i.e. the same exclusive-or of the
factor numbers; constants and main effects do not enter. -/
theorem C71_interactions (pb : Problem α) (k : Nat) (Y : List α) (h : pb.numVars ≤ 512)
    (hk : LeastPower pb.numVars k) (hnames : pb.names.length = pb.numVars) (hY : Y.length = 2 * 2 ^ k)
    (c0 : α) (c : Nat → α) (q : Nat → Nat → α)
    (hpoly : ∀ r < 2 * 2 ^ k, Y[r]? = some (c0 + (∑ j ∈ Finset.range (2 ^ k), c j * coded α k r j) +
      ∑ i ∈ Finset.range (2 ^ k), ∑ j ∈ Finset.range i, q i j * (coded α k r i * coded α k r j))) :
    ∃ res ie, ffAnalyze pb Y true = .ok res ∧ res.interactions = some ie ∧
      ie.length = 2 ^ k * (2 ^ k - 1) / 2 ∧
      ∀ a < 2 ^ k, ∀ b < a, ∃ na nb, res.names[a]? = some na ∧ res.names[b]? = some nb ∧
        ie[a * (a - 1) / 2 + b]? = some ((nb, na), ∑ i ∈ Finset.range (2 ^ k), ∑ j ∈ Finset.range i,
          if i ^^^ j = a ^^^ b then q i j else 0) := by
  obtain ⟨res, hres, -, -, -, hie⟩ := ffAnalyze_eq pb k Y true h hk hnames hY
  obtain ⟨ie, h1, h2, h3⟩ := hie rfl
  refine ⟨res, ie, hres, h1, h2, ?_⟩
  intro a ha b hb
  obtain ⟨na, nb, h4, h5, h6⟩ := h3 a ha b hb
  refine ⟨na, nb, h4, h5, ?_⟩
  rw [h6]
  congr 2
  have hpow : (2 : α) * 2 ^ k ≠ 0 := by positivity
  have hval : ∀ r ∈ Finset.range (2 * 2 ^ k), Y.getD r 0 * (coded α k r a * coded α k r b) =
      c0 * (coded α k r a * coded α k r b) +
      (∑ j ∈ Finset.range (2 ^ k), c j * (coded α k r j * coded α k r a * coded α k r b)) +
      ∑ i ∈ Finset.range (2 ^ k), ∑ j ∈ Finset.range i,
        q i j * (coded α k r i * coded α k r j * (coded α k r a * coded α k r b)) := by
    intro r hr
    have e1 := hpoly r (Finset.mem_range.mp hr)
    simp only [List.getD, e1, Option.getD_some]
    rw [add_mul, add_mul, Finset.sum_mul, Finset.sum_mul]
    congr 1
    · congr 1
      apply Finset.sum_congr rfl
      intro j _
      ring
    · apply Finset.sum_congr rfl
      intro i _
      rw [Finset.sum_mul]
      apply Finset.sum_congr rfl
      intro j _
      ring
  have hquad : ∀ i ∈ Finset.range (2 ^ k), ∀ j ∈ Finset.range i, ∑ r ∈ Finset.range (2 * 2 ^ k),
      q i j * (coded α k r i * coded α k r j * (coded α k r a * coded α k r b)) =
      (2 * 2 ^ k) * if i ^^^ j = a ^^^ b then q i j else 0 := by
    intro i hi j hj
    have hi := Finset.mem_range.mp hi
    have hj := Finset.mem_range.mp hj
    rw [← Finset.mul_sum, sum_range_fold]
    have : ∀ r ∈ Finset.range (2 ^ k), coded α k r i * coded α k r j * (coded α k r a * coded α k r b) +
        coded α k (2 ^ k + r) i * coded α k (2 ^ k + r) j *
          (coded α k (2 ^ k + r) a * coded α k (2 ^ k + r) b) =
        2 * (sign α k r (i ^^^ j) * sign α k r (a ^^^ b)) := by
      intro r hr
      have hr := Finset.mem_range.mp hr
      rw [coded_low k r i hr, coded_low k r j hr, coded_low k r a hr, coded_low k r b hr, coded_high,
        coded_high, coded_high, coded_high, ← sign_xor, ← sign_xor]
      ring
    rw [Finset.sum_congr rfl this, ← Finset.mul_sum,
      sum_sign_mul k _ _ (Nat.xor_lt_two_pow hi (by omega)) (Nat.xor_lt_two_pow ha (by omega))]
    split <;> ring
  rw [Finset.sum_congr rfl hval, Finset.sum_add_distrib, Finset.sum_add_distrib, ← Finset.mul_sum,
    sum_coded_mul k a b ha (by omega), if_neg (by omega), mul_zero, zero_add]
  have hlin : ∑ r ∈ Finset.range (2 * 2 ^ k), ∑ j ∈ Finset.range (2 ^ k),
      c j * (coded α k r j * coded α k r a * coded α k r b) = 0 := by
    rw [Finset.sum_comm]
    apply Finset.sum_eq_zero
    intro j _
    rw [← Finset.mul_sum, sum_coded_mul3, mul_zero]
  rw [hlin, zero_add, Finset.sum_comm]
  have : ∀ i ∈ Finset.range (2 ^ k), ∑ r ∈ Finset.range (2 * 2 ^ k), ∑ j ∈ Finset.range i,
      q i j * (coded α k r i * coded α k r j * (coded α k r a * coded α k r b)) =
      (2 * 2 ^ k) * ∑ j ∈ Finset.range i, if i ^^^ j = a ^^^ b then q i j else 0 := by
    intro i hi
    rw [Finset.sum_comm, Finset.sum_congr rfl (hquad i hi), Finset.mul_sum]
  rw [Finset.sum_congr rfl this, ← Finset.mul_sum, ← mul_assoc, one_div, inv_mul_cancel₀ hpow, one_mul]

/-- The hypotheses of `C71_interactions` for four factors with the products of factors 1, 0 and of factors
3, 2, which have the same alias: both pairs are reported with the sum of the two coefficients. -/
example (Y : List ℚ)
    (hY : Y = (List.range 8).map fun r => 10 + 2 * coded ℚ 2 r 0 + 3 * (coded ℚ 2 r 1 * coded ℚ 2 r 0) +
      4 * (coded ℚ 2 r 3 * coded ℚ 2 r 2)) :
    ∃ res ie, ffAnalyze { names := ["a", "b", "c", "d"], bounds := List.replicate 4 [(0 : ℚ), 1] } Y true =
        .ok res ∧ res.interactions = some ie ∧ ie[0]? = some (("a", "b"), 7) ∧
        ie[5]? = some (("c", "d"), 7) ∧ ie[1]? = some (("a", "c"), 0) := by
  obtain ⟨res, ie, h1, h2, -, h3⟩ := C71_interactions
    { names := ["a", "b", "c", "d"], bounds := List.replicate 4 [(0 : ℚ), 1] } 2 Y (by simp)
    ⟨by simp, fun k' hk' => by interval_cases k' <;> simp⟩ rfl (by rw [hY]; rfl) 10
    (fun j => if j = 0 then 2 else 0)
    (fun i j => if i = 1 ∧ j = 0 then 3 else if i = 3 ∧ j = 2 then 4 else 0)
    (by
      intro r hr
      rw [hY, List.getElem?_map, List.getElem?_range (show r < 8 from hr)]
      simp [Finset.sum_range_succ]
      ring)
  obtain ⟨res', hr', hn, -⟩ := ffAnalyze_eq
    { names := ["a", "b", "c", "d"], bounds := List.replicate 4 [(0 : ℚ), 1] } 2 Y true (by simp)
    ⟨by simp, fun k' hk' => by interval_cases k' <;> simp⟩ rfl (by rw [hY]; rfl)
  rw [h1] at hr'
  cases hr'
  have hn : res.names = ["a", "b", "c", "d"] := hn
  refine ⟨res, ie, h1, h2, ?_, ?_, ?_⟩
  · obtain ⟨na, nb, e1, e2, e3⟩ := h3 1 (by norm_num) 0 (by norm_num)
    rw [hn] at e1 e2
    cases e1; cases e2
    rw [e3]
    norm_num [Finset.sum_range_succ, show 3 ^^^ 2 = 1 from rfl]
  · obtain ⟨na, nb, e1, e2, e3⟩ := h3 3 (by norm_num) 2 (by norm_num)
    rw [hn] at e1 e2
    cases e1; cases e2
    rw [e3]
    norm_num [Finset.sum_range_succ, show 3 ^^^ 2 = 1 from rfl]
  · obtain ⟨na, nb, e1, e2, e3⟩ := h3 2 (by norm_num) 0 (by norm_num)
    rw [hn] at e1 e2
    cases e1; cases e2
    rw [e3]
    norm_num [Finset.sum_range_succ, show 3 ^^^ 2 = 1 from rfl]

end analysis

end SALib
