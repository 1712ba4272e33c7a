import Verif.Lemmas.FloatFracFact
import Verif.Props.FracFact
import Verif.Props.FloatDgsm

/-! # Effects of the fractional factorial design with their rounding (C147) -/

namespace SALib
open Spec

variable {F : Fmt}

/-- The reported effects, one by one. -/
theorem ffAnalyzeFl_eq (orderM : Nat → Nat → SumTree) (order : Nat → SumTree) (pb : Problem ℚ) (k : Nat)
    (Y : List ℚ) (so : Bool) (h : pb.numVars ≤ 512)
    (hk : LeastPower pb.numVars k) (hnames : pb.names.length = pb.numVars)
    (hY : Y.length = 2 * 2 ^ k) :
    ∃ res, ffAnalyzeFl F orderM order pb Y so = .ok res ∧
      res.names = pb.names ++ (List.range (2 ^ k - pb.numVars)).map (fun v => "dummy_" ++ toString v) ∧
      res.ME = (List.range (2 ^ k)).map (fun j => ffEffectFl F (orderM j Y.length) (2 ^ k) Y
        ((List.range (2 * 2 ^ k)).map fun r => coded ℚ k r j)) ∧
      (so = false → res.interactions = none) ∧
      (so = true → ∃ ie, res.interactions = some ie ∧ ie.length = 2 ^ k * (2 ^ k - 1) / 2 ∧
        ∀ a < 2 ^ k, ∀ b < a, ∃ na nb, res.names[a]? = some na ∧ res.names[b]? = some nb ∧
          ie[a * (a - 1) / 2 + b]? = some ((nb, na), ffEffectFl F (order Y.length) (2 ^ k) Y
            ((List.range (2 * 2 ^ k)).map fun r => coded ℚ k r a * coded ℚ k r b))) := by
  obtain ⟨k', pb', hk', he, hpb', -⟩ := C47_extension pb h
  have hkk := leastPower_unique _ _ _ hk hk'
  subst hkk
  have h2 : 2 ^ k ≤ 512 := by
    obtain ⟨k', -, hk9, hk'⟩ := findSmallest_some pb.numVars h
    rw [leastPower_unique _ _ _ hk hk']
    exact (Nat.pow_le_pow_right (by norm_num) hk9).trans (by norm_num)
  have hnum : pb'.numVars = 2 ^ k := by rw [hpb']
  have hnm : pb'.names = pb.names ++
      (List.range (2 ^ k - pb.numVars)).map (fun v => "dummy_" ++ toString v) := by rw [hpb']
  have hnl : pb'.names.length = 2 ^ k := by
    rw [hnm]; have := hk.1; simp; omega
  have hme : (List.range (2 ^ k)).map (fun j => ffEffectFl F (orderM j Y.length) (2 ^ k) Y (matColumn
      ((List.range (2 * 2 ^ k)).map fun r => (List.range (2 ^ k)).map fun j => coded ℚ k r j) j)) =
      (List.range (2 ^ k)).map fun j => ffEffectFl F (orderM j Y.length) (2 ^ k) Y
        ((List.range (2 * 2 ^ k)).map fun r => coded ℚ k r j) := by
    apply List.map_congr_left
    intro j hj
    rw [matColumn_grid _ _ _ j (List.mem_range.mp hj)]
  unfold ffAnalyzeFl
  rw [he, pyBind_ok, hnum, ffSize_eq _ k h2 (leastPower_pow k), pyBind_ok,
    generateContrast_eq _ k h2 (leastPower_pow k), pyBind_ok, if_neg (by simp [hY])]
  rw [hme]
  cases so with
  | false => exact ⟨_, rfl, hnm, rfl, fun _ => rfl, fun h => by cases h⟩
  | true =>
    have hie : ffInteractionsFl F order pb' Y = .ok
        (((List.range (2 ^ k)).flatMap fun col => (List.range col).map fun col2 => (col, col2)).map
          fun p => ((pb'.names.getD p.2 "", pb'.names.getD p.1 ""), ffEffectFl F (order Y.length) (2 ^ k) Y
            ((List.range (2 * 2 ^ k)).map fun r => coded ℚ k r p.1 * coded ℚ k r p.2))) := by
      unfold ffInteractionsFl
      rw [hnum, ffSize_eq _ k h2 (leastPower_pow k), pyBind_ok,
        generateContrast_eq _ k h2 (leastPower_pow k), pyBind_ok]
      apply mapM_ok_of
      rintro ⟨a, b⟩ hp
      obtain ⟨a', ha', hb'⟩ := List.mem_flatMap.mp hp
      obtain ⟨b', hb'', heq⟩ := List.mem_map.mp hb'
      cases heq
      have ha := List.mem_range.mp ha'
      have hb := List.mem_range.mp hb''
      simp only []
      rw [pyGet_ok _ _ (show b < pb'.names.length by omega), pyBind_ok,
        pyGet_ok _ _ (show a < pb'.names.length by omega), pyBind_ok,
        matColumn_grid _ _ _ a ha, matColumn_grid _ _ _ b (by omega)]
      have hz : List.zipWith (· * ·) ((List.range (2 * 2 ^ k)).map fun r => coded ℚ k r a)
          ((List.range (2 * 2 ^ k)).map fun r => coded ℚ k r b) =
          (List.range (2 * 2 ^ k)).map fun r => coded ℚ k r a * coded ℚ k r b := by
        rw [List.zipWith_map, List.zipWith_self]
      rw [hz, if_neg (by simp [hY])]
      simp [List.getD, List.getElem?_eq_getElem (show b < pb'.names.length by omega),
        List.getElem?_eq_getElem (show a < pb'.names.length by omega)]
    rw [if_pos rfl, hie, pyBind_ok]
    refine ⟨_, rfl, hnm, rfl, fun h => (by cases h), fun _ => ⟨_, rfl, ?_, ?_⟩⟩
    · rw [List.length_map]
      have := Nat.two_pow_pos k
      by_cases h1 : 2 ^ k = 1
      · rw [h1]; rfl
      · exact (pair_index (2 ^ k) 1 0 (by omega) (by omega)).2
    · intro a ha b hb
      refine ⟨pb'.names[a]'(by omega), pb'.names[b]'(by omega), List.getElem?_eq_getElem _,
        List.getElem?_eq_getElem _, ?_⟩
      rw [List.getElem?_map, (pair_index (2 ^ k) a b ha hb).1]
      simp [List.getD, List.getElem?_eq_getElem (show b < pb'.names.length by omega),
        List.getElem?_eq_getElem (show a < pb'.names.length by omega)]

/-- Every reported effect is the exact contrast of the outputs up to the rounding of the additions (and half
the smallest number, should the scaling underflow), whatever the order of the additions. -/
theorem C147_error (hp : 1 ≤ F.p) (orderM : Nat → Nat → SumTree) (order : Nat → SumTree)
    (hoM : ∀ j, SumOrder (orderM j)) (ho : SumOrder order) (pb : Problem ℚ) (k : Nat)
    (he : F.emin ≤ -((k + 1 : ℕ) : ℤ)) (Y : List ℚ) (so : Bool) (h : pb.numVars ≤ 512)
    (hk : LeastPower pb.numVars k) (hnames : pb.names.length = pb.numVars)
    (hY : Y.length = 2 * 2 ^ k) (hfl : ∀ y ∈ Y, IsFloat F y) :
    ∃ res, ffAnalyzeFl F orderM order pb Y so = .ok res ∧
      res.names = pb.names ++ (List.range (2 ^ k - pb.numVars)).map (fun v => "dummy_" ++ toString v) ∧
      res.ME.length = 2 ^ k ∧
      (∀ j < 2 ^ k, ∃ e, res.ME[j]? = some e ∧
        |e - 1 / (2 * 2 ^ k) * ∑ r ∈ Finset.range (2 * 2 ^ k), Y.getD r 0 * coded ℚ k r j| ≤
          ((1 + (2 : ℚ) ^ (-(F.p : ℤ))) ^ (2 * 2 ^ k - 1) - 1) * ((Y.map (|·|)).sum / (2 * 2 ^ k)) +
            (2 : ℚ) ^ (F.emin - 1)) ∧
      (so = false → res.interactions = none) ∧
      (so = true → ∃ ie, res.interactions = some ie ∧ ie.length = 2 ^ k * (2 ^ k - 1) / 2 ∧
        ∀ a < 2 ^ k, ∀ b < a, ∃ na nb e, res.names[a]? = some na ∧ res.names[b]? = some nb ∧
          ie[a * (a - 1) / 2 + b]? = some ((nb, na), e) ∧
          |e - 1 / (2 * 2 ^ k) *
              ∑ r ∈ Finset.range (2 * 2 ^ k), Y.getD r 0 * (coded ℚ k r a * coded ℚ k r b)| ≤
            ((1 + (2 : ℚ) ^ (-(F.p : ℤ))) ^ (2 * 2 ^ k - 1) - 1) * ((Y.map (|·|)).sum / (2 * 2 ^ k)) +
              (2 : ℚ) ^ (F.emin - 1)) := by
  have hne : Y ≠ [] := by
    rintro rfl
    have := Nat.two_pow_pos k
    simp at hY
  have key : ∀ (ord : Nat → SumTree), SumOrder ord → ∀ f : Nat → ℚ, (∀ r, f r = 1 ∨ f r = -1) →
      |ffEffectFl F (ord Y.length) (2 ^ k) Y ((List.range (2 * 2 ^ k)).map f) -
        1 / (2 * 2 ^ k) * ∑ r ∈ Finset.range (2 * 2 ^ k), Y.getD r 0 * f r| ≤
          ((1 + (2 : ℚ) ^ (-(F.p : ℤ))) ^ (2 * 2 ^ k - 1) - 1) * ((Y.map (|·|)).sum / (2 * 2 ^ k)) +
            (2 : ℚ) ^ (F.emin - 1) := by
    intro ord hord f hf
    have := ffEffectFl_err hp k he hord hne (x := (List.range (2 * 2 ^ k)).map f) (by simp [hY]) hfl
      (by simp only [List.mem_map]; rintro _ ⟨r, -, rfl⟩; exact hf r)
    rw [dotList_map _ Y hY] at this
    rw [hY] at this ⊢
    exact this
  obtain ⟨res, hres, hn, hme, hi0, hi1⟩ := ffAnalyzeFl_eq (F := F) orderM order pb k Y so h hk hnames hY
  refine ⟨res, hres, hn, by simp [hme], ?_, hi0, ?_⟩
  · intro j hj
    refine ⟨_, by rw [hme, List.getElem?_map, List.getElem?_range hj]; rfl, ?_⟩
    exact key _ (hoM j) _ fun r => coded_pm k r j
  · intro hso
    obtain ⟨ie, hie, hlen, hall⟩ := hi1 hso
    refine ⟨ie, hie, hlen, fun a ha b hb => ?_⟩
    obtain ⟨na, nb, h1, h2, h3⟩ := hall a ha b hb
    refine ⟨na, nb, _, h1, h2, h3, key _ ho _ fun r => ?_⟩
    rcases coded_pm (α := ℚ) k r a with ea | ea <;> rcases coded_pm (α := ℚ) k r b with eb | eb <;>
      rw [ea, eb] <;> simp

/-- Outputs that are multiples of one power of two and not too large together give effects without any
rounding: what is reported is what exact arithmetic gives. -/
theorem C147_exact (hp : 1 ≤ F.p) (orderM : Nat → Nat → SumTree) (order : Nat → SumTree)
    (hoM : ∀ j, SumOrder (orderM j)) (ho : SumOrder order) (pb : Problem ℚ) (k : Nat)
    (he : F.emin ≤ -((k + 1 : ℕ) : ℤ)) (Y : List ℚ) (so : Bool) (h : pb.numVars ≤ 512)
    (hk : LeastPower pb.numVars k) (hnames : pb.names.length = pb.numVars)
    (hY : Y.length = 2 * 2 ^ k) (e : ℤ) (hee : F.emin + (k + 1 : ℕ) ≤ e)
    (hm : ∀ y ∈ Y, ∃ m : ℤ, y = m * (2 : ℚ) ^ e) (hs : (Y.map (|·|)).sum ≤ (2 : ℚ) ^ (e + F.p)) :
    ∃ res res', ffAnalyzeFl F orderM order pb Y so = .ok res ∧ ffAnalyze pb Y so = .ok res' ∧
      res.names = res'.names ∧ res.ME = res'.ME ∧ (so = false → res.interactions = none) ∧
      (so = true → ∃ ie ie', res.interactions = some ie ∧ res'.interactions = some ie' ∧
        ie.length = 2 ^ k * (2 ^ k - 1) / 2 ∧ ie'.length = ie.length ∧
        ∀ a < 2 ^ k, ∀ b < a, ie[a * (a - 1) / 2 + b]? = ie'[a * (a - 1) / 2 + b]?) := by
  have hne : Y ≠ [] := by
    rintro rfl
    have := Nat.two_pow_pos k
    simp at hY
  have key : ∀ (ord : Nat → SumTree), SumOrder ord → ∀ f : Nat → ℚ, (∀ r, f r = 1 ∨ f r = -1) →
      ffEffectFl F (ord Y.length) (2 ^ k) Y ((List.range (2 * 2 ^ k)).map f) =
        1 / (2 * 2 ^ k) * ∑ r ∈ Finset.range (2 * 2 ^ k), Y.getD r 0 * f r := by
    intro ord hord f hf
    have := ffEffectFl_exact hp k he hord hne (x := (List.range (2 * 2 ^ k)).map f) (by simp [hY]) hee hm hs
      (by simp only [List.mem_map]; rintro _ ⟨r, -, rfl⟩; exact hf r)
    rwa [dotList_map _ Y hY] at this
  obtain ⟨res, hres, hn, hme, hi0, hi1⟩ := ffAnalyzeFl_eq (F := F) orderM order pb k Y so h hk hnames hY
  obtain ⟨res', hres', hn', hme', -, hi1'⟩ := ffAnalyze_eq pb k Y so h hk hnames hY
  refine ⟨res, res', hres, hres', by rw [hn, hn'], ?_, hi0, ?_⟩
  · rw [hme, hme']
    refine List.map_congr_left fun j _ => ?_
    exact key _ (hoM j) _ fun r => coded_pm k r j
  · intro hso
    obtain ⟨ie, hie, hlen, hall⟩ := hi1 hso
    obtain ⟨ie', hie', hlen', hall'⟩ := hi1' hso
    refine ⟨ie, ie', hie, hie', hlen, hlen'.trans hlen.symm, fun a ha b hb => ?_⟩
    obtain ⟨na, nb, h1, h2, h3⟩ := hall a ha b hb
    obtain ⟨na', nb', h1', h2', h3'⟩ := hall' a ha b hb
    rw [hn', ← hn, h1] at h1'
    rw [hn', ← hn, h2] at h2'
    cases h1'
    cases h2'
    rw [h3, h3', key order ho (fun r => coded ℚ k r a * coded ℚ k r b)]
    intro r
    rcases coded_pm (α := ℚ) k r a with ea | ea <;> rcases coded_pm (α := ℚ) k r b with eb | eb <;>
      rw [ea, eb] <;> simp

/-- Outputs of the wrong number are rejected. -/
theorem C147_reject (orderM : Nat → Nat → SumTree) (order : Nat → SumTree) (pb : Problem ℚ) (k : Nat)
    (Y : List ℚ) (so : Bool) (h : pb.numVars ≤ 512) (hk : LeastPower pb.numVars k)
    (hY : Y.length ≠ 2 * 2 ^ k) : ffAnalyzeFl F orderM order pb Y so = .error .valueError := by
  obtain ⟨k', pb', hk', he, hpb', -⟩ := C47_extension pb h
  have hkk := leastPower_unique _ _ _ hk hk'
  subst hkk
  have h2 : 2 ^ k ≤ 512 := by
    obtain ⟨k', -, hk9, hk'⟩ := findSmallest_some pb.numVars h
    rw [leastPower_unique _ _ _ hk hk']
    exact (Nat.pow_le_pow_right (by norm_num) hk9).trans (by norm_num)
  have hnum : pb'.numVars = 2 ^ k := by rw [hpb']
  unfold ffAnalyzeFl
  rw [he, pyBind_ok, hnum, ffSize_eq _ k h2 (leastPower_pow k), pyBind_ok,
    generateContrast_eq _ k h2 (leastPower_pow k), pyBind_ok, if_pos (by simpa using hY)]

/-- Three inputs need eight outputs, not six. -/
example :
    let pb : Problem ℚ := { names := ["x", "y", "z"], bounds := boundsTable [(0, 1), (2, 5), (-1, 3)] }
    pb.numVars ≤ 512 ∧ LeastPower pb.numVars 2 ∧ ([1, 2, 3, 4, 5, 6] : List ℚ).length ≠ 2 * 2 ^ 2 :=
  ⟨by decide, ⟨by decide, by decide⟩, by decide⟩

/-- The rounding can be seen: for a model whose output is always `1 + 2 ^ -52`, three inputs and additions from
left to right, the first input is reported to have an effect of `2 ^ -54`, where exact arithmetic gives 0. -/
theorem C147_constant_fail :
    let pb : Problem ℚ := { names := ["x", "y", "z"], bounds := boundsTable [(0, 1), (0, 1), (0, 1)] }
    let Y : List ℚ := List.replicate 8 (1 + 1 / 2 ^ 52)
    (∀ y ∈ Y, IsFloat binary64 y) ∧
    (ffAnalyzeFl binary64 (fun _ => leftOrder) leftOrder pb Y false).map FfResult.ME =
      .ok [1 / 2 ^ 54, 0, 0, 0] ∧
    (ffAnalyze pb Y false).map FfResult.ME = .ok [0, 0, 0, 0] := by
  refine ⟨?_, by decide +kernel, by decide +kernel⟩
  intro y hy
  rw [List.eq_of_mem_replicate hy]
  exact ⟨2 ^ 52 + 1, -52, by decide, by decide, by norm_num⟩

/-- Three inputs, outputs with the full precision, additions from left to right. -/
example :
    let pb : Problem ℚ := { names := ["x", "y", "z"], bounds := boundsTable [(0, 1), (2, 5), (-1, 3)] }
    let Y : List ℚ := (List.range 8).map fun r => fl binary64 ((r : ℚ) ^ 2 / 10)
    1 ≤ binary64.p ∧ SumOrder leftOrder ∧ binary64.emin ≤ -((2 + 1 : ℕ) : ℤ) ∧ pb.numVars ≤ 512 ∧
      LeastPower pb.numVars 2 ∧ pb.names.length = pb.numVars ∧ Y.length = 2 * 2 ^ 2 ∧
      (∀ y ∈ Y, IsFloat binary64 y) ∧ Y.getD 1 0 ≠ 1 / 10 := by
  refine ⟨by decide, leftOrder_sumOrder, by decide, by decide, ⟨by decide, by decide⟩, by decide, by decide, ?_,
    by decide +kernel⟩
  simp only [List.mem_map]
  rintro _ ⟨r, -, rfl⟩
  exact isFloat_fl (by decide) _

/-- Outputs that are multiples of a quarter. -/
example :
    let Y : List ℚ := (List.range 8).map fun r : ℕ => (r : ℚ) ^ 2 / 4
    binary64.emin + (2 + 1 : ℕ) ≤ -2 ∧ (∀ y ∈ Y, ∃ m : ℤ, y = m * (2 : ℚ) ^ (-2 : ℤ)) ∧
      (Y.map (|·|)).sum ≤ (2 : ℚ) ^ (-2 + (binary64.p : ℤ)) := by
  refine ⟨by decide, ?_, by decide +kernel⟩
  simp only [List.mem_map]
  rintro _ ⟨r, -, rfl⟩
  exact ⟨(r : ℤ) ^ 2, by push_cast; norm_num; ring⟩

end SALib
