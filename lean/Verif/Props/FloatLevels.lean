import Verif.Lemmas.FloatExcess
import Verif.Props.Rsa
import Verif.Props.Tables
import Mathlib.Data.List.NodupEquivFin
import Mathlib.Data.Rat.Floor

/-! # How many slices and bins PAWN and RSA really use (C129) -/

namespace SALib

variable {F : Fmt}

/-! ### Quantiles at any level -/

theorem quantileAt_level (l : List ℚ) (s S : Nat) (hS : 0 < S) : quantileAt l ((s : ℚ) / S) = npQuantile l s S := by
  have hS' : (0 : ℚ) < S := by exact_mod_cast hS
  set a := s * (l.length - 1) with ha
  have hv : (s : ℚ) / S * ((l.length - 1 : Nat) : ℚ) = (a : ℚ) / S := by
    rw [ha]; push_cast; ring
  have hmod : (a : ℚ) = S * ((a / S : Nat) : ℚ) + ((a % S : Nat) : ℚ) := by
    exact_mod_cast (Nat.div_add_mod a S).symm
  have hlt : ((a % S : Nat) : ℚ) < S := by exact_mod_cast Nat.mod_lt a hS
  have hfr : (a : ℚ) / S - ((a / S : Nat) : ℚ) = ((a % S : Nat) : ℚ) / S := by
    rw [eq_div_iff hS'.ne', sub_mul, div_mul_cancel₀ _ hS'.ne']; linarith
  have hfl : ⌊(a : ℚ) / S⌋ = ((a / S : Nat) : ℤ) := by
    rw [Rat.floor_natCast_div_natCast]; rfl
  unfold quantileAt npQuantile
  simp only []
  rw [hv, hfl, Int.toNat_natCast, Int.cast_natCast, hfr]

theorem level_fraction (q : ℚ) (h0 : 0 ≤ q) (c : Nat) (hc : 0 < c) :
    q = ((q.num.toNat * c : Nat) : ℚ) / ((q.den * c : Nat) : ℚ) := by
  have hn : 0 ≤ q.num := Rat.num_nonneg.mpr h0
  have hc' : (c : ℚ) ≠ 0 := by positivity
  have h1 : ((q.num.toNat : Nat) : ℚ) = (q.num : ℚ) := by exact_mod_cast Int.toNat_of_nonneg hn
  push_cast
  rw [h1, mul_div_mul_right _ _ hc']
  exact (Rat.num_div_den q).symm

theorem two_levels (q r : ℚ) (h0 : 0 ≤ q) (h1 : 0 ≤ r) :
    ∃ a b c : Nat, 0 < c ∧ q = (a : ℚ) / c ∧ r = (b : ℚ) / c := by
  refine ⟨q.num.toNat * r.den, r.num.toNat * q.den, q.den * r.den, Nat.mul_pos q.den_pos r.den_pos, level_fraction q h0 r.den r.den_pos, ?_⟩
  have := level_fraction r h1 q.den q.den_pos
  rw [mul_comm r.den q.den] at this
  exact this

theorem quantileAt_mono (l : List ℚ) (hl : l ≠ []) (q r : ℚ) (h0 : 0 ≤ q) (hqr : q ≤ r) (h1 : r ≤ 1) :
    quantileAt l q ≤ quantileAt l r := by
  obtain ⟨a, b, c, hc, rfl, rfl⟩ := two_levels q r h0 (h0.trans hqr)
  have hc' : (0 : ℚ) < c := by exact_mod_cast hc
  rw [div_le_div_iff_of_pos_right hc'] at hqr
  rw [div_le_one hc'] at h1
  rw [quantileAt_level _ _ _ hc, quantileAt_level _ _ _ hc]
  exact npQuantile_mono l hl _ _ _ hc (by exact_mod_cast hqr) (by exact_mod_cast h1)

theorem quantileAt_zero (l : List ℚ) : quantileAt l 0 = (npSort l).getD 0 0 := by
  have := quantileAt_level l 0 1 one_pos
  rw [Nat.cast_zero, zero_div] at this
  rw [this, npQuantile_zero]

theorem quantileAt_one (l : List ℚ) (hl : l ≠ []) : quantileAt l 1 = (npSort l).getD (l.length - 1) 0 := by
  have := quantileAt_level l 1 1 one_pos
  rw [Nat.cast_one, div_one] at this
  rw [this, npQuantile_one l hl 1 one_pos]

/-- Below level 1 the quantile is below a largest value that occurs once. -/
theorem quantileAt_lt (l : List ℚ) (x : ℚ) (hx : l.count x = 1) (hmax : ∀ y ∈ l, y ≤ x) (h2 : 2 ≤ l.length) (q : ℚ)
    (h0 : 0 ≤ q) (h1 : q < 1) : quantileAt l q < x := by
  have hl : l ≠ [] := by rintro rfl; simp at h2
  have hpos := q.den_pos
  have hpos' : (0 : ℚ) < (q.den : ℚ) := by exact_mod_cast hpos
  have e := level_fraction q h0 1 one_pos
  rw [mul_one, mul_one] at e
  have hlt : q.num.toNat < q.den := by
    rw [e, div_lt_one hpos'] at h1
    exact_mod_cast h1
  rw [e, quantileAt_level _ _ _ hpos, npQuantile_eq l hl _ _ hlt.le]
  set k := q.num.toNat * (l.length - 1) / q.den with hk
  have hkn : k < l.length - 1 := by
    rw [hk, Nat.div_lt_iff_lt_mul hpos, mul_comm (l.length - 1)]
    exact Nat.mul_lt_mul_of_pos_right hlt (by omega)
  have hmem : ∀ j, sortedAt l j ≤ x := fun j => hmax _ (npSort_mem l _ (by omega) 0)
  have hk1 : sortedAt l k < x := by
    rcases lt_or_eq_of_le (hmem k) with h | h
    · exact h
    · exfalso
      have hk2 : sortedAt l (k + 1) = x :=
        le_antisymm (hmem _) (h ▸ sortedAt_mono l hl k (k + 1) (by omega))
      have hdup : (npSort l).Duplicate x := by
        rw [List.duplicate_iff_exists_distinct_get]
        refine ⟨⟨k, by rw [npSort_length]; omega⟩, ⟨k + 1, by rw [npSort_length]; omega⟩, by simp, ?_, ?_⟩
        · rw [List.get_eq_getElem, ← h]
          unfold sortedAt
          rw [min_eq_left (by omega), List.getD_eq_getElem (npSort l) 0 (by rw [npSort_length]; omega)]
        · rw [List.get_eq_getElem, ← hk2]
          unfold sortedAt
          rw [min_eq_left (by omega), List.getD_eq_getElem (npSort l) 0 (by rw [npSort_length]; omega)]
      rw [List.duplicate_iff_two_le_count, (npSort_perm l).count_eq, hx] at hdup
      omega
  have hr0 : (0 : ℚ) ≤ ((q.num.toNat * (l.length - 1) % q.den : Nat) : ℚ) / (q.den : ℚ) := by positivity
  have hr1 : ((q.num.toNat * (l.length - 1) % q.den : Nat) : ℚ) / (q.den : ℚ) < 1 := by
    rw [div_lt_one hpos']; exact_mod_cast Nat.mod_lt _ hpos
  have hk2 := hmem (k + 1)
  generalize ((q.num.toNat * (l.length - 1) % q.den : Nat) : ℚ) / (q.den : ℚ) = r at hr0 hr1 ⊢
  nlinarith

/-! ### Levels as lists -/

theorem pawnLevels_getElem? {S : Nat} (h : SmallCount F S) (s : Nat) (hs : s < (pawnLevels F S).length) :
    (pawnLevels F S)[s]? = some (levelOf F S s) := by
  rw [pawnLevels_eq h] at hs ⊢
  rw [List.length_map, List.length_range] at hs
  rw [List.getElem?_map, List.getElem?_range hs]
  rfl

theorem rsaLevels_getElem? {S : Nat} (h : SmallCount F S) (s : Nat) (hs : s < (rsaLevels F S).length) :
    (rsaLevels F S)[s]? = some (levelOf F S s) := by
  rw [rsaLevels_eq h] at hs ⊢
  rw [List.length_map, List.length_range] at hs
  rw [List.getElem?_map, List.getElem?_range hs]
  rfl

theorem mem_pawnLevels {S : Nat} (h : SmallCount F S) (q : ℚ) :
    q ∈ pawnLevels F S ↔ ∃ s < (pawnLevels F S).length, q = levelOf F S s := by
  rw [List.mem_iff_getElem?]
  constructor
  · rintro ⟨s, hs⟩
    have hlt := (List.getElem?_eq_some_iff.mp hs).1
    rw [pawnLevels_getElem? h s hlt] at hs
    exact ⟨s, hlt, (Option.some.inj hs).symm⟩
  · rintro ⟨s, hs, rfl⟩
    exact ⟨s, pawnLevels_getElem? h s hs⟩

theorem pawnLevels_length_or {S : Nat} (h : SmallCount F S) :
    (pawnLevels F S).length = S + 1 ∨ (pawnLevels F S).length = S + 2 := by
  rw [pawnLevels_length h]
  split <;> simp

theorem rsaLevels_length_or {S : Nat} (h : SmallCount F S) :
    (rsaLevels F S).length = S ∨ (rsaLevels F S).length = S + 1 := by
  rw [rsaLevels_length h]
  split <;> simp

theorem rsaLevels_le_one {S : Nat} (h : SmallCount F S) (q : ℚ) (hq : q ∈ rsaLevels F S) : 0 ≤ q ∧ q ≤ 1 := by
  obtain ⟨s, hs⟩ := List.mem_iff_getElem?.mp hq
  have hlt := (List.getElem?_eq_some_iff.mp hs).1
  rw [rsaLevels_getElem? h s hlt] at hs
  rw [← Option.some.inj hs]
  refine ⟨levelOf_nonneg h s, levelOf_le_one h s ?_⟩
  rcases rsaLevels_length_or h with e | e <;> omega

theorem npQuantiles_pawn {S : Nat} (h : SmallCount F S) (l : List ℚ) :
    npQuantiles l (pawnLevels F S) = if (pawnLevels F S).length = S + 2 then .error .valueError
      else .ok ((pawnLevels F S).map (quantileAt l)) := by
  unfold npQuantiles
  by_cases hlen : (pawnLevels F S).length = S + 2
  · rw [if_pos hlen, if_pos]
    rw [List.any_eq_true]
    refine ⟨levelOf F S (S + 1), (mem_pawnLevels h _).mpr ⟨S + 1, by omega, rfl⟩, ?_⟩
    have := one_lt_levelOf h
    simp [this]
  · rw [if_neg hlen, if_neg]
    rw [List.any_eq_true]
    rintro ⟨q, hq, hb⟩
    obtain ⟨s, hs, rfl⟩ := (mem_pawnLevels h q).mp hq
    have h1 := levelOf_nonneg h s
    have h2 : levelOf F S s ≤ 1 := levelOf_le_one h s (by
      rcases pawnLevels_length_or h with e | e <;> omega)
    rw [Bool.or_eq_true, decide_eq_true_iff, decide_eq_true_iff] at hb
    rcases hb with hb | hb <;> linarith

/-! ### PAWN -/

/-- **C129**, PAWN levels: there are `S + 1` levels, or one too many.  The first `S + 1` go up from 0 to at most 1 and
differ from `s / S` by at most three half-units of 1; a level too many is above 1. -/
theorem C129_pawn_levels {S : Nat} (h : SmallCount F S) :
    ((pawnLevels F S).length = S + 1 ∨ (pawnLevels F S).length = S + 2) ∧
    (∀ s ≤ S, ∃ q : ℚ, (pawnLevels F S)[s]? = some q ∧ 0 ≤ q ∧ q ≤ 1 ∧ |q - (s : ℚ) / S| ≤ 3 * (2 : ℚ) ^ (-(F.p : ℤ))) ∧
    (∀ (s t : Nat) (q r : ℚ), s ≤ t → (pawnLevels F S)[s]? = some q → (pawnLevels F S)[t]? = some r → q ≤ r) ∧
    ∀ q : ℚ, (pawnLevels F S)[S + 1]? = some q → 1 < q := by
  have hlen := pawnLevels_length_or h
  refine ⟨hlen, ?_, ?_, ?_⟩
  · intro s hs
    exact ⟨_, pawnLevels_getElem? h s (by omega), levelOf_nonneg h s, levelOf_le_one h s hs, levelOf_near h s hs⟩
  · intro s t q r hst hq hr
    have h1 := (List.getElem?_eq_some_iff.mp hq).1
    have h2 := (List.getElem?_eq_some_iff.mp hr).1
    rw [pawnLevels_getElem? h s h1] at hq
    rw [pawnLevels_getElem? h t h2] at hr
    rw [← Option.some.inj hq, ← Option.some.inj hr]
    exact levelOf_mono h s t hst
  · intro q hq
    have h1 := (List.getElem?_eq_some_iff.mp hq).1
    rw [pawnLevels_getElem? h _ h1] at hq
    rw [← Option.some.inj hq]
    exact one_lt_levelOf h

/-- **C129**, PAWN raises `ValueError` exactly when there is one level too many, whatever the data are (at least one
parameter, rows that have an entry for it). -/
theorem C129_pawn_error {S : Nat} (h : SmallCount F S) (sqrt : ℚ → ℚ) (pb : Problem ℚ) (X : Mat ℚ) (Y : List ℚ)
    (hv : 0 < pb.numVars) (hX : ∀ row ∈ X, row ≠ []) :
    pawnAnalyzeFl F sqrt pb X Y S = .error .valueError ↔ (pawnLevels F S).length = S + 2 := by
  have hS : S ≠ 0 := by have := h.pos; omega
  constructor
  · intro he
    by_contra hlen
    unfold pawnAnalyzeFl at he
    rw [if_neg hS] at he
    cases hp : pawnParamsFl F sqrt pb X Y S with
    | ok res =>
      rw [hp] at he
      simp only [pyBind_ok] at he
      cases hc : checkGroups pb with
      | none => rw [hc] at he; cases he
      | some g =>
        rw [hc] at he
        simp only [] at he
        split at he <;> cases he
    | error e =>
      rw [hp] at he
      change Except.error e = Except.error PyErr.valueError at he
      rw [Except.error.injEq] at he
      rw [he] at hp
      unfold pawnParamsFl at hp
      obtain ⟨d, -, hd⟩ := mapM_error _ _ _ hp
      cases hc : inputColumn X d with
      | error e' =>
        rw [hc] at hd
        change Except.error e' = Except.error PyErr.valueError at hd
        rw [Except.error.injEq] at hd
        obtain ⟨row, -, hr⟩ := mapM_error _ _ _ hc
        rw [hd] at hr
        unfold pyGet at hr
        split at hr <;> cases hr
      | ok col =>
        rw [hc] at hd
        simp only [pyBind_ok] at hd
        unfold pawnColumnFl at hd
        rw [npQuantiles_pawn h, if_neg hlen] at hd
        simp only [pyBind_ok, pyPure] at hd
        split at hd <;> cases hd
  · intro hlen
    obtain ⟨n, hn⟩ : ∃ n, pb.numVars = n + 1 := ⟨pb.numVars - 1, by omega⟩
    have hcol : ∃ col, inputColumn X 0 = .ok col := by
      refine ⟨X.map fun row => row.getD 0 0, ?_⟩
      apply mapM_ok_of (fun row : List ℚ => pyGet row 0)
      intro row hrow
      have := List.length_pos_iff.mpr (hX row hrow)
      simp [pyGet, List.getD, this]
    obtain ⟨col, hcol⟩ := hcol
    have hp : pawnParamsFl F sqrt pb X Y S = .error .valueError := by
      unfold pawnParamsFl
      rw [hn, List.range_succ_eq_map, List.mapM_cons, hcol]
      simp only [pyBind_ok]
      unfold pawnColumnFl
      rw [npQuantiles_pawn h, if_pos hlen]
      rfl
    unfold pawnAnalyzeFl
    rw [if_neg hS, hp]
    rfl

/-- **C129**, slices: with the right number of levels, the samples below the last edge are each in exactly one slice, the
others in none. -/
theorem C129_pawn_partial {S : Nat} (h : SmallCount F S) (hlen : (pawnLevels F S).length = S + 1) (X : List ℚ) :
    ∃ edges, npQuantiles X (pawnLevels F S) = .ok edges ∧ edges.length = S + 1 ∧
      ∀ i x, X[i]? = some x → (x < edges.getD S 0 → ∃! s, s < S ∧ i ∈ pawnSlice edges X s) ∧
        (edges.getD S 0 ≤ x → ∀ s < S, i ∉ pawnSlice edges X s) := by
  refine ⟨_, by rw [npQuantiles_pawn h, if_neg (by omega)], by rw [List.length_map, hlen], ?_⟩
  intro i x hx
  have hxm : x ∈ X := List.mem_of_getElem? hx
  have hX : X ≠ [] := List.ne_nil_of_mem hxm
  have hget : ∀ s ≤ S, ((pawnLevels F S).map (quantileAt X)).getD s 0 = quantileAt X (levelOf F S s) := by
    intro s hs
    rw [List.getD, List.getElem?_map, pawnLevels_getElem? h s (by omega)]
    rfl
  have hmem : ∀ s, s < S → (i ∈ pawnSlice ((pawnLevels F S).map (quantileAt X)) X s ↔
      quantileAt X (levelOf F S s) ≤ x ∧ x < quantileAt X (levelOf F S (s + 1))) := by
    intro s hs
    unfold pawnSlice
    rw [mem_whereIdx, hget s (by omega), hget (s + 1) (by omega)]
    constructor
    · rintro ⟨y, hy, hp⟩
      rw [hx] at hy; cases hy
      simpa using hp
    · intro h
      exact ⟨x, hx, by simpa using h⟩
  have hmono : ∀ i k, i ≤ k → k ≤ S → quantileAt X (levelOf F S i) ≤ quantileAt X (levelOf F S k) := fun i k h1 h2 =>
    quantileAt_mono X hX _ _ (levelOf_nonneg h i) (levelOf_mono h i k h1) (levelOf_le_one h k h2)
  rw [hget S le_rfl]
  constructor
  · intro hlt
    have h0 : quantileAt X (levelOf F S 0) ≤ x := by
      rw [levelOf_zero, quantileAt_zero]; exact npSort_first_le X x hxm
    obtain ⟨s, ⟨hs, h1, h2⟩, huniq⟩ := halfOpen_unique (fun s => quantileAt X (levelOf F S s)) S hmono x h0 hlt
    exact ⟨s, ⟨hs, (hmem s hs).mpr ⟨h1, h2⟩⟩, fun u hu => huniq u ⟨hu.1, (hmem u hu.1).mp hu.2⟩⟩
  · intro hge s hs hc
    obtain ⟨-, h2⟩ := (hmem s hs).mp hc
    exact absurd (lt_of_lt_of_le h2 (hmono (s + 1) S (by omega) le_rfl)) (not_lt.mpr hge)

theorem smallCount64 (S : Nat) (h1 : 1 ≤ S) (h2 : S ≤ 2 ^ 49) : SmallCount binary64 S :=
  ⟨by decide, by decide, h1, by
    change S * 16 ≤ 2 ^ 53
    omega⟩

/-- **C129**, the claim fails: with `S` one of 6, 9, 21, 24, 28, 29, 30 PAWN raises `ValueError` on every data set. -/
theorem C129_pawn_fail (S : Nat) (hS : S ∈ [6, 9, 21, 24, 28, 29, 30]) (sqrt : ℚ → ℚ) (pb : Problem ℚ) (X : Mat ℚ)
    (Y : List ℚ) (hv : 0 < pb.numVars) (hX : ∀ row ∈ X, row ≠ []) :
    pawnAnalyzeFl binary64 sqrt pb X Y S = .error .valueError := by
  have hb : 1 ≤ S ∧ S ≤ 30 := by
    simp only [List.mem_cons, List.not_mem_nil, or_false] at hS
    omega
  rw [C129_pawn_error (smallCount64 S hb.1 (by omega)) sqrt pb X Y hv hX]
  have hall : ∀ S ∈ [6, 9, 21, 24, 28, 29, 30], (pawnLevels binary64 S).length = S + 2 := by decide +kernel
  exact hall S hS

/-! ### Regional sensitivity analysis -/

/-- Bins closed above, the first one closed below too. -/
theorem bins_unique (e : Nat → ℚ) (S : Nat) (hS : 0 < S) (hmono : ∀ i k, i ≤ k → k ≤ S → e i ≤ e k) (x : ℚ)
    (h0 : e 0 ≤ x) (h1 : x ≤ e S) : ∃! s, s < S ∧ (if s = 0 then e 0 ≤ x else e s < x) ∧ x ≤ e (s + 1) := by
  have hex : ∃ s, s < S ∧ x ≤ e (s + 1) := ⟨S - 1, by omega, by rw [Nat.sub_add_cancel hS]; exact h1⟩
  obtain ⟨hs1, hs2⟩ := Nat.find_spec hex
  have hmin : ∀ m < Nat.find hex, ¬(m < S ∧ x ≤ e (m + 1)) := fun m hm => Nat.find_min hex hm
  generalize Nat.find hex = s at *
  refine ⟨s, ⟨hs1, ?_, hs2⟩, ?_⟩
  · by_cases h0' : s = 0
    · rw [if_pos h0']; exact h0
    · rw [if_neg h0']
      have := hmin (s - 1) (by omega)
      rw [Nat.sub_add_cancel (by omega)] at this
      by_contra hc
      exact this ⟨by omega, not_lt.mp hc⟩
  · rintro u ⟨hu, hu1, hu2⟩
    by_contra hne
    rcases lt_or_gt_of_ne hne with hlt | hgt
    · exact hmin u hlt ⟨hu, hu2⟩
    · rw [if_neg (by omega)] at hu1
      exact absurd (hs2.trans (hmono (s + 1) u (by omega) (by omega))) (not_le.mpr hu1)

theorem mem_rsaMask (q t : List ℚ) (s i : Nat) (x : ℚ) (hx : t[i]? = some x) :
    i ∈ rsaMask q t s ↔ (if s = 0 then q.getD 0 0 ≤ x else q.getD s 0 < x) ∧ x ≤ q.getD (s + 1) 0 := by
  unfold rsaMask
  by_cases h0 : s = 0
  · subst h0
    rw [if_pos rfl, if_pos rfl, mem_whereIdx]
    simp [hx]
  · rw [if_neg h0, if_neg h0, mem_whereIdx]
    simp [hx]

/-- Level `s` of `seq` in `rsa`. -/
theorem rsaQuants_getD {S : Nat} (h : SmallCount F S) (t : List ℚ) (s : Nat) (hs : s ≤ S) :
    (rsaQuants F t S).getD s 0 = quantileAt t (if s < (rsaLevels F S).length then levelOf F S s else 1) := by
  unfold rsaQuants
  rw [List.getD, List.getElem?_map]
  by_cases hlt : s < (rsaLevels F S).length
  · rw [List.getElem?_append_left hlt, rsaLevels_getElem? h s hlt, if_pos hlt]
    rfl
  · have hlen : (rsaLevels F S).length = s := by rcases rsaLevels_length_or h with e | e <;> omega
    rw [if_neg hlt, List.getElem?_append_right (by omega), hlen]
    simp

/-- **C129**, RSA with the right number of levels: every sample is in exactly one bin, and `to_df` gives one row per
bin. -/
theorem C129_rsa_partial {S : Nat} (h : SmallCount F S) (hlen : (rsaLevels F S).length = S) :
    (∀ (t : List ℚ) (i : Nat), i < t.length → ∃! s, s < S ∧ i ∈ rsaMask (rsaQuants F t S) t s) ∧
    ∀ cvm X y D target cols, rsaColumnsFl F cvm X y D S target = .ok cols →
      ∃ table, rsaToDf cols (rsaLevels F S) = .ok table ∧ table.length = S ∧
        ∀ s < S, ∃ q, |q - (s : ℚ) / S| ≤ 3 * (2 : ℚ) ^ (-(F.p : ℤ)) ∧
          table[s]? = some (q, cols.map fun c => c.getD s none) := by
  have hS := h.pos
  constructor
  · intro t i hi
    have ht : t ≠ [] := by rintro rfl; simp at hi
    obtain ⟨x, hx⟩ : ∃ x, t[i]? = some x := ⟨_, List.getElem?_eq_getElem hi⟩
    have hxm : x ∈ t := List.mem_of_getElem? hx
    have hget := rsaQuants_getD h t
    rw [hlen] at hget
    have hl1 : ∀ s ≤ S, 0 ≤ (if s < S then levelOf F S s else 1) ∧ (if s < S then levelOf F S s else 1) ≤ 1 := by
      intro s hs
      split
      · exact ⟨levelOf_nonneg h s, levelOf_le_one h s hs⟩
      · exact ⟨zero_le_one, le_rfl⟩
    have hmono : ∀ i k, i ≤ k → k ≤ S → (rsaQuants F t S).getD i 0 ≤ (rsaQuants F t S).getD k 0 := by
      intro i k hik hk
      rw [hget i (by omega), hget k hk]
      refine quantileAt_mono t ht _ _ (hl1 i (by omega)).1 ?_ (hl1 k hk).2
      by_cases h1 : k < S
      · rw [if_pos h1, if_pos (by omega)]; exact levelOf_mono h i k hik
      · rw [if_neg h1]; exact (hl1 i (by omega)).2
    have h0 : (rsaQuants F t S).getD 0 0 ≤ x := by
      rw [hget 0 (by omega), if_pos (by omega), levelOf_zero, quantileAt_zero]
      exact npSort_first_le t x hxm
    have h1 : x ≤ (rsaQuants F t S).getD S 0 := by
      rw [hget S le_rfl, if_neg (lt_irrefl _), quantileAt_one t ht]
      exact npSort_le_last t x hxm
    obtain ⟨s, ⟨hs, hs1⟩, huniq⟩ := bins_unique (fun s => (rsaQuants F t S).getD s 0) S hS hmono x h0 h1
    exact ⟨s, ⟨hs, (mem_rsaMask _ t s i x hx).mpr hs1⟩, fun u hu =>
      huniq u ⟨hu.1, (mem_rsaMask _ t u i x hx).mp hu.2⟩⟩
  · intro cvm X y D target cols hc
    have hcl : ∀ c ∈ cols, c.length = S := by
      unfold rsaColumnsFl at hc
      rw [if_neg (by omega)] at hc
      have hf := (mapM_ok_iff _ _ _).mp hc
      intro c hcm
      obtain ⟨k, hk, rfl⟩ := List.mem_iff_getElem.mp hcm
      have := (List.forall₂_iff_get.mp hf).2 k (by rw [hf.length_eq]; exact hk) hk
      obtain ⟨col, -, h2⟩ := pyBind_inv _ _ _ this
      split at h2
      · cases h2
      · have h3 := Except.ok.inj h2
        rw [List.get_eq_getElem] at h3
        rw [← h3, List.length_map, List.length_range]
    refine ⟨_, by unfold rsaToDf; rw [if_neg]; simp only [List.any_eq_true, decide_eq_true_eq, not_exists, not_and, not_not]; intro c hcm; rw [hcl c hcm, hlen], ?_, ?_⟩
    · rw [List.length_map, List.length_zipIdx, hlen]
    · intro s hs
      refine ⟨levelOf F S s, levelOf_near h s hs.le, ?_⟩
      rw [List.getElem?_map, List.getElem?_zipIdx, rsaLevels_getElem? h s (by omega)]
      simp

/-- **C129**, RSA with one level too many: a largest value that occurs once is in no bin, and `to_df` raises
`ValueError`. -/
theorem C129_rsa_excess {S : Nat} (h : SmallCount F S) (hlen : (rsaLevels F S).length ≠ S) :
    (∀ (t : List ℚ) (i : Nat) (x : ℚ), 2 ≤ t.length → t[i]? = some x → t.count x = 1 → (∀ y ∈ t, y ≤ x) →
      ∀ s < S, i ∉ rsaMask (rsaQuants F t S) t s) ∧
    ∀ cvm X y D target cols, 0 < D → rsaColumnsFl F cvm X y D S target = .ok cols →
      rsaToDf cols (rsaLevels F S) = .error .valueError := by
  have hS := h.pos
  have hlen1 : (rsaLevels F S).length = S + 1 := (rsaLevels_length_or h).resolve_left hlen
  have hlast : levelOf F S S < 1 := by
    apply levelOf_lt_one h
    have := rsaLevels_length h
    by_contra hc
    rw [if_pos (not_lt.mp hc)] at this
    exact hlen this
  constructor
  · intro t i x h2 hx hcount hmax s hs hmem
    have ht : t ≠ [] := by rintro rfl; simp at h2
    rw [mem_rsaMask _ t s i x hx] at hmem
    have hget := rsaQuants_getD h t (s + 1) (by omega)
    rw [hlen1, if_pos (by omega)] at hget
    rw [hget] at hmem
    have hlt : levelOf F S (s + 1) < 1 := lt_of_le_of_lt (levelOf_mono h (s + 1) S (by omega)) hlast
    exact absurd hmem.2 (not_le.mpr (quantileAt_lt t x hcount hmax h2 _ (levelOf_nonneg h _) hlt))
  · intro cvm X y D target cols hD hc
    unfold rsaColumnsFl at hc
    rw [if_neg (by omega)] at hc
    have hf := (mapM_ok_iff _ _ _).mp hc
    have hlc : cols.length = D := by rw [← hf.length_eq, List.length_range]
    have h0 := (List.forall₂_iff_get.mp hf).2 0 (by rw [List.length_range]; exact hD) (by omega)
    obtain ⟨col, -, h2⟩ := pyBind_inv _ _ _ h0
    unfold rsaToDf
    rw [if_pos]
    rw [List.any_eq_true]
    refine ⟨cols[0], List.getElem_mem _, ?_⟩
    split at h2
    · cases h2
    · rw [List.get_eq_getElem] at h2
      rw [decide_eq_true_iff, hlen1, ← Except.ok.inj h2, List.length_map, List.length_range]
      omega

/-- **C129**, the claim fails: 49, 98, 103 and 107 bins are among those with one level too many. -/
theorem C129_rsa_fail : ∀ S ∈ [49, 98, 103, 107], (rsaLevels binary64 S).length = S + 1 := by decide +kernel

/-! ### Powers of two -/

theorem SmallCount.isFloat_fraction {k : Nat} (h : SmallCount F (2 ^ k)) (m : Nat) (hm : m ≤ 2 ^ k + 1) :
    IsFloat F ((m : ℚ) / ((2 ^ k : Nat) : ℚ)) := by
  have hk : k + 4 ≤ F.p := by
    have := h.le
    rw [show (2 : ℕ) ^ k * 16 = 2 ^ (k + 4) by rw [pow_add]; norm_num] at this
    exact (Nat.pow_le_pow_iff_right (by norm_num)).mp this
  refine ⟨m, -(k : ℤ), by have := h.range; omega, ?_, ?_⟩
  · rw [abs_of_nonneg (by positivity)]
    have h1 : (2 : ℕ) ^ k * 16 ≤ 2 ^ F.p := h.le
    have h2 : (1 : ℕ) ≤ 2 ^ k := Nat.one_le_two_pow
    have : m < 2 ^ F.p := by omega
    exact_mod_cast this
  · rw [zpow_neg, zpow_natCast]
    push_cast
    rw [div_eq_mul_inv]

theorem levelOf_pow {k : Nat} (h : SmallCount F (2 ^ k)) (s : Nat) (hs : s ≤ 2 ^ k) :
    levelOf F (2 ^ k) s = (s : ℚ) / ((2 ^ k : Nat) : ℚ) := by
  have hp : 1 ≤ F.p := by have := h.prec; omega
  have hd : stepOf F (2 ^ k) = 1 / ((2 ^ k : Nat) : ℚ) := by
    unfold stepOf fdiv
    have := h.isFloat_fraction 1 (by omega)
    rw [Nat.cast_one] at this
    exact fl_eq hp this
  unfold levelOf
  rw [hd, mul_one_div]
  exact fl_eq hp (h.isFloat_fraction s (by omega))

theorem levels_pow {k : Nat} (h : SmallCount F (2 ^ k)) : (pawnLevels F (2 ^ k)).length = 2 ^ k + 1 ∧
    (rsaLevels F (2 ^ k)).length = 2 ^ k := by
  have hp : 1 ≤ F.p := by have := h.prec; omega
  have hpos : ((2 ^ k : Nat) : ℚ) ≠ 0 := by positivity
  have hd : stepOf F (2 ^ k) = 1 / ((2 ^ k : Nat) : ℚ) := by
    have := levelOf_pow h 1 Nat.one_le_two_pow
    unfold levelOf at this
    rw [Nat.cast_one, one_mul, fl_eq hp (isFloat_stepOf h)] at this
    exact this
  constructor
  · rw [pawnLevels_length h, if_pos]
    have h1 : fl F (1 + stepOf F (2 ^ k)) = ((2 ^ k + 1 : Nat) : ℚ) / ((2 ^ k : Nat) : ℚ) := by
      rw [hd, show (1 : ℚ) + 1 / ((2 ^ k : Nat) : ℚ) = ((2 ^ k + 1 : Nat) : ℚ) / ((2 ^ k : Nat) : ℚ) by
        rw [Nat.cast_add, Nat.cast_one, add_div, div_self hpos]]
      exact fl_eq hp (h.isFloat_fraction _ le_rfl)
    rw [h1, hd, div_div_eq_mul_div, div_one, div_mul_cancel₀ _ hpos]
    refine (fl_eq hp ?_).le
    have := h.isFloat_half (2 * (2 ^ k + 1)) (by positivity) (by push_cast; omega)
    rwa [show (((2 * (2 ^ k + 1) : ℤ) : ℚ)) / 2 = ((2 ^ k + 1 : Nat) : ℚ) by push_cast; ring] at this
  · rw [rsaLevels_length h, if_pos]
    rw [hd, one_div_one_div]
    exact (fl_eq hp h.isFloat_count).le

/-- **C129**, powers of two: the levels are exact, so both analyses are those of the exact model (C53-C55, C75, C76, C122,
C128). -/
theorem C129_dyadic {k : Nat} (h : SmallCount F (2 ^ k)) :
    (∀ sqrt pb X Y, pawnAnalyzeFl F sqrt pb X Y (2 ^ k) = pawnAnalyze sqrt pb X Y (2 ^ k)) ∧
    (∀ cvm X y D target, rsaColumnsFl F cvm X y D (2 ^ k) target = rsaColumns cvm X y D (2 ^ k) target) ∧
    rsaLevels F (2 ^ k) = (List.range (2 ^ k)).map fun (s : Nat) => (s : ℚ) / ((2 ^ k : Nat) : ℚ) := by
  obtain ⟨hl1, hl2⟩ := levels_pow h
  have hpos : 0 < 2 ^ k := Nat.two_pow_pos k
  have hS : (2 ^ k : Nat) ≠ 0 := by omega
  have e1 : pawnLevels F (2 ^ k) = (List.range (2 ^ k + 1)).map fun (s : Nat) => (s : ℚ) / ((2 ^ k : Nat) : ℚ) := by
    apply List.ext_getElem?
    intro s
    by_cases hs : s < 2 ^ k + 1
    · rw [pawnLevels_getElem? h s (by omega), levelOf_pow h s (by omega), List.getElem?_map, List.getElem?_range hs]
      rfl
    · rw [List.getElem?_eq_none (by omega), List.getElem?_eq_none (by simpa using hs)]
  have e2 : rsaLevels F (2 ^ k) = (List.range (2 ^ k)).map fun (s : Nat) => (s : ℚ) / ((2 ^ k : Nat) : ℚ) := by
    apply List.ext_getElem?
    intro s
    by_cases hs : s < 2 ^ k
    · rw [rsaLevels_getElem? h s (by omega), levelOf_pow h s (by omega), List.getElem?_map, List.getElem?_range hs]
      rfl
    · rw [List.getElem?_eq_none (by omega), List.getElem?_eq_none (by simpa using hs)]
  refine ⟨?_, ?_, e2⟩
  · intro sqrt pb X Y
    have hcol : ∀ X Y : List ℚ, pawnColumnFl F X Y (2 ^ k) = .ok (pawnColumn X Y (2 ^ k)) := by
      intro X Y
      have he : (pawnLevels F (2 ^ k)).map (quantileAt X) = pawnEdges X (2 ^ k) := by
        rw [e1, List.map_map]
        unfold pawnEdges
        apply List.map_congr_left
        intro s _
        exact quantileAt_level X s _ hpos
      unfold pawnColumnFl
      rw [npQuantiles_pawn h, if_neg (by omega), he]
      rfl
    have hp : pawnParamsFl F sqrt pb X Y (2 ^ k) = pawnParams sqrt pb X Y (2 ^ k) := by
      unfold pawnParamsFl pawnParams
      simp only [hcol, pyBind_ok]
    unfold pawnAnalyzeFl pawnAnalyze
    rw [hp]
    rfl
  · intro cvm X y D target
    have hq : ∀ t : List ℚ, rsaQuants F t (2 ^ k) = rsaEdges t (2 ^ k) := by
      intro t
      unfold rsaQuants rsaEdges
      rw [e2, List.range_succ, List.map_append, List.map_append, List.map_map]
      congr 1
      · apply List.map_congr_left
        intro s _
        exact quantileAt_level t s _ hpos
      · have := quantileAt_level t (2 ^ k) (2 ^ k) hpos
        rw [div_self (by positivity)] at this
        simp [this]
    have he : ∀ col y : List ℚ, ∀ s, rsaEntryFl F cvm col y (2 ^ k) target s = rsaEntry cvm col y (2 ^ k) target s := by
      intro col y s
      unfold rsaEntryFl rsaEntry
      simp only [hq]
      rfl
    unfold rsaColumnsFl rsaColumns
    simp only [he]

/-- The hypotheses of the theorems above: binary64 with up to 2^49 slices; `C129_rsa_excess` with 49 bins and the samples
1, …, 4: the fourth is in no bin, the third in bin 32. -/
example : (rsaLevels binary64 49).length ≠ 49 ∧ ([1, 2, 3, 4] : List ℚ).count 4 = 1 ∧ (∀ y ∈ ([1, 2, 3, 4] : List ℚ), y ≤ 4) ∧
    ((List.range 49).filter fun s => decide (3 ∈ rsaMask (rsaQuants binary64 [1, 2, 3, 4] 49) [1, 2, 3, 4] s)) = [] ∧
    ((List.range 49).filter fun s => decide (2 ∈ rsaMask (rsaQuants binary64 [1, 2, 3, 4] 49) [1, 2, 3, 4] s)) = [32] := by
  decide +kernel

/-- The default numbers of slices and bins, and those used in the tests of the repository, have the right levels. -/
example : (pawnLevels binary64 10).length = 11 ∧ (rsaLevels binary64 20).length = 20 ∧
    (rsaLevels binary64 10).length = 10 := by decide +kernel

end SALib
