import Verif.Lemmas.FloatMorris
import Verif.Lemmas.MorrisOpt

/-! # C109: Morris designs and elementary effects in floating point -/

namespace SALib
open Spec

variable {F : Fmt}

theorem switch_isFlTrajectory (hF : F.emin + 2 * F.p + 4 ≤ 0) (draws : TrajDraws ℚ) {p : Nat} (hp2 : 2 ≤ p)
    (h16 : 16 * p ≤ 2 ^ F.p) (hpick : ∀ j, draws.pick j < p / 2) (D g : Nat) (groupOf : Nat → Nat)
    (hgo : ∀ j < D, groupOf j < g) (τ : List Nat) (hτ : τ.Perm (List.range g)) :
    IsFlTrajectory F (fl F (morrisDelta p)) D g groupOf (table (g + 1) D fun t j =>
      if (τ.getD (groupOf j) 0 < t ↔ draws.up j = true) then fl F (startFl F draws p j + fl F (morrisDelta p))
      else startFl F draws p j) := by
  have h5 := fmt_p_ge hp2 h16
  have hu := two_zpow_pos (-(F.p : ℤ))
  refine ⟨table_length _ _ _, table_cols _ _ _, ?_, ?_⟩
  · intro row hrow x hx
    obtain ⟨t, -, rfl⟩ := List.mem_map.mp hrow
    obtain ⟨j, -, rfl⟩ := List.mem_map.mp hx
    obtain ⟨l1, l2, l3, l4, l5, -⟩ := levels_bounds hF draws hp2 h16 j (hpick j)
    beta_reduce
    split
    · exact ⟨isFloat_fl (by omega) _, by linarith, l4⟩
    · exact ⟨l1, l2, by linarith⟩
  · obtain ⟨order, ho, h⟩ := switch_steps D g groupOf hgo τ hτ (startFl F draws p)
      (fun j => fl F (startFl F draws p j + fl F (morrisDelta p))) draws.up
    refine ⟨order, ho, fun t k htk j hj => ?_⟩
    obtain ⟨-, h'⟩ := h t k htk
    obtain ⟨-, x, y, hx, hy, hxy⟩ := h' j hj
    obtain ⟨l1, l2, l3, l4, l5, -⟩ := levels_bounds hF draws hp2 h16 j (hpick j)
    refine ⟨x, y, hx, hy, ?_⟩
    split at hxy
    · rename_i hk
      rw [if_pos hk]
      split at hxy
      · obtain ⟨rfl, rfl⟩ := hxy
        exact Or.inl ⟨by linarith, fl_roundsTo (by omega) _⟩
      · obtain ⟨rfl, rfl⟩ := hxy
        exact Or.inr ⟨by linarith, fl_roundsTo (by omega) _⟩
    · rename_i hk
      rw [if_neg hk]; exact hxy

/-- **C109**, unit scale: with every operation rounded the sample still consists of `N` trajectories of
`g + 1` points; at its turn each parameter of a group goes strictly up or down between a value and that
value plus delta, rounded; the others keep their value to the last bit.  The values never leave [0, 1], so
that the check before the optimisation does not refuse them, and for an even number of levels they are a
few units in the last place from the levels. -/
theorem C109_unit (hF : F.emin + 2 * F.p + 4 ≤ 0) (draws : Nat → TrajDraws ℚ) (groups : List String)
    (N p : Nat) (hp2 : 2 ≤ p) (h16 : 16 * p ≤ 2 ^ F.p) (hv : ∀ i, ValidTrajDraws p (draws i)) :
    ∃ g groupOf, GroupNumbering groups.length (some groups) g groupOf ∧ ∃ (d : ℚ) (ts : List (Mat ℚ)),
      RoundsTo F (morrisDelta p) d ∧ sampleMorrisUnitFl F draws groups N p = .ok ts.flatten ∧ ts.length = N ∧
      (∀ T ∈ ts, IsFlTrajectory F d groups.length g groupOf T) ∧ refusesUnit ts.flatten = false ∧
      (Even p → ∀ T ∈ ts, ∀ row ∈ T, ∀ x ∈ row, ∃ v : ℚ, OnGrid p v ∧ |x - v| ≤ (2 : ℚ) ^ (3 - (F.p : ℤ))) := by
  have h5 := fmt_p_ge hp2 h16
  obtain ⟨g, groupOf, hnum, τ, hτ, h⟩ := sampleMorrisUnitFl_eq hF draws groups N p hp2 h16 hv
  have htr : ∀ i, IsFlTrajectory F (fl F (morrisDelta p)) groups.length g groupOf _ := fun i =>
    switch_isFlTrajectory hF (draws i) hp2 h16 (hv i).2 groups.length g groupOf
      (groupNumbering_lt _ _ groups groupOf rfl hnum) (τ i) (hτ i)
  refine ⟨g, groupOf, hnum, fl F (morrisDelta p), _, fl_roundsTo (by omega) _, h, by simp, ?_, ?_, ?_⟩
  · intro T hT
    obtain ⟨i, -, rfl⟩ := List.mem_map.mp hT
    exact htr i
  · unfold refusesUnit
    rw [List.any_eq_false]
    intro row hrow
    obtain ⟨T, hT, hrow⟩ := List.mem_flatten.mp hrow
    obtain ⟨i, -, rfl⟩ := List.mem_map.mp hT
    rw [List.any_eq_true]
    rintro ⟨x, hx, hx'⟩
    obtain ⟨-, h0, h1⟩ := (htr i).unit row hrow x hx
    simp [not_lt.2 h0, not_lt.2 h1] at hx'
  · intro he T hT row hrow x hx
    obtain ⟨i, -, rfl⟩ := List.mem_map.mp hT
    obtain ⟨t, -, rfl⟩ := List.mem_map.mp hrow
    obtain ⟨j, -, rfl⟩ := List.mem_map.mp hx
    obtain ⟨-, -, -, -, -, l6⟩ := levels_bounds hF (draws i) hp2 h16 j ((hv i).2 j)
    obtain ⟨e1, e2⟩ := l6 he
    have hpick := (hv i).2 j
    have hu := two_zpow_pos (-(F.p : ℤ))
    have h8 : (2 : ℚ) ^ (3 - (F.p : ℤ)) = 8 * (2 : ℚ) ^ (-(F.p : ℤ)) := by
      rw [sub_eq_add_neg, zpow_add₀ (by norm_num)]; norm_num
    rw [h8]
    beta_reduce
    split
    · exact ⟨_, ⟨(draws i).pick j + p / 2, by omega, rfl⟩, by linarith⟩
    · exact ⟨_, ⟨(draws i).pick j, by omega, rfl⟩, by linarith⟩

/-- Scaling a table. -/
theorem table_scale (n : Nat) (bs : List (ℚ × ℚ)) (f : Nat → Nat → ℚ) :
    (table n bs.length f).map (fun row => List.zipWith (scaleEntryFl F) row bs) =
      table n bs.length fun t j => scaleEntryFl F (f t j) (bs.getD j (0, 0)) := by
  unfold table
  rw [List.map_map]
  apply List.map_congr_left
  intro t _
  simp only [Function.comp_apply]
  apply List.ext_getElem
  · simp
  · intro j h1 h2
    have hj : j < bs.length := by simpa using h2
    simp [List.getD_eq_getElem?_getD, hj]

/-- The scaled sample in closed form. -/
theorem morrisSampleFl_eq (hF : F.emin + 2 * F.p + 4 ≤ 0) (draws : Nat → TrajDraws ℚ)
    (groups : List String) (bs : List (ℚ × ℚ)) (N p : Nat) (hp2 : 2 ≤ p) (h16 : 16 * p ≤ 2 ^ F.p)
    (hv : ∀ i, ValidTrajDraws p (draws i)) (hlen : bs.length = groups.length) (hne : bs ≠ [])
    (hlegal : ∀ b ∈ bs, b.1 < b.2) (hfl : ∀ b ∈ bs, IsFloat F b.1 ∧ IsFloat F b.2)
    (hw : ∀ b ∈ bs, (2 : ℚ) ^ (F.emin + F.p - 1) ≤ b.2 - b.1) :
    ∃ g groupOf, GroupNumbering groups.length (some groups) g groupOf ∧ ∃ τ : Nat → List Nat,
      (∀ i, (τ i).Perm (List.range g)) ∧ ∃ a b : Nat → Nat → ℚ,
      sampleMorrisUnitFl F draws groups N p = .ok ((List.range N).map fun i => table (g + 1) groups.length
        fun t j => if ((τ i).getD (groupOf j) 0 < t ↔ (draws i).up j = true)
          then fl F (startFl F (draws i) p j + fl F (morrisDelta p)) else startFl F (draws i) p j).flatten ∧
      morrisSampleFl F draws groups (boundsTable bs) N p = .ok ((List.range N).map fun i =>
        table (g + 1) groups.length
          fun t j => if ((τ i).getD (groupOf j) 0 < t ↔ (draws i).up j = true) then b i j else a i j).flatten ∧
      (∀ i, ∀ j < groups.length, a i j = scaleEntryFl F (startFl F (draws i) p j) (bs.getD j (0, 0)) ∧
        b i j = scaleEntryFl F (fl F (startFl F (draws i) p j + fl F (morrisDelta p))) (bs.getD j (0, 0)) ∧
        IsFloat F (a i j) ∧ IsFloat F (b i j) ∧ a i j < b i j ∧ (bs.getD j (0, 0)).1 ≤ a i j) := by
  have h5 := fmt_p_ge hp2 h16
  obtain ⟨g, groupOf, hnum, τ, hτ, h⟩ := sampleMorrisUnitFl_eq hF draws groups N p hp2 h16 hv
  refine ⟨g, groupOf, hnum, τ, hτ, fun i j => scaleEntryFl F (startFl F (draws i) p j) (bs.getD j (0, 0)),
    fun i j => scaleEntryFl F (fl F (startFl F (draws i) p j + fl F (morrisDelta p))) (bs.getD j (0, 0)), h, ?_, ?_⟩
  · unfold morrisSampleFl
    rw [h, pyBind_ok, ← hlen, scaleUniformFl_legal bs hne hlegal]
    congr 1
    rw [List.map_flatten, List.map_map]
    congr 1
    apply List.map_congr_left
    intro i _
    simp only [Function.comp_apply]
    rw [table_scale]
    congr 1
    funext t j
    split <;> rfl
  · intro i j hj
    have hmem : bs.getD j (0, 0) ∈ bs := by
      rw [List.getD_eq_getElem?_getD, List.getElem?_eq_getElem (by omega), Option.getD_some]
      exact List.getElem_mem _
    obtain ⟨l1, l2, l3, l4, l5, -⟩ := levels_bounds hF (draws i) hp2 h16 j ((hv i).2 j)
    obtain ⟨f1, f2⟩ := hfl _ hmem
    exact ⟨rfl, rfl, isFloat_fl (by omega) _, isFloat_fl (by omega) _,
      scaleEntryFl_strict h5 f1 f2 (hlegal _ hmem) (hw _ hmem) l2 l3 l4 l5,
      scaleEntryFl_lower (by omega) f1 (hlegal _ hmem) l2⟩

/-- **C109**, scaled: for all legal bounds of the format whose width is not below the smallest normal
number, however narrow the range, every move is still there after scaling and has its direction, and the
other parameters keep their value to the last bit. -/
theorem C109_scaled (hF : F.emin + 2 * F.p + 4 ≤ 0) (draws : Nat → TrajDraws ℚ)
    (groups : List String) (bs : List (ℚ × ℚ)) (N p : Nat) (hp2 : 2 ≤ p) (h16 : 16 * p ≤ 2 ^ F.p)
    (hv : ∀ i, ValidTrajDraws p (draws i)) (hlen : bs.length = groups.length) (hne : bs ≠ [])
    (hlegal : ∀ b ∈ bs, b.1 < b.2) (hfl : ∀ b ∈ bs, IsFloat F b.1 ∧ IsFloat F b.2)
    (hw : ∀ b ∈ bs, (2 : ℚ) ^ (F.emin + F.p - 1) ≤ b.2 - b.1) :
    ∃ g groupOf, GroupNumbering groups.length (some groups) g groupOf ∧ ∃ ts ts' : List (Mat ℚ),
      sampleMorrisUnitFl F draws groups N p = .ok ts.flatten ∧ ts.length = N ∧
      morrisSampleFl F draws groups (boundsTable bs) N p = .ok ts'.flatten ∧ ts'.length = N ∧
      (∀ T' ∈ ts', MovesInTurn groups.length g groupOf T' ∧ ∀ row ∈ T', ∀ x ∈ row, IsFloat F x) ∧
      ∀ (i : Nat) T T', ts[i]? = some T → ts'[i]? = some T' → MovesInTurn groups.length g groupOf T ∧ SameOrder T T' := by
  have h5 := fmt_p_ge hp2 h16
  obtain ⟨g, groupOf, hnum, τ, hτ, a, b, h1, h2, hab⟩ := morrisSampleFl_eq hF draws groups bs N p hp2 h16 hv hlen
    hne hlegal hfl hw
  have hgo := groupNumbering_lt _ _ groups groupOf rfl hnum
  have hmoves : ∀ (τ : List Nat), τ.Perm (List.range g) → ∀ (a b : Nat → ℚ) (up : Nat → Bool),
      (∀ j < groups.length, a j < b j) → MovesInTurn groups.length g groupOf
        (table (g + 1) groups.length fun t j => if (τ.getD (groupOf j) 0 < t ↔ up j = true) then b j else a j) := by
    intro τ hτ a b up hlt
    refine ⟨table_length _ _ _, table_cols _ _ _, ?_⟩
    obtain ⟨order, ho, h⟩ := switch_steps groups.length g groupOf hgo τ hτ a b up
    refine ⟨order, ho, fun t k htk j hj => ?_⟩
    obtain ⟨-, x, y, hx, hy, hxy⟩ := (h t k htk).2 j hj
    refine ⟨x, y, hx, hy, ?_⟩
    have := hlt j hj
    split at hxy
    · rename_i hk
      refine ⟨fun _ => ?_, fun _ => hk⟩
      split at hxy
      · obtain ⟨rfl, rfl⟩ := hxy; exact this.ne
      · obtain ⟨rfl, rfl⟩ := hxy; exact this.ne'
    · rename_i hk
      exact ⟨fun h => absurd h hk, fun h => absurd hxy.symm h⟩
  refine ⟨g, groupOf, hnum, _, _, h1, by simp, h2, by simp, ?_, ?_⟩
  · intro T' hT'
    obtain ⟨i, -, rfl⟩ := List.mem_map.mp hT'
    refine ⟨hmoves (τ i) (hτ i) (a i) (b i) (draws i).up fun j hj => (hab i j hj).2.2.2.2.1, ?_⟩
    intro row hrow x hx
    obtain ⟨t, -, rfl⟩ := List.mem_map.mp hrow
    obtain ⟨j, hj, rfl⟩ := List.mem_map.mp hx
    obtain ⟨-, -, f1, f2, -⟩ := hab i j (List.mem_range.mp hj)
    beta_reduce
    split
    · exact f2
    · exact f1
  · intro i T T' hT hT'
    by_cases hi : i < N
    · rw [List.getElem?_map, List.getElem?_range hi] at hT hT'
      obtain rfl := Option.some.inj hT
      obtain rfl := Option.some.inj hT'
      have hlt : ∀ j, startFl F (draws i) p j < fl F (startFl F (draws i) p j + fl F (morrisDelta p)) := by
        intro j
        obtain ⟨-, -, -, -, l5, -⟩ := levels_bounds hF (draws i) hp2 h16 j ((hv i).2 j)
        have hu := two_zpow_pos (-(F.p : ℤ))
        linarith
      refine ⟨hmoves (τ i) (hτ i) _ _ (draws i).up fun j _ => hlt j, ?_⟩
      intro s t j x y x' y' hx hy hx' hy'
      have hbnd : ∀ (f : Nat → Nat → ℚ) (s j : Nat) (v : ℚ), entry (table (g + 1) groups.length f) s j = some v →
          s < g + 1 ∧ j < groups.length ∧ v = f s j := by
        intro f s j v hv
        by_cases hs : s < g + 1
        · by_cases hj : j < groups.length
          · rw [entry_table _ _ _ _ _ hs hj] at hv
            exact ⟨hs, hj, (Option.some.inj hv).symm⟩
          · simp [entry, table, hs, hj] at hv
        · simp [entry, table, hs] at hv
      obtain ⟨-, hj, rfl⟩ := hbnd _ _ _ _ hx
      obtain ⟨-, -, rfl⟩ := hbnd _ _ _ _ hy
      obtain ⟨-, -, rfl⟩ := hbnd _ _ _ _ hx'
      obtain ⟨-, -, rfl⟩ := hbnd _ _ _ _ hy'
      have h3 := hlt j
      obtain ⟨-, -, -, -, h4, -⟩ := hab i j hj
      by_cases c1 : ((τ i).getD (groupOf j) 0 < s ↔ (draws i).up j = true) <;>
        by_cases c2 : ((τ i).getD (groupOf j) 0 < t ↔ (draws i).up j = true) <;>
        simp only [c1, c2, if_true, if_false, lt_self_iff_false]
      · exact ⟨fun h => absurd h (not_lt.2 h3.le), fun h => absurd h (not_lt.2 h4.le)⟩
      · exact ⟨fun _ => h4, fun _ => h3⟩
    · rw [List.getElem?_map, List.getElem?_eq_none (by simp; omega)] at hT
      cases hT

/-- **C109**, the effects: with the outputs of the scaled sample, whatever they are, the elementary effect of
parameter `j` on trajectory `i` is the difference of the two outputs around its turn, larger value of the
parameter minus smaller, rounded, over delta, rounded; the other groups have the same values in both rows.
Equal outputs give exactly 0. -/
theorem C109_effects (hF : F.emin + 2 * F.p + 4 ≤ 0) (draws : Nat → TrajDraws ℚ)
    (groups : List String) (bs : List (ℚ × ℚ)) (N p : Nat) (hp2 : 2 ≤ p) (h16 : 16 * p ≤ 2 ^ F.p)
    (hv : ∀ i, ValidTrajDraws p (draws i)) (hlen : bs.length = groups.length) (hne : bs ≠ [])
    (hlegal : ∀ b ∈ bs, b.1 < b.2) (hfl : ∀ b ∈ bs, IsFloat F b.1 ∧ IsFloat F b.2)
    (hw : ∀ b ∈ bs, (2 : ℚ) ^ (F.emin + F.p - 1) ≤ b.2 - b.1) (X : Mat ℚ)
    (hX : morrisSampleFl F draws groups (boundsTable bs) N p = .ok X) (hsize : X.length < 2 ^ F.p)
    (Y : List ℚ) (hYl : Y.length = X.length) (hY : ∀ y ∈ Y, IsFloat F y) :
    ∃ g groupOf, GroupNumbering groups.length (some groups) g groupOf ∧ X.length = N * (g + 1) ∧
      ∃ (d : ℚ) (EE : Mat (Num ℚ)), RoundsTo F (morrisDelta p) d ∧ computeDeltaFl F p = .ok d ∧
        elementaryEffectsFl F X groups.length Y (g + 1) d = .ok EE ∧ EE.length = groups.length ∧
        ∀ j < groups.length, ∃ ee, EE[j]? = some ee ∧ ee.length = N ∧ ∀ i < N, ∃ t < g, ∃ x x' y y' dy e : ℚ,
          entry X (t + i * (g + 1)) j = some x ∧ entry X (t + 1 + i * (g + 1)) j = some x' ∧ x ≠ x' ∧
          (∀ k < groups.length, groupOf k ≠ groupOf j →
            entry X (t + i * (g + 1)) k = entry X (t + 1 + i * (g + 1)) k) ∧
          Y[t + i * (g + 1)]? = some y ∧ Y[t + 1 + i * (g + 1)]? = some y' ∧
          RoundsTo F (if x < x' then y' - y else y - y') dy ∧ RoundsTo F (dy / d) e ∧ ee[i]? = some (some e) ∧
          (y = y' → e = 0) := by
  have h5 := fmt_p_ge hp2 h16
  have hp1 : 1 ≤ F.p := by omega
  obtain ⟨g, groupOf, hnum, τ, hτ, a, b, -, h2, hab⟩ := morrisSampleFl_eq hF draws groups bs N p hp2 h16 hv hlen
    hne hlegal hfl hw
  have hgo := groupNumbering_lt _ _ groups groupOf rfl hnum
  rw [hX] at h2
  have hXe := Except.ok.inj h2
  obtain ⟨Tr, hTr⟩ : ∃ Tr : Nat → Mat ℚ, Tr = fun i => table (g + 1) groups.length
    fun t j => if ((τ i).getD (groupOf j) 0 < t ↔ (draws i).up j = true) then b i j else a i j := ⟨_, rfl⟩
  have hXT : X = ((List.range N).map Tr).flatten := by rw [hXe, hTr]
  have hblk : ∀ T ∈ (List.range N).map Tr, T.length = g + 1 := by
    intro T hT
    obtain ⟨i, -, rfl⟩ := List.mem_map.mp hT
    rw [hTr]; exact table_length _ _ _
  have hXl : X.length = N * (g + 1) := by
    have := length_flatten_blocks _ _ hblk
    rw [← hXT] at this
    simpa using this
  obtain ⟨d1, d2, -⟩ := deltaFl_bounds hF hp2 h16
  have hu := two_zpow_pos (-(F.p : ℤ))
  have hd0 : fl F (morrisDelta p) ≠ 0 := by
    intro h; rw [h] at d1; linarith
  have hn : (intDivFl F X.length (g + 1)).toNat = N := by
    rw [intDivFl_eq hp1 (by omega) _ _ (by omega) hsize, hXl, Nat.mul_div_cancel _ (by omega)]; rfl
  have hrx : reshapeBlocks X N (g + 1) = .ok ((List.range N).map Tr) := by
    have := reshapeBlocks_flatten _ _ hblk
    rw [← hXT] at this
    simpa using this
  have hry : reshapeBlocks Y N (g + 1) = .ok ((List.range N).map fun i => (Y.drop (i * (g + 1))).take (g + 1)) := by
    unfold reshapeBlocks
    rw [if_pos (by rw [hYl, hXl])]
  refine ⟨g, groupOf, hnum, hXl, fl F (morrisDelta p), (List.range groups.length).map fun j =>
    (List.range N).map fun i =>
      some (fdiv F (effectDifferenceFl F (Tr i) ((Y.drop (i * (g + 1))).take (g + 1)) j) (fl F (morrisDelta p))),
    fl_roundsTo (by omega) _, computeDeltaFl_eq (by omega) hp2 h16, ?_, ?_, ?_⟩
  · unfold elementaryEffectsFl
    rw [if_neg (by omega)]
    simp only [pyBind_ok, hn, hry, hrx, pyPure]
    congr 1
    apply List.map_congr_left
    intro j _
    rw [List.zip_map', List.map_map]
    apply List.map_congr_left
    intro i _
    simp only [Function.comp_apply, hd0, if_false]
  · simp
  · intro j hj
    refine ⟨_, by rw [List.getElem?_map, List.getElem?_range hj]; rfl, by simp, ?_⟩
    intro i hi
    obtain ⟨order, ho, hst⟩ := switch_steps groups.length g groupOf hgo (τ i) (hτ i) (a i) (b i) (draws i).up
    obtain ⟨t, hto⟩ : ∃ t : Nat, order[t]? = some (groupOf j) := by
      have : groupOf j ∈ order := ho.mem_iff.mpr (List.mem_range.mpr (hgo j hj))
      obtain ⟨t, ht, he⟩ := List.getElem_of_mem this
      exact ⟨t, by rw [List.getElem?_eq_getElem ht, he]⟩
    obtain ⟨htg, hall⟩ := hst t _ hto
    obtain ⟨hturn, x, x', hx, hx', hxx⟩ := hall j hj
    rw [if_pos rfl] at hxx
    obtain ⟨-, -, f1, f2, hlt, -⟩ := hab i j hj
    have hTi : Tr i = table (g + 1) groups.length
      fun t j => if ((τ i).getD (groupOf j) 0 < t ↔ (draws i).up j = true) then b i j else a i j := by rw [hTr]
    have hrow : ∀ s < g + 1, ∀ k, entry X (s + i * (g + 1)) k = entry (Tr i) s k := by
      intro s hs k
      have := getElem?_flatten_blocks _ (g + 1) i s hblk hs
      rw [← hXT, List.getElem?_map, List.getElem?_range hi] at this
      simp only [Option.map_some, Option.bind_some] at this
      unfold entry
      rw [this]
    have hfx : IsFloat F x ∧ IsFloat F x' ∧ x ≠ x' := by
      split at hxx
      · obtain ⟨rfl, rfl⟩ := hxx; exact ⟨f1, f2, hlt.ne⟩
      · obtain ⟨rfl, rfl⟩ := hxx; exact ⟨f2, f1, hlt.ne'⟩
    have hch : ChangesOnlyAt (Tr i) j t := by
      intro s hs hs'
      have hsl : s + 1 < g + 1 := by rw [hTi, table_length] at hs'; exact hs'
      rw [hTi, entry_table _ _ _ _ _ (by omega) hj, entry_table _ _ _ _ _ hsl hj]
      have h1 := hturn.1 rfl
      have h2 : ((τ i).getD (groupOf j) 0 < s + 1) ↔ ((τ i).getD (groupOf j) 0 < s) := by omega
      simp only [h2]
    have hyb : ∀ s < g + 1, i * (g + 1) + s < Y.length := by
      intro s hs
      rw [hYl, hXl]
      have : (i + 1) * (g + 1) ≤ N * (g + 1) := Nat.mul_le_mul_right _ hi
      rw [Nat.add_mul, one_mul] at this
      omega
    have hyget : ∀ s < g + 1, ((Y.drop (i * (g + 1))).take (g + 1)).getD s 0 = Y.getD (s + i * (g + 1)) 0 := by
      intro s hs
      simp [List.getD_eq_getElem?_getD, List.getElem?_take, hs, List.getElem?_drop, add_comm]
    have hysome : ∀ s < g + 1, Y[s + i * (g + 1)]? = some (Y.getD (s + i * (g + 1)) 0) := by
      intro s hs
      have := hyb s hs
      rw [List.getD_eq_getElem?_getD, List.getElem?_eq_getElem (by omega)]; rfl
    have hed := effectDifferenceFl_eq hp1 (Tr i) ((Y.drop (i * (g + 1))).take (g + 1)) j t
      (by rw [hTi, table_length, List.length_take, List.length_drop]; have := hyb g (by omega); omega)
      (by rw [hTi, table_length]; omega) hch (fun v hv => hY v (List.mem_of_mem_drop (List.mem_of_mem_take hv)))
      x x' (by rw [hTi]; exact hx) (by rw [hTi]; exact hx') hfx.1 hfx.2.1 hfx.2.2
    rw [hyget t (by omega), hyget (t + 1) (by omega)] at hed
    refine ⟨t, htg, x, x', Y.getD (t + i * (g + 1)) 0, Y.getD (t + 1 + i * (g + 1)) 0,
      effectDifferenceFl F (Tr i) ((Y.drop (i * (g + 1))).take (g + 1)) j,
      fdiv F (effectDifferenceFl F (Tr i) ((Y.drop (i * (g + 1))).take (g + 1)) j) (fl F (morrisDelta p)),
      ?_, ?_, hfx.2.2, ?_, hysome t (by omega), hysome (t + 1) (by omega), ?_, fl_roundsTo (by omega) _, ?_, ?_⟩
    · rw [hrow t (by omega), hTi]; exact hx
    · rw [hrow (t + 1) (by omega), hTi]; exact hx'
    · intro k hk hkj
      rw [hrow t (by omega), hrow (t + 1) (by omega), hTi]
      obtain ⟨-, u, u', hu, hu', huu⟩ := hall k hk
      rw [if_neg hkj] at huu
      rw [hu, hu', huu]
    · rw [hed]
      split
      · exact fl_roundsTo (by omega) _
      · exact fl_roundsTo (by omega) _
    · rw [List.getElem?_map, List.getElem?_range hi]; rfl
    · intro hyy
      rw [hed, hyy]
      simp [fsub, fdiv, fl_zero]

/-- **C109**, inert parameters: a model that does not look at a group of parameters gives all of them
effects that are exactly 0. -/
theorem C109_inert (hF : F.emin + 2 * F.p + 4 ≤ 0) (draws : Nat → TrajDraws ℚ)
    (groups : List String) (bs : List (ℚ × ℚ)) (N p : Nat) (hp2 : 2 ≤ p) (h16 : 16 * p ≤ 2 ^ F.p)
    (hv : ∀ i, ValidTrajDraws p (draws i)) (hlen : bs.length = groups.length) (hne : bs ≠ [])
    (hlegal : ∀ b ∈ bs, b.1 < b.2) (hfl : ∀ b ∈ bs, IsFloat F b.1 ∧ IsFloat F b.2)
    (hw : ∀ b ∈ bs, (2 : ℚ) ^ (F.emin + F.p - 1) ≤ b.2 - b.1) (X : Mat ℚ)
    (hX : morrisSampleFl F draws groups (boundsTable bs) N p = .ok X) (hsize : X.length < 2 ^ F.p)
    (f : List ℚ → ℚ) (hf : ∀ r, IsFloat F (f r)) (l : String)
    (hin : ∀ r r' : List ℚ, (∀ k < groups.length, groups[k]? ≠ some l → r[k]? = r'[k]?) → f r = f r') :
    ∃ (g : Nat) (d : ℚ) (EE : Mat (Num ℚ)), computeDeltaFl F p = .ok d ∧ X.length = N * (g + 1) ∧
      elementaryEffectsFl F X groups.length (X.map f) (g + 1) d = .ok EE ∧
      ∀ j : Nat, groups[j]? = some l → EE[j]? = some (List.replicate N (some (0 : ℚ))) := by
  obtain ⟨g, groupOf, hnum, hXl, d, EE, -, hd, hEE, -, h⟩ := C109_effects hF draws groups bs N p hp2 h16 hv hlen hne
    hlegal hfl hw X hX hsize (X.map f) (by simp) (by
      intro y hy
      obtain ⟨r, -, rfl⟩ := List.mem_map.mp hy
      exact hf r)
  refine ⟨g, d, EE, hd, hXl, hEE, fun j hj => ?_⟩
  have hjl : j < groups.length := (List.getElem?_eq_some_iff.mp hj).1
  obtain ⟨ee, h1, h2, h3⟩ := h j hjl
  rw [h1]
  congr 1
  apply List.ext_getElem
  · simp [h2]
  · intro i hi _
    rw [h2] at hi
    obtain ⟨t, ht, x, x', y, y', dy, e, ex, ex', -, hoth, hy, hy', -, -, hei, h0⟩ := h3 i hi
    rw [List.getElem_replicate]
    have : ee[i]? = some (some e) := hei
    rw [List.getElem?_eq_getElem (by omega)] at this
    rw [Option.some.inj this]
    congr 1
    apply h0
    rw [List.getElem?_map] at hy hy'
    obtain ⟨r, hr, rfl⟩ := Option.map_eq_some_iff.mp hy
    obtain ⟨r', hr', rfl⟩ := Option.map_eq_some_iff.mp hy'
    apply hin
    intro k hkl hk
    obtain ⟨names, -, rfl, hnm⟩ := hnum
    have hne : groupOf k ≠ groupOf j := by
      intro he
      apply hk
      have e1 := hnm k groups[k] (List.getElem?_eq_getElem hkl)
      have e2 := hnm j l hj
      rw [he, e2] at e1
      rw [List.getElem?_eq_getElem hkl, ← Option.some.inj e1]
    have := hoth k hkl hne
    unfold entry at this
    rwa [hr, hr', Option.bind_some, Option.bind_some] at this

/-- Concrete draws: the groups in their order, every move upwards, from the second starting value. -/
def upDraws : TrajDraws ℚ := ⟨id, fun _ => true, fun _ => 1⟩

/-- **C109**, the limit: for a range narrower than the smallest normal number a move can get lost, both
points of the trajectory are the upper bound. -/
theorem C109_tiny : ∃ lo hi : ℚ, IsFloat binary64 lo ∧ IsFloat binary64 hi ∧ lo < hi ∧
    morrisSampleFl binary64 (fun _ => upDraws) ["x"] [[lo, hi]] 1 4 = .ok [[hi], [hi]] := by
  refine ⟨(2 ^ 52 + 1 : ℤ) * (2 : ℚ) ^ (-1073 : ℤ), (2 ^ 52 + 2 : ℤ) * (2 : ℚ) ^ (-1073 : ℤ), ?_, ?_, ?_, ?_⟩
  · exact ⟨2 ^ 52 + 1, -1073, by decide, by decide, rfl⟩
  · exact ⟨2 ^ 52 + 2, -1073, by decide, by decide, rfl⟩
  · decide +kernel
  · decide +kernel

/-- The hypotheses are met in binary64 by four levels, two parameters, one of them with a range of two
neighbouring numbers. -/
example : binary64.emin + 2 * binary64.p + 4 ≤ 0 ∧ 16 * 4 ≤ 2 ^ binary64.p ∧ ValidTrajDraws 4 upDraws ∧
    (∀ b ∈ [((0 : ℚ), (1 : ℚ)), (2 ^ 53, 2 ^ 53 + 2)], b.1 < b.2 ∧ IsFloat binary64 b.1 ∧ IsFloat binary64 b.2 ∧
      (2 : ℚ) ^ (binary64.emin + binary64.p - 1) ≤ b.2 - b.1) := by
  refine ⟨by decide, by decide, ⟨fun M => List.Perm.refl M, fun _ => by show 1 < 4 / 2; decide⟩, ?_⟩
  have hw : ∀ w : ℚ, 1 ≤ w → (2 : ℚ) ^ (binary64.emin + binary64.p - 1) ≤ w := fun w hw =>
    (two_zpow_le (b := 0) (by decide)).trans (by simpa using hw)
  simp only [List.forall_mem_cons]
  refine ⟨⟨by norm_num, isFloat_zero, isFloat_one (by decide) (by decide), hw _ (by norm_num)⟩,
    ⟨by norm_num, ⟨2 ^ 52, 1, by decide, by decide, by norm_num⟩, ⟨2 ^ 52 + 1, 1, by decide, by decide, by norm_num⟩,
      hw _ (by norm_num)⟩, by simp⟩

/-- A range of two neighbouring numbers: the trajectory moves from the lower to the upper bound. -/
example : morrisSampleFl binary64 (fun _ => upDraws) ["x"] [[2 ^ 53, 2 ^ 53 + 2]] 1 4 =
    .ok [[2 ^ 53], [2 ^ 53 + 2]] := by decide +kernel

/-- A model that does not look at parameter "x". -/
example : ∃ f : List ℚ → ℚ, (∀ r, IsFloat binary64 (f r)) ∧ (∃ r r', f r ≠ f r') ∧
    ∀ r r' : List ℚ, (∀ k < 2, ["x", "y"][k]? ≠ some "x" → r[k]? = r'[k]?) → f r = f r' := by
  refine ⟨fun r => fl binary64 (r.getD 1 0), fun r => isFloat_fl (by decide) _, ⟨[0, 0], [0, 1], ?_⟩, ?_⟩
  · decide +kernel
  · intro r r' h
    have := h 1 (by omega) (by decide)
    simp only [List.getD_eq_getElem?_getD, this]

end SALib
