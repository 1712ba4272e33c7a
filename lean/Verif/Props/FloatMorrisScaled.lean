import Verif.Spec.FloatMorrisScaled
import Verif.Props.FloatConf

/-! # C114: scaled effects of a Morris analysis in floating point -/

namespace SALib
open Spec

variable {F : Fmt}

theorem foldl_max_eq {b : ℚ} : ∀ (l : List ℚ) (a : ℚ), a ≤ b → (∀ v ∈ l, v ≤ b) → (a = b ∨ b ∈ l) → l.foldl max a = b := by
  intro l
  induction l with
  | nil => intro a _ _ h; simpa using h
  | cons v l ih =>
    intro a ha hl h
    have hv := hl v (by simp)
    refine ih (max a v) (max_le ha hv) (fun w hw => hl w (by simp [hw])) ?_
    rcases h with rfl | h
    · left; exact max_eq_left hv
    · rcases List.mem_cons.mp h with rfl | h
      · left; exact max_eq_right ha
      · exact Or.inr h

theorem foldl_min_eq {b : ℚ} : ∀ (l : List ℚ) (a : ℚ), b ≤ a → (∀ v ∈ l, b ≤ v) → (a = b ∨ b ∈ l) → l.foldl min a = b := by
  intro l
  induction l with
  | nil => intro a _ _ h; simpa using h
  | cons v l ih =>
    intro a ha hl h
    have hv := hl v (by simp)
    refine ih (min a v) (le_min ha hv) (fun w hw => hl w (by simp [hw])) ?_
    rcases h with rfl | h
    · left; exact min_eq_left hv
    · rcases List.mem_cons.mp h with rfl | h
      · left; exact min_eq_right ha
      · exact Or.inr h

theorem listMax_eq_of {l : List ℚ} {b : ℚ} (hb : b ∈ l) (h : ∀ v ∈ l, v ≤ b) : listMax l = b := by
  cases l with
  | nil => simp at hb
  | cons v l => exact foldl_max_eq _ _ (h v (by simp)) h (Or.inr hb)

theorem listMin_eq_of {l : List ℚ} {b : ℚ} (hb : b ∈ l) (h : ∀ v ∈ l, b ≤ v) : listMin l = b := by
  cases l with
  | nil => simp at hb
  | cons v l => exact foldl_min_eq _ _ (h v (by simp)) h (Or.inr hb)

/-- The inverse of a number with one rounding has two. -/
theorem within_inv {u : ℚ} (hu : 0 ≤ u) (hu2 : u ≤ 1 / 2) {x y : ℚ} (hx : 0 < x) (h : Within u 1 x y) :
    0 < y ∧ Within u 2 x⁻¹ y⁻¹ := by
  unfold Within at *
  rw [pow_one, add_sub_cancel_left, abs_of_pos hx, _root_.abs_le] at h
  have hy : 0 < y := by nlinarith
  refine ⟨hy, ?_⟩
  rw [abs_of_pos (inv_pos.mpr hx), inv_sub_inv hy.ne' hx.ne', abs_div, abs_of_pos (mul_pos hy hx), div_le_iff₀ (mul_pos hy hx)]
  have e : ((1 + u) ^ 2 - 1) * x⁻¹ * (y * x) = ((1 + u) ^ 2 - 1) * y := by field_simp
  rw [e, abs_le]
  have : (2 * u + u ^ 2) * ((1 - u) * x) ≤ (2 * u + u ^ 2) * y := mul_le_mul_of_nonneg_left (by nlinarith) (by positivity)
  have h3 : u * x ≤ (2 * u + u ^ 2) * ((1 - u) * x) := by
    have : 0 ≤ u * x * (1 - u - u ^ 2) := mul_nonneg (by positivity) (by nlinarith)
    nlinarith
  constructor <;> nlinarith

/-- A variance in any order, as `NearVar`. -/
theorem varFl_nearVar (hp : 1 ≤ F.p) {order : Nat → SumTree} (ho : SumOrder order) {n : Nat} {xs : List ℚ} (hl : xs.length = n)
    (hn : 0 < n) (hf : ∀ y ∈ xs, IsFloat F y) (z : Nat → ℚ) (hz : ∀ i < n, xs.getD i 0 = z i) :
    ∃ v, varFl F order xs = some v ∧ NearVar F n z v := by
  subst hl
  obtain ⟨μ, v, h1, -, -, -, -, h2, h3⟩ := varFl_rounded hp ho (List.length_pos_iff.mp hn) hf z hz
  exact ⟨v, h1, μ, h2, by rw [avg_sq_shift hn]; exact h3⟩

/-- The scaled effects of a sample: computed numbers, each of them close to the scaled effect. -/
theorem sample_scaled (o : MorrisOrders) (sqrt : ℚ → ℚ) (hoi : SumOrder o.inputs) (hoo : SumOrder o.outputs)
    (hF : F.emin + 2 * F.p + 4 ≤ 0) (draws : Nat → TrajDraws ℚ)
    (groups : List String) (bs : List (ℚ × ℚ)) (N p : Nat) (hp2 : 2 ≤ p) (h16 : 16 * p ≤ 2 ^ F.p)
    (hv : ∀ i, ValidTrajDraws p (draws i)) (hlen : bs.length = groups.length) (hne : bs ≠ [])
    (hlegal : ∀ b ∈ bs, b.1 < b.2) (hfl : ∀ b ∈ bs, IsFloat F b.1 ∧ IsFloat F b.2)
    (hw : ∀ b ∈ bs, (2 : ℚ) ^ (F.emin + F.p - 1) ≤ b.2 - b.1) (X : Mat ℚ)
    (hX : morrisSampleFl F draws groups (boundsTable bs) N p = .ok X) (hsize : X.length < 2 ^ F.p)
    (Y : List ℚ) (hYl : Y.length = X.length) (hY : ∀ y ∈ Y, IsFloat F y) :
    ∃ g groupOf, GroupNumbering groups.length (some groups) g groupOf ∧ X.length = N * (g + 1) ∧
      ∃ (EE : Mat (Num ℚ)) (e : Nat → Nat → ℚ),
        scaledEffectsFl F o sqrt X groups.length Y (g + 1) = .ok EE ∧ EE.length = groups.length ∧
        ∀ j < groups.length, EE.getD j [] = ((List.range N).map fun i => some (e j i)) ∧ ∀ i < N,
          IsFloat F (e j i) ∧ ScaledTurn F sqrt X Y groups.length g groupOf j i (e j i) := by
  have h5 := fmt_p_ge hp2 h16
  have hp1 : 1 ≤ F.p := by omega
  obtain ⟨g, groupOf, hnum, τ, hτ, a, b, -, h2, hab⟩ := morrisSampleFl_eq hF draws groups bs N p hp2 h16 hv hlen
    hne hlegal hfl hw
  have hgo := groupNumbering_lt _ _ groups groupOf rfl hnum
  rw [hX] at h2
  have hXe := Except.ok.inj h2
  obtain ⟨Tr, hTr⟩ : ∃ Tr : Nat → Mat ℚ, Tr = fun i => table (g + 1) groups.length
    fun t j => if ((τ i).getD (groupOf j) 0 < t ↔ (draws i).up j = true) then b i j else a i j := ⟨_, rfl⟩
  have hXT : X = ((List.range N).map Tr).flatten := by rw [hXe, hTr]
  have hblk : ∀ T ∈ (List.range N).map Tr, T.length = g + 1 := by
    intro T hT
    obtain ⟨i, -, rfl⟩ := List.mem_map.mp hT
    rw [hTr]; exact table_length _ _ _
  have hXl : X.length = N * (g + 1) := by
    have := length_flatten_blocks _ _ hblk
    rw [← hXT] at this
    simpa using this
  have hn : (intDivFl F X.length (g + 1)).toNat = N := by
    rw [intDivFl_eq hp1 (by omega) _ _ (by omega) hsize, hXl, Nat.mul_div_cancel _ (by omega)]; rfl
  have hrx : reshapeBlocks X N (g + 1) = .ok ((List.range N).map Tr) := by
    have := reshapeBlocks_flatten _ _ hblk
    rw [← hXT] at this
    simpa using this
  have hry : reshapeBlocks Y N (g + 1) = .ok ((List.range N).map fun i => (Y.drop (i * (g + 1))).take (g + 1)) := by
    unfold reshapeBlocks
    rw [if_pos (by rw [hYl, hXl])]
  have key : ∀ j i, ∃ e, j < groups.length → i < N →
      scaledEffectFl F o sqrt (Tr i) ((Y.drop (i * (g + 1))).take (g + 1)) j = some e ∧ IsFloat F e ∧
      ScaledTurn F sqrt X Y groups.length g groupOf j i e := by
    intro j i
    by_cases hj : j < groups.length
    swap
    · exact ⟨0, fun h => absurd h hj⟩
    by_cases hi : i < N
    swap
    · exact ⟨0, fun _ h => absurd h hi⟩
    obtain ⟨order, ho, hst⟩ := switch_steps groups.length g groupOf hgo (τ i) (hτ i) (a i) (b i) (draws i).up
    obtain ⟨t, hto⟩ : ∃ t : Nat, order[t]? = some (groupOf j) := by
      have : groupOf j ∈ order := ho.mem_iff.mpr (List.mem_range.mpr (hgo j hj))
      obtain ⟨t, ht, he⟩ := List.getElem_of_mem this
      exact ⟨t, by rw [List.getElem?_eq_getElem ht, he]⟩
    obtain ⟨htg, hall⟩ := hst t _ hto
    obtain ⟨hturn, x, x', hx, hx', hxx⟩ := hall j hj
    rw [if_pos rfl] at hxx
    obtain ⟨-, -, f1, f2, hlt, -⟩ := hab i j hj
    have hTi : Tr i = table (g + 1) groups.length
      fun t j => if ((τ i).getD (groupOf j) 0 < t ↔ (draws i).up j = true) then b i j else a i j := by rw [hTr]
    rw [← hTi] at hx hx'
    have hTl : (Tr i).length = g + 1 := by rw [hTi, table_length]
    have hrow : ∀ s < g + 1, ∀ k, entry X (s + i * (g + 1)) k = entry (Tr i) s k := by
      intro s hs k
      have := getElem?_flatten_blocks _ (g + 1) i s hblk hs
      rw [← hXT, List.getElem?_map, List.getElem?_range hi] at this
      simp only [Option.map_some, Option.bind_some] at this
      unfold entry
      rw [this]
    have hfx : IsFloat F x ∧ IsFloat F x' ∧ x ≠ x' ∧ max x x' = b i j ∧ min x x' = a i j := by
      split at hxx
      · obtain ⟨rfl, rfl⟩ := hxx; exact ⟨f1, f2, hlt.ne, max_eq_right hlt.le, min_eq_left hlt.le⟩
      · obtain ⟨rfl, rfl⟩ := hxx; exact ⟨f2, f1, hlt.ne', max_eq_left hlt.le, min_eq_right hlt.le⟩
    have hent : ∀ s < g + 1, ∃ v, entry (Tr i) s j = some v ∧ (v = a i j ∨ v = b i j) := by
      intro s hs
      rw [hTi, entry_table _ _ _ _ _ hs hj]
      refine ⟨_, rfl, ?_⟩
      split
      · exact Or.inr rfl
      · exact Or.inl rfl
    have hch : ChangesOnlyAt (Tr i) j t := by
      intro s hs hs'
      have hsl : s + 1 < g + 1 := by rw [hTl] at hs'; exact hs'
      rw [hTi, entry_table _ _ _ _ _ (by omega) hj, entry_table _ _ _ _ _ hsl hj]
      have h1 := hturn.1 rfl
      have h2 : ((τ i).getD (groupOf j) 0 < s + 1) ↔ ((τ i).getD (groupOf j) 0 < s) := by omega
      simp only [h2]
    -- the column
    have hcolget : ∀ s < g + 1, ((Tr i).map (·.getD j 0))[s]? = entry (Tr i) s j := by
      intro s hs
      obtain ⟨v, hv, -⟩ := hent s hs
      rw [hv]
      unfold entry at hv
      rw [List.getElem?_map]
      obtain ⟨r, hr, hrj⟩ := Option.bind_eq_some_iff.mp hv
      rw [hr, Option.map_some, List.getD_eq_getElem?_getD, hrj]; rfl
    have hcolmem : ∀ v ∈ (Tr i).map (·.getD j 0), v = a i j ∨ v = b i j := by
      intro v hv
      obtain ⟨s, hs, rfl⟩ := List.getElem_of_mem hv
      have hs' : s < g + 1 := by simpa [hTl] using hs
      obtain ⟨w, hw1, hw2⟩ := hent s hs'
      have := hcolget s hs'
      rw [List.getElem?_eq_getElem hs, hw1] at this
      rw [Option.some.inj this]; exact hw2
    have hxm : x ∈ (Tr i).map (·.getD j 0) := List.mem_of_getElem? ((hcolget t (by omega)).trans hx)
    have hxm' : x' ∈ (Tr i).map (·.getD j 0) := List.mem_of_getElem? ((hcolget (t + 1) (by omega)).trans hx')
    have hmax : listMax ((Tr i).map (·.getD j 0)) = b i j := by
      refine listMax_eq_of ?_ fun v hv => ?_
      · rcases max_choice x x' with h | h <;> rw [h] at hfx
        · rw [← hfx.2.2.2.1]; exact hxm
        · rw [← hfx.2.2.2.1]; exact hxm'
      · rcases hcolmem v hv with rfl | rfl
        · exact hlt.le
        · exact le_rfl
    have hmin : listMin ((Tr i).map (·.getD j 0)) = a i j := by
      refine listMin_eq_of ?_ fun v hv => ?_
      · rcases min_choice x x' with h | h <;> rw [h] at hfx
        · rw [← hfx.2.2.2.2]; exact hxm
        · rw [← hfx.2.2.2.2]; exact hxm'
      · rcases hcolmem v hv with rfl | rfl
        · exact le_rfl
        · exact hlt.le
    have hyb : ∀ s < g + 1, i * (g + 1) + s < Y.length := by
      intro s hs
      rw [hYl, hXl]
      have : (i + 1) * (g + 1) ≤ N * (g + 1) := Nat.mul_le_mul_right _ hi
      rw [Nat.add_mul, one_mul] at this
      omega
    have hyget : ∀ s < g + 1, ((Y.drop (i * (g + 1))).take (g + 1)).getD s 0 = Y.getD (s + i * (g + 1)) 0 := by
      intro s hs
      simp [List.getD_eq_getElem?_getD, hs, List.getElem?_drop, add_comm]
    have hysome : ∀ s < g + 1, Y[s + i * (g + 1)]? = some (Y.getD (s + i * (g + 1)) 0) := by
      intro s hs
      have := hyb s hs
      rw [List.getD_eq_getElem?_getD, List.getElem?_eq_getElem (by omega)]; rfl
    have hyl : ((Y.drop (i * (g + 1))).take (g + 1)).length = g + 1 := by
      rw [List.length_take, List.length_drop]; have := hyb g (by omega); omega
    have hyf : ∀ v ∈ (Y.drop (i * (g + 1))).take (g + 1), IsFloat F v :=
      fun v hv => hY v (List.mem_of_mem_drop (List.mem_of_mem_take hv))
    have hed := effectDifferenceFl_eq hp1 (Tr i) ((Y.drop (i * (g + 1))).take (g + 1)) j t (by rw [hTl, hyl])
      (by rw [hTl]; omega) hch hyf x x' hx hx' hfx.1 hfx.2.1 hfx.2.2.1
    rw [hyget t (by omega), hyget (t + 1) (by omega)] at hed
    obtain ⟨vx, hvx, hnx⟩ := varFl_nearVar hp1 hoi (xs := (Tr i).map (·.getD j 0)) (n := g + 1) (by simp [hTl]) (by omega)
      (by
        intro v hv
        rcases hcolmem v hv with rfl | rfl
        · exact f1
        · exact f2) (fun s => (entry X (s + i * (g + 1)) j).getD 0) (by
        intro s hs
        rw [hrow s hs, List.getD_eq_getElem?_getD, hcolget s hs])
    obtain ⟨vy, hvy, hny⟩ := varFl_nearVar hp1 hoo hyl (by omega) hyf (fun s => Y.getD (s + i * (g + 1)) 0) hyget
    have hu := two_zpow_pos (-(F.p : ℤ))
    have hu2 : (2 : ℚ) ^ (-(F.p : ℤ)) ≤ 1 / 2 := by
      have : (2 : ℚ) ^ (-(F.p : ℤ)) ≤ 2 ^ (-1 : ℤ) := zpow_le_zpow_right₀ (by norm_num) (by omega)
      norm_num at this ⊢
      exact this
    obtain ⟨hdx, hdi⟩ := within_inv hu.le hu2 (sub_pos.mpr hlt) (fsub_within hp1 f2 f1)
    have hval : scaledEffectFl F o sqrt (Tr i) ((Y.drop (i * (g + 1))).take (g + 1)) j =
        some (fmul F (fdiv F (effectDifferenceFl F (Tr i) ((Y.drop (i * (g + 1))).take (g + 1)) j)
          (fsub F (b i j) (a i j))) (adjustmentFl F (sqrt vx) (sqrt vy))) := by
      unfold scaledEffectFl std0Fl
      simp only [hvx, hvy, hmax, hmin, Option.map_some, Option.bind_eq_bind, Option.bind_some]
      rw [if_neg hdx.ne']
    refine ⟨_, fun _ _ => ⟨hval, isFloat_fl (by omega) _, t, htg, x, x', Y.getD (t + i * (g + 1)) 0,
      Y.getD (t + 1 + i * (g + 1)) 0, vx, vy, ?_, ?_, hfx.2.2.1, ?_, hysome t (by omega), hysome (t + 1) (by omega), hnx, hny,
      ?_, ?_, ?_⟩⟩
    · rw [hrow t (by omega)]; exact hx
    · rw [hrow (t + 1) (by omega)]; exact hx'
    · intro k hk hkj
      rw [hrow t (by omega), hrow (t + 1) (by omega), hTi]
      obtain ⟨-, u, u', hu, hu', huu⟩ := hall k hk
      rw [if_neg hkj] at huu
      rw [hu, hu', huu]
    · intro h0
      simp [adjustmentFl, h0, fmul, fl_zero]
    · intro hyy
      rw [hed, hyy]
      simp [fsub, fdiv, fmul, fl_zero]
    · intro h0
      refine ⟨fdiv F (effectDifferenceFl F (Tr i) ((Y.drop (i * (g + 1))).take (g + 1)) j) (fsub F (b i j) (a i j)),
        fdiv F (sqrt vx) (sqrt vy), ?_, fl_roundsTo (by omega) _, ?_⟩
      rotate_left
      · unfold adjustmentFl
        rw [if_neg h0]
        exact fl_roundsTo (by omega) _
      · have hfy : ∀ s < g + 1, IsFloat F (Y.getD (s + i * (g + 1)) 0) :=
          fun s hs => hY _ (List.mem_of_getElem? (hysome s hs))
        have hq : ∀ y y' : ℚ, IsFloat F y → IsFloat F y' →
            RoundedFrom F 4 1 |(y' - y) / (b i j - a i j)| ((y' - y) / (b i j - a i j))
              (fdiv F (fsub F y' y) (fsub F (b i j) (a i j))) := by
          intro y y' fy fy'
          have := (fsub_within hp1 fy' fy).mul hu.le hdi
          rw [← div_eq_mul_inv, ← div_eq_mul_inv] at this
          have h4 := (RoundedFrom.of_within this).rnd le_rfl
          rw [zero_add] at h4
          exact h4
        rw [hed]
        split at hxx
        · obtain ⟨rfl, rfl⟩ := hxx
          rw [if_pos hlt]
          exact hq _ _ (hfy t (by omega)) (hfy (t + 1) (by omega))
        · obtain ⟨rfl, rfl⟩ := hxx
          rw [if_neg (not_lt.mpr hlt.le)]
          have := hq _ _ (hfy (t + 1) (by omega)) (hfy t (by omega))
          rwa [← neg_div_neg_eq, neg_sub, neg_sub] at this
  choose e he using key
  refine ⟨g, groupOf, hnum, hXl, (List.range groups.length).map fun j => (List.range N).map fun i => some (e j i), e, ?_, ?_,
    ?_⟩
  · unfold scaledEffectsFl
    rw [if_neg (by omega)]
    simp only [pyBind_ok, hn, hry, hrx, pyPure]
    congr 1
    apply List.map_congr_left
    intro j hj
    rw [List.zip_map', List.map_map]
    apply List.map_congr_left
    intro i hi
    exact (he j i (List.mem_range.mp hj) (List.mem_range.mp hi)).1
  · simp
  · intro j hj
    refine ⟨?_, fun i hi => (he j i hj hi).2⟩
    rw [List.getD_eq_getElem?_getD, List.getElem?_map, List.getElem?_range hj]; rfl

/-- The statistics of computed effects, whatever they are. -/
theorem effects_stats (o : MorrisOrders) (sqrt : ℚ → ℚ) (z : ℚ) (idx : Nat → List (List Nat)) (hp1 : 2 ≤ F.p)
    (hoe : SumOrder o.effects) (hor : SumOrder o.resample) (hos : SumOrder o.resamples) {D N : Nat} (hN : 0 < N)
    (EE : Mat (Num ℚ)) (e : Nat → Nat → ℚ)
    (h : ∀ j < D, EE.getD j [] = ((List.range N).map fun i => some (e j i)) ∧ ∀ i < N, IsFloat F (e j i))
    (hidx : ∀ j < D, 2 ≤ (idx j).length ∧ ∀ r ∈ idx j, r ≠ [] ∧ ∀ i ∈ r, i < N) :
    ∃ (M S H : Nat → ℚ) (s : Nat → Nat → ℚ), ∀ j < D,
      (meanFlN F o.effects (EE.getD j []) = some (M j) ∧ IsFloat F (M j) ∧
        RoundedFrom F N 1 (avg N fun i => |e j i|) (avg N (e j)) (M j)) ∧
      (meanFlN F o.effects (absN (EE.getD j [])) = some (S j) ∧ IsFloat F (S j) ∧
        RoundedFrom F N 1 (avg N fun i => |e j i|) (avg N fun i => |e j i|) (S j)) ∧
      (confFl F o sqrt z (idx j) (EE.getD j []) = some (H j) ∧ IsFloat F (H j) ∧
        NearHalfWidth F sqrt z (idx j).length (s j) (some (H j)) ∧
        ∀ (t : Nat) (r : List Nat), (idx j)[t]? = some r →
          RoundedFrom F r.length 1 (avg r.length fun i => |e j (r.getD i 0)|)
            (avg r.length fun i => |e j (r.getD i 0)|) (s j t)) := by
  have habs : ∀ v, IsFloat F v → IsFloat F |v| := by
    intro v hv
    rcases abs_choice v with h | h <;> rw [h]
    · exact hv
    · exact hv.neg
  have hmean : ∀ f : Nat → ℚ, (∀ i < N, IsFloat F (f i)) → ∃ m, meanFl F o.effects (col N f) = some m ∧ IsFloat F m ∧
      RoundedFrom F N 1 (avg N fun i => |f i|) (avg N f) m := by
    intro f hf
    obtain ⟨m, h1, h2, h3⟩ := meanFl_rounded (show 1 ≤ F.p by omega) hoe (xs := col N f) (col_ne_nil hN f) (n := 0) (c := 0) le_rfl
      (X := fun i => |f i|) (x := f) (fun i => le_rfl) (by
      intro y hy
      obtain ⟨i, hi, rfl⟩ := List.mem_map.mp hy
      exact hf i (List.mem_range.mp hi)) (fun i hi => by
      rw [length_col] at hi
      rw [col_getD f hi]; exact RoundedFrom.refl _)
    rw [length_col, zero_add, zero_add] at h3
    exact ⟨m, h1, h2, h3⟩
  have key : ∀ j, ∃ (M S H : ℚ) (s : Nat → ℚ), j < D →
      (meanFlN F o.effects (EE.getD j []) = some M ∧ IsFloat F M ∧
        RoundedFrom F N 1 (avg N fun i => |e j i|) (avg N (e j)) M) ∧
      (meanFlN F o.effects (absN (EE.getD j [])) = some S ∧ IsFloat F S ∧
        RoundedFrom F N 1 (avg N fun i => |e j i|) (avg N fun i => |e j i|) S) ∧
      (confFl F o sqrt z (idx j) (EE.getD j []) = some H ∧ IsFloat F H ∧
        NearHalfWidth F sqrt z (idx j).length s (some H) ∧
        ∀ (t : Nat) (r : List Nat), (idx j)[t]? = some r →
          RoundedFrom F r.length 1 (avg r.length fun i => |e j (r.getD i 0)|)
            (avg r.length fun i => |e j (r.getD i 0)|) (s t)) := by
    intro j
    by_cases hj : j < D
    swap
    · exact ⟨0, 0, 0, fun _ => 0, fun h => absurd h hj⟩
    obtain ⟨hEj, hej⟩ := h j hj
    obtain ⟨hR, hr⟩ := hidx j hj
    obtain ⟨M, hM⟩ := hmean (e j) hej
    obtain ⟨S, hS⟩ := hmean (fun i => |e j i|) fun i hi => habs _ (hej i hi)
    simp only [abs_abs] at hS
    have hm : ∀ t, ∃ m, t < (idx j).length →
        meanFl F o.resample (((idx j).getD t []).map fun i => |e j i|) = some m ∧ IsFloat F m ∧
        RoundedFrom F ((idx j).getD t []).length 1
          (avg ((idx j).getD t []).length fun i => |e j (((idx j).getD t []).getD i 0)|)
          (avg ((idx j).getD t []).length fun i => |e j (((idx j).getD t []).getD i 0)|) m := by
      intro t
      by_cases ht : t < (idx j).length
      swap
      · exact ⟨0, fun h => absurd h ht⟩
      have hmem : (idx j).getD t [] ∈ idx j := by
        simp [List.getD, ht]
      obtain ⟨hrn, hri⟩ := hr _ hmem
      obtain ⟨m, h1, h2, h3⟩ := drawMean_rounded (by omega) hor (N := N) (fun i => |e j i|) (fun i => |e j i|)
        (X := fun i => |e j i|) (n := 0) (a := 0) le_rfl (fun i => by rw [abs_abs]) (fun i hi => habs _ (hej i hi))
        (fun i hi => by have := RoundedFrom.refl (F := F) |e j i|; rwa [abs_abs] at this) _ hrn hri
      rw [zero_add, zero_add] at h3
      exact ⟨m, fun _ => ⟨h1, h2, h3⟩⟩
    choose s hs using hm
    have hc : confFl F o sqrt z (idx j) (EE.getD j []) =
        (std1FlN F o.resamples sqrt ((List.range (idx j).length).map fun t => some (s t))).map (fmul F z) := by
      unfold confFl
      congr 2
      rw [map_range_getD]
      apply List.map_congr_left
      intro t ht
      have ht' := List.mem_range.mp ht
      have hmem : (idx j).getD t [] ∈ idx j := by simp [List.getD, ht']
      have e1 : absN (((idx j).getD t []).map fun i => (EE.getD j []).getD i none) =
          (((idx j).getD t []).map fun i => |e j i|).map some := by
        unfold absN
        rw [List.map_map, List.map_map]
        apply List.map_congr_left
        intro i hi
        have := (hr _ hmem).2 i hi
        simp only [Function.comp, hEj, List.getD_eq_getElem?_getD, List.getElem?_map, List.getElem?_range this,
          Option.map_some, Option.getD_some]
      rw [e1]
      unfold meanFlN
      rw [(optMapM_id _ _).mpr rfl]
      exact (hs t ht').1
    have hnear := halfWidth_near sqrt z hp1 hos (by omega : 0 < (idx j).length) s fun t ht => (hs t ht).2.1
    obtain ⟨μ, w, x, q1, q2, q3, q4⟩ := hnear.2 hR
    refine ⟨M, S, x, s, fun _ => ⟨by rw [hEj, meanFlN_col]; exact hM, ?_, hc.trans q3, q4.1, q3 ▸ hnear, ?_⟩⟩
    · rw [hEj, show absN ((List.range N).map fun i => some (e j i)) = (List.range N).map fun i => some |e j i| by
        simp [absN, Function.comp_def], meanFlN_col]
      exact hS
    · intro t r ht
      have ht' : t < (idx j).length := (List.getElem?_eq_some_iff.mp ht).1
      have e1 : (idx j).getD t [] = r := by rw [List.getD_eq_getElem?_getD, ht]; rfl
      have := (hs t ht').2.2
      rwa [e1] at this
  choose M S H s hk using key
  exact ⟨M, S, H, s, hk⟩

/-- The mean over a group of one parameter is the rounded value of that parameter. -/
theorem groupMean_single (hp1 : 1 ≤ F.p) {ord : Nat → SumTree} (hog : SumOrder ord) {D : Nat} (groupOf : Nat → Nat) {c j : Nat}
    (hj : members D groupOf c = {j}) (f : Nat → Num ℚ) (v : ℚ) (hf : f j = some v) :
    groupMeanFl F ord ((List.range D).map f) ((List.range D).map fun j => decide (groupOf j = c)) = some (fl F v) := by
  have hjm : j ∈ members D groupOf c := by rw [hj]; simp
  obtain ⟨hjl, hjc⟩ : j < D ∧ groupOf j = c := by simpa [members] using hjm
  have hc1 : (members D groupOf c).card = 1 := by rw [hj]; simp
  rw [groupMeanFl_eq ord D groupOf c _ (fun _ => v) (fun i hi hic => by
    have him : i ∈ members D groupOf c := by simp [members, hi, hic]
    rw [hj, Finset.mem_singleton] at him
    rw [him, hf]) (by omega), hc1]
  congr 1
  unfold fdiv
  rw [Nat.cast_one, div_one]
  have hget : ∀ i, ((List.range D).map fun j => if groupOf j = c then v else 0).getD i 0 = if i = j then v else 0 := by
    intro i
    rw [List.getD_eq_getElem?_getD, List.getElem?_map]
    by_cases hi : i < D
    · rw [List.getElem?_range hi]
      have him : groupOf i = c ↔ i = j := by
        rw [← Finset.mem_singleton (a := j) (b := i), ← hj]; simp [members, hi]
      simp [him]
    · rw [List.getElem?_eq_none (by simp; omega), if_neg (by omega)]; rfl
  have := (sumFl_single hp1 (j := j) (fun i hi => by rw [hget, if_neg hi]) (ord D)).2 (by
    rw [(hog _ (by omega)).count_eq]
    exact List.count_eq_one_of_mem List.nodup_range (List.mem_range.mpr hjl))
  rw [this, hget, if_pos rfl]

section
variable (o : MorrisOrders) (sqrt : ℚ → ℚ) (z conf : ℚ) (resample : Nat → List (List Nat)) (pb : Problem ℚ) (X : Mat ℚ)
  (Y : List ℚ) (p : Nat)
variable (hF : F.emin + 2 * F.p + 4 ≤ 0) (draws : Nat → TrajDraws ℚ)
  (groups : List String) (bs : List (ℚ × ℚ)) (N : Nat) (hp2 : 2 ≤ p) (h16 : 16 * p ≤ 2 ^ F.p)
  (hv : ∀ i, ValidTrajDraws p (draws i)) (hlen : bs.length = groups.length) (hne : bs ≠ [])
  (hlegal : ∀ b ∈ bs, b.1 < b.2) (hfl : ∀ b ∈ bs, IsFloat F b.1 ∧ IsFloat F b.2)
  (hw : ∀ b ∈ bs, (2 : ℚ) ^ (F.emin + F.p - 1) ≤ b.2 - b.1)
  (hX : morrisSampleFl F draws groups (boundsTable bs) N p = .ok X) (hsize : X.length < 2 ^ F.p) (hN : 0 < N)
  (hlab : effectiveLabels pb = groups) (hnv : pb.numVars = groups.length) (hconf : 0 < conf ∧ conf < 1)
include hF hp2 h16 hv hlen hne hlegal hfl hw hX hsize hN hlab hnv hconf

/-- **C114**, scaled effects.  With `scaled=True` and the outputs of a sample, whatever they are: no effect is nan, and each
computed effect is close to the difference quotient of the outputs times the quotient of the deviations of the
trajectory.  `mu` and `mu_star` of a group of `k` parameters are `N + k` roundings away from the mean over the group of
the means of the computed effects and of their absolute values; the confidence value is `k` roundings away from the mean
of the values `h j` of the members, each `z` times the root of a number near the sample variance of the resampled means.
`sigma` is nan for a group of several parameters, and for one parameter the root of a number near the sample variance of
its computed effects. -/
theorem C114_scaled (hoi : SumOrder o.inputs) (hoo : SumOrder o.outputs) (hoe : SumOrder o.effects) (hog : SumOrder o.groups)
    (hor : SumOrder o.resample) (hos : SumOrder o.resamples) (hYl : Y.length = X.length) (hY : ∀ y ∈ Y, IsFloat F y)
    (hres : ∀ j < groups.length, 2 ≤ (resample j).length ∧ ∀ r ∈ resample j, r ≠ [] ∧ ∀ i ∈ r, i < N) :
    ∃ g groupOf, GroupNumbering groups.length (some groups) g groupOf ∧ X.length = N * (g + 1) ∧
      ∃ (e : Nat → Nat → ℚ) (s : Nat → Nat → ℚ) (h : Nat → ℚ) (res : MorrisResult ℚ),
        (∀ j < groups.length, ∀ i < N, ScaledTurn F sqrt X Y groups.length g groupOf j i (e j i)) ∧
        morrisAnalyzeFl F o sqrt z conf resample pb X groups.length Y true p = .ok res ∧
        DistinctInOrder groups res.names ∧
        (∀ j < groups.length, NearHalfWidth F sqrt z (resample j).length (s j) (some (h j)) ∧
          ∀ (t : Nat) (r : List Nat), (resample j)[t]? = some r →
            RoundedFrom F r.length 1 (avg r.length fun i => |e j (r.getD i 0)|)
              (avg r.length fun i => |e j (r.getD i 0)|) (s j t)) ∧
        ∀ c < g, ∃ m a v, res.mu[c]? = some (some m) ∧ res.muStar[c]? = some (some a) ∧
          res.muStarConf[c]? = some (some v) ∧
          RoundedFrom F (N + (members groups.length groupOf c).card) 2
            (memberAvg groups.length groupOf c fun j => avg N fun i => |e j i|)
            (memberAvg groups.length groupOf c fun j => avg N (e j)) m ∧
          RoundedFrom F (N + (members groups.length groupOf c).card) 2
            (memberAvg groups.length groupOf c fun j => avg N fun i => |e j i|)
            (memberAvg groups.length groupOf c fun j => avg N fun i => |e j i|) a ∧
          RoundedFrom F (members groups.length groupOf c).card 1 (memberAvg groups.length groupOf c fun j => |h j|)
            (memberAvg groups.length groupOf c h) v ∧
          ((members groups.length groupOf c).card ≠ 1 → res.sigma[c]? = some none) ∧
          (2 ≤ N → ∀ j, members groups.length groupOf c = {j} → ∃ μ w : ℚ,
            RoundedFrom F N 1 (avg N fun i => |e j i|) (avg N (e j)) μ ∧
            RoundedFrom F (N + 3) (N / (N - 1) + 1) (effectVar N (e j) + N / (N - 1) * (μ - avg N (e j)) ^ 2)
              (effectVar N (e j) + N / (N - 1) * (μ - avg N (e j)) ^ 2) w ∧
            res.sigma[c]? = some (some (fl F (sqrt w)))) := by
  have hp3 := fmt_p_ge hp2 h16
  have hp1 : 1 ≤ F.p := by omega
  obtain ⟨g, groupOf, hnum, hXl, EE, e, hEE, hEl, h⟩ := sample_scaled o sqrt hoi hoo hF draws groups bs N p hp2 h16 hv
    hlen hne hlegal hfl hw X hX hsize Y hYl hY
  have hdel := computeDeltaFl_eq (F := F) (by omega) hp2 h16
  obtain ⟨res, hres', hnames, hnl, hval⟩ := morrisAnalyzeFl_eq o sqrt z conf resample pb X Y true p hp1 (by omega) groups
    hlab hnv hconf N g groupOf hnum hN (by rw [hYl, hXl]) (by rw [hYl]; exact hsize) _ hdel EE
    (by simpa [effectsFl] using hEE) hEl
  obtain ⟨M, S, H, s, hst⟩ := effects_stats o sqrt z resample (by omega) hoe hor hos hN EE e
    (fun j hj => ⟨(h j hj).1, fun i hi => ((h j hj).2 i hi).1⟩) hres
  refine ⟨g, groupOf, hnum, hXl, e, s, H, res, fun j hj i hi => ((h j hj).2 i hi).2, hres', hnames,
    fun j hj => (hst j hj).2.2.2.2, fun c hc => ?_⟩
  obtain ⟨hk, hmu, hms, hsg, hcf⟩ := hval c hc
  obtain ⟨m, hm, -, hmr⟩ := groupMeanFl_rounded hp1 hog groups.length groupOf c _ M (fun j hj _ => (hst j hj).1.1)
    (fun j hj _ => (hst j hj).1.2.1) hk (n := N) (a := 1) (by norm_num) (X := fun j => avg N fun i => |e j i|)
    (x := fun j => avg N (e j)) (fun j => abs_avg_le fun i => le_rfl) (fun j hj _ => (hst j hj).1.2.2)
  obtain ⟨a, ha, -, har⟩ := groupMeanFl_rounded hp1 hog groups.length groupOf c _ S (fun j hj _ => (hst j hj).2.1.1)
    (fun j hj _ => (hst j hj).2.1.2.1) hk (n := N) (a := 1) (by norm_num) (X := fun j => avg N fun i => |e j i|)
    (x := fun j => avg N fun i => |e j i|) (fun j => abs_avg_le fun i => by rw [abs_abs])
    (fun j hj _ => (hst j hj).2.1.2.2)
  obtain ⟨v, hv', -, hvr⟩ := groupMeanFl_rounded hp1 hog groups.length groupOf c
    (fun j => confFl F o sqrt z (resample j) (EE.getD j [])) H (fun j hj _ => (hst j hj).2.2.1)
    (fun j hj _ => (hst j hj).2.2.2.1) hk (n := 0) (a := 0) le_rfl (X := fun j => |H j|) (x := H) (fun j => le_rfl)
    (fun j _ _ => RoundedFrom.refl _)
  rw [zero_add, zero_add] at hvr
  rw [one_add_one_eq_two] at hmr har
  refine ⟨m, a, v, by rw [hmu, hm], by rw [hms, ha], by rw [hcf, hv'], hmr, har, hvr, fun h1 => by rw [hsg, if_neg h1], ?_⟩
  intro hN2 j hj
  have hjm : j ∈ members groups.length groupOf c := by rw [hj]; simp
  obtain ⟨hjl, -⟩ : j < groups.length ∧ groupOf j = c := by simpa [members] using hjm
  obtain ⟨μ, w, hw1, hw2, hw3⟩ := std1Fl_rounded hp1 hoe sqrt hN2 (e j) (fun i hi => ((h j hjl).2 i hi).1)
  refine ⟨μ, w, hw2, hw3, ?_⟩
  rw [hsg, if_pos (by rw [hj]; simp), groupMean_single hp1 hog groupOf hj _ (sqrt w) (by
    rw [(h j hjl).1, std1FlN_col, hw1])]

end

/-- The hypotheses of `C114_scaled` are met in binary64: two parameters, two trajectories, two resamples.  The computed
results are numbers other than 0. -/
example :
    let bs : List (ℚ × ℚ) := [(0, 1), (-1, 3)]
    let draws : Nat → TrajDraws ℚ := fun i => ⟨id, fun k => (i + k) % 2 = 0, fun _ => i % 2⟩
    let pb : Problem ℚ := { names := ["x", "y"], bounds := boundsTable bs }
    let f : List ℚ → ℚ := fun r => fl binary64 (r.getD 0 0 * r.getD 1 0 ^ 3 / 10)
    let o : MorrisOrders := ⟨leftOrder, leftOrder, leftOrder, leftOrder, leftOrder, leftOrder⟩
    let resample : Nat → List (List Nat) := fun _ => [[0, 1], [0, 0]]
    binary64.emin + 2 * binary64.p + 4 ≤ 0 ∧ 16 * 4 ≤ 2 ^ binary64.p ∧ (∀ i, ValidTrajDraws 4 (draws i)) ∧
    (∀ b ∈ bs, b.1 < b.2 ∧ IsFloat binary64 b.1 ∧ IsFloat binary64 b.2 ∧
      (2 : ℚ) ^ (binary64.emin + binary64.p - 1) ≤ b.2 - b.1) ∧
    effectiveLabels pb = ["x", "y"] ∧ pb.numVars = 2 ∧ SumOrder leftOrder ∧
    (∀ j < 2, 2 ≤ (resample j).length ∧ ∀ r ∈ resample j, r ≠ [] ∧ ∀ i ∈ r, i < 2) ∧
    ∃ X, morrisSampleFl binary64 draws ["x", "y"] (boundsTable bs) 2 4 = .ok X ∧ X.length = 6 ∧
      (∀ y ∈ X.map f, IsFloat binary64 y) ∧
      ∃ r, morrisAnalyzeFl binary64 o (fun t => |t|) 2 (1 / 2) resample pb X 2 (X.map f) true 4 = .ok r ∧
        ∀ v ∈ r.muStar ++ r.sigma ++ r.muStarConf, ∃ w, v = some w ∧ 0 < w := by
  intro bs draws pb f o resample
  refine ⟨by decide, by decide, fun i => ⟨fun M => List.Perm.refl M, fun _ => by
    show i % 2 < 4 / 2; omega⟩, ?_, by decide +kernel, by decide +kernel, leftOrder_sumOrder, ?_, ?_⟩
  · have hw : ∀ w : ℚ, 1 ≤ w → (2 : ℚ) ^ (binary64.emin + binary64.p - 1) ≤ w := fun w hw =>
      (two_zpow_le (b := 0) (by decide)).trans (by simpa using hw)
    simp only [bs, List.forall_mem_cons]
    refine ⟨⟨by norm_num, isFloat_zero, isFloat_one (by decide) (by decide), hw _ (by norm_num)⟩,
      ⟨by norm_num, ⟨-1, 0, by decide, by decide, by norm_num⟩,
        ⟨3, 0, by decide, by decide, by norm_num⟩, hw _ (by norm_num)⟩, by simp⟩
  · intro j _
    decide +revert
  · refine ⟨[[0, 3752999689475413 / 2251799813685248], [6004799503160661 / 9007199254740992,
      3752999689475413 / 2251799813685248], [6004799503160661 / 9007199254740992, -1],
      [1, 750599937895083 / 2251799813685248], [3002399751580331 / 9007199254740992, 750599937895083 / 2251799813685248],
      [3002399751580331 / 9007199254740992, 3]], by decide +kernel, by decide +kernel, ?_, ?_⟩
    · intro y hy
      obtain ⟨r, -, rfl⟩ := List.mem_map.mp hy
      exact isFloat_fl (by decide) _
    · refine ⟨⟨["x", "y"], [some (1928354785200983 / 2251799813685248), some (1589760845632657 / 281474976710656)],
        [some (1928354785200983 / 2251799813685248), some (1589760845632657 / 281474976710656)],
        [some (6573990068073889 / 4503599627370496), some (2010789205055033 / 140737488355328)],
        [some (3286995034036945 / 4503599627370496), some (4021578410110067 / 562949953421312)]⟩, ?_, ?_⟩
      · decide +kernel
      · intro v hv
        simp only [List.cons_append, List.nil_append, List.mem_cons, List.not_mem_nil, or_false] at hv
        rcases hv with rfl | rfl | rfl | rfl | rfl | rfl <;> exact ⟨_, rfl, by norm_num⟩

end SALib
