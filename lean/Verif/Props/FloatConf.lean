import Verif.Props.FloatSobolConf
import Verif.Props.FloatDgsmIndex

/-! # Deviations and bootstrap confidence values of the Morris and derivative-based measures in floating point -/

namespace SALib
open Spec

variable {F : Fmt}

/-- The mean of drawn numbers. -/
theorem drawMean_rounded (hp : 1 ≤ F.p) {order : Nat → SumTree} (ho : SumOrder order) {N : Nat} (f x : Nat → ℚ) {X : Nat → ℚ}
    {n : Nat} {a : ℚ} (ha : 0 ≤ a) (hX : ∀ i, |x i| ≤ X i) (hf : ∀ i < N, IsFloat F (f i))
    (hr : ∀ i < N, RoundedFrom F n a (X i) (x i) (f i)) (r : List Nat) (hne : r ≠ []) (hlt : ∀ i ∈ r, i < N) :
    ∃ m, meanFl F order (r.map f) = some m ∧ IsFloat F m ∧
      RoundedFrom F (n + r.length) (a + 1) (avg r.length fun i => X (r.getD i 0)) (avg r.length fun i => x (r.getD i 0)) m := by
  have hl : (r.map f).length = r.length := List.length_map ..
  obtain ⟨m, h1, h2, h3⟩ := meanFl_rounded hp ho (order := order) (xs := r.map f) (by simpa using hne) ha
    (X := fun i => X (r.getD i 0)) (x := fun i => x (r.getD i 0)) (fun i => hX _) (by
      intro y hy
      obtain ⟨i, hi, rfl⟩ := List.mem_map.mp hy
      exact hf i (hlt i hi)) (by
      intro i hi
      rw [hl] at hi
      have e : (r.map f).getD i 0 = f (r.getD i 0) := by simp [List.getD, hi]
      rw [e]
      exact hr _ (by simpa [List.getD, hi] using hlt _ (List.getElem_mem hi)))
  rw [hl] at h3
  exact ⟨m, h1, h2, h3⟩

theorem map_range_getD {γ : Type} (l : List (List Nat)) (f : List Nat → γ) :
    l.map f = (List.range l.length).map fun t => f (l.getD t []) := by
  apply List.ext_getElem
  · simp
  · intro i h1 h2
    have : i < l.length := by simpa using h1
    simp [List.getD, this]

section
variable (o : MorrisOrders) (sqrt : ℚ → ℚ) (z conf : ℚ) (resample : Nat → List (List Nat)) (pb : Problem ℚ) (X : Mat ℚ)
  (Y : List ℚ) (p : Nat)
variable (hF : F.emin + 2 * F.p + 4 ≤ 0) (draws : Nat → TrajDraws ℚ)
  (groups : List String) (bs : List (ℚ × ℚ)) (N : Nat) (hp2 : 2 ≤ p) (h16 : 16 * p ≤ 2 ^ F.p)
  (hv : ∀ i, ValidTrajDraws p (draws i)) (hlen : bs.length = groups.length) (hne : bs ≠ [])
  (hlegal : ∀ b ∈ bs, b.1 < b.2) (hfl : ∀ b ∈ bs, IsFloat F b.1 ∧ IsFloat F b.2)
  (hw : ∀ b ∈ bs, (2 : ℚ) ^ (F.emin + F.p - 1) ≤ b.2 - b.1)
  (hX : morrisSampleFl F draws groups (boundsTable bs) N p = .ok X) (hsize : X.length < 2 ^ F.p) (hN : 0 < N)
  (hlab : effectiveLabels pb = groups) (hnv : pb.numVars = groups.length) (hconf : 0 < conf ∧ conf < 1)
include hF hp2 h16 hv hlen hne hlegal hfl hw hX hsize hN hlab hnv hconf

/-- **C114**, confidence values.  With at least two resamples per parameter: the confidence value of a group is `k`
roundings away from the mean over its `k` parameters of values `h j`, each of them `z` times the root of a number near
the sample variance of resampled `mu_star`, which are as accurate as `mu_star` itself. -/
theorem C114_conf (hor : SumOrder o.resample) (hos : SumOrder o.resamples) (hog : SumOrder o.groups)
    (hYl : Y.length = X.length) (hY : ∀ y ∈ Y, IsFloat F y)
    (hres : ∀ j < groups.length, 2 ≤ (resample j).length ∧ ∀ r ∈ resample j, r ≠ [] ∧ ∀ i ∈ r, i < N) :
    ∃ g groupOf, GroupNumbering groups.length (some groups) g groupOf ∧ X.length = N * (g + 1) ∧
      ∃ (d : ℚ) (e : Nat → Nat → ℚ) (s : Nat → Nat → ℚ) (h : Nat → ℚ) (res : MorrisResult ℚ),
        RoundsTo F (morrisDelta p) d ∧
        (∀ j < groups.length, ∀ i < N, TurnEffect X Y groups.length g groupOf d j i (e j i)) ∧
        morrisAnalyzeFl F o sqrt z conf resample pb X groups.length Y false p = .ok res ∧
        DistinctInOrder groups res.names ∧
        (∀ j < groups.length, NearHalfWidth F sqrt z (resample j).length (s j) (some (h j)) ∧
          ∀ (t : Nat) (r : List Nat), (resample j)[t]? = some r →
            RoundedFrom F (r.length + 2) 2 (avg r.length fun i => |e j (r.getD i 0)|)
              (avg r.length fun i => |e j (r.getD i 0)|) (s j t)) ∧
        ∀ c < g, ∃ v, res.muStarConf[c]? = some (some v) ∧
          RoundedFrom F (members groups.length groupOf c).card 1 (memberAvg groups.length groupOf c fun j => |h j|)
            (memberAvg groups.length groupOf c h) v := by
  have hp3 := fmt_p_ge hp2 h16
  have hp1 : 1 ≤ F.p := by omega
  obtain ⟨g, groupOf, hnum, hXl, d, EE, e, e', hd, -, hdel, hEE, hEl, h⟩ := sample_effects hF draws groups bs N p hp2 h16 hv
    hlen hne hlegal hfl hw X hX hsize Y hYl hY
  obtain ⟨res, hres', hnames, hnl, hval⟩ := morrisAnalyzeFl_eq o sqrt z conf resample pb X Y false p hp1 (by omega) groups
    hlab hnv hconf N g groupOf hnum hN (by rw [hYl, hXl]) (by rw [hYl]; exact hsize) d hdel EE
    (by simpa [effectsFl] using hEE) hEl
  have key : ∀ j, ∃ (s : Nat → ℚ) (v : ℚ), j < groups.length →
      confFl F o sqrt z (resample j) (EE.getD j []) = some v ∧ IsFloat F v ∧
      NearHalfWidth F sqrt z (resample j).length s (some v) ∧
      ∀ (t : Nat) (r : List Nat), (resample j)[t]? = some r →
        RoundedFrom F (r.length + 2) 2 (avg r.length fun i => |e j (r.getD i 0)|)
          (avg r.length fun i => |e j (r.getD i 0)|) (s t) := by
    intro j
    by_cases hj : j < groups.length
    swap
    · exact ⟨fun _ => 0, 0, fun h => absurd h hj⟩
    obtain ⟨hR, hr⟩ := hres j hj
    obtain ⟨hEj, hej⟩ := h j hj
    have hm : ∀ t, ∃ m, t < (resample j).length →
        meanFl F o.resample (((resample j).getD t []).map fun i => |e' j i|) = some m ∧ IsFloat F m ∧
        RoundedFrom F (((resample j).getD t []).length + 2) 2
          (avg ((resample j).getD t []).length fun i => |e j (((resample j).getD t []).getD i 0)|)
          (avg ((resample j).getD t []).length fun i => |e j (((resample j).getD t []).getD i 0)|) m := by
      intro t
      by_cases ht : t < (resample j).length
      swap
      · exact ⟨0, fun h => absurd h ht⟩
      have hmem : (resample j).getD t [] ∈ resample j := by
        simp [List.getD, ht]
      obtain ⟨hrn, hri⟩ := hr _ hmem
      obtain ⟨m, h1, h2, h3⟩ := drawMean_rounded hp1 hor (N := N) (fun i => |e' j i|) (fun i => |e j i|)
        (X := fun i => |e j i|) (n := 2) (a := 1) zero_le_one (fun i => by rw [abs_abs])
        (fun i hi => by
          have := (hej i hi).2.1
          rcases abs_choice (e' j i) with h | h <;> rw [h]
          · exact this
          · exact this.neg)
        (fun i hi => by
          have := (hej i hi).2.2.1
          unfold RoundedFrom at this ⊢
          exact (abs_abs_sub_abs_le_abs_sub _ _).trans this) _ hrn hri
      rw [add_comm 2, one_add_one_eq_two] at h3
      exact ⟨m, fun _ => ⟨h1, h2, h3⟩⟩
    choose s hs using hm
    have hc : confFl F o sqrt z (resample j) (EE.getD j []) =
        (std1FlN F o.resamples sqrt ((List.range (resample j).length).map fun t => some (s t))).map (fmul F z) := by
      unfold confFl
      congr 2
      rw [map_range_getD]
      apply List.map_congr_left
      intro t ht
      have ht' := List.mem_range.mp ht
      have hmem : (resample j).getD t [] ∈ resample j := by simp [List.getD, ht']
      have e1 : absN (((resample j).getD t []).map fun i => (EE.getD j []).getD i none) =
          (((resample j).getD t []).map fun i => |e' j i|).map some := by
        unfold absN
        rw [List.map_map, List.map_map]
        apply List.map_congr_left
        intro i hi
        have := (hr _ hmem).2 i hi
        simp only [Function.comp, hEj, List.getD_eq_getElem?_getD, List.getElem?_map, List.getElem?_range this,
          Option.map_some, Option.getD_some]
      rw [e1]
      unfold meanFlN
      rw [(optMapM_id _ _).mpr rfl]
      exact (hs t ht').1
    have hnear := halfWidth_near sqrt z (by omega) hos (by omega : 0 < (resample j).length) s fun t ht => (hs t ht).2.1
    obtain ⟨μ, w, x, q1, q2, q3, q4⟩ := hnear.2 hR
    refine ⟨s, x, fun _ => ⟨hc.trans q3, q4.1, q3 ▸ hnear, ?_⟩⟩
    intro t r ht
    have ht' : t < (resample j).length := (List.getElem?_eq_some_iff.mp ht).1
    have e1 : (resample j).getD t [] = r := by rw [List.getD_eq_getElem?_getD, ht]; rfl
    have := (hs t ht').2.2
    rwa [e1] at this
  choose s v hsv using key
  refine ⟨g, groupOf, hnum, hXl, d, e, s, v, res, hd, fun j hj i hi => ((h j hj).2 i hi).1, hres', hnames,
    fun j hj => (hsv j hj).2.2, fun c hc => ?_⟩
  obtain ⟨hk, -, -, -, hcf⟩ := hval c hc
  obtain ⟨m, hm, -, hmr⟩ := groupMeanFl_rounded hp1 hog groups.length groupOf c
    (fun j => confFl F o sqrt z (resample j) (EE.getD j [])) v (fun j hj _ => (hsv j hj).1)
    (fun j hj _ => (hsv j hj).2.1) hk (n := 0) (a := 0) le_rfl (X := fun j => |v j|) (x := v) (fun j => le_rfl)
    (fun j _ _ => RoundedFrom.refl _)
  rw [zero_add, zero_add] at hmr
  exact ⟨m, by rw [hcf, hm], hmr⟩

end

/-- The hypotheses of `C114_conf` are met in binary64: two parameters in one group, two trajectories, two resamples.  The
confidence value is a number other than 0. -/
example :
    let bs : List (ℚ × ℚ) := [(0, 1), (-1, 3)]
    let draws : Nat → TrajDraws ℚ := fun i => ⟨id, fun k => (i + k) % 2 = 0, fun _ => i % 2⟩
    let pb : Problem ℚ := { names := ["x", "y"], bounds := boundsTable bs, groups := some ["g", "g"] }
    let f : List ℚ → ℚ := fun r => fl binary64 (r.getD 0 0 * r.getD 1 0 ^ 3 / 10)
    let o : MorrisOrders := ⟨leftOrder, leftOrder, leftOrder, leftOrder, leftOrder, leftOrder⟩
    let resample : Nat → List (List Nat) := fun _ => [[0, 1], [0, 0]]
    binary64.emin + 2 * binary64.p + 4 ≤ 0 ∧ 16 * 4 ≤ 2 ^ binary64.p ∧ (∀ i, ValidTrajDraws 4 (draws i)) ∧
    (∀ b ∈ bs, b.1 < b.2 ∧ IsFloat binary64 b.1 ∧ IsFloat binary64 b.2 ∧
      (2 : ℚ) ^ (binary64.emin + binary64.p - 1) ≤ b.2 - b.1) ∧
    effectiveLabels pb = ["g", "g"] ∧ pb.numVars = 2 ∧ SumOrder leftOrder ∧
    (∀ j < 2, 2 ≤ (resample j).length ∧ ∀ r ∈ resample j, r ≠ [] ∧ ∀ i ∈ r, i < 2) ∧
    ∃ X, morrisSampleFl binary64 draws ["g", "g"] (boundsTable bs) 2 4 = .ok X ∧ X.length = 4 ∧
      (∀ y ∈ X.map f, IsFloat binary64 y) ∧
      (morrisAnalyzeFl binary64 o (fun t => |t|) 2 (1 / 2) resample pb X 2 (X.map f) false 4).map
        (fun r => (r.names, [r.mu, r.muStar, r.sigma, r.muStarConf])) = .ok (["g"],
          [[some 0], [some (6505199461757385 / 9007199254740992)], [none],
            [some (3487231711465157 / 9007199254740992)]]) := by
  intro bs draws pb f o resample
  refine ⟨by decide, by decide, fun i => ⟨fun M => List.Perm.refl M, fun _ => by
    show i % 2 < 4 / 2; omega⟩, ?_, by decide +kernel, by decide +kernel, leftOrder_sumOrder, ?_, ?_⟩
  · have hw : ∀ w : ℚ, 1 ≤ w → (2 : ℚ) ^ (binary64.emin + binary64.p - 1) ≤ w := fun w hw =>
      (two_zpow_le (b := 0) (by decide)).trans (by simpa using hw)
    simp only [bs, List.forall_mem_cons]
    refine ⟨⟨by norm_num, isFloat_zero, isFloat_one (by decide) (by decide), hw _ (by norm_num)⟩,
      ⟨by norm_num, ⟨-1, 0, by decide, by decide, by norm_num⟩,
        ⟨3, 0, by decide, by decide, by norm_num⟩, hw _ (by norm_num)⟩, by simp⟩
  · intro j _
    decide +revert
  · refine ⟨[[0, 3752999689475413 / 2251799813685248], [6004799503160661 / 9007199254740992, -1],
      [1, 750599937895083 / 2251799813685248], [3002399751580331 / 9007199254740992, 3]],
      by decide +kernel, by decide +kernel, ?_, by decide +kernel⟩
    intro y hy
    obtain ⟨r, -, rfl⟩ := List.mem_map.mp hy
    exact isFloat_fl (by decide) _

section
variable (order : Nat → SumTree) (sqrt : ℚ → ℚ) (pi2 z conf : ℚ) (pb : Problem ℚ) (X : Mat ℚ) (Y : List ℚ)
  (draws : Nat → List (List Nat)) (N : Nat) (lo hi : Nat → ℚ)

/-- **C111**, deviations and confidence values.  Under the conditions of `C111_vi` the computed squared quotients `s i` are
5 roundings away from the exact ones; `vi_std` is the root of a number near their variance.  The confidence
value is `z` times the root of a number near the sample variance of resampled `vi`, each of them `n + 5` roundings away from
the exact mean over its `n` draws. -/
theorem C111_conf (hp : 2 ≤ F.p) (he : F.emin ≤ 0) (ho : SumOrder order) (hconf : 0 < conf ∧ conf < 1) (hN : 0 < N)
    (hY : Y.length = N * (pb.numVars + 1)) (hX : X.length = N * (pb.numVars + 1))
    (hcols : HasCols pb.numVars X)
    (hb : ∀ j < pb.numVars, ∃ rest, pb.bounds[j]? = some (lo j :: hi j :: rest))
    (hdraws : ∀ j < pb.numVars, 0 < (draws j).length ∧ ∀ r ∈ draws j, r ≠ [] ∧ ∀ i ∈ r, i < N)
    (hYf : ∀ y ∈ Y, IsFloat F y) (k : ℤ) (hk : F.emin + 2 * F.p + 1 ≤ 2 * k) :
    ∃ res, dgsmAnalyzeFl F order sqrt pi2 z conf pb X Y draws = .ok res ∧ ∀ j < pb.numVars, ∀ q : Nat → ℚ,
      (∀ i < N, ∃ a b x x', Y[i * (pb.numVars + 1) + (1 + j)]? = some a ∧ Y[i * (pb.numVars + 1)]? = some b ∧
        entry X (i * (pb.numVars + 1) + (1 + j)) j = some x' ∧ entry X (i * (pb.numVars + 1)) j = some x ∧
        x' ≠ x ∧ IsFloat F (x' - x) ∧ q i = (a - b) / (x' - x) ∧ (q i = 0 ∨ (2 : ℚ) ^ k ≤ |q i|)) →
      (∃ (s : Nat → ℚ) (μ w : ℚ), (∀ i < N, RoundedFrom F 5 0 (q i ^ 2) (q i ^ 2) (s i)) ∧
        RoundedFrom F N 1 (avg N fun i => |s i|) (avg N s) μ ∧
        RoundedFrom F (N + 3) 2 (avg N (fun i => (s i - avg N s) ^ 2) + (μ - avg N s) ^ 2)
          (avg N (fun i => (s i - avg N s) ^ 2) + (μ - avg N s) ^ 2) w ∧
        res.viStd[j]? = some (some (sqrt w))) ∧
      ∃ (s : Nat → ℚ) (c : Option ℚ), res.dgsmConf[j]? = some c ∧ NearHalfWidth F sqrt z (draws j).length s c ∧
        ∀ (t : Nat) (r : List Nat), (draws j)[t]? = some r →
          RoundedFrom F (r.length + 5) 1 (avg r.length fun i => q (r.getD i 0) ^ 2)
            (avg r.length fun i => q (r.getD i 0) ^ 2) (s t) := by
  have hp1 : 1 ≤ F.p := by omega
  obtain ⟨res, hres, -, hval⟩ := dgsmAnalyzeFl_eq (F := F) order sqrt pi2 z conf pb X Y draws N lo hi hconf hY hX
    hcols hb (fun j hj r hr => ((hdraws j hj).2 r hr).2)
  refine ⟨res, hres, fun j hj q hq => ?_⟩
  obtain ⟨-, hstd, -, hcf⟩ := hval j hj
  obtain ⟨hR, hr⟩ := hdraws j hj
  have hQ : ∀ i, ∃ g, i < N → quotFl F (pb.numVars + 1) X Y j i = some g ∧ IsFloat F g ∧
      RoundedFrom F 5 0 (q i ^ 2) (q i ^ 2) g := by
    intro i
    by_cases hi : i < N
    · obtain ⟨a, b, x, x', ha, hb', hx', hx, hne, hex, hqi, hbig⟩ := hq i hi
      have hs : x' - x ≠ 0 := sub_ne_zero.2 hne
      have hab : a = b ∨ (2 : ℚ) ^ k ≤ |(a - b) / (x' - x)| := by
        rw [← hqi]
        rcases hbig with h | h
        · left
          rw [hqi, div_eq_zero_iff] at h
          rcases h with h | h
          · linarith
          · exact absurd h hs
        · exact Or.inr h
      obtain ⟨g, hg, h2, h3, h4, h5⟩ := quotSqFl_within hp he (hYf a (List.mem_of_getElem? ha))
        (hYf b (List.mem_of_getElem? hb')) hs hk hab
      rw [← hqi] at h4
      have h6 := RoundedFrom.of_within h4
      rw [abs_of_nonneg (sq_nonneg _)] at h6
      refine ⟨g, fun _ => ⟨?_, h2, h6⟩⟩
      have e : ∀ r v, entry X r j = some v → (X.getD r []).getD j 0 = v := by
        intro r v hv
        unfold entry at hv
        obtain ⟨row, hrow, hv⟩ := Option.bind_eq_some_iff.mp hv
        simp [List.getD, hrow, hv]
      unfold quotFl
      rw [e _ _ hx', e _ _ hx, show fsub F x' x = x' - x from fl_eq hp1 hex]
      simp only [List.getD, ha, hb', Option.getD_some]
      exact hg
    · exact ⟨0, fun h => absurd h hi⟩
  choose g hg using hQ
  refine ⟨?_, ?_⟩
  · have hm : ((List.range N).map (quotFl F (pb.numVars + 1) X Y j)).mapM id = some (col N g) :=
      mapM_some_map _ _ _ fun i hi => (hg i (List.mem_range.mp hi)).1
    have hl : (col N g).length = N := length_col N g
    obtain ⟨μ, w, hw, -, -, -, -, h1, h2⟩ := varFl_rounded hp1 ho (xs := col N g) (col_ne_nil hN g) (by
      intro y hy
      obtain ⟨i, hi, rfl⟩ := List.mem_map.mp hy
      exact (hg i (List.mem_range.mp hi)).2.1) g (fun i hi => col_getD g (by omega))
    rw [hl] at h1 h2
    refine ⟨g, μ, w, fun i hi => (hg i hi).2.2, h1, h2, ?_⟩
    rw [hstd, hm, Option.bind_some, std0Fl, hw]
    rfl
  · have hm : ∀ t, ∃ m, t < (draws j).length →
        meanFlN F order (((draws j).getD t []).map (quotFl F (pb.numVars + 1) X Y j)) = some m ∧ IsFloat F m ∧
        RoundedFrom F (((draws j).getD t []).length + 5) 1
          (avg ((draws j).getD t []).length fun i => q (((draws j).getD t []).getD i 0) ^ 2)
          (avg ((draws j).getD t []).length fun i => q (((draws j).getD t []).getD i 0) ^ 2) m := by
      intro t
      by_cases ht : t < (draws j).length
      swap
      · exact ⟨0, fun h => absurd h ht⟩
      have hmem : (draws j).getD t [] ∈ draws j := by simp [List.getD, ht]
      obtain ⟨hrn, hri⟩ := hr _ hmem
      obtain ⟨m, h1, h2, h3⟩ := drawMean_rounded hp1 ho (N := N) g (fun i => q i ^ 2) (X := fun i => q i ^ 2) (n := 5)
        (a := 0) le_rfl (fun i => by rw [abs_of_nonneg (sq_nonneg _)]) (fun i hi => (hg i hi).2.1)
        (fun i hi => (hg i hi).2.2) _ hrn hri
      rw [add_comm 5, zero_add] at h3
      refine ⟨m, fun _ => ⟨?_, h2, h3⟩⟩
      unfold meanFlN
      rw [mapM_some_map _ _ g fun i hi => (hg i (hri i hi)).1]
      exact h1
    choose s hs using hm
    have hc : (draws j).map (fun r => meanFlN F order (r.map (quotFl F (pb.numVars + 1) X Y j))) =
        (List.range (draws j).length).map fun t => some (s t) := by
      rw [map_range_getD]
      exact List.map_congr_left fun t ht => (hs t (List.mem_range.mp ht)).1
    refine ⟨s, _, hcf, ?_, ?_⟩
    · rw [hc]
      exact halfWidth_near sqrt z hp ho hR s fun t ht => (hs t ht).2.1
    · intro t r ht
      have ht' : t < (draws j).length := (List.getElem?_eq_some_iff.mp ht).1
      have e1 : (draws j).getD t [] = r := by rw [List.getD_eq_getElem?_getD, ht]; rfl
      have := (hs t ht').2.2
      rwa [e1] at this

end

/-- The hypotheses of `C111_conf` are met in binary64: one parameter, quotients 2 and 3, draws with repetition. -/
example :
    let pb : Problem ℚ := { names := ["x"], bounds := boundsTable [(0, 8)] }
    let X : Mat ℚ := [[1], [2], [3], [5]]
    let Y : List ℚ := [1, 3, 2, 8]
    let draws : Nat → List (List Nat) := fun _ => [[0, 1], [1, 1]]
    binary64.emin + 2 * binary64.p + 1 ≤ 2 * 0 ∧ Y.length = 2 * (pb.numVars + 1) ∧ HasCols pb.numVars X ∧
      (∀ y ∈ Y, IsFloat binary64 y) ∧ SumOrder leftOrder ∧
      (∀ j < pb.numVars, 0 < (draws j).length ∧ ∀ r ∈ draws j, r ≠ [] ∧ ∀ i ∈ r, i < 2) ∧
      (∀ i < 2, ∃ a b x x', Y[i * (pb.numVars + 1) + (1 + 0)]? = some a ∧ Y[i * (pb.numVars + 1)]? = some b ∧
        entry X (i * (pb.numVars + 1) + (1 + 0)) 0 = some x' ∧ entry X (i * (pb.numVars + 1)) 0 = some x ∧
        x' ≠ x ∧ IsFloat binary64 (x' - x) ∧ ((i : ℚ) + 2) = (a - b) / (x' - x) ∧ (2 : ℚ) ^ (0 : ℤ) ≤ |(i : ℚ) + 2|) ∧
      (dgsmAnalyzeFl binary64 leftOrder (fun t => |t|) (fl binary64 (987 / 100)) 2 (1 / 2) pb X Y draws).map
        (fun r => (r.viStd, r.dgsmConf)) = .ok ([some (25 / 4)], [some (25 / 4)]) := by
  intro pb X Y draws
  have hn : ∀ n : Nat, n < 2 ^ 53 → IsFloat binary64 n := fun n h =>
    isFloat_nat (F := binary64) (by decide) (by decide) (by exact h.le)
  refine ⟨by decide, by decide +kernel, by unfold HasCols; decide +kernel, ?_, leftOrder_sumOrder, ?_, ?_, by decide +kernel⟩
  · intro y hy
    simp only [Y, List.mem_cons, List.not_mem_nil, or_false] at hy
    rcases hy with rfl | rfl | rfl | rfl
    exacts [by exact_mod_cast hn 1 (by decide), by exact_mod_cast hn 3 (by decide), by exact_mod_cast hn 2 (by decide),
      by exact_mod_cast hn 8 (by decide)]
  · intro j _
    decide +revert
  · intro i hi
    have : i = 0 ∨ i = 1 := by omega
    rcases this with rfl | rfl
    · exact ⟨3, 1, 1, 2, rfl, rfl, rfl, rfl, by norm_num, by norm_num; exact_mod_cast hn 1 (by decide), by norm_num,
        by norm_num⟩
    · exact ⟨8, 2, 3, 5, rfl, rfl, rfl, rfl, by norm_num, by norm_num; exact_mod_cast hn 2 (by decide), by norm_num,
        by norm_num⟩

end SALib
