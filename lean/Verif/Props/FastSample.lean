import Verif.Model.Fast
import Verif.Spec.Fast
import Verif.Spec.Matrix
import Verif.Lemmas.Cells
import Verif.Props.Scale

/-! # C38, C39: the eFAST sampler -/

namespace SALib
open Spec Real

/-- Assignments to distinct places of a list. -/
theorem foldl_setAt_get {β : Type} (ps : List (Nat × β)) (o : List β) (j : Nat) (hj : j < o.length) :
    (ps.foldl (fun o p => o.set p.1 p.2) o).length = o.length ∧
    ((∀ p ∈ ps, p.1 ≠ j) → (ps.foldl (fun o p => o.set p.1 p.2) o)[j]? = o[j]?) ∧
    ∀ v, (∃ p ∈ ps, p.1 = j) → (∀ p ∈ ps, p.1 = j → p.2 = v) →
      (ps.foldl (fun o p => o.set p.1 p.2) o)[j]? = some v := by
  induction ps generalizing o with
  | nil => simp
  | cons p ps ih =>
    rw [List.foldl_cons]
    obtain ⟨h1, h2, h3⟩ := ih (o.set p.1 p.2) (by simpa using hj)
    refine ⟨by rw [h1, List.length_set], ?_, ?_⟩
    · intro hne
      rw [h2 (fun q hq => hne q (by simp [hq])), List.getElem?_set_ne (hne p (by simp))]
    · intro v hex hv
      by_cases hex' : ∃ q ∈ ps, q.1 = j
      · exact h3 v hex' (fun q hq => hv q (by simp [hq]))
      · rw [h2 (fun q hq e => hex' ⟨q, hq, e⟩)]
        obtain ⟨q, hq, he⟩ := hex
        rcases List.mem_cons.mp hq with rfl | hq
        · rw [he, List.getElem?_set_self hj, hv q (by simp) he]
        · exact absurd ⟨q, hq, he⟩ hex'

/-- Frequency of column `j` in block `i`. -/
def blockFreq (omega : List Nat) (i j : Nat) : Nat :=
  if j = i then omega.getD 0 0 else if j < i then omega.getD (j + 1) 0 else omega.getD j 0

theorem blockOmega_eq (omega o : List Nat) (D i : Nat) (hD : omega.length = D) (ho : o.length = D)
    (hi : i < D) : blockOmega omega o i = (List.range D).map (blockFreq omega i) := by
  unfold blockOmega
  simp only [hD]
  have hmem : ∀ p : Nat × Nat, p ∈ (List.range i ++ List.range' (i + 1) (D - (i + 1))).zip omega.tail ↔
      p.1 < D ∧ p.1 ≠ i ∧ p.2 = blockFreq omega i p.1 := by
    intro ⟨a, b⟩
    rw [List.mem_iff_getElem?]
    have hlen : (List.range i ++ List.range' (i + 1) (D - (i + 1))).length = D - 1 := by
      simp; omega
    constructor
    · rintro ⟨t, ht⟩
      rw [List.getElem?_zip_eq_some] at ht
      obtain ⟨h1, h2⟩ := ht
      simp only at h1 h2
      have htl : t < D - 1 := by
        have := (List.getElem?_eq_some_iff.mp h1).1
        omega
      rw [List.getElem?_tail] at h2
      have hb : omega.getD (t + 1) 0 = b := by rw [List.getD_eq_getElem?_getD, h2]; rfl
      by_cases hti : t < i
      · rw [List.getElem?_append_left (by simpa using hti), List.getElem?_range hti] at h1
        cases h1
        refine ⟨by omega, by omega, ?_⟩
        show b = _
        unfold blockFreq
        rw [if_neg (by simp only; omega), if_pos hti, hb]
      · rw [List.getElem?_append_right (by simp; omega), List.length_range,
          List.getElem?_range' (by omega)] at h1
        simp only [Nat.one_mul, Option.some.injEq] at h1
        subst h1
        refine ⟨by simp only; omega, by simp only; omega, ?_⟩
        show b = _
        unfold blockFreq
        rw [if_neg (by simp only; omega), if_neg (by simp only; omega), ← hb]
        congr 1
        simp only
        omega
    · rintro ⟨h1, h2, h3⟩
      simp only at h1 h2 h3
      subst h3
      by_cases hai : a < i
      · refine ⟨a, ?_⟩
        rw [List.getElem?_zip_eq_some]
        refine ⟨by rw [List.getElem?_append_left (by simpa using hai), List.getElem?_range hai], ?_⟩
        show omega.tail[a]? = some (blockFreq omega i a)
        unfold blockFreq
        rw [if_neg h2, if_pos hai, List.getElem?_tail, List.getD_eq_getElem?_getD,
          List.getElem?_eq_getElem (by omega)]
        rfl
      · refine ⟨a - 1, ?_⟩
        rw [List.getElem?_zip_eq_some]
        refine ⟨?_, ?_⟩
        · rw [List.getElem?_append_right (by simp; omega), List.length_range,
            List.getElem?_range' (by omega)]
          simp only [Nat.one_mul, Option.some.injEq]
          omega
        · show omega.tail[a - 1]? = some (blockFreq omega i a)
          unfold blockFreq
          rw [if_neg h2, if_neg hai, List.getElem?_tail, show a - 1 + 1 = a by omega,
            List.getD_eq_getElem?_getD, List.getElem?_eq_getElem (by omega)]
          rfl
  apply List.ext_getElem?
  intro j
  by_cases hj : j < D
  · obtain ⟨-, h2, h3⟩ := foldl_setAt_get
      ((List.range i ++ List.range' (i + 1) (D - (i + 1))).zip omega.tail) (o.set i (omega.getD 0 0)) j
      (by simp [ho, hj])
    rw [List.getElem?_map, List.getElem?_range hj]
    by_cases hji : j = i
    · subst hji
      rw [h2 (fun p hp => ((hmem p).mp hp).2.1), List.getElem?_set_self (by omega)]
      simp [blockFreq]
    · rw [h3 (blockFreq omega i j) ⟨(j, blockFreq omega i j), (hmem _).mpr ⟨hj, hji, rfl⟩, rfl⟩
        (by rintro p hp rfl; exact ((hmem p).mp hp).2.2)]
      rfl
  · have hl : ∀ (ps : List (Nat × Nat)) (o : List Nat),
        (ps.foldl (fun o p => o.set p.1 p.2) o).length = o.length := by
      intro ps
      induction ps with
      | nil => intro o; rfl
      | cons p ps ih => intro o; rw [List.foldl_cons, ih, List.length_set]
    rw [List.getElem?_eq_none (by rw [hl, List.length_set]; omega), List.getElem?_eq_none (by simp; omega)]

/-- The three ways in which the sampler rejects its arguments, and the frequencies otherwise. -/
theorem fastOmega_ok (N M D : Nat) (hN : 4 * M ^ 2 < N) (hM : 0 < M) (hD : 0 < D) :
    ∃ w0 rest, fastOmega N M D = .ok (w0 :: rest) ∧ w0 = (N - 1) / (2 * M) ∧ rest.length + 1 = D ∧
      2 * M ≤ w0 ∧ 2 * M * w0 ≤ N - 1 ∧ ∀ w ∈ rest, 1 ≤ w ∧ 2 * M * w ≤ w0 := by
  unfold fastOmega
  rw [if_neg (by omega), if_neg (by omega), if_neg (by omega)]
  refine ⟨_, _, rfl, rfl, ?_, ?_, ?_, ?_⟩
  · split <;> simp [linspaceFloor] <;> omega
  · rw [Nat.le_div_iff_mul_le (by omega)]
    have : 2 * M * (2 * M) = 4 * M ^ 2 := by ring
    omega
  · exact Nat.mul_div_le _ _
  · have hw0 : 2 * M ≤ (N - 1) / (2 * M) := by
      rw [Nat.le_div_iff_mul_le (by omega)]
      have : 2 * M * (2 * M) = 4 * M ^ 2 := by ring
      omega
    have hm : 1 ≤ (N - 1) / (2 * M) / (2 * M) := by
      rw [Nat.le_div_iff_mul_le (by omega)]; omega
    have hmw : 2 * M * ((N - 1) / (2 * M) / (2 * M)) ≤ (N - 1) / (2 * M) := Nat.mul_div_le _ _
    generalize (N - 1) / (2 * M) / (2 * M) = m at hm hmw ⊢
    have bound : ∀ w, w ≤ m → 2 * M * w ≤ (N - 1) / (2 * M) := fun w hw =>
      le_trans (Nat.mul_le_mul_left _ hw) hmw
    intro w hw
    split at hw
    · unfold linspaceFloor at hw
      obtain ⟨k, hk, rfl⟩ := List.mem_map.mp hw
      have hk' := List.mem_range.mp hk
      refine ⟨Nat.le_add_right 1 _, bound _ ?_⟩
      have h2 : k * (m - 1) / (D - 1 - 1) ≤ m - 1 := by
        rcases Nat.eq_zero_or_pos (D - 1 - 1) with h0 | hp
        · rw [h0]; simp
        · apply Nat.div_le_of_le_mul
          exact Nat.mul_le_mul_right _ (by omega)
      omega
    · obtain ⟨k, -, rfl⟩ := List.mem_map.mp hw
      refine ⟨by omega, bound _ ?_⟩
      have := Nat.mod_lt k (show 0 < m by omega)
      omega

/-- The unit sample in closed form. -/
theorem fastUnit_eq (u : Nat → ℝ) (N M D : Nat) (omega : List Nat) (ho : fastOmega N M D = .ok omega)
    (hl : omega.length = D) :
    fastUnit u N M D = .ok ((List.range (N * D)).map fun r => (List.range D).map fun j =>
      fastCurve (blockFreq omega (r / N) j) (2 * π / N * ((r % N : Nat) : ℝ)) (2 * π * u (r / N))) := by
  let W : Nat → List (Nat × Nat × ℝ) := fun i => (List.range D).flatMap fun j => (List.range N).map fun n =>
    (i * N + n, j, fastCurve (blockFreq omega i j) (2 * π / N * n) (2 * π * u i))
  have hblock : ∀ i X o, i < D → o.length = D → fastBlock u N D omega (X, o) i =
      ((W i).foldlM writeCell X >>= fun X => .ok (X, (List.range D).map (blockFreq omega i))) := by
    intro i X o hi hol
    unfold fastBlock
    simp only [blockOmega_eq omega o D i hl hol hi]
    have e : (W i).foldlM writeCell X = (List.range D).foldlM (fun X j =>
        (List.range N).foldlM (fun X n => setCell X (i * N + n) j
          (fastCurve (((List.range D).map (blockFreq omega i)).getD j 0) (2 * π / N * n) (2 * π * u i))) X) X := by
      simp only [W, foldlM_flatMap, List.foldlM_map, writeCell]
      have hj : ∀ j ∈ List.range D, ((List.range D).map (blockFreq omega i)).getD j 0 = blockFreq omega i j := by
        intro j hj
        have := List.mem_range.mp hj
        rw [List.getD_eq_getElem?_getD, List.getElem?_map, List.getElem?_range this]; rfl
      exact foldlM_congr_mem _ _ _ _ (fun j hj' X => by rw [hj j hj'])
    rw [e]
    rfl
  have hloop : ∀ (l : List Nat) X o, (∀ i ∈ l, i < D) → o.length = D →
      (l.foldlM (fastBlock u N D omega) (X, o) >>= fun st => (.ok st.1 : Py (Mat ℝ))) =
        (l.flatMap W).foldlM writeCell X := by
    intro l
    induction l with
    | nil => intros; rfl
    | cons i l ih =>
      intro X o hi hol
      rw [List.foldlM_cons, hblock i X o (hi i (by simp)) hol, List.flatMap_cons, List.foldlM_append]
      cases (W i).foldlM writeCell X with
      | error e => rfl
      | ok X' => exact ih X' _ (fun i' h' => hi i' (by simp [h'])) (by simp)
  unfold fastUnit
  rw [ho, pyBind_ok]
  have hfill := writeCells_fill (N * D) D ((List.range D).flatMap W) (zerosMat (N * D) D) (by simp [zerosMat])
    (by intro row hr; rw [(List.mem_replicate.mp hr).2]; simp)
    (by
      intro w hw
      simp only [W, List.mem_flatMap, List.mem_range, List.mem_map] at hw
      obtain ⟨i, hi, j, hj, n, hn, rfl⟩ := hw
      refine ⟨?_, hj⟩
      show i * N + n < N * D
      calc i * N + n < i * N + N := by omega
        _ = N * (i + 1) := by ring
        _ ≤ N * D := Nat.mul_le_mul_left _ (by omega))
    (fun r j => fastCurve (blockFreq omega (r / N) j) (2 * π / N * ((r % N : Nat) : ℝ)) (2 * π * u (r / N)))
    (by
      intro w hw
      simp only [W, List.mem_flatMap, List.mem_range, List.mem_map] at hw
      obtain ⟨i, hi, j, hj, n, hn, rfl⟩ := hw
      have h1 : (i * N + n) / N = i := by
        rw [mul_comm, Nat.mul_add_div (by omega), Nat.div_eq_of_lt hn, add_zero]
      have h2 : (i * N + n) % N = n := by rw [mul_comm, Nat.mul_add_mod, Nat.mod_eq_of_lt hn]
      simp only [h1, h2])
    (by
      intro r hr j hj
      have hN : 0 < N := by rcases Nat.eq_zero_or_pos N with h | h; · simp [h] at hr
                            · exact h
      refine ⟨(r, j, fastCurve (blockFreq omega (r / N) j) (2 * π / N * ((r % N : Nat) : ℝ))
        (2 * π * u (r / N))), ?_, rfl, rfl⟩
      simp only [W, List.mem_flatMap, List.mem_range, List.mem_map]
      refine ⟨r / N, ?_, j, hj, r % N, Nat.mod_lt _ hN, ?_⟩
      · rw [Nat.div_lt_iff_lt_mul hN, mul_comm]; exact hr
      · rw [Nat.div_add_mod' r N])
  rw [← hfill, ← hloop _ _ (List.replicate D 0) (by simp) (by simp)]
  rfl

theorem fastCurve_unit (w : Nat) (s phi : ℝ) : 0 ≤ fastCurve w s phi ∧ fastCurve w s phi ≤ 1 := by
  unfold fastCurve
  have h1 := arcsin_le_pi_div_two (sin (w * s + phi))
  have h2 := neg_pi_div_two_le_arcsin (sin (w * s + phi))
  have hp := pi_pos
  have e : 1 / π * arcsin (sin (w * s + phi)) = arcsin (sin (w * s + phi)) / π := by ring
  have h3 : arcsin (sin (w * s + phi)) / π ≤ 1 / 2 := by rw [div_le_iff₀ hp]; linarith
  have h4 : -(1 / 2) ≤ arcsin (sin (w * s + phi)) / π := by rw [le_div_iff₀ hp]; linarith
  rw [e]
  constructor <;> linarith

/-- **C38** (rejection).  Too few points for the number of harmonics is a `ValueError`, whatever the
problem. -/
theorem C38_reject (F : Ppf ℝ) (u : Nat → ℝ) (pb : Problem ℝ) (N M : Nat) (h : N ≤ 4 * M ^ 2) :
    fastSample F u pb N M = .error .valueError := by
  unfold fastSample fastUnit fastOmega
  rw [if_pos h]
  rfl

/-- **C38** (shape and range).  Every accepted call fills `N * D` rows of `D` numbers in [0,1]. -/
theorem C38_unit_cube (u : Nat → ℝ) (N M D : Nat) (hN : 4 * M ^ 2 < N) (hM : 0 < M) (hD : 0 < D) :
    ∃ X, fastUnit u N M D = .ok X ∧ X.length = N * D ∧ HasCols D X ∧
      ∀ row ∈ X, ∀ x ∈ row, 0 ≤ x ∧ x ≤ 1 := by
  obtain ⟨w0, rest, ho, -, hl, -⟩ := fastOmega_ok N M D hN hM hD
  refine ⟨_, fastUnit_eq u N M D _ ho (by simpa using hl), by simp, ?_, ?_⟩
  · intro row hr
    obtain ⟨r, -, rfl⟩ := List.mem_map.mp hr
    simp
  · intro row hr x hx
    obtain ⟨r, -, rfl⟩ := List.mem_map.mp hr
    obtain ⟨j, -, rfl⟩ := List.mem_map.mp hx
    exact fastCurve_unit _ _ _

/-- **C38** (scaled sample).  With uniform parameters the whole sample lies within the bounds. -/
theorem C38_in_bounds (F : Ppf ℝ) (u : Nat → ℝ) (pb : Problem ℝ) (bs : List (ℝ × ℝ)) (N M : Nat)
    (hN : 4 * M ^ 2 < N) (hM : 0 < M) (hb : pb.bounds = boundsTable bs) (hd : pb.dists = none)
    (hn : pb.numVars = bs.length) (hne : bs ≠ []) (hlegal : ∀ p ∈ bs, p.1 < p.2) :
    ∃ out, fastSample F u pb N M = .ok (out, { pb with sampleScaled := true }) ∧
      out.length = N * bs.length ∧ HasCols bs.length out ∧
      ∀ r c v, entry out r c = some v → ∃ lo hi y, bs[c]? = some (lo, hi) ∧ v = some y ∧ lo ≤ y ∧ y ≤ hi := by
  have hD : 0 < bs.length := List.length_pos_iff.mpr hne
  obtain ⟨X, hX, hXl, hXc, hunit⟩ := C38_unit_cube u N M bs.length hN hM hD
  obtain ⟨out, ho, hshape, hent⟩ := C01_scale_in_bounds F pb bs X hb hd hne hlegal hXc hunit
  have hlen : out.length = X.length := by
    have := congrArg List.length hshape
    simpa using this.symm
  have hcols : HasCols bs.length out := by
    intro row hr
    have : row.length ∈ out.map List.length := List.mem_map.mpr ⟨row, hr, rfl⟩
    rw [← hshape] at this
    obtain ⟨row', hr', e⟩ := List.mem_map.mp this
    rw [← e]; exact hXc row' hr'
  refine ⟨out, ?_, by rw [hlen, hXl], hcols, ?_⟩
  · unfold fastSample
    rw [(congrArg (fastUnit u N M) hn).trans hX, pyBind_ok]
    exact (congrArg (fun d => scaleSamples F d X pb) hn).trans ho
  · intro r c v hv
    have hr : r < out.length := by
      by_contra h
      unfold entry at hv
      rw [List.getElem?_eq_none (by omega)] at hv
      cases hv
    have hc : c < bs.length := by
      unfold entry at hv
      rw [List.getElem?_eq_getElem hr, Option.bind_some] at hv
      have := (List.getElem?_eq_some_iff.mp hv).1
      rwa [hcols _ (List.getElem_mem _)] at this
    have hXe : ∃ x, entry X r c = some x := by
      have hr' : r < X.length := by omega
      refine ⟨(X[r])[c]'(by rw [hXc _ (List.getElem_mem _)]; exact hc), ?_⟩
      unfold entry
      rw [List.getElem?_eq_getElem hr', Option.bind_some, List.getElem?_eq_getElem]
    obtain ⟨x, hx⟩ := hXe
    obtain ⟨y, hy, -, h1, h2⟩ := hent r c x bs[c].1 bs[c].2 hx (List.getElem?_eq_getElem hc)
    rw [hv] at hy
    cases hy
    exact ⟨_, _, y, List.getElem?_eq_getElem hc, rfl, h1, h2⟩

/-- **C39** (frequencies).  Whenever the sampler accepts its arguments: the harmonics `k * w0` (`k ≤ M`) of
the driving frequency stay below the Nyquist limit, the complementary frequencies are at least 1, and
their harmonics (up to `M`) lie in the band `1 .. w0 / 2`, which no harmonic of `w0` meets. -/
theorem C39_no_alias (N M D : Nat) (omega : List Nat) (h : fastOmega N M D = .ok omega) :
    ∃ w0 rest, omega = w0 :: rest ∧ w0 = (N - 1) / (2 * M) ∧ rest.length + 1 = D ∧ 2 * M ≤ w0 ∧
      (∀ k, 1 ≤ k → k ≤ M → 2 * (k * w0) < N) ∧
      (∀ w ∈ rest, 1 ≤ w) ∧
      (∀ w ∈ rest, ∀ k, 1 ≤ k → k ≤ M → 1 ≤ k * w ∧ k * w ≤ w0 / 2) ∧
      ∀ k f, 1 ≤ k → f ≤ w0 / 2 → k * w0 ≠ f := by
  have hacc : 4 * M ^ 2 < N ∧ 0 < M ∧ 0 < D := by
    unfold fastOmega at h
    by_cases h1 : N ≤ 4 * M ^ 2
    · rw [if_pos h1] at h; cases h
    · rw [if_neg h1] at h
      by_cases h2 : M = 0
      · rw [if_pos h2] at h; cases h
      · rw [if_neg h2] at h
        by_cases h3 : D = 0
        · rw [if_pos h3] at h; cases h
        · omega
  obtain ⟨hN, hM, hD⟩ := hacc
  obtain ⟨w0, rest, ho, e, hl, h1, h2, h3⟩ := fastOmega_ok N M D hN hM hD
  rw [ho] at h
  cases h
  refine ⟨w0, rest, rfl, e, hl, h1, ?_, fun w hw => (h3 w hw).1, ?_, ?_⟩
  · intro k hk hkM
    have : k * w0 ≤ M * w0 := Nat.mul_le_mul_right _ hkM
    have : 2 * M * w0 = 2 * (M * w0) := by ring
    omega
  · intro w hw k hk hkM
    obtain ⟨a, b⟩ := h3 w hw
    have h4 : k * w ≤ M * w := Nat.mul_le_mul_right _ hkM
    have h5 : 1 * 1 ≤ k * w := Nat.mul_le_mul hk a
    have : 2 * M * w = 2 * (M * w) := by ring
    omega
  · intro k f hk hf e
    have : 1 * w0 ≤ k * w0 := Nat.mul_le_mul_right _ hk
    omega

/-- **C39** (who is driven).  In block `i` parameter `i` runs along the curve of frequency `w0`, all other
parameters along curves of complementary frequencies; the whole block shares one phase. -/
theorem C39_blocks (u : Nat → ℝ) (N M D : Nat) (X : Mat ℝ) (h : fastUnit u N M D = .ok X) :
    ∃ freq : Nat → Nat → Nat,
      (∀ i < D, ∀ n < N, ∀ j < D,
        entry X (i * N + n) j = some (searchCurve N (freq i j) (2 * π * u i) n)) ∧
      (∀ i < D, freq i i = (N - 1) / (2 * M)) ∧
      ∀ i < D, ∀ j < D, j ≠ i → 1 ≤ freq i j ∧ M * freq i j ≤ (N - 1) / (2 * M) / 2 := by
  cases ho : fastOmega N M D with
  | error e => unfold fastUnit at h; rw [ho] at h; cases h
  | ok omega =>
  obtain ⟨w0, rest, e, ew, hl, -, -, h1, h2, -⟩ := C39_no_alias N M D omega ho
  have hM : 0 < M := by
    unfold fastOmega at ho
    by_contra h0
    rw [show M = 0 by omega] at ho
    by_cases hN : N ≤ 4 * 0 ^ 2
    · rw [if_pos hN] at ho; cases ho
    · rw [if_neg hN, if_pos rfl] at ho; cases ho
  have hlen : omega.length = D := by rw [e]; simpa using hl
  rw [fastUnit_eq u N M D omega ho hlen] at h
  cases h
  refine ⟨blockFreq omega, ?_, ?_, ?_⟩
  · intro i hi n hn j hj
    have h1 : (i * N + n) / N = i := by
      rw [mul_comm, Nat.mul_add_div (by omega), Nat.div_eq_of_lt hn, add_zero]
    have h2 : (i * N + n) % N = n := by rw [mul_comm, Nat.mul_add_mod, Nat.mod_eq_of_lt hn]
    have h3 : i * N + n < N * D := by
      calc i * N + n < i * N + N := by omega
        _ = N * (i + 1) := by ring
        _ ≤ N * D := Nat.mul_le_mul_left _ (by omega)
    unfold entry
    rw [List.getElem?_map, List.getElem?_range h3, Option.map_some, Option.bind_some, List.getElem?_map,
      List.getElem?_range hj, h1, h2]
    simp only [Option.map_some, Option.some.injEq, fastCurve, searchCurve]
    ring_nf
  · intro i hi
    simp [blockFreq, e, ew]
  · intro i hi j hj hji
    have hmem : blockFreq omega i j ∈ rest := by
      unfold blockFreq
      rw [if_neg hji, e]
      split
      · rw [List.getD_cons_succ, List.getD_eq_getElem?_getD, List.getElem?_eq_getElem (by omega)]
        exact List.getElem_mem _
      · obtain ⟨j', rfl⟩ : ∃ j', j = j' + 1 := ⟨j - 1, by omega⟩
        rw [List.getD_cons_succ, List.getD_eq_getElem?_getD, List.getElem?_eq_getElem (by omega)]
        exact List.getElem_mem _
    exact ⟨h1 _ hmem, ew ▸ (h2 _ hmem M hM le_rfl).2⟩

/-- **C39**, spacing.  When there is room, the complementary frequencies are all different, increase, and run from 1 to the highest
allowed one, half the driving frequency divided by `M`. -/
theorem C39_spread (N M D : Nat) (hN : 4 * M ^ 2 < N) (hM : 0 < M) (hD : 3 ≤ D) (hroom : 2 * M * (D - 1) ≤ (N - 1) / (2 * M)) :
    ∃ w0 rest, fastOmega N M D = .ok (w0 :: rest) ∧ rest.Pairwise (· < ·) ∧ rest[0]? = some 1 ∧
      rest[D - 2]? = some (w0 / (2 * M)) := by
  have hm : D - 1 ≤ (N - 1) / (2 * M) / (2 * M) := by
    rw [Nat.le_div_iff_mul_le (by omega)]
    linarith [Nat.mul_comm (2 * M) (D - 1)]
  unfold fastOmega
  rw [if_neg (by omega), if_neg (by omega), if_neg (by omega)]
  refine ⟨_, _, rfl, ?_⟩
  rw [if_pos hm]
  generalize (N - 1) / (2 * M) / (2 * M) = m at hm ⊢
  unfold linspaceFloor
  refine ⟨?_, ?_, ?_⟩
  · rw [List.pairwise_map]
    refine List.pairwise_lt_range.imp fun {a b} hab => ?_
    have h1 : a * (m - 1) / (D - 1 - 1) + 1 ≤ b * (m - 1) / (D - 1 - 1) := by
      rw [Nat.le_div_iff_mul_le (by omega), Nat.add_mul, Nat.one_mul]
      have h2 := Nat.div_mul_le_self (a * (m - 1)) (D - 1 - 1)
      have h3 : (a + 1) * (m - 1) ≤ b * (m - 1) := Nat.mul_le_mul_right _ hab
      rw [Nat.add_mul, Nat.one_mul] at h3
      omega
    omega
  · rw [List.getElem?_map, List.getElem?_range (by omega)]
    simp
  · rw [List.getElem?_map, List.getElem?_range (by omega), Option.map_some]
    rw [show D - 1 - 1 = D - 2 by omega, Nat.mul_div_cancel_left _ (by omega)]
    congr 1
    omega

/-- Room for three complementary frequencies. -/
example : ∃ w0 rest, fastOmega 1000 4 4 = .ok (w0 :: rest) ∧ rest.Pairwise (· < ·) ∧ rest[0]? = some 1 ∧ rest[2]? = some (w0 / 8) :=
  C39_spread 1000 4 4 (by norm_num) (by norm_num) (by norm_num) (by norm_num)

/-- 65 points, 4 harmonics, 3 parameters: accepted; the driving frequency is 8 and the others are 1. -/
example : fastOmega 65 4 3 = .ok [8, 1, 1] := by decide

/-- With more points the complementary frequencies are spread over `1 .. m`. -/
example : fastOmega 1000 4 4 = .ok [124, 1, 8, 15] := by decide

/-- The hypotheses of `C38_in_bounds` hold for a two-parameter problem. -/
example (F : Ppf ℝ) (pb : Problem ℝ) (hpb : pb = { names := ["a", "b"], bounds := boundsTable [(0, 1), (-2, 5)] }) :
    ∃ out, fastSample F (fun _ => 1 / 3) pb 65 4 = .ok out :=
  let ⟨_, h, _⟩ := C38_in_bounds F (fun _ => 1 / 3) pb [(0, 1), (-2, 5)] 65 4 (by norm_num) (by norm_num)
    (by rw [hpb]) (by rw [hpb]) (by rw [hpb]; rfl) (by simp) (by
      intro p hp
      simp only [List.mem_cons, List.not_mem_nil, or_false] at hp
      rcases hp with rfl | rfl <;> norm_num)
  ⟨_, h⟩

end SALib
