import Verif.Spec.SeedKinds
import Verif.Props.Seed

/-! # Seeds of every kind (C135) -/

set_option linter.unusedSectionVars false
set_option linter.unusedSimpArgs false

namespace SALib

open Spec

variable {σ κ β : Type}

/-- The result of a function: `out` if it draws nothing, else what it draws from the stream `s`. -/
def fnResult (f : SeededFn) (out : β) (body : σ → β × σ) (s : σ) : β := (fnBody f out body s).1

theorem fnResult_idle {f : SeededFn} (hf : Idle f) (out : β) (body : σ → β × σ) (s : σ) : fnResult f out body s = out := by
  rcases hf with rfl | rfl | rfl | rfl <;> rfl

theorem fnResult_draws {f : SeededFn} (hf : ¬Idle f) (out : β) (body : σ → β × σ) (s : σ) :
    fnResult f out body s = (body s).1 := by
  cases f <;> first | rfl | (exact absurd (by simp [Idle]) hf)

theorem fnBody_draws {f : SeededFn} (hf : ¬Idle f) (out : β) (body : σ → β × σ) : fnBody f out body = body := by
  cases f <;> first | rfl | (exact absurd (by simp [Idle]) hf)

/-- A generator as seed: the exact run. -/
theorem callSeeded_gen (L : SeedLib σ κ) {f : SeededFn} (hf : TakesGenerator f) (i : Nat) (out : β) (body : σ → β × σ)
    (w : SeedWorld σ κ) :
    callSeeded L f (.gen i) out body w =
      .ok (fnResult f out body (L.start (L.child (w.gens i).key (w.gens i).children)),
        w.setGen i ⟨(w.gens i).stream, (w.gens i).key, (w.gens i).children + 1⟩) := by
  rcases hf with rfl | rfl | rfl | rfl | rfl | rfl | rfl | rfl <;> rfl

theorem setGen_counted (w : SeedWorld σ κ) (i : Nat) :
    Undisturbed w (w.setGen i ⟨(w.gens i).stream, (w.gens i).key, (w.gens i).children + 1⟩) ∧
      Counted i 1 w (w.setGen i ⟨(w.gens i).stream, (w.gens i).key, (w.gens i).children + 1⟩) := by
  refine ⟨⟨rfl, rfl, fun j => ?_⟩, ?_, fun j hj => ?_⟩
  · by_cases h : j = i
    · subst h; simp [SeedWorld.setGen]
    · simp [SeedWorld.setGen, h]
  · simp [SeedWorld.setGen]
  · simp [SeedWorld.setGen, hj]

/-- **C135**, a generator as seed: every function that takes one accepts it, draws from the child with the next number,
moves neither the stream of this generator nor any other, and counts the child. -/
theorem C135_generator (L : SeedLib σ κ) (f : SeededFn) (hf : TakesGenerator f) (i : Nat) (out : β) (body : σ → β × σ)
    (w : SeedWorld σ κ) :
    ∃ b w', callSeeded L f (.gen i) out body w = .ok (b, w') ∧ (Idle f → b = out) ∧
      (¬Idle f → b = (body (L.start (L.child (w.gens i).key (w.gens i).children))).1) ∧ Undisturbed w w' ∧
      Counted i 1 w w' :=
  ⟨_, _, callSeeded_gen L hf i out body w, fun h => fnResult_idle h .., fun h => fnResult_draws h ..,
    (setGen_counted w i).1, (setGen_counted w i).2⟩

/-- **C135**: the result depends only on the seed sequence of the generator and the number of its children.  Whatever was
drawn from it, or from the global generator, does not matter. -/
theorem C135_repeatable (L : SeedLib σ κ) (f : SeededFn) (hf : TakesGenerator f) (i : Nat) (out : β) (body : σ → β × σ)
    (w w' : SeedWorld σ κ) (hw : SameOrigin i w w') :
    (callSeeded L f (.gen i) out body w).map Prod.fst = (callSeeded L f (.gen i) out body w').map Prod.fst := by
  rw [callSeeded_gen L hf, callSeeded_gen L hf, hw.1, hw.2]
  rfl

/-- **C135 fails**: the documentation of the samplers says "that instance is used".  The results after different draws from
the instance are the same, though the draws to come differ. -/
theorem C135_instance_fail (L : SeedLib σ κ) (f : SeededFn) (hf : TakesGenerator f) (i : Nat) (out : β) (body : σ → β × σ)
    (w : SeedWorld σ κ) (s : σ) (hs : (body s).1 ≠ (body (w.gens i).stream).1) :
    ¬∀ w' : SeedWorld σ κ, (callSeeded L f (.gen i) out body w').map Prod.fst = .ok (body (w'.gens i).stream).1 := by
  intro h
  have h1 := h w
  have h2 := h (w.setGen i ⟨s, (w.gens i).key, (w.gens i).children⟩)
  have h3 := C135_repeatable L f hf i out body w (w.setGen i ⟨s, (w.gens i).key, (w.gens i).children⟩)
    ⟨by simp [SeedWorld.setGen], by simp [SeedWorld.setGen]⟩
  rw [h1, h2] at h3
  exact hs (by simpa [SeedWorld.setGen] using (Except.ok.inj h3).symm)

/-- **C135**, calls one after the other with the same generator: call number `k` draws from child number `c + k`, where `c`
children were made before.  So no two calls share a child, and the streams of the caller are where they were. -/
theorem C135_calls (L : SeedLib σ κ) (i : Nat) (out : β) (body : SeededFn → σ → β × σ) (fs : List SeededFn)
    (hfs : ∀ f ∈ fs, TakesGenerator f) (w : SeedWorld σ κ) :
    ∃ bs w', callAll L (.gen i) out body fs w = .ok (bs, w') ∧ bs.length = fs.length ∧
      (∀ (k : Nat) (f : SeededFn) (b : β), fs[k]? = some f → bs[k]? = some b →
        (Idle f → b = out) ∧
        (¬Idle f → b = (body f (L.start (L.child (w.gens i).key ((w.gens i).children + k)))).1)) ∧
      Undisturbed w w' ∧ Counted i fs.length w w' := by
  induction fs generalizing w with
  | nil =>
    exact ⟨[], w, rfl, rfl, fun k f b h => by simp at h, ⟨rfl, rfl, fun _ => ⟨rfl, rfl⟩⟩, rfl, fun _ _ => rfl⟩
  | cons f fs ih =>
    obtain ⟨b, w1, h1, hi, hd, hu, hc⟩ := C135_generator L f (hfs f (by simp)) i out (body f) w
    obtain ⟨bs, w2, h2, hlen, hk, hu2, hc2⟩ := ih (fun g hg => hfs g (by simp [hg])) w1
    refine ⟨b :: bs, w2, ?_, by simp [hlen], ?_, ?_, ?_⟩
    · simp only [callAll]
      rw [h1]
      simp only [pyBind_ok]
      rw [h2]
      rfl
    · intro k g b' hg hb
      cases k with
      | zero =>
        simp only [List.getElem?_cons_zero, Option.some.injEq] at hg hb
        subst hg hb
        exact ⟨hi, hd⟩
      | succ k =>
        simp only [List.getElem?_cons_succ] at hg hb
        have := hk k g b' hg hb
        rw [(hu.2.2 i).2, hc.1] at this
        rw [show (w.gens i).children + (k + 1) = (w.gens i).children + 1 + k by omega]
        exact this
    · refine ⟨hu2.1.trans hu.1, hu2.2.1.trans hu.2.1, fun j => ⟨?_, ?_⟩⟩
      · exact (hu2.2.2 j).1.trans (hu.2.2 j).1
      · exact (hu2.2.2 j).2.trans (hu.2.2 j).2
    · refine ⟨?_, fun j hj => (hc2.2 j hj).trans (hc.2 j hj)⟩
      rw [hc2.1, hc.1, List.length_cons]
      omega

/-- A sampler that draws nothing still counts a child: the sample drawn after it with the same generator is another one. -/
theorem C135_idle_counts (L : SeedLib σ κ) (f g : SeededFn) (hf : f = .sFf ∨ f = .sFiniteDiff) (hg : TakesGenerator g)
    (hd : ¬Idle g) (i : Nat) (out : β) (body : SeededFn → σ → β × σ) (w : SeedWorld σ κ) :
    (callAll L (.gen i) out body [g] w).map Prod.fst =
        .ok [(body g (L.start (L.child (w.gens i).key (w.gens i).children))).1] ∧
      (callAll L (.gen i) out body [f, g] w).map Prod.fst =
        .ok [out, (body g (L.start (L.child (w.gens i).key ((w.gens i).children + 1)))).1] := by
  have htf : TakesGenerator f := by rcases hf with rfl | rfl <;> simp [TakesGenerator]
  have hif : Idle f := by rcases hf with rfl | rfl <;> simp [Idle]
  constructor
  · simp only [callAll]
    rw [callSeeded_gen L hg]
    simp only [pyBind_ok, pyPure, fnResult_draws hd]
    rfl
  · simp only [callAll]
    rw [callSeeded_gen L htf]
    simp only [pyBind_ok]
    rw [callSeeded_gen L hg]
    simp only [pyBind_ok, pyPure, fnResult_draws hd, fnResult_idle hif]
    simp [SeedWorld.setGen, Except.map]

theorem callSeeded_int (L : SeedLib σ κ) {f : SeededFn} (hf : TakesGenerator f) {n : Int} (hn : 0 ≤ n) (out : β)
    (body : σ → β × σ) (w : SeedWorld σ κ) :
    callSeeded L f (.int n) out body w = .ok (fnResult f out body (L.start (L.intKey n.toNat)), w) := by
  have h : ¬n < 0 := by omega
  rcases hf with rfl | rfl | rfl | rfl | rfl | rfl | rfl | rfl <;>
    simp only [callSeeded, seedUse, runUse, handleSeedAny, qmcRng, defaultRngAny, intRng, if_neg h, pyBind_ok, pyPure] <;> rfl

/-- **C135**, a Python integer as seed: accepted by every function that takes a generator, and nothing of the caller is
touched. -/
theorem C135_int (L : SeedLib σ κ) (f : SeededFn) (hf : TakesGenerator f) (n : Int) (hn : 0 ≤ n) (out : β)
    (body : σ → β × σ) (w : SeedWorld σ κ) :
    ∃ b, callSeeded L f (.int n) out body w = .ok (b, w) ∧ (Idle f → b = out) ∧
      (¬Idle f → b = (body (L.start (L.intKey n.toNat))).1) :=
  ⟨_, callSeeded_int L hf hn out body w, fun h => fnResult_idle h .., fun h => fnResult_draws h ..⟩

/-- **C135 fails** for the integers of NumPy (`np.int64(1)`, an element of an integer array): all these functions but the
Sobol sampler raise `ValueError`, although they accept the same integer of Python. -/
theorem C135_npint_fail (L : SeedLib σ κ) (f : SeededFn) (hf : TakesGenerator f) (hs : f ≠ .sSobol) (n : Int) (hn : 0 ≤ n)
    (out : β) (body : σ → β × σ) (w : SeedWorld σ κ) :
    callSeeded L f (.npInt n) out body w = .error .valueError ∧
      ∃ b, callSeeded L f (.int n) out body w = .ok (b, w) := by
  refine ⟨?_, _, callSeeded_int L hf hn out body w⟩
  rcases hf with rfl | rfl | rfl | rfl | rfl | rfl | rfl | rfl <;> first | rfl | exact absurd rfl hs

/-- The other functions treat the integers of NumPy as those of Python, `hdmr` excepted. -/
theorem C135_npint_partial (L : SeedLib σ κ) (f : SeededFn) (hf : ¬TakesGenerator f ∨ f = .sSobol) (hh : f ≠ .aHdmr) (n : Int)
    (out : β) (body : σ → β × σ) (w : SeedWorld σ κ) :
    callSeeded L f (.npInt n) out body w = callSeeded L f (.int n) out body w := by
  cases f <;> first | rfl | exact absurd rfl hh | exact absurd hf (by simp [TakesGenerator])

/-- For integers and `None` this is the treatment of the seed of `Model/Seed.lean`: that of the analysers that draw. -/
theorem C135_agrees (L : SeedLib σ κ) (an : RandAnalyser) (seed : Option Int) (out : β) (body : σ → β × σ)
    (w : SeedWorld σ κ) :
    analyseSeeded ⟨L.mt, fun n => L.start (L.intKey n), fun k => L.start (L.freshKey k)⟩ an seed body ⟨w.glob, w.entropy⟩ =
      (callSeeded L
        (match an with
          | .delta => .aDelta
          | .dgsm => .aDgsm
          | .enhancedHdmr => .aEnhancedHdmr
          | .fast => .aFast
          | .sobol => .aSobol
          | .morris => .aMorris
          | .rbdFast => .aRbdFast
          | .hdmr => .aHdmr)
        (match seed with
          | none => .none
          | some n => .int n) out body w).map (fun r => (r.1, ⟨r.2.glob, r.2.entropy⟩)) := by
  cases seed with
  | none => cases an <;> rfl
  | some n =>
    by_cases h0 : n = 0
    · subst h0
      cases an <;> rfl
    · by_cases hn : n < 0
      · cases an <;>
          simp [analyseSeeded, withGlobalSeed, withOwnOrGlobal, withOwnRng, withIdleRng, handleSeed, defaultRng, seedTruthy,
            npRandomSeed, callSeeded, seedUse, runUse, seedTruth, npRandomSeedAny, mtSeed, handleSeedAny, defaultRngAny,
            intRng, fnBody, drawsNothing, h0, hn, pyBind_ok, pyPure, Except.map] <;> first | rfl | exact ⟨rfl, rfl, rfl⟩
      · by_cases hb : (4294967296 : Int) ≤ n
        · cases an <;>
            simp [analyseSeeded, withGlobalSeed, withOwnOrGlobal, withOwnRng, withIdleRng, handleSeed, defaultRng, seedTruthy,
              npRandomSeed, callSeeded, seedUse, runUse, seedTruth, npRandomSeedAny, mtSeed, handleSeedAny, defaultRngAny,
              intRng, fnBody, drawsNothing, h0, hn, hb, pyBind_ok, pyPure, Except.map] <;> first | rfl | exact ⟨rfl, rfl, rfl⟩
        · cases an <;>
            simp [analyseSeeded, withGlobalSeed, withOwnOrGlobal, withOwnRng, withIdleRng, handleSeed, defaultRng, seedTruthy,
              npRandomSeed, callSeeded, seedUse, runUse, seedTruth, npRandomSeedAny, mtSeed, handleSeedAny, defaultRngAny,
              intRng, fnBody, drawsNothing, h0, hn, hb, pyBind_ok, pyPure, Except.map] <;> first | rfl | exact ⟨rfl, rfl, rfl⟩

/-- The analysers that seed the global generator refuse generators, bit generators and seed sequences: `TypeError`. -/
theorem C135_global_refuses (L : SeedLib σ κ) (f : SeededFn) (hf : SeedsGlobal f) (i : Nat) (out : β) (body : σ → β × σ)
    (w : SeedWorld σ κ) :
    callSeeded L f (.gen i) out body w = .error .typeError ∧ callSeeded L f (.bitGen i) out body w = .error .typeError ∧
      callSeeded L f (.seedSeq i) out body w = .error .typeError := by
  rcases hf with rfl | rfl | rfl | rfl | rfl | rfl <;> exact ⟨rfl, rfl, rfl⟩

/-- Even `ff` and `pawn`, which draw nothing, reseed the global generator of the caller. -/
theorem C135_global_moved (L : SeedLib σ κ) (f : SeededFn) (hf : f = .aFf ∨ f = .aPawn) (n : Int) (h0 : 0 < n)
    (h1 : n < 2 ^ 32) (out : β) (body : σ → β × σ) (w : SeedWorld σ κ) :
    callSeeded L f (.int n) out body w = .ok (out, { w with glob := L.mt n.toNat }) := by
  have hne : n ≠ 0 := by omega
  have hr : ¬(n < 0 ∨ (2 : Int) ^ 32 ≤ n) := by omega
  rcases hf with rfl | rfl <;>
    simp only [callSeeded, seedUse, runUse, seedTruth, npRandomSeedAny, mtSeed, if_neg hr, pyBind_ok, pyPure, ne_eq, hne,
      not_false_eq_true, decide_true, if_true] <;> rfl

/-- The Sobol analysis, unlike the functions that take a generator, draws from the instance itself and moves it. -/
theorem C135_sobol_analysis (L : SeedLib σ κ) (i : Nat) (out : β) (body : σ → β × σ) (w : SeedWorld σ κ) :
    ∃ w', callSeeded L .aSobol (.gen i) out body w = .ok ((body (w.gens i).stream).1, w') ∧
      (w'.gens i).stream = (body (w.gens i).stream).2 ∧ w'.glob = w.glob ∧ ∀ j, j ≠ i → w'.gens j = w.gens j := by
  refine ⟨_, rfl, ?_, rfl, fun j hj => ?_⟩
  · simp [SeedWorld.setGen, fnBody, drawsNothing]
  · simp [SeedWorld.setGen, hj]

/-- `hdmr` counts a child of the generator and draws from the global generator all the same. -/
theorem C135_hdmr (L : SeedLib σ κ) (i : Nat) (out : β) (body : σ → β × σ) (w : SeedWorld σ κ) :
    ∃ w', callSeeded L .aHdmr (.gen i) out body w = .ok ((body w.glob).1, w') ∧ w'.glob = (body w.glob).2 ∧
      Counted i 1 w w' := by
  refine ⟨_, rfl, rfl, ?_, fun j hj => ?_⟩
  · simp [spawnOne, SeedWorld.setGen]
  · simp [spawnOne, SeedWorld.setGen, hj]

/-- The bit generator of a generator, as seed, is used itself: the draws are those of the stream, which is moved. -/
theorem C135_bit_generator (L : SeedLib σ κ) (f : SeededFn) (hf : TakesGenerator f) (hd : ¬Idle f) (hs : f ≠ .sSobol)
    (i : Nat) (out : β) (body : σ → β × σ) (w : SeedWorld σ κ) :
    ∃ w', callSeeded L f (.bitGen i) out body w = .ok ((body (w.gens i).stream).1, w') ∧
      (w'.gens i).stream = (body (w.gens i).stream).2 ∧ w'.glob = w.glob ∧ Counted i 0 w w' := by
  have key : callSeeded L f (.bitGen i) out body w = .ok ((body (w.gens i).stream).1,
      w.setGen i ⟨(body (w.gens i).stream).2, (w.gens i).key, (w.gens i).children⟩) := by
    rcases hf with rfl | rfl | rfl | rfl | rfl | rfl | rfl | rfl <;>
      first | rfl | exact absurd rfl hs | exact absurd (by simp [Idle]) hd
  refine ⟨_, key, ?_, rfl, ?_, fun j hj => ?_⟩
  · simp [SeedWorld.setGen]
  · simp [SeedWorld.setGen]
  · simp [SeedWorld.setGen, hj]

/-- Arrays of several integers are a seed for the functions with `handle_seed`, and a `ValueError` for the analysers that ask
for the truth of the seed; as a list they are accepted by these too. -/
theorem C135_array_fail (L : SeedLib σ κ) (f : SeededFn) (hf : ¬TakesGenerator f) (a b : Int) (ns : List Int) (out : β)
    (body : σ → β × σ) (w : SeedWorld σ κ) (hg : ∀ n ∈ a :: b :: ns, GoodSeed n) :
    callSeeded L f (.array (a :: b :: ns)) out body w = .error .valueError ∧
      ∃ r, callSeeded L f (.list (a :: b :: ns)) out body w = .ok r := by
  have h1 : (a :: b :: ns).any (fun n => decide (n < 0 ∨ 2 ^ 32 ≤ n)) = false := by
    rw [List.any_eq_false]
    intro n hn
    have := hg n hn
    unfold GoodSeed at this
    simp only [decide_eq_true_eq]
    omega
  have h2 : (a :: b :: ns).all (fun n => decide (0 ≤ n)) = true := by
    rw [List.all_eq_true]
    intro n hn
    exact decide_eq_true (hg n hn).1
  have h3 : ¬((a :: b :: ns) = [] ∨ (a :: b :: ns).any (fun n => decide (n < 0 ∨ 2 ^ 32 ≤ n)) = true) := by
    rw [h1]; simp
  have hm : npRandomSeedAny L (.list (a :: b :: ns)) w = .ok { w with glob := L.mtList ((a :: b :: ns).map Int.toNat) } := by
    simp only [npRandomSeedAny, mtSeedList]
    rw [if_neg h3]
  have hr : defaultRngAny L (.list (a :: b :: ns)) w =
      .ok (.own (L.start (L.listKey ((a :: b :: ns).map Int.toNat))), w) := by
    simp only [defaultRngAny, seedWords]
    rw [if_pos h2]
    rfl
  have ht : seedTruth (.list (a :: b :: ns)) = .ok true := rfl
  cases f <;> first
    | (exfalso; revert hf; simp [TakesGenerator]; done)
    | exact ⟨rfl, _, by simp only [callSeeded, seedUse, runUse, ht, handleSeedAny, hm, hr, pyBind_ok, pyPure, if_true]; rfl⟩

/-- Lists and arrays of integers as seed of the functions with `handle_seed`: refused if one is negative, else the stream of
the whole list, and nothing of the caller is moved.  A seed sequence is used as it is, without a child. -/
theorem C135_sequences (L : SeedLib σ κ) (f : SeededFn) (hf : TakesGenerator f) (hd : ¬Idle f) (hs : f ≠ .sSobol)
    (ns : List Int) (i : Nat) (out : β) (body : σ → β × σ) (w : SeedWorld σ κ) :
    ((∃ n ∈ ns, n < 0) → callSeeded L f (.list ns) out body w = .error .valueError) ∧
      ((∀ n ∈ ns, 0 ≤ n) →
        callSeeded L f (.list ns) out body w = .ok ((body (L.start (L.listKey (ns.map Int.toNat)))).1, w)) ∧
      callSeeded L f (.array ns) out body w = callSeeded L f (.list ns) out body w ∧
      callSeeded L f (.seedSeq i) out body w = .ok ((body (L.start (w.gens i).key)).1, w) := by
  have hu : seedUse f = .own := by
    rcases hf with rfl | rfl | rfl | rfl | rfl | rfl | rfl | rfl <;> first | rfl | exact absurd rfl hs
  have hb : fnBody f out body = body := fnBody_draws hd out body
  refine ⟨?_, ?_, ?_, ?_⟩
  · rintro ⟨n, hn, h0⟩
    have : ¬ns.all (fun n => decide (0 ≤ n)) = true := by
      rw [List.all_eq_true]
      intro h
      have := of_decide_eq_true (h n hn)
      omega
    simp only [callSeeded, hu, runUse, handleSeedAny, defaultRngAny, seedWords, if_neg this, listRng]
    rfl
  · intro h
    have : ns.all (fun n => decide (0 ≤ n)) = true := by
      rw [List.all_eq_true]
      exact fun n hn => decide_eq_true (h n hn)
    simp only [callSeeded, hu, hb, runUse, handleSeedAny, defaultRngAny, seedWords, if_pos this, listRng, pyBind_ok, pyPure]
    rfl
  · simp only [callSeeded, hu, runUse, handleSeedAny, defaultRngAny]
  · simp only [callSeeded, hu, hb, runUse, handleSeedAny, defaultRngAny, pyBind_ok, pyPure]
    rfl

/-- Lists as seed of the analysers that seed the global generator: accepted just when all its numbers have 32 bits. -/
theorem C135_global_list (L : SeedLib σ κ) (f : SeededFn) (hf : SeedsGlobal f) (hd : ¬Idle f) (ns : List Int) (hne : ns ≠ [])
    (out : β) (body : σ → β × σ) (w : SeedWorld σ κ) :
    ((∃ n ∈ ns, ¬GoodSeed n) → callSeeded L f (.list ns) out body w = .error .valueError) ∧
      ((∀ n ∈ ns, GoodSeed n) → callSeeded L f (.list ns) out body w =
        .ok ((body (L.mtList (ns.map Int.toNat))).1, { w with glob := (body (L.mtList (ns.map Int.toNat))).2 })) := by
  have hu : seedUse f = .globalIf := by rcases hf with rfl | rfl | rfl | rfl | rfl | rfl <;> rfl
  have hb : fnBody f out body = body := fnBody_draws hd out body
  have ht : seedTruth (.list ns) = .ok true := by
    cases ns with
    | nil => exact absurd rfl hne
    | cons _ _ => rfl
  constructor
  · rintro ⟨n, hn, h0⟩
    have : ns = [] ∨ ns.any (fun n => decide (n < 0 ∨ 2 ^ 32 ≤ n)) = true := by
      right
      rw [List.any_eq_true]
      refine ⟨n, hn, decide_eq_true ?_⟩
      unfold GoodSeed at h0
      omega
    simp only [callSeeded, hu, runUse, ht, npRandomSeedAny, mtSeedList, if_pos this, pyBind_ok, if_true]
    rfl
  · intro h
    have : ¬(ns = [] ∨ ns.any (fun n => decide (n < 0 ∨ 2 ^ 32 ≤ n)) = true) := by
      rintro (h' | h')
      · exact hne h'
      · rw [List.any_eq_true] at h'
        obtain ⟨n, hn, h0⟩ := h'
        have h0 := of_decide_eq_true h0
        have := h n hn
        unfold GoodSeed at this
        omega
    simp only [callSeeded, hu, hb, runUse, ht, npRandomSeedAny, mtSeedList, if_neg this, pyBind_ok, pyPure, if_true]
    rfl

/-- A library in which streams are numbers, and a generator with seed sequence 3 from which something was drawn: Latin
hypercube sampling with it draws from child 0, then from child 1; the same after further draws; a NumPy integer is refused. -/
def toySeeds : SeedLib Nat (List Nat) :=
  ⟨id, List.sum, fun n => [n], id, fun k c => k ++ [c], fun k => k.foldl (fun s d => 10 * s + d) 0, fun n => [n, n], id⟩

def toyWorld (s : Nat) : SeedWorld Nat (List Nat) := ⟨1, 0, fun _ => ⟨s, [3], 0⟩⟩

example : (callAll toySeeds (.gen 0) 0 (fun _ s => (s, s + 1)) [.sLatin, .sFiniteDiff, .aMorris] (toyWorld 77)).map Prod.fst =
      .ok [30, 0, 32] ∧
    (callAll toySeeds (.gen 0) 0 (fun _ s => (s, s + 1)) [.sLatin, .sFiniteDiff, .aMorris] (toyWorld 5)).map Prod.fst =
      .ok [30, 0, 32] ∧
    (callAll toySeeds (.bitGen 0) 0 (fun _ s => (s, s + 1)) [.sLatin, .aMorris] (toyWorld 77)).map Prod.fst = .ok [77, 78] ∧
    (callAll toySeeds (.gen 0) 0 (fun _ s => (s, s + 1)) [.aSobol, .aSobol] (toyWorld 77)).map Prod.fst = .ok [77, 78] ∧
    (callAll toySeeds (.npInt 4) 0 (fun _ s => (s, s + 1)) [.sLatin] (toyWorld 77)).map Prod.fst = .error .valueError ∧
    (callAll toySeeds (.npInt 4) 0 (fun _ s => (s, s + 1)) [.sSobol, .aSobol, .aDelta] (toyWorld 77)).map Prod.fst =
      .ok [4, 4, 4] ∧
    TakesGenerator .sLatin ∧ SameOrigin 0 (toyWorld 77) (toyWorld 5) :=
  ⟨by decide +kernel, by decide +kernel, by decide +kernel, by decide +kernel, by decide +kernel, by decide +kernel,
    by simp [TakesGenerator], rfl, rfl⟩

/-- Several integers: as an array refused by `delta`, as a list accepted. -/
example : (callSeeded toySeeds .aDelta (.array [4, 5]) 0 (fun s => (s, s + 1)) (toyWorld 77)).map Prod.fst =
      .error .valueError ∧
    (callSeeded toySeeds .aDelta (.list [4, 5]) 0 (fun s => (s, s + 1)) (toyWorld 77)).map Prod.fst = .ok 9 ∧
    (∀ n ∈ ([4, 5] : List Int), GoodSeed n) ∧ ¬TakesGenerator .aDelta ∧ SeedsGlobal .aDelta ∧
    (callSeeded toySeeds .aDelta (.gen 0) 0 (fun s => (s, s + 1)) (toyWorld 77)).map Prod.fst = .error .typeError :=
  ⟨by decide +kernel, by decide +kernel, by simp [GoodSeed], by simp [TakesGenerator], by simp [SeedsGlobal],
    by decide +kernel⟩

end SALib
