import Verif.Lemmas.Tuning
import Verif.Props.Reset
import Verif.Props.ReversedBounds
import Verif.Props.Bench
import Verif.Props.Shapes
import Verif.Lemmas.SharedTop
import Verif.Lemmas.NdArray
import Verif.Examples

/-!
# C110: changing an optimizer between calls

A program constructs an optimizer, assigns to its attributes and calls `optimize` and `reset` in any
order (`runActs`; exceptions of calls are caught).  `runActs (cfg, s) prog` is the pair of the
attributes and the optimizer object after the program.
-/

set_option linter.unusedSectionVars false

namespace PySwarms

variable {n d : Nat} {K : Type} [Field K] [LinearOrder K] [Transc K] [FloorRing K]

/-! ## Specification -/

/-- A topology assigned by the statement is a `Star`. -/
def Act.KeepsStar : Act n d K → Prop
  | .set (.topology t) => t = .star
  | _ => True

/-- The box `b` is contained in the box `b'`. -/
def Encloses (b' b : Bounds d K) : Prop := ∀ j, b'.1 j ≤ b.1 j ∧ b.2 j ≤ b'.2 j

/-- A program, started with bounds `b`, only ever widens the bounds, ending with `b'`: every
assignment to `bounds` gives proper bounds around the previous ones, every assignment to the
positions stays inside, `center` is not changed, and the random numbers are in [0, 1). -/
def Widens : Bounds d K → List (Act n d K) → Bounds d K → Prop
  | b, [], b' => b' = b
  | b, .set (.bounds nb) :: prog, b' =>
    ∃ b1, nb = some b1 ∧ ProperBounds b1 ∧ Encloses b1 b ∧ Widens b1 prog b'
  | b, .set (.position x) :: prog, b' => InBox b x ∧ Widens b prog b'
  | _, .set (.center _) :: _, _ => False
  | b, .set _ :: prog, b' => Widens b prog b'
  | b, .call op :: prog, b' => op.Legal ∧ Widens b prog b'

/-! ## Lemmas -/

theorem runActs_inv (I : Config n d K × Opt n d K → Prop) (ok : Act n d K → Prop)
    (hstep : ∀ S a, ok a → I S → I (act S a)) (prog : List (Act n d K)) (hok : ∀ a ∈ prog, ok a)
    (S : Config n d K × Opt n d K) (hS : I S) : I (runActs S prog) := by
  induction prog generalizing S with
  | nil => exact hS
  | cons a prog ih =>
    exact ih (fun a ha => hok a (List.mem_cons_of_mem _ ha)) _
      (hstep S a (hok a List.mem_cons_self) hS)

theorem tune_star (t : Tune n d K) (S : Config n d K × Opt n d K)
    (ht : (Act.set t).KeepsStar) (hS : S.1.kind.isStar) : (tune t S).1.kind.isStar := by
  cases t with
  | topology t =>
    cases ht
    unfold tune
    dsimp only
    split
    · trivial
    · exact hS
  | _ => exact hS

theorem tune_frame (t : Tune n d K) (S : Config n d K × Opt n d K) :
    (tune t S).2.evals = S.2.evals ∧ (tune t S).2.swarm.pbestCost = S.2.swarm.pbestCost ∧
      (tune t S).2.swarm.bestCost = S.2.swarm.bestCost ∧
      (tune t S).2.costHistory = S.2.costHistory ∧
      (tune t S).2.meanPbestHistory = S.2.meanPbestHistory ∧
      (tune t S).2.meanNeighborHistory = S.2.meanNeighborHistory ∧
      (tune t S).2.posHistory = S.2.posHistory ∧
      (tune t S).2.velocityHistory = S.2.velocityHistory ∧
      (tune t S).2.swarm.pbestPos = S.2.swarm.pbestPos := by
  cases t with
  | topology t =>
    unfold tune
    dsimp only
    split <;> exact ⟨rfl, rfl, rfl, rfl, rfl, rfl, rfl, rfl, rfl⟩
  | _ => exact ⟨rfl, rfl, rfl, rfl, rfl, rfl, rfl, rfl, rfl⟩

theorem optimize_same_top (cfg : Config n d K)
    (ev : Nat → Mat n d K → Except Err (Costs n K)) (iters : Nat) (nproc : Option Nat)
    (env : Nat → Draw n d K) (s s' : Opt n d K) (h : SameVisible s s') (ht : s.top = s'.top) :
    (SameVisible (optimize cfg ev iters nproc env s).1 (optimize cfg ev iters nproc env s').1 ∧
      (optimize cfg ev iters nproc env s).1.top = (optimize cfg ev iters nproc env s').1.top) ∧
      (optimize cfg ev iters nproc env s).2 = (optimize cfg ev iters nproc env s').2 := by
  have key := optimize_sim cfg cfg ev ev iters nproc env env
    (fun s s' => SameVisible s s' ∧ s.top = s'.top)
    (fun s s' => SameInside cfg s s' ∧ s.top = s'.top) Eq
    (fun s s' h => ?_) (fun s s' h => ⟨⟨h.1.1, h.1.2, h.1.3, h.1.4, h.1.5, h.1.6, h.1.7⟩, h.2⟩)
    (fun i q s s' h => ?_) (fun s s' h => ?_)
    (fun s s' h => ⟨h.1.1, h.2⟩)
    (fun s s' h => ⟨⟨h.1.1.1, h.1.1.2, h.1.1.3, h.1.1.4, h.1.1.5, h.1.1.6, h.1.1.7⟩, h.2⟩)
    s s' ⟨h, ht⟩
  · refine ⟨key.1, ?_⟩
    have h2 := key.2
    generalize (optimize cfg ev iters nproc env s).2 = o at h2 ⊢
    generalize (optimize cfg ev iters nproc env s').2 = o' at h2 ⊢
    cases o with
    | error e => rw [exRel_error h2]
    | ok v => obtain ⟨v', rfl, rfl⟩ := exRel_ok h2; rfl
  · obtain ⟨⟨h1, h2, h3, h4, h5, h6, h7⟩, ht⟩ := h
    unfold startState prepare SameInside
    rw [h1]
    refine ⟨⟨⟨rfl, h2, h3, h4, h5, h6, h7⟩, rfl, fun hb => ?_⟩, ht⟩
    cases hkk : cfg.kind <;> simp_all
  · apply iterate_sim cfg cfg (ev i) (ev i) (env i) (env i) iters i q
      (fun s s' => SameInside cfg s s' ∧ s.top = s'.top) _ _ rfl _ s s' h
    · intro s s' h
      obtain ⟨⟨⟨h1, h2, h3, h4, h5, h6, h7⟩, h8, h9⟩, ht⟩ := h
      rw [← h1]
      cases ev i s.swarm.position with
      | error e => rfl
      | ok c =>
        refine ⟨⟨⟨?_, h2, h3, h4, h5, h6, ?_⟩, h8, h9⟩, ht⟩
        · unfold recordEval; rw [h1]
        · unfold recordEval; rw [h1, h7]
    · intro s s' h
      obtain ⟨⟨⟨h1, h2, h3, h4, h5, h6, h7⟩, h8, h9⟩, ht⟩ := h
      rw [← h1, ← ht]
      refine ⟨⟨⟨⟨rfl, h2, h3, h4, h5, h6, h7⟩, h8, h9⟩, rfl⟩, ?_⟩
      cases (callGbest cfg (env i).oracle s.top s.swarm).2 with
      | error e => rfl
      | ok g =>
        refine ⟨⟨⟨⟨?_, ?_, ?_, ?_, ?_, ?_, h7⟩, h8, h9⟩, rfl⟩, rfl⟩
        all_goals simp only [recordBest, Opt.populateHistory, h1, h2, h3, h4, h5, h6]
    · intro s s' h
      have h1 := moveSwarm_same cfg (env i) iters i s s' h.1
      have f1 := moveSwarm_top cfg (env i) iters i s
      have f2 := moveSwarm_top cfg (env i) iters i s'
      exact ⟨⟨h1.1, by rw [f1, f2]; exact h.2⟩, h1.2⟩
  · unfold finish
    rw [h.1.1.1]
    split
    · rfl
    · split
      · rfl
      · rfl

theorem runOps_same_top (cfg : Config n d K) (ops : List (Op n d K)) (s s' : Opt n d K)
    (h : SameVisible s s') (ht : s.top = s'.top) :
    SameVisible (runOps cfg s ops) (runOps cfg s' ops) ∧
      (runOps cfg s ops).top = (runOps cfg s' ops).top := by
  induction ops generalizing s s' with
  | nil => exact ⟨h, ht⟩
  | cons op ops ih =>
    have : SameVisible (stepOp cfg s op) (stepOp cfg s' op) ∧
        (stepOp cfg s op).top = (stepOp cfg s' op).top := by
      cases op with
      | optimize ev iters nproc env => exact (optimize_same_top cfg ev iters nproc env s s' h ht).1
      | reset r =>
        unfold stepOp reset
        dsimp only
        split
        · exact ⟨⟨h.1, rfl, rfl, rfl, rfl, rfl, h.7⟩, ht⟩
        · exact ⟨⟨rfl, rfl, rfl, rfl, rfl, rfl, rfl⟩, ht⟩
    exact ih _ _ this.1 this.2

/-! ## Theorems -/

/-- **C110** (best cost).  An optimizer with Star topology, changed and used by any program (resets
that raise included; a new topology must be a `Star` again): `best_cost` is the minimum of all costs
evaluated since the swarm was created, and `cost_history`, which has one entry for each of the last
evaluations, is the running minimum. -/
theorem C110_best (hn : 0 < n) (cfg : Config n d K) (hk : cfg.kind.isStar) (r1 r2 : InitDraw n d K)
    (s0 : Opt n d K) (h0 : construct cfg r1 r2 = .ok s0) (prog : List (Act n d K))
    (hprog : ∀ a ∈ prog, a.KeepsStar) :
    let s := (runActs (cfg, s0) prog).2
    IsMinOf s.swarm.bestCostVal (allCosts s.evals) ∧
      s.costHistory.length ≤ s.evals.length ∧
      ∀ (t : Nat) (ht : t < s.costHistory.length), IsMinOf s.costHistory[t]
        (allCosts (s.evals.take (s.evals.length - s.costHistory.length + t + 1))) := by
  obtain ⟨sw, hsw, rfl⟩ := construct_ok cfg r1 r2 s0 h0
  have hf := fresh_reachable_init cfg r2 sw hsw
  have key := runActs_inv (fun S => S.1.kind.isStar ∧ StarLate S.2) Act.KeepsStar ?_ prog hprog
    (cfg, ({ swarm := sw } : Opt n d K))
    ⟨hk, [], starInv_init (r := r2) _ _ _ _ ⟨hf.1, hf.2.1⟩⟩
  · exact key.2.spec
  · rintro S a ha ⟨h1, h2⟩
    cases a with
    | set t =>
      have hf := tune_frame t S
      exact ⟨tune_star t S ha h1, h2.congr hf.1 hf.2.1 hf.2.2.1 hf.2.2.2.1⟩
    | call op =>
      refine ⟨h1, ?_⟩
      cases op with
      | optimize ev iters nproc env => exact h2.optimize hn h1 ev iters nproc env
      | reset r => exact h2.reset r

/-- **C110** (histories).  After any program the five histories have equal length. -/
theorem C110_histories (cfg : Config n d K) (r1 r2 : InitDraw n d K)
    (s0 : Opt n d K) (h0 : construct cfg r1 r2 = .ok s0) (prog : List (Act n d K)) :
    let s := (runActs (cfg, s0) prog).2
    s.meanPbestHistory.length = s.costHistory.length ∧
      s.meanNeighborHistory.length = s.costHistory.length ∧
      s.posHistory.length = s.costHistory.length ∧
      s.velocityHistory.length = s.costHistory.length := by
  obtain ⟨sw, hsw, rfl⟩ := construct_ok cfg r1 r2 s0 h0
  refine runActs_inv (fun S => S.2.meanPbestHistory.length = S.2.costHistory.length ∧
      S.2.meanNeighborHistory.length = S.2.costHistory.length ∧
      S.2.posHistory.length = S.2.costHistory.length ∧
      S.2.velocityHistory.length = S.2.costHistory.length) (fun _ => True) ?_ prog
      (fun _ _ => trivial) _ ⟨rfl, rfl, rfl, rfl⟩
  rintro S a - hS
  cases a with
  | set t =>
    obtain ⟨-, -, -, e4, e5, e6, e7, e8, -⟩ := tune_frame t S
    unfold act
    dsimp only
    rw [e4, e5, e6, e7, e8]
    exact hS
  | call op =>
    cases op with
    | reset r =>
      unfold act stepOp reset
      dsimp only
      split <;> exact ⟨rfl, rfl, rfl, rfl⟩
    | optimize ev iters nproc env =>
      refine optimize_inv S.1 ev iters nproc env (fun s => s.meanPbestHistory.length =
        s.costHistory.length ∧ s.meanNeighborHistory.length = s.costHistory.length ∧
        s.posHistory.length = s.costHistory.length ∧
        s.velocityHistory.length = s.costHistory.length) (fun s _ _ _ h => h) (fun s h => h) ?_
        S.2 hS
      intro i q s hs
      refine iterate_inv S.1 (ev i) (env i) iters i q (fun s => s.meanPbestHistory.length =
        s.costHistory.length ∧ s.meanNeighborHistory.length = s.costHistory.length ∧
        s.posHistory.length = s.costHistory.length ∧
        s.velocityHistory.length = s.costHistory.length) (fun s c h _ => h) (fun s t h => h)
        ?_ ?_ s hs
      · intro s t g h
        simpa [recordBest, Opt.populateHistory] using h
      · intro s h
        have hf := moveSwarm_frame S.1 (env i) iters i s
        simp only at hf
        obtain ⟨-, -, -, -, -, -, h1, h2, h3, h4, h5, -⟩ := hf
        rw [h1, h2, h3, h4, h5]
        exact h

section ordered
variable [IsStrictOrderedRing K]

theorem inBox_encloses {b b' : Bounds d K} (h : Encloses b' b) {x : Mat n d K} (hx : InBox b x) :
    InBox b' x := fun i j => ⟨(h j).1.trans (hx i j).1, (hx i j).2.trans (h j).2⟩

theorem widens_inv (prog : List (Act n d K)) :
    ∀ (b b' : Bounds d K) (S : Config n d K × Opt n d K), Widens b prog b' → ProperBounds b →
      S.1.kind ≠ .binary → S.1.bounds = some b → S.1.center = (fun _ => 1) → AllInside b S.2 →
      (runActs S prog).1.bounds = some b' ∧ AllInside b' (runActs S prog).2 := by
  induction prog with
  | nil =>
    intro b b' S hw hb hk hcb hc hS
    cases hw
    exact ⟨hcb, hS⟩
  | cons a prog ih =>
    intro b b' S hw hb hk hcb hc hS
    obtain ⟨p1, p2, p3, p4⟩ := hS
    cases a with
    | call op =>
      obtain ⟨hl, hw⟩ := hw
      refine ih b b' _ hw hb hk hcb hc ?_
      cases op with
      | optimize ev iters nproc env =>
        exact allInside_optimize hk hcb hb ev iters nproc env hl S.2 ⟨p1, p2, p3, p4⟩
      | reset r =>
        unfold act stepOp reset
        dsimp only
        split
        · exact ⟨p1, p2, p3, by simp⟩
        · next sw hsw =>
          have := allInside_fresh hk hcb hb r hl (.inr hc) sw hsw
          exact ⟨this.1, this.2, by simp, by simp⟩
    | set t =>
      cases t with
      | bounds nb =>
        obtain ⟨b1, rfl, hb1, hin, hw⟩ := hw
        exact ih b1 b' _ hw hb1 hk rfl hc ⟨inBox_encloses hin p1, inBox_encloses hin p2,
          fun e he => inBox_encloses hin (p3 e he), fun x hx => inBox_encloses hin (p4 x hx)⟩
      | position x =>
        obtain ⟨hx, hw⟩ := hw
        exact ih b b' _ hw hb hk hcb hc ⟨hx, p2, p3, p4⟩
      | center c => exact hw.elim
      | topology t =>
        have hw' : Widens b prog b' := hw
        refine ih b b' (tune (.topology t) S) hw' hb ?_ ?_ ?_ ?_
        all_goals unfold tune; dsimp only; split
        · exact fun h => by cases h
        · exact hk
        · exact hcb
        · exact hcb
        · exact hc
        · exact hc
        · exact ⟨p1, p2, p3, p4⟩
        · exact ⟨p1, p2, p3, p4⟩
      | _ => exact ih b b' _ hw hb hk hcb hc ⟨p1, p2, p3, p4⟩

/-- **C110** (wider bounds).  An optimizer constructed with proper bounds (`center = 1`) and changed
and used by a program that only widens the bounds: all positions, personal best positions,
evaluations and recorded positions are inside the present bounds. -/
theorem C110_widen (cfg : Config n d K) (b b' : Bounds d K) (hk : cfg.kind ≠ .binary)
    (hcb : cfg.bounds = some b) (hb : ProperBounds b) (hc : cfg.center = fun _ => 1)
    (r1 r2 : InitDraw n d K) (hr : r2.Legal) (s0 : Opt n d K)
    (h0 : construct cfg r1 r2 = .ok s0) (prog : List (Act n d K)) (hprog : Widens b prog b') :
    let S := runActs (cfg, s0) prog
    S.1.bounds = some b' ∧ AllInside b' S.2 := by
  obtain ⟨sw, hsw, rfl⟩ := construct_ok cfg r1 r2 s0 h0
  have h1 := allInside_fresh hk hcb hb r2 hr (.inr hc) sw hsw
  exact widens_inv prog b b' _ hprog hb hk hcb hc ⟨h1.1, h1.2, by simp, by simp⟩

/-- **C110** (narrower bounds).  Whatever was done to an optimizer before, with proper bounds and a
strategy other than `shrink` and `intermediate` every evaluation of a call but the first one is inside
the bounds it has at the time of the call. -/
theorem C110_narrow (S : Config n d K × Opt n d K) (prog : List (Act n d K)) (b : Bounds d K)
    (hb : ProperBounds b) (hcb : (runActs S prog).1.bounds = some b)
    (hk : (runActs S prog).1.kind ≠ .binary)
    (hst : (runActs S prog).1.bhStrategy ∉ ["shrink", "intermediate"])
    (ev : Nat → Mat n d K → Except Err (Costs n K)) (iters : Nat) (nproc : Option Nat)
    (env : Nat → Draw n d K) (henv : ∀ t, (env t).Legal) :
    ∃ new, (runActs S (prog ++ [.call (.optimize ev iters nproc env)])).2.evals =
        (runActs S prog).2.evals ++ new ∧ ∀ e ∈ new.tail, InBox b e.1 := by
  have e : runActs S (prog ++ [.call (.optimize ev iters nproc env)]) =
      ((runActs S prog).1,
        (optimize (runActs S prog).1 ev iters nproc env (runActs S prog).2).1) := by
    unfold runActs
    rw [List.foldl_append]
    rfl
  rw [e]
  exact later_evals hk hcb ev iters nproc env (InBox b)
    (fun t mem mem' x y h => bhCall_memoryFree_inBox hst hb (henv t).2.2.1 h) _

/-- **C110** (`intermediate` never gets inside).  If after narrowing the bounds everything is above
the upper bound in some dimension, then with strategy `intermediate`, no inertia and weights `c1`,
`c2` of sum at most 1, it stays there: whatever the objective and the random numbers are, every
evaluation of every following call is outside the bounds. -/
theorem C110_outside (cfg : Config n d K) (b : Bounds d K) (hc : Contracting cfg b) (j : Fin d)
    (s : Opt n d K) (hs : Beyond (b.2 j) j s) (ops : List (Op n d K))
    (hops : ∀ op ∈ ops, op.isOptimize ∧ op.Legal) :
    ∃ new, (runOps cfg s ops).evals = s.evals ++ new ∧ ∀ e ∈ new, ∀ i, b.2 j < e.1 i j := by
  have key : ∀ (ops : List (Op n d K)) (z : Opt n d K),
      (∀ op ∈ ops, op.isOptimize ∧ op.Legal) → Beyond (b.2 j) j z →
      (∃ new, z.evals = s.evals ++ new ∧ ∀ e ∈ new, ∀ i, b.2 j < e.1 i j) →
      ∃ new, (runOps cfg z ops).evals = s.evals ++ new ∧ ∀ e ∈ new, ∀ i, b.2 j < e.1 i j := by
    intro ops
    induction ops with
    | nil => exact fun z _ _ h => h
    | cons op ops ih =>
      intro z hops hz hE
      have hop := hops op List.mem_cons_self
      cases op with
      | reset r => exact hop.1.elim
      | optimize ev iters nproc env =>
        have := hz.optimize hc ev iters nproc env hop.2 s.evals hE
        exact ih _ (fun op h => hops op (List.mem_cons_of_mem _ h)) this.1 this.2
  exact key ops s hops hs ⟨[], by simp, by simp⟩

end ordered

/-- **C110** (reset).  Change an optimizer by any program and reset it.  For the Star topology and
every dynamic topology it then behaves like a new optimizer constructed with the present attributes
and the same random draws. -/
theorem C110_reset (S : Config n d K × Opt n d K) (prog : List (Act n d K))
    (hk : (runActs S prog).1.kind.top.isStatic = false ∨ (runActs S prog).1.kind.isStar)
    (r0 r : InitDraw n d K) (new : Opt n d K)
    (hnew : construct (runActs S prog).1 r0 r = .ok new) (ops : List (Op n d K)) :
    SameVisible (runActs S (prog ++ .call (.reset r) :: ops.map .call)).2
        (runOps (runActs S prog).1 new ops) ∧
      ∀ ev iters nproc env,
        (optimize (runActs S prog).1 ev iters nproc env
          (runActs S (prog ++ .call (.reset r) :: ops.map .call)).2).2 =
        (optimize (runActs S prog).1 ev iters nproc env (runOps (runActs S prog).1 new ops)).2 := by
  have hfold : ∀ (ops : List (Op n d K)) (T : Config n d K × Opt n d K),
      runActs T (ops.map .call) = (T.1, runOps T.1 T.2 ops) := by
    intro ops
    induction ops with
    | nil => intro T; rfl
    | cons op ops ih => intro T; exact ih (act T (.call op))
  have e : (runActs S (prog ++ .call (.reset r) :: ops.map .call)).2 =
      runOps (runActs S prog).1 (reset (runActs S prog).1 r (runActs S prog).2).1 ops := by
    have : runActs S (prog ++ .call (.reset r) :: ops.map .call) =
        runActs (act (runActs S prog) (.call (.reset r))) (ops.map .call) := by
      unfold runActs
      rw [List.foldl_append]
      rfl
    rw [this, hfold]
    rfl
  rw [e]
  exact (C29_reset (runActs S prog).1 hk (runActs S prog).2 new r0 r hnew).2 ops

/-- **C110** (reset of a static topology).  A `GeneralOptimizerPSO` with any topology, static ones
included, behaves like a new optimizer if besides the reset it is given a new topology object. -/
theorem C110_reset_topology (S : Config n d K × Opt n d K) (prog : List (Act n d K)) (t0 t : TopKind)
    (hk : (runActs S prog).1.kind = .general t0)
    (r0 r : InitDraw n d K) (new : Opt n d K)
    (hnew : construct { (runActs S prog).1 with kind := .general t } r0 r = .ok new)
    (ops : List (Op n d K)) :
    let S' := runActs S (prog ++ [.set (.topology t), .call (.reset r)])
    SameVisible (runOps S'.1 S'.2 ops) (runOps S'.1 new ops) ∧
      ∀ ev iters nproc env,
        (optimize S'.1 ev iters nproc env (runOps S'.1 S'.2 ops)).2 =
        (optimize S'.1 ev iters nproc env (runOps S'.1 new ops)).2 := by
  obtain ⟨sw, hsw, rfl⟩ := construct_ok _ r0 r new hnew
  have e : runActs S (prog ++ [.set (.topology t), .call (.reset r)]) =
      ({ (runActs S prog).1 with kind := .general t },
        { (runActs S prog).2 with
          top := {}, swarm := sw, evals := []
          costHistory := [], meanPbestHistory := [], meanNeighborHistory := []
          posHistory := [], velocityHistory := [] }) := by
    have : runActs S (prog ++ [.set (.topology t), .call (.reset r)]) =
        act (act (runActs S prog) (.set (.topology t))) (.call (.reset r)) := by
      unfold runActs
      rw [List.foldl_append]
      rfl
    rw [this]
    unfold act tune
    dsimp only
    rw [hk]
    unfold stepOp reset
    dsimp only
    rw [hsw]
  rw [e]
  dsimp only
  have h := runOps_same_top { (runActs S prog).1 with kind := .general t } ops
    { (runActs S prog).2 with
          top := {}, swarm := sw, evals := []
          costHistory := [], meanPbestHistory := [], meanNeighborHistory := []
          posHistory := [], velocityHistory := [] } { swarm := sw }
    ⟨rfl, rfl, rfl, rfl, rfl, rfl, rfl⟩ rfl
  exact ⟨h.1, fun ev iters nproc env => (optimize_same_top _ ev iters nproc env _ _ h.1 h.2).2⟩

/-- **C110** (dormant attributes).  Assigning to `center` or `init_pos` changes no `optimize` call
until the next `reset`. -/
theorem C110_dormant (cfg : Config n d K) (c : Vec d K) (p : Option (Mat n d K))
    (ev : Nat → Mat n d K → Except Err (Costs n K)) (iters : Nat) (nproc : Option Nat)
    (env : Nat → Draw n d K) (s : Opt n d K) :
    let S := tune (.initPos p) (tune (.center c) (cfg, s))
    optimize S.1 ev iters nproc env S.2 = optimize cfg ev iters nproc env s := by
  show optimize { cfg with center := c, initPos := p } ev iters nproc env s = _
  exact optimize_dormant (cfg := cfg) (cfg' := { cfg with center := c, initPos := p }) (fun _ _ _ _ _ _ => rfl) (fun _ => rfl) ev iters nproc env s

/-- **C110** (options of `BinaryPSO`).  `BinaryPSO` never reads `opt.options` during `optimize`:
assigning to it changes no call until the next `reset`. -/
theorem C110_binary_options (cfg : Config n d K) (hk : cfg.kind = .binary) (o : Opts K)
    (args : TopArgs) (ev : Nat → Mat n d K → Except Err (Costs n K)) (iters : Nat)
    (nproc : Option Nat) (env : Nat → Draw n d K) (s : Opt n d K) :
    let S := tune (.options o args) (cfg, s)
    optimize S.1 ev iters nproc env S.2 = optimize cfg ev iters nproc env s := by
  have ht : tune (.options o args) (cfg, s) = ({ cfg with options := o }, s) := by
    cases cfg
    cases hk
    rfl
  rw [ht]
  dsimp only
  refine optimize_dormant (cfg := cfg) (cfg' := { cfg with options := o }) ?_ (fun _ => rfl) ev
    iters nproc env s
  intro ev r iters i q s
  have hm : ∀ s, moveSwarm { cfg with options := o } r iters i s = moveSwarm cfg r iters i s := by
    intro s
    unfold moveSwarm
    have : callOptions { cfg with options := o } iters i r s.swarm =
        callOptions cfg iters i r s.swarm := by
      unfold callOptions
      dsimp only
      rw [hk]
    rw [this]
    rfl
  unfold iterate
  simp only [hm]
  rfl

/-- **C110** (number of particles).  An optimizer constructed with `n ≠ 1` particles whose
`n_particles` is then set to another number cannot be used any more after a `reset`: every `optimize`
call raises in its first iteration, whatever the objective returns. -/
theorem C110_particles (n m d : Nat) (hn : n ≠ 1) (hm : m ≠ n) (pos vel : List Nat → K)
    (obj : Arr K → Except Err (Arr (XR K))) (c1 c2 w : K) (clamp : Option (Arr K × Arr K))
    (r : (List Nat → K) × (List Nat → K)) (rs : List ((List Nat → K) × (List Nat → K))) :
    ∃ e, resizedRun n m d pos vel obj c1 c2 w clamp (r :: rs) = .error e := by
  unfold resizedRun createSwarmA
  dsimp only [List.getElem?_cons_succ, List.getElem?_cons_zero]
  unfold optimizeA loopA
  dsimp only
  split
  · next e h => exact ⟨e, rfl⟩
  · next s' h =>
    exfalso
    obtain ⟨cost, k, rest, h1, h2, h3, h4, h5, h6, h7, u, h8, h9⟩ := iterationA_shapes h
    dsimp only at h2 h3
    have hr : rest = [] := by
      have := h3.length_le
      simp only [List.length_cons, List.length_nil] at this
      exact List.eq_nil_of_length_eq_zero (by omega)
    subst hr
    have e1 := ((Arr.to_two _ _ _ _).1 h3).1
    have e2 := (Arr.to_one _ _).1 (Arr.to_bcast h2).2
    omega

/-! ## Examples -/

namespace Ex

/-- A `GlobalBestPSO` with bounds [0, 4], options `c1 = 1/2`, `c2 = 1/3`, `w = 0`. -/
def fence (strategy : String) : Config 2 1 ℚ :=
  { gcfg 2 1 with
    options := [("c1", 1 / 2), ("c2", 1 / 3), ("w", 0)]
    center := fun _ => 1
    bounds := some (fun _ => 0, fun _ => 4)
    bhStrategy := strategy }

/-- The particles start at 2 and 3. -/
def fenceInit : InitDraw 2 1 ℚ :=
  { init 2 1 with pos := fun i _ => if i = 0 then 1 / 2 else 3 / 4 }

/-- One iteration with the objective `-x`. -/
def step : Op 2 1 ℚ := .optimize (down 2) 1 none (fun _ => draw 2 1)

/-- Bounds [0, 1]. -/
def narrow : Bounds 1 ℚ := (fun _ => 0, fun _ => 1)

theorem step_legal : step.Legal := fun _ => draw_legal 2 1

end Ex

/-- **C110** (what is returned).  After the bounds were narrowed to [0, 1] a call of an optimizer with
strategy `nearest` returns the position 3: its first evaluation is made before the new bounds are
applied, and it was the best one. -/
theorem C110_returned : ∃ (s0 s : Opt 2 1 ℚ) (c : XR ℚ) (p : Vec 1 ℚ),
    construct (Ex.fence "nearest") Ex.fenceInit Ex.fenceInit = .ok s0 ∧
    optimize (runActs (Ex.fence "nearest", s0) [.set (.bounds (some Ex.narrow))]).1 (Ex.down 2) 3
      none (fun _ => Ex.draw 2 1)
      (runActs (Ex.fence "nearest", s0) [.set (.bounds (some Ex.narrow))]).2 = (s, .ok (c, p)) ∧
    p 0 = 3 ∧ Ex.narrow.2 0 < p 0 := by
  have h : (match construct (Ex.fence "nearest") Ex.fenceInit Ex.fenceInit with
    | .ok s0 =>
      match optimize (runActs (Ex.fence "nearest", s0) [.set (.bounds (some Ex.narrow))]).1
        (Ex.down 2) 3 none (fun _ => Ex.draw 2 1)
        (runActs (Ex.fence "nearest", s0) [.set (.bounds (some Ex.narrow))]).2 with
      | (_, .ok (_, p)) => decide (p 0 = 3 ∧ Ex.narrow.2 0 < p 0)
      | _ => false
    | _ => false) = true := by decide +kernel
  split at h
  · next s0 hs =>
    split at h
    · next s c p ho => exact ⟨s0, s, c, p, hs, ho, of_decide_eq_true h⟩
    · cases h
  · cases h

/-- Non-vacuity of C110 (best cost): after a call, an `init_pos` outside the bounds, a `reset` that
therefore raises, and another call, the only history entry is the minimum over both calls. -/
example : (match construct (Ex.fence "nearest") Ex.fenceInit Ex.fenceInit with
    | .ok s0 =>
      let S := runActs (Ex.fence "nearest", s0) [.call Ex.step,
        .set (.initPos (some fun _ _ => 7)), .call (.reset Ex.fenceInit),
        .set (.bounds (some Ex.narrow)), .call Ex.step, .call Ex.step]
      decide (S.2.costHistory = [.fin (-3), .fin (-3)] ∧ S.2.evals.length = 3 ∧
        S.2.swarm.bestCost = some (.fin (-3)))
    | _ => false) = true := by decide +kernel

/-- Non-vacuity of C110 (wider bounds). -/
example : Widens (fun _ => 0, fun _ => 4) [.call Ex.step, .set (.bounds (some (fun _ => -1, fun _ => 5))),
      .set (.options [("c1", 2)] {}), .call Ex.step, .set (.position fun _ _ => 5), .call Ex.step]
    ((fun _ => -1, fun _ => 5) : Bounds 1 ℚ) := by
  refine ⟨Ex.step_legal, _, rfl, fun j => ?_, fun j => ⟨?_, ?_⟩, Ex.step_legal, fun i j => ?_,
    Ex.step_legal, rfl⟩
  all_goals norm_num

/-- Non-vacuity of C110 (`intermediate`): an optimizer that has run inside [0, 4] and is then given
the bounds [0, 1]. -/
example : Contracting { Ex.fence "intermediate" with bounds := some Ex.narrow } Ex.narrow where
  notBinary := by decide
  bounds := rfl
  strategy := rfl
  velocity := rfl
  clamp := rfl
  schedule := rfl
  weights := ⟨1 / 2, 1 / 3, rfl, rfl, rfl, by norm_num, by norm_num, by norm_num⟩

example : ∃ s0, construct (Ex.fence "intermediate") Ex.fenceInit Ex.fenceInit = .ok s0 ∧
    Beyond (Ex.narrow.2 0) 0
      (runActs (Ex.fence "intermediate", s0) [.call Ex.step, .set (.bounds (some Ex.narrow))]).2 := by
  have h : (match construct (Ex.fence "intermediate") Ex.fenceInit Ex.fenceInit with
    | .ok s0 =>
      let s := (runActs (Ex.fence "intermediate", s0)
        [.call Ex.step, .set (.bounds (some Ex.narrow))]).2
      decide ((∀ i, Ex.narrow.2 0 < s.swarm.position i 0) ∧
        (∀ i, Ex.narrow.2 0 < s.swarm.pbestPos i 0)) && (match s.swarm.bestPos with
          | .single v => decide (Ex.narrow.2 0 < v 0)
          | _ => false)
    | _ => false) = true := by decide +kernel
  split at h
  · next s0 hs =>
    refine ⟨s0, hs, ?_⟩
    dsimp only at h
    generalize (runActs (Ex.fence "intermediate", s0)
        [.call Ex.step, .set (.bounds (some Ex.narrow))]).2 = s at h ⊢
    rw [Bool.and_eq_true, decide_eq_true_eq] at h
    refine ⟨h.1.1, h.1.2, ?_⟩
    have h2 := h.2
    cases hb : s.swarm.bestPos with
    | empty => trivial
    | single v => rw [hb] at h2; exact of_decide_eq_true h2
    | perParticle m => rw [hb] at h2; cases h2
  · cases h

/-- The same optimizer after two further iterations: the evaluations are still above 1. -/
example : (match construct (Ex.fence "intermediate") Ex.fenceInit Ex.fenceInit with
    | .ok s0 =>
      let S := runActs (Ex.fence "intermediate", s0)
        [.call Ex.step, .set (.bounds (some Ex.narrow)), .call Ex.step, .call Ex.step]
      decide (S.2.evals.length = 3 ∧ ∀ e ∈ S.2.evals.drop 1, ∀ i, 1 < e.1 i 0)
    | _ => false) = true := by decide +kernel

/-- Non-vacuity of C110 (reset): the constructor accepts the changed attributes. -/
example : (match construct (Ex.fence "nearest") Ex.fenceInit Ex.fenceInit with
    | .ok s0 =>
      let S := runActs (Ex.fence "nearest", s0) [.call Ex.step, .set (.bounds (some Ex.narrow)),
        .set (.options [("c1", 1), ("c2", 1), ("w", 1 / 2)] {})]
      match construct S.1 Ex.fenceInit Ex.fenceInit with
      | .ok new => decide (new.swarm.position 1 0 = 3 / 4 ∧
          (runActs S [.call (.reset Ex.fenceInit)]).2.swarm.position 1 0 = 3 / 4)
      | _ => false
    | _ => false) = true := by decide +kernel

/-- The number of particles: from two to three raises; from one to three works, because the single
personal best cost of the stale size broadcasts. -/
example :
    (match resizedRun 2 3 1 (fun idx => (idx.headD 0 : ℚ)) (fun _ => 0)
        (fun x => .ok ⟨[3], fun idx => .fin (x.get [idx.headD 0, 0])⟩) (1 / 2) (1 / 2) 0 none
        [(fun _ => 1 / 2, fun _ => 1 / 2)] with
      | .error e => e == .valueError
      | .ok _ => false) = true ∧
    (match resizedRun 1 3 1 (fun idx => (idx.headD 0 : ℚ)) (fun _ => 0)
        (fun x => .ok ⟨[3], fun idx => .fin (x.get [idx.headD 0, 0])⟩) (1 / 2) (1 / 2) 0 none
        [(fun _ => 1 / 2, fun _ => 1 / 2)] with
      | .error _ => false
      | .ok s => decide (s.position.shape = [3, 1] ∧ s.position.flat = [0, 3 / 4, 3 / 2] ∧
          s.pbestCost.shape = [3])) = true := by decide +kernel

end PySwarms
