import Verif.Lemmas.Threads

/-! # C99: optimizers in several threads -/

set_option linter.unusedSectionVars false

namespace PySwarms

variable {n d : Nat} {K G : Type} [Field K] [LinearOrder K] [Transc K] [FloorRing K]
variable {ι : Type} [DecidableEq ι] {N D : ι → Nat} {A : ι → Type}

/-! ## Specification -/

/-- The program can give the answer `a`, if the doubles it gets are in `[0, 1)`. -/
inductive Prog.Yields {α : Type} : Prog n d K α → α → Prop
  | done (a : α) : Yields (.done a) a
  | real (k : K → Prog n d K α) (x : K) (a : α) : Unit01 x → Yields (k x) a → Yields (.real k) a
  | bits (k : (Fin n → Fin d → Bool) → Prog n d K α) (x : Fin n → Fin d → Bool) (a : α) :
      Yields (k x) a → Yields (.bits k) a
  | choice (m : Nat) (i : Fin n) (k : List (Fin n) → Prog n d K α) (x : List (Fin n)) (a : α) :
      Yields (k x) a → Yields (.choice m i k) a

/-- The call `o` of the model with free numbers is the call `op` of a thread: the same `iters` and
`n_processes`, and its objective gives answers that the one of `op` can give. -/
def SameRequest : OpP n d K → Op n d K → Prop
  | .optimize ev _ iters nproc, .optimize f iters' nproc' _ =>
    iters = iters' ∧ nproc = nproc' ∧ ∀ t x, (ev t x).Yields (f t x)
  | .reset, .reset _ => True
  | _, _ => False

theorem yields_run {α : Type} (rng : Rng n d K G) (hr : rng.Legal) (p : Prog n d K α) (g : G) :
    p.Yields (p.run rng g).2 := by
  induction p generalizing g with
  | done a => exact .done a
  | real k ih => exact .real k _ _ (hr g) (ih _ _)
  | bits k ih => exact .bits k _ _ (ih _ _)
  | choice m i k ih => exact .choice m i k _ _ (ih _ _)

/-- What the calls of a history with free numbers leave behind, and what its calls of `optimize`
return or raise. -/
def freeCalls (cfg : Config n d K) : List (Op n d K) → Opt n d K →
    Opt n d K × List (Except Err (XR K × Vec d K))
  | [], s => (s, [])
  | .optimize ev iters nproc env :: ops, s =>
    let o := optimize cfg ev iters nproc env s
    let r := freeCalls cfg ops o.1
    (r.1, o.2 :: r.2)
  | .reset r :: ops, s => freeCalls cfg ops (reset cfg r s).1

theorem freeCalls_fst (cfg : Config n d K) (ops : List (Op n d K)) (s : Opt n d K) :
    (freeCalls cfg ops s).1 = runOps cfg s ops := by
  induction ops generalizing s with
  | nil => rfl
  | cons op ops ih => cases op <;> exact ih _

theorem callsP_free [IsStrictOrderedRing K] (cfg : Config n d K) (rng : Rng n d K G)
    (hr : rng.Legal) (pops : List (OpP n d K)) (g : G) (s : Opt n d K) :
    ∃ ops : List (Op n d K), (∀ o ∈ ops, o.Legal) ∧ List.Forall₂ SameRequest pops ops ∧
      ((callsP cfg pops s).run rng g).2 = freeCalls cfg ops s := by
  induction pops generalizing g s with
  | nil => exact ⟨[], by simp, .nil, rfl⟩
  | cons op pops ih =>
    cases op with
    | optimize ev ext iters nproc =>
      rw [callsP, Prog.run_bind, optimizeP_run, Prog.run_bind]
      obtain ⟨γ, env, h1, h2⟩ := C85_any_objective cfg (fun t x g => (ev t x).run rng g) rng ext
        iters nproc g s
      generalize optimizeG cfg (fun t x g => (ev t x).run rng g) rng ext iters nproc g s = out at h1
      obtain ⟨g1, o⟩ := out
      dsimp only at h1 ⊢
      subst h1
      obtain ⟨ops, h3, h4, h5⟩ := ih g1
        (optimize cfg (fun t x => ((ev t x).run rng (γ t)).2) iters nproc env s).1
      refine ⟨.optimize (fun t x => ((ev t x).run rng (γ t)).2) iters nproc env :: ops, ?_,
        .cons ⟨rfl, rfl, fun t x => yields_run rng hr _ _⟩ h4, ?_⟩
      · intro o ho
        rcases List.mem_cons.1 ho with rfl | ho
        · exact h2 hr
        · exact h3 o ho
      · rw [h5]
        rfl
    | reset =>
      rw [callsP, Prog.run_bind, resetP_run]
      have h1 : (resetG cfg rng g s).2 = reset cfg (initBatch cfg rng g) s := by
        unfold resetG reset
        rw [← (resetSwarmG_eq cfg rng g).1]
        generalize resetSwarmG cfg rng g = out
        obtain ⟨g1, e | sw⟩ := out <;> rfl
      rw [h1]
      obtain ⟨ops, h3, h4, h5⟩ := ih (resetG cfg rng g s).1 (reset cfg (initBatch cfg rng g) s).1
      refine ⟨.reset (initBatch cfg rng g) :: ops, ?_, .cons trivial h4, h5⟩
      intro o ho
      rcases List.mem_cons.1 ho with rfl | ho
      · exact initBatch_legal cfg rng hr g
      · exact h3 o ho

theorem constructG_free (cfg : Config n d K) (rng : Rng n d K G) (g : G) :
    (constructG cfg rng g).2 =
      construct cfg (initBatch cfg rng g) (initBatch cfg rng (resetSwarmG cfg rng g).1) := by
  unfold constructG construct
  split
  · rfl
  · cases checkFtolIter cfg.ftolIter with
    | error e => rfl
    | ok u =>
      dsimp only
      rw [← (resetSwarmG_eq cfg rng g).1, ← (resetSwarmG_eq cfg rng (resetSwarmG cfg rng g).1).1]
      generalize resetSwarmG cfg rng g = out
      obtain ⟨g1, e | sw⟩ := out
      · rfl
      · dsimp only
        generalize resetSwarmG cfg rng g1 = out
        obtain ⟨g2, e | sw⟩ := out <;> rfl

/-- What a thread gives: the exception of its constructor, or the optimizer and the results of its
calls of `optimize`. -/
abbrev Outcome (n d : Nat) (K : Type) :=
  Except Err (Opt n d K × List (Except Err (XR K × Vec d K)))

/-- A process whose threads are about to construct their optimizers and to call their methods; the
generator is in state `g`. -/
def Pool.start (cfg : (t : ι) → Config (N t) (D t) K) (ops : (t : ι) → List (OpP (N t) (D t) K))
    (g : G) : Pool ι N D (fun t => Outcome (N t) (D t) K) K G :=
  ⟨g, fun t => threadP (cfg t) (ops t)⟩

/-- The same outcome with free numbers in `[0, 1)`: the constructor raises, or it succeeds and the
calls, in the order of the thread and with answers its objectives can give, have these results. -/
def FreeOutcome (cfg : Config n d K) (pops : List (OpP n d K)) (out : Outcome n d K) : Prop :=
  ∃ r1 r2 : InitDraw n d K, r1.Legal ∧ r2.Legal ∧
    match construct cfg r1 r2 with
    | .error e => out = .error e
    | .ok s0 => ∃ ops : List (Op n d K), (∀ o ∈ ops, o.Legal) ∧ List.Forall₂ SameRequest pops ops ∧
        out = .ok (freeCalls cfg ops s0)

theorem threadP_free [IsStrictOrderedRing K] (cfg : Config n d K) (rng : Rng n d K G)
    (hr : rng.Legal) (pops : List (OpP n d K)) (g : G) :
    FreeOutcome cfg pops ((threadP cfg pops).run rng g).2 := by
  refine ⟨initBatch cfg rng g, initBatch cfg rng (resetSwarmG cfg rng g).1,
    initBatch_legal cfg rng hr _, initBatch_legal cfg rng hr _, ?_⟩
  rw [← constructG_free, threadP, Prog.run_bind, constructP_run]
  generalize constructG cfg rng g = out
  obtain ⟨g1, e | s0⟩ := out
  · rfl
  · dsimp only
    rw [Prog.run_bind]
    obtain ⟨ops, h1, h2, h3⟩ := callsP_free cfg rng hr pops g1 s0
    refine ⟨ops, h1, h2, ?_⟩
    rw [← h3]
    rfl

/-! ## Theorems -/

/-- C99 (every schedule): threads that share nothing but the global generator run in any
interleaving of their random draws.  When a thread has finished, its outcome is one of the model
with free numbers in `[0, 1)`: its constructor and calls, in its order, with answers its objectives
can give.  So every theorem about all such histories (bounds, clamp, bests, …) holds in every
thread, whatever the others do. -/
theorem C99_threads [IsStrictOrderedRing K] (rng : (t : ι) → Rng (N t) (D t) K G)
    (hr : ∀ t, (rng t).Legal) (cfg : (t : ι) → Config (N t) (D t) K)
    (pops : (t : ι) → List (OpP (N t) (D t) K)) (g : G) (sched : List ι) (t : ι)
    (out : Outcome (N t) (D t) K)
    (hs : ((Pool.start cfg pops g).run rng sched).prog t = .done out) :
    FreeOutcome (cfg t) (pops t) out := by
  obtain ⟨γ, h⟩ := Pool.run_turns rng sched (Pool.start cfg pops g) t _ hs
  rw [← h]
  exact threadP_free (cfg t) ((rng t).turns γ) (fun k => hr t (γ k)) (pops t) 0

/-- C99 (the states of the threads): in particular the optimizer of a finished thread is in a state
that it can reach without other threads, with legal numbers. -/
theorem C99_reachable [IsStrictOrderedRing K] (rng : (t : ι) → Rng (N t) (D t) K G)
    (hr : ∀ t, (rng t).Legal) (cfg : (t : ι) → Config (N t) (D t) K)
    (pops : (t : ι) → List (OpP (N t) (D t) K)) (g : G) (sched : List ι) (t : ι)
    (s : Opt (N t) (D t) K) (rs : List (Except Err (XR K × Vec (D t) K)))
    (hs : ((Pool.start cfg pops g).run rng sched).prog t = .done (.ok (s, rs))) :
    ReachableLegal (cfg t) s := by
  obtain ⟨r1, r2, h1, h2, h⟩ := C99_threads rng hr cfg pops g sched t _ hs
  cases hc : construct (cfg t) r1 r2 with
  | error e => rw [hc] at h; cases h
  | ok s0 =>
    rw [hc] at h
    obtain ⟨ops, h3, -, h4⟩ := h
    have : s = runOps (cfg t) s0 ops := by
      rw [← freeCalls_fst]
      exact congrArg Prod.fst (Except.ok.inj h4)
    exact ⟨r1, r2, s0, ops, h1, h2, h3, hc, this⟩

/-- C99 (progress): a thread that is served again and again finishes, whatever the others do: no
call waits for another thread. -/
theorem C99_finishes (rng : (t : ι) → Rng (N t) (D t) K G) (cfg : (t : ι) → Config (N t) (D t) K)
    (pops : (t : ι) → List (OpP (N t) (D t) K)) (g : G) (σ : Nat → ι) (t : ι)
    (hσ : ∀ m, ∃ k, m ≤ k ∧ σ k = t) :
    ∃ m out, ((Pool.start cfg pops g).run rng ((List.range m).map σ)).prog t = .done out :=
  Pool.finishes rng σ t hσ (Pool.start cfg pops g)

/-- C99 (one thread): if only thread `t` is served until it has finished, its outcome is that of the
sequential program (the model of C85) from the same state of the generator. -/
theorem C99_alone (rng : (t : ι) → Rng (N t) (D t) K G) (cfg : (t : ι) → Config (N t) (D t) K)
    (ev : (t : ι) → Nat → ObjP (N t) (D t) K) (ext : (t : ι) → Libs (N t) (D t) K)
    (iters : ι → Nat) (nproc : ι → Option Nat) (g : G) (t : ι) (m : Nat)
    (out : Outcome (N t) (D t) K)
    (hs : ((Pool.start cfg (fun t => [.optimize (ev t) (ext t) (iters t) (nproc t)]) g).run rng
      (List.replicate m t)).prog t = .done out) :
    out = match constructG (cfg t) (rng t) g with
      | (_, .error e) => .error e
      | (g1, .ok s0) =>
        let o := optimizeG (cfg t) (fun k x g => (ev t k x).run (rng t) g) (rng t) (ext t) (iters t)
          (nproc t) g1 s0
        .ok (o.2.1, [o.2.2]) := by
  have h := Pool.run_alone rng m _ t _ hs
  have h : _ = out := congrArg Prod.snd h
  rw [← h]
  show ((threadP (cfg t) [.optimize (ev t) (ext t) (iters t) (nproc t)]).run (rng t) g).2 = _
  rw [threadP, Prog.run_bind, constructP_run]
  generalize constructG (cfg t) (rng t) g = c
  obtain ⟨g1, e | s0⟩ := c
  · rfl
  · dsimp only
    rw [Prog.run_bind, callsP, Prog.run_bind, optimizeP_run]
    rfl

/-! ## Witnesses and examples -/

namespace Ex

/-- Two threads, each with a `GlobalBestPSO` of two particles in one dimension that runs for two
iterations on the sphere function. -/
def twoThreads : Pool Bool (fun _ => 2) (fun _ => 1) (fun _ => Outcome 2 1 ℚ) ℚ Nat :=
  Pool.start (fun _ => gcfg 2 1)
    (fun _ => [.optimize (fun i x => .done (sphere 2 1 i x)) (libs 2 1) 2 none]) 0

/-- One thread after the other. -/
def inTurn : List Bool := List.replicate 16 false ++ List.replicate 16 true

/-- The threads alternate. -/
def alternate : List Bool := (List.replicate 16 [false, true]).flatten

/-- What is tested of the outcomes: both threads are through, the call of `optimize` returned, and
where the first particle is. -/
def seen (P : Pool Bool (fun _ => 2) (fun _ => 1) (fun _ => Outcome 2 1 ℚ) ℚ Nat) (t : Bool) :
    Option (ℚ × List Bool) :=
  match P.prog t with
  | .done (.ok (s, rs)) => some (s.swarm.position 0 0, rs.map Except.isOk)
  | _ => none

theorem seen_done (P : Pool Bool (fun _ => 2) (fun _ => 1) (fun _ => Outcome 2 1 ℚ) ℚ Nat)
    (t : Bool) (q : ℚ × List Bool) (h : seen P t = some q) :
    ∃ s rs, P.prog t = .done (.ok (s, rs)) ∧ s.swarm.position 0 0 = q.1 ∧
      rs.map Except.isOk = q.2 := by
  unfold seen at h
  split at h
  · rename_i s rs hp
    cases h
    exact ⟨s, rs, hp, rfl, rfl⟩
  · cases h

end Ex

/-- C99: the seed does not fix the runs of several threads.  The same two programs from the same
state of the generator, scheduled in two ways; both threads finish and return each time, but with
other positions. -/
theorem C99_order : ∃ s rs s' rs',
    (Ex.twoThreads.run (fun _ => Ex.counter 2 1) Ex.inTurn).prog true = .done (.ok (s, rs)) ∧
    (Ex.twoThreads.run (fun _ => Ex.counter 2 1) Ex.alternate).prog true = .done (.ok (s', rs')) ∧
    (∀ r ∈ rs ++ rs', r.isOk = true) ∧ rs.length = 1 ∧ rs'.length = 1 ∧
    s.swarm.position 0 0 ≠ s'.swarm.position 0 0 := by
  obtain ⟨s, rs, h1, h2, h3⟩ := Ex.seen_done
    (Ex.twoThreads.run (fun _ => Ex.counter 2 1) Ex.inTurn) true (1 / 3, [true]) (by decide +kernel)
  obtain ⟨s', rs', h1', h2', h3'⟩ := Ex.seen_done
    (Ex.twoThreads.run (fun _ => Ex.counter 2 1) Ex.alternate) true (223 / 192, [true])
    (by decide +kernel)
  refine ⟨s, rs, s', rs', h1, h1', ?_, ?_, ?_, ?_⟩
  · intro r hr
    rcases List.mem_append.1 hr with hr | hr
    · have := List.mem_map_of_mem (f := Except.isOk) hr
      rw [h3] at this
      simpa using this
    · have := List.mem_map_of_mem (f := Except.isOk) hr
      rw [h3'] at this
      simpa using this
  · simpa using congrArg List.length h3
  · simpa using congrArg List.length h3'
  · rw [h2, h2']
    norm_num

/-- Non-vacuity of `C99_threads` and `C99_reachable`: two alternating threads, legal numbers, and the
second thread is through with one result. -/
example : (∀ _ : Bool, (Ex.counter 2 1).Legal) ∧ ∃ s rs,
    (Ex.twoThreads.run (fun _ => Ex.counter 2 1) Ex.alternate).prog true = .done (.ok (s, rs)) ∧
    ReachableLegal (Ex.gcfg 2 1) s := by
  refine ⟨fun _ => Ex.counter_legal 2 1, ?_⟩
  obtain ⟨s, rs, h, -⟩ := Ex.seen_done
    (Ex.twoThreads.run (fun _ => Ex.counter 2 1) Ex.alternate) true (223 / 192, [true])
    (by decide +kernel)
  exact ⟨s, rs, h, C99_reachable (fun _ => Ex.counter 2 1) (fun _ => Ex.counter_legal 2 1)
    (fun _ => Ex.gcfg 2 1)
    (fun _ => [.optimize (fun i x => .done (Ex.sphere 2 1 i x)) (Ex.libs 2 1) 2 none]) 0
    Ex.alternate true s rs h⟩

/-- Non-vacuity of `C99_finishes`: alternating for ever serves both threads. -/
example : ∃ m out, (Ex.twoThreads.run (fun _ => Ex.counter 2 1)
    ((List.range m).map fun k => decide (k % 2 = 1))).prog true = .done out :=
  C99_finishes (fun _ => Ex.counter 2 1) _ _ 0 _ true
    fun m => ⟨2 * m + 1, by omega, by simp⟩

/-- Non-vacuity of `C99_alone`: sixteen turns are enough for the second thread. -/
example : ∃ out, (Ex.twoThreads.run (fun _ => Ex.counter 2 1) (List.replicate 16 true)).prog true
    = .done (.ok out) := by
  obtain ⟨s, rs, h, -⟩ := Ex.seen_done
    (Ex.twoThreads.run (fun _ => Ex.counter 2 1) (List.replicate 16 true)) true (1 / 3, [true])
    (by decide +kernel)
  exact ⟨(s, rs), h⟩

end PySwarms
