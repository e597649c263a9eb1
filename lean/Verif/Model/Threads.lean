import Verif.Model.Rng

/-!
# Optimizers in several threads

`np.random` is one generator for the whole process.  When several threads run optimizers at the same
time, the numbers it produces are dealt out in the order in which the threads ask for them.  This
file models the methods of `Model/Rng.lean` as programs that ask for one random value at a time and
can be suspended in between, and pools of such programs under an arbitrary schedule.

Simplifications: the threads share nothing but the generator (no topology object, options dictionary
or array; see C93, C96 and C97 for those).  NumPy holds a lock while it fills an array, so the real
interleavings are among the modelled ones.  The library answers (`Libs`) are functions.
-/

namespace PySwarms

/-- A program that asks the generator for values: finished, or waiting for the next double, the next
matrix of bits or the next choice (`np.random`, generators.py:70-83, 135-139, 172; operators.py:134,
139; random.py:219). -/
inductive Prog (n d : Nat) (K α : Type)
  | done (a : α)
  | real (k : K → Prog n d K α)
  | bits (k : (Fin n → Fin d → Bool) → Prog n d K α)
  | choice (m : Nat) (i : Fin n) (k : List (Fin n) → Prog n d K α)

variable {n d : Nat} {K G α β : Type}

/-- Sequential composition (generators.py:70-83). -/
def Prog.bind : Prog n d K α → (α → Prog n d K β) → Prog n d K β
  | .done a, f => f a
  | .real k, f => .real fun x => (k x).bind f
  | .bits k, f => .bits fun x => (k x).bind f
  | .choice m i k, f => .choice m i fun x => (k x).bind f

/-- The program run without interruption by other threads (generators.py:70-83). -/
def Prog.run (rng : Rng n d K G) : Prog n d K α → G → G × α
  | .done a, g => (g, a)
  | .real k, g => (k (rng.real g).1).run rng (rng.real g).2
  | .bits k, g => (k (rng.bits g).1).run rng (rng.bits g).2
  | .choice m i k, g => (k (rng.choice m i g).1).run rng (rng.choice m i g).2

/-- The program gets its next value (generators.py:70-83). -/
def Prog.next (rng : Rng n d K G) : Prog n d K α → G → G × Prog n d K α
  | .done a, g => (g, .done a)
  | .real k, g => ((rng.real g).2, k (rng.real g).1)
  | .bits k, g => ((rng.bits g).2, k (rng.bits g).1)
  | .choice m i k, g => ((rng.choice m i g).2, k (rng.choice m i g).1)

/-! ## The methods as programs -/

/-- `[next(0), next(1), …, next(m - 1)]` (generators.py:70, 81, 172). -/
def famP {α : Type} : (m : Nat) → (Fin m → Prog n d K α) → Prog n d K (Fin m → α)
  | 0, _ => .done fun i => i.elim0
  | m + 1, next => (next 0).bind fun a =>
    (famP m fun i => next i.succ).bind fun f => .done (Fin.cons a f)

/-- `np.random.random_sample((d,))` (handlers.py:300, 307; binary.py:265). -/
def vecP : Prog n d K (Vec d K) := famP d fun _ => .real .done

/-- `np.random.random_sample((n, d))` (generators.py:70, 81, 172; operators.py:134, 139). -/
def matP : Prog n d K (Mat n d K) := famP n fun _ => vecP

section
variable [Field K] [LinearOrder K]

/-- `create_swarm` as called by `reset` (generators.py:187-245, 24-93, 96-184;
base_single.py:203-212, base_discrete.py:205-214). -/
def resetSwarmP (cfg : Config n d K) : Prog n d K (Except Err (Swarm n d K)) :=
  let pos : Prog n d K (Except Err (Mat n d K)) :=
    if cfg.isBinary then
      match cfg.initPos with
      | some p => .done (generateDiscreteSwarm true (some p) (fun _ _ => false) (fun _ j => j))
      | none => .bits fun u => .done (generateDiscreteSwarm true none u (fun _ j => j))
    else
      match cfg.initPos with
      | some p => .done (generateSwarm cfg.bounds cfg.center (some p) (fun _ _ => 0))
      | none => matP.bind fun u => .done (generateSwarm cfg.bounds cfg.center none u)
  pos.bind fun
    | .error e => .done (.error e)
    | .ok p => matP.bind fun u =>
      .done (.ok (mkSwarm p (generateVelocity cfg.clamp u) cfg.options))

/-- `reset` (base_single.py:173-212, base_discrete.py:175-214). -/
def resetP (cfg : Config n d K) (s : Opt n d K) : Prog n d K (Opt n d K × Except Err Unit) :=
  let s0 := { s with
    costHistory := [], meanPbestHistory := [], meanNeighborHistory := []
    posHistory := [], velocityHistory := [] }
  (resetSwarmP cfg).bind fun
    | .error e => .done (s0, .error e)
    | .ok sw => .done ({ s0 with swarm := sw, evals := [] }, .ok ())

/-- The constructors (global_best.py:134-157, local_best.py:154-181, general_optimizer.py:170-195,
binary.py:124-144). -/
def constructP (cfg : Config n d K) : Prog n d K (Except Err (Opt n d K)) :=
  if cfg.kind.needsKP && (cfg.args.k.isNone || cfg.args.p.isNone) then .done (.error .keyError)
  else match checkFtolIter cfg.ftolIter with
    | .error e => .done (.error e)
    | .ok () => (resetSwarmP cfg).bind fun
      | .error e => .done (.error e)
      | .ok _ => (resetSwarmP cfg).bind fun
        | .error e => .done (.error e)
        | .ok sw => .done (.ok { swarm := sw })

/-- `self.top.compute_gbest(...)` (global_best.py:213, local_best.py:239-242,
general_optimizer.py:252-254, binary.py:202-205; random.py:217-227). -/
def callGbestP (cfg : Config n d K) (ext : Libs n d K) (t : TopState n) (s : Swarm n d K) :
    Prog n d K (TopState n × Except Err (GBest n d K)) :=
  match drawsChoices cfg t.neighbor.isNone with
  | some k => (famP n fun i => .choice k i .done).bind fun c =>
    .done (callGbest cfg ⟨ext.knn, ext.delaunay, fun _ => c⟩ t s)
  | none => .done (callGbest cfg ⟨ext.knn, ext.delaunay, fun _ _ => []⟩ t s)

/-- `compute_velocity` (operators.py:126-143). -/
def computeVelocityP (cfg : Config n d K) (s : Swarm n d K) (mem : Option (Mat n d K))
    (bounds : Option (Bounds d K)) : Prog n d K (Option (Mat n d K) × Except Err (Mat n d K)) :=
  match s.options.lookup "c1", s.options.lookup "c2", s.options.lookup "w" with
  | some _, some _, some _ => matP.bind fun r1 => matP.bind fun r2 =>
    .done (computeVelocity s cfg.clamp cfg.vhStrategy mem bounds r1 r2)
  | _, _, _ => .done (mem, .error .keyError)

variable [Transc K] [FloorRing K]

/-- The position update (binary.py:264-267; handlers.py:297-310; operators.py:191-208). -/
def callPositionP (cfg : Config n d K) (ext : Libs n d K) (mem : Option (Mat n d K))
    (s : Swarm n d K) : Prog n d K (Option (Mat n d K) × Except Err (Mat n d K)) :=
  match cfg.kind with
  | .binary => vecP.bind fun u => .done (mem, .ok (binaryPosition u s.velocity))
  | _ =>
    if cfg.bounds.isSome && decide (cfg.bhStrategy = "random") then
      vecP.bind fun u => vecP.bind fun l =>
        .done (computePosition s cfg.bounds cfg.bhStrategy mem ⟨u, l, ext.passes⟩)
    else
      .done (computePosition s cfg.bounds cfg.bhStrategy mem ⟨fun _ => 0, fun _ => 0, ext.passes⟩)

/-- The second half of the loop body (global_best.py:238-248, local_best.py:266-276,
general_optimizer.py:278-288, binary.py:230-234). -/
def moveSwarmP (cfg : Config n d K) (ext : Libs n d K) (iters i : Nat) (s : Opt n d K) :
    Prog n d K (Opt n d K × Except Err Unit) :=
  match callOptionsG cfg iters i s.swarm with
  | .error e => .done (s, .error e)
  | .ok o =>
    let s1 := { s with swarm := { s.swarm with options := o } }
    (computeVelocityP cfg s1.swarm s1.vhMem (velBounds cfg)).bind fun
      | (vm, .error e) => .done ({ s1 with vhMem := vm }, .error e)
      | (vm, .ok v) =>
        let s2 := { s1 with vhMem := vm, swarm := { s1.swarm with velocity := v } }
        (callPositionP cfg ext s2.bhMem s2.swarm).bind fun
          | (bm, .error e) => .done ({ s2 with bhMem := bm }, .error e)
          | (bm, .ok p) =>
            .done ({ s2 with bhMem := bm, swarm := { s2.swarm with position := p } }, .ok ())

/-- An objective, as seen by one iteration: it may itself ask the generator for values
(operators.py:239). -/
abbrev ObjP (n d : Nat) (K : Type) := Mat n d K → Prog n d K (Except Err (Costs n K))

/-- One iteration of `optimize` (global_best.py:207-248, local_best.py:231-276,
general_optimizer.py:245-288, binary.py:194-234). -/
def iterateP (cfg : Config n d K) (ev : ObjP n d K) (ext : Libs n d K) (iters i : Nat)
    (q : List Bool) (s : Opt n d K) : Prog n d K (Opt n d K × Except Err Flow) :=
  (ev s.swarm.position).bind fun
    | .error e => .done (s, .error e)
    | .ok c =>
      let s1 := recordEval c s
      let yet := s1.swarm.bestCostVal
      (callGbestP cfg ext s1.top s1.swarm).bind fun
        | (t, .error e) => .done ({ s1 with top := t }, .error e)
        | (t, .ok b) =>
          let s2 := recordBest t b s1
          let q' := dequeAppend cfg.window q (ftolDelta cfg.ftol s2.swarm.bestCostVal yet)
          if decide (¬ i < cfg.window) && q'.all id then .done (s2, .ok .stop)
          else (moveSwarmP cfg ext iters i s2).bind fun
            | (s3, .error e) => .done (s3, .error e)
            | (s3, .ok ()) => .done (s3, .ok (.continue q'))

/-- The `for i in range(iters)` loop (global_best.py:206, local_best.py:230,
general_optimizer.py:244, binary.py:193). -/
def loopP (cfg : Config n d K) (ev : Nat → ObjP n d K) (ext : Libs n d K) (iters : Nat) :
    (m i : Nat) → List Bool → Opt n d K → Prog n d K (Opt n d K × Except Err Unit)
  | 0, _, _, s => .done (s, .ok ())
  | m + 1, i, q, s => (iterateP cfg (ev i) ext iters i q s).bind fun
    | (s', .error e) => .done (s', .error e)
    | (s', .ok .stop) => .done (s', .ok ())
    | (s', .ok (.continue q')) => loopP cfg ev ext iters m (i + 1) q' s'

/-- `optimize(objective_func, iters, n_processes)` (global_best.py:159-264, local_best.py:183-292,
general_optimizer.py:197-304, binary.py:146-250). -/
def optimizeP (cfg : Config n d K) (ev : Nat → ObjP n d K) (ext : Libs n d K) (iters : Nat)
    (nproc : Option Nat) (s : Opt n d K) :
    Prog n d K (Opt n d K × Except Err (XR K × Vec d K)) :=
  if nproc = some 0 then
    .done ({ s with bhMem := (prepare cfg s).bhMem, vhMem := (prepare cfg s).vhMem },
      .error .valueError)
  else
    let s0 := { prepare cfg s with
      openPools := s.openPools + (if nproc.isSome then 1 else 0) }
    (loopP cfg ev ext iters iters 0 [] s0).bind fun
      | (s1, .error e) => .done (s1, .error e)
      | (s1, .ok ()) =>
        match finish s1 with
        | .error e => .done (s1, .error e)
        | .ok r =>
          .done ({ s1 with openPools := s1.openPools - (if nproc.isSome then 1 else 0) }, .ok r)

/-- An API call in a thread (base_single.py:147, 173). -/
inductive OpP (n d : Nat) (K : Type)
  | optimize (ev : Nat → ObjP n d K) (ext : Libs n d K) (iters : Nat) (nproc : Option Nat)
  | reset

/-- A sequence of API calls, and what the calls of `optimize` return or raise (base_single.py:147,
173). -/
def callsP (cfg : Config n d K) : List (OpP n d K) → Opt n d K →
    Prog n d K (Opt n d K × List (Except Err (XR K × Vec d K)))
  | [], s => .done (s, [])
  | .optimize ev ext iters nproc :: ops, s =>
    (optimizeP cfg ev ext iters nproc s).bind fun o =>
      (callsP cfg ops o.1).bind fun r => .done (r.1, o.2 :: r.2)
  | .reset :: ops, s => (resetP cfg s).bind fun o => callsP cfg ops o.1

/-- What a thread does: it constructs an optimizer and calls its methods (base_single.py:147,
173). -/
def threadP (cfg : Config n d K) (ops : List (OpP n d K)) :
    Prog n d K (Except Err (Opt n d K × List (Except Err (XR K × Vec d K)))) :=
  (constructP cfg).bind fun
    | .error e => .done (.error e)
    | .ok s => (callsP cfg ops s).bind fun r => .done (.ok r)

end

/-! ## Pools of threads -/

/-- The threads of a process, each with its own program, and the state of the global generator
(`np.random`, generators.py:70). -/
structure Pool (ι : Type) (n d : ι → Nat) (α : ι → Type) (K G : Type) where
  gen : G
  prog : (t : ι) → Prog (n t) (d t) K (α t)

variable {ι : Type} [DecidableEq ι] {N D : ι → Nat} {A : ι → Type}

/-- Thread `t` gets the next value it waits for (`np.random`, generators.py:70). -/
def Pool.step (rng : (t : ι) → Rng (N t) (D t) K G) (P : Pool ι N D A K G) (t : ι) :
    Pool ι N D A K G where
  gen := ((P.prog t).next (rng t) P.gen).1
  prog := Function.update P.prog t ((P.prog t).next (rng t) P.gen).2

/-- The pool after a schedule: the threads in the order in which they are served (`np.random`,
generators.py:70). -/
def Pool.run (rng : (t : ι) → Rng (N t) (D t) K G) (P : Pool ι N D A K G) (sched : List ι) :
    Pool ι N D A K G :=
  sched.foldl (Pool.step rng) P

end PySwarms
