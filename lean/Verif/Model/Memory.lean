import Verif.Model.Objective

/-!
# Objectives with a memory of their own

An objective may keep something between its calls: a counter, a budget, a cache, the best point it
has seen.  The definitions repeat the evaluation and the loop of `optimize` with this memory.

The memory is kept either in a module (a global variable) or in the object whose method is the
objective (an attribute).  With `n_processes` every worker process has its own copy of the module's
memory, made when the pool is created; the object is pickled and sent along with every task, so
every task sees a copy of what the calling process has, and what the task changes is lost.
Simplification: a task is executed at once; tasks of different workers do not interact, so only the
order in which the tasks of each worker run, and the order in which they complete, matter.
-/

namespace PySwarms.Memo

variable {n d : Nat} {K M σ : Type}

/-- The objective: from its memory and the positions to the new memory and the costs, or an
exception (operators.py:239). -/
abbrev MObj (M : Type) (d : Nat) (K : Type) := M → List (Vec d K) → M × Except Err (List (XR K))

/-- Where the objective keeps its memory (operators.py:242: the function is pickled, by name if it
belongs to a module, with its object if it is a method). -/
inductive Home
  | inModule
  | inObject

/-- The memory of the process that called `optimize` and of the worker processes
(operators.py:238-244). -/
structure Mems (M : Type) where
  parent : M
  workers : Nat → M

/-- The workers are created (global_best.py:202, local_best.py:226, general_optimizer.py:240,
binary.py:189): copies of the calling process (`fresh = none`, start method fork) or new processes
that import the module again (`fresh = some m`, start method spawn). -/
def Mems.newPool (fresh : Option M) (ms : Mems M) : Mems M :=
  { ms with workers := fun _ => fresh.getD ms.parent }

/-- Worker `kw.2` runs task `kw.1` (operators.py:241-244). -/
def runTask (f : MObj M d K) (home : Home) (tasks : List (List (Vec d K)))
    (a : Mems M × MapResult (List (XR K))) (kw : Nat × Nat) : Mems M × MapResult (List (XR K)) :=
  match tasks[kw.1]? with
  | none => a
  | some c =>
    match home with
    | .inModule =>
      let r := f (a.1.workers kw.2) c
      ({ a.1 with workers := fun j => if j = kw.2 then r.1 else a.1.workers j },
        a.2.arrive (fun _ => r.2) tasks kw.1)
    | .inObject => (a.1, a.2.arrive (fun _ => (f a.1.parent c).2) tasks kw.1)

/-- `pool.map(f, tasks)`; `sched` lists the tasks with their workers in the order in which they
complete (operators.py:241-244). -/
def poolMapM (f : MObj M d K) (home : Home) (tasks : List (List (Vec d K)))
    (sched : List (Nat × Nat)) (ms : Mems M) : Mems M × Except Err (List (List (XR K))) :=
  let a := sched.foldl (runTask f home tasks) (ms, {})
  (a.1, match a.2.failure with
    | some e => .error e
    | none =>
      match (List.range tasks.length).mapM a.2.slots with
      | some l => .ok l
      | none => .error .diverges)

/-- `compute_objective_function` (operators.py:213-245). -/
def computeObjectiveM (f : MObj M d K) (home : Home) (pool : Option (Nat × List (Nat × Nat)))
    (x : List (Vec d K)) (ms : Mems M) : Mems M × Except Err (List (XR K)) :=
  match pool with
  | none => ({ ms with parent := (f ms.parent x).1 }, (f ms.parent x).2)
  | some (p, sched) =>
    match poolMapM f home (arraySplit x p) sched ms with
    | (ms', .error e) => (ms', .error e)
    | (ms', .ok results) => (ms', .ok results.flatten)

/-- The evaluation step of the optimizers (global_best.py:209, local_best.py:231,
general_optimizer.py:247, binary.py:194). -/
def evaluatorM (f : MObj M d K) (home : Home) (pool : Nat → Option (Nat × List (Nat × Nat)))
    (k : Nat) (x : Mat n d K) (ms : Mems M) : Mems M × Except Err (Costs n K) :=
  match computeObjectiveM f home (pool k) (rowsOf x) ms with
  | (ms', .error e) => (ms', .error e)
  | (ms', .ok l) => (ms', toCosts l)

section
variable [Field K] [LinearOrder K] [Transc K] [FloorRing K]

/-- One iteration (global_best.py:207-248, local_best.py:231-276, general_optimizer.py:245-288,
binary.py:194-234). -/
def iterateM (cfg : Config n d K) (ev : Mat n d K → σ → σ × Except Err (Costs n K))
    (r : Draw n d K) (iters i : Nat) (q : List Bool) (m : σ) (s : Opt n d K) :
    σ × Opt n d K × Except Err Flow :=
  match ev s.swarm.position m with
  | (m', .error e) => (m', s, .error e)
  | (m', .ok c) =>
    let s1 := recordEval c s
    let yet := s1.swarm.bestCostVal
    match callGbest cfg r.oracle s1.top s1.swarm with
    | (t, .error e) => (m', { s1 with top := t }, .error e)
    | (t, .ok g) =>
      let s2 := recordBest t g s1
      let q' := dequeAppend cfg.window q (ftolDelta cfg.ftol s2.swarm.bestCostVal yet)
      if decide (¬ i < cfg.window) && q'.all id then (m', s2, .ok .stop)
      else match moveSwarm cfg r iters i s2 with
        | (s3, .error e) => (m', s3, .error e)
        | (s3, .ok ()) => (m', s3, .ok (.continue q'))

/-- The loop (global_best.py:206, local_best.py:230, general_optimizer.py:244, binary.py:193). -/
def loopM (cfg : Config n d K) (ev : Nat → Mat n d K → σ → σ × Except Err (Costs n K))
    (env : Nat → Draw n d K) (iters : Nat) :
    (k i : Nat) → List Bool → σ → Opt n d K → σ × Opt n d K × Except Err Unit
  | 0, _, _, m, s => (m, s, .ok ())
  | k + 1, i, q, m, s =>
    match iterateM cfg (ev i) (env i) iters i q m s with
    | (m', s', .error e) => (m', s', .error e)
    | (m', s', .ok .stop) => (m', s', .ok ())
    | (m', s', .ok (.continue q')) => loopM cfg ev env iters k (i + 1) q' m' s'

/-- `optimize(objective_func, iters, n_processes)` (global_best.py:159-264, local_best.py:183-292,
general_optimizer.py:197-304, binary.py:146-250); `newPool` is what the creation of the pool does
to the memories. -/
def optimizeM (cfg : Config n d K) (ev : Nat → Mat n d K → σ → σ × Except Err (Costs n K))
    (newPool : σ → σ) (iters : Nat) (nproc : Option Nat) (env : Nat → Draw n d K) (m : σ)
    (s : Opt n d K) : σ × Opt n d K × Except Err (XR K × Vec d K) :=
  if nproc = some 0 then
    (m, { s with bhMem := (prepare cfg s).bhMem, vhMem := (prepare cfg s).vhMem },
      .error .valueError)
  else
    let s0 := { prepare cfg s with
      openPools := s.openPools + (if nproc.isSome then 1 else 0) }
    let m0 := if nproc.isSome then newPool m else m
    match loopM cfg ev env iters iters 0 [] m0 s0 with
    | (m1, s1, .error e) => (m1, s1, .error e)
    | (m1, s1, .ok ()) =>
      match finish s1 with
      | .error e => (m1, s1, .error e)
      | .ok r => (m1, { s1 with openPools := s1.openPools - (if nproc.isSome then 1 else 0) }, .ok r)

/-- `optimize` with an objective that has a memory: without `n_processes`, or with `p` processes
whose tasks run as `sched` says in each iteration (global_best.py:159-264 and its copies). -/
def run (cfg : Config n d K) (f : MObj M d K) (home : Home) (fresh : Option M) (iters : Nat)
    (pool : Option (Nat × (Nat → List (Nat × Nat)))) (env : Nat → Draw n d K) (ms : Mems M)
    (s : Opt n d K) : Mems M × Opt n d K × Except Err (XR K × Vec d K) :=
  optimizeM cfg (evaluatorM f home fun k => pool.map fun a => (a.1, a.2 k)) (Mems.newPool fresh)
    iters (pool.map Prod.fst) env ms s

end

end PySwarms.Memo
