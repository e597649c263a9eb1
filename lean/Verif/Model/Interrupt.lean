import Verif.Model.Optimizer

/-! Model of an interrupted run: `KeyboardInterrupt` (or any other exception raised between two
byte codes, e.g. by a signal handler or a timeout) can strike `optimize` and `reset` anywhere.  What
it leaves behind is determined by the attribute assignments executed so far, so this file lists, for
every call, the states of the optimizer object after each single assignment, in program order.  A
tuple assignment `a.x, a.y = …` is two assignments, left to right.

Simplifications: the computation of a right-hand side is not interrupted visibly (no function of the
backend writes into an array that the object already holds, C49), and the interrupted evaluation
itself is not recorded in the ghost log `evals`, which grows when `current_cost` is assigned. -/

namespace PySwarms

variable {n d : Nat} {K : Type} [Field K] [LinearOrder K]

/-- `self.swarm.current_cost = …`, `self.swarm.pbest_pos = …`, `self.swarm.pbest_cost = …`
(global_best.py:209-210, local_best.py:232-237, general_optimizer.py:247-248, binary.py:195-200). -/
def evalStates (c : Costs n K) (s : Opt n d K) : List (Opt n d K) :=
  let s1 := { s with
    swarm := { s.swarm with currentCost := c }
    evals := s.evals ++ [(s.swarm.position, c)] }
  let pb := computePbest s1.swarm
  let s2 := { s1 with swarm := { s1.swarm with pbestPos := pb.1 } }
  let s3 := { s2 with swarm := { s2.swarm with pbestCost := pb.2 } }
  [s1, s2, s3]

/-- What `Ring.compute_gbest` stores in `neighbor_idx` before the `[:, np.newaxis]` of `k = 1`
(ring.py:65-75). -/
def ringStores (static : Bool) (k p : Nat) (o : Oracle n d K) (t : TopState n) (s : Swarm n d K) :
    List (TopState n) :=
  if k = 1 && ((static && t.neighbor.isNone) || !static) then
    match ringQuery k p o s.position with
    | .error _ => []
    | .ok t1 => [t1]
  else []

/-- What `compute_gbest` stores in `neighbor_idx` before its last assignment to it (ring.py:65-75,
von_neumann.py:46-51; the other topologies assign it at most once). -/
def earlyStores (cfg : Config n d K) (o : Oracle n d K) (t : TopState n) (s : Swarm n d K) :
    List (TopState n) :=
  match cfg.kind with
  | .globalBest => []
  | .localBest st =>
    match cfg.args.k, cfg.args.p with
    | some k, some p => ringStores st k p o t s
    | _, _ => []
  | .general (.ring st) =>
    match cfg.args.k, cfg.args.p with
    | some k, some p => ringStores st k p o t s
    | _, _ => []
  | .general .vonNeumann =>
    match cfg.args.p, cfg.args.r with
    | some p, some r => ringStores true (delannoy d r) p o t s
    | _, _ => []
  | .general _ => []
  | .binary =>
    match cfg.args.k, cfg.args.p with
    | some k, some p => ringStores false k p o t s
    | _, _ => []

/-- `self.swarm.best_pos = …`, `self.swarm.best_cost = …` and the five `append`s of
`_populate_history` (global_best.py:213-225, local_best.py:239-253, general_optimizer.py:251-265,
binary.py:203-217; base_single.py:140-144, base_discrete.py:142-146). -/
def bestStates (g : GBest n d K) (s : Opt n d K) : List (Opt n d K) :=
  let s1 := { s with swarm := { s.swarm with bestPos := g.1 } }
  let s2 := { s1 with swarm := { s1.swarm with bestCost := g.2 } }
  let s3 := { s2 with costHistory := s2.costHistory ++ [s2.swarm.bestCostVal] }
  let s4 := { s3 with meanPbestHistory := s3.meanPbestHistory ++ [npMean s2.swarm.pbestCost] }
  let s5 := { s4 with meanNeighborHistory := s4.meanNeighborHistory ++ [s2.swarm.bestCostVal] }
  let s6 := { s5 with posHistory := s5.posHistory ++ [s2.swarm.position] }
  let s7 := { s6 with velocityHistory := s6.velocityHistory ++ [s2.swarm.velocity] }
  [s1, s2, s3, s4, s5, s6, s7]

variable [Transc K] [FloorRing K]

/-- The assignments of the second half of the loop body: `self.swarm.options`, `self.vh.memory`
(inside `compute_velocity`), `self.swarm.velocity`, `self.bh.memory` (inside `compute_position`),
`self.swarm.position` (global_best.py:238-248, local_best.py:266-276, general_optimizer.py:278-288,
binary.py:230-234; handlers.py:251, 282, 333, 346, 487, 490). -/
def moveStates (cfg : Config n d K) (r : Draw n d K) (iters i : Nat) (s : Opt n d K) :
    List (Opt n d K) :=
  match callOptions cfg iters i r s.swarm with
  | .error _ => []
  | .ok o =>
    let s1 := { s with swarm := { s.swarm with options := o } }
    s1 :: match computeVelocity s1.swarm cfg.clamp cfg.vhStrategy s1.vhMem (velBounds cfg)
        r.r1 r.r2 with
    | (vm, .error _) => [{ s1 with vhMem := vm }]
    | (vm, .ok v) =>
      let s2 := { s1 with vhMem := vm }
      let s3 := { s2 with swarm := { s2.swarm with velocity := v } }
      s2 :: s3 :: match callPosition cfg r s3.bhMem s3.swarm with
      | (bm, .error _) => [{ s3 with bhMem := bm }]
      | (bm, .ok p) =>
        let s4 := { s3 with bhMem := bm }
        [s4, { s4 with swarm := { s4.swarm with position := p } }]

/-- All assignments of one iteration (global_best.py:207-248, local_best.py:231-276,
general_optimizer.py:245-288, binary.py:194-234). -/
def iterateStates (cfg : Config n d K) (ev : Mat n d K → Except Err (Costs n K)) (r : Draw n d K)
    (iters i : Nat) (q : List Bool) (s : Opt n d K) : List (Opt n d K) :=
  match ev s.swarm.position with
  | .error _ => []
  | .ok c =>
    let s1 := recordEval c s
    evalStates c s ++
    (earlyStores cfg r.oracle s1.top s1.swarm).map (fun t => { s1 with top := t }) ++
    match callGbest cfg r.oracle s1.top s1.swarm with
    | (t, .error _) => [{ s1 with top := t }]
    | (t, .ok g) =>
      let s2 := recordBest t g s1
      { s1 with top := t } :: bestStates g { s1 with top := t } ++
      if decide (¬ i < cfg.window) && (dequeAppend cfg.window q
          (ftolDelta cfg.ftol s2.swarm.bestCostVal s1.swarm.bestCostVal)).all id then []
      else moveStates cfg r iters i s2

/-- All assignments of the `for` loop (global_best.py:206, local_best.py:230,
general_optimizer.py:244, binary.py:193). -/
def loopStates (cfg : Config n d K) (ev : Nat → Mat n d K → Except Err (Costs n K))
    (env : Nat → Draw n d K) (iters : Nat) :
    (m i : Nat) → List Bool → Opt n d K → List (Opt n d K)
  | 0, _, _, _ => []
  | m + 1, i, q, s =>
    iterateStates cfg (ev i) (env i) iters i q s ++
    match iterate cfg (ev i) (env i) iters i q s with
    | (_, .error _) => []
    | (_, .ok .stop) => []
    | (s', .ok (.continue q')) => loopStates cfg ev env iters m (i + 1) q' s'

/-- All states of the object during a call of `optimize`, from the one in which it is called to the
one it leaves behind: the handler memories, the pool, `pbest_cost`, the loop, and `pool.close()`
(global_best.py:159-264, local_best.py:183-292, general_optimizer.py:197-304, binary.py:146-250;
`BinaryPSO` has no boundary handler). -/
def optimizeStates (cfg : Config n d K) (ev : Nat → Mat n d K → Except Err (Costs n K))
    (iters : Nat) (nproc : Option Nat) (env : Nat → Draw n d K) (s : Opt n d K) :
    List (Opt n d K) :=
  let s1 := { s with bhMem := (prepare cfg s).bhMem }
  let s2 := { s1 with vhMem := (prepare cfg s).vhMem }
  if nproc = some 0 then [s, s1, s2]
  else
    let s3 := { s2 with openPools := s2.openPools + (if nproc.isSome then 1 else 0) }
    let s4 := { s3 with swarm := { s3.swarm with pbestCost := fun _ => XR.pinf } }
    [s, s1, s2, s3, s4] ++ loopStates cfg ev env iters iters 0 [] s4 ++
    match loop cfg ev env iters iters 0 [] s4 with
    | (_, .error _) => []
    | (s5, .ok ()) =>
      match finish s5 with
      | .error _ => []
      | .ok _ => [{ s5 with openPools := s5.openPools - (if nproc.isSome then 1 else 0) }]

/-- All states of the object during a call of `reset`: the five lists are replaced one by one, then
the swarm (base_single.py:197-212, base_discrete.py:199-214). -/
def resetStates (cfg : Config n d K) (r : InitDraw n d K) (s : Opt n d K) : List (Opt n d K) :=
  let s1 := { s with costHistory := [] }
  let s2 := { s1 with meanPbestHistory := [] }
  let s3 := { s2 with meanNeighborHistory := [] }
  let s4 := { s3 with posHistory := [] }
  let s5 := { s4 with velocityHistory := [] }
  [s, s1, s2, s3, s4, s5] ++
  match resetSwarm cfg r with
  | .error _ => []
  | .ok sw => [{ s5 with swarm := sw, evals := [] }]

/-- All states of the object during an API call (base_single.py:147, 173). -/
def opStates (cfg : Config n d K) (s : Opt n d K) : Op n d K → List (Opt n d K)
  | .optimize ev iters nproc env => optimizeStates cfg ev iters nproc env s
  | .reset r => resetStates cfg r s

/-- An API call that runs to its end (normally or with an exception of its own), or one that is
interrupted after `j` of its assignments (base_single.py:147, 173). -/
inductive Event (n d : Nat) (K : Type)
  | call (op : Op n d K)
  | cut (op : Op n d K) (j : Nat)

/-- The API call of an event (base_single.py:147, 173). -/
def Event.op : Event n d K → Op n d K
  | .call op => op
  | .cut op _ => op

/-- Effect of an event.  An interrupt that comes after the last assignment finds the call completed
(base_single.py:147, 173). -/
def stepEvent (cfg : Config n d K) (s : Opt n d K) : Event n d K → Opt n d K
  | .call op => stepOp cfg s op
  | .cut op j => ((opStates cfg s op)[j]?).getD (stepOp cfg s op)

/-- Effect of a history of calls and interrupted calls (base_single.py:147, 173). -/
def runEvents (cfg : Config n d K) (s : Opt n d K) (es : List (Event n d K)) : Opt n d K :=
  es.foldl (stepEvent cfg) s

end PySwarms
