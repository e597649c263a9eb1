import Verif.Model.Optimizer

/-!
# What optimize reports

The `optimize` methods write two messages to the log at a level chosen by `verbose`, one message at
level DEBUG, and, if `verbose`, show a progress bar whose postfix is set in every iteration.  The
definitions repeat `iterate`, `loop` and `optimize` of `Model/Optimizer` with this output.  Not
modelled: the counter of the progress bar and when it is drawn, and the ERROR records that handlers
and operators write before they raise.
-/

namespace PySwarms.Say

variable {n d : Nat} {K : Type}

/-- The messages (global_best.py:192-196, 255-260, local_best.py:216-220, 283-288,
general_optimizer.py:229-234, 295-300, binary.py:180-184, 240-245). -/
inductive Msg (d : Nat) (K : Type)
  /-- "Obj. func. args: ..." -/
  | args
  /-- "Optimize for {iters} iters with {options}" -/
  | start (iters : Nat) (options : Opts K)
  /-- "Optimization finished | best cost: {}, best pos: {}" -/
  | finished (c : XR K) (p : Vec d K)

/-- What a call writes, in order: log records with their level, the creation of a progress bar with
its total, and the values its postfix is set to (reporter.py:120-139, 190-236). -/
inductive Out (d : Nat) (K : Type)
  | log (lvl : Nat) (m : Msg d K)
  | bar (total : Nat)
  | postfix (c : XR K)

/-- `logging.DEBUG`, `logging.INFO`, `logging.NOTSET` (global_best.py:188-192). -/
def DEBUG : Nat := 10
/-- See `DEBUG` (global_best.py:188). -/
def INFO : Nat := 20
/-- See `DEBUG` (global_best.py:190). -/
def NOTSET : Nat := 0

/-- `log_level` (global_best.py:187-190, local_best.py:211-214, general_optimizer.py:224-227,
binary.py:175-178). -/
def logLevel (verbose : Bool) : Nat := if verbose then INFO else NOTSET

/-- `logger.isEnabledFor(lvl)` for a logger with effective level `level` under
`logging.disable(disable)` (reporter.py:139 through the standard library; 0 if `disable` was never
called). -/
def enabledFor (disable level lvl : Nat) : Bool := decide (¬ disable ≥ lvl) && decide (lvl ≥ level)

/-- The records that reach the handlers of the logger (reporter.py:139). -/
def records (disable level : Nat) (o : List (Out d K)) : List (Nat × Msg d K) :=
  o.filterMap fun
    | .log lvl m => if enabledFor disable level lvl then some (lvl, m) else none
    | _ => none

section
variable [Field K] [LinearOrder K] [Transc K] [FloorRing K]

/-- `if verbose: self.rep.hook(best_cost=…)` (global_best.py:215-216, local_best.py:243-244 with
`np.min` of the scalar, general_optimizer.py:256-257, binary.py:206-208). -/
def hook (verbose : Bool) (c : XR K) : List (Out d K) := if verbose then [.postfix c] else []

/-- One iteration with its output (global_best.py:207-248, local_best.py:231-276,
general_optimizer.py:245-288, binary.py:194-234). -/
def iterateV (verbose : Bool) (cfg : Config n d K) (ev : Mat n d K → Except Err (Costs n K))
    (r : Draw n d K) (iters i : Nat) (q : List Bool) (s : Opt n d K) :
    List (Out d K) × Opt n d K × Except Err Flow :=
  match ev s.swarm.position with
  | .error e => ([], s, .error e)
  | .ok c =>
    let s1 := recordEval c s
    let yet := s1.swarm.bestCostVal
    match callGbest cfg r.oracle s1.top s1.swarm with
    | (t, .error e) => ([], { s1 with top := t }, .error e)
    | (t, .ok g) =>
      let s2 := recordBest t g s1
      let out := hook verbose s2.swarm.bestCostVal
      let q' := dequeAppend cfg.window q (ftolDelta cfg.ftol s2.swarm.bestCostVal yet)
      if decide (¬ i < cfg.window) && q'.all id then (out, s2, .ok .stop)
      else match moveSwarm cfg r iters i s2 with
        | (s3, .error e) => (out, s3, .error e)
        | (s3, .ok ()) => (out, s3, .ok (.continue q'))

/-- The loop with its output (global_best.py:206, local_best.py:230, general_optimizer.py:244,
binary.py:193). -/
def loopV (verbose : Bool) (cfg : Config n d K) (ev : Nat → Mat n d K → Except Err (Costs n K))
    (env : Nat → Draw n d K) (iters : Nat) :
    (m i : Nat) → List Bool → Opt n d K → List (Out d K) × Opt n d K × Except Err Unit
  | 0, _, _, s => ([], s, .ok ())
  | m + 1, i, q, s =>
    match iterateV verbose cfg (ev i) (env i) iters i q s with
    | (o, s', .error e) => (o, s', .error e)
    | (o, s', .ok .stop) => (o, s', .ok ())
    | (o, s', .ok (.continue q')) =>
      let r := loopV verbose cfg ev env iters m (i + 1) q' s'
      (o ++ r.1, r.2)

/-- `optimize(objective_func, iters, n_processes, verbose)` with its output (global_best.py:159-264,
local_best.py:183-292, general_optimizer.py:197-304, binary.py:146-250).  The pool is created after
the first messages and before the progress bar. -/
def optimizeV (verbose : Bool) (cfg : Config n d K)
    (ev : Nat → Mat n d K → Except Err (Costs n K)) (iters : Nat) (nproc : Option Nat)
    (env : Nat → Draw n d K) (s : Opt n d K) :
    List (Out d K) × Opt n d K × Except Err (XR K × Vec d K) :=
  let out0 : List (Out d K) := [.log DEBUG .args, .log (logLevel verbose) (.start iters cfg.options)]
  if nproc = some 0 then
    (out0, { s with bhMem := (prepare cfg s).bhMem, vhMem := (prepare cfg s).vhMem },
      .error .valueError)
  else
    let s0 := { prepare cfg s with
      openPools := s.openPools + (if nproc.isSome then 1 else 0) }
    let out1 := out0 ++ if verbose then [.bar iters] else []
    match loopV verbose cfg ev env iters iters 0 [] s0 with
    | (o, s1, .error e) => (out1 ++ o, s1, .error e)
    | (o, s1, .ok ()) =>
      match finish s1 with
      | .error e => (out1 ++ o, s1, .error e)
      | .ok r => (out1 ++ o ++ [.log (logLevel verbose) (.finished r.1 r.2)],
          { s1 with openPools := s1.openPools - (if nproc.isSome then 1 else 0) }, .ok r)

end

end PySwarms.Say
