import Verif.Model.Optimizer

/-!
# Objectives that use the optimizer they are evaluated for

`optimize` calls the objective in the same thread when `n_processes` is not given
(operators.py:238-239), and an objective may hold a reference to the optimizer: it can read its
attributes (progress reports, adaptive penalties), and it can call its methods – `reset()`, or
`optimize()` again – before it returns.  Python evaluates the right-hand side of
`self.swarm.current_cost = compute_objective_function(self.swarm, …)` before it looks up
`self.swarm`, so the rest of the iteration works on whatever the objective has left behind
(global_best.py:209).

Not modelled: objectives that write into the arrays (C96) or assign
attributes; process pools, whose workers only see a copy of the optimizer.
-/

namespace PySwarms

variable {n d : Nat} {K : Type}

/-- An optimizer object with, besides the state of `Opt`, whether `swarm.pbest_cost` has its `n`
entries: it is the empty array from `reset` (swarms.py:97-101) to the next `optimize`
(global_best.py:204, local_best.py:228, general_optimizer.py:242, binary.py:191).
`asked` and `heard` are ghost: the arguments of all calls of objectives, and, since the last reset,
argument and result of the calls whose result was recorded as `current_cost` and `pbest_cost`. -/
structure Live (n d : Nat) (K : Type) where
  opt : Opt n d K
  primed : Bool := false
  asked : List (Mat n d K) := []
  heard : List (Mat n d K × Costs n K) := []

/-- What an objective (or the program around it) does with the optimizer (base_single.py:147, 173):
return (or raise), look at the attributes, call `reset()` or `optimize(objective, iters)`; what it
does next depends on what it has seen and on what the calls returned or raised. -/
inductive Script (n d : Nat) (K : Type)
  | ret (c : Except Err (Costs n K))
  | look (k : Opt n d K → Script n d K)
  | reset (r : InitDraw n d K) (k : Except Err Unit → Script n d K)
  | optimize (obj : Nat → Mat n d K → Script n d K) (iters : Nat) (env : Nat → Draw n d K)
      (k : Except Err (XR K × Vec d K) → Script n d K)

section
variable [Field K] [LinearOrder K] [Transc K] [FloorRing K]

/-- `reset()` (base_single.py:173-212, base_discrete.py:175-214): the new swarm has an empty
`pbest_cost`. -/
def Live.reset (cfg : Config n d K) (r : InitDraw n d K) (σ : Live n d K) :
    Live n d K × Except Err Unit :=
  match PySwarms.reset cfg r σ.opt with
  | (s, .error e) => ({ σ with opt := s }, .error e)
  | (s, .ok ()) => ({ σ with opt := s, primed := false, heard := [] }, .ok ())

/-- One iteration of the loop of `optimize` with an objective that may use the optimizer
(global_best.py:207-248, local_best.py:231-276, general_optimizer.py:245-288, binary.py:194-234).
The objective is called with the positions at that moment; everything after it happens in the state
it leaves behind.  If that is a swarm without personal best costs, `current_cost` is assigned and
`compute_pbest` raises `ValueError`: shapes `(n,)` and `(0,)` cannot be compared
(operators.py:66).  For a single particle they can, and the failure comes later; that case is not
modelled. -/
def Live.iterate (cfg : Config n d K)
    (obj : Mat n d K → Live n d K → Live n d K × Except Err (Costs n K)) (r : Draw n d K)
    (iters i : Nat) (q : List Bool) (σ : Live n d K) : Live n d K × Except Err Flow :=
  let x := σ.opt.swarm.position
  match obj x { σ with asked := σ.asked ++ [x] } with
  | (σ1, .error e) => (σ1, .error e)
  | (σ1, .ok c) =>
    if σ1.primed then
      let o := PySwarms.iterate cfg (fun _ => .ok c) r iters i q σ1.opt
      ({ σ1 with opt := o.1, heard := σ1.heard ++ [(x, c)] }, o.2)
    else
      ({ σ1 with opt := { σ1.opt with swarm := { σ1.opt.swarm with currentCost := c } } },
        .error (if n = 1 then .unmodelled else .valueError))

/-- The loop of `optimize` (global_best.py:206, local_best.py:230, general_optimizer.py:244,
binary.py:193). -/
def Live.loop (cfg : Config n d K)
    (obj : Nat → Mat n d K → Live n d K → Live n d K × Except Err (Costs n K))
    (env : Nat → Draw n d K) (iters : Nat) :
    (m i : Nat) → List Bool → Live n d K → Live n d K × Except Err Unit
  | 0, _, _, σ => (σ, .ok ())
  | m + 1, i, q, σ =>
    match Live.iterate cfg (obj i) (env i) iters i q σ with
    | (σ', .error e) => (σ', .error e)
    | (σ', .ok .stop) => (σ', .ok ())
    | (σ', .ok (.continue q')) => Live.loop cfg obj env iters m (i + 1) q' σ'

/-- `optimize(objective_func, iters)` (global_best.py:159-264, local_best.py:183-292,
general_optimizer.py:197-304, binary.py:146-250). -/
def Live.optimize (cfg : Config n d K)
    (obj : Nat → Mat n d K → Live n d K → Live n d K × Except Err (Costs n K))
    (iters : Nat) (env : Nat → Draw n d K) (σ : Live n d K) :
    Live n d K × Except Err (XR K × Vec d K) :=
  match Live.loop cfg obj env iters iters 0 [] { σ with opt := prepare cfg σ.opt, primed := true } with
  | (σ1, .error e) => (σ1, .error e)
  | (σ1, .ok ()) => (σ1, finish σ1.opt)

/-- Running a script, which may be the body of an objective or the program that uses the optimizer
(operators.py:238-239; base_single.py:147, 173). -/
def Script.run (cfg : Config n d K) :
    Script n d K → Live n d K → Live n d K × Except Err (Costs n K)
  | .ret c, σ => (σ, c)
  | .look k, σ => (k σ.opt).run cfg σ
  | .reset r k, σ => (k (σ.reset cfg r).2).run cfg (σ.reset cfg r).1
  | .optimize obj iters env k, σ =>
    let o := σ.optimize cfg (fun i x => (obj i x).run cfg) iters env
    (k o.2).run cfg o.1

end

end PySwarms
