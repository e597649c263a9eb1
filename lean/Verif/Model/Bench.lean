import Verif.Model.Generators

/-!
# Programs written with the backend

The documentation invites users to write their own loops from `create_swarm`, the operators, the
handlers and the topologies (docs/examples/tutorials/custom_optimization_loop.ipynb,
backend/operators.py:90-101, 165-176).  This file models such programs: any number of swarms, handler
objects and options dictionaries, and any sequence of statements.  The objects that swarms can share
without a copy are explicit: the handlers with their `memory` attribute and the dictionaries.

Simplifications: all swarms have the same shape; arrays are values, so statements that write into an
array (`swarm.position += …`) are not among the programs.
-/

namespace PySwarms

variable {n d : Nat} {K : Type} {ι κ : Type}

/-- The attributes of a swarm other than `position` and `options` (swarms.py:84-109). -/
structure Attrs (n d : Nat) (K : Type) where
  velocity : Mat n d K
  pbestPos : Mat n d K
  pbestCost : Costs n K
  bestPos : BestPos n d K
  bestCost : Option (XR K)
  currentCost : Costs n K

/-- A statement of a program; `ι` are the names of the swarms, `κ` those of the handlers, and
dictionaries have numbers.  Dictionary 0 is the default value of `options` of `create_swarm`
(generators.py:192), one object for all calls. -/
inductive Stmt (n d : Nat) (K ι κ : Type)
  /-- `a = create_swarm(n, d, options=…, bounds=…, center=…, init_pos=…, clamp=…)`; without
  `options` if `dict` is `none` (generators.py:187-245). -/
  | create (a : ι) (dict : Option Nat) (bounds : Option (Bounds d K)) (center : Vec d K)
      (initPos : Option (Mat n d K)) (clamp : Option (Clamp d K)) (r : InitDraw n d K)
  /-- The objective is called on `a.position` (operators.py:239). -/
  | evaluate (a : ι)
  /-- Attributes of `a` are computed from attributes of `a`: calls of the objective, `compute_pbest`
  (operators.py:66-74), `compute_gbest` (star.py:61-80), own rules of the user. -/
  | assign (a : ι) (f : Swarm n d K → Attrs n d K)
  /-- `a.velocity = compute_velocity(a, clamp, h, bounds)` (operators.py:126-158). -/
  | velocity (a : ι) (h : κ) (clamp : Option (Clamp d K)) (bounds : Option (Bounds d K))
      (r1 r2 : Mat n d K)
  /-- `a.position = compute_position(a, bounds, h)` (operators.py:191-210). -/
  | position (a : ι) (h : κ) (bounds : Option (Bounds d K)) (r : BHDraw d K)
  /-- `h.memory = a.position`, for a boundary handler (as in global_best.py:198). -/
  | remember (a : ι) (h : κ)
  /-- `a.options[key] = v` (a write into the dictionary of swarms.py:90). -/
  | setOption (a : ι) (key : String) (v : K)
  /-- `a.options = dict` (swarms.py:90). -/
  | useDict (a : ι) (dict : Nat)

/-- The swarm a statement is about (generators.py:187, operators.py:83, 160). -/
def Stmt.who : Stmt n d K ι κ → ι
  | .create a .. => a
  | .evaluate a => a
  | .assign a _ => a
  | .velocity a .. => a
  | .position a .. => a
  | .remember a _ => a
  | .setOption a .. => a
  | .useDict a _ => a

/-- The objects of a program: the swarms (`swarm a`; its field `options` is not used), the number of
the dictionary each swarm holds (swarms.py:90), the dictionaries, the memories of the boundary and
the velocity handlers (handlers.py:113, 418), and the positions each swarm was evaluated at. -/
structure Bench (n d : Nat) (K ι κ : Type) where
  swarm : ι → Swarm n d K
  dict : ι → Nat
  dicts : Nat → Opts K
  bh : κ → Option (Mat n d K)
  vh : κ → Option (Mat n d K)
  seen : ι → List (Mat n d K)

/-- `swarm.options` as the operators see it (operators.py:128-130). -/
def Bench.options (S : Bench n d K ι κ) (a : ι) : Opts K := S.dicts (S.dict a)

/-- `dict[key] = v` (swarms.py:90). -/
def Opts.put (o : Opts K) (key : String) (v : K) : Opts K :=
  (key, v) :: o.filter fun e => e.1 != key

variable [Field K] [LinearOrder K] [FloorRing K] [DecidableEq ι] [DecidableEq κ]

/-- One statement; the result is the state after it and what it raised.  `bn h` and `vn h` are the
strategies the handlers were created with (handlers.py:110, 415).  A statement that raises
leaves the variables as they are, except that a handler may already have changed its memory
(generators.py:187-245; operators.py:126-158, 191-210). -/
def Bench.step (bn vn : κ → String) (S : Bench n d K ι κ) :
    Stmt n d K ι κ → Bench n d K ι κ × Except Err Unit
  | .create a dict bounds center initPos clamp r =>
    match createSwarm false false [] bounds center initPos clamp r with
    | .error e => (S, .error e)
    | .ok s => ({ S with swarm := Function.update S.swarm a s
                         dict := Function.update S.dict a (dict.getD 0) }, .ok ())
  | .evaluate a =>
    ({ S with seen := Function.update S.seen a (S.seen a ++ [(S.swarm a).position]) }, .ok ())
  | .assign a f =>
    let v := f (S.swarm a)
    ({ S with swarm := Function.update S.swarm a { S.swarm a with
        velocity := v.velocity, pbestPos := v.pbestPos, pbestCost := v.pbestCost
        bestPos := v.bestPos, bestCost := v.bestCost, currentCost := v.currentCost } }, .ok ())
  | .velocity a h clamp bounds r1 r2 =>
    match computeVelocity { S.swarm a with options := S.options a } clamp (vn h) (S.vh h) bounds r1
        r2 with
    | (m, .error e) => ({ S with vh := Function.update S.vh h m }, .error e)
    | (m, .ok v) => ({ S with vh := Function.update S.vh h m
                              swarm := Function.update S.swarm a { S.swarm a with velocity := v } },
                      .ok ())
  | .position a h bounds r =>
    match computePosition (S.swarm a) bounds (bn h) (S.bh h) r with
    | (m, .error e) => ({ S with bh := Function.update S.bh h m }, .error e)
    | (m, .ok p) => ({ S with bh := Function.update S.bh h m
                              swarm := Function.update S.swarm a { S.swarm a with position := p } },
                      .ok ())
  | .remember a h => ({ S with bh := Function.update S.bh h (some (S.swarm a).position) }, .ok ())
  | .setOption a key v =>
    ({ S with dicts := Function.update S.dicts (S.dict a) ((S.options a).put key v) }, .ok ())
  | .useDict a dict => ({ S with dict := Function.update S.dict a dict }, .ok ())

/-- The state after a program; exceptions are caught by the user (a program that ends with the first
exception is covered: it is a shorter program).  (operators.py:90-101, 165-176.) -/
def Bench.run (bn vn : κ → String) (S : Bench n d K ι κ) (prog : List (Stmt n d K ι κ)) :
    Bench n d K ι κ :=
  prog.foldl (fun S st => (S.step bn vn st).1) S

end PySwarms
