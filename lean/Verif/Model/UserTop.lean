import Verif.Model.Optimizer

/-!
# GeneralOptimizerPSO with a topology written by the user

`GeneralOptimizerPSO` takes any object derived from `pyswarms.backend.topology.Topology`
(single/general_optimizer.py:75, 188-195) and calls its three methods (topology/base.py:40-54).
`Model/Optimizer.lean` covers the five classes shipped with the library; here the three methods are
arbitrary functions.
-/

namespace PySwarms

variable {n d : Nat} {K T : Type}

/-- The cost answered by `compute_gbest`: a NumPy scalar, which has a `copy` method, or a plain
Python float, which has none (general_optimizer.py:252-254, 290). -/
inductive RetCost (K : Type)
  | numpy (x : XR K)
  | float (x : XR K)

/-- The number in an answer (general_optimizer.py:252-260). -/
def RetCost.val : RetCost K → XR K
  | .numpy x => x
  | .float x => x

/-- A topology written by the user: the three methods called by `optimize`
(topology/base.py:40-54; general_optimizer.py:252-254, 283-288).  `T` is everything the methods
can read and write besides the swarm: the attributes of the topology object, the memories of the
two handlers that are passed to it, the generator of random numbers.  `start` is what the two
assignments of the handlers' memories do to it (general_optimizer.py:236-237).
Simplification: the methods do not write into the arrays of the swarm that is passed to them. -/
structure UserTop (n d : Nat) (K T : Type) where
  start : T → Mat n d K → T
  gbest : T → Swarm n d K → T × Except Err (BestPos n d K × RetCost K)
  velocity : T → Swarm n d K → T × Except Err (Mat n d K)
  position : T → Swarm n d K → T × Except Err (Mat n d K)

/-- A GeneralOptimizerPSO object with such a topology.  `flt` is the value of `swarm.best_cost` if
that is a plain Python float answered by the topology (then `swarm.bestCost` is `none`, and the
topology is not shown the float again; it may keep it in `T`).  The fields `top`, `bhMem` and
`vhMem` of `opt` are unused, they are part of `world` (general_optimizer.py:170-195). -/
structure UOpt (n d : Nat) (K T : Type) where
  opt : Opt n d K
  flt : Option (XR K) := none
  world : T

/-- The number in `swarm.best_cost` (general_optimizer.py:249, 260). -/
def UOpt.bestCostVal (u : UOpt n d K T) : XR K :=
  match u.flt with
  | some x => x
  | none => u.opt.swarm.bestCostVal

section
variable [Field K] [LinearOrder K]

/-- `self.swarm.best_pos, self.swarm.best_cost = …` and `_populate_history`
(general_optimizer.py:252-265). -/
def recordBestU (w : T) (bp : BestPos n d K) (a : RetCost K) (u : UOpt n d K T) : UOpt n d K T :=
  let o := { u.opt with swarm := { u.opt.swarm with
    bestPos := bp
    bestCost := match a with
      | .numpy x => some x
      | .float _ => none } }
  { opt := o.populateHistory
      { bestCost := a.val
        meanPbest := npMean o.swarm.pbestCost
        meanNeighbor := a.val
        position := o.swarm.position
        velocity := o.swarm.velocity }
    flt := match a with
      | .numpy _ => none
      | .float x => some x
    world := w }

variable [Transc K]

/-- Options, velocity and position updates (general_optimizer.py:278-288). -/
def moveSwarmU (U : UserTop n d K T) (cfg : Config n d K) (oh : String → K) (iters i : Nat)
    (u : UOpt n d K T) : UOpt n d K T × Except Err Unit :=
  match ohCall cfg.ohStrategy cfg.options
      { iternow := some (i : K), itermax := some (iters : K) } oh with
  | .error e => (u, .error e)
  | .ok o =>
    let u1 := { u with opt := { u.opt with swarm := { u.opt.swarm with options := o } } }
    match U.velocity u1.world u1.opt.swarm with
    | (w, .error e) => ({ u1 with world := w }, .error e)
    | (w, .ok v) =>
      let u2 := { u1 with
        world := w
        opt := { u1.opt with swarm := { u1.opt.swarm with velocity := v } } }
      match U.position u2.world u2.opt.swarm with
      | (w', .error e) => ({ u2 with world := w' }, .error e)
      | (w', .ok p) =>
        ({ u2 with
            world := w'
            opt := { u2.opt with swarm := { u2.opt.swarm with position := p } } }, .ok ())

/-- One iteration of the loop (general_optimizer.py:245-288). -/
def iterateU (U : UserTop n d K T) (cfg : Config n d K)
    (ev : Mat n d K → Except Err (Costs n K)) (oh : String → K) (iters i : Nat) (q : List Bool)
    (u : UOpt n d K T) : UOpt n d K T × Except Err Flow :=
  match ev u.opt.swarm.position with
  | .error e => (u, .error e)
  | .ok c =>
    let u1 := { u with opt := recordEval c u.opt }
    let yet := u1.bestCostVal
    match U.gbest u1.world u1.opt.swarm with
    | (w, .error e) => ({ u1 with world := w }, .error e)
    | (w, .ok (bp, a)) =>
      let u2 := recordBestU w bp a u1
      let q' := dequeAppend cfg.window q (ftolDelta cfg.ftol u2.bestCostVal yet)
      if decide (¬ i < cfg.window) && q'.all id then (u2, .ok .stop)
      else match moveSwarmU U cfg oh iters i u2 with
        | (u3, .error e) => (u3, .error e)
        | (u3, .ok ()) => (u3, .ok (.continue q'))

/-- The `for i in range(iters)` loop (general_optimizer.py:244). -/
def loopU (U : UserTop n d K T) (cfg : Config n d K)
    (ev : Nat → Mat n d K → Except Err (Costs n K)) (oh : Nat → String → K) (iters : Nat) :
    (m i : Nat) → List Bool → UOpt n d K T → UOpt n d K T × Except Err Unit
  | 0, _, _, u => (u, .ok ())
  | m + 1, i, q, u =>
    match iterateU U cfg (ev i) (oh i) iters i q u with
    | (u', .error e) => (u', .error e)
    | (u', .ok .stop) => (u', .ok ())
    | (u', .ok (.continue q')) => loopU U cfg ev oh iters m (i + 1) q' u'

/-- Handler memories and personal best costs at the start of a call
(general_optimizer.py:235-243). -/
def prepareU (U : UserTop n d K T) (nproc : Option Nat) (u : UOpt n d K T) : UOpt n d K T :=
  { u with
    world := U.start u.world u.opt.swarm.position
    opt := { u.opt with
      openPools := u.opt.openPools + (if nproc.isSome then 1 else 0)
      swarm := { u.opt.swarm with pbestCost := fun _ => XR.pinf } } }

/-- `optimize` of GeneralOptimizerPSO (general_optimizer.py:197-304) with a topology written by
the user. -/
def optimizeU (U : UserTop n d K T) (cfg : Config n d K)
    (ev : Nat → Mat n d K → Except Err (Costs n K)) (iters : Nat) (nproc : Option Nat)
    (oh : Nat → String → K) (u : UOpt n d K T) : UOpt n d K T × Except Err (XR K × Vec d K) :=
  if nproc = some 0 then
    ({ u with world := U.start u.world u.opt.swarm.position }, .error .valueError)
  else
    match loopU U cfg ev oh iters iters 0 [] (prepareU U nproc u) with
    | (u1, .error e) => (u1, .error e)
    | (u1, .ok ()) =>
      match finish u1.opt with
      | .error e => (u1, .error e)
      | .ok r =>
        ({ u1 with opt := { u1.opt with
            openPools := u1.opt.openPools - (if nproc.isSome then 1 else 0) } }, .ok r)

/-- What the classes shipped with the library read and write besides the swarm: the topology object,
the memories of the handlers, and how many iterations' worth of random numbers they have used in
the call (topology/base.py:22-38,
handlers.py:113, 418). -/
structure BuiltinWorld (n d : Nat) (K : Type) where
  top : TopState n := {}
  bhMem : Option (Mat n d K) := none
  vhMem : Option (Mat n d K) := none
  used : Nat := 0

variable [FloorRing K]

/-- The five topologies of the library as instances of `UserTop` (star.py:31-159, ring.py:38-170,
pyramid.py:35-188, random.py:36-257, von_neumann.py:23-51). -/
def builtinTop (cfg : Config n d K) (env : Nat → Draw n d K) :
    UserTop n d K (BuiltinWorld n d K) where
  start w x := { w with bhMem := some x, vhMem := some x, used := 0 }
  gbest w sw :=
    match callGbest cfg (env w.used).oracle w.top sw with
    | (t, .error e) => ({ w with top := t }, .error e)
    | (t, .ok (bp, some c)) => ({ w with top := t }, .ok (bp, .numpy c))
    | (t, .ok (bp, none)) => ({ w with top := t }, .ok (bp, .float XR.pinf))
  velocity w sw :=
    match computeVelocity sw cfg.clamp cfg.vhStrategy w.vhMem cfg.bounds
        (env w.used).r1 (env w.used).r2 with
    | (vm, r) => ({ w with vhMem := vm }, r)
  position w sw :=
    match computePosition sw cfg.bounds cfg.bhStrategy w.bhMem (env w.used).bh with
    | (bm, r) => ({ w with bhMem := bm, used := w.used + 1 }, r)

end

end PySwarms
