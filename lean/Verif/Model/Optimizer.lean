import Verif.Model.Topology
import Verif.Model.Options
import Verif.Model.Generators

/-!
# The optimizers

* `GlobalBestPSO`       – single/global_best.py:67-264
* `LocalBestPSO`        – single/local_best.py:75-292
* `GeneralOptimizerPSO` – single/general_optimizer.py:62-304
* `BinaryPSO`           – discrete/binary.py:66-282
* their bases           – base/base_single.py, base/base_discrete.py

The four `optimize` methods have the same body except where `Kind` is inspected below.
Logging and the progress bar are not modelled.
-/

namespace PySwarms

variable {n d : Nat} {K : Type}

/-- Which optimizer class; with the `static` flag of LocalBestPSO and the topology object of
GeneralOptimizerPSO (global_best.py:74, local_best.py:83, general_optimizer.py:75, binary.py:70). -/
inductive Kind
  | globalBest
  | localBest (static : Bool)
  | general (top : TopKind)
  | binary
  deriving DecidableEq, Repr

/-- A Python value passed as `ftol_iter` (base_single.py:103-108). -/
inductive PyArg (K : Type)
  | int (z : Int)
  | float (x : K)
  | other

/-- Constructor arguments (base_single.py:44-124, base_discrete.py:43-126, and the subclass
constructors).  The integer options `k`, `p`, `r` are in `args`, the float options in
`options`.  For `BinaryPSO` `bounds`, `center`, `bhStrategy`, `ohStrategy` do not exist and are
ignored. -/
structure Config (n d : Nat) (K : Type) where
  kind : Kind
  options : Opts K
  args : TopArgs := {}
  bounds : Option (Bounds d K) := none
  clamp : Option (Clamp d K) := none
  center : Vec d K
  initPos : Option (Mat n d K) := none
  ohStrategy : List (String × String) := []
  bhStrategy : String := "periodic"
  vhStrategy : String := "unmodified"
  ftol : XR K := XR.ninf
  ftolIter : PyArg K := .int 1

/-- `self.ftol_iter` once the constructor has accepted it (base_single.py:110). -/
def Config.window (cfg : Config n d K) : Nat :=
  match cfg.ftolIter with
  | .int z => z.toNat
  | _ => 0

/-- Everything random or external used by one iteration of `optimize` (operators.py:134, 139;
handlers.py:300, 307; binary.py:265; ring.py:65-68; pyramid.py:76-79; random.py:217-227). -/
structure Draw (n d : Nat) (K : Type) where
  r1 : Mat n d K
  r2 : Mat n d K
  bh : BHDraw d K
  oracle : Oracle n d K
  oh : String → K
  thr : Vec d K

/-- State of an optimizer object: the swarm, the topology, the memories of the two handlers and
the five history lists (base_single.py:126-144, 195-200).
`evals` and `openPools` are ghost: the successful evaluations (argument, result) since the last
reset, and the number of process pools created and not closed. -/
structure Opt (n d : Nat) (K : Type) where
  swarm : Swarm n d K
  top : TopState n := {}
  bhMem : Option (Mat n d K) := none
  vhMem : Option (Mat n d K) := none
  costHistory : List (XR K) := []
  meanPbestHistory : List (XR K) := []
  meanNeighborHistory : List (XR K) := []
  posHistory : List (Mat n d K) := []
  velocityHistory : List (Mat n d K) := []
  evals : List (Mat n d K × Costs n K) := []
  openPools : Nat := 0

/-- The `ToHistory` tuple (base_single.py:113-122). -/
structure ToHistory (n d : Nat) (K : Type) where
  bestCost : XR K
  meanPbest : XR K
  meanNeighbor : XR K
  position : Mat n d K
  velocity : Mat n d K

/-- `_populate_history` (base_single.py:126-144, base_discrete.py:128-146). -/
def Opt.populateHistory (s : Opt n d K) (h : ToHistory n d K) : Opt n d K :=
  { s with
    costHistory := s.costHistory ++ [h.bestCost]
    meanPbestHistory := s.meanPbestHistory ++ [h.meanPbest]
    meanNeighborHistory := s.meanNeighborHistory ++ [h.meanNeighbor]
    posHistory := s.posHistory ++ [h.position]
    velocityHistory := s.velocityHistory ++ [h.velocity] }

/-- `deque(maxlen=m).append(x)` (global_best.py:205, 232-235): the oldest entry is dropped when the
deque is full. -/
def dequeAppend (m : Nat) (q : List Bool) (x : Bool) : List Bool :=
  (q ++ [x]).drop ((q ++ [x]).length - m)

/-- How one iteration ended (global_best.py:236-237). -/
inductive Flow
  | stop
  | continue (deque : List Bool)
  deriving DecidableEq, Repr

section
variable [Field K] [LinearOrder K]

/-- The stop test value `delta` (global_best.py:226-231, local_best.py:255-259,
general_optimizer.py:266-271, binary.py:218-223):
`|best_cost - best_cost_yet_found| < ftol * (1 + |best_cost_yet_found|)`. -/
def ftolDelta (ftol now yet : XR K) : Bool :=
  XR.lt (XR.abs (XR.sub now yet)) (XR.mul ftol (XR.add (XR.fin 1) (XR.abs yet)))

/-- `self.top.compute_gbest(...)` as called by each class: global_best.py:213,
local_best.py:239-242, general_optimizer.py:252-254, binary.py:202-205. -/
def callGbest (cfg : Config n d K) (o : Oracle n d K) (t : TopState n) (s : Swarm n d K) :
    TopState n × Except Err (GBest n d K) :=
  match cfg.kind with
  | .globalBest => computeGbest .star {} o t s
  | .localBest st => computeGbest (.ring st) { k := cfg.args.k, p := cfg.args.p } o t s
  | .general top => computeGbest top cfg.args o t s
  | .binary => computeGbest (.ring false) { k := cfg.args.k, p := cfg.args.p } o t s

variable [Transc K]

/-- The options update (global_best.py:238-241, local_best.py:267-269,
general_optimizer.py:278-281); `BinaryPSO` has none. -/
def callOptions (cfg : Config n d K) (iters i : Nat) (r : Draw n d K) (s : Swarm n d K) :
    Except Err (Opts K) :=
  match cfg.kind with
  | .binary => .ok s.options
  | _ => ohCall cfg.ohStrategy cfg.options
      { iternow := some (i : K), itermax := some (iters : K) } r.oh

/-- The `bounds` handed to `compute_velocity` (global_best.py:242-245; binary.py:230-233 passes
none). -/
def velBounds (cfg : Config n d K) : Option (Bounds d K) :=
  match cfg.kind with
  | .binary => none
  | _ => cfg.bounds

/-- `BinaryPSO._sigmoid` (binary.py:269-282). -/
def sigmoid (x : K) : K := 1 / (1 + Transc.exp (-x))

/-- `BinaryPSO._compute_position` (binary.py:252-267): one random vector of size `d`, broadcast
over the particles. -/
def binaryPosition (thr : Vec d K) (v : Mat n d K) : Mat n d K := fun i j =>
  if thr j < sigmoid (v i j) then 1 else 0

variable [FloorRing K]

/-- The position update: `self.top.compute_position` (global_best.py:246-248,
local_best.py:274-276, general_optimizer.py:286-288; all topologies delegate to
`ops.compute_position`) or `BinaryPSO._compute_position` (binary.py:234). -/
def callPosition (cfg : Config n d K) (r : Draw n d K) (mem : Option (Mat n d K))
    (s : Swarm n d K) : Option (Mat n d K) × Except Err (Mat n d K) :=
  match cfg.kind with
  | .binary => (mem, .ok (binaryPosition r.thr s.velocity))
  | _ => computePosition s cfg.bounds cfg.bhStrategy mem r.bh

/-- The second half of the loop body: options, velocity and position updates
(global_best.py:238-248, local_best.py:266-276, general_optimizer.py:278-288,
binary.py:230-234).  Each assignment happens as soon as its right-hand side has been computed. -/
def moveSwarm (cfg : Config n d K) (r : Draw n d K) (iters i : Nat) (s : Opt n d K) :
    Opt n d K × Except Err Unit :=
  match callOptions cfg iters i r s.swarm with
  | .error e => (s, .error e)
  | .ok o =>
    let s1 := { s with swarm := { s.swarm with options := o } }
    match computeVelocity s1.swarm cfg.clamp cfg.vhStrategy s1.vhMem (velBounds cfg) r.r1 r.r2 with
    | (vm, .error e) => ({ s1 with vhMem := vm }, .error e)
    | (vm, .ok v) =>
      let s2 := { s1 with vhMem := vm, swarm := { s1.swarm with velocity := v } }
      match callPosition cfg r s2.bhMem s2.swarm with
      | (bm, .error e) => ({ s2 with bhMem := bm }, .error e)
      | (bm, .ok p) => ({ s2 with bhMem := bm, swarm := { s2.swarm with position := p } }, .ok ())

/-- `self.swarm.current_cost = …; self.swarm.pbest_pos, self.swarm.pbest_cost = compute_pbest(…)`
(global_best.py:209-210, local_best.py:231-237, general_optimizer.py:247-248,
binary.py:194-200). -/
def recordEval (c : Costs n K) (s : Opt n d K) : Opt n d K :=
  let sw := { s.swarm with currentCost := c }
  let pb := computePbest sw
  { s with
    swarm := { sw with pbestPos := pb.1, pbestCost := pb.2 }
    evals := s.evals ++ [(s.swarm.position, c)] }

/-- `self.swarm.best_pos, self.swarm.best_cost = …` followed by `_populate_history`
(global_best.py:212-225, local_best.py:238-253, general_optimizer.py:249-265,
binary.py:201-217). -/
def recordBest (t : TopState n) (g : GBest n d K) (s : Opt n d K) : Opt n d K :=
  let s1 := { s with top := t, swarm := { s.swarm with bestPos := g.1, bestCost := g.2 } }
  s1.populateHistory
    { bestCost := s1.swarm.bestCostVal
      meanPbest := npMean s1.swarm.pbestCost
      meanNeighbor := s1.swarm.bestCostVal
      position := s1.swarm.position
      velocity := s1.swarm.velocity }

/-- One iteration `i` of the `for` loop of `optimize` (global_best.py:207-248,
local_best.py:231-276, general_optimizer.py:245-288, binary.py:194-234).
`ev` is `compute_objective_function` with the user's objective. -/
def iterate (cfg : Config n d K) (ev : Mat n d K → Except Err (Costs n K)) (r : Draw n d K)
    (iters i : Nat) (q : List Bool) (s : Opt n d K) : Opt n d K × Except Err Flow :=
  match ev s.swarm.position with
  | .error e => (s, .error e)
  | .ok c =>
    let s1 := recordEval c s
    let yet := s1.swarm.bestCostVal
    match callGbest cfg r.oracle s1.top s1.swarm with
    | (t, .error e) => ({ s1 with top := t }, .error e)
    | (t, .ok g) =>
      let s2 := recordBest t g s1
      let q' := dequeAppend cfg.window q (ftolDelta cfg.ftol s2.swarm.bestCostVal yet)
      if decide (¬ i < cfg.window) && q'.all id then (s2, .ok .stop)
      else match moveSwarm cfg r iters i s2 with
        | (s3, .error e) => (s3, .error e)
        | (s3, .ok ()) => (s3, .ok (.continue q'))

/-- The `for i in range(iters)` loop from iteration `i`, `m` iterations remaining
(global_best.py:206, local_best.py:230, general_optimizer.py:244, binary.py:193). -/
def loop (cfg : Config n d K) (ev : Nat → Mat n d K → Except Err (Costs n K))
    (env : Nat → Draw n d K) (iters : Nat) :
    (m i : Nat) → List Bool → Opt n d K → Opt n d K × Except Err Unit
  | 0, _, _, s => (s, .ok ())
  | m + 1, i, q, s =>
    match iterate cfg (ev i) (env i) iters i q s with
    | (s', .error e) => (s', .error e)
    | (s', .ok .stop) => (s', .ok ())
    | (s', .ok (.continue q')) => loop cfg ev env iters m (i + 1) q' s'

/-- The preamble of `optimize` (global_best.py:197-205, local_best.py:221-229,
general_optimizer.py:235-243, binary.py:185-192): handler memories, personal best costs. -/
def prepare (cfg : Config n d K) (s : Opt n d K) : Opt n d K :=
  { s with
    bhMem := match cfg.kind with
      | .binary => s.bhMem
      | _ => some s.swarm.position
    vhMem := some s.swarm.position
    swarm := { s.swarm with pbestCost := fun _ => XR.pinf } }

/-- The epilogue of `optimize` (global_best.py:249-264, local_best.py:277-292,
general_optimizer.py:289-304, binary.py:235-250): `best_cost.copy()` needs a NumPy scalar. -/
def finish (s : Opt n d K) : Except Err (XR K × Vec d K) :=
  match s.swarm.bestCost with
  | none => .error .attributeError
  | some c =>
    match npArgmin s.swarm.pbestCost with
    | none => .error .valueError
    | some i => .ok (c, s.swarm.pbestPos i)

/-- `optimize(objective_func, iters, n_processes)` (global_best.py:159-264, local_best.py:183-292,
general_optimizer.py:197-304, binary.py:146-250).  `mp.Pool(0)` raises `ValueError`; a pool is
closed only when the end of the method is reached. -/
def optimize (cfg : Config n d K) (ev : Nat → Mat n d K → Except Err (Costs n K))
    (iters : Nat) (nproc : Option Nat) (env : Nat → Draw n d K) (s : Opt n d K) :
    Opt n d K × Except Err (XR K × Vec d K) :=
  if nproc = some 0 then
    ({ s with bhMem := (prepare cfg s).bhMem, vhMem := (prepare cfg s).vhMem }, .error .valueError)
  else
    let s0 := { prepare cfg s with
      openPools := s.openPools + (if nproc.isSome then 1 else 0) }
    match loop cfg ev env iters iters 0 [] s0 with
    | (s1, .error e) => (s1, .error e)
    | (s1, .ok ()) =>
      match finish s1 with
      | .error e => (s1, .error e)
      | .ok r => ({ s1 with openPools := s1.openPools - (if nproc.isSome then 1 else 0) }, .ok r)

/-- Does the optimizer create a discrete swarm? (base_discrete.py:205-214) -/
def Config.isBinary (cfg : Config n d K) : Bool :=
  match cfg.kind with
  | .binary => true
  | _ => false

/-- `create_swarm(...)` as called by `reset` (base_single.py:203-212, base_discrete.py:205-214;
`BinaryPSO` always has `binary=True`). -/
def resetSwarm (cfg : Config n d K) (r : InitDraw n d K) : Except Err (Swarm n d K) :=
  createSwarm cfg.isBinary cfg.isBinary cfg.options (if cfg.isBinary then none else cfg.bounds)
    cfg.center cfg.initPos cfg.clamp r

/-- `reset` (base_single.py:173-212, base_discrete.py:175-214): histories are cleared first; the
topology and handler objects are kept. -/
def reset (cfg : Config n d K) (r : InitDraw n d K) (s : Opt n d K) :
    Opt n d K × Except Err Unit :=
  let s0 := { s with
    costHistory := [], meanPbestHistory := [], meanNeighborHistory := []
    posHistory := [], velocityHistory := [] }
  match resetSwarm cfg r with
  | .error e => (s0, .error e)
  | .ok sw => ({ s0 with swarm := sw, evals := [] }, .ok ())

/-- `assert ftol_iter > 0 and isinstance(ftol_iter, int)` (base_single.py:103-108,
base_discrete.py:105-110); comparing a non-number with 0 raises `TypeError`. -/
def checkFtolIter (a : PyArg K) : Except Err Unit :=
  match a with
  | .int z => if z > 0 then .ok () else .error .assertionError
  | .float _ => .error .assertionError
  | .other => .error .typeError

/-- LocalBestPSO and BinaryPSO read `options["k"], options["p"]` (local_best.py:159,
binary.py:127). -/
def Kind.needsKP : Kind → Bool
  | .localBest _ => true
  | .binary => true
  | _ => false

/-- The constructors (global_best.py:134-157, local_best.py:154-181, general_optimizer.py:170-195,
binary.py:124-144, base_single.py:93-124, base_discrete.py:96-126): `options["k"], options["p"]`
first for LocalBestPSO and BinaryPSO, the `ftol_iter` check, then two calls of `reset` (one by the base class, one by the
subclass), then a new topology and new handlers. -/
def construct (cfg : Config n d K) (r1 r2 : InitDraw n d K) : Except Err (Opt n d K) :=
  if cfg.kind.needsKP && (cfg.args.k.isNone || cfg.args.p.isNone) then .error .keyError
  else match checkFtolIter cfg.ftolIter with
    | .error e => .error e
    | .ok () =>
      match resetSwarm cfg r1 with
      | .error e => .error e
      | .ok _ =>
        match resetSwarm cfg r2 with
        | .error e => .error e
        | .ok sw => .ok { swarm := sw }

/-- An API call on an optimizer object (base_single.py:147, 173). -/
inductive Op (n d : Nat) (K : Type)
  | optimize (ev : Nat → Mat n d K → Except Err (Costs n K)) (iters : Nat) (nproc : Option Nat)
      (env : Nat → Draw n d K)
  | reset (r : InitDraw n d K)

/-- Effect of one API call; exceptions are caught by the caller, who keeps using the object
(base_single.py:147, 173). -/
def stepOp (cfg : Config n d K) (s : Opt n d K) : Op n d K → Opt n d K
  | .optimize ev iters nproc env => (optimize cfg ev iters nproc env s).1
  | .reset r => (reset cfg r s).1

/-- Effect of a sequence of API calls (base_single.py:147, 173). -/
def runOps (cfg : Config n d K) (s : Opt n d K) (ops : List (Op n d K)) : Opt n d K :=
  ops.foldl (stepOp cfg) s

end

end PySwarms
