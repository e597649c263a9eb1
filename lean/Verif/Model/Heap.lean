import Verif.Model.Optimizer

/-!
# The optimizers with array identity

The same code as in `Verif.Model.Handlers`, `Operators` and `Optimizer`, but with every NumPy array
of shape `(n_particles, dimensions)` as an object on a heap, assignments as copies of references, and
`x[mask] = …`, `x += …` as writes into the object.  Arrays of other shapes (costs, bounds, clamp,
neighbour indices) are never written in place by the code and stay values.
-/

namespace PySwarms.Mem

variable {n d : Nat} {K : Type}

/-- The array objects: identity is an address, `next` is the first unused one (the ndarray
objects of swarms.py:84-121). -/
structure Heap (n d : Nat) (K : Type) where
  next : Nat
  get : Nat → Mat n d K

/-- A NumPy operation that returns a new array (e.g. operators.py:143, 197). -/
def Heap.alloc (h : Heap n d K) (m : Mat n d K) : Heap n d K × Nat :=
  ({ next := h.next + 1, get := fun a => if a = h.next then m else h.get a }, h.next)

/-- A write into an existing array (e.g. operators.py:198, handlers.py:204, 268). -/
def Heap.write (h : Heap n d K) (a : Nat) (m : Mat n d K) : Heap n d K :=
  { h with get := fun b => if b = a then m else h.get b }

section handlers
variable [Field K] [LinearOrder K]

/-- `BoundaryHandler.nearest` (handlers.py:146-169): two calls of `np.where`. -/
def nearest (b : Bounds d K) (h : Heap n d K) (a : Nat) : Heap n d K × Nat :=
  let x := h.get a
  let (h1, p1) := h.alloc fun i j => if isLow b x i j then b.1 j else x i j
  h1.alloc fun i j => if isHigh b x i j then b.2 j else h1.get p1 i j

/-- `BoundaryHandler.reflective` (handlers.py:171-215): writes into its argument. -/
def reflective (b : Bounds d K) : (passes : Nat) → Heap n d K → Nat → Heap n d K × Except Err Nat
  | 0, h, a => if anyOut b (h.get a) then (h, .error .diverges) else (h, .ok a)
  | m + 1, h, a =>
    let x := h.get a
    if anyOut b x then
      let h1 := h.write a fun i j => if isLow b x i j then 2 * b.1 j - h.get a i j else h.get a i j
      let h2 := h1.write a fun i j =>
        if isHigh b x i j then 2 * b.2 j - h1.get a i j else h1.get a i j
      reflective b m h2 a
    else (h, .ok a)

/-- `BoundaryHandler.shrink` (handlers.py:217-283): writes into its argument and remembers the
object. -/
def shrink (b : Bounds d K) (mem : Option Nat) (h : Heap n d K) (a : Nat) :
    Heap n d K × Option Nat × Except Err Nat :=
  match mem with
  | none => (h, some a, .ok a)
  | some m =>
    let x := h.get a
    let old := h.get m
    if (List.finRange n).any fun i => (List.finRange d).any fun j =>
        (isLow b x i j || isHigh b x i j) && decide (x i j - old i j = 0) then
      (h, mem, .error .nonFinite)
    else if d = 0 then (h, mem, .error .valueError)
    else
      let step : Mat n d K := fun i j =>
        match rowMin (shrinkSigma b old x i) with
        | some s => s * (x i j - old i j)
        | none => 0
      let h1 := h.write a fun i j => if rowLow b x i then h.get m i j + step i j else h.get a i j
      let h2 := h1.write a fun i j =>
        if rowHigh b x i then h1.get m i j + step i j else h1.get a i j
      (h2, some a, .ok a)

/-- `BoundaryHandler.random` (handlers.py:285-311): writes into its argument. -/
def random (b : Bounds d K) (u l : Vec d K) (h : Heap n d K) (a : Nat) : Heap n d K × Nat :=
  let x := h.get a
  let h1 := h.write a fun i j =>
    if rowHigh b x i then (b.2 j - b.1 j) * u j + b.1 j else h.get a i j
  let h2 := h1.write a fun i j =>
    if rowLow b x i then (b.2 j - b.1 j) * l j + b.1 j else h1.get a i j
  (h2, a)

/-- `BoundaryHandler.intermediate` (handlers.py:313-347): writes into its argument and remembers the
object. -/
def intermediate (b : Bounds d K) (mem : Option Nat) (h : Heap n d K) (a : Nat) :
    Heap n d K × Option Nat × Except Err Nat :=
  match mem with
  | none => (h, some a, .ok a)
  | some m =>
    let x := h.get a
    let h1 := h.write a fun i j =>
      if isLow b x i j then (1 / 2) * (h.get m i j + b.1 j) else h.get a i j
    let h2 := h1.write a fun i j =>
      if isHigh b x i j then (1 / 2) * (h1.get m i j + b.2 j) else h1.get a i j
    (h2, some a, .ok a)

/-- `BoundaryHandler.periodic` (handlers.py:349-393): writes into its argument. -/
def periodic [FloorRing K] (b : Bounds d K) (h : Heap n d K) (a : Nat) :
    Heap n d K × Except Err Nat :=
  let x := h.get a
  if (List.finRange n).any fun i => (List.finRange d).any fun j =>
      (isLow b x i j || isHigh b x i j) && decide (|b.2 j - b.1 j| = 0) then
    (h, .error .nonFinite)
  else
    let h1 := h.write a fun i j =>
      if isLow b x i j then b.2 j - npMod (b.1 j - h.get a i j) |b.2 j - b.1 j| else h.get a i j
    let h2 := h1.write a fun i j =>
      if isHigh b x i j then b.1 j + npMod (h1.get a i j - b.2 j) |b.2 j - b.1 j|
      else h1.get a i j
    (h2, .ok a)

/-- `BoundaryHandler.__call__` (handlers.py:115-144). -/
def bhCall [FloorRing K] (strategy : String) (mem : Option Nat) (b : Bounds d K) (r : BHDraw d K)
    (h : Heap n d K) (a : Nat) : Heap n d K × Option Nat × Except Err Nat :=
  if strategy = "nearest" then
    let (h', p) := nearest b h a
    (h', mem, .ok p)
  else if strategy = "reflective" then
    let (h', p) := reflective b r.passes h a
    (h', mem, p)
  else if strategy = "shrink" then shrink b mem h a
  else if strategy = "random" then
    let (h', p) := random b r.u r.l h a
    (h', mem, .ok p)
  else if strategy = "intermediate" then intermediate b mem h a
  else if strategy = "periodic" then
    let (h', p) := periodic b h a
    (h', mem, p)
  else (h, mem, .error .keyError)

/-- `__apply_clamp` if there is a clamp (handlers.py:451-459): two calls of `np.where`. -/
def clampOpt (c : Option (Clamp d K)) (h : Heap n d K) (v : Nat) : Heap n d K × Nat :=
  match c with
  | none => (h, v)
  | some c =>
    let x := h.get v
    let (h1, v1) := h.alloc fun i j => if decide (x i j ≤ c.1 j) then c.1 j else x i j
    h1.alloc fun i j => if decide (x i j ≥ c.2 j) then c.2 j else h1.get v1 i j

/-- `VelocityHandler.__call__` (handlers.py:420-546) as called by `compute_velocity`, i.e. with the
keywords `position` (the array `pos`) and `bounds`, and without `z`. -/
def vhCall (strategy : String) (mem : Option Nat) (c : Option (Clamp d K)) (pos : Nat)
    (bounds : Option (Bounds d K)) (h : Heap n d K) (v : Nat) :
    Heap n d K × Option Nat × Except Err Nat :=
  if strategy = "unmodified" then
    let (h1, v1) := clampOpt c h v
    (h1, mem, .ok v1)
  else if strategy = "adjust" then
    match mem with
    | none => (h, some pos, .ok v)
    | some m =>
      let (h1, v1) := h.alloc fun i j => h.get pos i j - h.get m i j
      let (h2, v2) := clampOpt c h1 v1
      (h2, some pos, .ok v2)
  else if strategy = "invert" then
    match bounds with
    | none => (h, mem, .error .typeError)
    | some b =>
      let p := h.get pos
      let h1 := h.write v fun i j => if rowLow b p i then (-(1 / 2)) * h.get v i j else h.get v i j
      let h2 := h1.write v fun i j =>
        if rowHigh b p i then (-(1 / 2)) * h1.get v i j else h1.get v i j
      let (h3, v3) := clampOpt c h2 v
      (h3, mem, .ok v3)
  else if strategy = "zero" then
    match bounds with
    | none => (h, mem, .error .typeError)
    | some b =>
      let p := h.get pos
      let h1 := h.write v fun i j => if rowLow b p i then 0 else h.get v i j
      let h2 := h1.write v fun i j => if rowHigh b p i then 0 else h1.get v i j
      (h2, mem, .ok v)
  else (h, mem, .error .keyError)

end handlers

/-- The `best_pos` attribute: the initial empty array, a view of row `i` of an array
(`swarm.pbest_pos[np.argmin(...)]`, star.py:69, pyramid.py:69), or an array of its own (a gather,
ring.py:84, pyramid.py:103, random.py:89). -/
inductive BestRef (n : Nat)
  | empty
  | row (a : Nat) (i : Fin n)
  | array (a : Nat)

/-- An optimizer object with references to its arrays.  The remaining fields are as in `Opt`
(base_single.py:93-124, 195-212). -/
structure Obj (n d : Nat) (K : Type) where
  heap : Heap n d K
  position : Nat
  velocity : Nat
  pbestPos : Nat
  bestPos : BestRef n
  bhMem : Option Nat
  vhMem : Option Nat
  posHistory : List Nat
  velocityHistory : List Nat
  options : Opts K
  pbestCost : Costs n K
  bestCost : Option (XR K)
  currentCost : Costs n K
  top : TopState n
  costHistory : List (XR K)
  meanPbestHistory : List (XR K)
  meanNeighborHistory : List (XR K)
  evals : List (Mat n d K × Costs n K)
  openPools : Nat

/-- The value of a `best_pos` (star.py:69; ring.py:84). -/
def BestRef.read (h : Heap n d K) : BestRef n → BestPos n d K
  | .empty => .empty
  | .row a i => .single (h.get a i)
  | .array a => .perParticle (h.get a)

/-- The swarm with all references resolved (swarms.py:84-121). -/
def Obj.swarm (s : Obj n d K) : Swarm n d K where
  position := s.heap.get s.position
  velocity := s.heap.get s.velocity
  options := s.options
  pbestPos := s.heap.get s.pbestPos
  pbestCost := s.pbestCost
  bestPos := s.bestPos.read s.heap
  bestCost := s.bestCost
  currentCost := s.currentCost

/-- What a user sees when reading all the arrays now (base_single.py:93-124, 195-212). -/
def Obj.read (s : Obj n d K) : Opt n d K where
  swarm := s.swarm
  top := s.top
  bhMem := s.bhMem.map s.heap.get
  vhMem := s.vhMem.map s.heap.get
  costHistory := s.costHistory
  meanPbestHistory := s.meanPbestHistory
  meanNeighborHistory := s.meanNeighborHistory
  posHistory := s.posHistory.map s.heap.get
  velocityHistory := s.velocityHistory.map s.heap.get
  evals := s.evals
  openPools := s.openPools

/-- The user's objective: it returns costs or raises, and it may write into the array it is
given: second component, the contents afterwards (operators.py:238-245). -/
abbrev WritingObjective (n d : Nat) (K : Type) :=
  Nat → Mat n d K → Except Err (Costs n K) × Mat n d K

section
variable [Field K] [LinearOrder K]

/-- Does the class use the Star topology? (global_best.py:153; general_optimizer.py:191). -/
def usesStar (cfg : Config n d K) : Bool :=
  match cfg.kind with
  | .globalBest => true
  | .general .star => true
  | _ => false

/-- Evaluation (global_best.py:209 and copies): in the same process the objective gets the
position array itself; with a pool it gets pickled copies. -/
def evaluate (ev : Mat n d K → Except Err (Costs n K) × Mat n d K) (pool : Bool) (s : Obj n d K) :
    Obj n d K × Except Err (Costs n K) :=
  let r := ev (s.heap.get s.position)
  (if pool then s else { s with heap := s.heap.write s.position r.2 }, r.1)

/-- Personal bests (global_best.py:209-210): `np.where` makes a new array. -/
def recordEval (c : Costs n K) (s : Obj n d K) : Obj n d K :=
  let pb := computePbest { s.swarm with currentCost := c }
  let (h, a) := s.heap.alloc pb.1
  { s with heap := h, pbestPos := a, pbestCost := pb.2, currentCost := c
           evals := s.evals ++ [(s.heap.get s.position, c)] }

/-- The `best_pos` object returned by `compute_gbest`: Star without improvement returns the old one
(star.py:73); Star and a small Pyramid return a view of a row of `pbest_pos`; the others gather a
new array. -/
def bestRef (cfg : Config n d K) (s : Obj n d K) (b : BestPos n d K) : Heap n d K × BestRef n :=
  match b with
  | .empty => (s.heap, s.bestPos)
  | .single _ =>
    match npArgmin s.pbestCost with
    | none => (s.heap, s.bestPos)
    | some i =>
      if usesStar cfg && !(XR.lt (s.pbestCost i) s.swarm.bestCostVal) then (s.heap, s.bestPos)
      else (s.heap, .row s.pbestPos i)
  | .perParticle m =>
    let (h, a) := s.heap.alloc m
    (h, .array a)

/-- `swarm.best_pos, swarm.best_cost = …; _populate_history` (global_best.py:212-225): the history
lists receive the position and velocity objects themselves. -/
def recordBest (cfg : Config n d K) (t : TopState n) (g : GBest n d K) (s : Obj n d K) :
    Obj n d K :=
  let (h, b) := bestRef cfg s g.1
  let best := g.2.getD XR.pinf
  { s with heap := h, bestPos := b, bestCost := g.2, top := t
           costHistory := s.costHistory ++ [best]
           meanPbestHistory := s.meanPbestHistory ++ [npMean s.pbestCost]
           meanNeighborHistory := s.meanNeighborHistory ++ [best]
           posHistory := s.posHistory ++ [s.position]
           velocityHistory := s.velocityHistory ++ [s.velocity] }

/-- `compute_velocity` (operators.py:82-157): `temp_velocity` is a new array. -/
def computeVelocity (s : Obj n d K) (clamp : Option (Clamp d K)) (strategy : String)
    (bounds : Option (Bounds d K)) (r1 r2 : Mat n d K) :
    Heap n d K × Option Nat × Except Err Nat :=
  match s.options.lookup "c1", s.options.lookup "c2", s.options.lookup "w" with
  | some c1, some c2, some w =>
    let (h, v) := s.heap.alloc (tempVelocity c1 c2 w r1 r2 s.swarm)
    let call := vhCall strategy s.vhMem clamp s.position bounds h v
    match s.bestPos with
    | .empty =>
      if d = 0 then call
      else if d = 1 then
        if strategy = "adjust" then call
        else match call with
          | (h', m, .error e) => (h', m, .error e)
          | (h', m, .ok _) => (h', m, .error .valueError)
      else (s.heap, s.vhMem, .error .valueError)
    | _ => call
  | _, _, _ => (s.heap, s.vhMem, .error .keyError)

/-- `compute_position` (operators.py:160-210): a copy of the position is incremented in place and
handed to the boundary handler. -/
def computePosition [FloorRing K] (s : Obj n d K) (bounds : Option (Bounds d K)) (strategy : String)
    (r : BHDraw d K) : Heap n d K × Option Nat × Except Err Nat :=
  let (h1, a) := s.heap.alloc (s.heap.get s.position)
  let h2 := h1.write a fun i j => h1.get a i j + h1.get s.velocity i j
  match bounds with
  | none => (h2, s.bhMem, .ok a)
  | some b => bhCall strategy s.bhMem b r h2 a

variable [Transc K] [FloorRing K]

/-- The position update of the four classes, as `PySwarms.callPosition` (global_best.py:246-248;
binary.py:234). -/
def callPosition (cfg : Config n d K) (r : Draw n d K) (s : Obj n d K) :
    Heap n d K × Option Nat × Except Err Nat :=
  match cfg.kind with
  | .binary =>
    let (h, a) := s.heap.alloc (binaryPosition r.thr (s.heap.get s.velocity))
    (h, s.bhMem, .ok a)
  | _ => computePosition s cfg.bounds cfg.bhStrategy r.bh

/-- The second half of the loop body, as `PySwarms.moveSwarm` (global_best.py:238-248;
binary.py:230-234). -/
def moveSwarm (cfg : Config n d K) (r : Draw n d K) (iters i : Nat) (s : Obj n d K) :
    Obj n d K × Except Err Unit :=
  match callOptions cfg iters i r s.swarm with
  | .error e => (s, .error e)
  | .ok o =>
    let s1 := { s with options := o }
    match computeVelocity s1 cfg.clamp cfg.vhStrategy (velBounds cfg) r.r1 r.r2 with
    | (h, vm, .error e) => ({ s1 with heap := h, vhMem := vm }, .error e)
    | (h, vm, .ok v) =>
      let s2 := { s1 with heap := h, vhMem := vm, velocity := v }
      match callPosition cfg r s2 with
      | (h, bm, .error e) => ({ s2 with heap := h, bhMem := bm }, .error e)
      | (h, bm, .ok p) => ({ s2 with heap := h, bhMem := bm, position := p }, .ok ())

/-- One iteration, as `PySwarms.iterate` (global_best.py:207-248; binary.py:194-234). -/
def iterate (cfg : Config n d K) (ev : Mat n d K → Except Err (Costs n K) × Mat n d K) (pool : Bool)
    (r : Draw n d K) (iters i : Nat) (q : List Bool) (s : Obj n d K) :
    Obj n d K × Except Err Flow :=
  match evaluate ev pool s with
  | (s', .error e) => (s', .error e)
  | (s', .ok c) =>
    let s1 := recordEval c s'
    let yet := s1.swarm.bestCostVal
    match callGbest cfg r.oracle s1.top s1.swarm with
    | (t, .error e) => ({ s1 with top := t }, .error e)
    | (t, .ok g) =>
      let s2 := recordBest cfg t g s1
      let q' := dequeAppend cfg.window q (ftolDelta cfg.ftol s2.swarm.bestCostVal yet)
      if decide (¬ i < cfg.window) && q'.all id then (s2, .ok .stop)
      else match moveSwarm cfg r iters i s2 with
        | (s3, .error e) => (s3, .error e)
        | (s3, .ok ()) => (s3, .ok (.continue q'))

/-- The `for` loop, as `PySwarms.loop` (global_best.py:206-248; binary.py:193-234). -/
def loop (cfg : Config n d K) (ev : WritingObjective n d K) (pool : Bool) (env : Nat → Draw n d K)
    (iters : Nat) : (m i : Nat) → List Bool → Obj n d K → Obj n d K × Except Err Unit
  | 0, _, _, s => (s, .ok ())
  | m + 1, i, q, s =>
    match iterate cfg (ev i) pool (env i) iters i q s with
    | (s', .error e) => (s', .error e)
    | (s', .ok .stop) => (s', .ok ())
    | (s', .ok (.continue q')) => loop cfg ev pool env iters m (i + 1) q' s'

/-- `bh.memory = swarm.position; vh.memory = swarm.position` (global_best.py:198-199; BinaryPSO has
only the second): references, not copies. -/
def setMemories (cfg : Config n d K) (s : Obj n d K) : Obj n d K :=
  { s with
    bhMem := match cfg.kind with
      | .binary => s.bhMem
      | _ => some s.position
    vhMem := some s.position }

/-- `optimize`, as `PySwarms.optimize`; the returned position is a copy (global_best.py:159-264;
binary.py:146-250). -/
def optimize (cfg : Config n d K) (ev : WritingObjective n d K) (iters : Nat) (nproc : Option Nat)
    (env : Nat → Draw n d K) (s : Obj n d K) : Obj n d K × Except Err (XR K × Vec d K) :=
  if nproc = some 0 then (setMemories cfg s, .error .valueError)
  else
    let s0 := { setMemories cfg s with
      pbestCost := fun _ => XR.pinf
      openPools := s.openPools + (if nproc.isSome then 1 else 0) }
    match loop cfg ev nproc.isSome env iters iters 0 [] s0 with
    | (s1, .error e) => (s1, .error e)
    | (s1, .ok ()) =>
      match finish s1.read with
      | .error e => (s1, .error e)
      | .ok r => ({ s1 with openPools := s1.openPools - (if nproc.isSome then 1 else 0) }, .ok r)

/-- The arguments of the constructor with the user's `init_pos` array read from the heap
(base_single.py:44-124). -/
def configOf (cfg : Config n d K) (initPos : Option Nat) (h : Heap n d K) : Config n d K :=
  { cfg with initPos := initPos.map h.get }

/-- `create_swarm` (generators.py:187-245): the user's `init_pos` object itself becomes the position
array, and the position object is also the initial `pbest_pos` (swarms.py:119-121). -/
def installSwarm (sw : Swarm n d K) (initPos : Option Nat) (h : Heap n d K) :
    Heap n d K × Nat × Nat :=
  let (h1, p) := match initPos with
    | some a => (h, a)
    | none => h.alloc sw.position
  let (h2, v) := h1.alloc sw.velocity
  (h2, p, v)

/-- `reset`, as `PySwarms.reset` (base_single.py:173-212; base_discrete.py:175-214). -/
def reset (cfg : Config n d K) (initPos : Option Nat) (r : InitDraw n d K) (s : Obj n d K) :
    Obj n d K × Except Err Unit :=
  let s0 := { s with
    costHistory := [], meanPbestHistory := [], meanNeighborHistory := []
    posHistory := [], velocityHistory := [] }
  match resetSwarm (configOf cfg initPos s.heap) r with
  | .error e => (s0, .error e)
  | .ok sw =>
    let (h, p, v) := installSwarm sw initPos s.heap
    ({ s0 with heap := h, position := p, velocity := v, pbestPos := p, bestPos := .empty
               options := sw.options, pbestCost := sw.pbestCost, bestCost := sw.bestCost
               currentCost := sw.currentCost, evals := [] }, .ok ())

/-- The constructors, as `PySwarms.construct`, on a heap that may already hold arrays of the
user (global_best.py:134-157; local_best.py:154-181; general_optimizer.py:170-195;
binary.py:124-144). -/
def construct (cfg : Config n d K) (initPos : Option Nat) (h : Heap n d K) (r1 r2 : InitDraw n d K) :
    Except Err (Obj n d K) :=
  match PySwarms.construct (configOf cfg initPos h) r1 r2 with
  | .error e => .error e
  | .ok o =>
    let (h', p, v) := installSwarm o.swarm initPos h
    .ok { heap := h', position := p, velocity := v, pbestPos := p, bestPos := .empty
          bhMem := none, vhMem := none, posHistory := [], velocityHistory := []
          options := o.swarm.options, pbestCost := o.swarm.pbestCost, bestCost := o.swarm.bestCost
          currentCost := o.swarm.currentCost, top := {}
          costHistory := [], meanPbestHistory := [], meanNeighborHistory := []
          evals := [], openPools := 0 }

/-- An API call on an optimizer object (base_single.py:147, 173). -/
inductive Call (n d : Nat) (K : Type)
  | optimize (ev : WritingObjective n d K) (iters : Nat) (nproc : Option Nat)
      (env : Nat → Draw n d K)
  | reset (r : InitDraw n d K)

/-- Effect of one API call; exceptions are caught by the caller (base_single.py:147, 173). -/
def step (cfg : Config n d K) (initPos : Option Nat) (s : Obj n d K) : Call n d K → Obj n d K
  | .optimize ev iters nproc env => (optimize cfg ev iters nproc env s).1
  | .reset r => (reset cfg initPos r s).1

/-- Effect of a sequence of API calls (base_single.py:147, 173). -/
def run (cfg : Config n d K) (initPos : Option Nat) (s : Obj n d K) (calls : List (Call n d K)) :
    Obj n d K := calls.foldl (step cfg initPos) s

end

end PySwarms.Mem
