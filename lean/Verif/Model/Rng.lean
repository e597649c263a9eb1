import Verif.Model.Optimizer

/-!
# Consumption of the global NumPy generator

`Model/Optimizer.lean` takes the random numbers of every iteration as an argument.  Here the same
methods are modelled as programs that read them, one after the other, from the state `G` of the
global generator `np.random`.

All calls in the library:
* `np.random.uniform(..., size)` and `np.random.random_sample(size)` fill an array in row-major
  order with consecutive doubles (generators.py:70, 81, 172; operators.py:134, 139;
  handlers.py:300, 307; binary.py:265);
* `np.random.randint(2, size)` (generators.py:135);
* `np.random.choice(candidates, k, replace=False)` (topology/random.py:219);
* `np.random.rand()` (handlers.py:722) is never reached by the optimizers: they do not pass
  `end_opts`, and the lookup `kwargs["end_opts"]` before it raises `KeyError`
  (`callOptions_oh` in `Props/Seed.lean`).
-/

namespace PySwarms

variable {n d : Nat} {K G : Type}

/-- The global generator: the next double of `[0, 1)`, a matrix of random bits
(`np.random.randint(2, size=(n, d))`), and a random choice of `k` particles other than `i`
(`np.random.choice`), each with the state after it (`np.random`, generators.py:70-83, 135-139,
172; operators.py:134, 139; random.py:219). -/
structure Rng (n d : Nat) (K G : Type) where
  real : G → K × G
  bits : G → (Fin n → Fin d → Bool) × G
  choice : Nat → Fin n → G → List (Fin n) × G

/-- The deterministic external answers: SciPy's k-d tree and Delaunay triangulation, and the pass
allowance of the `reflective` loop (ring.py:65-68; pyramid.py:76-79; handlers.py:202). -/
structure Libs (n d : Nat) (K : Type) where
  knn : Nat → Nat → Mat n d K → Fin n → List (Fin n)
  delaunay : Mat n d K → Except Err (Fin n → List (Fin n))
  passes : Nat

/-- `[next(0), next(1), …, next(m - 1)]`, threading the generator through (generators.py:70, 81,
172). -/
def sampleFam {α : Type} : (m : Nat) → (Fin m → G → α × G) → G → (Fin m → α) × G
  | 0, _, g => (fun i => i.elim0, g)
  | m + 1, next, g =>
    let a := next 0 g
    let f := sampleFam m (fun i => next i.succ) a.2
    (Fin.cons a.1 f.1, f.2)

/-- `np.random.random_sample((d,))` (handlers.py:300, 307; binary.py:265). -/
def sampleVec (rng : Rng n d K G) (g : G) : Vec d K × G := sampleFam d (fun _ => rng.real) g

/-- `np.random.random_sample((n, d))`, row by row (generators.py:70, 81, 172; operators.py:134,
139). -/
def sampleMat (rng : Rng n d K G) (g : G) : Mat n d K × G :=
  sampleFam n (fun _ => sampleVec rng) g

section
variable [Field K] [LinearOrder K]

/-- `create_swarm` as called by `reset` (generators.py:187-245, 24-93, 96-184;
base_single.py:203-212, base_discrete.py:205-214): the positions (unless `init_pos` is given), then
the velocities.  A rejected `init_pos` raises before the velocities are drawn. -/
def resetSwarmG (cfg : Config n d K) (rng : Rng n d K G) (g : G) : G × Except Err (Swarm n d K) :=
  let pos : G × Except Err (Mat n d K) :=
    if cfg.isBinary then
      match cfg.initPos with
      | some p => (g, generateDiscreteSwarm true (some p) (fun _ _ => false) (fun _ j => j))
      | none =>
        let u := rng.bits g
        (u.2, generateDiscreteSwarm true none u.1 (fun _ j => j))
    else
      match cfg.initPos with
      | some p => (g, generateSwarm cfg.bounds cfg.center (some p) (fun _ _ => 0))
      | none =>
        let u := sampleMat rng g
        (u.2, generateSwarm cfg.bounds cfg.center none u.1)
  match pos with
  | (g1, .error e) => (g1, .error e)
  | (g1, .ok p) =>
    let u := sampleMat rng g1
    (u.2, .ok (mkSwarm p (generateVelocity cfg.clamp u.1) cfg.options))

/-- `reset` (base_single.py:173-212, base_discrete.py:175-214). -/
def resetG (cfg : Config n d K) (rng : Rng n d K G) (g : G) (s : Opt n d K) :
    G × Opt n d K × Except Err Unit :=
  let s0 := { s with
    costHistory := [], meanPbestHistory := [], meanNeighborHistory := []
    posHistory := [], velocityHistory := [] }
  match resetSwarmG cfg rng g with
  | (g1, .error e) => (g1, s0, .error e)
  | (g1, .ok sw) => (g1, { s0 with swarm := sw, evals := [] }, .ok ())

/-- The constructors (global_best.py:134-157, local_best.py:154-181, general_optimizer.py:170-195,
binary.py:124-144): argument checks, then two calls of `reset`. -/
def constructG (cfg : Config n d K) (rng : Rng n d K G) (g : G) : G × Except Err (Opt n d K) :=
  if cfg.kind.needsKP && (cfg.args.k.isNone || cfg.args.p.isNone) then (g, .error .keyError)
  else match checkFtolIter cfg.ftolIter with
    | .error e => (g, .error e)
    | .ok () =>
      match resetSwarmG cfg rng g with
      | (g1, .error e) => (g1, .error e)
      | (g1, .ok _) =>
        match resetSwarmG cfg rng g1 with
        | (g2, .error e) => (g2, .error e)
        | (g2, .ok sw) => (g2, .ok { swarm := sw })

/-- Does `compute_gbest` draw random neighbours, and how many per particle?  Only the `Random`
topology does, if it is dynamic or has no neighbour lists yet (random.py:66-67); with too large a
`k` the first `np.random.choice` raises without drawing (random.py:219). -/
def drawsChoices (cfg : Config n d K) (noLists : Bool) : Option Nat :=
  match cfg.kind, cfg.args.k with
  | .general (.random st), some k =>
    if ((st && noLists) || !st) && decide (n ≠ 0) && decide (k ≤ n - 1) then some k else none
  | _, _ => none

/-- `self.top.compute_gbest(...)` (global_best.py:213, local_best.py:239-242,
general_optimizer.py:252-254, binary.py:202-205); the neighbours of `Random` are drawn for one
particle after the other (random.py:217-227). -/
def callGbestG (cfg : Config n d K) (rng : Rng n d K G) (ext : Libs n d K) (g : G) (t : TopState n)
    (s : Swarm n d K) : G × TopState n × Except Err (GBest n d K) :=
  match drawsChoices cfg t.neighbor.isNone with
  | some k =>
    let c := sampleFam n (rng.choice k) g
    (c.2, callGbest cfg ⟨ext.knn, ext.delaunay, fun _ => c.1⟩ t s)
  | none => (g, callGbest cfg ⟨ext.knn, ext.delaunay, fun _ _ => []⟩ t s)

/-- `compute_velocity` (operators.py:126-143): the options are read first, then the two matrices
of random numbers are drawn. -/
def computeVelocityG (cfg : Config n d K) (rng : Rng n d K G) (g : G) (s : Swarm n d K)
    (mem : Option (Mat n d K)) (bounds : Option (Bounds d K)) :
    G × Option (Mat n d K) × Except Err (Mat n d K) :=
  match s.options.lookup "c1", s.options.lookup "c2", s.options.lookup "w" with
  | some _, some _, some _ =>
    let r1 := sampleMat rng g
    let r2 := sampleMat rng r1.2
    (r2.2, computeVelocity s cfg.clamp cfg.vhStrategy mem bounds r1.1 r2.1)
  | _, _, _ => (g, mem, .error .keyError)

variable [Transc K] [FloorRing K]

/-- The position update: `BinaryPSO` draws `d` thresholds (binary.py:264-267); the strategy
`random` of the boundary handler draws one vector for the upper and one for the lower bounds,
whether or not a particle is out of bounds (handlers.py:297-310); nothing else draws. -/
def callPositionG (cfg : Config n d K) (rng : Rng n d K G) (ext : Libs n d K) (g : G)
    (mem : Option (Mat n d K)) (s : Swarm n d K) :
    G × Option (Mat n d K) × Except Err (Mat n d K) :=
  match cfg.kind with
  | .binary =>
    let u := sampleVec rng g
    (u.2, mem, .ok (binaryPosition u.1 s.velocity))
  | _ =>
    if cfg.bounds.isSome && decide (cfg.bhStrategy = "random") then
      let u := sampleVec rng g
      let l := sampleVec rng u.2
      (l.2, computePosition s cfg.bounds cfg.bhStrategy mem ⟨u.1, l.1, ext.passes⟩)
    else
      (g, computePosition s cfg.bounds cfg.bhStrategy mem ⟨fun _ => 0, fun _ => 0, ext.passes⟩)

/-- The options update (global_best.py:238-241, local_best.py:267-269,
general_optimizer.py:278-281); it never draws (see the head of this file). -/
def callOptionsG (cfg : Config n d K) (iters i : Nat) (s : Swarm n d K) : Except Err (Opts K) :=
  match cfg.kind with
  | .binary => .ok s.options
  | _ => ohCall cfg.ohStrategy cfg.options
      { iternow := some (i : K), itermax := some (iters : K) } (fun _ => 0)

/-- The second half of the loop body (global_best.py:238-248, local_best.py:266-276,
general_optimizer.py:278-288, binary.py:230-234). -/
def moveSwarmG (cfg : Config n d K) (rng : Rng n d K G) (ext : Libs n d K) (iters i : Nat) (g : G)
    (s : Opt n d K) : G × Opt n d K × Except Err Unit :=
  match callOptionsG cfg iters i s.swarm with
  | .error e => (g, s, .error e)
  | .ok o =>
    let s1 := { s with swarm := { s.swarm with options := o } }
    match computeVelocityG cfg rng g s1.swarm s1.vhMem (velBounds cfg) with
    | (g1, vm, .error e) => (g1, { s1 with vhMem := vm }, .error e)
    | (g1, vm, .ok v) =>
      let s2 := { s1 with vhMem := vm, swarm := { s1.swarm with velocity := v } }
      match callPositionG cfg rng ext g1 s2.bhMem s2.swarm with
      | (g2, bm, .error e) => (g2, { s2 with bhMem := bm }, .error e)
      | (g2, bm, .ok p) =>
        (g2, { s2 with bhMem := bm, swarm := { s2.swarm with position := p } }, .ok ())

/-- An objective, as seen by one iteration: it may itself use the global generator
(operators.py:239). -/
abbrev ObjG (n d : Nat) (K G : Type) := Mat n d K → G → G × Except Err (Costs n K)

/-- One iteration of `optimize` (global_best.py:207-248, local_best.py:231-276,
general_optimizer.py:245-288, binary.py:194-234). -/
def iterateG (cfg : Config n d K) (ev : ObjG n d K G) (rng : Rng n d K G) (ext : Libs n d K)
    (iters i : Nat) (q : List Bool) (g : G) (s : Opt n d K) : G × Opt n d K × Except Err Flow :=
  match ev s.swarm.position g with
  | (g1, .error e) => (g1, s, .error e)
  | (g1, .ok c) =>
    let s1 := recordEval c s
    let yet := s1.swarm.bestCostVal
    match callGbestG cfg rng ext g1 s1.top s1.swarm with
    | (g2, t, .error e) => (g2, { s1 with top := t }, .error e)
    | (g2, t, .ok b) =>
      let s2 := recordBest t b s1
      let q' := dequeAppend cfg.window q (ftolDelta cfg.ftol s2.swarm.bestCostVal yet)
      if decide (¬ i < cfg.window) && q'.all id then (g2, s2, .ok .stop)
      else match moveSwarmG cfg rng ext iters i g2 s2 with
        | (g3, s3, .error e) => (g3, s3, .error e)
        | (g3, s3, .ok ()) => (g3, s3, .ok (.continue q'))

/-- The `for i in range(iters)` loop from iteration `i`, `m` iterations remaining
(global_best.py:206, local_best.py:230, general_optimizer.py:244, binary.py:193). -/
def loopG (cfg : Config n d K) (ev : Nat → ObjG n d K G) (rng : Rng n d K G) (ext : Libs n d K)
    (iters : Nat) : (m i : Nat) → List Bool → G → Opt n d K → G × Opt n d K × Except Err Unit
  | 0, _, _, g, s => (g, s, .ok ())
  | m + 1, i, q, g, s =>
    match iterateG cfg (ev i) rng ext iters i q g s with
    | (g', s', .error e) => (g', s', .error e)
    | (g', s', .ok .stop) => (g', s', .ok ())
    | (g', s', .ok (.continue q')) => loopG cfg ev rng ext iters m (i + 1) q' g' s'

/-- `optimize(objective_func, iters, n_processes)` (global_best.py:159-264, local_best.py:183-292,
general_optimizer.py:197-304, binary.py:146-250). -/
def optimizeG (cfg : Config n d K) (ev : Nat → ObjG n d K G) (rng : Rng n d K G) (ext : Libs n d K)
    (iters : Nat) (nproc : Option Nat) (g : G) (s : Opt n d K) :
    G × Opt n d K × Except Err (XR K × Vec d K) :=
  if nproc = some 0 then
    (g, { s with bhMem := (prepare cfg s).bhMem, vhMem := (prepare cfg s).vhMem },
      .error .valueError)
  else
    let s0 := { prepare cfg s with
      openPools := s.openPools + (if nproc.isSome then 1 else 0) }
    match loopG cfg ev rng ext iters iters 0 [] g s0 with
    | (g1, s1, .error e) => (g1, s1, .error e)
    | (g1, s1, .ok ()) =>
      match finish s1 with
      | .error e => (g1, s1, .error e)
      | .ok r =>
        (g1, { s1 with openPools := s1.openPools - (if nproc.isSome then 1 else 0) }, .ok r)

/-- An API call on an optimizer object, without the random numbers (base_single.py:147, 173). -/
inductive OpG (n d : Nat) (K G : Type)
  | optimize (ev : Nat → ObjG n d K G) (ext : Libs n d K) (iters : Nat) (nproc : Option Nat)
  | reset

/-- Effect of one API call on the generator and the object (base_single.py:147, 173). -/
def stepG (cfg : Config n d K) (rng : Rng n d K G) (gs : G × Opt n d K) : OpG n d K G → G × Opt n d K
  | .optimize ev ext iters nproc =>
    let o := optimizeG cfg ev rng ext iters nproc gs.1 gs.2
    (o.1, o.2.1)
  | .reset =>
    let o := resetG cfg rng gs.1 gs.2
    (o.1, o.2.1)

/-- Effect of a sequence of API calls (base_single.py:147, 173). -/
def runG (cfg : Config n d K) (rng : Rng n d K G) (gs : G × Opt n d K) (ops : List (OpG n d K G)) :
    G × Opt n d K :=
  ops.foldl (stepG cfg rng) gs

end

end PySwarms
