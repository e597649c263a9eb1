import Verif.Model.Optimizer

/-!
# The Python form of `bounds`

The documentation asks for two arrays of shape `(dimensions,)`, in some places for arrays or lists.
Nothing checks it: what happens depends on how each strategy uses the two objects.  Here `bounds` is
a pair of objects of the same form; `Config.bounds` are the values they stand for after
broadcasting (constant vectors for the forms with a single number).

Not modelled: pairs whose two entries have different forms, arrays of another length (refused by
broadcasting) and NumPy scalars.
-/

namespace PySwarms

/-- The forms (base_single.py:75-78: `tuple of numpy.ndarray`; generators.py:35-38, handlers.py:122-125:
`tuple of numpy.ndarray or list`): an array or a list of `d` numbers, an array or a list of one
number, a Python number. -/
inductive Form
  | array
  | list
  | array1
  | list1
  | scalar
  deriving DecidableEq, Repr

section
variable {n d : Nat} {K : Type} [Field K] [LinearOrder K]

/-- The column indices `np.nonzero(position < lb)[1]` (handlers.py:46-54). -/
def colsLow (b : Bounds d K) (x : Mat n d K) : List (Fin d) :=
  (List.finRange n).flatMap fun i => (List.finRange d).filter fun j => isLow b x i j

/-- The column indices `np.nonzero(position > ub)[1]` (handlers.py:46-54). -/
def colsHigh (b : Bounds d K) (x : Mat n d K) : List (Fin d) :=
  (List.finRange n).flatMap fun i => (List.finRange d).filter fun j => isHigh b x i j

/-- `lb[cols]` for an index array `cols` (handlers.py:205, 209, 261, 264, 341, 344): lists and
numbers cannot be indexed by an array, also by an empty one; an array of length one only has the
index 0. -/
def indexByArray (f : Form) (cols : List (Fin d)) : Except Err Unit :=
  match f with
  | .array => .ok ()
  | .array1 => if cols.any fun j => decide (j.val ≠ 0) then .error .indexError else .ok ()
  | .list => .error .typeError
  | .list1 => .error .typeError
  | .scalar => .error .typeError

/-- `np.tile(lb, (n, 1))[rows, cols]` (handlers.py:377-392): any form can be tiled, but one number
gives one column. -/
def indexTiled (f : Form) (cols : List (Fin d)) : Except Err Unit :=
  match f with
  | .array => .ok ()
  | .list => .ok ()
  | _ => if cols.any fun j => decide (j.val ≠ 0) then .error .indexError else .ok ()

/-- `if lower_than_bound[0].size > 0: … lb[lower_than_bound[1]] …` (handlers.py:203-210). -/
def indexIfAny (f : Form) (cols : List (Fin d)) : Except Err Unit :=
  if cols.isEmpty then .ok () else indexByArray f cols

/-- `BoundaryHandler.reflective` (handlers.py:171-215) with the form of the bounds. -/
def bhReflectiveF (f : Form) (b : Bounds d K) : (passes : Nat) → Mat n d K → Except Err (Mat n d K)
  | 0, x => if anyOut b x then .error .diverges else .ok x
  | m + 1, x =>
    if anyOut b x then
      match indexIfAny f (colsLow b x) with
      | .error e => .error e
      | .ok () =>
        match indexIfAny f (colsHigh b x) with
        | .error e => .error e
        | .ok () => bhReflectiveF f b m (reflectPass b x)
    else .ok x

/-- `BoundaryHandler.shrink` (handlers.py:217-283) with the form of the bounds; the bounds are
indexed once the handler has a memory, also when nothing is out of bounds. -/
def bhShrinkF (f : Form) (b : Bounds d K) (mem : Option (Mat n d K)) (x : Mat n d K) :
    Option (Mat n d K) × Except Err (Mat n d K) :=
  match mem with
  | none => bhShrink b mem x
  | some _ =>
    match indexByArray f (colsLow b x) with
    | .error e => (mem, .error e)
    | .ok () =>
      match indexByArray f (colsHigh b x) with
      | .error e => (mem, .error e)
      | .ok () => bhShrink b mem x

/-- `BoundaryHandler.random` (handlers.py:285-311) with the form of the bounds: `zip(ub, lb)` needs
iterables. -/
def bhRandomF (f : Form) (b : Bounds d K) (u l : Vec d K) (x : Mat n d K) :
    Except Err (Mat n d K) :=
  match f with
  | .scalar => .error .typeError
  | _ => .ok (bhRandom b u l x)

/-- `BoundaryHandler.intermediate` (handlers.py:313-347) with the form of the bounds. -/
def bhIntermediateF (f : Form) (b : Bounds d K) (mem : Option (Mat n d K)) (x : Mat n d K) :
    Option (Mat n d K) × Except Err (Mat n d K) :=
  match mem with
  | none => bhIntermediate b mem x
  | some _ =>
    match indexByArray f (colsLow b x) with
    | .error e => (mem, .error e)
    | .ok () =>
      match indexByArray f (colsHigh b x) with
      | .error e => (mem, .error e)
      | .ok () => bhIntermediate b mem x

variable [FloorRing K]

/-- `BoundaryHandler.periodic` (handlers.py:349-393) with the form of the bounds. -/
def bhPeriodicF (f : Form) (b : Bounds d K) (x : Mat n d K) : Except Err (Mat n d K) :=
  match indexTiled f (colsLow b x) with
  | .error e => .error e
  | .ok () =>
    match indexTiled f (colsHigh b x) with
    | .error e => .error e
    | .ok () => bhPeriodic b x

/-- `BoundaryHandler.__call__` (handlers.py:115-144) with the form of the bounds. -/
def bhCallF (f : Form) (strategy : String) (mem : Option (Mat n d K)) (b : Bounds d K)
    (r : BHDraw d K) (x : Mat n d K) : Option (Mat n d K) × Except Err (Mat n d K) :=
  if strategy = "nearest" then (mem, .ok (bhNearest b x))
  else if strategy = "reflective" then (mem, bhReflectiveF f b r.passes x)
  else if strategy = "shrink" then bhShrinkF f b mem x
  else if strategy = "random" then (mem, bhRandomF f b r.u r.l x)
  else if strategy = "intermediate" then bhIntermediateF f b mem x
  else if strategy = "periodic" then (mem, bhPeriodicF f b x)
  else (mem, .error .keyError)

variable [Transc K]

/-- The position update (operators.py:160-210; binary.py:252-267) with the form of the bounds. -/
def callPositionF (f : Form) (cfg : Config n d K) (r : Draw n d K) (mem : Option (Mat n d K))
    (s : Swarm n d K) : Option (Mat n d K) × Except Err (Mat n d K) :=
  match cfg.kind with
  | .binary => (mem, .ok (binaryPosition r.thr s.velocity))
  | _ =>
    let temp : Mat n d K := fun i j => s.position i j + s.velocity i j
    match cfg.bounds with
    | none => (mem, .ok temp)
    | some b => bhCallF f cfg.bhStrategy mem b r.bh temp

/-- The second half of the loop body (global_best.py:238-248, local_best.py:266-276,
general_optimizer.py:278-288, binary.py:230-234) with the form of the bounds.  The velocity handler
only compares with the bounds (handlers.py:46-54), which every form allows. -/
def moveSwarmF (f : Form) (cfg : Config n d K) (r : Draw n d K) (iters i : Nat) (s : Opt n d K) :
    Opt n d K × Except Err Unit :=
  match callOptions cfg iters i r s.swarm with
  | .error e => (s, .error e)
  | .ok o =>
    let s1 := { s with swarm := { s.swarm with options := o } }
    match computeVelocity s1.swarm cfg.clamp cfg.vhStrategy s1.vhMem (velBounds cfg) r.r1 r.r2 with
    | (vm, .error e) => ({ s1 with vhMem := vm }, .error e)
    | (vm, .ok v) =>
      let s2 := { s1 with vhMem := vm, swarm := { s1.swarm with velocity := v } }
      match callPositionF f cfg r s2.bhMem s2.swarm with
      | (bm, .error e) => ({ s2 with bhMem := bm }, .error e)
      | (bm, .ok p) => ({ s2 with bhMem := bm, swarm := { s2.swarm with position := p } }, .ok ())

/-- One iteration (global_best.py:207-248, local_best.py:231-276, general_optimizer.py:245-288,
binary.py:194-234) with the form of the bounds. -/
def iterateF (f : Form) (cfg : Config n d K) (ev : Mat n d K → Except Err (Costs n K))
    (r : Draw n d K) (iters i : Nat) (q : List Bool) (s : Opt n d K) :
    Opt n d K × Except Err Flow :=
  match ev s.swarm.position with
  | .error e => (s, .error e)
  | .ok c =>
    let s1 := recordEval c s
    let yet := s1.swarm.bestCostVal
    match callGbest cfg r.oracle s1.top s1.swarm with
    | (t, .error e) => ({ s1 with top := t }, .error e)
    | (t, .ok g) =>
      let s2 := recordBest t g s1
      let q' := dequeAppend cfg.window q (ftolDelta cfg.ftol s2.swarm.bestCostVal yet)
      if decide (¬ i < cfg.window) && q'.all id then (s2, .ok .stop)
      else match moveSwarmF f cfg r iters i s2 with
        | (s3, .error e) => (s3, .error e)
        | (s3, .ok ()) => (s3, .ok (.continue q'))

/-- The `for i in range(iters)` loop (global_best.py:206, local_best.py:230,
general_optimizer.py:244, binary.py:193) with the form of the bounds. -/
def loopF (f : Form) (cfg : Config n d K) (ev : Nat → Mat n d K → Except Err (Costs n K))
    (env : Nat → Draw n d K) (iters : Nat) :
    (m i : Nat) → List Bool → Opt n d K → Opt n d K × Except Err Unit
  | 0, _, _, s => (s, .ok ())
  | m + 1, i, q, s =>
    match iterateF f cfg (ev i) (env i) iters i q s with
    | (s', .error e) => (s', .error e)
    | (s', .ok .stop) => (s', .ok ())
    | (s', .ok (.continue q')) => loopF f cfg ev env iters m (i + 1) q' s'

/-- `optimize` (global_best.py:159-264, local_best.py:183-292, general_optimizer.py:197-304,
binary.py:146-250) with the form of the bounds. -/
def optimizeF (f : Form) (cfg : Config n d K) (ev : Nat → Mat n d K → Except Err (Costs n K))
    (iters : Nat) (nproc : Option Nat) (env : Nat → Draw n d K) (s : Opt n d K) :
    Opt n d K × Except Err (XR K × Vec d K) :=
  if nproc = some 0 then
    ({ s with bhMem := (prepare cfg s).bhMem, vhMem := (prepare cfg s).vhMem }, .error .valueError)
  else
    let s0 := { prepare cfg s with
      openPools := s.openPools + (if nproc.isSome then 1 else 0) }
    match loopF f cfg ev env iters iters 0 [] s0 with
    | (s1, .error e) => (s1, .error e)
    | (s1, .ok ()) =>
      match finish s1 with
      | .error e => (s1, .error e)
      | .ok r => ({ s1 with openPools := s1.openPools - (if nproc.isSome then 1 else 0) }, .ok r)

/-- `create_swarm(...)` as called by `reset` (base_single.py:203-212) with the form of the bounds:
`np.array(lb)[np.newaxis, :]` raises `IndexError` for a number (generators.py:75-80), a comparison
with given positions does not (generators.py:64-66). -/
def resetSwarmF (f : Form) (cfg : Config n d K) (r : InitDraw n d K) : Except Err (Swarm n d K) :=
  if decide (f = .scalar) && cfg.bounds.isSome && cfg.initPos.isNone && !cfg.isBinary then
    .error .indexError
  else resetSwarm cfg r

/-- `reset` (base_single.py:173-212, base_discrete.py:175-214) with the form of the bounds. -/
def resetF (f : Form) (cfg : Config n d K) (r : InitDraw n d K) (s : Opt n d K) :
    Opt n d K × Except Err Unit :=
  let s0 := { s with
    costHistory := [], meanPbestHistory := [], meanNeighborHistory := []
    posHistory := [], velocityHistory := [] }
  match resetSwarmF f cfg r with
  | .error e => (s0, .error e)
  | .ok sw => ({ s0 with swarm := sw, evals := [] }, .ok ())

/-- The constructors (global_best.py:134-157, local_best.py:154-181, general_optimizer.py:170-195,
binary.py:126-144) with the form of the bounds. -/
def constructF (f : Form) (cfg : Config n d K) (r1 r2 : InitDraw n d K) : Except Err (Opt n d K) :=
  if cfg.kind.needsKP && (cfg.args.k.isNone || cfg.args.p.isNone) then .error .keyError
  else match checkFtolIter cfg.ftolIter with
    | .error e => .error e
    | .ok () =>
      match resetSwarmF f cfg r1 with
      | .error e => .error e
      | .ok _ =>
        match resetSwarmF f cfg r2 with
        | .error e => .error e
        | .ok sw => .ok { swarm := sw }

/-- A sequence of API calls; exceptions are caught by the caller (base_single.py:147, 173). -/
def runOpsF (f : Form) (cfg : Config n d K) (s : Opt n d K) (ops : List (Op n d K)) : Opt n d K :=
  ops.foldl (fun s op => match op with
    | .optimize ev iters nproc env => (optimizeF f cfg ev iters nproc env s).1
    | .reset r => (resetF f cfg r s).1) s

end

end PySwarms
