import Verif.Model.Optimizer

/-!
# The Python form of `velocity_clamp`

The constructors document `velocity_clamp` as a tuple of two entries (base_single.py:79-82), the
velocity handler as a tuple of two arrays or lists of shape `(dimensions,)`
(handlers.py:427-430).  Nothing checks it: what happens depends on how `generate_velocity` and
`__apply_clamp` use the object.

Not modelled: entries with more than one axis, and for `dimensions = 1` entries with another
length than one, which broadcast to a velocity matrix of another shape.
-/

namespace PySwarms

/-- One entry of the pair: a Python number, a list of numbers or a one-dimensional array
(generators.py:160-163; handlers.py:427-430). -/
inductive Entry (K : Type)
  | number (x : K)
  | list (xs : List K)
  | array (xs : List K)
  deriving DecidableEq, Repr

/-- What is passed as `velocity_clamp`: `None`, a single number, or a sequence of entries (a tuple or
list; an array with two axes is a sequence of arrays) (base_single.py:79-82). -/
inductive ClampArg (K : Type)
  | none
  | number (x : K)
  | seq (es : List (Entry K))
  deriving DecidableEq, Repr

section
variable {n d : Nat} {K : Type} [Field K] [LinearOrder K]

/-- The values of an entry (generators.py:172-174; handlers.py:455-458). -/
def Entry.vals : Entry K → List K
  | .number x => [x]
  | .list xs => xs
  | .array xs => xs

/-- Does the entry broadcast against a matrix with `d` columns without changing its shape?
(generators.py:172-174; handlers.py:455-458) -/
def Entry.fits (d : Nat) (e : Entry K) : Bool := e.vals.length == 1 || e.vals.length == d

/-- The entry broadcast to one row (generators.py:172-174; handlers.py:455-458). -/
def Entry.row (d : Nat) (e : Entry K) : Vec d K := fun j =>
  if e.vals.length = 1 then e.vals.getD 0 0 else e.vals.getD j.val 0

/-- The operand is an array (generators.py:172). -/
def Entry.isArray : Entry K → Bool
  | .array _ => true
  | _ => false

/-- The operand is a list (generators.py:172). -/
def Entry.isList : Entry K → Bool
  | .list _ => true
  | _ => false

/-- `min_velocity, max_velocity = clamp` (generators.py:171, handlers.py:454): a number cannot be
unpacked, other lengths than two raise `ValueError`. -/
def unpackClamp : ClampArg K → Except Err (Entry K × Entry K)
  | .seq [lo, hi] => .ok (lo, hi)
  | .seq _ => .error .valueError
  | _ => .error .typeError

/-- `max_velocity - min_velocity` (generators.py:172): without an array on one side a list has no
subtraction; arrays need lengths that broadcast. -/
def subEntries (hi lo : Entry K) : Except Err Unit :=
  if !hi.isArray && !lo.isArray && (hi.isList || lo.isList) then .error .typeError
  else if hi.vals.length == lo.vals.length || hi.vals.length == 1 || lo.vals.length == 1 then .ok ()
  else .error .valueError

/-- `generate_velocity` (generators.py:151-184) with the form of the clamp.  Both `except` clauses
raise the exception again; `len(clamp)` exists for every clamp that raises `ValueError` here. -/
def generateVelocityCl (a : ClampArg K) (u : Mat n d K) : Except Err (Mat n d K) :=
  match a with
  | .none => .ok fun i j => (1 - 0) * u i j + 0
  | _ =>
    match unpackClamp a with
    | .error e => .error e
    | .ok (lo, hi) =>
      match subEntries hi lo with
      | .error e => .error e
      | .ok () =>
        if d = 1 && !(lo.fits d && hi.fits d) then .error .unmodelled
        else if lo.fits d && hi.fits d then
          .ok fun i j => (hi.row d j - lo.row d j) * u i j + lo.row d j
        else .error .valueError

/-- `create_swarm` (generators.py:229-245) as called by `reset` (base_single.py:203-212,
base_discrete.py:205-214) with the form of the clamp: the positions come first. -/
def resetSwarmCl (a : ClampArg K) (cfg : Config n d K) (r : InitDraw n d K) :
    Except Err (Swarm n d K) :=
  let position : Except Err (Mat n d K) :=
    if cfg.isBinary then generateDiscreteSwarm cfg.isBinary cfg.initPos r.bits r.argsort
    else generateSwarm cfg.bounds cfg.center cfg.initPos r.pos
  match position with
  | .error e => .error e
  | .ok p =>
    match generateVelocityCl a r.vel with
    | .error e => .error e
    | .ok v => .ok (mkSwarm p v cfg.options)

/-- `VelocityHandler.__apply_clamp` (handlers.py:451-459) with the form of the clamp: comparisons
with the array of velocities and `np.where` take numbers, lists and arrays alike. -/
def applyClampCl (a : ClampArg K) (v : Mat n d K) : Except Err (Mat n d K) :=
  match unpackClamp a with
  | .error e => .error e
  | .ok (lo, hi) =>
    if d = 1 && !(lo.fits d && hi.fits d) then .error .unmodelled
    else if lo.fits d && hi.fits d then
      .ok fun i j =>
        let low := decide (v i j ≤ lo.row d j)
        let high := decide (v i j ≥ hi.row d j)
        let v1 := if low then lo.row d j else v i j
        if high then hi.row d j else v1
    else .error .valueError

/-- `if clamp is not None: new_vel = self.__apply_clamp(new_vel, clamp)` (handlers.py:463-467,
491-492, 525-526). -/
def clampOptCl (a : ClampArg K) (v : Mat n d K) : Except Err (Mat n d K) :=
  match a with
  | .none => .ok v
  | _ => applyClampCl a v

/-- `VelocityHandler.__call__` (handlers.py:420-546) with the form of the clamp.  `adjust` replaces
its memory before it clamps (handlers.py:489-492). -/
def vhCallCl (strategy : String) (mem : Option (Mat n d K)) (a : ClampArg K) (kw : VHKw n d K)
    (v : Mat n d K) : Option (Mat n d K) × Except Err (Mat n d K) :=
  if strategy = "unmodified" then (mem, clampOptCl a v)
  else if strategy = "adjust" then
    match kw.position with
    | none => (mem, .error .keyError)
    | some p =>
      match mem with
      | none => (some p, .ok v)
      | some m => (some p, clampOptCl a fun i j => p i j - m i j)
  else if strategy = "invert" then
    match vhInvert none kw v with
    | .error e => (mem, .error e)
    | .ok v1 => (mem, clampOptCl a v1)
  else if strategy = "zero" then (mem, vhZero kw v)
  else (mem, .error .keyError)

/-- `compute_velocity` (operators.py:82-157) with the form of the clamp; see `computeVelocity` for an
empty `best_pos`. -/
def computeVelocityCl (s : Swarm n d K) (a : ClampArg K) (strategy : String)
    (mem : Option (Mat n d K)) (bounds : Option (Bounds d K)) (r1 r2 : Mat n d K) :
    Option (Mat n d K) × Except Err (Mat n d K) :=
  match s.options.lookup "c1", s.options.lookup "c2", s.options.lookup "w" with
  | some c1, some c2, some w =>
    let call := vhCallCl strategy mem a
      { position := some s.position, bounds := some bounds } (tempVelocity c1 c2 w r1 r2 s)
    match s.bestPos with
    | .empty =>
      if d = 0 then call
      else if d = 1 then
        if strategy = "adjust" then call
        else match call with
          | (m, .error e) => (m, .error e)
          | (m, .ok _) => (m, .error .valueError)
      else (mem, .error .valueError)
    | _ => call
  | _, _, _ => (mem, .error .keyError)

variable [FloorRing K] [Transc K]

/-- The second half of the loop body (global_best.py:238-248, local_best.py:266-276,
general_optimizer.py:278-288, binary.py:230-234) with the form of the clamp. -/
def moveSwarmCl (a : ClampArg K) (cfg : Config n d K) (r : Draw n d K) (iters i : Nat)
    (s : Opt n d K) : Opt n d K × Except Err Unit :=
  match callOptions cfg iters i r s.swarm with
  | .error e => (s, .error e)
  | .ok o =>
    let s1 := { s with swarm := { s.swarm with options := o } }
    match computeVelocityCl s1.swarm a cfg.vhStrategy s1.vhMem (velBounds cfg) r.r1 r.r2 with
    | (vm, .error e) => ({ s1 with vhMem := vm }, .error e)
    | (vm, .ok v) =>
      let s2 := { s1 with vhMem := vm, swarm := { s1.swarm with velocity := v } }
      match callPosition cfg r s2.bhMem s2.swarm with
      | (bm, .error e) => ({ s2 with bhMem := bm }, .error e)
      | (bm, .ok p) => ({ s2 with bhMem := bm, swarm := { s2.swarm with position := p } }, .ok ())

/-- One iteration (global_best.py:207-248, local_best.py:231-276, general_optimizer.py:245-288,
binary.py:194-234) with the form of the clamp. -/
def iterateCl (a : ClampArg K) (cfg : Config n d K) (ev : Mat n d K → Except Err (Costs n K))
    (r : Draw n d K) (iters i : Nat) (q : List Bool) (s : Opt n d K) :
    Opt n d K × Except Err Flow :=
  match ev s.swarm.position with
  | .error e => (s, .error e)
  | .ok c =>
    let s1 := recordEval c s
    let yet := s1.swarm.bestCostVal
    match callGbest cfg r.oracle s1.top s1.swarm with
    | (t, .error e) => ({ s1 with top := t }, .error e)
    | (t, .ok g) =>
      let s2 := recordBest t g s1
      let q' := dequeAppend cfg.window q (ftolDelta cfg.ftol s2.swarm.bestCostVal yet)
      if decide (¬ i < cfg.window) && q'.all id then (s2, .ok .stop)
      else match moveSwarmCl a cfg r iters i s2 with
        | (s3, .error e) => (s3, .error e)
        | (s3, .ok ()) => (s3, .ok (.continue q'))

/-- The `for i in range(iters)` loop (global_best.py:206, local_best.py:230,
general_optimizer.py:244, binary.py:193) with the form of the clamp. -/
def loopCl (a : ClampArg K) (cfg : Config n d K) (ev : Nat → Mat n d K → Except Err (Costs n K))
    (env : Nat → Draw n d K) (iters : Nat) :
    (m i : Nat) → List Bool → Opt n d K → Opt n d K × Except Err Unit
  | 0, _, _, s => (s, .ok ())
  | m + 1, i, q, s =>
    match iterateCl a cfg (ev i) (env i) iters i q s with
    | (s', .error e) => (s', .error e)
    | (s', .ok .stop) => (s', .ok ())
    | (s', .ok (.continue q')) => loopCl a cfg ev env iters m (i + 1) q' s'

/-- `optimize` (global_best.py:159-264, local_best.py:183-292, general_optimizer.py:197-304,
binary.py:146-250) with the form of the clamp. -/
def optimizeCl (a : ClampArg K) (cfg : Config n d K)
    (ev : Nat → Mat n d K → Except Err (Costs n K)) (iters : Nat) (nproc : Option Nat)
    (env : Nat → Draw n d K) (s : Opt n d K) : Opt n d K × Except Err (XR K × Vec d K) :=
  if nproc = some 0 then
    ({ s with bhMem := (prepare cfg s).bhMem, vhMem := (prepare cfg s).vhMem }, .error .valueError)
  else
    let s0 := { prepare cfg s with
      openPools := s.openPools + (if nproc.isSome then 1 else 0) }
    match loopCl a cfg ev env iters iters 0 [] s0 with
    | (s1, .error e) => (s1, .error e)
    | (s1, .ok ()) =>
      match finish s1 with
      | .error e => (s1, .error e)
      | .ok r => ({ s1 with openPools := s1.openPools - (if nproc.isSome then 1 else 0) }, .ok r)

/-- `reset` (base_single.py:173-212, base_discrete.py:175-214) with the form of the clamp. -/
def resetCl (a : ClampArg K) (cfg : Config n d K) (r : InitDraw n d K) (s : Opt n d K) :
    Opt n d K × Except Err Unit :=
  let s0 := { s with
    costHistory := [], meanPbestHistory := [], meanNeighborHistory := []
    posHistory := [], velocityHistory := [] }
  match resetSwarmCl a cfg r with
  | .error e => (s0, .error e)
  | .ok sw => ({ s0 with swarm := sw, evals := [] }, .ok ())

/-- The constructors (global_best.py:134-157, local_best.py:154-181, general_optimizer.py:170-195,
binary.py:126-144) with the form of the clamp. -/
def constructCl (a : ClampArg K) (cfg : Config n d K) (r1 r2 : InitDraw n d K) :
    Except Err (Opt n d K) :=
  if cfg.kind.needsKP && (cfg.args.k.isNone || cfg.args.p.isNone) then .error .keyError
  else match checkFtolIter cfg.ftolIter with
    | .error e => .error e
    | .ok () =>
      match resetSwarmCl a cfg r1 with
      | .error e => .error e
      | .ok _ =>
        match resetSwarmCl a cfg r2 with
        | .error e => .error e
        | .ok sw => .ok { swarm := sw }

/-- A sequence of API calls; exceptions are caught by the caller (base_single.py:147, 173). -/
def runOpsCl (a : ClampArg K) (cfg : Config n d K) (s : Opt n d K) (ops : List (Op n d K)) :
    Opt n d K :=
  ops.foldl (fun s op => match op with
    | .optimize ev iters nproc env => (optimizeCl a cfg ev iters nproc env s).1
    | .reset r => (resetCl a cfg r s).1) s

end

end PySwarms
