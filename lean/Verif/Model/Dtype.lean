import Verif.Model.Optimizer

/-!
# Data types of the position matrix

The values of all other model files are exact numbers.  In the program `swarm.position` is a NumPy
array whose data type comes from `init_pos` (generators.py:61-68, 127-133: `pos = init_pos`), and
three expressions behave differently for some types (NumPy 1.16 rules, trusted):

* `a - b` of two boolean arrays raises `TypeError`; of two unsigned arrays it is taken modulo
  `2 ** bits` (operators.py:135, 140);
* `temp_position += swarm.velocity` raises `TypeError` when the sum cannot be cast back to the type
  of the position by the rule `same_kind` (operators.py:198);
* `np.where` and the comparison in BinaryPSO make arrays of a new type.

This file repeats the loop of `Model/Optimizer.lean` with the types added.  Simplifications: signed
integers are 64 bits wide and do not overflow; the rounding of `float32` is not modelled; bounds and
clamps are `float64`.  A boundary handler applied to an integer position that is out of bounds
would truncate what it stores; this is `unmodelled`.
-/

namespace PySwarms

variable {n d : Nat} {K : Type}

/-- The data types an `init_pos` array may have (generators.py:62, 68, 131, 133). -/
inductive Dtype
  | bool
  | uint (bits : Nat)
  | int64
  | float32
  | float64
  deriving DecidableEq, Repr

/-- A floating point type (the casting rule of operators.py:198). -/
def Dtype.isFloat : Dtype → Bool
  | .float32 => true
  | .float64 => true
  | _ => false

/-- A signed or unsigned integer type (the casting rule of operators.py:198). -/
def Dtype.isInteger : Dtype → Bool
  | .int64 => true
  | .uint _ => true
  | _ => false

/-- `np.promote_types`, used by `np.where` (operators.py:69-72; handlers.py:167-168). -/
def Dtype.promote : Dtype → Dtype → Dtype
  | .bool, t => t
  | t, .bool => t
  | .uint a, .uint b => .uint (max a b)
  | .uint a, .int64 => if a ≤ 32 then .int64 else .float64
  | .int64, .uint a => if a ≤ 32 then .int64 else .float64
  | .uint a, .float32 => if a ≤ 16 then .float32 else .float64
  | .float32, .uint a => if a ≤ 16 then .float32 else .float64
  | .int64, .int64 => .int64
  | .float32, .float32 => .float32
  | _, _ => .float64

/-- The data types of the position and of the personal best positions, beside the values
(swarms.py:85, 91, 119-121). -/
structure Typed (n d : Nat) (K : Type) where
  opt : Opt n d K
  pos : Dtype
  pbest : Dtype

section
variable [Field K] [LinearOrder K] [FloorRing K]

/-- The value of `a - b` modulo `2 ** bits` (operators.py:135, 140). -/
def wrap (bits : Nat) (x : K) : K := x - 2 ^ bits * (⌊x / 2 ^ bits⌋ : K)

/-- `a - b` for arrays of the given types (operators.py:135, 140). -/
def subTyped (ta tb : Dtype) (a b : K) : Except Err K :=
  match ta, tb with
  | .bool, .bool => .error .typeError
  | .uint w, .uint v => .ok (wrap (max w v) (a - b))
  | .uint w, .bool => .ok (wrap w (a - b))
  | .bool, .uint w => .ok (wrap w (a - b))
  | _, _ => .ok (a - b)

/-- Is the subtraction refused? (operators.py:135) -/
def subRefused (ta tb : Dtype) : Bool := decide (ta = .bool ∧ tb = .bool)

/-- `temp_velocity` (operators.py:131-143) with the subtractions of the given types; `best_pos` is
taken from the personal bests and has their type. -/
def tempVelocityT (c1 c2 w : K) (r1 r2 : Mat n d K) (tp tb : Dtype) (s : Swarm n d K) : Mat n d K :=
  fun i j =>
    let diff (a b : K) : K := match subTyped tb tp a b with
      | .ok x => x
      | .error _ => 0
    let cognitive := c1 * r1 i j * diff (s.pbestPos i j) (s.position i j)
    let social := c2 * r2 i j * diff (s.bestPos.row s.position i j) (s.position i j)
    w * s.velocity i j + cognitive + social

/-- `compute_velocity` (operators.py:82-157) with data types. -/
def computeVelocityT (s : Swarm n d K) (tp tb : Dtype) (clamp : Option (Clamp d K))
    (strategy : String) (mem : Option (Mat n d K)) (bounds : Option (Bounds d K))
    (r1 r2 : Mat n d K) : Option (Mat n d K) × Except Err (Mat n d K) :=
  match s.options.lookup "c1", s.options.lookup "c2", s.options.lookup "w" with
  | some c1, some c2, some w =>
    if subRefused tb tp then (mem, .error .typeError)
    else
      let call := vhCall strategy mem clamp
        { position := some s.position, bounds := some bounds } (tempVelocityT c1 c2 w r1 r2 tp tb s)
      match s.bestPos with
      | .empty =>
        if d = 0 then call
        else if d = 1 then
          if strategy = "adjust" then call
          else match call with
            | (m, .error e) => (m, .error e)
            | (m, .ok _) => (m, .error .valueError)
        else (mem, .error .valueError)
      | _ => call
  | _, _, _ => (mem, .error .keyError)

/-- The type of the new velocity: `float64`, because the random numbers are (operators.py:132-143),
but with strategy `adjust` it is the difference of two positions (handlers.py:489), a `float64`
again after `np.where` with a clamp (handlers.py:457-458). -/
def velocityDtype (cfg : Config n d K) (tp : Dtype) : Dtype :=
  if cfg.vhStrategy = "adjust" ∧ cfg.clamp.isNone then tp else .float64

/-- `np.can_cast(…, casting='same_kind')` for the sum `temp_position + swarm.velocity`
(operators.py:198): floating point cannot go back to an integer or boolean array. -/
def castsBack (tp tv : Dtype) : Bool := tp.isFloat || !tv.isFloat

/-- Is some coordinate out of bounds? (handlers.py:46-54) -/
def anyOutside (b : Option (Bounds d K)) (x : Mat n d K) : Bool :=
  match b with
  | none => false
  | some b => decide (∃ i j, x i j < b.1 j ∨ b.2 j < x i j)

/-- The type of the new position: `np.where` with the bounds in `nearest` (handlers.py:167-168), the
array itself in all other strategies. -/
def positionDtype (cfg : Config n d K) (tp : Dtype) : Dtype :=
  if cfg.bounds.isSome ∧ cfg.bhStrategy = "nearest" then tp.promote .float64 else tp

variable [Transc K]

/-- The position update with data types (operators.py:196-202; binary.py:264-267: a boolean array
times 1 is an integer array). -/
def callPositionT (cfg : Config n d K) (r : Draw n d K) (mem : Option (Mat n d K)) (tp : Dtype)
    (s : Swarm n d K) : Option (Mat n d K) × Except Err (Mat n d K × Dtype) :=
  match cfg.kind with
  | .binary => (mem, .ok (binaryPosition r.thr s.velocity, .int64))
  | _ =>
    if castsBack tp (velocityDtype cfg tp) then
      if tp.isInteger && anyOutside cfg.bounds (fun i j => s.position i j + s.velocity i j) then
        (mem, .error .unmodelled)
      else match computePosition s cfg.bounds cfg.bhStrategy mem r.bh with
        | (m, .error e) => (m, .error e)
        | (m, .ok x) => (m, .ok (x, positionDtype cfg tp))
    else (mem, .error .typeError)

/-- The second half of the loop body (global_best.py:238-248, local_best.py:266-276,
general_optimizer.py:278-288, binary.py:230-234) with data types. -/
def moveSwarmT (cfg : Config n d K) (r : Draw n d K) (iters i : Nat) (s : Typed n d K) :
    Typed n d K × Except Err Unit :=
  match callOptions cfg iters i r s.opt.swarm with
  | .error e => (s, .error e)
  | .ok o =>
    let s1 := { s.opt with swarm := { s.opt.swarm with options := o } }
    match computeVelocityT s1.swarm s.pos s.pbest cfg.clamp cfg.vhStrategy s1.vhMem (velBounds cfg)
        r.r1 r.r2 with
    | (vm, .error e) => ({ s with opt := { s1 with vhMem := vm } }, .error e)
    | (vm, .ok v) =>
      let s2 := { s1 with vhMem := vm, swarm := { s1.swarm with velocity := v } }
      match callPositionT cfg r s2.bhMem s.pos s2.swarm with
      | (bm, .error e) => ({ s with opt := { s2 with bhMem := bm } }, .error e)
      | (bm, .ok (p, t)) =>
        ({ s with opt := { s2 with bhMem := bm, swarm := { s2.swarm with position := p } }, pos := t },
          .ok ())

/-- One iteration (global_best.py:207-248, local_best.py:231-276, general_optimizer.py:245-288,
binary.py:194-234) with data types; `np.where(~mask_pos, pbest_pos, position)` promotes
(operators.py:69). -/
def iterateT (cfg : Config n d K) (ev : Mat n d K → Except Err (Costs n K)) (r : Draw n d K)
    (iters i : Nat) (q : List Bool) (s : Typed n d K) : Typed n d K × Except Err Flow :=
  match ev s.opt.swarm.position with
  | .error e => (s, .error e)
  | .ok c =>
    let s1 := recordEval c s.opt
    let pb := s.pbest.promote s.pos
    let yet := s1.swarm.bestCostVal
    match callGbest cfg r.oracle s1.top s1.swarm with
    | (t, .error e) => (⟨{ s1 with top := t }, s.pos, pb⟩, .error e)
    | (t, .ok g) =>
      let s2 := recordBest t g s1
      let q' := dequeAppend cfg.window q (ftolDelta cfg.ftol s2.swarm.bestCostVal yet)
      if decide (¬ i < cfg.window) && q'.all id then (⟨s2, s.pos, pb⟩, .ok .stop)
      else match moveSwarmT cfg r iters i ⟨s2, s.pos, pb⟩ with
        | (s3, .error e) => (s3, .error e)
        | (s3, .ok ()) => (s3, .ok (.continue q'))

/-- The `for i in range(iters)` loop (global_best.py:206, local_best.py:230,
general_optimizer.py:244, binary.py:193) with data types. -/
def loopT (cfg : Config n d K) (ev : Nat → Mat n d K → Except Err (Costs n K))
    (env : Nat → Draw n d K) (iters : Nat) :
    (m i : Nat) → List Bool → Typed n d K → Typed n d K × Except Err Unit
  | 0, _, _, s => (s, .ok ())
  | m + 1, i, q, s =>
    match iterateT cfg (ev i) (env i) iters i q s with
    | (s', .error e) => (s', .error e)
    | (s', .ok .stop) => (s', .ok ())
    | (s', .ok (.continue q')) => loopT cfg ev env iters m (i + 1) q' s'

/-- `optimize` (global_best.py:159-264, local_best.py:183-292, general_optimizer.py:197-304,
binary.py:146-250) with data types. -/
def optimizeT (cfg : Config n d K) (ev : Nat → Mat n d K → Except Err (Costs n K))
    (iters : Nat) (nproc : Option Nat) (env : Nat → Draw n d K) (s : Typed n d K) :
    Typed n d K × Except Err (XR K × Vec d K) :=
  if nproc = some 0 then
    ({ s with opt := { s.opt with bhMem := (prepare cfg s.opt).bhMem
                                  vhMem := (prepare cfg s.opt).vhMem } }, .error .valueError)
  else
    let s0 := { s with opt := { prepare cfg s.opt with
      openPools := s.opt.openPools + (if nproc.isSome then 1 else 0) } }
    match loopT cfg ev env iters iters 0 [] s0 with
    | (s1, .error e) => (s1, .error e)
    | (s1, .ok ()) =>
      match finish s1.opt with
      | .error e => (s1, .error e)
      | .ok r =>
        ({ s1 with opt := { s1.opt with
            openPools := s1.opt.openPools - (if nproc.isSome then 1 else 0) } }, .ok r)

/-- The type of a new swarm: that of `init_pos`, if there is one; otherwise `float64`
(generators.py:69-83), or integers for BinaryPSO (generators.py:134-135). -/
def freshDtype (cfg : Config n d K) (given : Dtype) : Dtype :=
  if cfg.initPos.isSome then given else if cfg.isBinary then .int64 else .float64

/-- The constructors (base_single.py:93-124, base_discrete.py:96-126), `init_pos` having the type
`given`; `pbest_pos` is the position (swarms.py:119-121). -/
def constructT (cfg : Config n d K) (given : Dtype) (r1 r2 : InitDraw n d K) :
    Except Err (Typed n d K) :=
  match construct cfg r1 r2 with
  | .error e => .error e
  | .ok s => .ok ⟨s, freshDtype cfg given, freshDtype cfg given⟩

/-- `reset` (base_single.py:173-212, base_discrete.py:175-214) with data types. -/
def resetT (cfg : Config n d K) (given : Dtype) (r : InitDraw n d K) (s : Typed n d K) :
    Typed n d K × Except Err Unit :=
  match reset cfg r s.opt with
  | (o, .error e) => ({ s with opt := o }, .error e)
  | (o, .ok ()) => (⟨o, freshDtype cfg given, freshDtype cfg given⟩, .ok ())

/-- A sequence of API calls; exceptions are caught by the caller (base_single.py:147, 173). -/
def runOpsT (cfg : Config n d K) (given : Dtype) (s : Typed n d K) (ops : List (Op n d K)) :
    Typed n d K :=
  ops.foldl (fun s op => match op with
    | .optimize ev iters nproc env => (optimizeT cfg ev iters nproc env s).1
    | .reset r => (resetT cfg given r s).1) s

end

end PySwarms
