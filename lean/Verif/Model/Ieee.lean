import Verif.Model.Optimizer
import Verif.Model.Float

/-!
# GlobalBestPSO with IEEE special values in positions and velocities

In the other model files positions and velocities are numbers.  Here they are float64 values:
numbers, `inf`, `-inf` or `nan`.  Every arithmetic operation rounds its exact result, and rounding
may overflow.  Modelled are both handlers, the operators, `Star` and `GlobalBestPSO` (the other
topologies hand positions to SciPy, which refuses special values).  Signed zeros are not modelled:
the only divisor of the code, in `shrink`, is a difference, whose zero is positive.
-/

namespace PySwarms

variable {n d : Nat} {K : Type}

/-- IEEE `<=` (the comparisons of handlers.py:455-456). -/
def XR.le [LT K] [DecidableLT K] (x y : XR K) : Bool := !x.isNan && !y.isNan && !XR.lt y x

variable [Field K] [LinearOrder K]

/-- IEEE `/` with a zero divisor taken as positive (handlers.py:257-265). -/
def XR.div : XR K → XR K → XR K
  | .nan, _ => .nan
  | _, .nan => .nan
  | .fin a, .fin b =>
    if b = 0 then (if 0 < a then .pinf else if a < 0 then .ninf else .nan) else .fin (a / b)
  | .fin _, _ => .fin 0
  | .pinf, .fin b => if 0 ≤ b then .pinf else .ninf
  | .ninf, .fin b => if 0 ≤ b then .ninf else .pinf
  | _, _ => .nan

/-- `np.mod(a, s)` for a nonnegative or `nan` divisor (handlers.py:383-391). -/
def XR.mod [FloorRing K] : XR K → XR K → XR K
  | .fin a, .fin s => if s = 0 then .nan else .fin (npMod a s)
  | .fin a, .pinf => if a < 0 then .pinf else .fin a
  | _, _ => .nan

/-- The floating-point unit: the float64 value of an exact result, which may be an infinity
(the arithmetic of operators.py:126-143, 198 and handlers.py:146-546). -/
structure Fpu (K : Type) where
  rnd : K → XR K

namespace Fpu
variable (A : Fpu K)

/-- Rounding of a result (as `Fpu`, operators.py:126-143). -/
def round : XR K → XR K
  | .fin a => A.rnd a
  | x => x

/-- Machine `+` (operators.py:143, 198). -/
def add (x y : XR K) : XR K := A.round (XR.add x y)

/-- Machine `-` (operators.py:135, 140). -/
def sub (x y : XR K) : XR K := A.round (XR.sub x y)

/-- Machine `*` (operators.py:132-143). -/
def mul (x y : XR K) : XR K := A.round (XR.mul x y)

/-- Machine `/` (handlers.py:257-265). -/
def div (x y : XR K) : XR K := A.round (XR.div x y)

/-- `np.mod` (handlers.py:383-391). -/
def mod [FloorRing K] (x y : XR K) : XR K := A.round (XR.mod x y)

end Fpu

/-- The float64 unit of the processor: round to the nearest double, ties to even; from `2^1024` on
the result is an infinity (IEEE 754; operators.py:126-143). -/
def fpu64 : Fpu ℚ where
  rnd x := if 2 ^ 1024 ≤ f64 x then .pinf else if f64 x ≤ -2 ^ 1024 then .ninf else .fin (f64 x)

/-! ## BoundaryHandler -/

/-- `position < lb` (handlers.py:46-54). -/
def isLowX (b : Bounds d K) (x : Mat n d (XR K)) (i : Fin n) (j : Fin d) : Bool :=
  XR.lt (x i j) (.fin (b.1 j))

/-- `position > ub` (handlers.py:46-54). -/
def isHighX (b : Bounds d K) (x : Mat n d (XR K)) (i : Fin n) (j : Fin d) : Bool :=
  XR.lt (.fin (b.2 j)) (x i j)

/-- `lower_than_bound[0]` (handlers.py:46-54). -/
def rowLowX (b : Bounds d K) (x : Mat n d (XR K)) (i : Fin n) : Bool :=
  (List.finRange d).any fun j => isLowX b x i j

/-- `greater_than_bound[0]` (handlers.py:46-54). -/
def rowHighX (b : Bounds d K) (x : Mat n d (XR K)) (i : Fin n) : Bool :=
  (List.finRange d).any fun j => isHighX b x i j

/-- `BoundaryHandler.nearest` (handlers.py:146-169). -/
def bhNearestX (b : Bounds d K) (x : Mat n d (XR K)) : Mat n d (XR K) := fun i j =>
  let p1 := if isLowX b x i j then .fin (b.1 j) else x i j
  if isHighX b x i j then .fin (b.2 j) else p1

/-- One pass of `reflective` (handlers.py:203-213). -/
def reflectPassX (A : Fpu K) (b : Bounds d K) (x : Mat n d (XR K)) : Mat n d (XR K) := fun i j =>
  let p1 := if isLowX b x i j then A.sub (A.mul (.fin 2) (.fin (b.1 j))) (x i j) else x i j
  if isHighX b x i j then A.sub (A.mul (.fin 2) (.fin (b.2 j))) p1 else p1

/-- The loop condition of `reflective` (handlers.py:202). -/
def anyOutX (b : Bounds d K) (x : Mat n d (XR K)) : Bool :=
  (List.finRange n).any fun i => rowLowX b x i || rowHighX b x i

/-- `BoundaryHandler.reflective` (handlers.py:171-215), at most `passes` passes. -/
def bhReflectiveX (A : Fpu K) (b : Bounds d K) : (passes : Nat) → Mat n d (XR K) →
    Except Err (Mat n d (XR K))
  | 0, x => if anyOutX b x then .error .diverges else .ok x
  | m + 1, x => if anyOutX b x then bhReflectiveX A b m (reflectPassX A b x) else .ok x

/-- The matrix `sigma` of `shrink` (handlers.py:254-265). -/
def shrinkSigmaX (A : Fpu K) (b : Bounds d K) (mem x : Mat n d (XR K)) : Mat n d (XR K) :=
  fun i j =>
    let v := A.sub (x i j) (mem i j)
    let s1 := if isLowX b x i j then A.div (A.sub (.fin (b.1 j)) (mem i j)) v else .fin 1
    if isHighX b x i j then A.div (A.sub (.fin (b.2 j)) (mem i j)) v else s1

/-- `BoundaryHandler.shrink` (handlers.py:217-283); `np.amin` of a row is `npMin`. -/
def bhShrinkX (A : Fpu K) (b : Bounds d K) (mem : Option (Mat n d (XR K))) (x : Mat n d (XR K)) :
    Option (Mat n d (XR K)) × Except Err (Mat n d (XR K)) :=
  match mem with
  | none => (some x, .ok x)
  | some m =>
    if d = 0 then (mem, .error .valueError)
    else
      let r : Mat n d (XR K) := fun i j =>
        if rowLowX b x i || rowHighX b x i then
          match npMin (shrinkSigmaX A b m x i) with
          | some s => A.add (m i j) (A.mul s (A.sub (x i j) (m i j)))
          | none => x i j
        else x i j
      (some r, .ok r)

/-- The vector drawn by `random` (handlers.py:296-302, 303-310). -/
def redrawX (A : Fpu K) (b : Bounds d K) (u : Vec d K) (j : Fin d) : XR K :=
  A.add (A.mul (A.sub (.fin (b.2 j)) (.fin (b.1 j))) (.fin (u j))) (.fin (b.1 j))

/-- `BoundaryHandler.random` (handlers.py:285-311). -/
def bhRandomX (A : Fpu K) (b : Bounds d K) (u l : Vec d K) (x : Mat n d (XR K)) : Mat n d (XR K) :=
  fun i j =>
    let p1 := if rowHighX b x i then redrawX A b u j else x i j
    if rowLowX b x i then redrawX A b l j else p1

/-- `BoundaryHandler.intermediate` (handlers.py:313-347). -/
def bhIntermediateX (A : Fpu K) (b : Bounds d K) (mem : Option (Mat n d (XR K)))
    (x : Mat n d (XR K)) : Option (Mat n d (XR K)) × Except Err (Mat n d (XR K)) :=
  match mem with
  | none => (some x, .ok x)
  | some m =>
    let r : Mat n d (XR K) := fun i j =>
      let p1 := if isLowX b x i j then A.mul (.fin (1 / 2)) (A.add (m i j) (.fin (b.1 j)))
        else x i j
      if isHighX b x i j then A.mul (.fin (1 / 2)) (A.add (m i j) (.fin (b.2 j))) else p1
    (some r, .ok r)

/-- `BoundaryHandler.periodic` (handlers.py:349-393). -/
def bhPeriodicX [FloorRing K] (A : Fpu K) (b : Bounds d K) (x : Mat n d (XR K)) :
    Mat n d (XR K) := fun i j =>
  let s := XR.abs (A.sub (.fin (b.2 j)) (.fin (b.1 j)))
  let p1 := if isLowX b x i j then
    A.sub (.fin (b.2 j)) (A.mod (A.sub (.fin (b.1 j)) (x i j)) s) else x i j
  if isHighX b x i j then A.add (.fin (b.1 j)) (A.mod (A.sub p1 (.fin (b.2 j))) s) else p1

/-- `BoundaryHandler.__call__` (handlers.py:115-144). -/
def bhCallX [FloorRing K] (A : Fpu K) (strategy : String) (mem : Option (Mat n d (XR K)))
    (b : Bounds d K) (r : BHDraw d K) (x : Mat n d (XR K)) :
    Option (Mat n d (XR K)) × Except Err (Mat n d (XR K)) :=
  if strategy = "nearest" then (mem, .ok (bhNearestX b x))
  else if strategy = "reflective" then (mem, bhReflectiveX A b r.passes x)
  else if strategy = "shrink" then bhShrinkX A b mem x
  else if strategy = "random" then (mem, .ok (bhRandomX A b r.u r.l x))
  else if strategy = "intermediate" then bhIntermediateX A b mem x
  else if strategy = "periodic" then (mem, .ok (bhPeriodicX A b x))
  else (mem, .error .keyError)

/-! ## VelocityHandler -/

/-- `VelocityHandler.__apply_clamp` (handlers.py:451-459). -/
def applyClampX (c : Clamp d K) (v : Mat n d (XR K)) : Mat n d (XR K) := fun i j =>
  let v1 := if XR.le (v i j) (.fin (c.1 j)) then .fin (c.1 j) else v i j
  if XR.le (.fin (c.2 j)) (v i j) then .fin (c.2 j) else v1

/-- The optional clamp (handlers.py:461-468). -/
def clampOptX (c : Option (Clamp d K)) (v : Mat n d (XR K)) : Mat n d (XR K) :=
  match c with
  | none => v
  | some c => applyClampX c v

/-- `VelocityHandler.adjust` (handlers.py:470-497), always called with a position
(operators.py:144-146). -/
def vhAdjustX (A : Fpu K) (mem : Option (Mat n d (XR K))) (c : Option (Clamp d K))
    (p v : Mat n d (XR K)) : Option (Mat n d (XR K)) × Mat n d (XR K) :=
  match mem with
  | none => (some p, v)
  | some m => (some p, clampOptX c fun i j => A.sub (p i j) (m i j))

/-- `VelocityHandler.invert` (handlers.py:499-531) with `z = 0.5`. -/
def vhInvertX (A : Fpu K) (c : Option (Clamp d K)) (bounds : Option (Bounds d K))
    (p v : Mat n d (XR K)) : Except Err (Mat n d (XR K)) :=
  match bounds with
  | none => .error .typeError
  | some b =>
    let v1 : Mat n d (XR K) := fun i j =>
      if rowLowX b p i then A.mul (.fin (-(1 / 2))) (v i j) else v i j
    let v2 : Mat n d (XR K) := fun i j =>
      if rowHighX b p i then A.mul (.fin (-(1 / 2))) (v1 i j) else v1 i j
    .ok (clampOptX c v2)

/-- `VelocityHandler.zero` (handlers.py:533-546). -/
def vhZeroX (bounds : Option (Bounds d K)) (p v : Mat n d (XR K)) : Except Err (Mat n d (XR K)) :=
  match bounds with
  | none => .error .typeError
  | some b =>
    let v1 : Mat n d (XR K) := fun i j => if rowLowX b p i then .fin 0 else v i j
    .ok fun i j => if rowHighX b p i then .fin 0 else v1 i j

/-- `VelocityHandler.__call__` (handlers.py:420-449). -/
def vhCallX (A : Fpu K) (strategy : String) (mem : Option (Mat n d (XR K))) (c : Option (Clamp d K))
    (bounds : Option (Bounds d K)) (p v : Mat n d (XR K)) :
    Option (Mat n d (XR K)) × Except Err (Mat n d (XR K)) :=
  if strategy = "unmodified" then (mem, .ok (clampOptX c v))
  else if strategy = "adjust" then ((vhAdjustX A mem c p v).1, .ok (vhAdjustX A mem c p v).2)
  else if strategy = "invert" then (mem, vhInvertX A c bounds p v)
  else if strategy = "zero" then (mem, vhZeroX bounds p v)
  else (mem, .error .keyError)

/-! ## Swarm and operators -/

/-- The `Swarm` of a GlobalBestPSO (swarms.py:17-121): `bestPos` is `none` for the default
`np.array([])`; see `Swarm` for `bestCost`. -/
structure SwarmX (n d : Nat) (K : Type) where
  position : Mat n d (XR K)
  velocity : Mat n d (XR K)
  pbestPos : Mat n d (XR K)
  pbestCost : Costs n K
  bestPos : Option (Vec d (XR K))
  bestCost : Option (XR K)

/-- The value of `swarm.best_cost` (swarms.py:102-104). -/
def SwarmX.bestCostVal (s : SwarmX n d K) : XR K := s.bestCost.getD XR.pinf

/-- The attraction point of particle `i` (operators.py:137-141); the value for an empty `best_pos` is
not used. -/
def SwarmX.target (s : SwarmX n d K) (i : Fin n) (j : Fin d) : XR K :=
  match s.bestPos with
  | some g => g j
  | none => s.position i j

/-- `temp_velocity` of `compute_velocity` (operators.py:131-143), in the order of evaluation of
Python. -/
def tempVelocityX (A : Fpu K) (c1 c2 w : K) (r1 r2 : Mat n d K) (s : SwarmX n d K) :
    Mat n d (XR K) := fun i j =>
  let cognitive := A.mul (A.mul (.fin c1) (.fin (r1 i j)))
    (A.sub (s.pbestPos i j) (s.position i j))
  let social := A.mul (A.mul (.fin c2) (.fin (r2 i j)))
    (A.sub (s.target i j) (s.position i j))
  A.add (A.add (A.mul (.fin w) (s.velocity i j)) cognitive) social

/-- `compute_velocity` (operators.py:82-157); the cases of an empty `best_pos` are those of
`computeVelocity`. -/
def computeVelocityX (A : Fpu K) (o : Opts K) (s : SwarmX n d K) (clamp : Option (Clamp d K))
    (strategy : String) (mem : Option (Mat n d (XR K))) (bounds : Option (Bounds d K))
    (r1 r2 : Mat n d K) : Option (Mat n d (XR K)) × Except Err (Mat n d (XR K)) :=
  match o.lookup "c1", o.lookup "c2", o.lookup "w" with
  | some c1, some c2, some w =>
    let call := vhCallX A strategy mem clamp bounds s.position (tempVelocityX A c1 c2 w r1 r2 s)
    match s.bestPos with
    | none =>
      if d = 0 then call
      else if d = 1 then
        if strategy = "adjust" then call
        else match call with
          | (m, .error e) => (m, .error e)
          | (m, .ok _) => (m, .error .valueError)
      else (mem, .error .valueError)
    | some _ => call
  | _, _, _ => (mem, .error .keyError)

/-- `compute_position` (operators.py:160-210). -/
def computePositionX [FloorRing K] (A : Fpu K) (s : SwarmX n d K) (bounds : Option (Bounds d K))
    (strategy : String) (mem : Option (Mat n d (XR K))) (r : BHDraw d K) :
    Option (Mat n d (XR K)) × Except Err (Mat n d (XR K)) :=
  let temp : Mat n d (XR K) := fun i j => A.add (s.position i j) (s.velocity i j)
  match bounds with
  | none => (mem, .ok temp)
  | some b => bhCallX A strategy mem b r temp

/-! ## GlobalBestPSO -/

/-- The state of a GlobalBestPSO (base_single.py:126-144): swarm, handler memories, `cost_history`
and, as a ghost, the evaluations made since construction. -/
structure OptX (n d : Nat) (K : Type) where
  swarm : SwarmX n d K
  bhMem : Option (Mat n d (XR K)) := none
  vhMem : Option (Mat n d (XR K)) := none
  costHistory : List (XR K) := []
  evals : List (Mat n d (XR K) × Costs n K) := []

/-- The evaluation and `compute_pbest` (global_best.py:207-211, operators.py:25-79). -/
def recordEvalX (c : Costs n K) (s : OptX n d K) : OptX n d K :=
  { s with
    swarm := { s.swarm with
      pbestPos := fun i j =>
        if XR.lt (c i) (s.swarm.pbestCost i) then s.swarm.position i j else s.swarm.pbestPos i j
      pbestCost := fun i => if XR.lt (c i) (s.swarm.pbestCost i) then c i else s.swarm.pbestCost i }
    evals := s.evals ++ [(s.swarm.position, c)] }

/-- `Star.compute_gbest` (star.py:31-80, global_best.py:213); `none` is NumPy's `ValueError` for an
empty swarm. -/
def starX (s : SwarmX n d K) : Option (Option (Vec d (XR K)) × Option (XR K)) :=
  match npArgmin s.pbestCost with
  | none => none
  | some i =>
    if XR.lt (s.pbestCost i) s.bestCostVal then some (some (s.pbestPos i), some (s.pbestCost i))
    else some (s.bestPos, s.bestCost)

/-- The new best and `cost_history` (global_best.py:212-225). -/
def recordBestX (g : Option (Vec d (XR K)) × Option (XR K)) (s : OptX n d K) : OptX n d K :=
  { s with
    swarm := { s.swarm with bestPos := g.1, bestCost := g.2 }
    costHistory := s.costHistory ++ [g.2.getD XR.pinf] }

/-- The stop test value (global_best.py:226-231). -/
def ftolDeltaX (A : Fpu K) (ftol now yet : XR K) : Bool :=
  XR.lt (XR.abs (A.sub now yet)) (A.mul ftol (A.add (XR.fin 1) (XR.abs yet)))

/-- The second half of the loop body (global_best.py:238-248); `o` is what the options handler
returns. -/
def moveSwarmX [FloorRing K] (A : Fpu K) (cfg : Config n d K) (r : Draw n d K)
    (o : Except Err (Opts K)) (s : OptX n d K) : OptX n d K × Except Err Unit :=
  match o with
  | .error e => (s, .error e)
  | .ok o =>
    match computeVelocityX A o s.swarm cfg.clamp cfg.vhStrategy s.vhMem cfg.bounds r.r1 r.r2 with
    | (vm, .error e) => ({ s with vhMem := vm }, .error e)
    | (vm, .ok v) =>
      let s2 := { s with vhMem := vm, swarm := { s.swarm with velocity := v } }
      match computePositionX A s2.swarm cfg.bounds cfg.bhStrategy s2.bhMem r.bh with
      | (bm, .error e) => ({ s2 with bhMem := bm }, .error e)
      | (bm, .ok p) => ({ s2 with bhMem := bm, swarm := { s2.swarm with position := p } }, .ok ())

/-- One iteration of `optimize` (global_best.py:207-248). -/
def iterateX [FloorRing K] (A : Fpu K) (cfg : Config n d K)
    (ev : Mat n d (XR K) → Except Err (Costs n K)) (r : Draw n d K) (o : Except Err (Opts K))
    (i : Nat) (q : List Bool) (s : OptX n d K) : OptX n d K × Except Err Flow :=
  match ev s.swarm.position with
  | .error e => (s, .error e)
  | .ok c =>
    let s1 := recordEvalX c s
    match starX s1.swarm with
    | none => (s1, .error .valueError)
    | some g =>
      let s2 := recordBestX g s1
      let q' := dequeAppend cfg.window q
        (ftolDeltaX A cfg.ftol s2.swarm.bestCostVal s1.swarm.bestCostVal)
      if decide (¬ i < cfg.window) && q'.all id then (s2, .ok .stop)
      else match moveSwarmX A cfg r o s2 with
        | (s3, .error e) => (s3, .error e)
        | (s3, .ok ()) => (s3, .ok (.continue q'))

/-- Everything a call of `optimize` gets from outside: the objective, the draws and the answers of
the options handler, by iteration (global_best.py:159-161, 239-241). -/
structure CallX (n d : Nat) (K : Type) where
  ev : Nat → Mat n d (XR K) → Except Err (Costs n K)
  env : Nat → Draw n d K
  oh : Nat → Except Err (Opts K)

/-- The `for` loop of `optimize` (global_best.py:206). -/
def loopX [FloorRing K] (A : Fpu K) (cfg : Config n d K) (c : CallX n d K) :
    (m i : Nat) → List Bool → OptX n d K → OptX n d K × Except Err Unit
  | 0, _, _, s => (s, .ok ())
  | m + 1, i, q, s =>
    match iterateX A cfg (c.ev i) (c.env i) (c.oh i) i q s with
    | (s', .error e) => (s', .error e)
    | (s', .ok .stop) => (s', .ok ())
    | (s', .ok (.continue q')) => loopX A cfg c m (i + 1) q' s'

/-- `GlobalBestPSO.optimize` in one process (global_best.py:159-264). -/
def optimizeX [FloorRing K] (A : Fpu K) (cfg : Config n d K) (c : CallX n d K) (iters : Nat)
    (s : OptX n d K) : OptX n d K × Except Err (XR K × Vec d (XR K)) :=
  let s0 := { s with
    bhMem := some s.swarm.position
    vhMem := some s.swarm.position
    swarm := { s.swarm with pbestCost := fun _ => XR.pinf } }
  match loopX A cfg c iters 0 [] s0 with
  | (s1, .error e) => (s1, .error e)
  | (s1, .ok ()) =>
    match s1.swarm.bestCost, npArgmin s1.swarm.pbestCost with
    | none, _ => (s1, .error .attributeError)
    | _, none => (s1, .error .valueError)
    | some b, some i => (s1, .ok (b, s1.swarm.pbestPos i))

/-- Construction with `init_pos` (generators.py:60-69, 84-93, 166-175; base_single.py:187-200): the
check against the bounds, which `nan` fails, and the initial velocities. -/
def constructX (A : Fpu K) (cfg : Config n d K) (init : Mat n d (XR K)) (u : Mat n d K) :
    Except Err (OptX n d K) :=
  let c : Clamp d K := cfg.clamp.getD (fun _ => 0, fun _ => 1)
  let s : OptX n d K :=
    { swarm :=
        { position := init
          velocity := fun i j =>
            A.add (A.mul (A.sub (.fin (c.2 j)) (.fin (c.1 j))) (.fin (u i j))) (.fin (c.1 j))
          pbestPos := init
          pbestCost := fun _ => XR.pinf
          bestPos := none
          bestCost := none } }
  match cfg.bounds with
  | none => .ok s
  | some b =>
    if ((List.finRange n).all fun i => (List.finRange d).all fun j =>
        XR.le (.fin (b.1 j)) (init i j)) &&
       ((List.finRange n).all fun i => (List.finRange d).all fun j =>
        XR.le (init i j) (.fin (b.2 j)))
    then .ok s else .error .valueError

end PySwarms
