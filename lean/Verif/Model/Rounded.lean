import Verif.Model.Optimizer

/-!
# The code with rounded arithmetic

The other model files use exact arithmetic.  Here the parts of the code that compute with positions
and velocities are modelled again with a rounding function `fl` applied after every arithmetic
operation, in the order in which NumPy performs them; comparisons, copies and absolute values are
exact.  `Arith.exact` gives back the exact model (`optimizeR_exact` in `Verif.Props.Rounding`),
`Verif.Model.Float` has the binary64 rounding.
-/

namespace PySwarms

variable {n d : Nat} {K : Type} [Field K] [LinearOrder K]

/-! ## BoundaryHandler -/

/-- One pass of `reflective` (handlers.py:203-213) in rounded arithmetic. -/
def reflectPassR (fl : K → K) (b : Bounds d K) (x : Mat n d K) : Mat n d K := fun i j =>
  let p1 := if isLow b x i j then fl (fl (2 * b.1 j) - x i j) else x i j
  if isHigh b x i j then fl (fl (2 * b.2 j) - p1) else p1

/-- `BoundaryHandler.reflective` (handlers.py:171-215) in rounded arithmetic. -/
def bhReflectiveR (fl : K → K) (b : Bounds d K) : (passes : Nat) → Mat n d K → Except Err (Mat n d K)
  | 0, x => if anyOut b x then .error .diverges else .ok x
  | m + 1, x => if anyOut b x then bhReflectiveR fl b m (reflectPassR fl b x) else .ok x

/-- The matrix `sigma` of `shrink` (handlers.py:254-265) in rounded arithmetic. -/
def shrinkSigmaR (fl : K → K) (b : Bounds d K) (mem x : Mat n d K) : Mat n d K := fun i j =>
  let v := fl (x i j - mem i j)
  let s1 := if isLow b x i j then fl (fl (b.1 j - mem i j) / v) else 1
  if isHigh b x i j then fl (fl (b.2 j - mem i j) / v) else s1

/-- `BoundaryHandler.shrink` (handlers.py:217-283) in rounded arithmetic. -/
def bhShrinkR (fl : K → K) (b : Bounds d K) (mem : Option (Mat n d K)) (x : Mat n d K) :
    Option (Mat n d K) × Except Err (Mat n d K) :=
  match mem with
  | none => (some x, .ok x)
  | some m =>
    if (List.finRange n).any fun i => (List.finRange d).any fun j =>
        (isLow b x i j || isHigh b x i j) && decide (fl (x i j - m i j) = 0) then
      (mem, .error .nonFinite)
    else if d = 0 then (mem, .error .valueError)
    else
      let r : Mat n d K := fun i j =>
        if rowLow b x i || rowHigh b x i then
          match rowMin (shrinkSigmaR fl b m x i) with
          | some s => fl (m i j + fl (s * fl (x i j - m i j)))
          | none => x i j
        else x i j
      (some r, .ok r)

/-- `BoundaryHandler.random` (handlers.py:285-311) in rounded arithmetic. -/
def bhRandomR (fl : K → K) (b : Bounds d K) (u l : Vec d K) (x : Mat n d K) : Mat n d K :=
  fun i j =>
    let p1 := if rowHigh b x i then fl (fl (fl (b.2 j - b.1 j) * u j) + b.1 j) else x i j
    if rowLow b x i then fl (fl (fl (b.2 j - b.1 j) * l j) + b.1 j) else p1

/-- `BoundaryHandler.intermediate` (handlers.py:313-347) in rounded arithmetic. -/
def bhIntermediateR (fl : K → K) (b : Bounds d K) (mem : Option (Mat n d K)) (x : Mat n d K) :
    Option (Mat n d K) × Except Err (Mat n d K) :=
  match mem with
  | none => (some x, .ok x)
  | some m =>
    let r : Mat n d K := fun i j =>
      let p1 := if isLow b x i j then fl ((1 / 2) * fl (m i j + b.1 j)) else x i j
      if isHigh b x i j then fl ((1 / 2) * fl (m i j + b.2 j)) else p1
    (some r, .ok r)

section
variable [FloorRing K]

/-- `BoundaryHandler.periodic` (handlers.py:349-393) in rounded arithmetic; `np.mod` of nonnegative
numbers is C's `fmod`. -/
def bhPeriodicR (fl : K → K) (b : Bounds d K) (x : Mat n d K) : Except Err (Mat n d K) :=
  if (List.finRange n).any fun i => (List.finRange d).any fun j =>
      (isLow b x i j || isHigh b x i j) && decide (|fl (b.2 j - b.1 j)| = 0) then
    .error .nonFinite
  else .ok fun i j =>
    let s := |fl (b.2 j - b.1 j)|
    let p1 := if isLow b x i j then fl (b.2 j - fl (npMod (fl (b.1 j - x i j)) s)) else x i j
    if isHigh b x i j then fl (b.1 j + fl (npMod (fl (p1 - b.2 j)) s)) else p1

/-- `BoundaryHandler.__call__` (handlers.py:115-144) in rounded arithmetic; `nearest` does not
compute. -/
def bhCallR (fl : K → K) (strategy : String) (mem : Option (Mat n d K)) (b : Bounds d K)
    (r : BHDraw d K) (x : Mat n d K) : Option (Mat n d K) × Except Err (Mat n d K) :=
  if strategy = "nearest" then (mem, .ok (bhNearest b x))
  else if strategy = "reflective" then (mem, bhReflectiveR fl b r.passes x)
  else if strategy = "shrink" then bhShrinkR fl b mem x
  else if strategy = "random" then (mem, .ok (bhRandomR fl b r.u r.l x))
  else if strategy = "intermediate" then bhIntermediateR fl b mem x
  else if strategy = "periodic" then (mem, bhPeriodicR fl b x)
  else (mem, .error .keyError)

end

/-! ## VelocityHandler -/

/-- `VelocityHandler.adjust` (handlers.py:470-497) in rounded arithmetic. -/
def vhAdjustR (fl : K → K) (mem : Option (Mat n d K)) (c : Option (Clamp d K)) (kw : VHKw n d K)
    (v : Mat n d K) : Option (Mat n d K) × Except Err (Mat n d K) :=
  match kw.position with
  | none => (mem, .error .keyError)
  | some p =>
    match mem with
    | none => (some p, .ok v)
    | some m => (some p, .ok (clampOpt c fun i j => fl (p i j - m i j)))

/-- `VelocityHandler.invert` (handlers.py:499-531) in rounded arithmetic. -/
def vhInvertR (fl : K → K) (c : Option (Clamp d K)) (kw : VHKw n d K) (v : Mat n d K) :
    Except Err (Mat n d K) :=
  let z := kw.z.getD (1 / 2)
  match kw.position, kw.bounds with
  | none, _ => .error .keyError
  | _, none => .error .keyError
  | some _, some none => .error .typeError
  | some p, some (some b) =>
    let v1 : Mat n d K := fun i j => if rowLow b p i then fl ((-z) * v i j) else v i j
    let v2 : Mat n d K := fun i j => if rowHigh b p i then fl ((-z) * v1 i j) else v1 i j
    .ok (clampOpt c v2)

/-- `VelocityHandler.__call__` (handlers.py:420-449) in rounded arithmetic. -/
def vhCallR (fl : K → K) (strategy : String) (mem : Option (Mat n d K)) (c : Option (Clamp d K))
    (kw : VHKw n d K) (v : Mat n d K) : Option (Mat n d K) × Except Err (Mat n d K) :=
  if strategy = "unmodified" then (mem, .ok (vhUnmodified c v))
  else if strategy = "adjust" then vhAdjustR fl mem c kw v
  else if strategy = "invert" then (mem, vhInvertR fl c kw v)
  else if strategy = "zero" then (mem, vhZero kw v)
  else (mem, .error .keyError)

/-! ## Operators -/

/-- `temp_velocity` of `compute_velocity` (operators.py:131-143) in rounded arithmetic. -/
def tempVelocityR (fl : K → K) (c1 c2 w : K) (r1 r2 : Mat n d K) (s : Swarm n d K) : Mat n d K :=
  fun i j =>
    let cognitive := fl (fl (c1 * r1 i j) * fl (s.pbestPos i j - s.position i j))
    let social := fl (fl (c2 * r2 i j) * fl (s.bestPos.row s.position i j - s.position i j))
    fl (fl (fl (w * s.velocity i j) + cognitive) + social)

/-- `compute_velocity` (operators.py:82-157) in rounded arithmetic. -/
def computeVelocityR (fl : K → K) (s : Swarm n d K) (clamp : Option (Clamp d K)) (strategy : String)
    (mem : Option (Mat n d K)) (bounds : Option (Bounds d K)) (r1 r2 : Mat n d K) :
    Option (Mat n d K) × Except Err (Mat n d K) :=
  match s.options.lookup "c1", s.options.lookup "c2", s.options.lookup "w" with
  | some c1, some c2, some w =>
    let call := vhCallR fl strategy mem clamp
      { position := some s.position, bounds := some bounds } (tempVelocityR fl c1 c2 w r1 r2 s)
    match s.bestPos with
    | .empty =>
      if d = 0 then call
      else if d = 1 then
        if strategy = "adjust" then call
        else match call with
          | (m, .error e) => (m, .error e)
          | (m, .ok _) => (m, .error .valueError)
      else (mem, .error .valueError)
    | _ => call
  | _, _, _ => (mem, .error .keyError)

/-- `compute_position` (operators.py:160-210) in rounded arithmetic. -/
def computePositionR [FloorRing K] (fl : K → K) (s : Swarm n d K) (bounds : Option (Bounds d K))
    (strategy : String) (mem : Option (Mat n d K)) (r : BHDraw d K) :
    Option (Mat n d K) × Except Err (Mat n d K) :=
  let temp : Mat n d K := fun i j => fl (s.position i j + s.velocity i j)
  match bounds with
  | none => (mem, .ok temp)
  | some b => bhCallR fl strategy mem b r temp

/-! ## The optimizers -/

/-- How the machine computes: `fl` rounds the result of each `+`, `-`, `*`, `/`; `mean` is `np.mean`
of the personal best costs (order of summation unspecified), `sig` the sigmoid of `BinaryPSO`, `oh`
the options handler call (`iters`, `i`, draws, swarm), whose powers and exponentials are not
correctly rounded (the float64 operations of operators.py:126-143, 198, handlers.py:146-546,
binary.py:282, global_best.py:220-231). -/
structure Arith (n d : Nat) (K : Type) where
  fl : K → K
  mean : Costs n K → XR K
  sig : K → K
  oh : Nat → Nat → Draw n d K → Swarm n d K → Except Err (Opts K)

/-- Rounding of a finite value; `inf` and `nan` stay (global_best.py:227-231). -/
def roundX (fl : K → K) : XR K → XR K
  | .fin x => .fin (fl x)
  | x => x

/-- The stop test value (global_best.py:226-231 and the same lines of the other classes) in rounded
arithmetic. -/
def ftolDeltaR (fl : K → K) (ftol now yet : XR K) : Bool :=
  XR.lt (XR.abs (roundX fl (XR.sub now yet)))
    (roundX fl (XR.mul ftol (roundX fl (XR.add (XR.fin 1) (XR.abs yet)))))

section
variable [FloorRing K]

/-- The position update (global_best.py:246-248, local_best.py:274-276, general_optimizer.py:286-288,
binary.py:234, 252-267) in rounded arithmetic. -/
def callPositionR (A : Arith n d K) (cfg : Config n d K) (r : Draw n d K) (mem : Option (Mat n d K))
    (s : Swarm n d K) : Option (Mat n d K) × Except Err (Mat n d K) :=
  match cfg.kind with
  | .binary => (mem, .ok fun i j => if r.thr j < A.sig (s.velocity i j) then 1 else 0)
  | _ => computePositionR A.fl s cfg.bounds cfg.bhStrategy mem r.bh

/-- The second half of the loop body (global_best.py:238-248, local_best.py:266-276,
general_optimizer.py:278-288, binary.py:230-234) in rounded arithmetic. -/
def moveSwarmR (A : Arith n d K) (cfg : Config n d K) (r : Draw n d K) (iters i : Nat)
    (s : Opt n d K) : Opt n d K × Except Err Unit :=
  match A.oh iters i r s.swarm with
  | .error e => (s, .error e)
  | .ok o =>
    let s1 := { s with swarm := { s.swarm with options := o } }
    match computeVelocityR A.fl s1.swarm cfg.clamp cfg.vhStrategy s1.vhMem (velBounds cfg)
        r.r1 r.r2 with
    | (vm, .error e) => ({ s1 with vhMem := vm }, .error e)
    | (vm, .ok v) =>
      let s2 := { s1 with vhMem := vm, swarm := { s1.swarm with velocity := v } }
      match callPositionR A cfg r s2.bhMem s2.swarm with
      | (bm, .error e) => ({ s2 with bhMem := bm }, .error e)
      | (bm, .ok p) => ({ s2 with bhMem := bm, swarm := { s2.swarm with position := p } }, .ok ())

/-- `self.swarm.best_pos, self.swarm.best_cost = …` and `_populate_history` (global_best.py:212-225
and the same lines of the other classes) with the machine's `np.mean`. -/
def recordBestR (A : Arith n d K) (t : TopState n) (g : GBest n d K) (s : Opt n d K) : Opt n d K :=
  let s1 := { s with top := t, swarm := { s.swarm with bestPos := g.1, bestCost := g.2 } }
  s1.populateHistory
    { bestCost := s1.swarm.bestCostVal
      meanPbest := A.mean s1.swarm.pbestCost
      meanNeighbor := s1.swarm.bestCostVal
      position := s1.swarm.position
      velocity := s1.swarm.velocity }

/-- One iteration of `optimize` (global_best.py:207-248, local_best.py:231-276,
general_optimizer.py:245-288, binary.py:194-234) in rounded arithmetic. -/
def iterateR (A : Arith n d K) (cfg : Config n d K) (ev : Mat n d K → Except Err (Costs n K))
    (r : Draw n d K) (iters i : Nat) (q : List Bool) (s : Opt n d K) :
    Opt n d K × Except Err Flow :=
  match ev s.swarm.position with
  | .error e => (s, .error e)
  | .ok c =>
    let s1 := recordEval c s
    let yet := s1.swarm.bestCostVal
    match callGbest cfg r.oracle s1.top s1.swarm with
    | (t, .error e) => ({ s1 with top := t }, .error e)
    | (t, .ok g) =>
      let s2 := recordBestR A t g s1
      let q' := dequeAppend cfg.window q (ftolDeltaR A.fl cfg.ftol s2.swarm.bestCostVal yet)
      if decide (¬ i < cfg.window) && q'.all id then (s2, .ok .stop)
      else match moveSwarmR A cfg r iters i s2 with
        | (s3, .error e) => (s3, .error e)
        | (s3, .ok ()) => (s3, .ok (.continue q'))

/-- The `for` loop of `optimize` in rounded arithmetic (global_best.py:206, local_best.py:230,
general_optimizer.py:244, binary.py:193). -/
def loopR (A : Arith n d K) (cfg : Config n d K) (ev : Nat → Mat n d K → Except Err (Costs n K))
    (env : Nat → Draw n d K) (iters : Nat) :
    (m i : Nat) → List Bool → Opt n d K → Opt n d K × Except Err Unit
  | 0, _, _, s => (s, .ok ())
  | m + 1, i, q, s =>
    match iterateR A cfg (ev i) (env i) iters i q s with
    | (s', .error e) => (s', .error e)
    | (s', .ok .stop) => (s', .ok ())
    | (s', .ok (.continue q')) => loopR A cfg ev env iters m (i + 1) q' s'

/-- `optimize` (global_best.py:159-264, local_best.py:183-292, general_optimizer.py:197-304,
binary.py:146-250) in rounded arithmetic. -/
def optimizeR (A : Arith n d K) (cfg : Config n d K)
    (ev : Nat → Mat n d K → Except Err (Costs n K)) (iters : Nat) (nproc : Option Nat)
    (env : Nat → Draw n d K) (s : Opt n d K) : Opt n d K × Except Err (XR K × Vec d K) :=
  if nproc = some 0 then
    ({ s with bhMem := (prepare cfg s).bhMem, vhMem := (prepare cfg s).vhMem }, .error .valueError)
  else
    let s0 := { prepare cfg s with
      openPools := s.openPools + (if nproc.isSome then 1 else 0) }
    match loopR A cfg ev env iters iters 0 [] s0 with
    | (s1, .error e) => (s1, .error e)
    | (s1, .ok ()) =>
      match finish s1 with
      | .error e => (s1, .error e)
      | .ok r => ({ s1 with openPools := s1.openPools - (if nproc.isSome then 1 else 0) }, .ok r)

end

/-- `generate_swarm` with bounds (generators.py:73-83: `center * np.random.uniform(lb, ub)`) in
rounded arithmetic; `np.random.uniform` is `lb + (ub - lb) * random_sample()`. -/
def generateInsideR (fl : K → K) (b : Bounds d K) (center : Vec d K) (u : Mat n d K) : Mat n d K :=
  fun i j => fl (center j * fl (b.1 j + fl (fl (b.2 j - b.1 j) * u i j)))

/-- `generate_velocity` with a clamp (generators.py:172-174) in rounded arithmetic. -/
def generateVelocityR (fl : K → K) (c : Clamp d K) (u : Mat n d K) : Mat n d K :=
  fun i j => fl (fl (fl (c.2 j - c.1 j) * u i j) + c.1 j)

section
variable [FloorRing K]

/-- The exact arithmetic of the other model files (as `Arith`). -/
def Arith.exact [Transc K] (cfg : Config n d K) : Arith n d K where
  fl := id
  mean := npMean
  sig := sigmoid
  oh := fun iters i r s => callOptions cfg iters i r s

end

end PySwarms
