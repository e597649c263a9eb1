import Verif.Model.Ieee
import Verif.Model.Optimizer

/-!
# BinaryPSO with the special values of floating point

`discrete/binary.py` once more.  The positions of a BinaryPSO are zeros and ones, which floating point
stores exactly, but nothing keeps its velocities from becoming infinite.  Here velocities are float
values (`XR`), all arithmetic on them is done by the floating-point unit `A`, and `E` is `np.exp` on
finite arguments.

Simplifications: the costs and their comparisons are those of Model/Optimizer.lean (which has the
special values already), the means recorded in the histories are exact, the evaluation is in one
process.
-/

namespace PySwarms

variable {n d : Nat} {K : Type}

/-- The state of a BinaryPSO (base_discrete.py:128-146, 197-214): velocities, the memory of the
velocity handler and `velocity_history` are float values; everything else is in `opt`, whose own
fields for these three are not used. -/
structure OptBx (n d : Nat) (K : Type) where
  opt : Opt n d K
  velocity : Mat n d (XR K)
  vhMem : Option (Mat n d (XR K)) := none
  velocityHistory : List (Mat n d (XR K)) := []

variable [Field K] [LinearOrder K]

/-- `np.exp`, given what it does with numbers (binary.py:282). -/
def expX (E : K → XR K) : XR K → XR K
  | .fin x => E x
  | .pinf => .pinf
  | .ninf => .fin 0
  | .nan => .nan

/-- `BinaryPSO._sigmoid` (binary.py:269-282). -/
def sigmoidX (A : Fpu K) (E : K → XR K) (x : XR K) : XR K :=
  A.div (.fin 1) (A.add (.fin 1) (expX E (XR.neg x)))

/-- `BinaryPSO._compute_position` (binary.py:252-267). -/
def binaryPositionX (A : Fpu K) (E : K → XR K) (thr : Vec d K) (v : Mat n d (XR K)) : Mat n d K :=
  fun i j => if XR.lt (.fin (thr j)) (sigmoidX A E (v i j)) then 1 else 0

/-- `temp_velocity` of `compute_velocity` (operators.py:131-143), in the order of evaluation of
Python. -/
def tempVelocityBx (A : Fpu K) (c1 c2 w : K) (r1 r2 : Mat n d K) (s : Swarm n d K)
    (v : Mat n d (XR K)) : Mat n d (XR K) := fun i j =>
  let cognitive := A.mul (A.mul (.fin c1) (.fin (r1 i j)))
    (A.sub (.fin (s.pbestPos i j)) (.fin (s.position i j)))
  let social := A.mul (A.mul (.fin c2) (.fin (r2 i j)))
    (A.sub (.fin (s.bestPos.row s.position i j)) (.fin (s.position i j)))
  A.add (A.add (A.mul (.fin w) (v i j)) cognitive) social

/-- `compute_velocity` as BinaryPSO calls it, without bounds (operators.py:82-157,
binary.py:230-233); the cases of an empty `best_pos` are those of `computeVelocity`. -/
def computeVelocityBx (A : Fpu K) (s : Swarm n d K) (v : Mat n d (XR K)) (clamp : Option (Clamp d K))
    (strategy : String) (mem : Option (Mat n d (XR K))) (r1 r2 : Mat n d K) :
    Option (Mat n d (XR K)) × Except Err (Mat n d (XR K)) :=
  match s.options.lookup "c1", s.options.lookup "c2", s.options.lookup "w" with
  | some c1, some c2, some w =>
    let call := vhCallX A strategy mem clamp none (fun i j => .fin (s.position i j))
      (tempVelocityBx A c1 c2 w r1 r2 s v)
    match s.bestPos with
    | .empty =>
      if d = 0 then call
      else if d = 1 then
        if strategy = "adjust" then call
        else match call with
          | (m, .error e) => (m, .error e)
          | (m, .ok _) => (m, .error .valueError)
      else (mem, .error .valueError)
    | _ => call
  | _, _, _ => (mem, .error .keyError)

/-- The second half of the loop body (binary.py:229-234). -/
def moveBx (A : Fpu K) (E : K → XR K) (cfg : Config n d K) (r : Draw n d K) (s : OptBx n d K) :
    OptBx n d K × Except Err Unit :=
  match computeVelocityBx A s.opt.swarm s.velocity cfg.clamp cfg.vhStrategy s.vhMem r.r1 r.r2 with
  | (vm, .error e) => ({ s with vhMem := vm }, .error e)
  | (vm, .ok v) =>
    ({ s with
        vhMem := vm
        velocity := v
        opt := { s.opt with
          swarm := { s.opt.swarm with position := binaryPositionX A E r.thr v } } }, .ok ())

/-- One iteration of `optimize` (binary.py:194-234). -/
def iterateBx (A : Fpu K) (E : K → XR K) (cfg : Config n d K)
    (ev : Mat n d K → Except Err (Costs n K)) (r : Draw n d K) (i : Nat) (q : List Bool)
    (s : OptBx n d K) : OptBx n d K × Except Err Flow :=
  match ev s.opt.swarm.position with
  | .error e => (s, .error e)
  | .ok c =>
    let o1 := recordEval c s.opt
    match callGbest cfg r.oracle o1.top o1.swarm with
    | (t, .error e) => ({ s with opt := { o1 with top := t } }, .error e)
    | (t, .ok g) =>
      let s2 := { s with
        opt := recordBest t g o1
        velocityHistory := s.velocityHistory ++ [s.velocity] }
      let q' := dequeAppend cfg.window q
        (ftolDeltaX A cfg.ftol s2.opt.swarm.bestCostVal o1.swarm.bestCostVal)
      if decide (¬ i < cfg.window) && q'.all id then (s2, .ok .stop)
      else match moveBx A E cfg r s2 with
        | (s3, .error e) => (s3, .error e)
        | (s3, .ok ()) => (s3, .ok (.continue q'))

/-- The `for` loop of `optimize` (binary.py:193). -/
def loopBx (A : Fpu K) (E : K → XR K) (cfg : Config n d K)
    (ev : Nat → Mat n d K → Except Err (Costs n K)) (env : Nat → Draw n d K) :
    (m i : Nat) → List Bool → OptBx n d K → OptBx n d K × Except Err Unit
  | 0, _, _, s => (s, .ok ())
  | m + 1, i, q, s =>
    match iterateBx A E cfg (ev i) (env i) i q s with
    | (s', .error e) => (s', .error e)
    | (s', .ok .stop) => (s', .ok ())
    | (s', .ok (.continue q')) => loopBx A E cfg ev env m (i + 1) q' s'

/-- The preamble of `optimize` (binary.py:185-192). -/
def prepareBx (s : OptBx n d K) : OptBx n d K :=
  { s with
    vhMem := some fun i j => .fin (s.opt.swarm.position i j)
    opt := { s.opt with swarm := { s.opt.swarm with pbestCost := fun _ => XR.pinf } } }

/-- `BinaryPSO.optimize` in one process (binary.py:146-250). -/
def optimizeBx (A : Fpu K) (E : K → XR K) (cfg : Config n d K)
    (ev : Nat → Mat n d K → Except Err (Costs n K)) (iters : Nat) (env : Nat → Draw n d K)
    (s : OptBx n d K) : OptBx n d K × Except Err (XR K × Vec d K) :=
  match loopBx A E cfg ev env iters 0 [] (prepareBx s) with
  | (s1, .error e) => (s1, .error e)
  | (s1, .ok ()) => (s1, finish s1.opt)

/-- `generate_velocity` (generators.py:151-184). -/
def generateVelocityX (A : Fpu K) (clamp : Option (Clamp d K)) (u : Mat n d K) : Mat n d (XR K) :=
  let c : Clamp d K := clamp.getD (fun _ => 0, fun _ => 1)
  fun i j => A.add (A.mul (A.sub (.fin (c.2 j)) (.fin (c.1 j))) (.fin (u i j))) (.fin (c.1 j))

/-- `reset` (base_discrete.py:175-214). -/
def resetBx (A : Fpu K) (cfg : Config n d K) (r : InitDraw n d K) (s : OptBx n d K) :
    OptBx n d K × Except Err Unit :=
  match reset cfg r s.opt with
  | (o, .error e) => ({ s with opt := o, velocityHistory := [] }, .error e)
  | (o, .ok ()) =>
    ({ s with opt := o, velocity := generateVelocityX A cfg.clamp r.vel, velocityHistory := [] },
      .ok ())

/-- The constructor (binary.py:124-144). -/
def constructBx (A : Fpu K) (cfg : Config n d K) (r1 r2 : InitDraw n d K) :
    Except Err (OptBx n d K) :=
  match construct cfg r1 r2 with
  | .error e => .error e
  | .ok o => .ok { opt := o, velocity := generateVelocityX A cfg.clamp r2.vel }

end PySwarms
