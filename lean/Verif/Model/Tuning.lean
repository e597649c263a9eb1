import Verif.Model.Optimizer
import Verif.Model.NdArray

/-!
# Changing an optimizer between calls

All parameters of an optimizer are ordinary attributes.  `optimize` and `reset` read them when they
are called, so a program may assign to them between two calls.  A program is modelled as a list of
assignments and calls; its state is the pair of the present attributes and the optimizer object.

* attributes read by `optimize` – global_best.py:197-248, local_best.py:221-276,
  general_optimizer.py:235-288, binary.py:185-234
* attributes read by `reset`    – base_single.py:195-212, base_discrete.py:197-214
* constructors                  – base_single.py:93-124, base_discrete.py:96-126

Not modelled: assignments that the constructor would not accept (an `ftol_iter` that is not a
positive integer, a missing `k` or `p`), a change of `top` on an optimizer other than
`GeneralOptimizerPSO`, and writing into an array or dictionary instead of assigning a new one.
-/

namespace PySwarms

variable {n d : Nat} {K : Type}

/-- An assignment to an attribute of an optimizer `opt` (base_single.py:93-111, base_discrete.py:96-113,
global_best.py:154-157, local_best.py:159, 174-181, general_optimizer.py:187-195,
binary.py:127, 141-144). -/
inductive Tune (n d : Nat) (K : Type)
  /-- `opt.bounds = …` -/
  | bounds (b : Option (Bounds d K))
  /-- `opt.velocity_clamp = …` -/
  | clamp (c : Option (Clamp d K))
  /-- `opt.options = {…}`; `args` are the entries `k`, `p`, `r`. -/
  | options (o : Opts K) (args : TopArgs)
  /-- `opt.k = …; opt.p = …` (`LocalBestPSO` and `BinaryPSO`) -/
  | neighbours (k p : Nat)
  /-- `opt.ftol = …` -/
  | ftol (x : XR K)
  /-- `opt.ftol_iter = …`, a positive integer -/
  | ftolIter (w : Nat)
  /-- `opt.center = …` -/
  | center (c : Vec d K)
  /-- `opt.init_pos = …` -/
  | initPos (p : Option (Mat n d K))
  /-- `opt.top = …`, a new topology object (`GeneralOptimizerPSO`) -/
  | topology (t : TopKind)
  /-- `opt.bh = BoundaryHandler(strategy)` -/
  | boundaryHandler (strategy : String)
  /-- `opt.vh = VelocityHandler(strategy)` -/
  | velocityHandler (strategy : String)
  /-- `opt.oh = OptionsHandler(strategy)` -/
  | optionsHandler (strategy : List (String × String))
  /-- `opt.swarm.position = …` -/
  | position (x : Mat n d K)
  /-- `opt.swarm.velocity = …` -/
  | velocity (v : Mat n d K)

/-- The effect of an assignment.  The options `k`, `p`, `r` of `opt.options` are read again only by
`GeneralOptimizerPSO` (general_optimizer.py:252-254); `LocalBestPSO` and `BinaryPSO` keep `opt.k` and
`opt.p` (local_best.py:159, 239-242, binary.py:127, 202-205).  `opt.swarm.options` is not touched.
New handlers and topologies start without memory (handlers.py:113, 418, base.py:31). -/
def tune (t : Tune n d K) (S : Config n d K × Opt n d K) : Config n d K × Opt n d K :=
  match t with
  | .bounds b => ({ S.1 with bounds := b }, S.2)
  | .clamp c => ({ S.1 with clamp := c }, S.2)
  | .options o args => ({ S.1 with
      options := o
      args := match S.1.kind with
        | .general _ => args
        | _ => S.1.args }, S.2)
  | .neighbours k p => ({ S.1 with
      args := match S.1.kind with
        | .localBest _ => { S.1.args with k := some k, p := some p }
        | .binary => { S.1.args with k := some k, p := some p }
        | _ => S.1.args }, S.2)
  | .ftol x => ({ S.1 with ftol := x }, S.2)
  | .ftolIter w => ({ S.1 with ftolIter := .int (w + 1 : Nat) }, S.2)
  | .center c => ({ S.1 with center := c }, S.2)
  | .initPos p => ({ S.1 with initPos := p }, S.2)
  | .topology t =>
    match S.1.kind with
    | .general _ => ({ S.1 with kind := .general t }, { S.2 with top := {} })
    | _ => S
  | .boundaryHandler st => ({ S.1 with bhStrategy := st }, { S.2 with bhMem := none })
  | .velocityHandler st => ({ S.1 with vhStrategy := st }, { S.2 with vhMem := none })
  | .optionsHandler st => ({ S.1 with ohStrategy := st }, S.2)
  | .position x => (S.1, { S.2 with swarm := { S.2.swarm with position := x } })
  | .velocity v => (S.1, { S.2 with swarm := { S.2.swarm with velocity := v } })

/-- A statement of a program that uses one optimizer (base_single.py:93-111, 147, 173). -/
inductive Act (n d : Nat) (K : Type)
  | set (t : Tune n d K)
  | call (op : Op n d K)

section
variable [Field K] [LinearOrder K] [Transc K] [FloorRing K]

/-- The effect of one statement; exceptions of calls are caught (base_single.py:147, 173). -/
def act (S : Config n d K × Opt n d K) : Act n d K → Config n d K × Opt n d K
  | .set t => tune t S
  | .call op => (S.1, stepOp S.1 S.2 op)

/-- The effect of a program (base_single.py:147, 173). -/
def runActs (S : Config n d K × Opt n d K) (prog : List (Act n d K)) :
    Config n d K × Opt n d K :=
  prog.foldl act S

end

section
variable [Field K] [LinearOrder K]

/-- `opt = GlobalBestPSO(n, d, …); opt.n_particles = m; opt.reset(); opt.optimize(…)` with the new
positions `pos` of shape `(m, d)` (base_single.py:97, 203-212; global_best.py:204): `reset` creates a
swarm of `m` particles, but `swarm_size` was computed by the constructor and still is `(n, d)`.
Restrictions as in `NdArray`. -/
def resizedRun (n m d : Nat) (pos vel : List Nat → K) (obj : Arr K → Except Err (Arr (XR K)))
    (c1 c2 w : K) (clamp : Option (Arr K × Arr K)) (rs : List ((List Nat → K) × (List Nat → K))) :
    Except Err (ASwarm K) :=
  match createSwarmA m d ⟨[m, d], pos⟩ vel with
  | .error e => .error e
  | .ok s => optimizeA n starGbestA obj c1 c2 w clamp rs s

end

end PySwarms
