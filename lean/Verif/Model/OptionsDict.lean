import Verif.Model.Keyword
import Mathlib.Algebra.Order.Floor.Ring

/-!
# The options dictionary as one dictionary

`options` is one dictionary with the coefficients `c1`, `c2`, `w`, the topology parameters `k`, `p`,
`r` and anything else the user puts into it.  `Model/Optimizer.lean` splits it into `Config.options`
and `Config.args`; here `Config.options` is the whole dictionary, `Config.args` is not used, and the
topology gets its parameters as the code does: `LocalBestPSO` and `BinaryPSO` read `options["k"]`
and `options["p"]` in the constructor, `GeneralOptimizerPSO` calls
`self.top.compute_gbest(self.swarm, **self.options)`.

All values are numbers; `k`, `p` and `r` are Python integers when they are integers.  Negative or
fractional ones are outside the model.
-/

namespace PySwarms.Od

open PySwarms

variable {n d : Nat} {K : Type}

/-- The values bound in a call of `compute_gbest`: the topology, the swarm, numbers
(general_optimizer.py:252-254). -/
inductive TArg (K : Type)
  | self
  | swarm
  | num (x : K)

/-- The parameters of `compute_gbest`, all of which also take `**kwargs` (star.py:31, ring.py:38,
von_neumann.py:23, pyramid.py:35, random.py:36). -/
def gbestParams : TopKind → Kw.Params (TArg K)
  | .star => [("self", none), ("swarm", none)]
  | .ring _ => [("self", none), ("swarm", none), ("p", none), ("k", none)]
  | .vonNeumann => [("self", none), ("swarm", none), ("p", none), ("r", none)]
  | .pyramid _ => [("self", none), ("swarm", none)]
  | .random _ => [("self", none), ("swarm", none), ("k", none)]

/-- The names of the parameters a topology reads (ring.py:38, von_neumann.py:23, random.py:36). -/
def wanted : TopKind → List String
  | .star => []
  | .ring _ => ["p", "k"]
  | .vonNeumann => ["p", "r"]
  | .pyramid _ => []
  | .random _ => ["k"]

variable [Field K] [LinearOrder K] [FloorRing K]

/-- A number used as an integer parameter (ring.py:68, random.py:217-227, von_neumann.py:49). -/
def natOf (x : K) : Option Nat := if ((⌊x⌋.toNat : Nat) : K) = x then some ⌊x⌋.toNat else none

/-- The integer bound to a parameter (general_optimizer.py:252-254). -/
def argNat : Option (TArg K) → Option Nat
  | some (.num x) => natOf x
  | _ => none

/-- `self.top.compute_gbest(self.swarm, **self.options)` (general_optimizer.py:252-254). -/
def generalGbest (top : TopKind) (options : Opts K) (o : Oracle n d K) (t : TopState n)
    (s : Swarm n d K) : TopState n × Except Err (GBest n d K) :=
  match Kw.bindArgs (gbestParams top) true [TArg.self, TArg.swarm]
      (options.map fun a => (a.1, TArg.num a.2)) with
  | .error e => (t, .error e)
  | .ok (a, _) =>
    if (wanted top).any fun p => (argNat (a p)).isNone then (t, .error .unmodelled)
    else computeGbest top { k := argNat (a "k"), p := argNat (a "p"), r := argNat (a "r") } o t s

/-- `self.top.compute_gbest(self.swarm, p=self.p, k=self.k)` with `self.k, self.p = options["k"],
options["p"]`, read by the constructor of `LocalBestPSO` and `BinaryPSO` (local_best.py:159, 239-242,
binary.py:127, 202-205). -/
def storedGbest (static : Bool) (options : Opts K) (o : Oracle n d K) (t : TopState n)
    (s : Swarm n d K) : TopState n × Except Err (GBest n d K) :=
  match (options.lookup "k").bind natOf, (options.lookup "p").bind natOf with
  | some k, some p => computeGbest (.ring static) { k := some k, p := some p } o t s
  | _, _ => (t, .error .unmodelled)

/-- The call of `compute_gbest` of each class (global_best.py:213, local_best.py:239-242,
general_optimizer.py:252-254, binary.py:202-205). -/
def callGbestD (cfg : Config n d K) (o : Oracle n d K) (t : TopState n) (s : Swarm n d K) :
    TopState n × Except Err (GBest n d K) :=
  match cfg.kind with
  | .globalBest => computeGbest .star {} o t s
  | .localBest st => storedGbest st cfg.options o t s
  | .general top => generalGbest top cfg.options o t s
  | .binary => storedGbest false cfg.options o t s

variable [Transc K]

/-- One iteration of `optimize` (global_best.py:207-248, local_best.py:231-276,
general_optimizer.py:245-288, binary.py:194-234) with the whole dictionary. -/
def iterateD (cfg : Config n d K) (ev : Mat n d K → Except Err (Costs n K)) (r : Draw n d K)
    (iters i : Nat) (q : List Bool) (s : Opt n d K) : Opt n d K × Except Err Flow :=
  match ev s.swarm.position with
  | .error e => (s, .error e)
  | .ok c =>
    let s1 := recordEval c s
    let yet := s1.swarm.bestCostVal
    match callGbestD cfg r.oracle s1.top s1.swarm with
    | (t, .error e) => ({ s1 with top := t }, .error e)
    | (t, .ok g) =>
      let s2 := recordBest t g s1
      let q' := dequeAppend cfg.window q (ftolDelta cfg.ftol s2.swarm.bestCostVal yet)
      if decide (¬ i < cfg.window) && q'.all id then (s2, .ok .stop)
      else match moveSwarm cfg r iters i s2 with
        | (s3, .error e) => (s3, .error e)
        | (s3, .ok ()) => (s3, .ok (.continue q'))

/-- The loop of `optimize` (global_best.py:206, local_best.py:230, general_optimizer.py:244,
binary.py:193) with the whole dictionary. -/
def loopD (cfg : Config n d K) (ev : Nat → Mat n d K → Except Err (Costs n K))
    (env : Nat → Draw n d K) (iters : Nat) :
    (m i : Nat) → List Bool → Opt n d K → Opt n d K × Except Err Unit
  | 0, _, _, s => (s, .ok ())
  | m + 1, i, q, s =>
    match iterateD cfg (ev i) (env i) iters i q s with
    | (s', .error e) => (s', .error e)
    | (s', .ok .stop) => (s', .ok ())
    | (s', .ok (.continue q')) => loopD cfg ev env iters m (i + 1) q' s'

/-- `optimize` (global_best.py:159-264, local_best.py:183-292, general_optimizer.py:197-304,
binary.py:146-250) with the whole dictionary. -/
def optimizeD (cfg : Config n d K) (ev : Nat → Mat n d K → Except Err (Costs n K))
    (iters : Nat) (nproc : Option Nat) (env : Nat → Draw n d K) (s : Opt n d K) :
    Opt n d K × Except Err (XR K × Vec d K) :=
  if nproc = some 0 then
    ({ s with bhMem := (prepare cfg s).bhMem, vhMem := (prepare cfg s).vhMem }, .error .valueError)
  else
    let s0 := { prepare cfg s with
      openPools := s.openPools + (if nproc.isSome then 1 else 0) }
    match loopD cfg ev env iters iters 0 [] s0 with
    | (s1, .error e) => (s1, .error e)
    | (s1, .ok ()) =>
      match finish s1 with
      | .error e => (s1, .error e)
      | .ok r => ({ s1 with openPools := s1.openPools - (if nproc.isSome then 1 else 0) }, .ok r)

/-- The constructors (global_best.py:134-157, local_best.py:154-181, general_optimizer.py:170-195,
binary.py:124-144) with the whole dictionary: `options["k"]`, `options["p"]` of a missing key is a
`KeyError`. -/
def constructD (cfg : Config n d K) (r1 r2 : InitDraw n d K) : Except Err (Opt n d K) :=
  if cfg.kind.needsKP && ((cfg.options.lookup "k").isNone || (cfg.options.lookup "p").isNone) then
    .error .keyError
  else match checkFtolIter cfg.ftolIter with
    | .error e => .error e
    | .ok () =>
      match resetSwarm cfg r1 with
      | .error e => .error e
      | .ok _ =>
        match resetSwarm cfg r2 with
        | .error e => .error e
        | .ok sw => .ok { swarm := sw }

/-- A call on the optimizer (base_single.py:147, 173) with the whole dictionary. -/
def stepOpD (cfg : Config n d K) (s : Opt n d K) : Op n d K → Opt n d K
  | .optimize ev iters nproc env => (optimizeD cfg ev iters nproc env s).1
  | .reset r => (reset cfg r s).1

/-- A sequence of calls (base_single.py:147, 173) with the whole dictionary. -/
def runOpsD (cfg : Config n d K) (s : Opt n d K) (ops : List (Op n d K)) : Opt n d K :=
  ops.foldl (stepOpD cfg) s

end PySwarms.Od
