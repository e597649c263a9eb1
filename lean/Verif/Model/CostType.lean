import Verif.Model.Optimizer
import Verif.Model.Float

/-!
# Data types of the costs

In the other model files the costs are exact extended numbers.  In the program the objective returns
an array with a data type.  `compute_pbest` compares it with `pbest_cost`, which each `optimize` call
creates as a `float64` array (global_best.py:204), and merges the two with `np.where`
(operators.py:66, 70-72).  NumPy converts integers to `float64` in both places; with an array of
Python objects (`dtype=object`) both arrays are treated as Python objects, nothing is converted, and
`np.min` returns a Python number without the method `copy` that global_best.py:250 calls.

Costs of type `float16`, `float32`, `bool` and small integers convert exactly and need no case of
their own.  Python integers in an object array are supposed to be small enough for `float(z)` not to
overflow.  Object arrays together with a `float64` best cost of an earlier call (or the other way
round) are `unmodelled`.
-/

namespace PySwarms.Ct

variable {n d : Nat} {K : Type} [Field K] [LinearOrder K]

/-- What the objective function returns (operators.py:213-245): an array of `float64`, of 64-bit
integers, or of Python integers. -/
inductive CostArr (n : Nat) (K : Type)
  | float (c : Costs n K)
  | int (z : Fin n → ℤ)
  | obj (z : Fin n → ℤ)

/-- Is it an array of Python objects? (operators.py:66) -/
def CostArr.isObj : CostArr n K → Bool
  | .obj _ => true
  | _ => false

/-- The numbers compared and stored by `compute_pbest` (operators.py:66, 70-72): integers are converted by
`i2f` unless `pbest_cost` already is an array of Python objects. -/
def CostArr.vals (i2f : ℤ → XR K) (pbObj : Bool) : CostArr n K → Costs n K
  | .float c => c
  | .int z => fun i => if pbObj then .fin (z i : K) else i2f (z i)
  | .obj z => fun i => .fin (z i : K)

/-- An optimizer with the data types of `swarm.pbest_cost` and `swarm.best_cost`
(swarms.py:97-104): are they Python objects? -/
structure COpt (n d : Nat) (K : Type) where
  opt : Opt n d K
  pbObj : Bool
  bestObj : Bool

/-- Does the class use a Star topology, which keeps the old best cost when there is no better one?
(star.py:61-73, global_best.py:153) -/
def keepsOld (cfg : Config n d K) : Bool :=
  match cfg.kind with
  | .globalBest => true
  | .general .star => true
  | _ => false

variable [Transc K] [FloorRing K]

/-- One iteration (global_best.py:207-248, local_best.py:231-276, general_optimizer.py:245-288,
binary.py:194-234) with typed costs. -/
def iterateC (i2f : ℤ → XR K) (cfg : Config n d K) (ev : Mat n d K → Except Err (CostArr n K))
    (r : Draw n d K) (iters i : Nat) (q : List Bool) (s : COpt n d K) :
    COpt n d K × Except Err Flow :=
  match ev s.opt.swarm.position with
  | .error e => (s, .error e)
  | .ok a =>
    let pb := s.pbObj || a.isObj
    if s.opt.swarm.bestCost.isSome && pb != s.bestObj then (s, .error .unmodelled)
    else
      let s1 := recordEval (a.vals i2f s.pbObj) s.opt
      let yet := s1.swarm.bestCostVal
      match callGbest cfg r.oracle s1.top s1.swarm with
      | (t, .error e) => (⟨{ s1 with top := t }, pb, s.bestObj⟩, .error e)
      | (t, .ok g) =>
        let s2 := recordBest t g s1
        let bo := if keepsOld cfg && !XR.lt s2.swarm.bestCostVal yet then s.bestObj else pb
        let q' := dequeAppend cfg.window q (ftolDelta cfg.ftol s2.swarm.bestCostVal yet)
        if decide (¬ i < cfg.window) && q'.all id then (⟨s2, pb, bo⟩, .ok .stop)
        else match moveSwarm cfg r iters i s2 with
          | (s3, .error e) => (⟨s3, pb, bo⟩, .error e)
          | (s3, .ok ()) => (⟨s3, pb, bo⟩, .ok (.continue q'))

/-- The `for i in range(iters)` loop (global_best.py:206, local_best.py:230,
general_optimizer.py:244, binary.py:193) with typed costs. -/
def loopC (i2f : ℤ → XR K) (cfg : Config n d K) (ev : Nat → Mat n d K → Except Err (CostArr n K))
    (env : Nat → Draw n d K) (iters : Nat) :
    (m i : Nat) → List Bool → COpt n d K → COpt n d K × Except Err Unit
  | 0, _, _, s => (s, .ok ())
  | m + 1, i, q, s =>
    match iterateC i2f cfg (ev i) (env i) iters i q s with
    | (s', .error e) => (s', .error e)
    | (s', .ok .stop) => (s', .ok ())
    | (s', .ok (.continue q')) => loopC i2f cfg ev env iters m (i + 1) q' s'

/-- `self.swarm.best_cost.copy()` and the rest of the epilogue (global_best.py:249-264,
local_best.py:277-292, general_optimizer.py:289-304, binary.py:235-250): a Python number has no
`copy`. -/
def finishC (s : COpt n d K) : Except Err (XR K × Vec d K) :=
  if s.bestObj then .error .attributeError else finish s.opt

/-- `optimize` (global_best.py:159-264, local_best.py:183-292, general_optimizer.py:197-304,
binary.py:146-250) with typed costs; `np.full(…, np.inf)` is `float64`. -/
def optimizeC (i2f : ℤ → XR K) (cfg : Config n d K)
    (ev : Nat → Mat n d K → Except Err (CostArr n K))
    (iters : Nat) (nproc : Option Nat) (env : Nat → Draw n d K) (s : COpt n d K) :
    COpt n d K × Except Err (XR K × Vec d K) :=
  if nproc = some 0 then
    ({ s with opt := { s.opt with bhMem := (prepare cfg s.opt).bhMem
                                  vhMem := (prepare cfg s.opt).vhMem } }, .error .valueError)
  else
    let s0 : COpt n d K := ⟨{ prepare cfg s.opt with
      openPools := s.opt.openPools + (if nproc.isSome then 1 else 0) }, false, s.bestObj⟩
    match loopC i2f cfg ev env iters iters 0 [] s0 with
    | (s1, .error e) => (s1, .error e)
    | (s1, .ok ()) =>
      match finishC s1 with
      | .error e => (s1, .error e)
      | .ok r => ({ s1 with opt := { s1.opt with
          openPools := s1.opt.openPools - (if nproc.isSome then 1 else 0) } }, .ok r)

/-- `reset` (base_single.py:173-212, base_discrete.py:175-214): a new swarm has the Python float
`np.inf` as best cost and an empty `float64` array (swarms.py:97-104). -/
def resetC (cfg : Config n d K) (r : InitDraw n d K) (s : COpt n d K) :
    COpt n d K × Except Err Unit :=
  match reset cfg r s.opt with
  | (o, .error e) => ({ s with opt := o }, .error e)
  | (o, .ok ()) => (⟨o, false, false⟩, .ok ())

/-- An API call (base_single.py:147, 173) with an objective of typed costs. -/
inductive OpC (n d : Nat) (K : Type)
  | optimize (ev : Nat → Mat n d K → Except Err (CostArr n K)) (iters : Nat) (nproc : Option Nat)
      (env : Nat → Draw n d K)
  | reset (r : InitDraw n d K)

/-- A sequence of API calls; exceptions are caught by the caller (base_single.py:147, 173). -/
def runOpsC (i2f : ℤ → XR K) (cfg : Config n d K) (s : COpt n d K) (ops : List (OpC n d K)) :
    COpt n d K :=
  ops.foldl (fun s op => match op with
    | .optimize ev iters nproc env => (optimizeC i2f cfg ev iters nproc env s).1
    | .reset r => (resetC cfg r s).1) s

/-- The conversion of an integer to `float64` (IEEE 754 round to nearest; the comparison and the
`np.where` of operators.py:66, 70-72). -/
def toDouble (z : ℤ) : XR ℚ := .fin (f64 z)

end PySwarms.Ct
