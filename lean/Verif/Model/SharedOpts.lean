import Verif.Model.Optimizer

/-!
# Options dictionaries as objects

`Model/Optimizer.lean` treats `options` as a value.  In the code it is a Python dictionary that is
never copied on the way in: the constructors store the user's dictionary (base_single.py:99,
base_discrete.py:101), `create_swarm` stores it in the swarm (base_single.py:211,
base_discrete.py:213, generators.py:245), and an `OptionsHandler` without strategies returns the
very dictionary it is given (handlers.py:608-609).  Only an `OptionsHandler` with strategies makes a
copy (handlers.py:610).  Here dictionaries live in a heap and the objects hold addresses.
-/

namespace PySwarms

variable {n d : Nat} {K : Type}

/-- The content of an options dictionary: the float entries and the integer entries `k`, `p`, `r`
(base_single.py:66-73, local_best.py:131-152). -/
structure PyDict (K : Type) where
  opts : Opts K
  args : TopArgs := {}

/-- All dictionaries; the addresses below `next` are in use (handlers.py:610 makes new ones). -/
structure Dicts (K : Type) where
  get : Nat → PyDict K
  next : Nat

/-- An optimizer object.  `opt` is the address of `self.options` (base_single.py:99,
base_discrete.py:101), `kp` are `self.k, self.p` of LocalBestPSO and BinaryPSO (local_best.py:159,
binary.py:127), `sw` is the address of `self.swarm.options`.  `cfg.options`, `cfg.args` and
`st.swarm.options` are not used. -/
structure Shared (n d : Nat) (K : Type) where
  cfg : Config n d K
  opt : Nat
  kp : TopArgs
  sw : Nat
  st : Opt n d K

/-- The keyword arguments of `compute_gbest`: GeneralOptimizerPSO passes the entries of its
dictionary at that moment (general_optimizer.py:252-254), the others what they read in the
constructor (local_best.py:239-242, binary.py:202-205). -/
def Shared.argsNow (D : Dicts K) (o : Shared n d K) : TopArgs :=
  match o.cfg.kind with
  | .general _ => (D.get o.opt).args
  | _ => o.kp

section
variable [Field K] [LinearOrder K] [Transc K]

/-- `self.swarm.options = self.oh(self.options, iternow=i, itermax=iters)` (global_best.py:239-241,
local_best.py:267-269, general_optimizer.py:279-281, handlers.py:606-623); BinaryPSO has no such
line.  The result is the new heap and the address of the returned dictionary. -/
def sharedOptions (D : Dicts K) (o : Shared n d K) (iters i : Nat) (u : String → K) :
    Except Err (Dicts K × Nat) :=
  match o.cfg.kind with
  | .binary => .ok (D, o.sw)
  | _ =>
    if o.cfg.ohStrategy.isEmpty then .ok (D, o.opt)
    else match ohLoop o.cfg.ohStrategy (D.get o.opt).opts
        { iternow := some (i : K), itermax := some (iters : K) } u (D.get o.opt).opts with
      | .error e => .error e
      | .ok r => .ok ({ get := fun a => if a = D.next then { opts := r, args := (D.get o.opt).args }
                                        else D.get a
                        next := D.next + 1 }, D.next)

variable [FloorRing K]

/-- Options, velocity and position updates (global_best.py:238-248, local_best.py:266-276,
general_optimizer.py:278-288, binary.py:230-234); `compute_velocity` reads `swarm.options`
(operators.py:128-130). -/
def moveShared (D : Dicts K) (o : Shared n d K) (r : Draw n d K) (iters i : Nat) :
    Dicts K × Shared n d K × Except Err Unit :=
  match sharedOptions D o iters i r.oh with
  | .error e => (D, o, .error e)
  | .ok (D1, a) =>
    let o1 := { o with sw := a }
    match computeVelocity { o1.st.swarm with options := (D1.get a).opts } o.cfg.clamp
        o.cfg.vhStrategy o1.st.vhMem (velBounds o.cfg) r.r1 r.r2 with
    | (vm, .error e) => (D1, { o1 with st := { o1.st with vhMem := vm } }, .error e)
    | (vm, .ok v) =>
      let o2 := { o1 with
        st := { o1.st with vhMem := vm, swarm := { o1.st.swarm with velocity := v } } }
      match callPosition o.cfg r o2.st.bhMem o2.st.swarm with
      | (bm, .error e) => (D1, { o2 with st := { o2.st with bhMem := bm } }, .error e)
      | (bm, .ok p) =>
        (D1, { o2 with
          st := { o2.st with bhMem := bm, swarm := { o2.st.swarm with position := p } } }, .ok ())

/-- One iteration (global_best.py:207-248, local_best.py:231-276, general_optimizer.py:245-288,
binary.py:194-234). -/
def iterateShared (D : Dicts K) (o : Shared n d K) (ev : Mat n d K → Except Err (Costs n K))
    (r : Draw n d K) (iters i : Nat) (q : List Bool) : Dicts K × Shared n d K × Except Err Flow :=
  match ev o.st.swarm.position with
  | .error e => (D, o, .error e)
  | .ok c =>
    let s1 := recordEval c o.st
    let yet := s1.swarm.bestCostVal
    match callGbest { o.cfg with args := o.argsNow D } r.oracle s1.top s1.swarm with
    | (t, .error e) => (D, { o with st := { s1 with top := t } }, .error e)
    | (t, .ok g) =>
      let s2 := recordBest t g s1
      let q' := dequeAppend o.cfg.window q (ftolDelta o.cfg.ftol s2.swarm.bestCostVal yet)
      if decide (¬ i < o.cfg.window) && q'.all id then (D, { o with st := s2 }, .ok .stop)
      else match moveShared D { o with st := s2 } r iters i with
        | (D3, o3, .error e) => (D3, o3, .error e)
        | (D3, o3, .ok ()) => (D3, o3, .ok (.continue q'))

/-- The `for i in range(iters)` loop (global_best.py:206, local_best.py:230,
general_optimizer.py:244, binary.py:193). -/
def loopShared (ev : Nat → Mat n d K → Except Err (Costs n K)) (env : Nat → Draw n d K)
    (iters : Nat) : (m i : Nat) → List Bool → Dicts K → Shared n d K →
    Dicts K × Shared n d K × Except Err Unit
  | 0, _, _, D, o => (D, o, .ok ())
  | m + 1, i, q, D, o =>
    match iterateShared D o (ev i) (env i) iters i q with
    | (D', o', .error e) => (D', o', .error e)
    | (D', o', .ok .stop) => (D', o', .ok ())
    | (D', o', .ok (.continue q')) => loopShared ev env iters m (i + 1) q' D' o'

/-- `optimize` (global_best.py:159-264, local_best.py:183-292, general_optimizer.py:197-304,
binary.py:146-250). -/
def optimizeShared (D : Dicts K) (o : Shared n d K)
    (ev : Nat → Mat n d K → Except Err (Costs n K)) (iters : Nat) (nproc : Option Nat)
    (env : Nat → Draw n d K) : Dicts K × Shared n d K × Except Err (XR K × Vec d K) :=
  if nproc = some 0 then
    (D, { o with st := { o.st with
      bhMem := (prepare o.cfg o.st).bhMem, vhMem := (prepare o.cfg o.st).vhMem } },
      .error .valueError)
  else
    let s0 := { prepare o.cfg o.st with
      openPools := o.st.openPools + (if nproc.isSome then 1 else 0) }
    match loopShared ev env iters iters 0 [] D { o with st := s0 } with
    | (D1, o1, .error e) => (D1, o1, .error e)
    | (D1, o1, .ok ()) =>
      match finish o1.st with
      | .error e => (D1, o1, .error e)
      | .ok r =>
        (D1, { o1 with st := { o1.st with
          openPools := o1.st.openPools - (if nproc.isSome then 1 else 0) } }, .ok r)

/-- `reset` (base_single.py:173-212, base_discrete.py:175-214): the new swarm gets the dictionary
`self.options` itself. -/
def resetShared (D : Dicts K) (o : Shared n d K) (r : InitDraw n d K) :
    Shared n d K × Except Err Unit :=
  match reset { o.cfg with options := (D.get o.opt).opts } r o.st with
  | (s, .error e) => ({ o with st := s }, .error e)
  | (s, .ok ()) => ({ o with st := s, sw := o.opt }, .ok ())

/-- The constructors (global_best.py:134-157, local_best.py:154-181, general_optimizer.py:170-195,
binary.py:124-144) with the dictionary at address `a`. -/
def constructShared (D : Dicts K) (cfg : Config n d K) (a : Nat) (r1 r2 : InitDraw n d K) :
    Except Err (Shared n d K) :=
  match construct { cfg with options := (D.get a).opts, args := (D.get a).args } r1 r2 with
  | .error e => .error e
  | .ok s => .ok { cfg := cfg, opt := a, kp := (D.get a).args, sw := a, st := s }

/-- What the user can do with dictionaries and optimizers, all of the same size
(base_single.py:99, 147, 173): make a dictionary, change one in place (also one read from
`optimizer.swarm.options`), construct an optimizer with one, call `optimize` or `reset` of the
`j`-th optimizer. -/
inductive ShOp (n d : Nat) (K : Type)
  | new (x : PyDict K)
  | write (a : Nat) (f : PyDict K → PyDict K)
  | construct (cfg : Config n d K) (a : Nat) (r1 r2 : InitDraw n d K)
  | optimize (j : Nat) (ev : Nat → Mat n d K → Except Err (Costs n K)) (iters : Nat)
      (nproc : Option Nat) (env : Nat → Draw n d K)
  | reset (j : Nat) (r : InitDraw n d K)

/-- The dictionaries and the optimizers of a program (base_single.py:99). -/
structure Program (n d : Nat) (K : Type) where
  dicts : Dicts K
  objs : List (Shared n d K) := []

/-- One step of the user's program; exceptions are caught (base_single.py:99, 147, 173).  Unknown
addresses and objects are ignored. -/
def ShOp.step (P : Program n d K) : ShOp n d K → Program n d K
  | .new x => { P with dicts := { get := fun b => if b = P.dicts.next then x else P.dicts.get b
                                  next := P.dicts.next + 1 } }
  | .write a f =>
    if a < P.dicts.next then
      { P with dicts := { P.dicts with
        get := fun b => if b = a then f (P.dicts.get a) else P.dicts.get b } }
    else P
  | .construct cfg a r1 r2 =>
    if a < P.dicts.next then
      match constructShared P.dicts cfg a r1 r2 with
      | .error _ => P
      | .ok o => { P with objs := P.objs ++ [o] }
    else P
  | .optimize j ev iters nproc env =>
    match P.objs[j]? with
    | none => P
    | some o =>
      let x := optimizeShared P.dicts o ev iters nproc env
      { dicts := x.1, objs := P.objs.set j x.2.1 }
  | .reset j r =>
    match P.objs[j]? with
    | none => P
    | some o => { P with objs := P.objs.set j (resetShared P.dicts o r).1 }

/-- A whole program (base_single.py:99, 147, 173). -/
def runProgram (P : Program n d K) (ops : List (ShOp n d K)) : Program n d K :=
  ops.foldl ShOp.step P

end

end PySwarms
