import Verif.Model.Objective

/-!
# Keyword arguments of `optimize`

`optimize(objective_func, iters, n_processes=None, verbose=True, **kwargs)` hands `kwargs` to
`compute_objective_function(swarm, objective_func, pool=None, **kwargs)`, which hands them to the
objective.  This file models how Python binds the arguments at each of these calls.

* `optimize` of the four optimizers – global_best.py:159-212, local_best.py:183-236,
  general_optimizer.py:197-250, binary.py:146-199
* `compute_objective_function`      – backend/operators.py:213-245
* `cost`                            – utils/decorators/decorators.py:43-53
-/

namespace PySwarms.Kw

open PySwarms

variable {n d : Nat} {K V : Type}

/-- Keyword arguments: a dict with string keys, in order (global_best.py:160 `**kwargs`). -/
abbrev Kwargs (V : Type) := List (String × V)

/-- The parameters of a function with their default values (global_best.py:159-161). -/
abbrev Params (α : Type) := List (String × Option α)

/-- The arguments Python has bound to parameters: positional arguments first, then keywords, then
defaults (global_best.py:159-161). -/
def bound {α : Type} (ps : Params α) (pos : List α) (kw : Kwargs α) (p : String) : Option α :=
  match ((ps.map Prod.fst).zip pos).lookup p with
  | some v => some v
  | none =>
    match kw.lookup p with
    | some v => some v
    | none => (ps.lookup p).join

/-- Calling a function with parameters `ps`, and `**kwargs` if `varkw`, with the positional arguments
`pos` and the keyword arguments `kw`; CPython's rules, every violation of which is a `TypeError`: no
keyword twice, not too many positional arguments, no keyword for a parameter already bound by
position, no unknown keyword unless the function has `**kwargs`, no parameter left without a value.
The result is what the parameters are bound to, and `kwargs` (global_best.py:159-161, 209;
operators.py:213, 239, 242; decorators.py:43-44). -/
def bindArgs {α : Type} (ps : Params α) (varkw : Bool) (pos : List α) (kw : Kwargs α) :
    Except Err ((String → Option α) × Kwargs α) :=
  if ¬ (kw.map Prod.fst).Nodup then .error .typeError
  else if ps.length < pos.length then .error .typeError
  else if kw.any (fun a => ((ps.map Prod.fst).take pos.length).contains a.1) then .error .typeError
  else if !varkw && kw.any (fun a => !(ps.map Prod.fst).contains a.1) then .error .typeError
  else if ps.any (fun p => (bound ps pos kw p.1).isNone) then .error .typeError
  else .ok (bound ps pos kw, kw.filter fun a => !(ps.map Prod.fst).contains a.1)

/-- The values that occur in these calls: the optimizer, the position matrix of its swarm, the pool,
`None`, `True`, and any value `v` of the user's (global_best.py:159-161, 209). -/
inductive Arg (d : Nat) (K V : Type)
  | self
  | swarm (x : List (Vec d K))
  | pool (p : Option (Nat × List Nat))
  | none
  | true
  | user (v : V)

/-- The user's Python objects as far as `optimize` looks at them: what calling `v` with a position
array and keyword arguments gives (the `k`-th call may differ from others, through state of the
callable), whether `v` is `None`, whether it is an `int` (global_best.py:202-206, operators.py:239). -/
structure World (d : Nat) (K V : Type) where
  call : Nat → V → List (Vec d K) → Kwargs V → Except Err (List (XR K))
  isNone : V → Bool
  int? : V → Option Int

/-- Keep the user's values (operators.py:239: all values of `kwargs` are the user's). -/
def users (kw : Kwargs (Arg d K V)) : Kwargs V :=
  kw.filterMap fun a => match a.2 with
    | .user v => some (a.1, v)
    | _ => Option.none

/-- The user's keyword arguments as arguments of a call (global_best.py:209). -/
def asArgs (kw : Kwargs V) : Kwargs (Arg d K V) := kw.map fun a => (a.1, .user a.2)

/-- Parameters of `optimize` (global_best.py:159-161, local_best.py:183-185,
general_optimizer.py:197-199, binary.py:146-148). -/
def optimizeParams : Params (Arg d K V) :=
  [("self", Option.none), ("objective_func", Option.none), ("iters", Option.none),
   ("n_processes", some .none), ("verbose", some .true)]

/-- Parameters of `compute_objective_function` (operators.py:213). -/
def objectiveParams : Params (Arg d K V) :=
  [("swarm", Option.none), ("objective_func", Option.none), ("pool", some .none)]

/-- `compute_objective_function(*pos, **kw)` (operators.py:213-245): the objective is called with the
positions, or with each of the chunks through `partial(objective_func, **kwargs)`, and `kwargs`. -/
def objectiveKw (W : World d K V) (k : Nat) (pos : List (Arg d K V)) (kw : Kwargs (Arg d K V)) :
    Except Err (List (XR K)) :=
  match bindArgs objectiveParams Bool.true pos kw with
  | .error e => .error e
  | .ok (a, kwargs) =>
    match a "swarm", a "objective_func", a "pool" with
    | some (.swarm x), some (.user f), some .none =>
      computeObjective (fun rows => W.call k f rows (users kwargs)) Option.none x
    | some (.swarm x), some (.user f), some (.pool p) =>
      computeObjective (fun rows => W.call k f rows (users kwargs)) p x
    | _, _, _ => .error .unmodelled

/-- The evaluation step: `compute_objective_function(self.swarm, objective_func, pool=pool,
**kwargs)` (global_best.py:209, local_best.py:232-234, general_optimizer.py:247), where `BinaryPSO`
passes the pool by position (binary.py:195-197). -/
def evalKw (W : World d K V) (cfg : Config n d K) (f : V) (kwargs : Kwargs V)
    (pool : Nat → Option (Nat × List Nat)) (k : Nat) (x : Mat n d K) : Except Err (Costs n K) :=
  let r := match cfg.kind with
    | .binary => objectiveKw W k [.swarm (rowsOf x), .user f, .pool (pool k)] (asArgs kwargs)
    | _ => objectiveKw W k [.swarm (rowsOf x), .user f] (("pool", .pool (pool k)) :: asArgs kwargs)
  match r with
  | .error e => .error e
  | .ok l => toCosts l

/-- `n_processes` as `mp.Pool` takes it: `None`, or an integer; those below one are refused like
zero; other values are outside the model (global_best.py:202). -/
def nprocOf (W : World d K V) : Option (Arg d K V) → Option (Option Nat)
  | some .none => some Option.none
  | some (.user v) => if W.isNone v then some Option.none else (W.int? v).map fun z => some z.toNat
  | _ => Option.none

/-- `iters` as `range` takes it: an integer, negative ones like zero; other values are outside the
model (global_best.py:206). -/
def itersOf (W : World d K V) : Option (Arg d K V) → Option Nat
  | some (.user v) => (W.int? v).map Int.toNat
  | _ => Option.none

/-- `opt.optimize(*pos, **kw)` (global_best.py:159-264 and its copies).  `verbose` is bound and used
for output only; `sched k` is the order in which the workers finish their tasks in iteration `k`. -/
def optimizeKw (W : World d K V) [Field K] [LinearOrder K] [Transc K] [FloorRing K]
    (cfg : Config n d K) (pos : List V) (kw : Kwargs V)
    (sched : Nat → List Nat) (env : Nat → Draw n d K) (s : Opt n d K) :
    Opt n d K × Except Err (XR K × Vec d K) :=
  match bindArgs optimizeParams Bool.true (.self :: pos.map .user) (asArgs kw) with
  | .error e => (s, .error e)
  | .ok (a, kwargs) =>
    match a "objective_func", itersOf W (a "iters"), nprocOf W (a "n_processes") with
    | some (.user f), some iters, some np =>
      optimize cfg (evalKw W cfg f (users kwargs) fun k => np.map fun p => (p, sched k)) iters np
        env s
    | _, _, _ => (s, .error .unmodelled)

/-- The decorated function `cost_dec(particles, **kwargs)` (decorators.py:43-53), called with one
positional argument and keywords: the particles' rows are passed to `g` with the same keywords. -/
def costDecKw (g : Vec d K → Kwargs V → Except Err (PyVal K)) (x : List (Vec d K))
    (kw : Kwargs V) : Except Err (List (XR K)) :=
  match bindArgs [("particles", Option.none)] Bool.true [Arg.swarm x] (asArgs kw) with
  | .error e => .error e
  | .ok (a, kwargs) =>
    match a "particles" with
    | some (.swarm rows) => costDec (fun row => g row (users kwargs)) rows
    | _ => .error .unmodelled

/-- A user's objective declared with named parameters, `def f(x, a, b=…)` with or without
`**kwargs`; `body` gets the positions and what the other parameters are bound to (operators.py:239). -/
def declared (x : String) (ps : Params V) (varkw : Bool)
    (body : List (Vec d K) → (String → Option V) → Except Err (List (XR K)))
    (rows : List (Vec d K)) (kw : Kwargs V) : Except Err (List (XR K)) :=
  match bindArgs ((x, Option.none) :: ps.map fun p => (p.1, p.2.map Arg.user)) varkw
      [Arg.swarm rows] (asArgs kw) with
  | .error e => .error e
  | .ok (a, _) =>
    match a x with
    | some (.swarm rows) => body rows fun p =>
        if (ps.map Prod.fst).contains p then
          match a p with
          | some (.user v) => some v
          | _ => Option.none
        else Option.none
    | _ => .error .unmodelled

end PySwarms.Kw
