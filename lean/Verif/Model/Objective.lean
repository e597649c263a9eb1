import Verif.Model.Optimizer

/-!
# Evaluating the objective

* `compute_objective_function` – backend/operators.py:213-245
* the `cost` decorator         – utils/decorators/decorators.py:6-55

Positions are lists of rows here, because chunks of any length are passed to the objective.
-/

namespace PySwarms

variable {d : Nat} {K : Type}

/-- The user's objective: takes an array of any number of rows, returns a one-dimensional array or
raises (operators.py:239). -/
abbrev Objective (d : Nat) (K : Type) := List (Vec d K) → Except Err (List (XR K))

/-- The chunk lengths of `np.array_split(x, p)`: `len(x) % p` chunks of length `len(x) // p + 1`,
then chunks of length `len(x) // p` (operators.py:243, NumPy's `array_split`). -/
def splitSizes (n p : Nat) : List Nat :=
  List.replicate (n % p) (n / p + 1) ++ List.replicate (p - n % p) (n / p)

/-- Cut a list into consecutive pieces of the given lengths (operators.py:243). -/
def cut {α : Type} : List Nat → List α → List (List α)
  | [], _ => []
  | m :: ms, l => l.take m :: cut ms (l.drop m)

/-- `np.array_split(x, p)` for `p > 0` (operators.py:243). -/
def arraySplit {α : Type} (x : List α) (p : Nat) : List (List α) := cut (splitSizes x.length p) x

/-- State of a `multiprocessing.pool.MapResult`: the results that have arrived and the first
exception that has arrived (operators.py:241-244). -/
structure MapResult (β : Type) where
  slots : Nat → Option β := fun _ => none
  failure : Option Err := none

/-- Task `k` completes (`MapResult._set`) (operators.py:241-244). -/
def MapResult.arrive {α β : Type} (f : α → Except Err β) (tasks : List α) (r : MapResult β)
    (k : Nat) : MapResult β :=
  match tasks[k]? with
  | none => r
  | some a =>
    match f a with
    | .ok b => { r with slots := fun j => if j = k then some b else r.slots j }
    | .error e => { r with failure := match r.failure with
        | none => some e
        | some e' => some e' }

/-- `pool.map(f, tasks)` where the tasks complete in the order `sched` (operators.py:241-244).  If
some task never completes the call does not return (`diverges`). -/
def poolMap {α β : Type} (f : α → Except Err β) (tasks : List α) (sched : List Nat) :
    Except Err (List β) :=
  let r := sched.foldl (MapResult.arrive f tasks) {}
  match r.failure with
  | some e => .error e
  | none =>
    match (List.range tasks.length).mapM r.slots with
    | some l => .ok l
    | none => .error .diverges

/-- `compute_objective_function` (operators.py:213-245): `pool = none` is serial evaluation,
`pool = some (p, sched)` a pool of `p` processes whose tasks complete in the order `sched`.
`np.concatenate` of one-dimensional arrays. -/
def computeObjective (f : Objective d K) (pool : Option (Nat × List Nat)) (x : List (Vec d K)) :
    Except Err (List (XR K)) :=
  match pool with
  | none => f x
  | some (p, sched) =>
    match poolMap f (arraySplit x p) sched with
    | .error e => .error e
    | .ok results => .ok results.flatten

/-- The rows of a matrix (operators.py:239). -/
def rowsOf {n : Nat} (x : Mat n d K) : List (Vec d K) := (List.finRange n).map x

/-- The cost vector as used by the optimizers (`swarm.current_cost`, shape `(n,)`).  An array of
another length is outside the model (global_best.py:209). -/
def toCosts {n : Nat} (l : List (XR K)) : Except Err (Costs n K) :=
  if h : l.length = n then .ok fun i => l[i.1]'(by rw [h]; exact i.2) else .error .unmodelled

/-- The evaluation step of the optimizers (global_best.py:209 and its copies), for an objective
which may depend on the iteration (through its own state). -/
def evaluator {n : Nat} (f : Nat → Objective d K) (pool : Nat → Option (Nat × List Nat)) (k : Nat)
    (x : Mat n d K) : Except Err (Costs n K) :=
  match computeObjective (f k) (pool k) (rowsOf x) with
  | .error e => .error e
  | .ok l => toCosts l

/-- A value returned by a user's cost function: a number (or array of shape `()`), or an array of
the given non-empty shape (decorators.py:46-48). -/
inductive PyVal (K : Type)
  | scalar (v : XR K)
  | array (dim : Nat) (shape : List Nat)

/-- The shape of an array value, `none` for a scalar (decorators.py:49). -/
def PyVal.shape : PyVal K → Option (List Nat)
  | .scalar _ => none
  | .array m sh => some (m :: sh)

/-- The number, if the value is one (decorators.py:46-48). -/
def PyVal.number : PyVal K → Option (XR K)
  | .scalar v => some v
  | .array _ _ => none

/-- `np.array(values)` followed by the test `vector.shape != (n_particles,)`
(decorators.py:46-52): scalars give a vector; equally shaped arrays give an array of more dimensions,
hence `ValueError`; differently shaped values give an object array or an exception, depending on
the shapes (`unmodelled`). -/
def packValues (vals : List (PyVal K)) : Except Err (List (XR K)) :=
  match vals.mapM PyVal.number with
  | some l => .ok l
  | none =>
    match vals with
    | [] => .ok []
    | v :: rest => if v.shape.isSome && rest.all (fun w => w.shape = v.shape) then .error .valueError
        else .error .unmodelled

/-- The list comprehension `[cost_func(particles[i]) for i in range(n)]` (decorators.py:46-48). -/
def costValues (g : Vec d K → Except Err (PyVal K)) : List (Vec d K) → Except Err (List (PyVal K))
  | [] => .ok []
  | x :: xs =>
    match g x with
    | .error e => .error e
    | .ok v =>
      match costValues g xs with
      | .error e => .error e
      | .ok l => .ok (v :: l)

/-- The decorated cost function `cost(cost_func)` (decorators.py:43-53).  The second evaluation of
`cost_func(particles[0])` for the error message returns what the first one returned. -/
def costDec (g : Vec d K → Except Err (PyVal K)) : Objective d K := fun x =>
  match costValues g x with
  | .error e => .error e
  | .ok vals => packValues vals

end PySwarms
