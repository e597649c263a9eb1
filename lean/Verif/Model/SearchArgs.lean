import Verif.Model.Search

/-!
# The arguments that a search accepts and passes on

`SearchBase.generate_score` passes `bounds` as the fourth positional argument of whatever class it was
given (base_search.py:101-108).  What that argument means depends on the class.
-/

namespace PySwarms

/-- What can be given as `optimizer` (base_search.py:28, 40-41): one of the four optimizer classes, an
optimizer object (instead of a class), or something without an attribute `optimize`. -/
inductive Target
  | globalBest
  | localBest
  | general
  | binary
  | object
  | noOptimize
  deriving DecidableEq, Repr

/-- `SearchBase.assertions` (base_search.py:12-24): `hasattr(self.optimizer, "optimize")`. -/
def searchAssertions (t : Target) : Except Err Unit :=
  match t with
  | .noOptimize => .error .typeError
  | _ => .ok ()

/-- The constructor of `GridSearch` (grid_search.py:46-71, base_search.py:26-89); the assertions run
twice, which changes nothing. -/
def gridSearchInit (t : Target) : Except Err Unit :=
  match searchAssertions t with
  | .error e => .error e
  | .ok () => searchAssertions t

/-- `RandomSearch.assertions` (random_search.py:50-64): `isinstance(self.n_selection_iters, int)`. -/
def randomAssertions {K : Type} (t : Target) (m : PyArg K) : Except Err Unit :=
  match searchAssertions t with
  | .error e => .error e
  | .ok () =>
    match m with
    | .int _ => .ok ()
    | _ => .error .typeError

/-- The constructor of `RandomSearch` (random_search.py:66-100). -/
def randomSearchInit {K : Type} (t : Target) (m : PyArg K) : Except Err Unit :=
  match randomAssertions t m with
  | .error e => .error e
  | .ok () => randomAssertions t m

section
variable {n d : Nat} {K : Type} [Field K] [LinearOrder K]

/-- The pair of bounds as an array of shape `(2, d)`, which is what `np.unique(init_pos)` makes of it
(generators.py:128). -/
def boundsRows (b : Bounds d K) : Mat 2 d K := fun i j => if i = 0 then b.1 j else b.2 j

/-- `self.optimizer(self.n_particles, self.dims, options, self.bounds, velocity_clamp=self.vclamp)`
(base_search.py:102-108): the object and its configuration.  The fourth parameter is
* `bounds` for `GlobalBestPSO` and `LocalBestPSO` (global_best.py:75-89, local_best.py:84-99);
* `topology` for `GeneralOptimizerPSO` (general_optimizer.py:76-91), which is checked after the parent
  constructor and `reset` have run (general_optimizer.py:170-189);
* `init_pos` for `BinaryPSO` (binary.py:71-81): a tuple passes `generate_discrete_swarm` if it has at
  most two values (generators.py:126-131), and then has no attribute `shape` (swarms.py:111-113). -/
def callTarget (t : Target) (bounds : Option (Bounds d K)) (clamp : Option (Clamp d K))
    (o : Opts K × TopArgs) (r1 r2 : InitDraw n d K) :
    Except Err (Config n d K × Opt n d K) :=
  let build (cfg : Config n d K) : Except Err (Config n d K × Opt n d K) :=
    match construct cfg r1 r2 with
    | .error e => .error e
    | .ok s => .ok (cfg, s)
  match t with
  | .globalBest => build { kind := .globalBest, options := o.1, args := o.2, bounds := bounds,
                           clamp := clamp, center := fun _ => 1 }
  | .localBest => build { kind := .localBest false, options := o.1, args := o.2, bounds := bounds,
                          clamp := clamp, center := fun _ => 1 }
  | .general =>
    match construct { kind := .general .star, options := o.1, args := o.2, clamp := clamp,
                      center := fun _ => 1 } r1 r2 with
    | .error e => .error e
    | .ok _ => .error .typeError
  | .binary =>
    match bounds with
    | none => build { kind := .binary, options := o.1, args := o.2, clamp := clamp,
                      center := fun _ => 1 }
    | some b =>
      if o.2.k.isNone || o.2.p.isNone then .error .keyError
      else if !(atMostTwoValues (boundsRows b)) then .error .valueError
      else .error .attributeError
  | .object => .error .typeError
  | .noOptimize => .error .attributeError

variable [Transc K] [FloorRing K]

/-- `generate_score` (base_search.py:91-111) for any `optimizer` argument: the evaluations of the
objective and the score. -/
def scoreTarget (t : Target) (bounds : Option (Bounds d K)) (clamp : Option (Clamp d K))
    (ev : Nat → Mat n d K → Except Err (Costs n K)) (iters : Nat) (o : Opts K × TopArgs)
    (r1 r2 : InitDraw n d K) (env : Nat → Draw n d K) :
    List (Mat n d K × Costs n K) × Except Err (XR K) :=
  match callTarget t bounds clamp o r1 r2 with
  | .error e => ([], .error e)
  | .ok (cfg, s) =>
    match optimize cfg ev iters none env s with
    | (s', .error e) => (s'.evals, .error e)
    | (s', .ok (c, _)) => (s'.evals, .ok c)

/-- `search` (base_search.py:113-141) over a grid, for any `optimizer` argument; `r1 k`, `r2 k`,
`env k` are the random numbers of the `k`-th combination. -/
def searchTarget (t : Target) (bounds : Option (Bounds d K)) (clamp : Option (Clamp d K))
    (ev : Nat → Mat n d K → Except Err (Costs n K)) (iters : Nat) (r1 r2 : Nat → InitDraw n d K)
    (env : Nat → Nat → Draw n d K) (maximum : Bool) (grid : List (Opts K × TopArgs)) :
    List (Nat × (Opts K × TopArgs)) × Except Err (XR K × (Opts K × TopArgs)) :=
  search (fun k o => (scoreTarget t bounds clamp ev iters o (r1 k) (r2 k) (env k)).2) maximum grid

end

end PySwarms
