import Verif.Model.Handlers

/-!
# `pyswarms/backend/swarms.py` and `pyswarms/backend/operators.py`
-/

namespace PySwarms

variable {n d : Nat} {K : Type}

/-- A Python `dict` of options: insertion ordered association list (keys are unique in a
dict; lookups take the first match) (swarms.py:89; operators.py:128-130). -/
abbrev Opts (K : Type) := List (String × K)

/-- The `best_pos` attribute of a swarm (swarms.py:92-96): the default `np.array([])`, one
position (`Star`, small `Pyramid`), or one row per particle (the other topologies). -/
inductive BestPos (n d : Nat) (K : Type)
  | empty
  | single (v : Vec d K)
  | perParticle (m : Mat n d K)

/-- `pyswarms.backend.swarms.Swarm` (swarms.py:17-121).  `n_particles` and `dimensions` are
the type indices.  `bestCost = none` is the initial Python float `inf` (which, unlike a NumPy
scalar, has no `.copy()`); `some c` is a NumPy scalar.  The default `pbest_cost = np.array([])`
is represented by all-`+inf`, which is what `optimize` stores there before any use. -/
structure Swarm (n d : Nat) (K : Type) where
  position : Mat n d K
  velocity : Mat n d K
  options : Opts K
  pbestPos : Mat n d K
  pbestCost : Costs n K
  bestPos : BestPos n d K
  bestCost : Option (XR K)
  currentCost : Costs n K

/-- The numerical value of `swarm.best_cost` (swarms.py:102-104). -/
def Swarm.bestCostVal (s : Swarm n d K) : XR K := s.bestCost.getD XR.pinf

/-- `Swarm(position, velocity, options=options)` with all defaults (swarms.py:84-121). -/
def mkSwarm (position velocity : Mat n d K) (options : Opts K) : Swarm n d K where
  position := position
  velocity := velocity
  options := options
  pbestPos := position
  pbestCost := fun _ => XR.pinf
  bestPos := .empty
  bestCost := none
  currentCost := fun _ => XR.pinf

/-- `compute_pbest` (operators.py:25-79). -/
def computePbest [LT K] [DecidableLT K] (s : Swarm n d K) : Mat n d K × Costs n K :=
  let maskCost : Fin n → Bool := fun i => XR.lt (s.currentCost i) (s.pbestCost i)
  let maskPos : Fin n → Fin d → Bool := fun i _ => maskCost i
  (fun i j => if !(maskPos i j) then s.pbestPos i j else s.position i j,
   fun i => if !(maskCost i) then s.pbestCost i else s.currentCost i)

variable [Field K] [LinearOrder K]

/-- The attraction point of particle `i` after broadcasting `best_pos` (operators.py:137-141). -/
def BestPos.row (b : BestPos n d K) (fallback : Mat n d K) (i : Fin n) : Vec d K :=
  match b with
  | .empty => fallback i
  | .single v => v
  | .perParticle m => m i

/-- `temp_velocity` of `compute_velocity` (operators.py:131-143). -/
def tempVelocity (c1 c2 w : K) (r1 r2 : Mat n d K) (s : Swarm n d K) : Mat n d K := fun i j =>
  let cognitive := c1 * r1 i j * (s.pbestPos i j - s.position i j)
  let social := c2 * r2 i j * (s.bestPos.row s.position i j - s.position i j)
  w * s.velocity i j + cognitive + social

/-- `compute_velocity` (operators.py:82-157) with the handler `vh` given by its strategy and
memory.  `r1`, `r2` are the two `np.random.uniform(0, 1, swarm_size)` matrices.

An empty `best_pos` (shape `(0,)`) does not broadcast against `(n, d)`: `ValueError`, except
that for `d = 1` it broadcasts to shape `(n, 0)`; then strategy `adjust` replaces the velocity
anyway, and with every other strategy the mismatch surfaces as `ValueError` in
`compute_position` (operators.py:198) – modelled as a `ValueError` here.  For `d = 0` all
matrices are empty. -/
def computeVelocity (s : Swarm n d K) (clamp : Option (Clamp d K)) (strategy : String)
    (mem : Option (Mat n d K)) (bounds : Option (Bounds d K)) (r1 r2 : Mat n d K) :
    Option (Mat n d K) × Except Err (Mat n d K) :=
  match s.options.lookup "c1", s.options.lookup "c2", s.options.lookup "w" with
  | some c1, some c2, some w =>
    let call := vhCall strategy mem clamp
      { position := some s.position, bounds := some bounds } (tempVelocity c1 c2 w r1 r2 s)
    match s.bestPos with
    | .empty =>
      if d = 0 then call
      else if d = 1 then
        if strategy = "adjust" then call
        else match call with
          | (m, .error e) => (m, .error e)
          | (m, .ok _) => (m, .error .valueError)
      else (mem, .error .valueError)
    | _ => call
  | _, _, _ => (mem, .error .keyError)

/-- `compute_position` (operators.py:160-210). -/
def computePosition [FloorRing K] (s : Swarm n d K) (bounds : Option (Bounds d K))
    (strategy : String) (mem : Option (Mat n d K)) (r : BHDraw d K) :
    Option (Mat n d K) × Except Err (Mat n d K) :=
  let temp : Mat n d K := fun i j => s.position i j + s.velocity i j
  match bounds with
  | none => (mem, .ok temp)
  | some b => bhCall strategy mem b r temp

end PySwarms
