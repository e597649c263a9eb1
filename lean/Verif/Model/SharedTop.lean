import Verif.Model.Optimizer

/-!
# A topology object used by several optimizers

`GeneralOptimizerPSO` stores the topology object it is given (general_optimizer.py:190-195) and
never copies it, so several optimizers can hold the same object.  Its attribute `neighbor_idx`
(topology/base.py:28-29) is then shared.  `Model/Topology.lean` types the neighbour lists by the
number of particles; here they are lists of numbers, since the optimizers may have swarms of
different sizes.
-/

namespace PySwarms

variable {n d : Nat} {K : Type}

/-- A topology object: the rows of `neighbor_idx`, and its number of array dimensions
(topology/base.py:28-29, ring.py:68, 75). -/
structure TopObj where
  neighbor : Option (List (List Nat)) := none
  ndim : Nat := 0
  deriving DecidableEq, Repr

/-- The rows of neighbour lists (ring.py:68; random.py:68-73; pyramid.py:81-86). -/
def neighborRows (nbr : Fin n → List (Fin n)) : List (List Nat) :=
  (List.finRange n).map fun i => (nbr i).map Fin.val

/-- `neighbor_idx` as it is after a swarm of `n` particles has computed it (ring.py:68;
random.py:68-73; pyramid.py:81-86). -/
def TopState.toObj (t : TopState n) : TopObj :=
  { neighbor := t.neighbor.map neighborRows, ndim := t.ndim }

/-- What `compute_gbest` answers: a `best_pos` that broadcasts against the positions, or one with
a number of rows that does not (ring.py:84, random.py:89, pyramid.py:103). -/
inductive Answer (n d : Nat) (K : Type)
  | fits (g : GBest n d K)
  | rows (l : List (Vec d K)) (c : XR K)

/-- The particles with the numbers in `row`; a number that is not below `n` makes
`pbest_cost[…]` raise `IndexError` (ring.py:78, random.py:76, pyramid.py:90). -/
def rowFins (n : Nat) (row : List Nat) : Option (List (Fin n)) :=
  if row.all (· < n) then some (row.filterMap fun j => if h : j < n then some ⟨j, h⟩ else none)
  else none

section
variable [LT K] [DecidableLT K]

/-- `best_neighbor`, one entry for every row of `neighbor_idx` (ring.py:78-81, random.py:74-85,
pyramid.py:88-99). -/
def pickRows (c : Costs n K) : List (List Nat) → Except Err (List (Fin n))
  | [] => .ok []
  | row :: rest =>
    match rowFins n row with
    | none => .error .indexError
    | some l =>
      match argminOver c l with
      | none => .error .valueError
      | some b =>
        match pickRows c rest with
        | .error e => .error e
        | .ok bs => .ok (b :: bs)

/-- `best_cost = np.min(pbest_cost[best_neighbor])`, `best_pos = pbest_pos[best_neighbor]`
(ring.py:83-84, random.py:88-89, pyramid.py:102-103).  A `best_pos` with one row broadcasts like
a single position. -/
def gatherRows (bs : List (Fin n)) (s : Swarm n d K) : Except Err (Answer n d K) :=
  match argminOver s.pbestCost bs with
  | none => .error .valueError
  | some b =>
    .ok (if h : bs.length = n then
        .fits (.perParticle (fun i => s.pbestPos (bs.get (i.cast h.symm))), some (s.pbestCost b))
      else match bs with
        | [a] => .fits (.single (s.pbestPos a), some (s.pbestCost b))
        | _ => .rows (bs.map s.pbestPos) (s.pbestCost b))

/-- The neighbour part of the three `compute_gbest` methods, for the rows of `neighbor_idx`
(ring.py:78-84, random.py:74-89, pyramid.py:88-103). -/
def rowsBest (rows : List (List Nat)) (s : Swarm n d K) : Except Err (Answer n d K) :=
  match pickRows s.pbestCost rows with
  | .error e => .error e
  | .ok bs => gatherRows bs s

/-- An answer computed without `neighbor_idx` broadcasts (star.py:66-74, ring.py:72-84,
pyramid.py:70-71). -/
def fitting (r : Except Err (GBest n d K)) : Except Err (Answer n d K) :=
  match r with
  | .error e => .error e
  | .ok g => .ok (.fits g)

/-- `Star.compute_gbest` (star.py:31-80). -/
def starObj (t : TopObj) (s : Swarm n d K) : TopObj × Except Err (Answer n d K) :=
  let t' : TopObj := match t.neighbor with
    | none => { neighbor := some (neighborRows (allNeighbors n)), ndim := 2 }
    | some _ => t
  match npArgmin s.pbestCost with
  | none => (t', .error .valueError)
  | some i =>
    if XR.lt (s.pbestCost i) s.bestCostVal then
      (t', .ok (.fits (.single (s.pbestPos i), some (s.pbestCost i))))
    else (t', .ok (.fits (s.bestPos, s.bestCost)))

/-- `Ring.compute_gbest` (ring.py:38-91).  With `k ≠ 1` an array `neighbor_idx` to which calls with
`k = 1` have added axes is not modelled. -/
def ringObj (static : Bool) (k p : Nat) (o : Oracle n d K) (t : TopObj) (s : Swarm n d K) :
    TopObj × Except Err (Answer n d K) :=
  let q : Except Err TopObj :=
    if (static && t.neighbor.isNone) || !static then
      match ringQuery k p o s.position with
      | .error e => .error e
      | .ok t1 => .ok t1.toObj
    else .ok t
  match q with
  | .error e => (t, .error e)
  | .ok t1 =>
    if k = 1 then
      if t1.ndim + 1 > npMaxDims then (t1, .error .indexError)
      else ({ t1 with ndim := t1.ndim + 1 }, fitting (gatherBest (fun i => i) s))
    else
      match t1.neighbor with
      | none => (t1, .error .typeError)
      | some rows => if t1.ndim = 2 then (t1, rowsBest rows s) else (t1, .error .unmodelled)

/-- `Pyramid.compute_gbest` (pyramid.py:35-110). -/
def pyramidObj (static : Bool) (o : Oracle n d K) (t : TopObj) (s : Swarm n d K) :
    TopObj × Except Err (Answer n d K) :=
  if n < d + 1 then
    let t' : TopObj := { neighbor := some (neighborRows (allNeighbors n)), ndim := 2 }
    match npArgmin s.pbestCost with
    | none => (t', .error .valueError)
    | some i => (t', .ok (.fits (.single (s.pbestPos i), some (s.pbestCost i))))
  else
    let q : Except Err TopObj :=
      if (static && t.neighbor.isNone) || !static then
        match o.delaunay s.position with
        | .error e => .error e
        | .ok nbr => .ok { neighbor := some (neighborRows nbr), ndim := 1 }
      else .ok t
    match q with
    | .error e => (t, .error e)
    | .ok t1 =>
      match t1.neighbor with
      | none => (t1, .error .typeError)
      | some rows => (t1, rowsBest rows s)

/-- `Random.compute_gbest` (random.py:36-97). -/
def randomObj (static : Bool) (k : Nat) (o : Oracle n d K) (t : TopObj) (s : Swarm n d K) :
    TopObj × Except Err (Answer n d K) :=
  let q : Except Err TopObj :=
    if (static && t.neighbor.isNone) || !static then
      match randomNeighbors k (o.choice k) with
      | .error e => .error e
      | .ok a => .ok { neighbor := some (neighborRows (adjLists a)), ndim := 1 }
    else .ok t
  match q with
  | .error e => (t, .error e)
  | .ok t1 =>
    match t1.neighbor with
    | none => (t1, .error .typeError)
    | some rows => (t1, rowsBest rows s)

/-- `topology.compute_gbest(swarm, **options)` (general_optimizer.py:252-254; ring.py:38,
random.py:36, von_neumann.py:23). -/
def gbestObj (kind : TopKind) (args : TopArgs) (o : Oracle n d K) (t : TopObj)
    (s : Swarm n d K) : TopObj × Except Err (Answer n d K) :=
  match kind with
  | .star => starObj t s
  | .ring st =>
    match args.k, args.p with
    | some k, some p => ringObj st k p o t s
    | _, _ => (t, .error .typeError)
  | .vonNeumann =>
    match args.p, args.r with
    | some p, some r => ringObj true (delannoy d r) p o t s
    | _, _ => (t, .error .typeError)
  | .pyramid st => pyramidObj st o t s
  | .random st =>
    match args.k with
    | some k => randomObj st k o t s
    | none => (t, .error .typeError)

end

section
variable [Field K] [LinearOrder K] [Transc K] [FloorRing K]

/-- `self.swarm.best_pos, self.swarm.best_cost = …` and `_populate_history`
(general_optimizer.py:252-265).  A `best_pos` with a wrong number of rows cannot be written down in
a `Swarm n d K`; the field then keeps its old value (it is not read before it is assigned again). -/
def recordAnswer (a : Answer n d K) (s : Opt n d K) : Opt n d K :=
  match a with
  | .fits g => recordBest s.top g s
  | .rows _ c => recordBest s.top (s.swarm.bestPos, some c) s

/-- Options, velocity and position updates (general_optimizer.py:278-288).  `compute_velocity` reads
`c1`, `c2` and `w` and then subtracts the positions from `best_pos`, which raises `ValueError` if the
numbers of rows differ and neither is 1 (operators.py:128-141).  Simplification: that is also the
model's answer for a swarm of one particle; the code then raises `ValueError` a few lines later
(operators.py:198). -/
def moveAnswer (cfg : Config n d K) (r : Draw n d K) (iters i : Nat) (a : Answer n d K)
    (s : Opt n d K) : Opt n d K × Except Err Unit :=
  match a with
  | .fits _ => moveSwarm cfg r iters i s
  | .rows _ _ =>
    match callOptions cfg iters i r s.swarm with
    | .error e => (s, .error e)
    | .ok o =>
      let s1 := { s with swarm := { s.swarm with options := o } }
      match o.lookup "c1", o.lookup "c2", o.lookup "w" with
      | some _, some _, some _ => (s1, .error .valueError)
      | _, _, _ => (s1, .error .keyError)

/-- One iteration of `GeneralOptimizerPSO.optimize` with the topology object `t`
(general_optimizer.py:245-288).  The field `top` of the state is not used. -/
def iterateObj (top : TopKind) (cfg : Config n d K) (ev : Mat n d K → Except Err (Costs n K))
    (r : Draw n d K) (iters i : Nat) (q : List Bool) (t : TopObj) (s : Opt n d K) :
    TopObj × Opt n d K × Except Err Flow :=
  match ev s.swarm.position with
  | .error e => (t, s, .error e)
  | .ok c =>
    let s1 := recordEval c s
    let yet := s1.swarm.bestCostVal
    match gbestObj top cfg.args r.oracle t s1.swarm with
    | (t', .error e) => (t', s1, .error e)
    | (t', .ok a) =>
      let s2 := recordAnswer a s1
      let q' := dequeAppend cfg.window q (ftolDelta cfg.ftol s2.swarm.bestCostVal yet)
      if decide (¬ i < cfg.window) && q'.all id then (t', s2, .ok .stop)
      else match moveAnswer cfg r iters i a s2 with
        | (s3, .error e) => (t', s3, .error e)
        | (s3, .ok ()) => (t', s3, .ok (.continue q'))

/-- The `for i in range(iters)` loop (general_optimizer.py:244). -/
def loopObj (top : TopKind) (cfg : Config n d K) (ev : Nat → Mat n d K → Except Err (Costs n K))
    (env : Nat → Draw n d K) (iters : Nat) :
    (m i : Nat) → List Bool → TopObj → Opt n d K → TopObj × Opt n d K × Except Err Unit
  | 0, _, _, t, s => (t, s, .ok ())
  | m + 1, i, q, t, s =>
    match iterateObj top cfg (ev i) (env i) iters i q t s with
    | (t', s', .error e) => (t', s', .error e)
    | (t', s', .ok .stop) => (t', s', .ok ())
    | (t', s', .ok (.continue q')) => loopObj top cfg ev env iters m (i + 1) q' t' s'

/-- `GeneralOptimizerPSO.optimize` (general_optimizer.py:197-304) with the topology object `t`. -/
def optimizeObj (top : TopKind) (cfg : Config n d K)
    (ev : Nat → Mat n d K → Except Err (Costs n K)) (iters : Nat) (nproc : Option Nat)
    (env : Nat → Draw n d K) (t : TopObj) (s : Opt n d K) :
    TopObj × Opt n d K × Except Err (XR K × Vec d K) :=
  if nproc = some 0 then
    (t, { s with bhMem := (prepare cfg s).bhMem, vhMem := (prepare cfg s).vhMem },
      .error .valueError)
  else
    let s0 := { prepare cfg s with
      openPools := s.openPools + (if nproc.isSome then 1 else 0) }
    match loopObj top cfg ev env iters iters 0 [] t s0 with
    | (t1, s1, .error e) => (t1, s1, .error e)
    | (t1, s1, .ok ()) =>
      match finish s1 with
      | .error e => (t1, s1, .error e)
      | .ok r =>
        (t1, { s1 with openPools := s1.openPools - (if nproc.isSome then 1 else 0) }, .ok r)

/-- One call on an optimizer that holds the object `t` (base_single.py:147, 173); `reset` does not
touch the topology (base_single.py:173-212). -/
def stepObj (top : TopKind) (cfg : Config n d K) (t : TopObj) (s : Opt n d K) :
    Op n d K → TopObj × Opt n d K
  | .optimize ev iters nproc env =>
    ((optimizeObj top cfg ev iters nproc env t s).1, (optimizeObj top cfg ev iters nproc env t s).2.1)
  | .reset r => (t, (reset cfg r s).1)

/-- Several GeneralOptimizerPSO objects, the `j`-th with `N j` particles in `D j` dimensions, that
hold one topology object (general_optimizer.py:190-195). -/
structure Sharing (ι : Type) (N D : ι → Nat) (K : Type) where
  obj : TopObj
  opt : (j : ι) → Opt (N j) (D j) K

/-- Calls on the optimizers in any order; exceptions are caught (base_single.py:147, 173). -/
def runSharing {ι : Type} [DecidableEq ι] {N D : ι → Nat} (top : TopKind)
    (cfg : (j : ι) → Config (N j) (D j) K) (P : Sharing ι N D K)
    (calls : List ((j : ι) × Op (N j) (D j) K)) : Sharing ι N D K :=
  calls.foldl (fun P c =>
    { obj := (stepObj top (cfg c.1) P.obj (P.opt c.1) c.2).1
      opt := Function.update P.opt c.1 (stepObj top (cfg c.1) P.obj (P.opt c.1) c.2).2 }) P

end

end PySwarms
