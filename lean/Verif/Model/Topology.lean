import Verif.Model.Operators

/-!
# `pyswarms/backend/topology/*.py`

The k-d tree, the Delaunay triangulation and the random choices are oracles: arguments
whose documented contract appears as a hypothesis where a theorem needs it.
-/

namespace PySwarms

variable {n d : Nat} {K : Type}

/-- Answers of the external libraries during one `compute_gbest` call.
* `knn k p x i`: row `i` of `cKDTree(x).query(x, p=p, k=k)[1]` (scipy), nearest first;
* `delaunay x`: the neighbour lists read off `Delaunay(x).vertex_neighbor_vertices`, or the
  exception raised by qhull;
* `choice k i`: `np.random.choice(all particles but i, k, replace=False)` (ring.py:65-68;
pyramid.py:76-79; random.py:217-227). -/
structure Oracle (n d : Nat) (K : Type) where
  knn : Nat → Nat → Mat n d K → Fin n → List (Fin n)
  delaunay : Mat n d K → Except Err (Fin n → List (Fin n))
  choice : Nat → Fin n → List (Fin n)

/-- Mutable part of a `Topology` object (topology/base.py:22-38): `neighbor_idx` and, for the
`[:, np.newaxis]` of `Ring` with `k = 1`, its number of array dimensions. -/
structure TopState (n : Nat) where
  neighbor : Option (Fin n → List (Fin n)) := none
  ndim : Nat := 0

/-- The topology classes; the flag is the `static` attribute.  `Star` and `VonNeumann` are
always static (star.py:28, von_neumann.py:20). -/
inductive TopKind
  | star
  | ring (static : Bool)
  | vonNeumann
  | pyramid (static : Bool)
  | random (static : Bool)
  deriving DecidableEq, Repr

/-- The integer options `k`, `p`, `r` passed as keyword arguments to `compute_gbest` (ring.py:38;
random.py:36; von_neumann.py:23). -/
structure TopArgs where
  k : Option Nat := none
  p : Option Nat := none
  r : Option Nat := none
  deriving DecidableEq, Repr

/-- Result of `compute_gbest`: `(best_pos, best_cost)` (star.py:80). -/
abbrev GBest (n d : Nat) (K : Type) := BestPos n d K × Option (XR K)

/-- The list `0, 1, …, n-1` for every particle, `np.tile(np.arange(n), (n, 1))`
(star.py:62-65, pyramid.py:66-68). -/
def allNeighbors (n : Nat) : Fin n → List (Fin n) := fun _ => List.finRange n

section
variable [LT K] [DecidableLT K]

/-- `Star.compute_gbest` (star.py:31-80). -/
def starGbest (t : TopState n) (s : Swarm n d K) : TopState n × Except Err (GBest n d K) :=
  let t' : TopState n := match t.neighbor with
    | none => { neighbor := some (allNeighbors n), ndim := 2 }
    | some _ => t
  match npArgmin s.pbestCost with
  | none => (t', .error .valueError)
  | some i =>
    if XR.lt (s.pbestCost i) s.bestCostVal then
      (t', .ok (.single (s.pbestPos i), some (s.pbestCost i)))
    else (t', .ok (s.bestPos, s.bestCost))

/-- `best_neighbor[i]`: the neighbour of `i` with the smallest personal best, first in
neighbour order (ring.py:78-81, random.py:74-85, pyramid.py:88-99).  `none` for an empty
neighbour list (`argmin` of an empty sequence). -/
def bestNeighbor (nbr : Fin n → List (Fin n)) (c : Costs n K) (i : Fin n) : Option (Fin n) :=
  argminOver c (nbr i)

/-- `best_cost = np.min(pbest_cost[best_neighbor])`, `best_pos = pbest_pos[best_neighbor]`
(ring.py:83-84, random.py:88-89, pyramid.py:102-103), for a given `best_neighbor`. -/
def gatherBest (bn : Fin n → Fin n) (s : Swarm n d K) : Except Err (GBest n d K) :=
  match npMin (fun i => s.pbestCost (bn i)) with
  | none => .error .valueError
  | some c => .ok (.perParticle (fun i => s.pbestPos (bn i)), some c)

/-- `best_neighbor` of every particle, then the gather (ring.py:77-84). -/
def nbrBest (nbr : Fin n → List (Fin n)) (s : Swarm n d K) : Except Err (GBest n d K) :=
  if (List.finRange n).any fun i => (bestNeighbor nbr s.pbestCost i).isNone then
    .error .valueError
  else gatherBest (fun i => (bestNeighbor nbr s.pbestCost i).getD i) s

/-- NumPy 1.16's `NPY_MAXDIMS` (ring.py:75). -/
def npMaxDims : Nat := 32

/-- The k-d tree query of `Ring` (ring.py:65-68).  `k = 0` and `p = 0` are rejected by scipy
with `ValueError`.  For `k > n` scipy pads with the index `n`, which makes
`pbest_cost[neighbor_idx]` raise `IndexError` (ring.py:78); the model raises it here. -/
def ringQuery (k p : Nat) (o : Oracle n d K) (x : Mat n d K) : Except Err (TopState n) :=
  if k = 0 ∨ p = 0 then .error .valueError
  else if k > n ∧ k ≠ 1 then .error .indexError
  else .ok { neighbor := some (o.knn k p x), ndim := if k = 1 then 1 else 2 }

/-- `Ring.compute_gbest` (ring.py:38-91).  With `k = 1` an axis is appended to `neighbor_idx`
at every call (ring.py:75); NumPy raises `IndexError` beyond 32 dimensions. -/
def ringGbest (static : Bool) (k p : Nat) (o : Oracle n d K) (t : TopState n)
    (s : Swarm n d K) : TopState n × Except Err (GBest n d K) :=
  let q : Except Err (TopState n) :=
    if (static && t.neighbor.isNone) || !static then ringQuery k p o s.position else .ok t
  match q with
  | .error e => (t, .error e)
  | .ok t1 =>
    if k = 1 then
      if t1.ndim + 1 > npMaxDims then (t1, .error .indexError)
      else ({ t1 with ndim := t1.ndim + 1 }, gatherBest (fun i => i) s)
    else
      match t1.neighbor with
      | none => (t1, .error .typeError)
      | some nbr => (t1, nbrBest nbr s)

/-- `VonNeumann.delannoy` (von_neumann.py:53-80) on natural numbers, without the recursion limit
(see `delannoyPy`). -/
def delannoy : Nat → Nat → Nat
  | 0, _ => 1
  | _ + 1, 0 => 1
  | d + 1, r + 1 => delannoy d (r + 1) + delannoy d r + delannoy (d + 1) r
termination_by d r => d + r

/-- `VonNeumann.delannoy` (von_neumann.py:53-80) on Python integers, with the interpreter's
recursion limit: `depth` nested calls are allowed, then `RecursionError`.  The three recursive
calls are evaluated left to right. -/
def delannoyPy : (depth : Nat) → Int → Int → Except Err Nat
  | 0, _, _ => .error .recursionError
  | f + 1, d, r =>
    if d = 0 ∨ r = 0 then .ok 1
    else
      match delannoyPy f (d - 1) r with
      | .error e => .error e
      | .ok a =>
        match delannoyPy f (d - 1) (r - 1) with
        | .error e => .error e
        | .ok b =>
          match delannoyPy f d (r - 1) with
          | .error e => .error e
          | .ok c => .ok (a + b + c)

/-- `Pyramid.compute_gbest` (pyramid.py:35-110). -/
def pyramidGbest (static : Bool) (o : Oracle n d K) (t : TopState n) (s : Swarm n d K) :
    TopState n × Except Err (GBest n d K) :=
  if n < d + 1 then
    let t' : TopState n := { neighbor := some (allNeighbors n), ndim := 2 }
    match npArgmin s.pbestCost with
    | none => (t', .error .valueError)
    | some i => (t', .ok (.single (s.pbestPos i), some (s.pbestCost i)))
  else
    let q : Except Err (TopState n) :=
      if (static && t.neighbor.isNone) || !static then
        match o.delaunay s.position with
        | .error e => .error e
        | .ok nbr => .ok { neighbor := some nbr, ndim := 1 }
      else .ok t
    match q with
    | .error e => (t, .error e)
    | .ok t1 =>
      match t1.neighbor with
      | none => (t1, .error .typeError)
      | some nbr => (t1, nbrBest nbr s)

end

/-! ### Random topology -/

/-- A boolean adjacency matrix (random.py:215). -/
abbrev Adj (n : Nat) := Fin n → Fin n → Bool

/-- Undirected edge relation used by `dijkstra(directed=False)` and
`connected_components(directed=False)` (random.py:239-252). -/
def undirected (a : Adj n) (i j : Fin n) : Bool := a i j || a j i

/-- Is there an undirected path with at most `m` edges? (random.py:239-244). -/
def reachIn (a : Adj n) : Nat → Fin n → Fin n → Bool
  | 0, i, j => i == j
  | m + 1, i, j => reachIn a m i j ||
      (List.finRange n).any fun k => reachIn a m i k && undirected a k j

/-- `dist_matrix[i][j] != np.inf` (random.py:239-244): some path exists; paths of length at
most `n` suffice. -/
def reachable (a : Adj n) (i j : Fin n) : Bool := reachIn a n i j

/-- `connected_components(adj, directed=False, return_labels=False) == 1`
(random.py:247-252). -/
def isConnected (a : Adj n) : Bool :=
  decide (0 < n) &&
    (List.finRange n).all fun i => (List.finRange n).all fun j => reachable a i j

/-- `adj_matrix` after the two fancy-index assignments (random.py:215-237):
identity, plus the drawn neighbours in both directions. -/
def drawnAdj (choice : Fin n → List (Fin n)) : Adj n := fun i j =>
  decide (i = j) || decide (j ∈ choice i) || decide (i ∈ choice j)

/-- One execution of the body of the `while` loop (random.py:253-255), with `dist_matrix`
computed once from `a0`. -/
def addMissing (a0 a : Adj n) : Adj n := fun i j =>
  if !(reachable a0 i j) then true else a i j

/-- The `while` loop (random.py:246-255), at most `passes` passes; returns the final matrix
and the number of passes executed. -/
def repairLoop (a0 : Adj n) : (passes : Nat) → Adj n → Except Err (Adj n × Nat)
  | 0, a => if isConnected a then .ok (a, 0) else .error .diverges
  | m + 1, a =>
    if isConnected a then .ok (a, 0)
    else match repairLoop a0 m (addMissing a0 a) with
      | .error e => .error e
      | .ok (r, c) => .ok (r, c + 1)

/-- `Random.__compute_neighbors` (random.py:178-257).  `np.random.choice(…, k, replace=False)`
raises `ValueError` when fewer than `k` candidates exist (numpy 1.16 accepts an empty draw
from an empty array).  The `while` loop is allowed
two passes (`randomNeighbors_ne_diverges` shows that this never matters).  `n = 0` is not modelled. -/
def randomNeighbors (k : Nat) (choice : Fin n → List (Fin n)) : Except Err (Adj n) :=
  if n = 0 then .error .unmodelled
  else if k > n - 1 then .error .valueError
  else
    match repairLoop (drawnAdj choice) 2 (drawnAdj choice) with
    | .error e => .error e
    | .ok (a, _) => .ok a

/-- `adj_matrix[i].nonzero()[0]` for every `i` (random.py:68-73). -/
def adjLists (a : Adj n) : Fin n → List (Fin n) := fun i =>
  (List.finRange n).filter fun j => a i j

variable [LT K] [DecidableLT K]

/-- `Random.compute_gbest` (random.py:36-97). -/
def randomGbest (static : Bool) (k : Nat) (o : Oracle n d K) (t : TopState n)
    (s : Swarm n d K) : TopState n × Except Err (GBest n d K) :=
  let q : Except Err (TopState n) :=
    if (static && t.neighbor.isNone) || !static then
      match randomNeighbors k (o.choice k) with
      | .error e => .error e
      | .ok a => .ok { neighbor := some (adjLists a), ndim := 1 }
    else .ok t
  match q with
  | .error e => (t, .error e)
  | .ok t1 =>
    match t1.neighbor with
    | none => (t1, .error .typeError)
    | some nbr => (t1, nbrBest nbr s)

/-- `topology.compute_gbest(swarm, **args)`: missing required keyword arguments are a
`TypeError` (ring.py:38, random.py:36, von_neumann.py:23). -/
def computeGbest (kind : TopKind) (args : TopArgs) (o : Oracle n d K) (t : TopState n)
    (s : Swarm n d K) : TopState n × Except Err (GBest n d K) :=
  match kind with
  | .star => starGbest t s
  | .ring st =>
    match args.k, args.p with
    | some k, some p => ringGbest st k p o t s
    | _, _ => (t, .error .typeError)
  | .vonNeumann =>
    match args.p, args.r with
    | some p, some r => ringGbest true (delannoy d r) p o t s
    | _, _ => (t, .error .typeError)
  | .pyramid st => pyramidGbest st o t s
  | .random st =>
    match args.k with
    | some k => randomGbest st k o t s
    | none => (t, .error .typeError)

end PySwarms
