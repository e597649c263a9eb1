import Verif.Model.Topology

/-!
# One iteration on arrays of any shape

The other model files give every array its documented shape in its type: positions `(n, d)`, costs
`(n,)`.  The code does not check these shapes; NumPy's broadcasting decides at every operation
whether the operands fit.  This file models NumPy arrays of any rank and runs the same functions on
them, so that the effect of an objective or of an `init_pos` with another shape can be stated.

* `compute_pbest`, `compute_velocity`, `compute_position` – backend/operators.py:25-210
* `VelocityHandler.unmodified`, `__apply_clamp`           – backend/handlers.py:451-468
* `Star.compute_gbest`                                     – backend/topology/star.py:61-73
* `generate_swarm`, `generate_velocity`, `create_swarm`    – backend/generators.py:22-245
* `GlobalBestPSO.optimize`                                 – single/global_best.py:204-248

Simplifications: `bounds=None`, the strategy `unmodified`, constant options, no early stop, histories
not recorded.  Elements of a 0-dimensional array and Python floats are not distinguished.
-/

namespace PySwarms

/-- `numpy.ndarray`: a shape and the element at each index.  Only indices inside the shape matter
(the ndarray attributes of swarms.py:84-106). -/
structure Arr (α : Type) where
  shape : List Nat
  get : List Nat → α

namespace Arr
variable {α β γ δ : Type}

/-- NumPy's broadcasting rule, on reversed shapes: compare from the last axis, sizes must be equal
or one of them 1; missing axes count as 1 (NumPy, used by operators.py:65-72, 131-143, 198). -/
def bcRev : List Nat → List Nat → Option (List Nat)
  | [], t => some t
  | s, [] => some s
  | x :: s, y :: t =>
    if x = y ∨ y = 1 then (bcRev s t).map (x :: ·)
    else if x = 1 then (bcRev s t).map (y :: ·)
    else none

/-- The broadcast shape of two shapes; `none` is `ValueError: operands could not be broadcast`
(NumPy, as `bcRev`). -/
def bcast (s t : List Nat) : Option (List Nat) := (bcRev s.reverse t.reverse).map List.reverse

/-- Which element of an array of shape `s` broadcasting uses at index `idx`: leading axes are
dropped, axes of size 1 are read at 0 (NumPy, as `bcRev`). -/
def proj (s idx : List Nat) : List Nat :=
  List.zipWith (fun k i => if k = 1 then 0 else i) s (idx.drop (idx.length - s.length))

/-- The element used at index `idx` of the broadcast result (NumPy, as `bcRev`). -/
def bget (a : Arr α) (idx : List Nat) : α := a.get (proj a.shape idx)

/-- An elementwise binary operation `f(a, b)` (operators.py:66, 131-143). -/
def map2 (f : α → β → γ) (a : Arr α) (b : Arr β) : Except Err (Arr γ) :=
  match bcast a.shape b.shape with
  | none => .error .valueError
  | some s => .ok ⟨s, fun idx => f (a.bget idx) (b.bget idx)⟩

/-- An elementwise unary operation, or a binary one with a scalar (operators.py:131-143). -/
def map (f : α → β) (a : Arr α) : Arr β := ⟨a.shape, fun idx => f (a.get idx)⟩

/-- `np.where(c, x, y)`: the three operands are broadcast together (operators.py:70-72;
handlers.py:451-459). -/
def whr (c : Arr Bool) (x y : Arr α) : Except Err (Arr α) :=
  match bcast c.shape x.shape with
  | none => .error .valueError
  | some s => match bcast s y.shape with
    | none => .error .valueError
    | some s' => .ok ⟨s', fun idx => if c.bget idx then x.bget idx else y.bget idx⟩

/-- `a[:, np.newaxis]`: a new axis of size 1 in second place (operators.py:65-67). -/
def newaxis1 (a : Arr α) : Except Err (Arr α) :=
  match a.shape with
  | [] => .error .indexError
  | k :: rest => .ok ⟨k :: 1 :: rest, fun idx => a.get (idx.take 1 ++ idx.drop 2)⟩

/-- `np.repeat(a, r, axis=1)`: every slice along the second axis `r` times.  An array without a
second axis raises `AxisError`, a subclass of `ValueError` and of `IndexError`
(operators.py:65-67). -/
def repeat1 (a : Arr α) (r : Nat) : Except Err (Arr α) :=
  match a.shape with
  | k :: l :: rest => .ok ⟨k :: (l * r) :: rest,
      fun idx => a.get (idx.take 1 ++ [idx.getD 1 0 / r] ++ idx.drop 2)⟩
  | _ => .error .indexError

/-- `a[k]` with an integer `k` (star.py:69). -/
def index0 (a : Arr α) (k : Nat) : Except Err (Arr α) :=
  match a.shape with
  | [] => .error .indexError
  | l :: rest => if k < l then .ok ⟨rest, fun idx => a.get (k :: idx)⟩ else .error .indexError

/-- All indices of a shape in row-major order (NumPy, used by star.py:69). -/
def allIdx : List Nat → List (List Nat)
  | [] => [[]]
  | k :: s => (List.range k).flatMap fun i => (allIdx s).map (i :: ·)

/-- `a.ravel()` (NumPy, used by star.py:66-70). -/
def flat (a : Arr α) : List α := (allIdx a.shape).map a.get

/-- `a += b`: the broadcast shape must be the shape of `a` ("non-broadcastable output operand"
otherwise) (operators.py:198). -/
def addInPlace [Add α] (a b : Arr α) : Except Err (Arr α) :=
  match bcast a.shape b.shape with
  | none => .error .valueError
  | some s => if s = a.shape then .ok ⟨s, fun idx => a.bget idx + b.bget idx⟩
    else .error .valueError

end Arr

/-- `np.argmin` of a flattened array; `none` is the `ValueError` for an empty one (star.py:69). -/
def argminList {K : Type} [LT K] [DecidableLT K] (l : List (XR K)) : Option Nat :=
  (npArgmin fun i : Fin l.length => l[i]).map Fin.val

/-- The attributes of `Swarm` (swarms.py:84-121) that an iteration uses, with arrays of any shape. -/
structure ASwarm (K : Type) where
  position : Arr K
  velocity : Arr K
  dimensions : Nat
  pbestPos : Arr K
  pbestCost : Arr (XR K)
  bestPos : Arr K
  bestCost : XR K
  currentCost : Arr (XR K)

section
variable {K : Type} [Field K] [LinearOrder K]

open Arr

/-- `compute_pbest` (operators.py:62-79). -/
def computePbestA (s : ASwarm K) : Except Err (Arr K × Arr (XR K)) := do
  let maskCost ← map2 XR.lt s.currentCost s.pbestCost
  let column ← newaxis1 maskCost
  let maskPos ← repeat1 column s.dimensions
  let newPos ← whr (maskPos.map not) s.pbestPos s.position
  let newCost ← whr (maskCost.map not) s.pbestCost s.currentCost
  return (newPos, newCost)

/-- `Star.compute_gbest` (star.py:61-73); `np.min` and `np.argmin` work on the flattened costs. -/
def starGbestA (s : ASwarm K) : Except Err (Arr K × XR K) :=
  match argminList s.pbestCost.flat with
  | none => .error .valueError
  | some k =>
    let least := s.pbestCost.flat.getD k XR.nan
    if XR.lt least s.bestCost then do
      let row ← index0 s.pbestPos k
      return (row, least)
    else .ok (s.bestPos, s.bestCost)

/-- `__apply_clamp` (handlers.py:451-459). -/
def applyClampA (lo hi v : Arr K) : Except Err (Arr K) := do
  let below ← map2 (fun x y => decide (x ≤ y)) v lo
  let above ← map2 (fun x y => decide (y ≤ x)) v hi
  let v1 ← whr below lo v
  whr above hi v1

/-- `compute_velocity` (operators.py:125-157) with the strategy `unmodified`
(handlers.py:461-468); the clamp is a pair of arrays of any shape. -/
def computeVelocityA (c1 c2 w : K) (clamp : Option (Arr K × Arr K)) (r1 r2 : List Nat → K)
    (s : ASwarm K) : Except Err (Arr K) := do
  let toBest ← map2 (· - ·) s.pbestPos s.position
  let cognitive ← map2 (· * ·) (Arr.map (c1 * ·) ⟨s.position.shape, r1⟩) toBest
  let toSwarm ← map2 (· - ·) s.bestPos s.position
  let social ← map2 (· * ·) (Arr.map (c2 * ·) ⟨s.position.shape, r2⟩) toSwarm
  let inert ← map2 (· + ·) (s.velocity.map (w * ·)) cognitive
  let temp ← map2 (· + ·) inert social
  match clamp with
  | none => return temp
  | some (lo, hi) => applyClampA lo hi temp

/-- `compute_position` without bounds (operators.py:196-203). -/
def computePositionA (s : ASwarm K) : Except Err (Arr K) := addInPlace s.position s.velocity

/-- One pass through the loop of `optimize` (global_best.py:206-248), with the topology's
`compute_gbest` as a parameter. -/
def iterationA (gbest : ASwarm K → Except Err (Arr K × XR K))
    (obj : Arr K → Except Err (Arr (XR K))) (c1 c2 w : K) (clamp : Option (Arr K × Arr K))
    (r : (List Nat → K) × (List Nat → K)) (s : ASwarm K) : Except Err (ASwarm K) := do
  let cost ← obj s.position
  let s := { s with currentCost := cost }
  let (pp, pc) ← computePbestA s
  let s := { s with pbestPos := pp, pbestCost := pc }
  let (bp, bc) ← gbest s
  let s := { s with bestPos := bp, bestCost := bc }
  let v ← computeVelocityA c1 c2 w clamp r.1 r.2 s
  let s := { s with velocity := v }
  let p ← computePositionA s
  return { s with position := p }

/-- The loop: one pass per pair of random matrices (global_best.py:206-248). -/
def loopA (gbest : ASwarm K → Except Err (Arr K × XR K))
    (obj : Arr K → Except Err (Arr (XR K))) (c1 c2 w : K) (clamp : Option (Arr K × Arr K)) :
    List ((List Nat → K) × (List Nat → K)) → ASwarm K → Except Err (ASwarm K)
  | [], s => .ok s
  | r :: rs, s => match iterationA gbest obj c1 c2 w clamp r s with
    | .error e => .error e
    | .ok s' => loopA gbest obj c1 c2 w clamp rs s'

/-- `create_swarm(n, d, init_pos=a)` without bounds (generators.py:61-62, 167-171, 245): the
positions are the user's array as it is, the velocities have shape `(n, d)`.  `Swarm` reads
`position.shape[1]` (swarms.py:115-117), an `IndexError` for a one-dimensional array. -/
def createSwarmA (n d : Nat) (initPos : Arr K) (vel : List Nat → K) : Except Err (ASwarm K) :=
  match initPos.shape[1]? with
  | none => .error .indexError
  | some e => .ok
    { position := initPos, velocity := ⟨[n, d], vel⟩, dimensions := e, pbestPos := initPos,
      pbestCost := ⟨[0], fun _ => XR.nan⟩, bestPos := ⟨[0], fun _ => 0⟩, bestCost := XR.pinf,
      currentCost := ⟨[0], fun _ => XR.nan⟩ }

/-- `optimize` of an optimizer constructed with `n_particles = n` (global_best.py:204-248):
`pbest_cost` starts as `np.full(n_particles, np.inf)`. -/
def optimizeA (n : Nat) (gbest : ASwarm K → Except Err (Arr K × XR K))
    (obj : Arr K → Except Err (Arr (XR K))) (c1 c2 w : K) (clamp : Option (Arr K × Arr K))
    (rs : List ((List Nat → K) × (List Nat → K))) (s : ASwarm K) : Except Err (ASwarm K) :=
  loopA gbest obj c1 c2 w clamp rs { s with pbestCost := ⟨[n], fun _ => XR.pinf⟩ }

end

end PySwarms
