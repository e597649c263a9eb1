import Verif.Basic
import Mathlib.Algebra.Order.Floor.Defs
import Mathlib.Algebra.Order.Field.Basic

/-!
# `pyswarms/backend/handlers.py`: BoundaryHandler and VelocityHandler

A handler object is modelled by its `strategy` string and its `memory` attribute; every
call returns the new memory together with the result or the exception.
In-place writes to the argument array are modelled by returning the new matrix (the
aliasing consequences are treated in `Verif.Model.Heap`).
-/

namespace PySwarms

variable {n d : Nat} {K : Type} [Field K] [LinearOrder K]

/-- `bounds = (lb, ub)`, two arrays of shape `(d,)` (base_single.py:75-78; handlers.py:51). -/
abbrev Bounds (d : Nat) (K : Type) := Vec d K × Vec d K

/-- `position < lb`, elementwise (handlers.py:46-54, `_out_of_bounds`, second mask). -/
def isLow (b : Bounds d K) (x : Mat n d K) (i : Fin n) (j : Fin d) : Bool :=
  decide (x i j < b.1 j)

/-- `position > ub`, elementwise (handlers.py:46-54, `_out_of_bounds`, first mask). -/
def isHigh (b : Bounds d K) (x : Mat n d K) (i : Fin n) (j : Fin d) : Bool :=
  decide (x i j > b.2 j)

/-- Row indices of `np.nonzero(position < lb)`: `lower_than_bound[0]` (handlers.py:46-54). -/
def rowLow (b : Bounds d K) (x : Mat n d K) (i : Fin n) : Bool :=
  (List.finRange d).any fun j => isLow b x i j

/-- Row indices of `np.nonzero(position > ub)`: `greater_than_bound[0]` (handlers.py:46-54). -/
def rowHigh (b : Bounds d K) (x : Mat n d K) (i : Fin n) : Bool :=
  (List.finRange d).any fun j => isHigh b x i j

/-! ## BoundaryHandler (handlers.py:65-393) -/

/-- `BoundaryHandler.nearest` (handlers.py:146-169). -/
def bhNearest (b : Bounds d K) (x : Mat n d K) : Mat n d K := fun i j =>
  let low := isLow b x i j
  let high := isHigh b x i j
  let p1 := if low then b.1 j else x i j
  if high then b.2 j else p1

/-- One pass of the `while` loop of `BoundaryHandler.reflective` (handlers.py:203-213):
masks are computed before the pass; the lower assignment comes first. -/
def reflectPass (b : Bounds d K) (x : Mat n d K) : Mat n d K := fun i j =>
  let p1 := if isLow b x i j then 2 * b.1 j - x i j else x i j
  if isHigh b x i j then 2 * b.2 j - p1 else p1

/-- The loop condition of `reflective` (handlers.py:202): some coordinate is out of bounds. -/
def anyOut (b : Bounds d K) (x : Mat n d K) : Bool :=
  (List.finRange n).any fun i => rowLow b x i || rowHigh b x i

/-- `BoundaryHandler.reflective` (handlers.py:171-215).  The `while` loop is run for at most
`passes` passes; if it is still going it is reported as `diverges`. -/
def bhReflective (b : Bounds d K) : (passes : Nat) → Mat n d K → Except Err (Mat n d K)
  | 0, x => if anyOut b x then .error .diverges else .ok x
  | m + 1, x => if anyOut b x then bhReflective b m (reflectPass b x) else .ok x

/-- The coefficient matrix `sigma` of `shrink` (handlers.py:254-265); the upper assignment
comes last. -/
def shrinkSigma (b : Bounds d K) (mem x : Mat n d K) : Mat n d K := fun i j =>
  let v := x i j - mem i j
  let s1 := if isLow b x i j then (b.1 j - mem i j) / v else 1
  if isHigh b x i j then (b.2 j - mem i j) / v else s1

/-- `np.amin` of a row (handlers.py:266); `none` for a row of length zero. -/
def rowMin (v : Vec d K) : Option K :=
  ((List.finRange d).map v).foldl (fun acc a =>
    match acc with
    | none => some a
    | some m => some (min m a)) none

/-- `BoundaryHandler.shrink` (handlers.py:217-283).  The two row assignments
(handlers.py:267-281) write the same value, so they are merged.  A zero velocity at a violated coordinate is a
NumPy division by zero (`inf`/`nan`): `nonFinite`.  For `d = 0` `np.amin(axis=1)` raises
`ValueError`. -/
def bhShrink (b : Bounds d K) (mem : Option (Mat n d K)) (x : Mat n d K) :
    Option (Mat n d K) × Except Err (Mat n d K) :=
  match mem with
  | none => (some x, .ok x)
  | some m =>
    if (List.finRange n).any fun i => (List.finRange d).any fun j =>
        (isLow b x i j || isHigh b x i j) && decide (x i j - m i j = 0) then
      (mem, .error .nonFinite)
    else if d = 0 then (mem, .error .valueError)
    else
      let r : Mat n d K := fun i j =>
        if rowLow b x i || rowHigh b x i then
          match rowMin (shrinkSigma b m x i) with
          | some s => m i j + s * (x i j - m i j)
          | none => x i j
        else x i j
      (some r, .ok r)

/-- `BoundaryHandler.random` (handlers.py:285-311).  `u` and `l` are the two vectors drawn by
`np.random.random_sample`, in order; each is assigned to *all* rows concerned. -/
def bhRandom (b : Bounds d K) (u l : Vec d K) (x : Mat n d K) : Mat n d K := fun i j =>
  let p1 := if rowHigh b x i then (b.2 j - b.1 j) * u j + b.1 j else x i j
  if rowLow b x i then (b.2 j - b.1 j) * l j + b.1 j else p1

/-- `BoundaryHandler.intermediate` (handlers.py:313-347). -/
def bhIntermediate (b : Bounds d K) (mem : Option (Mat n d K)) (x : Mat n d K) :
    Option (Mat n d K) × Except Err (Mat n d K) :=
  match mem with
  | none => (some x, .ok x)
  | some m =>
    let r : Mat n d K := fun i j =>
      let p1 := if isLow b x i j then (1 / 2) * (m i j + b.1 j) else x i j
      if isHigh b x i j then (1 / 2) * (m i j + b.2 j) else p1
    (some r, .ok r)

/-- `np.mod(a, s)` for `s > 0` (handlers.py:349-393). -/
def npMod [FloorRing K] (a s : K) : K := a - s * (⌊a / s⌋ : ℤ)

/-- `BoundaryHandler.periodic` (handlers.py:349-393).  `np.mod(_, 0)` is `nan`: `nonFinite`. -/
def bhPeriodic [FloorRing K] (b : Bounds d K) (x : Mat n d K) : Except Err (Mat n d K) :=
  if (List.finRange n).any fun i => (List.finRange d).any fun j =>
      (isLow b x i j || isHigh b x i j) && decide (|b.2 j - b.1 j| = 0) then
    .error .nonFinite
  else .ok fun i j =>
    let s := |b.2 j - b.1 j|
    let p1 := if isLow b x i j then b.2 j - npMod (b.1 j - x i j) s else x i j
    if isHigh b x i j then b.1 j + npMod (p1 - b.2 j) s else p1

/-- The random draws (and the pass allowance of `reflective`) of one BoundaryHandler call
(handlers.py:202, 300, 307). -/
structure BHDraw (d : Nat) (K : Type) where
  u : Vec d K
  l : Vec d K
  passes : Nat

/-- `BoundaryHandler.__call__` (handlers.py:115-144) with the strategy table of
`_get_all_strategies` (handlers.py:56-62). -/
def bhCall [FloorRing K] (strategy : String) (mem : Option (Mat n d K)) (b : Bounds d K)
    (r : BHDraw d K) (x : Mat n d K) : Option (Mat n d K) × Except Err (Mat n d K) :=
  if strategy = "nearest" then (mem, .ok (bhNearest b x))
  else if strategy = "reflective" then (mem, bhReflective b r.passes x)
  else if strategy = "shrink" then bhShrink b mem x
  else if strategy = "random" then (mem, .ok (bhRandom b r.u r.l x))
  else if strategy = "intermediate" then bhIntermediate b mem x
  else if strategy = "periodic" then (mem, bhPeriodic b x)
  else (mem, .error .keyError)

/-! ## VelocityHandler (handlers.py:396-546) -/

/-- `velocity_clamp = (min_velocity, max_velocity)`; scalars are constant vectors
(base_single.py:79-82; handlers.py:451-459). -/
abbrev Clamp (d : Nat) (K : Type) := Vec d K × Vec d K

/-- `VelocityHandler.__apply_clamp` (handlers.py:451-459). -/
def applyClamp (c : Clamp d K) (v : Mat n d K) : Mat n d K := fun i j =>
  let low := decide (v i j ≤ c.1 j)
  let high := decide (v i j ≥ c.2 j)
  let v1 := if low then c.1 j else v i j
  if high then c.2 j else v1

/-- `if clamp is not None: new_vel = self.__apply_clamp(new_vel, clamp)` (e.g.
handlers.py:461-468). -/
def clampOpt (c : Option (Clamp d K)) (v : Mat n d K) : Mat n d K :=
  match c with
  | none => v
  | some c => applyClamp c v

/-- The keyword arguments of a VelocityHandler call.  `bounds := some none` is
`bounds=None` passed explicitly, `bounds := none` is a missing keyword (handlers.py:420-449;
operators.py:144-146). -/
structure VHKw (n d : Nat) (K : Type) where
  position : Option (Mat n d K) := none
  bounds : Option (Option (Bounds d K)) := none
  z : Option K := none

/-- `VelocityHandler.unmodified` (handlers.py:461-468). -/
def vhUnmodified (c : Option (Clamp d K)) (v : Mat n d K) : Mat n d K := clampOpt c v

/-- `VelocityHandler.adjust` (handlers.py:470-497). -/
def vhAdjust (mem : Option (Mat n d K)) (c : Option (Clamp d K)) (kw : VHKw n d K)
    (v : Mat n d K) : Option (Mat n d K) × Except Err (Mat n d K) :=
  match kw.position with
  | none => (mem, .error .keyError)
  | some p =>
    match mem with
    | none => (some p, .ok v)
    | some m => (some p, .ok (clampOpt c fun i j => p i j - m i j))

/-- `VelocityHandler.invert` (handlers.py:499-531).  `lb, ub = None` raises `TypeError`. -/
def vhInvert (c : Option (Clamp d K)) (kw : VHKw n d K) (v : Mat n d K) :
    Except Err (Mat n d K) :=
  let z := kw.z.getD (1 / 2)
  match kw.position, kw.bounds with
  | none, _ => .error .keyError
  | _, none => .error .keyError
  | some _, some none => .error .typeError
  | some p, some (some b) =>
    let v1 : Mat n d K := fun i j => if rowLow b p i then (-z) * v i j else v i j
    let v2 : Mat n d K := fun i j => if rowHigh b p i then (-z) * v1 i j else v1 i j
    .ok (clampOpt c v2)

/-- `VelocityHandler.zero` (handlers.py:533-546); the clamp is ignored. -/
def vhZero (kw : VHKw n d K) (v : Mat n d K) : Except Err (Mat n d K) :=
  match kw.position, kw.bounds with
  | none, _ => .error .keyError
  | _, none => .error .keyError
  | some _, some none => .error .typeError
  | some p, some (some b) =>
    let v1 : Mat n d K := fun i j => if rowLow b p i then 0 else v i j
    .ok fun i j => if rowHigh b p i then 0 else v1 i j

/-- `VelocityHandler.__call__` (handlers.py:420-449). -/
def vhCall (strategy : String) (mem : Option (Mat n d K)) (c : Option (Clamp d K))
    (kw : VHKw n d K) (v : Mat n d K) : Option (Mat n d K) × Except Err (Mat n d K) :=
  if strategy = "unmodified" then (mem, .ok (vhUnmodified c v))
  else if strategy = "adjust" then vhAdjust mem c kw v
  else if strategy = "invert" then (mem, vhInvert c kw v)
  else if strategy = "zero" then (mem, vhZero kw v)
  else (mem, .error .keyError)

end PySwarms
