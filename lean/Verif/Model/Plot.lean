import Verif.Model.Objective
import Mathlib.Algebra.Order.Floor.Ring
import Mathlib.Data.Fin.VecNotation

/-!
# Meshes and histories for plotting

* `_mesh`                      – utils/plotters/plotters.py:405-432
* `Mesher.compute_history_3d`  – utils/plotters/formatters.py:169-212

Drawing itself (matplotlib) is not modelled.  Two-dimensional arrays are lists of rows.
-/

namespace PySwarms

variable {d : Nat} {K : Type}

/-- `np.arange(lo, hi, delta)` (plotters.py:409-410): `ceil((hi - lo) / delta)` values
`lo + i * delta`, none if that number is not positive; step `0` is `ZeroDivisionError`.  Exact
arithmetic. -/
def arange [Field K] [LinearOrder K] [FloorRing K] (lo hi delta : K) : Except Err (List K) :=
  if delta = 0 then .error .zeroDivision
  else .ok ((List.range (⌈(hi - lo) / delta⌉.toNat)).map fun i : Nat => lo + (i : K) * delta)

/-- The process pool argument of the plotting helpers: `n_processes` and, for the `k`-th call of
`pool.map`, the order in which the tasks complete (plotters.py:417-425; formatters.py:191-206). -/
abbrev PlotPool := Option (Nat × (Nat → List Nat))

/-- `mp.Pool(n_processes)` raises `ValueError` for fewer than one process (plotters.py:417;
formatters.py:191). -/
def badPlotPool : PlotPool → Bool
  | some (p, _) => p == 0
  | none => false

/-- The pool for the `k`-th `pool.map` (plotters.py:422-424; formatters.py:196-206). -/
def poolAt (pool : PlotPool) (k : Nat) : Option (Nat × List Nat) := pool.map fun q => (q.1, q.2 k)

/-- `z.reshape((rows, cols))` of a one-dimensional array, row-major (plotters.py:431). -/
def reshape {α : Type} (z : List α) (rows cols : Nat) : Except Err (List (List α)) :=
  if z.length = rows * cols then
    .ok ((List.range rows).map fun i => (z.drop (i * cols)).take cols)
  else .error .valueError

/-- `_mesh` (plotters.py:405-432).  First component: process pools left open.  Second: the three
arrays `xx`, `yy`, `zz` of shape `(len(y), len(x))`. -/
def mesh [Field K] [LinearOrder K] [FloorRing K] (f : Objective 2 K) (xlim ylim : K × K) (delta : K)
    (pool : PlotPool) :
    Nat × Except Err (List (List K) × List (List K) × List (List (XR K))) :=
  match arange xlim.1 xlim.2 delta, arange ylim.1 ylim.2 delta with
  | .ok x, .ok y =>
    let xx := y.map fun _ => x
    let yy := y.map fun b => x.map fun _ => b
    let xypairs : List (Vec 2 K) := List.zipWith (fun a b => ![a, b]) xx.flatten yy.flatten
    if badPlotPool pool then (0, .error .valueError)
    else
      match computeObjective f (poolAt pool 0) xypairs with
      | .error e => (if pool.isSome then 1 else 0, .error e)
      | .ok z =>
        match reshape z y.length x.length with
        | .error e => (0, .error e)
        | .ok zz => (0, .ok (xx, yy, zz))
  | .error e, _ => (0, .error e)
  | _, .error e => (0, .error e)

/-- The fitness of each recorded iteration (formatters.py:193-206), from call number `k` on. -/
def fitnessFrom (f : Objective d K) (pool : PlotPool) :
    Nat → List (List (Vec d K)) → Except Err (List (List (XR K)))
  | _, [] => .ok []
  | k, x :: xs =>
    match computeObjective f (poolAt pool k) x with
    | .error e => .error e
    | .ok c =>
      match fitnessFrom f pool (k + 1) xs with
      | .error e => .error e
      | .ok cs => .ok (c :: cs)

/-- One row of the result of `dstack`: the position followed by its fitness (formatters.py:212). -/
structure Row3 (d : Nat) (K : Type) where
  pos : Vec d K
  fitness : XR K

/-- `compute_history_3d` (formatters.py:169-212), entries `(iterations, n_particles)` of rows
"position, fitness".  `np.array`/`np.dstack` need a rectangular, non-empty history whose fitness
arrays have one entry per particle; anything else is outside the model. -/
def computeHistory3d (f : Objective d K) (hist : List (List (Vec d K))) (pool : PlotPool) :
    Nat × Except Err (List (List (Row3 d K))) :=
  if badPlotPool pool then (0, .error .valueError)
  else
    match fitnessFrom f pool 0 hist with
    | .error e => (if pool.isSome then 1 else 0, .error e)
    | .ok fit =>
      if hist ≠ [] ∧ (∀ x ∈ hist, x.length = (hist.headD []).length) ∧
          fit.map List.length = hist.map List.length then
        (0, .ok (List.zipWith (List.zipWith Row3.mk) hist fit))
      else (0, .error .unmodelled)

end PySwarms
