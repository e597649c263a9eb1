import Verif.Model.Optimizer

/-!
# The documented hand-written optimization loop

`docs/examples/tutorials/custom_optimization_loop.ipynb` recreates the global best PSO from the
backend functions.  The loop uses `create_swarm`, `compute_pbest` and the methods of `Star` with
their default arguments (star.py:82-88, 135-137): no clamp, no bounds,
`VelocityHandler(strategy="unmodified")` and `BoundaryHandler(strategy="periodic")`.  These two
handler objects are created once, when the class is defined, and shared by all calls; neither
strategy reads or writes the `memory` attribute, so they are passed with memory `None`.
-/

namespace PySwarms

variable {n d : Nat} {K : Type} [Field K] [LinearOrder K] [FloorRing K]

/-- `if np.min(my_swarm.pbest_cost) < my_swarm.best_cost: … = my_topology.compute_gbest(my_swarm)`
(custom_optimization_loop.ipynb, sixth cell).  What `Star.compute_gbest` returns does not depend on
the `neighbor_idx` attribute (star.py:61-80), which is therefore dropped. -/
def customBest (s : Swarm n d K) : Except Err (Swarm n d K) :=
  match npMin s.pbestCost with
  | none => .error .valueError
  | some m =>
    if XR.lt m s.bestCostVal then
      match (starGbest {} s).2 with
      | .error e => .error e
      | .ok g => .ok { s with bestPos := g.1, bestCost := g.2 }
    else .ok s

/-- One pass of the `for` loop (custom_optimization_loop.ipynb, sixth cell).  The objective `f` is
called twice: on the positions and on the personal best positions. -/
def customStep (f : Mat n d K → Except Err (Costs n K)) (r : Draw n d K) (s : Swarm n d K) :
    Except Err (Swarm n d K) :=
  match f s.position with
  | .error e => .error e
  | .ok c =>
    match f s.pbestPos with
    | .error e => .error e
    | .ok pc =>
      let s1 := { s with currentCost := c, pbestCost := pc }
      let pb := computePbest s1
      match customBest { s1 with pbestPos := pb.1, pbestCost := pb.2 } with
      | .error e => .error e
      | .ok s2 =>
        match (computeVelocity s2 none "unmodified" none none r.r1 r.r2).2 with
        | .error e => .error e
        | .ok v =>
          match (computePosition { s2 with velocity := v } none "periodic" none r.bh).2 with
          | .error e => .error e
          | .ok p => .ok { s2 with velocity := v, position := p }

/-- The loop, `m` passes from pass `i` on (custom_optimization_loop.ipynb, sixth cell). -/
def customLoop (f : Mat n d K → Except Err (Costs n K)) (env : Nat → Draw n d K) :
    (m i : Nat) → Swarm n d K → Except Err (Swarm n d K)
  | 0, _, s => .ok s
  | m + 1, i, s =>
    match customStep f (env i) s with
    | .error e => .error e
    | .ok s' => customLoop f env m (i + 1) s'

/-- `create_swarm(n_particles, dimensions, options=my_options)` followed by `iters` passes
(custom_optimization_loop.ipynb, fourth and sixth cell; defaults of `create_swarm`:
generators.py:187-197). -/
def customRun (f : Mat n d K → Except Err (Costs n K)) (options : Opts K) (init : InitDraw n d K)
    (env : Nat → Draw n d K) (iters : Nat) : Except Err (Swarm n d K) :=
  match createSwarm false false options none (fun _ => 1) none none init with
  | .error e => .error e
  | .ok s => customLoop f env iters 0 s

/-! ## The loop of the options handler tutorial

`docs/examples/tutorials/options_handler.ipynb`, cell 16: the body of `GlobalBestPSO.optimize` with
`end_opts` passed to the options handler, without history, early stopping and process pool. -/

variable [Transc K]

/-- One pass of the `for` loop (options_handler.ipynb, cell 16); also returns the printed options.
`cfg` holds the arguments of the `GlobalBestPSO` that is used for its parts. -/
def schedStep (cfg : Config n d K) (f : Mat n d K → Except Err (Costs n K)) (endOpts : Opts K)
    (r : Draw n d K) (iters i : Nat) (s : Opt n d K) : Except Err (Opts K × Opt n d K) :=
  match f s.swarm.position with
  | .error e => .error e
  | .ok c =>
    let sw1 := { s.swarm with currentCost := c }
    let pb := computePbest sw1
    let sw2 := { sw1 with pbestPos := pb.1, pbestCost := pb.2 }
    match starGbest s.top sw2 with
    | (_, .error e) => .error e
    | (t, .ok g) =>
      let sw3 := { sw2 with bestPos := g.1, bestCost := g.2 }
      match ohCall cfg.ohStrategy cfg.options
          { iternow := some (i : K), itermax := some (iters : K), endOpts := some endOpts } r.oh with
      | .error e => .error e
      | .ok o =>
        let sw4 := { sw3 with options := o }
        match computeVelocity sw4 cfg.clamp cfg.vhStrategy s.vhMem cfg.bounds r.r1 r.r2 with
        | (_, .error e) => .error e
        | (vm, .ok v) =>
          let sw5 := { sw4 with velocity := v }
          match computePosition sw5 cfg.bounds cfg.bhStrategy s.bhMem r.bh with
          | (_, .error e) => .error e
          | (bm, .ok p) =>
            .ok (o, { s with swarm := { sw5 with position := p }, top := t, vhMem := vm, bhMem := bm })

/-- `m` passes from pass `i` on, with the printed options (options_handler tutorial). -/
def schedLoop (cfg : Config n d K) (f : Nat → Mat n d K → Except Err (Costs n K)) (endOpts : Opts K)
    (env : Nat → Draw n d K) (iters : Nat) :
    (m i : Nat) → Opt n d K → Except Err (List (Opts K) × Opt n d K)
  | 0, _, s => .ok ([], s)
  | m + 1, i, s =>
    match schedStep cfg (f i) endOpts (env i) iters i s with
    | .error e => .error e
    | .ok (o, s') =>
      match schedLoop cfg f endOpts env iters m (i + 1) s' with
      | .error e => .error e
      | .ok (os, s'') => .ok (o :: os, s'')

/-- The function `optimize(objective_func, maxiters, oh_strategy, start_opts, end_opts)` of the
tutorial on the new optimizer `s`: handler memories, personal best costs, the loop, and the final
best cost and position (options_handler tutorial). -/
def schedRun (cfg : Config n d K) (f : Nat → Mat n d K → Except Err (Costs n K)) (endOpts : Opts K)
    (env : Nat → Draw n d K) (iters : Nat) (s : Opt n d K) :
    Except Err (List (Opts K) × Opt n d K × XR K × Vec d K) :=
  match schedLoop cfg f endOpts env iters iters 0
      { s with bhMem := some s.swarm.position, vhMem := some s.swarm.position,
               swarm := { s.swarm with pbestCost := fun _ => XR.pinf } } with
  | .error e => .error e
  | .ok (os, s') =>
    match s'.swarm.bestCost with
    | none => .error .attributeError
    | some c =>
      match npArgmin s'.swarm.pbestCost with
      | none => .error .valueError
      | some k => .ok (os, s', c, s'.swarm.pbestPos k)

end PySwarms
