# Design

A machine-checked model, in Lean 4 + Mathlib, of the pyswarms particle swarm
optimizers (source in `/repo/pyswarms`, read as text, never run).

## Layout

* `lean/Verif/Basic.lean` – exceptions as values, IEEE-like cost values, NumPy reductions.
* `lean/Verif/Model/*.lean` – the model.  Every definition cites the file and lines it models.
* `lean/Verif/Spec.lean`, `SpecHeap.lean`, `SpecChance.lean` – small vocabulary used in statements, independent of the
  model's helpers.
* `lean/Verif/Examples.lean` – concrete configurations over `ℚ` for the non-vacuity examples.
* `lean/Verif/Lemmas/*.lean` – helper lemmas.
* `lean/Verif/Props/*.lean` – the property theorems (`Cnn_…`) with a non-vacuity `example` beside each.
* `properties.jsonl`, `MANIFEST.json` – the properties and their status.
* `seeded/LOG.jsonl` – mutation experiments against the model.

## Modelling decisions

* **Scalars.**  Positions, velocities and options are elements of an arbitrary ordered field `K`
  (`ℚ` for concrete examples, `ℝ` where `exp`/powers/trigonometry occur).  Rounding and overflow of
  float64 are *not* modelled.  Points where NumPy would produce a `nan`/`inf` coordinate return
  `Err.nonFinite`.
* **Costs** are `XR K`: exact finite values plus `nan`, `+inf`, `-inf` with IEEE comparison and
  arithmetic.  Theorems that only use comparisons hold verbatim for float64 costs.
* **Arrays** are functions `Fin n → Fin d → K`, so shapes are correct by construction; shape and
  dtype errors are only modelled where a property is about them.
* **Randomness and oracles.**  Every random draw, the k-d tree answer and the Delaunay answer of each
  iteration are arguments; theorems quantify over all of them, assuming at most the documented
  contract (`0 ≤ u < 1`, "is a k-nearest answer", "symmetric and non-empty").
* **Objective.**  An arbitrary function of the iteration number and the position matrix, returning
  costs or raising: this covers stateful, random and failing objectives.
* **Exceptions** are values of `Err`; the optimizer state at the point of the exception is returned
  as well, so crash points are covered.
* **`while` loops** take an explicit number of passes; running out is `Err.diverges`.  Termination and
  non-termination are separate theorems.
* **Aliasing** is invisible in the functional model; it is treated in its own heap model (C49), which is
  proved to refine to the functional one.

## Trusted base

Lean's kernel; the axioms `propext`, `Classical.choice`, `Quot.sound` (checked with `#print axioms`);
the reading of the Python/NumPy/SciPy semantics in the model (numpy 1.16, scipy 1.2, Python 3.6/3.7);
the stated contracts of the oracles (cKDTree, Delaunay, dijkstra, connected_components, random draws).
No axioms are added; no `sorry`, `native_decide` or `bv_decide`.

## Modelled and unmodelled code

Paths are relative to `/repo/pyswarms`.  "Model" names the Lean definitions.

| code | model |
|---|---|
| backend/swarms.py `Swarm` (defaults, `pbest_pos_default`) | `Operators`: `Swarm`, `mkSwarm`. Not: attrs type validators, `n_particles`/`dimensions` defaults (type indices). |
| backend/operators.py `compute_pbest`, `compute_velocity`, `compute_position` | `Operators`: `computePbest`, `tempVelocity`, `computeVelocity`, `computePosition`. Not: the re-raised/logged `AttributeError` for a malformed swarm. |
| backend/operators.py `compute_objective_function` | `Objective`: `arraySplit`, `computeObjective`, pool completion in any order. Not: pickling, worker crashes. |
| backend/generators.py (all four functions) | `Generators`. `TypeError`/`ValueError` paths for wrong shapes of bounds are only modelled through the stated `ValueError`s. |
| backend/handlers.py `BoundaryHandler` (6 strategies, `__call__`, `_out_of_bounds`) | `Handlers`: `isLow`, `isHigh`, `rowLow`, `rowHigh`, `bhNearest` … `bhPeriodic`, `bhCall`. |
| backend/handlers.py `VelocityHandler` (4 strategies, `__apply_clamp`, `__call__`) | `Handlers`: `vhUnmodified` … `vhZero`, `vhCall`. |
| backend/handlers.py `OptionsHandler` (4 strategies, `__call__`) | `Options`. |
| backend/handlers.py `HandlerMixin._get_all_strategies`, `_merge_dicts` | the strategy tables are literal string matches; a missing name is `KeyError`. |
| backend/topology/{star,ring,von_neumann,pyramid,random}.py `compute_gbest`, `delannoy`, `__compute_neighbors` | `Topology`. cKDTree, Delaunay, `np.random.choice` are oracles. Pass-through `compute_velocity`/`compute_position` are the operators. |
| backend/topology/base.py | the `static` flag (`TopKind`). Not: logging, abstract-method errors. |
| base/base_single.py, base/base_discrete.py | `Optimizer`: `Config`, `construct`, `reset`, `populateHistory`, `checkFtolIter`. Not: logging, the abstract `optimize`. |
| single/global_best.py, local_best.py, general_optimizer.py; discrete/binary.py | `Optimizer`: `callGbest`, `callOptions`, `callPosition`, `moveSwarm`, `recordEval`, `recordBest`, `iterate`, `loop`, `prepare`, `finish`, `optimize`. Not: logging and progress bar, `TypeError` for a topology argument that is not a `Topology`, memory limits. |
| utils/decorators `cost` | `Objective`: `costDec`. |
| single/general_optimizer.py with a topology written by the user, backend/topology/base.py | `UserTop`: the three methods are arbitrary functions of the swarm and a state of any type. Not covered: methods that write into the arrays of the swarm in place. |
| single/general_optimizer.py:190-195 (identity of the topology object), backend/topology/*.py | `SharedTop`: one topology object held by any number of GeneralOptimizerPSO objects of any sizes. Not covered: a static Ring used with `k = 1` by one optimizer and `k > 1` by another (the array gets more axes each time). |
| single/*.py, discrete/binary.py `optimize`; base/*.py `reset` (order of the single assignments) | `Interrupt`: the object states between any two attribute assignments. Not covered: an interrupt inside NumPy code or inside the objective that leaves a half-written array, and interrupts in the constructor (no object results). |
| all methods that draw from `np.random`, several threads | `Threads`: programs that ask for one value at a time, arbitrary schedules. Trusted: the threads share no object of pyswarms (shared ones: C93, C96, C97), and NumPy's generator serves one request at a time (it has a lock). |
| backend functions in programs of the user | `Bench`: `create_swarm`, `compute_velocity`, `compute_position`, handler memories and options dictionaries as shared objects, arbitrary statement sequences. Not covered: statements that write into arrays in place, swarms of different shapes sharing a handler. |
| objectives that use their optimizer | `Reentrant`: reading attributes, `reset()` and `optimize()` from inside an evaluation, to any depth, serial evaluation. Not covered: assignment to attributes, pools |
| arguments of `optimize` | `Keyword`: how Python binds the arguments of `optimize`, `compute_objective_function` and the `@cost` wrapper, and what the objective is called with. Not covered: `iters` and `n_processes` that are not integers (or None), `repr` of the arguments for the debug log, pickling |
| option schedules in binary64 | `RoundedOptions`: the four option strategies with rounded operations; `exp` and `**` of the machine are abstract. Not covered: overflow, iteration numbers beyond 2^53 |
| data types of costs | `CostType`: float64, integer and object arrays of costs. Not covered: object arrays of other numbers than integers, complex costs, object costs on an object that already has a float64 best cost |
| options dictionary | `OptionsDict`: one dictionary of numbers for coefficients and topology parameters, `**options` of GeneralOptimizerPSO. Not covered: values that are not numbers, topology parameters that are not whole numbers (the model stops with `unmodelled`), schedules for k, p, r |
| forms of `velocity_clamp` | `ClampForm`: None, a number, sequences of numbers, lists and arrays; `generate_velocity`, `__apply_clamp` and everything above. Not covered: entries with two axes, lengths other than one for `dimensions = 1` |
| base/base_single.py:99, base/base_discrete.py:101, handlers.py:606-623 (identity of dictionaries) | `SharedOpts`: a heap of options dictionaries; programs with several optimizers of one size. Not covered: an objective that changes a dictionary during a call, and calls from several threads. |
| utils/search (`SearchBase`, `GridSearch`, `RandomSearch`) | `Search`; `SearchRng` threads the global generator. `SearchArgs`: the assertions of the constructors and the positional call of the optimizer class. |
| utils/functions/single_obj.py (17 functions) | `Functions`, over the real numbers. |
| utils/plotters `_mesh`, `Mesher.compute_history_3d` | `Plot`. |
| utils/plotters `plot_cost_history`, `plot_contour`, `plot_surface`, `_animate` | `Animate`: the points visible in every frame. matplotlib is represented by what a flat or 3D scatter object draws. Not: styling, axis limits, marks, animation timing, the attrs validators of `Designer`, `Animator`, `Mesher`. |
| utils/reporter/reporter.py | `Reporter`: configuration, `print`, `log`, `pbar`, `hook`. Not: the content of the YAML configuration, formatting. |
| docs tutorials custom_optimization_loop, options_handler | `CustomLoop`. |
| the arithmetic of handlers, operators, generators and optimizers in float64 | `Rounded` (every operation rounded by an arbitrary function), `Float` (binary64, nearest even, subnormals). `Ieee` (GlobalBestPSO with infinities and `nan` in positions and velocities). Not: overflow in the other optimizers, signed zeros, the rounding inside `np.mean`, `exp`, `**` (arbitrary functions there), float32. |
| BinaryPSO with infinities and `nan` in its velocities | `BinaryIeee` (np.exp is a parameter of stated accuracy). Not: parallel evaluation, rounding of costs and recorded means. |
| assigning attributes of an optimizer between calls | `Tuning`. Not: values that the constructor refuses, in-place writes to the options dictionary. |
| `copy.copy` of an optimizer | `Copies`. Not: deepcopy, pickling, copying during a call. |
| benchmark functions in float64 | `FloatFunctions` (namespace `Fl`); the C library and the order of summation are arguments. Not: overflow, crossintray, eggholder, holdertable. |
| the attrs classes `Swarm`, `Designer`, `Animator`, `Mesher`: construction and assignment | `Classes` (namespace `Cls`); objects are reduced to their type and shape. Not: comparison, repr. |
| what `optimize` writes to the log and to the progress bar | `Verbose` (namespace `Say`). Not: the bar's counter, ERROR records of handlers. |
| objectives with a memory, serially and in worker processes | `Memory` (namespace `Memo`). Not: objectives that cannot be pickled, shared memory between processes. |
| array shapes and broadcasting in `compute_pbest`, `compute_velocity`, `compute_position`, `Star.compute_gbest`, `create_swarm` with `init_pos`, `GlobalBestPSO.optimize` | `NdArray`. Not: bounds, strategies other than `unmodified`, Python lists as results, non-numeric dtypes. |
| array identity of all the optimizer code | `Heap` (bounds, clamp and cost arrays are values; arrays that the first of the two construction resets creates and drops are not modelled). |

Simplifications that matter for reading the theorems:

* exact arithmetic instead of float64, except in C67 and C68, which are about rounded arithmetic
  (`optimizeR_exact` shows that the rounded model without rounding is the exact model);
* `iters`, `n_processes` are natural numbers; `k`, `p`, `r` are natural numbers or missing;
* arrays have their documented shapes (in the types), except in C77 and C78, which are about arrays of
  any shape and show that the typed model is what the code computes for objectives of accepted shape;
* bounds that are not two arrays of shape `(d,)` are only modelled in `BoundForm` (C90), with the same form for both entries;
* clamps that are not two vectors or numbers are only modelled in `ClampForm` (C102); there entries have one axis;
* integer, boolean and unsigned `init_pos` arrays are only modelled in `Dtype` (C88), with 64-bit integers that do not overflow and without the rounding of `float32`;
* C73, C74 and C75 treat the random numbers as independent real random variables, uniform on [0, 1]; the
  code draws multiples of 2^-53 from a pseudo-random generator.  All other theorems hold for every
  sequence of random numbers;
* the ghost fields `evals` and `openPools` of the optimizer state are not in the code; they record
  the successful objective evaluations since the last reset and the pools not yet closed.

## Findings

Behaviour that a user might not expect; each is a theorem (usually a witness) in the list below.

* A second `optimize` call without `reset` may return a cost and a position that do not belong
  together (C06); coincident particles can make the best cost of a ring wrong (C08).
* With Star and only `inf` costs in the first evaluation, `optimize` raises (C32).
* A static ring with `k = 1` always fails after 31 steps (C12).
* `reset` keeps the neighbours of a static topology (C29).
* `vh_strategy="adjust"` freezes the swarm (C23); `"zero"` can exceed the clamp (C22); `"invert"`
  and `"zero"` need bounds (C25).
* `oh_strategy="random"` never works inside the optimizers (C36); `exp_decay` leaves the interval
  between start and end (C35).
* `center != 1` can put the initial swarm out of bounds (C37).
* `BinaryPSO` uses one random threshold per dimension for the whole swarm (C40).
* A discrete `init_pos` is accepted iff it has at most two distinct values, which need not be
  0 and 1 (C41).
* A `nan` score makes the hyperparameter search return a non-optimal entry (C43).
* The boundary handler `reflective` does not terminate when a dimension has width zero (C17).
* The hyperparameter search runs its optimizers with velocities in [0, 1] only (C64).
* The hand-written loop of the documentation differs from GlobalBestPSO as soon as a cost is `nan`
  (C62).
* In float64 the boundary handler `shrink` can step out of the bounds by a rounding error, and
  `reflective` does not terminate when a particle is far away (C67).
* The documented minimiser of `eggholder`, `(512, 404.3219)`, is not its minimiser: two digits are
  swapped, the minimum is at `(512, 404.2319)` (C46).
* A dimension in which the swarm has collapsed never reopens, except with `bh_strategy="random"` (C72).
* `GeneralOptimizerPSO` with `Ring` reports missing options `k`, `p` only in the first iteration, with
  `TypeError`; `LocalBestPSO` at construction with `KeyError` (C70).
* When nothing improves, a particle settles only if its own best is the common best; the others keep
  moving for ever, and with `c1 + c2 > 4 (1 + w)` the swarm diverges (C73).
- C76: `plot_contour` given a history with three columns, and `plot_surface` given one with two (an optimizer's `pos_history` itself), play frames without any particle and raise nothing.
- C75: a velocity clamp gives BinaryPSO a positive lower bound on the chance of every bit string in every iteration, so long runs visit the optimum with probability approaching 1; the call is only guaranteed to return it if every particle is in some neighbourhood (C07).
- C78: `GlobalBestPSO(n_particles=1, ...)` with an `init_pos` of m rows silently runs m particles; `dimensions=1` with e columns silently runs e dimensions.
- C77: a column of costs (shape `(n, 1)`) passes `compute_pbest` when n = d, d = 1 or n = 1 and makes the personal bests three-dimensional; the run only fails later, at the position update or when the best row is looked up.
- C81: a second call of `optimize` on the same object forgets all personal bests; only the Star topology carries the best cost and position over, and the returned pair can then combine the old best cost with a personal best position of the new call (see C06).
- C82: with the boundary strategies `shrink` and `random` a parameter the objective ignores disturbs the search in the others, because one coordinate outside its bounds moves the whole particle; with `nearest`, `intermediate` and `periodic` it provably does not.
- C83: the velocity strategy `invert` multiplies the velocity of a particle outside at an upper and a lower side (in different coordinates) by `z²` instead of `-z`, so mirroring one parameter changes the run; the boundary strategy `random` sends all particles outside at an upper side to one common point and all outside at a lower side to another, which a mirror image mixes up.
- C84: the options of the documentation (`c1 = 0.5, c2 = 0.3, w = 0.9`) admit sequences of random numbers for which an unbounded, unclamped GlobalBestPSO run diverges although it starts at the minimiser; coefficients with `(c1 + c2)(1 + w) < 2 (1 - w)²` do not.
- C85: creating an optimizer reads the random numbers of two swarms (`reset` runs twice) and discards the first; the options strategy `random` never reaches its `np.random.rand()`; the boundary strategy `random` reads `2 d` doubles per iteration even when no particle is out of bounds, which is what makes the consumption independent of the run.
- C86: the search compares candidates on different random numbers (every candidate continues the stream of the global generator), so part of the difference between two scores is the place in the grid; listing a combination twice can give two scores.
* **C88**: an integer `init_pos` (e.g. `np.array([[1, 2], [3, 4]])`) is accepted by the constructors of the three continuous optimizers, and then every `optimize` raises `TypeError` at `temp_position += swarm.velocity`, after the objective has been evaluated once. A boolean `init_pos` makes every optimizer, also `BinaryPSO`, raise `TypeError`. A `uint8` `init_pos` in `BinaryPSO` turns attraction to 0 into a push of 255 upwards in the first iteration, silently.
* **C89**: with the default `velocity_clamp=(0, 1)` of `GridSearch`/`RandomSearch` no coordinate ever decreases, so on the sphere function of the documented example no particle ever improves on its initial position: the "best" hyperparameters are those whose place in the grid happened to get the luckiest initial swarm, whatever their values.
* **C90**: bounds given as lists (which three docstrings of the package allow) make `shrink` and `intermediate` raise `TypeError` on every run and `reflective` on the first particle that has to be reflected; `periodic`, the default, and `nearest` and `random` accept them. Bounds given as plain numbers make the constructor raise `IndexError`.
* **C91**: `SearchBase.generate_score` passes `bounds` as the fourth positional argument; for `GeneralOptimizerPSO` that is `topology` (every search raises `TypeError`), for `BinaryPSO` it is `init_pos` (every search with bounds raises). The assertions of the constructors accept both classes.
* **C92**: a user-written topology whose `compute_gbest` returns the cost as a plain Python float makes every `optimize` call run to its end and then raise `AttributeError` (`best_cost.copy()`); and the cost a call returns is whatever the topology said last, while the returned position is chosen independently of the topology.
* **C93**: `GlobalBestPSO`, `LocalBestPSO` and `GeneralOptimizerPSO` overwrite `swarm.options` in every iteration, so options assigned to `optimizer.swarm.options` are lost without a word, while in `BinaryPSO` they take effect; changing `k` or `p` in the dictionary after construction takes effect in `GeneralOptimizerPSO` only.
* **C94**: without a velocity clamp a run whose velocities overflow makes the default boundary strategy `periodic` (and `shrink`) hand `nan` to the objective although bounds are set; `reflective` hangs; `nearest`, `random` and `intermediate` stay inside.
* **C95**: without bounds an `init_pos` with a `nan` is accepted; if the objective does not look at that coordinate and the particle becomes the best one, the coordinate of the whole swarm is `nan` from the next iteration on, for ever.
* **C96**: an objective that repairs its argument in place gets a repaired best position back without `n_processes`, but not with it; it also overwrites the array passed as `init_pos`, so `reset` restarts from other values or raises. If repairing twice differs from repairing once, `pos_history` can be wrong after an early stop.
* **C97**: a static topology object that is reused for a second optimizer keeps the neighbour lists of the first: silently if the sizes agree, with an `IndexError` or `ValueError` in every call if they do not. After a static `Pyramid` was used with one particle, a larger swarm reports the cost of particle 0 as the best cost.
* **C98**: an interrupt (Ctrl-C in a notebook) after the evaluation and before `best_cost` is assigned loses the evaluated costs for ever, since the next call starts with `pbest_cost = inf`; between `best_pos` and `best_cost` it leaves a pair that was never evaluated; inside `_populate_history` it leaves lists of different lengths until the next `reset`; inside `reset` it leaves some lists cleared and the old swarm in place. The bounds, the clamp and the ability to continue survive.
* **C99**: with several threads a seed no longer fixes the results: the order in which the threads reach the global generator does. Nothing else is lost.
* **C100**: in a program that uses the backend directly, a `BoundaryHandler` with strategy shrink or intermediate does nothing at its first call unless the user sets its `memory` (the built-in optimizers do, the docstrings of `compute_position` do not say so); an intermediate handler can then keep a swarm outside for ever. `create_swarm` has a mutable default `options={}`, shared by all swarms created without options.
* **C101**: an objective that calls `reset()` on its own optimizer (to restart a stuck search) makes the running `optimize` raise `ValueError` from `compute_pbest`, because the new swarm has an empty `pbest_cost`. An objective that calls `optimize()` on its own optimizer makes the outer iteration pair old costs with new positions; the returned position need not have the returned cost.
* **C102**: `velocity_clamp=([…], […])` with two lists, which the documentation of `VelocityHandler` allows (`tuple of numpy.ndarray or list`), is refused by every constructor with `TypeError: unsupported operand type(s) for -: 'list' and 'list'`, because `generate_velocity` subtracts the entries; the clamping itself would accept lists.
* **C103**: `optimize` shares its name space with the objective: an objective parameter called `pool` or `swarm` cannot be passed by keyword (`TypeError: got multiple values`, at the first evaluation, after a pool was opened that nobody closes), and one called `iters`, `n_processes` or `verbose` is silently taken by `optimize`; with `@cost` the same holds for `particles`.
* **C104**: no constructor checks the coefficients: with a misspelt `c1`, `c2` or `w` the optimizer is built and the first `optimize` evaluates the objective on the whole swarm, records it, and then raises `KeyError`. GeneralOptimizerPSO without `k`, `p` or `r` does the same with `TypeError`, although LocalBestPSO checks at construction.
* In floating point `shrink` is not a boundary strategy (C67): a rounding error of one unit in the last place puts
  a particle outside a bound, and the following step is then shrunk by a negative factor of any size. In the run of
  `C67_shrink_throws` the objective is evaluated 7 * 10^12 outside a box of width 1. `reflective` returns for every
  position up to about 2^51 times the width of the box, and hangs from 2^56 times the bounds on.
- Integer costs beyond 2^53 are compared after conversion to float64, so `optimize` may return a position that is not the best one it evaluated (C105). Costs in an object array make `optimize` raise AttributeError after all evaluations, and leak the pool (C105).
- `lin_variation` can start above its start value: w = 1.2 with the default end value and 100 iterations gives 1.2000000000000002 in the first iteration (C106). `exp_decay` with default end values makes c2 negative in floating point too (C35, C106).
- Fixing a parameter with lb = ub works with `nearest` and `intermediate` only: `shrink` freezes the particles, `random` collapses the swarm, `reflective` hangs and the default `periodic` makes the parameter nan (C107).
- Swapped bounds are accepted; the default `periodic` then keeps the swarm outside the interval the user meant (C108).
- A run whose best cost is -inf never stops early, whatever `ftol`: the change is nan (C109).
- Narrowing `opt.bounds` between calls does not move the swarm: the next call evaluates the old positions first and may return one of them; with `intermediate` the swarm may stay outside for ever (C110).
- `swarm_size` is computed once by the constructor: setting `n_particles` and resetting leaves an optimizer whose calls raise (C110).
- `BinaryPSO.optimize` ignores an assignment to `opt.options` until the next `reset` (C110).
- BinaryPSO without a clamp: a velocity that overflows freezes its bit until `reset`, whatever the bests are; and from a velocity of 37 on the bit is certainly 1, since the sigmoid is rounded to 1 (C111).
- `copy.copy(opt)` shares swarm and histories with `opt` until one of them is reset, and the handlers and the topology for ever; with a static topology the copy keeps the neighbours of the original even after `reset` (C112).
- In float64 `ackley` is never below 2^-51 = 4.4e-16 (its documented minimum is 0), `goldstein` returns less than 3 at (0, -1 - 2^-52), and `levi(1, 1)` is `np.sin(np.pi)**2`, not 0 (C113).
- `Swarm(position=[[...]], ...)` raises `AttributeError`, not the `TypeError` of the validator, because the default of `n_particles` is computed first; `Swarm` refuses NumPy integers as sizes and `Mesher(alpha=1)` is refused (C115).
- With an infinite penalty for forbidden positions `GlobalBestPSO.optimize` raises `ValueError` if no initial particle is allowed (dimension at least 2) (C116).
- C44: in double precision `RandomSearch` can return the upper end of a range (c1 = 5.0 for [1, 5]), although `uniform` is documented as half-open (`C44_upper_end_reached`).
- C30: with `n_processes` larger than the number of particles the objective is called with arrays without rows; an objective that raises on them makes the whole run fail (`C30_more_processes`).
- With `n_processes`, whatever the objective records (counters, best point seen, caches) is lost, a budget kept in an object is never used up, and one kept in a module works or fails depending on which process gets which chunk (C118).
- With `vh_strategy='adjust'` repeated calls of `optimize` never improve on the initial swarm; only `reset` does (C119, after C23).
- `oh_strategy={"k": ...}` (or any other option than c1, c2, w) makes every `optimize` of a built-in optimizer raise `KeyError` in its first iteration; a misspelt key is ignored silently (C63).
- With `lin_variation` or `nonlin_mod`, `oh_strategy={"c2": ...}` has no effect at all in the built-in optimizers, because the default end value of c2 is its start value; `w` starting at 0.4 is not varied either (C63, C106).
- With `shrink`, swapped bounds of one parameter can move another parameter, whose bounds are in order, far outside them (C108).
- The stop test compares the change of the best cost with `ftol * (1 + |best|)`. So adding a constant to the objective or changing its unit, which changes nothing in the search, changes when it ends; with a large constant it always ends after `ftol_iter + 1` iterations (C120).
- A second call of `optimize` without `reset` forgets the personal bests: it can return a position worse than a row of `init_pos` and than the result of the first call (C121).
- More particles can make the result worse: minimising `|x + 15/4|` with two iterations, one particle returns 0 and the same particle beside a better one 1/48, with the same random numbers; with `c2 = 0` this cannot happen (C122).
- Adding values to an option of GridSearch other than the first can make the result worse, because the combinations get other random numbers (C124).
- A RandomSearch with a larger `n_selection_iters` does not extend the smaller one of the same seed: only the values of the first option are kept, and the result can be worse (C125).
- The Ring topology is not a ring but the graph of the k nearest neighbours: its neighbourhoods need not be mutual, and with `static=True` separate groups of particles never exchange information (C126).
- GeneralOptimizerPSO accepts topologies that need more particles than it has; every call of `optimize` then evaluates the objective once and raises IndexError (C127).
- In float64 the recorded mean of the personal bests can be below the best cost: with three particles of cost 0.7 it is 0.6999999999999998 (C128).

## Plan per property

| id | property | how it is modelled and proved | theorems in |
|---|---|---|---|
| C01 | Personal bests are the best evaluations so far, with the position that earned them | Model.Optimizer loop + ghost evaluation log; induction over iterations; spec `IsPersonalBest` (split of the log). | Props/Best |
| C02 | NaN and +inf evaluations never become a best | XR costs with IEEE comparison; invariant 'no pbest/best/history entry is nan' by induction over operations. | Props/Best |
| C03 | compute_pbest keeps the strictly better of old and new, particle by particle | One-step characterisation of `computePbest`. | Props/Best |
| C04 | GlobalBestPSO's cost_history is the running minimum of everything evaluated since the last reset | Invariant over operation histories relating each cost_history entry to the prefix of the log. | Props/Best |
| C05 | The first GlobalBestPSO.optimize() after construction or reset returns a matching, optimal pair | Invariant of the Star loop started from a reset state. | Props/Best |
| C06 | A repeated GlobalBestPSO.optimize() without reset: exactly when cost and position match | Same invariant started from an arbitrary reachable state, plus a concrete witness run over the rationals. | Props/Best |
| C07 | LocalBestPSO and BinaryPSO return a matching, optimal pair when neighbourhoods cover the swarm | Neighbourhood-best lemma + k-nearest contract on the k-d tree oracle. | Props/Local |
| C08 | Coincident particles can make the Ring best cost wrong | Concrete witness for a legal k-nearest answer; universal lower bound for all answers. | Props/Local |
| C09 | Every particle follows the best personal best of its own neighbourhood | Characterisation of `nbrBest` for every neighbour structure. | Props/Topology |
| C10 | The Random topology always builds a connected, symmetric, self-containing graph | Model of `__compute_neighbors` with a fuelled repair loop; reachability closure; `Relation.ReflTransGen`. | Props/Topology |
| C11 | Static topologies fix their neighbours once, dynamic ones recompute every step | Induction over sequences of compute_gbest calls; for whole optimizers invariant of the iterations, lifted through the calls and histories (`Props/StaticRuns.lean`). | Props/StaticRuns, Props/Topology |
| C12 | A static ring with one neighbour fails after a fixed number of steps | ndim counter in the topology state; induction over calls; lifted to optimize. | Props/Stopping, Props/Topology |
| C13 | VonNeumann.delannoy counts the cells of the range-r Von Neumann neighbourhood | `delannoy` by the code's recursion; cardinality of an explicit finite set of lattice points by induction. | Props/Topology |
| C14 | Boundary handlers return positions inside the bounds | Per-strategy theorem; fuel for reflective; `FloorRing` for periodic. | Props/Handlers |
| C15 | Boundary handlers leave in-bounds particles untouched | Per-strategy theorem. | Props/Handlers |
| C16 | nearest projects onto the box | Order-theoretic theorem about `nearest`. | Props/Handlers |
| C17 | reflective: exact termination condition and mirror-image result | Fuelled loop; existence of sufficient fuel (Archimedean) and divergence theorem; mirror-group invariant. | Props/Handlers |
| C18 | periodic wraps modulo the box size | floor arithmetic. | Props/Handlers |
| C19 | shrink stays on the line from the previous position; intermediate is the midpoint | Field arithmetic; extremality of the shrink factor. | Props/Handlers |
| C20 | random relocates exactly the offending particles, all to shared positions | Case analysis of `random`. | Props/Handlers |
| C21 | Every position evaluated during a bounded run is inside the bounds | Invariant of the optimizer loop over all operation histories. | Props/Bounds |
| C22 | velocity_clamp is respected | Invariant of the optimizer loop; witness for `zero`. | Props/Bounds |
| C23 | vh_strategy='adjust' freezes the swarm | Loop invariant position = memory = initial position, velocity = 0. | Props/Moves |
| C24 | invert flips and shrinks offending velocities, once per violated side | Case analysis; loop equality of `invert` and `unmodified` runs. | Props/Bounds, Props/Handlers |
| C25 | invert and zero need bounds | First-iteration error propagation. | Props/Moves |
| C26 | Velocity and position update equations | One-iteration theorem. | Props/Moves |
| C27 | Early stopping happens exactly when ftol_iter consecutive relative changes are small | Loop characterisation through the sequence of recorded best costs. | Props/Stopping |
| C28 | Histories are complete and aligned | Invariant over operation histories. | Props/Stopping |
| C29 | reset() restores the freshly constructed state | Equality of states (dynamic), witness (static). | Props/Reset |
| C30 | Parallel evaluation returns the same costs as serial evaluation | List model of array_split / pool.map with an arbitrary completion permutation; Props/Chunks treats the empty chunks of pools larger than the swarm. | Props/Chunks, Props/Objective |
| C31 | The cost decorator vectorises | Model of the decorator over lists of rows. | Props/Objective |
| C32 | Degenerate runs fail loudly | First-iteration analysis. | Props/Outcome |
| C33 | Options handling preserves keys and the user's dictionary | Induction over the options dictionary. | Props/Options |
| C34 | lin_variation and nonlin_mod interpolate monotonically from start to end | Field arithmetic; `Real.rpow` monotonicity for nonlin_mod. | Props/Options |
| C35 | exp_decay decays monotonically but does not stay between start and end | `Real.exp` monotonicity. | Props/Options |
| C36 | The options strategy 'random' cannot be used in the built-in optimizers | Error propagation from the options phase. | Props/Moves |
| C37 | Initial positions respect the bounds | Generators over all uniform draws; for optimizers, construction and reset unfolded and an invariant of the evaluation log. | Props/Bounds, Props/StartRuns |
| C38 | Initial velocities respect the clamp | Generators over all uniform draws. | Props/Bounds |
| C39 | BinaryPSO only ever evaluates 0/1 positions | Invariant of the BinaryPSO loop. | Props/Binary |
| C40 | BinaryPSO particles share one threshold per dimension | Monotonicity of sigmoid, shared threshold. | Props/Binary |
| C41 | Discrete initial swarms | argsort permutation; number of distinct values. | Props/Binary |
| C42 | GridSearch enumerates the full cartesian product | itertools.product as list product. | Props/Search |
| C43 | search returns an optimal grid point | fold characterisation. | Props/Search |
| C44 | RandomSearch samples within the given ranges | Generators over all draws; Model/SearchFloat repeats them with rounded arithmetic. | Props/Search, Props/SearchFloat |
| C45 | Benchmark functions accept exactly their documented domain | Decision logic for each function. | Props/Functions |
| C46 | Benchmark functions have the documented global minima | Real analysis per function (sums of squares, trigonometric bounds; for crossintray monotonicity of sin x * exp around arctan and rational enclosures of pi, sqrt 2, exp, log). holdertable: the radius is bounded by its tangent in the squares, which separates the variables; each factor by Taylor bounds of cosine. eggholder: sign and size conditions leave one corner of the domain, where a univariate polynomial bounds the function; enclosures of pi and roots (`Props/HolderTable.lean`, `Props/EggHolder.lean`). | Props/CrossInTray, Props/EggHolder, Props/Functions, Props/HolderTable |
| C47 | Benchmark functions evaluate each particle independently | Row-wise structure. | Props/Functions |
| C48 | Mesh and 3D history line up with the objective | Index arithmetic of meshgrid / reshape / array_split. | Props/Plot |
| C49 | optimize never modifies arrays it has handed out or been given | Heap model (`Model/Heap.lean`): every (n, d) array is an object, assignments copy references, masked assignments and `+=` write. Invariant over all operation histories: objects existing before an operation keep their content; refinement theorem linking the heap run to the functional model (`C49_as_if_copied`). | Props/Heap |
| C50 | An exception in the objective leaves a consistent optimizer | Error outcome of `optimize` with the state left behind. | Props/Crash |
| C51 | Trajectories are invariant under increasing transformations of the cost | Simulation relation between two runs. | Props/Symmetry |
| C52 | mean_pbest_history never increases within a call and dominates the best cost | Loop invariant over finite costs. | Props/Means |
| C53 | Unknown strategies raise KeyError when (and only when) they are used | Decision logic + loop propagation; the options handler entry by entry. | Props/Moves, Props/OnlyStrategy, Props/StartRuns |
| C54 | Invalid ftol_iter is rejected at construction | Decision logic of the constructor + loop invariant. | Props/Moves |
| C55 | Translating the problem translates the run | Simulation relation between two runs. | Props/Symmetry |
| C56 | Reporter configuration precedence | Decision logic. | Props/Reporter |
| C57 | Random and Pyramid optimizers return a matching, optimal pair | Cover invariant of the neighbour lists over all operation histories, then the neighbourhood-best lemma. | Props/Local |
| C58 | A well-configured run always returns | Progress: every phase of an iteration (objective, compute_gbest, options, velocity, position) succeeds under the stated conditions; induction over iterations. C58_all_strategies adds schedules, shrink, reflective (a pass count exists from which on the outcome is the same regular return) and static topologies. | Props/Outcome, Props/Returns |
| C59 | mean_neighbor_history always equals cost_history | Invariant over operation histories (the code stores best_cost in both). | Props/Stopping |
| C60 | Changing the units of the parameters changes nothing but the units | Simulation relation between two runs (positive diagonal scaling). | Props/Symmetry |
| C61 | No dimension is special | Simulation relation between two runs (permutation of dimensions). | Props/Symmetry |
| C62 | The documented hand-written loop is GlobalBestPSO | Model of the tutorial notebook's loop (`Model/CustomLoop.lean`); step-by-step simulation against `optimize`; concrete nan witness. | Props/CustomLoop |
| C63 | Custom end values for time-varying options | Model of the options-handler tutorial loop; induction over iterations, order lemmas of C34. Other options: the first options update of optimize fails for every strategy, by induction over the dictionary; entries without an option by congruence of optimize. | Props/SchedConst, Props/SchedKeys, Props/Schedule |
| C64 | What a velocity clamp allows in a run without bounds | Trail invariant (consecutive evaluated positions differ by at most the clamp), chained by induction; SearchBase's hard-wired clamp as a corollary. | Props/Drift |
| C65 | Without inertia the swarm never leaves the box it started in | Convex-hull (box) invariant of the loop for w = 0, non-negative c1 + c2 <= 1; witness with inertia. | Props/Hull |
| C66 | A fully connected neighbourhood search is the global-best search | Side-by-side induction of two runs (Star and a fully connected topology) with the invariant that the swarm best is a minimal personal best of the call; tie witness. | Props/Complete |
| C67 | Bounds and clamps survive floating-point rounding (except shrink) | Rounded model (`Model/Rounded.lean`, rounding applied after every operation) with binary64 rounding as a function on the rationals (`Model/Float.lean`); monotonicity, idempotence, exactness of doubling and of fmod, and an error bound for the uniform draw; box invariant over all runs. Rounding error bound for a single operation (`Props/ReflectiveFar.lean`); `reflective` hangs for far positions (the reflection is absorbed) and terminates for near ones (the distance decreases by a quarter of the width per pass); error analysis of one step of `shrink`, and a run in which the error is amplified (`Props/ShrinkFloat.lean`, by evaluation). | Props/ReflectiveFar, Props/Rounding, Props/ShrinkFloat |
| C68 | Best values do not depend on how arithmetic rounds | Invariants of C01, C02, C04 and the covering argument of C07 over the rounded model with an arbitrary arithmetic. | Props/Rounding |
| C69 | Velocity strategies compute the documented velocity | Direct computation of each strategy against min/max formulas; side-by-side induction for runs. | Props/Velocity |
| C70 | GeneralOptimizerPSO with Star, Ring or VonNeumann is GlobalBestPSO or LocalBestPSO | Equality of the iteration functions of two configurations on all reachable states, lifted through loop, optimize and histories of calls. | Props/Particles, Props/VonNeumann |
| C71 | Particles are interchangeable | Equivariance of every operator, handler and topology under permutations of the particles (`Lemmas/Particles.lean`), simulation relation between the two runs. | Props/Particles |
| C72 | A collapsed dimension never reopens | Invariant over all sequences of optimize calls: the settled coordinate is a fixed point of the velocity and position updates; concrete witness for the random strategy. | Props/Collapse |
| C73 | Where the swarm goes when nothing improves | Random numbers become random variables (`SpecChance.lean`). On a flat start the bests rest (`Lemmas/Rest.lean`), so each coordinate is a second-order stochastic recurrence; recursions of its first and second moments (independence of past and present coefficients), a Lyapunov function for the second moments, Borel-Cantelli for almost-sure convergence (`Props/MeanPath.lean`). | Props/MeanPath |
| C74 | The random choices have the documented distributions | Product of interval measures for independent uniform variables, independence of rows, pulled back through the model functions (`Props/Chance.lean`); C74_guarantee combines the miss probability with C05. | Props/Chance |
| C75 | BinaryPSO with a velocity clamp reaches every bit string and finds the optimum | Thresholds become independent uniform random variables. Backward induction over the remaining iterations: given the state, the next bit matrix takes finitely many values, each an event of the current thresholds and independent of the later ones, so the miss event is measurable and its probability shrinks by 1 - q per step (`Props/BinarySearch.lean`); Borel-Cantelli; C07 and C39 for the returned value. | Props/BinarySearch |
| C76 | Plots show the recorded history | Model of the scatter object and of `_animate` (`Model/Animate.lean`); induction over the frames with an invariant of the scatter object; composed with C48 and C04. | Props/Animate |
| C77 | An objective returning an array of the wrong shape never silently corrupts the swarm | Arrays of any rank with NumPy's broadcasting rule (`Model/NdArray.lean`). 'Can be stretched to' is a partial order; a successful iteration chains it from the cost mask to the in-place position update, which forces the documented shape. Refinement of the typed model by the array model for accepted shapes (`Lemmas/NdRefine.lean`), induction over iterations. | Props/Shapes |
| C78 | Which shapes of init_pos an optimizer accepts, and what it then does | Same array model; the order argument gives necessity, the refinement together with C58 gives sufficiency and the equality of runs. | Props/Shapes |
| C79 | Asking for more iterations only continues the run | An iteration reads the requested number of iterations only through the options strategy; side-by-side induction over the loops; records only grow. Not worse: C04's minimum invariant over the prefix of evaluations. | Props/Prefix |
| C80 | Early stopping only truncates a run | Side-by-side induction of the two loops (the deque of the never-converging run always contains False); the skipped last move changes no record (frame lemma). | Props/Prefix |
| C81 | Continuing a run is starting afresh from its last positions and velocities | Records are write-only: an iteration commutes with putting older records in front (`iterate_graft`). After the first evaluation the used and the new object differ only in the remembered best, which compute_gbest overwrites. Concrete witness for Star. | Props/Prefix |
| C82 | Parameters the objective ignores do not disturb the others | Simulation between optimizers of different dimension: every operator and coordinatewise strategy commutes with dropping columns; induction over iterations and calls. Concrete runs for the strategies that couple coordinates. | Props/Irrelevant |
| C83 | No direction is special | Reuses the simulation of C60 with negative scales: bounds change ends, so every strategy is checked by cases (below, above, inside); induction over iterations and calls. Witnesses for `invert` and `random`. | Props/Mirror |
| C84 | With moderate coefficients the swarm cannot explode | A quadratic Lyapunov function of one coordinate, `((1-w) y + w v)² + w v²`, shown to rise at most to a fixed level in one step for every value of the random numbers (`Lemmas/Stability.lean`); invariant over the run: personal bests stay in the starting level sets. Divergence: an explicit periodic sequence of random numbers and an invariant cone. | Props/Explosion |
| C85 | The random numbers of a run are fixed by the seed, not by the objective | `Model/Rng.lean`: the same methods as programs that read one double after the other from the state of the global generator, in the order of the source (the objective may read it too). Refinement by induction over the iterations: such a run is a run of `optimize` with numbers chosen from the configuration and the generator alone; counting lemmas for the doubles. `Props/SeedHistory.lean`: creation and `reset`, and induction over histories of calls. | Props/Seed, Props/SeedHistory |
| C86 | A hyperparameter search gives every place of its grid its own fixed random numbers | `Model/SearchRng.lean` threads the generator through the candidates. One candidate is a run with numbers read from the state before it (C85), and leaves a state that does not depend on its options; induction over the grid. Concrete grid with a repeated combination. | Props/SearchSeed |
| C87 | Information spreads by one neighbourhood per iteration | Row lemmas: row j of every operator and handler depends only on row j of its inputs, and the attraction point of j only on the personal bests in its neighbour list. Settled lists are an invariant of the loop. Side-by-side induction of the two loops with the relation 'particles whose t-hop neighbourhood agrees are in the same situation'. Concrete run for sharpness. For the dynamic Random topology the lists of an iteration are a function of its random numbers alone; same induction with time-dependent lists (HopsIn). | Props/Spread |
| C88 | The data type of init_pos decides whether a run is possible | A second model of the loop with the data types of positions and personal bests (Model/Dtype.lean; NumPy 1.16 casting rules trusted). Refinement: for plain types the typed loop projects to the untyped one, by induction over iterations and calls. For refused types the first iteration always ends with an error before the position is assigned; invariant over all calls. Adjust: invariant that the swarm rests at its initial positions. | Props/Dtypes |
| C89 | With the default clamp of a search, the initial positions decide everything on upward-growing objectives | C64 (no coordinate ever decreases) gives that every evaluated position lies above the initial one; with C01 the personal bests are the initial positions, with C05/C07 the returned cost is the smallest initial one. Through C86 the numbers of the k-th candidate do not depend on the options, so the comparison of scores is the same for all grids of one length. | Props/Upward |
| C90 | Which forms of bounds (arrays, lists, single numbers) work depends on the boundary strategy | A second model of the handlers and the loop with the form of the two bounds (Model/BoundForm.lean; NumPy/Python indexing rules trusted). Case analysis of each strategy, refinement by induction over the iterations: equal to the array model or a refusal with an upsetting step; invariant over the histories for calls that return; first iteration for the hopeless combinations. | Props/Forms |
| C91 | Which optimizers a hyperparameter search can be used with | `Model/SearchArgs.lean`: the positional call of `generate_score` for every kind of `optimizer` argument. Case analysis; constructors never fail with default arguments; C43 for the searches that return. | Props/SearchArgs |
| C92 | What GeneralOptimizerPSO guarantees for a topology written by the user | `Model/UserTop.lean`: the loop of GeneralOptimizerPSO with the three methods of the topology as arbitrary state-passing functions. Case analysis of one iteration, induction over the iterations with the invariant 'what has been written so far'; a simulation relation shows that the optimizers of `Model/Optimizer.lean` are instances. | Props/UserTop |
| C93 | The options dictionary is held by reference: changes in place are seen, and the library never writes into it | `Model/SharedOpts.lean`: a heap of dictionaries, optimizers that hold addresses, programs of the user. A simulation: each step of the heap model is the step of `Model/Optimizer.lean` on the present contents, keeps all older dictionaries, and keeps the invariant that addresses are in use; induction over iterations and programs. | Props/SharedOpts |
| C94 | Overflow: which strategies keep the evaluated positions inside the bounds when velocities become infinite | `Model/Ieee.lean`: GlobalBestPSO with positions and velocities that are numbers, infinities or `nan`, and an arithmetic unit that rounds and may overflow (`fpu64`: binary64). Invariant over iterations and calls: positions, personal bests and the best are numbers inside; velocities are not `nan` (or, with a clamp, bounded). The attraction terms cannot overflow for moderate bounds; x + v is not `nan`; each handler by cases. Kernel-evaluated runs for the failing strategies, general lemmas for what they do to an infinite coordinate. `C94_agrees` links the three models of the arithmetic: with a rounding into numbers, the model with special values and the rounded model (hence, with the identity as rounding, the exact model) run in lockstep. | Props/IeeeLink, Props/Overflow |
| C95 | nan in the initial position: refused with bounds, otherwise permanent, and confined or contagious depending on the objective | The same model over any arithmetic unit. `nan` absorbs: comparisons are false and sums are `nan`, by cases of each handler, then induction over iterations and calls. Confinement: invariant that numbers and `nan` are where they were in init_pos and that a personal best with a cost below infinity has no `nan`. | Props/NanInit |
| C96 | Objectives that repair their argument in place work without n_processes, and only then | `Model/Heap.lean` (arrays with identity; the serial evaluation lets the objective overwrite the position array, a pool does not). Invariants over iterations for arbitrary writing objectives: the personal best array is another object than the position array once something was evaluated; the position array is init_pos or younger than all arrays of the user; recorded arrays show the log. `C96_processes` reuses the refinement of C49. | Props/Writing |
| C97 | When several optimizers may share a topology object | `Model/SharedTop.lean`: `neighbor_idx` as lists of numbers in an object outside the optimizers, `compute_gbest` of the five classes on it, and programs of calls on a family of optimizers of different sizes. Dynamic classes: the answers do not depend on the object; simulation of each optimizer by itself, by induction over iterations and calls. Static classes: invariant of the object; a call with fitting lists is simulated by `optimize`; lists of another size make the first iteration fail. | Props/SharedTop |
| C98 | Interrupting optimize or reset anywhere | `Model/Interrupt.lean`: the list of object states after every single assignment of `optimize` and `reset`, in program order; `C98_points` ties it to the model of the completed calls (first state, last state, one assignment per step). An event is a completed call or one cut after j assignments. Invariants of all listed states, lifted through the iterations, the calls and the histories of events; kernel-evaluated runs for what can be lost. | Props/Interrupt |
| C99 | Optimizers running in several threads | `Model/Threads.lean`: the methods as programs that ask for one random value at a time, and pools of such programs under a schedule (a list of thread names). A run without interruption is the model of C85 (by induction over loops and calls). Under any schedule a thread is answered in some sequence of generator states; with a generator that replays them (`Rng.turns`) its outcome is that of a sequential run, to which C85 applies. Progress by induction over the program. | Props/Threads |
| C100 | Programs written with the backend: bounds, and what swarms share | `Model/Bench.lean`: programs as lists of statements over named swarms, handlers (with their memories) and numbered dictionaries. Insideness: invariant over the statements, with C14 and C37. Separation: a relation between the run of the whole program and the run of the statements of one swarm, preserved by own statements (both step) and foreign ones (one steps). Default dictionary: invariant that every swarm holds dictionary 0. | Props/Bench |
| C101 | Objectives that use the optimizer they are evaluated for | `Model/Reentrant.lean`: what an objective does with its optimizer is a tree (`Script`) of looking, `reset`, `optimize` (with objectives that are again trees) and returning; running it is structural recursion. The state says also whether `pbest_cost` is still the empty array of a new swarm. Looking only: the loop is the ordinary loop for the objective that answers from the states seen (induction over the iterations). Arbitrary trees: one induction over the tree with an invariant for the time between calls and one for the time during a call, instantiated with the invariants of C21, C22, C04, C28. Not covered: n = 1 with reset inside (the failure comes later, in the topology), pools (workers see a copy), objectives that assign attributes. | Props/Reentrant |
| C102 | Which forms of velocity_clamp work | `Model/ClampForm.lean`: the object passed as `velocity_clamp` (None, number, sequence of numbers, lists and arrays of any length), unpacking, subtraction, broadcasting; then the functions that use it, down to `optimize` and `reset`. The specification says which two vectors a pair of entries stands for; equality with the model for vectors by unfolding and induction over the loop, classification of the constructor by cases. | Props/ClampForms |
| C103 | Keyword arguments reach the objective | `Model/Keyword.lean`: Python's binding of positional and keyword arguments to parameters with defaults and `**kwargs`, applied to the calls of `optimize`, `compute_objective_function`, the `@cost` wrapper and an objective with declared parameters. The specification lists the rules of a legal call; both directions of 'binds if and only if legal', then equality with the run of C30's `evaluator` for the closed objective. Values of the user are abstract objects with a call, a test for None and a test for int. | Props/Keywords |
| C104 | Which entries of the options dictionary matter | `Model/OptionsDict.lean`: the loop with one dictionary, passed to `compute_gbest` by Python's binding of `**options` (C103). Side-by-side induction over iterations and calls with the relation 'equal except for swarm.options'; the schedule loop of `OptionsHandler` is characterised entry by entry. Missing entries: first iteration, with the invariant that BinaryPSO never changes its swarm's options. `C104_split` links this model to the one of the other properties, where k, p, r are kept apart. | Props/OptDict |
| C105 | Objectives that return integers or Python objects as costs | `Model/CostType.lean`: the loop with the data types of the cost arrays (NumPy's conversion of integers in `<` and `np.where`, Python objects) and of the best cost. Refinement by induction over iterations and calls: integer costs give the run with converted costs; object costs give the run with exact costs up to the final `copy`, with the invariant that the best cost, once there is one, is a Python object. Optimality: C05 and the error bound of the conversion; kernel-evaluated run for the loss. | Props/CostType |
| C106 | Time-varying options in floating point | `Model/RoundedOptions.lean`: the option strategies with every operation rounded; over the reals without rounding it is the model of C33-C35 (`ohCallR_exact`). Monotonicity from monotone rounding, step by step; the end value because 0 is exact; error bounds from the relative error of one rounding; `random` from the bound of C67 on a sampled width. Whole runs: the invariant of C33_no_drift on the rounded loop of C67. Powers and exponentials are any functions with the stated properties. | Props/SchedConst, Props/SchedFloat |
| C107 | Fixing a parameter by equal bounds | No new model: the exact model for what is kept, frozen, collapsed or never returned, the Ieee model for nan. Invariant: everything recorded is inside the weak bounds; in a fixed dimension nothing pulls, so the velocity is w times the old one. The free parameters: the objective is replaced by one that ignores the fixed parameters, which makes no difference on the positions met, then C82. | Props/FixedParam |
| C108 | Bounds in the wrong order | No new model. Every evaluation of a call but the first is an output of the boundary handler (induction over the loop); each handler is then looked at once. For intermediate and shrink the handler's memory is the last position (invariant of the loop), so that successive evaluations are related; the harm shrink does to other parameters by a witness. | Props/ReversedBounds, Props/ReversedMemory |
| C109 | Early stopping in floating point | Model/Rounded: the loop of C27 with every arithmetic operation followed by a rounding function. The rule by induction over the loop with the deque as in C27; the double facts from monotonicity of rounding, its error bound and the spacing of doubles. With overflow (costs near 1.8e308): the same induction over the loop of Model/Ieee (GlobalBestPSO only), and a case analysis of which of the three results overflows. | Props/FloatStop, Props/StopOverflow |
| C110 | Changing an optimizer between calls | Model/Tuning: a program is a list of assignments and calls, its state the present attributes (Config) and the optimizer object. Best cost: the Star invariant of C04 up to discarded first history entries (a simulation shows that iterations do not look at them). Bounds: the invariant of C13 with bounds that change; convexity of the move for intermediate. Reset: C29 and the simulation behind it, with the topology state in the relation. n_particles: the array model of C77. Not modelled: in-place writes to the options dictionary, attribute values the constructor refuses. | Props/Tuning |
| C111 | BinaryPSO in floating point | Model/BinaryIeee: the optimizer with velocities in XR (numbers, infinities, nan), arithmetic of an Fpu and np.exp as a parameter E. Bits and personal bests: invariants for any Fpu and any E. never nan, clamp, frozen: invariants with the float64 unit, draws that are multiples of 2^-53. Saturation: what is asked of np.exp is an error of at most 20 percent between -700 and 700 (and tiny, huge beyond), exp(37) > 1.25 * 2^53 from Mathlib's bound on e. Agreement: simulation with Model/Optimizer. Simplified: one process, costs and recorded means exact. | Props/BinaryIeee |
| C112 | copy.copy of an optimizer | Model/Copies: objects (swarm, lists, handlers, topology) are numbered, a store gives their contents, an optimizer object is a record of attributes and numbers; copying copies the record, reset and assignments bind fresh numbers. Same object: all records stay equal. Separation: invariant that the numbers of swarm and histories are used by one record only, and the simulation behind C29 (handler memories and topology state, which stay shared, do not matter). Static: invariant of C11 on the shared topology object. Not modelled: deepcopy and pickling, in-place writes by the user, copying during a call. | Props/Copies |
| C113 | Benchmark functions in floating point | Model/FloatFunctions: the formulas with a rounding after each operation; the rounding, the C library and the order of each sum are arguments. Nonnegativity from monotonicity and fl 0 = 0; lower bounds for f64 from monotonicity and the exactly representable bounds; ackley from the relative error of 1/d; matyas from the relative error and 0.52 > 0.48. Values at points by kernel computation, sums of any length by induction over the tree. Equality with Model/Functions for the identity rounding. Not modelled: overflow, crossintray, eggholder, holdertable, matyas with subnormal squares, np.power(x, 2) other than np.square. | Props/FloatFunctions |
| C114 | Objectives that are known only approximately | No new model: the objective of the optimizer model may already return something else in every call. From the matching, optimal pairs of C05, C07 and C57, the personal bests of C01 and the running minimum of C04. | Props/Noise |
| C115 | What Swarm, Designer, Animator and Mesher check | Model/Classes: objects as far as isinstance and shape see them, attrs' generated __init__ (attributes and defaults in order, then the validators in order). Both directions by cases on which sizes are given. Not modelled: comparison and repr of the classes. | Props/Classes |
| C116 | Constraints handled by penalties | No new model. From the matching, optimal pairs of C05, C07 and C57, the personal bests of C01, the running minimum of C04, C02 (no nan) and C32. | Props/Penalty |
| C117 | What optimize reports, and that verbose changes nothing else | Model/Verbose: iterate, loop and optimize once more, with the list of what they write. The state and result part is the model of Model/Optimizer (theorem C117_verbose, by induction over the loop); the output by the same induction. Not modelled: the counter and timing of the progress bar, the ERROR records written before an exception, the text of the messages. | Props/Verbose |
| C118 | Objectives with a memory of their own | Model/Memory: evaluation (serial and pool), iterate, loop and optimize once more, with the memory of the calling process and of every worker threaded through. By induction over the loop: reduction to the memoryless model, invariants of the memories, and for serial runs the sequence of direct calls. Trusted about multiprocessing: chunk size 1 (one task per process), workers copy or re-import the module's memory when the pool is created, methods are pickled with their object for every task. | Props/Memory |
| C119 | Restarting finds the optimum | Rounds are reset followed by optimize in the existing model, iterated from an arbitrary object. Deterministic part: a round one of whose particles starts in the box cannot return more than c (as in C74). Then independence of all initial positions of all rounds gives the bound, its limit the almost sure statement, and countably many eps the convergence; C58 excludes exceptions, C23 gives the converse for 'adjust'. As in C74, the generator is trusted to deliver independent uniform reals. | Props/Restart, Props/RestartBinary |
| C120 | The unit and the zero of the objective decide when a run stops early | Both runs are compared with the run that never stops early (ftol=-inf), of which each is a prefix (C80); those two make the same moves (C51). Where the first run stops, the last ftol_iter changes are small in the sense of C27; the change of the objective keeps small changes small, so by C27 the second run stops there or before. | Props/StopUnits |
| C121 | A starting solution is not lost in the first call | The first evaluation of a call is that of the swarm it starts with; C06 and C08 say that the returned position attains the minimum of the call's evaluations. A fresh swarm stands at init_pos. Stages by induction over the chain, later calls by an invariant (the swarm is still at init_pos or its evaluation is in the log). Witness by evaluation of two runs of two calls. | Props/WarmStart |
| C122 | With c2 = 0 the particles search on their own | Every boundary and velocity handler acts row by row, also across swarms of different sizes; with c2 = 0 the social term is zero. A relation between a particle of one optimizer and a particle of another is kept by every iteration that both continue (induction over the loop). The best-of statement combines this with C05. Witness by evaluation of five runs. | Props/Solo |
| C123 | With c1 = c2 = 0 the objective has no influence on the search | The relation of C122 between particles of two optimizers, without the personal bests, is kept by every iteration because both attraction terms vanish. The path by induction over the loop, the bound from the geometric sum. Example by evaluation of two runs with different objectives. | Props/Blind |
| C124 | Enlarging the grid of a hyperparameter search | The scores of the common part of the two grids are the same because the generator is threaded in order (induction over the grid); Python's min and max only replace the current item by a strictly better one, so continuing the fold keeps the item or improves it. itertools.product varies the first factor slowest. Witness by evaluation of three searches. | Props/Enlarge |
| C125 | RandomSearch draws its grid from the generator of the runs | Model/RandomRng.lean threads an arbitrary generator through generate_grid and the runs. The blocks by computation and induction over the combinations; the refinement to C44 by induction over the options (each key reads its own block). Witness by evaluation of two searches. Not modelled: how many machine words an integer takes (the generator's integer draw is one abstract step). | Props/RandomSeed |
| C126 | What the neighbourhoods of the Ring topology are | No new model. Right answers of the k-d tree are those of the specification IsKnn. Counting: a list with a particle from outside the group misses one of the group, which would be nearer. For the runs, the first neighbours stay (C11) and a closed group is isolated (C87). Witnesses by evaluation. Between bit strings |x-y|^p is |x-y|, so distances agree for all p; an induction over the loop transfers the run. | Props/Clusters, Props/NormBits |
| C127 | How many particles a neighbourhood needs | Numbers by induction over the recursion of delannoy (Model/DelannoyCalls.lean counts the calls). Runs: as long as no neighbours are stored the first iteration raises and stores none, an invariant of all calls. Example by evaluation with 4 and 5 particles in two dimensions. Simplification: the code stores the list padded with the index n before it raises; the model stores nothing, and both raise IndexError in the next call. | Props/Small |
| C128 | mean_pbest_history in floating point | np.mean as a tree of rounded additions with a rounded division (Model/MeanTree.lean); the tree is a parameter, so that no assumption on NumPy's pairwise summation is made. The run is the rounded model of C67/C68. Entries by a loop invariant, monotonicity by induction over the tree, integer costs because all partial sums are exact, the counterexample by evaluation. | Props/MeanFloat |
| C129 | How often the objective is called | The model that threads the state of the world through a run (Model/Rng.lean, SearchRng.lean, RandomRng.lean), with any counter in that state that random numbers leave alone and every call of the objective increases by one. Induction over the loop and the grid. With n_processes the calls happen in other processes and are not counted here. | Props/Budget |
| C130 | BinaryPSO treats 0 and 1 alike | A simulation between the two runs, relating positions by x -> 1 - x and velocities by v -> -v in the reversed coordinates (the change of coordinates of C60 and C83, with a negative scale). The step of the positions uses sigmoid(-v) = 1 - sigmoid(v), proved for the real exponential. Exact hits are excluded by a hypothesis about the velocities of the run; C130_never_hit, C130_almost_surely and the examples show that it can be met, C130_exact_hit that it is needed. C130_almost_surely needs no independence: positions are bits, so the velocities of an iteration range over a finite set. | Props/Complement, Props/ComplementChance |
| C131 | Bounds and clamps that are never reached change nothing | A simulation between the two runs that may use a condition on the state after every iteration of the first one (swarmAfter, also used by C130). The states are equal up to the memory of the boundary handler; C15 gives the step for bounds, a case analysis of the velocity strategies the one for clamps. | Props/Unreached, Props/Untouched |
| C132 | A run sees the objective only where it evaluates it, so no result is a certificate | Induction over the loop: the log of evaluations only grows, so agreement on the final log gives agreement at the next evaluation, hence the same iteration. The rest is counting: the log has at most iters entries of n positions, a box of positive width is infinite, and there are 2^d bit strings. | Props/BlackBox, Props/ReplayFloat |
| C133 | The recorded histories obey the law of motion | An invariant of the loop: all pairs of recorded entries are related, and the last recorded positions moved by the current velocity are related to the current positions. The relation is a parameter; C15, C16 and C18 describe it for the strategies. For the whole life a second invariant allows repetitions. For `shrink` and `intermediate` the induction also carries that the strategy remembers exactly the current positions and that they are inside. | Props/Motion, Props/MotionMem |
| C134 | A logged run can be replayed, and an interrupted one recovered | Induction over the loop of three runs at once (failing, replayed, healthy): as long as the failing one gets costs all three make the same iteration and the log loses its head; where it fails the log is empty, and from there replayed and healthy objective are the same function. | Props/Replay, Props/ReplayFloat |
| C135 | A cache in front of the objective | A concrete cache (table and counter) is an objective with a memory as in C118. Induction over the particles and over the evaluated swarms: the table stays right, its keys are the old ones plus the evaluated positions, and the counter grows by the number of new keys; C118 connects this to the run, C39 bounds the keys for BinaryPSO. | Props/Cache |
| C136 | A stricter stopping rule stops no earlier | Simulation of the two loops with the relation that the newest entries of the strict deque imply those of the lax one; the threshold ftol*(1+|best|) is monotone in ftol also for infinite values. Where the lax run stops first, the strict one only appends to the records. | Props/Stricter, Props/StricterFloat |

## Axioms of the property theorems

As printed by `#print axioms` (all theorems of MANIFEST.json).

`[propext, Classical.choice, Quot.sound]` (614 theorems):
Bench.C45_ackley, Bench.C45_beale, Bench.C45_booth, Bench.C45_bukin6, Bench.C45_crossintray, Bench.C45_easom, Bench.C45_eggholder, Bench.C45_goldstein, Bench.C45_himmelblau, Bench.C45_holdertable, Bench.C45_levi, Bench.C45_matyas, Bench.C45_rastrigin, Bench.C45_rosenbrock, Bench.C45_schaffer2, Bench.C45_sphere, Bench.C45_threehump, Bench.C46_ackley, Bench.C46_beale, Bench.C46_booth, Bench.C46_bukin6, Bench.C46_crossintray, Bench.C46_crossintray_point, Bench.C46_crossintray_value, Bench.C46_easom, Bench.C46_eggholder, Bench.C46_goldstein, Bench.C46_himmelblau, Bench.C46_himmelblau_others, Bench.C46_holdertable, Bench.C46_levi, Bench.C46_matyas, Bench.C46_rastrigin, Bench.C46_rosenbrock, Bench.C46_rosenbrock_one, Bench.C46_schaffer2, Bench.C46_sphere, Bench.C46_threehump, Bench.C47_parallel, Bench.C47_rows_only, C01_personal_best, C01_personal_best_inside, C02_never_nan, C02_returned_not_nan, C04_cost_history_antitone, C04_cost_history_running_min, C05_first_call, C06_mismatch_witness, C06_repeated_call, C07_all_neighbours, C07_covered, C07_dynamic_ring, C07_history_covered, C08_coincident_witness, C08_position_optimal, C09_pyramid, C09_random, C09_ring, C09_ring_single, C09_ring_succeeds, C09_vonNeumann, C09_vonNeumann_single, C100_default_options, C100_inside, C100_primed, C100_separate, C100_shared_handler, C100_unprimed, C101_bounds, C101_clamp, C101_histories, C101_personal_costs, C101_reads, C101_reset, C101_star, C101_torn, C102_accepted, C102_constructor, C102_optimize, C106_exp, C106_exp_c2, C106_lin, C106_lin_monotone, C106_lin_overshoots, C106_no_drift, C106_no_effect, C106_nonlin, C106_nonlin_monotone, C106_random, C106_run, C107_free_parameters, C107_handlers_return, C107_kept, C107_no_result, C107_periodic_run, C107_random_collapses, C107_shrink_frozen, C108_accepted, C108_intermediate, C108_intermediate_between, C108_nearest, C108_periodic, C108_random, C108_reflective, C108_shrink, C108_shrink_others, C109_close, C109_constant, C109_exact, C109_infinite, C109_no_stop, C109_overflow, C109_overflow_small, C109_tiny, C109_unchanged, C10_random_graph, C10_repair_passes, C10_too_many_neighbours, C110_best, C110_binary_options, C110_dormant, C110_histories, C110_narrow, C110_outside, C110_particles, C110_reset, C110_reset_topology, C110_returned, C110_widen, C111_agrees, C111_clamped, C111_frozen, C111_never_nan, C111_only_bits, C111_personal_best, C111_saturated, C112_failed_reset, C112_reset_separates, C112_same_object, C112_static, C112_two_optimizers, C114_global, C114_history, C114_local, C114_personal_best, C114_pyramid, C114_random, C116_global, C116_history, C116_local, C116_personal_best, C116_pyramid, C116_random, C116_start, C119_almost_surely, C119_any_converges, C119_any_topology, C119_binary, C119_binary_almost_surely, C119_converges, C119_found, C119_restarts, C119_without_restart, C11_dynamic_forgets, C11_optimizer_dynamic, C11_optimizer_first, C11_optimizer_static, C11_pyramid_small, C11_static_neighbours_fixed, C11_static_result_indep, C11_uses_current_positions, C120_narrow, C120_scale_down, C120_scale_up, C120_shift, C120_strict, C121_call, C121_first_call, C121_second_call, C121_stages, C121_star_cost, C122_after, C122_alone, C122_best_of, C122_more, C122_more_can_hurt, C122_social, C123_blind, C123_path, C123_reach, C124_other_option, C125_blocks, C125_in_range, C125_more_c1, C125_more_can_hurt, C125_refines, C125_shift, C126_better_guides, C126_clusters, C126_group, C126_nested, C126_norm, C126_norm_binary, C126_norm_bits, C126_norm_matters, C126_not_mutual, C127_calls, C127_neighbours, C127_too_small, C128_below_best, C128_entries, C128_integers, C128_never_increases, C129_call, C129_grid_search, C129_random_search, C129_search, C12_32nd_fails, C12_dynamic_ok, C12_first_31_succeed, C12_history_bound, C12_never_returns, C12_vonNeumann_zero, C130_almost_surely, C130_exact_hit, C130_never_hit, C130_reset, C130_run, C130_start, C131_bounds, C131_clamp, C131_clamp_untouched, C131_nearest_untouched, C131_periodic_wraps_unseen, C132_arbitrarily_wrong, C132_bits, C132_black_box, C132_bounded, C132_unseen, C133_inside, C133_intermediate, C133_life, C133_nearest, C133_no_bounds, C133_periodic, C133_random, C133_reflective, C133_shrink, C133_sum, C134_float_recovery, C134_float_replay, C134_recovery, C134_replay, C136_float, C136_not_worse, C136_stricter, C13_delannoy_counts, C13_delannoy_symm, C13_delannoy_terminates, C14_memory, C14_memoryless, C14_total, C15_identity, C15_particle, C16_monotone, C16_projection, C17_diverges, C17_passes, C17_single_bounce, C17_terminates_iff, C18_defined_iff, C18_wraps, C19_intermediate, C19_shrink, C20_shared, C21_all_inside, C21_from_inside, C21_from_inside_returned, C21_returned, C22_clamp, C22_zero_witness, C23_frozen, C23_returned, C23_velocities, C24_optimize, C25_never_returns, C25_type_error, C26_history, C26_missing_key_error, C26_missing_never_returns, C26_update, C27_at_least, C27_constant, C27_exact, C27_no_stop, C28_aligned, C28_at_most, C28_equal_lengths, C29_reset, C29_static_witness, C30_exceptions, C30_more_processes, C30_not_rowwise_witness, C30_optimize, C30_optimize_enough, C32_local_all_inf, C32_no_iterations, C32_star_all_inf, C33_no_drift, C33_no_strategy, C33_run_keys, C34_lin_between, C34_lin_monotone, C34_nonlin_between, C34_nonlin_monotone, C34_run, C35_c2_negative, C35_monotone, C35_range, C36_key_error, C36_never_returns, C37_center_witness, C37_generated_inside, C37_optimizer, C38_clamped, C39_fair_coin, C39_only_bits, C39_rule, C40_equal, C40_monotone, C40_run, C41_init_pos, C41_not_bits_witness, C41_permutation, C42_multiplicity, C42_no_duplicates, C43_best_of_all_runs, C43_exception, C43_optimal, C43_with_optimizer, C44_all_required, C44_double, C44_in_range, C44_succeeds, C44_unknown_key, C44_upper_end_reached, C48_arange, C48_history_of_run, C48_mesh, C50_as_if_shorter, C50_crash, C50_usable, C51_monotone, C52_last_is_mean, C52_mean_pbest, C53_boundary_strategy, C53_boundary_unused, C53_only_boundary, C53_only_option, C53_only_velocity, C53_option_strategy, C53_option_unused, C53_velocity_strategy, C54_ftol_iter, C54_window_positive, C55_translation, C57_pyramid, C57_pyramid_history, C57_random, C58_all_strategies, C58_returns, C59_mean_neighbor, C60_units, C61_dimensions, C62_nan_differs, C62_same_run, C62_tutorial, C63_between, C63_default_ends, C63_ignored_entries, C63_keys, C63_no_effect, C63_nonlin_between, C63_other_option, C63_random, C64_reach, C64_search, C64_steps, C65_hull, C65_inertia_leaves, C66_fully_connected, C66_ties_matter, C67_all_inside, C67_clamp, C67_created, C67_created_velocity, C67_handlers, C67_reflective_far, C67_reflective_hangs, C67_reflective_loops, C67_reflective_near, C67_shrink_excursion, C67_shrink_leaves, C67_shrink_throws, C68_cost_history, C68_local, C68_never_nan, C68_personal_best, C68_returned, C69_zero, C69_zero_inside, C69_zero_optimize, C70_ring, C70_ring_missing, C70_star, C70_vonNeumann, C71_particles, C72_dimension, C72_random_reopens, C72_start, C72_swarm, C73_best_particle, C73_bounded, C73_explores, C73_mean, C73_recorded, C73_unstable, C74_binary, C74_guarantee, C74_initial_positions, C74_initial_velocities, C74_miss, C74_random_search, C74_relocation, C74_velocity, C75_almost_surely, C75_optimum, C75_visits, C76_contour, C76_cost_line, C76_surface, C76_workflow, C76_wrong_columns, C77_completed_run, C77_same_run, C77_wrong_shape, C78_accepted_shapes, C78_same_run, C79_converged, C79_not_worse, C79_prefix, C80_prefix, C80_truncation, C81_continue, C81_star_remembers, C82_ignored_parameters, C82_row_strategies_couple, C83_invert_directed, C83_mirror, C83_random_directed, C84_confined, C84_documented_options_can_explode, C85_any_objective, C85_common_numbers, C85_consumption, C85_history, C85_loud_objective, C85_same_numbers, C85_seeded_prefix, C85_seeded_truncation, C86_consumption, C86_fixed_numbers, C86_independent_scores, C86_place_matters, C87_cone, C87_isolated, C87_random, C87_sharp, C88_adjust, C88_plain, C88_refused, C88_unsigned, C88_unsigned_run, C89_covered, C89_personal_bests, C89_place, C89_score, C89_star, C90_call, C90_hopeless, C90_returns, C90_same, C91_binary, C91_general, C91_missing, C91_never, C91_returns, C92_builtin, C92_cost, C92_histories, C92_personal_best, C92_position, C92_python_float, C93_assign, C93_assign_binary, C93_call, C93_identity, C93_reset, C93_swarm_options, C93_swarm_options_fresh, C93_write, C94_agrees, C94_agrees_exact, C94_clamped, C94_default_nan, C94_handlers, C94_inside, C94_shrink_nan, C97_call, C97_dynamic, C97_dynamic_answer, C97_first_pyramid, C97_first_random, C97_first_ring, C97_one_particle, C97_one_particle_witness, C97_pyramid_small, C97_size, C97_size_error, C97_static, C97_static_witness, C98_bounds, C98_clamp, C98_cut_reset, C98_evaluation_lost, C98_histories, C98_misaligned, C98_next_call, C98_personal_bests, C98_points, C98_recorded, C98_reset, C98_returns, C98_star, C98_torn_pair, C99_alone, C99_finishes, C99_order, C99_reachable, C99_threads, Cls.C115_swarm, Cls.C115_swarm_error, Ct.C105_converted, Ct.C105_converted_history, Ct.C105_exact, Ct.C105_nearly_optimal, Ct.C105_not_optimal, Ct.C105_object, Fl.C113_ackley_at_zero, Fl.C113_ackley_positive, Fl.C113_attained, Fl.C113_exact_many, Fl.C113_exact_two, Fl.C113_goldstein_below, Fl.C113_levi_at_one, Fl.C113_matyas, Fl.C113_never_negative, Fl.C113_not_below, Fl.C113_sphere_zero, Kw.C103_clash, Kw.C103_declared, Kw.C103_forgotten, Kw.C103_reach, Kw.C103_refused, Mem.C49_as_if_copied, Mem.C49_exist, Mem.C49_history, Mem.C49_kept, Mem.C96_feasible, Mem.C96_history, Mem.C96_history_witness, Mem.C96_init_pos, Mem.C96_personal_best, Mem.C96_processes, Mem.C96_processes_witness, Mem.C96_returned, Mem.C96_user_arrays, Memo.C118_budget, Memo.C118_budget_ignored, Memo.C118_cache, Memo.C118_covered, Memo.C118_frozen, Memo.C118_lost, Memo.C118_schedule_matters, Memo.C118_serial, Memo.C118_transparent, Memo.C135_bits, Memo.C135_bits_life, Memo.C135_calls, Memo.C135_lost, Memo.C135_same, Od.C104_irrelevant, Od.C104_missing, Od.C104_parameter, Od.C104_reserved, Od.C104_split, Rep.C56_defaults, Rep.C56_exhaustive, Say.C117_last, Say.C117_output, Say.C117_quiet, Say.C117_records, Say.C117_star, Say.C117_verbose.

`[propext, Quot.sound]` (63 theorems):
C02_bad_evaluation_ignored, C03_compute_pbest, C100_first_use, C100_no_options, C102_lists, C107_periodic_nan, C108_init_pos, C111_agrees_created, C124_first_option, C124_grid_search, C124_not_worse, C131_start, C132_float_black_box, C13_delannoy_negative, C14_unknown_strategy, C15_coordinate, C16_idempotent, C17_mirror, C19_first_call, C24_inside, C24_invert, C30_enough_particles, C30_parallel_eq_serial, C30_split, C31_rejects_arrays, C31_rowWise, C31_rowWiseRaising, C31_vectorises, C33_keys_and_values, C37_init_pos, C38_default, C38_degenerate, C41_binary, C42_grid, C43_nan_witness, C44_exact, C44_missing_p, C48_history, C48_mesh_exception, C69_adjust, C69_adjust_first, C69_unmodified, C85_construct, C85_construct_any, C85_reset, C90_numbers, C91_constructors, C93_construct, C94_periodic_nan, C94_reflective_hangs, C95_accepted, C95_confined, C95_forever, C95_poisoned, C95_refused, Cls.C115_formatters, Cls.C115_swarm_attributes, Kw.C103_cost, Mem.C49_boundary_call, Mem.C49_pure_strategies, Mem.C49_velocity_call, Rep.C56_hook, Rep.C56_output.

`[propext]` (4 theorems):
C31_propagates, C43_empty, Rep.C56_file, Rep.C56_raises.

`[]` (1 theorems):
Cls.C115_assign.
