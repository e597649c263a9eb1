{"id": "C01", "title": "Personal bests are the best evaluations so far, with the position that earned them", "statement": "At every point of an optimize() call, each particle's pbest_cost is the smallest non-NaN cost its position has been evaluated to in that call (+inf if none was below +inf), and pbest_pos is the position at which it was first evaluated to that cost.", "quantifier": "every objective function (pure, stateful, NaN/inf-returning), every number of particles, dimensions and iterations, every random draw, every optimizer class", "why_tests_cant": "quantifies over all objectives and all run lengths; a test samples one objective and one seed", "anchors": ["pyswarms/backend/operators.py:compute_pbest", "pyswarms/single/global_best.py:GlobalBestPSO.optimize", "pyswarms/single/local_best.py:LocalBestPSO.optimize", "pyswarms/single/general_optimizer.py:GeneralOptimizerPSO.optimize", "pyswarms/discrete/binary.py:BinaryPSO.optimize"]}
{"id": "C02", "title": "NaN and +inf evaluations never become a best", "statement": "If the objective returns NaN or +inf for some evaluations, these never replace a personal best, and no entry of cost_history, no pbest_cost and no returned best cost is ever NaN.", "quantifier": "every objective, including ones returning NaN/inf at arbitrary calls, every run", "why_tests_cant": "NaN propagation depends on the position of NaN in every reduction over the entire run", "anchors": ["pyswarms/backend/operators.py:compute_pbest", "pyswarms/backend/topology/star.py:Star.compute_gbest", "pyswarms/backend/topology/ring.py:Ring.compute_gbest"]}
{"id": "C03", "title": "compute_pbest keeps the strictly better of old and new, particle by particle", "statement": "compute_pbest(swarm) returns, for each particle independently, the current (position, cost) if the current cost is strictly smaller than the personal best cost, and otherwise the old personal best pair; the pair is never mixed and costs never increase.", "quantifier": "every swarm state", "why_tests_cant": "all swarm states, including ties, NaN and infinities", "anchors": ["pyswarms/backend/operators.py:compute_pbest"]}
{"id": "C04", "title": "GlobalBestPSO's cost_history is the running minimum of everything evaluated since the last reset", "statement": "For any sequence of optimize() calls since construction or reset(), entry t of GlobalBestPSO.cost_history equals the minimum over all costs evaluated up to the t-th evaluation (ignoring NaN); in particular cost_history never increases.", "quantifier": "every history of optimize/reset calls, every objective, every iteration count and draw", "why_tests_cant": "a property of unbounded operation histories", "anchors": ["pyswarms/backend/topology/star.py:Star.compute_gbest", "pyswarms/single/global_best.py:GlobalBestPSO.optimize"]}
{"id": "C05", "title": "The first GlobalBestPSO.optimize() after construction or reset returns a matching, optimal pair", "statement": "If optimize() called on a fresh or just-reset GlobalBestPSO returns (c, p), then p is a position that the objective was evaluated at during the call, its evaluation there was c, and no evaluation in the call was below c.", "quantifier": "every objective, run length, draw and configuration for which the call returns", "why_tests_cant": "needs an invariant over all iterations; a test only sees one trajectory", "anchors": ["pyswarms/single/global_best.py:GlobalBestPSO.optimize"]}
{"id": "C06", "title": "A repeated GlobalBestPSO.optimize() without reset: exactly when cost and position match", "statement": "When optimize() is called again without reset(), the returned cost is the minimum since the last reset while the returned position is the best of the latest call only: the returned pair is consistent whenever the latest call reached a cost at most the previous best, and otherwise the returned cost is strictly below the cost of the returned position.", "quantifier": "every pair of successive calls, every objective and draw", "why_tests_cant": "depends on the relation between two whole runs", "anchors": ["pyswarms/single/global_best.py:GlobalBestPSO.optimize", "pyswarms/backend/topology/star.py:Star.compute_gbest"]}
{"id": "C07", "title": "LocalBestPSO and BinaryPSO return a matching, optimal pair when neighbourhoods cover the swarm", "statement": "If optimize(iters >= 1) returns and at the final iteration every particle is in at least one neighbourhood (in particular when at most k particles coincide at any point, or k = n_particles, or k = 1), the returned cost is the minimum of all costs evaluated in the call and, unless that is +inf, the returned position was evaluated to exactly that cost.", "quantifier": "every objective, run, and every tie-breaking of the k-nearest-neighbour search", "why_tests_cant": "quantifies over all point configurations and all k-d tree tie-breaks", "anchors": ["pyswarms/single/local_best.py:LocalBestPSO.optimize", "pyswarms/discrete/binary.py:BinaryPSO.optimize", "pyswarms/backend/topology/ring.py:Ring.compute_gbest"]}
{"id": "C08", "title": "Coincident particles can make the Ring best cost wrong", "statement": "When more than k particles coincide, Ring.compute_gbest may report a best cost strictly above the smallest personal best, so LocalBestPSO/BinaryPSO may return a cost that is not the cost of the returned position, and cost_history may increase. The returned position is nevertheless always the best one evaluated in the call, and the returned cost is the cost of some evaluation of the call, never below the optimum.", "quantifier": "existence over legal k-nearest-neighbour answers; the complementary guarantee (never below the true minimum) ranges over all states", "why_tests_cant": "depends on unspecified tie-breaking in the k-d tree that a test cannot control", "anchors": ["pyswarms/backend/topology/ring.py:Ring.compute_gbest", "pyswarms/discrete/binary.py:BinaryPSO.optimize"]}
{"id": "C09", "title": "Every particle follows the best personal best of its own neighbourhood", "statement": "For Ring, VonNeumann, Random and Pyramid topologies, row i of the returned best_pos is the personal best position of a neighbour of i whose personal best cost is minimal among i's neighbours (the first such in neighbour order), and the returned best cost is the minimum over those rows.", "quantifier": "every swarm state, neighbourhood structure and number of particles", "why_tests_cant": "all neighbourhood graphs and cost vectors", "anchors": ["pyswarms/backend/topology/ring.py:Ring.compute_gbest", "pyswarms/backend/topology/random.py:Random.compute_gbest", "pyswarms/backend/topology/pyramid.py:Pyramid.compute_gbest", "pyswarms/backend/topology/von_neumann.py:VonNeumann.compute_gbest"]}
{"id": "C10", "title": "The Random topology always builds a connected, symmetric, self-containing graph", "statement": "For every n_particles, k < n_particles and random draw, the neighbour graph computed by Random is symmetric, contains every particle in its own neighbourhood, gives each particle its k drawn neighbours, and is connected; the repair loop performs at most one pass.", "quantifier": "every number of particles, every k, every random draw", "why_tests_cant": "connectivity and loop termination must hold for every random graph", "anchors": ["pyswarms/backend/topology/random.py:Random.__compute_neighbors"]}
{"id": "C11", "title": "Static topologies fix their neighbours once, dynamic ones recompute every step", "statement": "A static Ring/Random/Pyramid/VonNeumann topology uses the neighbours computed at its first compute_gbest for all later calls, regardless of how particles move; a dynamic one uses neighbours computed from the current positions each time. Accordingly LocalBestPSO(static=True), and GeneralOptimizerPSO with a static topology, keep the neighbours of the first evaluated positions through every history of optimize and reset calls; LocalBestPSO(static=False), BinaryPSO and a dynamic Ring end each optimize with the neighbours of the positions evaluated last.", "quantifier": "every sequence of compute_gbest calls and swarm states", "why_tests_cant": "a statement about unbounded call sequences", "anchors": ["pyswarms/backend/topology/ring.py:Ring.compute_gbest", "pyswarms/backend/topology/random.py:Random.compute_gbest", "pyswarms/backend/topology/pyramid.py:Pyramid.compute_gbest"]}
{"id": "C12", "title": "A static ring with one neighbour fails after a fixed number of steps", "statement": "A static Ring used with k=1 (also VonNeumann with r=0) succeeds for at most 31 compute_gbest calls (NumPy 1.16 limit of 32 array dimensions) and raises IndexError on the 32nd; so over its whole life an optimizer with such a topology records at most 31 history entries between resets, and optimize() with iters >= 32 and the default ftol never returns normally; a dynamic ring never fails this way.", "quantifier": "every swarm, objective and run of at least 32 iterations", "why_tests_cant": "needs induction over the number of calls; short tests pass", "anchors": ["pyswarms/backend/topology/ring.py:Ring.compute_gbest", "pyswarms/backend/topology/von_neumann.py:VonNeumann.compute_gbest"]}
{"id": "C13", "title": "VonNeumann.delannoy counts the cells of the range-r Von Neumann neighbourhood", "statement": "delannoy(d, r) terminates for all d, r >= 0 and equals the number of integer points x in Z^d with |x_1|+...+|x_d| <= r; it is symmetric in d and r.", "quantifier": "all dimensions d and ranges r", "why_tests_cant": "an identity for all pairs of naturals", "anchors": ["pyswarms/backend/topology/von_neumann.py:VonNeumann.delannoy"]}
{"id": "C14", "title": "Boundary handlers return positions inside the bounds", "statement": "With lb < ub in each dimension, the strategies nearest, reflective, periodic and random return positions inside [lb, ub] for every input; shrink and intermediate do so whenever the remembered previous position is inside the bounds.", "quantifier": "every position matrix, bounds, previous position and random draw", "why_tests_cant": "real-valued inputs of any magnitude, any number of particles/dimensions", "anchors": ["pyswarms/backend/handlers.py:BoundaryHandler"]}
{"id": "C15", "title": "Boundary handlers leave in-bounds particles untouched", "statement": "A coordinate inside its bounds is returned unchanged by nearest, reflective, intermediate and periodic; a particle with all coordinates inside is returned unchanged by every strategy. So applying a handler to a fully in-bounds swarm is the identity.", "quantifier": "every position matrix, bounds, memory and draw", "why_tests_cant": "all matrices", "anchors": ["pyswarms/backend/handlers.py:BoundaryHandler"]}
{"id": "C16", "title": "nearest projects onto the box", "statement": "The nearest strategy returns the point of the box closest to the input in every coordinate, is idempotent and monotone.", "quantifier": "every position and bounds with lb <= ub", "why_tests_cant": "all reals", "anchors": ["pyswarms/backend/handlers.py:BoundaryHandler.nearest"]}
{"id": "C17", "title": "reflective: exact termination condition and mirror-image result", "statement": "The reflective strategy returns if and only if every out-of-bounds coordinate has lb < ub (otherwise it loops forever), and then every returned coordinate is an image of the input coordinate under the group generated by the two mirrors: x + 2m(ub-lb) or 2lb - x + 2m(ub-lb) for an integer m.", "quantifier": "every position matrix and bounds", "why_tests_cant": "termination of an unbounded while loop", "anchors": ["pyswarms/backend/handlers.py:BoundaryHandler.reflective"]}
{"id": "C18", "title": "periodic wraps modulo the box size", "statement": "The periodic strategy moves each out-of-bounds coordinate by an integer multiple of ub - lb; for lb = ub an out-of-bounds coordinate becomes NaN.", "quantifier": "every position and bounds", "why_tests_cant": "all reals of any magnitude", "anchors": ["pyswarms/backend/handlers.py:BoundaryHandler.periodic"]}
{"id": "C19", "title": "shrink stays on the line from the previous position; intermediate is the midpoint", "statement": "For a previous position inside the bounds, shrink returns previous + s*(proposed - previous) with the largest s in [0,1] that keeps every coordinate inside (s = 1 when already inside); intermediate replaces exactly the violated coordinates with the midpoint of previous coordinate and violated bound. The first call of a handler without memory returns the position unmodified even if out of bounds.", "quantifier": "every previous/proposed position and bounds", "why_tests_cant": "all reals", "anchors": ["pyswarms/backend/handlers.py:BoundaryHandler.shrink", "pyswarms/backend/handlers.py:BoundaryHandler.intermediate"]}
{"id": "C20", "title": "random relocates exactly the offending particles, all to shared positions", "statement": "The random strategy replaces exactly the particles having an out-of-bounds coordinate; all particles that violate a lower bound receive the same new position and all others that violate an upper bound receive one common position.", "quantifier": "every position matrix, bounds and draw", "why_tests_cant": "all matrices/draws", "anchors": ["pyswarms/backend/handlers.py:BoundaryHandler.random"]}
{"id": "C21", "title": "Every position evaluated during a bounded run is inside the bounds", "statement": "If the initial swarm is inside the bounds (lb < ub), then every position passed to the objective during any sequence of optimize calls, and every entry of pos_history and every returned best position, is inside the bounds, for every boundary strategy and velocity strategy.", "quantifier": "every run, objective, strategy combination, draw", "why_tests_cant": "an invariant over all iterations and trajectories", "anchors": ["pyswarms/single/global_best.py:GlobalBestPSO.optimize", "pyswarms/backend/operators.py:compute_position", "pyswarms/backend/handlers.py:BoundaryHandler.__call__"]}
{"id": "C22", "title": "velocity_clamp is respected", "statement": "With velocity_clamp=(lo, hi), lo <= hi, and velocity strategy unmodified, adjust or invert, every entry of velocity_history is within [lo, hi]. With strategy zero the clamp is ignored, so the guarantee fails.", "quantifier": "every run, objective, draw", "why_tests_cant": "all trajectories", "anchors": ["pyswarms/backend/handlers.py:VelocityHandler", "pyswarms/backend/generators.py:generate_velocity"]}
{"id": "C23", "title": "vh_strategy='adjust' freezes the swarm", "statement": "In GlobalBestPSO, LocalBestPSO and GeneralOptimizerPSO with vh_strategy='adjust' (no clamp, or a clamp containing 0) and an initial swarm inside the bounds, every particle stays at its initial position in every iteration and all computed velocities are 0: the returned position is one of the initial ones.", "quantifier": "every objective, run length, options and draw", "why_tests_cant": "needs induction over iterations; a short test would not distinguish slow convergence", "anchors": ["pyswarms/backend/handlers.py:VelocityHandler.adjust", "pyswarms/single/global_best.py:GlobalBestPSO.optimize"]}
{"id": "C24", "title": "invert flips and shrinks offending velocities, once per violated side", "statement": "The invert strategy multiplies the velocity of a particle by -z if it violates only lower or only upper bounds, by z^2 if it violates both kinds, and leaves others unchanged (before clamping). During a bounded optimize() with in-bounds positions, invert behaves exactly as unmodified.", "quantifier": "every position/velocity/bounds", "why_tests_cant": "all matrices and runs", "anchors": ["pyswarms/backend/handlers.py:VelocityHandler.invert"]}
{"id": "C25", "title": "invert and zero need bounds", "statement": "With vh_strategy 'invert' or 'zero' and no bounds (always the case in BinaryPSO), optimize() with iters >= 1 never returns normally: it raises TypeError in its first iteration if the objective and topology succeed.", "quantifier": "every objective, options, draws", "why_tests_cant": "all configurations", "anchors": ["pyswarms/backend/handlers.py:VelocityHandler.invert", "pyswarms/backend/handlers.py:VelocityHandler.zero", "pyswarms/discrete/binary.py:BinaryPSO.optimize"]}
{"id": "C26", "title": "Velocity and position update equations", "statement": "Without clamp and bounds, one iteration of optimize changes each coordinate to x + w*v + c1*r1*(pbest - x) + c2*r2*(best - x) with r1, r2 in [0,1) and velocity becomes the increment; best is the swarm best for Star and the neighbourhood best of that particle otherwise. Missing c1, c2 or w raises KeyError.", "quantifier": "every state, option values and draws", "why_tests_cant": "all reals", "anchors": ["pyswarms/backend/operators.py:compute_velocity", "pyswarms/backend/operators.py:compute_position"]}
{"id": "C27", "title": "Early stopping happens exactly when ftol_iter consecutive relative changes are small", "statement": "optimize(iters) performs iteration i+1 unless i+1 = iters, or i >= ftol_iter and each of the last ftol_iter best-cost changes was below ftol*(1+|previous best|). Hence it records at least min(iters, ftol_iter+1) entries and exactly iters entries when ftol <= 0 (including the default -inf).", "quantifier": "every objective, ftol, ftol_iter, iters, draw", "why_tests_cant": "all runs and tolerance values including inf/NaN costs", "anchors": ["pyswarms/single/global_best.py:GlobalBestPSO.optimize", "pyswarms/single/local_best.py:LocalBestPSO.optimize", "pyswarms/single/general_optimizer.py:GeneralOptimizerPSO.optimize", "pyswarms/discrete/binary.py:BinaryPSO.optimize"]}
{"id": "C28", "title": "Histories are complete and aligned", "statement": "After any sequence of optimize calls that return, the five history lists have equal length, the number of objective evaluations since reset equals that length, entry t of pos_history is the matrix passed to the t-th evaluation, and each call adds at most iters entries.", "quantifier": "every sequence of calls", "why_tests_cant": "all histories", "anchors": ["pyswarms/base/base_single.py:SwarmOptimizer._populate_history", "pyswarms/base/base_discrete.py:DiscreteSwarmOptimizer._populate_history"]}
{"id": "C29", "title": "reset() restores the freshly constructed state", "statement": "optimize() after reset() gives the same result, trajectory and histories as on a newly constructed optimizer given the same random draws, for GlobalBestPSO, BinaryPSO and any dynamic topology; with a static topology this fails because the neighbours survive the reset.", "quantifier": "every history before the reset, every objective and draw", "why_tests_cant": "all prior histories", "anchors": ["pyswarms/base/base_single.py:SwarmOptimizer.reset", "pyswarms/base/base_discrete.py:DiscreteSwarmOptimizer.reset"]}
{"id": "C30", "title": "Parallel evaluation returns the same costs as serial evaluation", "statement": "For an objective that computes each particle's cost from its own position, compute_objective_function with a pool of any size and any completion order returns exactly the serial result; consequently optimize(n_processes=m) equals optimize(n_processes=None). If nothing is known about what the objective does with an array without rows, this holds for at most as many processes as particles; with more processes an objective that raises on the array without rows makes optimize raise, although serial evaluation succeeds.", "quantifier": "every number of processes, particles, schedule", "why_tests_cant": "all schedules and splits (including more processes than particles)", "anchors": ["pyswarms/backend/operators.py:compute_objective_function"]}
{"id": "C31", "title": "The cost decorator vectorises", "statement": "A cost function decorated with @cost returns, for any number of particles, the vector of its values on the rows in order when these are all scalars, and raises ValueError when they are equally shaped non-scalars; decorated functions satisfy the hypothesis of the parallel-evaluation property.", "quantifier": "every cost function and particle matrix", "why_tests_cant": "all cost functions", "anchors": ["pyswarms/utils/decorators/decorators.py:cost"]}
{"id": "C32", "title": "Degenerate runs fail loudly", "statement": "In at least two dimensions GlobalBestPSO.optimize raises ValueError if the first evaluation contains no cost below +inf (and is otherwise unobstructed), and every optimizer raises AttributeError for iters=0 on a fresh instance; LocalBestPSO does not fail on all-inf evaluations.", "quantifier": "every objective with that behaviour", "why_tests_cant": "all objectives/draws", "anchors": ["pyswarms/backend/topology/star.py:Star.compute_gbest", "pyswarms/single/global_best.py:GlobalBestPSO.optimize"]}
{"id": "C33", "title": "Options handling preserves keys and the user's dictionary", "statement": "OptionsHandler returns a dictionary with exactly the same keys in the same order; options without a strategy keep their value, and the new value of an option depends only on the start options, so repeated calls do not drift.", "quantifier": "every options dictionary and strategy dictionary", "why_tests_cant": "all dictionaries and call sequences", "anchors": ["pyswarms/backend/handlers.py:OptionsHandler.__call__"]}
{"id": "C34", "title": "lin_variation and nonlin_mod interpolate monotonically from start to end", "statement": "For 0 <= iternow <= itermax, itermax > 0, lin_variation and nonlin_mod (n > 0) return start at iternow=0, end at iternow=itermax, values between them otherwise, monotone in iternow.", "quantifier": "all start/end values, all iteration numbers, all modulation indices n > 0", "why_tests_cant": "all reals", "anchors": ["pyswarms/backend/handlers.py:OptionsHandler.lin_variation", "pyswarms/backend/handlers.py:OptionsHandler.nonlin_mod"]}
{"id": "C35", "title": "exp_decay decays monotonically but does not stay between start and end", "statement": "With d2 > 0, exp_decay is monotone in iternow, with range between (start-end-d1)*e^(1/(1+d2)) and (start-end-d1)*e; it is strictly negative at all iterations whenever start - end < d1, in particular always for c2 with the default end value.", "quantifier": "all start/end values and iteration numbers", "why_tests_cant": "all reals", "anchors": ["pyswarms/backend/handlers.py:OptionsHandler.exp_decay"]}
{"id": "C36", "title": "The options strategy 'random' cannot be used in the built-in optimizers", "statement": "If oh_strategy maps any present option to 'random', optimize() with iters >= 1 never returns normally: it raises KeyError at the first options update.", "quantifier": "every objective, options and draws", "why_tests_cant": "all configurations", "anchors": ["pyswarms/backend/handlers.py:OptionsHandler.random", "pyswarms/single/global_best.py:GlobalBestPSO.optimize"]}
{"id": "C37", "title": "Initial positions respect the bounds", "statement": "generate_swarm with bounds and center=1 returns positions in [lb, ub) for every draw; a supplied init_pos is accepted iff bounds is None or every coordinate is within bounds (otherwise ValueError), and is then returned as is. With center != 1 the in-bounds guarantee fails. Accordingly an optimizer (other than BinaryPSO) given init_pos raises ValueError at construction if it is outside the bounds; otherwise init_pos is where the swarm starts after construction and after every reset, and what the objective sees first.", "quantifier": "every bounds, init_pos, draw", "why_tests_cant": "all draws", "anchors": ["pyswarms/backend/generators.py:generate_swarm"]}
{"id": "C38", "title": "Initial velocities respect the clamp", "statement": "generate_velocity returns values in [lo, hi) for clamp=(lo, hi) with lo < hi, and in [0, 1) without clamp.", "quantifier": "every clamp and draw", "why_tests_cant": "all draws", "anchors": ["pyswarms/backend/generators.py:generate_velocity"]}
{"id": "C39", "title": "BinaryPSO only ever evaluates 0/1 positions", "statement": "If the initial positions are 0/1 (always when generated), each position evaluated by BinaryPSO and the returned position consist of 0s and 1s; a bit is 1 iff the draw is below sigmoid(velocity).", "quantifier": "every run, objective, draw", "why_tests_cant": "all trajectories", "anchors": ["pyswarms/discrete/binary.py:BinaryPSO._compute_position"]}
{"id": "C40", "title": "BinaryPSO particles share one threshold per dimension", "statement": "In each BinaryPSO position update, if particle i's velocity is at most particle j's in some dimension then bit i <= bit j there; particles with equal velocities get equal positions.", "quantifier": "every velocity matrix and draw", "why_tests_cant": "all draws", "anchors": ["pyswarms/discrete/binary.py:BinaryPSO._compute_position"]}
{"id": "C41", "title": "Discrete initial swarms", "statement": "generate_discrete_swarm generates rows that are permutations of 0..dimensions-1 (binary=False) or 0/1 matrices (binary=True) and accepts an init_pos with binary=True iff it has at most two distinct values (which need not be 0 and 1).", "quantifier": "every size and draw", "why_tests_cant": "all draws", "anchors": ["pyswarms/backend/generators.py:generate_discrete_swarm"]}
{"id": "C42", "title": "GridSearch enumerates the full cartesian product", "statement": "GridSearch.generate_grid returns every combination of the listed values exactly once per tuple of list positions: its length is the product of the list lengths, and a dict is in the grid iff it has the option keys and each value comes from the corresponding list.", "quantifier": "every options dictionary", "why_tests_cant": "all dictionaries", "anchors": ["pyswarms/utils/search/grid_search.py:GridSearch.generate_grid"]}
{"id": "C43", "title": "search returns an optimal grid point", "statement": "SearchBase.search returns a grid point whose score is minimal (maximal with maximum=True) over the grid, the first such one, together with that score; each grid point is scored exactly once in order; an empty grid raises ValueError.", "quantifier": "every grid and scoring behaviour", "why_tests_cant": "all grids/scores", "anchors": ["pyswarms/utils/search/base_search.py:SearchBase.search"]}
{"id": "C44", "title": "RandomSearch samples within the given ranges", "statement": "RandomSearch.generate_grid returns n_selection_iters dicts whose c1, c2, w lie in [low, high), k is an integer in [low, high) and p is the given constant; all five keys are required: an options dict without one of them raises KeyError, and so does one with an unknown key. In double precision the values are doubles between the two ends, both included (the upper end can be reached: c1 = 5.0 with the documentation's range [1, 5]).", "quantifier": "every options dictionary and draw", "why_tests_cant": "all draws", "anchors": ["pyswarms/utils/search/random_search.py:RandomSearch.generate_grid"]}
{"id": "C45", "title": "Benchmark functions accept exactly their documented domain", "statement": "Each benchmark function raises IndexError iff it is two-dimensional only and the input does not have two columns, otherwise raises ValueError iff some coordinate is outside its documented domain, otherwise returns one value per particle.", "quantifier": "every input matrix", "why_tests_cant": "all reals, boundary values included", "anchors": ["pyswarms/utils/functions/single_obj.py"]}
{"id": "C46", "title": "Benchmark functions have the documented global minima", "statement": "sphere, rosenbrock, booth, beale, himmelblau, matyas, goldstein, threehump, bukin6, rastrigin, ackley, easom, schaffer2 and levi attain their documented minimum value at the documented point and are nowhere lower on their domain (in any dimension for the n-dimensional ones; rosenbrock in one dimension is constantly 0). crossintray attains its global minimum exactly at the four points with |x| = |y| = arctan(pi*sqrt 2); point and value agree with the documented 1.34941 and -2.06261 to the last digit. holdertable has the same value at its four documented points; it agrees with the documented -19.2085 to the last digit and no point of the domain is lower by more than 1e-7. eggholder: the documented value -959.6407 is the global minimum to the last digit; it is taken at (512, 404.2319). The documented point (512, 404.3219) has swapped digits: the value there is above -959.632.", "quantifier": "every point of the domain, every dimension", "why_tests_cant": "all reals", "anchors": ["pyswarms/utils/functions/single_obj.py"]}
{"id": "C47", "title": "Benchmark functions evaluate each particle independently", "statement": "On valid input the i-th returned value depends only on row i, so evaluating a swarm equals evaluating each particle separately (and any split for parallel evaluation).", "quantifier": "every matrix and split", "why_tests_cant": "all matrices", "anchors": ["pyswarms/utils/functions/single_obj.py"]}
{"id": "C48", "title": "Mesh and 3D history line up with the objective", "statement": "_mesh returns zz with zz[i][j] = func([x_j, y_i]) for row-wise functions, whether or not processes are used; compute_history_3d appends to each recorded position exactly the fitness of that position. If the function raises, the exception propagates.", "quantifier": "every limit, step, function and process count", "why_tests_cant": "index arithmetic for all sizes", "anchors": ["pyswarms/utils/plotters/plotters.py:_mesh", "pyswarms/utils/plotters/formatters.py:Mesher.compute_history_3d"]}
{"id": "C49", "title": "optimize never modifies arrays it has handed out or been given", "statement": "In any history of calls, however they end, no array of positions or velocities that exists at some moment - the arrays stored in pos_history/velocity_history, the user's init_pos, the arrays handed to the objective, any other array of the user - is modified afterwards by the optimizer, although these arrays are shared by reference; sharing has no visible effect on results. Excluded: an objective that itself writes into its argument (harmless only with n_processes). Direct handler calls modify at most the array they are given.", "quantifier": "every run, strategy combination and array aliasing", "why_tests_cant": "aliasing bugs show only for particular sharing patterns and later iterations", "anchors": ["pyswarms/backend/operators.py", "pyswarms/backend/handlers.py", "pyswarms/backend/swarms.py:Swarm"]}
{"id": "C50", "title": "An exception in the objective leaves a consistent optimizer", "statement": "If the objective raises at iteration t of a call, the exception propagates, the histories hold exactly the entries of the iterations completed before, bests are unchanged by the failed evaluation, and optimize can be called again; a process pool opened by the call is then not closed.", "quantifier": "every crash point", "why_tests_cant": "all crash points in all runs", "anchors": ["pyswarms/single/global_best.py:GlobalBestPSO.optimize", "pyswarms/backend/operators.py:compute_objective_function"]}
{"id": "C51", "title": "Trajectories are invariant under increasing transformations of the cost", "statement": "With ftol = -inf, replacing the objective f by g∘f with g strictly increasing (fixing +inf) leaves all positions, velocities and the returned position unchanged, and the returned cost is transformed by g.", "quantifier": "every objective, every strictly increasing g, every run", "why_tests_cant": "all objectives and runs", "anchors": ["pyswarms/single/global_best.py:GlobalBestPSO.optimize", "pyswarms/single/local_best.py:LocalBestPSO.optimize"]}
{"id": "C52", "title": "mean_pbest_history never increases within a call and dominates the best cost", "statement": "For a finite-valued objective, the entries that one optimize call appends to mean_pbest_history are finite and non-increasing, the last one is the arithmetic mean of the personal best costs held afterwards, and with a Star topology each is at least the entry appended to cost_history in the same iteration, on first and on later calls.", "quantifier": "every run with finite costs", "why_tests_cant": "all runs", "anchors": ["pyswarms/single/global_best.py:GlobalBestPSO.optimize"]}
{"id": "C53", "title": "Unknown strategies raise KeyError when (and only when) they are used", "statement": "An unknown bh_strategy raises KeyError at the first position update of a bounded run and is never noticed in an unbounded run; an unknown vh_strategy raises KeyError at the first velocity update; an unknown strategy for one of the options raises KeyError at the first options update (after one evaluation, before anything moves), while an oh_strategy entry for a key that is not among the options is never noticed.", "quantifier": "every strategy name", "why_tests_cant": "all strings", "anchors": ["pyswarms/backend/handlers.py:BoundaryHandler.__call__", "pyswarms/backend/handlers.py:VelocityHandler.__call__", "pyswarms/backend/operators.py:compute_position"]}
{"id": "C54", "title": "Invalid ftol_iter is rejected at construction", "statement": "Constructing an optimizer (with the options k and p present where they are required) succeeds only if ftol_iter is a positive int; it raises AssertionError iff ftol_iter is a number that is not a positive int, and TypeError if it cannot be compared with 0; hence in every run the stopping window is non-empty.", "quantifier": "every ftol_iter value", "why_tests_cant": "all values", "anchors": ["pyswarms/base/base_single.py:SwarmOptimizer.__init__", "pyswarms/base/base_discrete.py:DiscreteSwarmOptimizer.__init__"]}
{"id": "C55", "title": "Translating the problem translates the run", "statement": "For a continuous optimizer whose initial swarm comes from init_pos, or from the bounds with center=1: translating bounds, init_pos and objective by a vector translates every position of every sequence of calls by that vector (all boundary and velocity strategies), with identical velocities, costs, cost histories, stopping times and exceptions, given the same random numbers and neighbour queries answered alike.", "quantifier": "every objective, shift, configuration, sequence of optimize and reset calls, and draws", "why_tests_cant": "all runs", "anchors": ["pyswarms/backend/operators.py:compute_velocity", "pyswarms/backend/operators.py:compute_position"]}
{"id": "C56", "title": "Reporter configuration precedence", "statement": "Reporter uses the YAML file given as config_path, else the one named by LOG_CFG, else (or if the chosen file does not exist or does not contain a dictionary) the defaults logging to log_path (default report.log in the working directory), raising ValueError if that file cannot be opened; any other failure of the chosen file is raised. print emits iff verbosity > threshold, in call order; log always logs; hook raises iff no progress bar was created before.", "quantifier": "every combination of arguments, environment and file existence", "why_tests_cant": "decision table over all inputs", "anchors": ["pyswarms/utils/reporter/reporter.py:Reporter"]}
{"id": "C57", "title": "Random and Pyramid optimizers return a matching, optimal pair", "statement": "GeneralOptimizerPSO with the Random topology (static or dynamic) always, and with the Pyramid topology whenever the triangulation gives every particle a neighbour, returns from optimize(iters >= 1) the minimum of all costs evaluated in the call, and (unless that is +inf) a position that was evaluated to exactly it.", "quantifier": "every objective, history of calls, draw, graph and triangulation", "why_tests_cant": "depends on every random graph / triangulation and trajectory", "anchors": ["pyswarms/backend/topology/random.py:Random.compute_gbest", "pyswarms/backend/topology/pyramid.py:Pyramid.compute_gbest", "pyswarms/single/general_optimizer.py:GeneralOptimizerPSO.optimize"]}
{"id": "C58", "title": "A well-configured run always returns", "statement": "If the options, topology parameters and strategies given to the constructor are valid (c1, c2, w present; options schedules, if any, only for these and one of exp_decay, lin_variation, nonlin_mod; velocity strategy unmodified or adjust, or invert or zero with bounds; no bounds, or proper bounds with any boundary strategy, shrink needing a swarm that starts inside them; any topology, static or not, with k, p and r in range and more than one neighbour if static) and there is at least one particle and at least one iteration, then optimize always returns a (cost, position) pair: no exception can arise inside the library and the reflection loop ends, whatever positions and costs occur (including nan, and including +inf unless the topology is Star, which additionally needs each evaluation to have some cost below +inf).", "quantifier": "every particle count, dimension, objective that does not itself raise, sequence of random draws, number of iterations, and every state reachable by previous optimize and reset calls", "why_tests_cant": "a test exercises a handful of swarms and seeds; the claim excludes an exception at any iteration for any cost matrix, including nan and infinite costs", "anchors": ["pyswarms/single/global_best.py:GlobalBestPSO.optimize", "pyswarms/single/local_best.py:LocalBestPSO.optimize", "pyswarms/single/general_optimizer.py:GeneralOptimizerPSO.optimize", "pyswarms/discrete/binary.py:BinaryPSO.optimize", "pyswarms/backend/operators.py:compute_velocity", "pyswarms/backend/operators.py:compute_position"]}
{"id": "C59", "title": "mean_neighbor_history always equals cost_history", "statement": "In every state an optimizer can reach through the public API, mean_neighbor_history and cost_history are equal lists: the neighbour statistic recorded by the library is the scalar best cost and carries no information about neighbourhood means.", "quantifier": "all four optimizers, every configuration, objective, random draw and every finite sequence of optimize and reset calls, including calls that ended in an exception", "why_tests_cant": "the equality has to hold after every history of calls, including those interrupted by exceptions", "anchors": ["pyswarms/base/base_single.py:SwarmOptimizer._populate_history", "pyswarms/single/global_best.py:GlobalBestPSO.optimize", "pyswarms/single/local_best.py:LocalBestPSO.optimize", "pyswarms/discrete/binary.py:BinaryPSO.optimize"]}
{"id": "C60", "title": "Changing the units of the parameters changes nothing but the units", "statement": "If each parameter is measured in another unit (x -> scale*x + shift with positive scale, per dimension), with bounds, init_pos and velocity_clamp given in the new units and the objective reading the new units, then every run has the same costs, histories of costs, stopping times and exceptions, and its positions and velocities are the old ones in the new units, for every boundary and velocity strategy (same random numbers, neighbour queries answered alike; the initial swarm must itself be given in units: init_pos, or bounds with center=1, and a velocity clamp when scales differ from 1).", "quantifier": "every objective, scale, shift, configuration, sequence of optimize and reset calls, and draws", "why_tests_cant": "an identity between two whole executions for every objective, configuration and random sequence", "anchors": ["pyswarms/single/global_best.py:GlobalBestPSO.optimize", "pyswarms/single/local_best.py:LocalBestPSO.optimize", "pyswarms/single/general_optimizer.py:GeneralOptimizerPSO.optimize", "pyswarms/backend/operators.py:compute_velocity", "pyswarms/backend/operators.py:compute_position", "pyswarms/backend/handlers.py:BoundaryHandler", "pyswarms/backend/handlers.py:VelocityHandler"]}
{"id": "C61", "title": "No dimension is special", "statement": "Renaming the dimensions of a problem (bounds, init_pos, clamp, center, random numbers and objective) renames the dimensions of every position and velocity of a run and changes no cost, stopping time or exception; for all four optimizers including BinaryPSO.", "quantifier": "every permutation of the dimensions, objective, configuration, sequence of optimize and reset calls, and draws", "why_tests_cant": "an identity between two whole executions for every objective, permutation and random sequence", "anchors": ["pyswarms/single/global_best.py:GlobalBestPSO.optimize", "pyswarms/single/local_best.py:LocalBestPSO.optimize", "pyswarms/single/general_optimizer.py:GeneralOptimizerPSO.optimize", "pyswarms/backend/operators.py:compute_velocity", "pyswarms/backend/operators.py:compute_position", "pyswarms/backend/handlers.py:BoundaryHandler", "pyswarms/backend/handlers.py:VelocityHandler", "pyswarms/discrete/binary.py:BinaryPSO.optimize"]}
{"id": "C62", "title": "The documented hand-written loop is GlobalBestPSO", "statement": "Started from the same swarm with the same random numbers, the loop of the tutorial 'custom optimization loop' (create_swarm, compute_pbest, Star.compute_gbest/compute_velocity/compute_position with their defaults, calling the objective on positions and on personal best positions) produces after any number of passes exactly the swarm that GlobalBestPSO.optimize leaves (no bounds, clamp, schedule or early stopping), its best_cost is the cost optimize returns, and if one raises the other raises the same; the objective must depend on one particle at a time and never return nan: with nan the two differ.", "quantifier": "every per-particle objective without nan (possibly raising), options, initial swarm, random draws and number of iterations", "why_tests_cant": "an identity between two programs over all objectives, random sequences and iteration counts", "anchors": ["docs/examples/tutorials/custom_optimization_loop.ipynb", "pyswarms/single/global_best.py:GlobalBestPSO.optimize", "pyswarms/backend/topology/star.py:Star", "pyswarms/backend/operators.py:compute_pbest", "pyswarms/backend/generators.py:create_swarm"]}
{"id": "C63", "title": "Custom end values for time-varying options", "statement": "With end_opts, the options strategy 'random' gives a value between the start value and the end value (start+1 when no end value is given); in the options handler tutorial's optimize function every pass uses a dictionary with the same keys, options without a strategy keep their value, and options under lin_variation, nonlin_mod or random stay between start and the given end value, the first two starting exactly at start; with empty end_opts and no 'random' the tutorial function does exactly what GlobalBestPSO.optimize does. In the built-in optimizers only c1, c2 and w can be varied: if oh_strategy names another entry of the options (k, p, r, ...), with whatever strategy, no call with iters >= 1 returns, since there is no default end value. Entries of oh_strategy for names that are not among the options are ignored, whatever strategy they name. With lin_variation or nonlin_mod, scheduling c2 in a built-in optimizer changes nothing in any call, since its default end value is its start value; the same holds for w if it starts at 0.4.", "quantifier": "every options dictionary, strategy dictionary, end_opts, objective, random draws, number of iterations", "why_tests_cant": "quantifies over all schedules, iteration counts and random draws; an identity between two programs", "anchors": ["pyswarms/backend/handlers.py:OptionsHandler", "docs/examples/tutorials/options_handler.ipynb", "pyswarms/single/global_best.py:GlobalBestPSO.optimize"]}
{"id": "C64", "title": "What a velocity clamp allows in a run without bounds", "statement": "Without bounds and with velocity_clamp=(lo, hi), lo <= 0 <= hi (any velocity strategy but zero), the positions visited since construction or reset start at the initial positions and no coordinate changes by less than lo or more than hi between consecutive evaluations, so after k evaluations it is within k*lo and k*hi of its start. With the default velocity_clamp=(0, 1) of GridSearch and RandomSearch no coordinate ever decreases: the score of every GlobalBestPSO candidate is a value of the objective at a particle inside [0, iters)^d, wherever the minimum is.", "quantifier": "every objective (also failing), topology, options, clamp around 0, random draws and sequence of optimize calls", "why_tests_cant": "a reachability bound over all executions", "anchors": ["pyswarms/single/global_best.py:GlobalBestPSO.optimize", "pyswarms/single/local_best.py:LocalBestPSO.optimize", "pyswarms/single/general_optimizer.py:GeneralOptimizerPSO.optimize", "pyswarms/backend/operators.py:compute_velocity", "pyswarms/backend/operators.py:compute_position", "pyswarms/backend/handlers.py:VelocityHandler", "pyswarms/utils/search/base_search.py:SearchBase.generate_score"]}
{"id": "C65", "title": "Without inertia the swarm never leaves the box it started in", "statement": "With w=0, c1, c2 >= 0 and c1+c2 <= 1 (no bounds, any clamp around 0, default velocity handling), every position evaluated, recorded or kept as a personal best in any sequence of optimize calls lies in every box containing the initial positions; with inertia this is false.", "quantifier": "every topology, objective, options as stated, initial velocities, random draws and sequence of optimize calls", "why_tests_cant": "an invariant of all executions", "anchors": ["pyswarms/single/global_best.py:GlobalBestPSO.optimize", "pyswarms/single/local_best.py:LocalBestPSO.optimize", "pyswarms/single/general_optimizer.py:GeneralOptimizerPSO.optimize", "pyswarms/backend/operators.py:compute_velocity", "pyswarms/backend/operators.py:compute_position"]}
{"id": "C66", "title": "A fully connected neighbourhood search is the global-best search", "statement": "Build two optimizers with the same arguments and the same random draws, the first with the Star topology (GlobalBestPSO or GeneralOptimizerPSO), the second with a topology in which every particle is informed by the whole swarm: LocalBestPSO or Ring with k = n_particles >= 2, VonNeumann whose range reaches n_particles neighbours, Pyramid with at most as many particles as dimensions, Random with k = n_particles - 1. If the first evaluation gives some particle a cost below +inf and no two different positions evaluated by the Star run have the same cost below +inf, optimize has the same outcome on both: the same returned cost and position or the same exception, and the same final positions, velocities, personal bests and histories. With ties the runs can differ.", "quantifier": "every objective (including objectives that change or raise), configuration, swarm size, dimension, number of iterations, sequence of random draws, k-d tree answer and random choice", "why_tests_cant": "The claim compares two whole runs for every objective and every sequence of draws; a test compares one pair of runs, and the topologies share no code path with Star.", "anchors": ["pyswarms/backend/topology/star.py:Star.compute_gbest", "pyswarms/backend/topology/ring.py:Ring.compute_gbest", "pyswarms/backend/topology/von_neumann.py:VonNeumann.compute_gbest", "pyswarms/backend/topology/pyramid.py:Pyramid.compute_gbest", "pyswarms/backend/topology/random.py:Random.compute_gbest", "pyswarms/single/local_best.py:LocalBestPSO.optimize", "pyswarms/single/global_best.py:GlobalBestPSO.optimize"]}
{"id": "C67", "title": "Bounds and clamps survive floating-point rounding (except shrink)", "statement": "In IEEE binary64 arithmetic (every +, -, *, / rounded to nearest, ties to even), with bounds that are doubles and boundary strategy nearest, reflective, random, intermediate or periodic, an optimizer whose swarm was created inside the bounds (as create_swarm with center 1 does) evaluates, records and keeps only positions exactly inside the bounds. Velocities stay within velocity_clamp for every rounding whatsoever (strategy zero excepted). reflective returns if no proposed coordinate is further away than about 2^51 times the width of its dimension, and never returns if some coordinate is at least 2^56 times as large as both bounds, because 2*bound - x then rounds to -x. The strategy shrink, called with previous positions inside the bounds, can step out of them, by at most 2^-50 (|lb| + |ub|); but after such a step the next one can be shrunk by a huge negative factor, so that the objective is evaluated far outside (by 7 * 10^12 widths in the run exhibited).", "quantifier": "every configuration, objective, run length, sequence of calls and random samples k/2^53; all double bounds", "why_tests_cant": "rounding errors that leave the bounds occur for rare combinations of bounds and samples; the claim is about all of them", "anchors": ["pyswarms/backend/handlers.py:BoundaryHandler", "pyswarms/backend/generators.py:generate_swarm", "pyswarms/backend/operators.py:compute_position", "pyswarms/backend/operators.py:compute_velocity"]}
{"id": "C68", "title": "Best values do not depend on how arithmetic rounds", "statement": "Whatever the machine's arithmetic does in the velocity and position updates, the options schedule, the sigmoid, the means and the stopping test: personal bests are the first smallest evaluation of each particle in the call, cost_history of a Star optimizer is the running minimum of all evaluations, no NaN enters bests or cost_history, and the returned pair is matching and optimal under the same conditions as in exact arithmetic.", "quantifier": "every rounding function, mean, sigmoid and options schedule; every objective and run", "why_tests_cant": "a test observes one arithmetic and finitely many runs", "anchors": ["pyswarms/backend/operators.py:compute_pbest", "pyswarms/backend/topology/star.py:Star.compute_gbest", "pyswarms/single/global_best.py:GlobalBestPSO.optimize", "pyswarms/single/local_best.py:LocalBestPSO.optimize"]}
{"id": "C69", "title": "Velocity strategies compute the documented velocity", "statement": "unmodified returns the velocity with every component moved to the nearest value of the clamp; adjust returns the distance between the positions of two consecutive calls (clamped), except in its first call; zero stops a particle that is outside the bounds in any dimension, leaves the others alone and ignores the clamp. During a bounded optimize() with in-bounds positions, zero behaves exactly as unmodified without a clamp.", "quantifier": "every velocity, position, bounds, clamp and previous state of the handler; every run", "why_tests_cant": "all matrices, handler histories and runs", "anchors": ["pyswarms/backend/handlers.py:VelocityHandler.unmodified", "pyswarms/backend/handlers.py:VelocityHandler.adjust", "pyswarms/backend/handlers.py:VelocityHandler.zero"]}
{"id": "C70", "title": "GeneralOptimizerPSO with Star, Ring or VonNeumann is GlobalBestPSO or LocalBestPSO", "statement": "A GeneralOptimizerPSO built with a Star topology and a GlobalBestPSO built with the same other arguments behave identically: for the same random draws every call of optimize and reset returns the same value or raises the same exception and leaves the same swarm, histories and evaluations. The same holds for Ring and LocalBestPSO when options hold k and p. Without k or p they differ: LocalBestPSO raises KeyError when it is constructed, GeneralOptimizerPSO is constructed and raises TypeError in the first iteration. GeneralOptimizerPSO with VonNeumann and the options p and r behaves identically to LocalBestPSO(static=True) with p and k, where k is the Delannoy number of the number of dimensions and r.", "quantifier": "every configuration, objective, sequence of random draws and sequence of optimize and reset calls", "why_tests_cant": "equality of two implementations over all histories; the three optimize methods are separate copies of the loop", "anchors": ["pyswarms/single/general_optimizer.py:GeneralOptimizerPSO", "pyswarms/single/global_best.py:GlobalBestPSO", "pyswarms/single/local_best.py:LocalBestPSO", "pyswarms/backend/topology/von_neumann.py:VonNeumann.compute_gbest"]}
{"id": "C71", "title": "Particles are interchangeable", "statement": "Renumbering the particles (of init_pos, of the random draws and of the objective values) renumbers the whole run and changes nothing else: cost_history, mean histories (exact arithmetic), the outcome (value or exception) of every optimize call with iters >= 1 are the same; positions, velocities and personal bests are the renumbered ones. Condition: since the last reset all costs are below +inf and no two different positions had equal costs (argmin breaks ties by index). Neighbour lists are renumbered too.", "quantifier": "every permutation of the particles, configuration, objective and sequence of optimize and reset calls without ties", "why_tests_cant": "all permutations of all runs", "anchors": ["pyswarms/backend/operators.py", "pyswarms/backend/topology", "pyswarms/backend/handlers.py", "pyswarms/single/global_best.py:GlobalBestPSO.optimize"]}
{"id": "C72", "title": "A collapsed dimension never reopens", "statement": "Suppose that in some dimension all particles, personal bests and the swarm best have the same value a, all velocities are 0, and a is admissible (within the bounds, 0 within the velocity clamp). Then every later optimize() call, with whatever objective, random draws and exceptions, evaluates only positions with value a in that dimension, and the state stays collapsed: the search continues in the remaining dimensions only. If all dimensions have collapsed, every further evaluation is of the same single point. This holds for all boundary strategies but random, and for all velocity strategies; with random (which redraws the whole position of a particle that leaves the bounds in any dimension) the dimension can reopen. In particular init_pos with equal rows and velocity_clamp=(0, 0) never searches at all.", "quantifier": "every state in which a dimension has collapsed, every configuration, objective and sequence of optimize calls", "why_tests_cant": "unbounded number of later calls, all objectives and draws", "anchors": ["pyswarms/backend/operators.py:compute_velocity", "pyswarms/backend/operators.py:compute_position", "pyswarms/backend/handlers.py:BoundaryHandler", "pyswarms/backend/handlers.py:VelocityHandler", "pyswarms/single/global_best.py:GlobalBestPSO.optimize"]}
{"id": "C73", "title": "Where the swarm goes when nothing improves", "statement": "Run GlobalBestPSO (or GeneralOptimizerPSO with Star) without bounds, velocity clamp and time-varying options, from particles that are all already optimal (for example a flat objective), with independent uniform random coefficients. Then pos_history is one well-defined random process, whatever the number of iterations. If |w| < 1 and 0 < c1 + c2 < 4 (1 + w), the expected position of each particle converges to the average of its own best and the common best weighted with c1 and c2. If also (1 + w)(c1^2 + c2^2) < 3 (1 - w)(c1 + c2)(4 (1 + w) - (c1 + c2)), the second moments stay bounded, and a particle that already is at the common best converges to it in mean square and with probability 1. A particle whose own best differs from the common best never settles: the mean square distance to any fixed point stays above a positive constant. If c1 + c2 > 4 (1 + w) and w is not 0, the expected position of the best particle diverges in every dimension in which it has an initial velocity, although it starts at the minimum.", "quantifier": "all swarm sizes, dimensions, objectives whose starting points are minimisers, options in the stated ranges, run lengths, starting positions and velocities; all sequences of random numbers, with probability measured for independent uniform ones", "why_tests_cant": "Limits, expectations and almost-sure statements over infinite runs; a finite sample of runs can neither establish convergence nor exclude divergence.", "anchors": ["pyswarms/backend/operators.py:compute_velocity", "pyswarms/backend/operators.py:compute_position", "pyswarms/single/global_best.py:GlobalBestPSO.optimize", "pyswarms/base/base_single.py:SwarmOptimizer._populate_history"]}
{"id": "C74", "title": "The random choices have the documented distributions", "statement": "With ideal random numbers: a new optimizer with bounds places its particles independently and uniformly in the bounds, and draws its velocities uniformly in the clamp (in [0, 1] without one). The probability that no particle starts in a given box is (1 - share of the volume)^n_particles; so if the objective is at most c on that box, optimize of a star optimizer returns more than c with at most this probability, however long it runs and whatever the options. The velocity update has mean w v + c1 (p - x)/2 + c2 (g - x)/2 and variance (c1^2 (p - x)^2 + c2^2 (g - x)^2)/12 per coordinate. bh_strategy='random' puts a particle that left the bounds at a uniform point of the box. BinaryPSO sets bit j of a particle to 1 with probability sigmoid(v_j), independently over the dimensions, so every bit string has positive probability. RandomSearch misses a box of the (c1, c2, w) ranges with probability (1 - share)^n_selection_iters.", "quantifier": "all swarm sizes, dimensions, bounds, clamps, boxes, objectives, options, states, run lengths; probabilities over independent uniform random numbers", "why_tests_cant": "Probabilities of events over a continuum of random numbers; a test sees single samples, and statistical tests only estimate.", "anchors": ["pyswarms/backend/generators.py:generate_swarm", "pyswarms/backend/generators.py:generate_velocity", "pyswarms/backend/operators.py:compute_velocity", "pyswarms/backend/handlers.py:BoundaryHandler.random", "pyswarms/discrete/binary.py:BinaryPSO._compute_position", "pyswarms/utils/search/random_search.py:RandomSearch.generate_grid"]}
{"id": "C75", "title": "BinaryPSO with a velocity clamp reaches every bit string and finds the optimum", "statement": "With a velocity clamp and no early stopping, the probability that a given bit string is not among the positions evaluated by a call of BinaryPSO.optimize is at most (1 - q)^(iters - 1), where q > 0 depends only on the clamp and the string (the product over the bits of the least probability the clamp leaves them), whatever the start state, the objective, the coefficients drawn and the neighbourhoods. Hence almost surely every sufficiently long run evaluates it. If all particles are neighbours (k = n_particles), a call on a new optimizer returns the global minimum over all bit strings with probability at least 1 - (1 - q)^(iters - 1).", "quantifier": "all swarm sizes, dimensions, clamps, reachable states, objectives, coefficient draws, bit strings and numbers of iterations; thresholds are ideal independent uniform samples", "why_tests_cant": "A statement about a probability over infinitely many random histories, for every objective; a test sees one seed.", "anchors": ["pyswarms/discrete/binary.py:BinaryPSO.optimize", "pyswarms/discrete/binary.py:BinaryPSO._compute_position", "pyswarms/discrete/binary.py:BinaryPSO._sigmoid", "pyswarms/backend/operators.py:compute_velocity"]}
{"id": "C76", "title": "Plots show the recorded history", "statement": "plot_contour on a history with two columns and plot_surface on an array history with three columns show one frame per iteration, in order, each with exactly the points of that iteration. After a run in two dimensions, plot_surface of compute_history_3d(pos_history) shows in frame t every particle at the position evaluated in iteration t at the height of its cost. plot_cost_history shows one point per iteration, and with the Star topology its height at t is the best cost of the first t + 1 iterations. With the wrong number of columns plot_contour and plot_surface show empty frames without an exception, or fail at the first frame.", "quantifier": "all histories, numbers of iterations, particles and columns, runs, objectives and process counts", "why_tests_cant": "The existing tests only check that the plot functions return an object; the content of every frame for every history cannot be checked by examples.", "anchors": ["pyswarms/utils/plotters/plotters.py:plot_cost_history", "pyswarms/utils/plotters/plotters.py:plot_contour", "pyswarms/utils/plotters/plotters.py:plot_surface", "pyswarms/utils/plotters/plotters.py:_animate", "pyswarms/utils/plotters/formatters.py:Mesher.compute_history_3d"]}
{"id": "C77", "title": "An objective returning an array of the wrong shape never silently corrupts the swarm", "statement": "If the objective returns an array whose shape is not (), (1,) or (n_particles,), the iteration raises an exception, whatever the topology and the clamp; with Star it is a ValueError or IndexError. If optimize comes to its end, every evaluation had an accepted shape and positions, velocities and personal bests still have shape (n_particles, dimensions). With an accepted shape the run of GlobalBestPSO is the documented run in which every particle has the cost NumPy broadcasting gives it (one number for all particles, or one per particle): the same exception or the same arrays.", "quantifier": "all result shapes of any rank, all swarm sizes and dimensions, cost values, clamps, random numbers, numbers of iterations and (for the rejection) all topologies; strategy unmodified, no bounds", "why_tests_cant": "Broadcasting accepts or rejects each intermediate operation depending on coincidences between the sizes (n = d, d = 1, n = 1); tests only try matching shapes, and cannot range over all shapes and sizes.", "anchors": ["pyswarms/backend/operators.py:compute_pbest", "pyswarms/backend/operators.py:compute_velocity", "pyswarms/backend/operators.py:compute_position", "pyswarms/backend/topology/star.py:Star.compute_gbest", "pyswarms/single/global_best.py:GlobalBestPSO.optimize"]}
{"id": "C78", "title": "Which shapes of init_pos an optimizer accepts, and what it then does", "statement": "init_pos is not checked against n_particles and dimensions. A GlobalBestPSO without bounds and with init_pos of shape (m, e), m >= 1, and an objective returning one finite cost per row completes a call of optimize with at least one iteration if and only if n_particles is m or 1 and dimensions is e or 1. In every accepted case it runs exactly as an optimizer constructed with n_particles = m and dimensions = e and the same initial velocities stretched to that shape; otherwise it raises an exception in the first iteration.", "quantifier": "all n_particles, dimensions, shapes (m, e), initial positions and velocities, objectives with one finite cost per row, options, random numbers and numbers of iterations", "why_tests_cant": "The outcome depends on four sizes that must be compared in every combination, and on every later iteration keeping the same shapes.", "anchors": ["pyswarms/backend/generators.py:generate_swarm", "pyswarms/backend/generators.py:create_swarm", "pyswarms/backend/swarms.py:Swarm", "pyswarms/single/global_best.py:GlobalBestPSO.optimize", "pyswarms/backend/operators.py:compute_pbest"]}
{"id": "C79", "title": "Asking for more iterations only continues the run", "statement": "With constant hyper-parameters (no oh_strategy, or BinaryPSO) and the same random numbers, everything a call optimize(f, k) records - the five histories and the evaluations of the objective - is the beginning of what optimize(f, m) records for any m >= k, however the two calls end. If optimize(f, k) returns after fewer than k iterations (it converged), optimize(f, m) does exactly the same and returns the same pair. With a Star topology the cost returned by optimize(f, m) is never greater than the cost returned by optimize(f, k).", "quantifier": "all optimizers, object states, objectives (also iteration dependent and raising), random streams, tolerances, worker counts and all k <= m", "why_tests_cant": "Compares two whole executions for every pair of iteration counts, objective and random stream; tests compare a few seeds.", "anchors": ["pyswarms/single/global_best.py:GlobalBestPSO.optimize", "pyswarms/single/local_best.py:LocalBestPSO.optimize", "pyswarms/single/general_optimizer.py:GeneralOptimizerPSO.optimize", "pyswarms/discrete/binary.py:BinaryPSO.optimize", "pyswarms/backend/handlers.py:OptionsHandler"]}
{"id": "C80", "title": "Early stopping only truncates a run", "statement": "If a call of optimize with any ftol and ftol_iter returns, having recorded k iterations, then the same optimizer with ftol = -inf asked for exactly k iterations with the same random numbers records the same histories and evaluations and ends with the same current, personal best and best costs and positions; if that call returns too, it returns the same pair. The converging run is a prefix of the full run.", "quantifier": "all optimizers with constant hyper-parameters, object states, objectives, random streams, tolerances and windows, worker counts and iteration counts", "why_tests_cant": "The stop test must not influence anything recorded before it fires, in every history; a test compares single runs.", "anchors": ["pyswarms/single/global_best.py:GlobalBestPSO.optimize", "pyswarms/single/local_best.py:LocalBestPSO.optimize", "pyswarms/single/general_optimizer.py:GeneralOptimizerPSO.optimize", "pyswarms/discrete/binary.py:BinaryPSO.optimize"]}
{"id": "C81", "title": "Continuing a run is starting afresh from its last positions and velocities", "statement": "Take any optimizer object with ftol = -inf, whatever was done with it, and call optimize again so that the first evaluation gives costs below infinity. For Ring, VonNeumann, Pyramid, Random and BinaryPSO the call does exactly what it would do on a new object with the same positions, velocities and neighbour lists: same exception or result, the same new records (appended), the same final swarm. For Star this holds if the first evaluation improves on the remembered best cost, and need not hold otherwise: the remembered best cost is then returned.", "quantifier": "all optimizers, object states (in particular all reachable ones), objectives, random streams, worker counts and iteration counts >= 1", "why_tests_cant": "Requires that no field of the object other than positions and velocities (and the Star best) influences a later call, for every history of earlier calls.", "anchors": ["pyswarms/single/global_best.py:GlobalBestPSO.optimize", "pyswarms/single/local_best.py:LocalBestPSO.optimize", "pyswarms/single/general_optimizer.py:GeneralOptimizerPSO.optimize", "pyswarms/discrete/binary.py:BinaryPSO.optimize", "pyswarms/backend/operators.py:compute_pbest", "pyswarms/backend/topology/star.py:Star.compute_gbest"]}
{"id": "C82", "title": "Parameters the objective ignores do not disturb the others", "statement": "If the objective only looks at some of the parameters and its costs are below infinity, then, for GlobalBestPSO and GeneralOptimizerPSO with a Star or Random topology, boundary strategies nearest, intermediate and periodic and velocity strategies unmodified and adjust, the optimizer for all parameters, seen in the parameters that matter, behaves exactly like the optimizer constructed for those parameters alone with the same random numbers: same positions, velocities, personal bests, best positions, histories and evaluations in these parameters, same costs and outcomes. With the boundary strategies shrink and random this is false: an ignored parameter leaving its bounds moves the whole particle.", "quantifier": "all numbers of parameters and choices of those that matter, bounds, clamps, initial positions, objectives ignoring the other parameters, random streams and sequences of optimize and reset calls", "why_tests_cant": "Compares executions of two optimizers of different dimension for every objective, random stream and sequence of calls.", "anchors": ["pyswarms/single/global_best.py:GlobalBestPSO.optimize", "pyswarms/single/general_optimizer.py:GeneralOptimizerPSO.optimize", "pyswarms/backend/operators.py:compute_velocity", "pyswarms/backend/operators.py:compute_position", "pyswarms/backend/handlers.py:BoundaryHandler", "pyswarms/backend/handlers.py:VelocityHandler", "pyswarms/backend/topology/star.py:Star", "pyswarms/backend/topology/random.py:Random"]}
{"id": "C83", "title": "No direction is special", "statement": "Measure some parameters in the opposite direction (x becomes -x), in the bounds, the velocity clamp, init_pos and the objective, and start from the mirrored initial swarm. For the continuous optimizers with boundary strategies nearest, reflective, shrink, intermediate and periodic and velocity strategies unmodified, adjust and zero, the mirrored optimizer can be constructed as well and with the same random numbers, after any calls, all its positions, velocities, best positions and histories are the mirror images of the original ones, all costs are the same and every further call has the same outcome with the returned position mirrored. For the velocity strategy invert and the boundary strategy random this is false: they treat \"too low\" and \"too high\" differently for the whole particle.", "quantifier": "all sets of mirrored parameters, continuous optimizers with proper bounds and clamp (initial positions from init_pos or from the bounds with center = 1), objectives, random streams and sequences of optimize and reset calls", "why_tests_cant": "Compares two whole executions for every objective, random stream, strategy and sequence of calls; tests run a few seeds in one orientation.", "anchors": ["pyswarms/single/global_best.py:GlobalBestPSO.optimize", "pyswarms/single/local_best.py:LocalBestPSO.optimize", "pyswarms/single/general_optimizer.py:GeneralOptimizerPSO.optimize", "pyswarms/backend/generators.py:generate_swarm", "pyswarms/backend/generators.py:generate_velocity", "pyswarms/backend/handlers.py:BoundaryHandler", "pyswarms/backend/handlers.py:VelocityHandler"]}
{"id": "C84", "title": "With moderate coefficients the swarm cannot explode", "statement": "Take a continuous optimizer without bounds, velocity clamp and time-varying options, with 0 <= w < 1, c1, c2 >= 0 and (c1 + c2)(1 + w) < 2(1 - w)^2, and an objective whose points not strictly worse than the starting points lie in [lo, hi] in every coordinate. Then no position evaluated, recorded or left in the swarm by a call of optimize on a new optimizer has a coordinate beyond a radius that depends only on c1, c2, w, lo, hi and the size of the initial velocities. The options of the documentation (c1 = 0.5, c2 = 0.3, w = 0.9) are not moderate: there are random numbers for which GlobalBestPSO minimising x^2 from 0 evaluates positions beyond every bound.", "quantifier": "all numbers of particles, dimensions and iterations, topologies, objectives (also raising), random numbers in [0, 1) and worker counts; the radius is chosen before all of these", "why_tests_cant": "Bounds every run for every sequence of random numbers; a resonance needs random numbers that a test practically never draws.", "anchors": ["pyswarms/backend/operators.py:compute_velocity", "pyswarms/backend/operators.py:compute_position", "pyswarms/backend/operators.py:compute_pbest", "pyswarms/single/global_best.py:GlobalBestPSO.optimize", "pyswarms/single/local_best.py:LocalBestPSO.optimize", "pyswarms/single/general_optimizer.py:GeneralOptimizerPSO.optimize"]}
{"id": "C85", "title": "The random numbers of a run are fixed by the seed, not by the objective", "statement": "If the objective does not itself use NumPy's global generator, the random numbers each iteration of optimize reads, and the state in which a call that returns leaves the generator, depend only on the configuration, the state of the generator before the call and the number of completed iterations: not on the objective, the costs, the positions or n_processes. Except with the Random topology, every iteration reads exactly 2*n*d consecutive doubles (plus d for BinaryPSO, plus 2*d with bounds and bh_strategy 'random'), in a fixed order, and creating an optimizer reads the numbers of two swarms, reset those of one (first the positions unless init_pos is given, then the velocities, row by row; a reset that raises reads nothing). Hence two objectives compared after the same np.random.seed meet the same random numbers; after the same seed more iterations only continue a run (no oh_strategy) and early stopping only truncates it. An objective that reads the generator changes the run even if its costs do not change. Conversely every seeded history, also with objectives that read the generator, is a history with freely chosen random numbers, so whatever holds for all of the latter holds after every seed.", "quantifier": "all configurations (all optimizer classes, topologies and strategies), generators, objectives (also raising), optimizer objects, iteration counts and worker counts; the numbers are chosen before the objective", "why_tests_cant": "Compares all pairs of objectives for every seed; a test compares two runs.", "anchors": ["pyswarms/backend/operators.py:compute_velocity", "pyswarms/backend/generators.py:create_swarm", "pyswarms/backend/handlers.py:BoundaryHandler.random", "pyswarms/backend/handlers.py:OptionsHandler.random", "pyswarms/backend/topology/random.py:Random", "pyswarms/discrete/binary.py:BinaryPSO._compute_position", "pyswarms/single/global_best.py:GlobalBestPSO.optimize"]}
{"id": "C86", "title": "A hyperparameter search gives every place of its grid its own fixed random numbers", "statement": "Suppose the objective does not itself use NumPy's global generator, the topology is not Random, and runs do not stop early (the search never sets ftol). Then, given the state of the generator when the grid has been generated (for GridSearch the state before the call; RandomSearch first draws its grid), the random numbers of the initial swarm and of every iteration of the candidate at place k of the grid do not depend on the grid, the option values or the objective, and so is the state in which a search that returns leaves the generator: for a continuous optimizer it has read the same number of doubles per candidate, namely those of two swarms plus iters times those of one iteration. Hence the score of a candidate depends on its own options and its place, not on the options of the other candidates: two searches from the same state, over grids that agree at one place, give the same score there. The candidates are not compared on common random numbers: a combination that occurs twice can get two different scores.", "quantifier": "all optimizer configurations (any bounds, clamp, strategies; topology other than Random), generators, seeds, objectives (also raising), grids of any length, option values and iteration counts", "why_tests_cant": "Relates all pairs of grids for every seed and objective; a test runs one search.", "anchors": ["pyswarms/utils/search/base_search.py:SearchBase.search", "pyswarms/utils/search/base_search.py:SearchBase.generate_score", "pyswarms/backend/generators.py:create_swarm", "pyswarms/single/global_best.py:GlobalBestPSO.optimize", "pyswarms/single/local_best.py:LocalBestPSO.optimize"]}
{"id": "C87", "title": "Information spreads by one neighbourhood per iteration", "statement": "With a topology that computes its neighbour lists once (Ring, Pyramid or Random with static=True, VonNeumann; so LocalBestPSO and GeneralOptimizerPSO), and an objective whose cost of a particle depends only on that particle's position, the position and velocity of a particle at evaluation t of a call depend only on the costs, in earlier evaluations, of the particles that can be reached from it by at most t steps along the neighbour lists. Two calls on the same object with the same random numbers and objectives that agree on these particles give the particle the same position and velocity at evaluation t, whatever happens to the others, also when either call raises later. A group of particles whose neighbour lists stay within the group never notices the rest of the swarm. With Random(static=False), whose lists are drawn anew in every iteration, the same holds with steps along the lists of successive iterations. The delay is sharp.", "quantifier": "all swarm sizes and dimensions, configurations (bounds, clamps, boundary, velocity and options strategies), optimizer objects with any history, objectives (also changing with the iteration, also raising), random numbers and iteration counts; for the dynamic Random topology, every sequence of drawn lists", "why_tests_cant": "Compares all pairs of objectives over unbounded iteration counts and all neighbour graphs.", "anchors": ["pyswarms/backend/topology/ring.py:Ring.compute_gbest", "pyswarms/backend/topology/von_neumann.py:VonNeumann.compute_gbest", "pyswarms/backend/topology/pyramid.py:Pyramid.compute_gbest", "pyswarms/backend/topology/random.py:Random.compute_gbest", "pyswarms/backend/operators.py:compute_velocity", "pyswarms/backend/handlers.py:BoundaryHandler", "pyswarms/backend/handlers.py:VelocityHandler", "pyswarms/single/local_best.py:LocalBestPSO.optimize", "pyswarms/single/general_optimizer.py:GeneralOptimizerPSO.optimize"]}
{"id": "C88", "title": "The data type of init_pos decides whether a run is possible", "statement": "Floating point init_pos arrays (for BinaryPSO also signed integers, and always without init_pos) give exactly the runs that exact numbers give, over any sequence of calls. An integer init_pos is accepted by the constructors of GlobalBestPSO, LocalBestPSO and GeneralOptimizerPSO, but then every call of optimize with at least one iteration raises, on this and on any later call and after any reset: with TypeError after exactly one evaluation whenever nothing else is wrong; the positions never change. The same holds for a boolean init_pos, also in BinaryPSO. With vh_strategy='adjust' and no clamp integers are accepted, because then nothing moves. An unsigned init_pos in BinaryPSO silently turns an attraction towards 0 into one of 2**bits - 1 upwards in the first iteration.", "quantifier": "all swarm sizes, dimensions, configurations, objectives (also raising), random numbers and sequences of optimize and reset calls; data types bool, unsigned integers of any width, int64, float32, float64", "why_tests_cant": "Ranges over every configuration and history; a test fixes one array and one history.", "anchors": ["pyswarms/backend/operators.py:compute_position", "pyswarms/backend/operators.py:compute_velocity", "pyswarms/backend/operators.py:compute_pbest", "pyswarms/backend/generators.py:generate_swarm", "pyswarms/backend/generators.py:generate_discrete_swarm", "pyswarms/backend/handlers.py:VelocityHandler.adjust", "pyswarms/single/global_best.py:GlobalBestPSO.optimize", "pyswarms/discrete/binary.py:BinaryPSO.optimize", "pyswarms/discrete/binary.py:BinaryPSO._compute_position"]}
{"id": "C89", "title": "With the default clamp of a search, the initial positions decide everything on upward-growing objectives", "statement": "GridSearch and RandomSearch build their optimizers with velocity_clamp=(0, 1) unless told otherwise. Without bounds, and with an objective that does not decrease when non-negative coordinates grow (e.g. the sphere function), the personal bests then stay the initial positions for the whole run, whatever the options, the topology, the random numbers and the number of iterations; GlobalBestPSO (and LocalBestPSO when its neighbour lists cover the swarm) returns the smallest cost of an initial position. So the score of a combination depends only on the initial positions drawn for it, and for every seed and every number of combinations there are one place and one score such that every search over that many combinations, with any values in them, returns that score and the combination at that place.", "quantifier": "all swarm sizes, dimensions, non-negative starting positions, upward-growing objectives, options, topologies (where stated), iteration counts, random numbers; all seeds, all grids of a given length and both directions of the search", "why_tests_cant": "Ranges over every grid and every seed; a test sees one winner and cannot tell that no other value could have changed it.", "anchors": ["pyswarms/utils/search/base_search.py:SearchBase.__init__", "pyswarms/utils/search/base_search.py:SearchBase.generate_score", "pyswarms/utils/search/base_search.py:SearchBase.search", "pyswarms/utils/search/grid_search.py:GridSearch.__init__", "pyswarms/utils/search/random_search.py:RandomSearch.__init__", "pyswarms/backend/handlers.py:VelocityHandler.unmodified", "pyswarms/backend/generators.py:generate_swarm", "pyswarms/backend/operators.py:compute_pbest"]}
{"id": "C90", "title": "Which forms of bounds (arrays, lists, single numbers) work depends on the boundary strategy", "statement": "The values of bounds can be given as arrays or lists of length dimensions, as arrays or lists of one number, or as plain numbers; nothing checks the form. A call of optimize with another form than arrays of shape (dimensions,) does exactly the same as with arrays, except that it may raise at a step that upsets the strategy: for reflective any proposed coordinate outside the bounds, with lists or numbers (TypeError); for reflective, shrink, intermediate and periodic a coordinate other than the first outside bounds of length one (IndexError); a call that returns never proposed such a step. With lists or numbers the strategies shrink and intermediate never work: every call of optimize with at least one iteration raises after at most one evaluation, without moving, with TypeError whenever arrays would have let it return; the same for random with plain numbers. nearest with every form, random with everything except plain numbers, and periodic (the default) with lists are indistinguishable from arrays over every sequence of calls. Plain numbers without init_pos make the constructor raise IndexError.", "quantifier": "all swarm sizes, dimensions, bounds, strategies, configurations, objectives (also raising), random numbers and sequences of calls; five forms, the same for the lower and the upper bound", "why_tests_cant": "Whether a list of bounds works shows only when a particle leaves the bounds; a test run that stays inside passes, and the statement ranges over all runs.", "anchors": ["pyswarms/backend/handlers.py:BoundaryHandler", "pyswarms/backend/handlers.py:HandlerMixin._out_of_bounds", "pyswarms/backend/operators.py:compute_position", "pyswarms/backend/generators.py:generate_swarm", "pyswarms/base/base_single.py:SwarmOptimizer.reset", "pyswarms/single/global_best.py:GlobalBestPSO.optimize", "pyswarms/single/local_best.py:LocalBestPSO.optimize", "pyswarms/single/general_optimizer.py:GeneralOptimizerPSO.optimize"]}
{"id": "C91", "title": "Which optimizers a hyperparameter search can be used with", "statement": "GridSearch(...) raises TypeError exactly when its optimizer has no attribute optimize, RandomSearch(...) also when n_selection_iters is no int; both accept all four optimizer classes and even an optimizer object. But search only ever returns with GlobalBestPSO, LocalBestPSO, or BinaryPSO without bounds, and then the score belongs to a run of that class built as documented with the returned combination, the bounds as bounds and the clamp as clamp, and the combination is the first optimal one of the grid. With GeneralOptimizerPSO every combination raises TypeError (the bounds arrive as the topology), with BinaryPSO and bounds every combination raises (the bounds arrive as init_pos: ValueError when they contain more than two different numbers, otherwise AttributeError), with LocalBestPSO or BinaryPSO a combination without k or p raises KeyError; in all these cases the objective is never called.", "quantifier": "all optimizer arguments, grids, options, bounds, clamps, swarm sizes, dimensions, objectives, iteration counts and random numbers", "why_tests_cant": "That a search with such an optimizer can never return, for any grid, bounds or objective, is a statement about all inputs.", "anchors": ["pyswarms/utils/search/base_search.py:SearchBase.assertions", "pyswarms/utils/search/base_search.py:SearchBase.generate_score", "pyswarms/utils/search/base_search.py:SearchBase.search", "pyswarms/utils/search/random_search.py:RandomSearch.assertions", "pyswarms/utils/search/grid_search.py:GridSearch.__init__", "pyswarms/single/general_optimizer.py:GeneralOptimizerPSO.__init__", "pyswarms/discrete/binary.py:BinaryPSO.__init__", "pyswarms/backend/generators.py:generate_discrete_swarm", "pyswarms/backend/swarms.py:Swarm"]}
{"id": "C92", "title": "What GeneralOptimizerPSO guarantees for a topology written by the user", "statement": "GeneralOptimizerPSO accepts any object derived from Topology. Whatever its three methods do (answer anything, keep state, draw random numbers, raise), an optimize call makes at most iters evaluations; every particle's personal best is the first best of its own evaluations in the call; cost_history and mean_neighbor_history receive exactly the costs the topology answered, in order, pos_history the evaluated positions, and the five histories grow by the same number of entries; the returned position is one evaluated in the call with a cost no evaluation of the call is below; the returned cost is the topology's answer to the last evaluation, whether or not any particle ever had that cost. If compute_gbest answers plain Python floats, the call makes its evaluations and then raises AttributeError. The library's own topologies are instances: same outcome, swarm, histories and evaluations.", "quantifier": "all topologies (functions with state), objectives, configurations, iteration counts, option schedules and earlier object states", "why_tests_cant": "It ranges over every possible user-written topology; tests can only try a few.", "anchors": ["pyswarms/single/general_optimizer.py:GeneralOptimizerPSO.optimize", "pyswarms/backend/topology/base.py:Topology", "pyswarms/backend/operators.py:compute_pbest", "pyswarms/base/base_single.py:SwarmOptimizer._populate_history"]}
{"id": "C93", "title": "The options dictionary is held by reference: changes in place are seen, and the library never writes into it", "statement": "An optimizer keeps the very dictionary it was constructed with. In any program that makes dictionaries, changes them in place, and constructs, runs and resets any number of optimizers that may share them: every optimize and reset call does exactly what it would do with the present content of the dictionary (c1, c2, w and, in GeneralOptimizerPSO, k, p, r; LocalBestPSO and BinaryPSO keep the k and p read by the constructor); no call changes a dictionary that existed before it; a change in place reaches every optimizer constructed with that dictionary and no other. swarm.options is the user's own dictionary if there is no options strategy and always in BinaryPSO; with a strategy a call makes it a new dictionary or leaves it. Assigning another dictionary to swarm.options between calls has no effect on GlobalBestPSO, LocalBestPSO and GeneralOptimizerPSO, but does have one on BinaryPSO.", "quantifier": "all programs (finite sequences of creating and changing dictionaries, constructing, optimize, reset) over any number of optimizers of one size, all objectives, draws, schedules, failing calls included", "why_tests_cant": "Aliasing shows only in particular orders of calls and changes; a test tries a few programs, the property ranges over all of them.", "anchors": ["pyswarms/base/base_single.py:SwarmOptimizer.__init__", "pyswarms/base/base_discrete.py:DiscreteSwarmOptimizer.__init__", "pyswarms/backend/handlers.py:OptionsHandler.__call__", "pyswarms/single/local_best.py:LocalBestPSO", "pyswarms/discrete/binary.py:BinaryPSO", "pyswarms/single/general_optimizer.py:GeneralOptimizerPSO.optimize"]}
{"id": "C94", "title": "Overflow: which strategies keep the evaluated positions inside the bounds when velocities become infinite", "statement": "In float64 arithmetic with infinities and nan, for a GlobalBestPSO with bounds of at most 2^1000 in absolute value and c1, c2 of at most 2^20: with bh_strategy 'nearest', 'random' or 'intermediate' and an inertia w that is never zero, every position handed to the objective consists of numbers inside the bounds, for every velocity strategy and after any history of calls, even when velocities have overflowed to inf; with a velocity clamp and vh_strategy 'unmodified', 'adjust' or 'invert' the same holds of 'periodic' (the default) too, for every w. Without a clamp it does not hold of 'periodic' and 'shrink': an infinite coordinate becomes nan and the objective is evaluated there. 'reflective' never returns once a coordinate is infinite. With a rounding that never overflows (unbounded exponent) a run with infinities and nan allowed is the run of the arithmetic without them.", "quantifier": "all swarm sizes, dimensions, moderate bounds and coefficients, inertias (arbitrarily large), objectives, draws, numbers of iterations and calls, failing ones included", "why_tests_cant": "Overflow takes very long runs or extreme options; a test sees a few of them and cannot show that no sequence of roundings leaves the bounds.", "anchors": ["pyswarms/backend/handlers.py:BoundaryHandler", "pyswarms/backend/handlers.py:VelocityHandler", "pyswarms/backend/operators.py:compute_velocity", "pyswarms/backend/operators.py:compute_position", "pyswarms/single/global_best.py:GlobalBestPSO.optimize"]}
{"id": "C95", "title": "nan in the initial position: refused with bounds, otherwise permanent, and confined or contagious depending on the objective", "statement": "GlobalBestPSO with bounds refuses an init_pos that contains nan with ValueError. Without bounds it accepts it and takes it as it is. A coordinate that is nan is nan in every later evaluation, through any number of calls (without bounds, or with the boundary strategies nearest, reflective, intermediate, periodic). If the objective answers nan for a particle with a nan coordinate, and nothing overflows, the nan coordinates of every evaluated swarm are exactly those of init_pos and the best position consists of numbers. If an iteration ends with a best position that has a nan coordinate (the objective does not look at it), that coordinate of every particle is nan in all following evaluations of the call, with vh_strategy 'unmodified' and 'invert'.", "quantifier": "all swarm sizes, dimensions, initial positions, options, objectives (stateful ones included), draws, numbers of iterations and calls; any rounding", "why_tests_cant": "The claim is about every later evaluation of every run, for all objectives and draws.", "anchors": ["pyswarms/backend/generators.py:generate_swarm", "pyswarms/single/global_best.py:GlobalBestPSO", "pyswarms/backend/operators.py:compute_pbest", "pyswarms/backend/operators.py:compute_velocity", "pyswarms/backend/topology/star.py:Star.compute_gbest"]}
{"id": "C96", "title": "Objectives that repair their argument in place work without n_processes, and only then", "statement": "If the objective writes into the array it is given, then after any history of calls and whatever was written: in a call of optimize without n_processes, however it ends, every personal best is the first of the particle's rows as the objective left them with the least cost of the call, and the returned position is such a row with the least cost of the call (unless no cost was below inf), so it satisfies whatever the repair guarantees. Of the user's arrays only init_pos can change: after the first call it holds what the objective left in its first evaluation, and a following reset starts from there (or raises ValueError if that is outside the bounds). pos_history shows the rows as left by the objective if all objectives repair alike and repairing twice is repairing once; otherwise it can be wrong after an early stop. With n_processes nothing is written back: the outcome is that of an objective that returns the same costs and writes nothing, and the returned position need not satisfy what the repair guarantees.", "quantifier": "all optimizer classes, configurations, swarm sizes, writing objectives (stateful or failing ones included), draws and histories of calls", "why_tests_cant": "The effect of a write depends on which of the shared arrays is current at that moment, through every sequence of iterations, early stops, exceptions, calls and resets.", "anchors": ["pyswarms/backend/operators.py:compute_objective_function", "pyswarms/backend/operators.py:compute_pbest", "pyswarms/backend/generators.py:create_swarm", "pyswarms/single/global_best.py:GlobalBestPSO.optimize", "pyswarms/base/base_single.py:SwarmOptimizer.reset"]}
{"id": "C97", "title": "When several optimizers may share a topology object", "statement": "Several GeneralOptimizerPSO objects of any sizes hold the same topology object and are called in any order. If it is a Star, or a Ring, Pyramid or Random with static=False, each optimizer is always in the state, and returns or raises what, it would with a topology object of its own. If it is static (or a VonNeumann), the neighbour lists of the first optimizer that completes an evaluation are used by all of them for ever: a call on an optimizer with as many particles is a call on an optimizer whose own topology holds these lists, and its result can differ from the one with an object of its own; every call of optimize on an optimizer with another number of particles raises (IndexError if the lists name a particle it does not have, otherwise ValueError) and moves nothing, unless the lists are those of a single particle: then every particle is drawn to the personal best of particle 0 and its cost is reported as the best cost. A Pyramid with no more particles than dimensions replaces the lists for all of them.", "quantifier": "all numbers of optimizers, swarm sizes, dimensions, configurations, interleavings of optimize and reset calls, objectives, draws and library answers", "why_tests_cant": "The claim is about every interleaving of calls on any number of optimizers that share hidden state.", "anchors": ["pyswarms/single/general_optimizer.py:GeneralOptimizerPSO", "pyswarms/backend/topology/base.py:Topology", "pyswarms/backend/topology/ring.py:Ring.compute_gbest", "pyswarms/backend/topology/pyramid.py:Pyramid.compute_gbest", "pyswarms/backend/topology/random.py:Random.compute_gbest", "pyswarms/backend/topology/star.py:Star.compute_gbest", "pyswarms/backend/topology/von_neumann.py:VonNeumann.compute_gbest"]}
{"id": "C98", "title": "Interrupting optimize or reset anywhere", "statement": "A KeyboardInterrupt (or any exception raised by a signal handler) may strike optimize or reset between any two attribute assignments, any number of times in the life of an optimizer. Whatever was interrupted: positions, personal bests, recorded and evaluated positions stay inside the bounds and velocities inside the clamp; a personal best cost below infinity belongs to a position the particle was evaluated at, with that cost or a smaller one; no best cost or cost_history entry is nan; recorded positions are evaluated positions in order; with a Star topology best_pos is an evaluated position with cost best_cost or smaller, and cost_history never increases. A later call of a working configuration returns, and with a Star topology it returns the smaller of best_cost and the smallest cost it evaluates, with a position it evaluated to that smallest cost. Without an interrupted reset the five history lists differ in length by at most the number of interrupted calls. A completed reset makes the object behave like a new one. What can be lost: the evaluations of the interrupted iteration, the agreement of best_pos with best_cost, and the alignment of the histories (for ever, until a reset).", "quantifier": "all configurations, histories of completed and interrupted optimize and reset calls, interruption points (after every single assignment), objectives and random numbers", "why_tests_cant": "A test interrupts a run at a few moments of its choice; the claim is about every crash point, and about every sequence of them.", "anchors": ["pyswarms/single/global_best.py:GlobalBestPSO.optimize", "pyswarms/single/local_best.py:LocalBestPSO.optimize", "pyswarms/single/general_optimizer.py:GeneralOptimizerPSO.optimize", "pyswarms/discrete/binary.py:BinaryPSO.optimize", "pyswarms/base/base_single.py:SwarmOptimizer.reset", "pyswarms/base/base_single.py:SwarmOptimizer._populate_history", "pyswarms/base/base_discrete.py:DiscreteSwarmOptimizer.reset"]}
{"id": "C99", "title": "Optimizers running in several threads", "statement": "Several threads of one process, each with its own optimizer and its own calls (construction, optimize, reset), share nothing but NumPy's global random generator, which serves the threads in an arbitrary order, one value at a time. Whatever the order: the outcome of a finished thread (the exception of its constructor, or the final state of its optimizer and what each of its optimize calls returned or raised) is one it could also have had by itself with some numbers in [0, 1), so everything that holds for all such runs (bounds, clamp, personal bests, costs, histories) holds in each thread. A thread that is served again and again finishes; no call waits for another thread. A thread that is alone behaves as the sequential program. But a seed does not make the runs repeatable: the same programs and the same seed give other results under another schedule.", "quantifier": "all numbers of threads, swarm sizes, configurations, sequences of calls per thread, objectives (which may draw random numbers themselves), generators and schedules", "why_tests_cant": "A test sees the few schedules the machine happens to produce; the claim is about every interleaving of the random draws of every family of programs.", "anchors": ["pyswarms/backend/generators.py:generate_swarm", "pyswarms/backend/generators.py:generate_velocity", "pyswarms/backend/generators.py:generate_discrete_swarm", "pyswarms/backend/operators.py:compute_velocity", "pyswarms/backend/handlers.py:BoundaryHandler.random", "pyswarms/backend/topology/random.py:Random.__compute_neighbors", "pyswarms/discrete/binary.py:BinaryPSO._compute_position", "pyswarms/single/global_best.py:GlobalBestPSO.optimize"]}
{"id": "C100", "title": "Programs written with the backend: bounds, and what swarms share", "statement": "A user writes a program with create_swarm, compute_velocity, compute_position, handler objects and options dictionaries: any number of swarms and any order of statements, exceptions caught or not. With boundary handlers other than shrink and intermediate, every swarm that is created with bounds (default center) and moved with the same bounds stays inside and is evaluated only inside, whatever its velocities and however the handlers are shared. With shrink and intermediate this holds, for common bounds, if handler.memory was set to the position of a swarm before the first use of the handler; without it the first use handles nothing, and a swarm can then be evaluated outside every time. A swarm that shares no handler with a memory (shrink, intermediate; adjust for velocities) and no dictionary that others write to behaves as if the other swarms were not there; a shared intermediate handler is felt. All swarms created without options share one dictionary: compute_velocity raises KeyError for all of them until something is written through one of them, and that is then seen by all, also by swarms created later.", "quantifier": "all programs (sequences of statements), numbers of swarms and handlers, bounds, options, velocities, user-written update rules and random numbers", "why_tests_cant": "A test runs one program; the claims range over all programs a user can write with these functions, and over all interleavings of the statements about several swarms.", "anchors": ["pyswarms/backend/generators.py:create_swarm", "pyswarms/backend/operators.py:compute_velocity", "pyswarms/backend/operators.py:compute_position", "pyswarms/backend/handlers.py:BoundaryHandler", "pyswarms/backend/handlers.py:VelocityHandler", "pyswarms/backend/swarms.py:Swarm", "docs/examples/tutorials/custom_optimization_loop.ipynb"]}
{"id": "C101", "title": "Objectives that use the optimizer they are evaluated for", "statement": "An objective may hold a reference to the optimizer (serial evaluation). If it only looks at the attributes, the call is an ordinary call with the objective that gives the same answers: same result, same final state; at evaluation j it sees the positions about to be evaluated, one history entry per finished evaluation, best_cost equal to the last of them, and as current_cost the costs of the previous evaluation. If an evaluation ends with reset() of the optimizer, the running call raises ValueError (unless the objective raises itself), and the optimizer is left newly reset. If objectives call optimize again, to any depth, still every position passed to an objective, every recorded position and every personal best is inside the bounds, velocities are inside the clamp, the five histories have the same length, personal best costs are costs returned for that particle, and with a Star topology best_cost and cost_history are the running minimum of all costs returned since the last reset. What is lost is the agreement of cost and position: the call can return a position that never had the returned cost.", "quantifier": "all objectives and programs (trees of looking, reset, optimize and returning, of any depth, depending on everything they see and on every result or exception), all configurations, random numbers and starting states", "why_tests_cant": "A test fixes one objective; the claims range over everything an objective can do with the methods of its optimizer, nested to any depth.", "anchors": ["pyswarms/backend/operators.py:compute_objective_function", "pyswarms/backend/operators.py:compute_pbest", "pyswarms/single/global_best.py:GlobalBestPSO.optimize", "pyswarms/single/local_best.py:LocalBestPSO.optimize", "pyswarms/single/general_optimizer.py:GeneralOptimizerPSO.optimize", "pyswarms/discrete/binary.py:BinaryPSO.optimize", "pyswarms/base/base_single.py:SwarmOptimizer.reset"]}
{"id": "C102", "title": "Which forms of velocity_clamp work", "statement": "velocity_clamp can be given as two numbers, lists or arrays, in any mixture; nothing checks the form. Two entries that Python can subtract (an array on one side, or two numbers), each holding one number or one per dimension, are indistinguishable from the two vectors they stand for, in the constructor and over every sequence of calls. A pair with a list and no array is refused by the constructor with TypeError, although optimize itself would treat it like the two vectors; if the attribute is set to such a pair later, reset() raises TypeError, clears the histories and keeps the old swarm. A single number raises TypeError; every other refused form (another number of entries, wrong lengths) raises ValueError.", "quantifier": "all forms (None, a number, sequences of any number of entries, each a number, list or array of any length), swarm sizes, dimensions (not 1 for the classification), configurations, objectives, random numbers and sequences of calls", "why_tests_cant": "A test fixes a few clamps and one run; the claims range over all mixtures, lengths, values and histories of calls.", "anchors": ["pyswarms/backend/generators.py:generate_velocity", "pyswarms/backend/generators.py:create_swarm", "pyswarms/backend/handlers.py:VelocityHandler", "pyswarms/base/base_single.py:SwarmOptimizer.reset", "pyswarms/base/base_discrete.py:DiscreteSwarmOptimizer.reset"]}
{"id": "C103", "title": "Keyword arguments reach the objective", "statement": "Whatever way the arguments of optimize itself are written (by position, by keyword, left out), every other keyword argument of the call is handed, with the same value and nothing added, to the objective in every evaluation of the run, serial or parallel, with each of the four optimizers: optimize(f, iters, a=1) is the run of lambda x: f(x, a=1). @cost passes them on for every particle. An objective with declared parameters sees the values passed or its defaults. The names objective_func, iters, n_processes and verbose belong to optimize; swarm and pool (and particles, with @cost) cannot be used: they give TypeError at the first evaluation, without calling the objective, and leave a pool open if one was asked for. A forgotten or misspelt parameter gives TypeError at the first evaluation and nothing is recorded. A call Python cannot bind raises TypeError and leaves the optimizer untouched.", "quantifier": "all lists of positional and keyword arguments, callables (also with state), values, optimizers, swarm sizes, numbers of iterations and processes, orders in which workers finish, random numbers", "why_tests_cant": "A test passes a few named arguments to one objective; the claim ranges over all names, values, ways of writing the call, kinds of optimizers and schedules.", "anchors": ["pyswarms/single/global_best.py:GlobalBestPSO.optimize", "pyswarms/single/local_best.py:LocalBestPSO.optimize", "pyswarms/single/general_optimizer.py:GeneralOptimizerPSO.optimize", "pyswarms/discrete/binary.py:BinaryPSO.optimize", "pyswarms/backend/operators.py:compute_objective_function", "pyswarms/utils/decorators/decorators.py:cost"]}
{"id": "C104", "title": "Which entries of the options dictionary matter", "statement": "An optimizer reads from options only c1, c2, w and the parameters of its topology (k and p for LocalBestPSO, BinaryPSO and a Ring, p and r for VonNeumann, k for Random, none for Star, Pyramid and GlobalBestPSO). Two dictionaries that agree on these, whatever else they contain and in whatever order, give optimizers that behave alike under every sequence of calls. Exception: in GeneralOptimizerPSO an entry called swarm or self makes every optimize raise TypeError after one evaluation. Without c1, c2 or w the constructor does not complain, but no optimize ever returns: when only these are missing it raises KeyError after one recorded evaluation, before anything has moved. Without k or p, LocalBestPSO and BinaryPSO refuse with KeyError; GeneralOptimizerPSO is built, and optimize raises TypeError after one evaluation.", "quantifier": "all options dictionaries, topologies, optimizers, schedules of the coefficients, objectives, histories of calls, random numbers", "why_tests_cant": "Tests use the documented dictionaries; the claim ranges over all extra and missing entries, orders, values, and all histories after them.", "anchors": ["pyswarms/single/general_optimizer.py:GeneralOptimizerPSO", "pyswarms/single/local_best.py:LocalBestPSO", "pyswarms/single/global_best.py:GlobalBestPSO", "pyswarms/discrete/binary.py:BinaryPSO", "pyswarms/backend/handlers.py:OptionsHandler", "pyswarms/backend/operators.py:compute_velocity", "pyswarms/backend/topology/ring.py:Ring.compute_gbest"]}
{"id": "C105", "title": "Objectives that return integers or Python objects as costs", "statement": "An objective may return an integer array: every optimizer then behaves, over any history of calls, exactly as if the objective converted its integers to float64 itself. For integers up to 2^53 in absolute value nothing is lost: the run is the run with the exact costs. Beyond that, the first optimize of a GlobalBestPSO returns an evaluated position whose integer cost z converts to the returned cost, and z exceeds the cost z' of any other evaluation by at most (|z|+|z'|)/2^53; it need not be the smallest integer evaluated. If the costs are an array of Python integers (dtype=object), the first optimize makes all its evaluations and raises AttributeError where it would have returned, leaving its worker pool open.", "quantifier": "all optimizers, objectives with integer or object costs, histories of calls, random numbers, numbers of processes", "why_tests_cant": "Tests use a few float objectives; the claim ranges over all integer objectives and run lengths, and the loss only shows for costs beyond 2^53 that are close to each other.", "anchors": ["pyswarms/backend/operators.py:compute_pbest", "pyswarms/backend/operators.py:compute_objective_function", "pyswarms/backend/topology/star.py:Star.compute_gbest", "pyswarms/single/global_best.py:GlobalBestPSO.optimize", "pyswarms/single/local_best.py:LocalBestPSO.optimize", "pyswarms/single/general_optimizer.py:GeneralOptimizerPSO.optimize", "pyswarms/discrete/binary.py:BinaryPSO.optimize"]}
{"id": "C106", "title": "Time-varying options in floating point", "statement": "In IEEE binary64 arithmetic, lin_variation and nonlin_mod (exponent n > 0) are still monotone in iternow, return the end value exactly at iternow = itermax and never pass it before; the options in use during any history of optimize and reset calls therefore never pass their end values, and rounding errors do not accumulate over iterations or calls. The start value is not always met: lin_variation misses the exact interpolation by at most about 2^-50 (|start| + |end|), and with w = 1.2, the default end value and 100 iterations it starts above 1.2; nonlin_mod stays between the end value and the rounded end + (start - end). exp_decay is still monotone in iternow, never positive if start - end <= d1, and makes c2 at most -0.2 with the default end values. random stays between start and end. c2 under lin_variation or nonlin_mod, and w if it starts at 0.4, keep exactly their value in every history of calls.", "quantifier": "all start and end values that are doubles, all iteration numbers, every machine whose ** and exp are monotone (with x**n exact at 0 and 1, exp at least 1 on nonnegative numbers), all random samples; for whole runs all histories, swarms and objectives", "why_tests_cant": "Whether rounding breaks monotonicity or lets a coefficient pass its limit depends on the last bits of every combination of start, end and number of iterations; a test samples a few, and the failing ones are rare.", "anchors": ["pyswarms/backend/handlers.py: OptionsHandler.exp_decay, lin_variation, random, nonlin_mod, __call__", "pyswarms/single/global_best.py: GlobalBestPSO.optimize"]}
{"id": "C107", "title": "Fixing a parameter by equal bounds", "statement": "A user may fix a parameter by giving it lb = ub; nothing rejects this. With nearest and intermediate (Star or Random topology, unmodified or adjust velocities) the optimizer then is exactly the optimizer for the other parameters with the fixed value filled in, over any history. nearest, random, intermediate and shrink keep the fixed value in every evaluated, recorded and remembered position. But with shrink a particle with a velocity other than zero in the fixed dimension never moves again in any dimension (inertia weight not zero, no clamp); with random the whole swarm sits at two random places at every evaluation after the first; with reflective optimize never returns; with the default periodic the fixed parameter becomes nan at the first step that is not rounded away, and stays nan in all evaluations of all further calls.", "quantifier": "all bounds with lb <= ub, all swarms, objectives, random numbers and histories of optimize and reset calls; all kinds of continuous optimizers, unless a topology is named; the claim about nan for every floating-point unit with exact zero", "why_tests_cant": "That the other parameters behave as if the fixed one were absent is a claim about two programs on all inputs and histories; that optimize never returns and that a particle never moves again are claims about unbounded executions.", "anchors": ["pyswarms/backend/handlers.py: BoundaryHandler", "pyswarms/single/global_best.py: GlobalBestPSO.optimize", "pyswarms/base/base_single.py: SwarmOptimizer.__init__"]}
{"id": "C108", "title": "Bounds in the wrong order", "statement": "Bounds with ub < lb in some dimension are not rejected at construction, except that every init_pos is refused with ValueError. Positions are generated in (ub, lb]. From the second evaluation of a call on, the default periodic puts this parameter of every particle outside the interval between the two bounds (within one width of it), nearest puts it on one of the two bounds, random relocates every particle to one of two random places at every iteration; with reflective optimize never returns. With intermediate this parameter of every particle moves halfway to one of its two bounds at every iteration and so stays between them if it starts there. With shrink a single parameter is put on one of its bounds at every iteration, but in several dimensions parameters whose own bounds are in order can be thrown out of them.", "quantifier": "all bounds with ub < lb in one dimension, all continuous optimizers, states, objectives, numbers of iterations and random numbers", "why_tests_cant": "The claims are about every evaluation of calls of any length, from any state and for any objective; that a call never returns cannot be observed by a test.", "anchors": ["pyswarms/backend/handlers.py: BoundaryHandler", "pyswarms/backend/generators.py: generate_swarm", "pyswarms/base/base_single.py: SwarmOptimizer.__init__"]}
{"id": "C109", "title": "Early stopping in floating point", "statement": "However the machine rounds, optimize records at least min(iters, ftol_iter+1) best costs and stops exactly when each of the last ftol_iter changes passed the rounded test fl|now - prev| < fl(ftol * fl(1 + |prev|)). With ftol not positive it never stops early. With any positive double ftol an unchanged finite best cost always counts as small, so no underflow or rounding disables early stopping; the rounded test agrees with the exact one up to a relative error of 2^-50 and an absolute one of 2^-1072; and for best costs of absolute value at least 1 a tolerance of at most 2^-56 (1e-17, say) means 'unchanged'. A call that stops early ended with ftol_iter+1 finite best costs: a run whose best cost is -inf never stops early, whatever ftol. In GlobalBestPSO the same rule holds on a machine whose operations overflow, for positions and costs that may be infinite or nan; a change from one double to another then counts as small exactly if it passes the rounded test and the difference does not overflow.", "quantifier": "all four optimizers, all states, objectives, numbers of iterations, draws and rounding functions (monotone with fl(0) = 0 where named); all binary64 tolerances and costs", "why_tests_cant": "The rule is about every run of every length, and the agreement of the rounded with the exact test about all pairs of doubles.", "anchors": ["pyswarms/single/global_best.py: GlobalBestPSO.optimize", "pyswarms/single/local_best.py: LocalBestPSO.optimize", "pyswarms/single/general_optimizer.py: GeneralOptimizerPSO.optimize", "pyswarms/discrete/binary.py: BinaryPSO.optimize"]}
{"id": "C110", "title": "Changing an optimizer between calls", "statement": "The parameters of an optimizer are ordinary attributes and may be assigned between calls. Whatever is assigned (bounds, clamp, options, k and p, ftol, ftol_iter, center, init_pos, handlers, a new Star, positions, velocities), with the Star topology best_cost stays the minimum of all costs since the swarm was created and cost_history the running minimum, also after a reset that raised; the five histories keep equal lengths. If bounds are only ever widened everything stays inside the present bounds. If they are narrowed, every evaluation of a call but the first is inside the new bounds for the strategies nearest, reflective, random and periodic, but the first one (and so the returned position) may be outside; with intermediate and no inertia a swarm outside stays outside for ever. After a reset the optimizer behaves like one newly constructed with the present attributes (for a static topology if a new topology object is assigned as well). center and init_pos, and for BinaryPSO options, have no effect before the next reset. Changing n_particles (unless it was 1) makes every later optimize call raise after the reset.", "quantifier": "all optimizers (Star or dynamic where named), all initial attributes, all programs of assignments and optimize/reset calls of any length, all objectives, draws and exceptions", "why_tests_cant": "The claims are about every program, of any length, that interleaves assignments with calls, for every objective and all random numbers.", "anchors": ["pyswarms/base/base_single.py: SwarmOptimizer.__init__, reset", "pyswarms/base/base_discrete.py: DiscreteSwarmOptimizer.__init__, reset", "pyswarms/single/global_best.py: GlobalBestPSO.optimize", "pyswarms/single/general_optimizer.py: GeneralOptimizerPSO.optimize", "pyswarms/discrete/binary.py: BinaryPSO.optimize", "pyswarms/backend/handlers.py: BoundaryHandler.intermediate"]}
{"id": "C111", "title": "BinaryPSO in floating point", "statement": "Whatever rounding, overflow and np.exp do, a BinaryPSO with generated or 0/1 initial positions evaluates, records and returns only zeros and ones, and every personal best is the first smallest of the particle's own evaluations. In float64 with c1 and c2 of moderate size the velocities are never nan; with a clamp (and the default strategy) they stay numbers inside the clamp even where the unclamped velocity would overflow. Without a clamp and with positive inertia a velocity that has overflowed stays infinite and freezes its bit (1 for +inf, 0 for -inf) in all further evaluations of any number of calls until reset. From a velocity of 37 on the sigmoid is exactly 1, so the bit is 1 whatever is drawn; down from -37 the bit is 0 unless the number drawn is exactly zero. With exact arithmetic all this coincides with the exact model.", "quantifier": "all sequences of optimize/reset calls with any outcome, all objectives, all random numbers that NumPy can produce, all coefficients (c1, c2 at most 2^20 in size where stated), all swarm sizes, for the first two claims any arithmetic and any np.exp", "why_tests_cant": "Overflow and saturation depend on the whole history of velocities and on every random number; tests sample a few.", "anchors": ["pyswarms/discrete/binary.py: BinaryPSO.optimize, _compute_position, _sigmoid", "pyswarms/backend/operators.py: compute_velocity, compute_pbest", "pyswarms/backend/handlers.py: VelocityHandler", "pyswarms/backend/generators.py: generate_velocity, create_swarm", "pyswarms/base/base_discrete.py: DiscreteSwarmOptimizer.reset"]}
{"id": "C112", "title": "copy.copy of an optimizer", "statement": "copy.copy(opt) is not a snapshot: until something is reset or assigned, a call of optimize on any copy (or copy of a copy) is a call on the original, and all of them always show the state of one optimizer on which all the calls were made. A successful reset of a copy separates it: from then on, whatever is done with the other objects, it behaves like a newly constructed optimizer with its attributes, and the original goes on as if it had never been copied (Star and dynamic topologies). If the reset raises, the copy has empty histories but still the swarm of the original. With a static topology all copies keep the neighbours that any of them computed first, also after a reset.", "quantifier": "all optimizers and configurations, all programs of any length made of copying, attribute assignments, optimize and reset calls on any of the objects, all objectives, draws and exceptions", "why_tests_cant": "Sharing depends on the order of copies, calls and resets in arbitrary programs.", "anchors": ["pyswarms/base/base_single.py: SwarmOptimizer.__init__, reset", "pyswarms/base/base_discrete.py: DiscreteSwarmOptimizer.reset", "pyswarms/single/global_best.py: GlobalBestPSO.optimize", "pyswarms/single/general_optimizer.py: GeneralOptimizerPSO.__init__, optimize", "pyswarms/backend/topology/base.py: Topology.__init__"]}
{"id": "C113", "title": "Benchmark functions in floating point", "statement": "With every operation rounded (any monotone rounding, sums in any order) sphere, rosenbrock, beale, booth, bukin6, himmelblau and levi never return a negative number. In float64 schaffer2 and rastrigin are never negative, matyas is not unless its squares underflow, and easom is never below -1. At the documented minimiser sphere, rosenbrock, rastrigin, beale, booth, bukin6, goldstein, himmelblau, matyas, schaffer2 and threehump return exactly the documented minimum. Three documented minima are not exact: ackley never returns less than 2^-51, whatever the input, goldstein returns less than 3 at a point of its domain, and levi returns the square of np.sin(np.pi) at (1, 1). sphere returns 0 exactly where all squares underflow. Without rounding the functions are those of C45 to C47.", "quantifier": "all positions with any number of dimensions (up to 2^53, for rastrigin 2^53/10), all orders of summation, all C libraries with the stated properties, for the first statement all monotone roundings", "why_tests_cant": "There are more doubles than can be tried, and the order of summation depends on shape and memory layout; the repository's tests use np.isclose at a few points.", "anchors": ["pyswarms/utils/functions/single_obj.py: ackley, beale, booth, bukin6, easom, goldstein, himmelblau, levi, matyas, rastrigin, rosenbrock, schaffer2, sphere, threehump"]}
{"id": "C114", "title": "Objectives that are known only approximately", "statement": "If every evaluation differs from the true cost f of the position by an error between -a and b (noise, limited accuracy, an objective that drifts), then the cost returned by optimize is the true cost of the returned position up to that error, and no position evaluated in the call has a true cost lower by more than a + b. This holds for the first call of GlobalBestPSO after construction or reset, for LocalBestPSO and BinaryPSO if at most k particles coincide at the end, and for Random and Pyramid topologies. The same holds for the personal best of every particle in every optimizer, and every entry of GlobalBestPSO's cost_history is the lowest true cost so far up to the error. The bound a + b is sharp.", "quantifier": "all true costs f, all errors in the range, changing from call to call and particle to particle, all configurations, draws and numbers of iterations", "why_tests_cant": "The error can be different in every evaluation; tests see one sequence of errors.", "anchors": ["pyswarms/backend/operators.py: compute_pbest", "pyswarms/backend/topology/star.py: Star.compute_gbest", "pyswarms/single/global_best.py: GlobalBestPSO.optimize", "pyswarms/single/local_best.py: LocalBestPSO.optimize", "pyswarms/single/general_optimizer.py: GeneralOptimizerPSO.optimize"]}
{"id": "C115", "title": "What Swarm, Designer, Animator and Mesher check", "statement": "Swarm(...) succeeds exactly if every argument has the documented type (arrays; n_particles and dimensions Python integers or Booleans, not NumPy integers; options a dict; best_cost an int, a float or np.float64) and position has enough dimensions to compute the sizes that are not given. The sizes are computed before any type is checked: a position without shape, such as a list, raises AttributeError unless both sizes are given (then TypeError), a one-dimensional array raises IndexError unless dimensions is given, and every other wrong type raises TypeError. Sizes that are not given are the first two entries of position.shape, and pbest_pos is position. Later assignments to attributes are never checked and do not change other attributes. Designer, Animator and Mesher accept exactly the types they name; alpha=1 (an int), a list as figsize or a NumPy integer as interval are refused, while repeat_delay, func, delta and levels are not checked.", "quantifier": "all combinations of given and missing arguments of any types and shapes; all assignments", "why_tests_cant": "The arguments combine freely (ten arguments of a dozen kinds, arrays of any shape), and which exception is raised depends on their combination.", "anchors": ["pyswarms/backend/swarms.py: Swarm", "pyswarms/utils/plotters/formatters.py: Designer, Animator, Mesher"]}
{"id": "C116", "title": "Constraints handled by penalties", "statement": "Let the objective return the cost f at allowed positions and, elsewhere, any penalty that is nan or above the cost of every allowed position (e.g. +inf). If some evaluated position is allowed, then the returned position is an allowed one with the lowest cost among the allowed positions evaluated in the call, and the returned cost is its cost. If none is, the returned cost is above the cost of every allowed position, so the user can tell. This holds for the first call of GlobalBestPSO after construction or reset, for LocalBestPSO and BinaryPSO if at most k particles coincide at the end, for Random and Pyramid topologies, for every personal best in every optimizer, and for every entry of GlobalBestPSO's cost_history. With infinite penalties and dimension at least 2, GlobalBestPSO needs an allowed initial position: otherwise its first call raises an exception (ValueError).", "quantifier": "all sets of allowed positions, all costs, all penalties (varying from call to call), all configurations, draws and numbers of iterations", "why_tests_cant": "Whether and when allowed positions are met depends on the draws; tests see a few runs of one constraint.", "anchors": ["pyswarms/backend/operators.py: compute_pbest", "pyswarms/backend/topology/star.py: Star.compute_gbest", "pyswarms/single/global_best.py: GlobalBestPSO.optimize", "pyswarms/single/local_best.py: LocalBestPSO.optimize", "pyswarms/single/general_optimizer.py: GeneralOptimizerPSO.optimize"]}
{"id": "C117", "title": "What optimize reports, and that verbose changes nothing else", "statement": "verbose has no influence on the result of optimize, on the exception it raises or on the optimizer afterwards. With verbose=True a call writes, however it ends: one DEBUG message, the start message (INFO), a progress bar with iters as its total (unless n_processes=0 was refused), as its postfix one after the other exactly the values the call appends to cost_history, and, exactly if it returns, a final INFO message with the returned cost and position. The last postfix of a call that returns is the returned cost; with a Star topology each postfix is the lowest cost evaluated since the last reset. With verbose=False there is no progress bar, and whatever the level of the logger the only record that can reach a log handler is the DEBUG message (messages of level NOTSET are never enabled).", "quantifier": "all configurations, objectives (also raising ones), draws, numbers of iterations, earlier histories, logger levels and global disabling levels", "why_tests_cant": "The repository's tests run with the default level and a few iterations; what is written depends on where the run stops or raises.", "anchors": ["pyswarms/single/global_best.py: GlobalBestPSO.optimize", "pyswarms/single/local_best.py: LocalBestPSO.optimize", "pyswarms/single/general_optimizer.py: GeneralOptimizerPSO.optimize", "pyswarms/discrete/binary.py: BinaryPSO.optimize", "pyswarms/utils/reporter/reporter.py: Reporter.log, Reporter.pbar, Reporter.hook"]}
{"id": "C118", "title": "Objectives with a memory of their own", "statement": "An objective may keep something between its calls (a counter, a budget, a cache). Without n_processes its memory after optimize is what calling it by hand on the evaluated positions, in order, leaves. With n_processes the caller's copy is never changed; if the memory is an attribute of the object whose method is the objective, the whole run is that of the objective with its memory frozen at the start. A memory that does not show in the values (a correct cache) changes nothing: same result and same optimizer with any number of processes, any distribution of the tasks and any start method. A budget of B calls stops a serial run after exactly B evaluations or not at all; with processes and the counter in an object it is ignored; with the counter in a module the outcome depends on which process gets which task. In every case result and optimizer are those of some memoryless objective that may vary from iteration to iteration, so all other properties apply.", "quantifier": "all objectives with memory (also raising ones), configurations, numbers of iterations and processes, assignments of tasks to workers, completion orders, start methods, draws, earlier histories", "why_tests_cant": "Which process runs which chunk is decided by the operating system; a test sees one assignment, and the repository's objectives have no memory.", "anchors": ["pyswarms/backend/operators.py: compute_objective_function", "pyswarms/single/global_best.py: GlobalBestPSO.optimize", "pyswarms/single/local_best.py: LocalBestPSO.optimize", "pyswarms/single/general_optimizer.py: GeneralOptimizerPSO.optimize", "pyswarms/discrete/binary.py: BinaryPSO.optimize"]}
{"id": "C119", "title": "Restarting finds the optimum", "statement": "Call reset() and optimize() again and again on a star optimizer with bounds whose random initial positions are independent and uniform. If the objective is at most c on a box that has the share q of the volume of the bounds, the probability that R rounds all return and all return more than c is at most (1-q)^(n_particles*R), whatever the options, the iterations and the other random numbers. So if the objective is continuous at a point x of the bounds, almost surely, unless a round raises, some round returns at most f(x)+eps for every eps>0, with a position that has this cost; with settings that cannot fail no round raises. With any other topology the same holds for the returned position instead of the returned cost. Restarting is needed: with vh_strategy='adjust' and no reset, with probability at least (1-q)^n_particles no call of optimize, however many there are and however long, returns a position in the box. BinaryPSO: for every bit string the probability that R rounds all return and all return a position worse than it is at most (1-2^(-dimensions))^(n_particles*R), with or without a clamp; so almost surely some round returns a best bit string or raises.", "quantifier": "all numbers of particles, dimensions, rounds and iterations, all continuous optimizers with bounds, objectives, boxes, probability spaces; the other random numbers may depend on everything", "why_tests_cant": "The statement is about probabilities and about infinitely many rounds.", "anchors": ["pyswarms/base/base_single.py: SwarmOptimizer.reset", "pyswarms/backend/generators.py: generate_swarm", "pyswarms/single/global_best.py: GlobalBestPSO.optimize", "pyswarms/single/general_optimizer.py: GeneralOptimizerPSO.optimize", "pyswarms/discrete/binary.py: BinaryPSO.optimize", "pyswarms/backend/generators.py: generate_discrete_swarm"]}
{"id": "C120", "title": "The unit and the zero of the objective decide when a run stops early", "statement": "Adding a constant to the objective or multiplying it by a positive constant does not change where the swarm goes (C51), but it changes when ftol and ftol_iter end the run. With the same random numbers, on the first call of optimize after construction: adding a constant C>=0 to an objective whose recorded best costs are not negative never makes the run longer; multiplying by a constant of at most 1 never makes it longer, by a constant of at least 1 never shorter; the shorter run's histories are the beginning of the longer run's. If all best costs a call records lie in an interval shorter than ftol*(1+m), m a lower bound of their absolute values, it stops after ftol_iter+1 iterations even if every iteration improves, so a large enough constant added to any bounded objective makes every run stop then. The differences do occur: there is a run that makes three iterations, and only two after 1000 is added or the objective is divided by 1000.", "quantifier": "all numbers of particles, dimensions and iterations, all optimizers with constant options, all objectives, constants, finite ftol, ftol_iter, streams of random numbers; exact arithmetic", "why_tests_cant": "It compares two runs for every objective, constant and stream of random numbers.", "anchors": ["pyswarms/single/global_best.py: GlobalBestPSO.optimize", "pyswarms/single/local_best.py: LocalBestPSO.optimize", "pyswarms/single/general_optimizer.py: GeneralOptimizerPSO.optimize", "pyswarms/discrete/binary.py: BinaryPSO.optimize"]}
{"id": "C121", "title": "A starting solution is not lost in the first call", "statement": "Pass known solutions as rows of init_pos. The first call of optimize after construction or reset returns a position whose cost is no larger than that of any row, for every optimizer, topology, strategy and objective that computes each particle's cost from its position. So if the position returned by one optimizer is passed on as a row of init_pos to the next (any mix of optimizers, swarm sizes and options), the costs of the returned positions never increase. In general every call returns a position that costs no more than any position the swarm had when the call began. Later calls without reset give no more than that: with GlobalBestPSO and Star the returned cost stays at most that of every row, but the returned position may be worse than the starting solution; with LocalBestPSO the returned cost may be worse too (both with a concrete run).", "quantifier": "all optimizers, numbers of particles and dimensions, starting positions, objectives (also inf; nan excluded only in the staged statement), random numbers, iterations, chains of stages of any length, histories of calls", "why_tests_cant": "It holds for every objective, every stream of random numbers and every chain of optimizers; tests see a few runs.", "anchors": ["pyswarms/backend/generators.py: generate_swarm", "pyswarms/backend/generators.py: generate_discrete_swarm", "pyswarms/base/base_single.py: SwarmOptimizer.reset", "pyswarms/single/global_best.py: GlobalBestPSO.optimize", "pyswarms/single/local_best.py: LocalBestPSO.optimize", "pyswarms/single/general_optimizer.py: GeneralOptimizerPSO.optimize", "pyswarms/discrete/binary.py: BinaryPSO.optimize"]}
{"id": "C122", "title": "With c2 = 0 the particles search on their own", "statement": "Set c2 = 0 (and no schedule for the options). Then what a particle does depends on no other particle. Take two optimizers with the same options, bounds, clamp and strategies, both binary or both continuous, but possibly with different numbers of particles, topologies, stopping rules, numbers of iterations and processes. If a particle of one starts like a particle of the other (position, velocity, personal best), draws the same random numbers and has the same costs, then in every iteration recorded by both calls the two are at the same position with the same velocity, and after complete calls of the same length they have the same personal best. So adding particles changes nothing for the others, and a new GlobalBestPSO with n particles returns exactly the best of the costs that n optimizers with one particle each return. A larger swarm containing the particles of a smaller one never returns a larger cost. With c2 not zero all this fails: the path changes, and adding a better particle can make the result worse, even for a convex objective (concrete runs).", "quantifier": "all optimizers, pairs of swarm sizes and topologies, dimensions, options with c2 = 0, bounds, clamps, boundary and velocity strategies, objectives that compute each particle's cost from its position (also inf; nan excluded for the best-of statement), random numbers, iterations", "why_tests_cant": "It compares all pairs of runs of swarms of any two sizes over every stream of random numbers; tests compare a few runs.", "anchors": ["pyswarms/backend/operators.py: compute_velocity", "pyswarms/backend/operators.py: compute_position", "pyswarms/backend/operators.py: compute_pbest", "pyswarms/backend/handlers.py: BoundaryHandler", "pyswarms/backend/handlers.py: VelocityHandler", "pyswarms/single/global_best.py: GlobalBestPSO.optimize", "pyswarms/single/general_optimizer.py: GeneralOptimizerPSO.optimize", "pyswarms/discrete/binary.py: BinaryPSO.optimize"]}
{"id": "C123", "title": "With c1 = c2 = 0 the objective has no influence on the search", "statement": "Set c1 = c2 = 0 (and no schedule for the options). Then the positions and velocities of a run depend neither on the objective nor on the other particles: two optimizers with the same options, bounds, clamp and strategies, both binary or both continuous, whatever their objectives, sizes, topologies, stopping rules and numbers of iterations, move a particle that starts at the same position with the same velocity in the same way (if the boundary handler, or the position update of BinaryPSO, draws the same numbers) in every iteration that both record. Without bounds, clamp and velocity strategy the path is x + (w + w^2 + ... + w^t) v after t iterations, the velocity w^t v; so with 0 <= w < 1 a particle never gets further than w/(1-w) |v| from its start.", "quantifier": "all optimizers, pairs of objectives (also ones that raise or return nan), pairs of swarm sizes and topologies, dimensions, inertias, bounds, clamps, strategies, starting positions and velocities, random numbers, iterations", "why_tests_cant": "It compares all pairs of objectives and gives the position in every iteration of every run; tests check a few iterations of a few runs.", "anchors": ["pyswarms/backend/operators.py: compute_velocity", "pyswarms/backend/operators.py: compute_position", "pyswarms/single/global_best.py: GlobalBestPSO.optimize", "pyswarms/single/local_best.py: LocalBestPSO.optimize", "pyswarms/single/general_optimizer.py: GeneralOptimizerPSO.optimize", "pyswarms/discrete/binary.py: BinaryPSO.optimize"]}
{"id": "C124", "title": "Enlarging the grid of a hyperparameter search", "statement": "Candidates added at the end of the grid of a search never make its result worse: from the same state of the random generator, the larger search (if no run raises) returns the same score and options, or a strictly better score, for minimum and maximum alike. This holds for every optimizer and objective, also for objectives that use the random numbers or return nan. For GridSearch, appending values to the list of the first option of the dictionary is such an enlargement. Appending values to the list of another option is not: it shifts the combinations to other random numbers and can make the result worse (concrete search: 9/64 becomes 1/4).", "quantifier": "all scoring functions (so all optimizers, objectives, topologies, iterations), grids, additions of any length, dictionaries of options, generators and their states, minimum and maximum", "why_tests_cant": "It compares all pairs of a grid and an enlargement of it, for every objective and every generator state; tests run a few fixed grids.", "anchors": ["pyswarms/utils/search/base_search.py: SearchBase.search", "pyswarms/utils/search/base_search.py: SearchBase.generate_score", "pyswarms/utils/search/grid_search.py: GridSearch.generate_grid"]}
{"id": "C125", "title": "RandomSearch draws its grid from the generator of the runs", "statement": "Whatever the generator and its state, RandomSearch's grid has the property of C44 (values in their ranges), and with the documented options (c1, c2, w, k, p in this order) and m = n_selection_iters: the c1 values are made from the first m doubles after the seed, the c2 values from the next m, the w values from the next m, then m integers are drawn for k, and the first optimizer goes on from that state. So asking for more combinations keeps the c1 values of the first ones but not their other values, nor the random numbers of the runs: a RandomSearch with two combinations can return a worse score than one with one combination from the same seed (4 instead of 0).", "quantifier": "all generators with doubles in [0, 1), states (seeds), numbers of combinations, ranges, constants p, dictionaries with distinct keys", "why_tests_cant": "It states for every generator and every number of combinations which random number becomes which value; tests fix one seed and look at the range of a few values.", "anchors": ["pyswarms/utils/search/random_search.py: RandomSearch.generate_grid", "pyswarms/utils/search/base_search.py: SearchBase.search", "pyswarms/utils/search/base_search.py: SearchBase.generate_score"]}
{"id": "C126", "title": "What the neighbourhoods of the Ring topology are", "statement": "Ring does not arrange the particles in a ring: the neighbours of a particle are the k nearest particles. A group of at least k particles that lie nearer to each other than to the others has only neighbours from the group; so with LocalBestPSO(static=True), or GeneralOptimizerPSO with a static Ring, a group that starts like this never learns anything from the rest of the swarm: changing the costs of the others changes no position of the group in any iteration of the call. Neighbours need not be mutual (three particles at 0, 1, 3 with k = 2). Without ties, a larger k keeps all neighbours and adds others, so in the same swarm every particle follows a personal best that is at least as good, and the best cost is not larger. In one dimension the norm p makes no difference to which lists are right; in two dimensions it does. In BinaryPSO the norm p makes no difference: neighbour lists are right for one p exactly if they are right for another, and every run with one p is a run with the other, with the same random numbers and the same answers of the k-d tree.", "quantifier": "all positions, numbers of particles and dimensions, k, distances, group sizes, row-wise objectives, random numbers, numbers of iterations; right answers of the k-d tree", "why_tests_cant": "It holds for every arrangement of the particles and for whole runs with every pair of objectives that agree on the group; tests look at one arrangement.", "anchors": ["pyswarms/backend/topology/ring.py: Ring.compute_gbest", "pyswarms/single/local_best.py: LocalBestPSO.optimize", "pyswarms/single/general_optimizer.py: GeneralOptimizerPSO.optimize"]}
{"id": "C127", "title": "How many particles a neighbourhood needs", "statement": "GeneralOptimizerPSO with a Ring of more neighbours than particles, or with a VonNeumann topology whose neighbourhood has more members than there are particles, can be constructed, but no call of optimize ever returns, whatever calls (optimize, reset) came before: it evaluates the objective once, raises IndexError (unless the objective itself raises), records nothing and moves nothing. The same holds, with ValueError, for a Random topology with at least as many neighbours as particles. The VonNeumann neighbourhood has 2d+1 members in d dimensions for range 1 and 2d^2+2d+1 for range 2, never fewer for a larger range or dimension, and at least 3^min(d,r). Its size D is computed anew in every iteration, which takes (3D-1)/2 recursive calls.", "quantifier": "all numbers of particles and dimensions, k, p, r, objectives, histories of calls, random numbers, process pools", "why_tests_cant": "It covers every dimension and range and every history of calls; tests construct a few swarms that are large enough.", "anchors": ["pyswarms/backend/topology/von_neumann.py: VonNeumann.compute_gbest", "pyswarms/backend/topology/von_neumann.py: VonNeumann.delannoy", "pyswarms/backend/topology/ring.py: Ring.compute_gbest", "pyswarms/single/general_optimizer.py: GeneralOptimizerPSO.optimize"]}
{"id": "C128", "title": "mean_pbest_history in floating point", "statement": "Whatever the arithmetic, the entries a call of optimize appends to mean_pbest_history are np.mean of each particle's smallest cost in the first, the first two, ... evaluations of the call. In float64 no such entry is larger than an earlier one of the call, whatever order NumPy adds in and whatever the objective returns, inf, nan and overflow included. With the Star topology and integer costs of absolute value at most 2^53/n_particles none is below the entry of cost_history of the same iteration. For other costs this can fail: three particles that all cost 0.7 have a recorded mean below 0.7.", "quantifier": "all machine arithmetics, orders of addition, objectives, classes and topologies, random numbers, iteration counts, process pools, states before the call", "why_tests_cant": "Rounding and the order of addition depend on the values, the number of particles and the machine; a test sees one.", "anchors": ["pyswarms/single/global_best.py: GlobalBestPSO.optimize", "pyswarms/single/local_best.py: LocalBestPSO.optimize", "pyswarms/single/general_optimizer.py: GeneralOptimizerPSO.optimize", "pyswarms/discrete/binary.py: BinaryPSO.optimize", "pyswarms/backend/operators.py: compute_pbest"]}
{"id": "C129", "title": "How often the objective is called", "statement": "Without n_processes, optimize calls the objective at most iters times, counted by the objective itself, exceptions included; a call that returns has called it at least min(iters, ftol_iter + 1) times, and exactly iters times if ftol is not positive (the default). Constructing an optimizer calls it never. GridSearch.search calls it at most, and if it returns exactly, iters times the product of the numbers of values given for the options; RandomSearch.search that returns has called it n_selection_iters * iters times.", "quantifier": "all classes, topologies, options, objectives (also those that raise or draw random numbers), generators, iteration counts, grids", "why_tests_cant": "Tests count calls for single settings; the budget must hold for every objective, option and grid, also when a call raises.", "anchors": ["pyswarms/single/global_best.py: GlobalBestPSO.optimize", "pyswarms/single/local_best.py: LocalBestPSO.optimize", "pyswarms/single/general_optimizer.py: GeneralOptimizerPSO.optimize", "pyswarms/discrete/binary.py: BinaryPSO.optimize", "pyswarms/utils/search/base_search.py: SearchBase.search", "pyswarms/utils/search/base_search.py: SearchBase.generate_score", "pyswarms/utils/search/grid_search.py: GridSearch.generate_grid", "pyswarms/utils/search/random_search.py: RandomSearch.generate_grid"]}
{"id": "C130", "title": "BinaryPSO treats 0 and 1 alike", "statement": "Code some of the decisions of a BinaryPSO problem the other way round (0 for 1 and 1 for 0): an objective that decodes its argument, complemented init_pos or initial bits, mirrored velocity_clamp, and the same random numbers with 1 - u for the random threshold of those bits. Then, unless a threshold is exactly equal to the sigmoid it is compared with, every evaluation, history entry, cost, exception and the returned result are those of the original run in the other coding; this stays so over reset and further calls. Exact equality has probability zero as soon as no threshold has a value of positive probability. With a velocity_clamp no threshold outside the sigmoids of the clamp is ever hit. At an exact hit the bit is 0 in both codings.", "quantifier": "all problems, sets of reversed bits, options, neighbour structures, velocity strategies, proper clamps, random numbers, iteration counts (exact real arithmetic)", "why_tests_cant": "The claim compares two whole runs for every objective and every random sequence.", "anchors": ["pyswarms/discrete/binary.py: BinaryPSO.optimize", "pyswarms/discrete/binary.py: BinaryPSO._compute_position", "pyswarms/discrete/binary.py: BinaryPSO._sigmoid", "pyswarms/backend/operators.py: compute_velocity", "pyswarms/backend/generators.py: generate_discrete_swarm", "pyswarms/backend/generators.py: generate_velocity", "pyswarms/backend/handlers.py: VelocityHandler"]}
{"id": "C131", "title": "Bounds and clamps that are never reached change nothing", "statement": "If no position computed by an optimize call without bounds leaves a box, then the same call (same start, random numbers and objective) with this box as bounds, under any of the six boundary strategies and the velocity strategies unmodified or adjust, makes the same evaluations, records the same histories, raises the same exceptions and returns the same result. If no velocity computed by a call without velocity_clamp leaves an interval per dimension, the same call with it as velocity_clamp is the same run, under every velocity strategy. With an init_pos inside the box the constructor builds the same swarm with and without the bounds. Seen from the run with limits: if all velocities of a run lie strictly inside its velocity_clamp, removing the clamp gives the same run; if with boundary strategy nearest all positions lie strictly inside the bounds, removing the bounds gives the same run; with the default strategy periodic this last inference is not valid.", "quantifier": "all continuous optimizers (for the clamp also BinaryPSO), topologies, options, objectives, random numbers, boxes, intervals, starting states, iteration counts", "why_tests_cant": "The claim compares two whole runs for every objective and random sequence, in which the handlers keep a memory that differs.", "anchors": ["pyswarms/backend/operators.py: compute_velocity", "pyswarms/backend/operators.py: compute_position", "pyswarms/backend/handlers.py: BoundaryHandler", "pyswarms/backend/handlers.py: VelocityHandler", "pyswarms/backend/generators.py: generate_swarm", "pyswarms/single/global_best.py: GlobalBestPSO.optimize", "pyswarms/single/local_best.py: LocalBestPSO.optimize", "pyswarms/single/general_optimizer.py: GeneralOptimizerPSO.optimize"]}
{"id": "C132", "title": "A run sees the objective only where it evaluates it, so no result is a certificate", "statement": "Two objectives that have the same values at the positions an optimize call evaluates give the same call: same result or exception, same optimizer afterwards. A call evaluates at most n_particles * iters positions; in any set of positions with more elements than that there is one at which the objective may be given any other value, also one below the returned cost, without any difference. So, whatever is returned: with bounds that are not a single point there is an objective with the same run that is lower than the returned cost, by any amount, at a position inside the bounds; in BinaryPSO the same holds for a bit string as long as n_particles * iters < 2^dimensions. The first sentence holds for GlobalBestPSO on any machine, however it rounds and overflows.", "quantifier": "all optimizers, topologies, options, objectives that score each particle by its position, random numbers, starting states, iteration counts, sets of positions", "why_tests_cant": "The claim is about all pairs of objectives and the positions no run has looked at; a test can only look at some.", "anchors": ["pyswarms/single/global_best.py: GlobalBestPSO.optimize", "pyswarms/single/local_best.py: LocalBestPSO.optimize", "pyswarms/single/general_optimizer.py: GeneralOptimizerPSO.optimize", "pyswarms/discrete/binary.py: BinaryPSO.optimize", "pyswarms/backend/operators.py: compute_objective_function"]}
{"id": "C133", "title": "The recorded histories obey the law of motion", "statement": "Without bounds, entry t+1 of velocity_history is the displacement from entry t to entry t+1 of pos_history, for all entries recorded by one optimize call, also when it raises; the positions are the first ones plus the sum of the velocities since. With bounds this holds for every particle whose position plus next velocity lies inside them, whatever the strategy; with nearest the next position is that sum cut off at the bounds, with the default periodic it is that sum up to a whole multiple of the width of the box, with reflective a mirror image of that sum, with shrink (started inside) the particle has moved by the largest part of its velocity, between 0 and 1, that keeps all its coordinates inside, with intermediate (started inside) a coordinate that would have left is in the middle between where it was and the bound it would have crossed, with random all particles that would have left below are at one place, all others that would have left above at another. Over the whole life of an unbounded optimizer every entry is either such a step or a repetition of the previous entry (positions and velocities), which happens where a call ended without moving the swarm (early stop, exception) and another one began.", "quantifier": "all continuous optimizers, topologies, options, velocity strategies and clamps, objectives, random numbers, sequences of calls including ones that raise", "why_tests_cant": "The order of recording and moving must be right in every iteration of every history of calls, including those cut short by exceptions.", "anchors": ["pyswarms/base/base_single.py: SwarmOptimizer._populate_history", "pyswarms/backend/operators.py: compute_position", "pyswarms/backend/operators.py: compute_velocity", "pyswarms/single/global_best.py: GlobalBestPSO.optimize", "pyswarms/single/local_best.py: LocalBestPSO.optimize", "pyswarms/single/general_optimizer.py: GeneralOptimizerPSO.optimize"]}
{"id": "C134", "title": "A logged run can be replayed, and an interrupted one recovered", "statement": "Keep a log of the costs an optimize call received. If the objective does not raise, the call can be repeated from the same state and random numbers with an objective that only reads the log, in order, without looking at the positions: same result, same optimizer. If the objective raised at some evaluation (a failed simulation, say), then repeating the call with an objective that answers from the log first and then calls the repaired objective (one that gives the same costs wherever the first one gave any) is exactly the call that would have happened without the failure: same evaluations, histories, result or exception. For GlobalBestPSO both hold on any machine, however it rounds and overflows, also when coordinates become infinite or nan.", "quantifier": "all optimizers, topologies, options, objectives (also ones that change from call to call), points of failure, random numbers, starting states, iteration counts", "why_tests_cant": "Recovery must be exact for every point of failure and every objective; a test can only break a few runs at a few places.", "anchors": ["pyswarms/single/global_best.py: GlobalBestPSO.optimize", "pyswarms/single/local_best.py: LocalBestPSO.optimize", "pyswarms/single/general_optimizer.py: GeneralOptimizerPSO.optimize", "pyswarms/discrete/binary.py: BinaryPSO.optimize", "pyswarms/backend/operators.py: compute_objective_function"]}
{"id": "C135", "title": "A cache in front of the objective", "statement": "Put a table of known values in front of an expensive function of one position, and let the objective ask the table first. The run is the same as without the table, also if the table was filled by earlier runs: same result, same optimizer, with or without n_processes. Without n_processes the expensive function is called exactly once for every position that is evaluated and not yet in the table. In BinaryPSO, started with an empty table, it is called at most 2^dimensions times in all, over any number of particles, iterations and calls of optimize. With n_processes the table of the caller learns nothing.", "quantifier": "all optimizers, functions, tables with right values, iteration counts, numbers of processes, distributions of tasks, start methods, random numbers, reachable states", "why_tests_cant": "That positions are evaluated in the order and number assumed, with nothing evaluated behind the cache, must hold for every run; counting calls in a few runs shows it for these.", "anchors": ["pyswarms/backend/operators.py: compute_objective_function", "pyswarms/single/global_best.py: GlobalBestPSO.optimize", "pyswarms/single/local_best.py: LocalBestPSO.optimize", "pyswarms/single/general_optimizer.py: GeneralOptimizerPSO.optimize", "pyswarms/discrete/binary.py: BinaryPSO.optimize", "pyswarms/discrete/binary.py: BinaryPSO._compute_position"]}
{"id": "C136", "title": "A stricter stopping rule stops no earlier", "statement": "Take the same optimizer once with and once without a larger ftol or a smaller ftol_iter (or both), the same random numbers, objective and iters. Either the two optimize calls are the same, or the laxer one converged and everything it has recorded and evaluated is an initial segment of what the stricter one records. In GlobalBestPSO, and with a star topology, the stricter call ends with a best cost that is not larger. The first statement also holds for GlobalBestPSO in binary64 arithmetic, overflow included.", "quantifier": "all optimizers, also with time-varying options, states, objectives (also with NaN and infinite costs), random numbers, tolerances (also infinite) and patience values, iteration counts, numbers of processes", "why_tests_cant": "The stopping test looks at a sliding window of changes whose length and threshold both vary; that one rule implies the other must hold for every sequence of costs.", "anchors": ["pyswarms/single/global_best.py: GlobalBestPSO.optimize", "pyswarms/single/local_best.py: LocalBestPSO.optimize", "pyswarms/single/general_optimizer.py: GeneralOptimizerPSO.optimize", "pyswarms/discrete/binary.py: BinaryPSO.optimize", "pyswarms/base/base_single.py: SwarmOptimizer.__init__"]}
