{"id": "C01", "title": "No two placed items overlap", "statement": "After solve(), in every container of problem.solution, the rectangles [Xo, Xo+w) x [Yo, Yo+l) of any two different items have no unit cell in common.", "quantifier": "all validated items, containers, strategies, rotation settings and sequences", "why_tests_cant": "A test places a handful of item lists; overlap appears only for particular shapes and orders, and the input space is infinite.", "anchors": ["hyperpack/mixins.py:PointGenerationMixin._check_fitting", "hyperpack/mixins.py:PointGenerationMixin._construct_solution"]}
{"id": "C02", "title": "No overlap when no item is a 1-by-3-or-longer sliver", "statement": "If no item can be laid as a strip 1 high and 3 or more wide (no item has length 1 and width >= 3 and, when rotation is enabled, none has width 1 and length >= 3), then after solve() no two items placed in the same container share a unit cell, for every strategy, sequence, rotation setting and container set, and whatever rounding the floating point arithmetic does.", "quantifier": "all validated problems without sliver items, all strategies, all rounding behaviours", "why_tests_cant": "It depends on an invariant over all reachable container states (every item is supported from below or from the left), which sampling cannot establish.", "anchors": ["hyperpack/mixins.py:PointGenerationMixin._check_fitting", "hyperpack/mixins.py:PointGenerationMixin._generate_points", "hyperpack/mixins.py:PointGenerationMixin._construct_solution"]}
{"id": "C03", "title": "Every placed item lies inside its container", "statement": "After solve(), each placement [Xo, Yo, w, l] of a container satisfies 0 <= Xo, 0 <= Yo, Xo + w <= W and Yo + l <= L, where L is the container's length, or container_height when strip packing.", "quantifier": "all validated problems, strategies, sequences", "why_tests_cant": "Universally quantified over inputs and over the whole loop history.", "anchors": ["hyperpack/mixins.py:PointGenerationMixin._check_fitting", "hyperpack/mixins.py:PointGenerationMixin._solve", "hyperpack/mixins.py:PointGenerationMixin._get_initial_container_length"]}
{"id": "C04", "title": "Every item is placed at most once and nothing is invented or lost", "statement": "Across all containers of problem.solution every item id occurs at most once, every id that occurs is an id of the items solved for, and every item solved for is either placed exactly once or placed nowhere.", "quantifier": "all validated problems, all numbers of containers", "why_tests_cant": "Requires tracking the shared pool of items through every container and every loop iteration.", "anchors": ["hyperpack/mixins.py:PointGenerationMixin._solve", "hyperpack/mixins.py:PointGenerationMixin._construct_solution"]}
{"id": "C05", "title": "Reported sizes are the item's declared sizes, rotated only if allowed", "statement": "For every placement [Xo, Yo, w, l] of item i, (w, l) is either the declared (w_i, l_i) or (l_i, w_i); it is the declared pair whenever rotation is disabled.", "quantifier": "all validated problems, both rotation settings", "why_tests_cant": "Universal over item lists and placements.", "anchors": ["hyperpack/mixins.py:PointGenerationMixin._construct_solution"]}
{"id": "C06", "title": "solve() always finishes and never fails with an internal error", "statement": "For every validated problem and every sequence of known ids, solve() terminates after a number of point visits bounded by the total item perimeter, and never raises IndexError, KeyError or ValueError.", "quantifier": "all validated problems, all strategies, all sequences of known ids", "why_tests_cant": "Non-termination and out-of-range reads are absence properties over all inputs; the code contains a while True loop and negative Python indexes.", "anchors": ["hyperpack/mixins.py:PointGenerationMixin._construct_solution", "hyperpack/mixins.py:PointGenerationMixin._generate_points", "hyperpack/mixins.py:PointGenerationMixin._get_current_point"]}
{"id": "C07", "title": "Bin-packing utilization is the covered area fraction", "statement": "After solve() in bin-packing mode, obj_val_per_container[c] equals the sum of w*l over the items placed in c divided by W*L (exact arithmetic), so it is never negative, and it is at most 1 when no item is a sliver.", "quantifier": "all validated bin-packing problems", "why_tests_cant": "The accumulated sum and its bound need induction over placements and a counting argument over cells.", "anchors": ["hyperpack/mixins.py:default_objective_value_calculator", "hyperpack/mixins.py:PointGenerationMixin._construct_solution"]}
{"id": "C08", "title": "Strip-packing utilization is area over used strip area", "statement": "After solve() in strip-packing mode, obj_val_per_container reports (sum of placed areas) / (strip width * height of the stack), hence a number between 0 and 1.", "quantifier": "all validated strip-packing problems", "why_tests_cant": "Needs a universal argument relating the top occupied row to the placed rectangles.", "anchors": ["hyperpack/mixins.py:PointGenerationMixin._construct_solution"]}
{"id": "C09", "title": "No item floats in isolation", "statement": "Every placed item's origin rests on something: it is on the container's bottom or left wall, or the unit cell directly below or directly left of its origin belongs to another item placed earlier in the same container.", "quantifier": "all validated problems, strategies, sequences", "why_tests_cant": "An invariant over all generated potential points and the states they were generated in.", "anchors": ["hyperpack/mixins.py:PointGenerationMixin._generate_points"]}
{"id": "C10", "title": "First fitting item goes to the origin; a container stays empty only if nothing fits", "statement": "In each container with items left, the first item of the pool that fits the empty container in an allowed orientation is placed at (0, 0); the container's solution is empty exactly when no item of the pool fits.", "quantifier": "all validated problems", "why_tests_cant": "Universal over pools, containers and orientations.", "anchors": ["hyperpack/mixins.py:PointGenerationMixin._get_initial_point", "hyperpack/mixins.py:PointGenerationMixin._construct_solution"]}
{"id": "C11", "title": "The potential points strategy decides which point is used next", "statement": "The next placement point is always the oldest pending point of the first class in potential_points_strategy that has one; points of classes not in the strategy are never used, so with an empty strategy every container receives at most one item.", "quantifier": "all strategies, all point pools, all problems", "why_tests_cant": "Ordering over an unbounded history of pools.", "anchors": ["hyperpack/mixins.py:PointGenerationMixin._get_current_point"]}
{"id": "C12", "title": "Greedy completeness: nothing left over fits where it was offered", "statement": "When solve() leaves items over and did not stop because of full utilization, no left-over item fits, in any allowed orientation, into the final layout at any potential point that was used during construction.", "quantifier": "all validated problems, all histories of visited points", "why_tests_cant": "It relates the final state to every earlier state of the run.", "anchors": ["hyperpack/mixins.py:PointGenerationMixin._construct_solution", "hyperpack/mixins.py:PointGenerationMixin._check_fitting"]}
{"id": "C13", "title": "Solving changes nothing but the result", "statement": "solve() does not change items, containers, settings, strategy or container heights, and if it raises (unknown id in sequence) the previous solution and objective values are kept.", "quantifier": "all instance states and sequences", "why_tests_cant": "Frame property over all states, including the failing path.", "anchors": ["hyperpack/heuristics.py:PointGenerationSolver.solve", "hyperpack/structures.py:AbstractStructureSet.deepcopy"]}
{"id": "C14", "title": "Solving is a function of the problem and the strategy only", "statement": "Two instances that agree on items (with order), containers, strategy, rotation and container height produce the same solution and values from solve(), whatever was solved, logged or configured before.", "quantifier": "all pairs of instance states", "why_tests_cant": "Non-interference is a relation between all pairs of histories.", "anchors": ["hyperpack/mixins.py:PointGenerationMixin._solve"]}
{"id": "C15", "title": "solve(sequence) is solve() on the re-ordered items", "statement": "solve(sequence=s) gives the result of solving an instance whose items are those of s in first-occurrence order: repeated ids have no effect, ids not in s are not placed, an id that is not an item raises KeyError.", "quantifier": "all items and all sequences", "why_tests_cant": "Universal over sequences, including duplicates and unknown ids.", "anchors": ["hyperpack/structures.py:AbstractStructureSet.deepcopy", "hyperpack/mixins.py:PointGenerationMixin._solve"]}
{"id": "C16", "title": "local_search is never worse than solve (bin packing)", "statement": "In bin-packing mode the objective value after local_search() is at least the objective value solve() gives for the items in their current order.", "quantifier": "all problems, all clocks, all throttle settings", "why_tests_cant": "Universal over search trajectories and time-outs.", "anchors": ["hyperpack/abstract.py:AbstractLocalSearch.local_search", "hyperpack/mixins.py:LocalSearchMixin.local_search"]}
{"id": "C17", "title": "local_search returns a genuine packing of a re-ordering of the items", "statement": "The solution and objective values after local_search() are exactly what solve(sequence) produces for some permutation of the items (for the container height in force at that time), so every guarantee about solve() carries over.", "quantifier": "all problems, all clocks", "why_tests_cant": "The search mutates shared instance state; that the restored result is uncorrupted must hold for every trajectory.", "anchors": ["hyperpack/abstract.py:AbstractLocalSearch.local_search", "hyperpack/mixins.py:DeepcopyMixin._deepcopy_solution"]}
{"id": "C18", "title": "local_search always terminates", "statement": "For every problem and every clock, even one that never reaches the time limit, local_search() performs finitely many node evaluations, in bin-packing and in strip-packing mode.", "quantifier": "all problems, all clocks", "why_tests_cant": "Termination for every input and every clock cannot be observed by running.", "anchors": ["hyperpack/abstract.py:AbstractLocalSearch.local_search"]}
{"id": "C19", "title": "local_search ends in a 2-exchange local optimum", "statement": "In bin-packing mode, if the search was neither stopped by the clock nor by the neighbour throttle, then no exchange of two items in the final sequence gives a strictly better objective value.", "quantifier": "all problems, all non-expiring clocks", "why_tests_cant": "Universal over the whole neighbourhood of an arbitrary final node.", "anchors": ["hyperpack/abstract.py:AbstractLocalSearch.local_search"]}
{"id": "C20", "title": "Throttle bounds the work per node", "statement": "With throttle on, at most 2500 neighbours are evaluated for each node; without it at most n(n-1)/2; and when n <= 71 the throttle changes nothing.", "quantifier": "all item counts, all trajectories", "why_tests_cant": "Universal over n and search histories.", "anchors": ["hyperpack/abstract.py:AbstractLocalSearch.get_max_neighbors_num", "hyperpack/abstract.py:AbstractLocalSearch.local_search"]}
{"id": "C21", "title": "The time limit is honoured after every neighbour", "statement": "Once a clock reading taken in local_search() is at or past start + max_time_in_seconds, no further neighbour is evaluated and the best solution so far is returned.", "quantifier": "all clocks, all problems", "why_tests_cant": "Universal over clock behaviours.", "anchors": ["hyperpack/abstract.py:AbstractLocalSearch.local_search"]}
{"id": "C22", "title": "Solution and objective values stay consistent", "statement": "After solve(), local_search() or single-process hypersearch(), obj_val_per_container is the utilization of exactly the packing in solution (they come from the same construction).", "quantifier": "all operation histories", "why_tests_cant": "Two attributes updated separately must agree after every history.", "anchors": ["hyperpack/mixins.py:LocalSearchMixin.get_solution", "hyperpack/mixins.py:LocalSearchMixin.local_search", "hyperpack/heuristics.py:HyperPack._single_process_hypersearch"]}
{"id": "C23", "title": "Strip height only goes down during local_search", "statement": "In strip packing, each time local_search accepts a node container_height becomes the height of that packing (or container_min_height if larger), it never exceeds the value before the call (nor the minimum height), and the returned packing fits below the height in force when it was found.", "quantifier": "all strip problems, all clocks", "why_tests_cant": "An invariant over all search trajectories.", "anchors": ["hyperpack/structures.py:Containers._set_height", "hyperpack/mixins.py:LocalSearchMixin.extra_node_operations"]}
{"id": "C24", "title": "Strip packing returns all items", "statement": "With container_min_height unset, the packing returned by local_search() on a strip-packing problem contains every item.", "quantifier": "all strip problems", "why_tests_cant": "Universal over problems; the failing case needs a container height at which the initial order does not fit.", "anchors": ["hyperpack/mixins.py:LocalSearchMixin.compare_node", "hyperpack/abstract.py:AbstractLocalSearch.local_search"]}
{"id": "C25", "title": "Height settings are always consistent", "statement": "In every reachable state of a strip-packing instance container_height is a positive integer and container_min_height is None or a positive integer not above container_height.", "quantifier": "all operation histories", "why_tests_cant": "Invariant over all histories of setters, resets and searches.", "anchors": ["hyperpack/heuristics.py:BasePackingProblem.container_height", "hyperpack/heuristics.py:BasePackingProblem.container_min_height", "hyperpack/heuristics.py:BasePackingProblem.reset_container_height", "hyperpack/structures.py:Containers._set_height"]}
{"id": "C26", "title": "Strip hypersearch keeps a complete packing once found", "statement": "With container_min_height unset, if hypersearch() on a strip-packing problem finds a packing of all items, the packing it returns contains all items.", "quantifier": "all strip problems and strategy lists", "why_tests_cant": "Universal over problems and strategy orders.", "anchors": ["hyperpack/heuristics.py:HyperPack._check_solution", "hyperpack/heuristics.py:HyperPack._single_process_hypersearch"]}
{"id": "C27", "title": "hypersearch returns the best packing it saw", "statement": "Single-process hypersearch() ends with an objective value that is attained by the returned solution, is at least that of the initial solve and at least that of the local search of every strategy tried.", "quantifier": "all problems, all strategy lists, all clocks", "why_tests_cant": "Universal over trajectories and time-outs.", "anchors": ["hyperpack/heuristics.py:HyperPack._single_process_hypersearch"]}
{"id": "C28", "title": "Exhaustive hypersearch tries every strategy exactly once", "statement": "get_strategies() yields, for any set iteration order, 720 different valid strategies, each a permutation of the ten point classes ending in A__, B__, F, E, and every ordering of the six other classes occurs exactly once.", "quantifier": "all iteration orders of the point set", "why_tests_cant": "The order of a Python set of strings changes from run to run.", "anchors": ["hyperpack/heuristics.py:HyperPack.get_strategies"]}
{"id": "C29", "title": "hypersearch leaves the configured strategy alone and reports the winning one", "statement": "After hypersearch() potential_points_strategy has the value it had before, and best_strategy is the strategy that produced the returned solution.", "quantifier": "all instance states", "why_tests_cant": "Frame property over all states.", "anchors": ["hyperpack/heuristics.py:HyperPack._single_process_hypersearch"]}
{"id": "C30", "title": "hypersearch stops at full utilization", "statement": "Once a solution with the maximum achievable utilization is found hypersearch tries no further strategy.", "quantifier": "all problems", "why_tests_cant": "Universal over problems; a test only shows the result, not that the search stopped.", "anchors": ["hyperpack/abstract.py:AbstractLocalSearch.get_optimum_objective_val", "hyperpack/abstract.py:AbstractLocalSearch.global_check"]}
{"id": "C31", "title": "Worker processes partition the strategies", "statement": "For every positive workers_num and every strategy list, the chunks handed to the worker processes are non-empty, at most workers_num in number, and concatenate to the strategy list, so each strategy is tried by exactly one worker.", "quantifier": "all worker counts, all strategy lists", "why_tests_cant": "Arithmetic of ceil and slices over all lengths.", "anchors": ["hyperpack/heuristics.py:HyperPack._multi_process_hypersearch"]}
{"id": "C32", "title": "Multi-process hypersearch returns the best surviving result under every schedule", "statement": "For every interleaving of the worker processes' accesses to the shared array and every set of workers that raise an exception, the returned solution is one reported by a worker that did not fail and whose value is maximal among those.", "quantifier": "all schedules, all failure sets and failure points", "why_tests_cant": "Interleavings and failure points are not controllable from a test.", "anchors": ["hyperpack/heuristics.py:HyperPack._multi_process_hypersearch", "hyperpack/processes.py:HyperSearchProcess.run"]}
{"id": "C33", "title": "MultiProcessError exactly when all workers failed", "statement": "hypersearch() with several workers raises MultiProcessError if and only if every worker process raised an exception.", "quantifier": "all failure sets, all schedules", "why_tests_cant": "Universal over failure sets and schedules.", "anchors": ["hyperpack/heuristics.py:HyperPack._multi_process_hypersearch", "hyperpack/processes.py:HyperSearchProcess.run"]}
{"id": "C34", "title": "The number of workers does not change the achieved value (bin packing)", "statement": "If no time limit is hit and no worker fails, the objective value found by multi-process hypersearch is the same for every number of workers, and the same as the single-process value for an instance using the default strategy.", "quantifier": "all problems, all worker counts, all schedules", "why_tests_cant": "Universal over partitions and schedules.", "anchors": ["hyperpack/heuristics.py:HyperPack.hypersearch"]}
{"id": "C35", "title": "A killed worker does not hang hypersearch", "statement": "If a worker process is killed by the operating system at any point, hypersearch() still returns or raises.", "quantifier": "all crash points", "why_tests_cant": "Crash points cannot be enumerated by tests.", "anchors": ["hyperpack/processes.py:HyperSearchProcess.run", "hyperpack/heuristics.py:HyperPack._multi_process_hypersearch"]}
{"id": "C36", "title": "items and containers are always valid", "statement": "After any history of assignments, key assignments, dimension assignments, deletions, pop, popitem, clear, update and setdefault on items and containers, successful or not, both structures are non-empty, all ids are strings and every entry has exactly the two expected keys with positive integer values.", "quantifier": "all operation histories and all argument values", "why_tests_cant": "Invariant over unbounded histories and arbitrary Python values.", "anchors": ["hyperpack/structures.py:AbstractStructureSet", "hyperpack/structures.py:Dimensions"]}
{"id": "C37", "title": "In-place merge keeps items valid", "statement": "problem.items |= other (and containers), and problem.items[id] |= other for one size, either validates the merged entries or leaves the structure unchanged.", "quantifier": "all values of other", "why_tests_cant": "Universal over argument values.", "anchors": ["hyperpack/structures.py:AbstractStructureSet", "hyperpack/heuristics.py:BasePackingProblem.items"]}
{"id": "C38", "title": "Every successful change of the problem discards the old solution", "statement": "After every successful assignment, key assignment, dimension assignment or deletion on items or containers, solution and obj_val_per_container are empty.", "quantifier": "all states and all operations", "why_tests_cant": "Universal over states and operations.", "anchors": ["hyperpack/structures.py:Dimensions.reset_instance_attrs", "hyperpack/structures.py:AbstractStructureSet.reset_instance_attrs"]}
{"id": "C39", "title": "A rejected change leaves the problem data as it was", "statement": "If an assignment, key assignment, dimension assignment or deletion on items or containers raises, items, containers and the container count are unchanged.", "quantifier": "all states, all operations, all invalid values", "why_tests_cant": "Exception-safety over all failing inputs.", "anchors": ["hyperpack/structures.py:AbstractStructureSet.__setitem__", "hyperpack/heuristics.py:BasePackingProblem.items"]}
{"id": "C40", "title": "A rejected change keeps the solution", "statement": "If assigning items or containers raises, solution is unchanged.", "quantifier": "all states, all invalid values", "why_tests_cant": "Universal over failing inputs.", "anchors": ["hyperpack/structures.py:Dimensions.__init__", "hyperpack/heuristics.py:BasePackingProblem.items"]}
{"id": "C41", "title": "The last item or container cannot be removed", "statement": "No history of del, pop, popitem and clear makes items or containers empty; clear() raises after leaving exactly one entry.", "quantifier": "all histories", "why_tests_cant": "Invariant over histories.", "anchors": ["hyperpack/structures.py:AbstractStructureSet.__delitem__"]}
{"id": "C42", "title": "The strip container is immutable", "statement": "On a strip-packing instance every attempt to assign containers, a container, or a container's dimension, or to delete the container raises and the container keeps its width, in every history.", "quantifier": "all histories and values", "why_tests_cant": "Invariant over histories.", "anchors": ["hyperpack/heuristics.py:BasePackingProblem.containers", "hyperpack/structures.py:AbstractStructureSet.__setitem__", "hyperpack/structures.py:Dimensions.__setitem__"]}
{"id": "C43", "title": "The solution is never stale", "statement": "In every reachable state solution is empty or has exactly the current container ids as keys, and places only current items, each with its current size up to rotation and inside its current container.", "quantifier": "all operation histories", "why_tests_cant": "Invariant over all interleavings of edits and solves.", "anchors": ["hyperpack/structures.py:AbstractStructureSet", "hyperpack/heuristics.py:PointGenerationSolver.solve"]}
{"id": "C44", "title": "The overall objective counts every container", "statement": "In every reachable state calculate_obj_value() sums the utilizations of all current containers, with the last one weighted 0.7 if and only if there is more than one.", "quantifier": "all histories, all container counts", "why_tests_cant": "The cached container count must agree with the structure after every history.", "anchors": ["hyperpack/mixins.py:LocalSearchMixin.calculate_obj_value", "hyperpack/structures.py:Containers.reset_instance_attrs"]}
{"id": "C45", "title": "Strategy assignment accepts exactly valid strategies", "statement": "Assigning potential_points_strategy succeeds if and only if the value is a tuple of distinct strings out of the ten point classes; otherwise PotentialPointsError is raised and the old strategy stays.", "quantifier": "all Python values", "why_tests_cant": "Universal over values.", "anchors": ["hyperpack/heuristics.py:PointGenerationSolver.potential_points_strategy"]}
{"id": "C46", "title": "Height setters accept exactly legal heights", "statement": "container_height accepts exactly integers >= 1 not below container_min_height; container_min_height accepts exactly integers between 1 and container_height; otherwise an error is raised and both keep their values; reset_container_height restores 10 * strip width and None.", "quantifier": "all states and values", "why_tests_cant": "Universal over states and values.", "anchors": ["hyperpack/heuristics.py:BasePackingProblem.container_height", "hyperpack/heuristics.py:BasePackingProblem.container_min_height", "hyperpack/heuristics.py:BasePackingProblem.reset_container_height"]}
{"id": "C47", "title": "Applied settings are always legal", "statement": "After every successful settings validation rotation is a bool, the time limit is an integer >= 1 and the number of workers is positive, with the documented defaults for missing keys; a rejected settings value raises SettingsError and never makes an applied value illegal.", "quantifier": "all Python values, all histories", "why_tests_cant": "Universal over values and partial application orders.", "anchors": ["hyperpack/heuristics.py:PointGenerationSolver._validate_settings", "hyperpack/heuristics.py:HyperPack._validate_settings"]}
{"id": "C48", "title": "workers_num must be a positive integer", "statement": "Settings whose workers_num is not a positive integer are rejected with SettingsError.", "quantifier": "all Python values", "why_tests_cant": "Universal over values.", "anchors": ["hyperpack/heuristics.py:HyperPack._validate_settings"]}
{"id": "C49", "title": "Figure settings are checked as documented", "statement": "Figure settings are accepted only if plotly (and kaleido for images) has a version in the supported numeric range, the file name consists of 1 to 45 of the characters [a-zA-Z0-9_-], and type, format, path, width, height and show have the documented types and values.", "quantifier": "all settings values, all installed versions, all file names", "why_tests_cant": "Universal over values, versions and strings.", "anchors": ["hyperpack/mixins.py:SolutionFigureMixin._validate_figure_settings", "hyperpack/mixins.py:SolutionFigureMixin._check_plotly_kaleido_versions"]}
{"id": "C50", "title": "sort_items only re-orders, and orders correctly", "statement": "After sort_items((by, reverse)) the items are a permutation of the previous ones with unchanged sizes, ordered by the chosen criterion with ties broken by id; reverse=True gives exactly the reversed order; an unknown criterion raises NotImplementedError and changes nothing.", "quantifier": "all items, all criteria", "why_tests_cant": "Universal over item sets.", "anchors": ["hyperpack/mixins.py:ItemsManipulationMixin.sort_items"]}
{"id": "C51", "title": "orient_items only turns items", "statement": "After orient_items('wide') every item has w >= l ('long': l >= w) with the same two side lengths, ids and order; it is idempotent; it changes nothing when rotation is disabled, or orientation is None or unknown.", "quantifier": "all items, all orientations", "why_tests_cant": "Universal over item sets.", "anchors": ["hyperpack/mixins.py:ItemsManipulationMixin.orient_items"]}
{"id": "C52", "title": "log_solution accounts for every item", "statement": "log_solution() lists as remaining exactly the items that are in no container, so placed plus remaining is the number of items, and it never raises after a solve.", "quantifier": "all reachable states", "why_tests_cant": "Universal over states; the failing case needs an empty strip packing.", "anchors": ["hyperpack/mixins.py:SolutionLoggingMixin.log_solution", "hyperpack/structures.py:Containers._get_height"]}
{"id": "C53", "title": "create_figure draws exactly the solution", "statement": "create_figure() draws per container one rectangle per placed item with corners (Xo, Yo) and (Xo+w, Yo+l) and the container outline, for every number of items; if a figure cannot be written to its file it raises FigureExportError and leaves the problem unchanged.", "quantifier": "all solutions", "why_tests_cant": "Universal over solutions; the failing case needs more than a thousand items in a container.", "anchors": ["hyperpack/mixins.py:SolutionFigureMixin.create_figure", "hyperpack/mixins.py:SolutionFigureMixin.colorgen", "hyperpack/constants.py:ITEMS_COLORS"]}
{"id": "C54", "title": "Exported figures do not overwrite each other", "statement": "Figures of different containers are exported to different files, for all container ids, file names and formats.", "quantifier": "all container ids and file names", "why_tests_cant": "Universal over strings.", "anchors": ["hyperpack/mixins.py:SolutionFigureMixin.create_figure"]}
{"id": "C55", "title": "generate_problem_data generates valid problems", "statement": "For all positive parameters and all random draws, the containers and items returned by generate_problem_data are accepted by HyperPack.", "quantifier": "all parameters, all random outcomes", "why_tests_cant": "Universal over parameters and random outcomes.", "anchors": ["hyperpack/utils.py:generate_problem_data"]}
{"id": "C56", "title": "Copies of a solution are faithful", "statement": "The copy of solution and objective values kept by the searches has, for every container and item, the same placement as the original, and placements of no other items.", "quantifier": "all solutions over the current items and containers", "why_tests_cant": "Universal over solutions.", "anchors": ["hyperpack/mixins.py:DeepcopyMixin._deepcopy_solution", "hyperpack/mixins.py:DeepcopyMixin._copy_objective_val_per_container"]}
{"id": "C57", "title": "Multi-process hypersearch comes back", "statement": "If no worker is killed by the operating system, hypersearch() with several workers returns or raises after each worker has run to its end, whatever exceptions the workers raise and however large the problem is.", "quantifier": "all problems, all schedules, all message sizes", "why_tests_cant": "Deadlocks depend on schedule and on the size of the pipe buffer.", "anchors": ["hyperpack/heuristics.py:HyperPack._multi_process_hypersearch", "hyperpack/processes.py:HyperSearchProcess.run"]}
{"id": "C58", "title": "Searches within their time limit are deterministic", "statement": "If no clock reading reaches the time limit, the results of local_search() and hypersearch() depend only on the items, containers, strategy, rotation setting and container heights: not on the clock, not on an earlier solution and, with several workers none of which fails, not on how the worker processes are scheduled.", "quantifier": "all problems, clocks, earlier states and schedules", "why_tests_cant": "Quantifies over pairs of executions and schedules.", "anchors": ["hyperpack/mixins.py:LocalSearchMixin.local_search", "hyperpack/heuristics.py:HyperPack.hypersearch"]}
{"id": "C59", "title": "Edits accept exactly valid values and have the effect of a dict", "statement": "Assigning items or containers, one entry or one dimension succeeds if and only if the id is a string (an existing one for a dimension) and the value is a dict with exactly the two expected keys and positive integer values (for a dimension, such an integer); on success the structure is the previous one with exactly that entry changed, as for a Python dict. Deleting succeeds exactly for an existing id that is not the last one, and removes exactly that entry.", "quantifier": "all states, all ids, all Python values", "why_tests_cant": "Universal over values of any type and over histories.", "anchors": ["hyperpack/structures.py:Dimensions", "hyperpack/structures.py:AbstractStructureSet", "hyperpack/structures.py:Containers", "hyperpack/structures.py:Items", "hyperpack/heuristics.py:BasePackingProblem.items", "hyperpack/heuristics.py:BasePackingProblem.containers"]}
{"id": "C60", "title": "The constructor accepts exactly valid problems", "statement": "HyperPack(containers, items, settings, strip_pack_width) succeeds if and only if exactly one of containers (sizes) and strip_pack_width (a positive integer) is given, the items are sizes and the settings are acceptable; the new object has exactly those items, containers and settings, the documented defaults and no solution.", "quantifier": "all Python values of the four arguments, all environments", "why_tests_cant": "Universal over argument values of any type.", "anchors": ["hyperpack/heuristics.py:BasePackingProblem.__init__", "hyperpack/heuristics.py:BasePackingProblem._check_strip_pack", "hyperpack/heuristics.py:PointGenerationSolver.__init__", "hyperpack/heuristics.py:HyperPack.__init__"]}
{"id": "C61", "title": "Additional containers do not disturb the existing ones", "statement": "If containers are added behind the existing ones, solve() with the same items and sequence puts exactly the same items at the same places into the existing containers and reports the same values for them; the new containers follow in their order and receive only what was left over.", "quantifier": "all problems, all sequences, all lists of added containers, any rounding; and all reachable objects for an added key", "why_tests_cant": "Relates two runs on arbitrary inputs.", "anchors": ["hyperpack/mixins.py:PointGenerationMixin._solve", "hyperpack/structures.py:Containers.__setitem__"]}
{"id": "C62", "title": "Items that are left over have no influence", "statement": "If solve() leaves some items unplaced, then deleting any of them from the items (and from the sequence) and solving again gives exactly the same solution and the same objective values.", "quantifier": "all problems in both modes, all sequences, all sets of unplaced items, any rounding with 0/n = 0; and all reachable objects for del problem.items[id]", "why_tests_cant": "Relates two runs of a stateful greedy heuristic whose visited points depend on the items, for arbitrary inputs.", "anchors": ["hyperpack/mixins.py:PointGenerationMixin._construct_solution", "hyperpack/mixins.py:PointGenerationMixin._solve"]}
{"id": "C63", "title": "Ids are only names", "statement": "Renaming the items injectively and the containers arbitrarily renames the result of solve() and changes nothing else: same placements, same values, same errors.", "quantifier": "all problems, all sequences, all injective renamings of items, all renamings of containers", "why_tests_cant": "Universal over renamings and inputs.", "anchors": ["hyperpack/mixins.py:PointGenerationMixin._construct_solution", "hyperpack/mixins.py:PointGenerationMixin._solve", "hyperpack/structures.py:Items.deepcopy"]}
{"id": "C64", "title": "A result can be replayed", "statement": "Calling solve() with the ids of the placed items in the order in which they appear in the result (container after container) reproduces the same solution and values.", "quantifier": "all problems in both modes, all sequences, any rounding with 0/n = 0", "why_tests_cant": "The replay offers the items in another order and without the unplaced ones; that the heuristic takes the same decisions must hold for every input.", "anchors": ["hyperpack/mixins.py:PointGenerationMixin._construct_solution", "hyperpack/mixins.py:PointGenerationMixin._solve"]}
{"id": "C65", "title": "No unplaced item fits above the stack", "statement": "With a strategy that contains the classes A, A' and E (such as the default one), an item solve() leaves over does not fit, in any allowed orientation, into the free space between the top of the placed items and the top of any container that is not reported as full.", "quantifier": "all valid problems in both modes, all sequences, all containers, all left-over items, any rounding", "why_tests_cant": "A statement about every left-over item of every packing; it depends on which points the heuristic has generated and visited in the whole run.", "anchors": ["hyperpack/mixins.py:PointGenerationMixin._construct_solution", "hyperpack/mixins.py:PointGenerationMixin._solve", "hyperpack/mixins.py:PointGenerationMixin._generate_points"]}
{"id": "C66", "title": "Enough height means nothing is left over", "statement": "If a container is at least as high as all items piled on top of each other (longest allowed side up), then solve() with a strategy containing A, A' and E places every item that is not wider than it; in strip packing solve() and local_search() then pack all items.", "quantifier": "all valid problems, all sequences, any rounding, any clock", "why_tests_cant": "Universal guarantee of success of a greedy heuristic over all inputs of the given shape.", "anchors": ["hyperpack/mixins.py:PointGenerationMixin._construct_solution", "hyperpack/mixins.py:PointGenerationMixin._solve", "hyperpack/mixins.py:PointGenerationMixin._generate_points", "hyperpack/heuristics.py:HyperPack.local_search"]}
{"id": "C67", "title": "Unused strip height does not matter", "statement": "In strip packing, lowering container_height to any value that is not below the top of the packing solve() produced leaves the result of solve() unchanged.", "quantifier": "all strip problems, all sequences, all strategies, all pairs of heights", "why_tests_cant": "Relates two runs for arbitrary inputs; the dependence (20% test on the container height) shows only for special geometry.", "anchors": ["hyperpack/mixins.py:PointGenerationMixin._construct_solution", "hyperpack/mixins.py:PointGenerationMixin._generate_points", "hyperpack/mixins.py:PointGenerationMixin._get_initial_container_length"]}
{"id": "C68", "title": "High strips are filled with a single column", "statement": "With a strategy that starts with class A (the default one does), if the strip is at least as high as all item lengths together and no item is wider than it, solve() puts the items one above the other at the left wall in their order, unrotated, whatever their widths: the packing is exactly as high as the sum of the lengths.", "quantifier": "all strip problems, all sequences, all strategies starting with A, any rounding", "why_tests_cant": "Exact characterisation of the output for infinitely many inputs of any size.", "anchors": ["hyperpack/mixins.py:PointGenerationMixin._construct_solution", "hyperpack/mixins.py:PointGenerationMixin._generate_points", "hyperpack/mixins.py:PointGenerationMixin._get_initial_container_length"]}
{"id": "C69", "title": "PointGenPack is HyperPack without the searches", "statement": "A PointGenPack object behaves exactly as a HyperPack object with the same arguments and history, for every call it has: the constructor, edits of items, containers, heights, strategy and settings, solve, log_solution and create_figure end in the same way (same exception) and lead to the same problem and result. It ignores max_time_in_seconds and workers_num in its settings, whatever their value; the calls it lacks (local_search, hypersearch, sort_items, orient_items) raise AttributeError and change nothing.", "quantifier": "all constructor arguments, all histories of calls, all settings values, any rounding", "why_tests_cant": "Equivalence of two classes over all histories.", "anchors": ["hyperpack/heuristics.py:PointGenPack", "hyperpack/heuristics.py:PointGenerationSolver", "hyperpack/heuristics.py:HyperPack", "hyperpack/mixins.py:SolutionFigureMixin.validate_settings"]}
{"id": "C70", "title": "hypersearch searches the sorted and oriented items", "statement": "hypersearch(orientation, sorting_by, throttle) first does sort_items(sorting_by) and orient_items(orientation); if the former raises, so does it, with nothing changed. Otherwise the items stay sorted and oriented, and the search runs on them: with one worker it returns, with a value at least that of solve() and of the local search (same throttle) of every strategy tried, on those items; with several workers, a result it returns is that of one worker's search on those items, the best among the workers that did not fail. Containers, settings and minimum height are unchanged in any case.", "quantifier": "all reachable problems, all arguments, all clocks, all schedules of workers", "why_tests_cant": "Ranges over all histories, arguments, clock readings and interleavings.", "anchors": ["hyperpack/heuristics.py:HyperPack.hypersearch", "hyperpack/mixins.py:ItemsManipulationMixin.sort_items", "hyperpack/mixins.py:ItemsManipulationMixin.orient_items"]}
{"id": "C71", "title": "The order of the items is a priority order", "statement": "Whenever solve(sequence) puts an item at a point (x, y) of a container, no item that comes before it in the sequence and was still available (in none of the previous containers and not yet in this one) could have been put at (x, y) at that time in any allowed orientation; and the item is rotated only if it did not fit there unrotated.", "quantifier": "all validated problems, strategies, sequences, containers and placements", "why_tests_cant": "Ranges over every prefix of every construction on every problem.", "anchors": ["hyperpack/mixins.py:PointGenerationMixin._construct_solution", "hyperpack/mixins.py:PointGenerationMixin._check_fitting"]}
{"id": "C72", "title": "Kept items and containers objects", "statement": "An Items or Containers object got from problem.items / problem.containers stays the problem's own, so that editing it edits the problem with the same outcome as editing problem.items / problem.containers, until the attribute is assigned with success or, for items, they are sorted by sort_items or by hypersearch with a sorting criterion (its default). From then on editing the old object never changes the problem's items or containers; it may only discard the solution and, for a Containers object, change the stored number of containers.", "quantifier": "all histories of operations on the problem and on any kept or copied objects, all objects, methods and arguments", "why_tests_cant": "The history between getting the object and using it is arbitrary, and hypersearch replaces the object silently.", "anchors": ["hyperpack/heuristics.py: BasePackingProblem.items, containers", "hyperpack/structures.py: AbstractStructureSet", "hyperpack/mixins.py: ItemsManipulationMixin.sort_items"]}
{"id": "C73", "title": "Kept sizes", "statement": "The object problem.items[id] or problem.containers[id] stays connected - setting its width or length is setting that of the item or container of the problem, with the same outcome - as long as the structure is not replaced (C72), nothing is assigned to that id and it is not removed; changing sizes, orienting, solving, and searching without sorting keep it. An accepted assignment to the id or its deletion disconnects it; from then on editing it may only discard the solution. A size always keeps both its entries: deleting, popping or clearing them is refused and changes nothing.", "quantifier": "all histories of operations on the problem and on any kept or copied objects, all ids, objects, methods and arguments", "why_tests_cant": "The history between getting the object and using it is arbitrary.", "anchors": ["hyperpack/structures.py: Dimensions, AbstractStructureSet", "hyperpack/mixins.py: ItemsManipulationMixin.orient_items"]}
{"id": "C74", "title": "Reading and copying have no effect", "statement": "Copying items, containers or sizes (copy(), copy.copy), logging the solution and creating figures leave the problem as it is, including its solution.", "quantifier": "all histories of operations on the problem and on any kept or copied objects, all objects", "why_tests_cant": "It must hold in every state, for every object.", "anchors": ["hyperpack/structures.py: Dimensions, AbstractStructureSet (UserDict.copy)", "hyperpack/mixins.py: log_solution, create_figure"]}
{"id": "C75", "title": "No kept object can corrupt the problem", "statement": "Whatever Items, Containers and Dimensions objects the user keeps, copies and edits, current or replaced, the problem's structures stay valid and non-empty and its solution is empty or a packing of the current items into the current containers; and as long as no Containers object but the current one is edited the problem is always in a state that can be reached by operations on the problem alone.", "quantifier": "all histories of operations on the problem and on any kept or copied objects", "why_tests_cant": "All interleavings of edits through any number of objects.", "anchors": ["hyperpack/structures.py: Dimensions, AbstractStructureSet, Items, Containers", "hyperpack/heuristics.py: BasePackingProblem"]}
{"id": "C76", "title": "solve carries out the documented point generation heuristic", "statement": "Unless items that can be laid as low strips make rectangles overlap, `solve` returns exactly the result of the point generation heuristic, described by rectangles only: the containers are filled one after the other in order; in each one the corner is the first point; at every point the first item, in the order of the sequence, that can be added there without overlap and inside the container is placed, unrotated if possible; the placed item adds its points to the queues of their classes; the next point is the oldest one of the first class in the strategy that has any; a container is finished when there are no points or no items left or the reported utilization has reached 1. This description has exactly one result.", "quantifier": "all containers, items, sequences, strategies, rotation settings, packing modes and roundings of the floating point operations", "why_tests_cant": "the layout depends on the complete history of placements and points; tests compare a few layouts", "anchors": ["hyperpack/mixins.py:_construct_solution", "hyperpack/mixins.py:_generate_points", "hyperpack/mixins.py:_get_current_point", "hyperpack/mixins.py:_check_fitting", "hyperpack/mixins.py:_solve"]}
{"id": "C77", "title": "Which points a placed item opens for the next items", "statement": "The positions at which further items are tried are a function of the placed rectangles: an item opens at its top left corner an A point (something to the left) or A'' point (free to the left), left of it on the same level an A' (at most 20% of the width away) or E point (farther) where a point sliding left comes to rest, at its bottom right corner a B or B'' point, below it a B' or F point, on its top a C point at the right end of every rectangle standing there and on its right side a D point at the upper end of every rectangle touching it; these and no others, in order of position. In a solution the first item of a container lies in the corner and every other item at a point opened by an item placed before it, of a class in the strategy.", "quantifier": "all layouts of disjoint rectangles in a container of any size, all problems whose result has no overlap", "why_tests_cant": "there are unboundedly many layouts around an item", "anchors": ["hyperpack/mixins.py:_generate_points", "hyperpack/mixins.py:_construct_solution"]}
{"id": "C78", "title": "The unit of length does not matter", "statement": "Multiplying the sizes of all items and containers (and the strip height) by the same positive integer multiplies all positions and sizes in the solution of `solve` by it, for the same strategy and sequence; the reported utilizations of bin packing do not change. (Problems whose solution has overlapping low strips are excepted.)", "quantifier": "all problems whose solution has no overlap, all factors, sequences, strategies, and all roundings of int division that depend on the ratio only", "why_tests_cant": "tests use one unit; the claim is about all factors and all problems", "anchors": ["hyperpack/mixins.py:_construct_solution", "hyperpack/mixins.py:_generate_points", "hyperpack/mixins.py:_solve"]}
{"id": "C79", "title": "Ids are only names, also for the searches", "statement": "Renaming the items and the containers (injectively; a strip keeps its single id) renames the outcome of local_search, orient_items and hypersearch and changes nothing else: the same positions, the same values, the same best strategy, the same errors, for every clock, every number of workers and every schedule of the worker processes. Sorting breaks ties by id, so sort_items and a sorting hypersearch commute with renamings that keep the alphabetic order of the ids, but not with all others.", "quantifier": "all problems, all injective renamings, all clocks, all arguments of hypersearch, all schedules of the workers", "why_tests_cant": "A test compares finitely many namings of finitely many problems; hidden dependence on ids (dict or set order, string comparison) shows only for particular names and schedules.", "anchors": ["hyperpack/mixins.py:local_search", "hyperpack/mixins.py:sort_items", "hyperpack/mixins.py:orient_items", "hyperpack/heuristics.py:hypersearch"]}
{"id": "C80", "title": "The unit of length does not matter to the searches of bin packing", "statement": "In bin packing, multiplying all widths and lengths of the containers and items by the same factor multiplies the positions and sizes in the results of local_search, sort_items, orient_items and hypersearch by that factor and changes nothing else: the same decisions, values, best strategy and errors, for every clock, number of workers and schedule (no item one unit thin and three or more long, which the code may overlap, see C01).", "quantifier": "all reachable bin packing problems without such thin items, all factors, all clocks, all arguments of hypersearch, all schedules", "why_tests_cant": "A search takes many decisions by comparing values; a test sees a few of them, at a few scales.", "anchors": ["hyperpack/mixins.py:local_search", "hyperpack/mixins.py:sort_items", "hyperpack/heuristics.py:hypersearch", "hyperpack/heuristics.py:_construct"]}
{"id": "C81", "title": "Reported utilizations are right to the last digits", "statement": "obj_val_per_container is computed in binary floating point; in bin packing the value of a container with n items is the covered fraction of its area up to a relative error of (n + 1) / 2^52. A reported value of 1 or more, which ends the packing of the container, means that the container really is full, so nothing is left over because of rounding (containers with (n + 1) * area < 2^53). Assumptions on the arithmetic elsewhere in this list (signs, zero, dependence on ratios only) hold of binary floating point.", "quantifier": "all valid bin packing problems, all sequences and strategies, all numbers of items; the early stop for containers with (n + 1) * area < 2^53", "why_tests_cant": "Rounding errors depend on the numbers and on the order of the additions; a test sees the errors of its own numbers.", "anchors": ["hyperpack/mixins.py:calculate_objective_value", "hyperpack/mixins.py:_construct_solution"]}
{"id": "C82", "title": "Rounding never makes a search prefer a worse packing", "statement": "local_search and hypersearch compare overall values computed in binary floating point. In bin packing (no item one unit thin and three or more long), if the sizes are not astronomical, two packings of the same containers whose exact overall values differ are reported with values that differ in the same direction; hence with floating point numbers, too, local_search is never worse than solve in exact value and ends in an exact 2-exchange local optimum, and hypersearch ends with the exactly best packing it saw. Without the size condition at most a relative (items + containers + 2) / 2^51 of the exact value is lost. In strip packing the same holds of the quotient the code reports.", "quantifier": "all valid problems with (items + containers + 2) * 10 * D * containers < 2^52, D a common multiple of the container areas; all sequences, strategies, clocks; the loss bound for all sizes", "why_tests_cant": "Whether a rounding error flips a comparison depends on the exact numbers of every pair of packings compared.", "anchors": ["hyperpack/mixins.py:calculate_obj_value", "hyperpack/mixins.py:compare_node", "hyperpack/abstract.py:local_search", "hyperpack/heuristics.py:_check_solution"]}
{"id": "C83", "title": "Rounding does not change the packings of solve", "statement": "solve() computed in binary floating point places every item exactly where unlimited precision would place it: the 20% test that classifies potential points and the early stop of full containers come out the same or without effect. In bin packing for containers with 10 * (items + 1) * area < 2^53 and no item one unit thin and three or more long; in strip packing for every item when five times the width and the height are below 2^52.", "quantifier": "all valid problems of such sizes, all sequences and strategies, both modes", "why_tests_cant": "Whether a quotient or a sum of quotients is rounded across a threshold depends on the exact numbers; a test sees a few quotients.", "anchors": ["hyperpack/mixins.py:_construct_solution", "hyperpack/mixins.py:_generate_points", "hyperpack/mixins.py:calculate_objective_value"]}
{"id": "C84", "title": "str() of items and containers shows everything", "statement": "str(problem.items) and str(problem.containers) list every id with its width and length, in order, four lines each (in strip packing the container without length). For ids without line breaks the text determines the items: two different sets of items, orders or sizes never print the same.", "quantifier": "all items and containers with ids of one line", "why_tests_cant": "Holds for every set of ids and sizes; a test compares one text.", "anchors": ["hyperpack/structures.py:Items.__str__", "hyperpack/structures.py:Containers.__str__"]}
{"id": "C85", "title": "The text of log_solution is exact", "statement": "When log_solution() reports, its text consists of the heading, the percentage of items stored, for every container its size and utilization (in strip packing also the stack height) and the list of remaining items, and nothing else. Percentages are right to half a unit of the fourth decimal; with fewer than 1999999 items (cells) 100.0000% is printed exactly if all items are stored (the items have the area of the container), 0.0000% exactly if none.", "quantifier": "all reachable instances with a result, container ids of one line, in binary64 arithmetic", "why_tests_cant": "Rounding twice (float division and multiplication, then four decimals) could show 100.0000% for an incomplete packing; only a bound for all quotients settles that.", "anchors": ["hyperpack/mixins.py:SolutionLoggingMixin.log_solution"]}
{"id": "C86", "title": "Figures show the whole container, with at most 20 tick intervals", "statement": "In every figure of create_figure() all rectangles lie inside both axis ranges with a margin of two units, ticks start at 0, and the tick distance is the least positive integer for which twenty steps reach the end of the container (extents from 1 to 2^53 - 1).", "quantifier": "all reachable instances and their figures", "why_tests_cant": "The distance is a rounded float quotient passed to ceil; off-by-one results would depend on the size.", "anchors": ["hyperpack/mixins.py:get_figure_dtick_value", "hyperpack/mixins.py:create_figure"]}
{"id": "C87", "title": "Positions are edges of items placed before", "statement": "In every result of solve() each item stands, in x direction, at the left wall or at the right edge of an item placed before it in the same container, and, in y direction, at the bottom or at the top edge of such an item. So x is a sum of widths and y a sum of lengths of items placed before, each used once: a packing is never higher than its items piled up, and if all sizes are multiples of k so are all positions. The same holds of the stored solution after any sequence of operations, including searches (with 'another item' instead of 'placed before').", "quantifier": "all valid problems, sequences, strategies and arithmetics, also results with overlapping items; all reachable instances", "why_tests_cant": "An invariant of all pending points over every run of the construction, including grids whose marks were overwritten by crossing strips.", "anchors": ["hyperpack/mixins.py:_generate_points", "hyperpack/mixins.py:_construct_solution"]}
{"id": "C88", "title": "Items of one size are packed optimally", "statement": "If all items have the same size w x l and may not be turned (or are squares), solve() fills the containers in order, each with floor(W/w)*floor(L/l) items as long as items remain; no items overlap, all stand on multiples of their size, and no packing of such items into these containers stores more. (For items that may be turned this is false: see the refutation.)", "quantifier": "all containers, item sizes, numbers of items, sequences, and strategies containing A, A'', B and B''; exact arithmetic, strip mode in any arithmetic, binary64 for problems of ordinary size", "why_tests_cant": "Needs the shape of the packing after every number of steps for every ratio of sizes and every strategy, and a counting bound over all other packings.", "anchors": ["hyperpack/mixins.py:_construct_solution", "hyperpack/mixins.py:_generate_points"]}
{"id": "C89", "title": "Reflecting a problem reflects its solution", "statement": "If the widths and lengths of all containers and items are exchanged, and so are the mirrored point classes of the strategy (A/B, C/D, A'/B', A''/B'', E/F), bin packing solve() gives the reflected packing with the same utilizations.", "quantifier": "all valid problems without items of 1x3 or longer, all sequences, all arithmetics; strategies without A', B', E, F", "why_tests_cant": "A relation between two whole runs of the program for every problem.", "anchors": ["hyperpack/mixins.py:_generate_points", "hyperpack/mixins.py:_construct_solution"]}
{"id": "C90", "title": "Rotation matters only if it is used", "statement": "If solve() with rotation allowed turns no item in its result, solve() without rotation gives the same result (and conversely). In particular the rotation setting has no effect on a problem whose items are all squares.", "quantifier": "all valid problems, sequences, strategies, modes and arithmetics", "why_tests_cant": "A relation between two runs of the program for every problem; a unit test compares a few.", "anchors": ["hyperpack/mixins.py:_construct_solution"]}
{"id": "C91", "title": "Local search climbs to a local optimum, for every subclass", "statement": "For every subclass of AbstractLocalSearch (MAX or MIN, with or without hooks and overridden methods) whose methods do not raise and whose values depend only on the sequence, local_search() returns. Its result is the solution of the last sequence of a climb from the initial one, where each move goes to the first better sequence among the exchanges of two elements it looks at; the result is never worse than the initial solution; and without time limit and throttle no exchange of two elements improves it, unless the subclass' optimum was reached. HyperPack's local search is an instance. An OPTIMIZATION other than MAX and MIN raises ValueError; so does every OPT_NUM other than 2.", "quantifier": "all subclasses, states, sequences, element types, objective functions (with infinities and nan), throttle limits and clock behaviours", "why_tests_cant": "It ranges over all subclasses and all objective functions; a test can only exercise a few.", "anchors": ["hyperpack/abstract.py:AbstractLocalSearch.local_search", "hyperpack/abstract.py:AbstractLocalSearch.compare_node", "hyperpack/abstract.py:AbstractLocalSearch.get_optimum_objective_val", "hyperpack/abstract.py:AbstractLocalSearch.global_check", "hyperpack/abstract.py:AbstractLocalSearch.get_max_neighbors_num"]}
{"id": "C92", "title": "hypersearch is at least as good as local_search", "statement": "In bin packing, if no time limit is hit, the value of hypersearch() is at least that of local_search() on the same (sorted and oriented) items under the problem's potential points strategy.", "quantifier": "all reachable bin packing problems, all strategies, arguments, clocks, numbers of workers and schedules", "why_tests_cant": "It compares two searches on every problem; and the case where it fails is rare.", "anchors": ["hyperpack/heuristics.py:HyperPack.get_strategies", "hyperpack/heuristics.py:HyperPack.hypersearch", "hyperpack/heuristics.py:HyperPack._single_process_hypersearch"]}
{"id": "C93", "title": "Accepted settings are kept and say which files create_figure writes", "statement": "If assigning settings succeeds, the stored settings are the given ones, except that an export without a file name gets the documented default name PlotlyGraph. Calling validate_settings() afterwards, in the same environment, succeeds and changes nothing about the object. If the settings ask for an export, create_figure() then writes the figure of every container to <path>/<file_name>__<container id>.<html, or the image format>.", "quantifier": "all objects, all settings dicts, all environments (installed versions, file system), all containers", "why_tests_cant": "the settings are arbitrary nested dicts and the validation writes into them while it runs; a test fixes one dict", "anchors": ["hyperpack/mixins.py:SolutionFigureMixin._validate_figure_settings", "hyperpack/mixins.py:SolutionFigureMixin.create_figure", "hyperpack/mixins.py:SolutionFigureMixin.validate_settings", "hyperpack/heuristics.py:HyperPack._validate_settings", "hyperpack/heuristics.py:PointGenerationSolver.settings"]}
{"id": "C94", "title": "A rejected edit raises the documented exception", "statement": "Every edit of the items, containers, heights, strategy or settings and every constructor call that is rejected raises the exception class and message the documentation gives for what is wrong with the value: ItemsError/ContainersError for the structure (TYPE, MISSING, ID_TYPE, CANT_DELETE_STRUCTURE, STRIP_PACK_ONLY), DimensionsError for a size (type, missing, keys, value), KeyError or TypeError for a key that is not there or cannot be a key, PotentialPointsError for a strategy and SettingsError with the message of the first failing test for settings; the first wrong entry decides, and it is raised if and only if the value has that fault.", "quantifier": "all objects, all edits, all Python values as keys, sizes, structures, strategies, settings and constructor arguments, all environments (versions, file system)", "why_tests_cant": "the values are arbitrary nested Python values, and several faults can be present at once; a test fixes one fault of one value", "anchors": ["hyperpack/structures.py:AbstractStructureSet", "hyperpack/structures.py:Dimensions", "hyperpack/structures.py:Items", "hyperpack/structures.py:Containers", "hyperpack/exceptions.py:SettingsError", "hyperpack/heuristics.py:BasePackingProblem", "hyperpack/heuristics.py:HyperPack", "hyperpack/mixins.py:SolutionFigureMixin"]}
{"id": "C95", "title": "Every call changes only what belongs to it", "statement": "Each call changes only the attributes documented for it, whether it returns, raises or never comes back: edits of items or containers that structure and the result; the height setters their height; reset_container_height the two heights, of a strip only; the strategy setter the strategy; settings and validate_settings the settings, what they turn on and the installed versions found; solve the result; local_search the result and, for a strip, the height and its history; sort_items and orient_items the items and the result; hypersearch the items (sorted, oriented), the result and best_strategy and, with one worker, the strategy and, for a strip, the heights - with several workers container_height and strategy stay; log_solution, create_figure and the deleters nothing. An attribute that no call of a history may change keeps its value through the history; bin or strip packing is fixed for ever.", "quantifier": "all reachable objects, all calls with all arguments, clocks and worker schedules, all histories", "why_tests_cant": "a hidden side effect shows only for particular arguments, error paths or schedules; a test compares a few attributes after one call", "anchors": ["hyperpack/heuristics.py:BasePackingProblem", "hyperpack/heuristics.py:HyperPack", "hyperpack/structures.py:AbstractStructureSet", "hyperpack/structures.py:Dimensions", "hyperpack/mixins.py:LocalSearchMixin", "hyperpack/mixins.py:ItemsManipulationMixin", "hyperpack/mixins.py:SolutionFigureMixin"]}
{"id": "C96", "title": "Searching again loses nothing", "statement": "Calling local_search() again, within the time limit and without changing the problem, gives the same result in bin packing, whatever solving, searching, logging and drawing happened in between. In strip packing the second packing contains every item the first one packed and is not higher. FALSE of the code for strips: the second search starts at the height the first one reached, keeps its own first-fit packing when no neighbour improves it, and can lose items the first search had packed. True: it is never higher, and reset_container_height() followed by local_search() gives the result of a new object again.", "quantifier": "all reachable objects, all calls in between that leave the problem alone, all clocks within the time limit, both throttle values", "why_tests_cant": "the second search depends on the state the first one left; tests search once per object", "anchors": ["hyperpack/heuristics.py:HyperPack.local_search", "hyperpack/heuristics.py:BasePackingProblem.reset_container_height", "hyperpack/mixins.py:LocalSearchMixin"]}
{"id": "C97", "title": "Subclasses that override the default settings", "statement": "docs/problem_params.rst: the defaults of workers_num, max_time_in_seconds and rotation are class constants, and subclassing and overriding changes the default behaviour. So an object of a subclass with other (legal) defaults behaves in every history of calls exactly as a HyperPack object to which these values are given explicitly wherever they are missing: same exceptions, same results, same logs and figures; settings that are given win. FALSE of the code for searches in several processes: the workers create HyperPack objects from the settings dict, so the overridden defaults are lost, and with rotation disabled by default items are packed turned.", "quantifier": "all default values that would also be accepted as settings, all constructor arguments, all histories of calls (true part: those without worker processes, or with all three settings given)", "why_tests_cant": "tests never subclass; the equivalence must hold for every history", "anchors": ["hyperpack/heuristics.py:PointGenerationSolver._validate_settings", "hyperpack/heuristics.py:HyperPack._validate_settings", "hyperpack/processes.py:HyperSearchProcess.__init__"]}
{"id": "C98", "title": "What is logged", "statement": "Every exception of the library is logged once at level ERROR when it is raised, and nothing else is logged at this level except hypersearch's message that some of the worker processes failed: with several workers, nothing if none raised, that message if some did, the MultiProcessError if all did. Warnings are those that are documented: constructor and settings warn about more workers than processors and about the entry point, orient_items (also inside hypersearch) about disabled rotation or an invalid orientation, log_solution and create_figure about a missing solution, create_figure about having nothing to do; no other call warns. The report of log_solution is logged at level INFO, nothing else is. FALSE of the code in two points: a workers_num that is not positive is logged twice; the documentation says that any workers_num greater than 1 logs the entry point warning, but it is logged only on Windows.", "quantifier": "all constructor arguments, all reachable objects, all calls, all schedules of the worker processes, all machines (number of processors, Windows or not, main process or not)", "why_tests_cant": "tests check single messages of single calls, not that nothing else is logged, and no schedules", "anchors": ["hyperpack/exceptions.py:ErrorLoggingException", "hyperpack/heuristics.py:HyperPack._validate_settings", "hyperpack/heuristics.py:HyperPack._multi_process_hypersearch", "hyperpack/mixins.py:SolutionLoggingMixin.log_solution", "hyperpack/mixins.py:SolutionFigureMixin.create_figure", "hyperpack/mixins.py:ItemsManipulationMixin.orient_items"]}
{"id": "C99", "title": "Interrupted calls", "statement": "A call that is cut off anywhere (KeyboardInterrupt, or any exception from outside) leaves a usable object: items, containers, heights, strategy and settings are legal; the next solve, local_search or hypersearch returns and packs the current items in the current containers; log_solution finds every container. Items and containers are those from before or after the call (for update and clear: after some of its entries). The solution is empty or packs the current items in the current containers, and its values belong to it. An assignment that was cut off can be repeated; in bin packing a solve or local_search that was cut off does not influence later ones. FALSE of the code in several places: del, pop, clear, a new size and orient_items change the data before they discard the solution (stale solution, utilization above 100%; a repeated del raises KeyError and the stale solution stays); orient_items can leave an item half turned (3 x 3 instead of 2 x 3); solution and values are assigned one after the other; a local search leaves the last neighbour instead of the best solution, which can be worse than the one from before; the number of containers can be that of the old containers; reset_container_height can leave the minimum height above the height.", "quantifier": "all constructor arguments, all histories of calls of which any number is cut off after any number of writes, all arguments, clocks and schedules", "why_tests_cant": "no test interrupts a call; the claim ranges over every point at which any call of any history can be interrupted", "anchors": ["hyperpack/structures.py:Dimensions.__setitem__", "hyperpack/structures.py:AbstractStructureSet.__setitem__", "hyperpack/structures.py:AbstractStructureSet.__delitem__", "hyperpack/heuristics.py:PointGenerationSolver.solve", "hyperpack/heuristics.py:HyperPack.hypersearch", "hyperpack/mixins.py:LocalSearchMixin.local_search", "hyperpack/mixins.py:ItemsManipulationMixin.orient_items"]}
{"id": "C100", "title": "Effects of create_figure, also when it fails", "statement": "create_figure writes for every container, in the order of the containers, the figure to its file (an html page, or an image of the asked format and size, 1700 x 1700 by default) and then shows it if asked. It stops at the first container for which this fails: with more than 1000 items nothing is done for it (IndexError), if its file cannot be written (FigureExportError) only that file may be damaged and the figure is not shown, if it cannot be shown its file is complete. The containers before have their files, those after are untouched, and files that belong to no current container are never touched. Calling create_figure again after a failure ends as if the failed call had not been made, with the same files. After success every container has its own figure in its own file if no id contains a slash.", "quantifier": "all reachable problems with a solution, all figure settings that ask for an export or display, all outcomes of writing each file (including what a failed write leaves) and of showing each figure, all contents of the disk before", "why_tests_cant": "tests write to a healthy disk; the claim ranges over every container at which writing or showing can fail, and over all contents left behind", "anchors": ["hyperpack/mixins.py:SolutionFigureMixin.create_figure"]}
{"id": "C101", "title": "Work of solve is bounded by the number of items", "statement": "The amount of work of solve does not depend on how large the numbers are: while a container is filled, at most (n^2+7n)/2+1 points are visited, where n is the number of items it gets, and at most 6n+1 if no two items overlap (always, if no item can be laid as a strip one unit high and three or more wide). At each point every item that is left is tested at most once in each allowed orientation. So a problem with N items in k containers needs at most 6N+k points and 2N(6N+k) tests of a placement.", "quantifier": "all problems with valid sizes, all strategies, sequences, arithmetics, rotation settings, bin and strip packing", "why_tests_cant": "tests time a few instances; the bound holds for every instance and every size", "anchors": ["hyperpack/mixins.py:PointGenerationMixin._construct_solution", "hyperpack/mixins.py:PointGenerationMixin._generate_points"]}
{"id": "C102", "title": "No item skips a container", "statement": "First fit over the containers: an item that solve() puts into a later container (or nowhere) does not fit, in any allowed orientation, into the final layout of any earlier container at any point that was used while that container was filled; in particular not at its bottom left corner, nor (with the classes A and A'') on top of the left end of an item in it, nor (with B and B'') to the right of the bottom of an item in it, unless the container is reported full. An item in a later container does not fit a container that stays empty, so if every item fits every container, the containers are used in order without a gap.", "quantifier": "all validated problems, strategies, sequences, arithmetics, containers, items and visited points", "why_tests_cant": "a test sees one problem; the claim is about every item and every earlier container of every problem", "anchors": ["hyperpack/mixins.py:PointGenerationMixin._solve", "hyperpack/mixins.py:PointGenerationMixin._construct_solution"]}
{"id": "C103", "title": "Removing items leaves what was placed before them as it is", "statement": "If some items are taken out of the problem (and out of the sequence) and solve() is called again, everything that had been placed before the first of them is placed exactly as before: the containers filled before it have the same contents and values, and its own container starts with the same entries. (What was placed after a removed item is not protected: it can even be packed no more.)", "quantifier": "all valid problems in both modes, sequences, strategies, sets of removed items and splits of the result; all reachable objects for del problem.items[id]", "why_tests_cant": "a test removes one item from one problem; the claim is about every set of items of every problem", "anchors": ["hyperpack/mixins.py:PointGenerationMixin._solve", "hyperpack/mixins.py:PointGenerationMixin._construct_solution"]}
{"id": "C104", "title": "More room is never worse", "statement": "If solve() packs all items, it still packs all of them when the container is made larger, when rotation is allowed, when an item is made smaller, when an item is removed, or when containers are added.", "quantifier": "all valid problems and all such changes of them", "why_tests_cant": "a claim about all pairs of problems of which one is easier", "anchors": ["hyperpack/mixins.py:PointGenerationMixin._solve", "hyperpack/mixins.py:PointGenerationMixin._construct_solution"]}
{"id": "C105", "title": "Items, Containers and Dimensions objects on their own", "statement": "Items(d), Containers(d) and Dimensions(d, structure), which the package exports, behave outside of a problem as they do inside: they are created from exactly the same values, edits are accepted exactly for valid values, a rejected edit changes nothing, str() shows the content, deepcopy() gives an independent plain dict from which the same object can be made again, and items | other is a new collection with the entries of both.", "quantifier": "all Python values, all collections, all methods and histories of them, all operands", "why_tests_cant": "it ranges over all values and all histories of edits", "anchors": ["hyperpack/structures.py:AbstractStructureSet", "hyperpack/structures.py:Dimensions", "hyperpack/structures.py:Containers.__str__", "hyperpack/__init__.py:__all__"]}
{"id": "C106", "title": "local_search is first-improvement hill climbing, step by step", "statement": "local_search() starts from the items in their order with the packing of solve(). At every node it tries the sequences obtained by exchanging positions (0,1), (0,2), ..., (1,2), ..., the first 2500 of them with throttle; the first one whose packing (at the container height in force) has a larger overall value and, in strip packing without a minimum height, contains all items, becomes the node, and in strip packing container_height becomes the height of its packing (or the minimum height if that is larger). It ends when the neighbours of a node are exhausted or the clock, read after each packing, shows that the time is up; the result is the packing of the last node. These rules determine the result, the number of packings and all heights.", "quantifier": "all problems in bin and strip packing, all strategies, all clocks, with and without throttle, all arithmetics", "why_tests_cant": "the trajectory is unbounded and depends on the values of all neighbours and on the clock", "anchors": ["hyperpack/abstract.py:AbstractLocalSearch.local_search", "hyperpack/mixins.py:LocalSearchMixin"]}
{"id": "C107", "title": "Single-process hypersearch, strategy by strategy", "statement": "After sorting and orienting the items, hypersearch() with one worker starts with the packing of solve() under the current strategy. Then, for each strategy in order, it climbs (as local_search does, C106) from the packing of the items in their order under that strategy, in strip packing at the height that the climb before has left; the result replaces the best one so far only if its overall value is strictly larger; it ends after the last strategy or when the clock, read after each climb, shows more than max_time_in_seconds. It leaves the best packing and its values; best_strategy is the strategy of that packing (the default strategy if it is that of the start), potential_points_strategy is the last one tried, and in strip packing container_height is where the last climb left it. These rules determine the result.", "quantifier": "all reachable problems, arguments, strategy lists, clocks and arithmetics", "why_tests_cant": "the trajectory is unbounded and depends on the values of all neighbours under all strategies and on the clock", "anchors": ["hyperpack/heuristics.py:HyperPack.hypersearch", "hyperpack/heuristics.py:HyperPack._single_process_hypersearch", "hyperpack/heuristics.py:HyperPack._check_solution", "hyperpack/mixins.py:LocalSearchMixin.local_search"]}
{"id": "C108", "title": "Multi-process hypersearch, worker by worker", "statement": "hypersearch() with several workers, none of them killed, cuts the strategy list into consecutive chunks; worker q does the search of C107 over chunk q on its own clock, for a new problem with the sorted and oriented items, the containers, the rotation and time settings of the problem, the default strategy and, in strip packing, the default height 10 times the width. If hypersearch() returns, the packing and values left behind are those of the first worker with the greatest overall value among the workers that raised no exception, best_strategy is that worker's winning strategy (None if it did not improve on solve()), and nothing else of the problem changes besides sorting and orientation: the result does not depend on how the workers interleave.", "quantifier": "all reachable problems, arguments, worker counts, schedules and failure points", "why_tests_cant": "the result must be the same for every interleaving and failure set, which tests cannot enumerate", "anchors": ["hyperpack/heuristics.py:HyperPack._multi_process_hypersearch", "hyperpack/processes.py:HyperSearchProcess.run", "hyperpack/processes.py:HyperSearchProcess.__init__"]}
{"id": "C109", "title": "Rejected settings have no effect", "statement": "If problem.settings = value raises SettingsError, the problem keeps the settings it had: rotation, time limit, number of workers and figure settings are as before, and later calls behave as if the assignment had not been made.", "quantifier": "all problems, values (dicts or not), surroundings (installed packages, file system) and later calls", "why_tests_cant": "which part of a rejected value takes effect depends on the position of the fault among all the settings and on what is called later", "anchors": ["hyperpack/heuristics.py:HyperPack._validate_settings", "hyperpack/heuristics.py:PointGenerationSolver._validate_settings", "hyperpack/heuristics.py:PointGenerationSolver.settings", "hyperpack/mixins.py:SolutionFigureMixin._validate_figure_settings", "hyperpack/processes.py:HyperSearchProcess.__init__"]}
{"id": "C110", "title": "Settings changed in place wait for validate_settings()", "statement": "After problem.settings[key] = value (or any other change of the settings in place) no setting is changed until validate_settings() is called: every other call does what it would have done without the change. validate_settings() then does what assigning the changed settings would do.", "quantifier": "all problems, changes and histories of later calls", "why_tests_cant": "must hold for every call after every change, in any number and order", "anchors": ["hyperpack/heuristics.py:PointGenerationSolver.settings", "hyperpack/mixins.py:SolutionFigureMixin.validate_settings", "hyperpack/mixins.py:SolutionFigureMixin.create_figure", "hyperpack/processes.py:HyperSearchProcess.__init__"]}
{"id": "C111", "title": "The time limit ends the searches", "statement": "local_search() ends with the first reading of the clock at which max_time_in_seconds has elapsed since the start. hypersearch() (each of its processes) ends with the second of two successive readings after which more than max_time_in_seconds has elapsed, at the latest (with a clock that does not go back: one packing after the first such reading). It takes one reading per packing, so no packing is computed after that, and nothing that happens later has any influence on the result.", "quantifier": "all problems, histories, clocks (monotone or not), strategies, schedules of the workers and later readings", "why_tests_cant": "the claim is about every clock and every point of the search at which the limit can pass; a test can only simulate a few", "anchors": ["hyperpack/heuristics.py:HyperPack._single_process_hypersearch", "hyperpack/heuristics.py:HyperPack.hypersearch", "hyperpack/abstract.py:AbstractLocalSearch.local_search", "hyperpack/processes.py:HyperSearchProcess.run"]}
{"id": "C112", "title": "Several problems in one program are independent", "statement": "Whatever the program does with its other problems and their items, containers and handles, a call on a problem returns and does exactly what it would if the problem were alone in the program, and a call on (or on an object of) another problem changes nothing of this one. The only thing problems can share is a settings dict the program itself has given to both: of it, the library only ever fills in a missing file name of the export, which accepted settings already have.", "quantifier": "all programs: any number of problems, any interleaving of constructions, calls, kept handles, copies of handles, deep copies and assignments of settings; with shared or own settings dicts; all arguments", "why_tests_cant": "a test shows some interleavings of a few problems; aliasing through one kept object or one shared dict in some other history would not be seen", "anchors": ["hyperpack/heuristics.py:PointGenPack.__init__", "hyperpack/heuristics.py:PointGenPack.settings", "hyperpack/heuristics.py:PointGenPack.items", "hyperpack/heuristics.py:PointGenPack.containers", "hyperpack/structures.py:AbstractStructureSet", "hyperpack/structures.py:Dimensions", "hyperpack/mixins.py:SolutionFigureMixin.validate_settings"]}
{"id": "C113", "title": "A copy of a problem is independent of the original", "statement": "copy.deepcopy(problem) is a problem with the same contents, settings and solution; whatever is done with the copy afterwards leaves the original unchanged, and vice versa, and both behave as the original would have. The same for copy.copy(problem).", "quantifier": "all programs, problems and later histories of copy and original", "why_tests_cant": "the claim ranges over every later history of two objects that may share state", "anchors": ["hyperpack/heuristics.py:PointGenPack", "hyperpack/structures.py:AbstractStructureSet", "hyperpack/structures.py:Dimensions"]}
{"id": "C114", "title": "No hidden state: only the data of a problem counts", "statement": "What a call does depends only on the containers, items, heights, settings, options and strategy of the problem, never on what earlier calls found (solution, values, best strategy, heights of an earlier search): two problems with the same data end every call but log_solution and create_figure in the same way and keep the same data, and after a successful solve, local_search or hypersearch they have the same solution and cannot be told apart at all. A problem whose settings are in force can be rebuilt: the constructor accepts its data, the setters accept its heights and strategy, and the result has the same data.", "quantifier": "all states and pairs of states, all calls with all arguments, all histories, clocks and schedules of worker processes; for rebuilding all reachable states", "why_tests_cant": "A dependence on earlier results would show only after particular histories; tests start from a few fresh problems.", "anchors": ["hyperpack/heuristics.py: HyperPack, solve, local_search, hypersearch, setters", "hyperpack/mixins.py", "hyperpack/structures.py: reset of solutions"]}
{"id": "C115", "title": "Wide items: solve is one-dimensional first fit", "statement": "If no two items fit side by side into any container (each is wider than half of it, also turned if turning is allowed, unless it is a square), solve with a strategy that has the classes A and A'' (all default strategies) carries out one-dimensional first fit: the items are taken in their order, each goes to the first container that is wide enough and has room for its length, and in each container they stand one above the other at the left wall without gaps. So with equal containers any two of which the later is used are together filled by more than one container's length, solve uses less than twice as many containers as any packing needs, and each stack (in strip mode: the strip) is as low as any packing of its items can be.", "quantifier": "all valid problems with wide items, all item sequences, both modes, rational arithmetic and (for problems of ordinary size) binary64 arithmetic; all competing packings", "why_tests_cant": "An approximation guarantee compares with all packings of all inputs; a test compares with a few.", "anchors": ["hyperpack/mixins.py: PointGenerationMixin._solve, _construct_solution", "hyperpack/mixins.py: PointGenerationMixin._get_current_point, _generate_points"]}
{"id": "C116", "title": "Long items: solve is one-dimensional first fit along the floor", "statement": "If no two items fit on top of each other into any container (each is longer than half of it, also turned if turning is allowed, unless it is a square), solve with a strategy that has the classes B and B'' (all default strategies) carries out one-dimensional first fit along the widths: the items are taken in their order, each goes to the first container that is long enough and has room for its width, and in each container they stand side by side on the floor from the left wall without gaps. With equal containers it uses less than twice as many containers as any packing needs.", "quantifier": "all valid problems with long items, all item sequences, both modes, rational arithmetic and (for problems of ordinary size) binary64 arithmetic; all competing packings", "why_tests_cant": "An approximation guarantee compares with all packings of all inputs; a test compares with a few. It does not follow from C115 by reflection, since the heuristic is not symmetric (C89).", "anchors": ["hyperpack/mixins.py: PointGenerationMixin._solve, _construct_solution", "hyperpack/mixins.py: PointGenerationMixin._generate_points"]}
{"id": "C117", "title": "Objectives of subclasses", "statement": "A subclass that overrides calculate_objective_value (a function of the size and position of the item just placed, the container and its cells) only decides when a container is closed: what a container holds is the beginning of the packing that this container alone gets from the items left by the earlier ones if nothing is closed early, and all of it if its value stays below 1. In particular solving never fails, items lie inside, have their declared sizes, are supported, are placed at most once and do not overlap (as in C01-C05, C09). The value of a container is the sum of the values of its items in the order of placement, and it was below 1 before the last of them. In strip mode the objective has no effect.", "quantifier": "all objectives (functions to numbers), all valid problems, sequences, strategies, arithmetics", "why_tests_cant": "Ranges over all functions a user may write.", "anchors": ["hyperpack/mixins.py: default_objective_value_calculator, PointGenerationMixin.calculate_objective_value, _construct_solution, _solve"]}
{"id": "C118", "title": "Items of one width are packed in columns, first fit", "statement": "If all items have the same width w (and turning is off or does not help) and the strategy has the class A before B and B before B'' (as the default strategy has), then solve() divides every container into as many columns of width w as fit side by side and distributes the items over the columns, container after container, by one-dimensional first fit: the items are taken in order and each goes to the first column with room for its length; the items of a column stand one above the other from the bottom without gaps, the columns side by side from the left wall without gaps. An item that is left over has no room above any column, and nothing is left over if all lengths together are at most n times (L + 1 - M) for n columns of length L and items not longer than M.", "quantifier": "all containers, all items of one width in any number and order, all sequences, all strategies with A before B before B'', bin and strip packing", "why_tests_cant": "needs the exact sequence of potential points for every number of columns and items", "anchors": ["hyperpack/mixins.py:_construct_solution", "hyperpack/mixins.py:_generate_points", "hyperpack/mixins.py:_get_current_point"]}
{"id": "C119", "title": "Items of one length are packed in rows, first fit, if the strategy has B before A", "statement": "If all items have the same length t of at least 2 (and turning is off or does not help) and the strategy has the class B before A and A before A'', then solve() divides every container into as many rows of height t as fit one above the other and distributes the items over the rows, container after container, by one-dimensional first fit: the items are taken in order and each goes to the first row with room for its width; the items of a row stand side by side from the left wall without gaps, the rows one above the other from the bottom without gaps. An item that is left over has no room at the end of any row, and nothing is left over if all widths together are at most n times (W + 1 - M) for n rows of width W and items not wider than M.", "quantifier": "all containers, all items of one length in any number and order, all sequences, all strategies with B before A before A'', bin and strip packing", "why_tests_cant": "needs the exact sequence of potential points for every number of columns and items", "anchors": ["hyperpack/mixins.py:_construct_solution", "hyperpack/mixins.py:_generate_points", "hyperpack/mixins.py:_get_current_point"]}
{"id": "C120", "title": "Searches climb with the objective of a subclass, when bin packing", "statement": "If a subclass overrides calculate_objective_value with any function of the item's size, position and the container's grid, then in bin packing local_search() of the subclass ends after finitely many moves, every move goes to the first exchange of two items (among those tried) that has a greater total value under this function, the packing that is left was made by solve() of the subclass for some order of the items, its value is at least that of the packing in the given order and, if time did not run out and the neighbourhood was not throttled, no exchange of two items gives a greater value. hypersearch() with one worker tries strategies from the front of the list and its result is at least as good, under this function, as the initial packing and as the local search of every strategy tried, and equals one of them. With the library's own function these searches are the library's; in strip packing the override has no effect at all.", "quantifier": "all objective functions, clocks, start times, throttle flags, strategies and valid problems", "why_tests_cant": "ranges over all functions a subclass may provide and all clocks", "anchors": ["hyperpack/mixins.py:calculate_objective_value", "hyperpack/mixins.py:LocalSearchMixin", "hyperpack/heuristics.py:_single_process_hypersearch", "hyperpack/processes.py:HyperSearchProcess"]}
{"id": "C121", "title": "Items of one width or of one length need at most twice the optimal number of containers", "statement": "In bin packing with containers of one size, if all items have one width and the strategy has A before B before B'' (the default), or all items have one length of at least 2 and the strategy has B before A before A'', and turning is off or does not help, then the number of containers that solve() puts items into is at most twice the number of containers of this size that any packing without overlaps of at least these items uses.", "quantifier": "all problems of this kind, all sequences, all competing packings", "why_tests_cant": "compares with every possible packing", "anchors": ["hyperpack/mixins.py:_construct_solution", "hyperpack/heuristics.py:_solve"]}
{"id": "C122", "title": "hypersearch gives the same result in every run of Python", "statement": "Calling hypersearch() with the same arguments on the same problem in two runs of Python, neither of which reaches its time limit, gives the same packing, the same objective values and the same best strategy.", "quantifier": "all problems, all arguments, all clocks, all orders in which Python iterates over a set of strings (they depend on the hash seed of the run)", "why_tests_cant": "the hash seed of a test run is one of very many; the order is outside the control of the caller", "anchors": ["hyperpack/heuristics.py:HyperPack.get_strategies", "hyperpack/heuristics.py:HyperPack._single_process_hypersearch", "hyperpack/heuristics.py:HyperPack.hypersearch"]}
{"id": "C123", "title": "the work of local_search is paid for by the progress it makes", "statement": "A call of local_search() evaluates at most one scan of the neighbours (n(n-1)/2 packings for n items, at most 2500 with throttle) more than it makes progress: in strip packing without a minimum height, at most (H - k + 2) scans if the strip shrinks from height H to k, hence at most H + 1; with a single container, at most one scan per unit of area covered in addition, and one more; with several containers, at most one scan per 1/(10 D) of overall value gained, and one more, if D is a common multiple of the areas of the containers. hypersearch() in strip packing without a minimum height, with one process and m strategies, evaluates at most H - k scans altogether, and two more scans for every strategy.", "quantifier": "all problems, all strategies, all clocks, with and without throttle; bin packing values in exact arithmetic, strip packing in any arithmetic", "why_tests_cant": "the number of packings evaluated depends on all neighbours of all nodes; the worst case is not found by running examples", "anchors": ["hyperpack/abstract.py:AbstractLocalSearch.local_search", "hyperpack/mixins.py:LocalSearchMixin.evaluate_node", "hyperpack/mixins.py:LocalSearchMixin.calculate_obj_value"]}
{"id": "C124", "title": "items of equal size are interchangeable", "statement": "Two items of the same width and length can be exchanged - in the item sequence given to solve(), or in the order of the items dict - and the packing is the same with the two ids exchanged, with the same objective values; so no local search ever moves to such a neighbour, and if all items have the same size local_search() returns the packing of solve(), with the same objective values and strip height, after evaluating every exchange of one order once (fewer if the time limit is reached).", "quantifier": "all valid problems, sequences, pairs of items of one size, strategies, clocks, arithmetics; bin and strip packing", "why_tests_cant": "that placement looks at sizes only, never at ids, must hold for every packing and every pair of items", "anchors": ["hyperpack/mixins.py:PointGenerationMixin._construct_solution", "hyperpack/mixins.py:PointGenerationMixin._solve", "hyperpack/mixins.py:LocalSearchMixin.local_search", "hyperpack/abstract.py:AbstractLocalSearch.local_search"]}
{"id": "C125", "title": "items of equal size are packed in a grid, as many as possible", "statement": "If all items have the same size and turning is of no use (rotation off, squares, or too long for the containers), solve() with the default strategy fills the containers one after the other as grids of floor(W/w) columns of floor(L/l) items, column after column, in the order of the items; no packing of these items in these containers has more of them, and with equal containers none uses fewer containers. A strategy with B before A before A'' fills row after row instead.", "quantifier": "all valid problems with items of one size that are not worth turning, all sequences, all strategies with A before B before B'' (or B before A before A''), bin and strip packing, rational arithmetic for bins and any for strips; all competing packings", "why_tests_cant": "optimality is a statement about all other packings of all such problems", "anchors": ["hyperpack/mixins.py:PointGenerationMixin._construct_solution", "hyperpack/mixins.py:PointGenerationMixin._generate_points", "hyperpack/mixins.py:PointGenerationMixin._solve", "hyperpack/abstract.py:AbstractLocalSearch.local_search", "hyperpack/mixins.py:LocalSearchMixin.compare_node"]}
{"id": "C126", "title": "a strip of equal items is packed as low as possible", "statement": "In strip packing, items of one size that are not turned are packed as low as any packing of them can be: by solve(), by local_search() and by hypersearch().", "quantifier": "all strip problems with items of one size that are not worth turning, all strategies with A before B before B'' or with B before A before A'', all heights of the container, all competing packings", "why_tests_cant": "optimality is a statement about all other packings of all such problems", "anchors": ["hyperpack/mixins.py:PointGenerationMixin._construct_solution", "hyperpack/mixins.py:PointGenerationMixin._solve", "hyperpack/abstract.py:AbstractLocalSearch.local_search", "hyperpack/mixins.py:LocalSearchMixin.compare_node", "hyperpack/mixins.py:LocalSearchMixin.calculate_obj_value"]}
{"id": "C127", "title": "a search by several workers comes back", "statement": "With a valid instance and workers_num an integer of at least 2, hypersearch() returns if sorting by the given method succeeds, no worker process fails or is killed, the workers' answers fit into the queue's pipe and each worker gets enough time: whatever has happened to files, folders and packages since the settings were accepted.", "quantifier": "all reachable valid instances, all worker counts of at least 2, all environments at the time of the search, all schedules and clock readings of the workers", "why_tests_cant": "it ranges over all instances, worker counts, environments and schedules of several processes", "anchors": ["hyperpack/heuristics.py:HyperPack.hypersearch", "hyperpack/heuristics.py:HyperPack._multi_process_hypersearch", "hyperpack/processes.py:HyperSearchProcess.__init__", "hyperpack/heuristics.py:HyperPack._validate_settings", "hyperpack/mixins.py:SolutionFigureMixin._validate_figure_settings"]}
{"id": "C128", "title": "what local_search(debug=True) reports is right", "statement": "local_search(debug=True) does the same as without debug and logs one report for each node of its climb, numbered 1, 2, 3, ...: whether a better neighbour was found, the best value so far, the number of neighbours tried. The values increase until the last one, which is the value of the result; the numbers of neighbours add up to the packings tried. Behind the last report, and only there, the reason for the end is given: that the time is up exactly if the last reading of the clock shows so, otherwise that there is a local optimum, and then no exchange of two items improves the result.", "quantifier": "all valid problems in both modes, all strategies, clocks and start times, with and without throttle, all arithmetics", "why_tests_cant": "the reports must be right for every problem, clock reading and number of rounds", "anchors": ["hyperpack/abstract.py:AbstractLocalSearch.debug_local_search", "hyperpack/abstract.py:AbstractLocalSearch.local_search", "hyperpack/mixins.py:LocalSearchMixin.local_search"]}
{"id": "C129", "title": "what hypersearch() reports is right", "statement": "The DEBUG records of hypersearch(): with one worker, the strategies shown are those from the front of the list, and all of them unless it is reported that the time was up, which it is exactly if the last reading of the clock in the loop shows it, in the last record but one. A new best value is shown right behind a strategy, it is what the local search with that strategy ends with, each is larger than those before and than the value of solve(), and the last one is the value of the result, with best_strategy the strategy in front of it. The last record is the time between the first and the last reading of the clock. With several workers the winning process is reported exactly if the search returns: the value and the strategy shown are those of the result, and the process is the first with the greatest value among those that neither raise nor are killed.", "quantifier": "all valid problems in both modes, all strategy lists, clocks and arithmetics, with and without throttle; with several workers all schedules, exceptions and kills", "why_tests_cant": "the records must be right for every problem, every strategy list, every clock and every interleaving of the workers", "anchors": ["hyperpack/heuristics.py:HyperPack._single_process_hypersearch", "hyperpack/heuristics.py:HyperPack._multi_process_hypersearch", "hyperpack/heuristics.py:HyperPack.hypersearch", "hyperpack/mixins.py:LocalSearchMixin.local_search"]}
{"id": "C130", "title": "Longest first, items of one width or of one length need at most 3/2 of the optimal number of containers, rounded up", "statement": "In bin packing with containers of one size, if all items have one width, the strategy has A before B before B'' (the default) and the items come in order of decreasing length, or all items have one length of at least 2, the strategy has B before A before A'' and the items come in order of decreasing width, and turning is off or does not help, then twice the number of containers that solve() puts items into is at most three times the number of containers of this size that any packing without overlaps of at least these items uses, plus one. In particular this holds for sort_items() by decreasing area followed by solve() with the default strategy.", "quantifier": "all problems of this kind, all sequences in this order, all competing packings", "why_tests_cant": "it compares the result with every possible packing, for every set of items", "anchors": ["hyperpack/mixins.py:_construct_solution", "hyperpack/heuristics.py:_solve", "hyperpack/mixins.py:ItemsManipulationMixin.sort_items"]}
{"id": "C131", "title": "Wide items longest first, and long items widest first, need at most 3/2 of the optimal number of containers", "statement": "In bin packing with containers of one size: if no two items fit side by side into a container (as in C115), every item is narrow enough for a container, the strategy has A and A'' (all default strategies) and the items come in order of decreasing length, then the number of containers solve() puts items into is at most 3/2 of the number of containers of this size that any packing without overlaps of at least the placed items uses. The same if no two items fit on top of each other (as in C116), none is too long, the strategy has B and B'' and the items come in order of decreasing width.", "quantifier": "all problems of this kind, all sequences in this order, all competing packings", "why_tests_cant": "it compares the result with every possible packing, for every set of items", "anchors": ["hyperpack/mixins.py:_construct_solution", "hyperpack/heuristics.py:_solve"]}
{"id": "C132", "title": "Lengths that divide each other, longest first: as few containers as possible", "statement": "In bin packing with containers of one size, if of any two lengths of items one divides the other, the items come in order of decreasing length, and either all items have one width (strategy as in C118, turning off or no help) or no two fit side by side (as in C115, none too wide), then solve() puts items into as few containers as possible: any packing without overlaps of at least the placed items uses at least as many containers of this size. The same with width and length exchanged (C119, C116). In particular this holds for sort_items() by decreasing area followed by solve() with the default strategy, for items of one width.", "quantifier": "all problems of this kind, all sequences in this order, all competing packings", "why_tests_cant": "it compares the result with every possible packing, for every set of items", "anchors": ["hyperpack/mixins.py:_construct_solution", "hyperpack/heuristics.py:_solve", "hyperpack/mixins.py:ItemsManipulationMixin.sort_items"]}
{"id": "C133", "title": "Fewer items never need more containers", "statement": "If solve() packs all items of a problem into some containers of one size, and some of the items are left out, then solve() needs no more containers for the rest.", "quantifier": "all valid bin packing problems with containers of one size, all sets of items left out", "why_tests_cant": "it compares two runs, for every problem and every set of items that is left out", "anchors": ["hyperpack/mixins.py:_construct_solution", "hyperpack/heuristics.py:_solve"]}
{"id": "C134", "title": "Lengths that divide the container: no waste before the last container", "statement": "In bin packing with containers of one size W x L, if all items have one width w, of any two lengths one divides the other, all lengths divide L, the items come in order of decreasing length, and the strategy is as in C118 (turning off or no help), then every container before one that is used is full: its items cover the area w * floor(W/w) * L, which is all of W * L if w divides W, and no container holds more. So the number of containers used is the total area of the placed items divided by w * floor(W/w) * L, rounded up. The same with width and length exchanged (C119).", "quantifier": "all problems of this kind, all sequences in this order", "why_tests_cant": "it is about every problem of this kind", "anchors": ["hyperpack/mixins.py:_construct_solution", "hyperpack/heuristics.py:_solve"]}
