{"id": "C01", "title": "Tolerant profit comparison is a consistent order", "statement": "For non-negative profits, strictly_greater_profit(a,b) holds only if a>b numerically, is irreflexive, asymmetric and transitive, strictly_lesser_profit is its mirror image, and equal_profit holds exactly when the two values are within a relative 1e-6 of the larger. For arbitrary signed profits it should also never report that a smaller profit is strictly greater.", "quantifier": "every pair / triple of profit values", "why_tests_cant": "ordering laws quantify over all triples of reals; a test samples a few and both-negative pairs are easy to miss", "anchors": ["include/packingsolver/algorithms/common.hpp:strictly_greater_profit", "include/packingsolver/algorithms/common.hpp:strictly_lesser_profit", "include/packingsolver/algorithms/common.hpp:equal_profit"]}
{"id": "C02", "title": "Tolerant cost comparison is a consistent order", "statement": "For positive costs, strictly_lesser_cost(a,b) holds only if a<b numerically, is irreflexive, asymmetric and transitive, and equal_cost holds exactly when the two values are within a relative 1e-6 of the smaller one.", "quantifier": "every pair / triple of cost values", "why_tests_cant": "ordering laws quantify over all triples of reals", "anchors": ["include/packingsolver/algorithms/common.hpp:strictly_lesser_cost", "include/packingsolver/algorithms/common.hpp:strictly_greater_cost", "include/packingsolver/algorithms/common.hpp:equal_cost"]}
{"id": "C03", "title": "Per-copy resource consumption schedules are read back as written", "statement": "After any sequence of add_resource_consumption calls, the consumption of copy k of an item type for a resource is the last value written at (item type, k), or 0 if only later copies were written, or the last scheduled entry if k is past the end, or 0 if nothing was written for that item type; other item types, resources and bin types are unaffected.", "quantifier": "every sequence of add_resource_consumption calls and every queried (resource, item type, copy)", "why_tests_cant": "needs induction over arbitrary call sequences; tests fix a short one", "anchors": ["include/packingsolver/algorithms/common.hpp:Resource::item_consumption", "src/onedimensional/instance_builder.cpp:InstanceBuilder::add_resource_consumption"]}
{"id": "C04", "title": "The solution pool keeps the best solution ever offered", "statement": "For every objective whose comparison is transitive, after any sequence of add calls the best solution of the pool is one of the offered solutions (or the initial empty one) and no offered solution is strictly better than it; the pool never exceeds its maximum size and add returns 1 exactly when the reported best changed to the offered one.", "quantifier": "every sequence of offered solutions, every pool size >= 1", "why_tests_cant": "an invariant over unbounded histories of insertions and evictions", "anchors": ["include/packingsolver/algorithms/common.hpp:SolutionPool::add", "include/packingsolver/algorithms/common.hpp:SolutionPool::EntryComparator"]}
{"id": "C05", "title": "Best-solution tracking under the Default objective never regresses", "statement": "Under the Default objective (profit within tolerance, then waste) the solution comparison should be transitive so that a sequence of successive improvements can never cycle back to a worse solution.", "quantifier": "every triple of solutions", "why_tests_cant": "a cycle needs three specific near-tied profits; random tests never produce them", "anchors": ["src/onedimensional/solution.cpp:Solution::operator<", "include/packingsolver/algorithms/common.hpp:SolutionPool::add"]}
{"id": "C06", "title": "Grouping identical bins does not change the solution", "statement": "group_identical_bins returns a solution with the same number of bins, the same number of copies of every item type and every bin type, the same cost, length and feasibility flags, in which no two listed bins have the same bin type and content; its profit is also unchanged.", "quantifier": "every solution", "why_tests_cant": "needs induction over arbitrary bin lists with arbitrary duplication patterns", "anchors": ["include/packingsolver/algorithms/common.hpp:group_identical_bins", "src/onedimensional/solution.cpp:Solution::append_bin"]}
{"id": "C07", "title": "Enforcing the bin type order keeps the packing and satisfies the order", "statement": "enforce_bin_type_order returns a solution in which every bin type before the last used one is used exactly copies times; when the input uses no bin type more than copies times the packed items (per item type) are unchanged and only empty bins are added.", "quantifier": "every solution, every list of bin types", "why_tests_cant": "quantifies over all bin lists and type orders", "anchors": ["include/packingsolver/algorithms/common.hpp:enforce_bin_type_order"]}
{"id": "C08", "title": "Objective and problem-type names round-trip", "statement": "Printing an objective or a problem type and parsing the printed text (surrounded by any white space, followed by anything) yields the same value; a text is accepted exactly when its first word is one of the documented names, and any other text is rejected.", "quantifier": "every objective, problem type, and every input text", "why_tests_cant": "the rejection half quantifies over all strings", "anchors": ["src/algorithms/common.cpp:operator>>", "src/algorithms/common.cpp:operator<<"]}
{"id": "C09", "title": "Solution indicators equal their from-scratch definitions (one-dimensional)", "statement": "After any sequence of append_bin / append_bins / append_empty_bin / SolutionBuilder operations, the reported number of items, item copies, number of bins, bin copies, cost, bin length, item length, and profit equal the sums defined directly on the list of bins; the profit is the sum of packed item profits times bin copies minus, per listed bin entry, the penalties of the penalized resources whose capacity is exceeded (see C44 for the copies of a penalized bin). The profit clause is for non-negative capacities and consumptions.", "quantifier": "every instance and every operation sequence", "why_tests_cant": "incremental bookkeeping must agree with the definition for all histories", "anchors": ["src/onedimensional/solution.cpp:Solution::update_indicators", "src/onedimensional/solution.cpp:Solution::append_bin", "src/onedimensional/solution.cpp:Solution::append_empty_bin", "src/onedimensional/solution_builder.cpp:SolutionBuilder::build"]}
{"id": "C10", "title": "feasible() means every stated packing constraint holds (one-dimensional)", "statement": "A one-dimensional solution built by any operation sequence reports feasible() if and only if, in every bin, items laid end to end with nesting never exceed the bin length, the weight, eligibility, stackability, weight-above and hard resource limits hold for every prefix, the packed copies of each item type lie between copies_min and copies, and the user's feasibility callback accepts it (non-negative resource capacities and item copies).", "quantifier": "every instance and every operation sequence", "why_tests_cant": "sticky incremental flags versus a declarative constraint set, over unbounded histories", "anchors": ["src/onedimensional/solution.cpp:Solution::update_indicators"]}
{"id": "C11", "title": "feasible() respects the available bins", "statement": "A solution that reports feasible() uses no bin type more often than its number of copies, uses each at least copies_min times and, for bin packing, uses bin types in order.", "quantifier": "every instance and every operation sequence", "why_tests_cant": "quantifies over all solutions; no unit test builds over-used bins", "anchors": ["src/onedimensional/solution.cpp:Solution::update_indicators", "include/packingsolver/onedimensional/solution.hpp:feasible"]}
{"id": "C12", "title": "Order of bins does not matter for totals and feasibility", "statement": "Two one-dimensional solutions whose bin lists are permutations of one another report the same totals, the same profit and the same feasibility (with an order-insensitive callback).", "quantifier": "every instance, every bin list and every permutation of it", "why_tests_cant": "all permutations of arbitrarily long lists", "anchors": ["src/onedimensional/solution.cpp:Solution::update_indicators", "src/onedimensional/solution.cpp:Solution::append_bin"]}
{"id": "C13", "title": "Appending a solution of a sub-instance relabels and adds", "statement": "append_bins with bin-type and item-type maps adds exactly the relabelled bins: the resulting totals are the old totals plus, for every source item type, its packed copies counted at the mapped id.", "quantifier": "every pair of solutions and every pair of id maps", "why_tests_cant": "quantifies over all maps, including non-injective ones", "anchors": ["src/onedimensional/solution.cpp:Solution::append_bins", "src/onedimensional/solution.cpp:Solution::append_bin"]}
{"id": "C14", "title": "Certificate files round-trip (one-dimensional)", "statement": "Writing a solution's certificate and reading it back with the solution builder yields a solution with the same bins, copies and item sequence, hence the same indicators.", "quantifier": "every solution", "why_tests_cant": "round trip over arbitrary solutions", "anchors": ["src/onedimensional/solution.cpp:Solution::write", "src/onedimensional/solution_builder.cpp:SolutionBuilder::read"]}
{"id": "C15", "title": "Instance files round-trip through JSON (one-dimensional)", "statement": "Writing an instance to JSON and reading it back yields the same instance: objective, bin types (length, cost, copies, copies_min, weight, eligibility, resources, fixed items) and item types (length, profit, copies, copies_min, weight, nesting, stackability, eligibility, precedences).", "quantifier": "every instance", "why_tests_cant": "round trip over arbitrary instances and optional fields", "anchors": ["src/onedimensional/instance.cpp:Instance::write_json", "src/onedimensional/instance_builder.cpp:InstanceBuilder::read_json"]}
{"id": "C16", "title": "Built instances have consistent aggregates", "statement": "InstanceBuilder::build either rejects the data or returns an instance in which the number of items, item length, item profit, number of bins, bin length and bin cost are the sums over types, copies_min <= copies for each item type, and the position-to-bin-type map lists each bin type exactly copies times in order with prefix sums of length.", "quantifier": "every sequence of builder calls", "why_tests_cant": "aggregates must match for all histories", "anchors": ["src/onedimensional/instance_builder.cpp:InstanceBuilder::build"]}
{"id": "C17", "title": "Copying types into a sub-instance preserves them", "statement": "add_bin_type(instance,id) and add_item_type(instance,id) produce types with the same data as the source types, including minimum copies, resource consumptions and precedences whose both endpoints are copied.", "quantifier": "every source instance and every order of copying", "why_tests_cant": "quantifies over all instances and copying orders", "anchors": ["src/onedimensional/instance_builder.cpp:InstanceBuilder::add_bin_type", "src/onedimensional/instance_builder.cpp:InstanceBuilder::add_item_type"]}
{"id": "C18", "title": "Solution comparison is a strict preference order", "statement": "For each supported objective other than Default, Solution::operator< is irreflexive, asymmetric and transitive on solutions with non-negative profit and positive cost, prefers any feasible solution to an infeasible one, and never prefers a solution with a worse objective value.", "quantifier": "every pair / triple of solutions and every objective", "why_tests_cant": "ordering laws over all triples", "anchors": ["src/onedimensional/solution.cpp:Solution::operator<"]}
{"id": "C19", "title": "Reported bounds only improve and stop the search exactly at proven optimality", "statement": "Over any interleaving of solution and bound updates the knapsack bound never increases, the bin packing and variable-sized bounds never decrease, the best solution is never replaced by a worse one, is_proven_infeasible is never retracted and the end flag is raised as soon as the output satisfies the optimality test.", "quantifier": "every sequence (interleaving) of update calls", "why_tests_cant": "all schedules of concurrent updates", "anchors": ["src/onedimensional/algorithm_formatter.cpp:AlgorithmFormatter::update_solution", "src/onedimensional/algorithm_formatter.cpp:AlgorithmFormatter::update_knapsack_bound", "src/onedimensional/algorithm_formatter.cpp:AlgorithmFormatter::update_bin_packing_bound", "src/onedimensional/algorithm_formatter.cpp:AlgorithmFormatter::update_bounds"]}
{"id": "C20", "title": "A solution reported proven optimal is optimal", "statement": "If every bound update was valid for the instance (knapsack bound at least the profit of every feasible solution, bin packing bound at most the number of bins of every feasible full solution, ...) and the output reports proven optimality without infeasibility, then the best solution is feasible and no feasible solution improves on it by more than the comparison tolerance.", "quantifier": "every instance, every sequence of valid updates", "why_tests_cant": "correctness of the stopping rule over all histories", "anchors": ["include/packingsolver/onedimensional/optimize.hpp:Output::is_proven_optimal", "src/onedimensional/algorithm_formatter.cpp"]}
{"id": "C21", "title": "The trivial bin packing bound is a valid lower bound", "statement": "The bound reported by the trivial bound algorithm for BinPacking never exceeds the number of bins of a feasible solution that packs all items and uses bin types in order.", "quantifier": "every instance and every feasible solution of it", "why_tests_cant": "validity of a bound is a statement about all packings", "anchors": ["src/onedimensional/optimize.cpp:optimize_trivial_bound"]}
{"id": "C22", "title": "The trivial knapsack bound is a valid upper bound", "statement": "The bound reported by the trivial bound algorithm for Knapsack is at least the profit of every feasible solution.", "quantifier": "every instance and every feasible solution", "why_tests_cant": "validity over all packings", "anchors": ["src/onedimensional/optimize.cpp:optimize_trivial_bound"]}
{"id": "C23", "title": "The trivial variable-sized bin packing bound is a valid lower bound", "statement": "The bound reported by the trivial bound algorithm for VariableSizedBinPacking never exceeds the cost of a feasible solution that packs all items and respects the bin limits.", "quantifier": "every instance and every feasible solution", "why_tests_cant": "validity over all packings", "anchors": ["src/onedimensional/optimize.cpp:optimize_trivial_bound"]}
{"id": "C24", "title": "Dual feasible functions give a valid bin packing bound (one-dimensional)", "statement": "The number of bins reported by dual_feasible_functions for BinPacking never exceeds the number of bins of any packing of all items, and for Feasibility an instance declared infeasible has no packing of all items in the available bins.", "quantifier": "every instance with one bin type, every breakpoint and every function family, every packing", "why_tests_cant": "super-additivity must hold for all item multisets", "anchors": ["src/onedimensional/dual_feasible_functions.cpp:dual_feasible_functions", "src/onedimensional/dual_feasible_functions.cpp:f_ccm_0", "src/onedimensional/dual_feasible_functions.cpp:f_ccm_1", "src/onedimensional/dual_feasible_functions.cpp:f_ccm_2"]}
{"id": "C25", "title": "Greedy maximum cardinality is optimal", "statement": "greedy_maximum_cardinality(capacity, pool) returns the largest number of pieces from a length-sorted pool whose total length is at most the capacity.", "quantifier": "every sorted pool of positive lengths with multiplicities and every capacity >= 0", "why_tests_cant": "exchange argument over all subsets", "anchors": ["src/onedimensional/dual_feasible_functions.cpp:greedy_maximum_cardinality"]}
{"id": "C26", "title": "Dual feasible functions give a valid knapsack bound (one-dimensional)", "statement": "The knapsack bound reported by dual_feasible_functions is at least the profit of every feasible selection of items packed in the bins, including bonus from negative penalties.", "quantifier": "every instance with one bin type and every packing", "why_tests_cant": "validity over all packings", "anchors": ["src/onedimensional/dual_feasible_functions.cpp:dantzig_profit_bound", "src/onedimensional/dual_feasible_functions.cpp:dual_feasible_functions", "include/packingsolver/algorithms/common.hpp:negative_penalty_sum"]}
{"id": "C27", "title": "Splitting copies for dynamic programming loses no solution, and its bound is valid", "statement": "The binary splitting of item copies used by the dynamic programming algorithm represents every copy count from 0 to min(copies, capacity/length) and no count above copies, so with an exact knapsack solver the items it selects have the largest profit among all multisets of copies that fit, and the knapsack bound it reports is at least the profit of every admissible packing.", "quantifier": "every built instance with one bin, every item type, capacity and copy count, every exact knapsack solver", "why_tests_cant": "all natural numbers", "anchors": ["src/onedimensional/optimize.cpp:optimize_dynamic_programming"]}
{"id": "C28", "title": "Every tree search node converts to an accepted solution (one-dimensional)", "statement": "For every node reachable from the root through the insertions offered by the branching scheme, converting it to a solution succeeds (no logic_error), the solution satisfies all capacity, weight, stackability, resource, eligibility and copies limits, and the node's item counts, number of bins and profit equal those of the solution.", "quantifier": "every instance and every reachable node", "why_tests_cant": "all search paths of unbounded length", "anchors": ["src/onedimensional/tree_search.cpp:BranchingScheme::insertions", "src/onedimensional/tree_search.cpp:BranchingScheme::child_tmp", "src/onedimensional/tree_search.cpp:BranchingScheme::to_solution"]}
{"id": "C29", "title": "Tree search pruning is safe (one-dimensional)", "statement": "If bound(node_1,node_2) says node_1 cannot improve on the leaf node_2, then no descendant of node_1 is strictly better than node_2.", "quantifier": "every instance, every pair of reachable nodes and every descendant", "why_tests_cant": "quantifies over all completions of a partial packing", "anchors": ["src/onedimensional/tree_search.cpp:BranchingScheme::bound", "src/onedimensional/tree_search.hpp:BranchingScheme::ubkp"]}
{"id": "C30", "title": "Tree search dominance is safe (one-dimensional)", "statement": "If node_1 and node_2 pack the same items and node_1 dominates node_2, then any sequence of insertions completing node_2 can be applied to node_1 with a result at least as good.", "quantifier": "every pair of reachable nodes and every completion", "why_tests_cant": "quantifies over all completions", "anchors": ["src/onedimensional/tree_search.cpp:BranchingScheme::dominates"]}
{"id": "C31", "title": "Subset-row cuts never cut off an integer solution", "statement": "For every integer combination of columns in which each item type of the cut (copies = 1) is packed at most once, the number of selected columns containing at least two of the three item types is at most one, so the cut row is satisfied.", "quantifier": "every integer solution of the master problem and every triple of item types", "why_tests_cant": "validity of a cutting plane over all integer points", "anchors": ["src/algorithms/column_generation.hpp:separate_cuts", "src/algorithms/column_generation.hpp:coefficient"]}
{"id": "C32", "title": "Cut separation computes the true violation", "statement": "The violation computed from pair and triple weights by inclusion-exclusion equals the total weight of columns containing at least two of the three item types minus one; every returned cut is violated, and a cut is returned whenever some triple of single-copy item types is violated.", "quantifier": "every fractional solution", "why_tests_cant": "all weighted set families", "anchors": ["src/algorithms/column_generation.hpp:separate_cuts"]}
{"id": "C33", "title": "The bin-count cap used in the variable-sized bound is a true maximum", "statement": "maximum_number_of_bins_for_variable_sized_bin_packing returns the largest number of bins, respecting bin copies, whose total cost does not exceed the budget (capped by the number of items).", "quantifier": "every list of bin types and every budget", "why_tests_cant": "greedy optimality over all bin selections", "anchors": ["src/algorithms/column_generation.hpp:maximum_number_of_bins_for_variable_sized_bin_packing"]}
{"id": "C34", "title": "Sequential feasibility search returns correct bin packing bounds", "statement": "When every feasibility sub-problem answer is correct, the lower bound reported while increasing the number of bins is valid and the final number of bins is minimal.", "quantifier": "every instance and every correct feasibility oracle", "why_tests_cant": "loop invariant over unbounded iterations", "anchors": ["src/algorithms/column_generation.hpp:column_generation", "src/algorithms/column_generation.hpp:build_sequential_feasibility_sub_instance"]}
{"id": "C35", "title": "Sequential value correction builds only admissible solutions", "statement": "Whatever feasible answers the knapsack sub-solver returns, each solution emitted by sequential value correction uses every bin type at most copies times and every item type at most copies times, and terminates.", "quantifier": "every instance and every sequence of sub-solver answers", "why_tests_cant": "all oracle behaviours, unbounded loop", "anchors": ["src/algorithms/sequential_value_correction.hpp:sequential_value_correction"]}
{"id": "C36", "title": "Dichotomic search respects bin availability and keeps the best solution", "statement": "Every bin-packing subproblem created by the dichotomic search uses at most copies of each bin type and at least copies_min, its waste bounds keep lower <= upper, and any solution it returns is the best of those found.", "quantifier": "every instance and every oracle behaviour", "why_tests_cant": "all oracle behaviours, unbounded loop", "anchors": ["src/algorithms/dichotomic_search.hpp:dichotomic_search"]}
{"id": "C37", "title": "Deterministic mode is independent of thread scheduling", "statement": "In the not-anytime-deterministic mode, when no limit interrupts the run, the final output depends only on what each algorithm does on its own, not on the order in which worker threads take their steps.", "quantifier": "every schedule of worker threads", "why_tests_cant": "all interleavings", "anchors": ["src/onedimensional/optimize.cpp:optimize", "src/onedimensional/tree_search.cpp:tree_search"]}
{"id": "C38", "title": "Worker exceptions are never lost", "statement": "If any task run by the thread pool throws, the caller observes an exception after all tasks have finished; if none throws, none is observed and every task ran exactly once; and tasks never block each other for ever.", "quantifier": "every list of tasks and every schedule", "why_tests_cant": "all interleavings and failure patterns", "anchors": ["src/algorithms/thread_pool.hpp:run"]}
{"id": "C39", "title": "Dual feasible functions give a valid bin packing bound (rectangle)", "statement": "For every placement of rectangles without overlap inside identical bins, with or without rotation, the sum of the products of the two axis functions over the packed items of a bin is at most the bin's product. Consequently, whenever the instance has at least one item and the computation reports a number of bins, every packing of all items uses at least that many bins, and whenever it declares an instance with at least one bin infeasible, no packing of all items in the available bins exists.", "quantifier": "every instance with one bin type and positive dimensions, every pair of breakpoints and function families, every number of passes, every geometric packing, every non-positive result of the conversion of 0/0", "why_tests_cant": "a statement about all two-dimensional packings", "anchors": ["src/rectangle/dual_feasible_functions.cpp:dual_feasible_functions", "src/rectangle/dual_feasible_functions.cpp:item_coefficient"]}
{"id": "C40", "title": "Dual feasible function cuts are valid for the Benders master problem", "statement": "Every cut returned by find_most_violated_dual_feasible_function_cut is satisfied by every set of items that can be packed in one bin.", "quantifier": "every instance, every selection used to separate, every packable selection", "why_tests_cant": "validity over all packings", "anchors": ["src/rectangle/dual_feasible_functions.cpp:find_most_violated_dual_feasible_function_cut", "src/rectangle/benders_decomposition.cpp"]}
{"id": "C41", "title": "Conservative scales give a valid bin packing bound", "statement": "If the rescaled widths and heights satisfy the capacity condition for every collection of items (within their copies) whose original dimensions fit, then for every placement without overlap the sum of rescaled areas packed in a bin is at most the bin area, so the bound of the pair is valid. The bounds reported by the whole computation are valid for every LP solver that respects the variable bounds and every exact knapsack solver used for separation.", "quantifier": "every instance with one bin type and oriented items, every pair of rescaled dimension vectors, every answer of the external solvers, every interruption, every geometric packing", "why_tests_cant": "a statement about all two-dimensional packings", "anchors": ["src/rectangle/conservative_scales.cpp:bound_for_pair", "src/rectangle/conservative_scales.cpp:conservative_scales"]}
{"id": "C42", "title": "Flipping an instance and unflipping a solution preserves validity and value (rectangle)", "statement": "Solutions of the flipped instance, once unflipped, are valid for the original instance exactly when they are valid for the flipped one, with the same totals; an OpenDimensionY value of the unflipped solution equals the OpenDimensionX value of the flipped one.", "quantifier": "every instance and every solution of its flipped instance", "why_tests_cant": "all packings", "anchors": ["src/rectangle/instance_flipper.cpp:InstanceFlipper::flip", "src/rectangle/instance_flipper.cpp:InstanceFlipper::unflip_solution"]}
{"id": "C43", "title": "Power-of-two scaling helpers bracket their argument", "statement": "largest_power_of_two_lesser_or_equal(v) returns the largest power of two not exceeding v and smallest_power_of_two_greater_or_equal(v) the smallest one not below v, for every positive v.", "quantifier": "every positive value", "why_tests_cant": "loop termination and exactness over all magnitudes", "anchors": ["include/packingsolver/algorithms/common.hpp:largest_power_of_two_lesser_or_equal", "include/packingsolver/algorithms/common.hpp:smallest_power_of_two_greater_or_equal"]}
{"id": "C44", "title": "A bin listed with k copies is worth k bins listed separately (one-dimensional)", "statement": "Adding one bin with k copies gives the same totals and the same profit as adding the same bin k times with one copy.", "quantifier": "every reachable one-dimensional solution, every bin content and every k>=1", "why_tests_cant": "the relation must hold for every instance with resources, penalties and every number of copies", "anchors": ["src/onedimensional/solution.cpp:update_indicators"]}
{"id": "C45", "title": "Tolerant comparisons are usable on signed values", "statement": "strictly_greater_profit(a,b) and strictly_lesser_cost(a,b) never hold when a is numerically on the wrong side of b, including for negative values (profits become negative through resource penalties).", "quantifier": "every pair of rational values", "why_tests_cant": "must hold for every pair of values", "anchors": ["include/packingsolver/algorithms/common.hpp:strictly_greater_profit", "include/packingsolver/algorithms/common.hpp:strictly_lesser_cost"]}
{"id": "C46", "title": "Optimization mode names round-trip", "statement": "Printing an optimization mode and parsing the printed text yields the same mode.", "quantifier": "every optimization mode and surrounding text", "why_tests_cant": "must hold for every mode and every surrounding text", "anchors": ["src/algorithms/common.cpp:operator>>(OptimizationMode)", "src/algorithms/common.cpp:operator<<(OptimizationMode)"]}
{"id": "C47", "title": "Built instances only contain valid quantities (one-dimensional)", "statement": "In every instance returned by build, every length and cost is positive, every number of copies is positive and at least the minimum number of copies, for item types and bin types.", "quantifier": "all sequences of InstanceBuilder calls", "why_tests_cant": "the builder accepts any order and combination of setter calls; tests exercise a handful", "anchors": ["src/onedimensional/instance_builder.cpp: set_item_type_copies, set_bin_type_copies_min, build"]}
{"id": "C48", "title": "Positions, end, weight and consumption of every listed bin are those of its items (one-dimensional)", "statement": "In every bin of a solution obtained through the public API each item starts where the previous items end minus its nesting length (the first one at 0), the end of the bin is the end of its last item, and the weight and the consumption of every resource are the sums over its items; without nesting, consecutive items do not overlap and leave no gap.", "quantifier": "every instance and every history of solution-building calls", "why_tests_cant": "the positions are recomputed incrementally in loops over items and bins by several code paths (builder, append, relabelling); tests only check a few histories", "anchors": ["src/onedimensional/solution.cpp: Solution::update_indicators, append_bin", "include/packingsolver/onedimensional/solution.hpp: SolutionBin"]}
{"id": "C49", "title": "The pricing overcost is a valid Lagrangian correction", "statement": "For every set of bins that could complete the current node, with at most as many bins as the cap, the total objective is at least the total dual value plus the overcost reported by the pricing, provided the knapsack bounds are valid.", "quantifier": "every instance, every dual vector, every list of added bins, every valid knapsack answer", "why_tests_cant": "a bound over all packings and all dual vectors", "anchors": ["src/algorithms/column_generation.hpp:solve_pricing"]}
{"id": "C50", "title": "Dual feasible functions give a valid knapsack bound (rectangle)", "statement": "The profit bound reported by the dual feasible functions for a Knapsack instance is at least the profit, resource penalties included, of every geometric packing of a selection of items within their copies in the available bins.", "quantifier": "every Knapsack instance with one bin type and positive dimensions, every sort result, every packing", "why_tests_cant": "a bound over all two-dimensional packings", "anchors": ["src/rectangle/dual_feasible_functions.cpp:dual_feasible_functions", "src/rectangle/dual_feasible_functions.cpp:dantzig_profit_bound"]}
{"id": "C51", "title": "A built rectangle instance is consistent", "statement": "Whatever calls are made on the rectangle instance builder, in any order, when build returns an instance all its derived data (numbers of items, areas, widths, heights, profits, weights, smallest sides, most efficient item type, bin positions and offsets, eligible items and used resources of each bin type, number of groups and defects) agree with its item and bin types; its items have positive sides and at least their minimum number of copies; open dimension instances have one bin.", "quantifier": "every sequence of builder calls", "why_tests_cant": "a statement over all call histories", "anchors": ["src/rectangle/instance_builder.cpp:build", "src/rectangle/instance_builder.cpp:add_item_type", "src/rectangle/instance_builder.cpp:set_bin_type_copies"]}
{"id": "C52", "title": "A rectangle solution reports exactly the totals of its bins", "statement": "After any sequence of builder and append calls, a rectangle Solution lists the bins and items the caller described (at their positions, rotations and copies), and number_of_bins, number_of_items, bin area, item area, weight, cost, profit, per-type copies, x_max, y_max and waste are the totals of those bins; the builder refuses exactly unknown bins, unknown items and forbidden rotations.", "quantifier": "every rectangle instance, every sequence of add_bin/add_item/build/append_bin/append_bins/append_empty_bin calls", "why_tests_cant": "the totals must agree for every history of calls; tests check a few solutions", "anchors": ["src/rectangle/solution.cpp Solution::update_indicators", "src/rectangle/solution.cpp Solution::append_bins", "src/rectangle/solution_builder.cpp"]}
{"id": "C53", "title": "feasible() of a rectangle solution", "statement": "A rectangle Solution reports feasible() exactly if every item type is packed between copies_min and copies times, the feasibility callback accepts it, and no hard resource capacity is exceeded at any point; a user would also expect geometry, weight, defects, eligibility and bin limits to be covered.", "quantifier": "every rectangle instance with non-negative capacities and every solution obtained by the public calls", "why_tests_cant": "feasibility must be right for all solutions, including ones no solver test produces", "anchors": ["src/rectangle/solution.cpp Solution::update_indicators", "include/packingsolver/rectangle/solution.hpp feasible"]}
{"id": "C54", "title": "Comparing rectangle solutions is an order that prefers better packings", "statement": "operator< on rectangle solutions is asymmetric and transitive, prefers feasible solutions, prefers the packing with the better objective value (beyond the tolerance), answers for every supported objective, and the best solution kept by the output is not worse than any offered one.", "quantifier": "every rectangle instance, every objective, all triples of solutions and all sequences of offered solutions", "why_tests_cant": "order laws quantify over all pairs and triples of solutions", "anchors": ["src/rectangle/solution.cpp Solution::operator<", "include/packingsolver/algorithms/common.hpp"]}
{"id": "C55", "title": "Packings exported by the rectangle tree search are valid", "statement": "Every solution the rectangle tree search reports is a legal packing: every item exists, is rotated only if allowed, lies inside its bin, overlaps neither another item nor a defect, respects the maximum weight and hard resource capacities, is eligible for the bin it is in, and no item type or bin type is used more often than it is available; bins are used in the order of the instance.", "quantifier": "every rectangle instance the builder accepts (non-negative capacities, defects that reach the bin, definite copies), every search parameter set, every node any order of exploration reaches", "why_tests_cant": "the validity must hold in every node of a search tree of unbounded size, for every instance; tests replay a few instances", "anchors": ["src/rectangle/tree_search.cpp BranchingScheme::insertions", "src/rectangle/tree_search.cpp BranchingScheme::child_tmp", "src/rectangle/tree_search.cpp BranchingScheme::to_solution"]}
{"id": "C56", "title": "The rectangle tree search respects the unloading constraint", "statement": "In every bin of a solution the rectangle tree search reports, the items respect the unloading constraint of the instance (OnlyXMovements, OnlyYMovements, IncreasingX, IncreasingY) between item groups.", "quantifier": "every rectangle instance, every unloading constraint, every node any order of exploration reaches", "why_tests_cant": "the constraint relates all pairs of items of every reachable packing", "anchors": ["src/rectangle/tree_search.cpp BranchingScheme::insertion_item", "src/rectangle/tree_search.cpp BranchingScheme::insertions"]}
{"id": "C57", "title": "The rectangle tree search never fails part-way", "statement": "Exploring any node of the rectangle tree search raises no exception and reads nothing out of range: the insertions of every reachable node can be listed, each of them yields a child, and every node can be exported to a solution.", "quantifier": "every rectangle instance the builder accepts, every direction the driver chooses, every reachable node", "why_tests_cant": "an out-of-range read or a throw in one corner of an unbounded search tree is not seen by finitely many runs", "anchors": ["src/rectangle/tree_search.cpp BranchingScheme::insertions", "src/rectangle/tree_search.cpp BranchingScheme::child_tmp", "src/rectangle/tree_search.cpp tree_search"]}
{"id": "C58", "title": "The values the rectangle tree search compares are those of the solutions", "statement": "In every node the search reaches, the number of items and of bins, the item area and weight, the profit and the extent of the last bin that the search uses to rank nodes equal those of the solution the node is exported to, and the search considers a node complete exactly if the solution contains every copy of every item.", "quantifier": "every rectangle instance without fixed items whose resource capacities are non-negative, whose item copies are definite and whose defects reach into the bin, every reachable node", "why_tests_cant": "values are updated incrementally along every path of the search tree", "anchors": ["src/rectangle/tree_search.cpp BranchingScheme::child_tmp", "src/rectangle/tree_search.cpp BranchingScheme::to_solution", "src/rectangle/solution.cpp Solution::update_indicators"]}
{"id": "C59", "title": "The rectangle tree search ranks nodes like their solutions", "statement": "For every objective with a defined order of values (all but Default and the sequential subproblem) and every direction the driver chooses for it, the search prefers one node to another exactly when the solution the first node is exported to has a strictly better objective value than the solution of the second.", "quantifier": "every rectangle instance without fixed items whose resource capacities are non-negative, whose item copies are definite and whose defects reach into the bin, with positive bin costs and non-negative consumptions; every pair of reachable nodes", "why_tests_cant": "the values are accumulated on flipped coordinates along every path of the search tree", "anchors": ["src/rectangle/tree_search.cpp BranchingScheme::better", "src/rectangle/tree_search.cpp tree_search"]}
{"id": "C60", "title": "The rectangle tree search drops only nodes that lead to nothing better", "statement": "When the search drops a node because of an incumbent solution, no solution below that node has a strictly better objective value than the incumbent.", "quantifier": "every rectangle instance, every pair of reachable nodes, every descendant of the dropped one", "why_tests_cant": "the descendants of a node are unboundedly many and pruning is silent", "anchors": ["src/rectangle/tree_search.cpp BranchingScheme::bound", "src/rectangle/tree_search.cpp BranchingScheme::child_tmp"]}
{"id": "C61", "title": "The rectangle tree search's dominance test compares skylines", "statement": "A node dominates another with the same items exactly if it uses fewer bins, or as many and its last bin consumes no more of any resource and leaves at least the same free region; a dominated node cannot lead to a strictly better solution.", "quantifier": "every rectangle instance, every pair of reachable nodes", "why_tests_cant": "dominance silently discards parts of the search; skylines have arbitrary length", "anchors": ["src/rectangle/tree_search.cpp BranchingScheme::dominates"]}
{"id": "C62", "title": "Generated blocks are valid arrangements with exact totals", "statement": "The blocks of items prepared for the search over maximal spaces are produced without error and in at most the requested number; each one arranges existing items, in allowed orientations, without overlap, within the numbers of copies, with the announced bounding rectangle, area, profit, weight and numbers of copies; no two blocks have the same sides and the same items; every item that fits in the bin, in each allowed orientation, is a block of its own.", "quantifier": "every rectangle instance with positive sizes, every bin type, every maximum number of blocks", "why_tests_cant": "blocks are combined repeatedly; their number and the sums are unbounded and only a few are ever looked at", "anchors": ["src/rectangle/block.cpp compute_blocks", "src/rectangle/block.hpp Block"]}
{"id": "C63", "title": "The lengths items can attain are computed exactly, and nothing is lost by them", "statement": "For every length up to the largest bin side, the table gives the greatest total length, not above it, of items put side by side in allowed orientations and within their copies. Restricting a bin to the greatest attainable lengths loses no set of items: every packing can be moved into the restricted bin.", "quantifier": "every rectangle instance with positive sizes, every length, every packing", "why_tests_cant": "a statement about all packings", "anchors": ["src/rectangle/block.cpp compute_max_reachable_lengths", "src/rectangle/tree_search_maximal_spaces.cpp BranchingSchemeMaximalSpaces::BranchingSchemeMaximalSpaces"]}
{"id": "C64", "title": "The search over maximal spaces exports valid packings", "statement": "For every instance with a bin the search can be set up; every offered insertion makes a node; every node, whatever the fitness used, is exported without error to a solution with one bin of the first bin type whose items exist, are rotated only if allowed, are eligible, lie in the bin, overlap neither one another nor a defect, and respect the maximum weight, the resources and the numbers of copies; the items placed in the node are kept; a node counts as complete exactly if it has placed all items.", "quantifier": "every rectangle instance with positive sizes, every sequence of insertions, every fitness function", "why_tests_cant": "spaces are cut and removed along every path of the search tree", "anchors": ["src/rectangle/tree_search_maximal_spaces.cpp insertions", "src/rectangle/tree_search_maximal_spaces.cpp apply_insertion", "src/rectangle/tree_search_maximal_spaces.cpp cut_spaces", "src/rectangle/tree_search_maximal_spaces.cpp to_solution"]}
{"id": "C65", "title": "The search over maximal spaces compares and cuts nodes by their solutions", "statement": "With objectives Knapsack and Feasibility, a node is preferred to another exactly if the solution it is exported to has a greater total profit; other objectives are refused; a node is cut because of another only if no packing is worth more than the solution of the other; a node discarded by dominance leads to nothing better than the node kept.", "quantifier": "every rectangle instance with positive sizes, every pair of reachable nodes, every packing", "why_tests_cant": "a statement about all solutions below a node", "anchors": ["src/rectangle/tree_search_maximal_spaces.cpp better", "src/rectangle/tree_search_maximal_spaces.cpp bound", "src/rectangle/tree_search_maximal_spaces.hpp dominates"]}
{"id": "C66", "title": "No item is left out of a solution of the search over maximal spaces if it still fits", "statement": "When a node is exported, no remaining item fits in the free part of the bin; in particular the search finds a packing of all items if there is one.", "quantifier": "every rectangle instance with positive sizes, every reachable node, every position of every remaining item", "why_tests_cant": "a statement about all positions in all free regions", "anchors": ["src/rectangle/tree_search_maximal_spaces.cpp best_insertion", "src/rectangle/tree_search_maximal_spaces.cpp cut_spaces", "src/rectangle/tree_search_maximal_spaces.cpp remove_unusable_spaces"]}
{"id": "C67", "title": "Bins of a guillotine solution are guillotine cutting patterns", "statement": "Every bin of a solution obtained from the guillotine solution builder can be cut, in the number of stages it reports and with cuts of the given thickness, out of the bin without its hard trims; every item is one of the pieces, with its own dimensions up to a rotation. So items lie inside the bin, a cut fits between any two of them, and their area is at most that of the bin.", "quantifier": "every guillotine instance, every sequence of builder calls including rejected ones, every bin of the solution", "why_tests_cant": "calls can be nested and rejected in any order, to any depth", "anchors": ["src/rectangleguillotine/solution_builder.cpp add_bin", "src/rectangleguillotine/solution_builder.cpp add_node", "src/rectangleguillotine/solution_builder.cpp build", "src/rectangleguillotine/solution.cpp update_indicators"]}
{"id": "C68", "title": "Calls of the guillotine solution builder are checked", "statement": "add_bin, add_node and set_last_node_item have no undefined behaviour in any order of calls. Each is accepted exactly when it makes sense (the bin type or item type exists, the depth is reachable, the node cut holds no item, the position lies after the strips already cut and inside the node, the node has the size of the item), throws otherwise, and an accepted call adds exactly the strip asked for.", "quantifier": "every guillotine instance, every sequence of calls, every argument", "why_tests_cant": "all histories of calls and all arguments", "anchors": ["src/rectangleguillotine/solution_builder.cpp add_bin", "src/rectangleguillotine/solution_builder.cpp add_node", "src/rectangleguillotine/solution_builder.cpp set_last_node_item"]}
{"id": "C69", "title": "A guillotine solution reports the totals of its bins", "statement": "For a solution obtained from the guillotine solution builder, the numbers of bins and items, copies per type, cost, area, item area, waste, full waste, profit (minus one penalty for each listed bin and exceeded penalized resource), missing copies, width and height of the last bin, second leftover value and cutting cost are those of the bins and cut pieces it lists; full waste is not negative if there are no soft trims.", "quantifier": "every guillotine instance, every sequence of builder calls including rejected ones", "why_tests_cant": "patterns can be nested to any depth and totals are accumulated in place bin by bin", "anchors": ["src/rectangleguillotine/solution.cpp update_indicators", "src/rectangleguillotine/solution_builder.cpp build"]}
{"id": "C70", "title": "Feasibility of guillotine solutions", "statement": "Building a guillotine solution has no undefined behaviour, ends the process exactly if some piece of waste is too small, and otherwise the solution is reported feasible exactly if the bins respect the number of stages, the minimum and maximum distances between cuts, the maximum numbers of consecutive cuts, the defects, the stacks, the resources, the copies of the items and the user's callback.", "quantifier": "every guillotine instance, every sequence of builder calls including rejected ones", "why_tests_cant": "the verdict combines a dozen conditions on patterns of any depth", "anchors": ["src/rectangleguillotine/solution.cpp update_indicators", "src/rectangleguillotine/solution_builder.cpp build"]}
{"id": "C71", "title": "Numbers of stages of guillotine solutions", "statement": "The number of stages reported for each bin is the depth of its deepest cut, minus one exactly if the type of cuts does not count a last stage that only trims single items (non-exact) or splits pieces in two (Roadef 2018); that of the solution is the largest; every bin of a feasible solution can be cut in the allowed number of stages, up to that last one.", "quantifier": "every guillotine instance, every cut type, every sequence of builder calls", "why_tests_cant": "the exemption depends on all pieces of all bins", "anchors": ["src/rectangleguillotine/solution.cpp update_indicators", "src/rectangleguillotine/solution_builder.cpp build"]}
{"id": "C72", "title": "Comparison of guillotine solutions", "statement": "The comparison used to keep the best guillotine solution prefers feasible solutions, is asymmetric and transitive (and negatively transitive for objectives compared without tolerance), answers exactly for the supported objectives, and follows the objective: a clearly better solution is strictly better.", "quantifier": "every guillotine instance, every objective, all pairs and triples of solutions", "why_tests_cant": "all pairs and triples of solutions", "anchors": ["src/rectangleguillotine/solution.cpp operator<"]}
{"id": "C73", "title": "Guillotine solutions assembled by appending bins", "statement": "Appending a bin to a guillotine solution keeps its bins, except that the residual of the last one becomes waste, and adds the given bin with its types renamed; the totals and the feasibility reported by a solution assembled in any way are those of the bins it lists, as for built ones.", "quantifier": "every instance, every sequence of builds and appends between solutions of any instances, every renaming", "why_tests_cant": "all histories of appends", "anchors": ["src/rectangleguillotine/solution.cpp append_bin", "src/rectangleguillotine/solution.cpp append_bins", "src/rectangleguillotine/solution.cpp append_empty_bin"]}
{"id": "C74", "title": "Guillotine instances built by any history of calls are consistent", "statement": "Whatever calls were made on the builder of guillotine instances, when build returns an instance its derived data (numbers and areas of items and bins, positions of the bins, extrema, most efficient item type, flags, applicable resources) agree with its item and bin types, and what the user set (objective, parameters, sides, profits, copies, orientations, minima, trims, defects, costs) is unchanged, defaults and unlimited copies being resolved as documented. build succeeds exactly on complete, consistent descriptions and rejects the others as invalid arguments.", "quantifier": "every sequence of calls of the builder, every initial objective", "why_tests_cant": "the properties range over all histories of setter calls", "anchors": ["src/rectangleguillotine/instance_builder.cpp build", "include/packingsolver/rectangleguillotine/instance_builder.hpp", "include/packingsolver/rectangleguillotine/instance.hpp"]}
{"id": "C75", "title": "Stacks of guillotine instances", "statement": "In a built guillotine instance the stacks are exactly those given with the item types: stack s lists the copies of its item types in the order in which they were added, each item type knows its stack and its position in it, an instance that gives no stacks has one stack per item type, and one that gives some but not all is rejected. Every table read when a solution is built is complete.", "quantifier": "every sequence of calls of the builder whose item types have no negative number of copies", "why_tests_cant": "the layout of the flat table depends on all item types of all stacks", "anchors": ["src/rectangleguillotine/instance_builder.cpp build_stacks", "include/packingsolver/rectangleguillotine/instance.hpp item", "include/packingsolver/rectangleguillotine/instance.hpp stack_size"]}
{"id": "C76", "title": "Parameters of guillotine instances", "statement": "Once the number of stages or the type of cuts was set, there is a fixed and a variable cutting cost for every depth of cuts, each can be set and is read back as set, and changing the stages keeps costs already set. A predefined set of parameters is accepted exactly when each of its four characters has a meaning, and then sets the stages, the type of cuts, the orientation of the first cuts and the rotation of the items and nothing else. The trims of a built instance leave something of every bin.", "quantifier": "every sequence of calls of the builder, every name and every stage", "why_tests_cant": "the table depends on the order of the calls; the names range over all strings", "anchors": ["src/rectangleguillotine/instance_builder.cpp resize_cutting_costs", "src/rectangleguillotine/instance_builder.cpp set_predefined", "src/rectangleguillotine/instance_builder.cpp set_fixed_cutting_cost", "src/rectangleguillotine/instance_builder.cpp add_trims"]}
{"id": "C77", "title": "Copying types of a guillotine instance", "statement": "Copying distinct bin types and then item types of an instance into a new builder gives the restriction of the instance to these types: same sides, costs, copies, trims, defects, resources, consumptions, profits, rotations and stacks. Copying types with usual data never fails.", "quantifier": "every instance, every list of distinct bin types and every list of item types", "why_tests_cant": "consumptions are copied through two id translations, for every resource and copy", "anchors": ["src/rectangleguillotine/instance_builder.cpp add_bin_type", "src/rectangleguillotine/instance_builder.cpp add_item_type"]}
{"id": "C78", "title": "Best profits of boxes", "statement": "For every box that fits in the first plate without its trims, the first table of the one-plate guillotine algorithms is the largest profit of the guillotine patterns of the box when copies are unlimited. In particular it bounds the profit of every pattern that respects the copies.", "quantifier": "every instance with a plate, every box in it and every guillotine pattern of any depth", "why_tests_cant": "the patterns of a box are infinitely many; the table is filled cell by cell from smaller cells", "anchors": ["src/rectangleguillotine/tree_search_hypergraph.cpp compute_dp", "src/rectangleguillotine/tree_search_hypergraph_infinite_copies.cpp"]}
{"id": "C79", "title": "Best profits around boxes", "statement": "For every box, the second table is the largest profit that can be made around such a box in the plate, or minus infinity when the box cannot be obtained by cuts. The profit of a pattern of the plate is at most the profit inside a rectangle that occurs in it plus the entry of this rectangle.", "quantifier": "every instance with a plate, every pattern of the plate and every rectangle that occurs in it", "why_tests_cant": "quantifies over all patterns and all their parts", "anchors": ["src/rectangleguillotine/tree_search_hypergraph.cpp compute_rdp"]}
{"id": "C80", "title": "The block search reports real patterns and ends", "statement": "The block search for one guillotine bin never fails and always ends. Every block it reports stands for a guillotine pattern of the plate without its trims that respects the copies of the items and has the announced profit; each reported block is better than all before, and the best profit is that of the last one.", "quantifier": "every instance with a plate and items of positive sides, every queue, every moment at which the timer may stop the search", "why_tests_cant": "the blocks are built from one another in an order that depends on priorities; the timer may stop the search anywhere", "anchors": ["src/rectangleguillotine/tree_search_hypergraph.cpp tree_search_hypergraph", "src/rectangleguillotine/tree_search_hypergraph.cpp merge_item_copies", "src/rectangleguillotine/tree_search_hypergraph.cpp is_valid_item_copies"]}
{"id": "C81", "title": "The block search is exact", "statement": "If it is not stopped, the block search ends with the largest profit of all guillotine patterns of the plate that respect the copies of the items.", "quantifier": "every instance with a plate and items of positive sides, every guillotine pattern of any depth", "why_tests_cant": "the search prunes by bounds, drops blocks with equal keys and stops at a threshold; a lost optimum would be one among infinitely many patterns", "anchors": ["src/rectangleguillotine/tree_search_hypergraph.cpp tree_search_hypergraph", "src/rectangleguillotine/tree_search_hypergraph.cpp compute_rdp"]}
{"id": "C82", "title": "Reported blocks become solutions", "statement": "Every block that the block search reports is turned into a solution without an exception: one bin of the first type holding exactly the items of a guillotine pattern that fits the plate and respects the copies, with the announced profit but for the penalties of exceeded resources.", "quantifier": "every instance with a plate, items of positive sides and complete tables, every block reported in any run of the search", "why_tests_cant": "the nested cuts are rebuilt recursively to any depth, and every cut must be accepted by the solution builder", "anchors": ["src/rectangleguillotine/tree_search_hypergraph.cpp tree_search_hypergraph", "src/rectangleguillotine/solution_builder.cpp"]}
{"id": "C83", "title": "The search with unlimited copies returns a best pattern", "statement": "When items may be used any number of times, the dynamic program returns, without an exception, a solution with one bin of the first type that holds exactly the items of a guillotine pattern of the plate of the largest profit, and whose profit is this profit but for the penalties of exceeded resources.", "quantifier": "every instance with a plate and complete tables, every guillotine pattern of any depth", "why_tests_cant": "the solution is found again from a table of profits by a recursion of any depth that must not get stuck, and every cut must be accepted by the solution builder", "anchors": ["src/rectangleguillotine/tree_search_hypergraph_infinite_copies.cpp tree_search_hypergraph_infinite_copies", "src/rectangleguillotine/solution_builder.cpp"]}
{"id": "C84", "title": "A box solution reports exactly the totals of its bins", "statement": "After any sequence of builder and append calls, a box Solution lists the bins and items the caller described (at their positions, rotations and copies), and number_of_bins, number_of_items, bin volume, bin area, item volume, weight, cost, profit, per-type copies, the weight and profit of every bin, x_max, y_max, z_max and waste are the totals of those bins; the builder refuses exactly unknown bins, unknown items and rotations that are not listed for the item type.", "quantifier": "every box instance, every sequence of add_bin/add_item/build/append_bin/append_bins/append_empty_bin calls", "why_tests_cant": "the totals must agree for every history of calls; tests check a few solutions", "anchors": ["src/box/solution.cpp Solution::update_indicators", "src/box/solution.cpp Solution::append_bins", "src/box/solution_builder.cpp"]}
{"id": "C85", "title": "feasible() of a box solution", "statement": "A box Solution reports feasible() exactly if every item type is packed between copies_min and copies times, the feasibility callback accepts it, and no hard resource capacity is exceeded at any point; a user would also expect geometry, weight and bin limits to be covered.", "quantifier": "every box instance with non-negative capacities and every solution obtained by the public calls", "why_tests_cant": "feasibility must be right for all solutions, including ones no solver test produces", "anchors": ["src/box/solution.cpp Solution::update_indicators", "include/packingsolver/box/solution.hpp feasible"]}
{"id": "C86", "title": "Comparing box solutions is an order that prefers better packings", "statement": "operator< on box solutions is asymmetric and transitive, prefers feasible solutions, prefers the packing with the better objective value (beyond the tolerance), answers for every supported objective, and the best solution kept by the output is not worse than any offered one.", "quantifier": "every box instance, every objective, all triples of solutions and all sequences of offered solutions", "why_tests_cant": "order laws quantify over all pairs and triples of solutions", "anchors": ["src/box/solution.cpp Solution::operator<", "include/packingsolver/algorithms/common.hpp"]}
{"id": "C87", "title": "Box instances built by any history of calls are consistent", "statement": "Whatever calls were made on the builder of box instances, when build returns an instance its derived data (numbers, volumes, weights and profits of items, volumes and floor areas of bins, positions of the bins, smallest dimensions over the allowed orientations, extrema, most efficient item type, flags, applicable resources) agree with its item and bin types, and what the user set (objective, sides, profits, weights, copies, orientations, minima, costs, weight limits) is unchanged, defaults and unlimited copies being resolved as documented. build succeeds exactly on complete, consistent descriptions and rejects the others as invalid arguments. Automatic profits depend on the items.", "quantifier": "every sequence of calls of the builder, every initial objective", "why_tests_cant": "the properties range over all histories of setter calls", "anchors": ["src/box/instance_builder.cpp", "include/packingsolver/box/instance_builder.hpp", "include/packingsolver/box/instance.hpp"]}
{"id": "C88", "title": "Calls that set all types at once do what they are named for", "statement": "When build succeeds after set_bin_types_infinite_x (or _y), any choice of the items, each turned in any way, fits side by side along that axis in every bin, and the other sides of the bins are those given. After set_item_types_infinite_copies, the copies of an item type are the fewest whose total size reaches the size of every bin added so far. After set_bin_types_infinite_copies each bin type has as many copies as there are items. Unweighted costs and profits are sizes, oriented items may not be turned, multiplied copies are multiplied.", "quantifier": "every history of calls followed by one of these calls and build, for one-dimensional, rectangle, guillotine and box instances", "why_tests_cant": "the set of items, their copies and the histories are unbounded", "anchors": ["src/*/instance_builder.cpp set_bin_types_infinite_x", "src/*/instance_builder.cpp set_item_types_infinite_copies", "src/*/instance_builder.cpp set_bin_types_unweighted"]}
{"id": "C89", "title": "Box dual feasible function bounds are valid", "statement": "For box instances with one bin type, the bin packing bound reported by the dual feasible functions is at most the number of bins of every packing of all the items; an instance reported infeasible has no packing of all the items in its bins; the knapsack bound is at least the profit of every packing of a selection of the items in the available bins; the computation ends without undefined behaviour. Packings may use any of the allowed rotations of the items.", "quantifier": "every instance with one bin type, every three-dimensional packing", "why_tests_cant": "the packings of an instance are uncountably many positions and rotations; a bound too high removes the optimum only on instances whose optimum is known by other means", "anchors": ["src/box/dual_feasible_functions.cpp: dual_feasible_functions, compute_axis_tables, f_ccm_0, f_ccm_1_axis, f_ccm_2, item_coefficient, dantzig_profit_bound", "src/box/optimize.cpp:553-560"]}
{"id": "C90", "title": "Boxstacks solutions report exactly what they list", "statement": "After any sequence of builder calls, append_bin, append_bins and append_empty_bin calls that succeed, a boxstacks solution lists the described bins, stacks and items, and the numbers of bins, stacks and items, the copies per type, the volumes, floor areas, weights, profit and cost it reports are those of what it lists; every item lies on the one below it, into which it sinks by its nesting height; the weights and moments of each bin are those of the items of each group and of the later groups; the extents are those of the last bin; the waste is the volume of the bins without the largest slab left in the last one minus that of the items. The builder rejects unknown bins and items, forbidden rotations and items whose footprint differs from that of the stack, and accepts everything else.", "quantifier": "every instance, every history of calls", "why_tests_cant": "histories, stacks and id maps are unbounded; totals are maintained incrementally", "anchors": ["src/boxstacks/solution.cpp: update_indicators, append_bin, append_bins, append_empty_bin", "src/boxstacks/solution_builder.cpp", "include/packingsolver/boxstacks/solution.hpp"]}
{"id": "C91", "title": "Feasibility of boxstacks solutions", "statement": "A boxstacks solution reports to be feasible exactly if every bin is within its maximum weight, the axle weights of every trailer (the unique solution of the balance of moments) are within their maxima for every group whose constraints are checked, with the items of this and of the later groups, every item type is packed between its minimum and its available number of copies, and the callback accepts the bins. The reported violation of the axle constraints is 0 exactly if they hold.", "quantifier": "every instance, every solution a history of calls produces", "why_tests_cant": "weights, groups and histories are unbounded; the axle weights are rational functions of the positions", "anchors": ["src/boxstacks/solution.cpp: update_indicators, feasible_total_weight, feasible_axle_weights, compute_weight_constraints_violation", "include/packingsolver/rectangle/instance.hpp: SemiTrailerTruckData::compute_axle_weights"]}
{"id": "C92", "title": "Comparing boxstacks solutions", "statement": "Comparing two boxstacks solutions prefers feasible ones, and among feasible ones the one with the better objective value (up to the tolerance on profits); the comparison is asymmetric and transitive, so that the best solution kept is one of those offered and none of them is strictly better.", "quantifier": "every instance, every pair or triple of solutions, every sequence of solutions offered", "why_tests_cant": "the order properties range over triples of solutions and all sequences", "anchors": ["src/boxstacks/solution.cpp: operator<", "include/packingsolver/algorithms/common.hpp: SolutionPool"]}
{"id": "C93", "title": "Checking a single stack", "statement": "check_stack accepts a pile of items of the same footprint exactly if its height (every item sinking into the one below it by its nesting height) is at most that of the bin, every item bears the weight of those above it, no item tolerates fewer items in its stack and the pile is not too dense.", "quantifier": "every instance, bin type and pile of items", "why_tests_cant": "piles are unbounded and the conditions accumulate along them", "anchors": ["src/boxstacks/solution.cpp: check_stack"]}
{"id": "C94", "title": "An instance under construction is exactly what was described, the last value given winning", "statement": "After any accepted sequence of calls of an instance builder that add a bin or item type or set an attribute of one type, the instance under construction has exactly the types that were added, in order, with the sizes given; every scalar attribute of a type (cost, weight, profit, copies, minimum copies, trims, ...) has the value given by the last call that concerns it, or the documented default if there is none (cost and profit default to the area, length or volume, and a cost of -1 means the same); every copy of an item type consumes of a resource what was given for it; list attributes (resources, defects, eligibility ids, rotations, precedences) are the lists of the values given, in order; the objective, callback and cutting parameters are the last ones given. No call changes a type it does not concern. A call is accepted exactly when its arguments are acceptable (ids exist, sides, costs and copies in range) and is otherwise rejected with an invalid argument exception.", "quantifier": "every history of calls of the builders of one-dimensional, rectangle, guillotine and box instances, every type and every attribute", "why_tests_cant": "tests check a handful of histories; interference between calls (a setter that writes another field, a list that loses its earlier entries, a default that overwrites a given value) needs particular orders of calls", "anchors": ["src/onedimensional/instance_builder.cpp: InstanceBuilder", "src/rectangle/instance_builder.cpp: InstanceBuilder", "src/rectangleguillotine/instance_builder.cpp: InstanceBuilder", "src/box/instance_builder.cpp: InstanceBuilder"]}
{"id": "C95", "title": "Exchanging the axes of a box instance changes nothing but the axes", "statement": "Flipping a box instance along y or z gives the instance with the same item and bin types, in the same order, with the two axes exchanged: bin sides are exchanged, the permitted rotations are the exchanged ones, an open dimension follows its axis; profits, copies, weights, costs, maximum weights and all totals are unchanged, and minimum numbers of copies, resources and the feasibility callback are kept. A packing is valid for the flipped instance exactly when the packing with exchanged coordinates is valid for the original one. Converting a solution of the flipped instance back succeeds and gives the same bins and items with coordinates and rotations exchanged, with the same numbers, volumes, weights, costs, profit and feasibility, and with the extents exchanged. Flipping succeeds for every instance the builder accepts.", "quantifier": "every instance the builder accepts, both axes, every packing and every solution of the flipped instance", "why_tests_cant": "tests flip a few instances; a rotation table with one wrong entry, or an attribute that is not copied, shows only on instances that use that rotation or attribute", "anchors": ["src/box/instance_flipper.cpp: InstanceFlipper, flip, unflip_solution", "src/box/instance_flipper.hpp: convert_point_back, get_flipped_rotation"]}
{"id": "C96", "title": "Packings exported by the box tree search are valid", "statement": "Every solution the box tree search reports is a legal packing: every item exists, has a permitted rotation, lies inside its bin, overlaps no other item, the maximum weight and the hard resources of every bin are respected, and no item type or bin type is used more often than it is available; bins are used in the order of the instance, or by increasing volume for Knapsack.", "quantifier": "every box instance the builder accepts (non-negative capacities, definite copies), every direction, every node any order of exploration reaches", "why_tests_cant": "the validity must hold in every node of a search tree of unbounded size, for every instance and each of three directions", "anchors": ["src/box/tree_search.cpp BranchingScheme::insertions", "src/box/tree_search.cpp BranchingScheme::child_tmp", "src/box/tree_search.cpp BranchingScheme::to_solution"]}
{"id": "C97", "title": "The box tree search never fails part-way, and ends", "statement": "The search can be set up for every instance the builder accepts. Exploring any of its nodes raises no exception and reads nothing out of range: the insertions of every reachable node can be listed, each of them yields a child, every node can be exported to a solution and any two nodes can be compared. Every path of the tree ends after at most as many nodes as there are items, and every item that fits is offered.", "quantifier": "every box instance the builder accepts (non-negative capacities, definite copies), every direction, every node any order of exploration reaches", "why_tests_cant": "an out-of-range read or a throw in one corner of an unbounded search tree is not seen by finitely many runs", "anchors": ["src/box/tree_search.cpp BranchingScheme::BranchingScheme", "src/box/tree_search.cpp BranchingScheme::insertions", "src/box/tree_search.cpp BranchingScheme::better"]}
{"id": "C98", "title": "The values the box tree search compares are those of the solutions", "statement": "In every node the search reaches, the number of items and of bins, the item volume and weight, the profit and the extent of the last bin that the search uses to rank nodes equal those of the solution the node is exported to, and the search considers a node complete exactly if the solution contains every copy of every item.", "quantifier": "every box instance the builder accepts (non-negative capacities, definite copies), every direction, every node any order of exploration reaches", "why_tests_cant": "values are updated incrementally, in flipped coordinates, along every path of the search tree", "anchors": ["src/box/tree_search.cpp BranchingScheme::child_tmp", "src/box/tree_search.cpp BranchingScheme::to_solution", "src/box/solution.cpp Solution::update_indicators"]}
{"id": "C99", "title": "The box tree search ranks nodes by the objective and prunes no improvement", "statement": "The box tree search prefers a node to another one exactly when the solution it stands for is better for the objective of the instance, and a node that it drops because of a solution already found leads to no better solution.", "quantifier": "every box instance the builder accepts (non-negative capacities, definite copies), every two nodes any order of exploration reaches, and every node below them", "why_tests_cant": "one wrongly dropped node in an unbounded tree loses the optimum silently; the result is still a valid packing", "anchors": ["src/box/tree_search.cpp BranchingScheme::better", "src/box/tree_search.cpp BranchingScheme::bound", "src/box/tree_search.cpp BranchingScheme::child_tmp"]}
{"id": "C100", "title": "A node the box tree search drops as dominated is no better than the one it keeps", "statement": "When two nodes of the box tree search contain the same items and one is dropped in favour of the other, the one kept uses no more bins and its last bin is nowhere filled further, and whatever can still be packed after the one dropped can be packed after the one kept.", "quantifier": "every box instance the builder accepts (non-negative capacities, definite copies), every two nodes any order of exploration reaches, and every node below them", "why_tests_cant": "dominance is decided from two lists of rectangles per node; it must agree with the packings on every line through the bin for every pair of nodes", "anchors": ["src/box/tree_search.hpp BranchingScheme::dominates", "src/box/tree_search.hpp BranchingScheme::NodeHasher", "src/box/tree_search.cpp BranchingScheme::child_tmp"]}
{"id": "C101", "title": "Generated blocks of boxes are valid arrangements with exact totals", "statement": "The blocks of boxes prepared for the search over maximal spaces are produced without error and in at most the requested number; each one arranges existing items, in allowed rotations, without overlap, within the numbers of copies, with the announced bounding box, volume, profit, weight and numbers of copies; no two blocks have the same sides and the same items; every item that fits in the bin, in each allowed rotation, is a block of its own.", "quantifier": "every box instance with positive sizes, every bin type, every maximum number of blocks", "why_tests_cant": "blocks are combined repeatedly along three axes; their number and the sums are unbounded and only a few are ever looked at", "anchors": ["src/box/block.cpp compute_blocks", "src/box/block.hpp Block"]}
{"id": "C102", "title": "The lengths boxes can attain are computed exactly, and nothing is lost by them", "statement": "For every axis and every length up to the largest bin side, the table gives the greatest total length, not above it, of items put side by side in allowed rotations and within their copies. Restricting a bin to the greatest attainable lengths loses no set of items: every packing can be moved into the restricted bin.", "quantifier": "every box instance with positive sizes, every axis, every length, every packing", "why_tests_cant": "a statement about all packings", "anchors": ["src/box/block.cpp compute_max_reachable_lengths", "src/box/tree_search_maximal_spaces.cpp BranchingSchemeMaximalSpaces::BranchingSchemeMaximalSpaces"]}
{"id": "C103", "title": "The search over maximal spaces of boxes exports valid packings", "statement": "For every box instance with a bin the search can be set up; every offered insertion makes a node; every node, whatever the fitness used, is exported without error to a solution with one bin of the first bin type whose items exist, are in allowed rotations, lie in the bin, do not overlap, and respect the maximum weight, the resources, the callback and the numbers of copies; the items placed in the node are kept; a node counts as complete exactly if it has placed all items.", "quantifier": "every box instance with positive sizes, every sequence of insertions, every fitness function", "why_tests_cant": "spaces are cut into six parts and removed along every path of the search tree", "anchors": ["src/box/tree_search_maximal_spaces.cpp insertions", "src/box/tree_search_maximal_spaces.cpp apply_insertion", "src/box/tree_search_maximal_spaces.cpp cut_spaces", "src/box/tree_search_maximal_spaces.cpp to_solution"]}
{"id": "C104", "title": "The search over maximal spaces of boxes compares and cuts nodes by their solutions", "statement": "With objectives Knapsack and Feasibility, a node is preferred to another exactly if the solution it is exported to has a greater total profit; other objectives are refused; a node is cut because of another only if no packing is worth more than the solution of the other; a node discarded by dominance leads to nothing better than the node kept.", "quantifier": "every box instance with positive sizes, every pair of reachable nodes, every packing", "why_tests_cant": "a statement about all solutions below a node", "anchors": ["src/box/tree_search_maximal_spaces.cpp better", "src/box/tree_search_maximal_spaces.cpp bound", "src/box/tree_search_maximal_spaces.hpp dominates"]}
{"id": "C105", "title": "No box is left out of a solution of the search over maximal spaces if it still fits", "statement": "When a node is exported, no remaining item fits in the free part of the bin; in particular the search finds a packing of all items if there is one, so that the infeasibility or the bound reported at its end is right.", "quantifier": "every box instance with positive sizes, every reachable node, every position of every remaining item", "why_tests_cant": "a statement about all positions in all free regions", "anchors": ["src/box/tree_search_maximal_spaces.cpp best_insertion", "src/box/tree_search_maximal_spaces.cpp cut_spaces", "src/box/tree_search_maximal_spaces.cpp tree_search_maximal_spaces"]}
{"id": "C106", "title": "Reducing a rectangle instance loses no packing", "statement": "When optimize reduces a bin packing, variable-sized bin packing or feasibility instance, every packing of all items of the instance in k bins corresponds to a packing of all items of the reduced instance in at most k minus the number of bins set aside.", "quantifier": "every rectangle instance to which the reduction applies, every packing of it, every answer of the solver and the timer consulted on the way, every order of equal items", "why_tests_cant": "a statement about all packings of an instance; tests only see the solutions found", "anchors": ["src/rectangle/reduction.cpp Reduction::Reduction", "src/rectangle/reduction.cpp try_reduce_group", "src/rectangle/reduction.cpp try_reduce_both_group", "src/rectangle/reduction.cpp reduce_full_bin_items", "src/rectangle/reduction.cpp reduce_perfect_pairs", "src/rectangle/reduction.cpp compute_shrunk_bin_sizes", "src/rectangle/reduction.cpp reduction_to_instance"]}
{"id": "C107", "title": "Bounds found on a reduced rectangle instance are right for the instance", "statement": "A lower bound on the number (or the cost) of bins that holds for the reduced instance is reported, after the bins set aside are added, as a bound that holds for the instance.", "quantifier": "every rectangle instance to which the reduction applies, every bound, every packing", "why_tests_cant": "a statement about all packings of an instance", "anchors": ["src/rectangle/optimize.cpp report_reduced_output", "src/rectangle/reduction.cpp number_of_dedicated_bins"]}
{"id": "C108", "title": "A rectangle instance declared infeasible by the reduction is infeasible", "statement": "If the reduction reports that the instance is proven infeasible then no packing of all items uses at most as many bins as there are.", "quantifier": "every rectangle instance to which the reduction applies, every packing", "why_tests_cant": "infeasibility is a statement about all packings", "anchors": ["src/rectangle/reduction.cpp reduction_to_instance", "src/rectangle/reduction.cpp proven_infeasible", "src/rectangle/optimize.cpp optimize"]}
{"id": "C109", "title": "The reduction of a rectangle instance never fails", "statement": "Reducing an instance, and translating a packing of the reduced instance back, neither throws nor has undefined behaviour.", "quantifier": "every built rectangle instance to which the reduction applies, every valid packing of the reduced instance", "why_tests_cant": "depends on how often companions occur in every solution of every sub-instance", "anchors": ["src/rectangle/reduction.cpp extract_companions", "src/rectangle/reduction.cpp try_reduce_group", "src/rectangle/reduction.cpp unreduce_solution", "src/rectangle/reduction.cpp reduction_to_instance"]}
{"id": "C110", "title": "Solutions translated back from the reduced rectangle instance are valid", "statement": "A valid packing of the reduced instance is translated to a valid packing of the instance: items lie in their bins, do not overlap, are rotated and packed only where they may be, and all items are packed if all items of the reduced instance were.", "quantifier": "every rectangle instance to which the reduction applies, every valid packing of the reduced instance", "why_tests_cant": "a statement about all solutions and all nestings of absorbed items", "anchors": ["src/rectangle/reduction.cpp unreduce_solution", "src/rectangle/reduction.cpp place_item_and_companions"]}
{"id": "C111", "title": "Exchanging the axes of a guillotine instance keeps the problem", "statement": "When the first cuts must be horizontal, optimize solves a flipped instance with vertical first cuts. The flipped instance is the original with the axes exchanged: widths and heights of items and bins, trims and defects are exchanged, and costs, profits, copies, stacks, resources and parameters are the same, so that no constraint is lost or added.", "quantifier": "every guillotine instance accepted by the instance builder", "why_tests_cant": "the instance is rebuilt field by field; a field that is forgotten or exchanged wrongly only shows for instances that use it, alone or combined with others", "anchors": ["src/rectangleguillotine/instance_flipper.cpp: InstanceFlipper::flip", "src/rectangleguillotine/optimize.cpp"]}
{"id": "C112", "title": "Solutions of the flipped guillotine instance are translated back faithfully", "statement": "Every solution found for the flipped instance is translated back, without an exception, into a solution of the original instance with the same pieces mirrored, cut in the same order, with horizontal first cuts; it holds the same items, uses the same bins, costs the same, and is feasible if the flipped solution is.", "quantifier": "every instance, and every solution of its flipped instance built by the solution builder with vertical first cuts, of any number of bins, cuts and depths", "why_tests_cant": "the translation replays the cuts through the solution builder, which recomputes every piece, waste and residual; whether it arrives at the same pieces depends on trims, cut thickness and the order of the cuts at every depth", "anchors": ["src/rectangleguillotine/instance_flipper.cpp: InstanceFlipper::unflip_solution", "src/rectangleguillotine/solution_builder.cpp"]}
{"id": "C113", "title": "Tree searches withhold an item only behind better items of the same shape, never in a circle", "statement": "In the rectangle and box tree searches an item type (or one of its rotations) is left out of the placements tried at a node exactly if it has no copy left or an item type of the same piece that is ranked before it (by profit and weight for boxes; by the predecessor strategy, within the same group, for rectangles; by index between equals) still has one. As long as copies are left some item type is tried.", "quantifier": "every instance, every node of the search, every predecessor strategy", "why_tests_cant": "a wrong comparison in the tables only removes branches of the search: solutions stay valid, and only an exhaustive comparison over all instances and nodes shows which ones are lost", "anchors": ["src/box/tree_search.cpp: BranchingScheme::BranchingScheme, dominates, insertions", "src/rectangle/tree_search.cpp: BranchingScheme::BranchingScheme, dominates, insertions"]}
{"id": "C114", "title": "Blocks of the guillotine search over unused rectangles can be cut and account for their items exactly", "statement": "Block generation ends for every instance with at most the requested number of blocks. Every block fits in the bin and its rectangle can be cut by edge-to-edge cuts of the given thickness into exactly the announced copies, profit, area and number of items, without using an item type more often than it has copies; no two blocks have the same sides and copies; a combined block records two earlier blocks it is made of; every item that fits has a block of its own; with at most three item types a block is filled by its items.", "quantifier": "every instance with positive item sides and a non-negative cut thickness, every bin type, every requested number of blocks", "why_tests_cant": "the blocks are the only thing the search can place: a wrong count or side shows only for the combination that triggers it, out of a combinatorial closure that grows with the instance", "anchors": ["src/rectangleguillotine/block.cpp: compute_blocks, valid_copies", "src/rectangleguillotine/block.hpp: Block"]}
{"id": "C115", "title": "States of the guillotine search over unused rectangles stand for real cutting patterns", "statement": "Every state met by the search stands for a pattern of edge-to-edge cuts of the whole bin whose copies, profit, area and number of items are exactly those of the state, within the available copies. An insertion puts a fitting block with enough copies left in a space of smallest area, all such blocks are tried, and a space is forgotten only if nothing that is left fits in it. The greedy completion ends, keeps what is placed, takes the most profitable block and stops only when nothing fits (non-negative profits). A leaf holds all items, and with non-negative profits the bound never cuts off a better state.", "quantifier": "every instance with positive item sides and a non-negative cut thickness, every sequence of insertions", "why_tests_cant": "the states are reached by sequences of insertions of unbounded length over a combinatorial set of blocks; a wrong remainder or count appears only on particular sequences", "anchors": ["src/rectangleguillotine/tree_search_maximal_spaces.cpp: root, insertions, best_insertion, apply_insertion, find_best_space, compute_guide_greedy, bound", "src/rectangleguillotine/tree_search_maximal_spaces.hpp: leaf"]}
{"id": "C116", "title": "The guillotine search over unused rectangles turns every state into a solution", "statement": "Every state met by the search, completed greedily, is turned into a solution without exception: one bin of the first type, cut first in the direction asked for, with exactly the items of the completed state, within the available copies, and their profit (but for penalties of exceeded resources). The solution is obtained by calls of the solution builder.", "quantifier": "every instance with positive item sides and a non-negative cut thickness, every sequence of insertions", "why_tests_cant": "the conversion replays a sequence of insertions of unbounded length into nested cuts; a wrong position, order or depth appears only on particular sequences", "anchors": ["src/rectangleguillotine/tree_search_maximal_spaces.cpp: to_solution, place_block, place_simple_block", "src/rectangleguillotine/optimize.cpp: automatic selection"]}
{"id": "C117", "title": "Guillotine patterns are rebuilt from the places of the items", "statement": "Given the places of items in a bin, every solution that build_guillotine_solutions returns is one bin of the given type with exactly these items at exactly these places, with first cuts in a direction the parameters allow, and at most one for each direction. If guillotine cuts separate the items, a solution is returned for each allowed direction, with no more stages than any pattern in that direction; build_guillotine_solution returns the one with the fewest stages. If no guillotine cuts separate them, nothing is returned.", "quantifier": "every instance, bin type, list of item places and result of the sorts on equal keys", "why_tests_cant": "the function recurses on arbitrary geometric arrangements; termination and the minimal number of stages are statements on all arrangements and all patterns", "anchors": ["src/rectangleguillotine/post_process.cpp: find_groups, build_region, try_build, build_guillotine_solutions, build_guillotine_solution", "include/packingsolver/rectangleguillotine/post_process.hpp"]}
{"id": "C118", "title": "Reducing the number of stages keeps bins and items", "statement": "Given a guillotine solution, the solution returned by minimize_number_of_stages has the same bins in the same order, each of the same type, with the same number of copies and the same items at the same places; its totals and feasibility are those of its bins. For every solution of the solution builder it returns, and no bin needs more stages than before, up to one stage where the first cuts of the bin were not in a direction the parameters allow or the cut type counts a stage for free.", "quantifier": "every instance, solution and result of the sorts on equal keys", "why_tests_cant": "the function rebuilds every bin by a recursion on arbitrary arrangements; that it returns and never adds stages is a statement on all patterns", "anchors": ["src/rectangleguillotine/post_process.cpp: minimize_number_of_stages", "include/packingsolver/rectangleguillotine/post_process.hpp"]}
{"id": "C119", "title": "Sorting subplates keeps bins and items and puts the best subplates first", "statement": "Given a guillotine solution composed of bins of the solution builder, sort_subplates returns a solution with the same bins in the same order, each of the same type, with the same number of copies and direction of the first cuts, and with items of the same types and the same widths and heights: none is lost, added or rotated. The lengths, waste and area by which subplates are compared are those of the items and parts cut from them. Within every subplate the parts with content are cut in the lexicographic order of the criteria, the largest first and density compared exactly, and parts of the same worth keep their order. No bin needs more stages than its pattern is deep, and the totals and the feasibility of the result are those of its bins.", "quantifier": "every instance, every solution composed of bins of the solution builder, every list of criteria", "why_tests_cant": "the function rebuilds every bin from a tree of arbitrary shape, and the comparison multiplies 64-bit areas by hand in two words; an error shows only on particular trees or areas", "anchors": ["src/rectangleguillotine/post_process.cpp: sort_subplates, sort_node_subtrees, compute_node_lengths, mul_less, replay_group", "include/packingsolver/rectangleguillotine/post_process.hpp"]}
{"id": "C120", "title": "Grouping identical bins keeps what rectangle, box, boxstacks and guillotine solutions pack", "statement": "For every solution, group_identical_bins returns a solution that lists each bin of the given one exactly once, in the order in which the bins first occur, with the number of copies the bin has altogether; two bins are the same when they have the same type and the same items, stacks or cuts at the same places. The numbers of bins and items, the copies of each type, the cost, the areas, volumes and weights, and the feasibility are those of the given solution.", "quantifier": "every instance and every solution obtained from a solution builder or by appending bins", "why_tests_cant": "which bins are identical and in which order they occur depends on the whole solution; a test covers a few lists of bins", "anchors": ["include/packingsolver/algorithms/common.hpp: group_identical_bins", "src/rectangle/post_process.cpp: group_identical_bins", "src/box/post_process.cpp: group_identical_bins", "src/boxstacks/post_process.cpp: group_identical_bins", "src/rectangleguillotine/post_process.cpp: group_identical_bins"]}
{"id": "C121", "title": "The guillotine search by feasibility problems reports complete patterns, better and better, and ends", "statement": "For bin packing, bin packing with leftovers and an open width or height, every solution that sequential_feasibility reports packs all items, each type as often as it has copies; its items lie in their bins, have the sides of their types and leave room for the cuts, and no bin type is used more often than it has copies if the solver respects them. Each solution uses fewer bins, or less of the width or height, than those reported before. The search ends by itself, whatever the solver of the feasibility problems answers and whenever the time is up.", "quantifier": "every instance made by the builder with at least one item and bins with copies, every solver whose answers come from the solution builder and use no more bins than there are, every moment at which the time is up", "why_tests_cant": "the number of problems and their bins depend on every answer given before; a test follows one sequence of answers", "anchors": ["src/rectangleguillotine/sequential_feasibility.cpp: sequential_feasibility", "include/packingsolver/rectangleguillotine/solution.hpp: Solution::append"]}
