# Formal model of fontanf/packingsolver in Lean 4

## 1. Layout

* `lean/Verif/Model/…`  – executable model of the C++ code, function by
  function. Every definition cites the file and lines of `/repo` it models and
  names its simplifications.
* `lean/Verif/Spec/…`   – small specifications that do not use the model's
  helpers (what a packing is, what a bound is, …).
* `lean/Verif/Lemmas/…` – helper lemmas.
* `lean/Verif/Props/…`  – the property theorems (one file per group of
  properties), each followed by `example`s showing that a concrete non-trivial
  case meets the hypotheses.

## 2. Trusted base

* Lean 4.33.0's kernel; the axioms `propext`, `Classical.choice`, `Quot.sound`
  (nothing else; no `sorry`, `native_decide`, `bv_decide`, own axioms).
* The reading of the C++ code: nothing is executed. The model is tied to the
  code only by the citations.
* Numbers. `int32_t`/`int64_t` are unbounded `Int`/`Nat`: overflow is not
  modelled. `double` is an exact rational `ℚ`: rounding, NaN are not modelled;
  `+∞` is modelled explicitly where the code uses it (default bounds). C++
  integer division of signed values is `Int.tdiv` (`/` on `Nat` when the
  operands are known non-negative).
* Ids are list positions. Reading a vector out of range is undefined behaviour
  in C++; the model makes this visible either by an `Option` result or by an
  explicit in-range hypothesis.
* External code (HiGHS, treesearchsolver, columngenerationsolver, knapsack
  solver, nlohmann JSON text syntax, iostreams formatting of numbers, timers,
  `std::thread`) is not modelled: where an algorithm uses it, it is an
  arbitrary parameter ("oracle") with its assumed contract stated in the
  theorem.
* `std::set` is modelled as a sorted list with the given comparator,
  `std::sort` as a stable insertion/merge sort with the given comparator (the
  theorems only use that the result is a sorted permutation).

## 3. Plan per property

| id | modelled | method |
|----|----------|--------|
| C01, C02 | `strictly_*_profit/cost`, `equal_*` on ℚ (+∞ separately) | algebra; counter-example for both-negative values |
| C03 | `Resource`, `add_resource_consumption` | induction over call sequences, refinement to "last write" |
| C04, C05 | `SolutionPool` over an abstract solution type with `operator<` | invariant over add sequences; C05: counter-example (non-transitive Default comparison) |
| C06, C07 | `group_identical_bins`, `enforce_bin_type_order` on the 1D solution | fold induction; C06's profit part false with penalties × copies: counter-example |
| C08 | `operator>>`, `operator<<` tables | case analysis, for every string |
| C09–C13 | `Solution::update_indicators`, append operations | refinement: state after any op sequence = closed-form sums / declarative constraints |
| C14 | certificate rows | round trip |
| C15 | JSON document as a tree of fields | round trip; counter-example for precedences/fixed items |
| C16, C17 | `InstanceBuilder` operations and `build` | induction over op sequences |
| C18 | `Solution::operator<` | algebra |
| C19, C20 | `AlgorithmFormatter`, `Output` as a state machine | invariants over all update sequences |
| C21–C23 | `optimize_trivial_bound` | counting arguments over all packings |
| C24–C26 | `dual_feasible_functions.cpp` (1D) | super-additivity proofs, exchange argument |
| C27 | binary splitting in `optimize_dynamic_programming` | induction |
| C28–C30 | `BranchingScheme` (1D) | invariant over reachable nodes |
| C31–C34 | `column_generation.hpp` combinatorial parts | counting, greedy exchange, loop invariant with oracle |
| C35, C36 | SVC / dichotomic search loops with oracle | loop invariants |
| C37, C38 | per-algorithm outputs replay; thread pool | permutation invariance / all schedules |
| C39–C41 | rectangle DFF, cuts, conservative scales | interval-graph colouring argument + 1D super-additivity |
| C42 | rectangle flipper | involution lemma |
| C43 | power-of-two helpers | induction; counter-example at exact powers |
| C44 | `add_bin` with copies, `update_indicators` (1D) | induction on the copies; counter-example with penalties |
| C45 | `strictly_*` on negative values | counter-example for every pair of negatives |
| C46 | `operator<<`/`>>` of `OptimizationMode` | case analysis, negation |
| C47 | `InstanceBuilder::build` (1D) | invariant over call sequences; three counter-examples |
| C48 | positions in `Solution::add_item` (1D) | invariant over call sequences |
| C49 | pricing overcost of `column_generation.hpp` | summation over bins; counter-example |
| C50 | knapsack bound of the rectangle dual feasible functions | as C39; counter-example with a negative profit |
| C51 | rectangle `InstanceBuilder` | induction over call sequences; counter-examples |
| C52–C54 | rectangle `Solution`, `SolutionBuilder`, `operator<` | refinement to sums over the listed bins; order laws; counter-examples |
| C55–C58 | rectangle `BranchingScheme` (root, insertions, child, to_solution), flipping | invariant over reachable nodes (skyline = upper envelope), simulation between the node and the exported solution |
| C59 | rectangle `BranchingScheme::better` | values of nodes = values of solutions (C58) |
| C60 | rectangle `BranchingScheme::bound` | area argument along descendants; counter-examples |
| C61 | rectangle `BranchingScheme::dominates` | merge of two skylines by induction; counter-example |
| C62 | `rectangle/block.cpp` compute_blocks | invariant of the queue and the result; fuel bound by the finitely many keys |
| C63 | compute_max_reachable_lengths | induction over copies; pushing items left and down; counter-example with defects |
| C64 | `tree_search_maximal_spaces`: nodes, cuts, export | invariant over reached nodes with arbitrary fitness: spaces are free and cover all free rectangles |
| C65 | better, bound, dominates of the same scheme | profits by numbers of copies; counter-examples by closed lists of nodes |
| C66 | greedy completion | coverage of free rectangles; area argument inside blocks; counter-examples |
| C67 | `rectangleguillotine/solution_builder.cpp`, staging of `solution.cpp` | invariant over calls: the tree of nodes with its open path is a partial cutting pattern; closing it gives a `Cuts` derivation |
| C68 | the same calls | exact effect of `add_node` on the tree; invariant over calls |
| C69 | `update_indicators` of guillotine solutions | one step per bin: the indicators are those of the bins done so far; induction over `build` |
| C70 | the same, with the vectors it reads | case analysis of one step under table lengths; each flag as a condition on the pieces |
| C71 | stages of bins | fold over the nodes as maximum of cut depths; with C67 |
| C72 | `operator<` of guillotine solutions | case analysis of objectives; with C69 |
| C73 | append_bin, append_bins, append_empty_bin | inductive predicate of assembled solutions; sums and conditions do not see the change of a residual into waste |
| C74 | the guillotine instance builder and `build` | reachability invariant of the instance under construction; loop invariants of `build`; success as a case analysis of each phase |
| C75 | `build_stacks` | invariant of the filling loop: each slice holds the copies of its stack among the item types visited |
| C76 | the parameters of the guillotine builder | the table is large enough after a call that sets the stages, and every other call keeps it so; names by cases on the four characters |
| C77 | the copying overloads of the guillotine builder | exact effect of each call; induction over the copied types |
| C78 | `compute_dp` | a cell is the maximum of its candidates once the smaller cells are final; induction over patterns, separate specification in `Spec/GuillotinePattern` |
| C79 | `compute_rdp` | same, with completions of a box in place of patterns; a box that occurs in a pattern has a completion |
| C80 | the block search of `tree_search_hypergraph.cpp` | invariant: every block is built from returned blocks; a built block is a pattern; finitely many keys |
| C81 | same, with the bucket queue (exact logarithm) | invariant: every seed and every combination of returned blocks is not good enough, seen, or waiting; induction over patterns |
| C82 | the rebuilding of blocks with the solution builder | induction over built blocks: a leaf of the tree that contains the block is filled with its items; every node opened or given children has positive sides |
| C83 | `tree_search_hypergraph_infinite_copies.cpp`, before the stages are minimised | a positive entry is an item or a cut of entries; induction on the sides of the box, at most one cut level is passed through |
| C84–C86 | box `Solution`, `SolutionBuilder`, `operator<` | refinement to sums over the listed bins; order laws; counter-examples |
| C87 | the box instance builder and `build` | reachability invariant of the instance under construction; loop invariants of `build`; success as a case analysis of each phase |
| C88 | the calls of the four builders that change all types | end to end through `build` with the preservation theorems; counting of the copies in a row |
| C89 | `box/dual_feasible_functions.cpp` | two-level projection (columns over a point of the plane, then C39's interval argument) with the one-dimensional super-additivity; minimum over the rotations |
| C90 | `boxstacks/solution.cpp`: `update_indicators`, `append_*`, `solution_builder.cpp` | invariant relating every running total to the list of bins, preserved by each call; loop lemmas for stacks and items; successes and the undefined read of `build` with two bins |
| C91 | same file: `feasible_*`, `compute_*_violation`; `SemiTrailerTruckData::compute_axle_weights` | feasibility flag unfolded on the invariant; axle weights shown to be the unique solution of the balance of moments |
| C92 | `boxstacks/solution.cpp`: `operator<` | case analysis per objective, then the order and pool lemmas |
| C93 | `boxstacks/solution.cpp`: `check_stack` | invariant of the loop on prefixes of the pile, monotonicity in the prefix |
| C94 | The four instance builders, plain calls (`Spec/Describe.lean` and one spec file per problem) | A description is a list of calls; `lastGiven`/`allGiven` read the values given for one attribute. Invariant on the history: type `i` is the fold of the calls that concern it (`Lemmas/Describe.lean`); then one projection per attribute. Acceptance is a case analysis of one call. |
| C95 | `box/instance_flipper.cpp` | `Spec/BoxFlip.lean` says what exchanging two axes means for sizes, rotations, types and packings; the flipped builder is computed in closed form (`flip_eq`), then the consistency lemmas of the builder give the totals; validity of packings is transported by the exchange, which is its own inverse |
| C96–C98 | `box/tree_search.cpp`, branching scheme | nodes as lists of placed items plus the covered face of the last bin; `Spec/BoxTree.lean` says which nodes any search reaches; an invariant shows that the uncovered items tile the face of the last bin and lie on top of everything below them, so a new item on top overlaps nothing; export is transported by the flipper lemmas of C95 |
| C99, C100 | `box/tree_search.cpp` `better`, `bound`; `tree_search.hpp` `dominates` | the volume below the uncovered items plus the previous bins never decreases along a path by less than the item placed, which bounds every leaf below a node; dominance by reading the uncovered items as the end of the items on each line (`Spec.blockedUpTo`) |
| C101 | `box/block.cpp` compute_blocks | invariant of the queue and the result, stated along each axis; fuel bound by the finitely many keys |
| C102 | `box/block.cpp` compute_max_reachable_lengths | induction over copies; pushing items towards the origin along each axis in turn |
| C103, C104, C105 | `box/tree_search_maximal_spaces`: nodes, cuts, export, comparison, greedy completion | as C64–C66 with six cuts per space; volume argument inside blocks; the incompleteness by a closed list of all nodes of a pinwheel-like instance |
| C106, C107, C108, C109, C110 | `rectangle/reduction.cpp` in full: enlargement of wide and tall items, groups of both-big items, full bins, perfect pairs, shrunk bins, the reduced instance, the translation back, and its use in `optimize`; the solver, the timer and `std::sort` are parameters | invariant: the working item table has a packing in k − dedicated bins; geometric exchange steps (push left, drop, capture); counterexamples by evaluation |
| C111, C112 | `rectangleguillotine/instance_flipper.cpp` in full, through the models of the instance builder and the solution builder | the flipped builder is reached by calls, so the theorems on `build` apply; invariant: the nodes of a bin are a sequence of cuts that the solution builder can replay, and replaying them with the axes exchanged keeps a one-to-one relation between the nodes; each constraint is then mirrored |
| C113 | the tables of predecessors of `box/tree_search.cpp` and `rectangle/tree_search.cpp` and their use in `insertions` | meaning of the tables row by row; the minimum of a lexicographic rank is never withheld |
| C114 | `Block`, `compute_blocks` and `valid_copies` of the guillotine problem (the blocks of `tree_search_maximal_spaces.cpp`) | invariant of the queue and of the list: each block carries a cutting pattern; measure on the queue for termination |
| C115 | the states of `tree_search_maximal_spaces.cpp`: `root`, `insertions`, `best_insertion`, `apply_insertion`, greedy completion, `leaf`, `bound` | invariant: whatever the unused rectangles are cut into, the whole bin can be cut into it and the items of the state (patterns with holes) |
| C116 | `to_solution` of `tree_search_maximal_spaces.cpp` with `place_block`, `place_simple_block` and the replay with placeholders | invariant of the replay: for all calls that fill the unused rectangles, the marked calls with these put in for the marks fill the bin with the items of the state and theirs; blocks by strong induction on their id |
| C117 | `build_guillotine_solutions`, `build_guillotine_solution` of `post_process.cpp` with `find_groups`, `build_region`, `try_build` | soundness by induction on the call stack, through the solution builder; completeness by induction on the number of stages: a group that no cut separates lies in one strip of any pattern |
| C118 | `minimize_number_of_stages` of `post_process.cpp` with `append_bin` | the places survive the renaming of `append_bin`; C117 for every bin; the pattern of a built bin (C67) feeds the completeness of C117 |
| C119 | `sort_subplates` of `post_process.cpp` with `mul_less` on 64-bit words | the two-word product is the product; the comparison is the lexicographic order of `worth`; a built bin is cut as its nodes say, so that its parts, in any order, fit again; the calls of `replay_group` succeed by induction over the tree and list the items in preorder |
| C120 | the template `group_identical_bins` of `common.hpp`, instantiated for rectangle, box, boxstacks and guillotine solutions | the groups are the fold of one insertion, which keeps every sum that is additive in the copies; its keys are the list without its repetitions |
| C121 | the loop of `sequential_feasibility.cpp` for guillotine instances: the first bound, the feasibility problem as calls of the instance builder, the transfer of the answer, the next bound; the solver is an arbitrary function | the bins of the problem fit into those of the instance, so the pattern of an answer stays valid; the bounds decrease lexicographically |

## 4. Disagreements between the properties and the unchanged code

Each line is a theorem about the unchanged model (the witness is in the proof).

| id | what the code does | theorem |
|----|--------------------|---------|
| C05 | the Default comparison of 1D solutions is cyclic, so the best solution may get worse | `default_objective_cycles`, `default_objective_regresses` |
| C06 | grouping identical bins changes the reported length and the profit with penalties | `group_changes_length`, `group_changes_profit` |
| C07 | bins beyond the available copies are dropped with their items | `enforce_order_drops_items` |
| C11 | `feasible()` ignores bin copies, minimum bin copies and the bin order; the order flag is never reset | `feasible_ignores_bin_limits`, `feasible_ignores_bin_copies_min`, `order_flag_sticky` |
| C14 | an item starting at −1 is written but not re-readable | `certificate_not_reread` |
| C15 | precedences are written to JSON and never read; some written instances cannot be read | `json_loses_precedences`, `json_not_reread` |
| C17 | copying a bin type loses copies_min, and the order of the setters matters | `copy_loses_copies_min`, `copy_order_matters` |
| C20 | for Knapsack an infeasible empty solution is reported as optimal | `knapsack_optimal_infeasible` |
| C22 | trivial knapsack bound wrong with full nesting, foreign nesting, negative profit | `trivial_knapsack_bound_*` |
| C23 | trivial variable-sized bound wrong with minimum copies or an interrupted knapsack | `trivial_variable_sized_bound_*` |
| C24 | division by zero for an item entirely covered by nesting | `dff_zero_length_undefined` |
| C26, C50 | profit bound below the optimum when a profit is negative | `dff_knapsack_bound_negative_profit`, `rect_dff_knapsack_negative_profit` |
| C27 | dynamic programming bound ignores penalties | `dp_bound_with_penalties` |
| C28 | the resource tolerance differs between search and solution; stackability 0: logic_error | `tolerance_logic_error`, `stackability_logic_error` |
| C29 | pruning loses optima: nesting, Default, negative profit, Feasibility with penalties | `bound_unsafe_*` |
| C30 | dominance ignores weight, stackability, weight after, penalties, varying rates | `dominance_unsafe_*` |
| C33 | maximum number of bins wrong with negative costs, empty mandatory bins | `maximum_number_of_bins_*` |
| C34 | the feasibility callback is not passed to the sub-instances | `sequential_ignores_callback` |
| C35 | sequential value correction throws for two mandatory copies; gives up on a useless mandatory bin | `svc_throws`, `svc_knapsack_instance_fails`, `svc_gives_up_on_mandatory_bin` |
| C36 | dichotomic search throws, ends in an undefined conversion, drops large bins, ignores mandatory space | `dichotomic_throws`, `dichotomic_tight`, `dichotomic_drops_large_bins`, `dichotomic_ignores_mandatory_space` |
| C37 | an interruption makes the deterministic mode depend on timing | `deterministic_stop_matters` |
| C38 | a throwing user callback leaves the mutex locked | `callback_exception_deadlock`, `locked_forever` |
| C39 | 0/0 converted to an integer; bound 1 with nothing to pack | `rect_dff_undefined_conversion`, `rect_dff_nothing_to_pack` |
| C41 | the tolerance of the LP solver exceeds the subtracted tolerance: bound 22 for 21 bins | `scales_tolerance_unsound` |
| C42 | flipping does not exchange OpenDimensionX, loses copies_min, eligibility, callback; may throw | `flip_keeps_openDimensionX`, `flip_loses_copies_min`, `flip_loses_eligibility`, `flip_may_throw` |
| C43 | the power-of-two helpers are off at exact powers; largest(0) does not end | `largestPowerOfTwo_not_largest`, `smallestPowerOfTwo_not_smallest`, `largestPowerOfTwo_zero_diverges` |
| C44 | penalties are not multiplied by the copies of a bin | `copies_do_not_scale_penalties` |
| C45 | tolerant comparison is inverted for negative values | `profit_greater_negative_inverted`, `cost_lesser_negative_wrong` |
| C46 | printed optimization modes are not parsable | `optimizationMode_not_reparsed` |
| C47, C51 | negative copies, negative lengths, zero-width bins, too few bin copies and defects outside bins are accepted | `build_*` |
| C49 | a knapsack answer without column is ignored | `overcost_invalid_without_column` |
| C52 | negative waste with an empty last bin; axle overweights of the last item only | `empty_last_bin_negative_waste`, `overweight_forgotten` |
| C53 | rectangle `feasible()` ignores geometry; the callback is not asked for the empty solution | `feasible_ignores_geometry`, `feasible_empty_ignores_callback` |
| C54 | rectangle Default comparison is cyclic; leftovers with an empty last bin | `default_objective_cycles`, `empty_bin_leftover_ignored` |
| C55 | eligibility is lost in direction Y; fixed items skip the resource check | `ineligible_item_packed`, `fixed_items_break_resource` |
| C56 | IncreasingX is tested before the shift caused by a defect | `increasingX_broken` |
| C57 | an open dimension with the unloading constraint of the other axis throws | `openDimension_throws` |
| C60 | pruning loses optima: extra-bin guess, OpenDimensionY, negative profit | `optimum_dropped`, `openDimensionY_dropped`, `knapsack_dropped` |
| C61 | dominance ignores the weight in the last bin | `dominance_drops` |
| C63 | restricting a bin to attainable lengths is wrong with defects | `clip_defects` |
| C64 | the search over maximal spaces ignores hard resources and eligibility; no bin is undefined behaviour | `spaces_break_resource`, `spaces_ineligible_packed`, `spaces_no_bin` |
| C65 | dominance only compares numbers of copies and a greedy value; negative profits; items without profit | `spaces_dominance_loses`, `spaces_bound_negative_profit`, `spaces_feasibility_not_better` |
| C66 | the search misses packings (weights, defects, and arrangements in which an item must stay out of the space it is offered) but reports infeasibility, or a bound, when it ends; waste in blocks is not used | `spaces_search_incomplete`, `spaces_weight_blocks`, `spaces_defect_blocks`, `spaces_waste_not_maximal` |
| C67 | oriented items accepted rotated; orientation `any` cuts horizontally at every depth; a hard right trim with a soft top trim lists overlapping trims | `oriented_item_rotated`, `any_orientation_cuts_horizontally`, `trims_overlap` |
| C68 | a rejected `add_node` changes the builder | `rejected_add_node_changes_builder` |
| C69 | an item set on an untrimmed plate is not counted; penalties and residuals ignore copies; soft trims make waste negative | `item_on_plate_not_counted`, `penalty_ignores_copies`, `residual_ignores_copies`, `waste_negative`, `items_in_soft_trim` |
| C70 | copies of bins are not checked; an item on a whole trimmed plate is not checked against defects; too small waste ends the process; no cutting costs is undefined behaviour | `too_many_bins_feasible`, `item_on_defect_feasible`, `small_waste_ends_process`, `no_cutting_costs_ub`, `empty_ignores_callback` |
| C71 | hard trims change the number of stages; Roadef 2018 admits three items | `trims_change_stages`, `roadef_three_items` |
| C73 | the cutting cost is wrong after an append; bins with several copies cannot be appended | `append_bin_cutting_cost`, `append_copies_ub`, `append_empty_copies_ub` |
| C74 | zero item sides and consumptions of missing item types are undefined behaviour; trims, defects and minima of bins unchecked | `instance_zero_side_undefined`, `instance_consumption_undefined`, `instance_bin_copies_min`, `instance_trims_too_large`, `instance_defect_outside` |
| C75 | negative copies corrupt the stacks or throw `length_error` | `instance_negative_copies_stacks`, `instance_negative_copies_throws` |
| C76 | no cutting cost can be set with the default parameters; names starting with `U` or a letter are accepted; bins resized below their trims | `parameters_default_costs`, `parameters_unlimited_garbage`, `parameters_stages_not_a_digit`, `parameters_infinite_trims` |
| C77 | minima and parameters are not copied; some built instances cannot be copied | `copy_loses_copies_min`, `copy_loses_parameters`, `copy_rejected` |
| C78 | a cut whose far side is lost in the thickness of the cut is not considered, so larger boxes may have smaller entries | `dp_misses_lost_cut`, `dp_not_monotone`, `lost_cut_is_a_solution` |
| C81 | with thick cuts the search misses patterns, even a single item | `thick_search_misses` |
| C82 | rebuilding throws with a horizontal first cut on a wide plate, and with a soft trim at the top | `horizontal_rebuild_throws`, `soft_rebuild_throws` |
| C83 | the same two exceptions; the copies of the items are ignored | `dp_horizontal_rebuild_throws`, `dp_soft_rebuild_throws`, `dp_ignores_copies` |
| C84 | after `append_bin` the height of an earlier bin is kept (waste and leftover too); stacks are never counted; empty last bin; penalties of copies | `append_keeps_old_height`, `stacks_not_counted`, `empty_last_bin_negative_waste`, `copies_do_not_scale_penalties` |
| C85 | `feasible()` of box solutions ignores overlaps, the bin's sides, the weight and the bin copies | `feasible_ignores_geometry`, `feasible_empty_ignores_callback` |
| C86 | comparing box solutions throws under variable-sized bin packing; wrong preference after `append_bins`; Default is cyclic | `variableSized_comparison_throws`, `appended_solution_misjudged`, `default_objective_cycles`, `empty_bin_leftover_ignored` |
| C87 | zero item sides and consumptions of missing item types are undefined behaviour; `set_item_types_profits_auto` makes every profit 0; default costs are floor areas, unweighted costs volumes; an open z dimension is not checked; minima of bins unchecked | `instance_zero_side_undefined`, `instance_consumption_undefined`, `instance_profits_auto`, `instance_default_cost`, `instance_open_dimension_z`, `instance_bin_copies_min`, `instance_negative_copies`, `instance_infinite_too_early` |
| C88 | `set_item_types_infinite_copies` before the bin types are added gives one copy | `bulk_infinite_too_early` |
| C89 | division by zero whenever a side of the bin has length 1; profit bound below the optimum when a profit is negative | `dff_side_one_undefined`, `dff_knapsack_negative_profit` |
| C90 | `SolutionBuilder::build` with two bins or more reads weights of later bins before they are computed (undefined behaviour unless the first bin violates its limits or no group is checked) | `Stacks.builder_two_bins_undefined`, `Stacks.builder_no_feasible_pair` |
| C90 | waste over-reported when the leftover lies along y (`(yi - y_max_ * xi)`); negative waste when the last bin is empty | `Stacks.waste_overreported`, `Stacks.empty_last_bin_negative_waste` |
| C91 | `feasible()` ignores geometry, height, density, stackability, weight above and bin copies; callback not asked about the empty solution | `Stacks.feasible_ignores_geometry`, `Stacks.feasible_empty_ignores_callback` |
| C92 | leftovers: worse solution preferred, number of bins not compared; Default cycles; VariableSizedBinPacking and OpenDimensionZ throw | `Stacks.leftovers_misjudged`, `Stacks.leftovers_prefers_more_bins`, `Stacks.default_objective_cycles`, `Stacks.variableSized_comparison_throws` |
| C93 | `check_stack` adds the nesting height (`zj -= - nesting_height`) and rejects valid piles; stackability ids not compared | `Stacks.checkStack_rejects_nesting`, `Stacks.checkStack_ignores_stackabilityId` |
| C95 | flipping drops resources, minimum copies and the callback; keeps OpenDimensionX when x is exchanged; fails for an OpenDimensionZ instance with several bins | `Box.flip_loses_resources`, `Box.flip_loses_copies_min`, `Box.flip_keeps_openDimensionX`, `Box.openDimensionZ_not_flippable` |
| C96, C98 | in directions Y and Z the tree search ignores resources and penalties (the flipped instance has none); an infeasible result of an exhausted search is then published as a proof of infeasibility | `Box.TreeSearch.resource_exceeded`, `Box.TreeSearch.penalties_forgotten` |
| C97 | comparing nodes throws for OpenDimensionZ; the set-up throws for OpenDimensionZ with two bins; an item is withheld until every better item of its shape is packed, even when that is impossible | `Box.TreeSearch.openDimensionZ_throws`, `…constructor_throws`, `…predecessor_blocks` |
| C99 | the box tree search drops optimal solutions: space too narrow for the smallest item is counted as waste though a larger item placed beside it covers it; the bound for OpenDimensionY divides by the wrong face; leftovers are ranked and pruned by waste; Knapsack ignores negative profits | `Box.TreeSearch.optimum_dropped`, `…openDimensionY_dropped`, `…leftovers_dropped`, `…knapsack_dropped` |
| C100 | the dominance test ignores the weight in the last bin | `Box.TreeSearch.dominance_drops` |
| C103 | the search over maximal spaces of boxes ignores hard resources and the callback; no bin is undefined behaviour | `spaces_break_resource`, `spaces_break_callback`, `spaces_no_bin` |
| C104 | as C65, for boxes | `spaces_dominance_loses`, `spaces_bound_negative_profit`, `spaces_feasibility_not_better` |
| C105 | as C66, for boxes | `spaces_search_incomplete`, `spaces_weight_blocks`, `spaces_waste_not_maximal` |
| C106, C107 | an item larger than half of the bin in one orientation may be turned: two such items can share a bin, but a bin is set aside for each, and the reported bound is too large | `reduction_bound_unsound` |
| C108 | for the same reason a feasible instance is reported as infeasible | `feasible_declared_infeasible` |
| C109 | companions are recorded only for the bins the check solution uses, but one entry per copy is read; `copies` is decreased below `copies_min` before `copies_min` is | `reduction_undefined`, `unreduce_undefined`, `reduction_throws` |
| C110 | eligibility is ignored when items are absorbed | `reduction_ignores_eligibility` |
| C110 | a check solution with two (turned) copies of one big item in a bin is accepted as a group, but only one copy is taken from the instance: the translated solution packs the item more often than it has copies | `unreduce_overpacks` |
| C111, C112 | flipping drops the minimum numbers of copies and the callback: a knapsack solution that is feasible for the flipped instance is translated back into an infeasible one; an item set on the whole bin is lost in the translation | `FlipEx.unflip_minimum_lost`, `FlipEx.unflip_callback_lost`, `FlipEx.unflip_whole_bin_lost` |
| C116 | an excess of at most the thickness of a cut is treated as no excess when a block is placed: the item is put in the larger place, and the builder throws (10 × 10 beside 10 × 9 with a thickness of 2 and at least four item types; already the root throws); the automatic selection does not exclude this | `SpaceSolutionEx.gap_throws` |
| C116 | trims are ignored: a hard trim makes the conversion throw for an item as large as the bin | `SpaceSolutionEx.trim_throws` |
| C117 | `build_guillotine_solutions` never returns (stack overflow) on placements that no guillotine cuts separate, such as a pinwheel in a bin of 3 × 3; the documentation promises an empty vector | `PostProcessEx.pinwheel_never_returns`, `PostProcessEx.pinwheel_not_cut` |
| C117 | with thick cuts it never returns when an item lies at most the thickness of a cut from the side of its region: no node closes the gap, and the recursion repeats the same region | `PostProcessEx.gap_never_returns` |
| C118 | with thick cuts `minimize_number_of_stages` never returns on some feasible solutions: where two cuts lie next to each other the gap before the next item is exactly the thickness of a cut wider than expected, and `build_region` repeats the same region | `MinimizeEx.never_returns`, `MinimizeEx.thick_feasible` |
| C119 | `sort_subplates`, which the command line runs on request, turns feasible solutions into infeasible ones: it moves items onto defects and against the order of their stack | `SortSubplatesEx.sort_onto_defect`, `SortSubplatesEx.sort_against_stack` |
| C119 | an item set on the part of a bin inside its hard trims, without a cut, is lost by `sort_subplates`: only the children of that node are cut again | `SortSubplatesEx.sort_loses_item` |
| C120 | `group_identical_bins` changes indicators: the extents and with them the waste (another bin becomes the last one), the profit with a penalized resource (the penalty of a listed bin is not multiplied by its copies), and the violation of weight constraints | `Rect.group_changes_extent`, `Rect.group_changes_profit`, `Box.group_changes_extent`, `Box.group_changes_profit`, `Stacks.group_changes_extent`, `Stacks.group_changes_violation` |
| C120 | for guillotine solutions also the width of the last plate changes; a plate that ends in the residual stays apart from plates with the same cuts and items; an item set on the root of a plate is forgotten, after which the plate is listed twice | `Guil.GroupEx.group_changes_width`, `Guil.GroupEx.group_keeps_residual_apart`, `Guil.GroupEx.group_lists_plate_twice` |
| C121 | `sequential_feasibility` drops trims and defects: reported solutions count as feasible with items in hard trims; with leftovers all bins get the width of the last one, so that items stick out of narrower bins, and a solution may be worse than one before | `Guil.sequential_trims_ignored`, `Guil.sequential_widths_mixed`, `Guil.sequential_leftovers_worse` |
| C121 | the first bound is twice the area of the items, so that an instance with a long item gets no solution; without items bin packing never ends, leftovers read before the bins, and an open dimension throws | `Guil.sequential_misses`, `Guil.sequential_no_items_forever`, `Guil.sequential_no_items` |

## 5. What is modelled and what is not

Modelled: `include/packingsolver/algorithms/common.hpp` (names, comparisons,
helpers), resources, solution pool and output formatter, the generic
`dichotomic_search.hpp`, `sequential_value_correction.hpp`,
`column_generation.hpp` (cuts, bin cap, overcost), the thread orchestration of
the optimize functions; for one-dimensional instances the builder, JSON,
certificate, solution, comparison, post-processing, trivial bound, dual
feasible functions, dynamic programming, tree search and sequential algorithm;
for rectangle instances the builder, solution, comparison, flipper, dual
feasible functions, cuts, conservative scales, the tree search, the blocks and
the tree search over maximal spaces (the fitness of insertions, a product of
real powers, is an arbitrary function of node and block; counter-examples that
need a particular fitness use the profit of the block); for box
instances the instance builder, the solution, the solution builder, the comparison, the dual
feasible functions, the flipper, the branching scheme of the tree search, the blocks and the
search over maximal spaces; for rectangles also the reduction of `reduction.cpp`; for guillotine
instances the instance and its builder, the solution (indicators, appending, comparison) and
the solution builder, the two dynamic programs, the block search of
`tree_search_hypergraph.cpp`, the search with unlimited copies, the flipper, and the blocks and the
search over unused rectangles (`block.cpp`, `tree_search_maximal_spaces.cpp`; the beam search that
drives it and the order of insertions are not), and the rebuilding of bins from the places of their
items, the reduction of stages and the sorting of subplates (`post_process.cpp`); for rectangle, box,
boxstacks and guillotine solutions the grouping of identical bins; the search by guillotine feasibility
problems (`sequential_feasibility.cpp`, with products by 0.99 taken exactly). A call of `exit` is the outcome `Err.exit`.

Not modelled: the external libraries (section 2), the packing problem types
irregular, boxstacks, box and rectangleguillotine beyond what section 3 lists,
MILP models, Benders decomposition, the drawing and printing code, command
line parsing, and file input/output.
