{"claims": [
 {"property": "C01", "status": "proved", "theorems": ["PackingSolver.strictlyGreaterProfit_iff", "PackingSolver.profit_greater_imp_gt", "PackingSolver.profit_greater_irrefl", "PackingSolver.profit_greater_asymm", "PackingSolver.profit_greater_trans", "PackingSolver.profit_lesser_iff", "PackingSolver.profit_equal_iff"], "note": "Values are exact rationals (rounding not modelled); for non-negative profits, as stated."},
 {"property": "C02", "status": "proved", "theorems": ["PackingSolver.strictlyGreaterCost_iff", "PackingSolver.cost_lesser_imp_lt", "PackingSolver.cost_lesser_irrefl", "PackingSolver.cost_lesser_asymm", "PackingSolver.cost_lesser_trans", "PackingSolver.cost_equal_iff"], "note": "Exact rationals, positive costs, as stated."},
 {"property": "C03", "status": "proved", "theorems": ["PackingSolver.consumption_schedule_roundtrip", "PackingSolver.consumption_read_after_write", "PackingSolver.consumption_write_other"], "note": "Against Spec/Resource, over all call sequences."},
 {"property": "C04", "status": "proved", "theorems": ["PackingSolver.pool_add_code", "PackingSolver.pool_best_size_one", "PackingSolver.pool_add_code_size_one", "PackingSolver.pool_best_any_size", "PackingSolver.OneDim.best_solution_correct", "PackingSolver.OneDim.best_solution_any_size"], "note": "Generic pool over any strict order, instantiated with the one-dimensional comparison; for tolerance-based objectives the pool size is 1 as in the code."},
 {"property": "C05", "status": "partial", "theorems": ["PackingSolver.OneDim.default_objective_cycles", "PackingSolver.OneDim.default_objective_regresses", "PackingSolver.OneDim.default_objective_partial"], "note": "The Default objective comparison is not transitive: proved cyclic on a concrete instance; proved transitive when profits are equal or clearly different."},
 {"property": "C06", "status": "partial", "theorems": ["PackingSolver.OneDim.group_identical_bins_contents", "PackingSolver.OneDim.group_identical_bins_partial", "PackingSolver.OneDim.group_changes_length", "PackingSolver.OneDim.group_changes_profit"], "note": "Everything but the reported length (and waste) and the profit with penalized resources is kept, for every reachable solution; the two gaps are false of the code and proved with witnesses."},
 {"property": "C07", "status": "proved", "theorems": ["PackingSolver.OneDim.enforce_bin_type_order_correct", "PackingSolver.OneDim.enforce_order_drops_items"], "note": "For every reachable solution of an instance with non-negative bin copies; enforce_order_drops_items shows the hypothesis on used bins is needed."},
 {"property": "C08", "status": "proved", "theorems": ["PackingSolver.objective_roundtrip", "PackingSolver.objective_accepts_iff", "PackingSolver.problemType_roundtrip", "PackingSolver.problemType_accepts_iff", "PackingSolver.optimizationMode_accepts_iff"], "note": ""},
 {"property": "C09", "status": "proved", "theorems": ["PackingSolver.OneDim.indicators_exact", "PackingSolver.OneDim.profit_exact"], "note": "For every state reachable through the public append/builder operations, against Spec/OneDim sums over the listed bins."},
 {"property": "C10", "status": "proved", "theorems": ["PackingSolver.OneDim.feasible_iff", "PackingSolver.OneDim.flags_exact"], "note": "Both directions, under non-negative resource capacities and positive bin copies; feasible_iff_needs_nonneg_capacity shows the capacity hypothesis is needed."},
 {"property": "C11", "status": "partial", "theorems": ["PackingSolver.OneDim.feasible_ignores_bin_limits", "PackingSolver.OneDim.feasible_ignores_bin_copies_min", "PackingSolver.OneDim.order_flag_sound_partial", "PackingSolver.OneDim.order_flag_other", "PackingSolver.OneDim.builder_order_flag_exact_partial", "PackingSolver.OneDim.order_flag_sticky"], "note": "False of the code: feasible() ignores the copies limit, the minimum copies and the bin type order (witness theorems). Proved instead: what the separate order flag means."},
 {"property": "C12", "status": "proved", "theorems": ["PackingSolver.OneDim.bin_order_irrelevant_totals", "PackingSolver.OneDim.bin_order_irrelevant_profit", "PackingSolver.OneDim.bin_order_irrelevant_feasible"], "note": ""},
 {"property": "C13", "status": "proved", "theorems": ["PackingSolver.OneDim.appendBins_packing", "PackingSolver.OneDim.appendBins_itemCopies", "PackingSolver.OneDim.appendBins_totals"], "note": ""},
 {"property": "C14", "status": "partial", "theorems": ["PackingSolver.OneDim.certificate_roundtrip_partial", "PackingSolver.OneDim.certificate_not_reread"], "note": "Round trip for every reachable solution whose certificate does not contain the value -1; the negation shows a feasible solution whose own certificate is rejected."},
 {"property": "C15", "status": "partial", "theorems": ["PackingSolver.OneDim.json_roundtrip_partial", "PackingSolver.OneDim.json_loses_precedences", "PackingSolver.OneDim.json_not_reread"], "note": "Round trip proved for every built instance whose bin copies are readable, except precedences (written, never read) and the feasibility callback; both gaps are proved with witnesses."},
 {"property": "C16", "status": "proved", "theorems": ["PackingSolver.OneDim.build_aggregates", "PackingSolver.OneDim.build_enough_copies", "PackingSolver.OneDim.build_copies_partial"], "note": "For every sequence of builder calls after which build succeeds, all derived data equal their definitions over the types (Spec/OneDimBuild). bin cost / number of bins are positions list; copies_min <= copies for item types is in build_copies_partial."},
 {"property": "C17", "status": "partial", "theorems": ["PackingSolver.OneDim.copy_subinstance_partial", "PackingSolver.OneDim.copy_built_subinstance_partial", "PackingSolver.OneDim.build_precedenceIds", "PackingSolver.OneDim.copy_loses_copies_min", "PackingSolver.OneDim.copy_order_matters"], "note": "Types copied in order, resource schedules and precedences included, form a sub-instance. The minimum number of copies is lost by the copy and the order of the calls matters, both shown by negations."},
 {"property": "C18", "status": "proved", "theorems": ["PackingSolver.OneDim.lt_asymm", "PackingSolver.OneDim.lt_irrefl", "PackingSolver.OneDim.lt_trans", "PackingSolver.OneDim.lt_prefers_feasible", "PackingSolver.OneDim.lt_iff_clearlyBetter", "PackingSolver.OneDim.lt_never_worse"], "note": "One-dimensional comparison, objectives with a single value."},
 {"property": "C19", "status": "proved", "theorems": ["PackingSolver.updates_monotone", "PackingSolver.updateBounds_applies", "PackingSolver.output_updateBounds", "PackingSolver.OneDim.output_monotone", "PackingSolver.OneDim.best_feasible_or_empty", "PackingSolver.bin_bound_infeasible"], "note": "All updates take a mutex, so an interleaving of threads is a sequence of updates."},
 {"property": "C20", "status": "partial", "theorems": ["PackingSolver.bounds_stay_valid", "PackingSolver.proven_optimal_sound", "PackingSolver.OneDim.proven_optimal_partial", "PackingSolver.OneDim.knapsack_optimal_infeasible"], "note": "Optimality proved for all objectives; for Knapsack the best solution may be the infeasible empty one (proved by witness); bin limits are not part of feasible() (C11)."},
 {"property": "C21", "status": "proved", "theorems": ["PackingSolver.OneDim.trivial_bin_packing_bound_valid", "PackingSolver.OneDim.trivial_bin_packing_update_valid"], "note": "The trivial bin packing bound never exceeds the number of bins of an admissible packing, for every instance, packing and nesting."},
 {"property": "C22", "status": "partial", "theorems": ["PackingSolver.OneDim.trivial_knapsack_bound_valid_partial", "PackingSolver.OneDim.trivial_knapsack_bound_full_nesting", "PackingSolver.OneDim.trivial_knapsack_bound_foreign_nesting", "PackingSolver.OneDim.trivial_knapsack_bound_negative_profit"], "note": "Valid for non-negative profits and non-negative reduced lengths of fitting items; the full statement is false of the code: three counterexamples are proved (item nested in full, bin that only other items fit, negative profit)."},
 {"property": "C23", "status": "partial", "theorems": ["PackingSolver.OneDim.trivial_variable_sized_bound_valid_partial", "PackingSolver.OneDim.trivial_variable_sized_bound_copies_min", "PackingSolver.OneDim.trivial_variable_sized_bound_early_stop"], "note": "Valid when no bin type has a minimum number of copies and the knapsack subproblem is solved to optimality; counterexamples are proved for both exceptions."},
 {"property": "C24", "status": "partial", "theorems": ["PackingSolver.OneDim.dff_bin_packing_bound_valid_partial", "PackingSolver.OneDim.dff_infeasible_valid_partial", "PackingSolver.OneDim.dff_zero_length_undefined"], "note": "Proved for every instance whose items are not entirely covered by nesting (positive reduced length), including that no exception is thrown; with a fully nested item the code divides by zero (dff_zero_length_undefined)."},
 {"property": "C25", "status": "proved", "theorems": ["PackingSolver.Dff.greedy_maximum_cardinality_optimal", "PackingSolver.Dff.greedy_maximum_cardinality_unsorted"], "note": "Upper bound over all selections and attained; the second theorem shows the sort is needed."},
 {"property": "C26", "status": "partial", "theorems": ["PackingSolver.OneDim.dff_knapsack_bound_valid_partial", "PackingSolver.OneDim.dff_knapsack_bound_negative_profit"], "note": "Proved for non-negative profits and nesting within other items' lengths; false with negative profits (dff_knapsack_bound_negative_profit)."},
 {"property": "C27", "status": "partial", "theorems": ["PackingSolver.OneDim.split_represents", "PackingSolver.OneDim.dp_selection_optimal", "PackingSolver.OneDim.dp_bound_valid_partial", "PackingSolver.OneDim.exact_knapsack_exists", "PackingSolver.OneDim.dp_bound_with_penalties"], "note": "Splitting and optimality of the selection proved in full; validity of the reported bound proved when no resource is penalized. With a penalized resource the bound is wrong (dp_bound_with_penalties)."},
 {"property": "C28", "status": "partial", "theorems": ["PackingSolver.OneDim.node_to_solution_partial", "PackingSolver.OneDim.node_matches_solution", "PackingSolver.OneDim.tolerance_logic_error", "PackingSolver.OneDim.stackability_logic_error"], "note": "Totals and absence of out-of-range reads for every node; success of to_solution and all constraints when data are integral with limits below 1e9 and stackability at least 1. Without these, two witnesses show to_solution raising logic_error. Missing: nothing provable, the full statement is false of the code."},
 {"property": "C29", "status": "partial", "theorems": ["PackingSolver.OneDim.bound_safe_packing_partial", "PackingSolver.OneDim.bound_safe_knapsack", "PackingSolver.OneDim.bound_safe_feasibility_partial", "PackingSolver.OneDim.bound_safe_default_partial", "PackingSolver.OneDim.bound_unsafe_nesting", "PackingSolver.OneDim.bound_unsafe_default", "PackingSolver.OneDim.bound_unsafe_negative_profit", "PackingSolver.OneDim.bound_unsafe_feasibility"], "note": "Safe for bin packing, variable-sized bin packing and leftovers without positive nesting, knapsack always, feasibility with non-negative profits and no penalties, default with non-negative data against a complete node. The four _unsafe_ theorems show the full statement is false of the code otherwise."},
 {"property": "C30", "status": "partial", "theorems": ["PackingSolver.OneDim.dominance_safe_partial", "PackingSolver.OneDim.dominance_unsafe_weight", "PackingSolver.OneDim.dominance_unsafe_stackability", "PackingSolver.OneDim.dominance_unsafe_weight_after", "PackingSolver.OneDim.dominance_unsafe_penalty", "PackingSolver.OneDim.dominance_unsafe_rate"], "note": "Safe with lengths, nesting, eligibility and hard resources of constant rate. The _unsafe_ theorems show that a dominating node can lose to the dominated one when weights, stackability, weight after, penalties or varying consumptions are present: the code ignores them."},
 {"property": "C31", "status": "proved", "theorems": ["PackingSolver.ColumnGeneration.subset_row_cut_valid", "PackingSolver.ColumnGeneration.subset_row_cut_needs_single_copies", "PackingSolver.ColumnGeneration.cutEqual_iff", "PackingSolver.ColumnGeneration.separated_cut_sound"], "note": "Every integer solution packing each of the three item types at most once satisfies the cut; the one-copy restriction is shown necessary."},
 {"property": "C32", "status": "proved", "theorems": ["PackingSolver.ColumnGeneration.violation_exact", "PackingSolver.ColumnGeneration.separated_cut_sound", "PackingSolver.ColumnGeneration.separated_cut_complete"], "note": "The computed violation is the exact one, returned cuts are violated and valid, and a violated cut is found whenever there is one (fewer than 10000 candidates). std::sort is any sort; hash maps and the set are modelled by their contents."},
 {"property": "C33", "status": "partial", "theorems": ["PackingSolver.ColumnGeneration.maximum_number_of_bins_upper_partial", "PackingSolver.ColumnGeneration.maximum_number_of_bins_attained_partial", "PackingSolver.ColumnGeneration.maximum_number_of_bins_negative_cost", "PackingSolver.ColumnGeneration.maximum_number_of_bins_empty_bins", "PackingSolver.ColumnGeneration.cached_calls_exact"], "note": "True maximum for non-negative costs and solutions without empty bins; proved false for negative costs and for mandatory bins left empty."},
 {"property": "C34", "status": "partial", "theorems": ["PackingSolver.OneDim.sequential_sub_instance", "PackingSolver.OneDim.infeasible_raises_bound", "PackingSolver.OneDim.sequential_bound_valid", "PackingSolver.OneDim.sequential_solution_admissible", "PackingSolver.OneDim.sequential_optimal_partial", "PackingSolver.OneDim.sequential_ignores_callback"], "note": "One-dimensional instances. The sub-instance for k bins asks exactly for a complete packing in the first k bins; the bound is valid for every starting point and every pattern of inconclusive answers; the reported solution is admissible; with conclusive answers it is optimal. Partial because the user's feasibility callback is not passed to the sub-instances (proved): with a callback the optimality claim fails. Fixed items are not modelled."},
 {"property": "C35", "status": "partial", "theorems": ["PackingSolver.Svc.svc_within_copies", "PackingSolver.Svc.svc_bins_from_answers", "PackingSolver.Svc.svc_bin_order", "PackingSolver.Svc.svc_terminates", "PackingSolver.Svc.svc_inner_loop_ends", "PackingSolver.Svc.svc_complete", "PackingSolver.Svc.svc_emits", "PackingSolver.Svc.svc_no_logic_error", "PackingSolver.Svc.svc_no_exception_partial", "PackingSolver.Svc.svc_throws", "PackingSolver.Svc.svc_knapsack_instance_fails", "PackingSolver.Svc.svc_gives_up_on_mandatory_bin", "PackingSolver.Svc.svc_best_ratio"], "note": "Proved for the template algorithm, for every instance and every behaviour of the sub-solver. Not true in full: with two or more mandatory copies of a bin type the algorithm throws (svc_throws, svc_knapsack_instance_fails), because set_bin_type_copies(1) is called before copies_min is reset; for variable-sized bin packing it gives up when a mandatory bin is useless (svc_gives_up_on_mandatory_bin)."},
 {"property": "C36", "status": "partial", "theorems": ["PackingSolver.Dichotomic.dichotomic_sub_instance", "PackingSolver.Dichotomic.dichotomic_within_copies", "PackingSolver.Dichotomic.dichotomic_bounds", "PackingSolver.Dichotomic.dichotomic_upper_bound", "PackingSolver.Dichotomic.dichotomic_terminates", "PackingSolver.Dichotomic.dichotomic_no_exception_partial", "PackingSolver.Dichotomic.dichotomic_tight", "PackingSolver.Dichotomic.dichotomic_throws", "PackingSolver.Dichotomic.dichotomic_drops_large_bins", "PackingSolver.Dichotomic.dichotomic_ignores_mandatory_space"], "note": "Availability, order of the waste bounds, meaning of the upper bound and termination proved for every instance and every behaviour of the sub-solvers. False in full: throws with 0 < remaining < copies_min copies (dichotomic_throws); ends in an undefined float-to-integer conversion on tight instances (dichotomic_tight); loses bins larger than the knapsack capacity (dichotomic_drops_large_bins); ignores the space of mandatory bins (dichotomic_ignores_mandatory_space). Keeping the best of the emitted solutions is the job of update_solution, see C04 and C19."},
 {"property": "C37", "status": "proved", "theorems": ["PackingSolver.Threads.deterministic_schedule_independent", "PackingSolver.Threads.deterministic_same_result", "PackingSolver.Threads.deterministic_stop_matters"], "note": "For every list of algorithms and every complete schedule in which no limit interrupts the run, the result is the same and equals the one of running each algorithm alone. deterministic_stop_matters shows that an interruption (time, memory, end boolean) does make the result depend on its moment, so the hypothesis is needed."},
 {"property": "C38", "status": "partial", "theorems": ["PackingSolver.Threads.exceptions_reach_caller", "PackingSolver.Threads.tasks_can_finish", "PackingSolver.Threads.locked_forever", "PackingSolver.Threads.callback_exception_deadlock", "PackingSolver.Threads.reports_reach_output", "PackingSolver.Threads.callback_iff_changed"], "note": "For every list of algorithms, every schedule, both modes, with interruptions: every algorithm runs exactly once, the exception of the last task that threw reaches the caller, none otherwise, and no deadlock. Needs that the user callback does not throw: if it throws, the mutex of the formatter stays locked and the optimization may never return (callback_exception_deadlock). reports_reach_output: the infeasibility, bound and solution of every reported output are taken into account by the final output; callback_iff_changed: the user callback is called exactly for the updates that change the output."},
 {"property": "C39", "status": "proved", "theorems": ["PackingSolver.Rect.rect_dff_bin_packing_bound_valid", "PackingSolver.Rect.rect_dff_infeasible_valid", "PackingSolver.Rect.rect_dff_terminates", "PackingSolver.Rect.rect_dff_undefined_conversion", "PackingSolver.Rect.rect_dff_nothing_to_pack"], "note": "Validity of the bin packing bound and of the infeasibility proof against an independent geometric specification (axis-aligned rectangles, pairwise separated, inside the bin), including the loop over modified instances. Termination within (number of bins + 1) passes and three nested calls. Counterexamples: an item larger than half the bin leads to an undefined conversion of 0/0; with nothing to pack the bound is 1 and an instance without bins is declared infeasible."},
 {"property": "C40", "status": "proved", "theorems": ["PackingSolver.Rect.rect_dff_cut_valid"], "note": "The cut is satisfied by every geometric packing of one bin within the copies, its coefficients are non-negative, and its violation is exactly the excess of the separated selection."},
 {"property": "C41", "status": "partial", "theorems": ["PackingSolver.Rect.scales_bound_valid", "PackingSolver.Rect.scales_bounds_valid_partial", "PackingSolver.Rect.scales_infeasible_valid_partial", "PackingSolver.Rect.scales_tolerance_unsound"], "note": "The bound of a pair of conservative scales is valid without condition. For the whole computation, validity is proved when m(W+H+1e-6) <= WH; without it the claim is false of the code: scales_tolerance_unsound exhibits 42 items that fit in 21 bins, with a reported bound of 22 from an LP solver accurate to 1e-7."},
 {"property": "C42", "status": "partial", "theorems": ["PackingSolver.Rect.flip_exchanges_axes", "PackingSolver.Rect.flip_derived", "PackingSolver.Rect.flip_binPacking_iff", "PackingSolver.Rect.flip_avoidsDefects_iff", "PackingSolver.Rect.flip_resourcesOk_iff", "PackingSolver.Rect.unflip_packing", "PackingSolver.Rect.unflip_accepts", "PackingSolver.Rect.unflip_totals", "PackingSolver.Rect.unflip_profit", "PackingSolver.Rect.unflip_feasible_partial", "PackingSolver.Rect.unflip_extents", "PackingSolver.Rect.flip_keeps_openDimensionX", "PackingSolver.Rect.flip_loses_copies_min", "PackingSolver.Rect.flip_loses_eligibility", "PackingSolver.Rect.flip_may_throw", "PackingSolver.Rect.flip_requires"], "note": "Geometry, defects, resources, totals, profit and extents proved for every built instance and every solution. The full claim is false: OpenDimensionX is not exchanged, minimum copies, eligibility and the callback are dropped, some instances cannot be flipped (witnesses proved)."},
 {"property": "C43", "status": "partial", "theorems": ["PackingSolver.largestPowerOfTwo_partial", "PackingSolver.smallestPowerOfTwo_partial", "PackingSolver.largestPowerOfTwo_not_largest", "PackingSolver.smallestPowerOfTwo_not_smallest", "PackingSolver.largestPowerOfTwo_zero_diverges"], "note": "False as stated at exact powers of two (witness theorems largestPowerOfTwo_not_largest, smallestPowerOfTwo_not_smallest); the partial theorems give the bracket that does hold."},
 {"property": "C44", "status": "partial", "theorems": ["PackingSolver.OneDim.copies_scale_profit_partial", "PackingSolver.OneDim.copies_do_not_scale_penalties"], "note": "Proved when no penalty is incurred; false with penalized resources (witness copies_do_not_scale_penalties): the penalty is subtracted once per listed bin."},
 {"property": "C45", "status": "partial", "theorems": ["PackingSolver.profit_greater_negative_inverted", "PackingSolver.profit_greater_negative_always_inverted", "PackingSolver.cost_lesser_negative_wrong"], "note": "False of the code (the tolerance factor is applied multiplicatively): negation proved; C01/C02 hold the non-negative part."},
 {"property": "C46", "status": "partial", "theorems": ["PackingSolver.optimizationMode_roundtrip_partial", "PackingSolver.optimizationMode_not_reparsed"], "note": "False of the code: \"Not anytime\u2026\" is printed but not parsable (negation proved); only Anytime round-trips."},
 {"property": "C47", "status": "partial", "theorems": ["PackingSolver.OneDim.build_copies_partial", "PackingSolver.OneDim.build_negative_copies", "PackingSolver.OneDim.build_negative_length", "PackingSolver.OneDim.build_bin_copies_min"], "note": "False of the code: item copies -1 and negative item lengths are accepted, and a bin type with unlimited copies may end with copies < copies_min (three witnesses proved). The part that holds for every history is build_copies_partial."},
 {"property": "C48", "status": "proved", "theorems": ["PackingSolver.OneDim.positions_exact", "PackingSolver.OneDim.items_do_not_overlap"], "note": "For every reachable solution."},
 {"property": "C49", "status": "partial", "theorems": ["PackingSolver.ColumnGeneration.overcost_valid_partial", "PackingSolver.ColumnGeneration.overcost_invalid_without_column"], "note": "Valid when every non-exhausted bin type returned at least one column; proved false when the knapsack solver returned only the empty solution, whose bound is ignored."},
 {"property": "C50", "status": "partial", "theorems": ["PackingSolver.Rect.rect_dff_knapsack_bound_valid_partial", "PackingSolver.Rect.rect_dff_knapsack_negative_profit"], "note": "Proved for non-negative profits. With a negative profit the claim is false of the code: rect_dff_knapsack_negative_profit gives a packing of profit 5 with a bound of 4."},
 {"property": "C51", "status": "partial", "theorems": ["PackingSolver.Rect.build_aggregates", "PackingSolver.Rect.build_sizes_partial", "PackingSolver.Rect.build_zero_side", "PackingSolver.Rect.build_iff", "PackingSolver.Rect.build_preserved", "PackingSolver.Rect.build_negative_copies", "PackingSolver.Rect.build_zero_width_bin", "PackingSolver.Rect.build_bin_copies_min", "PackingSolver.Rect.build_defect_outside"], "note": "Derived data: proved for all histories. Sizes: proved for item sides, minimum copies of items, open dimension; false for item copies (-1 stays), bin sides (0 after set_bin_types_infinite_x), bin copies below the minimum, defects outside the bin: negations proved."},
 {"property": "C52", "status": "partial", "theorems": ["PackingSolver.Rect.builder_packing", "PackingSolver.Rect.builder_rejects", "PackingSolver.Rect.builder_accepts", "PackingSolver.Rect.appendBins_packing", "PackingSolver.Rect.appendBin_packing", "PackingSolver.Rect.indicators_exact", "PackingSolver.Rect.fullWaste_exact", "PackingSolver.Rect.profit_exact", "PackingSolver.Rect.extents_exact_partial", "PackingSolver.Rect.copies_scale_profit_partial", "PackingSolver.Rect.empty_last_bin_negative_waste", "PackingSolver.Rect.copies_do_not_scale_penalties", "PackingSolver.Rect.overweight_forgotten"], "note": "All totals are proved exact. waste() is wrong when the last bin is empty, penalties are not scaled by bin copies and axle overweights are those of the last item only: negations are proved."},
 {"property": "C53", "status": "partial", "theorems": ["PackingSolver.Rect.feasible_iff_partial", "PackingSolver.Rect.feasible_empty", "PackingSolver.Rect.feasible_ignores_geometry", "PackingSolver.Rect.feasible_empty_ignores_callback"], "note": "feasible() is characterised exactly; it does not cover geometry, weight, defects, eligibility or bin limits (negation proved)."},
 {"property": "C54", "status": "partial", "theorems": ["PackingSolver.Rect.lt_asymm", "PackingSolver.Rect.lt_trans", "PackingSolver.Rect.lt_prefers_feasible", "PackingSolver.Rect.lt_answers_iff", "PackingSolver.Rect.lt_iff_clearlyBetter_partial", "PackingSolver.Rect.used_exact", "PackingSolver.Rect.leftover_exact_partial", "PackingSolver.Rect.best_solution_correct", "PackingSolver.Rect.default_objective_cycles", "PackingSolver.Rect.empty_bin_leftover_ignored"], "note": "Proved for all objectives but Default and the sequential subproblem (lexicographic with tolerance: a cycle is exhibited); leftovers are wrong with an empty last bin."},
 {"property": "C55", "status": "partial", "theorems": ["PackingSolver.Rect.TreeSearch.exported_valid_partial", "PackingSolver.Rect.TreeSearch.exported_eligible_partial", "PackingSolver.Rect.TreeSearch.ineligible_item_packed", "PackingSolver.Rect.TreeSearch.fixed_items_break_resource"], "note": "Proved without fixed items, for non-negative capacities, defects reaching the non-negative quadrant and definite item copies; eligibility in direction X only. Negations proved: in direction Y an ineligible item is packed; with fixed items a hard resource is exceeded."},
 {"property": "C56", "status": "partial", "theorems": ["PackingSolver.Rect.TreeSearch.exported_unloading_partial", "PackingSolver.Rect.TreeSearch.increasingX_broken"], "note": "Proved for all constraints, the Increasing ones in bins without defects; increasingX_broken proves the failure with a defect. Fixed items not covered."},
 {"property": "C57", "status": "partial", "theorems": ["PackingSolver.Rect.TreeSearch.search_total_partial", "PackingSolver.Rect.TreeSearch.directions_compatible_partial", "PackingSolver.Rect.TreeSearch.openDimension_throws"], "note": "Proved for directions compatible with the unloading constraint, which the driver chooses unless the objective imposes the other axis; openDimension_throws proves the exception there."},
 {"property": "C58", "status": "proved", "theorems": ["PackingSolver.Rect.TreeSearch.node_values"], "note": "Without fixed items."},
 {"property": "C59", "status": "proved", "theorems": ["PackingSolver.Rect.TreeSearch.better_iff", "PackingSolver.Rect.TreeSearch.directions_suit"], "note": "For every pair of nodes reached without fixed items. Bin costs positive, non-negative capacities and consumptions."},
 {"property": "C60", "status": "partial", "theorems": ["PackingSolver.Rect.TreeSearch.bound_binPacking_partial", "PackingSolver.Rect.TreeSearch.bound_openDimensionX_partial", "PackingSolver.Rect.TreeSearch.bound_leftovers", "PackingSolver.Rect.TreeSearch.bound_knapsack_partial", "PackingSolver.Rect.TreeSearch.optimum_dropped", "PackingSolver.Rect.TreeSearch.openDimensionY_dropped", "PackingSolver.Rect.TreeSearch.knapsack_dropped"], "note": "Proved for BinPacking and VariableSizedBinPacking (except nodes with the extra-bin guess), OpenDimensionX, BinPackingWithLeftovers and Knapsack/Feasibility without negative profits. The property is false of the code in the remaining cases: optimum_dropped (BinPacking, extra-bin guess), openDimensionY_dropped, knapsack_dropped (negative profit) exhibit dropped optima."},
 {"property": "C61", "status": "partial", "theorems": ["PackingSolver.Rect.TreeSearch.dominates_iff_partial", "PackingSolver.Rect.TreeSearch.dominance_drops"], "note": "The row-by-row meaning of the test and the absence of undefined behaviour are proved for nodes with at least one bin opened in the same direction. The last clause is false of the code: dominance_drops exhibits a dominated node that alone leads to a complete solution (the test ignores weights)."},
 {"property": "C62", "status": "partial", "theorems": ["PackingSolver.Rect.blocks_total", "PackingSolver.Rect.blocks_ok", "PackingSolver.Rect.blocks_distinct", "PackingSolver.Rect.blocks_single_partial"], "note": "Everything is proved for all positive instances; single items are only guaranteed to be blocks if the maximum number of blocks is at least twice the number of item types (otherwise the generation stops earlier)."},
 {"property": "C63", "status": "partial", "theorems": ["PackingSolver.Rect.maxReachable_exact", "PackingSolver.Rect.clip_harmless", "PackingSolver.Rect.clip_defects"], "note": "The table is exact and the restriction is harmless for bins without defects. With defects the second part is false of the code: clip_defects exhibits an item that fits only outside the restricted bin."},
 {"property": "C64", "status": "partial", "theorems": ["PackingSolver.Rect.MaximalSpaces.spaces_setup", "PackingSolver.Rect.MaximalSpaces.spaces_child_total", "PackingSolver.Rect.MaximalSpaces.spaces_export_valid_partial", "PackingSolver.Rect.MaximalSpaces.spaces_export_keeps", "PackingSolver.Rect.MaximalSpaces.spaces_totals", "PackingSolver.Rect.MaximalSpaces.spaces_leaf_all", "PackingSolver.Rect.MaximalSpaces.spaces_no_bin", "PackingSolver.Rect.MaximalSpaces.spaces_break_resource", "PackingSolver.Rect.MaximalSpaces.spaces_ineligible_packed"], "note": "Everything but eligibility and hard resources is proved. Those two are false of the code, which ignores them (spaces_break_resource, spaces_ineligible_packed); without a bin the set-up is undefined behaviour (spaces_no_bin)."},
 {"property": "C65", "status": "partial", "theorems": ["PackingSolver.Rect.MaximalSpaces.spaces_value", "PackingSolver.Rect.MaximalSpaces.spaces_better", "PackingSolver.Rect.MaximalSpaces.spaces_unsupported", "PackingSolver.Rect.MaximalSpaces.spaces_bound", "PackingSolver.Rect.MaximalSpaces.spaces_dominance_loses", "PackingSolver.Rect.MaximalSpaces.spaces_feasibility_not_better", "PackingSolver.Rect.MaximalSpaces.spaces_bound_negative_profit"], "note": "Values and comparison are exact for children when the fitness is the same at both times; cuts are proved for non-negative profits. False of the code: dominance (spaces_dominance_loses), cuts with negative profits (spaces_bound_negative_profit), preference of complete nodes when items have no profit (spaces_feasibility_not_better)."},
 {"property": "C66", "status": "partial", "theorems": ["PackingSolver.Rect.MaximalSpaces.spaces_maximal_partial", "PackingSolver.Rect.MaximalSpaces.spaces_weight_blocks", "PackingSolver.Rect.MaximalSpaces.spaces_defect_blocks", "PackingSolver.Rect.MaximalSpaces.spaces_waste_not_maximal", "PackingSolver.Rect.MaximalSpaces.spaces_search_incomplete"], "note": "Proved for at most three item types, no maximum weight and a positive fitness, within the attainable lengths. False of the code otherwise: spaces_weight_blocks (stops on a space whose items are all too heavy), spaces_defect_blocks (a complete packing exists, none is ever exported), spaces_waste_not_maximal (waste inside blocks); spaces_search_incomplete (no defect, weight or resource: all items fit, no node of the search is exported to a feasible solution or to one with the best profit, so the infeasibility or bound reported at its end is wrong)."},
 {"property": "C67", "status": "partial", "theorems": ["PackingSolver.Guil.guillotine_pattern", "PackingSolver.Guil.items_inside_apart", "PackingSolver.Guil.items_dimensions", "PackingSolver.Guil.items_area_le", "PackingSolver.Guil.PatternEx.oriented_item_rotated", "PackingSolver.Guil.PatternEx.any_orientation_cuts_horizontally", "PackingSolver.Guil.PatternEx.trims_overlap", "PackingSolver.Guil.trims_tile_partial", "PackingSolver.Guil.pieces_positive"], "note": "Proved for bins whose first cut orientation is vertical or horizontal, trims that fit in the bin and a non-negative cut thickness. Not true of the code: items that must not be rotated may be rotated (oriented_item_rotated); with orientation `any` every cut is horizontal (any_orientation_cuts_horizontally); the trims listed may overlap (trims_overlap). The listed trims and the rectangle to cut tile the bin unless a hard right trim comes with a soft top trim (trims_tile_partial)."},
 {"property": "C68", "status": "proved", "theorems": ["PackingSolver.Guil.calls_defined", "PackingSolver.Guil.add_node_accepts_iff", "PackingSolver.Guil.add_node_effect", "PackingSolver.Guil.set_item_accepts_iff", "PackingSolver.Guil.add_bin_accepts_iff", "PackingSolver.Guil.PatternEx.rejected_add_node_changes_builder"], "note": "A rejected add_node may change the builder (rejected_add_node_changes_builder)."},
 {"property": "C69", "status": "partial", "theorems": ["PackingSolver.Guil.totals", "PackingSolver.Guil.waste_total", "PackingSolver.Guil.profit_total", "PackingSolver.Guil.extent_total", "PackingSolver.Guil.cutting_cost_total", "PackingSolver.Guil.full_waste_nonneg", "PackingSolver.Guil.NegEx.item_on_plate_not_counted", "PackingSolver.Guil.NegEx.penalty_ignores_copies", "PackingSolver.Guil.NegEx.waste_negative", "PackingSolver.Guil.NegEx.items_in_soft_trim", "PackingSolver.Guil.NegEx.residual_ignores_copies", "PackingSolver.Guil.NegEx.width_of_last_bin_only"], "note": "Proved for all calls. False as one would read it for: an item set on an untrimmed plate itself (never counted), penalties and residuals of bins with several copies (once per listed bin), soft trims (negative waste). Cutting cost for bins whose first orientation is chosen."},
 {"property": "C70", "status": "partial", "theorems": ["PackingSolver.Guil.build_defined", "PackingSolver.Guil.build_returns", "PackingSolver.Guil.built_waste_ok", "PackingSolver.Guil.feasible_iff_partial", "PackingSolver.Guil.NegEx.too_many_bins_feasible", "PackingSolver.Guil.NegEx.empty_ignores_callback", "PackingSolver.Guil.NegEx.item_on_defect_feasible", "PackingSolver.Guil.NegEx.small_waste_ends_process", "PackingSolver.Guil.NegEx.no_cutting_costs_ub"], "note": "Exact conditions proved for non-empty solutions with copies not negative. Missing: copies of bins and items set on a whole plate are never checked, the callback is not asked for the empty solution (proved as negatives). build_returns: with trims that fit and a minimum waste length of at most one, build returns a solution after any calls."},
 {"property": "C71", "status": "proved", "theorems": ["PackingSolver.Guil.stages_of_bin", "PackingSolver.Guil.stages_of_solution", "PackingSolver.Guil.feasible_stages", "PackingSolver.Guil.NegEx.trims_change_stages", "PackingSolver.Guil.NegEx.roadef_three_items"], "note": "The exemption as coded depends on hard trims and admits three items per last cut of Roadef 2018; both shown by concrete solutions."},
 {"property": "C72", "status": "proved", "theorems": ["PackingSolver.Guil.ltB_true_iff", "PackingSolver.Guil.lt_asymm", "PackingSolver.Guil.lt_trans", "PackingSolver.Guil.lt_negTrans", "PackingSolver.Guil.lt_prefers_feasible", "PackingSolver.Guil.lt_answers_iff", "PackingSolver.Guil.lt_iff_clearlyBetter"], "note": "Negative transitivity only for the objectives compared without tolerance, as in C-claims on the other problem types."},
 {"property": "C73", "status": "partial", "theorems": ["PackingSolver.Guil.append_bin_plates", "PackingSolver.Guil.assembled_totals", "PackingSolver.Guil.assembled_profit", "PackingSolver.Guil.assembled_cutting_cost_partial", "PackingSolver.Guil.assembled_feasible_iff", "PackingSolver.Guil.append_bins_assembled", "PackingSolver.Guil.NegEx.append_bin_cutting_cost", "PackingSolver.Guil.NegEx.append_copies_ub", "PackingSolver.Guil.NegEx.append_empty_copies_ub"], "note": "Everything but the cutting cost, which is wrong after an append if waste has a cost (the area of the residual is subtracted, not added back); appending a solution whose bins have several copies reads out of bounds. Both proved."},
 {"property": "C74", "status": "partial", "theorems": ["PackingSolver.Guil.instance_aggregates", "PackingSolver.Guil.instance_sizes_partial", "PackingSolver.Guil.instance_preserved", "PackingSolver.Guil.instance_build_iff", "PackingSolver.Guil.instance_zero_side", "PackingSolver.Guil.instance_zero_side_undefined", "PackingSolver.Guil.instance_consumption_undefined", "PackingSolver.Guil.instance_bin_copies_min", "PackingSolver.Guil.instance_trims_too_large", "PackingSolver.Guil.instance_defect_outside"], "note": "Aggregates and preservation hold for every history. The exact condition of success needs positive item sides, non-negative copies and consumptions of existing item types, none of which the builder checks: zero sides and consumptions of missing item types are undefined behaviour in build (proved), and a bin type may end with fewer copies than its minimum, trims larger than the bin or defects outside it (proved)."},
 {"property": "C75", "status": "partial", "theorems": ["PackingSolver.Guil.instance_stack_table_partial", "PackingSolver.Guil.instance_stacks_given", "PackingSolver.Guil.instance_stacks_default", "PackingSolver.Guil.instance_mixed_stacks", "PackingSolver.Guil.instance_tables_partial", "PackingSolver.Guil.instance_negative_copies_stacks", "PackingSolver.Guil.instance_negative_copies_throws"], "note": "Needs numbers of copies that are not negative, which the builder does not check: a negative one gives a table with items of the wrong stacks, or an exception (both proved)."},
 {"property": "C76", "status": "partial", "theorems": ["PackingSolver.Guil.parameters_costs_partial", "PackingSolver.Guil.parameters_fixed_cost", "PackingSolver.Guil.parameters_variable_cost", "PackingSolver.Guil.parameters_stages_keep", "PackingSolver.Guil.parameters_cut_type_keep", "PackingSolver.Guil.parameters_default_costs", "PackingSolver.Guil.parameters_tables", "PackingSolver.Guil.parameters_predefined_iff", "PackingSolver.Guil.parameters_roadef2018", "PackingSolver.Guil.parameters_unlimited_garbage", "PackingSolver.Guil.parameters_stages_not_a_digit", "PackingSolver.Guil.parameters_trims_partial", "PackingSolver.Guil.parameters_infinite_trims", "PackingSolver.Guil.parameters_last_written", "PackingSolver.Guil.parameters_unlimited"], "note": "False of the parameters a builder starts with (no cutting cost can be set), of names starting with U (the rest is ignored) or with a character beyond the digits, and of trims after set_bin_types_infinite_x/y; each is proved."},
 {"property": "C77", "status": "partial", "theorems": ["PackingSolver.Guil.copy_subinstance_partial", "PackingSolver.Guil.copy_stacks", "PackingSolver.Guil.copy_defined", "PackingSolver.Guil.copy_loses_copies_min", "PackingSolver.Guil.copy_loses_parameters", "PackingSolver.Guil.copy_rejected"], "note": "The minimum number of copies of item types and the parameters are not copied, and a built instance with a bin type of fewer copies than its minimum cannot be copied; each is proved."},
 {"property": "C78", "status": "partial", "theorems": ["PackingSolver.Guil.dp_defined", "PackingSolver.Guil.dp_best_partial", "PackingSolver.Guil.dp_best", "PackingSolver.Guil.dp_reached", "PackingSolver.Guil.dp_bounds_limited", "PackingSolver.Guil.HypergraphEx.dp_not_monotone", "PackingSolver.Guil.HypergraphEx.dp_misses_lost_cut", "PackingSolver.Guil.HypergraphEx.lost_cut_is_a_solution"], "note": "Proved in full for cuts without thickness (dp_best). With a thickness, proved among patterns whose cuts leave material on both sides (dp_best_partial); not true otherwise: a cut whose right part is lost in the thickness is missed (dp_misses_lost_cut), so that the entries do not even grow with the box (dp_not_monotone)."},
 {"property": "C79", "status": "partial", "theorems": ["PackingSolver.Guil.rdp_defined", "PackingSolver.Guil.rdp_best_partial", "PackingSolver.Guil.rdp_bounds_partial", "PackingSolver.Guil.rdp_bounds", "PackingSolver.Guil.rdp_reached"], "note": "Proved in full for cuts without thickness; with a thickness, among patterns whose cuts leave material on both sides."},
 {"property": "C80", "status": "proved", "theorems": ["PackingSolver.Guil.search_ends", "PackingSolver.Guil.search_sound", "PackingSolver.Guil.search_best_reached"], "note": "Proved for every thickness of the cuts, every queue and every timer. That reported blocks are rebuilt as solutions is C82."},
 {"property": "C81", "status": "partial", "theorems": ["PackingSolver.Guil.search_optimal_partial", "PackingSolver.Guil.search_optimal_code_partial", "PackingSolver.Guil.BlockSearchEx.thick_search_misses"], "note": "Proved for cuts without thickness, with the buckets of the code (exact logarithm). Not true with a thickness: thick_search_misses."},
 {"property": "C82", "status": "partial", "theorems": ["PackingSolver.Guil.rebuild_partial", "PackingSolver.Guil.horizontal_rebuild_throws", "PackingSolver.Guil.RebuildEx.soft_rebuild_throws"], "note": "Proved for a first cut that is vertical or free, hard trims at the bottom and at the top, and a minimum waste length of at most one. Not true of the code otherwise: with a horizontal first cut on a plate wider than high every reported block throws (horizontal_rebuild_throws), and a soft trim at the top throws for an item that fits (soft_rebuild_throws)."},
 {"property": "C83", "status": "partial", "theorems": ["PackingSolver.Guil.dp_rebuild_partial", "PackingSolver.Guil.dp_horizontal_rebuild_throws", "PackingSolver.Guil.DpRebuildEx.dp_ignores_copies", "PackingSolver.Guil.DpRebuildEx.dp_soft_rebuild_throws"], "note": "Proved for a vertical or free first cut, hard or zero trims at the bottom and at the top and a minimum waste length of at most one, with the optimality over patterns whose cuts leave material on both sides, which are all patterns when cuts have no thickness; the solution is the one before minimize_number_of_stages. The search throws with a horizontal first cut on a wide plate and with a soft trim at the top."},
 {"property": "C84", "status": "partial", "theorems": ["PackingSolver.Box.builder_packing", "PackingSolver.Box.builder_rejects", "PackingSolver.Box.builder_accepts", "PackingSolver.Box.appendBins_packing", "PackingSolver.Box.appendBin_packing", "PackingSolver.Box.indicators_exact", "PackingSolver.Box.fullWaste_exact", "PackingSolver.Box.profit_exact", "PackingSolver.Box.bin_weights_exact", "PackingSolver.Box.extents_exact_partial", "PackingSolver.Box.zMax_exact_partial", "PackingSolver.Box.copies_scale_profit_partial", "PackingSolver.Box.empty_last_bin_negative_waste", "PackingSolver.Box.copies_do_not_scale_penalties", "PackingSolver.Box.stacks_not_counted", "PackingSolver.Box.append_keeps_old_height"], "note": "All totals are proved exact except z_max (and the waste and leftover computed from it): appending a bin keeps the height of an earlier bin, so z_max is exact for solutions of the builder and solutions with one bin only. waste() is wrong with an empty last bin, penalties are not scaled by bin copies, stacks are never counted: negations are proved."},
 {"property": "C85", "status": "partial", "theorems": ["PackingSolver.Box.feasible_iff_partial", "PackingSolver.Box.feasible_empty", "PackingSolver.Box.feasible_ignores_geometry", "PackingSolver.Box.feasible_empty_ignores_callback"], "note": "feasible() is characterised exactly; it does not cover geometry, weight or bin limits (negation proved)."},
 {"property": "C86", "status": "partial", "theorems": ["PackingSolver.Box.ltB_true_iff", "PackingSolver.Box.lt_asymm", "PackingSolver.Box.lt_trans", "PackingSolver.Box.lt_prefers_feasible", "PackingSolver.Box.lt_answers_iff", "PackingSolver.Box.lt_iff_clearlyBetter_partial", "PackingSolver.Box.used_exact_partial", "PackingSolver.Box.leftover_exact_partial", "PackingSolver.Box.best_solution_correct", "PackingSolver.Box.variableSized_comparison_throws", "PackingSolver.Box.appended_solution_misjudged", "PackingSolver.Box.default_objective_cycles", "PackingSolver.Box.empty_bin_leftover_ignored"], "note": "Proved for all objectives but Default (lexicographic with tolerance: a cycle is exhibited). Variable-sized bin packing, which the box optimize function accepts, cannot be compared; leftovers are wrong after append_bins and with an empty last bin."},
 {"property": "C87", "status": "partial", "theorems": ["PackingSolver.Box.instance_aggregates", "PackingSolver.Box.instance_sizes_partial", "PackingSolver.Box.instance_preserved", "PackingSolver.Box.instance_build_iff", "PackingSolver.Box.instance_zero_side", "PackingSolver.Box.instance_zero_side_undefined", "PackingSolver.Box.instance_consumption_undefined", "PackingSolver.Box.instance_bin_copies_min", "PackingSolver.Box.instance_negative_copies", "PackingSolver.Box.instance_infinite_too_early", "PackingSolver.Box.instance_open_dimension_z", "PackingSolver.Box.instance_default_cost", "PackingSolver.Box.instance_profits_auto"], "note": "Aggregates and preservation hold for every history. The exact condition of success needs positive item sides, non-negative copies and consumptions of existing item types, none of which the builder checks: zero sides and consumptions of missing item types are undefined behaviour in build (proved). A bin type may end with fewer copies than its minimum, item copies may be -1, a side made unbounded before the items are added is zero, an open z dimension may have several bins, and automatic profits are always zero (all proved)."},
 {"property": "C88", "status": "proved", "theorems": ["PackingSolver.Rect.bulk_infinite_x", "PackingSolver.Rect.bulk_infinite_y", "PackingSolver.Rect.bulk_infinite_item_copies", "PackingSolver.Rect.bulk_infinite_bin_copies", "PackingSolver.Rect.bulk_unweighted_bins", "PackingSolver.Rect.bulk_unweighted_items", "PackingSolver.Rect.bulk_oriented", "PackingSolver.Rect.bulk_infinite_too_early", "PackingSolver.Rect.bulk_multiply", "PackingSolver.Guil.bulk_infinite_x", "PackingSolver.Guil.bulk_infinite_y", "PackingSolver.Guil.bulk_infinite_item_copies", "PackingSolver.Guil.bulk_infinite_bin_copies", "PackingSolver.Guil.bulk_unweighted_bins", "PackingSolver.Guil.bulk_unweighted_items", "PackingSolver.Guil.bulk_oriented", "PackingSolver.Guil.bulk_infinite_too_early", "PackingSolver.Guil.bulk_multiply", "PackingSolver.Box.bulk_infinite_x", "PackingSolver.Box.bulk_infinite_y", "PackingSolver.Box.bulk_infinite_item_copies", "PackingSolver.Box.bulk_infinite_bin_copies", "PackingSolver.Box.bulk_unweighted_bins", "PackingSolver.Box.bulk_unweighted_items", "PackingSolver.Box.bulk_oriented", "PackingSolver.Box.bulk_infinite_too_early", "PackingSolver.OneDim.bulk_infinite_item_copies", "PackingSolver.OneDim.bulk_infinite_too_early", "PackingSolver.OneDim.bulk_setters"], "note": "For rectangle, guillotine and box instances the statements are about the built instance; for one-dimensional instances (lengths are not checked by the builder) about the builder after the call. bulk_infinite_too_early: called before the bin types are added, set_item_types_infinite_copies gives one copy."},
 {"property": "C89", "status": "partial", "theorems": ["PackingSolver.Box.dff_bin_packing_bound_valid_partial", "PackingSolver.Box.dff_infeasible_valid_partial", "PackingSolver.Box.dff_knapsack_bound_valid_partial", "PackingSolver.Box.dff_side_one_undefined", "PackingSolver.Box.dff_rejected", "PackingSolver.Box.dff_knapsack_negative_profit"], "note": "Proved for bins whose sides are at least 2 and, for the knapsack bound, non-negative profits. False otherwise: with a side of length 1 the first iteration divides by zero on every instance, and a negative profit of an item that need not be packed is counted in the bound."},
 {"property": "C90", "status": "partial", "theorems": ["PackingSolver.Stacks.builder_packing", "PackingSolver.Stacks.builder_rejects", "PackingSolver.Stacks.builder_accepts", "PackingSolver.Stacks.builder_stack", "PackingSolver.Stacks.builder_succeeds_partial", "PackingSolver.Stacks.builder_two_bins_undefined", "PackingSolver.Stacks.builder_no_feasible_pair", "PackingSolver.Stacks.appendBins_packing", "PackingSolver.Stacks.appendBin_packing", "PackingSolver.Stacks.appendBin_succeeds_of", "PackingSolver.Stacks.appendEmptyBin_succeeds", "PackingSolver.Stacks.indicators_exact", "PackingSolver.Stacks.itemVolume_exact_partial", "PackingSolver.Stacks.fullWaste_exact_partial", "PackingSolver.Stacks.heights_exact", "PackingSolver.Stacks.bin_weights_exact", "PackingSolver.Stacks.extents_exact", "PackingSolver.Stacks.waste_exact_partial", "PackingSolver.Stacks.waste_overreported", "PackingSolver.Stacks.empty_last_bin_negative_waste"], "note": "The waste is exact only if the largest slab left lies beyond the stacks along x (misplaced parenthesis, waste_overreported) and the last bin is not empty. Volumes of items assume that items have the footprint of their stack, which the builder enforces but relabelling does not. With two bins or more, the first within its limits, build reads weights that are not computed yet (builder_two_bins_undefined)."},
 {"property": "C91", "status": "partial", "theorems": ["PackingSolver.Stacks.feasible_iff_partial", "PackingSolver.Stacks.feasible_empty", "PackingSolver.Stacks.axle_balance_unique", "PackingSolver.Stacks.weight_violation_zero_iff", "PackingSolver.Stacks.feasible_ignores_geometry", "PackingSolver.Stacks.feasible_empty_ignores_callback"], "note": "Exact for what the code checks. feasible() checks neither the geometry, the height, the density, the stackability, the weight above nor the number of bins (feasible_ignores_geometry), and does not ask the callback about the empty solution."},
 {"property": "C92", "status": "partial", "theorems": ["PackingSolver.Stacks.lt_asymm", "PackingSolver.Stacks.lt_trans", "PackingSolver.Stacks.lt_prefers_feasible", "PackingSolver.Stacks.lt_answers_iff", "PackingSolver.Stacks.used_exact", "PackingSolver.Stacks.wasted_exact_partial", "PackingSolver.Stacks.lt_iff_clearlyBetter_partial", "PackingSolver.Stacks.best_solution_correct", "PackingSolver.Stacks.leftovers_misjudged", "PackingSolver.Stacks.leftovers_prefers_more_bins", "PackingSolver.Stacks.variableSized_comparison_throws", "PackingSolver.Stacks.openZ_comparison_throws", "PackingSolver.Stacks.default_objective_cycles"], "note": "Holds for BinPacking, OpenDimensionX/Y, Knapsack, Feasibility; under BinPackingWithLeftovers only the waste is compared and it is exact only if the largest slab left lies beyond the stacks along x. Fails under Default (cycle); throws under VariableSizedBinPacking and OpenDimensionZ."},
 {"property": "C93", "status": "partial", "theorems": ["PackingSolver.Stacks.checkStack_exact", "PackingSolver.Stacks.checkStack_sound", "PackingSolver.Stacks.checkStack_iff_partial", "PackingSolver.Stacks.checkStack_rejects_nesting", "PackingSolver.Stacks.checkStack_ignores_stackabilityId"], "note": "Accepted piles satisfy the constraints. The converse holds without nesting only: the nesting height is added instead of subtracted (checkStack_rejects_nesting). Stackability ids are not looked at."},
 {"property": "C94", "status": "proved", "theorems": ["PackingSolver.OneDim.bins_as_given", "PackingSolver.OneDim.items_as_given", "PackingSolver.OneDim.objective_as_given", "PackingSolver.OneDim.call_accepted_iff", "PackingSolver.OneDim.consumptions_as_given", "PackingSolver.Rect.bins_as_given", "PackingSolver.Rect.items_as_given", "PackingSolver.Rect.objective_as_given", "PackingSolver.Rect.call_accepted_iff", "PackingSolver.Rect.consumptions_as_given", "PackingSolver.Guil.bins_as_given", "PackingSolver.Guil.items_as_given", "PackingSolver.Guil.objective_as_given", "PackingSolver.Guil.call_accepted_iff", "PackingSolver.Guil.consumptions_as_given", "PackingSolver.Box.bins_as_given", "PackingSolver.Box.items_as_given", "PackingSolver.Box.objective_as_given", "PackingSolver.Box.call_accepted_iff", "PackingSolver.Box.consumptions_as_given", "PackingSolver.OneDim.precedences_as_given", "PackingSolver.Rect.parameters_as_given", "PackingSolver.Guil.parameters_as_given"], "note": "Bulk setters are covered by C88, copies from another instance by C17 and C77. set_item_type_group of the rectangle builder does not check the item type id: with an unknown id it is undefined behaviour, which the rejection clause excludes."},
 {"property": "C95", "status": "partial", "theorems": ["PackingSolver.Box.rotation_exchanged", "PackingSolver.Box.flip_exchanges_axes", "PackingSolver.Box.flip_succeeds_iff", "PackingSolver.Box.flip_totals", "PackingSolver.Box.flip_binPacking_iff", "PackingSolver.Box.unflip_packing", "PackingSolver.Box.unflip_accepts", "PackingSolver.Box.unflip_totals", "PackingSolver.Box.unflip_extents", "PackingSolver.Box.unflip_profit_partial", "PackingSolver.Box.unflip_feasible_partial", "PackingSolver.Box.flip_loses_resources", "PackingSolver.Box.flip_loses_copies_min", "PackingSolver.Box.flip_keeps_openDimensionX", "PackingSolver.Box.openDimensionZ_not_flippable"], "note": "Axes, rotations, totals, validity of packings and conversion back are proved in full. False of the code and proved so: resources, minimum copies and callback are not copied (flip_loses_resources, flip_loses_copies_min), OpenDimensionX is kept under some directions (flip_keeps_openDimensionX), an OpenDimensionZ instance with several bins cannot be flipped (openDimensionZ_not_flippable); profit and feasibility are therefore proved for instances without them."},
 {"property": "C96", "status": "partial", "theorems": ["PackingSolver.Box.TreeSearch.exported_valid_partial", "PackingSolver.Box.TreeSearch.resource_exceeded"], "note": "Everything is proved for every node and direction, except hard resources outside direction X, where the property is false of the code: resource_exceeded."},
 {"property": "C97", "status": "partial", "theorems": ["PackingSolver.Box.TreeSearch.search_total_partial", "PackingSolver.Box.TreeSearch.search_depth", "PackingSolver.Box.TreeSearch.openDimensionZ_throws", "PackingSolver.Box.TreeSearch.constructor_throws", "PackingSolver.Box.TreeSearch.predecessor_blocks"], "note": "Listing insertions, making children and exporting never fail, and paths are bounded by the number of items. False of the code and proved so: comparing nodes always throws for OpenDimensionZ, the set-up throws for OpenDimensionZ instances with two bins, and an item can be withheld for ever because a better item of the same shape does not fit (predecessor_blocks)."},
 {"property": "C98", "status": "partial", "theorems": ["PackingSolver.Box.TreeSearch.node_values_partial", "PackingSolver.Box.TreeSearch.penalties_forgotten"], "note": "All values are proved; the profit in direction X or without resources. In the other directions it is false of the code: penalties_forgotten."},
 {"property": "C99", "status": "partial", "theorems": ["PackingSolver.Box.TreeSearch.better_iff_partial", "PackingSolver.Box.TreeSearch.directions_rank", "PackingSolver.Box.TreeSearch.better_leftovers_partial", "PackingSolver.Box.TreeSearch.bound_binPacking_partial", "PackingSolver.Box.TreeSearch.bound_openDimensionX_partial", "PackingSolver.Box.TreeSearch.bound_leftovers_partial", "PackingSolver.Box.TreeSearch.bound_knapsack_partial", "PackingSolver.Box.TreeSearch.optimum_dropped", "PackingSolver.Box.TreeSearch.openDimensionY_dropped", "PackingSolver.Box.TreeSearch.leftovers_dropped", "PackingSolver.Box.TreeSearch.knapsack_dropped"], "note": "The ranking is proved for all objectives except leftovers (only fewer bins) and OpenDimensionZ (throws, C97). Pruning is proved safe for BinPacking, VariableSizedBinPacking, OpenDimensionX and the number of bins of leftovers when some item has a side of length 1 along the two other axes, and for Knapsack without negative profits and penalties. False of the code and proved so: thicker items (optimum_dropped), OpenDimensionY, leftovers with as many bins, negative profits."},
 {"property": "C100", "status": "partial", "theorems": ["PackingSolver.Box.TreeSearch.dominates_iff_partial", "PackingSolver.Box.TreeSearch.dominance_drops"], "note": "The test is proved to compare the packings on every line along the filling direction (when some item has a side of length 1 along the two other axes). That the node kept can be completed like the one dropped is false of the code, which ignores the weight in the last bin: dominance_drops."},
 {"property": "C101", "status": "partial", "theorems": ["PackingSolver.Box.blocks_total", "PackingSolver.Box.blocks_ok", "PackingSolver.Box.blocks_distinct", "PackingSolver.Box.blocks_single_partial"], "note": "Everything is proved for all positive instances; single items are only guaranteed to be blocks if the maximum number of blocks is at least six times the number of item types (otherwise the generation stops earlier)."},
 {"property": "C102", "status": "proved", "theorems": ["PackingSolver.Box.maxReachable_exact", "PackingSolver.Box.clip_harmless"], "note": ""},
 {"property": "C103", "status": "partial", "theorems": ["PackingSolver.Box.MaximalSpaces.spaces_setup", "PackingSolver.Box.MaximalSpaces.spaces_child_total", "PackingSolver.Box.MaximalSpaces.spaces_export_valid_partial", "PackingSolver.Box.MaximalSpaces.spaces_export_keeps", "PackingSolver.Box.MaximalSpaces.spaces_totals", "PackingSolver.Box.MaximalSpaces.spaces_leaf_all", "PackingSolver.Box.MaximalSpaces.spaces_no_bin", "PackingSolver.Box.MaximalSpaces.spaces_break_resource", "PackingSolver.Box.MaximalSpaces.spaces_break_callback"], "note": "Everything but hard resources and the callback is proved. Those two are false of the code, which ignores them (spaces_break_resource, spaces_break_callback); without a bin the set-up is undefined behaviour (spaces_no_bin)."},
 {"property": "C104", "status": "partial", "theorems": ["PackingSolver.Box.MaximalSpaces.spaces_value", "PackingSolver.Box.MaximalSpaces.spaces_better", "PackingSolver.Box.MaximalSpaces.spaces_unsupported", "PackingSolver.Box.MaximalSpaces.spaces_bound", "PackingSolver.Box.MaximalSpaces.spaces_dominance_loses", "PackingSolver.Box.MaximalSpaces.spaces_feasibility_not_better", "PackingSolver.Box.MaximalSpaces.spaces_bound_negative_profit"], "note": "Values and comparison are exact for children when the fitness is the same at both times; cuts are proved for non-negative profits. False of the code: dominance (spaces_dominance_loses), cuts with negative profits (spaces_bound_negative_profit), preference of complete nodes when items have no profit (spaces_feasibility_not_better)."},
 {"property": "C105", "status": "partial", "theorems": ["PackingSolver.Box.MaximalSpaces.spaces_maximal_partial", "PackingSolver.Box.MaximalSpaces.spaces_search_incomplete", "PackingSolver.Box.MaximalSpaces.spaces_weight_blocks", "PackingSolver.Box.MaximalSpaces.spaces_waste_not_maximal"], "note": "Maximality is proved for at most three item types, no maximum weight and a positive fitness, within the attainable lengths. False of the code otherwise: spaces_weight_blocks, spaces_waste_not_maximal. Completeness is false: spaces_search_incomplete gives an instance all items of which fit but for which no node of the search is exported to a feasible solution, so the reported infeasibility is wrong."},
 {"property": "C106", "status": "partial", "theorems": ["PackingSolver.Rect.Reduction.reduction_keeps_packings_partial", "PackingSolver.Rect.Reduction.reduction_keeps_oriented_packings", "PackingSolver.Rect.Reduction.reduction_bound_unsound"], "note": "Proved for every instance in which no rotatable item larger than half of the (shrunk) bin in one orientation can be turned out of that, in particular for all instances without rotatable items. False of the code otherwise (reduction_bound_unsound)."},
 {"property": "C107", "status": "partial", "theorems": ["PackingSolver.Rect.Reduction.reported_bound_sound_partial", "PackingSolver.Rect.Reduction.reported_cost_bound_sound_partial", "PackingSolver.Rect.Reduction.reduction_bound_unsound"], "note": "As C106. False of the code in general: two rotatable items that fit in one bin get two dedicated bins, so the reported bound exceeds the optimum (reduction_bound_unsound)."},
 {"property": "C108", "status": "partial", "theorems": ["PackingSolver.Rect.Reduction.proven_infeasible_sound_partial", "PackingSolver.Rect.Reduction.feasible_declared_infeasible"], "note": "As C106. False of the code in general (feasible_declared_infeasible)."},
 {"property": "C109", "status": "partial", "theorems": ["PackingSolver.Rect.Reduction.unreduce_throws_nothing_partial", "PackingSolver.Rect.Reduction.unreduce_succeeds_partial", "PackingSolver.Rect.Reduction.reduction_undefined", "PackingSolver.Rect.Reduction.unreduce_undefined", "PackingSolver.Rect.Reduction.reduction_throws"], "note": "Proved: the only failure of the translation is a read of companions beyond the end of an array, and it never happens if every item type has one copy. False of the code: that read happens if a big item has more copies than bins used by its companions (reduction_undefined, unreduce_undefined), and the reduction throws if bins must be used (reduction_throws)."},
 {"property": "C110", "status": "partial", "theorems": ["PackingSolver.Rect.Reduction.unreduced_packing_valid_partial", "PackingSolver.Rect.Reduction.unreduced_within_copies_partial", "PackingSolver.Rect.Reduction.unreduced_packs_all_partial", "PackingSolver.Rect.Reduction.unreduce_overpacks", "PackingSolver.Rect.Reduction.reduction_ignores_eligibility"], "note": "Proved: every translated bin holds existing items inside the bin, without overlap and rotated only where allowed, for every nesting of absorbed items; if no rotatable item larger than half of the bin can be turned out of that, no item type is packed more often than it has copies; and if every item type has one copy, every item is packed exactly once. False of the code: copies of turned items (unreduce_overpacks) and eligibility (reduction_ignores_eligibility)."},
 {"property": "C111", "status": "partial", "theorems": ["PackingSolver.Guil.flip_instance_partial", "PackingSolver.Guil.flip_minimum", "PackingSolver.Guil.flip_aggregates", "PackingSolver.Guil.FlipEx.unflip_minimum_lost", "PackingSolver.Guil.FlipEx.unflip_callback_lost"], "note": "Proved: every field a solution depends on is exchanged or copied, for every instance with positive bin costs. False of the code: the minimum numbers of copies of the item types and the callback are dropped (flip_minimum says what replaces them)."},
 {"property": "C112", "status": "partial", "theorems": ["PackingSolver.Guil.unflip_solution", "PackingSolver.Guil.unflip_items", "PackingSolver.Guil.unflip_profit", "PackingSolver.Guil.unflip_feasible_partial", "PackingSolver.Guil.flip_unflip_partial", "PackingSolver.Guil.FlipEx.unflip_minimum_lost", "PackingSolver.Guil.FlipEx.unflip_callback_lost", "PackingSolver.Guil.FlipEx.unflip_whole_bin_lost"], "note": "Proved: translation succeeds and mirrors every piece, for all bins and depths; same items, copies, cost, profit and feasibility if no item was set on a whole bin. False of the code: an item set on the whole bin is lost, and feasibility is lost with the minimum copies of a knapsack and the callback that the flipped instance does not have."},
 {"property": "C113", "status": "proved", "theorems": ["PackingSolver.Box.TreeSearch.offered_iff", "PackingSolver.Box.TreeSearch.some_offered", "PackingSolver.Rect.TreeSearch.considered_withheld_iff", "PackingSolver.Rect.TreeSearch.rotation_iff", "PackingSolver.Rect.TreeSearch.some_considered"], "note": "Exact conditions and absence of circular waits, for every node. That the withheld item could still be needed (resources, eligibility) is C97, see predecessor_blocks."},
 {"property": "C114", "status": "partial", "theorems": ["PackingSolver.Guil.Spaces.space_blocks_total", "PackingSolver.Guil.Spaces.space_blocks_ok", "PackingSolver.Guil.Spaces.space_blocks_distinct", "PackingSolver.Guil.Spaces.space_blocks_made", "PackingSolver.Guil.Spaces.space_blocks_single_partial", "PackingSolver.Guil.Spaces.space_blocks_few"], "note": "Everything but one clause without restriction; that every fitting item has a block of its own is proved when the requested number of blocks (10000 in the program) is at least twice the number of item types."},
 {"property": "C115", "status": "proved", "theorems": ["PackingSolver.Guil.Spaces.space_state_ok", "PackingSolver.Guil.Spaces.space_insertions_ok", "PackingSolver.Guil.Spaces.space_insertions_all", "PackingSolver.Guil.Spaces.space_insertion_spaces", "PackingSolver.Guil.Spaces.space_greedy_ok", "PackingSolver.Guil.Spaces.space_greedy_choice", "PackingSolver.Guil.Spaces.space_leaf_iff", "PackingSolver.Guil.Spaces.space_bound_safe", "PackingSolver.Guil.Spaces.SpacesEx.bound_unsafe"], "note": "bound_unsafe shows that the hypothesis on the profits is needed. The order in which insertions are tried and the beam search itself (external library) are not modelled: the theorems hold of every order."},
 {"property": "C116", "status": "partial", "theorems": ["PackingSolver.Guil.space_solution_partial", "PackingSolver.Guil.space_blocks_gapless", "PackingSolver.Guil.SpaceSolutionEx.gap_throws", "PackingSolver.Guil.SpaceSolutionEx.trim_throws"], "note": "Proved when no block leaves a gap of at most the thickness of a cut beside its smaller part (always so without thickness or with at most three item types) and the bin has no hard trims. Both conditions are needed: gap_throws and trim_throws give instances, eligible for the automatic selection, for which the root state makes the conversion throw."},
 {"property": "C117", "status": "partial", "theorems": ["PackingSolver.Guil.guillotine_solutions_sound", "PackingSolver.Guil.guillotine_solutions_complete_partial", "PackingSolver.Guil.guillotine_solution_best", "PackingSolver.Guil.PostProcessEx.pinwheel_not_cut", "PackingSolver.Guil.PostProcessEx.pinwheel_never_returns", "PackingSolver.Guil.PostProcessEx.gap_never_returns"], "note": "Soundness is proved for every thickness of the cuts. Completeness with the smallest number of stages is proved for cuts without thickness (a pattern that cuts nothing counts as one stage). Both remaining parts are false of the code: on a placement no guillotine cuts separate the recursion never ends instead of returning an empty vector (pinwheel_never_returns), and with thick cuts it may never end on a single item next to a small gap (gap_never_returns)."},
 {"property": "C118", "status": "partial", "theorems": ["PackingSolver.Guil.minimize_keeps_places", "PackingSolver.Guil.minimize_assembled", "PackingSolver.Guil.minimize_returns_partial", "PackingSolver.Guil.MinimizeEx.never_returns"], "note": "That the bins, copies, items and places are kept is proved whenever the function returns, for every solution and thickness. That it returns without adding stages is proved for cuts without thickness and a minimum waste length of at most one (a bin without cuts counts as one stage). For thick cuts it is false of the code: never_returns shows a feasible solution of the solution builder on which the recursion never ends."},
 {"property": "C119", "status": "partial", "theorems": ["PackingSolver.Guil.sort_products_exact", "PackingSolver.Guil.sort_comparison", "PackingSolver.Guil.sort_lengths", "PackingSolver.Guil.sort_order", "PackingSolver.Guil.sort_keeps_items", "PackingSolver.Guil.sort_result_order", "PackingSolver.Guil.sort_composed", "PackingSolver.Guil.sort_returns_partial", "PackingSolver.Guil.SortSubplatesEx.sort_onto_defect", "PackingSolver.Guil.SortSubplatesEx.sort_against_stack", "PackingSolver.Guil.SortSubplatesEx.sort_loses_item"], "note": "That bins and items are kept is proved for every solution composed of bins of the solution builder in which no item fills a bin inside its hard trims without a cut; sort_loses_item shows that such an item is lost. The order is proved for bins with an area below 2^63. That the function returns is proved for a minimum waste length of at most one. Feasibility is not kept: sort_onto_defect and sort_against_stack."},
 {"property": "C120", "status": "partial", "theorems": ["PackingSolver.Rect.group_contents", "PackingSolver.Rect.group_indicators_partial", "PackingSolver.Rect.group_changes_extent", "PackingSolver.Rect.group_changes_profit", "PackingSolver.Box.group_contents", "PackingSolver.Box.group_indicators_partial", "PackingSolver.Box.group_changes_extent", "PackingSolver.Box.group_changes_profit", "PackingSolver.Stacks.group_contents", "PackingSolver.Stacks.group_indicators_partial", "PackingSolver.Stacks.group_changes_extent", "PackingSolver.Stacks.group_changes_violation", "PackingSolver.Guil.group_contents", "PackingSolver.Guil.group_totals_partial", "PackingSolver.Guil.group_feasible_partial", "PackingSolver.Guil.group_returns_partial", "PackingSolver.Guil.regular_empty", "PackingSolver.Guil.regular_built", "PackingSolver.Guil.regular_append", "PackingSolver.Guil.GroupEx.group_keeps_residual_apart", "PackingSolver.Guil.GroupEx.group_changes_width", "PackingSolver.Guil.GroupEx.group_lists_plate_twice"], "note": "The contents, the totals and the feasibility are proved without a bound. The extents of the last bin, the profit with penalized resources and the reported violation of weight constraints are not kept; each has a counter-example. For guillotine solutions the contents and totals are proved for regular lists of plates, which the builder and appending produce unless an item is set on the root of a plate; that the call returns is proved for a minimum waste length of at most one; of the feasibility the conditions on single plates and on the copies of items are proved, not the order of stacks and the number of stages."},
 {"property": "C121", "status": "partial", "theorems": ["PackingSolver.Guil.sequential_solutions_partial", "PackingSolver.Guil.sequential_bins_available", "PackingSolver.Guil.sequential_improves", "PackingSolver.Guil.sequential_improves_partial", "PackingSolver.Guil.sequential_ends", "PackingSolver.Guil.sequential_trims_ignored", "PackingSolver.Guil.sequential_widths_mixed", "PackingSolver.Guil.sequential_leftovers_worse", "PackingSolver.Guil.sequential_no_items", "PackingSolver.Guil.sequential_no_items_forever", "PackingSolver.Guil.sequential_misses"], "note": "Proved for every solver and every instance with items. Trims and defects are not copied to the feasibility problems, so they are not respected; with leftovers the bins must have one width and only the number of bins is monotone; without items the search does not end or fails. Each has a counter-example. The caller in this commit reaches the search only for instances with one bin."}
]}
