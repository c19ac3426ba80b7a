{
 "claims": [
  {
   "property": "C01",
   "status": "partial",
   "theorems": [
    "HP.C01_partial",
    "HP.C01_shared_partial",
    "HP.C01_refuted"
   ],
   "note": "False of the code: _check_fitting does not test the interior cells of an item's last row (C01_refuted is a kernel-checked witness). C01_partial proves it when no item can be laid as a strip 1 high and >= 3 wide; C01_shared_partial, for every problem: cells are shared only strictly between the ends of a later item laid 1 high."
  },
  {
   "property": "C02",
   "status": "proved",
   "theorems": [
    "HP.C02_no_overlap"
   ],
   "note": ""
  },
  {
   "property": "C03",
   "status": "proved",
   "theorems": [
    "HP.C03_inside"
   ],
   "note": ""
  },
  {
   "property": "C04",
   "status": "proved",
   "theorems": [
    "HP.C04_once"
   ],
   "note": ""
  },
  {
   "property": "C05",
   "status": "proved",
   "theorems": [
    "HP.C05_sizes"
   ],
   "note": ""
  },
  {
   "property": "C06",
   "status": "proved",
   "theorems": [
    "HP.C06_total",
    "HP.C06_rounds"
   ],
   "note": ""
  },
  {
   "property": "C07",
   "status": "proved",
   "theorems": [
    "HP.C07_utilization",
    "HP.C07_rounded",
    "HP.C07_bound_refuted"
   ],
   "note": "C07_utilization in exact arithmetic; C07_rounded: for any rounding of + and /, the reported values are the sums of the fractions in order of placement; the bound <= 1 needs the hypothesis of C02, and C07_bound_refuted shows that it is needed"
  },
  {
   "property": "C08",
   "status": "partial",
   "theorems": [
    "HP.C08_partial",
    "HP.C08_refuted"
   ],
   "note": "False of the code: the strip value divides by the index of the top row, i.e. stack height - 1 (C08_refuted). C08_partial states what is reported."
  },
  {
   "property": "C09",
   "status": "proved",
   "theorems": [
    "HP.C09_supported"
   ],
   "note": ""
  },
  {
   "property": "C10",
   "status": "proved",
   "theorems": [
    "HP.C10_first_item"
   ],
   "note": ""
  },
  {
   "property": "C100",
   "status": "proved",
   "theorems": [
    "HP.C100_complete",
    "HP.C100_stopped",
    "HP.C100_iff",
    "HP.C100_foreign",
    "HP.C100_retry",
    "HP.C100_own",
    "HP.C100_agrees"
   ],
   "note": "plotly and kaleido are an oracle per file; paths that differ as text but lead to the same file through links or '..' count as different files; the global kaleido defaults that image exports set are not modelled."
  },
  {
   "property": "C101",
   "status": "proved",
   "theorems": [
    "HP.C101_points",
    "HP.C101_points_linear",
    "HP.C101_tests",
    "HP.C101_total"
   ],
   "note": "Counts rounds and placement tests, not the cells read in a test or written when an item is put (these grow with the area)."
  },
  {
   "property": "C102",
   "status": "proved",
   "theorems": [
    "HP.C102_used_points",
    "HP.C102_greedy",
    "HP.C102_in_order"
   ],
   "note": ""
  },
  {
   "property": "C103",
   "status": "proved",
   "theorems": [
    "HP.C103_before",
    "HP.C103_api",
    "HP.C103_removal_can_lose"
   ],
   "note": "in strip packing 0/n = 0 is assumed of the division"
  },
  {
   "property": "C104",
   "status": "partial",
   "theorems": [
    "HP.C104_containers_partial",
    "HP.C104_refuted_larger",
    "HP.C104_refuted_rotation",
    "HP.C104_refuted_smaller",
    "HP.C104_refuted_fewer"
   ],
   "note": "False of the code (a greedy heuristic without backtracking), with the default strategy and exact arithmetic, for larger containers, rotation, smaller items and fewer items (C104_refuted_*). True for containers added behind the others (C104_containers_partial). See also C103, C90, C67 for changes that make no difference."
  },
  {
   "property": "C105",
   "status": "partial",
   "theorems": [
    "HP.C105_create_partial",
    "HP.C105_dimensions_partial",
    "HP.C105_reference",
    "HP.C105_methods_partial",
    "HP.C105_succeeds_partial",
    "HP.C105_sizes_partial",
    "HP.C105_valid_partial",
    "HP.C105_or_partial",
    "HP.C105_or_content_partial",
    "HP.C105_deepcopy",
    "HP.C105_str",
    "HP.C105_refuted_edit",
    "HP.C105_refuted_merge",
    "HP.C105_refuted_inplace"
   ],
   "note": "False of the code: without a problem no edit succeeds (AttributeError on None), deleting an entry raises although the entry is gone, str(Containers(...)) raises (C105_refuted_edit, C105_str); items | other raises unless other is a dict that gives a size for every id of items, and other | items always raises (C105_refuted_merge, C105_or_partial); |= on a variable checks nothing (C105_refuted_inplace). Proved: creation, validity after any history of methods, the exact effect of every method, deepcopy."
  },
  {
   "property": "C106",
   "status": "proved",
   "theorems": [
    "HP.C106_climb",
    "HP.C106_unique",
    "HP.C106_determined",
    "HP.C106_local_search"
   ],
   "note": ""
  },
  {
   "property": "C107",
   "status": "proved",
   "theorems": [
    "HP.C107_rounds",
    "HP.C107_unique",
    "HP.C107_hypersearch"
   ],
   "note": ""
  },
  {
   "property": "C108",
   "status": "proved",
   "theorems": [
    "HP.C108_team"
   ],
   "note": "values assumed not negative in rounded arithmetic (NonNeg; proved for exact arithmetic)"
  },
  {
   "property": "C109",
   "status": "partial",
   "theorems": [
    "HP.C109_applied_partial",
    "HP.C109_recover",
    "HP.C109_restore",
    "HP.C109_refuted",
    "HP.C109_refuted_workers",
    "HP.C109_refuted_hypersearch",
    "HP.C109_refuted_figure"
   ],
   "note": "Missing part is false of the code (C109_refuted*): a rejected dict turns rotation on; a rejected non-dict is given to the worker processes and makes create_figure raise AttributeError."
  },
  {
   "property": "C11",
   "status": "proved",
   "theorems": [
    "HP.C11_next_point",
    "HP.C11_strategy_effects"
   ],
   "note": ""
  },
  {
   "property": "C110",
   "status": "partial",
   "theorems": [
    "HP.C110_calls_partial",
    "HP.C110_history_partial",
    "HP.C110_validate",
    "HP.C110_figure_partial",
    "HP.C110_refuted",
    "HP.C110_refuted_figure"
   ],
   "note": "Documented in docs/source/problem_params.rst 317-342. Missing part is false of the code (C110_refuted*): worker processes and create_figure use settings that were never validated."
  },
  {
   "property": "C111",
   "status": "proved",
   "theorems": [
    "HP.C111_readings",
    "HP.C111_hypersearch",
    "HP.C111_local_search",
    "HP.C111_workers",
    "HP.C111_sharp"
   ],
   "note": "Several workers: for workers that are neither killed nor raise, with the limit of the stored settings (the workers validate them anew)."
  },
  {
   "property": "C112",
   "status": "proved",
   "theorems": [
    "HP.C112_own",
    "HP.C112_others",
    "HP.C112_independent",
    "HP.C112_accepted",
    "HP.C112_reach",
    "HP.C112_history",
    "HP.C112_new",
    "HP.C112_share"
   ],
   "note": "copy.copy of a problem is excluded here (see C113). C112_reach also excludes edits of Containers objects that are no longer the problem's (C44)."
  },
  {
   "property": "C113",
   "status": "partial",
   "theorems": [
    "HP.C113_deepcopy",
    "HP.C113_copy_partial",
    "HP.C113_refuted_copy"
   ],
   "note": "copy.deepcopy: proved in full. copy.copy: false of the code (the Items and Containers objects are shared and belong to the original, so edits through the copy change the original, discard the original's solution, and leave the copy with a stale one); what remains is C113_copy_partial."
  },
  {
   "property": "C114",
   "status": "proved",
   "theorems": [
    "HP.C114_step",
    "HP.C114_equal",
    "HP.C114_history",
    "HP.C114_after",
    "HP.C114_rebuild"
   ],
   "note": "The reports (log_solution, create_figure) read the result, so they are the same once results are (C114_equal). Rebuilding needs settings that are in force: settings edited in place (C110) or kept after a rejection (C109) are not."
  },
  {
   "property": "C115",
   "status": "proved",
   "theorems": [
    "HP.C115_first_fit",
    "HP.C115_double",
    "HP.C115_half",
    "HP.C115_lower",
    "HP.C115_two",
    "HP.C115_strip",
    "HP.C115_api"
   ],
   "note": "Binary64: under the size bound of C83."
  },
  {
   "property": "C116",
   "status": "proved",
   "theorems": [
    "HP.C116_first_fit",
    "HP.C116_double",
    "HP.C116_half",
    "HP.C116_lower",
    "HP.C116_two",
    "HP.C116_api"
   ],
   "note": "Binary64: under the size bound of C83."
  },
  {
   "property": "C117",
   "status": "proved",
   "theorems": [
    "HP.C117_default",
    "HP.C117_strip",
    "HP.C117_total",
    "HP.C117_prefix",
    "HP.C117_packing",
    "HP.C117_value"
   ],
   "note": "The class attributes max_obj_value and init_obj_value look like they belong to this, but nothing reads them. The overlap of C01 is as in solve."
  },
  {
   "property": "C118",
   "status": "proved",
   "theorems": [
    "HP.C118_columns",
    "HP.C118_double",
    "HP.C118_left",
    "HP.C118_enough",
    "HP.C118_api"
   ],
   "note": "C118_columns with exact arithmetic or strip packing, C118_double with binary64 for problems of ordinary size without low strips. Demo: columnDemo_meets, two containers with two columns each."
  },
  {
   "property": "C119",
   "status": "proved",
   "theorems": [
    "HP.C119_rows",
    "HP.C119_double",
    "HP.C119_left",
    "HP.C119_enough",
    "HP.C119_api"
   ],
   "note": "C119_rows with exact arithmetic or strip packing, C119_double with binary64 for problems of ordinary size. Demo: rowDemo_meets, two containers with two rows each."
  },
  {
   "property": "C12",
   "status": "proved",
   "theorems": [
    "HP.C12_used_points",
    "HP.C12_greedy"
   ],
   "note": "C12_greedy names points that are always among those used"
  },
  {
   "property": "C120",
   "status": "proved",
   "theorems": [
    "HP.C120_climb",
    "HP.C120_not_worse",
    "HP.C120_optimum",
    "HP.C120_hypersearch",
    "HP.C120_default",
    "HP.C120_strip",
    "HP.C120_default_hypersearch",
    "HP.C120_strip_hypersearch"
   ],
   "note": "Stated for one process: with workers_num > 1 the worker processes create plain HyperPack objects (processes.py 57), so the override has no effect there. Demo: ownObjective_run."
  },
  {
   "property": "C121",
   "status": "proved",
   "theorems": [
    "HP.C121_columns",
    "HP.C121_rows",
    "HP.C121_double",
    "HP.C121_api"
   ],
   "note": "C121_columns and C121_rows with exact arithmetic, C121_double with binary64 for problems of ordinary size; the bound is reached by twiceDemo and twiceRows."
  },
  {
   "property": "C122",
   "status": "partial",
   "theorems": [
    "HP.C122_value_partial",
    "HP.C122_workers_partial",
    "HP.C122_pool_partial",
    "HP.C122_refuted",
    "HP.C122_late_refuted"
   ],
   "note": "False of the code for the packing and the best strategy of exhaustive searches (C122_refuted: plain hypersearch() of one container and three items) and for the value of searches that reach their time limit (C122_late_refuted). Proved: in bin packing the overall objective value does not depend on the run (one worker: C122_value_partial; several workers, any schedules and numbers of workers: C122_workers_partial); with _exhaustive=False nothing depends on it, also when strip packing (C122_pool_partial)."
  },
  {
   "property": "C123",
   "status": "proved",
   "theorems": [
    "HP.C123_gain",
    "HP.C123_one",
    "HP.C123_strip",
    "HP.C123_strip_closed",
    "HP.C123_hypersearch"
   ],
   "note": "C18_work_bound gives n!(H+1)+2 scans; here the number of scans is linear in the progress. The bound with several containers or one container is for exact arithmetic; the strip bound holds for any arithmetic."
  },
  {
   "property": "C124",
   "status": "proved",
   "theorems": [
    "HP.C124_exchange",
    "HP.C124_order",
    "HP.C124_value",
    "HP.C124_one_size",
    "HP.C124_local_search"
   ],
   "note": ""
  },
  {
   "property": "C125",
   "status": "proved",
   "theorems": [
    "HP.C125_grid",
    "HP.C125_number",
    "HP.C125_most",
    "HP.C125_fewest",
    "HP.C125_rows",
    "HP.C125_double",
    "HP.C125_api"
   ],
   "note": ""
  },
  {
   "property": "C126",
   "status": "partial",
   "theorems": [
    "HP.C126_rows_partial",
    "HP.C126_hypersearch_partial",
    "HP.C126_workers_partial",
    "HP.C126_pile",
    "HP.C126_pile_search",
    "HP.C126_refuted"
   ],
   "note": "False of the code for the default strategy (C126_refuted: three unit squares in a strip of width 3 end at height 3; C126_pile and C126_pile_search for all such problems): solve() puts equal items into a single pile if container_height allows it, and local_search() cannot improve it. Proved of solve() with B before A before A'' in the strategy (C126_rows_partial), and of exhaustive hypersearch() in exact arithmetic (one worker, items at least 2 long, no time limit reached: C126_hypersearch_partial; several workers, none of which fails: C126_workers_partial)."
  },
  {
   "property": "C127",
   "status": "partial",
   "theorems": [
    "HP.C127_returns_partial",
    "HP.C127_refused",
    "HP.C127_refuted"
   ],
   "note": "False of the code as stated: the object of each worker validates the settings again, the figure settings with them, so hypersearch() by two workers raises SettingsError if the export folder has disappeared since, while solve() and local_search() work (C127_refuted; C127_refused for every such problem). Proved if the figure settings are still accepted at the time of the search (C127_returns_partial)."
  },
  {
   "property": "C128",
   "status": "partial",
   "theorems": [
    "HP.C128_reports",
    "HP.C128_read",
    "HP.C128_optimum_partial",
    "HP.C128_optimum_strip_partial",
    "HP.C128_refuted"
   ],
   "note": "False of the code in one point: with throttle and more than 71 items the search stops after 2500 neighbours of a node and logs that it found a local optimum, although a later exchange may be better (C128_refuted). The rest is proved; local optima are proved without throttle or with at most 71 items. Texts are modelled as records of the values they show; the record of the current strategy in hypersearch is in C129."
  },
  {
   "property": "C129",
   "status": "proved",
   "theorems": [
    "HP.C129_reports",
    "HP.C129_workers"
   ],
   "note": "Texts are modelled as records of the values they show. The record of the best possible value (heuristics.py 484) is never made, C30. What worker processes themselves log at DEBUG is not modelled. C129_reports is about the search part of hypersearch(), for the problem after sort_items and orient_items."
  },
  {
   "property": "C13",
   "status": "proved",
   "theorems": [
    "HP.C13_frame"
   ],
   "note": ""
  },
  {
   "property": "C130",
   "status": "proved",
   "theorems": [
    "HP.C130_columns",
    "HP.C130_rows",
    "HP.C130_double",
    "HP.C130_rows_double",
    "HP.C130_api"
   ],
   "note": "C130_columns and C130_rows with exact arithmetic, C130_double and C130_rows_double with binary64 for problems of ordinary size; the bound is reached by decreasingMiss, where one container is enough and two are used."
  },
  {
   "property": "C131",
   "status": "proved",
   "theorems": [
    "HP.C131_wide",
    "HP.C131_long",
    "HP.C131_double",
    "HP.C131_long_double"
   ],
   "note": "C131_wide and C131_long with exact arithmetic, C131_double and C131_long_double with binary64 for problems of ordinary size. The bound is reached by wideMiss (2 containers are enough, 3 are used)."
  },
  {
   "property": "C132",
   "status": "proved",
   "theorems": [
    "HP.C132_columns",
    "HP.C132_rows",
    "HP.C132_wide",
    "HP.C132_long",
    "HP.C132_double",
    "HP.C132_rows_double",
    "HP.C132_wide_double",
    "HP.C132_long_double",
    "HP.C132_api"
   ],
   "note": "Exact arithmetic, and binary64 for problems of ordinary size. Without divisibility the claim is false: decreasingMiss, wideMiss (C130, C131)."
  },
  {
   "property": "C133",
   "status": "partial",
   "theorems": [
    "HP.C133_columns_partial",
    "HP.C133_wide_partial",
    "HP.C133_rows_partial",
    "HP.C133_long_partial",
    "HP.C133_double_partial",
    "HP.C133_rows_double_partial",
    "HP.C133_wide_double_partial",
    "HP.C133_long_double_partial",
    "HP.C133_refuted"
   ],
   "note": "False of the code: without its first, smallest item a problem of eight items needs four containers instead of three (C133_refuted, default strategy). True if no item can be a sliver (C02) and the remaining items come longest first, their lengths divide each other, and they have one width (C133_columns_partial) or no two fit side by side (C133_wide_partial), or the same with width and length exchanged (C133_rows_partial, C133_long_partial), also in binary64; then whatever the order of the larger problem was. See also C104 for items that are no longer packed at all."
  },
  {
   "property": "C134",
   "status": "proved",
   "theorems": [
    "HP.C134_columns",
    "HP.C134_rows",
    "HP.C134_count",
    "HP.C134_rows_count",
    "HP.C134_no_waste",
    "HP.C134_double",
    "HP.C134_rows_double",
    "HP.C134_count_double",
    "HP.C134_rows_count_double",
    "HP.C134_no_waste_double"
   ],
   "note": "Exact arithmetic, and binary64 for problems of ordinary size. Rounding up is stated as: the containers used are enough for the area, and no smaller number is."
  },
  {
   "property": "C14",
   "status": "proved",
   "theorems": [
    "HP.C14_function"
   ],
   "note": ""
  },
  {
   "property": "C15",
   "status": "proved",
   "theorems": [
    "HP.C15_sequence",
    "HP.C15_repetitions"
   ],
   "note": ""
  },
  {
   "property": "C16",
   "status": "proved",
   "theorems": [
    "HP.C16_not_worse",
    "HP.C16_any_count"
   ],
   "note": "proved in both modes"
  },
  {
   "property": "C17",
   "status": "proved",
   "theorems": [
    "HP.C17_genuine",
    "HP.C17_carries_over",
    "HP.C17_frame"
   ],
   "note": ""
  },
  {
   "property": "C18",
   "status": "proved",
   "theorems": [
    "HP.C18_terminates",
    "HP.C18_work_bound"
   ],
   "note": ""
  },
  {
   "property": "C19",
   "status": "proved",
   "theorems": [
    "HP.C19_local_optimum",
    "HP.C19_strip"
   ],
   "note": ""
  },
  {
   "property": "C20",
   "status": "proved",
   "theorems": [
    "HP.C20_throttle",
    "HP.C20_small",
    "HP.C20_sharp"
   ],
   "note": ""
  },
  {
   "property": "C21",
   "status": "proved",
   "theorems": [
    "HP.C21_time_limit",
    "HP.C106_climb",
    "HP.C106_determined"
   ],
   "note": ""
  },
  {
   "property": "C22",
   "status": "proved",
   "theorems": [
    "HP.C22_consistent_bin",
    "HP.C22_consistent_strip",
    "HP.C22_hypersearch_genuine",
    "HP.C22_hypersearch_bin",
    "HP.C22_hypersearch_strip"
   ],
   "note": "local_search and single process hypersearch; solve is C07/C08_partial"
  },
  {
   "property": "C23",
   "status": "proved",
   "theorems": [
    "HP.C23_height_down",
    "HP.C23_final_height",
    "HP.C23_below",
    "HP.C106_climb"
   ],
   "note": ""
  },
  {
   "property": "C24",
   "status": "partial",
   "theorems": [
    "HP.C24_partial",
    "HP.C24_refuted",
    "HP.C66_local_search"
   ],
   "note": "False of the code: the initial packing is retained without checking that it contains all items (C24_refuted). True whenever the strip is at least as high as all items piled up (C66_local_search)."
  },
  {
   "property": "C25",
   "status": "proved",
   "theorems": [
    "HP.C25_heights"
   ],
   "note": ""
  },
  {
   "property": "C26",
   "status": "partial",
   "theorems": [
    "HP.C26_partial",
    "HP.C26_refuted"
   ],
   "note": "False of the code, with all arguments at their defaults: _check_solution compares values only, so an incomplete starting packing at the lowered strip height replaces a complete one (C26_refuted). C26_partial: an incomplete result can only be such a starting packing."
  },
  {
   "property": "C27",
   "status": "proved",
   "theorems": [
    "HP.C27_total",
    "HP.C27_best",
    "HP.C27_any_count",
    "HP.C27_returns",
    "HP.C27_frame"
   ],
   "note": ""
  },
  {
   "property": "C28",
   "status": "proved",
   "theorems": [
    "HP.C28_strategies"
   ],
   "note": ""
  },
  {
   "property": "C29",
   "status": "partial",
   "theorems": [
    "HP.C29_partial",
    "HP.C29_refuted",
    "HP.C29_refuted_best",
    "HP.C29_left_at_last"
   ],
   "note": "False of the code: potential_points_strategy is left at the last strategy tried, and best_strategy is the default strategy when the initial solve is not improved."
  },
  {
   "property": "C30",
   "status": "partial",
   "theorems": [
    "HP.C30_partial",
    "HP.C30_refuted"
   ],
   "note": "False of the code: the optimum is infinite, so the search never stops early (C30_refuted holds for every problem); C30_partial: the value found is kept."
  },
  {
   "property": "C31",
   "status": "proved",
   "theorems": [
    "HP.C31_partition",
    "HP.C31_count",
    "HP.C31_one_worker",
    "HP.C31_rounded"
   ],
   "note": "float division taken as exact; C31_rounded: binary64 gives the same"
  },
  {
   "property": "C32",
   "status": "proved",
   "theorems": [
    "HP.C32_best",
    "HP.C32_returns"
   ],
   "note": "values assumed not negative in rounded arithmetic (NonNeg; proved for exact arithmetic: nonNeg_exact)"
  },
  {
   "property": "C33",
   "status": "proved",
   "theorems": [
    "HP.C33_iff",
    "HP.C33_only_if",
    "HP.C33_none_raised"
   ],
   "note": "iff when no worker is killed; with killed workers only-if"
  },
  {
   "property": "C34",
   "status": "proved",
   "theorems": [
    "HP.C34_single",
    "HP.C34_workers"
   ],
   "note": ""
  },
  {
   "property": "C35",
   "status": "partial",
   "theorems": [
    "HP.C35_partial",
    "HP.C35_exact_partial",
    "HP.C35_after_partial",
    "HP.C35_refuted",
    "HP.C35_refuted_one"
   ],
   "note": "False of the code: queue.get() waits forever for the message of a killed worker (C35_refuted for every problem, C35_refuted_one with a surviving worker). C35_partial: it comes back if some surviving worker improved and the killed ones recorded nothing; C35_exact_partial: the exact condition."
  },
  {
   "property": "C36",
   "status": "proved",
   "theorems": [
    "HP.C36_valid"
   ],
   "note": "histories of the operations listed in Model/Machine.lean; |= is C37, edits through a Containers or Items object that has been replaced are excluded (see C44)"
  },
  {
   "property": "C37",
   "status": "partial",
   "theorems": [
    "HP.C37_partial",
    "HP.C37_refuted",
    "HP.C37_size_partial",
    "HP.C37_size_raises",
    "HP.C37_refuted_size"
   ],
   "note": "False of the code: UserDict.__ior__ writes to data directly, and the attribute assignment then raises (C37_refuted, every object). C37_partial: merging valid entries leaves a valid structure. The same for one size, problem.items[id] |= other (C37_refuted_size, C37_size_partial)."
  },
  {
   "property": "C38",
   "status": "proved",
   "theorems": [
    "HP.C38_discards",
    "HP.C38_changed"
   ],
   "note": ""
  },
  {
   "property": "C39",
   "status": "proved",
   "theorems": [
    "HP.C39_rejected",
    "HP.C39_update"
   ],
   "note": "update() is a sequence of key assignments: the entries before the rejected one stay (C39_update)"
  },
  {
   "property": "C40",
   "status": "partial",
   "theorems": [
    "HP.C40_partial",
    "HP.C40_refuted"
   ],
   "note": "False of the code: an assignment whose first entry is valid resets the solution before a later entry is rejected. C40_partial states exactly when."
  },
  {
   "property": "C41",
   "status": "proved",
   "theorems": [
    "HP.C41_nonempty",
    "HP.C41_clear"
   ],
   "note": ""
  },
  {
   "property": "C42",
   "status": "proved",
   "theorems": [
    "HP.C42_rejected",
    "HP.C42_kept"
   ],
   "note": ""
  },
  {
   "property": "C43",
   "status": "proved",
   "theorems": [
    "HP.C43_current"
   ],
   "note": "in strip packing only the width limits: the container's own length is a constant that is not used"
  },
  {
   "property": "C44",
   "status": "partial",
   "theorems": [
    "HP.C44_partial",
    "HP.C44_objects_partial",
    "HP.C44_refuted",
    "HP.C44_unsolved"
   ],
   "note": "False of the code if a replaced Containers object is edited: it changes the container count of the problem (C44_refuted). C44_partial: all histories without that."
  },
  {
   "property": "C45",
   "status": "proved",
   "theorems": [
    "HP.C45_strategy"
   ],
   "note": ""
  },
  {
   "property": "C46",
   "status": "proved",
   "theorems": [
    "HP.C46_height",
    "HP.C46_minHeight",
    "HP.C46_reset",
    "HP.C46_bin"
   ],
   "note": "C46_bin: on a bin packing object the minimum height setter raises TypeError"
  },
  {
   "property": "C47",
   "status": "proved",
   "theorems": [
    "HP.C47_applied",
    "HP.C47_accepts",
    "HP.C47_legal"
   ],
   "note": ""
  },
  {
   "property": "C48",
   "status": "partial",
   "theorems": [
    "HP.C48_partial",
    "HP.C48_refuted",
    "HP.C48_infinite"
   ],
   "note": "False of the code: any value comparing > 0 is accepted, e.g. 2.5, True, inf."
  },
  {
   "property": "C49",
   "status": "partial",
   "theorems": [
    "HP.C49_partial",
    "HP.C49_name",
    "HP.C49_plotly_partial",
    "HP.C49_kaleido_partial",
    "HP.C49_refuted_version",
    "HP.C49_refuted_name",
    "HP.C49_refuted_html"
   ],
   "note": "False of the code: versions are compared as tuples of strings, the file name may end in a newline, width and height are not checked for html. C49_partial states exactly what is accepted."
  },
  {
   "property": "C50",
   "status": "proved",
   "theorems": [
    "HP.C50_sorted",
    "HP.C50_reverse",
    "HP.C50_unknown"
   ],
   "note": "the ratio criterion compares rounded quotients"
  },
  {
   "property": "C51",
   "status": "proved",
   "theorems": [
    "HP.C51_oriented",
    "HP.C51_shape",
    "HP.C51_skipped"
   ],
   "note": ""
  },
  {
   "property": "C52",
   "status": "partial",
   "theorems": [
    "HP.C52_partial",
    "HP.C52_unsolved",
    "HP.C52_refuted"
   ],
   "note": "False of the code: ZeroDivisionError when nothing is placed in a strip. C52_partial: everything else, with the exact condition."
  },
  {
   "property": "C53",
   "status": "partial",
   "theorems": [
    "HP.C53_partial",
    "HP.C53_iff_partial",
    "HP.C53_refuted"
   ],
   "note": "False of the code: IndexError for more than 1000 items in a container (there are 1000 colours)."
  },
  {
   "property": "C54",
   "status": "partial",
   "theorems": [
    "HP.C54_partial",
    "HP.C54_refuted"
   ],
   "note": "False of the code for ids with '/': 'a/b' and 'a//b' denote the same file. C54_partial: names are always different, files are if ids contain no '/'."
  },
  {
   "property": "C55",
   "status": "partial",
   "theorems": [
    "HP.C55_partial",
    "HP.C55_contents",
    "HP.C55_refuted"
   ],
   "note": "False of the code, e.g. items_width=1: the lower bound of a draw may be 0 or negative. C55_partial gives the exact condition on the parameters."
  },
  {
   "property": "C56",
   "status": "proved",
   "theorems": [
    "HP.C56_copies"
   ],
   "note": ""
  },
  {
   "property": "C57",
   "status": "partial",
   "theorems": [
    "HP.C57_partial",
    "HP.C57_ends",
    "HP.C57_refuted"
   ],
   "note": "False of the code: join() comes before queue.get(), so a message larger than the pipe buffer deadlocks (C57_refuted, every problem and schedule). C57_partial: it comes back if messages fit."
  },
  {
   "property": "C58",
   "status": "proved",
   "theorems": [
    "HP.C58_local",
    "HP.C58_hyper",
    "HP.C58_multi"
   ],
   "note": ""
  },
  {
   "property": "C59",
   "status": "proved",
   "theorems": [
    "HP.C59_assign",
    "HP.C59_setKey",
    "HP.C59_setDim",
    "HP.C59_delKey"
   ],
   "note": ""
  },
  {
   "property": "C60",
   "status": "proved",
   "theorems": [
    "HP.C60_accepts",
    "HP.C60_state"
   ],
   "note": ""
  },
  {
   "property": "C61",
   "status": "proved",
   "theorems": [
    "HP.C61_prefix",
    "HP.C61_api"
   ],
   "note": ""
  },
  {
   "property": "C62",
   "status": "proved",
   "theorems": [
    "HP.C62_leftover",
    "HP.C62_api"
   ],
   "note": "in strip packing 0/n = 0 is assumed of the division"
  },
  {
   "property": "C63",
   "status": "proved",
   "theorems": [
    "HP.C63_names"
   ],
   "note": ""
  },
  {
   "property": "C64",
   "status": "proved",
   "theorems": [
    "HP.C64_replay"
   ],
   "note": "in strip packing 0/n = 0 is assumed of the division"
  },
  {
   "property": "C65",
   "status": "proved",
   "theorems": [
    "HP.C65_above_stack",
    "HP.C65_needs_A"
   ],
   "note": ""
  },
  {
   "property": "C66",
   "status": "proved",
   "theorems": [
    "HP.C66_room",
    "HP.C66_strip",
    "HP.C66_local_search"
   ],
   "note": ""
  },
  {
   "property": "C67",
   "status": "partial",
   "theorems": [
    "HP.C67_partial",
    "HP.C67_exact_partial",
    "HP.C67_high_partial",
    "HP.C67_refuted"
   ],
   "note": "False of the code: the B'/F classification depends on container_height (C67_refuted, default strategy). C67_partial: true if the strategy has neither B' nor F points or the 20% test agrees; C67_exact_partial, C67_high_partial: exact arithmetic, heights at least 5 times the stack / the pile of all items."
  },
  {
   "property": "C68",
   "status": "proved",
   "theorems": [
    "HP.C68_pile",
    "HP.C68_stack",
    "HP.C68_api"
   ],
   "note": ""
  },
  {
   "property": "C69",
   "status": "proved",
   "theorems": [
    "HP.C69_constructor",
    "HP.C69_call",
    "HP.C69_history",
    "HP.C69_reach",
    "HP.C69_current",
    "HP.C69_settings"
   ],
   "note": ""
  },
  {
   "property": "C70",
   "status": "proved",
   "theorems": [
    "HP.C70_prepare",
    "HP.C70_single",
    "HP.C70_multi"
   ],
   "note": "C70_multi assumes that utilizations are not negative (NonNeg), as C32"
  },
  {
   "property": "C71",
   "status": "proved",
   "theorems": [
    "HP.C71_priority"
   ],
   "note": ""
  },
  {
   "property": "C72",
   "status": "proved",
   "theorems": [
    "HP.C72_kept",
    "HP.C72_connected",
    "HP.C72_assign",
    "HP.C72_sort",
    "HP.C72_hypersearch",
    "HP.C72_disconnected"
   ],
   "note": "C72_sort / C72_hypersearch: what users may not expect, sorting disconnects kept Items objects"
  },
  {
   "property": "C73",
   "status": "proved",
   "theorems": [
    "HP.C73_connected",
    "HP.C73_kept",
    "HP.C73_replaced",
    "HP.C73_disconnected",
    "HP.C73_both"
   ],
   "note": ""
  },
  {
   "property": "C74",
   "status": "partial",
   "theorems": [
    "HP.C74_partial",
    "HP.C74_copy",
    "HP.C74_copy_structure",
    "HP.C74_shallow",
    "HP.C74_refuted"
   ],
   "note": "False of the code: problem.items['a'].copy() discards the solution (C74_refuted), always and only that; for the container of strip packing it also raises (C74_copy). C74_partial: copy.copy, Items/Containers.copy() (raises), log_solution, create_figure."
  },
  {
   "property": "C75",
   "status": "proved",
   "theorems": [
    "HP.C75_transparent",
    "HP.C75_valid",
    "HP.C75_current"
   ],
   "note": "Editing a replaced Containers object makes the stored number of containers wrong (C44_refuted), hence the exception"
  },
  {
   "property": "C76",
   "status": "proved",
   "theorems": [
    "HP.C76_heuristic",
    "HP.C76_no_low_strips"
   ],
   "note": "hypothesis: no overlap in the result (guaranteed by C02 when no item can be laid as a low strip; see finding C01)"
  },
  {
   "property": "C77",
   "status": "proved",
   "theorems": [
    "HP.C77_points",
    "HP.C77_origins"
   ],
   "note": "layouts without overlaps"
  },
  {
   "property": "C78",
   "status": "proved",
   "theorems": [
    "HP.C78_units",
    "HP.C78_exact"
   ],
   "note": "C78_exact: exact arithmetic meets the hypotheses on the rounding"
  },
  {
   "property": "C79",
   "status": "proved",
   "theorems": [
    "HP.C79_new",
    "HP.C79_local_search",
    "HP.C79_arrange",
    "HP.C79_hypersearch",
    "HP.C79_sorting_uses_names"
   ],
   "note": "Ties in sort_items are broken by id: C79_sorting_uses_names shows that the condition on the renaming is needed."
  },
  {
   "property": "C80",
   "status": "proved",
   "theorems": [
    "HP.C80_new",
    "HP.C80_local_search",
    "HP.C80_arrange",
    "HP.C80_hypersearch",
    "HP.C80_exact"
   ],
   "note": "Bin packing; for strip packing see C08 (the objective divides by the top row index, which does not scale)."
  },
  {
   "property": "C81",
   "status": "proved",
   "theorems": [
    "HP.C81_double",
    "HP.C81_utilization",
    "HP.C81_full",
    "HP.C81_greedy",
    "HP.C81_full_converse_refuted"
   ],
   "note": "The converse of the early stop fails: a full container can be reported with 0.9999999999999999 (C81_full_converse_refuted), which only costs time. Exponent range unbounded; sum() as in CPython up to 3.11."
  },
  {
   "property": "C82",
   "status": "proved",
   "theorems": [
    "HP.C82_order",
    "HP.C82_reported",
    "HP.C82_local_search",
    "HP.C82_local_optimum",
    "HP.C82_hypersearch",
    "HP.C82_loss",
    "HP.C82_strip",
    "HP.C82_ties_refuted"
   ],
   "note": "Packings of equal exact value may be reported with different values (0.6 and 0.6000000000000001, C82_ties_refuted), so an improvement may be a tie, but never a loss."
  },
  {
   "property": "C83",
   "status": "proved",
   "theorems": [
    "HP.C83_agree",
    "HP.C83_bin",
    "HP.C83_strip"
   ],
   "note": "C83_agree is for any two ways of rounding that agree on the 20% test and report 1 only for full containers. Exponent range unbounded."
  },
  {
   "property": "C84",
   "status": "proved",
   "theorems": [
    "HP.C84_items",
    "HP.C84_containers",
    "HP.C84_faithful",
    "HP.C84_faithful_containers",
    "HP.C84_newline_refuted"
   ],
   "note": "C84_newline_refuted: with a line break in an id one item can print like two. Sizes given as bools would print as True and are outside the model."
  },
  {
   "property": "C85",
   "status": "proved",
   "theorems": [
    "HP.C85",
    "HP.C85_large_refuted"
   ],
   "note": "Python's repr of the remaining ids is a parameter without line breaks. The ZeroDivisionError case is C52. C85_large_refuted: with 2000001 items one missing item is rounded away."
  },
  {
   "property": "C86",
   "status": "proved",
   "theorems": [
    "HP.C86_axes",
    "HP.C86_tick",
    "HP.C86_tick_huge"
   ],
   "note": "C86_tick_huge: above 2^53 the distance can be too small. An empty strip has length 0 and tick distance 0."
  },
  {
   "property": "C87",
   "status": "proved",
   "theorems": [
    "HP.C87_edges",
    "HP.C87_sums",
    "HP.C87_bounds",
    "HP.C87_reachable"
   ],
   "note": "No assumption that items do not overlap."
  },
  {
   "property": "C88",
   "status": "proved",
   "theorems": [
    "HP.C88_counts",
    "HP.C88_optimal",
    "HP.C88_double",
    "HP.C88_turned_refuted"
   ],
   "note": "The strategy must contain A, A'', B, B'' (all defaults do). C88_turned_refuted shows the hypothesis on turning is needed: 2x3 items in a 3x4 container."
  },
  {
   "property": "C89",
   "status": "partial",
   "theorems": [
    "HP.C89_partial",
    "HP.C89_refuted"
   ],
   "note": "False in the code for strategies with sliding points (C89_refuted): points that slide to the left are checked differently from those that fall. Missing part is false."
  },
  {
   "property": "C90",
   "status": "proved",
   "theorems": [
    "HP.C90_unturned",
    "HP.C90_squares"
   ],
   "note": ""
  },
  {
   "property": "C91",
   "status": "proved",
   "theorems": [
    "HP.ALS.C91_climb",
    "HP.ALS.C91_optimum",
    "HP.ALS.C91_optimization",
    "HP.ALS.C91_opt_num",
    "HP.ALS.C91_order",
    "HP.ALS.C91_hyperpack"
   ],
   "note": "Finding: the class is documented as N-opt, but OPT_NUM other than 2 raises ValueError (C91_opt_num). Simplification: methods other than get_init_solution, evaluate_node and the hooks do not change the object; global_check and get_max_neighbors_num are not overridden."
  },
  {
   "property": "C92",
   "status": "partial",
   "theorems": [
    "HP.C92_partial",
    "HP.C92_workers_partial",
    "HP.C92_refuted"
   ],
   "note": "Holds for the 720 strategies that end in A__, B__, F, E (C92_partial, and C92_workers_partial for several processes). False for others (C92_refuted): neither the configured strategy nor the default one is among those tried, although _exhaustive is documented as every possible strategy; the witness is a container that local_search fills and hypersearch fills to 3/4. Missing part is false."
  },
  {
   "property": "C93",
   "status": "proved",
   "theorems": [
    "HP.C93_stored",
    "HP.C93_validate",
    "HP.C93_files"
   ],
   "note": "Together with C53_partial (which assumes the files can be written and at most 1000 items per container). Reading the settings dict by key; the order of its entries is kept by the model's setEntry but not part of the statement."
  },
  {
   "property": "C94",
   "status": "proved",
   "theorems": [
    "HP.C94_assign",
    "HP.C94_setKey",
    "HP.C94_setDim",
    "HP.C94_delKey",
    "HP.C94_delDim",
    "HP.C94_pop",
    "HP.C94_popItem",
    "HP.C94_setDefault",
    "HP.C94_update",
    "HP.C94_height",
    "HP.C94_minHeight",
    "HP.C94_strategy",
    "HP.C94_merge",
    "HP.C94_settings",
    "HP.C94_new"
   ],
   "note": "The text of the messages is represented by the name of the constant in exceptions.py. The version tests are the code's (string comparison, see C49), the file name test is characterised in C49_name."
  },
  {
   "property": "C95",
   "status": "proved",
   "theorems": [
    "HP.C95_frame",
    "HP.C95_history"
   ],
   "note": "Attributes of the model's Inst; the object identity of items, containers and sizes is the subject of C72-C75."
  },
  {
   "property": "C96",
   "status": "partial",
   "theorems": [
    "HP.C96_same_partial",
    "HP.C96_bin_partial",
    "HP.C96_height_partial",
    "HP.C96_reset_partial",
    "HP.C96_refuted"
   ],
   "note": "False of the code for strips (C96_refuted); proved: bin packing in full, strip packing for the height and after reset_container_height()."
  },
  {
   "property": "C97",
   "status": "partial",
   "theorems": [
    "HP.C97_constructor_partial",
    "HP.C97_call_partial",
    "HP.C97_history_partial",
    "HP.C97_reach_partial",
    "HP.C97_given_partial",
    "HP.C97_same",
    "HP.C97_applied",
    "HP.C97_refuted"
   ],
   "note": "False of the code for searches in several processes (C97_refuted); proved for all histories in one process, and for several processes if the three settings are given. (The documentation names the rotation constant ROTATE_DEFAULT_VALUE; in the code it is ROTATION_DEFAULT_VALUE.)"
  },
  {
   "property": "C98",
   "status": "partial",
   "theorems": [
    "HP.C98_error_partial",
    "HP.C98_constructor_partial",
    "HP.C98_workers",
    "HP.C98_warnings",
    "HP.C98_constructor_warnings",
    "HP.C98_info",
    "HP.C98_twice",
    "HP.C98_refuted",
    "HP.C98_refuted_documented"
   ],
   "note": "False of the code for a workers_num that is not positive (logged twice, C98_refuted) and on other systems than Windows (C98_refuted_documented); the rest is proved. Of DEBUG records only those of local_search (C128) and of hypersearch in the parent process (C129) are modelled; records of the worker processes are not."
  },
  {
   "property": "C99",
   "status": "partial",
   "theorems": [
    "HP.C99_complete",
    "HP.C99_valid",
    "HP.C99_usable",
    "HP.C99_hypersearch",
    "HP.C99_log",
    "HP.C99_atomic",
    "HP.C99_prefix",
    "HP.C99_orient_partial",
    "HP.C99_search_partial",
    "HP.C99_solution_partial",
    "HP.C99_again",
    "HP.C99_retry",
    "HP.C99_refuted",
    "HP.C99_retry_refuted",
    "HP.C99_orient_refuted",
    "HP.C99_best_refuted",
    "HP.C99_values_refuted",
    "HP.C99_count_refuted",
    "HP.C99_height_refuted",
    "HP.C99_flags"
   ],
   "note": "The data, and that the object stays usable, are proved for all histories with cuts; that the solution belongs to the data is proved when the calls that edit first are not cut off, and refuted otherwise. Interruptions inside worker processes, start_time and debug attributes are not modelled."
  }
 ]
}