{
 "claims": [
  {
   "property": "C01",
   "status": "proved",
   "theorems": [
    "Pokers.C01_evaluate_order"
   ],
   "note": "All hands of 2..7 distinct cards. Tables checked completely inside the kernel."
  },
  {
   "property": "C02",
   "status": "proved",
   "theorems": [
    "Pokers.C02_category",
    "Pokers.C02_category_range",
    "Pokers.empty_hand_scores_quads",
    "Pokers.single_card_not_ordered"
   ],
   "note": "2..7 cards; the empty hand and single cards do not satisfy it (see empty_hand_scores_quads, single_card_not_ordered)."
  },
  {
   "property": "C03",
   "status": "proved",
   "theorems": [
    "Pokers.C03_order_and_grouping",
    "Pokers.C03_perm",
    "Pokers.C03_hole_cards",
    "Pokers.C03_from_bit_mask"
   ],
   "note": ""
  },
  {
   "property": "C04",
   "status": "proved",
   "theorems": [
    "Pokers.C04_no_flush",
    "Pokers.C04_ignores_suits",
    "Pokers.C04_le"
   ],
   "note": ""
  },
  {
   "property": "C05",
   "status": "proved",
   "theorems": [
    "Pokers.C05_suit_relabelling"
   ],
   "note": ""
  },
  {
   "property": "C06",
   "status": "proved",
   "theorems": [
    "Pokers.C06_evaluate_in_bounds",
    "Pokers.C06_card_index_in_bounds"
   ],
   "note": ""
  },
  {
   "property": "C07",
   "status": "proved",
   "theorems": [
    "Pokers.C07_more_cards_never_hurt",
    "Pokers.more_cards_can_hurt_below_two"
   ],
   "note": "2..6 cards; below two cards it fails (more_cards_can_hurt_below_two)."
  },
  {
   "property": "C08",
   "status": "proved",
   "theorems": [
    "Pokers.C08_counters",
    "Pokers.C08_flush_key"
   ],
   "note": ""
  },
  {
   "property": "C09",
   "status": "proved",
   "theorems": [
    "Pokers.C09_no_key_overflow",
    "Pokers.C09_bound_sharp"
   ],
   "note": ""
  },
  {
   "property": "C10",
   "status": "proved",
   "theorems": [
    "Pokers.C10_card_index_bijective"
   ],
   "note": ""
  },
  {
   "property": "C11",
   "status": "proved",
   "theorems": [
    "Pokers.C11_hand_index",
    "Pokers.C11_hand_index_ofCards"
   ],
   "note": ""
  },
  {
   "property": "C12",
   "status": "proved",
   "theorems": [
    "Pokers.C12_index_to_hand",
    "Pokers.C12_index_to_hand_order",
    "Pokers.C12_hand_to_index",
    "Pokers.C12_combo_to_index",
    "Pokers.C12_index_to_combo",
    "Pokers.C12_blocks",
    "Pokers.C12_combo_hands",
    "Pokers.C12_sizes"
   ],
   "note": ""
  },
  {
   "property": "C13",
   "status": "proved",
   "theorems": [
    "Pokers.C13_hand",
    "Pokers.C13_hand_found",
    "Pokers.C13_combo"
   ],
   "note": "Lookups of hand results by name (any order of the two cards that names the hand) and of combo results by the combo's text."
  },
  {
   "property": "C14",
   "status": "proved",
   "theorems": [
    "Pokers.C14_mask_to_string",
    "Pokers.C14_names",
    "Pokers.C14_invalid",
    "Pokers.C14_roundtrip",
    "Pokers.C14_holes"
   ],
   "note": ""
  },
  {
   "property": "C15",
   "status": "partial",
   "theorems": [
    "Pokers.C15_accepts",
    "Pokers.C15_roundtrip",
    "Pokers.C15_rejects_partial",
    "Pokers.C15_rejects_fails",
    "Pokers.C15_panics",
    "Pokers.C15_length"
   ],
   "note": "The first half is proved. The second half is false for the code (C15_rejects_fails, C15_panics); C15_rejects_partial says exactly what is accepted. Exactly when it holds: C77_card (claim C77)."
  },
  {
   "property": "C16",
   "status": "proved",
   "theorems": [
    "Pokers.C16_flop",
    "Pokers.C16_rejects",
    "Pokers.C16_accepted"
   ],
   "note": "C16_accepted also describes everything that is accepted; it inherits the value 255 of C15."
  },
  {
   "property": "C17",
   "status": "proved",
   "theorems": [
    "Pokers.C17_total",
    "Pokers.C17_strings",
    "Pokers.C17_overflow_happens",
    "Pokers.C17_ranks",
    "Pokers.empty_weight_is_zero",
    "Pokers.large_weight_stops_parsing",
    "Pokers.space_stops_parsing"
   ],
   "note": "Holds for every lower-casing function. The overflow is real (C17_overflow_happens)."
  },
  {
   "property": "C18",
   "status": "proved",
   "theorems": [
    "Pokers.C18_wellformed"
   ],
   "note": ""
  },
  {
   "property": "C19",
   "status": "proved",
   "theorems": [
    "Pokers.C19_sorted",
    "Pokers.C19_nodup"
   ],
   "note": ""
  },
  {
   "property": "C20",
   "status": "proved",
   "theorems": [
    "Pokers.C20_token",
    "Pokers.ascending_plus_is_empty",
    "Pokers.dash_across_includes_pair"
   ],
   "note": "The notation is that of Verif/Spec/Range.lean. Surprising consequences: ascending_plus_is_empty, dash_across_includes_pair."
  },
  {
   "property": "C21",
   "status": "proved",
   "theorems": [
    "Pokers.C21_union",
    "Pokers.C21_extensional"
   ],
   "note": ""
  },
  {
   "property": "C22",
   "status": "proved",
   "theorems": [
    "Pokers.C22_random",
    "Pokers.random_is_case_sensitive"
   ],
   "note": "Only the exact text `random`; see random_is_case_sensitive."
  },
  {
   "property": "C23",
   "status": "proved",
   "theorems": [
    "Pokers.C23_filter",
    "Pokers.C23_idempotent",
    "Pokers.C23_combine"
   ],
   "note": ""
  },
  {
   "property": "C24",
   "status": "partial",
   "theorems": [
    "Pokers.C24_dash_partial",
    "Pokers.C24_pairs_fail"
   ],
   "note": "Proved for combos that are not pairs; false for pairs (C24_pairs_fail). Exactly when it holds: C77_dash (claim C77)."
  },
  {
   "property": "C25",
   "status": "proved",
   "theorems": [
    "Pokers.C25_divide_exact",
    "Pokers.C25_assertion",
    "Pokers.C25_zero_refused"
   ],
   "note": ""
  },
  {
   "property": "C26",
   "status": "proved",
   "theorems": [
    "Pokers.C26_postflop"
   ],
   "note": ""
  },
  {
   "property": "C27",
   "status": "proved",
   "theorems": [
    "Pokers.C27_deals",
    "Pokers.C27_players",
    "Pokers.C27_combos",
    "Pokers.C27_fuel",
    "Pokers.C27_exit"
   ],
   "note": "Ranges whose combos are two different cards below 52 (C18 shows this for parsed ranges)."
  },
  {
   "property": "C28",
   "status": "proved",
   "theorems": [
    "Pokers.C28_decode",
    "Pokers.C28_prepared",
    "Pokers.C28_overflow"
   ],
   "note": "C28_prepared: the preparations succeed exactly when the combination count fits 64 bits; it need not (finding C28_overflow)."
  },
  {
   "property": "C29",
   "status": "proved",
   "theorems": [
    "Pokers.C29_schedule_independent"
   ],
   "note": "Any two runs without cancellation, any numbers of threads (at least one) and schedules; the counters are compared, rational shares exactly."
  },
  {
   "property": "C30",
   "status": "proved",
   "theorems": [
    "Pokers.C30_board_enumeration"
   ],
   "note": ""
  },
  {
   "property": "C31",
   "status": "proved",
   "theorems": [
    "Pokers.C31_hands",
    "Pokers.C31_masks"
   ],
   "note": "C31_hands: 2..9 players; C31_masks: up to eight players (nine: C32_nine_players)."
  },
  {
   "property": "C32",
   "status": "partial",
   "theorems": [
    "Pokers.C32_partial",
    "Pokers.C32_nine_players",
    "Pokers.C32_ninth_loses"
   ],
   "note": "Proved for 2..8 players; false for nine (C32_nine_players: the ninth player's bit does not fit the u8 winner mask). Exactly when it holds: C77_sole_winner (claim C77)."
  },
  {
   "property": "C33",
   "status": "proved",
   "theorems": [
    "Pokers.C33_equities"
   ],
   "note": "Every run, cancelled or not. The condition is a positive sum of wins and ties; C34_nan_equities shows that a showdown with a positive share does not guarantee it."
  },
  {
   "property": "C34",
   "status": "proved",
   "theorems": [
    "Pokers.C34_integer_division",
    "Pokers.C34_tie_shares",
    "Pokers.C34_nan_equities"
   ],
   "note": "C34_tie_shares: up to eight players, no cancellation. C34_integer_division describes the ties of every run. C34_nan_equities: finding, every equity is NaN although both shares are one half."
  },
  {
   "property": "C35",
   "status": "proved",
   "theorems": [
    "Pokers.C35_conservation",
    "Pokers.C35_totals"
   ],
   "note": "C35_conservation holds for every run, cancelled or not; C35_totals without cancellation. Player wins: up to eight players."
  },
  {
   "property": "C36",
   "status": "proved",
   "theorems": [
    "Pokers.C36_values",
    "Pokers.C36_fits",
    "Pokers.C36_combos",
    "Pokers.C36_get"
   ],
   "note": "C36_combos gives the record of every combo, C36_values its equity, win rate and tie rate as quotients, C36_fits the ranges of the values."
  },
  {
   "property": "C37",
   "status": "proved",
   "theorems": [
    "Pokers.C37_category",
    "Pokers.C37_no_category",
    "Pokers.C37_tables",
    "Pokers.C37_partition"
   ],
   "note": "Categories and draws of every hand and the board tables as sums over the hands of a category or draw."
  },
  {
   "property": "C38",
   "status": "proved",
   "theorems": [
    "Pokers.C38_weights"
   ],
   "note": "Ranges with distinct hands (C18: parsed ranges)."
  },
  {
   "property": "C39",
   "status": "proved",
   "theorems": [
    "Pokers.C39_validate",
    "Pokers.C39_accepted",
    "Pokers.C39_approx",
    "Pokers.C39_approx_ok"
   ],
   "note": ""
  },
  {
   "property": "C40",
   "status": "proved",
   "theorems": [
    "Pokers.C40_sound",
    "Pokers.C40_empty"
   ],
   "note": ""
  },
  {
   "property": "C41",
   "status": "proved",
   "theorems": [
    "Pokers.C41_counts",
    "Pokers.C41_legal",
    "Pokers.C41_walk"
   ],
   "note": "C41_counts: the results are the counts over a list of legal showdowns; C41_legal spells out what a legal showdown is; C41_walk: the state of a thread before each evaluation. For every list of random values, every schedule and any time of cancellation."
  },
  {
   "property": "C42",
   "status": "proved",
   "theorems": [
    "Pokers.C42_no_panic",
    "Pokers.C42_redeal",
    "Pokers.C42_distributions",
    "Pokers.C42_progress"
   ],
   "note": "C42_redeal: in every reachable state and for every combined range; C42_no_panic: no reachable state of a thread is a panic; C42_progress: a thread is never stuck."
  },
  {
   "property": "C43",
   "status": "proved",
   "theorems": [
    "Pokers.C43_boards",
    "Pokers.C43_probability",
    "Pokers.C43_deal",
    "Pokers.C43_walk"
   ],
   "note": "C43_boards: equal numbers of draw sequences of each length; C43_probability: the probability of each board is 1 divided by the number of boards (sum over all lengths); C43_deal, C43_walk: the same for the deals (first deal and steps)."
  },
  {
   "property": "C44",
   "status": "proved",
   "theorems": [
    "Pokers.C44_counts",
    "Pokers.C44_prompt",
    "Pokers.C44_short_runs",
    "Pokers.C44_complete_board"
   ],
   "note": "C44_counts: the counts are those of a collection of deals; C44_prompt: a thread that passed its flush does no more work. Setting the token in the model does not touch anything else. C44_short_runs, C44_complete_board: below 10000 evaluations the token is never looked at."
  },
  {
   "property": "C45",
   "status": "proved",
   "theorems": [
    "Pokers.C45_exact_progress"
   ],
   "note": "Exact mode."
  },
  {
   "property": "C46",
   "status": "proved",
   "theorems": [
    "Pokers.C46_no_panic",
    "Pokers.C46_flags",
    "Pokers.C46_straight_draws",
    "Pokers.C46_backdoor_straight",
    "Pokers.C46_nut_straight",
    "Pokers.C46_wheel_draws",
    "Pokers.C46_wheel_nut",
    "Pokers.C46_board_flush_draw"
   ],
   "note": "C46_flags: each bit of the result, for any category argument. C46_straight_draws, C46_backdoor_straight, C46_nut_straight: what the flags mean for the hand. Findings: draws to A2345 are not reported as such (C46_wheel_draws), the best straight A2345 can be missed (C46_wheel_nut), flush draws are reported for cards of the board alone (C46_board_flush_draw)."
  },
  {
   "property": "C47",
   "status": "proved",
   "theorems": [
    "Pokers.C47_total_order",
    "Pokers.C47_eq_consistent",
    "Pokers.C47_sort_dedup"
   ],
   "note": ""
  },
  {
   "property": "C48",
   "status": "proved",
   "theorems": [
    "Pokers.C48_locks",
    "Pokers.C48_no_deadlock",
    "Pokers.C48_exclusive",
    "Pokers.C48_terminates",
    "Pokers.C48_run_exists"
   ],
   "note": "Locks, accesses and messages as separate steps (Verif/Model/Locks.lean). C48_terminates: the preparations succeeded (Ready); total + size < 2^64 excludes the overflow of the position counter. Poisoned locks (after a panic): C81. C48_run_exists: the same from the inputs alone (a valid input with a possible deal)."
  },
  {
   "property": "C49",
   "status": "proved",
   "theorems": [
    "Pokers.C49_player_symmetry"
   ],
   "note": "Hand records for any number of players; wins and winner masks for up to eight players (the mask is eight bits wide). The integer part of shared pots (ties) is not covered: it depends on where the flushes fall (C34)."
  },
  {
   "property": "C50",
   "status": "partial",
   "theorems": [
    "Pokers.C50_display_partial",
    "Pokers.C50_pairs_fail"
   ],
   "note": "Proved for hands that are not pairs; false for pairs (C50_pairs_fail). Exactly when it holds: C77_display (claim C77)."
  },
  {
   "property": "C52",
   "status": "proved",
   "theorems": [
    "Pokers.C52_first_stdev",
    "Pokers.C52_one_batch",
    "Pokers.C52_one_batch_dealt",
    "Pokers.C52_one_thread",
    "Pokers.C52_progress",
    "Pokers.C52_reported",
    "Pokers.C52_reported_one"
   ],
   "note": "Finding: the stopping rule does not do what the parameter says; the theorems state what the code does instead, for all random values and schedules. sqrt is any function (only sqrt(1e-9) < target is used)."
  },
  {
   "property": "C53",
   "status": "proved",
   "theorems": [
    "Pokers.C53_multiple",
    "Pokers.C53_radicand",
    "Pokers.C53_evaluations",
    "Pokers.C53_steps",
    "Pokers.C53_completes",
    "Pokers.C53_never"
   ],
   "note": "sqrt may be any function with sqrt(x)^2 <= 2x; reals instead of f64."
  },
  {
   "property": "C54",
   "status": "proved",
   "theorems": [
    "Pokers.C54_exists",
    "Pokers.C54_meaning",
    "Pokers.C54_unambiguous",
    "Pokers.C54_empty",
    "Pokers.C54_first"
   ],
   "note": "Together with C17-C19 (no panic except overflow of a run of digits) this describes the parser on every text; to_lowercase is an arbitrary function."
  },
  {
   "property": "C55",
   "status": "proved",
   "theorems": [
    "Pokers.C55_eq",
    "Pokers.C55_same_cards",
    "Pokers.C55_ofCards"
   ],
   "note": "Fewer than 65536 default hands; distinct cards."
  },
  {
   "property": "C56",
   "status": "proved",
   "theorems": [
    "Pokers.C56_hasFlush",
    "Pokers.C56_no_default",
    "Pokers.C56_one_default",
    "Pokers.C56_two_defaults",
    "Pokers.C56_sum_of_masks"
   ],
   "note": "As long as the suit counters stay below 16."
  },
  {
   "property": "C51",
   "status": "proved",
   "theorems": [
    "Pokers.C51_no_overflow",
    "Pokers.C51_no_panic",
    "Pokers.C51_enough",
    "Pokers.C51_two_players",
    "Pokers.C51_returned",
    "Pokers.C51_overflow",
    "Pokers.C51_seven_hands"
   ],
   "note": "Exact calculation, with checked u64/u8/usize arithmetic and array accesses in the threads (ExactEquityC). The final sums use u128 and are not checked. Percentages are at most 100 (what the parser accepts, C18)."
  },
  {
   "property": "C57",
   "status": "proved",
   "theorems": [
    "Pokers.C57_rates",
    "Pokers.C57_equity",
    "Pokers.C57_order"
   ],
   "note": "C57_rates: quotients of the counters; C57_equity: against the sum over all legal showdowns; C57_order: the inequalities. Finding: hands outside of the range get equity NaN (0/0 in AddAssign) once results have been merged, while a hand of the range that was never dealt gets 0."
  },
  {
   "property": "C58",
   "status": "proved",
   "theorems": [
    "Pokers.C58_equities",
    "Pokers.C58_integer_division",
    "Pokers.C58_conservation",
    "Pokers.C58_combos",
    "Pokers.C58_combo_result",
    "Pokers.C58_weights",
    "Pokers.C58_category",
    "Pokers.C58_tables",
    "Pokers.C58_rates",
    "Pokers.C58_order"
   ],
   "note": "The theorems of the exact calculation (C33, C34, C35, C36, C13, C37, C38, C57) for approx_equity; both are derived from a common description of a calculation (structure Calc in Proofs/Describe.lean)."
  },
  {
   "property": "C59",
   "status": "proved",
   "theorems": [
    "Pokers.C59_no_overflow",
    "Pokers.C59_no_panic",
    "Pokers.C59_returned",
    "Pokers.C59_eight_players",
    "Pokers.C59_known_hands"
   ],
   "note": "approx_equity with checked u64 arithmetic and bounds of the hand counters in the threads (ApproxEquityC). Percentages are at most 100 (what the parser accepts, C18). The theorems speak about runs in which every thread finishes; panics and poisoned locks: C81."
  },
  {
   "property": "C60",
   "status": "proved",
   "theorems": [
    "Pokers.C60_walk",
    "Pokers.C60_indexes",
    "Pokers.C60_evaluation",
    "Pokers.C60_expected",
    "Pokers.C60_equity"
   ],
   "note": "C60_walk: the map from first deals to deals after any fixed moves is a bijection; C60_evaluation: what a board produced at a deal adds to the counters; C60_expected and C60_equity: expectation of an evaluation (independent uniform indexes of the first deal, uniform card draws; the moved combined ranges are arbitrary but fixed, so the result holds for every distribution of them that does not depend on the deal). The uniformity of the generator itself is assumed. The estimate printed by the crate is a ratio of sums of such evaluations; nothing is claimed about its bias for a finite number of evaluations."
  },
  {
   "property": "C61",
   "status": "proved",
   "theorems": [
    "Pokers.C61_exact",
    "Pokers.C61_approx",
    "Pokers.C61_multiples",
    "Pokers.C61_two_players",
    "Pokers.C61_three_players"
   ],
   "note": "C61_exact, C61_approx: exact under WholeShares; C61_multiples, C61_two_players: simple conditions that imply it; C61_three_players: without it the equities are off (reported numbers computed exactly; f64 rounding not modelled)."
  },
  {
   "property": "C62",
   "status": "proved",
   "theorems": [
    "Pokers.C62_hands",
    "Pokers.C62_division",
    "Pokers.C62_combos",
    "Pokers.C62_duplicates",
    "Pokers.C62_ranges",
    "Pokers.C62_weights",
    "Pokers.C62_accuracy"
   ],
   "note": "test_libdivide is a part of C25. test_exact_weighted is C88 and test_approx_weighted, which depends on random values, is C89. The showdowns of test_accuracy are evaluated by the kernel with the specification, and C61 connects them with the calculation."
  },
  {
   "property": "C63",
   "status": "proved",
   "theorems": [
    "Pokers.C63_nearest",
    "Pokers.C63_even",
    "Pokers.C63_error",
    "Pokers.C63_exact_mode",
    "Pokers.C63_exact_runs",
    "Pokers.C63_errors",
    "Pokers.C63_correctly_rounded",
    "Pokers.C63_progress",
    "Pokers.C63_percentage",
    "Pokers.C63_approx_mode",
    "Pokers.C63_approx_equities",
    "Pokers.C63_approx_runs",
    "Pokers.C63_accuracy"
   ],
   "note": "C63_nearest and C63_even: the rounding function is round-to-nearest-even; C63_exact_mode/C63_exact_runs: runs of the floating-point model and of the exact model correspond (Rounded, Published); C63_correctly_rounded; C63_error: meaning of the error bound; C63_progress, C63_percentage; C63_approx_mode/C63_approx_runs/C63_approx_equities: for every computed standard deviation (also NaN); C63_accuracy. Not modelled: overflow to infinity (all values are below 2^200), the value of sqrt and powi in the random simulation (arbitrary), and records whose total exceeds 2^62."
  },
  {
   "property": "C64",
   "status": "proved",
   "theorems": [
    "Pokers.C64_column",
    "Pokers.C64_nut_flush",
    "Pokers.C64_not_nut_flush",
    "Pokers.C64_flags",
    "Pokers.C64_table",
    "Pokers.C64_table_approx"
   ],
   "note": "C64_column: column in the draw table against HasDraw (words of Verif/Spec/Draws.lean) for what get_draw returns; C64_flags, C64_table, C64_table_approx: the reported flags and tables of both calculations; C64_nut_flush, C64_not_nut_flush: meaning of the nut flags by comparison with all other hole cards. The findings about draws to A2345 and four-flush boards (C46) apply to these columns as well."
  },
  {
   "property": "C65",
   "status": "proved",
   "theorems": [
    "Pokers.C65_suits",
    "Pokers.C65_order",
    "Pokers.C65_same_range",
    "Pokers.C65_equal_ranges",
    "Pokers.C65_two_equal"
   ],
   "note": "C65_suits, C65_order, C65_same_range, C65_equal_ranges, C65_two_equal."
  },
  {
   "property": "C66",
   "status": "proved",
   "theorems": [
    "Pokers.C66_estimate",
    "Pokers.C66_smallest",
    "Pokers.C66_final",
    "Pokers.C66_sizes",
    "Pokers.C66_single",
    "Pokers.C66_two"
   ],
   "note": "C66_estimate, C66_smallest, C66_final, C66_sizes, C66_single, C66_two."
  },
  {
   "property": "C67",
   "status": "proved",
   "theorems": [
    "Pokers.C67_exact_example",
    "Pokers.C67_readme_example",
    "Pokers.C67_approx_example",
    "Pokers.C67_evaluator_example",
    "Pokers.C67_no_threads",
    "Pokers.C67_div",
    "Pokers.C67_hand_with_index"
   ],
   "note": "C67_exact_example, C67_readme_example (for every square root with 8/5 sqrt(1e-9) <= 0.01), C67_approx_example, C67_evaluator_example (the README writes Hand::empty(), which does not exist), C67_no_threads, C67_div, C67_hand_with_index."
  },
  {
   "property": "C68",
   "status": "proved",
   "theorems": [
    "Pokers.C68_start",
    "Pokers.C68_finish",
    "Pokers.C68_exact_stages",
    "Pokers.C68_exact",
    "Pokers.C68_two_players",
    "Pokers.C68_approx_stages",
    "Pokers.C68_approx",
    "Pokers.C68_card_index"
   ],
   "note": "ExactEquityD and ApproxEquityD (Model/CheckedFinish.lean) are the two functions with the checks in and outside the threads. C68_start, C68_finish, C68_exact_stages, C68_approx_stages: the stages outside never fail; C68_exact, C68_two_players, C68_approx: together with C51 and C59. Percentages are at most 100 (255 for C68_finish and C68_approx_stages)."
  },
  {
   "property": "C69",
   "status": "proved",
   "theorems": [
    "Pokers.C69_hands",
    "Pokers.C69_number",
    "Pokers.C69_five",
    "Pokers.C69_six",
    "Pokers.C69_seven",
    "Pokers.C69_sums",
    "Pokers.C69_rules",
    "Pokers.C69_rules_five"
   ],
   "note": "C69_five, C69_six, C69_seven count the sublists of the deck; C69_hands and C69_number: these are all the hands, once each; C69_sums: nothing outside the nine categories; C69_rules, C69_rules_five: the same numbers for the specification (a check of Spec/Poker.lean against published frequencies)."
  },
  {
   "property": "C70",
   "status": "proved",
   "theorems": [
    "Pokers.C70_sqrt",
    "Pokers.C70_progress_value",
    "Pokers.C70_one_batch",
    "Pokers.C70_first_progress",
    "Pokers.C70_reported",
    "Pokers.C70_reported_one",
    "Pokers.C70_evaluations",
    "Pokers.C70_steps",
    "Pokers.C70_completes",
    "Pokers.C70_never"
   ],
   "note": "C70_sqrt: the model of sqrt gives the f64 nearest to the real square root; C70_progress_value: 100 or more exactly when the target is reached, up to rounding; C70_one_batch, C70_first_progress, C70_reported, C70_reported_one are C52 with rounding; C70_evaluations, C70_steps, C70_completes, C70_never are C53 with rounding. C70_reported is stated for at most 1000 progress values."
  },
  {
   "property": "C71",
   "status": "proved",
   "theorems": [
    "Pokers.C71_lists",
    "Pokers.C71_hands",
    "Pokers.C71_equities",
    "Pokers.C71_rounded",
    "Pokers.C71_runs",
    "Pokers.C71_two_players",
    "Pokers.C71_expected",
    "Pokers.C71_accuracy"
   ],
   "note": "C71_lists: the hands meant by a text can be listed in exactly one way up to order; C71_hands, C71_equities, C71_rounded, C71_runs: any number of players within the limits stated; C71_two_players: all together; C71_expected: approx_equity (with C60's probabilities); C71_accuracy: the value of the crate's test_accuracy follows from the rules of the game."
  },
  {
   "property": "C72",
   "status": "proved",
   "theorems": [
    "Pokers.C72_ninth",
    "Pokers.C72_exact",
    "Pokers.C72_approx",
    "Pokers.C72_all_nan"
   ],
   "note": "C72_ninth: every run, also when cancelled; C72_exact, C72_approx: the game that is really evaluated; C72_all_nan: the extreme case, with an example."
  },
  {
   "property": "C73",
   "status": "proved",
   "theorems": [
    "Pokers.C73_exact",
    "Pokers.C73_no_gaps",
    "Pokers.C73_number",
    "Pokers.C73_strengths"
   ],
   "note": "C73_exact: the score as a function of the best hand (Spec/Score.lean, by the rules alone); C73_no_gaps: the scores of each category; C73_number, C73_strengths: the numbers of scores and strengths."
  },
  {
   "property": "C74",
   "status": "proved",
   "theorems": [
    "Pokers.C74_exact",
    "Pokers.C74_exact_all",
    "Pokers.C74_calls",
    "Pokers.C74_terminates",
    "Pokers.C74_approx",
    "Pokers.C74_exclusive",
    "Pokers.C74_no_deadlock"
   ],
   "note": "C74_exact, C74_exact_all, C74_approx: the same outcomes as the atomic models; C74_calls: the values passed to the callback; C74_terminates, C74_no_deadlock, C74_exclusive."
  },
  {
   "property": "C75",
   "status": "proved",
   "theorems": [
    "Pokers.C75_no_overflow",
    "Pokers.C75_two_players",
    "Pokers.C75_follows",
    "Pokers.C75_runs",
    "Pokers.C75_hands",
    "Pokers.C75_masks",
    "Pokers.C75_no_ties",
    "Pokers.C75_favourite_loses",
    "Pokers.C75_lost_deals",
    "Pokers.C75_eight_wide"
   ],
   "note": "C75_no_overflow, C75_two_players: the same as the floating-point model (C63); C75_follows, C75_runs: simulation by the exact model in both directions with counters modulo 2^64; C75_hands, C75_masks: the counters in terms of showdowns; C75_no_ties: the reported equities when there are no ties; C75_favourite_loses, C75_lost_deals, C75_eight_wide: findings."
  },
  {
   "property": "C76",
   "status": "proved",
   "theorems": [
    "Pokers.C76_reduced",
    "Pokers.C76_reduced_exists",
    "Pokers.C76_total",
    "Pokers.C76_strings",
    "Pokers.C76_same",
    "Pokers.C76_differs",
    "Pokers.C76_meaning",
    "Pokers.C76_wellformed",
    "Pokers.C76_weight",
    "Pokers.C76_wraps",
    "Pokers.C76_card_total",
    "Pokers.C76_card_same",
    "Pokers.C76_card_name",
    "Pokers.C76_card_wrong",
    "Pokers.C76_card_no_card",
    "Pokers.C76_card_below",
    "Pokers.C76_flop_total",
    "Pokers.C76_flop_same",
    "Pokers.C76_flop_wrong"
   ],
   "note": "C76_reduced, C76_reduced_exists, C76_total, C76_strings, C76_same, C76_differs, C76_meaning, C76_wellformed, C76_weight: ranges; C76_wraps: finding; C76_card_*: single cards (all two-character texts, C76_card_wrong is the finding); C76_flop_*: flops."
  },
  {
   "property": "C77",
   "status": "proved",
   "theorems": [
    "Pokers.C77_card_ok",
    "Pokers.C77_card_wrong",
    "Pokers.C77_card_panic",
    "Pokers.C77_card",
    "Pokers.C77_suited_pairs",
    "Pokers.C77_dash",
    "Pokers.C77_display",
    "Pokers.C77_sole_winner"
   ],
   "note": "C77_card_ok, C77_card_wrong, C77_card_panic, C77_card: C15; C77_dash, C77_suited_pairs: C24; C77_display: C50; C77_sole_winner: C32."
  },
  {
   "property": "C78",
   "status": "proved",
   "theorems": [
    "Pokers.C78_follows",
    "Pokers.C78_counts",
    "Pokers.C78_runs",
    "Pokers.C78_errors",
    "Pokers.C78_no_overflow",
    "Pokers.C78_two_players",
    "Pokers.C78_no_ties",
    "Pokers.C78_no_totals",
    "Pokers.C78_debug",
    "Pokers.C78_all_lost"
   ],
   "note": "C78_follows, C78_counts, C78_runs, C78_errors: relation to the exact model; C78_no_overflow, C78_two_players: equality with the floating-point model; C78_no_ties: equities; C78_no_totals, C78_all_lost: findings; C78_debug: the same inputs with overflow checks."
  },
  {
   "property": "C79",
   "status": "proved",
   "theorems": [
    "Pokers.C79_order",
    "Pokers.C79_deals",
    "Pokers.C79_hand_totals",
    "Pokers.C79_river_counts",
    "Pokers.C79_river_equities",
    "Pokers.C79_river_float",
    "Pokers.C79_river_error",
    "Pokers.C79_release",
    "Pokers.C79_turned"
   ],
   "note": "C79_order, C79_deals, C79_hand_totals: rounds; C79_river_counts, C79_river_equities, C79_river_float, C79_river_error: complete boards; C79_release, C79_turned: release build and finding."
  },
  {
   "property": "C80",
   "status": "proved",
   "theorems": [
    "Pokers.C80_outcome",
    "Pokers.C80_mean",
    "Pokers.C80_bias",
    "Pokers.C80_accuracy",
    "Pokers.C80_equal_weights",
    "Pokers.C80_variance",
    "Pokers.C80_known",
    "Pokers.C80_even",
    "Pokers.C80_boards",
    "Pokers.C80_every_outcome",
    "Pokers.C80_float",
    "Pokers.C80_missed",
    "Pokers.C80_likely",
    "Pokers.C80_equally_likely"
   ],
   "note": "C80_outcome, C80_boards, C80_every_outcome: outcomes of runs; C80_likely, C80_equally_likely: probabilities for independent uniform draws of cards; C80_mean, C80_bias: mean; C80_variance, C80_known, C80_accuracy, C80_equal_weights: variance and Chebyshev's inequality; C80_float: floating-point model; C80_even, C80_missed: finding."
  },
  {
   "property": "C81",
   "status": "proved",
   "theorems": [
    "Pokers.C81_debug_returned",
    "Pokers.C81_debug_all",
    "Pokers.C81_debug_ends",
    "Pokers.C81_debug_exists",
    "Pokers.C81_debug_no_panic",
    "Pokers.C81_debug_two_players",
    "Pokers.C81_seven_hands",
    "Pokers.C81_seven_panics",
    "Pokers.C81_poison",
    "Pokers.C81_callback",
    "Pokers.C81_callback_panics",
    "Pokers.C81_release_returned",
    "Pokers.C81_release_all",
    "Pokers.C81_release_ends",
    "Pokers.C81_release_no_panic",
    "Pokers.C81_release_exists",
    "Pokers.C81_release_callback",
    "Pokers.C81_approx_debug_returned",
    "Pokers.C81_approx_debug_all",
    "Pokers.C81_approx_debug_ends",
    "Pokers.C81_approx_debug_cancelled",
    "Pokers.C81_approx_debug_no_panic",
    "Pokers.C81_known_batches",
    "Pokers.C81_known_hands",
    "Pokers.C81_approx_debug_exists",
    "Pokers.C81_known_panics",
    "Pokers.C81_approx_poison",
    "Pokers.C81_approx_debug_callback",
    "Pokers.C81_approx_release_returned",
    "Pokers.C81_approx_release_all",
    "Pokers.C81_approx_release_ends",
    "Pokers.C81_approx_release_cancelled",
    "Pokers.C81_approx_release_exists",
    "Pokers.C81_approx_release_no_panic",
    "Pokers.C81_approx_release_callback",
    "Pokers.C81_poison_pos"
   ],
   "note": "C81_debug_*, C81_release_*: exact calculation; C81_approx_debug_*, C81_approx_release_*: random simulation; each with _returned/_all (agreement with the models with atomic steps), _ends/_exists/_cancelled (termination), _no_panic, _callback. C81_poison, C81_approx_poison: poisoned results; C81_poison_pos: poisoned enum_pos. C81_seven_hands, C81_seven_panics, C81_known_batches, C81_known_hands, C81_known_panics: findings. Release builds: the exact calculation needs total + reservation < 2^64 (C75). The rules for poisoning and for thread::scope are those of the documentation of std."
  },
  {
   "property": "C82",
   "status": "proved",
   "theorems": [
    "Pokers.C82_ascii",
    "Pokers.C82_text",
    "Pokers.C82_text_release",
    "Pokers.C82_same",
    "Pokers.C82_case",
    "Pokers.C82_random",
    "Pokers.C82_stop",
    "Pokers.C82_blank",
    "Pokers.C82_mask",
    "Pokers.C82_mask_case",
    "Pokers.C82_kelvin"
   ],
   "note": "C82_ascii: the condition of the other text claims follows. C82_text, C82_text_release, C82_same, C82_case: ranges. C82_mask, C82_mask_case: masks. C82_random, C82_stop, C82_blank, C82_kelvin: findings. The conversion itself is an arbitrary function with the property UnicodeLower (Model/LowerCase.lean); simpleLower shows that there is one."
  },
  {
   "property": "C83",
   "status": "proved",
   "theorems": [
    "Pokers.C83_release",
    "Pokers.C83_debug",
    "Pokers.C83_two_players",
    "Pokers.C83_approx_release",
    "Pokers.C83_approx_debug",
    "Pokers.C83_accuracy"
   ],
   "note": "C83_release, C83_debug: exact calculation (the debug model has exact numbers). C83_two_players: two players without size conditions. C83_approx_release, C83_approx_debug: random simulation. C83_accuracy: the crate's test. Built from C61, C63, C68, C71, C75, C76, C78, C81. Weights must be divisible by the number of winners (else C32: shares are rounded down)."
  },
  {
   "property": "C84",
   "status": "proved",
   "theorems": [
    "Pokers.C84_valid",
    "Pokers.C84_prepared",
    "Pokers.C84_prepared_approx",
    "Pokers.C84_counts",
    "Pokers.C84_equities",
    "Pokers.C84_weights",
    "Pokers.C84_category",
    "Pokers.C84_before_the_flop"
   ],
   "note": "Finding: with three foreign bits in the board mask aces before the flop are reported with the category pair (rank 1) on a board of no cards, and board results are generated; with six foreign bits the call fails with TooManyBoardCards. All other claims about the calculations hold for every u64 mask (hypothesis CardMask, below 2^64) with the cards among the bits 0 to 51."
  },
  {
   "property": "C85",
   "status": "proved",
   "theorems": [
    "Pokers.C85_exact_returned",
    "Pokers.C85_exact_same",
    "Pokers.C85_two_players",
    "Pokers.C85_no_panic",
    "Pokers.C85_exact_integers",
    "Pokers.C85_ends",
    "Pokers.C85_exists",
    "Pokers.C85_seven_hands",
    "Pokers.C85_approx_returned",
    "Pokers.C85_approx_same",
    "Pokers.C85_approx_two_players",
    "Pokers.C85_approx_no_panic",
    "Pokers.C85_approx_integers",
    "Pokers.C85_approx_ends",
    "Pokers.C85_approx_cancelled",
    "Pokers.C85_approx_exists",
    "Pokers.C85_known_hands",
    "Pokers.C85_whole_returned",
    "Pokers.C85_whole_approx_returned",
    "Pokers.C85_whole_two",
    "Pokers.C85_whole_same",
    "Pokers.C85_whole_equities",
    "Pokers.C85_accuracy"
   ],
   "note": "The debug build of C51, C59, C68 and C81 has exact rational numbers; here it has f64 numbers as well. Finding (as in C81, now with f64): seven or eight known hands of weight 100 before the flop make every debug build panic."
  },
  {
   "property": "C86",
   "status": "proved",
   "theorems": [
    "Pokers.C86_bits",
    "Pokers.C86_sign_extension",
    "Pokers.C86_text_index",
    "Pokers.C86_card_index",
    "Pokers.C86_card_index_deck",
    "Pokers.C86_equal_cards",
    "Pokers.C86_hand_index",
    "Pokers.C86_hand_index_bounds",
    "Pokers.C86_hand_index_cards",
    "Pokers.C86_contains",
    "Pokers.C86_suit_mask",
    "Pokers.C86_suit_count",
    "Pokers.C86_suit_count_wrap",
    "Pokers.C86_hole_cards",
    "Pokers.C86_from_bit_mask",
    "Pokers.C86_evaluate",
    "Pokers.C86_evaluate_cards",
    "Pokers.C86_eight_cards",
    "Pokers.C86_draw"
   ],
   "note": "Finding: safe public functions have undefined behaviour on some arguments (get_card_index(0,0) and Hand::default().get_card_index() in a release build, CARDS[48].get_card_index() and evaluate of eight different cards in both)."
  },
  {
   "property": "C87",
   "status": "proved",
   "theorems": [
    "Pokers.C87_start",
    "Pokers.C87_refused",
    "Pokers.C87_well_formed",
    "Pokers.C87_undefined",
    "Pokers.C87_twice_zero",
    "Pokers.C87_no_card",
    "Pokers.C87_wrapped_card",
    "Pokers.C87_twice_ace",
    "Pokers.C87_card_to_string",
    "Pokers.C87_display",
    "Pokers.C87_hole_to_string",
    "Pokers.C87_holes_to_strings",
    "Pokers.C87_sections"
   ],
   "note": "Finding: the equity functions trust the public fields of HandRange; a hand of twice the same card leads to undefined behaviour in safe code. The documentation of hand_results gives 391 and 392 as the border between suited and offsuit hands; it is 389 and 390."
  },
  {
   "property": "C88",
   "status": "proved",
   "theorems": [
    "Pokers.C88_kings_aces",
    "Pokers.C88_kings_queens",
    "Pokers.C88_equity",
    "Pokers.C88_exact_weighted",
    "Pokers.C88_release",
    "Pokers.C88_debug"
   ],
   "note": "The 123 million showdowns are summed by the kernel suit by suit (Proofs/PreflopSum.lean): the points without flushes, and for each suit the difference that flushes in it make. With this all deterministic tests of the repository have theorems."
  },
  {
   "property": "C89",
   "status": "proved",
   "theorems": [
    "Pokers.C89_bias",
    "Pokers.C89_variance",
    "Pokers.C89_boards",
    "Pokers.C89_approx_weighted",
    "Pokers.C89_can_fail"
   ],
   "note": "Outcomes are counted, not weighted: that all boards are equally likely is C43, that the deals go round in order is C79; the random numbers themselves are not modelled. One in five is Chebyshev's bound; the number of outcomes that fail is smaller."
  },
  {
   "property": "C90",
   "status": "proved",
   "theorems": [
    "Pokers.C90_batches",
    "Pokers.C90_confined",
    "Pokers.C90_chance",
    "Pokers.C90_runs",
    "Pokers.C90_share",
    "Pokers.C90_share_float",
    "Pokers.C90_choice",
    "Pokers.C90_apart_exact",
    "Pokers.C90_apart_far",
    "Pokers.C90_apart_float",
    "Pokers.C90_apart_runs"
   ],
   "note": "The change from the drawn deal to the first evaluated one of the second and later batches is also a change of one combined range, so it keeps the property as well. Probabilities are counted as numbers of equally likely draws (C60)."
  },
  {
   "property": "C91",
   "status": "proved",
   "theorems": [
    "Pokers.C91_outcome",
    "Pokers.C91_outcome_float",
    "Pokers.C91_every",
    "Pokers.C91_count",
    "Pokers.C91_mean",
    "Pokers.C91_variance",
    "Pokers.C91_unbiased",
    "Pokers.C91_accuracy",
    "Pokers.C91_batches",
    "Pokers.C91_random"
   ],
   "note": "The results are counted for a fixed number of batches; the stopping rule depends on the results. That the first deals, the choices of a combined range and the boards are drawn uniformly is C43 and C60. The bound falls with the number of batches, not of evaluations: C90 shows that the evaluations of a batch can all be in one component."
  },
  {
   "property": "C92",
   "status": "proved",
   "theorems": [
    "Pokers.C92_law",
    "Pokers.C92_accuracy",
    "Pokers.C92_total",
    "Pokers.C92_total_run",
    "Pokers.C92_deal_found",
    "Pokers.C92_single",
    "Pokers.C92_even"
   ],
   "note": "The probability of a list of drawn values is the product of 1/k over the draws from k values (Spec/Chance.lean); an expectation is the sum over all lists of draws with which the program ends. The random generator itself is not modelled. The number of batches of each thread and the order of the steps are fixed beforehand, and the target is at most 0, so that only the cancellation ends the run: with a positive target the number of batches depends on the results. Equities are exact numbers here; C91_outcome_float gives the rounding."
  },
  {
   "property": "C93",
   "status": "proved",
   "theorems": [
    "Pokers.C93_law",
    "Pokers.C93_law_single",
    "Pokers.C93_run",
    "Pokers.C93_total",
    "Pokers.C93_equity",
    "Pokers.C93_accuracy",
    "Pokers.C93_approx_weighted",
    "Pokers.C93_ends",
    "Pokers.C93_hands",
    "Pokers.C93_missed",
    "Pokers.C93_even"
   ],
   "note": "C92 with the stopping rule of the program in place: a scheduler is a function of the list of all worlds so far (`Chooses`: it names a thread that has not ended while there is one) and may set the cancellation token in any step. C93_run states that the worlds are those of the program model ApproxEquityF and C93_total that the probabilities of the draws add up to one. Equities need 4096 nT wmax <= 2^53 (exact counters) and whole shares of the pot (WholeShares; C79). The random generator itself is not modelled."
  },
  {
   "property": "C94",
   "status": "proved",
   "theorems": [
    "Pokers.C94_outcomes",
    "Pokers.C94_tail",
    "Pokers.C94_joined",
    "Pokers.C94_rounds",
    "Pokers.C94_hands",
    "Pokers.C94_even",
    "Pokers.C94_kings_queens"
   ],
   "note": "Hoeffding's inequality for the showdowns of the batches, whose boards are independent once the deals are fixed; the deals of a joined range are fixed by the first one (C79). Hoeffding's lemma is taken from Mathlib (Probability.Moments.SubGaussian). C94_tail takes the bound delta on the distance of the mean as a hypothesis, which C80_bias and C89_bias give for at most 4096 deals and C80_mean for numbers of deals that divide 4096 (C94_rounds). If the ranges were not joined, the deals themselves are random and there are only nT independent batches, so that only the bounds of C93 hold."
  },
  {
   "property": "C95",
   "status": "proved",
   "theorems": [
    "Pokers.C95_evals_le",
    "Pokers.C95_evals_ge",
    "Pokers.C95_complete",
    "Pokers.C95_messages",
    "Pokers.C95_prompt",
    "Pokers.C95_cancelled",
    "Pokers.C95_short"
   ],
   "note": "The number of evaluations of one deal is bounded by the number of boards (C95_prompt, C95_messages), not by the smaller number of groups of boards: the token is not looked at during the enumeration of the boards of a deal."
  },
  {
   "property": "C96",
   "status": "proved",
   "theorems": [
    "Pokers.C96_streets",
    "Pokers.C96_burnt",
    "Pokers.C96_parts",
    "Pokers.C96_weights",
    "Pokers.C96_average",
    "Pokers.C96_same_equity"
   ],
   "note": "For the model with exact fractions; the laws for the equities need at most eight players and the condition WholeShares of C61. A refused calculation (ConflictingRanges) stands for counters that are all zero, which C40 justifies."
  },
  {
   "property": "C97",
   "status": "proved",
   "theorems": [
    "Pokers.C97_dominates",
    "Pokers.C97_same",
    "Pokers.C97_dead",
    "Pokers.C97_settled",
    "Pokers.C97_bounds",
    "Pokers.C97_sure_hand",
    "Pokers.C97_dead_hand"
   ],
   "note": "For the model with exact fractions and at most eight players (C72 says what happens to the ninth). Equities are numbers only if something was counted; otherwise they are NaN (C34_nan_equities)."
  },
  {
   "property": "C98",
   "status": "proved",
   "theorems": [
    "Pokers.C98_proportions",
    "Pokers.C98_same_equities",
    "Pokers.C98_comma",
    "Pokers.C98_disjoint",
    "Pokers.C98_percentages"
   ],
   "note": "C98_comma and C98_disjoint for texts, C98_proportions and C98_same_equities for ranges, C98_percentages for texts. For the model with exact fractions; see C96 for the laws these rest on and C61 for WholeShares."
  },
  {
   "property": "C99",
   "status": "proved",
   "theorems": [
    "Pokers.C99_mix",
    "Pokers.C99_between",
    "Pokers.C99_raise",
    "Pokers.C99_best",
    "Pokers.C99_alone",
    "Pokers.C99_combo"
   ],
   "note": "C99_mix, C99_between, C99_raise, C99_best, C99_alone, C99_combo (total below 2^64). For the model with exact fractions; WholeShares (C61) says that the integer division of the tied pots is exact."
  },
  {
   "property": "C100",
   "status": "proved",
   "theorems": [
    "Pokers.C100_exact",
    "Pokers.C100_errors",
    "Pokers.C100_unseen",
    "Pokers.C100_unseen_same",
    "Pokers.C100_terminates",
    "Pokers.C100_set",
    "Pokers.C100_cleared",
    "Pokers.C100_approx",
    "Pokers.C100_approx_counts",
    "Pokers.C100_approx_set"
   ],
   "note": "C100_exact, C100_unseen, C100_unseen_same, C100_errors, C100_terminates, C100_approx, C100_approx_counts; C100_set, C100_approx_set and C100_cleared say that the new model has the old runs and more. Reads of stale values are covered: a read of any value is a store before and a store after it."
  },
  {
   "property": "C101",
   "status": "proved",
   "theorems": [
    "Pokers.C101_left_set",
    "Pokers.C101_token",
    "Pokers.C101_clear",
    "Pokers.C101_next_approx",
    "Pokers.C101_exact_after",
    "Pokers.C101_approx_after",
    "Pokers.C101_exact_keeps",
    "Pokers.C101_release_token",
    "Pokers.C101_release_next_approx",
    "Pokers.C101_release_approx_after",
    "Pokers.C101_release_exact_after",
    "Pokers.approxLeavesR_iff"
   ],
   "note": "C101_left_set, C101_token, C101_clear, C101_next_approx, C101_approx_after, C101_exact_after, C101_exact_keeps; the same in a release build is C101_release_token, C101_release_next_approx, C101_release_approx_after, C101_release_exact_after (the last one under Room: the position counter does not wrap). The documentation calls the token 'a shared boolean to stop simulation' and does not say that it comes back set; see the findings in DESIGN.md."
  },
  {
   "property": "C102",
   "status": "proved",
   "theorems": [
    "Pokers.C102_exact",
    "Pokers.C102_errors",
    "Pokers.C102_unseen",
    "Pokers.C102_two_players",
    "Pokers.C102_set",
    "Pokers.C102_cleared",
    "Pokers.C102_approx",
    "Pokers.C102_approx_counts",
    "Pokers.C102_approx_set"
   ],
   "note": "C102_exact, C102_errors, C102_unseen, C102_two_players, C102_set, C102_cleared, C102_approx, C102_approx_counts, C102_approx_set. C100 is the same for the exact model."
  }
 ]
}