{
 "C01": {
  "note": "All hands of 2..7 distinct cards. Tables checked completely inside the kernel."
 },
 "C02": {
  "note": "2..7 cards; the empty hand and single cards do not satisfy it (see empty_hand_scores_quads, single_card_not_ordered).",
  "extra": [
   "Pokers.empty_hand_scores_quads",
   "Pokers.single_card_not_ordered"
  ]
 },
 "C07": {
  "note": "2..6 cards; below two cards it fails (more_cards_can_hurt_below_two).",
  "extra": [
   "Pokers.more_cards_can_hurt_below_two"
  ]
 },
 "C15": {
  "status": "partial",
  "note": "The first half is proved. The second half is false for the code (C15_rejects_fails, C15_panics); C15_rejects_partial says exactly what is accepted. Exactly when it holds: C77_card (claim C77)."
 },
 "C16": {
  "note": "C16_accepted also describes everything that is accepted; it inherits the value 255 of C15."
 },
 "C17": {
  "note": "Holds for every lower-casing function. The overflow is real (C17_overflow_happens).",
  "extra": [
   "Pokers.empty_weight_is_zero",
   "Pokers.large_weight_stops_parsing",
   "Pokers.space_stops_parsing"
  ]
 },
 "C20": {
  "note": "The notation is that of Verif/Spec/Range.lean. Surprising consequences: ascending_plus_is_empty, dash_across_includes_pair.",
  "extra": [
   "Pokers.ascending_plus_is_empty",
   "Pokers.dash_across_includes_pair"
  ]
 },
 "C22": {
  "note": "Only the exact text `random`; see random_is_case_sensitive.",
  "extra": [
   "Pokers.random_is_case_sensitive"
  ]
 },
 "C24": {
  "status": "partial",
  "note": "Proved for combos that are not pairs; false for pairs (C24_pairs_fail). Exactly when it holds: C77_dash (claim C77)."
 },
 "C50": {
  "status": "partial",
  "note": "Proved for hands that are not pairs; false for pairs (C50_pairs_fail). Exactly when it holds: C77_display (claim C77)."
 },
 "C27": {
  "note": "Ranges whose combos are two different cards below 52 (C18 shows this for parsed ranges)."
 },
 "C28": {
  "note": "C28_prepared: the preparations succeed exactly when the combination count fits 64 bits; it need not (finding C28_overflow)."
 },
 "C40": {
  "note": ""
 },
 "C29": {
  "note": "Any two runs without cancellation, any numbers of threads (at least one) and schedules; the counters are compared, rational shares exactly."
 },
 "C31": {
  "note": "C31_hands: 2..9 players; C31_masks: up to eight players (nine: C32_nine_players)."
 },
 "C32": {
  "status": "partial",
  "note": "Proved for 2..8 players; false for nine (C32_nine_players: the ninth player's bit does not fit the u8 winner mask). Exactly when it holds: C77_sole_winner (claim C77)."
 },
 "C13": {
  "note": "Lookups of hand results by name (any order of the two cards that names the hand) and of combo results by the combo's text."
 },
 "C36": {
  "note": "C36_combos gives the record of every combo, C36_values its equity, win rate and tie rate as quotients, C36_fits the ranges of the values."
 },
 "C37": {
  "note": "Categories and draws of every hand and the board tables as sums over the hands of a category or draw."
 },
 "C38": {
  "note": "Ranges with distinct hands (C18: parsed ranges)."
 },
 "C33": {
  "status": "proved",
  "note": "Every run, cancelled or not. The condition is a positive sum of wins and ties; C34_nan_equities shows that a showdown with a positive share does not guarantee it."
 },
 "C34": {
  "status": "proved",
  "note": "C34_tie_shares: up to eight players, no cancellation. C34_integer_division describes the ties of every run. C34_nan_equities: finding, every equity is NaN although both shares are one half."
 },
 "C35": {
  "status": "proved",
  "note": "C35_conservation holds for every run, cancelled or not; C35_totals without cancellation. Player wins: up to eight players."
 },
 "C44": {
  "status": "proved",
  "note": "C44_counts: the counts are those of a collection of deals; C44_prompt: a thread that passed its flush does no more work. Setting the token in the model does not touch anything else. C44_short_runs, C44_complete_board: below 10000 evaluations the token is never looked at."
 },
 "C45": {
  "status": "proved",
  "note": "Exact mode."
 },
 "C48": {
  "status": "proved",
  "note": "Locks, accesses and messages as separate steps (Verif/Model/Locks.lean). C48_terminates: the preparations succeeded (Ready); total + size < 2^64 excludes the overflow of the position counter. Poisoned locks (after a panic): C81. C48_run_exists: the same from the inputs alone (a valid input with a possible deal)."
 },
 "C49": {
  "status": "proved",
  "note": "Hand records for any number of players; wins and winner masks for up to eight players (the mask is eight bits wide). The integer part of shared pots (ties) is not covered: it depends on where the flushes fall (C34)."
 },
 "C46": {
  "status": "proved",
  "note": "C46_flags: each bit of the result, for any category argument. C46_straight_draws, C46_backdoor_straight, C46_nut_straight: what the flags mean for the hand. Findings: draws to A2345 are not reported as such (C46_wheel_draws), the best straight A2345 can be missed (C46_wheel_nut), flush draws are reported for cards of the board alone (C46_board_flush_draw)."
 },
 "C41": {
  "note": "C41_counts: the results are the counts over a list of legal showdowns; C41_legal spells out what a legal showdown is; C41_walk: the state of a thread before each evaluation. For every list of random values, every schedule and any time of cancellation."
 },
 "C42": {
  "note": "C42_redeal: in every reachable state and for every combined range; C42_no_panic: no reachable state of a thread is a panic; C42_progress: a thread is never stuck."
 },
 "C43": {
  "note": "C43_boards: equal numbers of draw sequences of each length; C43_probability: the probability of each board is 1 divided by the number of boards (sum over all lengths); C43_deal, C43_walk: the same for the deals (first deal and steps)."
 },
 "C52": {
  "status": "proved",
  "note": "Finding: the stopping rule does not do what the parameter says; the theorems state what the code does instead, for all random values and schedules. sqrt is any function (only sqrt(1e-9) < target is used)."
 },
 "C53": {
  "status": "proved",
  "note": "sqrt may be any function with sqrt(x)^2 <= 2x; reals instead of f64."
 },
 "C54": {
  "status": "proved",
  "note": "Together with C17-C19 (no panic except overflow of a run of digits) this describes the parser on every text; to_lowercase is an arbitrary function."
 },
 "C55": {
  "status": "proved",
  "note": "Fewer than 65536 default hands; distinct cards."
 },
 "C56": {
  "status": "proved",
  "note": "As long as the suit counters stay below 16."
 },
 "C51": {
  "status": "proved",
  "note": "Exact calculation, with checked u64/u8/usize arithmetic and array accesses in the threads (ExactEquityC). The final sums use u128 and are not checked. Percentages are at most 100 (what the parser accepts, C18)."
 },
 "C57": {
  "status": "proved",
  "note": "C57_rates: quotients of the counters; C57_equity: against the sum over all legal showdowns; C57_order: the inequalities. Finding: hands outside of the range get equity NaN (0/0 in AddAssign) once results have been merged, while a hand of the range that was never dealt gets 0."
 },
 "C58": {
  "status": "proved",
  "note": "The theorems of the exact calculation (C33, C34, C35, C36, C13, C37, C38, C57) for approx_equity; both are derived from a common description of a calculation (structure Calc in Proofs/Describe.lean)."
 },
 "C59": {
  "status": "proved",
  "note": "approx_equity with checked u64 arithmetic and bounds of the hand counters in the threads (ApproxEquityC). Percentages are at most 100 (what the parser accepts, C18). The theorems speak about runs in which every thread finishes; panics and poisoned locks: C81."
 },
 "C60": {
  "status": "proved",
  "note": "C60_walk: the map from first deals to deals after any fixed moves is a bijection; C60_evaluation: what a board produced at a deal adds to the counters; C60_expected and C60_equity: expectation of an evaluation (independent uniform indexes of the first deal, uniform card draws; the moved combined ranges are arbitrary but fixed, so the result holds for every distribution of them that does not depend on the deal). The uniformity of the generator itself is assumed. The estimate printed by the crate is a ratio of sums of such evaluations; nothing is claimed about its bias for a finite number of evaluations."
 },
 "C61": {
  "status": "proved",
  "note": "C61_exact, C61_approx: exact under WholeShares; C61_multiples, C61_two_players: simple conditions that imply it; C61_three_players: without it the equities are off (reported numbers computed exactly; f64 rounding not modelled)."
 },
 "C62": {
  "status": "proved",
  "note": "test_libdivide is a part of C25. test_exact_weighted is C88 and test_approx_weighted, which depends on random values, is C89. The showdowns of test_accuracy are evaluated by the kernel with the specification, and C61 connects them with the calculation."
 },
 "C63": {
  "status": "proved",
  "note": "C63_nearest and C63_even: the rounding function is round-to-nearest-even; C63_exact_mode/C63_exact_runs: runs of the floating-point model and of the exact model correspond (Rounded, Published); C63_correctly_rounded; C63_error: meaning of the error bound; C63_progress, C63_percentage; C63_approx_mode/C63_approx_runs/C63_approx_equities: for every computed standard deviation (also NaN); C63_accuracy. Not modelled: overflow to infinity (all values are below 2^200), the value of sqrt and powi in the random simulation (arbitrary), and records whose total exceeds 2^62."
 },
 "C64": {
  "status": "proved",
  "note": "C64_column: column in the draw table against HasDraw (words of Verif/Spec/Draws.lean) for what get_draw returns; C64_flags, C64_table, C64_table_approx: the reported flags and tables of both calculations; C64_nut_flush, C64_not_nut_flush: meaning of the nut flags by comparison with all other hole cards. The findings about draws to A2345 and four-flush boards (C46) apply to these columns as well."
 },
 "C65": {
  "status": "proved",
  "note": "C65_suits, C65_order, C65_same_range, C65_equal_ranges, C65_two_equal."
 },
 "C66": {
  "status": "proved",
  "note": "C66_estimate, C66_smallest, C66_final, C66_sizes, C66_single, C66_two."
 },
 "C67": {
  "status": "proved",
  "note": "C67_exact_example, C67_readme_example (for every square root with 8/5 sqrt(1e-9) <= 0.01), C67_approx_example, C67_evaluator_example (the README writes Hand::empty(), which does not exist), C67_no_threads, C67_div, C67_hand_with_index."
 },
 "C68": {
  "status": "proved",
  "note": "ExactEquityD and ApproxEquityD (Model/CheckedFinish.lean) are the two functions with the checks in and outside the threads. C68_start, C68_finish, C68_exact_stages, C68_approx_stages: the stages outside never fail; C68_exact, C68_two_players, C68_approx: together with C51 and C59. Percentages are at most 100 (255 for C68_finish and C68_approx_stages)."
 },
 "C69": {
  "status": "proved",
  "note": "C69_five, C69_six, C69_seven count the sublists of the deck; C69_hands and C69_number: these are all the hands, once each; C69_sums: nothing outside the nine categories; C69_rules, C69_rules_five: the same numbers for the specification (a check of Spec/Poker.lean against published frequencies)."
 },
 "C70": {
  "status": "proved",
  "note": "C70_sqrt: the model of sqrt gives the f64 nearest to the real square root; C70_progress_value: 100 or more exactly when the target is reached, up to rounding; C70_one_batch, C70_first_progress, C70_reported, C70_reported_one are C52 with rounding; C70_evaluations, C70_steps, C70_completes, C70_never are C53 with rounding. C70_reported is stated for at most 1000 progress values."
 },
 "C71": {
  "status": "proved",
  "note": "C71_lists: the hands meant by a text can be listed in exactly one way up to order; C71_hands, C71_equities, C71_rounded, C71_runs: any number of players within the limits stated; C71_two_players: all together; C71_expected: approx_equity (with C60's probabilities); C71_accuracy: the value of the crate's test_accuracy follows from the rules of the game."
 },
 "C72": {
  "status": "proved",
  "note": "C72_ninth: every run, also when cancelled; C72_exact, C72_approx: the game that is really evaluated; C72_all_nan: the extreme case, with an example."
 },
 "C73": {
  "status": "proved",
  "note": "C73_exact: the score as a function of the best hand (Spec/Score.lean, by the rules alone); C73_no_gaps: the scores of each category; C73_number, C73_strengths: the numbers of scores and strengths."
 },
 "C74": {
  "status": "proved",
  "note": "C74_exact, C74_exact_all, C74_approx: the same outcomes as the atomic models; C74_calls: the values passed to the callback; C74_terminates, C74_no_deadlock, C74_exclusive."
 },
 "C75": {
  "status": "proved",
  "note": "C75_no_overflow, C75_two_players: the same as the floating-point model (C63); C75_follows, C75_runs: simulation by the exact model in both directions with counters modulo 2^64; C75_hands, C75_masks: the counters in terms of showdowns; C75_no_ties: the reported equities when there are no ties; C75_favourite_loses, C75_lost_deals, C75_eight_wide: findings."
 },
 "C76": {
  "status": "proved",
  "note": "C76_reduced, C76_reduced_exists, C76_total, C76_strings, C76_same, C76_differs, C76_meaning, C76_wellformed, C76_weight: ranges; C76_wraps: finding; C76_card_*: single cards (all two-character texts, C76_card_wrong is the finding); C76_flop_*: flops."
 },
 "C77": {
  "status": "proved",
  "note": "C77_card_ok, C77_card_wrong, C77_card_panic, C77_card: C15; C77_dash, C77_suited_pairs: C24; C77_display: C50; C77_sole_winner: C32."
 },
 "C78": {
  "status": "proved",
  "note": "C78_follows, C78_counts, C78_runs, C78_errors: relation to the exact model; C78_no_overflow, C78_two_players: equality with the floating-point model; C78_no_ties: equities; C78_no_totals, C78_all_lost: findings; C78_debug: the same inputs with overflow checks."
 },
 "C79": {
  "status": "proved",
  "note": "C79_order, C79_deals, C79_hand_totals: rounds; C79_river_counts, C79_river_equities, C79_river_float, C79_river_error: complete boards; C79_release, C79_turned: release build and finding."
 },
 "C80": {
  "status": "proved",
  "note": "C80_outcome, C80_boards, C80_every_outcome: outcomes of runs; C80_likely, C80_equally_likely: probabilities for independent uniform draws of cards; C80_mean, C80_bias: mean; C80_variance, C80_known, C80_accuracy, C80_equal_weights: variance and Chebyshev's inequality; C80_float: floating-point model; C80_even, C80_missed: finding."
 },
 "C81": {
  "status": "proved",
  "note": "C81_debug_*, C81_release_*: exact calculation; C81_approx_debug_*, C81_approx_release_*: random simulation; each with _returned/_all (agreement with the models with atomic steps), _ends/_exists/_cancelled (termination), _no_panic, _callback. C81_poison, C81_approx_poison: poisoned results; C81_poison_pos: poisoned enum_pos. C81_seven_hands, C81_seven_panics, C81_known_batches, C81_known_hands, C81_known_panics: findings. Release builds: the exact calculation needs total + reservation < 2^64 (C75). The rules for poisoning and for thread::scope are those of the documentation of std."
 },
 "C82": {
  "status": "proved",
  "note": "C82_ascii: the condition of the other text claims follows. C82_text, C82_text_release, C82_same, C82_case: ranges. C82_mask, C82_mask_case: masks. C82_random, C82_stop, C82_blank, C82_kelvin: findings. The conversion itself is an arbitrary function with the property UnicodeLower (Model/LowerCase.lean); simpleLower shows that there is one."
 },
 "C83": {
  "status": "proved",
  "note": "C83_release, C83_debug: exact calculation (the debug model has exact numbers). C83_two_players: two players without size conditions. C83_approx_release, C83_approx_debug: random simulation. C83_accuracy: the crate's test. Built from C61, C63, C68, C71, C75, C76, C78, C81. Weights must be divisible by the number of winners (else C32: shares are rounded down)."
 },
 "C84": {
  "status": "proved",
  "note": "Finding: with three foreign bits in the board mask aces before the flop are reported with the category pair (rank 1) on a board of no cards, and board results are generated; with six foreign bits the call fails with TooManyBoardCards. All other claims about the calculations hold for every u64 mask (hypothesis CardMask, below 2^64) with the cards among the bits 0 to 51."
 },
 "C85": {
  "status": "proved",
  "note": "The debug build of C51, C59, C68 and C81 has exact rational numbers; here it has f64 numbers as well. Finding (as in C81, now with f64): seven or eight known hands of weight 100 before the flop make every debug build panic."
 },
 "C86": {
  "status": "proved",
  "note": "Finding: safe public functions have undefined behaviour on some arguments (get_card_index(0,0) and Hand::default().get_card_index() in a release build, CARDS[48].get_card_index() and evaluate of eight different cards in both)."
 },
 "C87": {
  "status": "proved",
  "note": "Finding: the equity functions trust the public fields of HandRange; a hand of twice the same card leads to undefined behaviour in safe code. The documentation of hand_results gives 391 and 392 as the border between suited and offsuit hands; it is 389 and 390."
 },
 "C88": {
  "status": "proved",
  "note": "The 123 million showdowns are summed by the kernel suit by suit (Proofs/PreflopSum.lean): the points without flushes, and for each suit the difference that flushes in it make. With this all deterministic tests of the repository have theorems."
 },
 "C89": {
  "status": "proved",
  "note": "Outcomes are counted, not weighted: that all boards are equally likely is C43, that the deals go round in order is C79; the random numbers themselves are not modelled. One in five is Chebyshev's bound; the number of outcomes that fail is smaller."
 },
 "C90": {
  "status": "proved",
  "note": "The change from the drawn deal to the first evaluated one of the second and later batches is also a change of one combined range, so it keeps the property as well. Probabilities are counted as numbers of equally likely draws (C60)."
 },
 "C91": {
  "status": "proved",
  "note": "The results are counted for a fixed number of batches; the stopping rule depends on the results. That the first deals, the choices of a combined range and the boards are drawn uniformly is C43 and C60. The bound falls with the number of batches, not of evaluations: C90 shows that the evaluations of a batch can all be in one component."
 },
 "C92": {
  "status": "proved",
  "note": "The probability of a list of drawn values is the product of 1/k over the draws from k values (Spec/Chance.lean); an expectation is the sum over all lists of draws with which the program ends. The random generator itself is not modelled. The number of batches of each thread and the order of the steps are fixed beforehand, and the target is at most 0, so that only the cancellation ends the run: with a positive target the number of batches depends on the results. Equities are exact numbers here; C91_outcome_float gives the rounding."
 },
 "C93": {
  "status": "proved",
  "note": "C92 with the stopping rule of the program in place: a scheduler is a function of the list of all worlds so far (`Chooses`: it names a thread that has not ended while there is one) and may set the cancellation token in any step. C93_run states that the worlds are those of the program model ApproxEquityF and C93_total that the probabilities of the draws add up to one. Equities need 4096 nT wmax <= 2^53 (exact counters) and whole shares of the pot (WholeShares; C79). The random generator itself is not modelled."
 },
 "C94": {
  "status": "proved",
  "note": "Hoeffding's inequality for the showdowns of the batches, whose boards are independent once the deals are fixed; the deals of a joined range are fixed by the first one (C79). Hoeffding's lemma is taken from Mathlib (Probability.Moments.SubGaussian). C94_tail takes the bound delta on the distance of the mean as a hypothesis, which C80_bias and C89_bias give for at most 4096 deals and C80_mean for numbers of deals that divide 4096 (C94_rounds). If the ranges were not joined, the deals themselves are random and there are only nT independent batches, so that only the bounds of C93 hold."
 },
 "C95": {
  "status": "proved",
  "note": "The number of evaluations of one deal is bounded by the number of boards (C95_prompt, C95_messages), not by the smaller number of groups of boards: the token is not looked at during the enumeration of the boards of a deal."
 },
 "C96": {
  "status": "proved",
  "note": "For the model with exact fractions; the laws for the equities need at most eight players and the condition WholeShares of C61. A refused calculation (ConflictingRanges) stands for counters that are all zero, which C40 justifies."
 },
 "C97": {
  "status": "proved",
  "note": "For the model with exact fractions and at most eight players (C72 says what happens to the ninth). Equities are numbers only if something was counted; otherwise they are NaN (C34_nan_equities)."
 },
 "C98": {
  "status": "proved",
  "note": "C98_comma and C98_disjoint for texts, C98_proportions and C98_same_equities for ranges, C98_percentages for texts. For the model with exact fractions; see C96 for the laws these rest on and C61 for WholeShares."
 },
 "C99": {
  "status": "proved",
  "note": "C99_mix, C99_between, C99_raise, C99_best, C99_alone, C99_combo (total below 2^64). For the model with exact fractions; WholeShares (C61) says that the integer division of the tied pots is exact."
 },
 "C100": {
  "status": "proved",
  "note": "C100_exact, C100_unseen, C100_unseen_same, C100_errors, C100_terminates, C100_approx, C100_approx_counts; C100_set, C100_approx_set and C100_cleared say that the new model has the old runs and more. Reads of stale values are covered: a read of any value is a store before and a store after it."
 },
 "C101": {
  "status": "proved",
  "note": "C101_left_set, C101_token, C101_clear, C101_next_approx, C101_approx_after, C101_exact_after, C101_exact_keeps; the same in a release build is C101_release_token, C101_release_next_approx, C101_release_approx_after, C101_release_exact_after (the last one under Room: the position counter does not wrap). The documentation calls the token 'a shared boolean to stop simulation' and does not say that it comes back set; see the findings in DESIGN.md.",
  "extra": [
   "Pokers.approxLeavesR_iff"
  ]
 },
 "C102": {
  "status": "proved",
  "note": "C102_exact, C102_errors, C102_unseen, C102_two_players, C102_set, C102_cleared, C102_approx, C102_approx_counts, C102_approx_set. C100 is the same for the exact model."
 }
}
