import json
P=[]
def p(id,title,st,q,why,anch): P.append(dict(id=id,title=title,statement=st,quantifier=q,why_tests_cant=why,anchors=anch))
H="src/hand_evaluator/hand.rs"; R="src/hand_range.rs"; S="src/equity_calculator/simulator.rs"; CR="src/equity_calculator/combined_range.rs"; F="src/fastdivide.rs"
p("C01","Hand scores order hands exactly as poker does","For any two hands built from distinct cards, each of 2 to 7 cards, Hand::evaluate gives a smaller / equal / larger score exactly when the best five-card poker hand contained in the first is weaker / equal / stronger under the standard poker ranking than the best one in the second.","all pairs of sets of 2..7 distinct cards, added in any order","about 154 million hands and their pairs; the value comes from an 86362-entry perfect-hash table with no redundancy",[H+"::Hand::evaluate","src/lookup.rs::LOOKUP","src/flush_lookup.rs::LOOKUP_FLUSH","src/hash_offsets.rs::PERF_HASH_OFFSETS"])
p("C02","score / 4096 is the hand category","evaluate() >> 12 is 1..9 for high card, pair, two pair, trips, straight, flush, full house, quads, straight flush of the best five-card hand.","all sets of 2..7 distinct cards","same size of domain as C01",[H+"::Hand::evaluate","src/constants.rs::HIGH_CARD..STRAIGHT_FLUSH","src/lib.rs"])
p("C03","Card order and grouping do not matter","Building a hand by adding the same cards in any order, or by adding separately built partial hands (board + hole cards, from_hole_cards, from_bit_mask), gives the same Hand and hence the same score.","all lists of distinct cards, all permutations and all groupings","factorially many orders",[H+"::Add",H+"::AddAssign",H+"::from_bit_mask",H+"::from_hole_cards"])
p("C04","evaluate_without_flush is safe to use when no flush is possible","When no suit occurs five times, evaluate_without_flush returns exactly evaluate; in general it is the score of the hand with suits ignored and never exceeds evaluate.","all sets of 2..7 distinct cards","the exact calculator silently relies on it for most showdowns",[H+"::evaluate_without_flush",S+"::enumerate_board_rec"])
p("C05","Relabelling suits never changes a score","Applying any permutation of the four suits to all cards of a hand leaves evaluate unchanged.","all sets of 2..7 cards, all 24 suit permutations","universally quantified over hands",[H+"::evaluate"])
p("C06","Unchecked table reads stay in bounds","Every get_unchecked read done by evaluate, evaluate_without_flush and get_card_index is inside its table for every hand of at most 7 distinct cards (two distinct cards for the index functions).","all sets of 0..7 distinct cards","an out-of-bounds unchecked read is undefined behaviour and need not crash a test",[H+"::evaluate",H+"::get_card_index"])
p("C07","More cards never hurt","Adding a card to a hand of 2..6 cards never lowers its score.","all hands of 2..6 distinct cards and all further cards","universally quantified",[H+"::evaluate"])
p("C08","Hand counters report the cards in the hand","count() is the number of cards, suit_count(s) the number of cards of suit s, contains(c) is membership, has_flush is 'some suit has at least five cards', get_suit_mask / get_rank_mask list the ranks present (in the suit / at all), get_flush_key is the rank mask of the flush suit or 0.","all sets of distinct cards within the counters' capacity (at most 15 cards, at most 12 per suit)","packed counters could overflow into each other for some combination",[H+"::count",H+"::suit_count",H+"::contains",H+"::has_flush",H+"::get_suit_mask",H+"::get_rank_mask",H+"::get_flush_key"])
p("C09","Adding cards never overflows the 64-bit key","For a default hand plus any set of distinct cards with at most 12 cards of one suit the key addition does not overflow u64, so debug and release builds agree.","all such card sets","overflow is input dependent",[H+"::Add"])
p("C10","get_card_index numbers the 1326 hole-card hands","get_card_index is symmetric, and maps the unordered pairs of distinct cards one-to-one onto 0..1325.","all ordered pairs of distinct cards","injectivity and surjectivity are global statements",[H+"::get_card_index","src/map.rs::CARD_MAP"])
p("C11","The two hand indexings agree","Hand::from_hole_cards(a,b).get_card_index() == get_card_index(a,b).","all ordered pairs of distinct cards","two independent tables must agree everywhere",[H+"::Hand::get_card_index","src/map.rs::MASK_MAP"])
p("C12","Index / name tables are consistent","INDEX_TO_HAND[get_card_index(a,b)] names exactly the cards a and b; HAND_TO_INDEX inverts INDEX_TO_HAND; hands 0-77 are pairs, 78-389 suited, 390-1325 offsuit and the k-th block of 6/4/12 hands consists of the hands of the combo INDEX_TO_COMBO[k]; COMBO_TO_INDEX inverts INDEX_TO_COMBO.","all pairs of distinct cards, all table entries, all strings","global consistency of four hand-written tables",["src/string_lookup.rs","src/map.rs"])
p("C13","get_hand_result / get_combo_result return the right cell","get_hand_result(player, name) returns the results of exactly the two cards named, and an error for every string that is not a canonical hand name; get_combo_result likewise for the 169 combos.","all strings, all players below the player count","all strings",[S+"::get_hand_result",S+"::get_combo_result"])
p("C14","Card masks and strings round-trip","get_card_mask(mask_to_string(m)) == m for every mask of real cards; get_card_mask of a concatenation of card names sets exactly those cards; any string with odd length or an invalid rank/suit character gives 0.","all 2^52 masks, all strings","unbounded strings",[R+"::get_card_mask",R+"::mask_to_string"])
p("C15","Single card parsing","card_from_str(card_to_string(c)) == Ok(c) for all 52 cards, and a string that does not name a card is rejected with an error. (The second half is violated by the code: '2x' parses as Ok(255).)","all cards, all strings","all strings",[R+"::card_from_str",R+"::card_from_chars",R+"::card_to_string"])
p("C16","flop_from_str","A flop string of three distinct card names, optionally separated by whitespace, parses to the three card numbers sorted ascending; duplicates and extra text are rejected.","all triples of cards, all whitespace separators","unbounded separators",[R+"::flop_from_str"])
p("C17","Parsing a range never reads out of bounds and always terminates","HandRange::from_string terminates on every string and never indexes past its character buffer; the only possible panic is arithmetic overflow of a weight with too many digits, and it happens (debug build).","all strings","arbitrary input text",[R+"::from_string",R+"::parse_hand",R+"::parse_weight"])
p("C18","Parsed combos are well formed","Every combo produced by from_string consists of two distinct cards below 52, the larger card first, with weight between 0 and 100.","all strings","arbitrary input text",[R+"::from_string",R+"::add_combo"])
p("C19","Parsed ranges have no duplicates and are ordered","from_string of anything yields each two-card hand at most once; for non-'random' strings in increasing Combo order.","all strings","overlapping range expressions are unbounded",[R+"::remove_duplicates",R+"::Ord for Combo"])
p("C20","Range notation means what it says","For ranks and suffixes: 'XY', 'XYs', 'XYo', 'XY+', 'XY-ZW' (with the weight suffix '@w', 0<=w<=100) select exactly the hands that equilab-like notation denotes.","all ranks X, Y, Z, W, suffixes and weights","products of options; tests cover a handful",[R+"::parse_hand",R+"::add_combos",R+"::add_combos_plus",R+"::add_combos_dash"])
p("C21","Comma means union, first weight wins","For a list of valid tokens joined by commas the range contains a hand iff some token denotes it, and its weight is that of the first token that denotes it.","all lists of valid tokens","unbounded lists",[R+"::from_string",R+"::remove_duplicates"])
p("C22","'random' is the full range","from_string(\"random\") contains each of the 1326 hands exactly once with weight 100.","all hands","completeness of the list",[R+"::add_all"])
p("C23","remove_conflicting_combos removes exactly the blocked hands","After the call the range contains exactly the previous hands, in order, that use no board or dead card; it is idempotent and its masks can be applied in any order.","all ranges, all masks","all masks",[R+"::remove_conflicting_combos"])
p("C24","A dash range does not depend on the order of its ends","'XY-ZW' and 'ZW-XY' denote the same range. (Holds for non-pairs, violated for pairs: '99-JJ' is empty while 'JJ-99' is not.)","all ranks and suffixes","asymmetric corner",[R+"::add_combos_dash"])
p("C25","DividerU64 is exact division","DividerU64::divide_by(d).divide(n) == n / d, with no overflow or failed assertion on the way.","all u64 d > 0 and all u64 n","2^128 pairs; wrong magic numbers fail on isolated values",[F+"::divide_by",F+"::divide"])
p("C26","Batch sizing never divides by zero","For every accepted input the number of board run-outs computed for batch sizing is the binomial coefficient C(52-board-dead-2*players, 5-board), is positive, and its computation never underflows or overflows.","all player counts, board and dead cards passing validation","all parameter combinations",[S+"::get_postflop_combo_count"])
p("C27","Combining ranges loses and invents no deals","The combined ranges describe exactly the joint deals of the input ranges: choosing one combined combo per combined range such that no card is used twice gives each compatible assignment of one hand per player exactly once, with its weights; every player occurs in exactly one combined range.","all lists of ranges","which ranges get merged depends on data",[CR+"::from_ranges",CR+"::join",CR+"::estimate_join_size"])
p("C28","Exact enumeration visits every deal exactly once","The sequence of enumeration positions 0..total decodes to every combination of combined combos exactly once, so exact_equity considers each card-compatible deal once and no other.","all ranges whose combination count fits u64","mixed-radix decoding with magic-number division over huge counts",[S+"::enumerate_all",S+"::get_preflop_combo_count"])
p("C29","The result does not depend on the thread schedule","For any number of threads >= 1 and any interleaving without cancellation, exact_equity reserves every position exactly once, and wins, wins_by_mask, hand wins/ties/totals/shares and eval_count are the same.","all interleavings, all thread counts","schedules cannot be enumerated by tests",[S+"::enumerate_all",S+"::reserve_batch",S+"::update_results"])
p("C30","Suit-collapsed board enumeration equals brute force","For every deal, the recursive board enumeration with its suit-isomorphism shortcuts and multiplicities yields the same win / tie / total counts as evaluating every set of undealt cards that completes the board.","all deals, boards, dead cards","a wrong multiplicity shifts an equity by a tiny amount only in rare suit patterns; the README says such a bug survived for years upstream",[S+"::enumerate_board",S+"::enumerate_board_rec"])
p("C31","exact_equity is exact","For 2..8 players, exact_equity's per-hand wins, ties, totals and tie shares, its wins and its wins_by_mask equal the brute-force counts over all compatible deals and all board completions, with winners decided by the poker rules.","all inputs, all schedules without cancellation","end-to-end statement over all inputs",[S+"::exact_equity"])
p("C32","Every player can win, including the ninth","Whenever player i holds the strictly best hand, wins_by_mask and wins credit player i. (Holds for players 0..7; violated for the ninth player, whose mask bit is shifted out of a u8.)","all showdowns, 2..9 players","nine-player configuration",[S+"::evaluate_hands"])
p("C33","Equities are a probability distribution","When the wins and the (rounded down) tie shares of the players are not all zero, the reported equities are non-negative, sum to 1 and are the players' parts of the sum; otherwise they are all NaN.","all results states","all states",[S+"::get_equity"])
p("C34","Tie shares lose less than one unit per flush","A player's reported ties value is at most the exact share sum(weight/winners) and falls short of it by less than one unit per (flush, tie mask); it can be wrong enough to make all equities NaN.","all batches and flush histories","rounding accumulates over schedules",[S+"::update_results"])
p("C35","Counts are conserved","Each player's hand totals sum to the total weight of all showdowns; hand wins sum to the player's wins; for every showdown either one player wins or several tie; wins_by_mask sums to the total weight.","all inputs and histories (up to 8 players where masks are involved)","all histories",[S+"::evaluate_hands",S+"::update_results"])
p("C36","Combo results aggregate their hands","There are exactly 169 combo results per player and each is the sum of wins/ties/totals/shares of the hands with that combo name (scaled by a common divisor only above u64::MAX, and then still within u64); winrate, tierate and equity are the corresponding ratios.","all result states","all states",[S+"::generate_final_data"])
p("C37","Board results partition the hands by current category","With at least three board cards, every hand in a range is counted in exactly one of the nine categories of its player, namely the category it currently makes; the nine totals add up to the player's total; the rank index is always in bounds.","all ranges and boards","all states",[S+"::set_ranks",S+"::generate_board_data"])
p("C38","Reported weights and validity are those of the range","After the run a hand is valid exactly when it is in the player's filtered range, and its reported weight is the weight in the range, whichever players use uniform weight 100.","all ranges","bit-flag bookkeeping over all ranges",[S+"::save_hand_weights",S+"::fix_hand_weights"])
p("C39","Input validation","Both entry points return TooFewPlayers / TooManyPlayers / TooManyBoardCards / TooManyDeadCards exactly in the documented situations with that precedence, and accepted inputs always leave enough cards to complete the board.","all player counts and masks","all masks",[S+"::exact_equity",S+"::approx_equity"])
p("C40","ConflictingRanges is sound","If ConflictingRanges is returned, no deal is compatible; if some player's range has no hand left after card removal, ConflictingRanges is returned.","all ranges and masks","depends on merge order",[S+"::exact_equity",CR+"::from_ranges"])
p("C41","Monte Carlo only deals legal showdowns","Every showdown evaluated by approx_equity deals each player a hand of their range, five board cards extending the given board, and no card twice or dead; the recorded index and weight are those of the dealt hands.","all random streams, all inputs","random walk with incremental mask updates",[S+"::sim_random_walk_monte_carlo",S+"::randomize_hole_cards",S+"::randomize_board"])
p("C42","The random walk's re-deal loop terminates","Re-dealing one combined range always finds a compatible combo within its size, and the card-mask subtraction never underflows.","all reachable walk states","all random histories",[S+"::sim_random_walk_monte_carlo"])
p("C43","Random boards are unbiased","Under uniform card draws every legal board completion is produced by equally many draw sequences of each length.","all used-card masks, all lengths","statistical property",[S+"::randomize_board"])
p("C44","Cancellation is prompt and leaves consistent results","If the cancel token is set at any time, every thread stops at its next flush, and the returned counts are exactly the counts of the deals processed so far.","all cancellation points and interleavings","all crash/cancel points",[S+"::enumerate_all",S+"::update_results"])
p("C45","Progress callbacks","In exact mode the reported progress values are non-decreasing, never exceed 100, and the last one is 100 if not cancelled. (In approximate mode 100 can be exceeded.)","all interleavings","message order depends on schedule",[S+"::update_results"])
p("C46","get_draw flags","Flush-draw flags are set exactly by the suit counts; straight-draw flags exactly by the presence of the documented rank patterns; at most the documented flags are produced for each hand category; get_draw as called by the simulator never panics.","all hole cards and boards","many rank patterns",[H+"::get_draw"])
p("C47","Combo ordering is a total order consistent with equality","Combo comparison is reflexive, antisymmetric, transitive and total, and compares Equal exactly when == holds, so sort+dedup removes all duplicates.","all u8 triples","global law",[R+"::Ord for Combo",R+"::PartialEq for Combo"])
p("C48","No deadlock","In every reachable state in which not all threads are finished, some thread can make a step.","all interleavings","schedules",[S+"::update_results",S+"::reserve_batch"])
p("C49","Player symmetry","Permuting the input ranges permutes the records of the hands accordingly, and up to 8 players the wins and the winner masks. (The rounded down tie shares depend on the batches, C34.)","all inputs, all permutations","all inputs",[S+"::exact_equity"])
p("C50","Display names of parsed combos are valid result keys","The Display string of every hand in a range is accepted by get_hand_result and returns that hand's results. (Violated for pocket pairs: the range prints 'AhAs' but the key is 'AsAh'.)","all parsed hands","all hands",[R+"::Display for Combo",S+"::get_hand_result"])
p("C52","What approx_equity's stdev target does","The documentation says that the simulation goes on until the deviation of the estimate is below stdev_target; what the code does is different: the deviation computed after the first batch is sqrt(1e-9) whatever the batch contains, so for every target above that each thread evaluates exactly one batch of 4096 showdowns; the reported stdev counts an empty batch of equity 0 for each thread, and the first progress value is 255.","all inputs with one combined range, all random values, schedules, thread counts, targets","random values, schedules",[S+"::approx_equity",S+"::update_results",S+"::sim_random_walk_monte_carlo"])
p("C53","approx_equity ends exactly for positive targets","For a positive target every run ends, within a number of evaluations bounded by the target and the number of threads; the evaluations are a multiple of 4096; the argument of the square root is never below 1e-9. For a target that is not positive and without cancellation no thread finishes, if the ranges combine into one.","all random values, schedules, inputs","unbounded runs",[S+"::approx_equity",S+"::update_results",S+"::sim_random_walk_monte_carlo"])
p("C54","What a range text means, for every text","Of any text other than 'random' the longest tokens are read from the left as long as each is followed by a comma; the range holds exactly the hands of these tokens, with the weight of the first token standing for the hand, and the rest of the text is ignored without an error. (Finding: 'aa-kq' gives the empty range, everything after a bad token is lost, '@' without digits is weight 0, a weight above 100 becomes 100 and ends the text.)","all character lists","unbounded texts",[R+"::from_string",R+"::parse_hand",R+"::parse_weight",R+"::parse_combos_dash"])
p("C55","Hand equality","== on hands holds exactly if both are made of the same cards (in whatever order and grouping) with the same number of default hands.","all card sets, all orders and groupings","2^52 card sets",[H+"::PartialEq for Hand",H+"::Add for Hand"])
p("C56","The default hand must be added exactly once","A hand is taken for a flush exactly if it has 8-3k cards of one suit, k being the number of default hands in it: five for k=1, never for k=0, two for k=2. (Finding: the sum of two from_bit_mask hands is mis-evaluated, and a flush put together without Hand::default() is not recognised.)","all card lists, all ways of adding","all combinations of constructors",[H+"::has_flush",H+"::from_bit_mask",H+"::Add for Hand"])
p("C51","When the counters overflow","If all showdowns together weigh less than 2^64 (always so for two players), then every u64 counter, product of weights, suit counter and index in the threads of exact_equity stays in range: no panic in a debug build, correct counts in a release build. A run of a debug build that returns has counted correctly. (Finding: with seven or eight known hands before the flop at the default weight 100 the input is accepted and every run overflows.)","all ranges, boards, schedules, thread counts","needs many players and complete enumeration",[S+"::enumerate_board_rec",S+"::evaluate_hands",S+"::update_results",S+"::enumerate"])
p("C57","Rates of a hand","After exact_equity with at least one thread, the winrate, tierate and equity reported for a hand of a player's filtered range are the quotients (won alone, tied, won plus tie shares) of the weight of the showdowns counted for this hand, and 0 if it was never dealt; without cancellation the equity is the expected share of the pot over all showdowns with this hand. They satisfy winrate + tierate <= 1 and winrate <= equity <= winrate + tierate/2. For a hand outside of the filtered range nothing is counted and the equity is NaN.","all ranges, boards, numbers of threads, schedules and times of cancellation","needs all schedules and all ranges",[S+"::generate_final_data",S+"::update_results",S+"::add_assign"])
p("C58","Results of approx_equity","Whatever the random values, the schedule, the number of threads and the time of cancellation, the results returned by approx_equity have the same form as those of exact_equity: equities are a distribution (or all NaN), ties are the integer shares of each update, counts are conserved, combo results aggregate their hands, validity and weights are those of the range, categories are right, the board tables are the sums over the hands, and the rates of a hand are the quotients of its counters.","all ranges, boards, random values, thread counts, schedules, cancellations","quantifies over all random streams and schedules",[S+"::approx_equity",S+"::update_results",S+"::generate_final_data",S+"::generate_board_data"])
p("C59","When the counters overflow in the random simulation","While the number of evaluations times 100 per player is below 2^64, every u64 counter, product of weights and index in the threads of approx_equity stays in range, whatever the random values and the schedule; a run of a debug build that returns has counted correctly. (Findings: with eight or nine players at the default weight 100 the first batch of 4096 evaluations already overflows, so no debug build returns with an evaluation; with n known hands at weight 100 a debug build that returns has made less than 2^64/100^n evaluations, 45 batches for seven players.)","all ranges, boards, random values, schedules, thread counts","needs many players and long runs",[S+"::sim_random_walk_monte_carlo",S+"::evaluate_hands",S+"::update_results"])
p("C60","The random simulation is unbiased","Whatever sequence of combined ranges a thread has moved since its deal, each list of combo indexes of the first deal leads to a legal deal and each legal deal arises from exactly one such list, so all legal deals are equally likely at every evaluation, hence (with C43) all showdowns are; the expected value of any quantity of the showdown at an evaluation is its mean over all showdowns, and the expected part of the pot divided by the expected weight is the equity over all showdowns.","all accepted inputs, shuffles, sequences of moves, quantities","statistical property",[S+"::sim_random_walk_monte_carlo",S+"::randomize_hole_cards",S+"::randomize_board"])
p("C61","When the reported equities are exact","With up to eight players, if in every showdown the weight of the deal is a multiple of the number of winners (for two players: all percentages of one player are even), the integer divisions in update_results lose nothing: the ties are the exact shares and the equities of exact_equity are exactly wins plus shares over all showdowns divided by the total weight; those of approx_equity are exactly that over the showdowns it evaluated. (Finding: three players at the default weight can get 833333/1999999, 833333/1999999, 333333/1999999 instead of 5/12, 5/12, 1/6.)","all ranges, boards, thread counts, schedules, random values","needs the exact rational equity and all batch boundaries",[S+"::update_results",S+"::get_equity"])
p("C62","The crate's own tests, on the model","The values expected by the unit tests of hand.rs, fastdivide.rs, hand_range.rs and by test_weight_optimization and test_accuracy hold of the model. In particular AA against a random hand on KdKsKh3s has, for every positive number of threads, a run, and every uncancelled run reports exactly 10873/11385 for the aces, whose nearest double is that of the literal 0.9550285463328941 in the test.","all thread counts and schedules for test_accuracy; all ranges for the weights","the test runs one schedule with 4 threads and compares with a tolerance",[S+"::test_accuracy",S+"::test_weight_optimization",R+"::tests",H+"::tests"])
p("C63","Floating-point rounding","With every f64 operation rounded to nearest-even as IEEE 754 prescribes, the integer counters are those of the exact model. If all the weight counted is at most 2^53 every player's equity is the exact model's equity rounded once, so under the condition of C61 it is the nearest double to the true equity; otherwise (ties up to 2^53) it is off by at most n+4 roundings. Equities and rates per hand, combo and board are rounded once for two players and totals up to 2^52, and off by at most (number of ties + 4) roundings in general. Errors are the same. Exact-mode progress values do not decrease, are at most 100, end with 100 unless cancelled, and differ by at most 1 from the exact percentage. test_accuracy gives the very bits of its literal.","all ranges, boards, dead cards, thread counts, schedules and cancellations; all weights within the stated bounds; all computations of the standard deviation","tests compare one run with a tolerance of 1e-3 or 1e-7 and cannot show that no schedule accumulates a larger error",[S+"::SimulationResults::get_equity",S+"::Simulator::update_results",S+"::UnitResults",S+"::Simulator::generate_final_data",S+"::test_accuracy"])
p("C64","The table of draws","With three or four board cards, the draw flags reported for a hand are those get_draw computes for the category reported with it, and column c of the draw table (open-ended, gutshot, double gutshot, backdoor straight, nut straight, flush draw, backdoor flush draw, backdoor nut flush draw, nut flush draw, nut flush) is the sum over exactly those hands of the range that have that draw in the words of the specification; with five board cards the flags and the table are empty. A hand flagged as nut flush (or as a draw to it) beats, on every continuation of the board that gives it the flush, every flush other hole cards can make; a flush not flagged is beaten by some other hole cards.","all ranges, flops, turns, rivers, dead cards, thread counts, schedules; all hole cards and all continuations","tests do not look at draws at all; the nut columns depend on combinations of three flags",[S+"::Simulator::generate_board_data",H+"::get_draw",S+"::SimulationResults::board_draws",S+"::Simulator::set_ranks"])
p("C65","Symmetries of the exact calculation","Exchanging the suits in all ranges, on the board and in the dead cards exchanges them in the results of exact_equity; the order in which a range lists its hands is irrelevant; two players with the same range get the same results, and n players with the same range the equities 1/n (two players always, more when no tie share is lost to integer division).","all ranges, boards, dead cards, suit permutations, thread counts and schedules without cancellation","each is a relation between the results of different runs on large inputs; the enumeration treats suits and hand orders very differently",[S+"::exact_equity",S+"::Simulator::enumerate_all",S+"::Simulator::enumerate_board",CR+"::CombinedRange::from_ranges"])
p("C66","Which ranges are combined","The estimated size of a join is its size, the number of pairs of combos without a common card. Each iteration of from_ranges joins two different ranges whose join is smallest; at the end no two remaining ranges have fewer than 10000 compatible pairs, a combined range of several players has fewer than 10000 combos, two ranges stay separate exactly if they have at least 10000 compatible pairs, and ranges whose sizes multiply to less than 10000 become one.","all lists of ranges","needs ranges of every size; the tests look at one join",[CR+"::from_ranges",CR+"::estimate_join_size",CR+"::join"])
p("C67","The examples of the documentation","The example of exact_equity (two random hands on KhKsKdKc3h) has a run for every positive number of threads and every uncancelled run reports 1/2 and 1/2. The approx_equity example of the README has a run, and every run makes exactly 16384 evaluations and calls the callback 8 times, first with 255. The approx_equity doc example has a run. With n_threads = 0 the results are all NaN and nothing is sent. u64 / DividerU64 is exact division; HandWithIndex compares cards only, so its Ord disagrees with its Eq.","all numbers of threads, schedules, random values, cancellations","doc tests run one schedule and check nothing about the result",[S+"::exact_equity",S+"::approx_equity",S+"::HandWithIndex",F+"::Div<DividerU64>"])
p("C68","No check fails before or after the threads","In save_hand_weights, set_ranks, fix_hand_weights, generate_final_data and generate_board_data every index is in bounds (including the unchecked read in get_card_index), every shift is in range and no 32, 64 or 128 bit sum overflows, for every accepted input and whatever 64-bit values the threads have counted. So a debug build of exact_equity or approx_equity can only panic in its threads; for two players, or when all showdowns weigh less than 2^64, exact_equity with all checks has exactly the results of the model without.","all ranges, boards, dead cards, schedules, counter values","all accepted inputs and counter values",[S+"::exact_equity",S+"::save_hand_weights",S+"::set_ranks",S+"::fix_hand_weights",S+"::generate_final_data",S+"::generate_board_data",H+"::get_card_index"])
p("C69","The categories occur as often as in poker","Of the 2598960 five-card, 20358520 six-card and 133784560 seven-card hands, evaluate() >> 12 puts exactly the known numbers into each category (five cards: 1302540 high card, 1098240 pair, 123552 two pair, 54912 trips, 10200 straight, 5108 flush, 3744 full house, 624 quads, 40 straight flush), and so do the rules used as specification.","all hands of five, six and seven different cards","133784560 hands for seven cards",[H+"::Hand::evaluate","src/lookup.rs::LOOKUP","src/flush_lookup.rs::LOOKUP_FLUSH"])
p("C70","The stopping rule with the numbers of the program","With every operation of update_results rounded as f64, including sqrt (correctly rounded, NaN for negative arguments): a target of at least 1/31622 and one combined range give exactly one batch of 4096 per thread and, from 1/19700 on, a first progress value of 255; for targets of at least 2^-20 and at most 255 threads the evaluations are bounded by 4096*(1/(3*target^2)+1+threads), so NaN never keeps the threads running; the reported deviation is the one computed from the exact batch estimates up to 4e-12 per batch under the root; with a target that is not positive no thread finishes.","all ranges, boards, random values, schedules, thread counts up to 255 and targets from 2^-20 on","rounding errors in running sums and cancellation in the variance over arbitrarily many batches and schedules",[S+"::approx_equity",S+"::update_results",S+"::sim_random_walk_monte_carlo"])
p("C71","From the texts to the equities","For range texts, board text and dead-card text in any case, written for ranges given by tokens (or 'random') and for lists of different cards: parsing and exact_equity together count, for every hand of every player, the sums over all deals of one hand each and all boards, taken from any lists of the hands that the texts mean; with up to eight players and evenly divisible weights the equities are those of the game, and the f64 values are the nearest numbers up to a total weight of 2^53; if some deal is possible runs exist and never end in an error; for two players with even weights all of this holds without any condition on the sizes, and all runs pass all overflow and bounds checks. The expected value of approx_equity is the same equity.","all texts, numbers of players, boards, dead cards, thread counts and schedules","end-to-end over unboundedly many texts, with an oracle that enumerates all deals and boards",["src/hand_range.rs::from_strings",S+"::exact_equity",S+"::approx_equity"])
p("C72","What is reported for nine players","MAX_PLAYERS is nine but the winner mask has eight bits. For nine players, exact or random: the ninth player never has a win or a share of a tie and its equity is 0 (or all equities are NaN); if the other winners can share evenly, wins plus ties and the equities of the others are those of a game in which the pot is divided among the winners other than the ninth and pots won by the ninth alone vanish; if the ninth player wins every showdown alone all nine equities are NaN.","all nine ranges, boards, dead cards, thread counts, schedules, weights and random values","needs an oracle over all deals of nine hands; the failure is silent",[S+"::sim_random_walk_monte_carlo",S+"::evaluate_hands",S+"::update_results"])
p("C73","Which numbers the scores are, and how many","The score of a hand of two to seven different cards is 4096 times the category of its best poker hand plus the place of that hand, counted from below and without gaps, among all strengths of the category that hands of two to five cards can have; a flush has the place of the high-card hand of the same ranks. Hands of 2, 3, 4, 5, 6, 7 cards have exactly 91, 455, 1820, 7462, 6075, 4824 different scores, and as many different strengths.","all hands of two to seven different cards","a test compares some scores; that no score is missing or extra needs all 133784560 seven-card hands and all smaller ones",[H+"::Hand::evaluate","src/lookup.rs::LOOKUP","src/flush_lookup.rs::LOOKUP_FLUSH"])
p("C74","Threads, locks, channel and callback together","With every lock operation, access to shared data, message and call of the callback as a step of its own, and whatever the callback does with the cancel token, exact_equity and approx_equity have exactly the outcomes of the models with atomic updates; the callback is called once per message, in the order in which they were sent. The exact calculation makes a bounded number of steps and can only stop when all threads have ended and all messages have been received; the random one is never stuck before that, and two threads never update the results at the same time.","all inputs, callbacks, thread counts, schedules, random values and times of cancellation","the number of interleavings is unbounded",[S+"::exact_equity",S+"::approx_equity",S+"::update_results",S+"::reserve_batch"])
p("C75","The release build: counters modulo 2^64","In a release build the counters wrap instead of panicking. If all showdowns together weigh less than 2^64 (always so for two players) the release build has exactly the results of the floating-point model. In general every run belongs to a run of the exact model and has its counters modulo 2^64: wins, ties and totals of every hand, and, up to eight players, the wins of every player and group. Findings: on the flop with eight players a favourite with 58.9 percent is reported with less than 1.7 percent; for eight players with the range A2o+,K4o+,AKs the number of combinations is 2^64, which wraps to zero: the calculation returns at once without having evaluated anything, all equities NaN.","all inputs, thread counts, schedules and times of cancellation; the wrong results for one flop and one range, all thread counts and schedules","a test would have to know the true equities of large multi-way pots, and tests run in debug builds panic",[S+"::exact_equity",S+"::enumerate_board",S+"::evaluate_hands",S+"::update_results",S+"::get_preflop_combo_count",S+"::UnitResults::add_assign"])
p("C76","Reading texts in a release build","In a release build from_string, from_strings, card_from_str and flop_from_str never panic. Where the debug build does not panic the result is the same. In general from_string reads the text in which every weight is replaced by its remainder modulo 2^32: a token with any number of digits after the @ gives its hands that remainder if it is at most 100 and else 100. Findings: aa@4294967300 is read as aa@4; a rank above 2 with a wrong suit letter is read as the diamond of the rank below ('3x' is the two of diamonds), so '3x4x5x' is accepted as a flop.","all texts and all lower-casing functions","tests run in debug builds, which panic on these texts",[H+"::from_string",H+"::from_strings",H+"::parse_weight",H+"::parse_hand",H+"::card_from_chars",H+"::card_from_str",H+"::flop_from_str"])
p("C77","Exactly when the properties C15, C24, C32 and C50 hold","card_from_str returns a card exactly for the names of the card, 255 exactly for a 2 with a wrong suit letter, and panics exactly if two characters are there and the first is no rank or the rank is above 2 and the second no suit letter. Swapping the ends of a dash does not matter exactly for two different ranks, one pair twice, or suited pairs. The printed name of a hand of a range is a key of the results exactly if the hand is no pair. All sole winners are credited exactly if there are at most eight players or the ninth never wins alone or shares with exactly one other player.","all texts, all dash tokens, all parsed hands, all showdowns with up to nine players","exact characterisations over all inputs",[H+"::card_from_str",H+"::card_from_chars",H+"::add_combos_dash",H+"::Display for Combo",S+"::evaluate_hands",S+"::get_hand_result"])
p("C78","The random simulation in a release build","In a release build, where u64 counters wrap instead of panicking, approx_equity fails exactly as in a debug build, and every result it returns has the counters (wins, ties and totals of hands, winner masks, players, evaluations) of a list of legal showdowns modulo 2^64; the list has 4096 elements per message above one per thread. As long as (evaluations + 1) * 100^players < 2^64 its runs are exactly those of the floating-point model, bit for bit. If no showdown is a tie the equities are the rounded shares of the wins modulo 2^64. Findings: nine known hands of weight 64 weigh 2^66 per batch, so every hand total is zero however long the simulation runs, and on a full board all wins are zero and all equities NaN, where a debug build panics.","all ranges, boards, dead cards, thread counts, targets, random values, schedules and times of cancellation","release and debug builds differ only when 64-bit counters overflow, which tests of small examples do not reach",[S+"::approx_equity",S+"::sim_random_walk_monte_carlo",S+"::evaluate_hands",S+"::update_results"])
p("C79","The random simulation goes round the deals","If the ranges are combined into one (fewer than 10000 combinations), the random simulation does not choose hands at random: there is one order of the legal deals such that each batch of 4096 evaluations goes round that order from some starting point, so of m deals each occurs 4096/m times per batch, rounded down or up, and so does every pair of hole cards in the reported totals. On a complete board with m dividing 4096 every counter is an exact multiple of the exact calculation's, the equities are the exact ones (in the floating-point model rounded once), and for other m up to 4096 the relative error is at most 1 / floor(4096/m). In a release build the counters are these multiples modulo 2^64. Finding: eight players of default weight on a complete board; the favourite wins half the deals and is reported with 9 percent by a release build after one batch.","all ranges that combine into one, boards, dead cards, thread counts, targets, random values, schedules and times of cancellation","a test can only check that the result of a random simulation is near the exact one, for a few seeds",[S+"::sim_random_walk_monte_carlo",S+"::approx_equity",S+"::randomize_hole_cards",CR+"::from_ranges"])
p("C80","How accurate the random simulation is","If the ranges are combined into one, the boards are the only thing left to chance. The result is the equity over one of the outcomes: the lists that assign a board to each deal evaluated; with known hands each outcome occurs in some run, and any boards of N consecutive evaluations have the same probability (1/n)^N, n the number of boards of a deal. The mean over the outcomes is the exact equity if the number m of deals divides 4096, and differs from it by at most one part in floor(4096/m) otherwise. The variance is given by an exact formula (for known hands without ties e(1-e)/N for N evaluations), and by Chebyshev's inequality at most one part in 4 N epsilon^2 of the outcomes deviates by epsilon or more if all weights are equal. Finding: the target does not determine the accuracy. For every target from 1/31622 up one thread makes 4096 evaluations; for an even match the standard deviation is then 1/128, 247 times that target, and at most one outcome in 64 is closer to the equity than 1/4096.","all ranges that combine into one, boards, dead cards, thread counts, targets, random values, schedules and times of cancellation; all outcomes","the outcomes number more than 44^4096; a test sees a few of them, and a tolerance wide enough for a random result hides a bias or a missed target",[S+"::approx_equity",S+"::sim_random_walk_monte_carlo",S+"::update_results",S+"::randomize_board"])
p("C81","Panics of threads and of the callback, poisoned locks","A thread that panics drops its guards and poisons the locks it holds, so that every later thread that takes them panics too; thread::scope waits for all threads and panics if one of them or the callback has. In the model with these rules a call that returns gives a result of the model without panics, in a debug and in a release build, for the exact and the random calculation, and all those results are returned if the callback does not panic. The exact calculation ends after at most 64 steps for each position and 72 for each thread, the random one after a bounded number of steps once it is cancelled; there is no deadlock, also after any panics. Release builds never panic, unless the callback does; debug builds only if the callback does or a counter overflows. A panic with the lock on the results ends all additions and messages; a reservation that overflows ends all reservations, and every thread panics that has not ended or is not handing over its results. Findings: with seven or eight known hands of weight 100 before the flop every exact calculation of a debug build that is not cancelled ends with a panic; with known hands of eight or nine players every random simulation of a debug build does, on any board, for every target and number of threads.","all ranges, boards, dead cards, thread counts, callbacks (including panicking ones), schedules, random values, times of cancellation","a panic while a lock is held needs an overflow at a certain time; a test sees one schedule, and a deadlock after a panic would only show as a hanging test",[S+"::exact_equity",S+"::approx_equity",S+"::enumerate_all",S+"::reserve_batch",S+"::sim_random_walk_monte_carlo",S+"::update_results"])
p("C82","Upper and lower case, foreign characters and blanks in texts","For every conversion to lower case that, like str::to_lowercase, turns ASCII letters into their lower case, the Kelvin sign into k, the dotted capital I into i and a combining dot, and all other characters into characters outside ASCII: what a range text means depends only on the letters for which its characters stand, up to the first one that stands for none; so upper and lower case do not matter, in debug and release builds, and the same holds for get_card_mask, which gives zero if a character stands for no letter. Findings: RANDOM and Random are the empty range; a blank after a comma ends the range, so that AsKs, QsJs is AsKs; the Kelvin sign is a king in ranges and masks but makes card_from_str panic.","all texts, every conversion to lower case that follows the Unicode tables for the characters concerned","texts with all Unicode characters cannot be enumerated; tests use lower-case ASCII",[R+"::from_string",R+"::get_card_mask",R+"::card_from_str"])
p("C83","A whole program: from the texts to the f64 equities, with threads, locks, callback and both builds","The program of the README (reading range and card texts, then exact_equity or approx_equity) in the model with locks, poisoning, channel, callback and panics. For every problem with two to eight players within the limits (for two players: every problem with enough cards, a possible deal and even weights of one player), every number of threads and every callback that does not panic, in a release and in a debug build: there is an end for every state of the cancel token; every end is the return of a result, never a panic or an error; and if the calculation has not been cancelled the equities are those of the game problem that the texts describe: in the release build the nearest f64 numbers if all showdowns weigh at most 2^53, else within n + 4 roundings if no player's shares exceed 2^53. For approx_equity in a release build every end is the return of a result computed from 4096 showdowns of the problem for each message above one per thread, with the nearest f64 numbers to their equities; in a debug build a panic is possible only after 2^64 / 100^n evaluations. The crate's test_accuracy returns its expected number to the last bit for every schedule.","all texts of the range notation, boards, dead cards, thread counts, schedules, callbacks that do not panic, times of cancellation","the result depends on the schedule of threads and locks and on the rounding of f64; a test runs one of them on one input and one build",[R+"::from_strings",R+"::get_card_mask",S+"::exact_equity",S+"::approx_equity"])
p("C84","Bits of the masks that stand for no card","exact_equity and approx_equity take the board and the dead cards as u64, and nothing rejects the bits 52 to 63, which stand for no card. Such bits count towards the limits on board and dead cards, so they only make the validation stricter. Apart from that the preparation (card removal, combined ranges, fixed board, conflict test) is that for the masks without them. An exact calculation that is not cancelled reports the same wins, the same winner masks, the same counts of every hand and the same valid hands and weights, and (up to eight players, if no share is lost in integer divisions) the same equities. What differs (finding): categories and draws are reported from three bits of the board mask on, so even before the flop if three bits stand for no card.","all u64 masks, ranges of two to nine players, thread counts, schedules","2^24 combinations of such bits for every input, and the tests never set one",[S+'::exact_equity',S+'::approx_equity',S+'::get_postflop_combo_count',S+'::set_ranks',R+'::remove_conflicting_combos',H+'::from_bit_mask'])
p("C85","A debug build with its floating-point numbers returns only what a release build returns","With integer checks and f64 rounding both in the model, whatever exact_equity or approx_equity returns in a debug build it can return in a release build: the same results to the last bit, with the same calls of the callback, for all inputs, sizes, weights, thread counts and callbacks, and for whole programs that start from texts. If all showdowns together weigh less than 2^64 (so for any two ranges) the builds cannot be told apart: same returns, same panics, same calls. A simulation whose evaluations leave room returns the same in both. Otherwise the debug build panics: seven or eight known hands before the flop always, and simulations with eight or nine known hands always. Every debug call has an end and is never in a deadlock, and its integers are those of the debug build with exact numbers. The crate's test_accuracy returns the expected number to the last bit in a debug build, which is how cargo test runs it.","all u64 masks, ranges of well-formed hands, texts, targets, thread counts, schedules, random numbers, callbacks","tests run one build at a time on a few inputs; agreement of two builds over all schedules and inputs cannot be observed",[S+'::exact_equity',S+'::approx_equity',S+'::update_results',S+'::evaluate_hands',S+'::fix_hand_weights',S+'::enumerate_board'])
p("C86","The public functions of the hand module on every argument: value, panic or read outside a table","Hand has public fields and the functions take any u8, so callers can pass what no range text produces. For every argument and both builds the model says exactly whether a function returns, panics or reads outside its table with get_unchecked. get_card_index fails on two numbers of cards only for twice card 0 (debug panics, release reads outside); for twice another card it gives the index of a different hand. Hand::get_card_index looks only at the lowest and highest bit, gives usize::MAX when they are no two cards, and leaves its table for the empty hand (release) and, of real cards, for the ace of the first suit alone. contains, get_suit_mask and suit_count panic in a debug build from stated numbers on and wrap in a release build. from_bit_mask panics in a debug build exactly when the key overflows. evaluate never panics, is inside its tables for all hands of at most seven different cards, and outside for the eight aces and kings. get_draw with category 5 but no suit of five panics in a debug build and answers for the last suit in a release build.","all u8 numbers, all u64 keys and masks, both builds","the arguments are not reachable from texts, and a read outside a table need not be visible in a test",[H+'::get_card_index',H+'::evaluate',H+'::evaluate_without_flush',H+'::contains',H+'::get_suit_mask',H+'::suit_count',H+'::from_bit_mask',H+'::from_hole_cards',H+'::get_draw'])
p("C87","Ranges built by hand: what exact_equity does before the threads start","HandRange and Combo have public fields. For any ranges of any pairs of u8, any masks and both builds the start of exact_equity is determined: refused calls are refused first; a debug build panics if any hand has a number of 64 or more; both builds panic if a remaining hand has a number that is no card; if a hand is twice card 0 a debug build panics and a release build reads outside CARD_MAP, and this is the only undefined behaviour at the start; otherwise the simulator is created. For hands of two different cards both builds do what the model of the other claims says. A release build takes the number 64 for card 0 and drops the hand silently if that card is taken. Twice the ace of the first suit is accepted, credited to another hand, and on a board of the other aces and two kings its score is read outside the table. card_to_string and Display of a hand panic exactly for numbers that are no card, hole_to_string in a debug build for numbers from 64 on. The hand indices 0-77 are the pairs, 78-389 the suited, 390-1325 the offsuit hands.","all ranges of u8 pairs, all u64 masks, both builds","such ranges cannot be written as texts and the reads outside a table need not be visible",[S+'::exact_equity',CR+'::from_range',R+'::remove_conflicting_combos',S+'::save_hand_weights'])
p("C88","Known pairs before the flop, and the crate's test_exact_weighted to the last bit","By the rules of the game the equity of two kings before the flop is 641926, 618277 or 594628 out of 3424608 against two aces and 2782312, 2805946 or 2829580 out of 3424608 against two queens, if the hands share no, one or two suits. Therefore KK against the text AA@1,QQ has the equity 10123663572/12451874688. The crate reads these texts, exact_equity ends for every number of threads, and every end that is not cancelled reports for the kings the very f64 number that the literal 0.8130232455484216 of the test denotes, in the exact model, with f64 numbers, in a release build and in a debug build.","all deals of two kings against two aces or two queens, all 1712304 boards of each, every number of threads, every schedule, both builds","the crate's test runs one schedule and compares with a number the crate has produced itself",[S+'::exact_equity',S+'::sim_enumerate',H+'::evaluate',R+'::from_strings',S+'::finalize_results'])
p("C89","How far the mean of the random simulation is off, runs that nobody cancels, and the crate's test_approx_weighted","Let the ranges be combined into one. The mean over the outcomes of approx_equity differs from the exact equity at most by the mean distance of the equities of the deals from it, divided by twice the number of times a deal is evaluated per batch, and the variance is bounded by that of the deals. With a target of at least 1/31622, any boards can come up in a run with f64 numbers that nobody cancels. For the crate's test_approx_weighted: every result is that of one of the possible outcomes, rounded once; the mean over them is within 1/8000 of the exact equity; at most one in five of the outcomes does not pass the two assertions. Finding: the test can fail; there is a run in which the kings win all 16384 showdowns.","all ranges that are combined into one, all boards, all schedules; for the test all results and all outcomes","a test that passes today says nothing about the runs in which it fails, and it cannot count them",[S+'::approx_equity',S+'::sim_random_walk_monte_carlo',S+'::update_results',S+'::test_approx_weighted'])
p("C90","What the random simulation cannot reach within a batch","The results of approx_equity consist of batches of 4096 showdowns, in each of which from one showdown to the next at most the hands of the players of one combined range change; a property of deals that no such change affects holds in all showdowns of a batch or in none. Of the lists of indexes that randomize_hole_cards can draw as many lead to a deal with the property as there are such deals, and every choice of the first deals occurs in a run. If such a property decides who wins and what the weight is, the reported equity depends only on the number m of the K batches that have it: m*w/(m*w+(K-m)*v). Finding: for three ranges given as text the equity is 125/207, which is what exact_equity reports, but no run of approx_equity of at most 1000 batches (four million evaluations) reports anything but 0 or a value of at least 10/11 (9/10 with f64 numbers); both kinds of run exist.","all ranges, boards, targets, numbers of threads and schedules; for the finding all runs of at most 1000 batches","a sampling test on ordinary ranges sees a good estimate; that the walk is confined to one component per batch appears only with ranges that fall apart, and no number of samples shows that a value is never reported",[S+'::sim_random_walk_monte_carlo',S+'::randomize_hole_cards',S+'::approx_equity',CR+'::from_ranges'])
p("C91","The sample space of the random simulation, and its accuracy with any ranges","The result of approx_equity is the count of one of the lists of showdowns in a finite list of possible results: K batches, each of which is given by a legal first deal, 4095 choices of a combined range and 4096 boards; with f64 numbers the equity is rounded once. Every such list with one batch per thread occurs in a run. The number of batches is D * m^4095 * n^4096 (D deals, m combined ranges, n boards for each deal). Over this list the mean of any sum over the showdowns is 4096 K times its mean over all deals and boards, so with equal weights the mean of the equity is the exact equity; the variance is at most K (4096 V + 4096^2 U), where V is the mean variance over the boards of a deal and U the variance between the deals. So at most one part in 4 K eps^2 of the possible results (times the square of the ratio of the greatest and the least weight of a deal) is off by eps or more. For two random hands before the flop the exact equity is one half, and with 2500 batches at most one result in a hundred is off by a tenth.","all ranges, boards, targets, schedules, numbers of threads and batches, all eps > 0","a sampling test sees a few results; it cannot say that the mean over all equally likely results is the exact equity or bound the part that is off by a given amount",[S+'::sim_random_walk_monte_carlo',S+'::randomize_hole_cards',S+'::approx_equity',S+'::randomize_board'])
p("C92","The probabilities of the random simulation","If every value that the threads draw is uniform on its range and independent of the others, then the counters in the shared results of approx_equity, after K_t batches of each thread t in any fixed order of the steps, are distributed as those of a uniform choice from the list of possible results of C91 with sum K_t batches, apart from the probability that a thread finds no deal in 1000 attempts, which is the 1000th power of 1 minus the part of the entries of the combined ranges that are deals. This includes the rejection of used cards while a board is drawn, which reads an unbounded number of values; the probabilities of all that is drawn add up to 1, so every step ends with probability 1. So a run that is cancelled then ends with all threads done and reports an equity off by less than eps with a probability of at least (1 - c)^N (1 - r^2 / (4 N eps^2)), where N is the number of batches, c the probability of no deal and r the ratio of the greatest and the least weight of a deal. c is below 1 if there is a deal and 0 if all ranges were joined.","all ranges, boards, numbers of threads and batches, schedules of the steps, eps > 0, targets that are never reached","a test runs with a few seeds; it cannot give the distribution of the results, show that the schedule does not matter, or bound the probability of a wrong equity",[S+'::sim_random_walk_monte_carlo',S+'::randomize_hole_cards',S+'::approx_equity',S+'::randomize_board',S+'::update_results'])
p("C93","The distribution of what approx_equity returns","If every value that the threads draw is uniform on its range and independent of the others, and the target is at least 1/31622, then for every scheduler, also one that looks at everything that has happened, and for every moment of a cancellation, approx_equity with nT threads ends after exactly one batch of each thread with a probability of at least (1 - c)^nT, where c is the probability that a thread finds no deal in 1000 attempts, and the counters are then distributed as those of a uniform choice from the list of possible results of nT batches; if all ranges were joined, this holds with probability 1. The f64 equity returned is the equity of such a choice rounded once. So it is off by less than eps and half a unit in the last place with the probability that Chebyshev gives for the variances between and within the deals; with known hands with probability at least 1 - 1/(16384 nT eps^2); the repository's test_approx_weighted passes with a probability of at least 4/5. Finding: the target is not what the result is accurate to. With known hands of which one wins on half of the boards, the result of one thread is off by 1/4096 or more with a probability of at least 63/64, whatever target of at least 1/31622 was asked for.","all ranges, boards, numbers of threads, schedulers that depend on the whole history, cancellations, eps > 0, targets >= 1/31622","a test sees one schedule and one seed; it cannot show that no scheduler biases the result, nor bound the probability that the result is off",[S+'::sim_random_walk_monte_carlo',S+'::approx_equity',S+'::update_results',S+'::randomize_hole_cards',S+'::randomize_board',S+'::get_results'])
p("C94","Large errors of the random simulation are exponentially unlikely","If all ranges were joined into one combined range, the target is at least 1/31622 and the draws are uniform and independent, then for every scheduler and every moment of a cancellation the f64 equity that approx_equity returns with nT threads is off by less than eps + delta + 2^-53 with a probability of at least 1 - 2 exp(-8192 nT eps^2 wmin/wmax), where delta is the distance of the mean from the exact equity (bounded in C80 and C89; 0 if the number of deals divides 4096) and wmin, wmax are the least and the greatest weight of a deal. With known hands this is 1 - 2 exp(-8192 nT eps^2): kings against queens before the flop are reported to two percent by four threads with a probability of at least 0.999995.","all joined ranges, boards, numbers of threads, schedulers, cancellations, eps > 0, targets >= 1/31622","an event with a probability of 1 in 10^8 is not met in tests, and a few seeds say nothing about the tail of the distribution",[S+'::sim_random_walk_monte_carlo',S+'::approx_equity',S+'::randomize_board',S+'::update_results',S+'::get_equity'])
p("C95","How much work the exact calculation does and how often it reports","For every run of exact_equity, cancelled or not: eval_count is at most the number of showdowns; the callback is called by each thread at its end and otherwise only after at least 10000 evaluations, and no call stands for more than 9999 evaluations and those of one deal. Without cancellation there is at least one evaluation for every deal, exactly one on a complete board, and an evaluation stands for at most 4^k showdowns if k cards are missing on the board. Once the token is set, each thread adds at most 9999 evaluations and those of one deal. With fewer than 10000 showdowns every thread reports exactly once and the token has no effect.","all ranges, boards, dead cards, numbers of threads, schedulers and cancellation points","the counts depend on the schedule and on the grouping of boards by ranks and irrelevant suits; a test sees one schedule and no moment of cancellation",[S+'::enumerate_all',S+'::enumerate_board',S+'::enumerate_board_rec',S+'::update_results',S+'::exact_equity'])
p("C96","Relations between the results of different calculations","Between runs of exact_equity that were not cancelled (a run that found no legal deal counts nothing): every counter of the results, summed over the calculations with one more board card, is the counter without that card times the number of missing board cards; summed over the calculations with one more dead card it is the counter times the number of cards left over after deal and board; for a range given in two parts it is the sum of the counters of the parts; with the weights of one range multiplied by m it is multiplied by m. With at most eight players and weights that divide evenly, the equity before a board card is the average of the equities after it, weighted with their totals, and multiplying the weights of a range leaves the equities unchanged.","all ranges, boards with fewer than five cards, dead cards, numbers of threads and schedulers of all the runs; all counters (per hand, per winner set, per player)","relates up to 53 different inputs at once; each run groups boards, joins ranges and removes conflicting hands differently, so that a mistake in one of the groupings shows only as a small difference between the sums",[S+'::exact_equity',S+'::enumerate_all',S+'::enumerate_board',S+'::update_results',R+'::remove_conflicting_combos'])
p("C97","Certain outcomes are reported as certain","For the results of exact_equity and approx_equity with up to eight players, cancelled or not, whatever the schedule and the random numbers: a player who wins no possible showdown has no wins, no ties and the equity 0; if the same players win every possible showdown they get equal equities that add up to 1, in spite of the rounded shares; a player who wins or shares every pot that another one wins or shares has at least the other one's equity, and two players who always win or lose together have the same counters. With weights that divide evenly the equity of a player lies between the smallest and the largest part of a pot the player can get. A hand that always wins has as many wins as showdowns and a hand that never wins has no wins and no ties.","all ranges, boards, dead cards, numbers of threads, schedulers, cancellation points, targets and random draws","sampling and cancellation make every run different; the claim is that none of these runs can contradict what is certain",[S+'::exact_equity',S+'::approx_equity',S+'::update_results',S+'::evaluate_hands'])
p("C98","Relations between the results for different range texts","For runs of exact_equity that were not cancelled: every counter for the range of a text 'A,B' is the counter for A plus the counter for the hands of B that A does not contain, so the sum of the counters for A and B if they have no hand in common. Only the proportions of the weights of a range matter: if the percentages of two texts with the same tokens differ by a factor, every counter differs by that factor, and the equities are the same (at most eight players, weights that divide evenly).","all texts made of valid tokens, positions of the player, other ranges, boards, dead cards, numbers of threads and schedulers","connects the parser (tokens, duplicates, first weight wins, sorting) with the enumeration for all texts at once",[R+'::from_string',R+'::remove_duplicates',S+'::exact_equity',S+'::update_results'])
p("C99","Mixing hands: the equity of a range lies between those of its parts","For runs of exact_equity that were not cancelled (at most eight players, weights that divide evenly): if a range has two parts, the weights of the showdowns add and every player's equity is the weighted mean of the equities with the parts, so it lies between them, strictly if they differ. Raising the weights of a part by a factor moves the equity strictly towards the equity with this part alone, and not at all if both parts have the same. No range does better than its best hand: some hand of it, played alone, has at least the equity of the range, and some hand at most. The equity that get_hand_result shows for a hand, and get_combo_result for a combo like AKs, is the equity of the player in the calculation with this hand, or with the hands of this combo, alone.","all ranges of different cards, parts, factors, positions of the player and of the range, boards, dead cards, numbers of threads and schedulers","relates the results of unboundedly many calculations; a test compares a few numbers, and only approximately",[S+'::exact_equity',S+'::enumerate_all',S+'::update_results',S+'::get_equity',S+'::get_hand_result',S+'::get_combo_result',S+'::generate_final_data'])
p("C100","A caller who writes to the cancel token at will","The caller may store any values in the cancel token while exact_equity or approx_equity runs, for instance set it and clear it again. Every result of exact_equity is then also the result of a calculation whose token is clear at the start and is set at most once, and it is set there only if a thread read a set token: so if no thread did, the result is complete and the same as that of an undisturbed calculation, even if the token was set when the calculation began. The errors do not depend on the token. The number of steps of the threads stays bounded and no thread panics. What approx_equity counts is also counted by a simulation whose token only the caller sets and that never reaches its target, so it is a list of legal showdowns; only the batch sums and the standard deviation may differ.","all ranges, boards, dead cards, numbers of threads, targets, random streams, schedulers and sequences of values written to the token","the interleavings of the writes with the reads of the threads cannot be enumerated or provoked in tests",[S+'::exact_equity',S+'::approx_equity',S+'::enumerate_all',S+'::sim_random_walk_monte_carlo',S+'::update_results'])
p("C101","A cancel token that is used again","approx_equity sets the cancel token of its caller when the target is reached, and nothing clears it. A simulation in which no thread gives up dealing (in particular one whose ranges combine into one) leaves the token set. The next calculation with the same token stops after the first batch of each thread although nobody cancelled it: approx_equity evaluates at most 4096 showdowns per thread whatever its target, exact_equity at most 9999 plus the number of boards of a deal per thread. If there are more deals than that, the returned Ok result is not that of any complete calculation. exact_equity itself leaves the token as it is.","all ranges, boards, dead cards, targets, numbers of threads, random streams and schedulers of both calls","needs the state left behind by one call and all interleavings of both; a test that makes a new token for every call never sees it",[S+'::approx_equity',S+'::exact_equity',S+'::update_results',S+'::sim_random_walk_monte_carlo',S+'::enumerate_all'])
p("C102","A caller who writes to the cancel token at will, in a release build","In a release build (counters modulo 2^64, rounded f64 numbers) every result of exact_equity with a caller who stores any values in the cancel token at any time is, digit by digit, a result with a token that is clear at the start and set at most once. If no thread read a set token, the counts are those of all showdowns modulo 2^64; with two players and weights up to 100 the result is that of the floating-point model without overflow. Errors do not depend on the token. What approx_equity has counted is what a simulation without a target counts: legal showdowns modulo 2^64, a multiple of 4096 of them.","all ranges, boards, dead cards, numbers of threads, schedulers, random streams and sequences of stores by the caller","needs all interleavings of threads with a caller who writes, and that merging an empty batch does not round a result again",[S+'::approx_equity',S+'::exact_equity',S+'::update_results',S+'::sim_random_walk_monte_carlo',S+'::enumerate_all'])
open('/verif/properties.jsonl','w').write(''.join(json.dumps(x)+'\n' for x in P))
print(len(P))
