{"id": "C01", "title": "Hand scores order hands exactly as poker does", "statement": "For any two hands built from distinct cards, each of 2 to 7 cards, Hand::evaluate gives a smaller / equal / larger score exactly when the best five-card poker hand contained in the first is weaker / equal / stronger under the standard poker ranking than the best one in the second.", "quantifier": "all pairs of sets of 2..7 distinct cards, added in any order", "why_tests_cant": "about 154 million hands and their pairs; the value comes from an 86362-entry perfect-hash table with no redundancy", "anchors": ["src/hand_evaluator/hand.rs::Hand::evaluate", "src/lookup.rs::LOOKUP", "src/flush_lookup.rs::LOOKUP_FLUSH", "src/hash_offsets.rs::PERF_HASH_OFFSETS"]}
{"id": "C02", "title": "score / 4096 is the hand category", "statement": "evaluate() >> 12 is 1..9 for high card, pair, two pair, trips, straight, flush, full house, quads, straight flush of the best five-card hand.", "quantifier": "all sets of 2..7 distinct cards", "why_tests_cant": "same size of domain as C01", "anchors": ["src/hand_evaluator/hand.rs::Hand::evaluate", "src/constants.rs::HIGH_CARD..STRAIGHT_FLUSH", "src/lib.rs"]}
{"id": "C03", "title": "Card order and grouping do not matter", "statement": "Building a hand by adding the same cards in any order, or by adding separately built partial hands (board + hole cards, from_hole_cards, from_bit_mask), gives the same Hand and hence the same score.", "quantifier": "all lists of distinct cards, all permutations and all groupings", "why_tests_cant": "factorially many orders", "anchors": ["src/hand_evaluator/hand.rs::Add", "src/hand_evaluator/hand.rs::AddAssign", "src/hand_evaluator/hand.rs::from_bit_mask", "src/hand_evaluator/hand.rs::from_hole_cards"]}
{"id": "C04", "title": "evaluate_without_flush is safe to use when no flush is possible", "statement": "When no suit occurs five times, evaluate_without_flush returns exactly evaluate; in general it is the score of the hand with suits ignored and never exceeds evaluate.", "quantifier": "all sets of 2..7 distinct cards", "why_tests_cant": "the exact calculator silently relies on it for most showdowns", "anchors": ["src/hand_evaluator/hand.rs::evaluate_without_flush", "src/equity_calculator/simulator.rs::enumerate_board_rec"]}
{"id": "C05", "title": "Relabelling suits never changes a score", "statement": "Applying any permutation of the four suits to all cards of a hand leaves evaluate unchanged.", "quantifier": "all sets of 2..7 cards, all 24 suit permutations", "why_tests_cant": "universally quantified over hands", "anchors": ["src/hand_evaluator/hand.rs::evaluate"]}
{"id": "C06", "title": "Unchecked table reads stay in bounds", "statement": "Every get_unchecked read done by evaluate, evaluate_without_flush and get_card_index is inside its table for every hand of at most 7 distinct cards (two distinct cards for the index functions).", "quantifier": "all sets of 0..7 distinct cards", "why_tests_cant": "an out-of-bounds unchecked read is undefined behaviour and need not crash a test", "anchors": ["src/hand_evaluator/hand.rs::evaluate", "src/hand_evaluator/hand.rs::get_card_index"]}
{"id": "C07", "title": "More cards never hurt", "statement": "Adding a card to a hand of 2..6 cards never lowers its score.", "quantifier": "all hands of 2..6 distinct cards and all further cards", "why_tests_cant": "universally quantified", "anchors": ["src/hand_evaluator/hand.rs::evaluate"]}
{"id": "C08", "title": "Hand counters report the cards in the hand", "statement": "count() is the number of cards, suit_count(s) the number of cards of suit s, contains(c) is membership, has_flush is 'some suit has at least five cards', get_suit_mask / get_rank_mask list the ranks present (in the suit / at all), get_flush_key is the rank mask of the flush suit or 0.", "quantifier": "all sets of distinct cards within the counters' capacity (at most 15 cards, at most 12 per suit)", "why_tests_cant": "packed counters could overflow into each other for some combination", "anchors": ["src/hand_evaluator/hand.rs::count", "src/hand_evaluator/hand.rs::suit_count", "src/hand_evaluator/hand.rs::contains", "src/hand_evaluator/hand.rs::has_flush", "src/hand_evaluator/hand.rs::get_suit_mask", "src/hand_evaluator/hand.rs::get_rank_mask", "src/hand_evaluator/hand.rs::get_flush_key"]}
{"id": "C09", "title": "Adding cards never overflows the 64-bit key", "statement": "For a default hand plus any set of distinct cards with at most 12 cards of one suit the key addition does not overflow u64, so debug and release builds agree.", "quantifier": "all such card sets", "why_tests_cant": "overflow is input dependent", "anchors": ["src/hand_evaluator/hand.rs::Add"]}
{"id": "C10", "title": "get_card_index numbers the 1326 hole-card hands", "statement": "get_card_index is symmetric, and maps the unordered pairs of distinct cards one-to-one onto 0..1325.", "quantifier": "all ordered pairs of distinct cards", "why_tests_cant": "injectivity and surjectivity are global statements", "anchors": ["src/hand_evaluator/hand.rs::get_card_index", "src/map.rs::CARD_MAP"]}
{"id": "C11", "title": "The two hand indexings agree", "statement": "Hand::from_hole_cards(a,b).get_card_index() == get_card_index(a,b).", "quantifier": "all ordered pairs of distinct cards", "why_tests_cant": "two independent tables must agree everywhere", "anchors": ["src/hand_evaluator/hand.rs::Hand::get_card_index", "src/map.rs::MASK_MAP"]}
{"id": "C12", "title": "Index / name tables are consistent", "statement": "INDEX_TO_HAND[get_card_index(a,b)] names exactly the cards a and b; HAND_TO_INDEX inverts INDEX_TO_HAND; hands 0-77 are pairs, 78-389 suited, 390-1325 offsuit and the k-th block of 6/4/12 hands consists of the hands of the combo INDEX_TO_COMBO[k]; COMBO_TO_INDEX inverts INDEX_TO_COMBO.", "quantifier": "all pairs of distinct cards, all table entries, all strings", "why_tests_cant": "global consistency of four hand-written tables", "anchors": ["src/string_lookup.rs", "src/map.rs"]}
{"id": "C13", "title": "get_hand_result / get_combo_result return the right cell", "statement": "get_hand_result(player, name) returns the results of exactly the two cards named, and an error for every string that is not a canonical hand name; get_combo_result likewise for the 169 combos.", "quantifier": "all strings, all players below the player count", "why_tests_cant": "all strings", "anchors": ["src/equity_calculator/simulator.rs::get_hand_result", "src/equity_calculator/simulator.rs::get_combo_result"]}
{"id": "C14", "title": "Card masks and strings round-trip", "statement": "get_card_mask(mask_to_string(m)) == m for every mask of real cards; get_card_mask of a concatenation of card names sets exactly those cards; any string with odd length or an invalid rank/suit character gives 0.", "quantifier": "all 2^52 masks, all strings", "why_tests_cant": "unbounded strings", "anchors": ["src/hand_range.rs::get_card_mask", "src/hand_range.rs::mask_to_string"]}
{"id": "C15", "title": "Single card parsing", "statement": "card_from_str(card_to_string(c)) == Ok(c) for all 52 cards, and a string that does not name a card is rejected with an error. (The second half is violated by the code: '2x' parses as Ok(255).)", "quantifier": "all cards, all strings", "why_tests_cant": "all strings", "anchors": ["src/hand_range.rs::card_from_str", "src/hand_range.rs::card_from_chars", "src/hand_range.rs::card_to_string"]}
{"id": "C16", "title": "flop_from_str", "statement": "A flop string of three distinct card names, optionally separated by whitespace, parses to the three card numbers sorted ascending; duplicates and extra text are rejected.", "quantifier": "all triples of cards, all whitespace separators", "why_tests_cant": "unbounded separators", "anchors": ["src/hand_range.rs::flop_from_str"]}
{"id": "C17", "title": "Parsing a range never reads out of bounds and always terminates", "statement": "HandRange::from_string terminates on every string and never indexes past its character buffer; the only possible panic is arithmetic overflow of a weight with too many digits, and it happens (debug build).", "quantifier": "all strings", "why_tests_cant": "arbitrary input text", "anchors": ["src/hand_range.rs::from_string", "src/hand_range.rs::parse_hand", "src/hand_range.rs::parse_weight"]}
{"id": "C18", "title": "Parsed combos are well formed", "statement": "Every combo produced by from_string consists of two distinct cards below 52, the larger card first, with weight between 0 and 100.", "quantifier": "all strings", "why_tests_cant": "arbitrary input text", "anchors": ["src/hand_range.rs::from_string", "src/hand_range.rs::add_combo"]}
{"id": "C19", "title": "Parsed ranges have no duplicates and are ordered", "statement": "from_string of anything yields each two-card hand at most once; for non-'random' strings in increasing Combo order.", "quantifier": "all strings", "why_tests_cant": "overlapping range expressions are unbounded", "anchors": ["src/hand_range.rs::remove_duplicates", "src/hand_range.rs::Ord for Combo"]}
{"id": "C20", "title": "Range notation means what it says", "statement": "For ranks and suffixes: 'XY', 'XYs', 'XYo', 'XY+', 'XY-ZW' (with the weight suffix '@w', 0<=w<=100) select exactly the hands that equilab-like notation denotes.", "quantifier": "all ranks X, Y, Z, W, suffixes and weights", "why_tests_cant": "products of options; tests cover a handful", "anchors": ["src/hand_range.rs::parse_hand", "src/hand_range.rs::add_combos", "src/hand_range.rs::add_combos_plus", "src/hand_range.rs::add_combos_dash"]}
{"id": "C21", "title": "Comma means union, first weight wins", "statement": "For a list of valid tokens joined by commas the range contains a hand iff some token denotes it, and its weight is that of the first token that denotes it.", "quantifier": "all lists of valid tokens", "why_tests_cant": "unbounded lists", "anchors": ["src/hand_range.rs::from_string", "src/hand_range.rs::remove_duplicates"]}
{"id": "C22", "title": "'random' is the full range", "statement": "from_string(\"random\") contains each of the 1326 hands exactly once with weight 100.", "quantifier": "all hands", "why_tests_cant": "completeness of the list", "anchors": ["src/hand_range.rs::add_all"]}
{"id": "C23", "title": "remove_conflicting_combos removes exactly the blocked hands", "statement": "After the call the range contains exactly the previous hands, in order, that use no board or dead card; it is idempotent and its masks can be applied in any order.", "quantifier": "all ranges, all masks", "why_tests_cant": "all masks", "anchors": ["src/hand_range.rs::remove_conflicting_combos"]}
{"id": "C24", "title": "A dash range does not depend on the order of its ends", "statement": "'XY-ZW' and 'ZW-XY' denote the same range. (Holds for non-pairs, violated for pairs: '99-JJ' is empty while 'JJ-99' is not.)", "quantifier": "all ranks and suffixes", "why_tests_cant": "asymmetric corner", "anchors": ["src/hand_range.rs::add_combos_dash"]}
{"id": "C25", "title": "DividerU64 is exact division", "statement": "DividerU64::divide_by(d).divide(n) == n / d, with no overflow or failed assertion on the way.", "quantifier": "all u64 d > 0 and all u64 n", "why_tests_cant": "2^128 pairs; wrong magic numbers fail on isolated values", "anchors": ["src/fastdivide.rs::divide_by", "src/fastdivide.rs::divide"]}
{"id": "C26", "title": "Batch sizing never divides by zero", "statement": "For every accepted input the number of board run-outs computed for batch sizing is the binomial coefficient C(52-board-dead-2*players, 5-board), is positive, and its computation never underflows or overflows.", "quantifier": "all player counts, board and dead cards passing validation", "why_tests_cant": "all parameter combinations", "anchors": ["src/equity_calculator/simulator.rs::get_postflop_combo_count"]}
{"id": "C27", "title": "Combining ranges loses and invents no deals", "statement": "The combined ranges describe exactly the joint deals of the input ranges: choosing one combined combo per combined range such that no card is used twice gives each compatible assignment of one hand per player exactly once, with its weights; every player occurs in exactly one combined range.", "quantifier": "all lists of ranges", "why_tests_cant": "which ranges get merged depends on data", "anchors": ["src/equity_calculator/combined_range.rs::from_ranges", "src/equity_calculator/combined_range.rs::join", "src/equity_calculator/combined_range.rs::estimate_join_size"]}
{"id": "C28", "title": "Exact enumeration visits every deal exactly once", "statement": "The sequence of enumeration positions 0..total decodes to every combination of combined combos exactly once, so exact_equity considers each card-compatible deal once and no other.", "quantifier": "all ranges whose combination count fits u64", "why_tests_cant": "mixed-radix decoding with magic-number division over huge counts", "anchors": ["src/equity_calculator/simulator.rs::enumerate_all", "src/equity_calculator/simulator.rs::get_preflop_combo_count"]}
{"id": "C29", "title": "The result does not depend on the thread schedule", "statement": "For any number of threads >= 1 and any interleaving without cancellation, exact_equity reserves every position exactly once, and wins, wins_by_mask, hand wins/ties/totals/shares and eval_count are the same.", "quantifier": "all interleavings, all thread counts", "why_tests_cant": "schedules cannot be enumerated by tests", "anchors": ["src/equity_calculator/simulator.rs::enumerate_all", "src/equity_calculator/simulator.rs::reserve_batch", "src/equity_calculator/simulator.rs::update_results"]}
{"id": "C30", "title": "Suit-collapsed board enumeration equals brute force", "statement": "For every deal, the recursive board enumeration with its suit-isomorphism shortcuts and multiplicities yields the same win / tie / total counts as evaluating every set of undealt cards that completes the board.", "quantifier": "all deals, boards, dead cards", "why_tests_cant": "a wrong multiplicity shifts an equity by a tiny amount only in rare suit patterns; the README says such a bug survived for years upstream", "anchors": ["src/equity_calculator/simulator.rs::enumerate_board", "src/equity_calculator/simulator.rs::enumerate_board_rec"]}
{"id": "C31", "title": "exact_equity is exact", "statement": "For 2..8 players, exact_equity's per-hand wins, ties, totals and tie shares, its wins and its wins_by_mask equal the brute-force counts over all compatible deals and all board completions, with winners decided by the poker rules.", "quantifier": "all inputs, all schedules without cancellation", "why_tests_cant": "end-to-end statement over all inputs", "anchors": ["src/equity_calculator/simulator.rs::exact_equity"]}
{"id": "C32", "title": "Every player can win, including the ninth", "statement": "Whenever player i holds the strictly best hand, wins_by_mask and wins credit player i. (Holds for players 0..7; violated for the ninth player, whose mask bit is shifted out of a u8.)", "quantifier": "all showdowns, 2..9 players", "why_tests_cant": "nine-player configuration", "anchors": ["src/equity_calculator/simulator.rs::evaluate_hands"]}
{"id": "C33", "title": "Equities are a probability distribution", "statement": "When the wins and the (rounded down) tie shares of the players are not all zero, the reported equities are non-negative, sum to 1 and are the players' parts of the sum; otherwise they are all NaN.", "quantifier": "all results states", "why_tests_cant": "all states", "anchors": ["src/equity_calculator/simulator.rs::get_equity"]}
{"id": "C34", "title": "Tie shares lose less than one unit per flush", "statement": "A player's reported ties value is at most the exact share sum(weight/winners) and falls short of it by less than one unit per (flush, tie mask); it can be wrong enough to make all equities NaN.", "quantifier": "all batches and flush histories", "why_tests_cant": "rounding accumulates over schedules", "anchors": ["src/equity_calculator/simulator.rs::update_results"]}
{"id": "C35", "title": "Counts are conserved", "statement": "Each player's hand totals sum to the total weight of all showdowns; hand wins sum to the player's wins; for every showdown either one player wins or several tie; wins_by_mask sums to the total weight.", "quantifier": "all inputs and histories (up to 8 players where masks are involved)", "why_tests_cant": "all histories", "anchors": ["src/equity_calculator/simulator.rs::evaluate_hands", "src/equity_calculator/simulator.rs::update_results"]}
{"id": "C36", "title": "Combo results aggregate their hands", "statement": "There are exactly 169 combo results per player and each is the sum of wins/ties/totals/shares of the hands with that combo name (scaled by a common divisor only above u64::MAX, and then still within u64); winrate, tierate and equity are the corresponding ratios.", "quantifier": "all result states", "why_tests_cant": "all states", "anchors": ["src/equity_calculator/simulator.rs::generate_final_data"]}
{"id": "C37", "title": "Board results partition the hands by current category", "statement": "With at least three board cards, every hand in a range is counted in exactly one of the nine categories of its player, namely the category it currently makes; the nine totals add up to the player's total; the rank index is always in bounds.", "quantifier": "all ranges and boards", "why_tests_cant": "all states", "anchors": ["src/equity_calculator/simulator.rs::set_ranks", "src/equity_calculator/simulator.rs::generate_board_data"]}
{"id": "C38", "title": "Reported weights and validity are those of the range", "statement": "After the run a hand is valid exactly when it is in the player's filtered range, and its reported weight is the weight in the range, whichever players use uniform weight 100.", "quantifier": "all ranges", "why_tests_cant": "bit-flag bookkeeping over all ranges", "anchors": ["src/equity_calculator/simulator.rs::save_hand_weights", "src/equity_calculator/simulator.rs::fix_hand_weights"]}
{"id": "C39", "title": "Input validation", "statement": "Both entry points return TooFewPlayers / TooManyPlayers / TooManyBoardCards / TooManyDeadCards exactly in the documented situations with that precedence, and accepted inputs always leave enough cards to complete the board.", "quantifier": "all player counts and masks", "why_tests_cant": "all masks", "anchors": ["src/equity_calculator/simulator.rs::exact_equity", "src/equity_calculator/simulator.rs::approx_equity"]}
{"id": "C40", "title": "ConflictingRanges is sound", "statement": "If ConflictingRanges is returned, no deal is compatible; if some player's range has no hand left after card removal, ConflictingRanges is returned.", "quantifier": "all ranges and masks", "why_tests_cant": "depends on merge order", "anchors": ["src/equity_calculator/simulator.rs::exact_equity", "src/equity_calculator/combined_range.rs::from_ranges"]}
{"id": "C41", "title": "Monte Carlo only deals legal showdowns", "statement": "Every showdown evaluated by approx_equity deals each player a hand of their range, five board cards extending the given board, and no card twice or dead; the recorded index and weight are those of the dealt hands.", "quantifier": "all random streams, all inputs", "why_tests_cant": "random walk with incremental mask updates", "anchors": ["src/equity_calculator/simulator.rs::sim_random_walk_monte_carlo", "src/equity_calculator/simulator.rs::randomize_hole_cards", "src/equity_calculator/simulator.rs::randomize_board"]}
{"id": "C42", "title": "The random walk's re-deal loop terminates", "statement": "Re-dealing one combined range always finds a compatible combo within its size, and the card-mask subtraction never underflows.", "quantifier": "all reachable walk states", "why_tests_cant": "all random histories", "anchors": ["src/equity_calculator/simulator.rs::sim_random_walk_monte_carlo"]}
{"id": "C43", "title": "Random boards are unbiased", "statement": "Under uniform card draws every legal board completion is produced by equally many draw sequences of each length.", "quantifier": "all used-card masks, all lengths", "why_tests_cant": "statistical property", "anchors": ["src/equity_calculator/simulator.rs::randomize_board"]}
{"id": "C44", "title": "Cancellation is prompt and leaves consistent results", "statement": "If the cancel token is set at any time, every thread stops at its next flush, and the returned counts are exactly the counts of the deals processed so far.", "quantifier": "all cancellation points and interleavings", "why_tests_cant": "all crash/cancel points", "anchors": ["src/equity_calculator/simulator.rs::enumerate_all", "src/equity_calculator/simulator.rs::update_results"]}
{"id": "C45", "title": "Progress callbacks", "statement": "In exact mode the reported progress values are non-decreasing, never exceed 100, and the last one is 100 if not cancelled. (In approximate mode 100 can be exceeded.)", "quantifier": "all interleavings", "why_tests_cant": "message order depends on schedule", "anchors": ["src/equity_calculator/simulator.rs::update_results"]}
{"id": "C46", "title": "get_draw flags", "statement": "Flush-draw flags are set exactly by the suit counts; straight-draw flags exactly by the presence of the documented rank patterns; at most the documented flags are produced for each hand category; get_draw as called by the simulator never panics.", "quantifier": "all hole cards and boards", "why_tests_cant": "many rank patterns", "anchors": ["src/hand_evaluator/hand.rs::get_draw"]}
{"id": "C47", "title": "Combo ordering is a total order consistent with equality", "statement": "Combo comparison is reflexive, antisymmetric, transitive and total, and compares Equal exactly when == holds, so sort+dedup removes all duplicates.", "quantifier": "all u8 triples", "why_tests_cant": "global law", "anchors": ["src/hand_range.rs::Ord for Combo", "src/hand_range.rs::PartialEq for Combo"]}
{"id": "C48", "title": "No deadlock", "statement": "In every reachable state in which not all threads are finished, some thread can make a step.", "quantifier": "all interleavings", "why_tests_cant": "schedules", "anchors": ["src/equity_calculator/simulator.rs::update_results", "src/equity_calculator/simulator.rs::reserve_batch"]}
{"id": "C49", "title": "Player symmetry", "statement": "Permuting the input ranges permutes the records of the hands accordingly, and up to 8 players the wins and the winner masks. (The rounded down tie shares depend on the batches, C34.)", "quantifier": "all inputs, all permutations", "why_tests_cant": "all inputs", "anchors": ["src/equity_calculator/simulator.rs::exact_equity"]}
{"id": "C50", "title": "Display names of parsed combos are valid result keys", "statement": "The Display string of every hand in a range is accepted by get_hand_result and returns that hand's results. (Violated for pocket pairs: the range prints 'AhAs' but the key is 'AsAh'.)", "quantifier": "all parsed hands", "why_tests_cant": "all hands", "anchors": ["src/hand_range.rs::Display for Combo", "src/equity_calculator/simulator.rs::get_hand_result"]}
{"id": "C52", "title": "What approx_equity's stdev target does", "statement": "The documentation says that the simulation goes on until the deviation of the estimate is below stdev_target; what the code does is different: the deviation computed after the first batch is sqrt(1e-9) whatever the batch contains, so for every target above that each thread evaluates exactly one batch of 4096 showdowns; the reported stdev counts an empty batch of equity 0 for each thread, and the first progress value is 255.", "quantifier": "all inputs with one combined range, all random values, schedules, thread counts, targets", "why_tests_cant": "random values, schedules", "anchors": ["src/equity_calculator/simulator.rs::approx_equity", "src/equity_calculator/simulator.rs::update_results", "src/equity_calculator/simulator.rs::sim_random_walk_monte_carlo"]}
{"id": "C53", "title": "approx_equity ends exactly for positive targets", "statement": "For a positive target every run ends, within a number of evaluations bounded by the target and the number of threads; the evaluations are a multiple of 4096; the argument of the square root is never below 1e-9. For a target that is not positive and without cancellation no thread finishes, if the ranges combine into one.", "quantifier": "all random values, schedules, inputs", "why_tests_cant": "unbounded runs", "anchors": ["src/equity_calculator/simulator.rs::approx_equity", "src/equity_calculator/simulator.rs::update_results", "src/equity_calculator/simulator.rs::sim_random_walk_monte_carlo"]}
{"id": "C54", "title": "What a range text means, for every text", "statement": "Of any text other than 'random' the longest tokens are read from the left as long as each is followed by a comma; the range holds exactly the hands of these tokens, with the weight of the first token standing for the hand, and the rest of the text is ignored without an error. (Finding: 'aa-kq' gives the empty range, everything after a bad token is lost, '@' without digits is weight 0, a weight above 100 becomes 100 and ends the text.)", "quantifier": "all character lists", "why_tests_cant": "unbounded texts", "anchors": ["src/hand_range.rs::from_string", "src/hand_range.rs::parse_hand", "src/hand_range.rs::parse_weight", "src/hand_range.rs::parse_combos_dash"]}
{"id": "C55", "title": "Hand equality", "statement": "== on hands holds exactly if both are made of the same cards (in whatever order and grouping) with the same number of default hands.", "quantifier": "all card sets, all orders and groupings", "why_tests_cant": "2^52 card sets", "anchors": ["src/hand_evaluator/hand.rs::PartialEq for Hand", "src/hand_evaluator/hand.rs::Add for Hand"]}
{"id": "C56", "title": "The default hand must be added exactly once", "statement": "A hand is taken for a flush exactly if it has 8-3k cards of one suit, k being the number of default hands in it: five for k=1, never for k=0, two for k=2. (Finding: the sum of two from_bit_mask hands is mis-evaluated, and a flush put together without Hand::default() is not recognised.)", "quantifier": "all card lists, all ways of adding", "why_tests_cant": "all combinations of constructors", "anchors": ["src/hand_evaluator/hand.rs::has_flush", "src/hand_evaluator/hand.rs::from_bit_mask", "src/hand_evaluator/hand.rs::Add for Hand"]}
{"id": "C51", "title": "When the counters overflow", "statement": "If all showdowns together weigh less than 2^64 (always so for two players), then every u64 counter, product of weights, suit counter and index in the threads of exact_equity stays in range: no panic in a debug build, correct counts in a release build. A run of a debug build that returns has counted correctly. (Finding: with seven or eight known hands before the flop at the default weight 100 the input is accepted and every run overflows.)", "quantifier": "all ranges, boards, schedules, thread counts", "why_tests_cant": "needs many players and complete enumeration", "anchors": ["src/equity_calculator/simulator.rs::enumerate_board_rec", "src/equity_calculator/simulator.rs::evaluate_hands", "src/equity_calculator/simulator.rs::update_results", "src/equity_calculator/simulator.rs::enumerate"]}
{"id": "C57", "title": "Rates of a hand", "statement": "After exact_equity with at least one thread, the winrate, tierate and equity reported for a hand of a player's filtered range are the quotients (won alone, tied, won plus tie shares) of the weight of the showdowns counted for this hand, and 0 if it was never dealt; without cancellation the equity is the expected share of the pot over all showdowns with this hand. They satisfy winrate + tierate <= 1 and winrate <= equity <= winrate + tierate/2. For a hand outside of the filtered range nothing is counted and the equity is NaN.", "quantifier": "all ranges, boards, numbers of threads, schedules and times of cancellation", "why_tests_cant": "needs all schedules and all ranges", "anchors": ["src/equity_calculator/simulator.rs::generate_final_data", "src/equity_calculator/simulator.rs::update_results", "src/equity_calculator/simulator.rs::add_assign"]}
{"id": "C58", "title": "Results of approx_equity", "statement": "Whatever the random values, the schedule, the number of threads and the time of cancellation, the results returned by approx_equity have the same form as those of exact_equity: equities are a distribution (or all NaN), ties are the integer shares of each update, counts are conserved, combo results aggregate their hands, validity and weights are those of the range, categories are right, the board tables are the sums over the hands, and the rates of a hand are the quotients of its counters.", "quantifier": "all ranges, boards, random values, thread counts, schedules, cancellations", "why_tests_cant": "quantifies over all random streams and schedules", "anchors": ["src/equity_calculator/simulator.rs::approx_equity", "src/equity_calculator/simulator.rs::update_results", "src/equity_calculator/simulator.rs::generate_final_data", "src/equity_calculator/simulator.rs::generate_board_data"]}
{"id": "C59", "title": "When the counters overflow in the random simulation", "statement": "While the number of evaluations times 100 per player is below 2^64, every u64 counter, product of weights and index in the threads of approx_equity stays in range, whatever the random values and the schedule; a run of a debug build that returns has counted correctly. (Findings: with eight or nine players at the default weight 100 the first batch of 4096 evaluations already overflows, so no debug build returns with an evaluation; with n known hands at weight 100 a debug build that returns has made less than 2^64/100^n evaluations, 45 batches for seven players.)", "quantifier": "all ranges, boards, random values, schedules, thread counts", "why_tests_cant": "needs many players and long runs", "anchors": ["src/equity_calculator/simulator.rs::sim_random_walk_monte_carlo", "src/equity_calculator/simulator.rs::evaluate_hands", "src/equity_calculator/simulator.rs::update_results"]}
{"id": "C60", "title": "The random simulation is unbiased", "statement": "Whatever sequence of combined ranges a thread has moved since its deal, each list of combo indexes of the first deal leads to a legal deal and each legal deal arises from exactly one such list, so all legal deals are equally likely at every evaluation, hence (with C43) all showdowns are; the expected value of any quantity of the showdown at an evaluation is its mean over all showdowns, and the expected part of the pot divided by the expected weight is the equity over all showdowns.", "quantifier": "all accepted inputs, shuffles, sequences of moves, quantities", "why_tests_cant": "statistical property", "anchors": ["src/equity_calculator/simulator.rs::sim_random_walk_monte_carlo", "src/equity_calculator/simulator.rs::randomize_hole_cards", "src/equity_calculator/simulator.rs::randomize_board"]}
{"id": "C61", "title": "When the reported equities are exact", "statement": "With up to eight players, if in every showdown the weight of the deal is a multiple of the number of winners (for two players: all percentages of one player are even), the integer divisions in update_results lose nothing: the ties are the exact shares and the equities of exact_equity are exactly wins plus shares over all showdowns divided by the total weight; those of approx_equity are exactly that over the showdowns it evaluated. (Finding: three players at the default weight can get 833333/1999999, 833333/1999999, 333333/1999999 instead of 5/12, 5/12, 1/6.)", "quantifier": "all ranges, boards, thread counts, schedules, random values", "why_tests_cant": "needs the exact rational equity and all batch boundaries", "anchors": ["src/equity_calculator/simulator.rs::update_results", "src/equity_calculator/simulator.rs::get_equity"]}
{"id": "C62", "title": "The crate's own tests, on the model", "statement": "The values expected by the unit tests of hand.rs, fastdivide.rs, hand_range.rs and by test_weight_optimization and test_accuracy hold of the model. In particular AA against a random hand on KdKsKh3s has, for every positive number of threads, a run, and every uncancelled run reports exactly 10873/11385 for the aces, whose nearest double is that of the literal 0.9550285463328941 in the test.", "quantifier": "all thread counts and schedules for test_accuracy; all ranges for the weights", "why_tests_cant": "the test runs one schedule with 4 threads and compares with a tolerance", "anchors": ["src/equity_calculator/simulator.rs::test_accuracy", "src/equity_calculator/simulator.rs::test_weight_optimization", "src/hand_range.rs::tests", "src/hand_evaluator/hand.rs::tests"]}
{"id": "C63", "title": "Floating-point rounding", "statement": "With every f64 operation rounded to nearest-even as IEEE 754 prescribes, the integer counters are those of the exact model. If all the weight counted is at most 2^53 every player's equity is the exact model's equity rounded once, so under the condition of C61 it is the nearest double to the true equity; otherwise (ties up to 2^53) it is off by at most n+4 roundings. Equities and rates per hand, combo and board are rounded once for two players and totals up to 2^52, and off by at most (number of ties + 4) roundings in general. Errors are the same. Exact-mode progress values do not decrease, are at most 100, end with 100 unless cancelled, and differ by at most 1 from the exact percentage. test_accuracy gives the very bits of its literal.", "quantifier": "all ranges, boards, dead cards, thread counts, schedules and cancellations; all weights within the stated bounds; all computations of the standard deviation", "why_tests_cant": "tests compare one run with a tolerance of 1e-3 or 1e-7 and cannot show that no schedule accumulates a larger error", "anchors": ["src/equity_calculator/simulator.rs::SimulationResults::get_equity", "src/equity_calculator/simulator.rs::Simulator::update_results", "src/equity_calculator/simulator.rs::UnitResults", "src/equity_calculator/simulator.rs::Simulator::generate_final_data", "src/equity_calculator/simulator.rs::test_accuracy"]}
{"id": "C64", "title": "The table of draws", "statement": "With three or four board cards, the draw flags reported for a hand are those get_draw computes for the category reported with it, and column c of the draw table (open-ended, gutshot, double gutshot, backdoor straight, nut straight, flush draw, backdoor flush draw, backdoor nut flush draw, nut flush draw, nut flush) is the sum over exactly those hands of the range that have that draw in the words of the specification; with five board cards the flags and the table are empty. A hand flagged as nut flush (or as a draw to it) beats, on every continuation of the board that gives it the flush, every flush other hole cards can make; a flush not flagged is beaten by some other hole cards.", "quantifier": "all ranges, flops, turns, rivers, dead cards, thread counts, schedules; all hole cards and all continuations", "why_tests_cant": "tests do not look at draws at all; the nut columns depend on combinations of three flags", "anchors": ["src/equity_calculator/simulator.rs::Simulator::generate_board_data", "src/hand_evaluator/hand.rs::get_draw", "src/equity_calculator/simulator.rs::SimulationResults::board_draws", "src/equity_calculator/simulator.rs::Simulator::set_ranks"]}
{"id": "C65", "title": "Symmetries of the exact calculation", "statement": "Exchanging the suits in all ranges, on the board and in the dead cards exchanges them in the results of exact_equity; the order in which a range lists its hands is irrelevant; two players with the same range get the same results, and n players with the same range the equities 1/n (two players always, more when no tie share is lost to integer division).", "quantifier": "all ranges, boards, dead cards, suit permutations, thread counts and schedules without cancellation", "why_tests_cant": "each is a relation between the results of different runs on large inputs; the enumeration treats suits and hand orders very differently", "anchors": ["src/equity_calculator/simulator.rs::exact_equity", "src/equity_calculator/simulator.rs::Simulator::enumerate_all", "src/equity_calculator/simulator.rs::Simulator::enumerate_board", "src/equity_calculator/combined_range.rs::CombinedRange::from_ranges"]}
{"id": "C66", "title": "Which ranges are combined", "statement": "The estimated size of a join is its size, the number of pairs of combos without a common card. Each iteration of from_ranges joins two different ranges whose join is smallest; at the end no two remaining ranges have fewer than 10000 compatible pairs, a combined range of several players has fewer than 10000 combos, two ranges stay separate exactly if they have at least 10000 compatible pairs, and ranges whose sizes multiply to less than 10000 become one.", "quantifier": "all lists of ranges", "why_tests_cant": "needs ranges of every size; the tests look at one join", "anchors": ["src/equity_calculator/combined_range.rs::from_ranges", "src/equity_calculator/combined_range.rs::estimate_join_size", "src/equity_calculator/combined_range.rs::join"]}
{"id": "C67", "title": "The examples of the documentation", "statement": "The example of exact_equity (two random hands on KhKsKdKc3h) has a run for every positive number of threads and every uncancelled run reports 1/2 and 1/2. The approx_equity example of the README has a run, and every run makes exactly 16384 evaluations and calls the callback 8 times, first with 255. The approx_equity doc example has a run. With n_threads = 0 the results are all NaN and nothing is sent. u64 / DividerU64 is exact division; HandWithIndex compares cards only, so its Ord disagrees with its Eq.", "quantifier": "all numbers of threads, schedules, random values, cancellations", "why_tests_cant": "doc tests run one schedule and check nothing about the result", "anchors": ["src/equity_calculator/simulator.rs::exact_equity", "src/equity_calculator/simulator.rs::approx_equity", "src/equity_calculator/simulator.rs::HandWithIndex", "src/fastdivide.rs::Div<DividerU64>"]}
{"id": "C68", "title": "No check fails before or after the threads", "statement": "In save_hand_weights, set_ranks, fix_hand_weights, generate_final_data and generate_board_data every index is in bounds (including the unchecked read in get_card_index), every shift is in range and no 32, 64 or 128 bit sum overflows, for every accepted input and whatever 64-bit values the threads have counted. So a debug build of exact_equity or approx_equity can only panic in its threads; for two players, or when all showdowns weigh less than 2^64, exact_equity with all checks has exactly the results of the model without.", "quantifier": "all ranges, boards, dead cards, schedules, counter values", "why_tests_cant": "all accepted inputs and counter values", "anchors": ["src/equity_calculator/simulator.rs::exact_equity", "src/equity_calculator/simulator.rs::save_hand_weights", "src/equity_calculator/simulator.rs::set_ranks", "src/equity_calculator/simulator.rs::fix_hand_weights", "src/equity_calculator/simulator.rs::generate_final_data", "src/equity_calculator/simulator.rs::generate_board_data", "src/hand_evaluator/hand.rs::get_card_index"]}
{"id": "C69", "title": "The categories occur as often as in poker", "statement": "Of the 2598960 five-card, 20358520 six-card and 133784560 seven-card hands, evaluate() >> 12 puts exactly the known numbers into each category (five cards: 1302540 high card, 1098240 pair, 123552 two pair, 54912 trips, 10200 straight, 5108 flush, 3744 full house, 624 quads, 40 straight flush), and so do the rules used as specification.", "quantifier": "all hands of five, six and seven different cards", "why_tests_cant": "133784560 hands for seven cards", "anchors": ["src/hand_evaluator/hand.rs::Hand::evaluate", "src/lookup.rs::LOOKUP", "src/flush_lookup.rs::LOOKUP_FLUSH"]}
{"id": "C70", "title": "The stopping rule with the numbers of the program", "statement": "With every operation of update_results rounded as f64, including sqrt (correctly rounded, NaN for negative arguments): a target of at least 1/31622 and one combined range give exactly one batch of 4096 per thread and, from 1/19700 on, a first progress value of 255; for targets of at least 2^-20 and at most 255 threads the evaluations are bounded by 4096*(1/(3*target^2)+1+threads), so NaN never keeps the threads running; the reported deviation is the one computed from the exact batch estimates up to 4e-12 per batch under the root; with a target that is not positive no thread finishes.", "quantifier": "all ranges, boards, random values, schedules, thread counts up to 255 and targets from 2^-20 on", "why_tests_cant": "rounding errors in running sums and cancellation in the variance over arbitrarily many batches and schedules", "anchors": ["src/equity_calculator/simulator.rs::approx_equity", "src/equity_calculator/simulator.rs::update_results", "src/equity_calculator/simulator.rs::sim_random_walk_monte_carlo"]}
{"id": "C71", "title": "From the texts to the equities", "statement": "For range texts, board text and dead-card text in any case, written for ranges given by tokens (or 'random') and for lists of different cards: parsing and exact_equity together count, for every hand of every player, the sums over all deals of one hand each and all boards, taken from any lists of the hands that the texts mean; with up to eight players and evenly divisible weights the equities are those of the game, and the f64 values are the nearest numbers up to a total weight of 2^53; if some deal is possible runs exist and never end in an error; for two players with even weights all of this holds without any condition on the sizes, and all runs pass all overflow and bounds checks. The expected value of approx_equity is the same equity.", "quantifier": "all texts, numbers of players, boards, dead cards, thread counts and schedules", "why_tests_cant": "end-to-end over unboundedly many texts, with an oracle that enumerates all deals and boards", "anchors": ["src/hand_range.rs::from_strings", "src/equity_calculator/simulator.rs::exact_equity", "src/equity_calculator/simulator.rs::approx_equity"]}
{"id": "C72", "title": "What is reported for nine players", "statement": "MAX_PLAYERS is nine but the winner mask has eight bits. For nine players, exact or random: the ninth player never has a win or a share of a tie and its equity is 0 (or all equities are NaN); if the other winners can share evenly, wins plus ties and the equities of the others are those of a game in which the pot is divided among the winners other than the ninth and pots won by the ninth alone vanish; if the ninth player wins every showdown alone all nine equities are NaN.", "quantifier": "all nine ranges, boards, dead cards, thread counts, schedules, weights and random values", "why_tests_cant": "needs an oracle over all deals of nine hands; the failure is silent", "anchors": ["src/equity_calculator/simulator.rs::sim_random_walk_monte_carlo", "src/equity_calculator/simulator.rs::evaluate_hands", "src/equity_calculator/simulator.rs::update_results"]}
{"id": "C73", "title": "Which numbers the scores are, and how many", "statement": "The score of a hand of two to seven different cards is 4096 times the category of its best poker hand plus the place of that hand, counted from below and without gaps, among all strengths of the category that hands of two to five cards can have; a flush has the place of the high-card hand of the same ranks. Hands of 2, 3, 4, 5, 6, 7 cards have exactly 91, 455, 1820, 7462, 6075, 4824 different scores, and as many different strengths.", "quantifier": "all hands of two to seven different cards", "why_tests_cant": "a test compares some scores; that no score is missing or extra needs all 133784560 seven-card hands and all smaller ones", "anchors": ["src/hand_evaluator/hand.rs::Hand::evaluate", "src/lookup.rs::LOOKUP", "src/flush_lookup.rs::LOOKUP_FLUSH"]}
{"id": "C74", "title": "Threads, locks, channel and callback together", "statement": "With every lock operation, access to shared data, message and call of the callback as a step of its own, and whatever the callback does with the cancel token, exact_equity and approx_equity have exactly the outcomes of the models with atomic updates; the callback is called once per message, in the order in which they were sent. The exact calculation makes a bounded number of steps and can only stop when all threads have ended and all messages have been received; the random one is never stuck before that, and two threads never update the results at the same time.", "quantifier": "all inputs, callbacks, thread counts, schedules, random values and times of cancellation", "why_tests_cant": "the number of interleavings is unbounded", "anchors": ["src/equity_calculator/simulator.rs::exact_equity", "src/equity_calculator/simulator.rs::approx_equity", "src/equity_calculator/simulator.rs::update_results", "src/equity_calculator/simulator.rs::reserve_batch"]}
{"id": "C75", "title": "The release build: counters modulo 2^64", "statement": "In a release build the counters wrap instead of panicking. If all showdowns together weigh less than 2^64 (always so for two players) the release build has exactly the results of the floating-point model. In general every run belongs to a run of the exact model and has its counters modulo 2^64: wins, ties and totals of every hand, and, up to eight players, the wins of every player and group. Findings: on the flop with eight players a favourite with 58.9 percent is reported with less than 1.7 percent; for eight players with the range A2o+,K4o+,AKs the number of combinations is 2^64, which wraps to zero: the calculation returns at once without having evaluated anything, all equities NaN.", "quantifier": "all inputs, thread counts, schedules and times of cancellation; the wrong results for one flop and one range, all thread counts and schedules", "why_tests_cant": "a test would have to know the true equities of large multi-way pots, and tests run in debug builds panic", "anchors": ["src/equity_calculator/simulator.rs::exact_equity", "src/equity_calculator/simulator.rs::enumerate_board", "src/equity_calculator/simulator.rs::evaluate_hands", "src/equity_calculator/simulator.rs::update_results", "src/equity_calculator/simulator.rs::get_preflop_combo_count", "src/equity_calculator/simulator.rs::UnitResults::add_assign"]}
{"id": "C76", "title": "Reading texts in a release build", "statement": "In a release build from_string, from_strings, card_from_str and flop_from_str never panic. Where the debug build does not panic the result is the same. In general from_string reads the text in which every weight is replaced by its remainder modulo 2^32: a token with any number of digits after the @ gives its hands that remainder if it is at most 100 and else 100. Findings: aa@4294967300 is read as aa@4; a rank above 2 with a wrong suit letter is read as the diamond of the rank below ('3x' is the two of diamonds), so '3x4x5x' is accepted as a flop.", "quantifier": "all texts and all lower-casing functions", "why_tests_cant": "tests run in debug builds, which panic on these texts", "anchors": ["src/hand_evaluator/hand.rs::from_string", "src/hand_evaluator/hand.rs::from_strings", "src/hand_evaluator/hand.rs::parse_weight", "src/hand_evaluator/hand.rs::parse_hand", "src/hand_evaluator/hand.rs::card_from_chars", "src/hand_evaluator/hand.rs::card_from_str", "src/hand_evaluator/hand.rs::flop_from_str"]}
{"id": "C77", "title": "Exactly when the properties C15, C24, C32 and C50 hold", "statement": "card_from_str returns a card exactly for the names of the card, 255 exactly for a 2 with a wrong suit letter, and panics exactly if two characters are there and the first is no rank or the rank is above 2 and the second no suit letter. Swapping the ends of a dash does not matter exactly for two different ranks, one pair twice, or suited pairs. The printed name of a hand of a range is a key of the results exactly if the hand is no pair. All sole winners are credited exactly if there are at most eight players or the ninth never wins alone or shares with exactly one other player.", "quantifier": "all texts, all dash tokens, all parsed hands, all showdowns with up to nine players", "why_tests_cant": "exact characterisations over all inputs", "anchors": ["src/hand_evaluator/hand.rs::card_from_str", "src/hand_evaluator/hand.rs::card_from_chars", "src/hand_evaluator/hand.rs::add_combos_dash", "src/hand_evaluator/hand.rs::Display for Combo", "src/equity_calculator/simulator.rs::evaluate_hands", "src/equity_calculator/simulator.rs::get_hand_result"]}
{"id": "C78", "title": "The random simulation in a release build", "statement": "In a release build, where u64 counters wrap instead of panicking, approx_equity fails exactly as in a debug build, and every result it returns has the counters (wins, ties and totals of hands, winner masks, players, evaluations) of a list of legal showdowns modulo 2^64; the list has 4096 elements per message above one per thread. As long as (evaluations + 1) * 100^players < 2^64 its runs are exactly those of the floating-point model, bit for bit. If no showdown is a tie the equities are the rounded shares of the wins modulo 2^64. Findings: nine known hands of weight 64 weigh 2^66 per batch, so every hand total is zero however long the simulation runs, and on a full board all wins are zero and all equities NaN, where a debug build panics.", "quantifier": "all ranges, boards, dead cards, thread counts, targets, random values, schedules and times of cancellation", "why_tests_cant": "release and debug builds differ only when 64-bit counters overflow, which tests of small examples do not reach", "anchors": ["src/equity_calculator/simulator.rs::approx_equity", "src/equity_calculator/simulator.rs::sim_random_walk_monte_carlo", "src/equity_calculator/simulator.rs::evaluate_hands", "src/equity_calculator/simulator.rs::update_results"]}
{"id": "C79", "title": "The random simulation goes round the deals", "statement": "If the ranges are combined into one (fewer than 10000 combinations), the random simulation does not choose hands at random: there is one order of the legal deals such that each batch of 4096 evaluations goes round that order from some starting point, so of m deals each occurs 4096/m times per batch, rounded down or up, and so does every pair of hole cards in the reported totals. On a complete board with m dividing 4096 every counter is an exact multiple of the exact calculation's, the equities are the exact ones (in the floating-point model rounded once), and for other m up to 4096 the relative error is at most 1 / floor(4096/m). In a release build the counters are these multiples modulo 2^64. Finding: eight players of default weight on a complete board; the favourite wins half the deals and is reported with 9 percent by a release build after one batch.", "quantifier": "all ranges that combine into one, boards, dead cards, thread counts, targets, random values, schedules and times of cancellation", "why_tests_cant": "a test can only check that the result of a random simulation is near the exact one, for a few seeds", "anchors": ["src/equity_calculator/simulator.rs::sim_random_walk_monte_carlo", "src/equity_calculator/simulator.rs::approx_equity", "src/equity_calculator/simulator.rs::randomize_hole_cards", "src/equity_calculator/combined_range.rs::from_ranges"]}
{"id": "C80", "title": "How accurate the random simulation is", "statement": "If the ranges are combined into one, the boards are the only thing left to chance. The result is the equity over one of the outcomes: the lists that assign a board to each deal evaluated; with known hands each outcome occurs in some run, and any boards of N consecutive evaluations have the same probability (1/n)^N, n the number of boards of a deal. The mean over the outcomes is the exact equity if the number m of deals divides 4096, and differs from it by at most one part in floor(4096/m) otherwise. The variance is given by an exact formula (for known hands without ties e(1-e)/N for N evaluations), and by Chebyshev's inequality at most one part in 4 N epsilon^2 of the outcomes deviates by epsilon or more if all weights are equal. Finding: the target does not determine the accuracy. For every target from 1/31622 up one thread makes 4096 evaluations; for an even match the standard deviation is then 1/128, 247 times that target, and at most one outcome in 64 is closer to the equity than 1/4096.", "quantifier": "all ranges that combine into one, boards, dead cards, thread counts, targets, random values, schedules and times of cancellation; all outcomes", "why_tests_cant": "the outcomes number more than 44^4096; a test sees a few of them, and a tolerance wide enough for a random result hides a bias or a missed target", "anchors": ["src/equity_calculator/simulator.rs::approx_equity", "src/equity_calculator/simulator.rs::sim_random_walk_monte_carlo", "src/equity_calculator/simulator.rs::update_results", "src/equity_calculator/simulator.rs::randomize_board"]}
{"id": "C81", "title": "Panics of threads and of the callback, poisoned locks", "statement": "A thread that panics drops its guards and poisons the locks it holds, so that every later thread that takes them panics too; thread::scope waits for all threads and panics if one of them or the callback has. In the model with these rules a call that returns gives a result of the model without panics, in a debug and in a release build, for the exact and the random calculation, and all those results are returned if the callback does not panic. The exact calculation ends after at most 64 steps for each position and 72 for each thread, the random one after a bounded number of steps once it is cancelled; there is no deadlock, also after any panics. Release builds never panic, unless the callback does; debug builds only if the callback does or a counter overflows. A panic with the lock on the results ends all additions and messages; a reservation that overflows ends all reservations, and every thread panics that has not ended or is not handing over its results. Findings: with seven or eight known hands of weight 100 before the flop every exact calculation of a debug build that is not cancelled ends with a panic; with known hands of eight or nine players every random simulation of a debug build does, on any board, for every target and number of threads.", "quantifier": "all ranges, boards, dead cards, thread counts, callbacks (including panicking ones), schedules, random values, times of cancellation", "why_tests_cant": "a panic while a lock is held needs an overflow at a certain time; a test sees one schedule, and a deadlock after a panic would only show as a hanging test", "anchors": ["src/equity_calculator/simulator.rs::exact_equity", "src/equity_calculator/simulator.rs::approx_equity", "src/equity_calculator/simulator.rs::enumerate_all", "src/equity_calculator/simulator.rs::reserve_batch", "src/equity_calculator/simulator.rs::sim_random_walk_monte_carlo", "src/equity_calculator/simulator.rs::update_results"]}
{"id": "C82", "title": "Upper and lower case, foreign characters and blanks in texts", "statement": "For every conversion to lower case that, like str::to_lowercase, turns ASCII letters into their lower case, the Kelvin sign into k, the dotted capital I into i and a combining dot, and all other characters into characters outside ASCII: what a range text means depends only on the letters for which its characters stand, up to the first one that stands for none; so upper and lower case do not matter, in debug and release builds, and the same holds for get_card_mask, which gives zero if a character stands for no letter. Findings: RANDOM and Random are the empty range; a blank after a comma ends the range, so that AsKs, QsJs is AsKs; the Kelvin sign is a king in ranges and masks but makes card_from_str panic.", "quantifier": "all texts, every conversion to lower case that follows the Unicode tables for the characters concerned", "why_tests_cant": "texts with all Unicode characters cannot be enumerated; tests use lower-case ASCII", "anchors": ["src/hand_range.rs::from_string", "src/hand_range.rs::get_card_mask", "src/hand_range.rs::card_from_str"]}
{"id": "C83", "title": "A whole program: from the texts to the f64 equities, with threads, locks, callback and both builds", "statement": "The program of the README (reading range and card texts, then exact_equity or approx_equity) in the model with locks, poisoning, channel, callback and panics. For every problem with two to eight players within the limits (for two players: every problem with enough cards, a possible deal and even weights of one player), every number of threads and every callback that does not panic, in a release and in a debug build: there is an end for every state of the cancel token; every end is the return of a result, never a panic or an error; and if the calculation has not been cancelled the equities are those of the game problem that the texts describe: in the release build the nearest f64 numbers if all showdowns weigh at most 2^53, else within n + 4 roundings if no player's shares exceed 2^53. For approx_equity in a release build every end is the return of a result computed from 4096 showdowns of the problem for each message above one per thread, with the nearest f64 numbers to their equities; in a debug build a panic is possible only after 2^64 / 100^n evaluations. The crate's test_accuracy returns its expected number to the last bit for every schedule.", "quantifier": "all texts of the range notation, boards, dead cards, thread counts, schedules, callbacks that do not panic, times of cancellation", "why_tests_cant": "the result depends on the schedule of threads and locks and on the rounding of f64; a test runs one of them on one input and one build", "anchors": ["src/hand_range.rs::from_strings", "src/hand_range.rs::get_card_mask", "src/equity_calculator/simulator.rs::exact_equity", "src/equity_calculator/simulator.rs::approx_equity"]}
{"id": "C84", "title": "Bits of the masks that stand for no card", "statement": "exact_equity and approx_equity take the board and the dead cards as u64, and nothing rejects the bits 52 to 63, which stand for no card. Such bits count towards the limits on board and dead cards, so they only make the validation stricter. Apart from that the preparation (card removal, combined ranges, fixed board, conflict test) is that for the masks without them. An exact calculation that is not cancelled reports the same wins, the same winner masks, the same counts of every hand and the same valid hands and weights, and (up to eight players, if no share is lost in integer divisions) the same equities. What differs (finding): categories and draws are reported from three bits of the board mask on, so even before the flop if three bits stand for no card.", "quantifier": "all u64 masks, ranges of two to nine players, thread counts, schedules", "why_tests_cant": "2^24 combinations of such bits for every input, and the tests never set one", "anchors": ["src/equity_calculator/simulator.rs::exact_equity", "src/equity_calculator/simulator.rs::approx_equity", "src/equity_calculator/simulator.rs::get_postflop_combo_count", "src/equity_calculator/simulator.rs::set_ranks", "src/hand_range.rs::remove_conflicting_combos", "src/hand_evaluator/hand.rs::from_bit_mask"]}
{"id": "C85", "title": "A debug build with its floating-point numbers returns only what a release build returns", "statement": "With integer checks and f64 rounding both in the model, whatever exact_equity or approx_equity returns in a debug build it can return in a release build: the same results to the last bit, with the same calls of the callback, for all inputs, sizes, weights, thread counts and callbacks, and for whole programs that start from texts. If all showdowns together weigh less than 2^64 (so for any two ranges) the builds cannot be told apart: same returns, same panics, same calls. A simulation whose evaluations leave room returns the same in both. Otherwise the debug build panics: seven or eight known hands before the flop always, and simulations with eight or nine known hands always. Every debug call has an end and is never in a deadlock, and its integers are those of the debug build with exact numbers. The crate's test_accuracy returns the expected number to the last bit in a debug build, which is how cargo test runs it.", "quantifier": "all u64 masks, ranges of well-formed hands, texts, targets, thread counts, schedules, random numbers, callbacks", "why_tests_cant": "tests run one build at a time on a few inputs; agreement of two builds over all schedules and inputs cannot be observed", "anchors": ["src/equity_calculator/simulator.rs::exact_equity", "src/equity_calculator/simulator.rs::approx_equity", "src/equity_calculator/simulator.rs::update_results", "src/equity_calculator/simulator.rs::evaluate_hands", "src/equity_calculator/simulator.rs::fix_hand_weights", "src/equity_calculator/simulator.rs::enumerate_board"]}
{"id": "C86", "title": "The public functions of the hand module on every argument: value, panic or read outside a table", "statement": "Hand has public fields and the functions take any u8, so callers can pass what no range text produces. For every argument and both builds the model says exactly whether a function returns, panics or reads outside its table with get_unchecked. get_card_index fails on two numbers of cards only for twice card 0 (debug panics, release reads outside); for twice another card it gives the index of a different hand. Hand::get_card_index looks only at the lowest and highest bit, gives usize::MAX when they are no two cards, and leaves its table for the empty hand (release) and, of real cards, for the ace of the first suit alone. contains, get_suit_mask and suit_count panic in a debug build from stated numbers on and wrap in a release build. from_bit_mask panics in a debug build exactly when the key overflows. evaluate never panics, is inside its tables for all hands of at most seven different cards, and outside for the eight aces and kings. get_draw with category 5 but no suit of five panics in a debug build and answers for the last suit in a release build.", "quantifier": "all u8 numbers, all u64 keys and masks, both builds", "why_tests_cant": "the arguments are not reachable from texts, and a read outside a table need not be visible in a test", "anchors": ["src/hand_evaluator/hand.rs::get_card_index", "src/hand_evaluator/hand.rs::evaluate", "src/hand_evaluator/hand.rs::evaluate_without_flush", "src/hand_evaluator/hand.rs::contains", "src/hand_evaluator/hand.rs::get_suit_mask", "src/hand_evaluator/hand.rs::suit_count", "src/hand_evaluator/hand.rs::from_bit_mask", "src/hand_evaluator/hand.rs::from_hole_cards", "src/hand_evaluator/hand.rs::get_draw"]}
{"id": "C87", "title": "Ranges built by hand: what exact_equity does before the threads start", "statement": "HandRange and Combo have public fields. For any ranges of any pairs of u8, any masks and both builds the start of exact_equity is determined: refused calls are refused first; a debug build panics if any hand has a number of 64 or more; both builds panic if a remaining hand has a number that is no card; if a hand is twice card 0 a debug build panics and a release build reads outside CARD_MAP, and this is the only undefined behaviour at the start; otherwise the simulator is created. For hands of two different cards both builds do what the model of the other claims says. A release build takes the number 64 for card 0 and drops the hand silently if that card is taken. Twice the ace of the first suit is accepted, credited to another hand, and on a board of the other aces and two kings its score is read outside the table. card_to_string and Display of a hand panic exactly for numbers that are no card, hole_to_string in a debug build for numbers from 64 on. The hand indices 0-77 are the pairs, 78-389 the suited, 390-1325 the offsuit hands.", "quantifier": "all ranges of u8 pairs, all u64 masks, both builds", "why_tests_cant": "such ranges cannot be written as texts and the reads outside a table need not be visible", "anchors": ["src/equity_calculator/simulator.rs::exact_equity", "src/equity_calculator/combined_range.rs::from_range", "src/hand_range.rs::remove_conflicting_combos", "src/equity_calculator/simulator.rs::save_hand_weights"]}
{"id": "C88", "title": "Known pairs before the flop, and the crate's test_exact_weighted to the last bit", "statement": "By the rules of the game the equity of two kings before the flop is 641926, 618277 or 594628 out of 3424608 against two aces and 2782312, 2805946 or 2829580 out of 3424608 against two queens, if the hands share no, one or two suits. Therefore KK against the text AA@1,QQ has the equity 10123663572/12451874688. The crate reads these texts, exact_equity ends for every number of threads, and every end that is not cancelled reports for the kings the very f64 number that the literal 0.8130232455484216 of the test denotes, in the exact model, with f64 numbers, in a release build and in a debug build.", "quantifier": "all deals of two kings against two aces or two queens, all 1712304 boards of each, every number of threads, every schedule, both builds", "why_tests_cant": "the crate's test runs one schedule and compares with a number the crate has produced itself", "anchors": ["src/equity_calculator/simulator.rs::exact_equity", "src/equity_calculator/simulator.rs::sim_enumerate", "src/hand_evaluator/hand.rs::evaluate", "src/hand_range.rs::from_strings", "src/equity_calculator/simulator.rs::finalize_results"]}
{"id": "C89", "title": "How far the mean of the random simulation is off, runs that nobody cancels, and the crate's test_approx_weighted", "statement": "Let the ranges be combined into one. The mean over the outcomes of approx_equity differs from the exact equity at most by the mean distance of the equities of the deals from it, divided by twice the number of times a deal is evaluated per batch, and the variance is bounded by that of the deals. With a target of at least 1/31622, any boards can come up in a run with f64 numbers that nobody cancels. For the crate's test_approx_weighted: every result is that of one of the possible outcomes, rounded once; the mean over them is within 1/8000 of the exact equity; at most one in five of the outcomes does not pass the two assertions. Finding: the test can fail; there is a run in which the kings win all 16384 showdowns.", "quantifier": "all ranges that are combined into one, all boards, all schedules; for the test all results and all outcomes", "why_tests_cant": "a test that passes today says nothing about the runs in which it fails, and it cannot count them", "anchors": ["src/equity_calculator/simulator.rs::approx_equity", "src/equity_calculator/simulator.rs::sim_random_walk_monte_carlo", "src/equity_calculator/simulator.rs::update_results", "src/equity_calculator/simulator.rs::test_approx_weighted"]}
{"id": "C90", "title": "What the random simulation cannot reach within a batch", "statement": "The results of approx_equity consist of batches of 4096 showdowns, in each of which from one showdown to the next at most the hands of the players of one combined range change; a property of deals that no such change affects holds in all showdowns of a batch or in none. Of the lists of indexes that randomize_hole_cards can draw as many lead to a deal with the property as there are such deals, and every choice of the first deals occurs in a run. If such a property decides who wins and what the weight is, the reported equity depends only on the number m of the K batches that have it: m*w/(m*w+(K-m)*v). Finding: for three ranges given as text the equity is 125/207, which is what exact_equity reports, but no run of approx_equity of at most 1000 batches (four million evaluations) reports anything but 0 or a value of at least 10/11 (9/10 with f64 numbers); both kinds of run exist.", "quantifier": "all ranges, boards, targets, numbers of threads and schedules; for the finding all runs of at most 1000 batches", "why_tests_cant": "a sampling test on ordinary ranges sees a good estimate; that the walk is confined to one component per batch appears only with ranges that fall apart, and no number of samples shows that a value is never reported", "anchors": ["src/equity_calculator/simulator.rs::sim_random_walk_monte_carlo", "src/equity_calculator/simulator.rs::randomize_hole_cards", "src/equity_calculator/simulator.rs::approx_equity", "src/equity_calculator/combined_range.rs::from_ranges"]}
{"id": "C91", "title": "The sample space of the random simulation, and its accuracy with any ranges", "statement": "The result of approx_equity is the count of one of the lists of showdowns in a finite list of possible results: K batches, each of which is given by a legal first deal, 4095 choices of a combined range and 4096 boards; with f64 numbers the equity is rounded once. Every such list with one batch per thread occurs in a run. The number of batches is D * m^4095 * n^4096 (D deals, m combined ranges, n boards for each deal). Over this list the mean of any sum over the showdowns is 4096 K times its mean over all deals and boards, so with equal weights the mean of the equity is the exact equity; the variance is at most K (4096 V + 4096^2 U), where V is the mean variance over the boards of a deal and U the variance between the deals. So at most one part in 4 K eps^2 of the possible results (times the square of the ratio of the greatest and the least weight of a deal) is off by eps or more. For two random hands before the flop the exact equity is one half, and with 2500 batches at most one result in a hundred is off by a tenth.", "quantifier": "all ranges, boards, targets, schedules, numbers of threads and batches, all eps > 0", "why_tests_cant": "a sampling test sees a few results; it cannot say that the mean over all equally likely results is the exact equity or bound the part that is off by a given amount", "anchors": ["src/equity_calculator/simulator.rs::sim_random_walk_monte_carlo", "src/equity_calculator/simulator.rs::randomize_hole_cards", "src/equity_calculator/simulator.rs::approx_equity", "src/equity_calculator/simulator.rs::randomize_board"]}
{"id": "C92", "title": "The probabilities of the random simulation", "statement": "If every value that the threads draw is uniform on its range and independent of the others, then the counters in the shared results of approx_equity, after K_t batches of each thread t in any fixed order of the steps, are distributed as those of a uniform choice from the list of possible results of C91 with sum K_t batches, apart from the probability that a thread finds no deal in 1000 attempts, which is the 1000th power of 1 minus the part of the entries of the combined ranges that are deals. This includes the rejection of used cards while a board is drawn, which reads an unbounded number of values; the probabilities of all that is drawn add up to 1, so every step ends with probability 1. So a run that is cancelled then ends with all threads done and reports an equity off by less than eps with a probability of at least (1 - c)^N (1 - r^2 / (4 N eps^2)), where N is the number of batches, c the probability of no deal and r the ratio of the greatest and the least weight of a deal. c is below 1 if there is a deal and 0 if all ranges were joined.", "quantifier": "all ranges, boards, numbers of threads and batches, schedules of the steps, eps > 0, targets that are never reached", "why_tests_cant": "a test runs with a few seeds; it cannot give the distribution of the results, show that the schedule does not matter, or bound the probability of a wrong equity", "anchors": ["src/equity_calculator/simulator.rs::sim_random_walk_monte_carlo", "src/equity_calculator/simulator.rs::randomize_hole_cards", "src/equity_calculator/simulator.rs::approx_equity", "src/equity_calculator/simulator.rs::randomize_board", "src/equity_calculator/simulator.rs::update_results"]}
{"id": "C93", "title": "The distribution of what approx_equity returns", "statement": "If every value that the threads draw is uniform on its range and independent of the others, and the target is at least 1/31622, then for every scheduler, also one that looks at everything that has happened, and for every moment of a cancellation, approx_equity with nT threads ends after exactly one batch of each thread with a probability of at least (1 - c)^nT, where c is the probability that a thread finds no deal in 1000 attempts, and the counters are then distributed as those of a uniform choice from the list of possible results of nT batches; if all ranges were joined, this holds with probability 1. The f64 equity returned is the equity of such a choice rounded once. So it is off by less than eps and half a unit in the last place with the probability that Chebyshev gives for the variances between and within the deals; with known hands with probability at least 1 - 1/(16384 nT eps^2); the repository's test_approx_weighted passes with a probability of at least 4/5. Finding: the target is not what the result is accurate to. With known hands of which one wins on half of the boards, the result of one thread is off by 1/4096 or more with a probability of at least 63/64, whatever target of at least 1/31622 was asked for.", "quantifier": "all ranges, boards, numbers of threads, schedulers that depend on the whole history, cancellations, eps > 0, targets >= 1/31622", "why_tests_cant": "a test sees one schedule and one seed; it cannot show that no scheduler biases the result, nor bound the probability that the result is off", "anchors": ["src/equity_calculator/simulator.rs::sim_random_walk_monte_carlo", "src/equity_calculator/simulator.rs::approx_equity", "src/equity_calculator/simulator.rs::update_results", "src/equity_calculator/simulator.rs::randomize_hole_cards", "src/equity_calculator/simulator.rs::randomize_board", "src/equity_calculator/simulator.rs::get_results"]}
{"id": "C94", "title": "Large errors of the random simulation are exponentially unlikely", "statement": "If all ranges were joined into one combined range, the target is at least 1/31622 and the draws are uniform and independent, then for every scheduler and every moment of a cancellation the f64 equity that approx_equity returns with nT threads is off by less than eps + delta + 2^-53 with a probability of at least 1 - 2 exp(-8192 nT eps^2 wmin/wmax), where delta is the distance of the mean from the exact equity (bounded in C80 and C89; 0 if the number of deals divides 4096) and wmin, wmax are the least and the greatest weight of a deal. With known hands this is 1 - 2 exp(-8192 nT eps^2): kings against queens before the flop are reported to two percent by four threads with a probability of at least 0.999995.", "quantifier": "all joined ranges, boards, numbers of threads, schedulers, cancellations, eps > 0, targets >= 1/31622", "why_tests_cant": "an event with a probability of 1 in 10^8 is not met in tests, and a few seeds say nothing about the tail of the distribution", "anchors": ["src/equity_calculator/simulator.rs::sim_random_walk_monte_carlo", "src/equity_calculator/simulator.rs::approx_equity", "src/equity_calculator/simulator.rs::randomize_board", "src/equity_calculator/simulator.rs::update_results", "src/equity_calculator/simulator.rs::get_equity"]}
{"id": "C95", "title": "How much work the exact calculation does and how often it reports", "statement": "For every run of exact_equity, cancelled or not: eval_count is at most the number of showdowns; the callback is called by each thread at its end and otherwise only after at least 10000 evaluations, and no call stands for more than 9999 evaluations and those of one deal. Without cancellation there is at least one evaluation for every deal, exactly one on a complete board, and an evaluation stands for at most 4^k showdowns if k cards are missing on the board. Once the token is set, each thread adds at most 9999 evaluations and those of one deal. With fewer than 10000 showdowns every thread reports exactly once and the token has no effect.", "quantifier": "all ranges, boards, dead cards, numbers of threads, schedulers and cancellation points", "why_tests_cant": "the counts depend on the schedule and on the grouping of boards by ranks and irrelevant suits; a test sees one schedule and no moment of cancellation", "anchors": ["src/equity_calculator/simulator.rs::enumerate_all", "src/equity_calculator/simulator.rs::enumerate_board", "src/equity_calculator/simulator.rs::enumerate_board_rec", "src/equity_calculator/simulator.rs::update_results", "src/equity_calculator/simulator.rs::exact_equity"]}
{"id": "C96", "title": "Relations between the results of different calculations", "statement": "Between runs of exact_equity that were not cancelled (a run that found no legal deal counts nothing): every counter of the results, summed over the calculations with one more board card, is the counter without that card times the number of missing board cards; summed over the calculations with one more dead card it is the counter times the number of cards left over after deal and board; for a range given in two parts it is the sum of the counters of the parts; with the weights of one range multiplied by m it is multiplied by m. With at most eight players and weights that divide evenly, the equity before a board card is the average of the equities after it, weighted with their totals, and multiplying the weights of a range leaves the equities unchanged.", "quantifier": "all ranges, boards with fewer than five cards, dead cards, numbers of threads and schedulers of all the runs; all counters (per hand, per winner set, per player)", "why_tests_cant": "relates up to 53 different inputs at once; each run groups boards, joins ranges and removes conflicting hands differently, so that a mistake in one of the groupings shows only as a small difference between the sums", "anchors": ["src/equity_calculator/simulator.rs::exact_equity", "src/equity_calculator/simulator.rs::enumerate_all", "src/equity_calculator/simulator.rs::enumerate_board", "src/equity_calculator/simulator.rs::update_results", "src/hand_range.rs::remove_conflicting_combos"]}
{"id": "C97", "title": "Certain outcomes are reported as certain", "statement": "For the results of exact_equity and approx_equity with up to eight players, cancelled or not, whatever the schedule and the random numbers: a player who wins no possible showdown has no wins, no ties and the equity 0; if the same players win every possible showdown they get equal equities that add up to 1, in spite of the rounded shares; a player who wins or shares every pot that another one wins or shares has at least the other one's equity, and two players who always win or lose together have the same counters. With weights that divide evenly the equity of a player lies between the smallest and the largest part of a pot the player can get. A hand that always wins has as many wins as showdowns and a hand that never wins has no wins and no ties.", "quantifier": "all ranges, boards, dead cards, numbers of threads, schedulers, cancellation points, targets and random draws", "why_tests_cant": "sampling and cancellation make every run different; the claim is that none of these runs can contradict what is certain", "anchors": ["src/equity_calculator/simulator.rs::exact_equity", "src/equity_calculator/simulator.rs::approx_equity", "src/equity_calculator/simulator.rs::update_results", "src/equity_calculator/simulator.rs::evaluate_hands"]}
{"id": "C98", "title": "Relations between the results for different range texts", "statement": "For runs of exact_equity that were not cancelled: every counter for the range of a text 'A,B' is the counter for A plus the counter for the hands of B that A does not contain, so the sum of the counters for A and B if they have no hand in common. Only the proportions of the weights of a range matter: if the percentages of two texts with the same tokens differ by a factor, every counter differs by that factor, and the equities are the same (at most eight players, weights that divide evenly).", "quantifier": "all texts made of valid tokens, positions of the player, other ranges, boards, dead cards, numbers of threads and schedulers", "why_tests_cant": "connects the parser (tokens, duplicates, first weight wins, sorting) with the enumeration for all texts at once", "anchors": ["src/hand_range.rs::from_string", "src/hand_range.rs::remove_duplicates", "src/equity_calculator/simulator.rs::exact_equity", "src/equity_calculator/simulator.rs::update_results"]}
{"id": "C99", "title": "Mixing hands: the equity of a range lies between those of its parts", "statement": "For runs of exact_equity that were not cancelled (at most eight players, weights that divide evenly): if a range has two parts, the weights of the showdowns add and every player's equity is the weighted mean of the equities with the parts, so it lies between them, strictly if they differ. Raising the weights of a part by a factor moves the equity strictly towards the equity with this part alone, and not at all if both parts have the same. No range does better than its best hand: some hand of it, played alone, has at least the equity of the range, and some hand at most. The equity that get_hand_result shows for a hand, and get_combo_result for a combo like AKs, is the equity of the player in the calculation with this hand, or with the hands of this combo, alone.", "quantifier": "all ranges of different cards, parts, factors, positions of the player and of the range, boards, dead cards, numbers of threads and schedulers", "why_tests_cant": "relates the results of unboundedly many calculations; a test compares a few numbers, and only approximately", "anchors": ["src/equity_calculator/simulator.rs::exact_equity", "src/equity_calculator/simulator.rs::enumerate_all", "src/equity_calculator/simulator.rs::update_results", "src/equity_calculator/simulator.rs::get_equity", "src/equity_calculator/simulator.rs::get_hand_result", "src/equity_calculator/simulator.rs::get_combo_result", "src/equity_calculator/simulator.rs::generate_final_data"]}
{"id": "C100", "title": "A caller who writes to the cancel token at will", "statement": "The caller may store any values in the cancel token while exact_equity or approx_equity runs, for instance set it and clear it again. Every result of exact_equity is then also the result of a calculation whose token is clear at the start and is set at most once, and it is set there only if a thread read a set token: so if no thread did, the result is complete and the same as that of an undisturbed calculation, even if the token was set when the calculation began. The errors do not depend on the token. The number of steps of the threads stays bounded and no thread panics. What approx_equity counts is also counted by a simulation whose token only the caller sets and that never reaches its target, so it is a list of legal showdowns; only the batch sums and the standard deviation may differ.", "quantifier": "all ranges, boards, dead cards, numbers of threads, targets, random streams, schedulers and sequences of values written to the token", "why_tests_cant": "the interleavings of the writes with the reads of the threads cannot be enumerated or provoked in tests", "anchors": ["src/equity_calculator/simulator.rs::exact_equity", "src/equity_calculator/simulator.rs::approx_equity", "src/equity_calculator/simulator.rs::enumerate_all", "src/equity_calculator/simulator.rs::sim_random_walk_monte_carlo", "src/equity_calculator/simulator.rs::update_results"]}
{"id": "C101", "title": "A cancel token that is used again", "statement": "approx_equity sets the cancel token of its caller when the target is reached, and nothing clears it. A simulation in which no thread gives up dealing (in particular one whose ranges combine into one) leaves the token set. The next calculation with the same token stops after the first batch of each thread although nobody cancelled it: approx_equity evaluates at most 4096 showdowns per thread whatever its target, exact_equity at most 9999 plus the number of boards of a deal per thread. If there are more deals than that, the returned Ok result is not that of any complete calculation. exact_equity itself leaves the token as it is.", "quantifier": "all ranges, boards, dead cards, targets, numbers of threads, random streams and schedulers of both calls", "why_tests_cant": "needs the state left behind by one call and all interleavings of both; a test that makes a new token for every call never sees it", "anchors": ["src/equity_calculator/simulator.rs::approx_equity", "src/equity_calculator/simulator.rs::exact_equity", "src/equity_calculator/simulator.rs::update_results", "src/equity_calculator/simulator.rs::sim_random_walk_monte_carlo", "src/equity_calculator/simulator.rs::enumerate_all"]}
{"id": "C102", "title": "A caller who writes to the cancel token at will, in a release build", "statement": "In a release build (counters modulo 2^64, rounded f64 numbers) every result of exact_equity with a caller who stores any values in the cancel token at any time is, digit by digit, a result with a token that is clear at the start and set at most once. If no thread read a set token, the counts are those of all showdowns modulo 2^64; with two players and weights up to 100 the result is that of the floating-point model without overflow. Errors do not depend on the token. What approx_equity has counted is what a simulation without a target counts: legal showdowns modulo 2^64, a multiple of 4096 of them.", "quantifier": "all ranges, boards, dead cards, numbers of threads, schedulers, random streams and sequences of stores by the caller", "why_tests_cant": "needs all interleavings of threads with a caller who writes, and that merging an empty batch does not round a result again", "anchors": ["src/equity_calculator/simulator.rs::approx_equity", "src/equity_calculator/simulator.rs::exact_equity", "src/equity_calculator/simulator.rs::update_results", "src/equity_calculator/simulator.rs::sim_random_walk_monte_carlo", "src/equity_calculator/simulator.rs::enumerate_all"]}
