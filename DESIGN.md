# Formal model of `pokers` in Lean 4 – design

Source: `/repo` (EddieMataEwy/pokers, pinned). Proof assistant: Lean 4.33.0 + single Mathlib modules.
Project: `/verif/lean`, library `Verif`.

## Layout

| part | modules | content |
|---|---|---|
| Spec  | `Verif/Spec/*` | poker rules, range notation, brute-force equity; written without looking at the model |
| Model | `Verif/Model/*` | function-by-function transcription of the Rust code, each definition cites file:lines |
| Tables | `Verif/Tables/*` | the constant tables, generated from the Rust text by `tools/gen_tables.py` |
| Proofs | `Verif/Proofs/*` | helper lemmas, kernel-computed table certificates |
| Props | `Verif/Props/*` | the property theorems (named `Cxx_...`) with non-vacuity examples next to them |

## Modelling conventions

* Unsigned machine integers are `Nat`. Where wrap-around can matter it is written explicitly (`% 2^k`)
  or the function returns `Option`/`Except` with `none` for a panic of the debug build. Where it is claimed not to
  matter there is a theorem bounding the value.
* `f64` is modelled twice: by exact rationals (`Model/Results.lean`; most properties are about this model), and with every operation rounded
  to nearest-even (`Model/Float.lean`). C63 relates the two. A division by zero (NaN/inf in Rust) is `none` in both.
* Arithmetic on the counters: unbounded in the main model; `Model/Checked.lean`, `Model/CheckedMc.lean` and
  `Model/CheckedFinish.lean` repeat the computation with the checks of a debug build, and C51/C59/C68 say when they agree.
* `&mut` parameters become returned values; loops become structural/well-founded recursion or folds.
* `Vec`/array of known length indexed by computed indices is a `List` or a function `Nat → α`; an in-bounds theorem accompanies
  the function form.
* Threads: a small-step transition system whose atomic steps are the critical sections (`reserve_batch`, `update_results`,
  load of the cancel flag) and thread-local computation. A schedule is an arbitrary list of thread ids / external cancel.
* Panics: `Model/Poison.lean` has the single operations on the locks, poisoning, `thread::scope` and a callback that may panic, for all four
  combinations of build and calculation; C81 relates it to the models with atomic steps.
* Random numbers: an arbitrary list of draws given as input (an oracle). Running out of draws is `none`.

## Properties: plan

* C01, C02, C04–C07 (evaluator). Spec: value of a 5-card hand as category followed by ranks ordered by multiplicity;
  a hand of n cards is worth the best of its sub-hands of min(5,n) cards. Proof: (a) key/mask arithmetic: `evaluate` depends on
  rank counts and the flush suit's rank mask; (b) kernel-computed certificate (`decide +kernel` over the *whole* finite table,
  lifted by lemmas): every 7- and 6-card rank multiset's table value is the maximum over removing a card, all multisets of at most 5 cards carry a
  strictly monotone code of their spec value; same for the flush table; (c) the maximum over 5-subsets is the iterated maximum over removing a card.
* C03, C08, C09: arithmetic on the packed key, induction over card lists.
* C10–C13: whole-table kernel computations lifted to all pairs/strings.
* C14–C24, C47, C50: string functions over arbitrary `List Char`; induction on the buffer. The conversion to lower case is a parameter:
  the theorems hold for every such function; C82 adds what Unicode says about it (`UnicodeLower` in `Model/LowerCase.lean`).
  Violations (C15, C17 overflow, C24 pairs, C50 pairs) get a theorem proving the negation with a witness plus the `_partial` positive part.
* C25: number theory of magic-number division for all u64 values.
* C26, C39: arithmetic over all parameters.
* C27, C28, C30: sums over model enumeration = sums over brute force, for every additive summary of showdowns; induction over the merge loop,
  mixed-radix induction, induction over the board recursion.
* C29, C44, C45, C48: invariants over arbitrary schedules of the transition system.
* C31, C35, C49: composition of the above.
* C32, C34: negation with witness + partial positive theorem.
* C33, C36–C38: statements over all result states in exact arithmetic.
* C40: via C27.
* C41–C43: invariants of the random walk for every oracle; counting argument for uniformity.
* C46: finite bit-pattern reasoning for all rank masks; suit counters via C08.

* C51, C59: the checked models agree with the unbounded ones below explicit bounds, with a witness above them.
* C57, C58: structure of complete runs (`Proofs/Describe.lean`, structure `Calc`), which both kinds of calculation share.
* C52, C53: the stopping rule of the random simulation. C55, C56: equality and the default hand.
* C54: the parser's reading of a string described by a grammar (`Props/Reading.lean`).
* C60: bijection between first deals and deals after any moves; sums over all draws.
* C61, C62: when nothing is lost by the integer division of split pots; the crate's tests on the model.
* C63: simulation relation between the runs of the exact and of the floating-point model; the error exponent of a sum of shares is bounded
  by the integer number of ties that the record carries along.
* C64: the columns of the draw table in the words of the draw specification, and what the nut flags promise against all other hole cards.
* C65: symmetries of the results, from the showdowns of the specification (relabelled suits, permuted hands) by C31 and C61.
* C66: the search of `from_ranges` for the smallest join. C67: documentation examples, no threads, unused code (`Model/Misc.lean`).
* C68: the functions before and after the threads with all checks (`Model/CheckedFinish.lean`).
* C69: frequencies of the categories among all hands of 5, 6 and 7 cards, from the tables and from the rules (`Proofs/Freq*.lean`,
  computed rank by rank with the kernel).
* C70: C52 and C53 with every operation rounded, including the square root and the progress value (`Model/FloatSqrt.lean`,
  `Proofs/FloatSqrt.lean`, `FloatStat.lean`, `FloatStop.lean`).
* C71: the parsers and the calculation together, against a specification that mentions neither masks nor parsed ranges (`Spec/Game.lean`,
  `Props/EndToEnd.lean`).
* C72: the showdowns of nine players by their eight-bit winner masks (`Props/NinePlayers.lean`).
* C73: the scores as numbers (`Spec/Score.lean`, `Props/ScoreNumbers.lean`); the sets of scores are certificates written by `tools/gen_scoresets.py` and checked by the kernel in both directions (`Proofs/ScoreNumbers.lean`, `Proofs/ScoreCounts.lean`).
* C74: the main thread and the callback (`Model/Callback.lean`) over the threads with locks (`Model/Locks.lean`, `Model/LocksMc.lean`); refinement proofs in
  `Proofs/Locks.lean`, `Proofs/LocksMc.lean`, `Proofs/Callback.lean`.
* C75: the release build (`Model/Release.lean`, suffix R: 64-bit counters that wrap, rounded `f64`) for `exact_equity`; simulation by the exact model in
  `Proofs/Release.lean`, `Proofs/ReleaseRun.lean`, equality with the floating-point model without overflow in `Proofs/ReleaseSame.lean`; the kernel counts the
  wins of the example with `Proofs/MultiWay.lean`.
* C76: the text functions in a release build (`Model/ReleaseText.lean`, suffix R); simulation by the checked parser on the text with reduced weights
  (`Spec/Weights.lean`, `Proofs/ReleaseText.lean`).
* C77: exactly when the four properties that are false in general hold (`Props/Exactly.lean`).
* C78: the random simulation in a release build (`Model/ReleaseMc.lean`, suffix R); simulation by the exact model modulo `2 ^ 64`
  (`Proofs/ReleaseMc.lean`) and equality with the floating-point model while nothing overflows (`Proofs/ReleaseMcSame.lean`).
* C79: with a single combined range the random walk goes round its entries (`Spec/Rounds.lean`, `Proofs/Cycle.lean`, `Proofs/GoRound.lean`).
* C80: with a single combined range the accuracy does not depend on the target.  For every target of at least 1 / 31622 each thread makes 4096
  evaluations (C70).  If a known hand wins on half of the boards, the standard deviation of the result is 1 / 128 with one thread, and at most one
  outcome in 64 is closer to the equity than 1 / 4096.  After the first batch the deviation that is compared with
  the target is the square root of 1e-9, whatever the batch contains (C52).
* C81: a panic of a thread never leads to a deadlock, but always to a panic of the call.  With known hands of eight or nine players every random
  simulation of a debug build panics, with any target and number of threads; with seven or eight players every exact calculation before the flop.
* C82: `RANDOM` is the empty range; a range text ends at the first blank (`AsKs, QsJs` is `AsKs`) or foreign character; the Kelvin sign is a
  king in ranges and masks, but makes `card_from_str` panic.
* C83: whole programs (texts, call, threads, locks, callback) in `Model/Whole.lean`; the theorems compose those of the parts.
* C84 (`Props/Masks.lean`): what the bits 52 to 63 of the masks do. All claims about the calculations are about every `u64` mask
  (`CardMask`); their specification looks at the bits below 52 only (`maskCards`).
* C85 (`Model/DebugFloat.lean`, `Props/DebugFloat.lean`): the debug build with checks and roundings together (`…CF`). It is below the release
  build (`Proofs/ProgramBelow.lean`: each of its steps is a step of the release build or a panic) and simulated by the debug build with exact
  numbers (same integers).
* C86 (`Model/Unchecked.lean`, `Props/Unchecked.lean`): the public functions of hand.rs on all arguments, with three outcomes (value, panic,
  undefined behaviour) in both builds, and the meaning of the bit primitives.
* C87 (`Model/RawRanges.lean`, `Props/RawRanges.lean`): `exact_equity` up to the start of the threads for ranges of arbitrary pairs of `u8`.
* C88 (`Proofs/PreflopSum.lean`, `Proofs/Preflop.lean`, `Proofs/KingsPoints.lean`, `Props/ExactWeighted.lean`): equities before the flop, and `test_exact_weighted` from the texts to the last bit of the `f64` number.
* C89 (`Proofs/McChoice.lean`, `Proofs/FloatChoice.lean`, `Proofs/KingsBoards.lean`, `Props/ApproxWeighted.lean`): sharper bounds for the mean and the spread of the random simulation, runs with given boards that nobody cancels, and `test_approx_weighted`.
* C90 (`Spec/Groups.lean`, `Proofs/Confined.lean`, `Proofs/McChoice.lean`, `Proofs/ApartHands.lean`, `Props/Confined.lean`): the walk of the random simulation as a chain of deals that differ in the hands of one combined range; ranges whose deals fall apart into two components.
* C91 (`Proofs/Visited.lean`, `Proofs/Space.lean`, `Props/SampleSpace.lean`): the batches of the random simulation as the elements of a finite list, with mean and variance over it.
* C92 (`Spec/Chance.lean`, `Proofs/Chance.lean`, `Proofs/ChanceBoard.lean`, `Proofs/ChanceDeal.lean`, `Proofs/ChanceBatch.lean`, `Proofs/ChanceRun.lean`,
  `Props/Chance.lean`): the distribution of the results of the random simulation, as sums over the lists of drawn values.
* C93 (`Proofs/ChanceOnce.lean`, `Proofs/ChanceRounds.lean`, `Props/ChanceStop.lean`): the distribution of what `approx_equity` returns with its
  own stopping rule, for every scheduler.
* C94 (`Proofs/Tail.lean`, `Props/ChanceTail.lean`): Hoeffding's inequality for joined ranges, for every scheduler.
* C95 (`Proofs/Work.lean`, `Props/Work.lean`): the number of evaluations, of calls of the callback, and of evaluations after
  cancellation.
* C96 (`Proofs/Laws.lean`, `Props/Laws.lean`): the results of one calculation against those with one more board card, one more
  dead card, a range in two parts, and multiplied weights.
* C97 (`Props/Certain.lean`): what holds in every possible showdown holds in the results of both calculations, cancelled or not.
* C98 (`Props/TextLaws.lean`): what a comma and a common factor of the percentages do to the results.
* C99 (`Props/Mix.lean`): ranges as mixtures of hands: means, monotonicity in the weights, the best hand, a hand alone.
* C100 (`Model/Token.lean`, `Proofs/Token.lean`, `Proofs/TokenMc.lean`, `Props/Token.lean`): a caller who stores any values in the cancel token, at any time.
* C101 (`Props/Reuse.lean`, `Props/ReuseRelease.lean` for release builds): two calls with the same cancel token.
* C102 (`Model/TokenRelease.lean`, `Proofs/TokenRelease.lean`, `Proofs/TokenReleaseMc.lean`, `Props/TokenRelease.lean`): the caller of C100 and a release build.

## Findings

Behaviour of the code that the theorems show and a reader of its documentation might not expect.

* Range strings: see C15, C17, C24, C50, C54 (reversed and mixed dash ranges, weights, characters that are skipped).
* Release builds read `aa@4294967300` as `aa@4` and the card `3x` as the two of diamonds (C76).
* Split pots are divided by integer division per batch (`wins_by_mask / winner_count`), so with three or more players and the default weight
  100 the equities are off and depend on the batches (C61_three_players); with even weights heads-up they are exact.
* The rates of a combo use `ties`, those of a board `corrected_ties` (C57); the equity of an impossible hand is NaN (C57).
* Three full ranges preflop, or weights that multiply to more than 2^64 in total, overflow the counters (C51, C59): a debug
  build panics, a release build reports wrong equities (C75). In a random simulation nine known hands of weight 64 overflow exactly: a
  release build reports no showdowns and NaN (C78); with eight players of weight 100 the favourite can come out as the outsider (C79).
* With nine players the ninth never gets a part of a pot, and pots it wins alone are left out of the total; if it always wins, all equities
  are NaN (C32, C72).
* The cancel token is only looked at after a batch (C44); random simulations evaluate at least one batch per thread (C58).
* `approx_equity` leaves the caller's cancel token set when it reaches its target. A later call with the same token stops after one batch per
  thread and returns `Ok` with a partial result (C101).
* A random simulation whose ranges combine into one chooses only the first deal of a batch at random and then goes round the deals (C79).
* A percentage sent in exact mode can be one less than the exact one (C63: after 29 of 100 positions 28 is sent).
* With two full ranges preflop the total weight (2.8e16) exceeds 2^53: the win counters are exact, the equities are not rounded only once.
* Bits from 52 on of a board mask are counted by `count_ones` but ignored by `Hand::from_bit_mask`.
* With `n_threads = 0` both calculations return at once with NaN equities (C67); the README's `Hand::empty()` does not exist.

## Trusted base

* Lean's kernel (with its GMP-accelerated `Nat` operations) and the axioms `propext`, `Classical.choice`, `Quot.sound`.
  No own axioms, no `sorry`, no `native_decide`/`bv_decide`.
* The reading of the Rust code into the model, and `tools/gen_tables.py` which copies the numeric and string constants.
* `f64` is IEEE 754 rounding to nearest as in `Model/Float.lean`, with the correctly rounded square root of `Model/FloatSqrt.lean`;
  `powi(2)` is taken as a rounded product, as LLVM compiles it. Infinities do not occur except in casts to `u8`, where they saturate.
* `str::to_lowercase` converts as `UnicodeLower` in `Model/LowerCase.lean` says (only C82 and what cites it uses this).
* Not modelled: the random generators, OS threads below the granularity above
  (the memory model: operations of `Mutex`, `RwLock`, the channel and the `SeqCst` token are taken as atomic steps; `Arc` reference counts), memory allocation, `Debug` output.
