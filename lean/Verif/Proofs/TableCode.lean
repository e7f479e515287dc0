import Verif.Proofs.KernelTools
import Mathlib.Tactic.IntervalCases
/-! Generated by tools/gen_pieces.py. Kernel computation over every rank multiset, in pieces. -/
namespace Pokers.Kernel

theorem code5_000 : forCounts leafCode ranksRev3 5 0 [0, 0, 0] = true := by
  decide +kernel
theorem code5_001 : forCounts leafCode ranksRev3 4 4767972 [1, 0, 0] = true := by
  decide +kernel
theorem code5_002 : forCounts leafCode ranksRev3 3 9535944 [2, 0, 0] = true := by
  decide +kernel
theorem code5_003 : forCounts leafCode ranksRev3 2 14303916 [3, 0, 0] = true := by
  decide +kernel
theorem code5_004 : forCounts leafCode ranksRev3 1 19071888 [4, 0, 0] = true := by
  decide +kernel
theorem code5_010 : forCounts leafCode ranksRev3 4 4780561 [0, 1, 0] = true := by
  decide +kernel
theorem code5_011 : forCounts leafCode ranksRev3 3 9548533 [1, 1, 0] = true := by
  decide +kernel
theorem code5_012 : forCounts leafCode ranksRev3 2 14316505 [2, 1, 0] = true := by
  decide +kernel
theorem code5_013 : forCounts leafCode ranksRev3 1 19084477 [3, 1, 0] = true := by
  decide +kernel
theorem code5_014 : forCounts leafCode ranksRev3 0 23852449 [4, 1, 0] = true := by
  decide +kernel
theorem code5_020 : forCounts leafCode ranksRev3 3 9561122 [0, 2, 0] = true := by
  decide +kernel
theorem code5_021 : forCounts leafCode ranksRev3 2 14329094 [1, 2, 0] = true := by
  decide +kernel
theorem code5_022 : forCounts leafCode ranksRev3 1 19097066 [2, 2, 0] = true := by
  decide +kernel
theorem code5_023 : forCounts leafCode ranksRev3 0 23865038 [3, 2, 0] = true := by
  decide +kernel
theorem code5_030 : forCounts leafCode ranksRev3 2 14341683 [0, 3, 0] = true := by
  decide +kernel
theorem code5_031 : forCounts leafCode ranksRev3 1 19109655 [1, 3, 0] = true := by
  decide +kernel
theorem code5_032 : forCounts leafCode ranksRev3 0 23877627 [2, 3, 0] = true := by
  decide +kernel
theorem code5_040 : forCounts leafCode ranksRev3 1 19122244 [0, 4, 0] = true := by
  decide +kernel
theorem code5_041 : forCounts leafCode ranksRev3 0 23890216 [1, 4, 0] = true := by
  decide +kernel
theorem code5_100 : forCounts leafCode ranksRev3 4 4801683 [0, 0, 1] = true := by
  decide +kernel
theorem code5_101 : forCounts leafCode ranksRev3 3 9569655 [1, 0, 1] = true := by
  decide +kernel
theorem code5_102 : forCounts leafCode ranksRev3 2 14337627 [2, 0, 1] = true := by
  decide +kernel
theorem code5_103 : forCounts leafCode ranksRev3 1 19105599 [3, 0, 1] = true := by
  decide +kernel
theorem code5_104 : forCounts leafCode ranksRev3 0 23873571 [4, 0, 1] = true := by
  decide +kernel
theorem code5_110 : forCounts leafCode ranksRev3 3 9582244 [0, 1, 1] = true := by
  decide +kernel
theorem code5_111 : forCounts leafCode ranksRev3 2 14350216 [1, 1, 1] = true := by
  decide +kernel
theorem code5_112 : forCounts leafCode ranksRev3 1 19118188 [2, 1, 1] = true := by
  decide +kernel
theorem code5_113 : forCounts leafCode ranksRev3 0 23886160 [3, 1, 1] = true := by
  decide +kernel
theorem code5_120 : forCounts leafCode ranksRev3 2 14362805 [0, 2, 1] = true := by
  decide +kernel
theorem code5_121 : forCounts leafCode ranksRev3 1 19130777 [1, 2, 1] = true := by
  decide +kernel
theorem code5_122 : forCounts leafCode ranksRev3 0 23898749 [2, 2, 1] = true := by
  decide +kernel
theorem code5_130 : forCounts leafCode ranksRev3 1 19143366 [0, 3, 1] = true := by
  decide +kernel
theorem code5_131 : forCounts leafCode ranksRev3 0 23911338 [1, 3, 1] = true := by
  decide +kernel
theorem code5_140 : forCounts leafCode ranksRev3 0 23923927 [0, 4, 1] = true := by
  decide +kernel
theorem code5_200 : forCounts leafCode ranksRev3 3 9603366 [0, 0, 2] = true := by
  decide +kernel
theorem code5_201 : forCounts leafCode ranksRev3 2 14371338 [1, 0, 2] = true := by
  decide +kernel
theorem code5_202 : forCounts leafCode ranksRev3 1 19139310 [2, 0, 2] = true := by
  decide +kernel
theorem code5_203 : forCounts leafCode ranksRev3 0 23907282 [3, 0, 2] = true := by
  decide +kernel
theorem code5_210 : forCounts leafCode ranksRev3 2 14383927 [0, 1, 2] = true := by
  decide +kernel
theorem code5_211 : forCounts leafCode ranksRev3 1 19151899 [1, 1, 2] = true := by
  decide +kernel
theorem code5_212 : forCounts leafCode ranksRev3 0 23919871 [2, 1, 2] = true := by
  decide +kernel
theorem code5_220 : forCounts leafCode ranksRev3 1 19164488 [0, 2, 2] = true := by
  decide +kernel
theorem code5_221 : forCounts leafCode ranksRev3 0 23932460 [1, 2, 2] = true := by
  decide +kernel
theorem code5_230 : forCounts leafCode ranksRev3 0 23945049 [0, 3, 2] = true := by
  decide +kernel
theorem code5_300 : forCounts leafCode ranksRev3 2 14405049 [0, 0, 3] = true := by
  decide +kernel
theorem code5_301 : forCounts leafCode ranksRev3 1 19173021 [1, 0, 3] = true := by
  decide +kernel
theorem code5_302 : forCounts leafCode ranksRev3 0 23940993 [2, 0, 3] = true := by
  decide +kernel
theorem code5_310 : forCounts leafCode ranksRev3 1 19185610 [0, 1, 3] = true := by
  decide +kernel
theorem code5_311 : forCounts leafCode ranksRev3 0 23953582 [1, 1, 3] = true := by
  decide +kernel
theorem code5_320 : forCounts leafCode ranksRev3 0 23966171 [0, 2, 3] = true := by
  decide +kernel
theorem code5_400 : forCounts leafCode ranksRev3 1 19206732 [0, 0, 4] = true := by
  decide +kernel
theorem code5_401 : forCounts leafCode ranksRev3 0 23974704 [1, 0, 4] = true := by
  decide +kernel
theorem code5_410 : forCounts leafCode ranksRev3 0 23987293 [0, 1, 4] = true := by
  decide +kernel

theorem code5 : forCounts leafCode ranksRev 5 0 [] = true := by
  apply forCounts_split
  intro a ha k hk q hq h
  interval_cases a <;> interval_cases k <;> interval_cases q
  · exact code5_000
  · exact code5_001
  · exact code5_002
  · exact code5_003
  · exact code5_004
  · exact code5_010
  · exact code5_011
  · exact code5_012
  · exact code5_013
  · exact code5_014
  · exact code5_020
  · exact code5_021
  · exact code5_022
  · exact code5_023
  · exact absurd h (by decide)
  · exact code5_030
  · exact code5_031
  · exact code5_032
  · exact absurd h (by decide)
  · exact absurd h (by decide)
  · exact code5_040
  · exact code5_041
  · exact absurd h (by decide)
  · exact absurd h (by decide)
  · exact absurd h (by decide)
  · exact code5_100
  · exact code5_101
  · exact code5_102
  · exact code5_103
  · exact code5_104
  · exact code5_110
  · exact code5_111
  · exact code5_112
  · exact code5_113
  · exact absurd h (by decide)
  · exact code5_120
  · exact code5_121
  · exact code5_122
  · exact absurd h (by decide)
  · exact absurd h (by decide)
  · exact code5_130
  · exact code5_131
  · exact absurd h (by decide)
  · exact absurd h (by decide)
  · exact absurd h (by decide)
  · exact code5_140
  · exact absurd h (by decide)
  · exact absurd h (by decide)
  · exact absurd h (by decide)
  · exact absurd h (by decide)
  · exact code5_200
  · exact code5_201
  · exact code5_202
  · exact code5_203
  · exact absurd h (by decide)
  · exact code5_210
  · exact code5_211
  · exact code5_212
  · exact absurd h (by decide)
  · exact absurd h (by decide)
  · exact code5_220
  · exact code5_221
  · exact absurd h (by decide)
  · exact absurd h (by decide)
  · exact absurd h (by decide)
  · exact code5_230
  · exact absurd h (by decide)
  · exact absurd h (by decide)
  · exact absurd h (by decide)
  · exact absurd h (by decide)
  · exact absurd h (by decide)
  · exact absurd h (by decide)
  · exact absurd h (by decide)
  · exact absurd h (by decide)
  · exact absurd h (by decide)
  · exact code5_300
  · exact code5_301
  · exact code5_302
  · exact absurd h (by decide)
  · exact absurd h (by decide)
  · exact code5_310
  · exact code5_311
  · exact absurd h (by decide)
  · exact absurd h (by decide)
  · exact absurd h (by decide)
  · exact code5_320
  · exact absurd h (by decide)
  · exact absurd h (by decide)
  · exact absurd h (by decide)
  · exact absurd h (by decide)
  · exact absurd h (by decide)
  · exact absurd h (by decide)
  · exact absurd h (by decide)
  · exact absurd h (by decide)
  · exact absurd h (by decide)
  · exact absurd h (by decide)
  · exact absurd h (by decide)
  · exact absurd h (by decide)
  · exact absurd h (by decide)
  · exact absurd h (by decide)
  · exact code5_400
  · exact code5_401
  · exact absurd h (by decide)
  · exact absurd h (by decide)
  · exact absurd h (by decide)
  · exact code5_410
  · exact absurd h (by decide)
  · exact absurd h (by decide)
  · exact absurd h (by decide)
  · exact absurd h (by decide)
  · exact absurd h (by decide)
  · exact absurd h (by decide)
  · exact absurd h (by decide)
  · exact absurd h (by decide)
  · exact absurd h (by decide)
  · exact absurd h (by decide)
  · exact absurd h (by decide)
  · exact absurd h (by decide)
  · exact absurd h (by decide)
  · exact absurd h (by decide)
  · exact absurd h (by decide)
  · exact absurd h (by decide)
  · exact absurd h (by decide)
  · exact absurd h (by decide)
  · exact absurd h (by decide)

end Pokers.Kernel
