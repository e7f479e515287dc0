import Verif.Proofs.TableBig7
import Mathlib.Tactic.IntervalCases
/-! Generated by tools/gen_pieces.py. Kernel computation over every rank multiset, in pieces. -/
namespace Pokers.Kernel

theorem big6_000 : forCounts leafBig ranksRev3 6 0 [0, 0, 0] = true := by
  decide +kernel
theorem big6_001 : forCounts leafBig ranksRev3 5 4767972 [1, 0, 0] = true := by
  decide +kernel
theorem big6_002 : forCounts leafBig ranksRev3 4 9535944 [2, 0, 0] = true := by
  decide +kernel
theorem big6_003 : forCounts leafBig ranksRev3 3 14303916 [3, 0, 0] = true := by
  decide +kernel
theorem big6_004 : forCounts leafBig ranksRev3 2 19071888 [4, 0, 0] = true := by
  decide +kernel
theorem big6_010 : forCounts leafBig ranksRev3 5 4780561 [0, 1, 0] = true := by
  decide +kernel
theorem big6_011 : forCounts leafBig ranksRev3 4 9548533 [1, 1, 0] = true := by
  decide +kernel
theorem big6_012 : forCounts leafBig ranksRev3 3 14316505 [2, 1, 0] = true := by
  decide +kernel
theorem big6_013 : forCounts leafBig ranksRev3 2 19084477 [3, 1, 0] = true := by
  decide +kernel
theorem big6_014 : forCounts leafBig ranksRev3 1 23852449 [4, 1, 0] = true := by
  decide +kernel
theorem big6_020 : forCounts leafBig ranksRev3 4 9561122 [0, 2, 0] = true := by
  decide +kernel
theorem big6_021 : forCounts leafBig ranksRev3 3 14329094 [1, 2, 0] = true := by
  decide +kernel
theorem big6_022 : forCounts leafBig ranksRev3 2 19097066 [2, 2, 0] = true := by
  decide +kernel
theorem big6_023 : forCounts leafBig ranksRev3 1 23865038 [3, 2, 0] = true := by
  decide +kernel
theorem big6_024 : forCounts leafBig ranksRev3 0 28633010 [4, 2, 0] = true := by
  decide +kernel
theorem big6_030 : forCounts leafBig ranksRev3 3 14341683 [0, 3, 0] = true := by
  decide +kernel
theorem big6_031 : forCounts leafBig ranksRev3 2 19109655 [1, 3, 0] = true := by
  decide +kernel
theorem big6_032 : forCounts leafBig ranksRev3 1 23877627 [2, 3, 0] = true := by
  decide +kernel
theorem big6_033 : forCounts leafBig ranksRev3 0 28645599 [3, 3, 0] = true := by
  decide +kernel
theorem big6_040 : forCounts leafBig ranksRev3 2 19122244 [0, 4, 0] = true := by
  decide +kernel
theorem big6_041 : forCounts leafBig ranksRev3 1 23890216 [1, 4, 0] = true := by
  decide +kernel
theorem big6_042 : forCounts leafBig ranksRev3 0 28658188 [2, 4, 0] = true := by
  decide +kernel
theorem big6_100 : forCounts leafBig ranksRev3 5 4801683 [0, 0, 1] = true := by
  decide +kernel
theorem big6_101 : forCounts leafBig ranksRev3 4 9569655 [1, 0, 1] = true := by
  decide +kernel
theorem big6_102 : forCounts leafBig ranksRev3 3 14337627 [2, 0, 1] = true := by
  decide +kernel
theorem big6_103 : forCounts leafBig ranksRev3 2 19105599 [3, 0, 1] = true := by
  decide +kernel
theorem big6_104 : forCounts leafBig ranksRev3 1 23873571 [4, 0, 1] = true := by
  decide +kernel
theorem big6_110 : forCounts leafBig ranksRev3 4 9582244 [0, 1, 1] = true := by
  decide +kernel
theorem big6_111 : forCounts leafBig ranksRev3 3 14350216 [1, 1, 1] = true := by
  decide +kernel
theorem big6_112 : forCounts leafBig ranksRev3 2 19118188 [2, 1, 1] = true := by
  decide +kernel
theorem big6_113 : forCounts leafBig ranksRev3 1 23886160 [3, 1, 1] = true := by
  decide +kernel
theorem big6_114 : forCounts leafBig ranksRev3 0 28654132 [4, 1, 1] = true := by
  decide +kernel
theorem big6_120 : forCounts leafBig ranksRev3 3 14362805 [0, 2, 1] = true := by
  decide +kernel
theorem big6_121 : forCounts leafBig ranksRev3 2 19130777 [1, 2, 1] = true := by
  decide +kernel
theorem big6_122 : forCounts leafBig ranksRev3 1 23898749 [2, 2, 1] = true := by
  decide +kernel
theorem big6_123 : forCounts leafBig ranksRev3 0 28666721 [3, 2, 1] = true := by
  decide +kernel
theorem big6_130 : forCounts leafBig ranksRev3 2 19143366 [0, 3, 1] = true := by
  decide +kernel
theorem big6_131 : forCounts leafBig ranksRev3 1 23911338 [1, 3, 1] = true := by
  decide +kernel
theorem big6_132 : forCounts leafBig ranksRev3 0 28679310 [2, 3, 1] = true := by
  decide +kernel
theorem big6_140 : forCounts leafBig ranksRev3 1 23923927 [0, 4, 1] = true := by
  decide +kernel
theorem big6_141 : forCounts leafBig ranksRev3 0 28691899 [1, 4, 1] = true := by
  decide +kernel
theorem big6_200 : forCounts leafBig ranksRev3 4 9603366 [0, 0, 2] = true := by
  decide +kernel
theorem big6_201 : forCounts leafBig ranksRev3 3 14371338 [1, 0, 2] = true := by
  decide +kernel
theorem big6_202 : forCounts leafBig ranksRev3 2 19139310 [2, 0, 2] = true := by
  decide +kernel
theorem big6_203 : forCounts leafBig ranksRev3 1 23907282 [3, 0, 2] = true := by
  decide +kernel
theorem big6_204 : forCounts leafBig ranksRev3 0 28675254 [4, 0, 2] = true := by
  decide +kernel
theorem big6_210 : forCounts leafBig ranksRev3 3 14383927 [0, 1, 2] = true := by
  decide +kernel
theorem big6_211 : forCounts leafBig ranksRev3 2 19151899 [1, 1, 2] = true := by
  decide +kernel
theorem big6_212 : forCounts leafBig ranksRev3 1 23919871 [2, 1, 2] = true := by
  decide +kernel
theorem big6_213 : forCounts leafBig ranksRev3 0 28687843 [3, 1, 2] = true := by
  decide +kernel
theorem big6_220 : forCounts leafBig ranksRev3 2 19164488 [0, 2, 2] = true := by
  decide +kernel
theorem big6_221 : forCounts leafBig ranksRev3 1 23932460 [1, 2, 2] = true := by
  decide +kernel
theorem big6_222 : forCounts leafBig ranksRev3 0 28700432 [2, 2, 2] = true := by
  decide +kernel
theorem big6_230 : forCounts leafBig ranksRev3 1 23945049 [0, 3, 2] = true := by
  decide +kernel
theorem big6_231 : forCounts leafBig ranksRev3 0 28713021 [1, 3, 2] = true := by
  decide +kernel
theorem big6_240 : forCounts leafBig ranksRev3 0 28725610 [0, 4, 2] = true := by
  decide +kernel
theorem big6_300 : forCounts leafBig ranksRev3 3 14405049 [0, 0, 3] = true := by
  decide +kernel
theorem big6_301 : forCounts leafBig ranksRev3 2 19173021 [1, 0, 3] = true := by
  decide +kernel
theorem big6_302 : forCounts leafBig ranksRev3 1 23940993 [2, 0, 3] = true := by
  decide +kernel
theorem big6_303 : forCounts leafBig ranksRev3 0 28708965 [3, 0, 3] = true := by
  decide +kernel
theorem big6_310 : forCounts leafBig ranksRev3 2 19185610 [0, 1, 3] = true := by
  decide +kernel
theorem big6_311 : forCounts leafBig ranksRev3 1 23953582 [1, 1, 3] = true := by
  decide +kernel
theorem big6_312 : forCounts leafBig ranksRev3 0 28721554 [2, 1, 3] = true := by
  decide +kernel
theorem big6_320 : forCounts leafBig ranksRev3 1 23966171 [0, 2, 3] = true := by
  decide +kernel
theorem big6_321 : forCounts leafBig ranksRev3 0 28734143 [1, 2, 3] = true := by
  decide +kernel
theorem big6_330 : forCounts leafBig ranksRev3 0 28746732 [0, 3, 3] = true := by
  decide +kernel
theorem big6_400 : forCounts leafBig ranksRev3 2 19206732 [0, 0, 4] = true := by
  decide +kernel
theorem big6_401 : forCounts leafBig ranksRev3 1 23974704 [1, 0, 4] = true := by
  decide +kernel
theorem big6_402 : forCounts leafBig ranksRev3 0 28742676 [2, 0, 4] = true := by
  decide +kernel
theorem big6_410 : forCounts leafBig ranksRev3 1 23987293 [0, 1, 4] = true := by
  decide +kernel
theorem big6_411 : forCounts leafBig ranksRev3 0 28755265 [1, 1, 4] = true := by
  decide +kernel
theorem big6_420 : forCounts leafBig ranksRev3 0 28767854 [0, 2, 4] = true := by
  decide +kernel

theorem big6 : forCounts leafBig ranksRev 6 0 [] = true := by
  apply forCounts_split
  intro a ha k hk q hq h
  interval_cases a <;> interval_cases k <;> interval_cases q
  · exact big6_000
  · exact big6_001
  · exact big6_002
  · exact big6_003
  · exact big6_004
  · exact big6_010
  · exact big6_011
  · exact big6_012
  · exact big6_013
  · exact big6_014
  · exact big6_020
  · exact big6_021
  · exact big6_022
  · exact big6_023
  · exact big6_024
  · exact big6_030
  · exact big6_031
  · exact big6_032
  · exact big6_033
  · exact absurd h (by decide)
  · exact big6_040
  · exact big6_041
  · exact big6_042
  · exact absurd h (by decide)
  · exact absurd h (by decide)
  · exact big6_100
  · exact big6_101
  · exact big6_102
  · exact big6_103
  · exact big6_104
  · exact big6_110
  · exact big6_111
  · exact big6_112
  · exact big6_113
  · exact big6_114
  · exact big6_120
  · exact big6_121
  · exact big6_122
  · exact big6_123
  · exact absurd h (by decide)
  · exact big6_130
  · exact big6_131
  · exact big6_132
  · exact absurd h (by decide)
  · exact absurd h (by decide)
  · exact big6_140
  · exact big6_141
  · exact absurd h (by decide)
  · exact absurd h (by decide)
  · exact absurd h (by decide)
  · exact big6_200
  · exact big6_201
  · exact big6_202
  · exact big6_203
  · exact big6_204
  · exact big6_210
  · exact big6_211
  · exact big6_212
  · exact big6_213
  · exact absurd h (by decide)
  · exact big6_220
  · exact big6_221
  · exact big6_222
  · exact absurd h (by decide)
  · exact absurd h (by decide)
  · exact big6_230
  · exact big6_231
  · exact absurd h (by decide)
  · exact absurd h (by decide)
  · exact absurd h (by decide)
  · exact big6_240
  · exact absurd h (by decide)
  · exact absurd h (by decide)
  · exact absurd h (by decide)
  · exact absurd h (by decide)
  · exact big6_300
  · exact big6_301
  · exact big6_302
  · exact big6_303
  · exact absurd h (by decide)
  · exact big6_310
  · exact big6_311
  · exact big6_312
  · exact absurd h (by decide)
  · exact absurd h (by decide)
  · exact big6_320
  · exact big6_321
  · exact absurd h (by decide)
  · exact absurd h (by decide)
  · exact absurd h (by decide)
  · exact big6_330
  · exact absurd h (by decide)
  · exact absurd h (by decide)
  · exact absurd h (by decide)
  · exact absurd h (by decide)
  · exact absurd h (by decide)
  · exact absurd h (by decide)
  · exact absurd h (by decide)
  · exact absurd h (by decide)
  · exact absurd h (by decide)
  · exact big6_400
  · exact big6_401
  · exact big6_402
  · exact absurd h (by decide)
  · exact absurd h (by decide)
  · exact big6_410
  · exact big6_411
  · exact absurd h (by decide)
  · exact absurd h (by decide)
  · exact absurd h (by decide)
  · exact big6_420
  · exact absurd h (by decide)
  · exact absurd h (by decide)
  · exact absurd h (by decide)
  · exact absurd h (by decide)
  · exact absurd h (by decide)
  · exact absurd h (by decide)
  · exact absurd h (by decide)
  · exact absurd h (by decide)
  · exact absurd h (by decide)
  · exact absurd h (by decide)
  · exact absurd h (by decide)
  · exact absurd h (by decide)
  · exact absurd h (by decide)
  · exact absurd h (by decide)

end Pokers.Kernel
