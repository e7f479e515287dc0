import Verif.Proofs.TableNoFlush
import Mathlib.Tactic.IntervalCases
/-! Generated by tools/gen_pieces.py. Kernel computation over every rank multiset, in pieces. -/
namespace Pokers.Kernel

theorem bounds7_000 : forCounts leafBounds ranksRev3 7 0 [0, 0, 0] = true := by
  decide +kernel
theorem bounds7_001 : forCounts leafBounds ranksRev3 6 4767972 [1, 0, 0] = true := by
  decide +kernel
theorem bounds7_002 : forCounts leafBounds ranksRev3 5 9535944 [2, 0, 0] = true := by
  decide +kernel
theorem bounds7_003 : forCounts leafBounds ranksRev3 4 14303916 [3, 0, 0] = true := by
  decide +kernel
theorem bounds7_004 : forCounts leafBounds ranksRev3 3 19071888 [4, 0, 0] = true := by
  decide +kernel
theorem bounds7_010 : forCounts leafBounds ranksRev3 6 4780561 [0, 1, 0] = true := by
  decide +kernel
theorem bounds7_011 : forCounts leafBounds ranksRev3 5 9548533 [1, 1, 0] = true := by
  decide +kernel
theorem bounds7_012 : forCounts leafBounds ranksRev3 4 14316505 [2, 1, 0] = true := by
  decide +kernel
theorem bounds7_013 : forCounts leafBounds ranksRev3 3 19084477 [3, 1, 0] = true := by
  decide +kernel
theorem bounds7_014 : forCounts leafBounds ranksRev3 2 23852449 [4, 1, 0] = true := by
  decide +kernel
theorem bounds7_020 : forCounts leafBounds ranksRev3 5 9561122 [0, 2, 0] = true := by
  decide +kernel
theorem bounds7_021 : forCounts leafBounds ranksRev3 4 14329094 [1, 2, 0] = true := by
  decide +kernel
theorem bounds7_022 : forCounts leafBounds ranksRev3 3 19097066 [2, 2, 0] = true := by
  decide +kernel
theorem bounds7_023 : forCounts leafBounds ranksRev3 2 23865038 [3, 2, 0] = true := by
  decide +kernel
theorem bounds7_024 : forCounts leafBounds ranksRev3 1 28633010 [4, 2, 0] = true := by
  decide +kernel
theorem bounds7_030 : forCounts leafBounds ranksRev3 4 14341683 [0, 3, 0] = true := by
  decide +kernel
theorem bounds7_031 : forCounts leafBounds ranksRev3 3 19109655 [1, 3, 0] = true := by
  decide +kernel
theorem bounds7_032 : forCounts leafBounds ranksRev3 2 23877627 [2, 3, 0] = true := by
  decide +kernel
theorem bounds7_033 : forCounts leafBounds ranksRev3 1 28645599 [3, 3, 0] = true := by
  decide +kernel
theorem bounds7_034 : forCounts leafBounds ranksRev3 0 33413571 [4, 3, 0] = true := by
  decide +kernel
theorem bounds7_040 : forCounts leafBounds ranksRev3 3 19122244 [0, 4, 0] = true := by
  decide +kernel
theorem bounds7_041 : forCounts leafBounds ranksRev3 2 23890216 [1, 4, 0] = true := by
  decide +kernel
theorem bounds7_042 : forCounts leafBounds ranksRev3 1 28658188 [2, 4, 0] = true := by
  decide +kernel
theorem bounds7_043 : forCounts leafBounds ranksRev3 0 33426160 [3, 4, 0] = true := by
  decide +kernel
theorem bounds7_100 : forCounts leafBounds ranksRev3 6 4801683 [0, 0, 1] = true := by
  decide +kernel
theorem bounds7_101 : forCounts leafBounds ranksRev3 5 9569655 [1, 0, 1] = true := by
  decide +kernel
theorem bounds7_102 : forCounts leafBounds ranksRev3 4 14337627 [2, 0, 1] = true := by
  decide +kernel
theorem bounds7_103 : forCounts leafBounds ranksRev3 3 19105599 [3, 0, 1] = true := by
  decide +kernel
theorem bounds7_104 : forCounts leafBounds ranksRev3 2 23873571 [4, 0, 1] = true := by
  decide +kernel
theorem bounds7_110 : forCounts leafBounds ranksRev3 5 9582244 [0, 1, 1] = true := by
  decide +kernel
theorem bounds7_111 : forCounts leafBounds ranksRev3 4 14350216 [1, 1, 1] = true := by
  decide +kernel
theorem bounds7_112 : forCounts leafBounds ranksRev3 3 19118188 [2, 1, 1] = true := by
  decide +kernel
theorem bounds7_113 : forCounts leafBounds ranksRev3 2 23886160 [3, 1, 1] = true := by
  decide +kernel
theorem bounds7_114 : forCounts leafBounds ranksRev3 1 28654132 [4, 1, 1] = true := by
  decide +kernel
theorem bounds7_120 : forCounts leafBounds ranksRev3 4 14362805 [0, 2, 1] = true := by
  decide +kernel
theorem bounds7_121 : forCounts leafBounds ranksRev3 3 19130777 [1, 2, 1] = true := by
  decide +kernel
theorem bounds7_122 : forCounts leafBounds ranksRev3 2 23898749 [2, 2, 1] = true := by
  decide +kernel
theorem bounds7_123 : forCounts leafBounds ranksRev3 1 28666721 [3, 2, 1] = true := by
  decide +kernel
theorem bounds7_124 : forCounts leafBounds ranksRev3 0 33434693 [4, 2, 1] = true := by
  decide +kernel
theorem bounds7_130 : forCounts leafBounds ranksRev3 3 19143366 [0, 3, 1] = true := by
  decide +kernel
theorem bounds7_131 : forCounts leafBounds ranksRev3 2 23911338 [1, 3, 1] = true := by
  decide +kernel
theorem bounds7_132 : forCounts leafBounds ranksRev3 1 28679310 [2, 3, 1] = true := by
  decide +kernel
theorem bounds7_133 : forCounts leafBounds ranksRev3 0 33447282 [3, 3, 1] = true := by
  decide +kernel
theorem bounds7_140 : forCounts leafBounds ranksRev3 2 23923927 [0, 4, 1] = true := by
  decide +kernel
theorem bounds7_141 : forCounts leafBounds ranksRev3 1 28691899 [1, 4, 1] = true := by
  decide +kernel
theorem bounds7_142 : forCounts leafBounds ranksRev3 0 33459871 [2, 4, 1] = true := by
  decide +kernel
theorem bounds7_200 : forCounts leafBounds ranksRev3 5 9603366 [0, 0, 2] = true := by
  decide +kernel
theorem bounds7_201 : forCounts leafBounds ranksRev3 4 14371338 [1, 0, 2] = true := by
  decide +kernel
theorem bounds7_202 : forCounts leafBounds ranksRev3 3 19139310 [2, 0, 2] = true := by
  decide +kernel
theorem bounds7_203 : forCounts leafBounds ranksRev3 2 23907282 [3, 0, 2] = true := by
  decide +kernel
theorem bounds7_204 : forCounts leafBounds ranksRev3 1 28675254 [4, 0, 2] = true := by
  decide +kernel
theorem bounds7_210 : forCounts leafBounds ranksRev3 4 14383927 [0, 1, 2] = true := by
  decide +kernel
theorem bounds7_211 : forCounts leafBounds ranksRev3 3 19151899 [1, 1, 2] = true := by
  decide +kernel
theorem bounds7_212 : forCounts leafBounds ranksRev3 2 23919871 [2, 1, 2] = true := by
  decide +kernel
theorem bounds7_213 : forCounts leafBounds ranksRev3 1 28687843 [3, 1, 2] = true := by
  decide +kernel
theorem bounds7_214 : forCounts leafBounds ranksRev3 0 33455815 [4, 1, 2] = true := by
  decide +kernel
theorem bounds7_220 : forCounts leafBounds ranksRev3 3 19164488 [0, 2, 2] = true := by
  decide +kernel
theorem bounds7_221 : forCounts leafBounds ranksRev3 2 23932460 [1, 2, 2] = true := by
  decide +kernel
theorem bounds7_222 : forCounts leafBounds ranksRev3 1 28700432 [2, 2, 2] = true := by
  decide +kernel
theorem bounds7_223 : forCounts leafBounds ranksRev3 0 33468404 [3, 2, 2] = true := by
  decide +kernel
theorem bounds7_230 : forCounts leafBounds ranksRev3 2 23945049 [0, 3, 2] = true := by
  decide +kernel
theorem bounds7_231 : forCounts leafBounds ranksRev3 1 28713021 [1, 3, 2] = true := by
  decide +kernel
theorem bounds7_232 : forCounts leafBounds ranksRev3 0 33480993 [2, 3, 2] = true := by
  decide +kernel
theorem bounds7_240 : forCounts leafBounds ranksRev3 1 28725610 [0, 4, 2] = true := by
  decide +kernel
theorem bounds7_241 : forCounts leafBounds ranksRev3 0 33493582 [1, 4, 2] = true := by
  decide +kernel
theorem bounds7_300 : forCounts leafBounds ranksRev3 4 14405049 [0, 0, 3] = true := by
  decide +kernel
theorem bounds7_301 : forCounts leafBounds ranksRev3 3 19173021 [1, 0, 3] = true := by
  decide +kernel
theorem bounds7_302 : forCounts leafBounds ranksRev3 2 23940993 [2, 0, 3] = true := by
  decide +kernel
theorem bounds7_303 : forCounts leafBounds ranksRev3 1 28708965 [3, 0, 3] = true := by
  decide +kernel
theorem bounds7_304 : forCounts leafBounds ranksRev3 0 33476937 [4, 0, 3] = true := by
  decide +kernel
theorem bounds7_310 : forCounts leafBounds ranksRev3 3 19185610 [0, 1, 3] = true := by
  decide +kernel
theorem bounds7_311 : forCounts leafBounds ranksRev3 2 23953582 [1, 1, 3] = true := by
  decide +kernel
theorem bounds7_312 : forCounts leafBounds ranksRev3 1 28721554 [2, 1, 3] = true := by
  decide +kernel
theorem bounds7_313 : forCounts leafBounds ranksRev3 0 33489526 [3, 1, 3] = true := by
  decide +kernel
theorem bounds7_320 : forCounts leafBounds ranksRev3 2 23966171 [0, 2, 3] = true := by
  decide +kernel
theorem bounds7_321 : forCounts leafBounds ranksRev3 1 28734143 [1, 2, 3] = true := by
  decide +kernel
theorem bounds7_322 : forCounts leafBounds ranksRev3 0 33502115 [2, 2, 3] = true := by
  decide +kernel
theorem bounds7_330 : forCounts leafBounds ranksRev3 1 28746732 [0, 3, 3] = true := by
  decide +kernel
theorem bounds7_331 : forCounts leafBounds ranksRev3 0 33514704 [1, 3, 3] = true := by
  decide +kernel
theorem bounds7_340 : forCounts leafBounds ranksRev3 0 33527293 [0, 4, 3] = true := by
  decide +kernel
theorem bounds7_400 : forCounts leafBounds ranksRev3 3 19206732 [0, 0, 4] = true := by
  decide +kernel
theorem bounds7_401 : forCounts leafBounds ranksRev3 2 23974704 [1, 0, 4] = true := by
  decide +kernel
theorem bounds7_402 : forCounts leafBounds ranksRev3 1 28742676 [2, 0, 4] = true := by
  decide +kernel
theorem bounds7_403 : forCounts leafBounds ranksRev3 0 33510648 [3, 0, 4] = true := by
  decide +kernel
theorem bounds7_410 : forCounts leafBounds ranksRev3 2 23987293 [0, 1, 4] = true := by
  decide +kernel
theorem bounds7_411 : forCounts leafBounds ranksRev3 1 28755265 [1, 1, 4] = true := by
  decide +kernel
theorem bounds7_412 : forCounts leafBounds ranksRev3 0 33523237 [2, 1, 4] = true := by
  decide +kernel
theorem bounds7_420 : forCounts leafBounds ranksRev3 1 28767854 [0, 2, 4] = true := by
  decide +kernel
theorem bounds7_421 : forCounts leafBounds ranksRev3 0 33535826 [1, 2, 4] = true := by
  decide +kernel
theorem bounds7_430 : forCounts leafBounds ranksRev3 0 33548415 [0, 3, 4] = true := by
  decide +kernel

theorem bounds7 : forCounts leafBounds ranksRev 7 0 [] = true := by
  apply forCounts_split
  intro a ha k hk q hq h
  interval_cases a <;> interval_cases k <;> interval_cases q
  · exact bounds7_000
  · exact bounds7_001
  · exact bounds7_002
  · exact bounds7_003
  · exact bounds7_004
  · exact bounds7_010
  · exact bounds7_011
  · exact bounds7_012
  · exact bounds7_013
  · exact bounds7_014
  · exact bounds7_020
  · exact bounds7_021
  · exact bounds7_022
  · exact bounds7_023
  · exact bounds7_024
  · exact bounds7_030
  · exact bounds7_031
  · exact bounds7_032
  · exact bounds7_033
  · exact bounds7_034
  · exact bounds7_040
  · exact bounds7_041
  · exact bounds7_042
  · exact bounds7_043
  · exact absurd h (by decide)
  · exact bounds7_100
  · exact bounds7_101
  · exact bounds7_102
  · exact bounds7_103
  · exact bounds7_104
  · exact bounds7_110
  · exact bounds7_111
  · exact bounds7_112
  · exact bounds7_113
  · exact bounds7_114
  · exact bounds7_120
  · exact bounds7_121
  · exact bounds7_122
  · exact bounds7_123
  · exact bounds7_124
  · exact bounds7_130
  · exact bounds7_131
  · exact bounds7_132
  · exact bounds7_133
  · exact absurd h (by decide)
  · exact bounds7_140
  · exact bounds7_141
  · exact bounds7_142
  · exact absurd h (by decide)
  · exact absurd h (by decide)
  · exact bounds7_200
  · exact bounds7_201
  · exact bounds7_202
  · exact bounds7_203
  · exact bounds7_204
  · exact bounds7_210
  · exact bounds7_211
  · exact bounds7_212
  · exact bounds7_213
  · exact bounds7_214
  · exact bounds7_220
  · exact bounds7_221
  · exact bounds7_222
  · exact bounds7_223
  · exact absurd h (by decide)
  · exact bounds7_230
  · exact bounds7_231
  · exact bounds7_232
  · exact absurd h (by decide)
  · exact absurd h (by decide)
  · exact bounds7_240
  · exact bounds7_241
  · exact absurd h (by decide)
  · exact absurd h (by decide)
  · exact absurd h (by decide)
  · exact bounds7_300
  · exact bounds7_301
  · exact bounds7_302
  · exact bounds7_303
  · exact bounds7_304
  · exact bounds7_310
  · exact bounds7_311
  · exact bounds7_312
  · exact bounds7_313
  · exact absurd h (by decide)
  · exact bounds7_320
  · exact bounds7_321
  · exact bounds7_322
  · exact absurd h (by decide)
  · exact absurd h (by decide)
  · exact bounds7_330
  · exact bounds7_331
  · exact absurd h (by decide)
  · exact absurd h (by decide)
  · exact absurd h (by decide)
  · exact bounds7_340
  · exact absurd h (by decide)
  · exact absurd h (by decide)
  · exact absurd h (by decide)
  · exact absurd h (by decide)
  · exact bounds7_400
  · exact bounds7_401
  · exact bounds7_402
  · exact bounds7_403
  · exact absurd h (by decide)
  · exact bounds7_410
  · exact bounds7_411
  · exact bounds7_412
  · exact absurd h (by decide)
  · exact absurd h (by decide)
  · exact bounds7_420
  · exact bounds7_421
  · exact absurd h (by decide)
  · exact absurd h (by decide)
  · exact absurd h (by decide)
  · exact bounds7_430
  · exact absurd h (by decide)
  · exact absurd h (by decide)
  · exact absurd h (by decide)
  · exact absurd h (by decide)
  · exact absurd h (by decide)
  · exact absurd h (by decide)
  · exact absurd h (by decide)
  · exact absurd h (by decide)
  · exact absurd h (by decide)

end Pokers.Kernel
