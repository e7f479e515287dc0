import Verif.Proofs.KernelTools
import Mathlib.Tactic.IntervalCases
/-! Generated by tools/gen_pieces.py. Kernel computation over every rank multiset, in pieces. -/
namespace Pokers.Kernel

theorem big7_000 : forCounts leafBig ranksRev3 7 0 [0, 0, 0] = true := by
  decide +kernel
theorem big7_001 : forCounts leafBig ranksRev3 6 4767972 [1, 0, 0] = true := by
  decide +kernel
theorem big7_002 : forCounts leafBig ranksRev3 5 9535944 [2, 0, 0] = true := by
  decide +kernel
theorem big7_003 : forCounts leafBig ranksRev3 4 14303916 [3, 0, 0] = true := by
  decide +kernel
theorem big7_004 : forCounts leafBig ranksRev3 3 19071888 [4, 0, 0] = true := by
  decide +kernel
theorem big7_010 : forCounts leafBig ranksRev3 6 4780561 [0, 1, 0] = true := by
  decide +kernel
theorem big7_011 : forCounts leafBig ranksRev3 5 9548533 [1, 1, 0] = true := by
  decide +kernel
theorem big7_012 : forCounts leafBig ranksRev3 4 14316505 [2, 1, 0] = true := by
  decide +kernel
theorem big7_013 : forCounts leafBig ranksRev3 3 19084477 [3, 1, 0] = true := by
  decide +kernel
theorem big7_014 : forCounts leafBig ranksRev3 2 23852449 [4, 1, 0] = true := by
  decide +kernel
theorem big7_020 : forCounts leafBig ranksRev3 5 9561122 [0, 2, 0] = true := by
  decide +kernel
theorem big7_021 : forCounts leafBig ranksRev3 4 14329094 [1, 2, 0] = true := by
  decide +kernel
theorem big7_022 : forCounts leafBig ranksRev3 3 19097066 [2, 2, 0] = true := by
  decide +kernel
theorem big7_023 : forCounts leafBig ranksRev3 2 23865038 [3, 2, 0] = true := by
  decide +kernel
theorem big7_024 : forCounts leafBig ranksRev3 1 28633010 [4, 2, 0] = true := by
  decide +kernel
theorem big7_030 : forCounts leafBig ranksRev3 4 14341683 [0, 3, 0] = true := by
  decide +kernel
theorem big7_031 : forCounts leafBig ranksRev3 3 19109655 [1, 3, 0] = true := by
  decide +kernel
theorem big7_032 : forCounts leafBig ranksRev3 2 23877627 [2, 3, 0] = true := by
  decide +kernel
theorem big7_033 : forCounts leafBig ranksRev3 1 28645599 [3, 3, 0] = true := by
  decide +kernel
theorem big7_034 : forCounts leafBig ranksRev3 0 33413571 [4, 3, 0] = true := by
  decide +kernel
theorem big7_040 : forCounts leafBig ranksRev3 3 19122244 [0, 4, 0] = true := by
  decide +kernel
theorem big7_041 : forCounts leafBig ranksRev3 2 23890216 [1, 4, 0] = true := by
  decide +kernel
theorem big7_042 : forCounts leafBig ranksRev3 1 28658188 [2, 4, 0] = true := by
  decide +kernel
theorem big7_043 : forCounts leafBig ranksRev3 0 33426160 [3, 4, 0] = true := by
  decide +kernel
theorem big7_100 : forCounts leafBig ranksRev3 6 4801683 [0, 0, 1] = true := by
  decide +kernel
theorem big7_101 : forCounts leafBig ranksRev3 5 9569655 [1, 0, 1] = true := by
  decide +kernel
theorem big7_102 : forCounts leafBig ranksRev3 4 14337627 [2, 0, 1] = true := by
  decide +kernel
theorem big7_103 : forCounts leafBig ranksRev3 3 19105599 [3, 0, 1] = true := by
  decide +kernel
theorem big7_104 : forCounts leafBig ranksRev3 2 23873571 [4, 0, 1] = true := by
  decide +kernel
theorem big7_110 : forCounts leafBig ranksRev3 5 9582244 [0, 1, 1] = true := by
  decide +kernel
theorem big7_111 : forCounts leafBig ranksRev3 4 14350216 [1, 1, 1] = true := by
  decide +kernel
theorem big7_112 : forCounts leafBig ranksRev3 3 19118188 [2, 1, 1] = true := by
  decide +kernel
theorem big7_113 : forCounts leafBig ranksRev3 2 23886160 [3, 1, 1] = true := by
  decide +kernel
theorem big7_114 : forCounts leafBig ranksRev3 1 28654132 [4, 1, 1] = true := by
  decide +kernel
theorem big7_120 : forCounts leafBig ranksRev3 4 14362805 [0, 2, 1] = true := by
  decide +kernel
theorem big7_121 : forCounts leafBig ranksRev3 3 19130777 [1, 2, 1] = true := by
  decide +kernel
theorem big7_122 : forCounts leafBig ranksRev3 2 23898749 [2, 2, 1] = true := by
  decide +kernel
theorem big7_123 : forCounts leafBig ranksRev3 1 28666721 [3, 2, 1] = true := by
  decide +kernel
theorem big7_124 : forCounts leafBig ranksRev3 0 33434693 [4, 2, 1] = true := by
  decide +kernel
theorem big7_130 : forCounts leafBig ranksRev3 3 19143366 [0, 3, 1] = true := by
  decide +kernel
theorem big7_131 : forCounts leafBig ranksRev3 2 23911338 [1, 3, 1] = true := by
  decide +kernel
theorem big7_132 : forCounts leafBig ranksRev3 1 28679310 [2, 3, 1] = true := by
  decide +kernel
theorem big7_133 : forCounts leafBig ranksRev3 0 33447282 [3, 3, 1] = true := by
  decide +kernel
theorem big7_140 : forCounts leafBig ranksRev3 2 23923927 [0, 4, 1] = true := by
  decide +kernel
theorem big7_141 : forCounts leafBig ranksRev3 1 28691899 [1, 4, 1] = true := by
  decide +kernel
theorem big7_142 : forCounts leafBig ranksRev3 0 33459871 [2, 4, 1] = true := by
  decide +kernel
theorem big7_200 : forCounts leafBig ranksRev3 5 9603366 [0, 0, 2] = true := by
  decide +kernel
theorem big7_201 : forCounts leafBig ranksRev3 4 14371338 [1, 0, 2] = true := by
  decide +kernel
theorem big7_202 : forCounts leafBig ranksRev3 3 19139310 [2, 0, 2] = true := by
  decide +kernel
theorem big7_203 : forCounts leafBig ranksRev3 2 23907282 [3, 0, 2] = true := by
  decide +kernel
theorem big7_204 : forCounts leafBig ranksRev3 1 28675254 [4, 0, 2] = true := by
  decide +kernel
theorem big7_210 : forCounts leafBig ranksRev3 4 14383927 [0, 1, 2] = true := by
  decide +kernel
theorem big7_211 : forCounts leafBig ranksRev3 3 19151899 [1, 1, 2] = true := by
  decide +kernel
theorem big7_212 : forCounts leafBig ranksRev3 2 23919871 [2, 1, 2] = true := by
  decide +kernel
theorem big7_213 : forCounts leafBig ranksRev3 1 28687843 [3, 1, 2] = true := by
  decide +kernel
theorem big7_214 : forCounts leafBig ranksRev3 0 33455815 [4, 1, 2] = true := by
  decide +kernel
theorem big7_220 : forCounts leafBig ranksRev3 3 19164488 [0, 2, 2] = true := by
  decide +kernel
theorem big7_221 : forCounts leafBig ranksRev3 2 23932460 [1, 2, 2] = true := by
  decide +kernel
theorem big7_222 : forCounts leafBig ranksRev3 1 28700432 [2, 2, 2] = true := by
  decide +kernel
theorem big7_223 : forCounts leafBig ranksRev3 0 33468404 [3, 2, 2] = true := by
  decide +kernel
theorem big7_230 : forCounts leafBig ranksRev3 2 23945049 [0, 3, 2] = true := by
  decide +kernel
theorem big7_231 : forCounts leafBig ranksRev3 1 28713021 [1, 3, 2] = true := by
  decide +kernel
theorem big7_232 : forCounts leafBig ranksRev3 0 33480993 [2, 3, 2] = true := by
  decide +kernel
theorem big7_240 : forCounts leafBig ranksRev3 1 28725610 [0, 4, 2] = true := by
  decide +kernel
theorem big7_241 : forCounts leafBig ranksRev3 0 33493582 [1, 4, 2] = true := by
  decide +kernel
theorem big7_300 : forCounts leafBig ranksRev3 4 14405049 [0, 0, 3] = true := by
  decide +kernel
theorem big7_301 : forCounts leafBig ranksRev3 3 19173021 [1, 0, 3] = true := by
  decide +kernel
theorem big7_302 : forCounts leafBig ranksRev3 2 23940993 [2, 0, 3] = true := by
  decide +kernel
theorem big7_303 : forCounts leafBig ranksRev3 1 28708965 [3, 0, 3] = true := by
  decide +kernel
theorem big7_304 : forCounts leafBig ranksRev3 0 33476937 [4, 0, 3] = true := by
  decide +kernel
theorem big7_310 : forCounts leafBig ranksRev3 3 19185610 [0, 1, 3] = true := by
  decide +kernel
theorem big7_311 : forCounts leafBig ranksRev3 2 23953582 [1, 1, 3] = true := by
  decide +kernel
theorem big7_312 : forCounts leafBig ranksRev3 1 28721554 [2, 1, 3] = true := by
  decide +kernel
theorem big7_313 : forCounts leafBig ranksRev3 0 33489526 [3, 1, 3] = true := by
  decide +kernel
theorem big7_320 : forCounts leafBig ranksRev3 2 23966171 [0, 2, 3] = true := by
  decide +kernel
theorem big7_321 : forCounts leafBig ranksRev3 1 28734143 [1, 2, 3] = true := by
  decide +kernel
theorem big7_322 : forCounts leafBig ranksRev3 0 33502115 [2, 2, 3] = true := by
  decide +kernel
theorem big7_330 : forCounts leafBig ranksRev3 1 28746732 [0, 3, 3] = true := by
  decide +kernel
theorem big7_331 : forCounts leafBig ranksRev3 0 33514704 [1, 3, 3] = true := by
  decide +kernel
theorem big7_340 : forCounts leafBig ranksRev3 0 33527293 [0, 4, 3] = true := by
  decide +kernel
theorem big7_400 : forCounts leafBig ranksRev3 3 19206732 [0, 0, 4] = true := by
  decide +kernel
theorem big7_401 : forCounts leafBig ranksRev3 2 23974704 [1, 0, 4] = true := by
  decide +kernel
theorem big7_402 : forCounts leafBig ranksRev3 1 28742676 [2, 0, 4] = true := by
  decide +kernel
theorem big7_403 : forCounts leafBig ranksRev3 0 33510648 [3, 0, 4] = true := by
  decide +kernel
theorem big7_410 : forCounts leafBig ranksRev3 2 23987293 [0, 1, 4] = true := by
  decide +kernel
theorem big7_411 : forCounts leafBig ranksRev3 1 28755265 [1, 1, 4] = true := by
  decide +kernel
theorem big7_412 : forCounts leafBig ranksRev3 0 33523237 [2, 1, 4] = true := by
  decide +kernel
theorem big7_420 : forCounts leafBig ranksRev3 1 28767854 [0, 2, 4] = true := by
  decide +kernel
theorem big7_421 : forCounts leafBig ranksRev3 0 33535826 [1, 2, 4] = true := by
  decide +kernel
theorem big7_430 : forCounts leafBig ranksRev3 0 33548415 [0, 3, 4] = true := by
  decide +kernel

theorem big7 : forCounts leafBig ranksRev 7 0 [] = true := by
  apply forCounts_split
  intro a ha k hk q hq h
  interval_cases a <;> interval_cases k <;> interval_cases q
  · exact big7_000
  · exact big7_001
  · exact big7_002
  · exact big7_003
  · exact big7_004
  · exact big7_010
  · exact big7_011
  · exact big7_012
  · exact big7_013
  · exact big7_014
  · exact big7_020
  · exact big7_021
  · exact big7_022
  · exact big7_023
  · exact big7_024
  · exact big7_030
  · exact big7_031
  · exact big7_032
  · exact big7_033
  · exact big7_034
  · exact big7_040
  · exact big7_041
  · exact big7_042
  · exact big7_043
  · exact absurd h (by decide)
  · exact big7_100
  · exact big7_101
  · exact big7_102
  · exact big7_103
  · exact big7_104
  · exact big7_110
  · exact big7_111
  · exact big7_112
  · exact big7_113
  · exact big7_114
  · exact big7_120
  · exact big7_121
  · exact big7_122
  · exact big7_123
  · exact big7_124
  · exact big7_130
  · exact big7_131
  · exact big7_132
  · exact big7_133
  · exact absurd h (by decide)
  · exact big7_140
  · exact big7_141
  · exact big7_142
  · exact absurd h (by decide)
  · exact absurd h (by decide)
  · exact big7_200
  · exact big7_201
  · exact big7_202
  · exact big7_203
  · exact big7_204
  · exact big7_210
  · exact big7_211
  · exact big7_212
  · exact big7_213
  · exact big7_214
  · exact big7_220
  · exact big7_221
  · exact big7_222
  · exact big7_223
  · exact absurd h (by decide)
  · exact big7_230
  · exact big7_231
  · exact big7_232
  · exact absurd h (by decide)
  · exact absurd h (by decide)
  · exact big7_240
  · exact big7_241
  · exact absurd h (by decide)
  · exact absurd h (by decide)
  · exact absurd h (by decide)
  · exact big7_300
  · exact big7_301
  · exact big7_302
  · exact big7_303
  · exact big7_304
  · exact big7_310
  · exact big7_311
  · exact big7_312
  · exact big7_313
  · exact absurd h (by decide)
  · exact big7_320
  · exact big7_321
  · exact big7_322
  · exact absurd h (by decide)
  · exact absurd h (by decide)
  · exact big7_330
  · exact big7_331
  · exact absurd h (by decide)
  · exact absurd h (by decide)
  · exact absurd h (by decide)
  · exact big7_340
  · exact absurd h (by decide)
  · exact absurd h (by decide)
  · exact absurd h (by decide)
  · exact absurd h (by decide)
  · exact big7_400
  · exact big7_401
  · exact big7_402
  · exact big7_403
  · exact absurd h (by decide)
  · exact big7_410
  · exact big7_411
  · exact big7_412
  · exact absurd h (by decide)
  · exact absurd h (by decide)
  · exact big7_420
  · exact big7_421
  · exact absurd h (by decide)
  · exact absurd h (by decide)
  · exact absurd h (by decide)
  · exact big7_430
  · exact absurd h (by decide)
  · exact absurd h (by decide)
  · exact absurd h (by decide)
  · exact absurd h (by decide)
  · exact absurd h (by decide)
  · exact absurd h (by decide)
  · exact absurd h (by decide)
  · exact absurd h (by decide)
  · exact absurd h (by decide)

end Pokers.Kernel
