import Verif.Proofs.TableMono
import Mathlib.Tactic.IntervalCases
/-! Generated by tools/gen_pieces.py. Kernel computation over every rank multiset, in pieces. -/
namespace Pokers.Kernel

theorem noFlush6_000 : forCounts leafNoFlush ranksRev3 6 0 [0, 0, 0] = true := by
  decide +kernel
theorem noFlush6_001 : forCounts leafNoFlush ranksRev3 5 4767972 [1, 0, 0] = true := by
  decide +kernel
theorem noFlush6_002 : forCounts leafNoFlush ranksRev3 4 9535944 [2, 0, 0] = true := by
  decide +kernel
theorem noFlush6_003 : forCounts leafNoFlush ranksRev3 3 14303916 [3, 0, 0] = true := by
  decide +kernel
theorem noFlush6_004 : forCounts leafNoFlush ranksRev3 2 19071888 [4, 0, 0] = true := by
  decide +kernel
theorem noFlush6_010 : forCounts leafNoFlush ranksRev3 5 4780561 [0, 1, 0] = true := by
  decide +kernel
theorem noFlush6_011 : forCounts leafNoFlush ranksRev3 4 9548533 [1, 1, 0] = true := by
  decide +kernel
theorem noFlush6_012 : forCounts leafNoFlush ranksRev3 3 14316505 [2, 1, 0] = true := by
  decide +kernel
theorem noFlush6_013 : forCounts leafNoFlush ranksRev3 2 19084477 [3, 1, 0] = true := by
  decide +kernel
theorem noFlush6_014 : forCounts leafNoFlush ranksRev3 1 23852449 [4, 1, 0] = true := by
  decide +kernel
theorem noFlush6_020 : forCounts leafNoFlush ranksRev3 4 9561122 [0, 2, 0] = true := by
  decide +kernel
theorem noFlush6_021 : forCounts leafNoFlush ranksRev3 3 14329094 [1, 2, 0] = true := by
  decide +kernel
theorem noFlush6_022 : forCounts leafNoFlush ranksRev3 2 19097066 [2, 2, 0] = true := by
  decide +kernel
theorem noFlush6_023 : forCounts leafNoFlush ranksRev3 1 23865038 [3, 2, 0] = true := by
  decide +kernel
theorem noFlush6_024 : forCounts leafNoFlush ranksRev3 0 28633010 [4, 2, 0] = true := by
  decide +kernel
theorem noFlush6_030 : forCounts leafNoFlush ranksRev3 3 14341683 [0, 3, 0] = true := by
  decide +kernel
theorem noFlush6_031 : forCounts leafNoFlush ranksRev3 2 19109655 [1, 3, 0] = true := by
  decide +kernel
theorem noFlush6_032 : forCounts leafNoFlush ranksRev3 1 23877627 [2, 3, 0] = true := by
  decide +kernel
theorem noFlush6_033 : forCounts leafNoFlush ranksRev3 0 28645599 [3, 3, 0] = true := by
  decide +kernel
theorem noFlush6_040 : forCounts leafNoFlush ranksRev3 2 19122244 [0, 4, 0] = true := by
  decide +kernel
theorem noFlush6_041 : forCounts leafNoFlush ranksRev3 1 23890216 [1, 4, 0] = true := by
  decide +kernel
theorem noFlush6_042 : forCounts leafNoFlush ranksRev3 0 28658188 [2, 4, 0] = true := by
  decide +kernel
theorem noFlush6_100 : forCounts leafNoFlush ranksRev3 5 4801683 [0, 0, 1] = true := by
  decide +kernel
theorem noFlush6_101 : forCounts leafNoFlush ranksRev3 4 9569655 [1, 0, 1] = true := by
  decide +kernel
theorem noFlush6_102 : forCounts leafNoFlush ranksRev3 3 14337627 [2, 0, 1] = true := by
  decide +kernel
theorem noFlush6_103 : forCounts leafNoFlush ranksRev3 2 19105599 [3, 0, 1] = true := by
  decide +kernel
theorem noFlush6_104 : forCounts leafNoFlush ranksRev3 1 23873571 [4, 0, 1] = true := by
  decide +kernel
theorem noFlush6_110 : forCounts leafNoFlush ranksRev3 4 9582244 [0, 1, 1] = true := by
  decide +kernel
theorem noFlush6_111 : forCounts leafNoFlush ranksRev3 3 14350216 [1, 1, 1] = true := by
  decide +kernel
theorem noFlush6_112 : forCounts leafNoFlush ranksRev3 2 19118188 [2, 1, 1] = true := by
  decide +kernel
theorem noFlush6_113 : forCounts leafNoFlush ranksRev3 1 23886160 [3, 1, 1] = true := by
  decide +kernel
theorem noFlush6_114 : forCounts leafNoFlush ranksRev3 0 28654132 [4, 1, 1] = true := by
  decide +kernel
theorem noFlush6_120 : forCounts leafNoFlush ranksRev3 3 14362805 [0, 2, 1] = true := by
  decide +kernel
theorem noFlush6_121 : forCounts leafNoFlush ranksRev3 2 19130777 [1, 2, 1] = true := by
  decide +kernel
theorem noFlush6_122 : forCounts leafNoFlush ranksRev3 1 23898749 [2, 2, 1] = true := by
  decide +kernel
theorem noFlush6_123 : forCounts leafNoFlush ranksRev3 0 28666721 [3, 2, 1] = true := by
  decide +kernel
theorem noFlush6_130 : forCounts leafNoFlush ranksRev3 2 19143366 [0, 3, 1] = true := by
  decide +kernel
theorem noFlush6_131 : forCounts leafNoFlush ranksRev3 1 23911338 [1, 3, 1] = true := by
  decide +kernel
theorem noFlush6_132 : forCounts leafNoFlush ranksRev3 0 28679310 [2, 3, 1] = true := by
  decide +kernel
theorem noFlush6_140 : forCounts leafNoFlush ranksRev3 1 23923927 [0, 4, 1] = true := by
  decide +kernel
theorem noFlush6_141 : forCounts leafNoFlush ranksRev3 0 28691899 [1, 4, 1] = true := by
  decide +kernel
theorem noFlush6_200 : forCounts leafNoFlush ranksRev3 4 9603366 [0, 0, 2] = true := by
  decide +kernel
theorem noFlush6_201 : forCounts leafNoFlush ranksRev3 3 14371338 [1, 0, 2] = true := by
  decide +kernel
theorem noFlush6_202 : forCounts leafNoFlush ranksRev3 2 19139310 [2, 0, 2] = true := by
  decide +kernel
theorem noFlush6_203 : forCounts leafNoFlush ranksRev3 1 23907282 [3, 0, 2] = true := by
  decide +kernel
theorem noFlush6_204 : forCounts leafNoFlush ranksRev3 0 28675254 [4, 0, 2] = true := by
  decide +kernel
theorem noFlush6_210 : forCounts leafNoFlush ranksRev3 3 14383927 [0, 1, 2] = true := by
  decide +kernel
theorem noFlush6_211 : forCounts leafNoFlush ranksRev3 2 19151899 [1, 1, 2] = true := by
  decide +kernel
theorem noFlush6_212 : forCounts leafNoFlush ranksRev3 1 23919871 [2, 1, 2] = true := by
  decide +kernel
theorem noFlush6_213 : forCounts leafNoFlush ranksRev3 0 28687843 [3, 1, 2] = true := by
  decide +kernel
theorem noFlush6_220 : forCounts leafNoFlush ranksRev3 2 19164488 [0, 2, 2] = true := by
  decide +kernel
theorem noFlush6_221 : forCounts leafNoFlush ranksRev3 1 23932460 [1, 2, 2] = true := by
  decide +kernel
theorem noFlush6_222 : forCounts leafNoFlush ranksRev3 0 28700432 [2, 2, 2] = true := by
  decide +kernel
theorem noFlush6_230 : forCounts leafNoFlush ranksRev3 1 23945049 [0, 3, 2] = true := by
  decide +kernel
theorem noFlush6_231 : forCounts leafNoFlush ranksRev3 0 28713021 [1, 3, 2] = true := by
  decide +kernel
theorem noFlush6_240 : forCounts leafNoFlush ranksRev3 0 28725610 [0, 4, 2] = true := by
  decide +kernel
theorem noFlush6_300 : forCounts leafNoFlush ranksRev3 3 14405049 [0, 0, 3] = true := by
  decide +kernel
theorem noFlush6_301 : forCounts leafNoFlush ranksRev3 2 19173021 [1, 0, 3] = true := by
  decide +kernel
theorem noFlush6_302 : forCounts leafNoFlush ranksRev3 1 23940993 [2, 0, 3] = true := by
  decide +kernel
theorem noFlush6_303 : forCounts leafNoFlush ranksRev3 0 28708965 [3, 0, 3] = true := by
  decide +kernel
theorem noFlush6_310 : forCounts leafNoFlush ranksRev3 2 19185610 [0, 1, 3] = true := by
  decide +kernel
theorem noFlush6_311 : forCounts leafNoFlush ranksRev3 1 23953582 [1, 1, 3] = true := by
  decide +kernel
theorem noFlush6_312 : forCounts leafNoFlush ranksRev3 0 28721554 [2, 1, 3] = true := by
  decide +kernel
theorem noFlush6_320 : forCounts leafNoFlush ranksRev3 1 23966171 [0, 2, 3] = true := by
  decide +kernel
theorem noFlush6_321 : forCounts leafNoFlush ranksRev3 0 28734143 [1, 2, 3] = true := by
  decide +kernel
theorem noFlush6_330 : forCounts leafNoFlush ranksRev3 0 28746732 [0, 3, 3] = true := by
  decide +kernel
theorem noFlush6_400 : forCounts leafNoFlush ranksRev3 2 19206732 [0, 0, 4] = true := by
  decide +kernel
theorem noFlush6_401 : forCounts leafNoFlush ranksRev3 1 23974704 [1, 0, 4] = true := by
  decide +kernel
theorem noFlush6_402 : forCounts leafNoFlush ranksRev3 0 28742676 [2, 0, 4] = true := by
  decide +kernel
theorem noFlush6_410 : forCounts leafNoFlush ranksRev3 1 23987293 [0, 1, 4] = true := by
  decide +kernel
theorem noFlush6_411 : forCounts leafNoFlush ranksRev3 0 28755265 [1, 1, 4] = true := by
  decide +kernel
theorem noFlush6_420 : forCounts leafNoFlush ranksRev3 0 28767854 [0, 2, 4] = true := by
  decide +kernel

theorem noFlush6 : forCounts leafNoFlush ranksRev 6 0 [] = true := by
  apply forCounts_split
  intro a ha k hk q hq h
  interval_cases a <;> interval_cases k <;> interval_cases q
  · exact noFlush6_000
  · exact noFlush6_001
  · exact noFlush6_002
  · exact noFlush6_003
  · exact noFlush6_004
  · exact noFlush6_010
  · exact noFlush6_011
  · exact noFlush6_012
  · exact noFlush6_013
  · exact noFlush6_014
  · exact noFlush6_020
  · exact noFlush6_021
  · exact noFlush6_022
  · exact noFlush6_023
  · exact noFlush6_024
  · exact noFlush6_030
  · exact noFlush6_031
  · exact noFlush6_032
  · exact noFlush6_033
  · exact absurd h (by decide)
  · exact noFlush6_040
  · exact noFlush6_041
  · exact noFlush6_042
  · exact absurd h (by decide)
  · exact absurd h (by decide)
  · exact noFlush6_100
  · exact noFlush6_101
  · exact noFlush6_102
  · exact noFlush6_103
  · exact noFlush6_104
  · exact noFlush6_110
  · exact noFlush6_111
  · exact noFlush6_112
  · exact noFlush6_113
  · exact noFlush6_114
  · exact noFlush6_120
  · exact noFlush6_121
  · exact noFlush6_122
  · exact noFlush6_123
  · exact absurd h (by decide)
  · exact noFlush6_130
  · exact noFlush6_131
  · exact noFlush6_132
  · exact absurd h (by decide)
  · exact absurd h (by decide)
  · exact noFlush6_140
  · exact noFlush6_141
  · exact absurd h (by decide)
  · exact absurd h (by decide)
  · exact absurd h (by decide)
  · exact noFlush6_200
  · exact noFlush6_201
  · exact noFlush6_202
  · exact noFlush6_203
  · exact noFlush6_204
  · exact noFlush6_210
  · exact noFlush6_211
  · exact noFlush6_212
  · exact noFlush6_213
  · exact absurd h (by decide)
  · exact noFlush6_220
  · exact noFlush6_221
  · exact noFlush6_222
  · exact absurd h (by decide)
  · exact absurd h (by decide)
  · exact noFlush6_230
  · exact noFlush6_231
  · exact absurd h (by decide)
  · exact absurd h (by decide)
  · exact absurd h (by decide)
  · exact noFlush6_240
  · exact absurd h (by decide)
  · exact absurd h (by decide)
  · exact absurd h (by decide)
  · exact absurd h (by decide)
  · exact noFlush6_300
  · exact noFlush6_301
  · exact noFlush6_302
  · exact noFlush6_303
  · exact absurd h (by decide)
  · exact noFlush6_310
  · exact noFlush6_311
  · exact noFlush6_312
  · exact absurd h (by decide)
  · exact absurd h (by decide)
  · exact noFlush6_320
  · exact noFlush6_321
  · exact absurd h (by decide)
  · exact absurd h (by decide)
  · exact absurd h (by decide)
  · exact noFlush6_330
  · exact absurd h (by decide)
  · exact absurd h (by decide)
  · exact absurd h (by decide)
  · exact absurd h (by decide)
  · exact absurd h (by decide)
  · exact absurd h (by decide)
  · exact absurd h (by decide)
  · exact absurd h (by decide)
  · exact absurd h (by decide)
  · exact noFlush6_400
  · exact noFlush6_401
  · exact noFlush6_402
  · exact absurd h (by decide)
  · exact absurd h (by decide)
  · exact noFlush6_410
  · exact noFlush6_411
  · exact absurd h (by decide)
  · exact absurd h (by decide)
  · exact absurd h (by decide)
  · exact noFlush6_420
  · exact absurd h (by decide)
  · exact absurd h (by decide)
  · exact absurd h (by decide)
  · exact absurd h (by decide)
  · exact absurd h (by decide)
  · exact absurd h (by decide)
  · exact absurd h (by decide)
  · exact absurd h (by decide)
  · exact absurd h (by decide)
  · exact absurd h (by decide)
  · exact absurd h (by decide)
  · exact absurd h (by decide)
  · exact absurd h (by decide)
  · exact absurd h (by decide)

end Pokers.Kernel
