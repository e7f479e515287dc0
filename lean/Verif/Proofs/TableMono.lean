import Verif.Proofs.TableCode
import Mathlib.Tactic.IntervalCases
/-! Generated by tools/gen_pieces.py. Kernel computation over every rank multiset, in pieces. -/
namespace Pokers.Kernel

theorem mono5_000 : forCounts leafMono ranksRev3 5 0 [0, 0, 0] = true := by
  decide +kernel
theorem mono5_001 : forCounts leafMono ranksRev3 4 4767972 [1, 0, 0] = true := by
  decide +kernel
theorem mono5_002 : forCounts leafMono ranksRev3 3 9535944 [2, 0, 0] = true := by
  decide +kernel
theorem mono5_003 : forCounts leafMono ranksRev3 2 14303916 [3, 0, 0] = true := by
  decide +kernel
theorem mono5_004 : forCounts leafMono ranksRev3 1 19071888 [4, 0, 0] = true := by
  decide +kernel
theorem mono5_010 : forCounts leafMono ranksRev3 4 4780561 [0, 1, 0] = true := by
  decide +kernel
theorem mono5_011 : forCounts leafMono ranksRev3 3 9548533 [1, 1, 0] = true := by
  decide +kernel
theorem mono5_012 : forCounts leafMono ranksRev3 2 14316505 [2, 1, 0] = true := by
  decide +kernel
theorem mono5_013 : forCounts leafMono ranksRev3 1 19084477 [3, 1, 0] = true := by
  decide +kernel
theorem mono5_014 : forCounts leafMono ranksRev3 0 23852449 [4, 1, 0] = true := by
  decide +kernel
theorem mono5_020 : forCounts leafMono ranksRev3 3 9561122 [0, 2, 0] = true := by
  decide +kernel
theorem mono5_021 : forCounts leafMono ranksRev3 2 14329094 [1, 2, 0] = true := by
  decide +kernel
theorem mono5_022 : forCounts leafMono ranksRev3 1 19097066 [2, 2, 0] = true := by
  decide +kernel
theorem mono5_023 : forCounts leafMono ranksRev3 0 23865038 [3, 2, 0] = true := by
  decide +kernel
theorem mono5_030 : forCounts leafMono ranksRev3 2 14341683 [0, 3, 0] = true := by
  decide +kernel
theorem mono5_031 : forCounts leafMono ranksRev3 1 19109655 [1, 3, 0] = true := by
  decide +kernel
theorem mono5_032 : forCounts leafMono ranksRev3 0 23877627 [2, 3, 0] = true := by
  decide +kernel
theorem mono5_040 : forCounts leafMono ranksRev3 1 19122244 [0, 4, 0] = true := by
  decide +kernel
theorem mono5_041 : forCounts leafMono ranksRev3 0 23890216 [1, 4, 0] = true := by
  decide +kernel
theorem mono5_100 : forCounts leafMono ranksRev3 4 4801683 [0, 0, 1] = true := by
  decide +kernel
theorem mono5_101 : forCounts leafMono ranksRev3 3 9569655 [1, 0, 1] = true := by
  decide +kernel
theorem mono5_102 : forCounts leafMono ranksRev3 2 14337627 [2, 0, 1] = true := by
  decide +kernel
theorem mono5_103 : forCounts leafMono ranksRev3 1 19105599 [3, 0, 1] = true := by
  decide +kernel
theorem mono5_104 : forCounts leafMono ranksRev3 0 23873571 [4, 0, 1] = true := by
  decide +kernel
theorem mono5_110 : forCounts leafMono ranksRev3 3 9582244 [0, 1, 1] = true := by
  decide +kernel
theorem mono5_111 : forCounts leafMono ranksRev3 2 14350216 [1, 1, 1] = true := by
  decide +kernel
theorem mono5_112 : forCounts leafMono ranksRev3 1 19118188 [2, 1, 1] = true := by
  decide +kernel
theorem mono5_113 : forCounts leafMono ranksRev3 0 23886160 [3, 1, 1] = true := by
  decide +kernel
theorem mono5_120 : forCounts leafMono ranksRev3 2 14362805 [0, 2, 1] = true := by
  decide +kernel
theorem mono5_121 : forCounts leafMono ranksRev3 1 19130777 [1, 2, 1] = true := by
  decide +kernel
theorem mono5_122 : forCounts leafMono ranksRev3 0 23898749 [2, 2, 1] = true := by
  decide +kernel
theorem mono5_130 : forCounts leafMono ranksRev3 1 19143366 [0, 3, 1] = true := by
  decide +kernel
theorem mono5_131 : forCounts leafMono ranksRev3 0 23911338 [1, 3, 1] = true := by
  decide +kernel
theorem mono5_140 : forCounts leafMono ranksRev3 0 23923927 [0, 4, 1] = true := by
  decide +kernel
theorem mono5_200 : forCounts leafMono ranksRev3 3 9603366 [0, 0, 2] = true := by
  decide +kernel
theorem mono5_201 : forCounts leafMono ranksRev3 2 14371338 [1, 0, 2] = true := by
  decide +kernel
theorem mono5_202 : forCounts leafMono ranksRev3 1 19139310 [2, 0, 2] = true := by
  decide +kernel
theorem mono5_203 : forCounts leafMono ranksRev3 0 23907282 [3, 0, 2] = true := by
  decide +kernel
theorem mono5_210 : forCounts leafMono ranksRev3 2 14383927 [0, 1, 2] = true := by
  decide +kernel
theorem mono5_211 : forCounts leafMono ranksRev3 1 19151899 [1, 1, 2] = true := by
  decide +kernel
theorem mono5_212 : forCounts leafMono ranksRev3 0 23919871 [2, 1, 2] = true := by
  decide +kernel
theorem mono5_220 : forCounts leafMono ranksRev3 1 19164488 [0, 2, 2] = true := by
  decide +kernel
theorem mono5_221 : forCounts leafMono ranksRev3 0 23932460 [1, 2, 2] = true := by
  decide +kernel
theorem mono5_230 : forCounts leafMono ranksRev3 0 23945049 [0, 3, 2] = true := by
  decide +kernel
theorem mono5_300 : forCounts leafMono ranksRev3 2 14405049 [0, 0, 3] = true := by
  decide +kernel
theorem mono5_301 : forCounts leafMono ranksRev3 1 19173021 [1, 0, 3] = true := by
  decide +kernel
theorem mono5_302 : forCounts leafMono ranksRev3 0 23940993 [2, 0, 3] = true := by
  decide +kernel
theorem mono5_310 : forCounts leafMono ranksRev3 1 19185610 [0, 1, 3] = true := by
  decide +kernel
theorem mono5_311 : forCounts leafMono ranksRev3 0 23953582 [1, 1, 3] = true := by
  decide +kernel
theorem mono5_320 : forCounts leafMono ranksRev3 0 23966171 [0, 2, 3] = true := by
  decide +kernel
theorem mono5_400 : forCounts leafMono ranksRev3 1 19206732 [0, 0, 4] = true := by
  decide +kernel
theorem mono5_401 : forCounts leafMono ranksRev3 0 23974704 [1, 0, 4] = true := by
  decide +kernel
theorem mono5_410 : forCounts leafMono ranksRev3 0 23987293 [0, 1, 4] = true := by
  decide +kernel

theorem mono5 : forCounts leafMono ranksRev 5 0 [] = true := by
  apply forCounts_split
  intro a ha k hk q hq h
  interval_cases a <;> interval_cases k <;> interval_cases q
  · exact mono5_000
  · exact mono5_001
  · exact mono5_002
  · exact mono5_003
  · exact mono5_004
  · exact mono5_010
  · exact mono5_011
  · exact mono5_012
  · exact mono5_013
  · exact mono5_014
  · exact mono5_020
  · exact mono5_021
  · exact mono5_022
  · exact mono5_023
  · exact absurd h (by decide)
  · exact mono5_030
  · exact mono5_031
  · exact mono5_032
  · exact absurd h (by decide)
  · exact absurd h (by decide)
  · exact mono5_040
  · exact mono5_041
  · exact absurd h (by decide)
  · exact absurd h (by decide)
  · exact absurd h (by decide)
  · exact mono5_100
  · exact mono5_101
  · exact mono5_102
  · exact mono5_103
  · exact mono5_104
  · exact mono5_110
  · exact mono5_111
  · exact mono5_112
  · exact mono5_113
  · exact absurd h (by decide)
  · exact mono5_120
  · exact mono5_121
  · exact mono5_122
  · exact absurd h (by decide)
  · exact absurd h (by decide)
  · exact mono5_130
  · exact mono5_131
  · exact absurd h (by decide)
  · exact absurd h (by decide)
  · exact absurd h (by decide)
  · exact mono5_140
  · exact absurd h (by decide)
  · exact absurd h (by decide)
  · exact absurd h (by decide)
  · exact absurd h (by decide)
  · exact mono5_200
  · exact mono5_201
  · exact mono5_202
  · exact mono5_203
  · exact absurd h (by decide)
  · exact mono5_210
  · exact mono5_211
  · exact mono5_212
  · exact absurd h (by decide)
  · exact absurd h (by decide)
  · exact mono5_220
  · exact mono5_221
  · exact absurd h (by decide)
  · exact absurd h (by decide)
  · exact absurd h (by decide)
  · exact mono5_230
  · exact absurd h (by decide)
  · exact absurd h (by decide)
  · exact absurd h (by decide)
  · exact absurd h (by decide)
  · exact absurd h (by decide)
  · exact absurd h (by decide)
  · exact absurd h (by decide)
  · exact absurd h (by decide)
  · exact absurd h (by decide)
  · exact mono5_300
  · exact mono5_301
  · exact mono5_302
  · exact absurd h (by decide)
  · exact absurd h (by decide)
  · exact mono5_310
  · exact mono5_311
  · exact absurd h (by decide)
  · exact absurd h (by decide)
  · exact absurd h (by decide)
  · exact mono5_320
  · exact absurd h (by decide)
  · exact absurd h (by decide)
  · exact absurd h (by decide)
  · exact absurd h (by decide)
  · exact absurd h (by decide)
  · exact absurd h (by decide)
  · exact absurd h (by decide)
  · exact absurd h (by decide)
  · exact absurd h (by decide)
  · exact absurd h (by decide)
  · exact absurd h (by decide)
  · exact absurd h (by decide)
  · exact absurd h (by decide)
  · exact absurd h (by decide)
  · exact mono5_400
  · exact mono5_401
  · exact absurd h (by decide)
  · exact absurd h (by decide)
  · exact absurd h (by decide)
  · exact mono5_410
  · exact absurd h (by decide)
  · exact absurd h (by decide)
  · exact absurd h (by decide)
  · exact absurd h (by decide)
  · exact absurd h (by decide)
  · exact absurd h (by decide)
  · exact absurd h (by decide)
  · exact absurd h (by decide)
  · exact absurd h (by decide)
  · exact absurd h (by decide)
  · exact absurd h (by decide)
  · exact absurd h (by decide)
  · exact absurd h (by decide)
  · exact absurd h (by decide)
  · exact absurd h (by decide)
  · exact absurd h (by decide)
  · exact absurd h (by decide)
  · exact absurd h (by decide)
  · exact absurd h (by decide)

end Pokers.Kernel
