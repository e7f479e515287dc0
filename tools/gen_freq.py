#!/usr/bin/env python3
"""Generates lean/Verif/Proofs/FreqPieces.lean: the kernel computations behind the category frequencies (C69)."""
from math import comb
K = [8192, 32769, 69632, 237568, 593920, 1531909, 3563520, 4300819, 4685870, 4690024, 4767972, 4780561, 4801683]
STR = [sum(1 << r for r in ([12] if t == 3 else []) + list(range(max(t - 4, 0), t + 1))) for t in range(3, 13)]

def straight(m):
    return any(m & s == s for s in STR)

def cat_ranks(cnt):
    """category of the best hand without flushes"""
    m = sum(1 << r for r in range(13) if cnt[r])
    s = sorted(cnt, reverse=True)
    if s[0] == 4: return 8
    if s[0] == 3 and s[1] >= 2: return 7
    if straight(m): return 5
    if s[0] == 3: return 4
    if s[0] == 2 and s[1] == 2: return 3
    return 2 if s[0] == 2 else 1

def hist(c): return 1 << (32 * c)

X = 1 << 512

def poly(n):
    """sum over the rank multisets, weight X for each card of one suit"""
    co = [1, 3 + X, 3 + 3 * X, 1 + 3 * X, X]
    cnt = [0] * 13
    def go(r, left):
        if left == 0:
            return hist(cat_ranks(cnt))
        if r == 13:
            return 0
        t = 0
        for j in range(min(4, left) + 1):
            cnt[r] = j
            t += co[j] * go(r + 1, left - j)
        cnt[r] = 0
        return t
    return go(0, n)

def suit(a):
    """sum over the flushes of a cards in one suit"""
    from itertools import combinations
    return sum(hist(9 if straight(sum(1 << r for r in c)) else 6) for c in combinations(range(13), a))

out = []
w = out.append
w("import Verif.Proofs.Frequencies")
w("/-! Generated by tools/gen_freq.py. Sums over all rank multisets and over all flushes of one suit. -/")
w("namespace Pokers.Kernel\n")
w("set_option maxRecDepth 100000\n")
tot = {}
fl = {}
for a in (5, 6, 7):
    fl[a] = suit(a)
    w(f"theorem suit{a} : sumSuit leafSuit suitKeys {a} 0 0 0 = {fl[a]} := by decide +kernel\n")
for n in (5, 6, 7):
    p = poly(n)
    d = [(p >> (512 * a)) % X for a in range(8)]
    w(f"theorem poly{n} : sumPoly (Nat.shiftLeft 1 512) leafPlain rankKeys {n} 0 = digits512\n    [" + ",\n     ".join(map(str, d)) + "] := by decide +kernel\n")
    t = sum(d) - 4 * sum(d[5:]) + 4 * sum(comb(39, n - a) * fl[a] for a in range(5, n + 1))
    tot[n] = [(t >> (32 * c)) % (1 << 32) for c in range(1, 10)]
    assert sum(tot[n]) == comb(52, n), (n, tot[n])
    assert sum(hist(c) * tot[n][c - 1] for c in range(1, 10)) == t
w("end Pokers.Kernel")
open('/verif/lean/Verif/Proofs/FreqPieces.lean', 'w').write("\n".join(out) + "\n")
for n in tot: print(n, tot[n])
