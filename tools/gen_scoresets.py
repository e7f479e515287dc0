#!/usr/bin/env python3
"""Generates the proof certificate Verif/Proofs/ScoreSets.lean: for n = 2..7 the set of the scores of hands of n cards (as a bit set) and,
in the order of the scores, one hand for each of them (six bits per card, the first card lowest, the first hand lowest).
It is not part of the model: the kernel checks it against the tables."""
import os,sys
sys.argv=['x']
exec(open(os.path.join(os.path.dirname(os.path.abspath(__file__)),'gen_tables.py')).read().split('for fn,src')[0])
L,F,O=arr('lookup.rs','LOOKUP')[0],arr('flush_lookup.rs','LOOKUP_FLUSH')[0],arr('hash_offsets.rs','PERF_HASH_OFFSETS')[0]
RANKS=[8192,32769,69632,237568,593920,1531909,3563520,4300819,4685870,4690024,4767972,4780561,4801683]
def lk(cnt):
    k=sum(a*b for a,b in zip(cnt,RANKS)); return L[(k+O[k>>12])%2**32]
def gen(i,left):
    if i==13:
        if left==0: yield []
        return
    for c in range(min(4,left)+1):
        for r in gen(i+1,left-c): yield [c]+r
s=""
for n in range(2,8):
    W={}
    for c in gen(0,n):
        rs=[r for r in range(13) for _ in range(c[r])]
        W.setdefault(lk(c),sorted(4*r+i%4 for i,r in enumerate(rs)))
    for m in range(8192):
        rs=[r for r in range(13) if m>>r&1]
        if 5<=len(rs)<=n:
            h=[4*r for r in rs]
            # fill up with cards of other suits that do not change the flush
            i=1
            while len(h)<n:
                c=4*rs[i]+1; h.append(c); i+=1
            W.setdefault(F[m],sorted(h))
    M=sum(1<<k for k in W)
    P=0
    for j,k in enumerate(sorted(W)):
        x=0
        for i,c in enumerate(W[k]): x|=c<<(6*i)
        P|=x<<(6*n*j)
    s+=f"/-- scores of hands of {n} cards: {len(W)} -/\ndef scoreSet{n} : Nat := 0x{M:x}\n/-- a hand for each of them -/\ndef scoreHands{n} : Nat := 0x{P:x}\n"
    print(n,len(W))
OUT2=os.path.join(OUT,'..','Proofs','ScoreSets.lean')
open(OUT2,'w').write("/-! Generated by tools/gen_scoresets.py - do not edit. -/\nnamespace Pokers.Kernel\n\n"+s+"\nend Pokers.Kernel\n")
