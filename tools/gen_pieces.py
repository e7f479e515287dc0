#!/usr/bin/env python3
"""Generates the kernel-checked pieces of the whole-table computations (one theorem per number of aces and kings)."""
import os
D=os.path.join(os.path.dirname(os.path.abspath(__file__)),'..','lean','Verif','Proofs')
def piece(mod,leaf,n,name,dep='KernelTools'):
    s=f"import Verif.Proofs.{dep}\nimport Mathlib.Tactic.IntervalCases\n/-! Generated by tools/gen_pieces.py. Kernel computation over every rank multiset, in pieces. -/\nnamespace Pokers.Kernel\n\n"
    R=[(a,k,q) for a in range(5) for k in range(5) for q in range(5)]
    for a,k,q in R:
        if a+k+q<=n:
            s+=f"theorem {name}_{a}{k}{q} : forCounts {leaf} ranksRev3 {n-a-k-q} {a*4801683+k*4780561+q*4767972} [{q}, {k}, {a}] = true := by\n  decide +kernel\n"
    s+=f"\ntheorem {name} : forCounts {leaf} ranksRev {n} 0 [] = true := by\n  apply forCounts_split\n  intro a ha k hk q hq h\n  interval_cases a <;> interval_cases k <;> interval_cases q\n"
    for a,k,q in R:
        if a+k+q<=n:
            s+=f"  · exact {name}_{a}{k}{q}\n"
        else:
            s+="  · exact absurd h (by decide)\n"
    s+="\nend Pokers.Kernel\n"
    open(os.path.join(D,mod+'.lean'),'w').write(s)
# the imports between the pieces only keep the memory-hungry modules from being built at the same time
piece('TableBig7','leafBig',7,'big7')
piece('TableBig6','leafBig',6,'big6','TableBig7')
piece('TableCode','leafCode',5,'code5')
piece('TableMono','leafMono',5,'mono5','TableCode')
piece('TableNoFlush','leafNoFlush',6,'noFlush6','TableMono')
piece('TableBounds','leafBounds',7,'bounds7','TableNoFlush')
