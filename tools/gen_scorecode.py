#!/usr/bin/env python3
"""Generates the proof certificate Verif/Proofs/ScoreCode.lean: score -> code of the poker strength.
It is not part of the model: the kernel checks it against the tables and the specification."""
import os,sys
sys.argv=['x']
exec(open(os.path.join(os.path.dirname(os.path.abspath(__file__)),'gen_tables.py')).read())
L,F,O=T['LOOKUP'],T['LOOKUP_FLUSH'],T['PERF_HASH_OFFSETS']
RANKS=[8192,32769,69632,237568,593920,1531909,3563520,4300819,4685870,4690024,4767972,4780561,4801683]
def lk(cnt):
    k=sum(a*b for a,b in zip(cnt,RANKS)); return L[(k+O[k>>12])%2**32]
ST=[(t,[t-i for i in range(5)]) for t in range(12,3,-1)]+[(3,[3,2,1,0,12])]
def value(cnt,fl):
    st=next((t for t,rs in ST if all(cnt[r]>=1 for r in rs)),None)
    w=lambda k:[r for r in range(12,-1,-1) if cnt[r]==k]
    n4,n3,n2=len(w(4)),len(w(3)),len(w(2))
    if st is not None and fl: c=9
    elif n4==1:c=8
    elif n3==1 and n2==1:c=7
    elif fl:c=6
    elif st is not None:c=5
    elif n3==1:c=4
    elif n2==2:c=3
    elif n2==1:c=2
    else:c=1
    return [c]+([st] if st is not None else w(4)+w(3)+w(2)+w(1))
def code(v):
    x=v[0]
    for i in range(1,6): x=x*16+(v[i]+1 if i<len(v) else 0)
    return x
def gen(i,left):
    if i==13:
        if left==0: yield []
        return
    for c in range(min(4,left)+1):
        for r in gen(i+1,left-c): yield [c]+r
D={}
for n in range(2,6):
    for c in gen(0,n): D[lk(c)]=code(value(c,False))
for m in range(8192):
    if bin(m).count('1')==5: D[F[m]]=code(value([m>>i&1 for i in range(13)],True))
top=max(D)+1
a=[D.get(i,0) for i in range(top)]
OUT=os.path.join(OUT,'..','Proofs')
write('ScoreCode.lean',emit('scoreCode',a,6,24,"certificate: entry `s` is the code of the strength of hands with score `s`, or 0"))
print(top,len(D))
