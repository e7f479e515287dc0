#!/usr/bin/env python3
"""Copies the constant tables of /repo into Lean (run once; the output is committed).

Every numeric table is packed into hexadecimal literals: entry k of a chunk is the k-th group of `bits` bits
counted from the least significant end (so the *last* hex digits of a literal are the chunk's first entry).
"""
import re,sys,os
REPO='/repo/src/'
OUT=os.path.join(os.path.dirname(os.path.abspath(__file__)),'..','lean','Verif','Tables')
def arr(f,name):
    t=open(REPO+f).read()
    m=re.search(r'pub const '+name+r': \[\w+; (\d+)\] = \[(.*?)\];',t,re.S)
    a=[int(x) for x in re.findall(r'-?\d+',m.group(2))]
    assert len(a)==int(m.group(1)),(name,len(a))
    l0=t[:m.start()].count('\n')+1; l1=t[:m.end()].count('\n')+1
    return a,l0,l1
def tree(lo,hi,f):
    if hi-lo==1: return f(lo)
    m=(lo+hi)//2
    return f"(.node {m} {tree(lo,m,f)} {tree(m,hi,f)})"
def emit(name,a,logper,bits,doc):
    per=1<<logper; ch=[]
    for i in range(0,len(a),per):
        n=0
        for k,x in enumerate(a[i:i+per]): n|=(x&((1<<bits)-1))<<(bits*k)
        ch.append(n)
    s=""
    for i,c in enumerate(ch): s+=f"def {name}.c{i} : Nat := 0x{c:x}\n"
    s+=f"/-- {doc} -/\ndef {name} : PackedArray :=\n  {{ len := {len(a)}, bits := {bits}, logPer := {logper}, chunks := {tree(0,len(ch),lambda i: f'(.leaf {name}.c{i})')} }}\n"
    return s
HEAD="import Verif.Tables.Packed\n/-! Generated by tools/gen_tables.py - do not edit. -/\nnamespace Pokers\n\n"
def write(fn,body): open(os.path.join(OUT,fn),'w').write(HEAD+body+"\nend Pokers\n")
T={}
for fn,src,name,lp,bits in [('Lookup.lean','lookup.rs','LOOKUP',7,16),('FlushLookup.lean','flush_lookup.rs','LOOKUP_FLUSH',7,16),
        ('HashOffsets.lean','hash_offsets.rs','PERF_HASH_OFFSETS',6,32)]:
    a,l0,l1=arr(src,name); T[name]=a
    write(fn,emit(name,a,lp,bits,f"src/{src}:{l0}-{l1}, `{name}`, {len(a)} entries of {bits} bits"))
body=""
for name in ['MASK_MAP','CARD_MAP']:
    a,l0,l1=arr('map.rs',name); T[name]=a
    body+=emit(name,a,8,16,f"src/map.rs:{l0}-{l1}, `{name}`, {len(a)} entries of type i16 in two's complement (0xffff is -1)")
write('Maps.lean',body)
# string tables
t=open(REPO+'string_lookup.rs').read()
def strs(name):
    m=re.search(r'pub const '+name+r': \[&str; (\d+)\] = \[(.*?)\];',t,re.S)
    a=re.findall(r'"([^"]*)"',m.group(2)); assert len(a)==int(m.group(1))
    return a,t[:m.start()].count('\n')+1,t[:m.end()].count('\n')+1
body=""
for name in ['INDEX_TO_HAND','INDEX_TO_COMBO']:
    a,l0,l1=strs(name)
    parts=[a[i:i+78] for i in range(0,len(a),78)]
    for k,p in enumerate(parts):
        body+=f"def {name}.p{k} : List (List Char) := [\n"+",\n".join("  ["+", ".join("'%s'"%c for c in x)+"]" for x in p)+"]\n"
    body+=f"/-- src/string_lookup.rs:{l0}-{l1}, `{name}`, {len(a)} entries (strings as character lists) -/\ndef {name} : List (List Char) :=\n  "+" ++ ".join(f"{name}.p{k}" for k in range(len(parts)))+"\n"
write('Strings.lean',body)
