#!/usr/bin/env python3
"""Generates lean/Verif/Model/SO3Tables.lean from the literal tables of /repo (decimals, exactly)."""
import re, os
from fractions import Fraction
from decimal import Decimal
G='/repo/gconv/geometry/groups/'
src=open(G+'so3.py').read()
lines=src.split('\n')
def parse(txt):
    # nested lists of decimal literals -> nested lists of Fractions
    toks=re.findall(r'[\[\]]|[-+]?\d+\.?\d*(?:[eE][-+]?\d+)?',txt)
    st=[[]]
    for t in toks:
        if t=='[': st.append([])
        elif t==']':
            x=st.pop(); st[-1].append(x)
        else: st[-1].append(Fraction(Decimal(t)))
    return st[0][0]
def tbl(name):
    m=re.search(r'def %s\(.*?torch\.Tensor\(\s*(\[.*?\])\s*,\s*device'%name,src,re.S)
    a=src[:m.start()].count('\n')+1; b=src[:m.end()].count('\n')+2
    return parse(m.group(1)),a,b
out=["/-! Generated by tools/gen_tables.py from the literals in /repo; do not edit.\n\nRows are the decimal literals scaled to integers. -/\n",
"namespace GConv.SO3.Tables\n",
"/-- a row of four scaled components `[w, x, y, z]`. -/\nstructure Z4 where\n  w : Int\n  x : Int\n  y : Int\n  z : Int\n  deriving DecidableEq, Repr\n",
"/-- a scaled 3x3 matrix, row by row. -/\nstructure Z9 where\n  a : Int\n  b : Int\n  c : Int\n  d : Int\n  e : Int\n  f : Int\n  g : Int\n  h : Int\n  i : Int\n  deriving DecidableEq, Repr\n"]
def emit(name,rows,scale,doc):
    s="/-- %s -/\ndef %s : List %s :=\n  ["%(doc,name,'Z4' if len(rows[0])==4 else 'Z9')
    r=[]
    for q in rows:
        z=[x*scale for x in q]; assert all(x.denominator==1 for x in z)
        r.append("⟨"+", ".join(str(x.numerator) for x in z)+"⟩")
    out.append(s+",\n   ".join(r)+"]\n")
for py,ln in [('identity','identity'),('klein_group','klein'),('tetrahedral','tetrahedral'),('octahedral','octahedral'),('icosahedral','icosahedral')]:
    t,a,b=tbl(py)
    emit(ln,t,10**8,"`%s`, so3.py:%d-%d, scaled by `10^8`."%(py,a,b))
g=open(G+'_grid_cache.py').read()
qa=g.index('"quat"'); ma=g.index('"matrix"')
def entries(a,b):
    res={}
    for m in re.finditer(r'(\d+): Tensor\(\s*(\[.*?\])\s*\)',g[a:b],re.S):
        l0=g[:a+m.start()].count('\n')+1; l1=g[:a+m.end()].count('\n')+1
        res[int(m.group(1))]=(parse(m.group(2)),l0,l1)
    return res
Q=entries(qa,ma); M=entries(ma,len(g))
assert sorted(Q)==list(range(1,25))==sorted(M), (sorted(Q),sorted(M))
print({k:len(v[0]) for k,v in Q.items()}, {k:len(v[0]) for k,v in M.items()})
# the "matrix" entry of size 1 is a bare 3x3 literal
assert len(M[1][0])==3 and len(M[1][0][0])==3 and not isinstance(M[1][0][0][0],list)
for n in sorted(Q):
    t,a,b=Q[n]; emit('quat%d'%n,t,10**11,"cache entry `[\"so3\"][\"quat\"][%d]`, _grid_cache.py:%d-%d, scaled by `10^11`."%(n,a,b))
for n in sorted(M):
    t,a,b=M[n]
    if n==1: rows=[sum(t,[])]
    else: rows=[sum(R,[]) for R in t]
    emit('matrix%d'%n,rows,10**11,"cache entry `[\"so3\"][\"matrix\"][%d]`, _grid_cache.py:%d-%d, scaled by `10^11`%s."%(n,a,b,"; the literal is a bare 3x3 list (shape `(3, 3)`), here its single matrix" if n==1 else ""))
out.append("/-- `_grid_cache[\"so3\"][\"quat\"]`, _grid_cache.py:%d-%d. -/\ndef quatCache : List (Nat × List Z4) :=\n  ["%(g[:qa].count('\n')+1,g[:ma].count('\n'))+", ".join("(%d, quat%d)"%(n,n) for n in range(1,25))+"]\n")
out.append("/-- `_grid_cache[\"so3\"][\"matrix\"]`, _grid_cache.py:%d-%d. -/\ndef matrixCache : List (Nat × List Z9) :=\n  ["%(g[:ma].count('\n')+1,g.count('\n'))+", ".join("(%d, matrix%d)"%(n,n) for n in range(1,25))+"]\n")
out.append("end GConv.SO3.Tables\n")
# statistics
def q2m(q):
    w,x,y,z=q
    return [x*x-y*y-z*z+w*w,2*(x*y-z*w),2*(x*z+y*w),2*(x*y+z*w),-x*x+y*y-z*z+w*w,2*(y*z-x*w),2*(x*z-y*w),2*(y*z+x*w),-x*x-y*y+z*z+w*w]
worst=0
for n in range(2,25):
    for q,R in zip(Q[n][0],M[n][0]):
        worst=max(worst,max(abs(a-b) for a,b in zip(q2m(q),sum(R,[]))))
print('row aligned diff',float(worst))
sep=9
for n in range(2,25):
    t=Q[n][0]
    for i in range(n):
        for j in range(i):
            sep=min(sep,max(abs(a-b) for a,b in zip(q2m(t[i]),q2m(t[j]))))
print('separation',float(sep))
open('/verif/lean/Verif/Model/SO3Tables.lean','w').write("\n".join(out))
