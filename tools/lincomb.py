# polynomials: dict monomial(tuple sorted var names)->Fraction
from fractions import Fraction as F
def V(n): return {(n,):F(1)}
def C(c): return {():F(c)} if c else {}
def add(a,b,s=1):
    r=dict(a)
    for k,v in b.items():
        r[k]=r.get(k,0)+s*v
        if r[k]==0: del r[k]
    return r
def sub(a,b): return add(a,b,-1)
def mul(a,b):
    r={}
    for k,v in a.items():
        for l,w in b.items():
            m=tuple(sorted(k+l)); r[m]=r.get(m,0)+v*w
    return {k:v for k,v in r.items() if v}
class P:
    def __init__(s,d): s.d=d
    def __add__(s,o): return P(add(s.d,tp(o).d))
    __radd__=__add__
    def __sub__(s,o): return P(sub(s.d,tp(o).d))
    def __rsub__(s,o): return tp(o)-s
    def __mul__(s,o): return P(mul(s.d,tp(o).d))
    __rmul__=__mul__
    def __neg__(s): return P({k:-v for k,v in s.d.items()})
def tp(o): return o if isinstance(o,P) else P(C(o))
def solve(target,basis):
    """target = sum c_i basis_i ; basis list of P; returns coefs or None"""
    monos=sorted({k for b in basis for k in b.d}|set(target.d))
    rows=[[b.d.get(m,F(0)) for b in basis]+[target.d.get(m,F(0))] for m in monos]
    n=len(basis); piv=[];r=0
    for c in range(n):
        p=next((i for i in range(r,len(rows)) if rows[i][c]),None)
        if p is None: continue
        rows[r],rows[p]=rows[p],rows[r]
        iv=1/rows[r][c]; rows[r]=[x*iv for x in rows[r]]
        for i in range(len(rows)):
            if i!=r and rows[i][c]:
                f=rows[i][c]; rows[i]=[x-f*y for x,y in zip(rows[i],rows[r])]
        piv.append(c); r+=1
    for i in range(r,len(rows)):
        if rows[i][n]: return None
    sol=[F(0)]*n
    for i,c in enumerate(piv): sol[c]=rows[i][n]
    return sol
