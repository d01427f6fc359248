"""Polynomials in brackets of spinors, and certificates that a polynomial is 0 (combinations of the identities of Schouten and of the square of a momentum)."""
from fractions import Fraction as Fr
import itertools
P=(1<<61)-1
# monomial: sorted tuple of (atom, exponent); exponents of masses, couplings and poles may be negative
def mono(d): return tuple(sorted(((a,e) for a,e in d.items() if e),key=lambda x:(isinstance(x[0],tuple),x[0])))
INVERSES=[]   # not empty: inverses are atoms of their own
def inverse(a):
    if isinstance(a,str): return a[1:] if a[0]=='i' else 'i'+a
    assert a[0] in 'DY',a
    return ('Y' if a[0]=='D' else 'D',)+a[1:]
class Poly:
    __slots__=('t',)
    def __init__(s,t=None): s.t=t if t is not None else {}
    def __add__(s,o):
        o=poly(o); r=dict(s.t)
        for m,c in o.t.items():
            v=r.get(m,0)+c
            if v: r[m]=v
            else: r.pop(m,None)
        return Poly(r)
    __radd__=__add__
    def __neg__(s): return Poly({m:-c for m,c in s.t.items()})
    def __sub__(s,o): return s+(-poly(o))
    def __rsub__(s,o): return poly(o)-s
    def __mul__(s,o):
        o=poly(o); r={}
        for m,c in s.t.items():
            for n,d in o.t.items():
                q=dict(m)
                for a,e in n: q[a]=q.get(a,0)+e
                k=mono(q); v=r.get(k,0)+c*d
                if v: r[k]=v
                else: r.pop(k,None)
        return Poly(r)
    __rmul__=__mul__
    def inv(s):
        assert len(s.t)==1,s.t
        (m,c),=s.t.items()
        if INVERSES: return Poly({mono({inverse(a):e for a,e in m}):Fr(1)/c})
        return Poly({tuple((a,-e) for a,e in m):Fr(1)/c})
    def __truediv__(s,o): return s*poly(o).inv()
    def __rtruediv__(s,o): return poly(o)*s.inv()
    def __pow__(s,n):
        r=poly(1)
        for _ in range(n): r=r*s
        return r
    def __bool__(s): return bool(s.t)
def poly(x): return x if isinstance(x,Poly) else Poly({():Fr(x)} if x else {})
def atom(a): return Poly({((a,1),):Fr(1)})
class Kin:
    """brackets of the legs 0..3 with masses `m` (polynomials); `dots[(i,j)]`: scalar products"""
    def __init__(s,m,spin,dots=None): s.m=m; s.spin=spin; s.dots=dots
    def ab(s,i,j): return poly(0) if i==j else atom(('a',i,j)) if i<j else -atom(('a',j,i))
    def sb(s,i,j): return poly(0) if i==j else atom(('s',i,j)) if i<j else -atom(('s',j,i))
    def mb(s,i,q,j):
        if q==j: return -(s.m[j]*s.sb(i,j))
        if q==i: return -(s.m[i]*s.ab(j,i))
        k=max(x for x in range(4) if x not in(i,j))
        if q==k:
            sg=lambda x:1 if x<2 else -1
            return sum((-sg(x)*sg(k)*s.mb(i,x,j) for x in range(4) if x!=k),poly(0))
        return atom(('m',i,q,j))
    def mbs(s,i,q,j): return sum((c*s.mb(i,x,j) for x,c in q.items()),poly(0))
    def dot(s,i,j): return s.m[i]*s.m[i] if i==j else s.dots[(min(i,j),max(i,j))]
    def dots2(s,q,r): return sum((c*d*s.dot(x,y) for x,c in q.items() for y,d in r.items()),poly(0))
def reconstruct(x):
    a,b=P,x%P; u,v=0,1
    while b*b*2>P: q=a//b; a,b=b,a-q*b; u,v=v,u-q*v
    assert v and abs(v)<10**6 and abs(b)<10**7,(x,b,v)
    return Fr(b,v)
def md(c): return c.numerator%P*pow(c.denominator,P-2,P)%P if isinstance(c,Fr) else c%P
def solve(cols,rhs):
    """combination of columns (dicts) equal to rhs, sparse as the order of the columns gives; None if there is none"""
    piv={}  # row -> (reduced column, combination)
    def red(v,comb):
        while True:
            r=None
            for k in v:
                if k in piv: r=k;break
            if r is None: return
            f=v[r]; w,cw=piv[r]
            for k,x in w.items():
                y=(v.get(k,0)-f*x)%P
                if y: v[k]=y
                else: v.pop(k,None)
            for k,x in cw.items():
                y=(comb.get(k,0)-f*x)%P
                if y: comb[k]=y
                else: comb.pop(k,None)
    for n,c in enumerate(cols):
        v={k:md(x) for k,x in c.items()}; comb={n:1}
        red(v,comb)
        if not v: continue
        r=next(iter(v)); f=pow(v[r],P-2,P)
        v={k:x*f%P for k,x in v.items()}; comb={k:x*f%P for k,x in comb.items()}
        # keep reduced form
        for q,(w,cw) in list(piv.items()):
            if r in w:
                g=w[r]
                for k,x in v.items():
                    y=(w.get(k,0)-g*x)%P
                    if y: w[k]=y
                    else: w.pop(k,None)
                for k,x in comb.items():
                    y=(cw.get(k,0)-g*x)%P
                    if y: cw[k]=y
                    else: cw.pop(k,None)
        piv[r]=(v,comb)
    v={k:md(x) for k,x in rhs.items()}; comb={}
    red(v,comb)
    if v: return None
    return {k:reconstruct(P-x) for k,x in comb.items()}
