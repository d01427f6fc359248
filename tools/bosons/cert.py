"""Amplitudes of classes with four bosons as polynomials, compared with the Feynman rules: certificates."""
from poly import *
from gen import *
from rows import legs,pars
import sys,functools
class Sym:
    """a class and its reaction in polynomials"""
    def __init__(s,C):
        s.C=C; M={'MW':atom('MW'),'MZ':atom('MZ'),'MH':atom('MH')}
        s.M=M; bm={'h':M['MH'],'Z':M['MZ'],'W+':M['MW'],'W-':M['MW'],'A':poly(0)}
        s.bm=bm; s.mass=[bm[C.legs[k][0]] for k in range(4)]
        tot=sum((x*x for x in s.mass),poly(0))
        man={'s':atom('S'),'t':atom('T')}; man['u']=tot-man['s']-man['t']; s.man=man
        m=s.mass; d={}
        for ch,sg,prs in (('s',1,((0,1),(2,3))),('t',-1,((0,2),(1,3))),('u',-1,((0,3),(1,2)))):
            for i,j in prs: d[(i,j)]=sg*(man[ch]-m[i]*m[i]-m[j]*m[j])*Fr(1,2)
        s.K=Kin(m,C.vec,d)
    def norm(s,p):
        """e^2 = g^2 SW^2, SW^2 = 1 - MW^2/MZ^2, R2^2 = 2"""
        r=poly(0); W=s.M['MW']*s.M['MW']/(s.M['MZ']*s.M['MZ'])
        ws={dict(m).get('SW',0) for m in p.t}; keep=len(ws)==1
        for m,c in p.t.items():
            d=dict(m); e=d.pop('e',0); w=d.pop('SW',0)+e; q=d.pop('R2',0)
            c=c*Fr(2)**(q//2)
            if q%2: d['R2']=1
            if keep: d['e']=e; d['SW']=w-e; r=r+Poly({mono(d):c}); continue
            d['g']=e
            assert w%2==0 and w>=0,w
            r=r+Poly({mono(d):c})*(1-W)**(w//2)
        return r
    # ---- the code
    def ev(s,e,L,mr,mc,vf):
        h=e[0]; r=lambda x:s.ev(x,L,mr,mc,vf)
        if h=='lit': return poly(e[1])
        if h=='dec': return poly(Fr(e[1],10**e[2]))
        if h=='mem': return (mr if e[1][0]=='r' else mc)(e[2])
        if h=='loc': return L[(e[1][0],e[2])]
        if h=='add': return r(e[1])+r(e[2])
        if h=='sub': return r(e[1])-r(e[2])
        if h in('mul','smul'): return r(e[1])*r(e[2])
        if h in('div','divr'): return r(e[1])/r(e[2])
        if h=='neg': return -r(e[1])
        if h=='ofR': return r(e[1])
        if h=='pow': return r(e[1])**e[2]
        if h=='sqrt':
            x=r(e[1])
            if x.t==poly(2).t: return atom('R2')
            assert not (x-(1-atom('SW')*atom('SW'))); return s.M['MW']/s.M['MZ']
        if h=='v': return vf(e[1],[L[('i',x[1])] for x in e[2][1]])
        raise Exception(h)
    def poleName(s,k):
        pr,v=s.C.den[k]; m=s.prop[pr]; ch={('add',0,1):'s',('sub',0,2):'t',('sub',0,3):'u'}[v]
        for n,x in (('h','MH'),('Z','MZ'),('W','MW')):
            if not (m-s.M[x]): return n,ch
        assert not m; return 'A',ch
    def code(s):
        C=s.C; par={'e':atom('e'),'SW':atom('SW'),**s.M}
        Lp={('r',k):par.get(q,atom(q)) for k,q in enumerate(C.pars)}
        r={}; s.prop={}
        for ins in C.d['ctor'][1]:
            if ins[0]=='set': r[ins[2]]=s.ev(ins[3],Lp,lambda n:r[n],None,None)
            elif ins[0] in('prop','propMass'): s.prop[ins[1]]=s.ev(ins[2],Lp,lambda n:r[n],None,None)
        def vf(a,js):
            t,k,mid,l=C.sprod[a]
            assert js==[k,l]
            if not mid: return (s.K.ab if t else s.K.sb)(k,l)
            return s.K.mb(l,mid[0],k) if t else s.K.mb(k,mid[0],l)
        L={}
        for q,k in enumerate(C.args): L[('i',q)]=k
        def run(sts):
            for q in sts:
                if q[0]=='set' and q[3][0]=='norm': L[('r',q[2])]=poly(1)
                elif q[0]=='set': L[(q[1][0],q[2])]=s.ev(q[3],L,lambda n:r[n],lambda n:atom(('D',)+s.poleName(n)),vf)
                elif q[0]=='seti': pass
                elif q[0]=='spins':
                    for t in q[1][1]:
                        k=C.args[t[1][0]]; a,b=t[1][1] if isinstance(t[1][1],tuple) else (t[1][1],t[1][2])
                        L[('i',a)]=L[('i',b)]=k
                elif q[0]=='loop': run(flat(q[6]))
                elif q[0]=='ret': return s.ev(q[2],L,lambda n:r[n],lambda n:atom(('D',)+s.poleName(n)),vf)
        x=run(flat(C.d['m_amp'][1][1]))
        return x if x is not None else L[('c',0)]
    # ---- the rules; vectors: {('k',q):c, ('e',i):c}
    def con(s,u,v):
        r=poly(0)
        for (a,x),c in u.items():
            for (b,y),d in v.items():
                if a=='k' and b=='k': w=s.K.dot(x,y)
                elif a=='e' and b=='e': w=-(s.K.ab(x,y)*s.K.sb(x,y))*Fr(1,2)
                else:
                    q,i=(x,y) if a=='k' else (y,x); w=s.K.mb(i,q,i)*Fr(1,2)
                r=r+poly(c)*d*w
        return r
    @staticmethod
    def lin(*ts):
        o={}
        for c,v in ts:
            for b,x in v.items(): o[b]=o.get(b,poly(0))+poly(c)*x
        return o
    def line(s,n):
        b=s.C.legs[n][0]; sg=1 if n<2 else -1
        return (b if n<2 else anti(b),{('k',n):poly(sg)},{('e',n):poly(1)} if n in s.C.vec else {})
    def g3(s,a,b,c):
        e=atom('e'); z=e*s.M['MW']/(s.M['MZ']*atom('SW'))
        for x,v in (('A',e),('Z',z)):
            t=(a,b,c)
            if t in(('W-','W+',x),('W+',x,'W-'),(x,'W-','W+')): return v
            if t in(('W+','W-',x),('W-',x,'W+'),(x,'W+','W-')): return -v
        return poly(0)
    def h2(s,a,b):
        iv=s.iv
        if (a,b)==('Z','Z'): return 2*s.M['MZ']**2*iv
        if (a,b) in(('W+','W-'),('W-','W+')): return 2*s.M['MW']**2*iv
        return poly(0)
    @property
    def iv(s): return atom('e')/(2*s.M['MW']*atom('SW'))
    def ym(s,a,b):
        ka,ea,kb,eb=a[1],a[2],b[1],b[2]
        return s.lin((s.con(ea,eb),ka),(-s.con(ea,eb),kb),(s.con(s.lin((1,ka),(2,kb)),ea),eb),(-s.con(s.lin((2,ka),(1,kb)),eb),ea))
    def tH(s,a,b):
        if a[0]==b[0]=='h': return -3*s.M['MH']**2*s.iv
        return s.h2(a[0],b[0])*s.con(a[2],b[2])
    def tV(s,a,b,x):
        if a[0]=='h': return s.lin((s.h2(b[0],anti(x)),b[2]))
        if b[0]=='h': return s.lin((s.h2(a[0],anti(x)),a[2]))
        return s.lin((s.g3(a[0],b[0],anti(x)),s.ym(a,b)))
    def med(s,a,b,d,e):
        q=s.lin((1,a[1]),(1,b[1])); ch=s.C.channel(list(a[1])[0][1],list(b[1])[0][1])
        r=s.tH(a,b)*s.tH(d,e)/atom(('D','h',ch))
        for x in('A','Z','W+','W-'):
            J=s.tV(a,b,x); K=s.tV(d,e,anti(x))
            if not any(map(bool,J.values())) or not any(map(bool,K.values())): continue
            v=-s.con(J,K)
            if x!='A': v=v+s.con(q,J)*s.con(q,K)/s.bm[x]**2
            r=r+v/atom(('D',x[0],ch))
        return r
    def sea(s,a,b,d,e): return s.h2(d[0],e[0])*s.iv*s.con(d[2],e[2]) if a[0]==b[0]=='h' else poly(0)
    def g4(s,a,b,d,e):
        g=sum((s.g3(a[0],b[0],anti(x))*s.g3(d[0],e[0],x) for x in('A','Z','W+','W-')),poly(0))
        return g*(s.con(a[2],d[2])*s.con(b[2],e[2])-s.con(a[2],e[2])*s.con(b[2],d[2]))
    def rules(s):
        a,b,d,e=[s.line(n) for n in range(4)]
        t=-3*s.M['MH']**2*s.iv**2 if all(x[0]=='h' for x in(a,b,d,e)) else poly(0)
        t=t+s.sea(a,b,d,e)+s.sea(a,d,b,e)+s.sea(a,e,b,d)+s.sea(b,d,a,e)+s.sea(b,e,a,d)+s.sea(d,e,a,b)
        t=t+s.g4(a,b,d,e)+s.g4(a,d,b,e)+s.g4(a,e,b,d)
        t=t-s.med(a,b,d,e)-s.med(a,d,b,e)-s.med(a,e,b,d)
        w=poly(1)
        for k in s.C.vec: w=w*atom('R2')/s.mass[k]
        return w*t
def splitPoles(p):
    o={}
    for m,c in p.t.items():
        d=[a for a,e in m if isinstance(a,tuple) and a[0]=='D']
        k=d[0] if d else None
        assert len(d)<2
        n=tuple((a,e) for a,e in m if a!=k)
        o.setdefault(k,{})[n]=c
    return {k:Poly(v) for k,v in o.items()}
# ---- identities
def slots(m,n=4):
    v=[0]*4; d=0
    for a,e in m:
        if isinstance(a,tuple) and a[0] in 'asm':
            v[a[1]]+=e; v[a[-1]]+=e; d+=e*(2 if a[0]=='m' else 1)
        elif a in('S','T'): d+=2*e
        elif a in('MW','MZ','MH'): d+=e
    return tuple(v),d
def grade(p):
    g={slots(m) for m in p.t}
    assert len(g)==1,(g,len(p.t)); return g.pop()
def identities(S):
    """(name, arguments, polynomial that is 0)"""
    K=S.K; V=S.C.vec; o=[]
    import itertools as it
    if len(V)==4:
        a,b,c,d=V
        for nm,f in (('ab',K.ab),('sb',K.sb)): o.append((nm,(a,b,c,d),f(a,b)*f(c,d)-f(a,c)*f(b,d)+f(a,d)*f(b,c)))
    mom={('p',k):{k:1} for k in range(4)}
    mom.update({('q','s'):{0:1,1:1},('q','t'):{0:1,2:-1},('q','u'):{0:1,3:-1}})
    for s in V:
        for q in range(4):
            for a,b,c in it.combinations(V,3):
                o.append(('left',(s,q,a,b,c),K.ab(a,b)*K.mb(s,q,c)+K.ab(b,c)*K.mb(s,q,a)+K.ab(c,a)*K.mb(s,q,b)))
                o.append(('right',(a,b,c,q,s),K.sb(a,b)*K.mb(c,q,s)+K.sb(b,c)*K.mb(a,q,s)+K.sb(c,a)*K.mb(b,q,s)))
    for qn,q in mom.items():
        sq=S.mass[qn[1]]**2 if qn[0]=='p' else S.man[qn[1]]
        for s,t in it.combinations(V,2):
            for a,b in it.combinations(V,2):
                o.append(('det',(s,t,qn,a,b),K.mbs(s,q,a)*K.mbs(t,q,b)-K.mbs(s,q,b)*K.mbs(t,q,a)+sq*K.sb(s,t)*K.ab(a,b)))
    r=[];seen=set()
    for x in o:
        if not x[2]: continue
        k=frozenset(x[2].t.items()); k2=frozenset((-x[2]).t.items())
        if k in seen or k2 in seen: continue
        seen.add(k); r.append(x)
    return r
def brackets(S):
    o=set()
    for i in S.C.vec:
        for j in S.C.vec:
            for p in [S.K.ab(i,j),S.K.sb(i,j)]+[S.K.mb(i,q,j) for q in range(4)]:
                for m in p.t:
                    for a,e in m:
                        if isinstance(a,tuple): o.add(a)
    return sorted(o)
def bmonos(S,sl,D):
    """monomials in brackets with these slots and dimension at most D"""
    B=brackets(S); ends=lambda a:(a[1],a[-1])
    out=[]
    def go(rest,lo,cur,d):
        if d>D: return
        if not any(rest): out.append((cur,d)); return
        k=next(i for i in range(4) if rest[i])
        for n in range(len(B)):
            a=B[n]; x,y=ends(a)
            if min(x,y)!=k: continue
            r=list(rest); r[x]-=1; r[y]-=1
            if min(r)<0: continue
            # order: among atoms with the same least end keep nondecreasing
            if lo is not None and lo[0]==k and n<lo[1]: continue
            go(tuple(r),(k,n),cur+(a,),d+(2 if a[0]=='m' else 1))
    go(tuple(sl),None,(),0)
    return out
def scal(names,D):
    """monomials of dimension D in masses (dimension 1) and S, T (dimension 2)"""
    if D<0: return []
    if not names: return [()] if D==0 else []
    n=names[0]; w=2 if n in('S','T') else 1; o=[]
    for e in range(D//w+1):
        for r in scal(names[1:],D-w*e): o.append(((n,e),)+r if e else r)
    return o
def prod(b,sc):
    d=dict(sc)
    for a in b: d[a]=d.get(a,0)+1
    return Poly({mono(d):Fr(1)})
def clear(v):
    """v times the least monomial of masses that leaves no negative power, and that monomial"""
    lo={}
    for m in v.t:
        for x,e in m:
            if e<0: lo[x]=min(lo.get(x,0),e)
    f=Poly({mono({x:-e for x,e in lo.items()}):Fr(1)})
    return v*f,f
def rest(p):
    """common power of coupling and sqrt 2"""
    c=None
    for m in p.t:
        x=tuple((a,e) for a,e in m if a in('g','R2','e','SW')); assert c in(None,x); c=x
    return c
def cert(S,I,v,D=None,names=None):
    """v = D * X + sum of cofactors * identities: (X, [(identity, cofactor)])"""
    w,f=clear(v); c=rest(w); C=Poly({c:Fr(1)}); w=w/C
    sl,dim=grade(w)
    if names is None: names=sorted({a for m in w.t for a,e in m if isinstance(a,str)})
    cols=[];what=[]
    if D is not None:
        for b,d in bmonos(S,sl,dim-2):
            for sc in scal([x for x in names if x not in('S','T')],dim-2-d):
                x=prod(b,sc); cols.append((D*x).t); what.append((None,x))
    for n,(nm,args,p) in enumerate(I):
        s2,d2=grade(p)
        r=tuple(x-y for x,y in zip(sl,s2))
        if min(r)<0 or d2>dim: continue
        for b,d in bmonos(S,r,dim-d2):
            for sc in scal(names,dim-d2-d):
                x=prod(b,sc); cols.append((p*x).t); what.append((n,x))
    sol=solve(cols,w.t)
    if sol is None: return None,len(cols)
    X=poly(0); o={}
    for k,c2 in sol.items():
        n,x=what[k]
        if n is None: X=X+c2*x
        else: o[n]=o.get(n,poly(0))+c2*x
    X=X*C/f; o={n:x*C/f for n,x in o.items()}
    chk=v-(D*X if D is not None else 0)-sum((x*I[n][2] for n,x in o.items()),poly(0))
    assert not chk
    return X,o
if __name__=='__main__':
    import time
    from rows import SIGN
    G={'ZZZZ':-1,'hhZZ':-1,'hZZh':1,'hhWW':-1,'hWWh':1,'hhhh':-1,'ZZWW':-1,'ZWZW':-1,'WWWW':1,'WWWW2':1,'ZWWh':1,'ZhWW':-1}
    for n in sys.argv[1:]:
        C=Cl(n,legs(n),pars(n),1); S=Sym(C); a=S.code(); b=S.rules(); sg=G[n]
        I=identities(S); print(n,len(I),'identities')
        d=splitPoles(a-sg*b); tot=d.pop(None,poly(0))
        for k,v in d.items():
            v=S.norm(v); t0=time.time()
            if not v: continue
            D=None
            if n not in('ZhWW','ZWWh'): D=S.man[k[2]]-({'h':S.M['MH'],'W':S.M['MW'],'Z':S.M['MZ'],'A':poly(0)}[k[1]])**2
            r=cert(S,I,v,D)
            print(k,'%.1fs'%(time.time()-t0),r if r[0] is None else (len(r[0].t),{I[q][:2]:len(x.t) for q,x in r[1].items()}))
            if r[0] is not None: tot=tot+r[0]
        tot=S.norm(tot)
        print(len(tot.t),tot.t if tot and len(tot.t)<10 else '')
