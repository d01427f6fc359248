"""Classes with one fermion line and massless bosons: amplitudes as polynomials, compared with the Feynman rules for each helicity.

The polarisation vectors are those of a reference spinor r: for positive helicity the vector of r and the square spinor, for negative helicity the vector of the angle spinor and r."""
from gen import *
from poly import *
import itertools,sys
LIGHT={'A','g'}
def after(b,f): return f if b=='g' else __import__('gen').after(b,f)
def evalb(c,v):
    """condition on spins"""
    h=c[0]; x=lambda t:t[1] if t[0]=='lit' else v[t[1]]
    if h=='lt': return x(c[1])<x(c[2])
    if h=='and': return evalb(c[1],v) and evalb(c[2],v)
    raise Exception(h)
def pick(st,v):
    """statements, with the branches for the spins v of massless bosons"""
    h=st[0]
    if h=='seq': return pick(st[1],v)+pick(st[2],v)
    if h=='ite': return pick(st[2] if evalb(st[1],v) else st[3],v)
    if h=='loop': return [st[:6]+(('list',pick(st[6],v)),)]
    if h=='skip': return []
    return [st]
def mids(t): return t[2] if isinstance(t[2],list) else list(t[2])
class LCl(Cl):
    """a class with massless bosons"""
    def __init__(s,*a):
        super().__init__(*a)
        s.light=[k for k in s.bos if s.legs[k][0] in LIGHT]; s.nfour=not s.fer
        s.massive=[k for k in range(4) if k not in s.light and k not in s.nu]
        s.heavy=[k for k in range(4) if k not in s.light]
        s.hels=list(itertools.product((2,-2),repeat=len(s.light)))
        s.csets={}
        for ins in s.d['setMomenta'][1]:
            if ins[0]=='set': s.csets[ins[2]]=ins[3]
        s.lv=[]
        for st in flat(s.d['m_amp'][1][1]):
            if st[0]=='loop':
                for t in flat(st[6])[0][1][1]:
                    x,y=t[1][1] if isinstance(t[1][1],tuple) else (t[1][1],t[1][2])
                    s.lv.append((s.args[t[1][0]],x,y))
    def hname(s,h): return ''.join('P' if x>0 else 'M' for x in h)
    def stmts(s,h): return pick(s.d['m_amp'][1][1],{s.args.index(k):x for k,x in zip(s.light,h)})
class Sym1:
    """spinors: legs 0..3 and 4 + n for the reference spinor of leg n"""
    def __init__(s,C,h):
        s.C=C; s.h=dict(zip(C.light,h))
        A=atom; bm={'h':A('MH'),'Z':A('MZ'),'W+':A('MW'),'W-':A('MW')}
        fm=lambda f:poly(0) if f=='ne' else A('m'+f)
        s.fm=fm; s.bm=bm; s.Z='Z' in [x[0] for x in C.legs]
        if INVERSES: bm['Z']=A('MW')*A('iCW')
        s.mass=[poly(0) if k in C.light else bm[C.legs[k][0]] if k in C.bos else fm(C.legs[k][0]) for k in range(4)]
        # denominators: (massless leg, leg) -> denominator of the code and sign
        s.pole={}
        s.findpoles()
    def findpoles(s):
        C=s.C; CHN={('add',0,1):((0,1),(2,3),1),('sub',0,2):((0,2),(1,3),-1),('sub',0,3):((0,3),(1,2),-1)}
        for d,(pr,v) in C.den.items():
            p1,p2,sg=CHN[v]
            for n in C.light:
                for pr2 in (p1,p2):
                    if n in pr2:
                        q=pr2[0] if pr2[1]==n else pr2[1]
                        if q in C.light: continue
                        s.pole.setdefault((n,q),(d,sg))
    def D(s,d): return atom(('D',d))
    def ab(s,i,j): return poly(0) if i==j else atom(('a',i,j)) if i<j else -atom(('a',j,i))
    def sb(s,i,j): return poly(0) if i==j else atom(('s',i,j)) if i<j else -atom(('s',j,i))
    def elim(s,i,j):
        """leg whose momentum is eliminated between square spinor i and angle spinor j"""
        c=[x for x in s.C.heavy if x not in(i,j)]
        if i==j and i in s.C.light: c=[x for x in c if (i,x) not in s.pole]
        return max(c) if c else None
    def mb(s,i,q,j):
        if q in s.C.light: return s.ab(q,j)*s.sb(i,q)
        if q==j: return -(s.mass[j]*s.sb(i,j))
        if q==i: return -(s.mass[i]*s.ab(j,i))
        if i==j and (i,q) in s.pole: d,sg=s.pole[(i,q)]; return sg*s.D(d)
        k=s.elim(i,j)
        if q==k:
            g=lambda x:1 if x<2 else -1
            return sum((-g(x)*g(k)*s.mb(i,x,j) for x in range(4) if x!=k),poly(0))
        return atom(('m',i,q,j))
    def mbs(s,i,q,j): return sum((c*s.mb(i,x,j) for x,c in q.items()),poly(0))
    # ---- code
    def ev(s,e,L,mr,mc,vf):
        h=e[0]; r=lambda x:s.ev(x,L,mr,mc,vf)
        if h=='lit': return poly(e[1])
        if h=='dec': return poly(Fr(e[1],10**e[2]))
        if h=='mem': return (mr if e[1][0]=='r' else mc)(e[2])
        if h=='loc': return L[(e[1][0],e[2])]
        if h=='add': return r(e[1])+r(e[2])
        if h=='sub': return r(e[1])-r(e[2])
        if h in('mul','smul'): return r(e[1])*r(e[2])
        if h in('div','divr'): return r(e[1])/r(e[2])
        if h=='neg': return -r(e[1])
        if h=='ofR': return r(e[1])
        if h=='pow': return r(e[1])**e[2]
        if h=='sqrt':
            x=r(e[1])
            if x.t==poly(2).t: return atom('R2')
            assert not (x-(1-atom('SW')*atom('SW'))); return atom('CW')
        if h=='v': return vf(e[1])
        raise Exception(h)
    def code(s):
        C=s.C; Lp={}
        for k,q in enumerate(C.pars):
            Lp[('r',k)]=s.fm(q[5:]) if q.startswith('mass') else 2*atom('MW')*atom('SW')/atom('e') if q=='vev' else atom(q)
        r={}
        mr=lambda n:r[n]
        for ins in C.d['ctor'][1]:
            if ins[0]=='set': r[ins[2]]=s.ev(ins[3],Lp,mr,None,None)
        s.r=r
        def mc(n):
            if n in C.den: return s.D(n)
            return s.ev(C.csets[n],{},mr,mc,None)
        def vf(a):
            t,k,mid,l=C.sprod[a]
            if not mid: return (s.ab if t else s.sb)(k,l)
            if len(mid)==1: return s.mb(l,mid[0],k) if t else s.mb(k,mid[0],l)
            assert k==l and len(mid)==2
            return atom(('c',t,k)+tuple(mid))
        L={}
        def run(sts):
            for q in sts:
                if q[0]=='set' and q[3][0]=='norm': L[('r',q[2])]=poly(1)
                elif q[0]=='set': L[(q[1][0],q[2])]=s.ev(q[3],L,mr,mc,vf)
                elif q[0] in('seti','spins'): pass
                elif q[0]=='loop': run(q[6][1])
                elif q[0]=='ret': return s.ev(q[2],L,mr,mc,vf)
        x=run(C.stmts([s.h[k] for k in C.light]))
        x=x if x is not None else L[('c',0)]
        for n in C.light: x=x*(s.ab(4+n,n) if s.h[n]>0 else s.sb(4+n,n))
        return x
    # ---- rules
    def pol(s,n):
        """angle and square label of the polarisation vector"""
        if n not in s.C.light: return n,n
        return (4+n,n) if s.h[n]>0 else (n,4+n)
    def hLR(s,f,b):
        Q={'u':Fr(2,3),'d':Fr(-1,3),'e':Fr(-1),'ne':Fr(0)}[f]; T={'u':Fr(1,2),'d':Fr(-1,2),'e':Fr(-1,2),'ne':Fr(1,2)}[f]
        e=atom('e'); W=atom('SW')
        if b=='A': return e*Q,e*Q
        if b=='g': return atom('gs'),atom('gs')
        if b=='Z': return e/(W*atom('CW'))*(T-Q*W*W),e/(W*atom('CW'))*(-Q*W*W)
        return e/(atom('R2')*W),poly(0)
    def yuk(s,f): return -(s.fm(f)*atom('e')/(2*atom('MW')*atom('SW')))
    def compton(s,u,v):
        C=s.C; i,j=C.i,C.j; bu,bv=C.boson(u),C.boson(v); f,g=C.legs[j][0],C.legs[i][0]
        x=after(bu,f)
        if not x or after(bv,x)!=g: return poly(0)
        e=-1 if C.legs[i][1] else 1; e2=-1 if C.legs[j][1] else 1
        q={j:(-1 if C.legs[j][1] else 1),u:(1 if u<2 else -1)}
        m=s.fm(x); A,S=s.pol(u); A2,S2=s.pol(v)
        if bu=='h':
            L,R=s.hLR(x,bv); y=s.yuk(f)
            t=y*(R*s.ab(A2,i)*s.mbs(S2,q,j)-e*m*L*s.sb(S2,i)*s.ab(j,A2)+e2*(m*R*s.ab(A2,i)*s.sb(j,S2)-e*L*s.sb(S2,i)*s.mbs(j,q,A2)))
        elif bv=='h':
            L,R=s.hLR(f,bu); y=s.yuk(x)
            t=y*(L*s.ab(j,A)*(s.mbs(S,q,i)-e*m*s.sb(S,i))+e2*R*s.sb(j,S)*(m*s.ab(A,i)-e*s.mbs(i,q,A)))
        else:
            L,R=s.hLR(f,bu); L2,R2=s.hLR(x,bv)
            t=L*s.ab(j,A)*(m*R2*s.ab(A2,i)*s.sb(S,S2)-e*L2*s.sb(S2,i)*s.mbs(S,q,A2))+e2*R*s.sb(j,S)*(R2*s.ab(A2,i)*s.mbs(S2,q,A)-e*m*L2*s.sb(S2,i)*s.ab(A,A2))
        return t/s.D(s.chan(j,u)) if t else t
    def chan(s,k,l):
        """denominator of the code in the channel of legs k, l"""
        CHN={'s':('add',0,1),'t':('sub',0,2),'u':('sub',0,3)}
        ch=CHN[s.C.channel(k,l)]
        r=[d for d,(_,v) in s.C.den.items() if v==ch]
        assert len(r)==1,(s.C.n,k,l,r)
        return r[0]
    def annih(s):
        C=s.C; a,b=C.bos; i,j=C.i,C.j; f,g=C.legs[j][0],C.legs[i][0]
        if f==g: return poly(0)
        W='W+' if after('W+',f)==g else 'W-'
        bb=(C.boson(a),C.boson(b)); x=anti(W)
        if 'g' in bb: return poly(0)
        e_=atom('e')
        t=bb+(x,)
        g3=e_ if t in(('W-','W+','A'),('W+','A','W-'),('A','W-','W+')) else -e_
        assert set(t)=={'A','W+','W-'}
        ka={a:(1 if a<2 else -1)}; kb={b:(1 if b<2 else -1)}; q={**ka,**kb}
        A,S=s.pol(a); A2,S2=s.pol(b)
        ee=-(s.ab(A,A2)*s.sb(S,S2))*Fr(1,2)
        e=-1 if C.legs[i][1] else 1; e2=-1 if C.legs[j][1] else 1
        L,R=s.hLR(f,W)
        four=lambda k:e2*R*s.mbs(j,k,i)-e*L*s.mbs(i,k,j)
        pv=lambda A,S:e2*R*s.ab(A,i)*s.sb(j,S)-e*L*s.sb(S,i)*s.ab(j,A)
        J=ee*(four(ka)-four(kb))+s.mbs(S,kb,A)*pv(A2,S2)-s.mbs(S2,ka,A2)*pv(A,S)
        qJ=ee*(s.mass[a]*s.mass[a]-s.mass[b]*s.mass[b])
        return g3*(-J+qJ/(atom('MW')*atom('MW'))*four(q))/s.D(s.chan(a,b))
    def rules(s):
        C=s.C; a,b=C.bos
        t=s.compton(a,b)+s.compton(b,a)+s.annih()
        for k in C.bos:
            if k in C.vec: t=t*atom('R2')/s.mass[k]
            elif k in C.light: t=t*atom('R2')
        return t
    def norm(s,p):
        """R2^2 = 2, MW = MZ CW"""
        r={}
        for m,c in p.t.items():
            d=dict(m); q=d.pop('R2',0); c=c*Fr(2)**(q//2)
            if q%2: d['R2']=1
            if s.Z and 'MW' in d: e=d.pop('MW'); d['MZ']=d.get('MZ',0)+e; d['CW']=d.get('CW',0)+e
            k=mono(d); v=r.get(k,0)+c
            if v: r[k]=v
            else: r.pop(k,None)
        return Poly(r)
    # ---- identities
    def angles(s): return list(range(4)) if 0 else [k for k in range(4) if s.C.legs[k][0]!='h']+[4+n for n in s.C.light if s.h[n]>0]
    def squares(s): return [k for k in range(4) if s.C.legs[k][0]!='h']+[4+n for n in s.C.light if s.h[n]<0]
    def identities(s,chains=(),all_=False):
        o=[]; An,Sq=s.angles(),s.squares(); H=s.C.heavy
        cb=itertools.combinations
        for nm,f,Ls in (('ab',s.ab,An),('sb',s.sb,Sq)):
            for a,b,c,d in cb(Ls,4): o.append((nm,(a,b,c,d),f(a,b)*f(c,d)-f(a,c)*f(b,d)+f(a,d)*f(b,c)))
        for x in Sq:
            for q in H:
                for a,b,c in cb(An,3): o.append(('left',(x,q,a,b,c),s.ab(a,b)*s.mb(x,q,c)+s.ab(b,c)*s.mb(x,q,a)+s.ab(c,a)*s.mb(x,q,b)))
        for x in An:
            for q in H:
                for a,b,c in cb(Sq,3): o.append(('right',(a,b,c,q,x),s.sb(a,b)*s.mb(c,q,x)+s.sb(b,c)*s.mb(a,q,x)+s.sb(c,a)*s.mb(b,q,x)))
        for q in H:
            for x,y in cb(Sq,2):
                for a,b in cb(An,2): o.append(('det',(x,y,q,a,b),s.mb(x,q,a)*s.mb(y,q,b)-s.mb(x,q,b)*s.mb(y,q,a)+s.mass[q]*s.mass[q]*s.sb(x,y)*s.ab(a,b)))
        for n in s.C.light:
            g=lambda x:1 if x<2 else -1
            o.append(('sum',(n,),sum((g(x)*s.mb(n,x,n) for x in range(4)),poly(0))))
        for (_,t,n,q1,q2) in chains:
            c=atom(('c',t,n,q1,q2))
            if not t:
                for x,y in cb(An,2): o.append(('chain',(t,n,q1,q2,x,y),s.ab(x,y)*c+s.mb(n,q2,y)*s.mb(n,q1,x)-s.mb(n,q2,x)*s.mb(n,q1,y)))
            else:
                for x,y in cb(Sq,2): o.append(('chain',(t,n,q1,q2,x,y),s.sb(x,y)*c+s.mb(y,q2,n)*s.mb(x,q1,n)-s.mb(x,q2,n)*s.mb(y,q1,n)))
        if all_: return o
        r=[];seen=set()
        for x in o:
            if not x[2]: continue
            k=frozenset(x[2].t.items()); k2=frozenset((-x[2]).t.items())
            if k in seen or k2 in seen: continue
            seen.add(k); r.append(x)
        return r
    def grade(s,m):
        """counts of massive legs, differences of massless ones, counts of references; dimension"""
        w=[0]*8; d=0
        for a,e in m:
            if isinstance(a,tuple):
                if a[0] in 'as':
                    for x in a[1:]:
                        w[x]+=(e if a[0]=='a' else -e) if x in s.C.light or (x in s.C.nu) else e
                    d+=e
                elif a[0]=='m':
                    i,j=a[1],a[3]
                    w[i]+=-e if i in s.C.light or i in s.C.nu else e; w[j]+=e; d+=2*e
                elif a[0]=='D': d+=2*e
                elif a[0]=='c': w[a[2]]+=(2*e if a[1] else -2*e); d+=3*e
            elif a[0]=='m' or a in('MW','MZ','MH'): d+=e
        return tuple(w),d
    def atoms(s,chains=()):
        o=set(); An,Sq=s.angles(),s.squares()
        ps=[s.ab(i,j) for i in An for j in An]+[s.sb(i,j) for i in Sq for j in Sq]+[s.mb(i,q,j) for i in Sq for q in range(4) for j in An]
        for p in ps:
            for m in p.t:
                for a,e in m:
                    if isinstance(a,tuple): o.add(a)
        return sorted(o)+list(chains)
    def monos(s,w,D,at):
        """monomials in atoms of grade w and dimension at most D"""
        g=[s.grade(((a,1),)) for a in at]; out=[]
        must=[k for k in range(8) if k not in s.C.light and k not in s.C.nu]
        def go(n,w,d,cur):
            if not any(w): out.append((cur,D-d))
            if n==len(at) or d<=0: return
            for q in range(n,len(at)):
                wq,dq=g[q]
                if dq>d: continue
                r=tuple(x-y for x,y in zip(w,wq))
                if any(r[k]<0 for k in must): continue
                if sum(abs(x) for x in r)>2*(d-dq): continue
                go(q,r,d-dq,cur+(at[q],))
        go(0,tuple(w),D,())
        return out
def clearD(v):
    lo={}
    for m in v.t:
        for x,e in m:
            if e<0: lo[x]=min(lo.get(x,0),e)
    f=Poly({mono({x:-e for x,e in lo.items()}):Fr(1)})
    return v*f,f
COUP={'e','SW','CW','R2','gs'}
def scal(names,D):
    if D<0: return []
    if not names: return [()] if D==0 else []
    o=[]
    for e in range(D+1):
        for r in scal(names[1:],D-e): o.append(((names[0],e),)+r if e else r)
    return o
def cert(S,v,I,at):
    """v (polynomial) as combination of identities: for each monomial in couplings"""
    parts={}
    for m,c in v.t.items():
        k=tuple(x for x in m if x[0] in COUP); r=tuple(x for x in m if x[0] not in COUP)
        parts.setdefault(k,{})[r]=c
    # equal parts up to a factor are solved once
    out=poly(0),{}
    tot={}; ncol=0
    for k,t in parts.items():
        gr={S.grade(m) for m in t}
        assert len(gr)==1,(k,gr)
        w,d=gr.pop()
        # common factor in masses
        com=None
        for m in t:
            dm={a:e for a,e in m if isinstance(a,str)}
            com=dm if com is None else {a:min(e,dm.get(a,0)) for a,e in com.items()}
        com={a:e for a,e in (com or {}).items() if e}
        cp=Poly({mono(com):Fr(1)}); t2=(Poly(t)/cp).t; d2=d-sum(com.values())
        names=sorted({a for m in t2 for a,e in m if isinstance(a,str)})
        cols=[];what=[]
        for n,(nm,args,p) in enumerate(I):
            g2={S.grade(m) for m in p.t}; assert len(g2)==1,(nm,args,g2)
            w2,e2=g2.pop()
            nn={a for m in p.t for a,e in m if isinstance(a,str)}
            if e2>d2: continue
            for b,db in S.monos(tuple(x-y for x,y in zip(w,w2)),d2-e2,at):
                for sc in scal(names,d2-e2-db):
                    q=dict(sc)
                    for a in b: q[a]=q.get(a,0)+1
                    x=Poly({mono(q):Fr(1)}); cols.append((p*x).t); what.append((n,x))
        ncol+=len(cols)
        sol=solve(cols,t2)
        if sol is None: return None,(k,len(cols),len(t2))
        K=Poly({k:Fr(1)})*cp
        for q,c in sol.items():
            n,x=what[q]; tot[n]=tot.get(n,poly(0))+c*x*K
    assert not (v-sum((x*I[n][2] for n,x in tot.items()),poly(0)))
    return tot,ncol
def chains(p): return sorted({a for m in p.t for a,e in m if isinstance(a,tuple) and a[0]=='c'})
if __name__=='__main__':
    import time
    from rows import pars
    from lrows import LROWS
    R={r[0]:r for r in LROWS}
    for n in sys.argv[1:] or R:
        C=LCl(*R[n])
        for h in C.hels:
            t0=time.time()
            S=Sym1(C,h); a=S.code(); b=S.rules()
            res=None
            for sg in (1,-1):
                v=S.norm(a-sg*b); v,f=clearD(v)
                v=S.norm(v)
                ch=chains(v); I=S.identities(ch); at=S.atoms(ch)
                res,nc=cert(S,v,I,at)
                if res is not None: break
            print(n,C.hname(h),sg if res is not None else 'NO','%.1fs'%(time.time()-t0),nc,len(v.t),{I[q][:2]:len(x.t) for q,x in res.items()} if res is not None else '',flush=True)
