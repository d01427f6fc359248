"""Lean text: classes with one fermion line and massless bosons follow the Feynman rules."""
from light import *
from key import CWT,FL,codepoles,sgn,ELIM
from agree import DIV,VT
import os,pickle
CERTS='/root/scratch/certs'
def lab(x): return 'z%d'%x if x<4 else 'ρ%d'%(x-4)
def ang(x): return 'z%d.1'%x if x<4 else 'ρ%d'%(x-4)
def squ(x): return 'z%d.2'%x if x<4 else 'ρ%d'%(x-4)
def latom(a):
    if isinstance(a,str):
        if a[0]=='i': return latom(a[1:])+'⁻¹'
        if a=='R2': return '((√2 : ℝ) : ℂ)'
        if a=='MZ': return '((c.MW : ℂ) / (c.CW : ℂ))'
        if a in('MW','MH','SW','CW','e','gs'): return '(c.%s : ℂ)'%a
        assert a[0]=='m'; return '(c.mass .%s : ℂ)'%a[1:]
    if a[0]=='a': return 'ab %s %s'%(ang(a[1]),ang(a[2]))
    if a[0]=='s': return 'sb %s %s'%(squ(a[1]),squ(a[2]))
    if a[0]=='m': return 'mb %s (p %d) %s'%(squ(a[1]),a[2],ang(a[3]))
    if a[0]=='D': return 'N.c %d'%a[1]
    if a[0]=='Y': return '(N.c %d)⁻¹'%a[1]
    if a[0]=='c': return chain(*a[1:])
def chain(t,n,q1,q2):
    return '(mb (slashUpper (p %d) *ᵥ z%d.1) (p %d) z%d.1)'%(q2,n,q1,n) if t else '(mb z%d.2 (p %d) (slashLower (p %d) *ᵥ z%d.2))'%(n,q1,q2,n)
def ltext(p):
    o=[]
    for m,c in sorted(p.t.items(),key=str):
        num=[];den=[]
        for a,e in m: (num if e>0 else den).append('(%s)'%latom(a)+(' ^ %d'%abs(e) if abs(e)>1 else ''))
        s=' * '.join(['(%d)'%c.numerator]+num)
        if c.denominator>1: den.append('%d'%c.denominator)
        if den: s='%s / (%s)'%(s,' * '.join(den))
        o.append(s)
    return ' + '.join(o) if o else '0'
def split(x,C):
    """polynomial without cancellations; C: common denominator"""
    r=poly(0)
    def one(a,e):
        if a=='MZ': return (atom('MW')*atom('iCW'))**e
        return atom(a)**e
    for m,c in (x*C).t.items():
        t=poly(c)
        for a,e in m: t=t*one(a,e)
        r=r+t
    return r
def lcombine(C,h,sg,ce):
    """linear combination of the identities and of `a * a⁻¹ = 1`"""
    from math import lcm
    import poly as PM
    SY=getattr(C,'sym',Sym1); S=SY(C,h)
    dn={};k=1
    for _,x in ce:
        for m,c in x.t.items():
            k=lcm(k,c.denominator)
            for a,e in m:
                if e<0: dn[a]=max(dn.get(a,0),-e)
    Cm=poly(k)
    for a,e in dn.items(): Cm=Cm*atom(a)**e
    PM.INVERSES.append(1)
    try:
        T=SY(C,h); E=T.code()-sg*T.rules()
        ids={(x[0],x[1]):x[2] for x in T.identities({x[0][1][:0] or ('c',)+x[0][1][:4] for x in ce if x[0][0]=='chain'},True)}
        Ci=split(Cm,poly(1)).inv()
        cs=[]
        for q,(I,x) in enumerate(ce):
            PM.INVERSES.pop(); y=x*Cm; PM.INVERSES.append(1)
            y=split(y,poly(1)); cs.append((y,q)); E=E-y*Ci*ids[(I[0],I[1])]
        def cancel(E):
            R={}
            at=sorted({a for m in E.t for a,_ in m if (isinstance(a,str) and a[0]=='i') or (not isinstance(a,str) and a[0]=='Y')},key=str)
            for ia in at+['sq']:
                a=inverse(ia) if ia!='sq' else None
                r={};E2={}
                def put(D,m,c):
                    v=D.get(m,0)+c
                    if v: D[m]=v
                    else: D.pop(m,None)
                for m,c in E.t.items():
                    d=dict(m)
                    if ia=='iR2':
                        # (√2)⁻¹ = √2 / 2
                        while d.get('iR2',0):
                            d['iR2']-=1; put(r,mono(d),c); d['R2']=d.get('R2',0)+1; c=c/2
                        put(E2,mono(d),c)
                    elif a:
                        n=min(d.get(a,0),d.get(ia,0))
                        if n:
                            d[a]-=n; d[ia]-=n
                            for q in range(n):
                                dd=dict(d); dd[a]=dd.get(a,0)+q; dd[ia]=dd.get(ia,0)+q
                                put(r,mono(dd),c)
                        put(E2,mono(d),c)
                    else:
                        # √2 ^ 2 = 2
                        while d.get('R2',0)>=2:
                            d['R2']-=2; put(r,mono(d),c); c=c*2
                        put(E2,mono(d),c)
                E=Poly(E2)
                if r: R[ia]=Poly(r)
            return E,R
        E0=E; E,R=cancel(E0); mx=None
        if E.t and S.Z:
            # a multiple of SW^2 + CW^2 - 1
            mx=mixed(E); E,R=cancel(E0-mx*(atom('SW')**2+atom('CW')**2-1))
        if E.t:
            print(C.n,h,'left',len(E.t),list(E.t.items())[:5]); return None
    finally: PM.INVERSES.pop()
    o=[]
    if cs: o.append('((%s)) * (%s)'%(' + '.join('(%s) * i%d'%(ltext(lident(ce[q][0],S)[1]*y),q) for y,q in cs),ltext(Ci)))
    nm={}
    if mx: o.append('(%s) * hcs'%ltext(mx)); nm['mix']='hcs'
    for ia,r in R.items():
        n_='x22' if ia=='sq' else 'y'+ia[1:] if isinstance(ia,str) else 'y%d'%ia[1]
        nm[ia]=n_; o.append('(%s) * %s'%(ltext(r),n_))
    return ' + '.join(o) or '(0 : ℂ)',nm
def mixed(E):
    """Y with E = Y * (SW^2 + CW^2 - 1), where inverses are atoms of their own"""
    import poly as PM
    PM.INVERSES.pop()
    def go(m,f):
        d={}
        for a,e in m: b,x=f(a,e); d[b]=d.get(b,0)+x
        return mono(d)
    down=lambda a,e:(inverse(a),-e) if a[0] in 'iY' else (a,e)
    up=lambda a,e:(inverse(a),-e) if e<0 else (a,e)
    r={}
    for m,c in E.t.items(): r[go(m,down)]=c
    R=Poly(r); Y=poly(0); f=atom('SW')**2+atom('CW')**2-1
    while R:
        m=max(R.t,key=lambda m:dict(m).get('SW',0)); assert dict(m).get('SW',0)>-12
        t=Poly({m:R.t[m]})/atom('SW')**2; Y=Y+t; R=R-t*f
    PM.INVERSES.append(1)
    return Poly({go(m,up):c for m,c in Y.t.items()})
def lident(I,S):
    """identity in Lean, and its polynomial before reduction (with sign)"""
    nm,a,_=I
    if nm=='ab': return 'ab_schouten %s %s %s %s'%(ang(a[1]),ang(a[2]),ang(a[3]),ang(a[0])),1
    if nm=='sb': return 'sb_schouten %s %s %s %s'%(squ(a[1]),squ(a[2]),squ(a[3]),squ(a[0])),1
    if nm=='left': x,q,p,r,s=a; return 'mb_schouten_right %s (p %d) %s %s %s'%(squ(x),q,ang(p),ang(r),ang(s)),1
    if nm=='right': p,r,s,q,x=a; return 'mb_schouten_left %s %s %s (p %d) %s'%(squ(p),squ(r),squ(s),q,ang(x)),1
    if nm=='det': x,y,q,p,r=a; return 'mb_det %s %s (p %d) %s %s'%(squ(x),squ(y),q,ang(p),ang(r)),1
    if nm=='sum': return 'mb_three hb z%d.2 z%d.1'%(a[0],a[0]),-1
    if nm=='chain':
        t,n,q1,q2,x,y=a
        if t: return 'chain_angle %s %s z%d.1 (p %d) (p %d) z%d.1'%(squ(x),squ(y),n,q1,q2,n),1
        return 'chain_square %s %s z%d.2 (p %d) (p %d) z%d.2'%(ang(x),ang(y),n,q1,q2,n),1
    raise Exception(nm)
def certificate(C,h):
    os.makedirs(CERTS,exist_ok=True)
    fn='%s/light_%s_%s.pickle'%(CERTS,C.n,C.hname(h))
    if os.path.exists(fn): return pickle.load(open(fn,'rb'))
    S=getattr(C,'sym',Sym1)(C,h); a=S.code(); b=S.rules()
    for sg in (1,-1):
        v=S.norm(a-sg*b); v,f=clearD(v); v=S.norm(v)
        ch=chains(v); I=S.identities(ch); at=S.atoms(ch)
        res,nc=cert(S,v,I,at)
        if res is not None: break
    assert res is not None,(C.n,h)
    r=(sg,[(I[q],x/f) for q,x in res.items()])
    pickle.dump(r,open(fn,'wb'))
    return r
def nospin(C,k): return k in C.nu or k in C.light
def lbody(C,h,mode):
    L={}
    for q,k in enumerate(C.args): L[('i',q)]=('j%d'%(k+1) if mode=='N' else 'z%d'%k)
    if mode=='N': nr=lambda n:'N.r %d'%n; nc=lambda n:'N.c %d'%n; vf=lambda a,js:'N.v %d [%s]'%(a,', '.join(js)); w='w'
    else:
        def nr(n): C.readr.add(n); return 'N.r %d'%n
        def nc(n): C.readc.add(n); return 'N.c %d'%n
        w='((1 : Nat) : ℝ)'
        def vf(a,js):
            t,k,mid,l=C.sprod[a]
            js=list(js); zk='z%d'%k if nospin(C,k) else js.pop(0); zl='z%d'%l if nospin(C,l) else js.pop(0)
            assert not js
            C.vuse.append((a,zk,zl))
            if not mid: return '(%s %s.%d %s.%d)'%(('ab',zk,1,zl,1) if t else ('sb',zk,2,zl,2))
            if len(mid)==1: return '(mb %s.2 (p %d) %s.1)'%((zl,mid[0],zk) if t else (zk,mid[0],zl))
            assert len(mid)==2 and zk==zl
            return chain(t,k,*mid)
    X=('x' if C.vec else '((((0 : Nat) : ℝ) : ℝ) : ℂ)') if mode=='N' else '0'
    def run(sts):
        for q in sts:
            if q[0]=='set' and q[3][0]=='norm': L[('r',q[2])]=w
            elif q[0]=='set' and q[1][0]=='c' and q[2]==0 and q[3]==('ofR',('lit',0)): L[('c',0)]=X
            elif q[0]=='set': L[(q[1][0],q[2])]=T(q[3],L,nr,nc,vf,None,None)
            elif q[0]=='seti': pass
            elif q[0]=='spins':
                for t in q[1][1]:
                    k=C.args[t[1][0]]; a,b=t[1][1]if isinstance(t[1][1],tuple) else (t[1][1],t[1][2])
                    L[('i',a)]='a%d'%k if mode=='N' else 'x%d'%k
                    L[('i',b)]='b%d'%k if mode=='N' else 'y%d'%k
            elif q[0]=='loop': run(q[6][1])
            elif q[0]=='ret': return T(q[2],L,nr,nc,vf)
    r=run(C.stmts(h))
    return r if r is not None else L[('c',0)]
def jnames(C):
    js=[]
    for k in C.args:
        if k in C.light: continue
        js+= ['j%d'%(k+1)] if k in C.fer else ['a%d'%k,'b%d'%k]
    return js
def fargs(C,f=lambda k:'z%d'%k,v=lambda k:['x%d'%k,'y%d'%k],l=lambda k:'z%d'%k):
    o=[]
    for k in range(4):
        if k in C.fer: o.append(f(k))
        elif k in C.vec: o+=v(k)
        elif k in C.light: o.append(l(k))
    return o
def rho(C): return 'rhoVev c v' if C.vev else 'rho c'
def ldefs(C):
    n=C.n;o=[];js=jnames(C)
    wx='(w : ℝ) (x : ℂ) ' if C.vec else ''
    o.append('/-- what the methods of the class see -/')
    o.append('noncomputable abbrev %s.N [FPEnv] (c : Constants)%s (p : Nat → V4 ℝ) : Env := %s.proc.%s (%s.%s) p'%(n,' (v : ℝ)' if C.vev else '',n,'envSet %s'%sorted(C.den) if C.csets else 'env',n,rho(C)))
    C.info={}
    for h in C.hels:
        H=C.hname(h)
        what=' and '.join('%s %s helicity'%({'A':'a photon','g':'a gluon'}[C.legs[k][0]],'of positive' if x>0 else 'of negative') for k,x in zip(C.light,h))
        o.append('/-- %s for %s (SM/%s.cpp) -/'%('the term that `amp` adds for a choice of spinors,' if C.vec else '`amp`',what,n))
        o.append('noncomputable def %s.term%s (N : Env) %s%s: ℂ :=\n  %s'%(n,H,wx,'(%s : Int) '%' '.join(js) if js else '',lbody(C,h,'N')))
        C.readr=set();C.readc=set();C.vuse=[]
        t=lbody(C,h,'form').replace('r §','')
        C.info[h]=(sorted(C.readr),sorted(C.readc),C.vuse)
        o.append('/-- the same with spinors in place of their spins -/')
        o.append('noncomputable def %s.form%s (N : Env) (p : Nat → V4 ℝ) (%s : Pair) : ℂ :=\n  %s'%(n,H,' '.join(fargs(C)),t))
    return o
def lmembers(C,rs): return [('r%d'%k,'N.r %d = %s'%(k,C.r[k].replace(CWT,'c.CW'))) for k in rs]
def cmembers(C,cs): return [('c%d'%k,'N.c %d = %s'%(k,T(C.csets[k],{},lambda n:'N.r %d'%n,lambda n:'N.c %d'%n,None))) for k in cs if k in C.csets]
def lpoles(C):
    C.readc=set(C.den); return codepoles(C)
def polemass(C,q): return C.mass(q)
LFIN='field_simp\n  first | ring1 | (ring_nf; simp only [x22]; ring1) | (ring_nf; simp only [x22, x23, x24]; ring1)'
def lkey(C,h):
    n=C.n;H=C.hname(h);S=Sym1(C,h);o=[];A=o.append
    i,j=C.i,C.j;a,b=C.bos
    rs,cs,_=C.info[h]
    sg,ce=certificate(C,h)
    hyp=['(hc : c.Physical) (hb : Balanced p)']
    mem=lmembers(C,rs)+cmembers(C,cs)
    for nm,t in mem: hyp.append('(%s : %s)'%(nm,t))
    cp=lpoles(C)
    for k,(q,(t,_),_,_,_) in cp.items(): hyp.append('(d%d : %s = N.c %d) (n%d : N.c %d ≠ 0)'%(k,t,k,k,k))
    zs=[k for k in range(4) if C.legs[k][0]!='h']
    hyp.append('{%s : Pair}'%' '.join('z%d'%k for k in zs))
    mas=[k for k in zs if k not in C.light]
    for k in mas: hyp.append('(b%d : Bold (p %d) %s z%d)'%(k,k,C.mass(k),k))
    for k in C.light: hyp.append('(l%d : Light (p %d) z%d)'%(k,k,k))
    for (m,q),(d,s_) in sorted(S.pole.items()): hyp.append('(e%d%d : mb z%d.2 (p %d) z%d.1 = %sN.c %d)'%(m,q,m,q,m,'-' if s_<0 else '',d))
    for k in C.heavy: hyp.append('(q%d : msq (p %d) = %s ^ 2)'%(k,k,C.mass(k)))
    hyp.append('(%s : V2)'%' '.join('ρ%d'%k for k in C.light))
    hs=[k for k in C.bos if k not in C.vec and k not in C.light]
    if hs: hyp.append('(%s : Vec)'%' '.join('E%d'%k for k in hs))
    hel=dict(zip(C.light,h))
    def E0(k):
        if k in C.light: return 'pv ρ%d z%d.2'%(k,k) if hel[k]>0 else 'pv z%d.1 ρ%d'%(k,k)
        return 'pv z%d.1 z%d.2'%(k,k) if k in C.vec else 'E%d'%k
    E=lambda k:E0(k) if E0(k)[0]=='E' else '(%s)'%E0(k)
    wt='(-1 : ℂ)' if sg<0 else '(1 : ℂ)'
    for k in C.vec: wt='(%s * ((√2 / %s : ℝ) : ℂ))'%(wt,C.mass(k))
    for k in C.light: wt='((√2 : ℝ) * %s)'%wt
    bare='%s.react.bare c p %d %d %d %d z%d z%d %s %s'%(n,i,j,a,b,i,j,E(a),E(b))
    lhs='%s.form%s N p %s'%(n,H,' '.join(fargs(C,v=lambda k:['z%d'%k]*2)))
    for k in C.light: lhs+=' * '+('ab ρ%d z%d.1'%(k,k) if hel[k]>0 else 'sb ρ%d z%d.2'%(k,k))
    A('theorem %s.key%s {c : Constants} {p : Nat → V4 ℝ} {N : Env} %s :\n    %s = %s * %s := by'%(n,H,' '.join(hyp),lhs,wt,bare))
    f,g=C.legs[j][0],C.legs[i][0]
    ln=lambda k:'⟨%s, %s, %s⟩'%(BOS[C.boson(k)],C.mom(k),E0(k))
    A('  rw [%s.react.bare_parts c p (i := %d) (j := %d) (a := %d) (b := %d) (x := %s) (y := %s) (k := %s) (k\' := %s) (fun _ => rfl) (fun _ => rfl) (f := .%s) (g := .%s) rfl rfl (l := %s) rfl (e := %s) (e\' := %s) (%s) (%s)]'%(
        n,i,j,a,b,BOS[C.boson(a)],BOS[C.boson(b)],C.mom(a),C.mom(b),f,g,C.along(j),sgn(C,i),sgn(C,j),
        'if_pos rfl' if C.legs[i][1] else 'if_neg Bool.false_ne_true','if_pos rfl' if C.legs[j][1] else 'if_neg Bool.false_ne_true'))
    for u,v in ((a,b),(b,a)):
        bu,bv=C.boson(u),C.boson(v)
        x=after(bu,f)
        tp='h' if bu=='h' else 'v'; tq='h' if bv=='h' else 'v'
        assert x and after(bv,x)==g
        A("  rw [compton_%s%s (f := .%s) (x := .%s) (g := .%s) (h := (rfl : Spec.after %s %s = some %s)) (h' := (rfl : Spec.after %s %s = some %s))%s%s]"%(tp,tq,f,x,g,BOS[bu],FL[f],FL[x],BOS[bv],FL[x],FL[g],' (ha := by simp)' if tp=='v' else '',' (hb := by simp)' if tq=='v' else ''))
    ymr=''
    if f==g or 'g' in (C.legs[a][0],C.legs[b][0]):
        A('  rw [annihilation_none%s (by simp), star_zero, add_zero, %s.form%s]'%(' c _ _ (by rfl)' if a in C.light else "' c _ _ (by rfl)",n,H))
    else:
        W='.wPlus' if after('W+',f)==g else '.wMinus'
        A('  have an := annihilation_charged c (%s) (%s) z%d.1 z%d.2 z%d.1 z%d.2 %s %s (f := .%s) (g := .%s) (x := %s) (by simp) rfl'%(sgn(C,i),sgn(C,j),i,i,j,j,ln(a),ln(b),f,g,W))
        A('  dsimp only at an'); A('  rw [an, %s.form%s]'%(n,H)); A('  clear an')
        A('  rw [lineV_massive (hx := (rfl : Boson.massive %s = true))]'%W)
        for k in (a,b):
            t=('l%d.mb_%s ρ%d'%(k,'plus' if hel[k]>0 else 'minus',k)) if k in C.light else "b%d.mb_zero'"%k
            A('  have T%d := %s'%(k,t if k<2 else 'mb_back_zero (%s)'%t))
        lt=[k for k in (a,b) if k in C.light][0]
        A('  have Q%d := l%d.msq_zero'%(lt,lt))
        if 'ne' in (f,g):
            A('  have kL : c.hL .ne .photon = 0 := by simp [Constants.hL, Flavour.charge_ne]'); A('  have kR : c.hR .ne .photon = 0 := by simp [Constants.hR, Flavour.charge_ne]')
            A('  have hne : c.mass .ne = 0 := hc.neutrino _')
            A('  simp only [kL, kR, Complex.ofReal_zero, zero_mul, mul_zero, zero_div, sub_zero, add_zero, zero_add, sub_self]')
        A('  simp only [toVector, gauge3, Boson.anti, Constants.bosonMass, Constants.bosonWidth, reduceCtorEq, and_self, and_true, and_false, if_true, if_false, lineV_smul, contract_smul, lineV_transverse T%d T%d, four_transverse T%d T%d, msq_backward, q%d, Q%d]'%(a,b,a,b,[k for k in (a,b) if k!=lt][0],lt))
    A('  simp only [%s%slineV_pv, lineV_four, contract_four_pv, contract_pv, mb_plus, mb_backward]'%(', '.join('d%d'%k for k in cp),', ' if cp else ''))
    red=['l%d.mb_eq'%k for k in C.light]
    for k in mas: red+=['b%d.mb_left'%k,'b%d.mb_right'%k]
    red+=['e%d%d'%x for x in sorted(S.pole)]
    for x in S.squares():
        for y in S.angles():
            m=S.elim(x,y)
            if m is not None: red.append('%s hb %s %s'%(ELIM[m],squ(x),ang(y)))
    RED='%s, ab_self, sb_self'%', '.join(red)
    sw=[]
    An,Sq=S.angles(),S.squares()
    for x in range(len(An)):
        for y in range(x+1,len(An)): sw.append('ab_swap %s %s'%(ang(An[x]),ang(An[y])))
    for x in range(len(Sq)):
        for y in range(x+1,len(Sq)): sw.append('sb_swap %s %s'%(squ(Sq[x]),squ(Sq[y])))
    SW=', '.join(sw)
    ids=[]
    for q,(I,x) in enumerate(ce):
        t,_=lident(I,S); ids.append('i%d'%q)
        A('  have i%d := %s'%(q,t))
        if I[0]=='det': A('  rw [q%d] at i%d'%(I[1][2],q))
    at=' at %s ⊢'%' '.join(ids) if ids else ''
    A('  simp only [%s]%s'%(RED,at))
    A('  simp only [%s]%s'%(SW,at))
    fl=sorted({C.legs[k][0] for k in C.fer})
    ff=[]
    for x in fl: ff+=['Flavour.charge_%s'%x,'Flavour.isospin_%s'%x]
    if 'ne' in fl: ff.append('hne')
    A('  simp only [%s, Constants.hL, Constants.hR, Constants.gL, Constants.gR, Constants.yuk, Constants.invVev, %s, ← c.mz]'%(', '.join(x[0] for x in mem) if mem else 'add_zero',', '.join(ff)))
    A('  have xMW : (c.MW : ℂ) ≠ 0 := by exact_mod_cast hc.MW')
    A('  have xSW : (c.SW : ℂ) ≠ 0 := by exact_mod_cast hc.SW')
    A('  have xCW : (c.CW : ℂ) ≠ 0 := by exact_mod_cast hc.CW')
    A('  have x2 : ((√2 : ℝ) : ℂ) ≠ 0 := by exact_mod_cast (Real.sqrt_pos.2 two_pos).ne\'')
    A('  have x22 : ((√2 : ℝ) : ℂ) ^ 2 = 2 := by rw [← Complex.ofReal_pow, Real.sq_sqrt two_pos.le]; norm_num')
    A('  have x23 : ((√2 : ℝ) : ℂ) ^ 3 = 2 * ((√2 : ℝ) : ℂ) := by rw [← x22]; ring')
    A('  have x24 : ((√2 : ℝ) : ℂ) ^ 4 = 4 := by linear_combination (((√2 : ℝ) : ℂ) ^ 2 + 2) * x22')
    if ids and 'Z' in [x[0] for x in C.legs]: A('  try simp only [← c.mz] at %s'%' '.join(ids))
    if ids and 'ne' in fl: A('  try simp only [hne] at %s'%' '.join(ids))
    A('  push_cast%s'%at)
    if C.vev or 'Z' in [x[0] for x in C.legs]: A('  simp only [div_eq_mul_inv, mul_inv, inv_inv]%s'%at)
    lc,nm=lcombine(C,h,sg,ce)
    XN={'iMW':'xMW','iSW':'xSW','iCW':'xCW','iR2':'x2'}
    for ia,x in nm.items():
        if ia=='iR2': A('  have yR2 : ((√2 : ℝ) : ℂ)⁻¹ = ((√2 : ℝ) : ℂ) / 2 := by rw [inv_eq_iff_eq_inv, inv_div, eq_div_iff x2, ← x22]; ring')
        elif ia not in('sq','mix'): A('  have %s := mul_inv_cancel₀ %s'%(x,XN[ia] if isinstance(ia,str) else 'n%d'%ia[1]))
    A('  linear_combination %s'%lc)
    return o
LHEAD='''import Verif.SM.LightRows
import Verif.SM.GluonLine

set_option linter.unusedSimpArgs false
set_option linter.unusedVariables false
set_option linter.unreachableTactic false
set_option linter.unusedTactic false

namespace Spinas.SM.Rows
open Spec Spec.Reaction Props XR Matrix BRow

'''
def lhead(sets,vev=False): return LHEAD.replace('LightRows','VevRows') if vev else LHEAD.replace('GluonLine\n','GluonLine\nimport Verif.SM.SetMembers\n') if sets else LHEAD
def run(n,parts):
    import subprocess,time
    from lrows import LROWS
    R={r[0]:r for r in LROWS}
    C=LCl(*R[n]); t=ldefs(C)
    for h in C.hels: t+=lkey(C,h)
    for p in parts: t+=p(C)
    fn='/tmp/L_%s.lean'%n
    open(fn,'w').write(lhead(C.csets,C.vev)+'\n'.join(t)+'\n\nend Spinas.SM.Rows\n'); t0=time.time()
    q=subprocess.run(['lake','env','lean',fn],cwd='/verif/lean',capture_output=True,text=True)
    out=q.stdout+q.stderr; open(fn[:-5]+'.out','w').write(out)
    print(n,'%.0fs'%(time.time()-t0),'OK' if not out else '\n'.join(l for l in out.split('\n') if 'error' in l)[:600],flush=True)
if __name__=='__main__':
    for n in sys.argv[1:]: run(n,[])
