"""Lean text for classes with four bosons: the amplitude in spinors is the one of the Feynman rules."""
from key import *
from cert import *
from rows import ABSENT,SIGN as G4
CHM={'s':'(plus (p 0) (p 1))','t':'(plus (p 0) (backward (p 2)))','u':'(plus (p 0) (backward (p 3)))'}
PM={'h':('c.MH','c.WH'),'Z':('c.MZ','c.WZ'),'W':('c.MW','c.WW'),'A':('0','0')}
def poles4(S): return {k:S.poleName(k) for k in sorted(S.C.readc)}
# text of polynomials: atoms are variables
def tatom(a):
    if isinstance(a,tuple): return {'a':'a','s':'s','m':'m'}[a[0]]+''.join(map(str,a[1:]))
    return {'S':'vS','T':'vT','R2':'((√2 : ℝ) : ℂ)','e':'(c.e : ℂ)','SW':'(c.SW : ℂ)','MW':'(c.MW : ℂ)','MZ':'(c.MZ : ℂ)','MH':'(c.MH : ℂ)','CW':'(c.CW : ℂ)'}[a]
def noZ(t): return t.replace('(c.MZ : ℂ)','((c.MW : ℂ) / (c.CW : ℂ))')
def text(p):
    o=[]
    for m,c in p.t.items():
        num=[];den=[]
        for a,e in m:
            if a=='g':
                num+=['(c.e : ℂ)']*e; den+=['(c.SW : ℂ)']*e; continue
            (num if e>0 else den).extend([tatom(a)+('^%d'%abs(e) if abs(e)>1 else '')])
        t='*'.join((['(%d)'%c.numerator] if c.numerator!=1 or not num else [])+num)
        if den or c.denominator!=1: t+='/(%s)'%'*'.join((['%d'%c.denominator] if c.denominator!=1 else [])+den)
        o.append(t)
    return ' + '.join(o) if o else '0'
def mixing(R):
    """Y with R = Y * (SW^2 + CW^2 - 1)"""
    r={}
    for m,c in R.t.items():
        d=dict(m); g=d.pop('g',0); d['e']=d.get('e',0)+g; d['SW']=d.get('SW',0)-g
        w=d.pop('MW',0); d['CW']=d.get('CW',0)+w; d['MZ']=d.get('MZ',0)+w
        x=d.pop('R2',0); d['R2']=x%2; c=c*Fr(2)**(x//2)
        k=mono(d); v=r.get(k,0)+c
        if v: r[k]=v
        else: r.pop(k,None)
    R=Poly(r); Y=poly(0)
    f=atom('SW')**2+atom('CW')**2-1
    while R:
        m=max(R.t,key=lambda m:dict(m).get('SW',0)); assert len(R.t)<10**4
        t=Poly({m:R.t[m]})/atom('SW')**2; Y=Y+t; R=R-t*f
        assert dict(m).get('SW',0)>-12
    return Y
def cached(n,f):
    """certificates take minutes to find: kept in the directory CERTS if that is set"""
    import os,pickle
    d=os.environ.get('CERTS')
    if not d: return f()
    fn=os.path.join(d,n)
    if os.path.exists(fn): return pickle.load(open(fn,'rb'))
    r=f(); pickle.dump(r,open(fn,'wb')); return r
def weight(C):
    k=len(C.vec); m=[C.mass(x[0]) for x in C.lv]
    if k==0: return None
    if k==2: return '((2 / (%s * %s) : ℝ) : ℂ)'%tuple(m)
    if k==3: return '((2 * √2 / (%s * %s * %s) : ℝ) : ℂ)'%tuple(m)
    return '((4 / (%s * %s * %s * %s) : ℝ) : ℂ)'%tuple(m)
def lean_id(nm,a):
    z=lambda k,s:'z%d.%d'%(k,s)
    if nm in('ab','sb'):
        s=1 if nm=='ab' else 2
        return '%s_schouten %s %s %s %s'%(nm,z(a[1],s),z(a[2],s),z(a[3],s),z(a[0],s))
    if nm=='left': s,q,x,y,w=a; return 'mb_schouten_right %s (p %d) %s %s %s'%(z(s,2),q,z(x,1),z(y,1),z(w,1))
    if nm=='right': x,y,w,q,s=a; return 'mb_schouten_left %s %s %s (p %d) %s'%(z(x,2),z(y,2),z(w,2),q,z(s,1))
    s,t,q,x,y=a
    return 'mb_det %s %s %s %s %s'%(z(s,2),z(t,2),'(p %d)'%q[1] if q[0]=='p' else CHM[q[1]],z(x,1),z(y,1))
def key4(C):
    n=C.n;o=[];A=o.append
    S=Sym(C); diff=S.code()-C.sign*S.rules(); d=splitPoles(diff); tot=d.pop(None,poly(0)); I=identities(S)
    cp=poles4(S); D={}; free=n not in ABSENT
    used={}; certs=[]
    for k,v in d.items():
        v=S.norm(v)
        if not v: continue
        Dk=None if free else S.man[k[2]]-({'h':S.M['MH'],'W':S.M['MW'],'Z':S.M['MZ'],'A':poly(0)}[k[1]])**2
        X,co=cached('%s_%s%s'%(n,k[1],k[2]),lambda:cert(S,I,v,Dk))
        assert X is not None,(n,k)
        certs.append((k,v,X,co)); tot=tot+X
    tot0=tot; tot=S.norm(tot); tc=None
    if tot:
        _,tc=cert(S,I,tot); assert tc is not None
    hyp=['(hc : c.Physical) (hb : Balanced p)']
    for nm,t in members(C): hyp.append('(%s : %s)'%(nm,t))
    for k,(x,ch) in cp.items(): hyp.append('(d%d : pole %s %s %s = N.c %d) (n%d : N.c %d ≠ 0)'%(k,*PM[x],CHM[ch],k,k,k))
    if C.vec:
        hyp.append('{%s : Pair}'%' '.join('z%d'%k for k in C.vec))
        for k in C.vec: hyp.append('(b%d : Bold (p %d) %s z%d)'%(k,k,C.mass(k),k))
    for k in range(4): hyp.append('(q%d : msq (p %d) = %s ^ 2)'%(k,k,C.mass(k)))
    for x in ABSENT.get(n,[]): hyp.append('(h%s : c.%s = 0)'%(x,x))
    hs=[k for k in range(4) if k not in C.vec]
    if hs: hyp.append('(%s : Vec)'%' '.join('E%d'%k for k in hs))
    E=lambda k:'(pv z%d.1 z%d.2)'%(k,k) if k in C.vec else 'E%d'%k
    bare='%s.react.bare4 c p %s'%(n,' '.join(E(k) for k in range(4)))
    wt=weight(C); rhs='%s * %s'%(wt,bare) if wt else bare
    if C.sign<0: rhs='-(%s)'%rhs
    if len(C.vec)==4 and certs: A('set_option maxHeartbeats 8000000 in')
    A('theorem %s.key {c : Constants} {p : Nat → V4 ℝ} {N : Env} %s :\n    %s.form N p %s = %s := by'%(n,' '.join(hyp),n,' '.join(zargs(C)),rhs))
    b=[C.legs[0][0],C.legs[1][0],anti(C.legs[2][0]),anti(C.legs[3][0])]
    A('  rw [%s.react.bare4_parts c p (b₀ := %s) (b₁ := %s) (b₂ := %s) (b₃ := %s) rfl rfl rfl rfl, %s.form]'%(n,*[BOS[x] for x in b],n))
    ymr=[]
    for k in C.vec:
        if k<2: A('  have Y%d := b%d; have Q%d := q%d'%(k,k,k,k))
        else: A('  have Y%d := b%d.back; have Q%d : msq (backward (p %d)) = (-%s) ^ 2 := by rw [msq_backward, q%d, neg_sq]'%(k,k,k,k,C.mass(k),k))
    for x in C.vec:
        for y in C.vec:
            if x<y: ymr+=['four_yangMills Y%d Y%d Q%d Q%d'%(x,y,x,y)]
    for ch,q,alt in (('s','plus (backward (p 2)) (backward (p 3))',0),): pass
    A('  generalize hS : msq (plus (p 0) (p 1)) = tS')
    A('  generalize hT : msq (plus (p 0) (backward (p 2))) = tT')
    A('  obtain ⟨e01, e23, e02, e13, e03, e12, hU⟩ := dots_balanced hb q0 q1 q2 q3 hS hT')
    xk=set()
    if not free:
        for k,(x,ch) in cp.items():
            if 'W'+x in ABSENT[n] or x=='A':
                xk.add(k)
                A('  have x%d : N.c %d = ((%s - %s ^ 2 : ℝ) : ℂ) := by rw [← d%d, pole_narrow %s %s]'%(k,k,{'s':'tS','t':'tT','u':'(%s - tS - tT)'%(' + '.join('%s ^ 2'%C.mass(k) for k in range(4)))}[ch],PM[x][0] if x!='A' else '(0 : ℝ)',k,'h%s'%('W'+x) if x!='A' else 'rfl','h'+ch.upper()))
    ids=sorted({q for _,_,_,co in certs for q in co}|set(tc or {}))
    dn=lambda q:'i%d'%ids.index(q)
    red=[]
    for k in C.vec: red+=['b%d.mb_left'%k,'b%d.mb_right'%k]
    for k in C.vec:
        for l in C.vec:
            m=max(q for q in range(4) if q not in(k,l))
            red.append('%s hb z%d.2 z%d.1'%(ELIM[m],k,l))
    sw=[]
    for x in range(len(C.vec)):
        for y in range(x+1,len(C.vec)): sw+=['ab_swap z%d.1 z%d.1'%(C.vec[x],C.vec[y]),'sb_swap z%d.2 z%d.2'%(C.vec[x],C.vec[y])]
    for q in ids:
        A('  have %s := %s'%(dn(q),lean_id(*I[q][:2])))
    if ids:
        A('  try simp only [mb_plus, mb_backward, %s] at %s'%(', '.join(['hS','hT','hU']+['q%d'%k for k in range(4)]),' '.join(dn(q) for q in ids)))
        A('  simp only [%s, ab_self, sb_self] at %s'%(', '.join(red),' '.join(dn(q) for q in ids)))
        A('  try simp only [%s] at %s'%(', '.join(sw),' '.join(dn(q) for q in ids)))
        A('  push_cast at %s'%' '.join(dn(q) for q in ids))
    carry=[]
    for x in ('.z','.wPlus','.wMinus'): carry.append('carry_massive c %s (hx := (rfl : Boson.massive %s = true))'%(x,x))
    carry.append('carry_massless c .photon (hx := rfl)')
    A('  simp only [contact, seagull, gauge4, between, carriers, List.map_cons, List.map_nil, List.sum_cons, List.sum_nil, %s]'%', '.join(carry))
    A('  simp only [toHiggs, toVector, higgs2, gauge3, Boson.anti, Constants.bosonMass, Constants.bosonWidth, reduceCtorEq, and_self, and_true, and_false, true_and, false_and, if_true, if_false, Complex.ofReal_zero, zero_smul, zero_mul, mul_zero, zero_div, neg_zero, add_zero, zero_add, sub_zero, sub_self, contract_zero, contract_zero_left, contract_smul, contract_smul_left%s]'%''.join(', '+x for x in ['d%d'%k for k in cp]+ymr))
    if len(C.vec)>2:
        yp=['yangMills_pv Y%d Y%d'%(x,y) for x in C.vec for y in C.vec if x<y]
        A('  try simp only [%s, contract_add, contract_add_left, contract_smul, contract_smul_left, contract_four_four, dot_backward_left, dot_backward_right, dot_plus_left, dot_same, q0, q1, q2, q3, dot_comm (p 1) (p 0), dot_comm (p 2) (p 0), dot_comm (p 3) (p 0), dot_comm (p 2) (p 1), dot_comm (p 3) (p 1), dot_comm (p 3) (p 2), e01, e23, e02, e13, e03, e12]'%', '.join(yp))
    if C.vec: A('  try simp only [contract_four_pv, contract_pv_four, contract_pv, mb_plus, mb_backward]')
    if C.vec:
        A('  try simp only [%s, ab_self, sb_self]'%', '.join(red))
        A('  try simp only [%s]'%', '.join(sw))
    A('  simp only [%sConstants.invVev, ← c.mz]'%(''.join(x[0]+', ' for x in members(C))))
    A('  have xMW : (c.MW : ℂ) ≠ 0 := by exact_mod_cast hc.MW')
    A('  have xSW : (c.SW : ℂ) ≠ 0 := by exact_mod_cast hc.SW')
    A('  have xCW : (c.CW : ℂ) ≠ 0 := by exact_mod_cast hc.CW')
    A('  have y2 : ((√2 : ℝ) : ℂ) ≠ 0 := by exact_mod_cast (Real.sqrt_pos.2 two_pos).ne\'')
    A('  have y22 : ((√2 : ℝ) : ℂ) ^ 2 = 2 := by rw [← Complex.ofReal_pow, Real.sq_sqrt two_pos.le]; norm_num')
    A('  push_cast')
    for k in sorted(xk): A('  push_cast at x%d'%k)
    at=' '.join(dn(q) for q in ids)
    xs_=''.join(' x%d'%k for k in sorted(xk))
    for a in brackets(S):
        t={'a':lambda:'ab z%d.1 z%d.1'%a[1:],'s':lambda:'sb z%d.2 z%d.2'%a[1:],'m':lambda:'mb z%d.2 (p %d) z%d.1'%a[1:]}[a[0]]()
        A('  generalize %s = %s%s'%(t,tatom(a),' at %s ⊢'%at if ids else ''))
    A('  generalize (tS : ℂ) = vS%s; generalize (tT : ℂ) = vT%s'%((' at %s ⊢'%(at+xs_) if ids else '',)*2))
    kn={v:k for k,v in cp.items()}
    for k in cp: A('  generalize N.c %d = D%d at n%d%s ⊢'%(k,k,k,' x%d'%k if k in xk else ''))
    C.dbg=(certs,tot,tc)
    terms=[]; ws=[]
    for (_,x,ch),v,X,co in certs:
        k=kn[(x,ch)]
        Dt='D%d'%k
        nm='w%d'%k
        w,f=clear(v); cf=Poly({rest(w):Fr(1)}); w=w/cf; X2=X*f/cf; co={q:c*f/cf for q,c in co.items()}
        den=1
        for p in [w,X2]+list(co.values()):
            for c in p.t.values(): den=den*c.denominator//__import__('math').gcd(den,c.denominator)
        w=w*den; X2=X2*den; co={q:c*den for q,c in co.items()}
        A('  have %s : %s = %s := by'%(nm,text(w),'0' if not X else '%s * (%s)'%(Dt,text(X2))))
        if X: A('    rw [x%d]'%k)
        A('    linear_combination %s'%(' + '.join('(%s) * %s'%(text(c),dn(q)) for q,c in co.items()) or '0'))
        terms.append('(%s) * %s / %s'%(text(cf/f/den),nm,Dt)); ws.append(nm)
    fx=ws+([dn(q) for q in tc] if tc else [])
    A('  have hZ : (c.MZ : ℂ) = c.MW / c.CW := by rw [← c.mz, Complex.ofReal_div]')
    if fx: A('  try simp only [hZ] at %s'%' '.join(fx))
    mx=mixing(tot0-sum((c*I[q][2] for q,c in (tc or {}).items()),poly(0)))
    if mx:
        A('  have hcs : (c.SW : ℂ) ^ 2 + (c.CW : ℂ) ^ 2 = 1 := by rw [← Complex.ofReal_pow, ← Complex.ofReal_pow, ← Complex.ofReal_add, hc.mix, Complex.ofReal_one]')
        terms.append('(%s) * hcs'%text(mx))
    if tc: terms+=['(%s) * %s'%(text(c),dn(q)) for q,c in tc.items()]
    A('  linear_combination (norm := (field_simp; first | ring1 | (ring_nf; simp only [y22]; ring1))) %s'%noZ(' + '.join(terms)))
    return o
