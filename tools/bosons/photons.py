"""Classes with four bosons and photons: amplitudes as polynomials, compared with the Feynman rules for each helicity (as in light.py), and the Lean text.

photons.py NAME... checks classes, photons.py -write writes the files of lean/Verif/SM/Bosons."""
from ltext import *
from lagree import SPIN,FIX,lamps,exposed
from four_agree import MEETS
from four import CHM
from agree import DIV
import rows
from rows import legs,pars
NAMES='AhWW AWWh AAWW AWAW AZWW AWZW'.split()
FROWS=[(n,legs(n),pars(n),1) for n in NAMES]
class Sym4(Sym1):
    # vectors: {('k',n):c, (angle,square):c}
    def con(s,u,v):
        r=poly(0)
        for a,c in u.items():
            for b,d in v.items():
                if a[0]=='k': a,b=b,a
                assert a[0]!='k'
                w=s.mb(a[1],b[1],a[0])*Fr(1,2) if b[0]=='k' else -(s.ab(a[0],b[0])*s.sb(a[1],b[1]))*Fr(1,2)
                r=r+poly(c)*d*w
        return r
    @staticmethod
    def lin(*ts):
        o={}
        for c,v in ts:
            for b,x in v.items(): o[b]=o.get(b,poly(0))+poly(c)*x
        return o
    def line(s,n):
        b=s.C.legs[n][0]; sg=1 if n<2 else -1
        return (b if n<2 else anti(b),{('k',n):poly(sg)},{s.pol(n):poly(1)} if b!='h' else {})
    def g3(s,a,b,c):
        e=atom('e'); z=e*atom('CW')/atom('SW')
        for x,v in (('A',e),('Z',z)):
            t=(a,b,c)
            if t in(('W-','W+',x),('W+',x,'W-'),(x,'W-','W+')): return v
            if t in(('W+','W-',x),('W-',x,'W+'),(x,'W+','W-')): return -v
        return poly(0)
    def h2(s,a,b):
        iv=atom('e')/(2*atom('MW')*atom('SW'))
        if (a,b)==('Z','Z'): return 2*s.bm['Z']**2*iv
        if (a,b) in(('W+','W-'),('W-','W+')): return 2*atom('MW')**2*iv
        return poly(0)
    def ym(s,a,b):
        ka,ea,kb,eb=a[1],a[2],b[1],b[2]
        return s.lin((s.con(ea,eb),ka),(-s.con(ea,eb),kb),(s.con(s.lin((1,ka),(2,kb)),ea),eb),(-s.con(s.lin((2,ka),(1,kb)),eb),ea))
    def tV(s,a,b,x):
        if a[0]=='h': return s.lin((s.h2(b[0],anti(x)),b[2]))
        if b[0]=='h': return s.lin((s.h2(a[0],anti(x)),a[2]))
        return s.lin((s.g3(a[0],b[0],anti(x)),s.ym(a,b)))
    def dress(s,a,b,n):
        """photon a and W boson b (leg n) become a W boson: propagator times current"""
        c=s.g3(a[0],b[0],anti(b[0])); A,S=s.pol(0); B,T=s.pol(n)
        F={(B,S):s.sb(S,T)*s.ab(A,0)} if s.h[0]>0 else {(A,T):s.ab(A,B)*s.sb(S,0)}
        return s.lin((-2*c*s.con(b[1],a[2]),b[2]),(c,F))
    def med(s,n,d,e):
        a,b=s.line(0),s.line(n); d,e=s.line(d),s.line(e)
        if b[0] not in('W+','W-'): return poly(0)
        dd=s.chan(0,n)
        return s.con(s.dress(a,b,n),s.tV(d,e,anti(b[0])))/s.D(dd)
    def g4(s,a,b,d,e):
        g=sum((s.g3(a[0],b[0],anti(x))*s.g3(d[0],e[0],x) for x in('A','Z','W+','W-')),poly(0))
        return g*(s.con(a[2],d[2])*s.con(b[2],e[2])-s.con(a[2],e[2])*s.con(b[2],d[2]))
    def rules(s):
        a,b,d,e=[s.line(n) for n in range(4)]
        t=s.g4(a,b,d,e)+s.g4(a,d,b,e)+s.g4(a,e,b,d) if 'h' not in (a[0],b[0],d[0],e[0]) else poly(0)
        t=t-s.med(1,2,3)-s.med(2,1,3)-s.med(3,1,2)
        for k in range(4):
            if k in s.C.vec: t=t/s.mass[k]
            elif k in s.C.light: t=t*atom('R2')
        t=t*2**(len(s.C.vec)//2)*(atom('R2') if len(s.C.vec)%2 else 1)
        return t
class SymP(Sym4):
    """the reference spinor of a photon n is made of the momentum of the W boson `a` and the other spinor of the photon: <4+n|x> = [n|a|x>, [4+n|x] = [x|a|n>"""
    def __init__(s,C,h,a=None):
        s.a=[k for k in C.vec if C.legs[k][0] in('W+','W-')][0] if a is None else a
        super().__init__(C,h)
    def ab(s,i,j):
        if i>=4 and j>=4: return -s.mass[s.a]**2*s.sb(i-4,j-4)
        if i>=4: return s.mb(i-4,s.a,j)
        if j>=4: return -s.ab(j,i)
        return super().ab(i,j)
    def sb(s,i,j):
        if i>=4 and j>=4: return -s.mass[s.a]**2*s.ab(i-4,j-4)
        if i>=4: return s.mb(j,s.a,i-4)
        if j>=4: return -s.sb(j,i)
        return super().sb(i,j)
    def mb(s,i,q,j):
        if q in s.C.light: return s.ab(q,j)*s.sb(i,q)
        if j>=4:
            assert i==j-4,(i,q,j)
            if q==s.a: return poly(0)
        if i>=4:
            assert j==i-4,(i,q,j)
            if q==s.a: return poly(0)
        return super().mb(i,q,j)
    def elim(s,i,j):
        c=[x for x in s.C.heavy if x not in(i,j)]
        if i>=4 or j>=4: c=[x for x in c if x!=s.a]
        if i==j and i in s.C.light: c=[x for x in c if (i,x) not in s.pole]
        if len(s.C.light)==2:
            c=[x for x in c if x!=s.a]
        return max(c) if c else None
    def norm(s,p):
        """R2^2 = 2; with a Z boson SW^2 = 1 - CW^2 and CW = MW/MZ"""
        r={}
        for m,c in p.t.items():
            d=dict(m); q=d.pop('R2',0); c=c*Fr(2)**(q//2)
            if q%2: d['R2']=1
            ts=[(d,c)]
            if s.Z:
                w=d.get('SW',0)
                if w>=1:
                    assert w in(1,2),w
                    d['SW']=w-2; d2=dict(d); d2['CW']=d2.get('CW',0)+2; ts=[(d,c),(d2,-c)]
                for d,_ in ts:
                    e=d.pop('CW',0); d['MW']=d.get('MW',0)+e; d['MZ']=d.get('MZ',0)-e
            for d,c in ts:
                k=mono(d); v=r.get(k,0)+c
                if v: r[k]=v
                else: r.pop(k,None)
        return Poly(r)
    def angles(s): return [k for k in range(4) if s.C.legs[k][0]!='h']
    squares=angles
    def identities(s,chains=(),all_=False):
        o=super().identities(chains,True)
        H=s.C.heavy; X=s.angles(); cb=itertools.combinations
        for n in s.C.light:
            for q in H:
                if s.h[n]>0:
                    for a,b in cb(X,2): o.append(('left',(n,q,a,b,4+n),s.ab(a,b)*s.mb(n,q,4+n)+s.ab(b,4+n)*s.mb(n,q,a)+s.ab(4+n,a)*s.mb(n,q,b)))
                else:
                    for a,b in cb(X,2): o.append(('right',(a,b,4+n,q,n),s.sb(a,b)*s.mb(4+n,q,n)+s.sb(b,4+n)*s.mb(a,q,n)+s.sb(4+n,a)*s.mb(b,q,n)))
        if all_: return o
        r=[];seen=set()
        for x in o:
            if not x[2]: continue
            k=frozenset(x[2].t.items()); k2=frozenset((-x[2]).t.items())
            if k in seen or k2 in seen: continue
            seen.add(k); r.append(x)
        return r
    def grade(s,m):
        m2=[]; x=0; w0=[0]*8
        for a,e in m:
            if isinstance(a,tuple) and a[0]=='m' and (a[1]>=4 or a[3]>=4):
                if a[3]>=4: w0[a[1]]-=2*e
                else: w0[a[3]]+=2*e
                x+=3*e
            else: m2.append((a,e))
        w,d=super().grade(tuple(m2))
        return tuple(p+q for p,q in zip(w,w0)),d+x
    def atoms(s,chains=()):
        o=set(super().atoms(chains))
        for n in s.C.light:
            for q in s.C.heavy:
                p=s.mb(n,q,4+n) if s.h[n]>0 else s.mb(4+n,q,n)
                for m in p.t:
                    for a,e in m:
                        if isinstance(a,tuple): o.add(a)
        return sorted(o)

ABS='WW'
def wpoles(C): return {k:{('add',0,1):'s',('sub',0,2):'t',('sub',0,3):'u'}[C.den[k][1]] for k in sorted(C.den)}
def pkey(C,h):
    """the amplitude of the code at given helicities is the one of the rules"""
    n=C.n;H=C.hname(h);S=SymP(C,h);o=[];A=o.append;a=S.a
    rs,cs,_=C.info[h]
    sg,ce=certificate(C,h); hel=dict(zip(C.light,h))
    hyp=['(hc : c.Physical) (hb : Balanced p)']
    mem=lmembers(C,rs)+cmembers(C,cs)
    for nm,t in mem: hyp.append('(%s : %s)'%(nm,t))
    cp=wpoles(C)
    for k,ch in cp.items(): hyp.append('(d%d : pole c.MW c.WW %s = N.c %d) (n%d : N.c %d ≠ 0)'%(k,CHM[ch],k,k,k))
    zs=C.light+C.vec; zs.sort()
    hyp.append('{%s : Pair}'%' '.join('z%d'%k for k in zs))
    for k in C.vec: hyp.append('(b%d : Bold (p %d) %s z%d)'%(k,k,C.mass(k),k))
    for k in C.light: hyp.append('(l%d : Light (p %d) z%d)'%(k,k,k))
    for (m,q),(d,s_) in sorted(S.pole.items()): hyp.append('(e%d%d : mb z%d.2 (p %d) z%d.1 = %sN.c %d)'%(m,q,m,q,m,'-' if s_<0 else '',d))
    for k in C.heavy: hyp.append('(q%d : msq (p %d) = %s ^ 2)'%(k,k,C.mass(k)))
    for k in C.light: hyp.append('{ρ%d : V2} (R%d : ∀ Y, %s)'%(k,k,'ab ρ%d Y = mb z%d.2 (p %d) Y'%(k,k,a) if hel[k]>0 else 'sb ρ%d Y = mb Y (p %d) z%d.1'%(k,a,k)))
    hs=[k for k in range(4) if k not in zs]
    if hs: hyp.append('(%s : Vec)'%' '.join('E%d'%k for k in hs))
    def E0(k):
        if k in C.light: return 'pv ρ%d z%d.2'%(k,k) if hel[k]>0 else 'pv z%d.1 ρ%d'%(k,k)
        return 'pv z%d.1 z%d.2'%(k,k) if k in C.vec else 'E%d'%k
    E=lambda k:E0(k) if E0(k)[0]=='E' else '(%s)'%E0(k)
    wt='(-1 : ℂ)' if sg<0 else '(1 : ℂ)'
    wt='(%s * %s)'%(wt,vweight(C))
    for k in C.light: wt='((√2 : ℝ) * %s)'%wt
    lhs='%s.form%s N p %s'%(n,H,' '.join(fargs(C,v=lambda k:['z%d'%k]*2)))
    for k in C.light: lhs+=' * '+('ab ρ%d z%d.1'%(k,k) if hel[k]>0 else 'sb ρ%d z%d.2'%(k,k))
    A('theorem %s.key%s {c : Constants} {p : Nat → V4 ℝ} {N : Env} %s :\n    %s = %s * %s.react.bare4 c p %s := by'%(n,H,' '.join(hyp),lhs,wt,n,' '.join(E(k) for k in range(4))))
    A('  rw [%s.react.bare4_parts c p (b₀ := %s) (b₁ := %s) (b₂ := %s) (b₃ := %s) rfl rfl rfl rfl, %s.form%s]'%(n,*[BOS[C.boson(k)] for k in range(4)],n,H))
    for k in zs:
        t=('l%d.mb_%s ρ%d'%(k,'plus' if hel[k]>0 else 'minus',k)) if k in C.light else "b%d.mb_zero'"%k
        A('  have T%d := %s'%(k,t if k<2 else 'mb_back_zero (%s)'%t))
    W=[k for k in C.vec if C.legs[k][0]!='Z']
    for k in W: A('  have Q%d : msq %s = c.MW ^ 2 := %s'%(k,'(p %d)'%k if k<2 else '(backward (p %d))'%k,'q%d'%k if k<2 else '(msq_backward _).trans q%d'%k))
    A('  simp only [contact, seagull, gauge4, between, carriers, List.map_cons, List.map_nil, List.sum_cons, List.sum_nil]')
    A('  simp only [toHiggs, toVector, higgs2, gauge3, Boson.anti, reduceCtorEq, and_self, and_true, and_false, true_and, false_and, if_true, if_false, Complex.ofReal_zero, zero_smul, carry_none, zero_mul, mul_zero, zero_div, neg_zero, add_zero, zero_add, sub_zero, sub_self, contract_zero, contract_zero_left]')
    dr='plus' if hel[0]>0 else 'minus'
    for k in W: A('  first | rw [dress_%s c (x := .wPlus) (.inl rfl) hc.MW l0 Q%d T%d] | rw [dress_%s c (x := .wMinus) (.inr rfl) hc.MW l0 Q%d T%d]'%(dr,k,k,dr,k,k))
    ym=['yangMills_transverse T%d T%d'%(x,y) for x in zs for y in zs if x<y and x!=0]
    A('  simp only [%s, contract_add, contract_smul, contract_smul_left, contract_four_pv, contract_pv_four, contract_pv, mb_backward]'%', '.join(['d%d'%k for k in cp]+ym))
    red=[]
    for k in C.light:
        for k2 in C.light:
            if hel[k]!=hel[k2]: continue
            lem='(ref_%s R%d R%d).%d'%('plus_plus' if hel[k]>0 else 'minus_minus',k,k2,2 if k==k2 else 1)
            A('  have R%d%d := %s'%(k,k2,lem))
            if k!=k2: A('  rw [q%d] at R%d%d'%(a,k,k2))
            red.append('R%d%d'%(k,k2))
        red.append('R%d'%k)
    red+=['l%d.mb_eq'%k for k in C.light]
    for k in C.vec: red+=['b%d.mb_left'%k,'b%d.mb_right'%k]
    red+=['e%d%d'%x for x in sorted(S.pole)]
    refs=[4+k for k in C.light]
    prs=[(x,y) for x in S.squares() for y in S.angles()]+[(k,4+k) if hel[k]>0 else (4+k,k) for k in C.light]
    for x,y in prs:
        m=S.elim(x,y)
        if m is not None: red.append('%s hb %s %s'%(ELIM[m],squ(x),ang(y)))
    RED='%s, ab_self, sb_self'%', '.join(red)
    pre=[]
    for k in C.light:
        for x in S.angles():
            pre.append('%s_swap ρ%d %s'%(('ab',k,ang(x)) if hel[k]>0 else ('sb',k,squ(x))))
    sw=[]
    An,Sq=S.angles(),S.squares()
    for x in range(len(An)):
        for y in range(x+1,len(An)): sw+=['ab_swap %s %s'%(ang(An[x]),ang(An[y])),'sb_swap %s %s'%(squ(An[x]),squ(An[y]))]
    ids=[]
    for q,(I,x) in enumerate(ce):
        t,_=lident(I,S); ids.append('i%d'%q)
        A('  have i%d := %s'%(q,t))
        if I[0]=='det': A('  rw [q%d] at i%d'%(I[1][2],q))
    at=' at %s ⊢'%' '.join(ids) if ids else ''
    A('  simp only [%s, %s]%s'%(', '.join(pre),RED,at))
    A('  simp only [%s]%s'%(', '.join(sw),at))
    A('  simp only [%s, Constants.invVev, ← c.mz]'%(', '.join(x[0] for x in mem) if mem else 'add_zero'))
    A('  have xMW : (c.MW : ℂ) ≠ 0 := by exact_mod_cast hc.MW')
    A('  have xSW : (c.SW : ℂ) ≠ 0 := by exact_mod_cast hc.SW')
    A('  have xCW : (c.CW : ℂ) ≠ 0 := by exact_mod_cast hc.CW')
    A('  have x2 : ((√2 : ℝ) : ℂ) ≠ 0 := by exact_mod_cast (Real.sqrt_pos.2 two_pos).ne\'')
    A('  have x22 : ((√2 : ℝ) : ℂ) ^ 2 = 2 := by rw [← Complex.ofReal_pow, Real.sq_sqrt two_pos.le]; norm_num')
    if S.Z:
        A('  have hcs : (c.SW : ℂ) ^ 2 + (c.CW : ℂ) ^ 2 = 1 := by rw [← Complex.ofReal_pow, ← Complex.ofReal_pow, ← Complex.ofReal_add, hc.mix, Complex.ofReal_one]')
        if ids: A('  try simp only [← c.mz] at %s'%' '.join(ids))
    A('  push_cast%s'%at)
    A('  simp only [div_eq_mul_inv, mul_inv, inv_inv]%s'%at)
    lc,nm=lcombine(C,h,sg,ce)
    XN={'iMW':'xMW','iSW':'xSW','iCW':'xCW','iR2':'x2'}
    for ia,x in nm.items():
        if ia=='iR2': A('  have yR2 : ((√2 : ℝ) : ℂ)⁻¹ = ((√2 : ℝ) : ℂ) / 2 := by rw [inv_eq_iff_eq_inv, inv_div, eq_div_iff x2, ← x22]; ring')
        elif ia not in('sq','mix'): A('  have %s := mul_inv_cancel₀ %s'%(x,XN[ia] if isinstance(ia,str) else 'n%d'%ia[1]))
    A('  linear_combination %s'%lc)
    return o
def vweight(C):
    m=[C.mass(x[0]) for x in C.lv]
    if len(m)==2: return '((2 / (%s * %s) : ℝ) : ℂ)'%tuple(m)
    return '((2 * √2 / (%s * %s * %s) : ℝ) : ℂ)'%tuple(m)
def pagree(C):
    """the squared amplitude of the code is the one of the rules"""
    n=C.n;o=lamps(C);A=o.append
    R='%s.react'%n; N='(%s.N c p)'%n
    ts=''.join(' t%d'%k for k in C.args if k in C.vec)
    D=[k for k,q in enumerate(C.pars) if q in('MW','SW')]; E=[k for k,q in enumerate(C.pars) if q=='SW']
    def lst(xs):
        r='List.forall_mem_nil _'
        for x in reversed(xs): r='List.forall_mem_cons.2 ⟨%s, %s⟩'%(x,r)
        return r
    A('')
    A('theorem %s.mass_eq {c : Constants} (hc : c.Physical) (i : Fin 4) : %s.proc.massNum (%s.rho c) i = %s.react.mass c i := by'%(n,n,n,n))
    A('  fin_cases i <;> first | rfl | exact Nat.cast_zero | (show c.MW / √(((1 : Nat) : ℝ) - c.SW * c.SW) = c.MZ; rw [c.root, c.mz])')
    A('')
    A('variable [FPEnv] in')
    A('theorem %s.agrees : %s.Agrees := by'%(n,n))
    A('  refine agrees_of (D := %s) (E := %s) (by simp [all, %s]) (by decide +kernel) (by decide) (by decide +kernel) (fun c hc hh => ⟨%s, %s⟩) (fun c hc i => %s.mass_eq hc i) (by decide +kernel) ?_'%(D,E,n,lst(['hc.'+C.pars[k] for k in D]),lst(['hc.SW_lt' for k in E]),n))
    A('  intro c p u ε hc hh hw h0 hs hb hr hu')
    A('  have he : %s.ends = [] := by decide'%R); A('  have ht : %s.starts = [] := by decide'%R); A('  have hB : %s.bosons = [0, 1, 2, 3] := by decide'%R)
    A('  obtain ⟨f1, f2, f3⟩ := %s.regular_four he ht hB hr'%R)
    A('  have hWW : c.WW = 0 := hw .WW (by simp [%s])'%n)
    A('  have hG : %s.Gauge c p := %s.gauge hc.MW hWW %s(fun n => onShell_msq (hs n)) hr'%(R,n,'' if 'h' in n else 'hb '))
    dv=DIV[n]
    allr=sorted(set(sum((C.info[h][0] for h in C.hels),[]))|{x for y,x in dv if y=='r'})
    for k in allr:
        A('  have r%d : %s.r %d = %s := rfl'%(k,N,k,C.r[k]))
        if CWT in C.r[k]: A('  simp only [c.root] at r%d'%k)
    cp=wpoles(C); b=[C.boson(k) for k in range(4)]
    S0=SymP(C,C.hels[0])
    for k,ch in cp.items():
        raw=C.prop[C.den[k][0]]; vv=C.den[k][1]
        A('  have c%d : %s.c %d = poleDist %s %s ((VExp.%s %d %d).sum p) := rfl'%(k,N,k,raw[0],raw[1],*vv))
        A('  have d%d : pole c.MW c.WW %s = %s.c %d := by rw [c%d, pole_congr (msq_%s hb %s (by simp)).symm]'%(k,CHM[ch],N,k,k,ch,CHM[ch]))
        q={'s':(0,1,2,3),'t':(0,2,1,3),'u':(0,3,1,2)}[ch]
        ys=[y for y in ('W+','W-') if MEETS(b[q[0]],b[q[1]],anti(y)) and MEETS(b[q[2]],b[q[3]],y)]
        assert len(ys)==1
        A('  have n%d : %s.c %d ≠ 0 := by rw [← d%d]; exact star_ne_zero.2 (%s %s rfl rfl)'%(k,N,k,k,{'s':'f1','t':'f2','u':'f3'}[ch],BOS[ys[0]]))
        A('  rw [hWW, pole_fermion rfl] at c%d'%k)
    Z=lambda k:'(legA (p %d) 0 0, legS (p %d) 0 1)'%(k,k)
    for k in C.light: A('  obtain ⟨l%d, x%d, y%d⟩ := %s.code_light hs hu (n := %d) rfl rfl'%(k,k,k,R,k))
    for (m_,q),(d,s_) in sorted(S0.pole.items()):
        vv=C.den[d][1]
        lem='pole_add' if s_>0 else ('pole_sub' if m_<q else "pole_sub'")
        pl='(plus (p %d) (p %d))'%((m_,q) if m_<q else (q,m_)) if s_>0 else '(plus (p %d) (backward (p %d)))'%((m_,q) if m_<q else (q,m_))
        A('  have e%d%d := l%d.%s (m := %s) (onShell_msq (hs %d)) (msq_%s hb %s (by simp)) c%d'%(m_,q,m_,lem,C.mass(q),q,VT[vv],pl,d))
    for k in C.vec: A("  have m%d : %s.mass c %d ≠ 0 := (leg_pos hc hh (by decide)).ne'"%(k,R,k))
    for k in C.light: A('  have m%d : %s.mass c %d = 0 := rfl'%(k,R,k))
    for k in C.light:
        d,s_=S0.pole[(k,S0.a)]
        nz='n%d'%d if s_>0 else 'neg_ne_zero.2 n%d'%d
        A('  have g%d : ab (refPlus (p %d) %s) (legA (p %d) 0 0) ≠ 0 := fun h => (%s) (e%d%d.symm.trans ((ab_ref ..).symm.trans h))'%(k,S0.a,Z(k),k,nz,k,S0.a))
        A('  have j%d : sb (refMinus (p %d) %s) (legS (p %d) 0 1) ≠ 0 := fun h => (%s) (e%d%d.symm.trans ((sb_ref ..).symm.trans h))'%(k,S0.a,Z(k),k,nz,k,S0.a))
    A('  have hd : %s.proc.divides = [%s] := by decide +kernel'%(n,', '.join('(Ty.%s, %d)'%x for x in dv)))
    A('  refine ⟨fun n hn => ?_, fun n hn => ?_, ?_⟩')
    for t in 'rc':
        ds=[x for y,x in dv if y==t]
        A('  · simp [hd] at hn')
        if ds:
            A('    rcases hn with %s'%' | '.join(['rfl']*len(ds)))
            for x in ds: A('    · exact n%d'%x)
    P=lambda k,s:'(%s.codePair c p %d %s)'%(R,k,s)
    VE=lambda k:'(%s.codeVec c p %d %s)'%(R,k,'t%d'%k if k in C.vec else '0')
    hs_=[k for k in range(4) if k not in C.vec and k not in C.light]
    L=[x[0] for x in C.lv]; v=len(L); pos={k:q for q,k in enumerate(L)}
    nm={2:'two_vectors',3:'three_vectors'}[v]
    pn={2:('p',"p'"),3:('p₀','p₁','p₂')}[v]; mn={2:('m',"m'"),3:('m₀','m₁','m₂')}[v]
    lin=lambda k:'(%s.bare4_lin%s c p (by decide) _ _ _)'%(R,'₀₁₂₃'[k])
    for h in C.hels:
        H=C.hname(h); hel=dict(zip(C.light,h)); sg,_=certificate(C,h); kap='(-1)' if sg<0 else '1'
        LE=lambda k:'(lightE %s %d)'%(Z(k),FIX[hel[k]])
        RF=lambda k:'(ref%s (p %d) %s)'%('Plus' if hel[k]>0 else 'Minus',S0.a,Z(k))
        PV=lambda k:'(pv %s %s.2)'%(RF(k),Z(k)) if hel[k]>0 else '(pv %s.1 %s)'%(Z(k),RF(k))
        bare='%s.bare4 c p %s'%(R,' '.join(LE(k) if k in C.light else VE(k) for k in range(4)))
        form='%s.form%s %s p %s'%(n,H,N,' '.join(fargs(C,v=lambda k:[P(k,'a%d'%k),P(k,'b%d'%k)],l=Z)))
        for k,_,_ in reversed(C.lv): form='comb t%d (fun a%d b%d => %s)'%(k,k,k,form)
        A('  have st%s : ∀ (%s : Fin 3), %s = %s * %s := by'%(H,ts.strip(),form,kap,bare))
        A('    intro%s'%ts)
        var=['w%d'%k+e for k in range(4) for e in ('','b')]
        Bf='fun %s => %s.form%s %s p %s'%(' '.join(var[:2*v]),n,H,N,' '.join(fargs(C,v=lambda k:[var[2*pos[k]],var[2*pos[k]+1]],l=Z)))
        EV=['E','F','G']
        Ev='fun %s => %s.bare4 c p %s'%(' '.join(EV[:v]),R,' '.join(EV[pos[k]] if k in C.vec else LE(k) if k in C.light else VE(k) for k in range(4)))
        lins=' '.join('(%s%s.bare4_lin%s c p (by decide) _ _ _)'%('fun '+'_ '*(v-1)+'=> ',R,'₀₁₂₃'[k]) for k in L)
        A('    refine %s %s %s (B := %s) %s (G := %s) %s %s (fun %s %s => ?_) %s'%(nm,' '.join('(%s := p %d) (%s := %s.mass c %d)'%(x,k,m,R,k) for x,m,k in zip(pn,mn,L)),' '.join('(fun s => %s.codePair_bold hs h0 %d s)'%(R,k) for k in L),Bf,' '.join('(fun %s=> ?_)'%('_ '*(2*v+1)) for k in range(2*v)),Ev,lins,kap,' '.join('z%d'%k for k in L),' '.join('b%d'%k for k in L),' '.join('t%d'%k for k in L)))
        for k in L:
            for x in 'xy': A('    · exact %s.form%s_%s%d ..'%(n,H,x,k))
        rs,cs,vu=C.info[h]
        ka=['hc hb']+['r%d'%k for k in rs]+['d%d n%d'%(k,k) for k in cp]+['b%d'%k for k in C.vec]+['l%d'%k for k in C.light]+['e%d%d'%x for x in sorted(S0.pole)]+['(onShell_msq (hs %d))'%k for k in C.heavy]
        ka+=['(%s_ref (p %d) %s)'%('ab' if hel[k]>0 else 'sb',S0.a,Z(k)) for k in C.light]+[VE(k) for k in hs_]
        A('    · have k0 := %s.key%s %s'%(n,H,' '.join(ka)))
        done=[]; cur='k0'
        for k in reversed(C.light):
            def ev(q,x): return x if q==k else (LE(q) if q in done else PV(q)) if q in C.light else '(pv z%d.1 z%d.2)'%(q,q) if q in C.vec else VE(q)
            def tr(q):
                if q==k: return 'exact absurd rfl hm'
                if q in C.light: return 'exact (show contract (four (p %d)) %s = 0 from l%d.transverse %d)'%(q,LE(q),q,FIX[hel[q]]) if q in done else 'exact pv_transverse (l%d.mb_%s _)'%(q,'plus' if hel[q]>0 else 'minus')
                if q in C.vec: return "exact pv_transverse b%d.mb_zero'"%q
                return 'cases hl; exact absurd rfl hx'
            F='four (p %d)'%k
            A('      have w%d : %s.bare4 c p %s = 0 := by'%(k,R,' '.join(ev(q,'(%s)'%F) for q in range(4))))
            A('        refine %s.bare4_gauge he ht hB hG (n := %d) rfl rfl ![%s] (fun m hm x hl hx => ?_) rfl'%(R,k,', '.join(ev(q,F) for q in range(4))))
            A('        fin_cases m')
            for q in range(4): A('        · %s'%tr(q))
            G='fun E => %s.bare4 c p %s'%(R,' '.join(ev(q,'E') for q in range(4)))
            A('      have k%d := light_%s_ref (z := %s) (G := %s) l%d %s w%d %s %s %s'%(len(done)+1,'plus' if hel[k]>0 else 'minus',Z(k),G,k,lin(k),k,('x%d'if hel[k]>0 else 'y%d')%k,('g%d' if hel[k]>0 else 'j%d')%k,cur))
            done.append(k); cur='k%d'%len(done)
        A('      exact %s.trans (mul_assoc _ _ _)'%cur)
    for h in C.hels:
        H=C.hname(h); hel=dict(zip(C.light,h)); sg,_=certificate(C,h); kap='(-1)' if sg<0 else '1'
        EE=lambda k:'(lightE %s %d)'%(Z(k),FIX[hel[k]]) if k in C.light else VE(k)
        rs,cs,vu=C.info[h]
        La=', '.join(SPIN[hel[k]] if k in C.light else 'spinV t%d'%k for k in C.args)
        A('  have am%s : ∀ (%s : Fin 3), Cls.%s.m_amp.mean %s (callMean %s []) .c [%s] = %s * %s.bare4 c p %s := by'%(H,ts.strip(),n,N,N,La,kap,R,' '.join(EE(k) for k in range(4))))
        A('    intro%s'%ts)
        A('    rw [%s.amp%s, ← st%s%s]'%(n,H,H,ts))
        for k,_,_ in C.lv: A('    refine congrArg (comb t%d) (funext fun a%d => funext fun b%d => ?_)'%(k,k,k))
        names=[];seen=set()
        for (q,zk,zl) in vu:
            if (q,zk,zl) in seen: continue
            seen.add((q,zk,zl))
            t,k,mid,l=C.sprod[q]
            sp=lambda z:('a' if z[0]=='x' else 'b')+z[1:]
            PP=lambda kk,z:Z(kk) if kk in C.light else P(kk,sp(z))
            pk,pl=PP(k,zk),PP(l,zl)
            need=lambda kk:'(.inr ⟨m%d, rfl⟩)'%kk if kk in C.light else '(.inl ⟨m%d, rfl⟩)'%kk
            lst_=', '.join('spinOf %s'%sp(z) for z,kk in ((zk,k),(zl,l)) if kk not in C.light)
            if not mid: rhs='%s %s.%d %s.%d'%(('ab',pk,1,pl,1) if t else ('sb',pk,2,pl,2)); lem='bra_angle' if t else 'bra_square'
            elif t: rhs='mb %s.2 (p %d) %s.1'%(pl,mid[0],pk); lem='bra_mid_angle'
            else: rhs='mb %s.2 (p %d) %s.1'%(pk,mid[0],pl); lem='bra_mid_square'
            nm_='v%d%s%s'%(q,zk,zl); names.append(nm_)
            A('    have %s : %s.v %d [%s] = %s := %s (p := p) (m := %s.proc.massNum (%s.rho c)) (%s.mass_eq hc %d) (%s.mass_eq hc %d) %s %s'%(nm_,N,q,lst_,rhs,lem,n,n,n,k,n,l,need(k),need(l)))
        A('    simp only [%s.term%s, %s.form%s, %s]'%(n,H,n,H,', '.join(names)))
        A('    push_cast'); A('    ring')
    hs2=''.join(' (h%d : Fin 2)'%k for k in C.light)
    La=', '.join('spinW h%d'%k if k in C.light else 'spinV t%d'%k for k in C.args)
    EE=lambda k:'(lightE %s h%d.castSucc)'%(Z(k),k) if k in C.light else VE(k)
    A('  have am : ∀%s (%s : Fin 3), ‖Cls.%s.m_amp.mean %s (callMean %s []) .c [%s]‖ = ‖%s.bare4 c p %s‖ := by'%(hs2,ts.strip(),n,N,N,La,R,' '.join(EE(k) for k in range(4))))
    A('    intro%s%s'%(''.join(' h%d'%k for k in C.light),ts))
    A('    match %s with'%', '.join('h%d'%k for k in C.light))
    for h in C.hels:
        sg,_=certificate(C,h)
        A('    | %s => exact norm_%s (am%s%s)'%(', '.join(str(FIX[x]) for x in h),'minus' if sg<0 else 'plus',C.hname(h),ts))
    A('  show meaning %s .r Cls.%s.methods Cls.%s.amp2 [] = _'%(N,n,n))
    st=lambda k:2 if k in C.light else 3 if k in C.vec else 1
    A('  have s0 : %s.states 0 = %d := by decide'%(R,st(0))); A('  have s1 : %s.states 1 = %d := by decide'%(R,st(1))); A('  have sy : %s.symmetry = 1 := by decide'%R)
    for k in range(4): A('  have p%d : %s.spins %d = %s := rfl'%(k,R,k,'Finset.univ' if k in C.vec else '{0, 1}' if k in C.light else '{0}'))
    for k in range(4): A('  have E%d : %s.codeE c p %d = %s := rfl'%(k,R,k,'lightE %s'%Z(k) if k in C.light else '%s.codeVec c p %d'%(R,k)))
    A("  rw [%s.value, %s.squared_four he ht hB (by decide) hs h0 (fun _ b _ hb _ => (boson_pos hc hh hb).ne') hG (E := %s.codeE c p) (fun n b hl => %s.codeE_polarised hs h0 hu (fun b hb => (boson_pos hc hh hb).ne') n b hl) hu, sum_colours, s0, s1, sy]"%(n,R,R,R))
    A('  simp only [bareFour_eq, sumV_sum, sumW_sum, am, p0, p1, p2, p3, E0, E1, E2, E3, Finset.sum_singleton, sum_two, Matrix.cons_val_zero, Matrix.cons_val_one, Matrix.cons_val]')
    A('  push_cast')
    A('  first | ring1 | ring_nf')
    return exposed(C,o)
PHEAD=LHEAD.replace('LightRows','PhotonRows').replace('import Verif.SM.GluonLine\n','')
def row(n):
    C=LCl(*{r[0]:r for r in FROWS}[n]); C.sym=SymP; return C
def prun(n,parts,hels=None):
    import subprocess,time
    C=row(n); t=ldefs(C)
    for h in C.hels:
        if hels is None or C.hname(h) in hels: t+=pkey(C,h)
    for p in parts: t+=p(C)
    fn='/tmp/L_%s.lean'%n
    open(fn,'w').write(PHEAD+'\n'.join(t)+'\n\nend Spinas.SM.Rows\n'); t0=time.time()
    q=subprocess.run(['lake','env','lean',fn],cwd='/verif/lean',capture_output=True,text=True)
    out=q.stdout+q.stderr; open(fn[:-5]+'.out','w').write(out)
    print(n,'%.0fs'%(time.time()-t0),'OK' if not out else '\n'.join(l for l in out.split('\n') if 'error' in l)[:600],flush=True)
PMOD={'PhotonWh':('A photon, a Higgs boson and two W bosons.','AhWW AWWh'),
'PhotonWW':('Two photons and two W bosons.','AAWW AWAW'),
'PhotonZW':('A photon, a Z boson and two W bosons.','AZWW AWZW')}
def one(n):
    C=row(n); t=ldefs(C)
    for h in C.hels: t+=pkey(C,h)
    return '/-! ### %s -/\n\n'%n+'\n'.join(t+pagree(C))
if __name__=='__main__':
    if sys.argv[1:]==['-write']:
        for m,(t,cs) in PMOD.items():
            h=PHEAD.replace('\n\nset_option','\n\n/-! %s Generated by tools/bosons/photons.py: for each class its amplitude at given helicities as a formula in spinors, and the proof that `amp2` is the squared amplitude of the Feynman rules. -/\n\nset_option'%t,1)
            open('/verif/lean/Verif/SM/Bosons/%s.lean'%m,'w').write(h+'\n\n'.join(one(n) for n in cs.split())+'\n\nend Spinas.SM.Rows\n')
    else:
        for n in sys.argv[1:]: prun(n,[pagree])
