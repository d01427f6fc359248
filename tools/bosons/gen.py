"""Lean text for a class with bosons: its amplitude as a formula in spinors, and the proof that amp2 is the squared amplitude of the Feynman rules."""
import re
from lp import *
from rows import ROWS
MASSES={'u':'(c.mass .u)','d':'(c.mass .d)','e':'(c.mass .e)','ne':'(c.mass .ne)'}
BOS={'h':'.higgs','A':'.photon','Z':'.z','W+':'.wPlus','W-':'.wMinus','g':'.gluon'}
anti=lambda b:{'W+':'W-','W-':'W+'}.get(b,b)
KIND={'u':'up','d':'down','e':'lepton','ne':'neutrino'}
VEC={'Z','W+','W-'}
def after(b,f):
    if b in('h','A','Z','g'): return f
    if b=='W+': return {'d':'u','e':'ne'}.get(f)
    if b=='W-': return {'u':'d','ne':'e'}.get(f)
# Lean text of Exp.mean
def T(e,L,memr,memc,vf,call=None,norm=None):
    h=e[0]; r=lambda x:T(x,L,memr,memc,vf,call,norm)
    if h=='lit': return '((%d : Nat) : ℝ)'%e[1]
    if h=='dec': return '(((%d : Nat) : ℝ) / 10 ^ %d)'%(e[1],e[2])
    if h=='mem': return (memr if e[1][0]=='r' else memc)(e[2])
    if h=='loc': return L[(e[1][0],e[2])]
    if h in('add','sub','mul','div'): return '(%s %s %s)'%(r(e[1]),{'add':'+','sub':'-','mul':'*','div':'/'}[h],r(e[2]))
    if h=='neg': return '(-%s)'%r(e[1])
    if h=='ofR': return '((%s : ℝ) : ℂ)'%r(e[1])
    if h=='smul': return '(((%s : ℝ) : ℂ) * %s)'%(r(e[1]),r(e[2]))
    if h=='divr': return '(%s / ((%s : ℝ) : ℂ))'%(r(e[1]),r(e[2]))
    if h=='pow': return '(%s ^ %d)'%(r(e[1]),e[2])
    if h=='sqrt': return '√(%s)'%r(e[1])
    if h=='abs': return '‖%s‖'%r(e[1])
    if h=='re': return '(%s).re'%r(e[1])
    if h=='conj': return '((starRingEnd ℂ) %s)'%r(e[1])
    if h=='norm': return norm
    if h=='v': return vf(e[1],[L[('i',x[1])] for x in e[2][1]])
    if h=='call': return call(e[1],[L[('i',x[1])] if x[0]=='var' else str(x[1]) if x[1]>=0 else '(%d)'%x[1] for x in e[2][1]])
    raise Exception(h)
def flat(s):
    if s[0]=='seq': return flat(s[1])+flat(s[2])
    return [s]
class Cl:
    def __init__(s,n,legs,pars,sign):
        s.n=n; s.legs=legs; s.pars=pars; s.sign=sign; s.d=cls(n)
        b=ALL[n][1]
        s.fer=[k for k in range(4) if legs[k][0] in KIND]
        s.bos=[k for k in range(4) if k not in s.fer]
        s.vec=[k for k in s.bos if legs[k][0] in VEC]
        s.spin=[k for k in range(4) if k in s.fer or k in s.vec]   # legs with spinors
        s.nu=[k for k in s.fer if legs[k][0]=='ne']
        if s.fer:
            s.i=[k for k in s.fer if (k<2)==legs[k][1]][0]
            s.j=[k for k in s.fer if (k<2)!=legs[k][1]][0]
        s.names=re.search(r'double amp\(([^)]*)\)`',b).group(1).split(',')
        s.names=[x for x in s.names if x]
        s.args=[int(x[2:])-1 for x in s.names]          # leg of each argument
        P=['(c.mass .%s)'%q[5:] if q.startswith('mass') else '(2 * c.MW * c.SW / c.e)' if q=='vev' else 'c.'+q for q in pars]
        s.vev='vev' in pars
        s.r={};s.sprod={};s.prop={};s.den={}
        Lp={('r',k):q for k,q in enumerate(P)}
        mr=lambda n:s.r[n]
        for ins in s.d['ctor'][1]:
            if ins[0]=='set': s.r[ins[2]]=T(ins[3],Lp,mr,None,None)
            elif ins[0]=='sprod': t=ins[2][1]; s.sprod[ins[1]]=(t[0]=='true',t[1],t[3][1],t[4])
            elif ins[0]=='prop': s.prop[ins[1]]=[T(ins[2],Lp,mr,None,None),T(ins[3],Lp,mr,None,None)]
            elif ins[0]=='propMass': s.prop.setdefault(ins[1],[None,'((0 : Nat) : ℝ)'])[0]=T(ins[2],Lp,mr,None,None)
        for ins in s.d['setMomenta'][1]:
            if ins[0]=='den': s.den[ins[2]]=(ins[3],ins[4])
        s.readr=set(); s.readc=set(); s.vuse=[]
        # legs of the vector bosons in the order of the loop, with the variables of their spinors
        s.lv=[]
        for st in flat(s.d['m_amp'][1][1]):
            if st[0]=='loop':
                for t in flat(st[6])[0][1][1]:
                    x,y=t[1][1] if isinstance(t[1][1],tuple) else (t[1][1],t[1][2])
                    s.lv.append((s.args[t[1][0]],x,y))
    # ---- names of spins and pairs
    def pair(s,k): return 'z%d'%k
    def body(s,mode):
        """text of the term added to the amplitude: mode 'N' with spins, 'form' with spinors"""
        st=flat(s.d['m_amp'][1][1])
        L={}
        m={}
        for q,k in enumerate(s.args): L[('i',q)]=('j%d'%(k+1) if mode=='N' else 'z%d'%k)
        if mode=='N': nr=lambda n:'N.r %d'%n; nc=lambda n:'N.c %d'%n; vf=lambda a,js:'N.v %d [%s]'%(a,', '.join(js)); w='w'
        else:
            def nr(n): s.readr.add(n); return 'r %d'%n
            def nc(n): s.readc.add(n); return 'd %d'%n
            w='((1 : Nat) : ℝ)'
            def vf(a,js):
                t,k,mid,l=s.sprod[a]
                js=list(js); zk='z%d'%k if k in s.nu else js.pop(0); zl='z%d'%l if l in s.nu else js.pop(0)
                assert not js
                s.vuse.append((a,zk,zl))
                if not mid: return '(%s %s.%d %s.%d)'%(('ab',zk,1,zl,1) if t else ('sb',zk,2,zl,2))
                assert len(mid)==1
                return '(mb %s.2 (p %d) %s.1)'%((zl,mid[0],zk) if t else (zk,mid[0],zl))
        X=('x' if s.vec else '((((0 : Nat) : ℝ) : ℝ) : ℂ)') if mode=='N' else '0'
        def run(sts):
            for q in sts:
                if q[0]=='set' and q[3][0]=='norm': L[('r',q[2])]=w
                elif q[0]=='set' and q[1][0]=='c' and q[2]==0 and q[3]==('ofR',('lit',0)): L[('c',0)]=X
                elif q[0]=='set': L[(q[1][0],q[2])]=T(q[3],L,nr,nc,vf,None,None)
                elif q[0]=='seti': pass
                elif q[0]=='spins':
                    for t in q[1][1]:
                        k=s.args[t[1][0]]; a,b=t[1][1]if isinstance(t[1][1],tuple) else (t[1][1],t[1][2])
                        L[('i',a)]='a%d'%k if mode=='N' else 'x%d'%k
                        L[('i',b)]='b%d'%k if mode=='N' else 'y%d'%k
                elif q[0]=='loop': run(flat(q[6]))
                elif q[0]=='ret': return T(q[2],L,nr,nc,vf)
        r=run(st)
        return r if r is not None else L[('c',0)]
    def amp2(s,m='m_amp2'):
        def body(sts,L,x):
            L=dict(L); L[('r',0)]=x
            call=lambda g,js:'(f %d [%s])'%(g,', '.join(js))
            for st in sts:
                if st[0]=='set': L[(st[1][0],st[2])]=T(st[3],L,None,None,None,call)
                elif st[0]=='loop':
                    _,n,lo,incl,hi,step,b=st
                    kind={(-1,1,2):'sumJ',(-2,2,2):'sumV',(-2,2,4):'sumW'}[(lo,hi[1],step)]
                    assert incl=='true'
                    v='abcd'[n]; L2=dict(L); L2[('i',n)]=v
                    inner=body(flat(b),L2,'x')
                    L[('r',0)]='(%s (fun x %s => %s) %s)'%(kind,v,inner[('r',0)],L[('r',0)])
                elif st[0]=='ret': L['ret']=T(st[2],L,None,None,None,call)
                else: raise Exception(st[0])
            return L
        return body(flat(s.d[m][1][1]),{},'UNDEF')['ret']
    # ---- momenta of the rules
    def mom(s,k): return '(p %d)'%k if k<2 else '(backward (p %d))'%k
    def along(s,k): return '(backward (p %d))'%k if s.legs[k][1] else '(p %d)'%k
    def boson(s,k): return s.legs[k][0] if k<2 else anti(s.legs[k][0])
    def mass(s,k):
        x=s.legs[k][0]
        return '(c.mass .%s)'%x if x in KIND else {'h':'c.MH','Z':'c.MZ','W+':'c.MW','W-':'c.MW','A':'(0 : ℝ)','g':'(0 : ℝ)'}[x]
    def channel(s,k,l):
        t=tuple(sorted((k,l)))
        return {(0,1):'s',(2,3):'s',(0,2):'t',(1,3):'t',(0,3):'u',(1,2):'u'}[t]
    def poles(s):
        """poles of the rules: (key, text, kind)"""
        o={}
        i,j=s.i,s.j; a,b=s.bos; f,g=s.legs[j][0],s.legs[i][0]
        for u,v in ((a,b),(b,a)):
            x=after(s.boson(u),f)
            if x and after(s.boson(v),x)==g:
                o[('f',x,s.channel(j,u))]=('((msq (plus %s %s) - c.mass .%s ^ 2 : ℝ) : ℂ)'%(s.along(j),s.mom(u),x),(u,v,x))
        q='(plus %s %s)'%(s.mom(a),s.mom(b)); ch=s.channel(a,b)
        o[('h',ch)]=('pole c.MH c.WH %s'%q,'.higgs')
        o[('Z',ch)]=('pole c.MZ c.WZ %s'%q,'.z')
        for w,W in (('W+','.wPlus'),('W-','.wMinus')):
            if after(w,f)==g: o[('W',ch)]=('pole c.MW c.WW %s'%q,W)
        o[('A',ch)]=('pole 0 0 %s'%q,'.photon')
        return o
