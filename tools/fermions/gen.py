import sys,re
from lp import *
from rows import ROWS
import ast
out3=open(__import__('os').path.dirname(__import__('os').path.abspath(__file__))+'/reads.txt').read()
i=out3.index('[("eemm", [('); j=out3.index('[("eemm", [1, 2]')
DIV={a:(b,c) for a,b,c in ast.literal_eval(out3[i:j])}
ENDS={a:(b,c) for a,b,c in ast.literal_eval(out3[j:])}
NEU={'ne','nmu','ntau'}
def tname(t): return t[0]
# Lean text of Exp.mean
def T(e,L,memr,memc,vf,call=None):
    h=e[0]; r=lambda x:T(x,L,memr,memc,vf,call)
    if h=='lit': return '((%d : Nat) : ℝ)'%e[1]
    if h=='dec': return '(((%d : Nat) : ℝ) / 10 ^ %d)'%(e[1],e[2])
    if h=='mem': return (memr if e[1][0]=='r' else memc)(e[2])
    if h=='loc': return L[(e[1][0],e[2])]
    if h in('add','sub','mul','div'): return '(%s %s %s)'%(r(e[1]),{'add':'+','sub':'-','mul':'*','div':'/'}[h],r(e[2]))
    if h=='neg': return '(-%s)'%r(e[1])
    if h=='ofR': return '((%s : ℝ) : ℂ)'%r(e[1])
    if h=='smul': return '(((%s : ℝ) : ℂ) * %s)'%(r(e[1]),r(e[2]))
    if h=='divr': return '(%s / ((%s : ℝ) : ℂ))'%(r(e[1]),r(e[2]))
    if h=='pow': return '(%s ^ %d)'%(r(e[1]),e[2])
    if h=='sqrt': return '√(%s)'%r(e[1])
    if h=='abs': return '‖%s‖'%r(e[1])
    if h=='re': return '(%s).re'%r(e[1])
    if h=='conj': return '((starRingEnd ℂ) %s)'%r(e[1])
    if h=='v': return vf(e[1],[L[('i',x[1])] for x in e[2][1]])
    if h=='call': return call(e[1],[L[('i',x[1])] for x in e[2][1]])
    raise Exception(h)
NR=lambda n:'N.r %d'%n
NC=lambda n:'N.c %d'%n
NV=lambda a,js:'N.v %d [%s]'%(a,', '.join(js))
CALL=lambda g,js:'(f %d [%s])'%(g,', '.join(js))
def flat(s):
    if s[0]=='seq': return flat(s[1])+flat(s[2])
    return [s]
def method(m,names):
    """straight-line method returning text"""
    L={('i',k):n for k,n in enumerate(names)}
    for st in flat(m[1][1]):
        if st[0]=='set': L[(st[1][0],st[2])]=T(st[3],L,NR,NC,NV,CALL)
        elif st[0]=='ret': return T(st[2],L,NR,NC,NV,CALL)
        else: raise Exception(st[0])
def amp2(m,call):
    """(accumulated per-iteration text list, loop count, final)"""
    L={}
    depth=0
    def body(sts,L,x):
        L=dict(L); L[('r',0)]=x
        for st in sts:
            if st[0]=='set': L[(st[1][0],st[2])]=T(st[3],L,NR,NC,NV,call)
            elif st[0]=='loop':
                _,n,lo,incl,hi,step,b=st
                assert lo==-1 and incl=='true' and hi==('lit',1) and step==2,(lo,incl,hi,step)
                v='abcd'[n]; L2=dict(L); L2[('i',n)]=v
                inner=body(flat(b),L2,'x')
                L[('r',0)]='(sumJ (fun x %s => %s) %s)'%(v,inner[('r',0)],L[('r',0)])
            elif st[0]=='ret': L['ret']=T(st[2],L,NR,NC,NV,call)
            else: raise Exception(st[0])
        return L
    return body(flat(m[1][1]),L,'UNDEF')['ret']
class Cl:
    def __init__(s,n,legs,pars,th):
        s.n=n; s.legs=legs; s.pars=pars; s.th=th; s.d=cls(n)
        s.meths=[k for k in s.d if k.startswith('m_')]   # in order
        s.amps=[k for k in s.meths if k!='m_amp2']
        b=ALL[n][1]
        s.args={k:len([1 for _ in range(s.d[k][1][0])]) for k in s.amps}
        s.pnames={}
        for k in s.amps:
            m=re.search(r'double %s\(([^)]*)\)`'%k[2:],b); s.pnames[k]=[x for x in m.group(1).split(',') if x]
        s.sprod={}; s.den={}; s.r={}; s.prop={}
        P=[None if q is None else 'c.'+q.replace('mass ','mass .') if not q.startswith('mass') else '(c.mass .%s)'%q[5:] for q in pars]
        s.P=P
        env={}
        def mr(n): return env.get(n,'??')
        Lp={('r',k):(q or '??') for k,q in enumerate(P)}
        for ins in s.d['ctor'][1]:
            if ins[0]=='set': env[ins[2]]=T(ins[3],Lp,mr,None,None)
            elif ins[0]=='sprod': s.sprod[ins[1]]=(ins[2][1][0]=='true',ins[2][1][1],ins[2][1][4])
            elif ins[0]=='prop': s.prop[ins[1]]=[T(ins[2],Lp,mr,None,None),T(ins[3],Lp,mr,None,None)]
            elif ins[0]=='propMass': s.prop.setdefault(ins[1],[None,'((0 : Nat) : ℝ)'])[0]=T(ins[2],Lp,mr,None,None)
        s.r=env
        for ins in s.d['setMomenta'][1]:
            if ins[0]=='den': s.den[ins[2]]=(ins[3],ins[4])
        s.ends,s.starts=ENDS[n]
        s.div,s.reads=DIV[n]
        s.nu=[k for k in range(4) if legs[k][0] in NEU]
        s.quark=[legs[k][0] in 'uctdsb' for k in range(4)]
    def definitions(s):
        o=[]
        n=s.n
        o.append('/-- what the methods of the class see -/')
        o.append('noncomputable abbrev %s.N [FPEnv] (c : Constants) (p : Nat → V4 ℝ) : Env := %s.proc.env (%s.rho c) p'%(n,n,n))
        for k in s.amps:
            js=['j%s'%x[2:] for x in s.pnames[k]]
            txt=method(s.d[k],js)
            o.append('/-- `%s` (SM/%s.cpp) -/'%(k[2:],n))
            o.append('noncomputable def %s.%s (N : Env)%s : ℂ :=\n  %s'%(n,k[2:],' (%s : Int)'%' '.join(js) if js else '',txt))
        t2=amp2(s.d['m_amp2'],CALL)
        o.append('set_option maxRecDepth 8000 in\ntheorem %s.amp2_eq (N : Env) (f : Nat → List Int → ℂ) : Cls.%s.m_amp2.mean N f .r [] =\n    %s := by rfl'%(n,n,t2))
        cal=lambda g,js:'%s.%s N%s'%(n,s.amps[g][2:],''.join(' '+j for j in js))
        t3=amp2(s.d['m_amp2'],lambda g,js:'('+cal(g,js)+')')
        o.append('set_option maxRecDepth 8000 in\ntheorem %s.value (N : Env) : meaning N .r Cls.%s.methods Cls.%s.amp2 [] =\n    %s :=\n  %s.amp2_eq N (callMean N [%s])'%(n,n,n,t3,n,', '.join('Cls.%s.%s'%(n,k) for k in reversed(s.amps))))
        return '\n'.join(o)
if __name__=='__main__':
    C={r[0]:Cl(*r) for r in ROWS}
    for n in sys.argv[1:]:
        c=C[n]; print(c.definitions()); print(c.r,c.sprod,c.den,c.prop)
