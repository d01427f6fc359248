"""Writes lean/Verif/SM/Bosons/Polar*.lean: the methods for incoming photons and gluons of given helicity return the squared amplitudes of the Feynman rules for these helicities."""
import re,sys
from lagree import *
from lrows import LROWS
import photons
from lemit import LMOD
PMODS={'PolarPhotons':('Two photons, or a photon and a gluon.','AAuu AAdd AAee uAAu dAAd eAAe gAdd gAuu dAgd guAu'),
'PolarHiggs':('A photon or a gluon, and a Higgs boson.','uAuh dAdh eAeh dgdh uguh hgdd hguu'),
'PolarZ':('A photon or a gluon, and a Z boson.','AZuu AZdd AZee AuZu AdZd AeZe gZdd gZuu gdZd guZu'),
'PolarW':('A photon or a gluon, and a W boson.','AWud AnWe gWud'),
'PolarGluons':('Two gluons.','ggdd gguu dggd gugu'),
'PolarFour':('Four bosons.','AhWW AWWh AAWW AWAW AZWW AWZW')}
LR={r[0]:r for r in LROWS}
FR={r[0]:r for r in photons.FROWS}
WHERE={c:m for m,(_,cs) in list(LMOD.items())+list(photons.PMOD.items()) for c in cs.split()}
GG='ggdd gguu dggd gugu'.split()
for c in GG: WHERE[c]='GluonPairs'
from lp import ALL
def record(n,f): return re.search(r'\ndef %s : Proc where\n.*?%s := \[(.*?)\]\n'%(n,f),open(ALL[n][0]).read(),re.S).group(1)
def others(n): return [(a,int(b)) for a,b in re.findall(r'\("(\w+)", (\d+)\)',record(n,'others'))]
def lst(xs):
    r='List.forall_mem_nil _'
    for x in reversed(xs): r='List.forall_mem_cons.2 ⟨%s, %s⟩'%(x,r)
    return r
Z=lambda k:'(legA (p %d) 0 0, legS (p %d) 0 1)'%(k,k)
SPINS=['Finset.univ','{0, 1}','{0}']
class Meth:
    """one method: its loops and the helicities"""
    def __init__(s,C,name):
        s.name=name; s.text=C.amp2('m_'+name)
        s.call=re.search(r'f 0 \[([^\]]*)\]',s.text).group(1).split(', ')
        s.fixed={C.args[q]:(1 if x[0]!='(' else 0) for q,x in enumerate(s.call) if x not in 'abcd'}
        s.lit={C.args[q]:x for q,x in enumerate(s.call) if x not in 'abcd'}
        s.loop={C.args['abcd'.index(x)] if False else C.args[q]:x for q,x in enumerate(s.call) if x in 'abcd'}
        s.kind={v:re.search(r'(sum\w) \(fun x %s '%v,s.text).group(1) for v in s.loop.values()}
        s.H='![%s]'%', '.join('none' if k not in s.fixed else 'some true' if s.fixed[k] else 'some false' for k in range(4))
def states(C,k,m):
    x=C.legs[k][0]
    if m and k in m.fixed: return {'A':1,'g':8}[x]
    return {'u':6,'d':6,'e':2,'ne':1,'h':1,'Z':3,'W+':3,'W-':3,'A':2,'g':16}[x]
def emit(n):
    four=n in FR
    C=photons.row(n) if four else LCl(*LR[n])
    o=[]; A=o.append
    A('/-! ### %s -/\n'%n)
    ms=record(n,'methods').split(', ')
    S='%s.react'%n; v=' v' if C.vev else ''; N='(%s.N c%s p)'%(n,v)
    D=[k for k,q in enumerate(C.pars) if q in('MW','SW')]; E=[k for k,q in enumerate(C.pars) if q=='SW']
    gl=[k for k in C.light if C.legs[k][0]=='g']
    W0='WW' in C.pars and not gl
    for name,k in others(n):
        m=Meth(C,name); rest=ms[len(ms)-k:]
        A('set_option maxRecDepth 8000 in')
        A('theorem %s.%s_eq (N : Env) (f : Nat → List Int → ℂ) : Cls.%s.m_%s.mean N f .r [] =\n    %s := by rfl'%(n,name,n,name,m.text))
        val=re.sub(r'\(f 0 \[([^\]]*)\]\)',r'(Cls.%s.m_amp.mean N (callMean N []) .c [\1])'%n,m.text)
        A('set_option maxRecDepth 8000 in')
        A('theorem %s.%s_value (N : Env) : meaning N .r Cls.%s.methods %d [] =\n    %s :=\n  %s.%s_eq N (callMean N [%s])'%(n,name,n,k,val,n,name,', '.join('Cls.%s.%s'%(n,x.split('.')[-1]) for x in rest)))
        A('')
        od=[q for q in C.light if q not in m.fixed and m.kind[m.loop[q]]!='sumW']
        for x in ((0,1) if od else ()):
            H=C.hname(tuple({1:2,0:-2}[m.fixed[q] if q in m.fixed else x] for q in C.light))
            J=', '.join(m.lit[q] if q in m.fixed else ('spinOf %d'%x) if q in od else 'j%d'%(q+1) for q in C.args); jl=['j%d'%(q+1) for q in C.args if q not in C.light]
            A('set_option maxRecDepth 8000 in')
            A('/-- the loop gives the outgoing gluon the spins 1 and -1 in place of 2 and -2: the amplitude looks only at their signs -/')
            A('theorem %s.amp%s_odd (N : Env) (f : Nat → List Int → ℂ) (%s : Int) : Cls.%s.m_amp.mean N f .c [%s] = %s.term%s N %s := by rfl'%(n,H,' '.join(jl),n,J,n,H,' '.join(jl)))
        A('variable [FPEnv] in')
        A('/-- `%s` -/'%name)
        A('theorem %s.%s_polarises : %s.Polarises%s %d %s := by'%(n,name,n,'Vev' if C.vev else '',k,m.H))
        A('  refine '+('polarisesSet_of %s'%sorted(C.den) if C.csets else 'polarisesVev_of' if C.vev else 'polarises_of')+' (D := %s) (E := %s) (by unfold Reaction.Lights; decide) (by decide) (by simp [all, %s]) (by decide +kernel) (by decide) (by decide +kernel) (fun c %shc hh%s => ⟨%s, %s⟩) (fun c %shc i => %s.mass_eq hc i) (by decide +kernel) ?_'%(D,E,n,'v ' if C.vev else '',' _' if C.vev else '',lst(['hc.'+C.pars[q] for q in D]),lst(['hc.SW_lt' for q in E]),'v ' if C.vev else '',n))
        A('  intro c%s p hc hh %s h0 hs hb hr hu'%(v,'hve' if C.vev else 'hw'))
        if four:
            A('  have he : %s.ends = [] := by decide'%S); A('  have ht : %s.starts = [] := by decide'%S); A('  have hB : %s.bosons = [0, 1, 2, 3] := by decide'%S)
        else:
            i,j=C.i,C.j;a,b=C.bos
            A('  have he : %s.ends = [%d] := by decide'%(S,i)); A('  have ht : %s.starts = [%d] := by decide'%(S,j)); A('  have hB : %s.bosons = [%d, %d] := by decide'%(S,a,b))
        if W0: A('  have hWW : c.WW = 0 := hw .WW (by simp [%s])'%n)
        ns=sorted(C.den); zn=['w%s%d'%(C.hname(h),q) for h in C.hels for q in C.nu]
        A('  obtain ⟨%s, d1, d2, %sam⟩ := %s.amps hc hh%s%s h0 hs hb hr hu'%(', '.join('n%d'%q for q in ns),''.join(z+', ' for z in zn),n,' hve' if C.vev else '',' hw' if W0 else ''))
        if four:
            A('  have hG : %s.Gauge c p := %s.gauge hc.MW hWW %s(fun n => onShell_msq (hs n)) hr'%(S,n,'' if 'h' in n else 'hb '))
            st='(%s.state_four he ht hB (by decide) _ s).trans (one_mul _).symm'%S
        else:
            leg=lambda q:'(fun _ => ⟨rfl, rfl⟩)' if q in C.light else '(fun h => absurd h (by decide))'
            A('  have hG : %s.Gauge c p := %s.gauge_line he ht hB hh (by decide) (fun n => onShell_msq (hs n)) hb hr %s %s %s'%(S,S,'(fun _ _ _ _ => hWW)' if W0 else '(fun n m h h2 => absurd (And.intro h h2) (by revert n m; decide))',leg(a),leg(b)))
            if gl: st='%s.state_gluon %d he ht hB (by decide) (by decide +kernel) (by decide +kernel) _ s'%(S,gl[0])
            else: st='%s.state_line he ht hB (by decide) _ s'%S
        A('  refine ⟨%sd1, d2, hG, _, _, fun s _ => %s, ?_⟩'%(lst(['n%d'%q for q in ns])+', ' if C.csets else '',st))
        # the amplitude for the given helicity
        VE=lambda q:'(%s.codeVec c p %d %s)'%(S,q,'t%d'%q if q in C.vec else '0')
        fs=[q for q in C.fer if q not in C.nu]
        P=lambda q,s:'(%s.codePair c p %d %s)'%(S,q,s)
        fr=lambda q:P(q,('1' if q==C.i else '0') if q in C.nu else 's%d'%q)
        rest_=[q for q in C.light if q not in m.fixed]
        bind=''.join(' (s%d : Fin 2)'%q for q in fs)+''.join(' (h%d : Fin 2)'%q for q in rest_)+''.join(' (t%d : Fin 3)'%q for q in C.args if q in C.vec)
        names=''.join(' s%d'%q for q in fs)+''.join(' h%d'%q for q in rest_)+''.join(' t%d'%q for q in C.args if q in C.vec)
        full=''.join(' s%d'%q for q in fs)+''.join(' %s'%(m.fixed[q] if q in m.fixed else 'h%d'%q) for q in C.light)+''.join(' t%d'%q for q in C.args if q in C.vec)
        sp=lambda q:m.lit[q] if q in m.fixed else ('spinW h%d'%q if m.kind[m.loop[q]]=='sumW' else 'spinOf h%d'%q) if q in C.light else 'spinOf s%d'%q if q in C.fer else 'spinV t%d'%q
        L=', '.join(sp(q) for q in C.args)
        LE=lambda q:'(lightE %s %s)'%(Z(q),m.fixed[q] if q in m.fixed else 'h%d.castSucc'%q)
        EE=lambda q:LE(q) if q in C.light else VE(q)
        bare='%s.bare4 c p %s'%(S,' '.join(EE(q) for q in range(4))) if four else '%s.bare c p %d %d %d %d %s %s %s %s'%(S,C.i,C.j,*C.bos,fr(C.i),fr(C.j),EE(C.bos[0]),EE(C.bos[1]))
        odd=[q for q in rest_ if m.kind[m.loop[q]]!='sumW']
        ones=[q for q in m.fixed if m.lit[q]=='1']
        A('  have aP : ∀%s, ‖Cls.%s.m_amp.mean %s (callMean %s []) .c [%s]‖ = ‖%s‖ := by'%(bind,n,N,N,L,bare))
        A('    intro%s'%names)
        if odd:
            assert len(odd)==1 and not C.vec
            A('    match h%d with'%odd[0])
            for x in (0,1):
                H=C.hname(tuple({1:2,0:-2}[m.fixed[q] if q in m.fixed else x] for q in C.light))
                A('    | %d => exact (congrArg norm ((%s.amp%s_odd ..).trans (%s.amp%s ..).symm)).trans (am%s)'%(x,n,H,n,H,full.replace('h%d'%odd[0],str(x))))
        elif ones: A('    exact (congrArg norm ((%s.amp%s_one ..).trans (%s.amp%s ..).symm)).trans (am%s)'%(n,C.hname(C.hels[0]),n,C.hname(C.hels[0]),full))
        else: A('    exact am%s'%full)
        A('  show meaning %s .r Cls.%s.methods %d [] = _'%(N,n,k))
        for q in (0,1): A('  have s%d : %s.someStates %s %d = %d := by decide +kernel'%(q,S,m.H,q,states(C,q,m)))
        A('  have sy : %s.symmetry = %d := by decide'%(S,2 if C.legs[2]==C.legs[3] else 1))
        for q in range(4): A('  have p%d : %s.pick %s %d = %s := rfl'%(q,S,m.H,q,'{%d}'%m.fixed[q] if q in m.fixed else 'Finset.univ' if q in C.vec else '{0}' if C.legs[q][0]=='h' else '{0, 1}'))
        bos=range(4) if four else C.bos
        for q in bos: A('  have E%d : %s.codeE c p %d = %s := rfl'%(q,S,q,'lightE %s'%Z(q) if q in C.light else '%s.codeVec c p %d'%(S,q)))
        if not gl and not four: A('  have lc : %s.lineColours %d %d = %d := by decide +kernel'%(S,C.i,C.j,3 if C.legs[C.i][0] in 'ud' else 1))
        A('  rw [%s.%s_value%s, s0, s1, sy]'%(n,name,', lc' if not gl and not four else ''))
        A('  simp only [%ssumV_sum, sumJ_sum, sumW_sum, aP, p0, p1, p2, p3, %s, Finset.sum_singleton, sum_two, Matrix.cons_val_zero, Matrix.cons_val_one, Matrix.cons_val, two_castSucc]'%('bareFour_eq, ' if four else '',', '.join('E%d'%q for q in bos)))
        if C.nu: A('  simp only [Fin.sum_univ_two, Fin.castSucc_zero, Fin.castSucc_one, %s, norm_zero]'%', '.join(zn))
        A('  try simp only [← Finset.mul_sum]')
        A('  push_cast')
        A('  ring')
        A('')
    return '\n'.join(o)
GM={'dggd':[('amp2_gplus',{1:1}),('amp2_gminus',{1:0})],'gugu':[('amp2_gplus',{0:1}),('amp2_gminus',{0:0})]}
def emitG(n):
    """two gluons"""
    from gluons import D
    d=D[n];i,j,a,b=d['legs'];ts,ta,tb=d['s'],d['t'],d['u']
    S='%s.react'%n;N='(%s.N c p)'%n
    o=[];A=o.append
    A('/-! ### %s -/\n'%n)
    ms=record(n,'methods').split(', ')
    for name,k in others(n):
        if name=='amp2_Feynman': continue
        fixed=dict(GM[n])[name] if n in GM else {0:1,1:int(name=='amp2_gplus_gplus')}
        H='![%s]'%', '.join('none' if q not in fixed else 'some true' if fixed[q] else 'some false' for q in range(4))
        lit={q:'2' if x else '(-2)' for q,x in fixed.items()}
        loops=[q for q in range(4) if q not in fixed]; var=dict(zip(loops,'abcd'))
        kind={q:'sumW' if q in (a,b) and n!='dggd' else 'sumJ' for q in loops}
        L=', '.join(lit.get(q) or var[q] for q in range(4))
        def txt(call):
            t='(x + (‖(%s [%s])‖ ^ 2 * ((((6 : Nat) : ℝ) / (N.r %d * N.r %d) ^ 2 + ((6 : Nat) : ℝ) / (N.r %d * N.r %d) ^ 2) - ((2 : Nat) : ℝ) / ((3 : Nat) : ℝ) / (N.r %d * N.r %d) ^ 2)))'%(call,L,ts,ta,ts,tb,ta,tb)
            for q in reversed(loops): t='(%s (fun x %s => %s) x)'%(kind[q],var[q],t)
            return '(%s / ((%d : Nat) : ℝ))'%(t[:-2]+' ((0 : Nat) : ℝ))',64 if len(fixed)==2 else 48)
        A('set_option maxRecDepth 8000 in')
        A('theorem %s.%s_eq (N : Env) (f : Nat → List Int → ℂ) : Cls.%s.m_%s.mean N f .r [] =\n    %s := by rfl'%(n,name,n,name,txt('f 0')))
        A('set_option maxRecDepth 8000 in')
        A('theorem %s.%s_value (N : Env) : meaning N .r Cls.%s.methods %d [] =\n    %s :=\n  %s.%s_eq N (callMean N [%s])'%(n,name,n,k,txt('Cls.%s.m_amp_Num.mean N (callMean N []) .c'%n),n,name,', '.join('Cls.%s.%s'%(n,x.split('.')[-1]) for x in ms[len(ms)-k:])))
        A('')
        fs=sorted((i,j)); js=['j%d'%(q+1) for q in fs]
        odd=[q for q in loops if q in (a,b) and kind[q]=='sumJ']
        nm=lambda x:''.join('MP'[fixed[q] if q in fixed else x] for q in (a,b))
        for x in ((0,1) if odd else ()):
            J=', '.join(lit.get(q) or ('spinOf %d'%x if q in odd else 'j%d'%(q+1)) for q in range(4))
            A('set_option maxRecDepth 8000 in')
            A('/-- the loop gives the outgoing gluon the spins 1 and -1 in place of 2 and -2: the amplitude looks only at their signs -/')
            A('theorem %s.amp%s_odd (N : Env) (f : Nat → List Int → ℂ) (%s : Int) : Cls.%s.m_amp_Num.mean N f .c [%s] = %s.term%s N %s := by rfl'%(n,nm(x),' '.join(js),n,J,n,nm(x),' '.join(js)))
        A('variable [FPEnv] in')
        A('/-- `%s` -/'%name)
        A('theorem %s.%s_polarises : %s.Polarises %d %s := by'%(n,name,n,k,H))
        A('  refine polarises_of (D := []) (E := []) (by unfold Reaction.Lights; decide) (by decide) (by simp [all, %s]) (by decide +kernel) (by decide) (by decide +kernel) (fun c hc hh => ⟨List.forall_mem_nil _, List.forall_mem_nil _⟩) (fun c hc i => %s.mass_eq hc i) (by decide +kernel) ?_'%(n,n))
        A('  intro c p hc hh hw h0 hs hb hr hu')
        A('  have he : %s.ends = [%d] := by decide'%(S,i)); A('  have ht : %s.starts = [%d] := by decide'%(S,j)); A('  have hB : %s.bosons = [%d, %d] := by decide'%(S,a,b))
        A('  obtain ⟨n2, n3, n4, d0, o1, o2, am⟩ := %s.amps hc hh h0 hs hb hr hu'%n)
        A('  have hd : ∀ x ∈ %s.proc.divides, x = (Ty.r, 2) ∨ x = (Ty.r, 3) ∨ x = (Ty.r, 4) := by decide +kernel'%n)
        A('  have hG : %s.Gauge c p := %s.gauge_line he ht hB hh (by decide) (fun n => onShell_msq (hs n)) hb hr (fun n m h h2 => absurd (And.intro h h2) (by revert n m; decide)) (fun _ => ⟨rfl, rfl⟩) (fun _ => ⟨rfl, rfl⟩)'%(S,S))
        A("  refine ⟨fun n hn => ?_, fun n hn => ?_, hG, _, _, fun s hsp => %s.state_gluons he ht hB (by decide) rfl rfl rfl rfl hb hr (by decide +kernel) (by decide +kernel) hs h0 (fun _ b _ hb _ => (boson_pos hc hh hb).ne') (E := %s.codeE c p) (fun n b hl => %s.codeE_polarised hs h0 hu (fun b hb => (boson_pos hc hh hb).ne') n b hl) hsp, ?_⟩"%(S,S,S))
        A('  · rcases hd _ hn with h | h | h <;> cases h')
        for q in '234': A('    · exact n'+q)
        A('  · rcases hd _ hn with h | h | h <;> cases h')
        rest=[q for q in (a,b) if q not in fixed]
        sp=lambda q:lit[q] if q in fixed else 'spinOf h%d'%q if q in odd else 'spinW h%d'%q if q in rest else 'spinOf s%d'%q
        LE=lambda q:'(lightE %s %s)'%(Z(q),fixed[q] if q in fixed else 'h%d.castSucc'%q)
        names=' '.join(['s%d'%q for q in fs]+['h%d'%q for q in rest]); full=' '.join(['s%d'%q for q in fs]+[str(fixed[q]) if q in fixed else 'h%d'%q for q in (a,b)])
        A('  have aP : ∀ (%s : Fin 2), ‖Cls.%s.m_amp_Num.mean %s (callMean %s []) .c [%s]‖ ^ 2 = (%s.r %d * %s.r %d) ^ 2 * ‖%s.bare c p %d %d %d %d (%s.codePair c p %d s%d) (%s.codePair c p %d s%d) %s %s‖ ^ 2 := by'%(names,n,N,N,', '.join(sp(q) for q in range(4)),N,ta,N,tb,S,i,j,a,b,S,i,i,S,j,j,LE(a),LE(b)))
        A('    intro %s'%names)
        if odd:
            A('    match h%d with'%odd[0])
            for x in (0,1): A('    | %d => exact (congrArg (‖·‖ ^ 2) ((%s.amp%s_odd ..).trans (%s.amp%s ..).symm)).trans (am %s)'%(x,n,nm(x),n,nm(x),full.replace('h%d'%odd[0],str(x))))
        else: A('    exact am %s'%full)
        A('  show meaning %s .r Cls.%s.methods %d [] = _'%(N,n,k))
        for q in (0,1): A('  have s%d : %s.someStates %s %d = %d := by decide +kernel'%(q,S,H,q,8 if q in fixed else 6))
        A('  have sy : %s.symmetry = 1 := by decide'%S)
        for q in range(4): A('  have p%d : %s.pick %s %d = %s := rfl'%(q,S,H,q,'{%d}'%fixed[q] if q in fixed else '{0, 1}'))
        for q in (a,b): A('  have E%d : %s.codeE c p %d = lightE %s := rfl'%(q,S,q,Z(q)))
        A('  rw [%s.%s_value, o1, o2, colour_weights n%d n%d n%d d0, s0, s1, sy]'%(n,name,ts,ta,tb))
        A('  simp only [sumJ_sum, sumW_sum, aP, p0, p1, p2, p3, E%d, E%d, Finset.sum_singleton, sum_two, Matrix.cons_val_zero, Matrix.cons_val_one, Matrix.cons_val, two_castSucc]'%(a,b))
        A('  simp only [← Finset.sum_mul, ← Finset.mul_sum]')
        A('  push_cast')
        A('  ring')
        A('')
    return '\n'.join(o)
def head(t,cs):
    mods=sorted({WHERE[c] for c in cs})
    return '\n'.join('import Verif.SM.Bosons.%s'%m for m in mods)+'\nimport Verif.SM.Polar\n\n/-! %s Generated by tools/bosons/polar.py: the methods for given helicities return the squared amplitudes of the Feynman rules. -/\n\nset_option maxHeartbeats 1000000\n\nnamespace Spinas.SM.Rows\nopen Spec Spec.Reaction Props XR Matrix BRow\n\n'%t
if __name__=='__main__':
    for m,(t,cs) in PMODS.items():
        if sys.argv[1:] and m not in sys.argv[1:]: continue
        cs=cs.split()
        open('/verif/lean/Verif/SM/Bosons/%s.lean'%m,'w').write(head(t,cs)+'\n'.join((emitG if c in GG else emit)(c) for c in cs)+'\nend Spinas.SM.Rows\n')
