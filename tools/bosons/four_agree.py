"""Lean text: the squared amplitude of a class with four bosons is the one of the Feynman rules."""
from four import *
from agree import amps,DIV,HEAD
MEETS=lambda a,b,x:sorted((a,b,x)) in [sorted(t) for t in (('h','h','h'),('h','Z','Z'),('h','W+','W-'),('A','W+','W-'),('Z','W+','W-'))]
def agree4(C):
    n=C.n;o=amps(C);A=o.append
    S=Sym(C); S.code(); cp=poles4(S)
    ts=''.join(' t%d'%k for k in C.args); za=zargs(C,'form')
    D=[k for k,q in enumerate(C.pars) if q in('MW','SW')]; E=[k for k,q in enumerate(C.pars) if q=='SW']
    def lst(xs):
        r='List.forall_mem_nil _'
        for x in reversed(xs): r='List.forall_mem_cons.2 ⟨%s, %s⟩'%(x,r)
        return r
    A('')
    A('theorem %s.mass_eq {c : Constants} (hc : c.Physical) (i : Fin 4) : %s.proc.massNum (%s.rho c) i = %s.react.mass c i := by'%(n,n,n,n))
    A('  fin_cases i <;> first | rfl | (show c.MW / √(((1 : Nat) : ℝ) - c.SW * c.SW) = c.MZ; rw [c.root, c.mz])')
    A('')
    A('variable [FPEnv] in')
    A('theorem %s.agrees : %s.Agrees := by'%(n,n))
    A('  refine agrees_of (D := %s) (E := %s) (by simp [all, %s]) (by decide +kernel) (by decide) (by decide +kernel) (fun c hc hh => ⟨%s, %s⟩) (fun c hc i => %s.mass_eq hc i) (by decide +kernel) ?_'%(D,E,n,lst(['hc.'+C.pars[k] for k in D]),lst(['hc.SW_lt' for k in E]),n))
    A('  intro c p u ε hc hh hw h0 hs hb hr hu')
    R='%s.react'%n; N='(%s.N c p)'%n
    A('  have he : %s.ends = [] := by decide'%R); A('  have ht : %s.starts = [] := by decide'%R); A('  have hB : %s.bosons = [0, 1, 2, 3] := by decide'%R)
    A('  have hM : %s.allMassive = true := by decide'%R)
    A('  obtain ⟨f1, f2, f3⟩ := %s.regular_four he ht hB hr'%R)
    ab=ABSENT.get(n,[])
    for x in ab: A('  have h%s : c.%s = 0 := hw .%s (by simp [%s])'%(x,x,x,n))
    for k in sorted(C.readr):
        A('  have r%d : %s.r %d = %s := rfl'%(k,N,k,C.r[k]))
        if CWT in C.r[k]: A('  simp only [c.root] at r%d'%k)
    b=[C.legs[0][0],C.legs[1][0],anti(C.legs[2][0]),anti(C.legs[3][0])]
    for k,(x,ch) in cp.items():
        raw=C.prop[C.den[k][0]]; vv=C.den[k][1]
        A('  have c%d : %s.c %d = poleDist %s %s ((VExp.%s %d %d).sum p) := rfl'%(k,N,k,raw[0],raw[1],*vv))
        A('  rw [%spole_congr (msq_%s hb %s (by simp)).symm] at c%d'%({'Z':'c.root, c.mz, ','A':'Nat.cast_zero, '}.get(x,''),ch,CHM[ch],k))
        A('  have d%d : pole %s %s %s = %s.c %d := by rw [c%d]'%(k,*PM[x],CHM[ch],N,k,k))
        q={'s':(0,1,2,3),'t':(0,2,1,3),'u':(0,3,1,2)}[ch]
        ys=[y for y in ({'W':['W+','W-']}.get(x,[x])) if MEETS(b[q[0]],b[q[1]],anti(y)) and MEETS(b[q[2]],b[q[3]],y)]
        assert len(ys)==1,(n,x,ch,b)
        A('  have n%d : %s.c %d ≠ 0 := by rw [← d%d]; exact star_ne_zero.2 (%s %s rfl rfl)'%(k,N,k,k,{'s':'f1','t':'f2','u':'f3'}[ch],BOS[ys[0]]))
    for k in C.vec: A("  have m%d : %s.mass c %d ≠ 0 := (leg_pos hc hh (by decide)).ne'"%(k,R,k))
    dv=DIV[n]
    A('  have hd : %s.proc.divides = [%s] := by decide +kernel'%(n,', '.join('(Ty.%s, %d)'%x for x in dv)))
    A('  refine ⟨fun n hn => ?_, fun n hn => ?_, ?_⟩')
    for t in 'rc':
        ds=[x for y,x in dv if y==t]
        A('  · simp [hd] at hn')
        if ds:
            A('    rcases hn with %s'%' | '.join(['rfl']*len(ds)))
            for x in ds: A('    · exact n%d'%x if t=='c' else '    · rw [show %s.r %d = %s from rfl]; %sexact %s'%(N,x,C.r[x],'rw [c.root, c.mz]; ' if CWT in C.r[x] else '',"(MZ_pos hc hh).ne'" if CWT in C.r[x] else 'hc.'+C.r[x][2:]))
    P=lambda k,s:'(%s.codePair c p %d %s)'%(R,k,s)
    VE=lambda k:'(%s.codeVec c p %d %s)'%(R,k,'t%d'%k if k in C.vec else '0')
    kap='(-1)' if C.sign<0 else '1'
    conv='neg_one_mul' if C.sign<0 else 'one_mul'
    bare='%s.bare4 c p %s'%(R,' '.join(VE(k) for k in range(4)))
    form='%s.form %s p %s'%(n,N,' '.join(P(k,'%s%d'%(x,k)) for k in C.vec for x in 'ab'))
    for k,_,_ in reversed(C.lv): form='comb t%d (fun a%d b%d => %s)'%(k,k,k,form)
    A('  have st : %s%s = %s * %s := by'%('∀ (%s : Fin 3), '%ts.strip() if ts else '',form,kap,bare))
    if ts: A('    intro%s'%ts)
    hs=[k for k in range(4) if k not in C.vec]
    kcall='%s.key hc hb %s %s %s %s %s'%(n,' '.join([x[0] for x in members(C)]+['d%d n%d'%(k,k) for k in cp]),' '.join('b%d'%k for k in C.vec),' '.join('(onShell_msq (hs %d))'%k for k in range(4)),' '.join('h'+x for x in ab),' '.join(VE(k) for k in hs))
    if not C.vec: A('    rw [%s]'%conv); A('    exact %s'%kcall)
    else:
        L=[x[0] for x in C.lv]; v=len(L)
        nm={2:'two_vectors',3:'three_vectors',4:'four_vectors'}[v]
        var=['x%d'%k+e for k in range(4) for e in ('','b')]; pos={k:q for q,k in enumerate(L)}
        Bf='fun %s => %s.form %s p %s'%(' '.join(var[:2*v]),n,N,' '.join(var[2*pos[k]+e] for k in C.vec for e in (0,1)))
        EV=['E','F','G','H']
        Ev='fun %s => %s.bare4 c p %s'%(' '.join(EV[:v]),R,' '.join(EV[pos[k]] if k in C.vec else VE(k) for k in range(4)))
        sub='₀₁₂₃'
        lin=' '.join('(%s%s.bare4_lin%s c p (by decide) _ _ _)'%('fun '+'_ '*(v-1)+'=> ',R,sub[k]) for k in L)
        pn={2:('p',"p'"),3:('p₀','p₁','p₂'),4:('p₀','p₁','p₂','p₃')}[v]; mn={2:('m',"m'"),3:('m₀','m₁','m₂'),4:('m₀','m₁','m₂','m₃')}[v]
        A('    refine %s %s %s (B := %s) %s (G := %s) %s %s (fun %s %s => ?_) %s'%(nm,' '.join('(%s := p %d) (%s := %s.mass c %d)'%(a,k,m,R,k) for a,m,k in zip(pn,mn,L)),' '.join('(fun s => %s.codePair_bold hs h0 %d s)'%(R,k) for k in L),Bf,' '.join('(fun %s=> ?_)'%('_ '*(2*v+1)) for k in range(2*v)),Ev,lin,kap,' '.join('z%d'%k for k in L),' '.join('b%d'%k for k in L),' '.join('t%d'%k for k in L)))
        for k in L:
            for x in 'xy': A('    · exact %s.form_%s%d ..'%(n,x,k))
        A('    · rw [%s]; exact %s'%(conv,kcall))
    Lt=', '.join('spinV t%d'%k for k in C.args)
    A('  have am : %sCls.%s.m_amp.mean %s (callMean %s []) .c [%s] = %s * %s := by'%('∀ (%s : Fin 3), '%ts.strip() if ts else '',n,N,N,Lt,kap,bare))
    if ts: A('    intro%s'%ts)
    A('    rw [%s.amp_eq, ← st%s]'%(n,ts))
    for k,_,_ in C.lv: A('    refine congrArg (comb t%d) (funext fun a%d => funext fun b%d => ?_)'%(k,k,k))
    names=[];seen=set()
    for (q,zk,zl) in C.vuse:
        if (q,zk,zl) in seen: continue
        seen.add((q,zk,zl)); t,k,mid,l=C.sprod[q]
        sp=lambda z:('a' if z[0]=='x' else 'b')+z[1:]
        pk,pl=P(k,sp(zk)),P(l,sp(zl))
        if not mid: rhs='%s %s.%d %s.%d'%(('ab',pk,1,pl,1) if t else ('sb',pk,2,pl,2)); lem='bra_angle' if t else 'bra_square'
        elif t: rhs='mb %s.2 (p %d) %s.1'%(pl,mid[0],pk); lem='bra_mid_angle'
        else: rhs='mb %s.2 (p %d) %s.1'%(pk,mid[0],pl); lem='bra_mid_square'
        nm='v%d%s%s'%(q,zk,zl); names.append(nm)
        A('    have %s : %s.v %d [spinOf %s, spinOf %s] = %s := %s (p := p) (m := %s.proc.massNum (%s.rho c)) (%s.mass_eq hc %d) (%s.mass_eq hc %d) (.inl ⟨m%d, rfl⟩) (.inl ⟨m%d, rfl⟩)'%(nm,N,q,sp(zk),sp(zl),rhs,lem,n,n,n,k,n,l,k,l))
    A('    simp only [%s]'%', '.join(['%s.term'%n,'%s.form'%n]+names))
    A('    push_cast'); A('    ring')
    A('  show meaning %s .r Cls.%s.methods Cls.%s.amp2 [] = _'%(N,n,n))
    st=lambda k:1 if k not in C.vec else 3
    A('  have s0 : %s.states 0 = %d := by decide'%(R,st(0))); A('  have s1 : %s.states 1 = %d := by decide'%(R,st(1))); A('  have sy : %s.symmetry = %d := by decide'%(R,2 if C.legs[2]==C.legs[3] else 1))
    for k in range(4): A('  have p%d : %s.spins %d = %s := rfl'%(k,R,k,'Finset.univ' if k in C.vec else '{0}'))
    A("  rw [%s.value, %s.squared_four he ht hB (noGluon_of hM) hs h0 (fun _ b _ hb _ => (boson_pos hc hh hb).ne') (%s.gauge_massive (massive_of hM)) (E := %s.codeVec c p) (fun n b hl => %s.codeVec_polarised hs h0 hl (massive_of hM n b hl) (fun _ => (boson_pos hc hh (massive_of hM n b hl)).ne')) hu, sum_colours, s0, s1, sy]"%(n,R,R,R,R))
    A('  simp only [bareFour_eq, sumV_sum, am, norm_mul, norm_neg, norm_one, one_mul, p0, p1, p2, p3, Finset.sum_singleton, Matrix.cons_val_zero, Matrix.cons_val_one, Matrix.cons_val]')
    A('  push_cast')
    A('  first | ring1 | ring_nf')
    return o
if __name__=='__main__':
    import subprocess,time
    for n in sys.argv[1:]:
        C=Cl(n,legs(n),pars(n),G4[n]); t=HEAD+'\n'.join(defs(C)+key4(C)+agree4(C))+'\n\nend Spinas.SM.Rows\n'
        fn='/tmp/K_%s.lean'%n
        open(fn,'w').write(t); t0=time.time()
        q=subprocess.run(['lake','env','lean',fn],cwd='/verif/lean',capture_output=True,text=True)
        out=q.stdout+q.stderr; open(fn[:-5]+'.out','w').write(out)
        print(n,'%.0fs'%(time.time()-t0),'OK' if not out else out[:1500],flush=True)
