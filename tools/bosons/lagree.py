"""Lean text: the squared amplitude of a class with massless bosons is the one of the Feynman rules."""
from ltext import *
SPIN={2:'2',-2:'(-2)'}
FIX={2:1,-2:0}
def lamps(C):
    n=C.n;o=[];A=o.append
    assert C.args==sorted(C.args),C.args
    js=''.join(' j%d'%(k+1) for k in C.args if k in C.fer); ts=''.join(' t%d'%k for k in C.args if k in C.vec)
    A('set_option maxRecDepth 8000 in')
    A('theorem %s.amp2_eq (N : Env) (f : Nat → List Int → ℂ) : Cls.%s.m_amp2.mean N f .r [] =\n    %s := by rfl'%(n,n,C.amp2()))
    A('set_option maxRecDepth 8000 in')
    val=re.sub(r'\(f 0 \[([^\]]*)\]\)',r'(Cls.%s.m_amp.mean N (callMean N []) .c [\1])'%n,C.amp2())
    A('theorem %s.value (N : Env) : meaning N .r Cls.%s.methods Cls.%s.amp2 [] =\n    %s :=\n  %s.amp2_eq N (callMean N [Cls.%s.m_amp])'%(n,n,n,val,n,n))
    bind=('(N : Env) (f : Nat → List Int → ℂ)'+(' (%s : Int)'%js.strip() if js else '')+(' (%s : Fin 3)'%ts.strip() if ts else ''))
    jl=jnames(C)
    ix={}
    for q,k in enumerate(C.args):
        if k in C.fer: ix['j%d'%(k+1)]=q
    for k,x,y in C.lv: ix['a%d'%k]=x; ix['b%d'%k]=y
    if C.vec:
        for h in C.hels:
            H=C.hname(h)
            A('theorem %s.term%s_lin (N : Env) (w : ℝ) (x : ℂ) (%s : Int) : %s.term%s N w x %s = x + (w : ℂ) * %s.term%s N 1 0 %s := by\n  simp only [%s.term%s]; push_cast; ring'%(n,H,' '.join(jl),n,H,' '.join(jl),n,H,' '.join(jl),n,H))
        Ls=[C.args.index(k) for k in C.light]; L=Ls[0]
        tm=lambda h:'%s.term%s N 1 0 %s'%(n,C.hname(h),' '.join('(i %d)'%ix[q] for q in jl))
        if len(Ls)==1: G='if 0 < i %d then %s else if i %d < 0 then %s else 0'%(L,tm(C.hels[0]),L,tm(C.hels[1]))
        else:
            def cond(h,i): return '(%s) = true'%' && '.join('decide (0 < %s %d)'%(i,q) if x>0 else 'decide (%s %d < 0)'%(i,q) for q,x in zip(Ls,h))
            G=''.join('if %s then %s else '%(cond(h,'i'),tm(h)) for h in C.hels)+'0'
    # methods for a given helicity that say 1 for the spin of a photon or gluon
    one=any('[1, ' in C.amp2(m) for m in C.d if m.startswith('m_amp2_'))
    for h,z in [(h,False) for h in C.hels]+[(h,True) for h in C.hels[:1] if one]:
        H=C.hname(h); hel=dict(zip(C.light,h))
        J=', '.join('1' if k in C.light and z else SPIN[hel[k]] if k in C.light else 'j%d'%(k+1) if k in C.fer else 'spinV t%d'%k for k in C.args)
        A('set_option maxRecDepth 8000 in')
        if not C.vec:
            A('theorem %s.amp%s %s : Cls.%s.m_amp.mean N f .c [%s] = %s.term%s N %s := by rfl'%(n,H,bind,n,J,n,H,' '.join(jl)))
        else:
            ar=len(C.args); K=ar+2*len(C.vec)
            t='%s.term%s N 1 0 %s'%(n,H,' '.join(('j%d'%(k+1)) if k in C.fer else '(spinOf a%d) (spinOf b%d)'%(k,k) for k in C.args if k not in C.light))
            for k,_,_ in reversed(C.lv): t='comb t%d (fun a%d b%d => %s)'%(k,k,k,t)
            A('theorem %s.amp%s%s %s : Cls.%s.m_amp.mean N f .c [%s] = %s := by'%(n,H,'_one' if z else '',bind,n,J,t))
            A('  refine (amp_mean N f (m := %d) (K := %d) (G := fun i => %s) (fun l => ?_) (fun i i\' h => ?_) rfl (by decide) (by decide) (by decide) (by decide) (by decide)).trans ?_'%(ar,K,G))
            if len(Ls)==1:
                A('  · by_cases h : 0 < l.i %d'%L)
                A('    · refine ⟨_, (if_pos (decide_eq_true h)).trans rfl, rfl, rfl, ?_⟩; rw [if_pos h]; exact %s.termP_lin ..'%n)
                A('    · by_cases h\' : l.i %d < 0'%L)
                A('      · refine ⟨_, (if_neg (fun e => h (of_decide_eq_true e))).trans ((if_pos (decide_eq_true h\')).trans rfl), rfl, rfl, ?_⟩; rw [if_neg h, if_pos h\']; exact %s.termM_lin ..'%n)
                A('      · refine ⟨_, (if_neg (fun e => h (of_decide_eq_true e))).trans ((if_neg (fun e => h\' (of_decide_eq_true e))).trans rfl), rfl, rfl, ?_⟩; rw [if_neg h, if_neg h\', mul_zero, add_zero]')
            else:
                for q,h_ in enumerate(C.hels):
                    neg=lambda t:''.join('(if_neg g%d).trans ('%r for r in range(q))+t+')'*q
                    A('  · by_cases g%d : %s'%(q,cond(h_,'l.i')) if not q else '    · by_cases g%d : %s'%(q,cond(h_,'l.i')))
                    if q: o[-1]=o[-1].replace('    · ','  '*(q+1)+'· ')
                    A('  '*(q+2)+'· refine ⟨_, %s, rfl, rfl, ?_⟩; rw [%sif_pos g%d]; exact %s.term%s_lin ..'%(neg('(if_pos g%d).trans rfl'%q),''.join('if_neg g%d, '%r for r in range(q)),q,n,C.hname(h_)))
                q=len(C.hels); A('  '*(q+1)+'· refine ⟨_, %s, rfl, rfl, ?_⟩; rw [%smul_zero, add_zero]'%(''.join('(if_neg g%d).trans ('%r for r in range(q))+'rfl'+')'*q,''.join('if_neg g%d, '%r for r in range(q))))
            A('  · simp only [%s]'%', '.join('h %d (by decide)'%q for q in sorted(Ls+[ix[q] for q in jl])))
            A("  · show amp' _ [%s] = _"%', '.join('spinV t%d'%k for k,_,_ in C.lv))
            A("    simp only [amp'_comb, amp'_nil]")
            A('    rfl')
        if z: continue
        za=fargs(C)
        for q,nm in enumerate(za):
            if nm[0] in 'xy':
                l=[('(x + y)' if r==q else m) for r,m in enumerate(za)]; l1=[('x' if r==q else m) for r,m in enumerate(za)]; l2=[('y' if r==q else m) for r,m in enumerate(za)]
                oth=' '.join(m for m in za if m!=nm)
                A('theorem %s.form%s_%s (N : Env) (p : Nat → V4 ℝ) (%s x y : Pair) : %s.form%s N p %s = %s.form%s N p %s + %s.form%s N p %s := by\n  simp only [%s.form%s, Prod.fst_add, Prod.snd_add, ab_add_left, ab_add_right, sb_add_left, sb_add_right, mb_add_left, mb_add_right]\n  ring'%(n,H,nm,oth,n,H,' '.join(l),n,H,' '.join(l1),n,H,' '.join(l2),n,H))
        for k in C.nu:
            cp_='2' if k==C.i else '1'
            A('theorem %s.form%s_zero%d (N : Env) (p : Nat → V4 ℝ) {z%d : Pair} (%s : Pair) (h : z%d.%s = 0) : %s.form%s N p %s = 0 := by\n  simp [%s.form%s, h, ab_zero, sb_zero, mb_zero]'%(n,H,k,k,' '.join(x for x in za if x!='z%d'%k),k,cp_,n,H,' '.join(za),n,H))
    return o
def lagree(C):
    n=C.n;o=lamps(C);A=o.append
    i,j=C.i,C.j;a,b=C.bos
    ts=''.join(' t%d'%k for k in C.args if k in C.vec)
    gl=[k for k in C.light if C.legs[k][0]=='g']
    D=[k for k,q in enumerate(C.pars) if q in('MW','SW')]; E=[k for k,q in enumerate(C.pars) if q=='SW']
    def lst(xs):
        r='List.forall_mem_nil _'
        for x in reversed(xs): r='List.forall_mem_cons.2 ⟨%s, %s⟩'%(x,r)
        return r
    S='%s.react'%n; N='(%s.N c%s p)'%(n,' v' if C.vev else '')
    A('')
    A('theorem %s.mass_eq {c : Constants}%s (hc : c.Physical) (i : Fin 4) : %s.proc.massNum (%s.%s) i = %s.react.mass c i := by'%(n,' {v : ℝ}' if C.vev else '',n,n,rho(C),n))
    A('  fin_cases i <;> first | rfl | exact Nat.cast_zero | exact Nat.cast_zero.trans (hc.neutrino _).symm | (show c.MW / √(((1 : Nat) : ℝ) - c.SW * c.SW) = c.MZ; rw [c.root, c.mz])')
    A('')
    A('variable [FPEnv] in')
    A('theorem %s.agrees : %s.Agrees%s := by'%(n,n,'Vev' if C.vev else ''))
    A('  refine '+('agreesSet_of %s'%sorted(C.den) if C.csets else 'agreesVev_of' if C.vev else 'agrees_of')+' (D := %s) (E := %s) (by simp [all, %s]) (by decide +kernel) (by decide) (by decide +kernel) (fun c %shc hh%s => ⟨%s, %s⟩) (fun c %shc i => %s.mass_eq hc i) (by decide +kernel) ?_'%(D,E,n,'v ' if C.vev else '',' _' if C.vev else '',lst(['hc.'+C.pars[k] for k in D]),lst(['hc.SW_lt' for k in E]),'v ' if C.vev else '',n))
    A('  intro c v p u ε hc hh hve h0 hs hb hr hu\n  obtain ⟨e0, hv0, hV⟩ := vev_eq hc hve' if C.vev else '  intro c p u ε hc hh hw h0 hs hb hr hu')
    A('  have he : %s.ends = [%d] := by decide'%(S,i)); A('  have ht : %s.starts = [%d] := by decide'%(S,j)); A('  have hB : %s.bosons = [%d, %d] := by decide'%(S,a,b))
    A('  obtain ⟨f1, f2, f3⟩ := %s.regular_line he ht hB hr'%S)
    dv=DIV[n]
    allr=sorted(set(sum((C.info[h][0] for h in C.hels),[]))|{x for y,x in dv if y=='r'})
    for k in allr:
        A('  have r%d : %s.r %d = %s := %s'%(k,N,k,C.r[k],'hV' if '/ c.e' in C.r[k] else 'rfl'))
        if CWT in C.r[k]: A('  simp only [c.root] at r%d'%k)
    cp=lpoles(C)
    S0=Sym1(C,C.hels[0])
    W0='WW' in C.pars and not gl
    if W0: A('  have hWW : c.WW = 0 := hw .WW (by simp [%s])'%n)
    for k,(q,(t,info),m,w,vv) in cp.items():
        raw=C.prop[C.den[k][0]]
        A('  have c%d : %s.c %d = poleDist %s %s ((VExp.%s %d %d).sum p) := rfl'%(k,N,k,raw[0],raw[1],*vv))
        if q[0]=='f':
            mom=re.search(r'msq (\(plus .*\)) - c\.mass',t).group(1)
            A('  rw [Nat.cast_zero, pole_fermion rfl] at c%d'%k)
            A('  have d%d : %s = %s.c %d := by rw [c%d, msq_%s hb %s (by simp)%s]'%(k,t,N,k,k,VT[vv],mom,', show c.mass .ne = 0 from hc.neutrino _' if q[1]=='ne' else ''))
            u_,v_,x=info
            A('  have n%d : %s.c %d ≠ 0 := by rw [← d%d]; exact_mod_cast %s .%s rfl rfl'%(k,N,k,k,'f1' if u_==a else 'f2',x))
        else:
            assert q[0]=='W'
            mom=re.search(r'pole \S+ \S+ (\(plus .*\))',t).group(1)
            A('  have d%d : %s = %s.c %d := by rw [c%d, pole_congr (msq_%s hb %s (by simp)).symm]'%(k,t,N,k,k,VT[vv],mom))
            A('  have n%d : %s.c %d ≠ 0 := by rw [← d%d]; exact star_ne_zero.2 (f3 %s rfl rfl)'%(k,N,k,k,info))
            A('  rw [hWW, pole_fermion rfl] at c%d'%k)
    for k in C.csets:
        A('  have c%d : %s.c %d = %s := rfl'%(k,N,k,T(C.csets[k],{},lambda x:'%s.r %d'%(N,x),lambda x:'%s.c %d'%(N,x),None)))
    Z=lambda k:'(legA (p %d) 0 0, legS (p %d) 0 1)'%(k,k)
    for k in C.light: A('  obtain ⟨l%d, x%d, y%d⟩ := %s.code_light hs hu (n := %d) rfl rfl'%(k,k,k,S,k))
    for (m_,q),(d,s_) in sorted(S0.pole.items()):
        vv=C.den[d][1]
        # momentum of the massless leg, plus or minus that of leg q
        lem='pole_add' if s_>0 else ('pole_sub' if m_<q else "pole_sub'")
        pl='(plus (p %d) (p %d))'%(m_,q) if s_>0 else '(plus (p %d) (backward (p %d)))'%((m_,q) if m_<q else (q,m_))
        A('  have e%d%d := l%d.%s (m := %s) (onShell_msq (hs %d)) (msq_%s hb %s (by simp)) c%d'%(m_,q,m_,lem,C.mass(q),q,VT[vv],pl,d))
    for k in C.spin:
        if k in C.nu: A('  have m%d : %s.mass c %d = 0 := hc.neutrino _'%(k,S,k))
        else: A("  have m%d : %s.mass c %d ≠ 0 := (leg_pos hc hh (by decide)).ne'"%(k,S,k))
    for k in C.light: A('  have m%d : %s.mass c %d = 0 := rfl'%(k,S,k))
    A('  have hd : %s.proc.divides = [%s] := by decide +kernel'%(n,', '.join('(Ty.%s, %d)'%x for x in dv)))
    A('  refine ⟨%sfun n hn => ?_, fun n hn => ?_, ?_⟩'%(lst(['n%d'%k for k in sorted(C.den)])+', ' if C.csets else ''))
    for t in 'rc':
        ds=[x for y,x in dv if y==t]
        A('  · simp [hd] at hn')
        if ds:
            if len(ds)==1: A('    subst hn')
            else: A('    rcases hn with %s'%' | '.join(['rfl']*len(ds)))
            for x in ds: A('    · exact n%d'%x if t=='c' else '    · exact hv0' if '/ c.e' in C.r[x] else '    · rw [r%d]; exact %s'%(x,'hc.'+C.r[x][2:] if C.r[x].startswith('c.') else "by positivity"))
    # states
    P=lambda k,s:'(%s.codePair c p %d %s)'%(S,k,s)
    VE=lambda k:'(%s.codeVec c p %d %s)'%(S,k,'t%d'%k if k in C.vec else '0')
    fz=['z%d'%k for k in C.fer]
    fb=' '.join('(b%d : Bold (p %d) (%s.mass c %d) z%d)'%(k,k,S,k,k) for k in C.fer)
    hs_=[k for k in C.bos if k not in C.vec and k not in C.light]
    for h in C.hels:
        H=C.hname(h); hel=dict(zip(C.light,h)); sg,_=certificate(C,h); kap='(-1)' if sg<0 else '1'
        LE=lambda k:'(lightE %s %d)'%(Z(k),FIX[hel[k]])
        EE=lambda k:LE(k) if k in C.light else VE(k)
        bare='%s.bare c p %d %d %d %d z%d z%d %s %s'%(S,i,j,a,b,i,j,EE(a),EE(b))
        form='%s.form%s %s p %s'%(n,H,N,' '.join(fargs(C,v=lambda k:[P(k,'a%d'%k),P(k,'b%d'%k)],l=Z)))
        for k,_,_ in reversed(C.lv): form='comb t%d (fun a%d b%d => %s)'%(k,k,k,form)
        A('  have st%s : ∀ {%s : Pair} %s%s, %s = %s * %s := by'%(H,' '.join(fz),fb,' (%s : Fin 3)'%ts.strip() if ts else '',form,kap,bare))
        A('    intro %s %s%s'%(' '.join(fz),' '.join('b%d'%k for k in C.fer),ts))
        rs,cs,vu=C.info[h]
        ka=['hc hb']+['r%d'%k for k in rs]+['c%d'%k for k in cs if k in C.csets]+['d%d n%d'%(k,k) for k in cp]+['b%d'%k for k in range(4) if k in C.spin]+['l%d'%k for k in C.light]+['e%d%d'%x for x in sorted(S0.pole)]+['(onShell_msq (hs %d))'%k for k in C.heavy]
        ka+=['_' for k in C.light]+[VE(k) for k in hs_]
        kcall='(%s.key%s %s)'%(n,H,' '.join(ka))
        lin=lambda k:'(%s.%s c p _ _ _ (by decide))'%(S,'bare_lin₁' if k==a else 'bare_lin₂')
        # massless legs: the last factor first
        def finish(ind,goalsign):
            cur=kcall
            for k in reversed(C.light):
                G='fun E => %s.bare c p %d %d %d %d z%d z%d %s'%(S,i,j,a,b,i,j,' '.join('E' if q==k else ('(pv %s %s)'%((Z(q)+'.2',)*2 if hel[q]>0 else (Z(q)+'.1',)*2) if q in C.light and C.light.index(q)<C.light.index(k) else LE(q) if q in C.light else '(pv z%d.1 z%d.2)'%(q,q) if q in C.vec else VE(q)) for q in (a,b)))
                cur='(light_%s (z := %s) (G := %s) %s %s%d %s)'%('plus' if hel[k]>0 else 'minus',Z(k),G,lin(k),'x' if hel[k]>0 else 'y',k,cur)
            return cur
        if not C.vec:
            A('    exact %s'%finish(4,0))
        else:
            k=C.vec[0]
            Bf='fun x y => %s.form%s %s p %s'%(n,H,N,' '.join(fargs(C,v=lambda _:['x','y'],l=Z)))
            Ev='fun E => %s.bare c p %d %d %d %d z%d z%d %s'%(S,i,j,a,b,i,j,' '.join('E' if q==k else EE(q) for q in (a,b)))
            A('    refine one_vector (p := p %d) (m := %s.mass c %d) (fun s => %s.codePair_bold hs h0 %d s) (B := %s) (G := %s) (fun x y z => ?_) (fun x y z => ?_) %s %s (fun z%d b%d => ?_) t%d'%(k,S,k,S,k,Bf,Ev,lin(k),kap,k,k,k))
            A('    · exact %s.form%s_x%d ..'%(n,H,k)); A('    · exact %s.form%s_y%d ..'%(n,H,k))
            A('    · exact %s.trans (mul_assoc _ _ _)'%finish(6,0))
    fs=[k for k in C.fer if k not in C.nu]
    nus=lambda k:'1' if k==i else '0'
    fr=lambda k:P(k,nus(k) if k in C.nu else 's%d'%k)
    sb_=''.join(' (s%d : Fin 2)'%k for k in fs)
    for h in C.hels:
        H=C.hname(h); hel=dict(zip(C.light,h)); sg,_=certificate(C,h); kap='(-1)' if sg<0 else '1'
        EE=lambda k:'(lightE %s %d)'%(Z(k),FIX[hel[k]]) if k in C.light else VE(k)
        rs,cs,vu=C.info[h]
        L=', '.join(SPIN[hel[k]] if k in C.light else 'spinOf s%d'%k if k in C.fer else 'spinV t%d'%k for k in C.args)
        bare2='%s.bare c p %d %d %d %d %s %s %s %s'%(S,i,j,a,b,fr(i),fr(j),EE(a),EE(b))
        A('  have am%s : ∀%s%s, Cls.%s.m_amp.mean %s (callMean %s []) .c [%s] = %s * %s := by'%(H,sb_,' (%s : Fin 3)'%ts.strip() if ts else '',n,N,N,L,kap,bare2))
        A('    intro%s%s'%(''.join(' s%d'%k for k in fs),ts))
        A('    rw [%s.amp%s, ← st%s (%s.codePair_bold hs h0 %d %s) (%s.codePair_bold hs h0 %d %s)%s]'%(n,H,H,S,C.fer[0],fr(C.fer[0]).split()[-1][:-1],S,C.fer[1],fr(C.fer[1]).split()[-1][:-1],ts))
        for k,_,_ in C.lv: A('    refine congrArg (comb t%d) (funext fun a%d => funext fun b%d => ?_)'%(k,k,k))
        names=[];seen=set()
        for (q,zk,zl) in vu:
            if (q,zk,zl) in seen: continue
            seen.add((q,zk,zl))
            t,k,mid,l=C.sprod[q]
            def sp(z):
                kk=int(z[1:])
                return (nus(kk) if kk in C.nu else 's%d'%kk) if z[0]=='z' else ('a%d'%kk if z[0]=='x' else 'b%d'%kk)
            PP=lambda kk,z:Z(kk) if kk in C.light else P(kk,sp(z))
            pk,pl=PP(k,zk),PP(l,zl)
            need=lambda kk:'(.inr ⟨m%d, rfl⟩)'%kk if nospin(C,kk) else '(.inl ⟨m%d, rfl⟩)'%kk
            lst_=', '.join('spinOf %s'%sp(z) for z,kk in ((zk,k),(zl,l)) if not nospin(C,kk))
            if not mid: rhs='%s %s.%d %s.%d'%(('ab',pk,1,pl,1) if t else ('sb',pk,2,pl,2)); lem='bra_angle' if t else 'bra_square'
            elif len(mid)==2:
                lem='bra_two_angle' if t else 'bra_two_square'
                rhs='mb (slashUpper (p %d) *ᵥ %s.1) (p %d) %s.1'%(mid[1],pl,mid[0],pk) if t else 'mb %s.2 (p %d) (slashLower (p %d) *ᵥ %s.2)'%(pk,mid[0],mid[1],pl)
            elif t: rhs='mb %s.2 (p %d) %s.1'%(pl,mid[0],pk); lem='bra_mid_angle'
            else: rhs='mb %s.2 (p %d) %s.1'%(pk,mid[0],pl); lem='bra_mid_square'
            nm='v%d%s%s'%(q,zk,zl); names.append(nm)
            A('    have %s : %s.v %d [%s] = %s := %s (p := p) (m := %s.proc.massNum (%s.%s)) (%s.mass_eq hc %d) (%s.mass_eq hc %d) %s %s'%(nm,N,q,lst_,rhs,lem,n,n,rho(C),n,k,n,l,need(k),need(l)))
        A('    simp only [%s.term%s, %s.form%s, %s]'%(n,H,n,H,', '.join(names)))
        if C.vec: A('    push_cast'); A('    ring')
    # vanishing
    zn=[]
    for h in C.hels:
        H=C.hname(h); hel=dict(zip(C.light,h)); sg,_=certificate(C,h)
        EE=lambda k:'(lightE %s %d)'%(Z(k),FIX[hel[k]]) if k in C.light else VE(k)
        for k in C.nu:
            bad='0' if k==i else '1'
            pz=P(k,bad)
            bb='%s.bare c p %d %d %d %d %s %s %s %s'%(S,i,j,a,b,pz if k==i else P(i,'s'),pz if k==j else P(j,'s'),EE(a),EE(b))
            A('  have w%s%d : ∀ (s : Fin 2)%s, %s = 0 := by'%(H,k,' (%s : Fin 3)'%ts.strip() if ts else '',bb))
            A('    intro s%s'%ts)
            A('    have e := st%s (%s) (%s)%s'%(H,*['%s.codePair_bold hs h0 %d %s'%(S,q,bad if q==k else 's') for q in C.fer],ts))
            form='%s.form%s %s p %s'%(n,H,N,' '.join(fargs(C,f=lambda q:pz if q==k else P(q,'s'),v=lambda q:[P(q,'a%d'%q),P(q,'b%d'%q)],l=Z)))
            for q,_,_ in reversed(C.lv): form='comb t%d (fun a%d b%d => %s)'%(q,q,q,form)
            zf='%s.form%s_zero%d _ _ %s(show (%s).%d = 0 from leg%s_zero m%d rfl)'%(n,H,k,'_ '*(len(fargs(C))-1),pz,2 if k==i else 1,'S' if k==i else 'A',k)
            A('    rw [show %s = 0 by'%form)
            A('      simp only [%s]; exact comb_zero ..] at e'%zf)
            A('    exact %s'%('neg_eq_zero.1 ((neg_one_mul _).symm.trans e.symm)' if sg<0 else '(one_mul _).symm.trans e.symm'))
            zn.append('w%s%d'%(H,k))
    hs2=''.join(' (h%d : Fin 2)'%k for k in C.light)
    L=', '.join('spinW h%d'%k if k in C.light else 'spinOf s%d'%k if k in C.fer else 'spinV t%d'%k for k in C.args)
    EE=lambda k:'(lightE %s h%d.castSucc)'%(Z(k),k) if k in C.light else VE(k)
    A('  have am : ∀%s%s%s, ‖Cls.%s.m_amp.mean %s (callMean %s []) .c [%s]‖ = ‖%s.bare c p %d %d %d %d %s %s %s %s‖ := by'%(sb_,hs2,' (%s : Fin 3)'%ts.strip() if ts else '',n,N,N,L,S,i,j,a,b,fr(i),fr(j),EE(a),EE(b)))
    A('    intro%s%s%s'%(''.join(' s%d'%k for k in fs),''.join(' h%d'%k for k in C.light),ts))
    A('    match %s with'%', '.join('h%d'%k for k in C.light))
    for h in C.hels:
        sg,_=certificate(C,h)
        A('    | %s => exact norm_%s (am%s%s%s)'%(', '.join(str(FIX[x]) for x in h),'minus' if sg<0 else 'plus',C.hname(h),''.join(' s%d'%k for k in fs),ts))
    A('  show meaning %s .r Cls.%s.methods Cls.%s.amp2 [] = _'%(N,n,n))
    def states(k):
        x=C.legs[k][0]
        return {'u':6,'d':6,'e':2,'ne':1,'h':1,'Z':3,'W+':3,'W-':3,'A':2,'g':16}[x]
    A('  have s0 : %s.states 0 = %d := by decide +kernel'%(S,states(0))); A('  have s1 : %s.states 1 = %d := by decide +kernel'%(S,states(1))); A('  have sy : %s.symmetry = %d := by decide'%(S,2 if C.legs[2]==C.legs[3] else 1))
    for k in range(4): A('  have p%d : %s.spins %d = %s := rfl'%(k,S,k,'Finset.univ' if k in C.vec else '{0}' if C.legs[k][0]=='h' else '{0, 1}'))
    for k in C.bos: A('  have E%d : %s.codeE c p %d = %s := rfl'%(k,S,k,'lightE %s'%Z(k) if k in C.light else '%s.codeVec c p %d'%(S,k)))
    gauge="(%s.gauge_line he ht hB hh (by decide) (fun n => onShell_msq (hs n)) hb hr (by %s) (fun _ => %s) (fun _ => %s))"%(S,
        'intro n _; exact hWW' if W0 else 'decide',
        '⟨rfl, rfl⟩','⟨rfl, rfl⟩') 
    hw='(fun _ => hWW)' if W0 else '(by decide)'
    def leg(k):
        return '(fun _ => ⟨rfl, rfl⟩)' if k in C.light else '(fun h => absurd h (by decide))'
    gauge="(%s.gauge_line he ht hB hh (by decide) (fun n => onShell_msq (hs n)) hb hr %s %s %s)"%(S,'(fun _ _ _ _ => hWW)' if W0 else '(fun n m h h2 => absurd (And.intro h h2) (by revert n m; decide))',leg(a),leg(b))
    A('  have hG : %s.Gauge c p := %s'%(S,gauge))
    lc=(3 if C.legs[i][0] in 'ud' else 1) if not gl else None
    if not gl:
        A('  have lc : %s.lineColours %d %d = %d := by decide +kernel'%(S,i,j,lc))
        sq='squared_line he ht hB (by decide)'
    else: sq='squared_gluon %d he ht hB (by decide) (by decide +kernel) (by decide +kernel)'%gl[0]
    A("  rw [%s.value, %s.%s hs h0 (fun _ b _ hb _ => (boson_pos hc hh hb).ne') hG (E := %s.codeE c p) (fun n b hl => %s.codeE_polarised hs h0 hu (fun b hb => (boson_pos hc hh hb).ne') n b hl) hu, sum_colours%s, s0, s1, sy]"%(n,S,sq,S,S,', lc' if not gl else ''))
    A('  simp only [sumV_sum, sumJ_sum, sumW_sum, am, p0, p1, p2, p3, %s, Finset.sum_singleton, sum_two, Matrix.cons_val_zero, Matrix.cons_val_one, Matrix.cons_val, two_castSucc]'%', '.join('E%d'%k for k in C.bos))
    if C.nu: A('  simp only [Fin.sum_univ_two, Fin.castSucc_zero, Fin.castSucc_one, %s, norm_zero]'%', '.join(zn))
    A('  try simp only [← Finset.mul_sum]')
    A('  push_cast')
    A('  first | ring1 | ring_nf')
    return exposed(C,o) if any(m.startswith('m_amp2_') for m in C.d) else o
def exposed(C,o):
    # the amplitudes in a theorem of their own, for the classes with two gluons and for given helicities
    n=C.n
    o='\n'.join(o).split('\n')
    at=lambda s:next(k for k,x in enumerate(o) if x.startswith(s))
    t=at('theorem %s.agrees'%n); i=at('  intro c '); d=at('  have hd :'); s=min(at('  have st'+C.hname(h)) for h in C.hels); a=at('  have am :'); e=at('  show meaning')
    fact=lambda x:x.split(' : ',1)[1].removesuffix(' := by')
    ns=sorted(C.den); zn=[x.split()[1] for x in o[s:a] if x.startswith('  have w')]
    W0=any(x.startswith('  have hWW') for x in o)
    S='%s.react'%n; v=' v' if C.vev else ''; N='(%s.N c%s p)'%(n,v)
    head='theorem %s.amps {c : Constants}%s {p : Nat → V4 ℝ} {u : Fin 4 → Fin 3 → Spinor} {ε : Fin 4 → Fin 3 → Vec} (hc : c.Physical) (hh : c.Heavy)%s%s (h0 : ∀ i, 0 ≤ %s.mass c i) (hs : ∀ i : Fin 4, OnShell (p i) (%s.mass c i)) (hb : Balanced p) (hr : %s.Regular c p) (hu : ∀ i, %s.Complete c p i (u i) (ε i)) :'%(n,' {v : ℝ}' if C.vev else '',' (hve : v * c.e = 2 * c.MW * c.SW)' if C.vev else '',' (hw : ∀ q ∈ %s.absent, c.get q = 0)'%n if W0 else '',S,S,S,S)
    dv=['(∀ n, (Ty.%s, n) ∈ %s.proc.divides → %s.%s n ≠ 0)'%(y,n,N,y) for y in 'rc']
    conc='    '+' ∧ '.join(['%s.c %d ≠ 0'%(N,k) for k in ns]+dv+['('+fact(x)+')' for x in o[s:a] if x.startswith('  have w')]+[fact(o[a])])+' := by'
    amps=[head,conc]+o[i+1:d+1]+o[s:a]+['  refine ⟨%s, fun n hn => ?_, fun n hn => ?_, %s?_⟩'%(', '.join('n%d'%k for k in ns),''.join(z+', ' for z in zn))]+o[d+2:s]+[x[2:] for x in o[a+1:e]]+['','variable [FPEnv] in']
    three=[x for x in o[i+1:d] if x.startswith(('  have he ','  have ht ','  have hB ','  have hWW '))]
    rf=o[d+1].replace('fun n hn => ?_, fun n hn => ?_','d1, d2')
    if C.nfour: three+=[x for x in o[i+1:d] if x.startswith('  have hG ')]
    main=o[t:i+1]+three+['  obtain ⟨%s, d1, d2, %sam⟩ := %s.amps hc hh%s%s h0 hs hb hr hu'%(', '.join('n%d'%k for k in ns),''.join(z+', ' for z in zn),n,' hve' if C.vev else '',' hw' if W0 else ''),rf]+o[e:]
    return o[:t]+amps+main
if __name__=='__main__':
    for n in sys.argv[1:]: run(n,[lagree])
