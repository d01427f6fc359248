"""Lean text: the squared amplitude of a class is the one of the Feynman rules."""
from key import *
import os
DIV={}
for m in re.finditer(r'\("(\w+)",\s*\[(.*?)\]\)',open(os.path.join(os.path.dirname(os.path.abspath(__file__)),'divides.txt')).read().replace('\n',' ')):
    DIV[m.group(1)]=[(a,int(b)) for a,b in re.findall(r'\("(\w)", (\d+)\)',m.group(2))]
VT={('add',0,1):'s',('sub',0,2):'t',('sub',0,3):'u'}
SPV={'fer':'spinOf %s','vec':'spinV %s'}
def v(k): return 'abcd'[k]                 # name of the spin of leg k
def sums(C): return [k for k in range(4) if k in C.args]
def amps(C):
    """the loops of `amp` and `amp2`"""
    n=C.n;o=[];A=o.append
    assert C.args==sorted(C.args) or C.n=='nWWn',C.args
    J=lambda vec:', '.join(('j%d'%(k+1) if k in C.fer else 'spinV t%d'%k) for k in C.args)
    js=''.join(' j%d'%(k+1) for k in C.args if k in C.fer); ts=''.join(' t%d'%k for k in C.args if k in C.vec)
    # amp2, amp
    A('set_option maxRecDepth 8000 in')
    A('theorem %s.amp2_eq (N : Env) (f : Nat → List Int → ℂ) : Cls.%s.m_amp2.mean N f .r [] =\n    %s := by rfl'%(n,n,C.amp2()))
    A('set_option maxRecDepth 8000 in')
    val=re.sub(r'\(f 0 \[([^\]]*)\]\)',r'(Cls.%s.m_amp.mean N (callMean N []) .c [\1])'%n,C.amp2())
    A('theorem %s.value (N : Env) : meaning N .r Cls.%s.methods Cls.%s.amp2 [] =\n    %s :=\n  %s.amp2_eq N (callMean N [Cls.%s.m_amp])'%(n,n,n,val,n,n))
    A('set_option maxRecDepth 8000 in')
    tm=lambda w:'%s.term N%s%s'%(n,' w x' if C.vec else '',''.join(' j%d'%(k+1) if k in C.fer else ' a%d b%d'%(k,k) for k in C.args))
    ab_=' '.join('a%d b%d'%(k,k) for k in C.args if k in C.vec)
    bind=('(N : Env) (f : Nat → List Int → ℂ)'+(' (%s : Int)'%js.strip() if js else '')+(' (%s : Fin 3)'%ts.strip() if ts else ''))
    if not C.vec: A('theorem %s.amp_eq %s : Cls.%s.m_amp.mean N f .c [%s] = %s := by rfl'%(n,bind,n,J(0),tm(0)))
    else:
        ar=len(C.args); K=ar+2*len(C.vec)
        ix={}
        for q,k in enumerate(C.args):
            if k in C.fer: ix['j%d'%(k+1)]=q
        for k,x,y in C.lv: ix['a%d'%k]=x; ix['b%d'%k]=y
        jl=sum([['j%d'%(k+1)] if k in C.fer else ['a%d'%k,'b%d'%k] for k in C.args],[])
        A('theorem %s.term_lin (N : Env) (w : ℝ) (x : ℂ) (%s : Int) : %s = x + (w : ℂ) * %s.term N 1 0 %s := by\n  simp only [%s.term]; push_cast; ring'%(n,' '.join(jl),tm(0),n,' '.join(jl),n))
        t='%s.term N 1 0 %s'%(n,' '.join(('j%d'%(k+1)) if k in C.fer else '(spinOf a%d) (spinOf b%d)'%(k,k) for k in C.args))
        for k,_,_ in reversed(C.lv): t='comb t%d (fun a%d b%d => %s)'%(k,k,k,t)
        A('theorem %s.amp_eq %s : Cls.%s.m_amp.mean N f .c [%s] = %s := by'%(n,bind,n,J(0),t))
        A('  refine (amp_mean N f (m := %d) (K := %d) (G := fun i => %s.term N 1 0 %s) (fun l => ?_) (fun i i\' h => ?_) rfl (by decide) (by decide) (by decide) (by decide) (by decide)).trans ?_'%(ar,K,n,' '.join('(i %d)'%ix[q] for q in jl)))
        if len(C.vec)<4: A('  · refine ⟨_, rfl, ?_⟩; exact ⟨rfl, rfl, %s.term_lin ..⟩'%n)
        else:
            A('  · refine ⟨_, rfl, rfl, rfl, Eq.trans ?_ (%s.term_lin N (l.r 0) (l.c 0) %s)⟩'%(n,' '.join('(l.i %d)'%ix[q] for q in jl)))
            A('    rw [%s.term]'%n)
            A('    with_reducible simp only [Exp.mean, madd, msub, mmul, mdiv, mneg, Env.mem]')
            A('    rfl')
        A('  · simp only [%s]'%', '.join('h %d (by decide)'%ix[q] for q in jl))
        A("  · show amp' _ [%s] = _"%', '.join('spinV t%d'%k for k,_,_ in C.lv))
        A("    simp only [amp'_comb, amp'_nil]")
        A('    rfl')
    # additivity
    za=zargs(C,'form')
    for q,nm in enumerate(za):
        if nm[0] in 'xy':
            l=[('(x + y)' if r==q else m) for r,m in enumerate(za)]; l1=[('x' if r==q else m) for r,m in enumerate(za)]; l2=[('y' if r==q else m) for r,m in enumerate(za)]
            oth=' '.join(m for m in za if m!=nm)
            A('theorem %s.form_%s (N : Env) (p : Nat → V4 ℝ) (%s x y : Pair) : %s.form N p %s = %s.form N p %s + %s.form N p %s := by\n  simp only [%s.form, Prod.fst_add, Prod.snd_add, ab_add_left, ab_add_right, sb_add_left, sb_add_right, mb_add_left, mb_add_right]\n  ring'%(n,nm,oth,n,' '.join(l),n,' '.join(l1),n,' '.join(l2),n))
    for k in C.nu:
        cp_='2' if k==C.i else '1'
        A('theorem %s.form_zero%d (N : Env) (p : Nat → V4 ℝ) {z%d : Pair} (%s : Pair) (h : z%d.%s = 0) : %s.form N p %s = 0 := by\n  simp [%s.form, h, ab_zero, sb_zero, mb_zero]'%(n,k,k,' '.join(x for x in za if x!='z%d'%k),k,cp_,n,' '.join(za),n))
    return o
def agree(C):
    n=C.n;o=amps(C);A=o.append
    i,j=C.i,C.j;a,b=C.bos
    js=''.join(' j%d'%(k+1) for k in C.args if k in C.fer); ts=''.join(' t%d'%k for k in C.args if k in C.vec); za=zargs(C,'form')
    # main
    D=[k for k,q in enumerate(C.pars) if q in('MW','SW')]; E=[k for k,q in enumerate(C.pars) if q=='SW']
    def lst(xs):
        r='List.forall_mem_nil _'
        for x in reversed(xs): r='List.forall_mem_cons.2 ⟨%s, %s⟩'%(x,r)
        return r
    A('')
    A('theorem %s.mass_eq {c : Constants} (hc : c.Physical) (i : Fin 4) : %s.proc.massNum (%s.rho c) i = %s.react.mass c i := by'%(n,n,n,n))
    A('  fin_cases i <;> first | rfl | exact Nat.cast_zero.trans (hc.neutrino _).symm | (show c.MW / √(((1 : Nat) : ℝ) - c.SW * c.SW) = c.MZ; rw [c.root, c.mz])')
    A('')
    A('variable [FPEnv] in')
    A('theorem %s.agrees : %s.Agrees := by'%(n,n))
    A('  refine agrees_of (D := %s) (E := %s) (by simp [all, %s]) (by decide +kernel) (by decide) (by decide +kernel) (fun c hc hh => ⟨%s, %s⟩) (fun c hc i => %s.mass_eq hc i) (by decide +kernel) ?_'%(D,E,n,lst(['hc.'+C.pars[k] for k in D]),lst(['hc.SW_lt' for k in E]),n))
    A('  intro c p u ε hc hh hw h0 hs hb hr hu')
    S='%s.react'%n; N='(%s.N c p)'%n
    A('  have he : %s.ends = [%d] := by decide'%(S,i)); A('  have ht : %s.starts = [%d] := by decide'%(S,j)); A('  have hB : %s.bosons = [%d, %d] := by decide'%(S,a,b))
    A('  have hM : %s.allMassive = true := by decide'%S)
    A('  obtain ⟨f1, f2, f3⟩ := %s.regular_line he ht hB hr'%S)
    for k in sorted(C.readr):
        A('  have r%d : %s.r %d = %s := rfl'%(k,N,k,C.r[k]))
        if CWT in C.r[k]: A('  simp only [c.root] at r%d'%k)
    cp=codepoles(C)
    for k,(q,(t,info),m,w,vv) in cp.items():
        raw=C.prop[C.den[k][0]]
        A('  have c%d : %s.c %d = poleDist %s %s ((VExp.%s %d %d).sum p) := rfl'%(k,N,k,raw[0],raw[1],*vv))
        if q[0]=='f':
            mom=re.search(r'msq (\(plus .*\)) - c\.mass',t).group(1)
            A('  rw [Nat.cast_zero, pole_fermion (msq_%s hb %s (by simp))] at c%d'%(VT[vv],mom,k))
            if q[1]=='ne': A('  have d%d : %s = %s.c %d := by rw [c%d, show c.mass .ne = 0 from hc.neutrino _]'%(k,t,N,k,k))
            else: A('  have d%d : %s = %s.c %d := by rw [c%d]'%(k,t,N,k,k))
            u_,v_,x=info
            A('  have n%d : %s.c %d ≠ 0 := by rw [← d%d]; exact_mod_cast %s .%s rfl rfl'%(k,N,k,k,'f1' if u_==a else 'f2',x))
        else:
            mom=re.search(r'pole \S+ \S+ (\(plus .*\))',t).group(1)
            A('  rw [%spole_congr (msq_%s hb %s (by simp)).symm] at c%d'%('c.root, c.mz, ' if q[0]=='Z' else 'Nat.cast_zero, ' if q[0]=='A' else '',VT[vv],mom,k))
            A('  have d%d : %s = %s.c %d := by rw [c%d]'%(k,t,N,k,k))
            A('  have n%d : %s.c %d ≠ 0 := by rw [← d%d]; exact star_ne_zero.2 (f3 %s rfl rfl)'%(k,N,k,k,info))
    for k in C.spin:
        if k in C.nu: A('  have m%d : %s.mass c %d = 0 := hc.neutrino _'%(k,S,k))
        else: A("  have m%d : %s.mass c %d ≠ 0 := (leg_pos hc hh (by decide)).ne'"%(k,S,k))
    dv=DIV[n]
    A('  have hd : %s.proc.divides = [%s] := by decide +kernel'%(n,', '.join('(Ty.%s, %d)'%x for x in dv)))
    A('  refine ⟨fun n hn => ?_, fun n hn => ?_, ?_⟩')
    for t in 'rc':
        ds=[x for y,x in dv if y==t]
        A('  · simp [hd] at hn')
        if ds:
            A('    rcases hn with %s'%' | '.join(['rfl']*len(ds)))
            for x in ds: A('    · exact n%d'%x if t=='c' else '    · rw [r%d]; exact %s'%(x,'hc.'+C.r[x][2:]))
    # states
    P=lambda k,s:'(%s.codePair c p %d %s)'%(S,k,s)
    VE=lambda k:'(%s.codeVec c p %d t%d)'%(S,k,k) if k in C.vec else '(%s.codeVec c p %d 0)'%(S,k)
    kap='(-1)' if C.sign<0 else '1'
    fz=['z%d'%k for k in C.fer]
    fb=' '.join('(b%d : Bold (p %d) (%s.mass c %d) z%d)'%(k,k,S,k,k) for k in C.fer)
    bare='%s.bare c p %d %d %d %d z%d z%d %s %s'%(S,i,j,a,b,i,j,VE(a),VE(b))
    def fargs(vv,fr): return ' '.join(sum([[fr(k)] if k in C.fer else vv(k) if k in C.vec else [] for k in range(4)],[]))
    form='%s.form %s p %s'%(n,N,fargs(lambda k:[P(k,'a%d'%k),P(k,'b%d'%k)],lambda k:'z%d'%k))
    for k,_,_ in reversed(C.lv): form='comb t%d (fun a%d b%d => %s)'%(k,k,k,form)
    A('  have st : ∀ {%s : Pair} %s%s, %s = %s * %s := by'%(' '.join(fz),fb,' (%s : Fin 3)'%ts.strip() if ts else '',form,kap,bare))
    A('    intro %s %s%s'%(' '.join(fz),' '.join('b%d'%k for k in C.fer),ts))
    kargs=' '.join(['hc hb']+[x[0] for x in members(C)]+['d%d n%d'%(k,k) for k in cp])
    hs=[k for k in C.bos if k not in C.vec]
    kb=' '.join(['b%d'%k for k in C.spin]+(['(onShell_msq (hs %d))'%k for k in C.vec] if len(C.vec)==2 else []))
    kcall='%s.key %s %s %s'%(n,kargs,kb,' '.join(VE(k) for k in hs))
    conv='neg_one_mul' if C.sign<0 else 'one_mul'
    if not C.vec:
        A('    rw [%s]'%conv); A('    exact %s'%kcall)
    else:
        def G(k): return {a:'bare_lin₁',b:'bare_lin₂'}[k]
        if len(C.vec)==1:
            k=C.vec[0]
            Bf='fun x y => %s.form %s p %s'%(n,N,fargs(lambda _:['x','y'],lambda q:'z%d'%q))
            Ev='fun E => %s.bare c p %d %d %d %d z%d z%d %s %s'%(S,i,j,a,b,i,j,'E' if k==a else VE(a),'E' if k==b else VE(b))
            A('    refine one_vector (p := p %d) (m := %s.mass c %d) (fun s => %s.codePair_bold hs h0 %d s) (B := %s) (G := %s) (fun x y z => ?_) (fun x y z => ?_) (%s.%s c p _ _ _ (by decide)) %s (fun z%d b%d => ?_) t%d'%(k,S,k,S,k,Bf,Ev,S,G(k),kap,k,k,k))
            A('    · exact %s.form_x%d ..'%(n,k)); A('    · exact %s.form_y%d ..'%(n,k))
            A('    · rw [%s]; exact %s'%(conv,kcall))
        else:
            k,l=[x[0] for x in C.lv]; gE,gF=('bare_lin₁','bare_lin₂') if k==a else ('bare_lin₂','bare_lin₁')
            Bf='fun x y x\' y\' => %s.form %s p %s'%(n,N,fargs(lambda q:['x','y'] if q==k else ["x'","y'"],lambda q:'z%d'%q))
            Ev='fun E F => %s.bare c p %d %d %d %d z%d z%d %s'%(S,i,j,a,b,i,j,'E F' if k==a else 'F E')
            A('    refine two_vectors (p := p %d) (p\' := p %d) (m := %s.mass c %d) (m\' := %s.mass c %d) (fun s => %s.codePair_bold hs h0 %d s) (fun s => %s.codePair_bold hs h0 %d s) (B := %s) (G := %s) (fun _ _ _ _ _ => ?_) (fun _ _ _ _ _ => ?_) (fun _ _ _ _ _ => ?_) (fun _ _ _ _ _ => ?_) (fun F => %s.%s c p _ _ _ (by decide)) (fun E => %s.%s c p _ _ _ (by decide)) %s (fun z%d z%d b%d b%d => ?_) t%d t%d'%(k,l,S,k,S,l,S,k,S,l,Bf,Ev,S,gE,S,gF,kap,k,l,k,l,k,l))
            for q in (k,l):
                for x in 'xy': A('    · exact %s.form_%s%d ..'%(n,x,q))
            A('    · rw [%s]; exact %s'%(conv,kcall))
    # the loops
    fs=[k for k in C.fer if k not in C.nu]
    nus=lambda k:'1' if k==i else '0'
    fr=lambda k:P(k,nus(k) if k in C.nu else 's%d'%k)
    L=', '.join('spinOf s%d'%k if k in C.fer else 'spinV t%d'%k for k in C.args)
    sb=''.join(' (s%d : Fin 2)'%k for k in fs); 
    bare2='%s.bare c p %d %d %d %d %s %s %s %s'%(S,i,j,a,b,fr(i),fr(j),VE(a),VE(b))
    A('  have am : ∀%s%s, Cls.%s.m_amp.mean %s (callMean %s []) .c [%s] = %s * %s := by'%(sb,' (%s : Fin 3)'%ts.strip() if ts else '',n,N,N,L,kap,bare2) if sb or ts else '  have am : Cls.%s.m_amp.mean %s (callMean %s []) .c [%s] = %s * %s := by'%(n,N,N,L,kap,bare2))
    A('    intro%s%s'%(''.join(' s%d'%k for k in fs),ts) if fs or ts else '    skip')
    A('    rw [%s.amp_eq, ← st (%s.codePair_bold hs h0 %d %s) (%s.codePair_bold hs h0 %d %s)%s]'%(n,S,C.fer[0],fr(C.fer[0]).split()[-1][:-1],S,C.fer[1],fr(C.fer[1]).split()[-1][:-1],ts))
    if C.vec:
        for k,_,_ in C.lv: A('    refine congrArg (comb t%d) (funext fun a%d => funext fun b%d => ?_)'%(k,k,k))
    names=[]
    seen=set()
    for (q,zk,zl) in C.vuse:
        if (q,zk,zl) in seen: continue
        seen.add((q,zk,zl))
        t,k,mid,l=C.sprod[q]
        def sp(z):
            kk=int(z[1:])
            return (nus(kk) if kk in C.nu else 's%d'%kk) if z[0]=='z' else ('a%d'%kk if z[0]=='x' else 'b%d'%kk)
        pk,pl=P(k,sp(zk)),P(l,sp(zl))
        need=lambda kk:'(.inr ⟨m%d, rfl⟩)'%kk if kk in C.nu else '(.inl ⟨m%d, rfl⟩)'%kk
        lst_=', '.join('spinOf %s'%sp(z) for z,kk in ((zk,k),(zl,l)) if kk not in C.nu)
        if not mid: rhs='%s %s.%d %s.%d'%(('ab',pk,1,pl,1) if t else ('sb',pk,2,pl,2)); lem='bra_angle' if t else 'bra_square'
        elif t: rhs='mb %s.2 (p %d) %s.1'%(pl,mid[0],pk); lem='bra_mid_angle'
        else: rhs='mb %s.2 (p %d) %s.1'%(pk,mid[0],pl); lem='bra_mid_square'
        nm='v%d%s%s'%(q,zk,zl)
        names.append(nm)
        A('    have %s : %s.v %d [%s] = %s := %s (p := p) (m := %s.proc.massNum (%s.rho c)) (%s.mass_eq hc %d) (%s.mass_eq hc %d) %s %s'%(nm,N,q,lst_,rhs,lem,n,n,n,k,n,l,need(k),need(l)))
    A('    simp only [%s.term, %s.form, %s]'%(n,n,', '.join(names)))
    A('    push_cast'); A('    ring')
    # vanishing
    zn=[]
    for k in C.nu:
        oth=[q for q in C.fer if q!=k][0]
        bad='0' if k==i else '1'
        pz=P(k,bad)
        bb='%s.bare c p %d %d %d %d %s %s %s %s'%(S,i,j,a,b,pz if k==i else P(i,'s'),pz if k==j else P(j,'s'),VE(a),VE(b))
        A('  have w%d : ∀ (s : Fin 2)%s, %s = 0 := by'%(k,' (%s : Fin 3)'%ts.strip() if ts else '',bb))
        A('    intro s%s'%ts)
        A('    have e := st (%s) (%s)%s'%(*['%s.codePair_bold hs h0 %d %s'%(S,q,bad if q==k else 's') for q in C.fer],ts))
        zf='%s.form_zero%d _ _ %s(show (%s).%d = 0 from leg%s_zero m%d rfl)'%(n,k,'_ '*(len(za)-1),pz,2 if k==i else 1,'S' if k==i else 'A',k)
        A('    rw [show %s = 0 by'%re.sub(r'\bz(\d)\b',lambda m:(pz if int(m.group(1))==k else P(int(m.group(1)),'s')),form))
        A('      simp only [%s]; %s] at e'%(zf,'simp [comb]' if 0 else 'exact comb_zero'+('' if len(C.vec)==1 else '_zero')+' ..'))
        A('    exact %s'%('neg_eq_zero.1 ((neg_one_mul _).symm.trans e.symm)' if C.sign<0 else '(one_mul _).symm.trans e.symm'))
        zn.append('w%d'%k)
    A('  show meaning %s .r Cls.%s.methods Cls.%s.amp2 [] = _'%(N,n,n))
    quark=C.legs[i][0] in 'ud'
    A('  have lc : %s.lineColours %d %d = %d := by decide +kernel'%(S,i,j,3 if quark else 1))
    def states(k):
        x=C.legs[k][0]
        return {'u':6,'d':6,'e':2,'ne':1,'h':1,'Z':3,'W+':3,'W-':3}[x]
    A('  have s0 : %s.states 0 = %d := by decide'%(S,states(0))); A('  have s1 : %s.states 1 = %d := by decide'%(S,states(1))); A('  have sy : %s.symmetry = %d := by decide'%(S,2 if C.legs[2]==C.legs[3] else 1))
    for k in range(4): A('  have p%d : %s.spins %d = %s := rfl'%(k,S,k,'{0, 1}' if k in C.fer else 'Finset.univ' if k in C.vec else '{0}'))
    A("  rw [%s.value, %s.squared_line he ht hB (noGluon_of hM) hs h0 (fun _ b _ hb _ => (boson_pos hc hh hb).ne') (%s.gauge_massive (massive_of hM)) (E := %s.codeVec c p) (fun n b hl => %s.codeVec_polarised hs h0 hl (massive_of hM n b hl) (fun _ => (boson_pos hc hh (massive_of hM n b hl)).ne')) hu, sum_colours, lc, s0, s1, sy]"%(n,S,S,S,S))
    A('  simp only [sumV_sum, sumJ_sum, am, norm_mul, norm_neg, norm_one, one_mul, p0, p1, p2, p3, Finset.sum_singleton, sum_two, Matrix.cons_val_zero, Matrix.cons_val_one, Matrix.cons_val, two_castSucc]')
    if C.nu: A('  simp only [Fin.sum_univ_two, %s, norm_zero]'%', '.join(zn))
    A('  try simp only [← Finset.mul_sum]')
    A('  push_cast')
    A('  first | ring1 | ring_nf')
    return o
if __name__=='__main__':
    import sys,subprocess,time
    R={r[0]:r for r in ROWS}
    for n in sys.argv[1:] or R:
        C=Cl(*R[n]); t=HEAD+'\n'.join(defs(C)+key(C)+agree(C))+'\n\nend Spinas.SM.Rows\n'
        fn='/tmp/K_%s.lean'%n
        open(fn,'w').write(t); t0=time.time()
        q=subprocess.run(['lake','env','lean',fn],cwd='/verif/lean',capture_output=True,text=True)
        out=q.stdout+q.stderr; open(fn[:-5]+'.out','w').write(out)
        print(n,'%.0fs'%(time.time()-t0),'OK' if not out else '\n'.join(l for l in out.split('\n') if 'error' in l)[:600],flush=True)
