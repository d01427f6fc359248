import sys
from gen import *
KIND={**{x:'up' for x in 'uct'},**{x:'down' for x in 'dsb'},'e':'lepton','mu':'lepton','tau':'lepton','ne':'neutrino','nmu':'neutrino','ntau':'neutrino'}
GEN={'u':0,'c':1,'t':2,'d':0,'s':1,'b':2,'e':0,'mu':1,'tau':2,'ne':0,'nmu':1,'ntau':2}
CH={'up':'2/3','down':'-1/3','lepton':'-1','neutrino':'0'}
def emits(f,g): return GEN[f]==GEN[g] and (KIND[f],KIND[g]) in (('up','down'),('neutrino','lepton'))
class G:
    def __init__(s,C,sign,direct=False,field=False):
        s.C=C; s.n=C.n; s.S='%s.scat'%C.n; s.N='(%s.N c p)'%C.n
        s.sign=sign; s.direct=direct
        i,k=C.ends; j,l=C.starts
        s.q=(i,j,k,l); s.q2=(i,l,k,j)
        f=lambda a:C.legs[a][0]
        s.neutral=lambda q:f(q[0])==f(q[1]) and f(q[2])==f(q[3])
        s.charged=lambda q:(emits(f(q[1]),f(q[0])) and emits(f(q[2]),f(q[3]))) or (emits(f(q[0]),f(q[1])) and emits(f(q[3]),f(q[2])))
        s.layout='annihilation' if C.ends==[1,2] else 'scattering' if C.ends==[2,3] else 'exchange'
    def sgn(s,i): return 'g%d'%i
    def args(s,q): return ' '.join(map(str,q))
    # which (i,j) transfer belongs to the momentum sum
    def chan(s,v):
        if s.layout=='annihilation': return {('add',0,1):(1,0),('sub',0,2):(1,3)}[v]
        if s.layout=='scattering': return {('sub',0,2):(2,0),('sub',0,3):(2,1)}[v]
        return {('sub',0,3):(0,3)}[v]
    def conn(s,t): return s.q if s.q[:2]==t else s.q2
    def members(s):
        o=[]
        C=s.C
        for t,n in C.reads:
            if t=='r':
                o.append('have r%d : %s.r %d = %s := rfl'%(n,s.N,n,C.r[n]))
                o.append('simp only [c.root%s] at r%d'%(', c.mz' if 'c.MW / √' in C.r[n] else '',n) if '√' in C.r[n] else '')
        for n,(k,v) in sorted(C.den.items()):
            if ('c',n) not in C.reads: continue
            m,w=C.prop[k]; a,b=s.chan(v)
            ms={'annihilation':{(1,0):'ms.1',(1,3):'ms.2'},'scattering':{(2,0):'ms.1',(2,1):'ms.2'},'exchange':{(0,3):'ms'}}[s.layout][(a,b)]
            vt='(VExp.%s %d %d)'%v
            tr='(%s.transfer p %d %d)'%(s.S,a,b)
            raw='have c%d : %s.c %d = poleDist %s %s (%s.sum p) := rfl'%(n,s.N,n,m,w,vt)
            o.append(raw)
            if m=='((0 : Nat) : ℝ)':
                o.append('rw [Nat.cast_zero, pole_zero (%s).symm] at c%d'%(ms,n)); s.dn(n,'photon',(a,b))
            elif '√' in m:
                o.append('rw [c.root, c.mz%s, pole_congr (%s).symm] at c%d'%(', Nat.cast_zero, ← hw' if None in C.pars else '',ms,n)); s.dn(n,'z',(a,b))
            else:
                o.append('rw [pole_congr (%s).symm] at c%d'%(ms,n)); s.dn(n,'higgs' if m=='c.MH' else 'w',(a,b))
        return [x for x in o if x]
    kinds=None
    def dn(s,n,kind,ab):
        if s.kinds is None: s.kinds={}
        s.kinds[n]=(kind,ab)
    def nonzero(s):
        o=[]
        for n,(kind,ab) in s.kinds.items():
            q=s.conn(ab); o_='o1' if q==s.q else 'o2'
            i,j,k,l=q
            if kind=='photon': t='%s.photon (by decide) (by show (%s : ℝ) * (%s) ≠ 0; norm_num)'%(o_,CH[KIND[s.C.legs[i][0]]],CH[KIND[s.C.legs[k][0]]])
            elif kind=='z': t='%s.z (by decide) rfl'%o_
            elif kind=='higgs': t='%s.higgs (by decide) rfl (hc.massive _ (by decide)) (hc.massive _ (by decide))'%o_
            else: t='%s.w (by decide) rfl'%o_
            o.append('have d%d := %s'%(n,t))
        return o
    def ew(s,q,tag):
        """lemma name for the value of ewC at q"""
        a=[s.sgn(x) for x in q]
        if s.direct: return 'ewD_charged (S := %s) (i := %d) (j := %d) (k := %d) (l := %d) '%((s.S,)+tuple(q))+' '.join('(m%s := c.mass .%s)'%(t,s.C.legs[x][0]) for t,x in zip('₁₂₃₄',q))+' %s rfl rfl rfl rfl'%' '.join(a)
        loc='(S := %s) (i := %d) (j := %d) (k := %d) (l := %d)'%((s.S,)+tuple(q))
        fg='(f := .%s) (g := .%s) '%(s.C.legs[q[0]][0],s.C.legs[q[2]][0])
        if s.C.th=='qed':
            if not s.neutral(q): return 'ewC_qed_none '+loc+' (by decide) rfl'
            return 'ewC_photon '+loc+' '+fg+'(by decide) rfl rfl rfl %s rfl'%' '.join(a)
        n,c=s.neutral(q),s.charged(q)
        fg='(f := .%s) (g := .%s) '%(s.C.legs[q[0]][0],s.C.legs[q[2]][0])
        mm=' '.join('(m%s := c.mass .%s)'%(t,s.C.legs[x][0]) for t,x in zip('₁₂₃₄',q))+' '
        if n and not c: return 'ewC_neutral '+loc+' '+fg+'(by decide) (by decide) rfl rfl rfl %s rfl rfl rfl'%' '.join(a)
        if c and not n: return 'ewC_charged '+loc+' '+mm+'(by decide) (by decide) rfl %s rfl rfl rfl rfl rfl'%' '.join(a)
        assert not n and not c
        return 'ewC_none '+loc+' (by decide) (by decide)'
    def strong(s,q):
        loc='(S := %s) (i := %d) (j := %d) (k := %d) (l := %d)'%((s.S,)+tuple(q))
        if not s.neutral(q): return 'strongC_none '+loc+' (by decide)'
        return 'strongC_quarks '+loc+' (by decide) rfl rfl rfl %s rfl'%' '.join(s.sgn(x) for x in q)
    def mass(s,i): return 'c.mass .%s'%s.C.legs[i][0]
    def need(s,i,angle):
        C=s.C
        if i not in C.nu: return '(.inl ⟨m%d, rfl⟩)'%i
        return '(.inr ⟨m%d, f%d⟩)'%(i,i)
    def nuval(s,i):
        v= 1 if i in s.C.ends else 0
        return 1-v if s.direct else v
    def brackets(s,used):
        o=[]
        C=s.C
        for a in sorted(used):
            ang,i,k=C.sprod[a]
            js=['spinOf (s %d)'%x for x in (i,k) if x not in C.nu]
            o.append('have v%d : %s.v %d [%s] = %s (%s.%s c p s %d) (%s.%s c p s %d) := %s (p := p) (m := %s.proc.massNum (%s.rho c)) %s %s %s %s'%(a,s.N,a,', '.join(js),'ab' if ang else 'sb',s.S,'angs' if ang else 'sqrs',i,s.S,'angs' if ang else 'sqrs',k,
                'bra_angle' if ang else 'bra_square',s.n,s.n,'n%d'%i if i in C.nu else 'rfl','n%d'%k if k in C.nu else 'rfl',s.need(i,ang),s.need(k,ang)))
        return o
    def swaps(s): return ['ab_swap (%s.angs c p s %d) (%s.angs c p s %d)'%(s.S,i,s.S,k) for i in range(4) for k in range(i+1,4)]+['sb_swap (%s.sqrs c p s %d) (%s.sqrs c p s %d)'%(s.S,i,s.S,k) for i in range(4) for k in range(i+1,4)]
def vs_used(C):
    u=set()
    def w(e):
        if isinstance(e,tuple):
            if e and e[0]=='v': u.add(e[1])
            for x in e: w(x)
        elif isinstance(e,list):
            for x in e: w(x)
    for k in C.amps: w(C.d[k])
    return u
MAIN={}   # name -> (list of (amp, spec text with sign))
def proof(g,fin='ring'):
    C=g.C;n=C.n;S=g.S
    o=[]
    a=o.append
    D=[k for k,q in enumerate(C.pars) if q in('MW','SW')]
    E=[k for k,q in enumerate(C.pars) if q=='SW']
    a('theorem %s.agrees : %s.Agrees := by'%(n,n))
    def lst(xs): 
        r='List.forall_mem_nil _'
        for x in reversed(xs): r='List.forall_mem_cons.2 ⟨%s, %s⟩'%(x,r)
        return r
    hD='(fun c hc => ⟨%s, %s⟩)'%(lst(['hc.'+C.pars[k] for k in D]),lst(['hc.SW_lt' for k in E]))
    a('  refine agrees_of (D := %s) (E := %s) (by simp [all, %s]) (by decide +kernel) (by decide) (by decide +kernel) %s (fun c hc i => by fin_cases i <;> %s) (by decide +kernel) ?_'%(D,E,n,hD,'rfl' if not C.nu else 'first | rfl | exact Nat.cast_zero.trans (hc.neutrino _).symm'))
    a('  intro c p u hc hw h0 hs hb hr hu')
    if None in C.pars: a('  replace hw := hw (by simp [%s])'%n)
    a('  have he : %s.ends = %s := by decide'%(S,C.ends))
    a('  have ht : %s.starts = %s := by decide'%(S,C.starts))
    a('  obtain ⟨o1, o2⟩ := regular_two he ht hr')
    if g.layout=='annihilation':
        a('  have hf := %s.flows_annihilation (by decide) hb'%S); a('  have ms := %s.msq_annihilation (by decide) hb'%S)
    elif g.layout=='scattering':
        a('  have hf := %s.flows_scattering (by decide) hb'%S); a('  have ms := %s.msq_scattering (by decide) hb'%S)
    else:
        a('  have hf := %s.flows_exchange (by decide) hb'%S); a('  have ms := %s.msq_exchange (p := p) (by decide)'%S)
    mem=g.members()
    o.extend('  '+x for x in mem)
    o.extend('  '+x for x in g.nonzero())
    for i in range(4):
        if i in C.nu: a('  have m%d : %s = 0 := hc.neutrino _'%(i,g.mass(i))); a('  have n%d : %s.proc.massNum (%s.rho c) %d = %s := Nat.cast_zero.trans m%d.symm'%(i,n,n,i,g.mass(i),i))
        else: a("  have m%d : %s ≠ 0 := (hc.massive _ (by decide)).ne'"%(i,g.mass(i)))
    for i in range(4): a('  have g%d : %s.sgn %d = %s := %s'%(i,S,i,'-1' if C.legs[i][1] else '1','if_pos rfl' if C.legs[i][1] else 'if_neg Bool.false_ne_true'))
    a('  have nMW := hc.MW')
    a('  have nSW := hc.SW')
    a('  have xMW : (c.MW : ℂ) ≠ 0 := by exact_mod_cast hc.MW')
    a('  have xSW : (c.SW : ℂ) ≠ 0 := by exact_mod_cast hc.SW')
    a('  have xCW : (c.CW : ℂ) ≠ 0 := by exact_mod_cast hc.CW')
    # divided members
    rd=[x for t,x in C.div if t=='r']; cd=[x for t,x in C.div if t=='c']
    a('  have hd : %s.proc.divides = [%s] := by decide +kernel'%(n,', '.join('(Ty.%s, %d)'%x for x in C.div)))
    a('  refine ⟨fun n hn => ?_, fun n hn => ?_, ?_⟩')
    for ds,t in ((rd,'r'),(cd,'c')):
        a('  · simp [hd] at hn')
        if not ds: continue
        a('    rcases hn with %s'%' | '.join(['rfl']*len(ds)))
        for x in ds:
            if t=='c': a('    · rw [c%d]; exact d%d'%(x,x))
            else:
                a('    · rw [r%d]; exact %s'%(x,{'c.MW':'nMW','c.SW':'nSW'}[C.r[x]]))
    return o
CONST=['Constants.gL','Constants.gR']
ISO={'up':'1/2','down':'-1/2','lepton':'-1/2','neutrino':'1/2'}
def key(g,amp,terms,fin):
    """terms: list of (sign, 'ew'|'st', q)"""
    C=g.C;S=g.S
    o=[];a=o.append
    ps=C.pnames[amp]
    js=' '.join('(spinOf (s %d))'%(int(x[2:])-1) for x in ps)
    fx=''.join(' (f%d : s %d = %d)'%(i,i,g.nuval(i)) for i in C.nu)
    def val(kind,q): return '%s.%s c p (%s.angs c p s) (%s.sqrs c p s) %s'%(S,('ewD' if g.direct else 'ewC') if kind=='ew' else 'strongC',S,S,g.args(q))
    rhs=' '.join(('+ ' if sg>0 else '- ')+val(k,q) for sg,k,q in terms).lstrip('+ ')
    if terms[0][0]<0: rhs='-('+val(*terms[0][1:])+')'+(' '+' '.join(('+ ' if sg>0 else '- ')+val(k,q) for sg,k,q in terms[1:]) if terms[1:] else '')
    a('  have k_%s : ∀ s : Fin 4 → Fin 2, %s%s.%s %s%s = %s := by'%(amp[2:],''.join('s %d = %d → '%(i,g.nuval(i)) for i in C.nu),C.n,amp[2:],g.N,' '+js if js else '',rhs))
    a('    intro s%s'%''.join(' f%d'%i for i in C.nu))
    u=set()
    def w(e):
        if isinstance(e,tuple):
            if e and e[0]=='v': u.add(e[1])
            for x in e: w(x)
        elif isinstance(e,list):
            for x in e: w(x)
    w(C.d[amp])
    for x in g.brackets(u): a('    '+x)
    lem=[]
    for sg,k,q in terms: lem.append(g.ew(q,'') if k=='ew' else g.strong(q))
    a('    rw [%s, %s.%s]'%(', '.join(lem),C.n,amp[2:]))
    rr=set();cc=set()
    def w2(e):
        if isinstance(e,tuple):
            if e and e[0]=='mem': (rr if e[1][0]=='r' else cc).add(e[2])
            for x in e: w2(x)
        elif isinstance(e,list):
            for x in e: w2(x)
    w2(C.d[amp])
    fl=[]
    for x in sorted({x[0] for x in C.legs}): fl+=['Flavour.charge_%s'%x,'Flavour.isospin_%s'%x]
    zero=[]
    a('    simp only [%s]'%', '.join(['r%d'%x for x in sorted(rr)]+['c%d'%x for x in sorted(cc)]+['v%d'%x for x in sorted(u)]+['jj','ln','lw']+CONST+fl+['m%d'%i for i in C.nu]))
    a('    abstract_brackets %s c p s'%S)
    a('    push_cast')
    a('    '+fin)
    return o
def dentext(g,n):
    kind,(i,j)=g.kinds[n]
    t='(%s.transfer p %d %d)'%(g.S,i,j)
    return {'photon':'(msq %s : ℂ)'%t,'z':'pole c.MZ c.WZ '+t,'higgs':'pole c.MH c.WH '+t,'w':'pole c.MW c.WW '+t}[kind]
def finish(g,typ,rest):
    C=g.C;n=C.n;S=g.S;o=[];a=o.append
    a('  show meaning %s .r Cls.%s.methods Cls.%s.amp2 [] = _'%(g.N,n,n))
    if typ=='L': lem='%s.squared_leptons he ht hs h0 hf hu (by decide)'%S
    elif typ=='M': lem='mixed_%s hs h0 hu he ht hf (by decide) (by decide) (by decide)'%g.layout
    elif typ=='DL': lem='leptons_direct hs h0 hu he ht hf.2 (by decide) (by decide) (by decide) (by decide) (by decide) rfl'
    elif typ=='DM': lem='%s_direct hs h0 hu he ht hf%s (by decide) (by decide) (by decide) (by decide) (by decide) rfl'%(g.layout,'.1' if g.layout=='annihilation' else '.2')
    elif typ=='Q': lem='%s.squared_quarks he ht hs h0 hf hu (by decide) colours_%s (by decide)'%(S,g.layout)
    a('  have ss : %s.states = %d := by decide'%(S,states(C)))
    a('  have sy : %s.symmetry = %d := by decide'%(S,2 if C.legs[2]==C.legs[3] else 1))
    zs=[]
    for q in (g.q,g.q2):
        if C.th=='qed':
            if not g.neutral(q): zs.append('ewC_qed_none (S := %s) (i := %d) (j := %d) (k := %d) (l := %d) (by decide) rfl'%((S,)+q))
        elif not g.neutral(q) and not g.charged(q): zs.append('ewC_none (S := %s) (i := %d) (j := %d) (k := %d) (l := %d) (by decide) (by decide)'%((S,)+q))
        if typ=='Q' and not g.neutral(q): zs.append('strongC_none (S := %s) (i := %d) (j := %d) (k := %d) (l := %d) (by decide)'%((S,)+q))
    a('  rw [%s.value, %s, ss, sy%s]'%(n,lem,', Nat.cast_zero' if len(C.nu)<4 else ''))
    if not C.nu:
        if len(C.amps)>1: a('  simp only [add_assoc]')
        a('  rw [sumJ_four, Finset.sum_div, Finset.sum_div]')
        a('  refine Finset.sum_congr rfl fun s _ => ?_')
        a('  rw [%s]'%', '.join(['k_'+k[2:] for k in C.amps]))
        if zs: a('  try simp only [%s]'%', '.join(zs))
        a('  finish_spins')
    else:
        names=dict(zip(range(4),'wxyz'))
        free=[i for i in range(4) if i not in C.nu]
        # vanishing terms
        zn=[]
        for i in C.nu:
            for q in (g.q,g.q2):
                if not(g.neutral(q) or g.charged(q)): continue
                ew='ewD' if g.direct else 'ewC'
                oth=[x for x in range(4) if x!=i]
                sv='![%s]'%', '.join(str(1-g.nuval(i)) if x==i else names[x] for x in range(4))
                nm='z%d%s'%(i,'' if q==g.q else "'")
                which='.%s ⟨by decide, leg%s_zero m%d rfl⟩'%('inl' if i in C.ends else 'inr','S' if (i in C.ends)!=g.direct else 'A',i)
                a('  have %s : ∀ %s : Fin 2, %s.%s c p (%s.angs c p %s) (%s.sqrs c p %s) %s = 0 := fun %s => %s_neutrino %d %sm%d (%s)'%(nm,' '.join(names[x] for x in oth),S,ew,S,sv,S,sv,g.args(q),' '.join(names[x] for x in oth),ew,i,'' if g.direct else 'rfl ',i,which))
                zn.append(nm)
        sv='![%s]'%', '.join(str(g.nuval(x)) if x in C.nu else names[x] for x in range(4))
        fs=' '.join(names[x] for x in free)
        a('  have k%s := %sk_amp %s%s'%('' if not free else ' := fun %s : Fin 2 =>'%fs if 0 else '','fun %s : Fin 2 => '%fs if free else '',sv,' rfl'*len(C.nu)))
        if free: a('  rw [sumJ_%s]'%{2:'two',3:'three',1:'one'}[len(free)])
        a('  rw [sum_quad]')
        kk='k'
        a('  try simp only [Matrix.cons_val] at k')
        a('  simp only [Fin.sum_univ_two, %s]'%', '.join([kk]+zn+zs))
        a('  finish_spins')
    return o
def states(C):
    r=1
    for i in (0,1): r*= (1 if C.legs[i][0] in NEU else 2)*(3 if C.quark[i] else 1)
    return r
