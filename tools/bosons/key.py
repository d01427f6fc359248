"""Lean text: the amplitude of a class in spinors is the one of the Feynman rules."""
from gen import *
CWT='√((((1 : Nat) : ℝ) - (c.SW * c.SW)))'
FL={'u':'Flavour.u','d':'Flavour.d','e':'Flavour.e','ne':'Flavour.ne'}
def vecs(C): return C.vec
def zargs(C,mode='key'):
    o=[]
    for k in range(4):
        if k in C.fer: o.append('z%d'%k)
        elif k in C.vec: o+= ['x%d'%k,'y%d'%k] if mode=='form' else ['z%d'%k,'z%d'%k]
    return o
def defs(C):
    n=C.n;o=[]
    js=['j%d'%(k+1) for k in C.args if k in C.fer]+sum([['a%d'%k,'b%d'%k] for k in C.args if k in C.vec],[])
    # keep argument order of the code
    js=[]
    for k in C.args: js+= ['j%d'%(k+1)] if k in C.fer else ['a%d'%k,'b%d'%k]
    C.js=js
    wx='(w : ℝ) (x : ℂ) ' if C.vec else ''
    o.append('/-- what the methods of the class see -/')
    o.append('noncomputable abbrev %s.N [FPEnv] (c : Constants) (p : Nat → V4 ℝ) : Env := %s.proc.env (%s.rho c) p'%(n,n,n))
    o.append('/-- %s (SM/%s.cpp) -/'%('the term that `amp` adds for a choice of spinors' if C.vec else '`amp`',n))
    o.append('noncomputable def %s.term (N : Env) %s%s: ℂ :=\n  %s'%(n,wx,'(%s : Int) '%' '.join(js) if js else '',C.body('N')))
    C.readr=set();C.readc=set();C.vuse=[]
    t=C.body('form').replace('r §','')
    t=re.sub(r'(?<![\w.])r (\d+)',r'N.r \1',t); t=re.sub(r'(?<![\w.])d (\d+)',r'N.c \1',t)
    o.append('/-- the same with spinors in place of their spins -/')
    o.append('noncomputable def %s.form (N : Env) (p : Nat → V4 ℝ)%s : ℂ :=\n  %s'%(n,' (%s : Pair)'%' '.join(zargs(C,'form')) if zargs(C,'form') else '',t))
    return o
def members(C):
    """statements about the numbers of the class"""
    o=[]
    for k in sorted(C.readr): o.append(('r%d'%k,'N.r %d = %s'%(k,C.r[k].replace(CWT,'c.CW'))))
    return o
CH={('add',0,1):'s',('sub',0,2):'t',('sub',0,3):'u'}
def codepoles(C):
    """for each denominator of the code the pole of the rules"""
    P=C.poles();o={}
    for k in sorted(C.readc):
        pr,v=C.den[k]; m,w=C.prop[pr]; ch=CH[v]; m=m.replace(CWT,'c.CW')
        zero='((0 : Nat) : ℝ)'
        if m=='c.MH': q=('h',ch)
        elif m=='(c.MW / c.CW)': q=('Z',ch)
        elif m=='c.MW': q=('W',ch)
        elif m==zero and ('A',ch) in P and ('f','ne',ch) not in P: q=('A',ch)
        elif m==zero: q=('f','ne',ch)
        else: q=('f',re.match(r'\(c\.mass \.(\w+)\)',m).group(1),ch)
        assert q in P,(C.n,k,q,list(P))
        o[k]=(q,P[q],m,w,v)
    return o
FIN='field_simp\n  first | ring1 | (ring_nf; simp only [x22]; ring1)'
ELIM={0:'mb_nought',1:'mb_one',2:'mb_two',3:'mb_three'}
def sgn(C,k): return '-1' if C.legs[k][1] else '1'
def key(C,fin=FIN):
    n=C.n;o=[];A=o.append
    i,j=C.i,C.j;a,b=C.bos
    hyp=['(hc : c.Physical) (hb : Balanced p)']
    for nm,t in members(C): hyp.append('(%s : %s)'%(nm,t))
    cp=codepoles(C)
    for k,(q,(t,_),_,_,_) in cp.items(): hyp.append('(d%d : %s = N.c %d) (n%d : N.c %d ≠ 0)'%(k,t,k,k,k))
    zs=[k for k in range(4) if k in C.spin]
    hyp.append('{%s : Pair}'%' '.join('z%d'%k for k in zs))
    for k in zs: hyp.append('(b%d : Bold (p %d) %s z%d)'%(k,k,C.mass(k),k))
    if len(C.vec)==2:
        for k in C.vec: hyp.append('(q%d : msq (p %d) = %s ^ 2)'%(k,k,C.mass(k)))
    hs=[k for k in C.bos if k not in C.vec]
    if hs: hyp.append('(%s : Vec)'%' '.join('E%d'%k for k in hs))
    wt={0:None,1:'((√2 / %s : ℝ) : ℂ)'%C.mass(C.vec[0]) if C.vec else '',2:'((2 / (%s * %s) : ℝ) : ℂ)'%(C.mass(C.lv[0][0]),C.mass(C.lv[-1][0])) if C.vec else ''}[len(C.vec)]
    E=lambda k:'(pv z%d.1 z%d.2)'%(k,k) if k in C.vec else 'E%d'%k
    E0=lambda k:'pv z%d.1 z%d.2'%(k,k) if k in C.vec else 'E%d'%k
    sg='-' if C.sign<0 else ''
    bare='%s.react.bare c p %d %d %d %d z%d z%d %s %s'%(n,i,j,a,b,i,j,E(a),E(b))
    rhs=('%s * %s'%(wt,bare)) if wt else bare
    if C.sign<0: rhs='-(%s)'%rhs
    A('theorem %s.key {c : Constants} {p : Nat → V4 ℝ} {N : Env} %s :\n    %s.form N p %s = %s := by'%(n,' '.join(hyp),n,' '.join(zargs(C)),rhs))
    f,g=C.legs[j][0],C.legs[i][0]
    ln=lambda k:'⟨%s, %s, %s⟩'%(BOS[C.boson(k)],C.mom(k)[1:-1] if 0 else C.mom(k),E0(k))
    A('  rw [%s.react.bare_parts c p (i := %d) (j := %d) (a := %d) (b := %d) (x := %s) (y := %s) (k := %s) (k\' := %s) (fun _ => rfl) (fun _ => rfl) (f := .%s) (g := .%s) rfl rfl (l := %s) rfl (e := %s) (e\' := %s) (%s) (%s)]'%(
        n,i,j,a,b,BOS[C.boson(a)],BOS[C.boson(b)],C.mom(a),C.mom(b),f,g,C.along(j),sgn(C,i),sgn(C,j),
        'if_pos rfl' if C.legs[i][1] else 'if_neg Bool.false_ne_true','if_pos rfl' if C.legs[j][1] else 'if_neg Bool.false_ne_true'))
    for u,v in ((a,b),(b,a)):
        bu,bv=C.boson(u),C.boson(v)
        x=after(bu,f)
        tp='h' if bu=='h' else 'v'; tq='h' if bv=='h' else 'v'
        if x and after(bv,x)==g:
            nz=[]
            if tp=='v': nz.append('(by simp)')
            if tq=='v': nz.append('(by simp)')
            A("  rw [compton_%s%s (f := .%s) (x := .%s) (g := .%s) (h := (rfl : Spec.after %s %s = some %s)) (h' := (rfl : Spec.after %s %s = some %s))%s%s]"%(tp,tq,f,x,g,BOS[bu],FL[f],FL[x],BOS[bv],FL[x],FL[g],' (ha := by simp)' if tp=='v' else '',' (hb := by simp)' if tq=='v' else ''))
        else: A("  rw [compton_none (h := by simp [Spec.after, Flavour.%s, Flavour.%s]), star_zero]"%(f,g))
    if f==g: A('  have an := annihilation_neutral c (%s) (%s) z%d.1 z%d.2 z%d.1 z%d.2 %s %s .%s'%(sgn(C,i),sgn(C,j),i,i,j,j,ln(a),ln(b),f)); xs=['.photon','.z']
    else:
        W='.wPlus' if after('W+',f)==g else '.wMinus'; xs=[W]
        A('  have an := annihilation_charged c (%s) (%s) z%d.1 z%d.2 z%d.1 z%d.2 %s %s (f := .%s) (g := .%s) (x := %s) (by simp) rfl'%(sgn(C,i),sgn(C,j),i,i,j,j,ln(a),ln(b),f,g,W))
    A('  dsimp only at an')
    A('  rw [an, %s.form]'%n)
    A('  clear an')
    ymr=''
    if len(C.vec)==2:
        for k in C.vec:
            if k<2: A('  have Y%d := b%d; have Q%d := q%d'%(k,k,k,k))
            else: A('  have Y%d := b%d.back; have Q%d : msq (backward (p %d)) = (-%s) ^ 2 := by rw [msq_backward, q%d, neg_sq]'%(k,k,k,k,C.mass(k),k))
        ymr='lineV_yangMills Y%d Y%d, four_yangMills Y%d Y%d Q%d Q%d, ym, '%(a,b,a,b,a,b)
    for x in xs: A('  rw [lineV_mass%s (hx := (rfl : Boson.massive %s = %s))]'%('less' if x=='.photon' else 'ive',x,'false' if x=='.photon' else 'true'))
    A('  simp only [toHiggs, toVector, higgs2, gauge3, Boson.anti, Constants.bosonMass, Constants.bosonWidth, %s%sreduceCtorEq, and_self, and_true, and_false, and_true, if_true, if_false, Complex.ofReal_zero, zero_smul, zero_mul, mul_zero, zero_div, neg_zero, add_zero, zero_add, lineH, lineV_zero, contract_zero, lineV_smul, contract_smul, %slineV_pv, lineV_four, contract_four_pv, contract_pv, mb_plus, mb_backward]'%(', '.join('d%d'%k for k in cp),', ' if cp else '',ymr))
    red=[]
    for k in zs: red+=['b%d.mb_left'%k,'b%d.mb_right'%k]
    for k in zs:
        for l in zs:
            m=max(q for q in range(4) if q not in(k,l))
            red.append('%s hb z%d.2 z%d.1'%(ELIM[m],k,l))
    A('  simp only [%s, ab_self, sb_self]'%', '.join(red))
    sw=[]
    for x in range(len(zs)):
        for y in range(x+1,len(zs)): sw+=['ab_swap z%d.1 z%d.1'%(zs[x],zs[y]),'sb_swap z%d.2 z%d.2'%(zs[x],zs[y])]
    fl=sorted({C.legs[k][0] for k in C.fer}|{q[1] for q in C.poles() if q[0]=='f'})
    ff=[]
    for x in fl: ff+=['Flavour.charge_%s'%x,'Flavour.isospin_%s'%x]
    ff+=['hc.neutrino_ne' for x in fl if x=='ne']
    if 'ne' in fl: A('  have hne : c.mass .ne = 0 := hc.neutrino _'); ff=[x if x!='hc.neutrino_ne' else 'hne' for x in ff]
    A('  simp only [%s, %s, Constants.hL, Constants.hR, Constants.gL, Constants.gR, Constants.yuk, Constants.invVev, %s, ← c.mz]'%(', '.join(sw),', '.join(x[0] for x in members(C)),', '.join(ff)))
    A('  have xMW : (c.MW : ℂ) ≠ 0 := by exact_mod_cast hc.MW')
    A('  have xSW : (c.SW : ℂ) ≠ 0 := by exact_mod_cast hc.SW')
    A('  have xCW : (c.CW : ℂ) ≠ 0 := by exact_mod_cast hc.CW')
    A('  have x2 : ((√2 : ℝ) : ℂ) ≠ 0 := by exact_mod_cast (Real.sqrt_pos.2 two_pos).ne\'')
    A('  have x22 : ((√2 : ℝ) : ℂ) ^ 2 = 2 := by rw [← Complex.ofReal_pow, Real.sq_sqrt two_pos.le]; norm_num')
    A('  push_cast')
    A('  '+fin)
    return o
HEAD='''import Verif.SM.BosonRows

set_option linter.unusedSimpArgs false
set_option linter.unusedVariables false
set_option linter.unreachableTactic false
set_option linter.unusedTactic false

namespace Spinas.SM.Rows
open Spec Spec.Reaction Props XR Matrix BRow

'''
if __name__=='__main__':
    import sys,subprocess,time
    R={r[0]:r for r in ROWS}
    for n in sys.argv[1:] or R:
        C=Cl(*R[n]); t=HEAD+'\n'.join(defs(C)+key(C))+'\n\nend Spinas.SM.Rows\n'
        fn='/tmp/K_%s.lean'%n
        open(fn,'w').write(t); t0=time.time()
        q=subprocess.run(['lake','env','lean',fn],cwd='/verif/lean',capture_output=True,text=True)
        out=q.stdout+q.stderr; open(fn[:-5]+'.out','w').write(out)
        print(n,'%.0fs'%(time.time()-t0),'OK' if not out else out[:300],flush=True)
