"""Lean text for nnWW and nWWn, whose constructor gives the propagator of the electron no mass."""
from agree import *
import sys,subprocess,time
NAMES={'nnWW':-1,'nWWn':1}
def text(n,sign):
    from rows import legs,pars
    C=Cl(n,legs(n),pars(n),sign)
    C.prop[0][0]='(c.mass .e)'
    t='\n'.join(defs(C)+key(C)+agree(C))
    t=t.replace('c.Physical','c.Weak').replace('%s.proc.'%n,'%s.proc.withElectron.'%n).replace('%s.agrees : %s.Agrees'%(n,n),'%s.agrees : %s.AgreesElectron'%(n,n))
    t=re.sub(r"\(leg_pos hc hh \(by decide\)\)\.ne'","hh.MW.ne'",t)
    t=t.replace('(boson_pos hc hh','(hc.boson_pos hh').replace('intro c p u ε hc hh hw h0','intro c p u ε hc hh h0')
    t=t.replace('agrees_of','agreesElectron_of').replace('(by simp [all, %s]) (by decide +kernel)'%n,'(by decide +kernel) (by decide +kernel) rfl (by decide +kernel)')
    t=t.replace('(fun c hc i => %s.mass_eq hc i) (by decide +kernel) ?_'%n,'(fun c hc i => %s.mass_eq hc i) (fun c hc hh i => ?_) (fun c hc hh i => ?_) ?_\n  · %s\n  · %s'%(n,
      'revert i; intro i hi; fin_cases i <;> first | exact hh.MW | exact absurd hi (by decide +kernel)','fin_cases i <;> first | exact hh.MW.le | exact (hc.neutrino _).ge'))
    if n=='nWWn': t=t.replace('  try simp only [← Finset.mul_sum]\n','  simp only [Fin.sum_univ_three]\n')
    return t
EHEAD=HEAD.replace('Verif.SM.BosonRows','Verif.SM.Electron')
if __name__=='__main__':
    if sys.argv[1:]==['emit']:
        h=EHEAD.replace('\n\nset_option','\n\n/-! Neutrinos and two W bosons. Generated by tools/bosons/electron.py: for each class its amplitude as a formula in spinors, and the proof that `amp2` is the squared amplitude of the Feynman rules. -/\n\nset_option',1)
        open('/verif/lean/Verif/SM/Bosons/NeutrinoWW.lean','w').write(h+'\n\n'.join('/-! ### %s -/\n\n'%n+text(n,s) for n,s in NAMES.items())+'\n\nend Spinas.SM.Rows\n'); sys.exit()
    for n,s in NAMES.items():
        for s in (s,-s):
            fn='/tmp/K_%s.lean'%n
            open(fn,'w').write(EHEAD+text(n,s)+'\n\nend Spinas.SM.Rows\n'); t0=time.time()
            q=subprocess.run(['lake','env','lean',fn],cwd='/verif/lean',capture_output=True,text=True)
            out=q.stdout+q.stderr; open(fn[:-5]+'.out','w').write(out)
            print(n,s,'%.0fs'%(time.time()-t0),'OK' if not out else '\n'.join(l for l in out.split('\n') if 'error' in l)[:900],flush=True)
            if not out or 'mass_eq' not in out: break
