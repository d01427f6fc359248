from run import *
import os
MOD={'Leptons':('Charged leptons.','eemm emem eeee eeee2 eemmQED eeeeQED'),
'Neutrinos':('Leptons and neutrinos.','eenmnm enmenm eenene enenee mnen menn nenenene nenenene2 nenenmnm nenmnenm'),
'Mixed':('Quarks and leptons.','ddee uuee deed ueeu ddnn uunn dnnd unnu udnl ulnd'),
'Quarks':('Quarks of two generations.','ddss uucc uuss dsds ucuc usus udtb ubdt'),
'QuarksW':('Quarks of one generation.','uudd udud dddd'),
'QuarksSame':('Quarks of one flavour.','uuuu dddd2 uuuu2')}
d='/verif/lean/Verif/SM/Fermions'
os.makedirs(d,exist_ok=True)
allc=sum((v[1].split() for v in MOD.values()),[])
assert sorted(allc)==sorted(r[0] for r in ROWS)
for m,(t,cs) in MOD.items():
    h=head().replace('\n\nset_option','\n\n/-! %s Generated by tools/fermions/emit.py: for each class its amplitudes as formulas, and the proof that `amp2` is the squared amplitude of the Feynman rules. -/\n\nset_option'%t,1)
    open(d+'/%s.lean'%m,'w').write(h+'\n\n'.join('/-! ### %s -/\n\n'%n+emit(n) for n in cs.split())+'\n\nend Spinas.SM.Rows\n')
