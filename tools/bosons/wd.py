"""Lean text for WdWd, whose amplitude is that of the antiparticles."""
from agree import *
from rows import pars
n='WdWd'
C=Cl(n,[('W-',False),('d',True),('W-',False),('d',True)],pars(n),1)
ROW='''namespace Spinas.SM.Rows
/-- the reaction of the antiparticles -/
def WdWd : BRow := ⟨Cls.WdWd, ⟨![.boson .wMinus, .fermion .d true, .boson .wMinus, .fermion .d true]⟩, [some .e, some (.mass .d), some (.mass .u), some .MH, some .WH, some .MW, some .SW, some .WZ], []⟩
end Spinas.SM.Rows

'''
h=HEAD.replace('\n\nset_option','\n\n/-! A down quark and a W boson. Generated by tools/bosons/wd.py: the amplitude as a formula in spinors, and the proof that `amp2` is the squared amplitude of the Feynman rules. -/\n\nset_option',1)
h=h.replace('namespace Spinas.SM.Rows',ROW+'namespace Spinas.SM.Rows',1)
open('/verif/lean/Verif/SM/Bosons/WdWd.lean','w').write(h+'\n'.join(defs(C)+key(C)+agree(C))+'\n\nend Spinas.SM.Rows\n')
