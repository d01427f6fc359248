"""Writes the files of lean/Verif/SM/Bosons for classes with massless bosons."""
from lagree import *
from lrows import LROWS
LMOD={'PhotonHiggs':('Quarks, a photon and a Higgs boson.','uuAh ddAh uAuh dAdh'),
'PhotonHiggsE':('Electrons, a photon and a Higgs boson.','eeAh eAeh'),
'GluonHiggs':('Quarks, a gluon and a Higgs boson.','dgdh uguh hgdd hguu'),
'Photons':('Two photons become fermions.','AAuu AAdd AAee'),
'PhotonsOut':('Fermions become two photons.','uuAA ddAA eeAA'),
'Compton':('Compton scattering.','uAAu dAAd eAAe'),
'PhotonZ':('A photon and a Z boson become fermions.','AZuu AZdd AZee'),
'PhotonZt':('A fermion and a photon become a fermion and a Z boson.','AuZu AdZd AeZe'),
'PhotonW':('Leptons, a photon and a W boson.','AnWe enAW'),
'PhotonWud':('Quarks, a photon and a W boson.','AWud udAW'),
'GluonPhoton':('Quarks, a gluon and a photon, one before and one after.','dAgd guAu'),
'GluonPhotonIn':('A gluon and a photon become quarks.','gAdd gAuu'),
'GluonZ':('A gluon and a Z boson become quarks.','gZdd gZuu'),
'GluonZt':('A quark and a gluon become a quark and a Z boson.','gdZd guZu'),
'GluonW':('Quarks, a gluon and a W boson.','gWud dWgu')}
d='/verif/lean/Verif/SM/Bosons'
R={r[0]:r for r in LROWS}
def one(n):
    C=LCl(*R[n]); t=ldefs(C)
    for h in C.hels: t+=lkey(C,h)
    return '/-! ### %s -/\n\n'%n+'\n'.join(t+lagree(C))
if __name__=='__main__':
    import sys
    for m,(t,cs) in LMOD.items():
        if sys.argv[1:] and m not in sys.argv[1:]: continue
        h=lhead(m=='PhotonWud',m=='PhotonHiggsE').replace('\n\nset_option','\n\n/-! %s Generated by tools/bosons/lemit.py: for each class its amplitude at given helicities as a formula in spinors, and the proof that `amp2` is the squared amplitude of the Feynman rules. -/\n\nset_option'%t,1)
        open(d+'/%s.lean'%m,'w').write(h+'\n\n'.join(one(n) for n in cs.split())+'\n\nend Spinas.SM.Rows\n')
