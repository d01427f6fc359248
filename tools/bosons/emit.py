"""Writes lean/Verif/SM/Bosons."""
from agree import *
from four import key4
from four_agree import agree4
import os
MOD={'Higgs':('Fermions and two Higgs bosons.','eehh eheh ddhh dhdh uuhh uhuh'),
'ZHiggs':('Fermions, a Z and a Higgs boson.','eeZh ddZh uuZh nnZh eZeh dZdh uZuh nZnh'),
'WHiggs':('Fermions, a W and a Higgs boson.','enWh udWh hnWe uhWd'),
'ZZ':('Fermions and two Z bosons.','eeZZ ddZZ uuZZ nnZZ'),
'ZZt':('Fermions and two Z bosons, one before and one after.','eZZe dZZd uZZu nZZn'),
'WW':('Fermions and two W bosons.','eeWW ddWW uuWW'),
'WWt':('Fermions and two W bosons, one before and one after.','eWWe uWWu'),
'ZW':('Fermions, a Z and a W boson.','enZW udZW ZnWe WdZu'),
'FourHiggs':('Four bosons, two or more of them Higgs or Z bosons.','hhhh ZZZZ hhZZ hZZh hhWW hWWh'),
'FourZhWW':('A Z, a Higgs and two W bosons.','ZhWW ZWWh'),
'FourZZWW':('Two Z and two W bosons.','ZZWW'),
'FourZWZW':('Two Z and two W bosons, one of each before.','ZWZW'),
'FourWWWW':('Four W bosons, equal before.','WWWW'),
'FourWWWW2':('Four W bosons, opposite before.','WWWW2')}
d='/verif/lean/Verif/SM/Bosons'
os.makedirs(d,exist_ok=True)
R={r[0]:r for r in ROWS}
allc=sum((v[1].split() for v in MOD.values()),[])
assert sorted(allc)==sorted(R)
for m,(t,cs) in MOD.items():
    h=HEAD.replace('\n\nset_option','\n\n/-! %s Generated by tools/bosons/emit.py: for each class its amplitude as a formula in spinors, and the proof that `amp2` is the squared amplitude of the Feynman rules. -/\n\nset_option'%t,1)
    def one(n):
        C=Cl(*R[n]); return '/-! ### %s -/\n\n'%n+'\n'.join(defs(C)+(key4(C)+agree4(C) if len(C.bos)==4 else key(C)+agree(C)))
    open(d+'/%s.lean'%m,'w').write(h+'\n\n'.join(one(n) for n in cs.split())+'\n\nend Spinas.SM.Rows\n')
