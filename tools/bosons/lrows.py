"""The classes with one fermion line and massless bosons."""
import re
from rows import legs
from lp import ALL
OVER={'AZee':[('A',False),('Z',False),('e',False),('e',True)]}
NAMES='uuAh ddAh eeAh uAuh dAdh eAeh AAuu AAdd AAee uAAu dAAd eAAe uuAA ddAA eeAA AZuu AZdd AZee AuZu AdZd AeZe AnWe enAW AWud udAW dgdh uguh hgdd hguu dAgd guAu gAdd gAuu gZdd gZuu gdZd guZu gWud dWgu'.split()
def pars(n):
    m=re.search(r'/-- constructor \(([^)]*)\); parameters: (.*?) -/',ALL[n][1])
    M={'echarge':'e','massh':'MH','widthh':'WH','massW':'MW','sinW':'SW','widthZ':'WZ','widthW':'WW','gcharge':'gs','vev':'vev','gscharge':'gs','charge':'gs'}
    return [M[x] if x in M else 'mass '+(n.strip('ZA')[0] if x=='massf' else x[4:]) for x in re.findall(r'`(\w+)`',m.group(2))]
SIGN={}
LROWS=[(n,OVER.get(n) or legs(n),pars(n),SIGN.get(n,1)) for n in NAMES]
OPEN=set()
ABSENT={n:['WW'] for n in 'AnWe enAW AWud udAW'.split()}
BOS={'h':'.higgs','A':'.photon','Z':'.z','W+':'.wPlus','W-':'.wMinus','g':'.gluon'}
def lean():
    o=[]
    for n,L,P,_ in LROWS:
        if 'vev' in P: continue
        l=', '.join('.boson %s'%BOS[f] if f in BOS else '.fermion .%s %s'%(f,'true' if a else 'false') for f,a in L)
        q=', '.join('some (.mass .%s)'%q[5:] if q.startswith('mass') else 'some .%s'%q for q in P)
        o.append('def %s : BRow := ⟨Cls.%s, ⟨![%s]⟩, [%s], [%s]⟩'%(n,n,l,q,', '.join('.'+x for x in ABSENT.get(n,[]))))
    return '\n'.join(o)
if __name__=='__main__':
    open('/verif/lean/Verif/SM/LightRows.lean','w').write('''import Verif.SM.LightLine
import Verif.SM.FermionRows

/-! The classes for reactions with one fermion line and massless bosons, with the reactions they are for: names of the classes and of their parameters in SM/include/*.h, comments in SM/*.cpp. Generated by tools/bosons/lrows.py. -/

namespace Spinas.SM

namespace Rows
'''+lean()+'''
end Rows

open Rows in
/-- classes with one fermion line and massless bosons -/
def withLight : List BRow := ['''+', '.join(r[0] for r in LROWS if 'vev' not in r[2] and r[0] not in OPEN)+''']

end Spinas.SM
''')
