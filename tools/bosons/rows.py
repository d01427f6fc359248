"""The classes with bosons: legs and parameters (read from the class and from the test printout in SM/*.cpp)."""
import re
from lp import ALL
def legs(n):
    t=open('/repo/SM/%s.cpp'%n).read()
    m=re.search(r'\\t\* ([^:"]*?) *:',t).group(1)
    a,b=m.split('->')
    LEG={'e':('e',False),'E':('e',True),'d':('d',False),'D':('d',True),'u':('u',False),'U':('u',True),'ne':('ne',False),'Ne':('ne',True)}
    return [LEG.get(x.strip(),(x.strip(),False)) for x in a.split(',')+b.split(',')]
def pars(n):
    m=re.search(r'/-- constructor \(([^)]*)\); parameters: (.*?) -/',ALL[n][1])
    M={'echarge':'e','massh':'MH','widthh':'WH','massW':'MW','sinW':'SW','widthZ':'WZ','widthW':'WW','gcharge':'gs'}
    return [M[x] if x in M else 'mass '+(n.strip('Z')[0] if x=='massf' else x[4:]) for x in re.findall(r'`(\w+)`',m.group(2))]
# sign of the amplitude of the class relative to the rules
SIGN={'eehh':-1,'eheh':-1,'ddhh':1,'dhdh':-1,'uuhh':1,'uhuh':-1,'eeZh':-1,'ddZh':-1,'uuZh':-1,'nnZh':-1,'eZeh':-1,'dZdh':-1,'uZuh':-1,'nZnh':-1,
 'enWh':1,'udWh':1,'hnWe':-1,'uhWd':-1,'eeZZ':1,'ddZZ':1,'uuZZ':1,'nnZZ':1,'eZZe':1,'dZZd':1,'uZZu':1,'nZZn':1,
 'eeWW':1,'ddWW':-1,'uuWW':1,'eWWe':1,'uWWu':1,'enZW':1,'udZW':-1,'ZnWe':1,'WdZu':-1}
# four bosons, and the widths that these classes take to be 0
SIGN.update({'hhhh':-1,'ZZZZ':-1,'hhZZ':-1,'hZZh':1,'hhWW':-1,'hWWh':1,'ZhWW':-1,'ZWWh':1,'ZZWW':-1,'ZWZW':-1,'WWWW':1,'WWWW2':1})
ABSENT={'hhZZ':['WZ'],'hZZh':['WZ'],'hhWW':['WW'],'hWWh':['WW'],'ZZWW':['WW'],'ZWZW':['WW'],'WWWW':['WZ'],'WWWW2':['WZ']}
ROWS=[(n,legs(n),pars(n),g) for n,g in SIGN.items()]
BOS={'h':'.higgs','A':'.photon','Z':'.z','W+':'.wPlus','W-':'.wMinus','g':'.gluon'}
def lean():
    o=[]
    for n,L,P,_ in ROWS:
        l=', '.join('.boson %s'%BOS[f] if f in BOS else '.fermion .%s %s'%(f,'true' if a else 'false') for f,a in L)
        q=', '.join('some (.mass .%s)'%q[5:] if q.startswith('mass') else 'some .%s'%q for q in P)
        o.append('def %s : BRow := ⟨Cls.%s, ⟨![%s]⟩, [%s], [%s]⟩'%(n,n,l,q,', '.join('.'+x for x in ABSENT.get(n,[]))))
    return '\n'.join(o)
if __name__=='__main__':
    open('/verif/lean/Verif/SM/BosonRows.lean','w').write('''import Verif.SM.FourBosons
import Verif.SM.FermionRows

/-! The classes for reactions with bosons, with the reactions they are for: names of the classes and of their parameters in SM/include/*.h, comments in SM/*.cpp. Generated by tools/bosons/rows.py. -/

namespace Spinas.SM

namespace Rows
'''+lean()+'''
end Rows

open Rows in
/-- classes with bosons -/
def withBosons : List BRow := ['''+', '.join(r[0] for r in ROWS)+''']

end Spinas.SM
''')
