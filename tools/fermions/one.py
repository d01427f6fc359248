from gen2 import *
C={r[0]:Cl(*r) for r in ROWS}
def head(mod='Verif.SM.FermionRows'):
    return '''import Verif.SM.FermionRows
import Verif.SM.Exchanges

set_option linter.unusedSimpArgs false

namespace Spinas.SM.Rows
open Spec Spec.Scattering Props XR Matrix Row

'''
def full(n,typ,keys,sign=1,fin='ring',rest='norm_num'):
    g=G(C[n],sign,typ[0]=='D')
    o=[C[n].definitions(),'','variable [FPEnv] in']+proof(g)
    i=o.index('  refine ⟨fun n hn => ?_, fun n hn => ?_, ?_⟩')
    ks=[]
    for amp,terms in keys: ks+=key(g,amp,[(s,k,g.q if x==1 else g.q2) for s,k,x in terms],fin)
    o[i:i]=ks
    o+=finish(g,typ,rest)
    return '\n'.join(x for x in o if x!='' or 1)
if __name__=='__main__':
    t=full('eemm','L',[('m_amp',[(1,'ew',1),(-1,'ew',2)])])
    open('T4.lean','w').write(head()+t+'\nend Spinas.SM.Rows\n')
