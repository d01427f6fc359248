# class, legs, params
ROWS=[]
F=dict(u='u',c='c',t='t',d='d',s='s',b='b',e='e',m='mu',l='tau',n='ne',N='nmu',T='ntau')
def row(n,legs,pars,theory='standard'):
    # legs: string like "e E~"
    L=[]
    for x in legs.split():
        anti=x.endswith('~'); L.append((F[x.rstrip('~')],anti))
    P=[]
    for q in pars.split():
        if q=='-': P.append(None)
        elif q in('e','gs','SW','MW','WW','WZ','MH','WH'): P.append(q)
        else: P.append('mass '+F[q[1:]])
    ROWS.append((n,L,P,theory))
row('eemm','e e~ m m~','e me mm MH WH MW SW -')
row('emem','e m e m','e me mm MH WH MW SW -')
row('ddee','d d~ e e~','e md me MH WH MW SW -')
row('uuee','u u~ e e~','e mu me MH WH MW SW -')
row('deed','d e e d','e md me MH WH MW SW -')
row('ueeu','u e e u','e mu me MH WH MW SW -')
row('eeee','e e~ e e~','e me MH WH MW SW -')
row('eeee2','e e e e','e me MH WH MW SW -')
row('eemmQED','e e~ m m~','e me mm','qed')
row('eeeeQED','e e~ e e~','e me','qed')
row('eenmnm','e e~ N N~','e me MW SW -')
row('enmenm','e N e N','e me MW SW -')
row('eenene','e e~ n n~','e me MW WW SW -')
row('enenee','e n n e','e me MW WW SW -')
row('ddnn','d d~ n n~','e md MW SW -')
row('uunn','u u~ n n~','e mu MW SW -')
row('dnnd','d n n d','e md MW SW -')
row('unnu','u n n u','e mu MW SW -')
row('nenenene','n n~ n n~','e MW SW -')
row('nenenene2','n n n n','e MW SW -')
row('nenenmnm','n n~ N N~','e MW SW -')
row('nenmnenm','n N n N','e MW SW -')
row('menn','m~ e n N~','e me mm MW WW SW')
row('mnen','m n e N','e me mm MW WW SW')
row('udnl','u d~ T l~','e mu md ml MW WW SW')
row('ulnd','u l T d','e mu md ml MW WW SW')
row('udtb','u d~ t b~','e mu md mt mb MW WW SW')
row('ubdt','u b d t','e mu md mt mb MW WW SW')
row('ddss','d d~ s s~','e gs md ms MH WH MW SW -')
row('uucc','u u~ c c~','e gs mu mc MH WH MW SW -')
row('uuss','u u~ s s~','e gs mu ms MH WH MW SW -')
row('dsds','d s d s','e gs md ms MH WH MW SW -')
row('ucuc','u c u c','e gs mu mc MH WH MW SW -')
row('usus','u s u s','e gs mu ms MH WH MW SW -')
row('uudd','u u~ d d~','e gs mu md MH WH MW WW SW -')
row('udud','u d u d','e gs mu md MH WH MW WW SW -')
row('dddd','d d~ d d~','e gs md MH WH MW SW WZ')
row('uuuu','u u~ u u~','e gs mu MH WH MW SW -')
row('dddd2','d d d d','e gs md MH WH MW SW -')
row('uuuu2','u u u u','e gs mu MH WH MW SW -')
def lean():
    o=[]
    for n,L,P,th in ROWS:
        legs=', '.join('⟨.%s, %s⟩'%(f,'true' if a else 'false') for f,a in L)
        pars=', '.join('none' if q is None else ('some (.mass .%s)'%q[5:] if q.startswith('mass') else 'some .%s'%q) for q in P)
        o.append('def %s : Row := ⟨Cls.%s, ⟨.%s, ![%s]⟩, [%s]⟩'%(n,n,th,legs,pars))
    return '\n'.join(o)
if __name__=='__main__':
    kinds=[('u','up',0),('c','up',1),('t','up',2),('d','down',0),('s','down',1),('b','down',2),('e','lepton',0),('mu','lepton',1),('tau','lepton',2),('ne','neutrino',0),('nmu','neutrino',1),('ntau','neutrino',2)]
    s='''import Verif.SM.FourFermion

/-! The classes for two fermions into two fermions, with the processes they are for: names of the classes and of their parameters in SM/include/*.h, comments in SM/*.cpp.
`none` marks a width of the Z that has no effect (the class calls `propZ.set_mass` only, the width stays 0). dddd alone passes it on. -/

namespace Spinas

namespace Spec.Flavour
'''+'\n'.join('def %s : Flavour := ⟨.%s, %d⟩'%k for k in kinds)+'\n'+'\n'.join('theorem charge_%s : Flavour.charge %s = %s := rfl\ntheorem isospin_%s : Flavour.isospin %s = %s := rfl'%(k[0],k[0],dict(up='2 / 3',down='-1 / 3',lepton='-1',neutrino='0')[k[1]],k[0],k[0],dict(up='1 / 2',down='-1 / 2',lepton='-1 / 2',neutrino='1 / 2')[k[1]]) for k in kinds)+'''
end Spec.Flavour

namespace SM
namespace Rows
'''+lean()+'''
end Rows

open Rows in
/-- classes for four fermions -/
def fourFermion : List Row := ['''+', '.join(r[0] for r in ROWS)+''']

end SM
end Spinas
'''
    open('/verif/lean/Verif/SM/FermionRows.lean','w').write(s)
