import Verif.SM.Lang

/-! Generated by tools/sm/translate.py from SM/*.cpp: uuZh, uucc, uudd, uuee, uuhh, uunn, uuss, uuuu, uuuu2. -/

namespace Spinas.SM.Cls

namespace uuZh

/-- constructor (SM/uuZh.cpp:32-62); parameters: 0 `echarge`, 1 `massu`, 2 `massh`, 3 `widthh`, 4 `massW`, 5 `sinW`, 6 `widthZ` -/
def ctor : List SInstr := [
  -- 32: e(echarge)
  .set .r 0 (.loc .r 0),
  -- 32: mu(massu)
  .set .r 1 (.loc .r 1),
  -- 32: mh(massh)
  .set .r 2 (.loc .r 2),
  -- 32: wh(widthh)
  .set .r 3 (.loc .r 3),
  -- 32: MW(massW)
  .set .r 4 (.loc .r 4),
  -- 32: SW(sinW)
  .set .r 5 (.loc .r 5),
  -- 32: CW(std::sqrt(1.0-sinW*sinW))
  .set .r 6 (.sqrt (.sub (.lit 1) (.mul (.loc .r 5) (.loc .r 5)))),
  -- 32: MZ(massW/CW)
  .set .r 7 (.div (.loc .r 4) (.mem .r 6)),
  -- 32: WZ(widthZ)
  .set .r 8 (.loc .r 6),
  -- 32: propu(massu,0)
  .prop 1 (.loc .r 1) (.lit 0),
  -- 35: sqrt2=std::sqrt(two)
  .set .r 9 (.sqrt (.lit 2)),
  -- 36: MZ=MW/CW
  .set .r 7 (.div (.mem .r 4) (.mem .r 6)),
  -- 37: propZ=propagator(MZ,WZ)
  .prop 0 (.mem .r 7) (.mem .r 8),
  -- 38: p1=particle(mu)
  .part 0 (.mem .r 1),
  -- 39: p2=particle(mu)
  .part 1 (.mem .r 1),
  -- 40: p3=particle(MZ)
  .part 2 (.mem .r 7),
  -- 41: p4=particle(mh)
  .part 3 (.mem .r 2),
  -- 43: s12s=sproduct(SQUARE,&p1,&p2)
  .sprod 0 ⟨false, 0, true, [], 1, true⟩,
  -- 44: a12a=sproduct(ANGLE,&p1,&p2)
  .sprod 1 ⟨true, 0, true, [], 1, true⟩,
  -- 45: s23s=sproduct(SQUARE,&p2,&p3)
  .sprod 2 ⟨false, 1, true, [], 2, true⟩,
  -- 46: a23a=sproduct(ANGLE,&p2,&p3)
  .sprod 3 ⟨true, 1, true, [], 2, true⟩,
  -- 47: s13s=sproduct(SQUARE,&p1,&p3)
  .sprod 4 ⟨false, 0, true, [], 2, true⟩,
  -- 48: a13a=sproduct(ANGLE,&p1,&p3)
  .sprod 5 ⟨true, 0, true, [], 2, true⟩,
  -- 50: s312a=sproduct(SQUARE,&p3,&p1,&p2)
  .sprod 6 ⟨false, 2, true, [0], 1, true⟩,
  -- 51: s213a=sproduct(SQUARE,&p2,&p1,&p3)
  .sprod 7 ⟨false, 1, true, [0], 2, true⟩,
  -- 52: s343a=sproduct(SQUARE,&p3,&p4,&p3)
  .sprod 8 ⟨false, 2, true, [3], 2, true⟩,
  -- 53: s143a=sproduct(SQUARE,&p1,&p4,&p3)
  .sprod 9 ⟨false, 0, true, [3], 2, true⟩,
  -- 54: s341a=sproduct(SQUARE,&p3,&p4,&p1)
  .sprod 10 ⟨false, 2, true, [3], 0, true⟩,
  -- 55: s243a=sproduct(SQUARE,&p2,&p4,&p3)
  .sprod 11 ⟨false, 1, true, [3], 2, true⟩,
  -- 56: s342a=sproduct(SQUARE,&p3,&p4,&p2)
  .sprod 12 ⟨false, 2, true, [3], 1, true⟩,
  -- 58: preTU=sqrt2*e*e*mu/(4.0*MW*MW*SW*SW)
  .set .r 10 (.div (.mul (.mul (.mul (.mem .r 9) (.mem .r 0)) (.mem .r 0)) (.mem .r 1)) (.mul (.mul (.mul (.mul (.lit 4) (.mem .r 4)) (.mem .r 4)) (.mem .r 5)) (.mem .r 5))),
  -- 59: gL=-4.0/3.0*SW*SW+1.0
  .set .r 12 (.add (.mul (.mul (.div (.neg (.lit 4)) (.lit 3)) (.mem .r 5)) (.mem .r 5)) (.lit 1)),
  -- 60: gR=-4.0/3.0*SW*SW
  .set .r 13 (.mul (.mul (.div (.neg (.lit 4)) (.lit 3)) (.mem .r 5)) (.mem .r 5)),
  -- 61: preZ=sqrt2*e*e/(4.0*MW*MW*SW*SW)
  .set .r 11 (.div (.mul (.mul (.mem .r 9) (.mem .r 0)) (.mem .r 0)) (.mul (.mul (.mul (.mul (.lit 4) (.mem .r 4)) (.mem .r 4)) (.mem .r 5)) (.mem .r 5)))]

/-- `set_masses` (SM/uuZh.cpp:63-77); parameters: 0 `massu`, 1 `massh`, 2 `massW` -/
def setMasses : List SInstr := [
  -- 64: mu=massu
  .set .r 1 (.loc .r 0),
  -- 65: mh=massh
  .set .r 2 (.loc .r 1),
  -- 66: MW=massW
  .set .r 4 (.loc .r 2),
  -- 67: MZ=MW/CW
  .set .r 7 (.div (.mem .r 4) (.mem .r 6)),
  -- 68: p1.set_mass(mu)
  .setMass 0 (.mem .r 1),
  -- 69: p2.set_mass(mu)
  .setMass 1 (.mem .r 1),
  -- 70: p3.set_mass(MZ)
  .setMass 2 (.mem .r 7),
  -- 71: p4.set_mass(mh)
  .setMass 3 (.mem .r 2),
  -- 72: propu.set_mass(mu)
  .propMass 1 (.mem .r 1),
  -- 73: propZ.set_mass(MZ)
  .propMass 0 (.mem .r 7),
  -- 75: preTU=sqrt2*e*e*mu/(4.0*MW*MW*SW*SW)
  .set .r 10 (.div (.mul (.mul (.mul (.mem .r 9) (.mem .r 0)) (.mem .r 0)) (.mem .r 1)) (.mul (.mul (.mul (.mul (.lit 4) (.mem .r 4)) (.mem .r 4)) (.mem .r 5)) (.mem .r 5))),
  -- 76: preZ=sqrt2*e*e/(4.0*MW*MW*SW*SW)
  .set .r 11 (.div (.mul (.mul (.mem .r 9) (.mem .r 0)) (.mem .r 0)) (.mul (.mul (.mul (.mul (.lit 4) (.mem .r 4)) (.mem .r 4)) (.mem .r 5)) (.mem .r 5)))]

/-- `set_momenta` (SM/uuZh.cpp:78-109); parameters: 0 `mom1`, 1 `mom2`, 2 `mom3`, 3 `mom4` -/
def setMomenta : List SInstr := [
  -- 80: p1.set_momentum(mom1)
  .setMom 0 0,
  -- 81: p2.set_momentum(mom2)
  .setMom 1 1,
  -- 82: p3.set_momentum(mom3)
  .setMom 2 2,
  -- 83: p4.set_momentum(mom4)
  .setMom 3 3,
  -- 85: s12s.update()
  .update 0,
  -- 86: a12a.update()
  .update 1,
  -- 87: s23s.update()
  .update 2,
  -- 88: a23a.update()
  .update 3,
  -- 89: s13s.update()
  .update 4,
  -- 90: a13a.update()
  .update 5,
  -- 92: s312a.update()
  .update 6,
  -- 93: s213a.update()
  .update 7,
  -- 94: s343a.update()
  .update 8,
  -- 95: s143a.update()
  .update 9,
  -- 96: s341a.update()
  .update 10,
  -- 97: s243a.update()
  .update 11,
  -- 98: s342a.update()
  .update 12,
  -- 106: pDenS=propZ.denominator(propSP)
  .den .c 0 0 (.add 0 1),
  -- 107: pDenT=propu.denominator(propTP)
  .den .c 1 1 (.sub 0 2),
  -- 108: pDenU=propu.denominator(propUP)
  .den .c 2 1 (.sub 0 3)]

/-- `cdouble amp(ds1,ds2,ds3)` (SM/uuZh.cpp:114-158); variables: i 0 `ds1`, i 1 `ds2`, i 2 `ds3`, c 0 `amplitude`, i 3 `ds3a`, i 4 `ds3b`, i 5 `nCombs`, r 0 `normFactor`, i 6 `i` -/
def m_amp : Method := ⟨3, 
  -- 115: cdouble amplitude
  .seq (.set .c 0 (.ofR (.lit 0))) <|
  -- 119: int nCombs
  .seq (.seti 5 (.loops [2])) <|
  -- 120: ldouble normFactor
  .seq (.set .r 0 (.norm [2])) <|
  -- 121: for(int i=0;i<nCombs;i++)
  .seq (.loop 6 0 false (.var 5) 1 (
    -- 122: get_spinor_spins(ds3,ds3a,ds3b,i)
    .seq (.spins [(2, 3, 4)] (.var 6)) <|
    -- 132: amplitude+=normFactor*preZ*(mu*(gL-gR)*(a12a.v(ds1,ds2)-s12s.v(ds1,ds2))*s343a.v(ds3a,ds3b)-2.0*MZ*MZ*(gL*s23s.v(ds2,ds3a)*a13a.v(ds1,ds3b)+gR*a23a.v(ds2,ds3a)*s13s.v(ds1,ds3b)))/pDenS
    .seq (.set .c 0 (.add (.loc .c 0) (.div (.smul (.mul (.loc .r 0) (.mem .r 11)) (.sub (.mul (.smul (.mul (.mem .r 1) (.sub (.mem .r 12) (.mem .r 13))) (.sub (.v 1 [.var 0, .var 1]) (.v 0 [.var 0, .var 1]))) (.v 8 [.var 3, .var 4])) (.smul (.mul (.mul (.lit 2) (.mem .r 7)) (.mem .r 7)) (.add (.mul (.smul (.mem .r 12) (.v 2 [.var 1, .var 3])) (.v 5 [.var 0, .var 4])) (.mul (.smul (.mem .r 13) (.v 3 [.var 1, .var 3])) (.v 4 [.var 0, .var 4])))))) (.mem .c 0)))) <|
    -- 140: amplitude+=normFactor*preTU*(gR*s13s.v(ds1,ds3a)*(-2.0*mu*a23a.v(ds2,ds3b)+s243a.v(ds2,ds3b))+gL*a13a.v(ds1,ds3a)*(-2.0*mu*s23s.v(ds2,ds3b)+s342a.v(ds3b,ds2)))/pDenT
    .seq (.set .c 0 (.add (.loc .c 0) (.div (.smul (.mul (.loc .r 0) (.mem .r 10)) (.add (.mul (.smul (.mem .r 13) (.v 4 [.var 0, .var 3])) (.add (.smul (.mul (.neg (.lit 2)) (.mem .r 1)) (.v 3 [.var 1, .var 4])) (.v 11 [.var 1, .var 4]))) (.mul (.smul (.mem .r 12) (.v 5 [.var 0, .var 3])) (.add (.smul (.mul (.neg (.lit 2)) (.mem .r 1)) (.v 2 [.var 1, .var 4])) (.v 12 [.var 4, .var 1]))))) (.mem .c 1)))) <|
    -- 151: amplitude+=normFactor*preTU*(gL*s23s.v(ds2,ds3a)*(s143a.v(ds1,ds3b)-2.0*mu*a13a.v(ds1,ds3b))+gR*a23a.v(ds2,ds3a)*(s341a.v(ds3b,ds1)-2.0*mu*s13s.v(ds1,ds3b)))/pDenU
    .set .c 0 (.add (.loc .c 0) (.div (.smul (.mul (.loc .r 0) (.mem .r 10)) (.add (.mul (.smul (.mem .r 12) (.v 2 [.var 1, .var 3])) (.sub (.v 9 [.var 0, .var 4]) (.smul (.mul (.lit 2) (.mem .r 1)) (.v 5 [.var 0, .var 4])))) (.mul (.smul (.mem .r 13) (.v 3 [.var 1, .var 3])) (.sub (.v 10 [.var 4, .var 0]) (.smul (.mul (.lit 2) (.mem .r 1)) (.v 4 [.var 0, .var 4])))))) (.mem .c 2))))) <|
  -- 157: return amplitude
  .ret .c (.loc .c 0)⟩

/-- `ldouble amp2()` (SM/uuZh.cpp:161-175); variables: r 0 `amp2`, c 0 `M`, i 0 `j1`, i 1 `j2`, i 2 `j3` -/
def m_amp2 : Method := ⟨0, 
  -- 162: ldouble amp2
  .seq (.set .r 0 (.lit 0)) <|
  -- 163: cdouble M
  .seq (.set .c 0 (.ofR (.lit 0))) <|
  -- 166: for(int j1=-1;j1<=1;j1+=2)
  .seq (.loop 0 (-1) true (.lit 1) 2 (
    -- 167: for(int j2=-1;j2<=1;j2+=2)
    .loop 1 (-1) true (.lit 1) 2 (
      -- 168: for(int j3=-2;j3<=2;j3+=2)
      .loop 2 (-2) true (.lit 2) 2 (
        -- 169: M=amp(j1,j2,j3)
        .seq (.set .c 0 (.call 0 [.var 0, .var 1, .var 2])) <|
        -- 170: amp2+=3.0*std::pow(std::abs(M),2)
        .set .r 0 (.add (.loc .r 0) (.mul (.lit 3) (.pow (.abs (.loc .c 0)) 2))))))) <|
  -- 174: return amp2/36.0
  .ret .r (.div (.loc .r 0) (.lit 36))⟩

end uuZh

/-- `class uuZh` (SM/uuZh.cpp, SM/include/uuZh.h:25-36).  Members:
* ldouble: 0 `e`, 1 `mu`, 2 `mh`, 3 `wh`, 4 `MW`, 5 `SW`, 6 `CW`, 7 `MZ`, 8 `WZ`, 9 `sqrt2`, 10 `preTU`, 11 `preZ`, 12 `gL`, 13 `gR`
* cdouble: 0 `pDenS`, 1 `pDenT`, 2 `pDenU`
* propagator: 0 `propZ`, 1 `propu`
* sproduct: 0 `s12s`, 1 `a12a`, 2 `s23s`, 3 `a23a`, 4 `s13s`, 5 `a13a`, 6 `s312a`, 7 `s213a`, 8 `s343a`, 9 `s143a`, 10 `s341a`, 11 `s243a`, 12 `s342a` -/
def uuZh : Proc where
  name := "uuZh"
  nPar := 7
  ctor := uuZh.ctor
  setMasses := uuZh.setMasses
  massPar := [1, 2, 4]
  setMomenta := uuZh.setMomenta
  methods := [uuZh.m_amp2, uuZh.m_amp]
  amp2 := 1
  others := []

namespace uucc

/-- constructor (SM/uucc.cpp:32-58); parameters: 0 `echarge`, 1 `gscharge`, 2 `massu`, 3 `massc`, 4 `massh`, 5 `widthh`, 6 `massW`, 7 `sinW`, 8 `widthZ` -/
def ctor : List SInstr := [
  -- 32: e(echarge)
  .set .r 0 (.loc .r 0),
  -- 32: gs(gscharge)
  .set .r 1 (.loc .r 1),
  -- 32: mu(massu)
  .set .r 2 (.loc .r 2),
  -- 32: mc(massc)
  .set .r 3 (.loc .r 3),
  -- 32: mh(massh)
  .set .r 4 (.loc .r 4),
  -- 32: wh(widthh)
  .set .r 5 (.loc .r 5),
  -- 32: WZ(widthZ)
  .set .r 7 (.loc .r 8),
  -- 32: MW(massW)
  .set .r 8 (.loc .r 6),
  -- 32: SW(sinW)
  .set .r 9 (.loc .r 7),
  -- 32: CW(std::sqrt(1.0-sinW*sinW))
  .set .r 10 (.sqrt (.sub (.lit 1) (.mul (.loc .r 7) (.loc .r 7)))),
  -- 32: p1(particle(mu))
  .part 0 (.mem .r 2),
  -- 32: p2(particle(mu))
  .part 1 (.mem .r 2),
  -- 32: p3(particle(mc))
  .part 2 (.mem .r 3),
  -- 32: p4(particle(mc))
  .part 3 (.mem .r 3),
  -- 32: propAG(0,0)
  .prop 0 (.lit 0) (.lit 0),
  -- 32: proph(mh,wh)
  .prop 1 (.mem .r 4) (.mem .r 5),
  -- 32: a13a(sproduct(ANGLE,&p1,&p3))
  .sprod 0 ⟨true, 0, true, [], 2, true⟩,
  -- 32: s13s(sproduct(SQUARE,&p1,&p3))
  .sprod 1 ⟨false, 0, true, [], 2, true⟩,
  -- 32: a14a(sproduct(ANGLE,&p1,&p4))
  .sprod 2 ⟨true, 0, true, [], 3, true⟩,
  -- 32: s14s(sproduct(SQUARE,&p1,&p4))
  .sprod 3 ⟨false, 0, true, [], 3, true⟩,
  -- 32: a23a(sproduct(ANGLE,&p2,&p3))
  .sprod 4 ⟨true, 1, true, [], 2, true⟩,
  -- 32: s23s(sproduct(SQUARE,&p2,&p3))
  .sprod 5 ⟨false, 1, true, [], 2, true⟩,
  -- 32: a24a(sproduct(ANGLE,&p2,&p4))
  .sprod 6 ⟨true, 1, true, [], 3, true⟩,
  -- 32: s24s(sproduct(SQUARE,&p2,&p4))
  .sprod 7 ⟨false, 1, true, [], 3, true⟩,
  -- 32: s12s(sproduct(SQUARE,&p1,&p2))
  .sprod 8 ⟨false, 0, true, [], 1, true⟩,
  -- 32: a12a(sproduct(ANGLE,&p1,&p2))
  .sprod 9 ⟨true, 0, true, [], 1, true⟩,
  -- 32: s34s(sproduct(SQUARE,&p3,&p4))
  .sprod 10 ⟨false, 2, true, [], 3, true⟩,
  -- 32: a34a(sproduct(ANGLE,&p3,&p4))
  .sprod 11 ⟨true, 2, true, [], 3, true⟩,
  -- 51: MZ=MW/CW
  .set .r 6 (.div (.mem .r 8) (.mem .r 10)),
  -- 52: propZ.set_mass(MZ)
  .propMass 2 (.mem .r 6),
  -- 53: preh=e*e*mu*mc/(4.0*MW*MW*SW*SW)
  .set .r 11 (.div (.mul (.mul (.mul (.mem .r 0) (.mem .r 0)) (.mem .r 2)) (.mem .r 3)) (.mul (.mul (.mul (.mul (.lit 4) (.mem .r 8)) (.mem .r 8)) (.mem .r 9)) (.mem .r 9))),
  -- 54: gL=1.0-4.0/3.0*SW*SW
  .set .r 12 (.sub (.lit 1) (.mul (.mul (.div (.lit 4) (.lit 3)) (.mem .r 9)) (.mem .r 9))),
  -- 55: gR=-4.0/3.0*SW*SW
  .set .r 13 (.mul (.mul (.div (.neg (.lit 4)) (.lit 3)) (.mem .r 9)) (.mem .r 9)),
  -- 56: preZ=e*e/(4.0*CW*CW*SW*SW)
  .set .r 14 (.div (.mul (.mem .r 0) (.mem .r 0)) (.mul (.mul (.mul (.mul (.lit 4) (.mem .r 10)) (.mem .r 10)) (.mem .r 9)) (.mem .r 9))),
  -- 57: preZ0=preZ*(gL-gR)*(gL-gR)*mu*mc/MZ/MZ
  .set .r 15 (.div (.div (.mul (.mul (.mul (.mul (.mem .r 14) (.sub (.mem .r 12) (.mem .r 13))) (.sub (.mem .r 12) (.mem .r 13))) (.mem .r 2)) (.mem .r 3)) (.mem .r 6)) (.mem .r 6))]

/-- `set_masses` (SM/uucc.cpp:59-73); parameters: 0 `massu`, 1 `massc`, 2 `massh`, 3 `massW` -/
def setMasses : List SInstr := [
  -- 60: mu=massu
  .set .r 2 (.loc .r 0),
  -- 61: mc=massc
  .set .r 3 (.loc .r 1),
  -- 62: mh=massh
  .set .r 4 (.loc .r 2),
  -- 63: proph.set_mass(mh)
  .propMass 1 (.mem .r 4),
  -- 64: MW=massW
  .set .r 8 (.loc .r 3),
  -- 65: MZ=MW/CW
  .set .r 6 (.div (.mem .r 8) (.mem .r 10)),
  -- 66: propZ.set_mass(MZ)
  .propMass 2 (.mem .r 6),
  -- 67: p1.set_mass(mu)
  .setMass 0 (.mem .r 2),
  -- 68: p2.set_mass(mu)
  .setMass 1 (.mem .r 2),
  -- 69: p3.set_mass(mc)
  .setMass 2 (.mem .r 3),
  -- 70: p4.set_mass(mc)
  .setMass 3 (.mem .r 3),
  -- 71: preh=e*e*mu*mc/(4*MW*MW*SW*SW)
  .set .r 11 (.div (.mul (.mul (.mul (.mem .r 0) (.mem .r 0)) (.mem .r 2)) (.mem .r 3)) (.mul (.mul (.mul (.mul (.lit 4) (.mem .r 8)) (.mem .r 8)) (.mem .r 9)) (.mem .r 9))),
  -- 72: preZ0=preZ*(gL-gR)*(gL-gR)*mu*mc/MZ/MZ
  .set .r 15 (.div (.div (.mul (.mul (.mul (.mul (.mem .r 14) (.sub (.mem .r 12) (.mem .r 13))) (.sub (.mem .r 12) (.mem .r 13))) (.mem .r 2)) (.mem .r 3)) (.mem .r 6)) (.mem .r 6))]

/-- `set_momenta` (SM/uucc.cpp:74-99); parameters: 0 `mom1`, 1 `mom2`, 2 `mom3`, 3 `mom4` -/
def setMomenta : List SInstr := [
  -- 76: p1.set_momentum(mom1)
  .setMom 0 0,
  -- 77: p2.set_momentum(mom2)
  .setMom 1 1,
  -- 78: p3.set_momentum(mom3)
  .setMom 2 2,
  -- 79: p4.set_momentum(mom4)
  .setMom 3 3,
  -- 80: a13a.update()
  .update 0,
  -- 81: s13s.update()
  .update 1,
  -- 82: a14a.update()
  .update 2,
  -- 83: s14s.update()
  .update 3,
  -- 84: a23a.update()
  .update 4,
  -- 85: s23s.update()
  .update 5,
  -- 86: a24a.update()
  .update 6,
  -- 87: s24s.update()
  .update 7,
  -- 88: s12s.update()
  .update 8,
  -- 89: a12a.update()
  .update 9,
  -- 90: s34s.update()
  .update 10,
  -- 91: a34a.update()
  .update 11,
  -- 96: pDenSAG=propAG.denominator(propP)
  .den .c 0 0 (.add 0 1),
  -- 97: pDenSh=proph.denominator(propP)
  .den .c 1 1 (.add 0 1),
  -- 98: pDenSZ=propZ.denominator(propP)
  .den .c 2 2 (.add 0 1)]

/-- `cdouble amp_gluon(ds1,ds2,ds3,ds4)` (SM/uucc.cpp:107-120); variables: i 0 `ds1`, i 1 `ds2`, i 2 `ds3`, i 3 `ds4`, c 0 `amplitude` -/
def m_amp_gluon : Method := ⟨4, 
  -- 109: cdouble amplitude
  .seq (.set .c 0 (.ofR (.lit 0))) <|
  -- 114: amplitude=two*gs*gs*(a13a.v(ds1,ds3)*s24s.v(ds2,ds4)+a14a.v(ds1,ds4)*s23s.v(ds2,ds3)+s13s.v(ds1,ds3)*a24a.v(ds2,ds4)+s14s.v(ds1,ds4)*a23a.v(ds2,ds3))/pDenSAG
  .seq (.set .c 0 (.div (.smul (.mul (.mul (.lit 2) (.mem .r 1)) (.mem .r 1)) (.add (.add (.add (.mul (.v 0 [.var 0, .var 2]) (.v 7 [.var 1, .var 3])) (.mul (.v 2 [.var 0, .var 3]) (.v 5 [.var 1, .var 2]))) (.mul (.v 1 [.var 0, .var 2]) (.v 6 [.var 1, .var 3]))) (.mul (.v 3 [.var 0, .var 3]) (.v 4 [.var 1, .var 2])))) (.mem .c 0))) <|
  -- 119: return amplitude
  .ret .c (.loc .c 0)⟩

/-- `cdouble amp_rest(ds1,ds2,ds3,ds4)` (SM/uucc.cpp:121-161); variables: i 0 `ds1`, i 1 `ds2`, i 2 `ds3`, i 3 `ds4`, c 0 `amplitude` -/
def m_amp_rest : Method := ⟨4, 
  -- 123: cdouble amplitude
  .seq (.set .c 0 (.ofR (.lit 0))) <|
  -- 128: amplitude=two*e*e*4.0/9.0*(a13a.v(ds1,ds3)*s24s.v(ds2,ds4)+a14a.v(ds1,ds4)*s23s.v(ds2,ds3)+s13s.v(ds1,ds3)*a24a.v(ds2,ds4)+s14s.v(ds1,ds4)*a23a.v(ds2,ds3))/pDenSAG
  .seq (.set .c 0 (.div (.smul (.div (.mul (.mul (.mul (.lit 2) (.mem .r 0)) (.mem .r 0)) (.lit 4)) (.lit 9)) (.add (.add (.add (.mul (.v 0 [.var 0, .var 2]) (.v 7 [.var 1, .var 3])) (.mul (.v 2 [.var 0, .var 3]) (.v 5 [.var 1, .var 2]))) (.mul (.v 1 [.var 0, .var 2]) (.v 6 [.var 1, .var 3]))) (.mul (.v 3 [.var 0, .var 3]) (.v 4 [.var 1, .var 2])))) (.mem .c 0))) <|
  -- 136: amplitude+=preh*(s12s.v(ds1,ds2)+a12a.v(ds1,ds2))*(s34s.v(ds3,ds4)+a34a.v(ds3,ds4))/pDenSh
  .seq (.set .c 0 (.add (.loc .c 0) (.div (.mul (.smul (.mem .r 11) (.add (.v 8 [.var 0, .var 1]) (.v 9 [.var 0, .var 1]))) (.add (.v 10 [.var 2, .var 3]) (.v 11 [.var 2, .var 3]))) (.mem .c 1)))) <|
  -- 152: amplitude+=-preZ0*(a12a.v(ds1,ds2)-s12s.v(ds1,ds2))*(a34a.v(ds3,ds4)-s34s.v(ds3,ds4))/pDenSZ+two*preZ*(gL*gL*s23s.v(ds2,ds3)*a14a.v(ds1,ds4)+gL*gR*(s13s.v(ds1,ds3)*a24a.v(ds2,ds4)+s24s.v(ds2,ds4)*a13a.v(ds1,ds3))+gR*gR*s14s.v(ds1,ds4)*a23a.v(ds2,ds3))/pDenSZ
  .seq (.set .c 0 (.add (.loc .c 0) (.add (.div (.mul (.smul (.neg (.mem .r 15)) (.sub (.v 9 [.var 0, .var 1]) (.v 8 [.var 0, .var 1]))) (.sub (.v 11 [.var 2, .var 3]) (.v 10 [.var 2, .var 3]))) (.mem .c 2)) (.div (.smul (.mul (.lit 2) (.mem .r 14)) (.add (.add (.mul (.smul (.mul (.mem .r 12) (.mem .r 12)) (.v 5 [.var 1, .var 2])) (.v 2 [.var 0, .var 3])) (.smul (.mul (.mem .r 12) (.mem .r 13)) (.add (.mul (.v 1 [.var 0, .var 2]) (.v 6 [.var 1, .var 3])) (.mul (.v 7 [.var 1, .var 3]) (.v 0 [.var 0, .var 2]))))) (.mul (.smul (.mul (.mem .r 13) (.mem .r 13)) (.v 3 [.var 0, .var 3])) (.v 4 [.var 1, .var 2])))) (.mem .c 2))))) <|
  -- 160: return amplitude
  .ret .c (.loc .c 0)⟩

/-- `ldouble amp2()` (SM/uucc.cpp:164-183); variables: r 0 `amp2`, c 0 `M_rest`, c 1 `M_gluon`, i 0 `j1`, i 1 `j2`, i 2 `j3`, i 3 `j4` -/
def m_amp2 : Method := ⟨0, 
  -- 165: ldouble amp2
  .seq (.set .r 0 (.lit 0)) <|
  -- 167: cdouble M_rest
  .seq (.set .c 0 (.ofR (.lit 0))) <|
  -- 167: cdouble M_gluon
  .seq (.set .c 1 (.ofR (.lit 0))) <|
  -- 170: for(int j1=-1;j1<=1;j1+=2)
  .seq (.loop 0 (-1) true (.lit 1) 2 (
    -- 171: for(int j2=-1;j2<=1;j2+=2)
    .loop 1 (-1) true (.lit 1) 2 (
      -- 172: for(int j3=-1;j3<=1;j3+=2)
      .loop 2 (-1) true (.lit 1) 2 (
        -- 173: for(int j4=-1;j4<=1;j4+=2)
        .loop 3 (-1) true (.lit 1) 2 (
          -- 174: M_rest=amp_rest(j1,j2,j3,j4)
          .seq (.set .c 0 (.call 1 [.var 0, .var 1, .var 2, .var 3])) <|
          -- 175: M_gluon=amp_gluon(j1,j2,j3,j4)
          .seq (.set .c 1 (.call 0 [.var 0, .var 1, .var 2, .var 3])) <|
          -- 176: amp2+=nine*std::pow(std::abs(M_rest),2)
          .seq (.set .r 0 (.add (.loc .r 0) (.mul (.lit 9) (.pow (.abs (.loc .c 0)) 2)))) <|
          -- 178: amp2+=two*std::pow(std::abs(M_gluon),2)
          .set .r 0 (.add (.loc .r 0) (.mul (.lit 2) (.pow (.abs (.loc .c 1)) 2)))))))) <|
  -- 182: return amp2/36.0
  .ret .r (.div (.loc .r 0) (.lit 36))⟩

end uucc

/-- `class uucc` (SM/uucc.cpp, SM/include/uucc.h:25-33).  Members:
* ldouble: 0 `e`, 1 `gs`, 2 `mu`, 3 `mc`, 4 `mh`, 5 `wh`, 6 `MZ`, 7 `WZ`, 8 `MW`, 9 `SW`, 10 `CW`, 11 `preh`, 12 `gL`, 13 `gR`, 14 `preZ`, 15 `preZ0`
* cdouble: 0 `pDenSAG`, 1 `pDenSh`, 2 `pDenSZ`
* propagator: 0 `propAG`, 1 `proph`, 2 `propZ`
* sproduct: 0 `a13a`, 1 `s13s`, 2 `a14a`, 3 `s14s`, 4 `a23a`, 5 `s23s`, 6 `a24a`, 7 `s24s`, 8 `s12s`, 9 `a12a`, 10 `s34s`, 11 `a34a` -/
def uucc : Proc where
  name := "uucc"
  nPar := 9
  ctor := uucc.ctor
  setMasses := uucc.setMasses
  massPar := [2, 3, 4, 6]
  setMomenta := uucc.setMomenta
  methods := [uucc.m_amp2, uucc.m_amp_rest, uucc.m_amp_gluon]
  amp2 := 2
  others := []

namespace uudd

/-- constructor (SM/uudd.cpp:32-60); parameters: 0 `echarge`, 1 `gscharge`, 2 `massu`, 3 `massd`, 4 `massh`, 5 `widthh`, 6 `massW`, 7 `widthW`, 8 `sinW`, 9 `widthZ` -/
def ctor : List SInstr := [
  -- 32: e(echarge)
  .set .r 0 (.loc .r 0),
  -- 32: gs(gscharge)
  .set .r 1 (.loc .r 1),
  -- 32: mu(massu)
  .set .r 2 (.loc .r 2),
  -- 32: md(massd)
  .set .r 3 (.loc .r 3),
  -- 32: mh(massh)
  .set .r 4 (.loc .r 4),
  -- 32: wh(widthh)
  .set .r 5 (.loc .r 5),
  -- 32: WZ(widthZ)
  .set .r 7 (.loc .r 9),
  -- 32: MW(massW)
  .set .r 8 (.loc .r 6),
  -- 32: WW(widthW)
  .set .r 9 (.loc .r 7),
  -- 32: SW(sinW)
  .set .r 10 (.loc .r 8),
  -- 32: CW(std::sqrt(1.0-sinW*sinW))
  .set .r 11 (.sqrt (.sub (.lit 1) (.mul (.loc .r 8) (.loc .r 8)))),
  -- 32: p1(particle(mu))
  .part 0 (.mem .r 2),
  -- 32: p2(particle(mu))
  .part 1 (.mem .r 2),
  -- 32: p3(particle(md))
  .part 2 (.mem .r 3),
  -- 32: p4(particle(md))
  .part 3 (.mem .r 3),
  -- 32: propAG(0,0)
  .prop 0 (.lit 0) (.lit 0),
  -- 32: proph(mh,wh)
  .prop 1 (.mem .r 4) (.mem .r 5),
  -- 32: propW(MW,WW)
  .prop 3 (.mem .r 8) (.mem .r 9),
  -- 32: a13a(sproduct(ANGLE,&p1,&p3))
  .sprod 0 ⟨true, 0, true, [], 2, true⟩,
  -- 32: s13s(sproduct(SQUARE,&p1,&p3))
  .sprod 1 ⟨false, 0, true, [], 2, true⟩,
  -- 32: a14a(sproduct(ANGLE,&p1,&p4))
  .sprod 2 ⟨true, 0, true, [], 3, true⟩,
  -- 32: s14s(sproduct(SQUARE,&p1,&p4))
  .sprod 3 ⟨false, 0, true, [], 3, true⟩,
  -- 32: a23a(sproduct(ANGLE,&p2,&p3))
  .sprod 4 ⟨true, 1, true, [], 2, true⟩,
  -- 32: s23s(sproduct(SQUARE,&p2,&p3))
  .sprod 5 ⟨false, 1, true, [], 2, true⟩,
  -- 32: a24a(sproduct(ANGLE,&p2,&p4))
  .sprod 6 ⟨true, 1, true, [], 3, true⟩,
  -- 32: s24s(sproduct(SQUARE,&p2,&p4))
  .sprod 7 ⟨false, 1, true, [], 3, true⟩,
  -- 32: s12s(sproduct(SQUARE,&p1,&p2))
  .sprod 8 ⟨false, 0, true, [], 1, true⟩,
  -- 32: a12a(sproduct(ANGLE,&p1,&p2))
  .sprod 9 ⟨true, 0, true, [], 1, true⟩,
  -- 32: s34s(sproduct(SQUARE,&p3,&p4))
  .sprod 10 ⟨false, 2, true, [], 3, true⟩,
  -- 32: a34a(sproduct(ANGLE,&p3,&p4))
  .sprod 11 ⟨true, 2, true, [], 3, true⟩,
  -- 51: MZ=MW/CW
  .set .r 6 (.div (.mem .r 8) (.mem .r 11)),
  -- 52: propZ.set_mass(MZ)
  .propMass 2 (.mem .r 6),
  -- 53: preh=e*e*mu*md/(4.0*MW*MW*SW*SW)
  .set .r 12 (.div (.mul (.mul (.mul (.mem .r 0) (.mem .r 0)) (.mem .r 2)) (.mem .r 3)) (.mul (.mul (.mul (.mul (.lit 4) (.mem .r 8)) (.mem .r 8)) (.mem .r 10)) (.mem .r 10))),
  -- 54: gLu=1.0-4.0/3.0*SW*SW
  .set .r 13 (.sub (.lit 1) (.mul (.mul (.div (.lit 4) (.lit 3)) (.mem .r 10)) (.mem .r 10))),
  -- 55: gRu=-4.0/3.0*SW*SW
  .set .r 14 (.mul (.mul (.div (.neg (.lit 4)) (.lit 3)) (.mem .r 10)) (.mem .r 10)),
  -- 56: gLd=-1.0+2.0/3.0*SW*SW
  .set .r 15 (.add (.neg (.lit 1)) (.mul (.mul (.div (.lit 2) (.lit 3)) (.mem .r 10)) (.mem .r 10))),
  -- 57: gRd=2.0/3.0*SW*SW
  .set .r 16 (.mul (.mul (.div (.lit 2) (.lit 3)) (.mem .r 10)) (.mem .r 10)),
  -- 58: preZ=e*e/(4.0*CW*CW*SW*SW)
  .set .r 17 (.div (.mul (.mem .r 0) (.mem .r 0)) (.mul (.mul (.mul (.mul (.lit 4) (.mem .r 11)) (.mem .r 11)) (.mem .r 10)) (.mem .r 10))),
  -- 59: preZ0=preZ*(gLu-gRu)*(gLd-gRd)*mu*md/MZ/MZ
  .set .r 18 (.div (.div (.mul (.mul (.mul (.mul (.mem .r 17) (.sub (.mem .r 13) (.mem .r 14))) (.sub (.mem .r 15) (.mem .r 16))) (.mem .r 2)) (.mem .r 3)) (.mem .r 6)) (.mem .r 6))]

/-- `set_masses` (SM/uudd.cpp:61-76); parameters: 0 `massu`, 1 `massd`, 2 `massh`, 3 `massW` -/
def setMasses : List SInstr := [
  -- 62: mu=massu
  .set .r 2 (.loc .r 0),
  -- 63: md=massd
  .set .r 3 (.loc .r 1),
  -- 64: mh=massh
  .set .r 4 (.loc .r 2),
  -- 65: proph.set_mass(mh)
  .propMass 1 (.mem .r 4),
  -- 66: MW=massW
  .set .r 8 (.loc .r 3),
  -- 67: propW.set_mass(MW)
  .propMass 3 (.mem .r 8),
  -- 68: MZ=MW/CW
  .set .r 6 (.div (.mem .r 8) (.mem .r 11)),
  -- 69: propZ.set_mass(MZ)
  .propMass 2 (.mem .r 6),
  -- 70: p1.set_mass(mu)
  .setMass 0 (.mem .r 2),
  -- 71: p2.set_mass(mu)
  .setMass 1 (.mem .r 2),
  -- 72: p3.set_mass(md)
  .setMass 2 (.mem .r 3),
  -- 73: p4.set_mass(md)
  .setMass 3 (.mem .r 3),
  -- 74: preh=e*e*mu*md/(4*MW*MW*SW*SW)
  .set .r 12 (.div (.mul (.mul (.mul (.mem .r 0) (.mem .r 0)) (.mem .r 2)) (.mem .r 3)) (.mul (.mul (.mul (.mul (.lit 4) (.mem .r 8)) (.mem .r 8)) (.mem .r 10)) (.mem .r 10))),
  -- 75: preZ0=preZ*(gLu-gRu)*(gLd-gRd)*mu*md/MZ/MZ
  .set .r 18 (.div (.div (.mul (.mul (.mul (.mul (.mem .r 17) (.sub (.mem .r 13) (.mem .r 14))) (.sub (.mem .r 15) (.mem .r 16))) (.mem .r 2)) (.mem .r 3)) (.mem .r 6)) (.mem .r 6))]

/-- `set_momenta` (SM/uudd.cpp:77-105); parameters: 0 `mom1`, 1 `mom2`, 2 `mom3`, 3 `mom4` -/
def setMomenta : List SInstr := [
  -- 79: p1.set_momentum(mom1)
  .setMom 0 0,
  -- 80: p2.set_momentum(mom2)
  .setMom 1 1,
  -- 81: p3.set_momentum(mom3)
  .setMom 2 2,
  -- 82: p4.set_momentum(mom4)
  .setMom 3 3,
  -- 83: a13a.update()
  .update 0,
  -- 84: s13s.update()
  .update 1,
  -- 85: a14a.update()
  .update 2,
  -- 86: s14s.update()
  .update 3,
  -- 87: a23a.update()
  .update 4,
  -- 88: s23s.update()
  .update 5,
  -- 89: a24a.update()
  .update 6,
  -- 90: s24s.update()
  .update 7,
  -- 91: s12s.update()
  .update 8,
  -- 92: a12a.update()
  .update 9,
  -- 93: s34s.update()
  .update 10,
  -- 94: a34a.update()
  .update 11,
  -- 101: pDenSAG=propAG.denominator(propPS)
  .den .c 0 0 (.add 0 1),
  -- 102: pDenSh=proph.denominator(propPS)
  .den .c 1 1 (.add 0 1),
  -- 103: pDenSZ=propZ.denominator(propPS)
  .den .c 2 2 (.add 0 1),
  -- 104: pDenTW=propW.denominator(propPT)
  .den .c 3 3 (.sub 0 2)]

/-- `cdouble amp_gluon(ds1,ds2,ds3,ds4)` (SM/uudd.cpp:113-126); variables: i 0 `ds1`, i 1 `ds2`, i 2 `ds3`, i 3 `ds4`, c 0 `amplitude` -/
def m_amp_gluon : Method := ⟨4, 
  -- 115: cdouble amplitude
  .seq (.set .c 0 (.ofR (.lit 0))) <|
  -- 120: amplitude=two*gs*gs*(a13a.v(ds1,ds3)*s24s.v(ds2,ds4)+a14a.v(ds1,ds4)*s23s.v(ds2,ds3)+s13s.v(ds1,ds3)*a24a.v(ds2,ds4)+s14s.v(ds1,ds4)*a23a.v(ds2,ds3))/pDenSAG
  .seq (.set .c 0 (.div (.smul (.mul (.mul (.lit 2) (.mem .r 1)) (.mem .r 1)) (.add (.add (.add (.mul (.v 0 [.var 0, .var 2]) (.v 7 [.var 1, .var 3])) (.mul (.v 2 [.var 0, .var 3]) (.v 5 [.var 1, .var 2]))) (.mul (.v 1 [.var 0, .var 2]) (.v 6 [.var 1, .var 3]))) (.mul (.v 3 [.var 0, .var 3]) (.v 4 [.var 1, .var 2])))) (.mem .c 0))) <|
  -- 125: return amplitude
  .ret .c (.loc .c 0)⟩

/-- `cdouble amp_rest(ds1,ds2,ds3,ds4)` (SM/uudd.cpp:127-171); variables: i 0 `ds1`, i 1 `ds2`, i 2 `ds3`, i 3 `ds4`, c 0 `amplitude` -/
def m_amp_rest : Method := ⟨4, 
  -- 129: cdouble amplitude
  .seq (.set .c 0 (.ofR (.lit 0))) <|
  -- 134: amplitude=-two*e*e*2.0/9.0*(a13a.v(ds1,ds3)*s24s.v(ds2,ds4)+a14a.v(ds1,ds4)*s23s.v(ds2,ds3)+s13s.v(ds1,ds3)*a24a.v(ds2,ds4)+s14s.v(ds1,ds4)*a23a.v(ds2,ds3))/pDenSAG
  .seq (.set .c 0 (.div (.smul (.div (.mul (.mul (.mul (.neg (.lit 2)) (.mem .r 0)) (.mem .r 0)) (.lit 2)) (.lit 9)) (.add (.add (.add (.mul (.v 0 [.var 0, .var 2]) (.v 7 [.var 1, .var 3])) (.mul (.v 2 [.var 0, .var 3]) (.v 5 [.var 1, .var 2]))) (.mul (.v 1 [.var 0, .var 2]) (.v 6 [.var 1, .var 3]))) (.mul (.v 3 [.var 0, .var 3]) (.v 4 [.var 1, .var 2])))) (.mem .c 0))) <|
  -- 142: amplitude+=preh*(s12s.v(ds1,ds2)+a12a.v(ds1,ds2))*(s34s.v(ds3,ds4)+a34a.v(ds3,ds4))/pDenSh
  .seq (.set .c 0 (.add (.loc .c 0) (.div (.mul (.smul (.mem .r 12) (.add (.v 8 [.var 0, .var 1]) (.v 9 [.var 0, .var 1]))) (.add (.v 10 [.var 2, .var 3]) (.v 11 [.var 2, .var 3]))) (.mem .c 1)))) <|
  -- 161: amplitude+=-preZ0*(a12a.v(ds1,ds2)-s12s.v(ds1,ds2))*(a34a.v(ds3,ds4)-s34s.v(ds3,ds4))/pDenSZ+two*preZ*(gLu*gLd*s23s.v(ds2,ds3)*a14a.v(ds1,ds4)+gLd*gRu*s13s.v(ds1,ds3)*a24a.v(ds2,ds4)+gLu*gRd*s24s.v(ds2,ds4)*a13a.v(ds1,ds3)+gRu*gRd*s14s.v(ds1,ds4)*a23a.v(ds2,ds3))/pDenSZ
  .seq (.set .c 0 (.add (.loc .c 0) (.add (.div (.mul (.smul (.neg (.mem .r 18)) (.sub (.v 9 [.var 0, .var 1]) (.v 8 [.var 0, .var 1]))) (.sub (.v 11 [.var 2, .var 3]) (.v 10 [.var 2, .var 3]))) (.mem .c 2)) (.div (.smul (.mul (.lit 2) (.mem .r 17)) (.add (.add (.add (.mul (.smul (.mul (.mem .r 13) (.mem .r 15)) (.v 5 [.var 1, .var 2])) (.v 2 [.var 0, .var 3])) (.mul (.smul (.mul (.mem .r 15) (.mem .r 14)) (.v 1 [.var 0, .var 2])) (.v 6 [.var 1, .var 3]))) (.mul (.smul (.mul (.mem .r 13) (.mem .r 16)) (.v 7 [.var 1, .var 3])) (.v 0 [.var 0, .var 2]))) (.mul (.smul (.mul (.mem .r 14) (.mem .r 16)) (.v 3 [.var 0, .var 3])) (.v 4 [.var 1, .var 2])))) (.mem .c 2))))) <|
  -- 170: return amplitude
  .ret .c (.loc .c 0)⟩

/-- `cdouble amp_W(ds1,ds2,ds3,ds4)` (SM/uudd.cpp:174-188); variables: i 0 `ds1`, i 1 `ds2`, i 2 `ds3`, i 3 `ds4` -/
def m_amp_W : Method := ⟨4, 
  -- 185: return +e*e/SW/SW*(2.0*MW*MW*a14a.v(ds1,ds4)*s23s.v(ds2,ds3)+(mu*s13s.v(ds1,ds3)+md*a13a.v(ds1,ds3))*(mu*a24a.v(ds2,ds4)+md*s24s.v(ds2,ds4)))/(2.0*MW*MW*pDenTW)
  .ret .c (.div (.smul (.div (.div (.mul (.mem .r 0) (.mem .r 0)) (.mem .r 10)) (.mem .r 10)) (.add (.mul (.smul (.mul (.mul (.lit 2) (.mem .r 8)) (.mem .r 8)) (.v 2 [.var 0, .var 3])) (.v 5 [.var 1, .var 2])) (.mul (.add (.smul (.mem .r 2) (.v 1 [.var 0, .var 2])) (.smul (.mem .r 3) (.v 0 [.var 0, .var 2]))) (.add (.smul (.mem .r 2) (.v 6 [.var 1, .var 3])) (.smul (.mem .r 3) (.v 7 [.var 1, .var 3])))))) (.smul (.mul (.mul (.lit 2) (.mem .r 8)) (.mem .r 8)) (.mem .c 3)))⟩

/-- `ldouble amp2()` (SM/uudd.cpp:191-214); variables: r 0 `amp2`, c 0 `M_rest`, c 1 `M_W`, c 2 `M_gluon`, i 0 `j1`, i 1 `j2`, i 2 `j3`, i 3 `j4` -/
def m_amp2 : Method := ⟨0, 
  -- 192: ldouble amp2
  .seq (.set .r 0 (.lit 0)) <|
  -- 194: cdouble M_rest
  .seq (.set .c 0 (.ofR (.lit 0))) <|
  -- 194: cdouble M_W
  .seq (.set .c 1 (.ofR (.lit 0))) <|
  -- 194: cdouble M_gluon
  .seq (.set .c 2 (.ofR (.lit 0))) <|
  -- 197: for(int j1=-1;j1<=1;j1+=2)
  .seq (.loop 0 (-1) true (.lit 1) 2 (
    -- 198: for(int j2=-1;j2<=1;j2+=2)
    .loop 1 (-1) true (.lit 1) 2 (
      -- 199: for(int j3=-1;j3<=1;j3+=2)
      .loop 2 (-1) true (.lit 1) 2 (
        -- 200: for(int j4=-1;j4<=1;j4+=2)
        .loop 3 (-1) true (.lit 1) 2 (
          -- 201: M_rest=amp_rest(j1,j2,j3,j4)
          .seq (.set .c 0 (.call 1 [.var 0, .var 1, .var 2, .var 3])) <|
          -- 202: M_W=amp_W(j1,j2,j3,j4)
          .seq (.set .c 1 (.call 2 [.var 0, .var 1, .var 2, .var 3])) <|
          -- 203: M_gluon=amp_gluon(j1,j2,j3,j4)
          .seq (.set .c 2 (.call 0 [.var 0, .var 1, .var 2, .var 3])) <|
          -- 204: amp2+=nine*std::pow(std::abs(M_rest),2)
          .seq (.set .r 0 (.add (.loc .r 0) (.mul (.lit 9) (.pow (.abs (.loc .c 0)) 2)))) <|
          -- 205: amp2+=three*two*std::real(M_rest*std::conj(M_W))
          .seq (.set .r 0 (.add (.loc .r 0) (.mul (.mul (.lit 3) (.lit 2)) (.re (.mul (.loc .c 0) (.conj (.loc .c 1))))))) <|
          -- 206: amp2+=nine*std::pow(std::abs(M_W),2)
          .seq (.set .r 0 (.add (.loc .r 0) (.mul (.lit 9) (.pow (.abs (.loc .c 1)) 2)))) <|
          -- 208: amp2+=four*two*std::real(M_gluon*std::conj(M_W))
          .seq (.set .r 0 (.add (.loc .r 0) (.mul (.mul (.lit 4) (.lit 2)) (.re (.mul (.loc .c 2) (.conj (.loc .c 1))))))) <|
          -- 209: amp2+=two*std::pow(std::abs(M_gluon),2)
          .set .r 0 (.add (.loc .r 0) (.mul (.lit 2) (.pow (.abs (.loc .c 2)) 2)))))))) <|
  -- 213: return amp2/36.0
  .ret .r (.div (.loc .r 0) (.lit 36))⟩

end uudd

/-- `class uudd` (SM/uudd.cpp, SM/include/uudd.h:25-33).  Members:
* ldouble: 0 `e`, 1 `gs`, 2 `mu`, 3 `md`, 4 `mh`, 5 `wh`, 6 `MZ`, 7 `WZ`, 8 `MW`, 9 `WW`, 10 `SW`, 11 `CW`, 12 `preh`, 13 `gLu`, 14 `gRu`, 15 `gLd`, 16 `gRd`, 17 `preZ`, 18 `preZ0`
* cdouble: 0 `pDenSAG`, 1 `pDenSh`, 2 `pDenSZ`, 3 `pDenTW`
* propagator: 0 `propAG`, 1 `proph`, 2 `propZ`, 3 `propW`
* sproduct: 0 `a13a`, 1 `s13s`, 2 `a14a`, 3 `s14s`, 4 `a23a`, 5 `s23s`, 6 `a24a`, 7 `s24s`, 8 `s12s`, 9 `a12a`, 10 `s34s`, 11 `a34a` -/
def uudd : Proc where
  name := "uudd"
  nPar := 10
  ctor := uudd.ctor
  setMasses := uudd.setMasses
  massPar := [2, 3, 4, 6]
  setMomenta := uudd.setMomenta
  methods := [uudd.m_amp2, uudd.m_amp_W, uudd.m_amp_rest, uudd.m_amp_gluon]
  amp2 := 3
  others := []

namespace uuee

/-- constructor (SM/uuee.cpp:32-60); parameters: 0 `echarge`, 1 `massu`, 2 `masse`, 3 `massh`, 4 `widthh`, 5 `massW`, 6 `sinW`, 7 `widthZ` -/
def ctor : List SInstr := [
  -- 32: e(echarge)
  .set .r 0 (.loc .r 0),
  -- 32: mu(massu)
  .set .r 1 (.loc .r 1),
  -- 32: me(masse)
  .set .r 2 (.loc .r 2),
  -- 32: mh(massh)
  .set .r 3 (.loc .r 3),
  -- 32: wh(widthh)
  .set .r 4 (.loc .r 4),
  -- 32: WZ(widthZ)
  .set .r 6 (.loc .r 7),
  -- 32: MW(massW)
  .set .r 7 (.loc .r 5),
  -- 32: SW(sinW)
  .set .r 8 (.loc .r 6),
  -- 32: CW(std::sqrt(1.0-sinW*sinW))
  .set .r 9 (.sqrt (.sub (.lit 1) (.mul (.loc .r 6) (.loc .r 6)))),
  -- 32: p1(particle(mu))
  .part 0 (.mem .r 1),
  -- 32: p2(particle(mu))
  .part 1 (.mem .r 1),
  -- 32: p3(particle(me))
  .part 2 (.mem .r 2),
  -- 32: p4(particle(me))
  .part 3 (.mem .r 2),
  -- 32: propA(0,0)
  .prop 0 (.lit 0) (.lit 0),
  -- 32: proph(mh,wh)
  .prop 1 (.mem .r 3) (.mem .r 4),
  -- 32: a13a(sproduct(ANGLE,&p1,&p3))
  .sprod 0 ⟨true, 0, true, [], 2, true⟩,
  -- 32: s13s(sproduct(SQUARE,&p1,&p3))
  .sprod 1 ⟨false, 0, true, [], 2, true⟩,
  -- 32: a14a(sproduct(ANGLE,&p1,&p4))
  .sprod 2 ⟨true, 0, true, [], 3, true⟩,
  -- 32: s14s(sproduct(SQUARE,&p1,&p4))
  .sprod 3 ⟨false, 0, true, [], 3, true⟩,
  -- 32: a23a(sproduct(ANGLE,&p2,&p3))
  .sprod 4 ⟨true, 1, true, [], 2, true⟩,
  -- 32: s23s(sproduct(SQUARE,&p2,&p3))
  .sprod 5 ⟨false, 1, true, [], 2, true⟩,
  -- 32: a24a(sproduct(ANGLE,&p2,&p4))
  .sprod 6 ⟨true, 1, true, [], 3, true⟩,
  -- 32: s24s(sproduct(SQUARE,&p2,&p4))
  .sprod 7 ⟨false, 1, true, [], 3, true⟩,
  -- 32: s12s(sproduct(SQUARE,&p1,&p2))
  .sprod 8 ⟨false, 0, true, [], 1, true⟩,
  -- 32: a12a(sproduct(ANGLE,&p1,&p2))
  .sprod 9 ⟨true, 0, true, [], 1, true⟩,
  -- 32: s34s(sproduct(SQUARE,&p3,&p4))
  .sprod 10 ⟨false, 2, true, [], 3, true⟩,
  -- 32: a34a(sproduct(ANGLE,&p3,&p4))
  .sprod 11 ⟨true, 2, true, [], 3, true⟩,
  -- 51: MZ=MW/CW
  .set .r 5 (.div (.mem .r 7) (.mem .r 9)),
  -- 52: propZ.set_mass(MZ)
  .propMass 2 (.mem .r 5),
  -- 53: preh=e*e*mu*me/(4.0*MW*MW*SW*SW)
  .set .r 10 (.div (.mul (.mul (.mul (.mem .r 0) (.mem .r 0)) (.mem .r 1)) (.mem .r 2)) (.mul (.mul (.mul (.mul (.lit 4) (.mem .r 7)) (.mem .r 7)) (.mem .r 8)) (.mem .r 8))),
  -- 54: gLu=1.0-4.0/3.0*SW*SW
  .set .r 11 (.sub (.lit 1) (.mul (.mul (.div (.lit 4) (.lit 3)) (.mem .r 8)) (.mem .r 8))),
  -- 55: gRu=-4.0/3.0*SW*SW
  .set .r 12 (.mul (.mul (.div (.neg (.lit 4)) (.lit 3)) (.mem .r 8)) (.mem .r 8)),
  -- 56: gLe=-1.0+2.0*SW*SW
  .set .r 13 (.add (.neg (.lit 1)) (.mul (.mul (.lit 2) (.mem .r 8)) (.mem .r 8))),
  -- 57: gRe=2.0*SW*SW
  .set .r 14 (.mul (.mul (.lit 2) (.mem .r 8)) (.mem .r 8)),
  -- 58: preZ=e*e/(4.0*CW*CW*SW*SW)
  .set .r 15 (.div (.mul (.mem .r 0) (.mem .r 0)) (.mul (.mul (.mul (.mul (.lit 4) (.mem .r 9)) (.mem .r 9)) (.mem .r 8)) (.mem .r 8))),
  -- 59: preZ0=preZ*(gLu-gRu)*(gLe-gRe)*mu*me/MZ/MZ
  .set .r 16 (.div (.div (.mul (.mul (.mul (.mul (.mem .r 15) (.sub (.mem .r 11) (.mem .r 12))) (.sub (.mem .r 13) (.mem .r 14))) (.mem .r 1)) (.mem .r 2)) (.mem .r 5)) (.mem .r 5))]

/-- `set_masses` (SM/uuee.cpp:61-75); parameters: 0 `massu`, 1 `masse`, 2 `massh`, 3 `massW` -/
def setMasses : List SInstr := [
  -- 62: mu=massu
  .set .r 1 (.loc .r 0),
  -- 63: me=masse
  .set .r 2 (.loc .r 1),
  -- 64: mh=massh
  .set .r 3 (.loc .r 2),
  -- 65: proph.set_mass(mh)
  .propMass 1 (.mem .r 3),
  -- 66: MW=massW
  .set .r 7 (.loc .r 3),
  -- 67: MZ=MW/CW
  .set .r 5 (.div (.mem .r 7) (.mem .r 9)),
  -- 68: propZ.set_mass(MZ)
  .propMass 2 (.mem .r 5),
  -- 69: p1.set_mass(mu)
  .setMass 0 (.mem .r 1),
  -- 70: p2.set_mass(mu)
  .setMass 1 (.mem .r 1),
  -- 71: p3.set_mass(me)
  .setMass 2 (.mem .r 2),
  -- 72: p4.set_mass(me)
  .setMass 3 (.mem .r 2),
  -- 73: preh=e*e*mu*me/(4*MW*MW*SW*SW)
  .set .r 10 (.div (.mul (.mul (.mul (.mem .r 0) (.mem .r 0)) (.mem .r 1)) (.mem .r 2)) (.mul (.mul (.mul (.mul (.lit 4) (.mem .r 7)) (.mem .r 7)) (.mem .r 8)) (.mem .r 8))),
  -- 74: preZ0=preZ*(gLu-gRu)*(gLe-gRe)*mu*me/MZ/MZ
  .set .r 16 (.div (.div (.mul (.mul (.mul (.mul (.mem .r 15) (.sub (.mem .r 11) (.mem .r 12))) (.sub (.mem .r 13) (.mem .r 14))) (.mem .r 1)) (.mem .r 2)) (.mem .r 5)) (.mem .r 5))]

/-- `set_momenta` (SM/uuee.cpp:76-101); parameters: 0 `mom1`, 1 `mom2`, 2 `mom3`, 3 `mom4` -/
def setMomenta : List SInstr := [
  -- 78: p1.set_momentum(mom1)
  .setMom 0 0,
  -- 79: p2.set_momentum(mom2)
  .setMom 1 1,
  -- 80: p3.set_momentum(mom3)
  .setMom 2 2,
  -- 81: p4.set_momentum(mom4)
  .setMom 3 3,
  -- 82: a13a.update()
  .update 0,
  -- 83: s13s.update()
  .update 1,
  -- 84: a14a.update()
  .update 2,
  -- 85: s14s.update()
  .update 3,
  -- 86: a23a.update()
  .update 4,
  -- 87: s23s.update()
  .update 5,
  -- 88: a24a.update()
  .update 6,
  -- 89: s24s.update()
  .update 7,
  -- 90: s12s.update()
  .update 8,
  -- 91: a12a.update()
  .update 9,
  -- 92: s34s.update()
  .update 10,
  -- 93: a34a.update()
  .update 11,
  -- 98: pDenSA=propA.denominator(propP)
  .den .c 0 0 (.add 0 1),
  -- 99: pDenSh=proph.denominator(propP)
  .den .c 1 1 (.add 0 1),
  -- 100: pDenSZ=propZ.denominator(propP)
  .den .c 2 2 (.add 0 1)]

/-- `cdouble amp(ds1,ds2,ds3,ds4)` (SM/uuee.cpp:106-150); variables: i 0 `ds1`, i 1 `ds2`, i 2 `ds3`, i 3 `ds4`, c 0 `amplitude` -/
def m_amp : Method := ⟨4, 
  -- 108: cdouble amplitude
  .seq (.set .c 0 (.ofR (.lit 0))) <|
  -- 113: amplitude=-two*e*e*2.0/3.0*(a13a.v(ds1,ds3)*s24s.v(ds2,ds4)+a14a.v(ds1,ds4)*s23s.v(ds2,ds3)+s13s.v(ds1,ds3)*a24a.v(ds2,ds4)+s14s.v(ds1,ds4)*a23a.v(ds2,ds3))/pDenSA
  .seq (.set .c 0 (.div (.smul (.div (.mul (.mul (.mul (.neg (.lit 2)) (.mem .r 0)) (.mem .r 0)) (.lit 2)) (.lit 3)) (.add (.add (.add (.mul (.v 0 [.var 0, .var 2]) (.v 7 [.var 1, .var 3])) (.mul (.v 2 [.var 0, .var 3]) (.v 5 [.var 1, .var 2]))) (.mul (.v 1 [.var 0, .var 2]) (.v 6 [.var 1, .var 3]))) (.mul (.v 3 [.var 0, .var 3]) (.v 4 [.var 1, .var 2])))) (.mem .c 0))) <|
  -- 121: amplitude+=preh*(s12s.v(ds1,ds2)+a12a.v(ds1,ds2))*(s34s.v(ds3,ds4)+a34a.v(ds3,ds4))/pDenSh
  .seq (.set .c 0 (.add (.loc .c 0) (.div (.mul (.smul (.mem .r 10) (.add (.v 8 [.var 0, .var 1]) (.v 9 [.var 0, .var 1]))) (.add (.v 10 [.var 2, .var 3]) (.v 11 [.var 2, .var 3]))) (.mem .c 1)))) <|
  -- 140: amplitude+=-preZ0*(a12a.v(ds1,ds2)-s12s.v(ds1,ds2))*(a34a.v(ds3,ds4)-s34s.v(ds3,ds4))/pDenSZ+two*preZ*(gLu*gLe*s23s.v(ds2,ds3)*a14a.v(ds1,ds4)+gLe*gRu*s13s.v(ds1,ds3)*a24a.v(ds2,ds4)+gLu*gRe*s24s.v(ds2,ds4)*a13a.v(ds1,ds3)+gRu*gRe*s14s.v(ds1,ds4)*a23a.v(ds2,ds3))/pDenSZ
  .seq (.set .c 0 (.add (.loc .c 0) (.add (.div (.mul (.smul (.neg (.mem .r 16)) (.sub (.v 9 [.var 0, .var 1]) (.v 8 [.var 0, .var 1]))) (.sub (.v 11 [.var 2, .var 3]) (.v 10 [.var 2, .var 3]))) (.mem .c 2)) (.div (.smul (.mul (.lit 2) (.mem .r 15)) (.add (.add (.add (.mul (.smul (.mul (.mem .r 11) (.mem .r 13)) (.v 5 [.var 1, .var 2])) (.v 2 [.var 0, .var 3])) (.mul (.smul (.mul (.mem .r 13) (.mem .r 12)) (.v 1 [.var 0, .var 2])) (.v 6 [.var 1, .var 3]))) (.mul (.smul (.mul (.mem .r 11) (.mem .r 14)) (.v 7 [.var 1, .var 3])) (.v 0 [.var 0, .var 2]))) (.mul (.smul (.mul (.mem .r 12) (.mem .r 14)) (.v 3 [.var 0, .var 3])) (.v 4 [.var 1, .var 2])))) (.mem .c 2))))) <|
  -- 149: return amplitude
  .ret .c (.loc .c 0)⟩

/-- `ldouble amp2()` (SM/uuee.cpp:153-169); variables: r 0 `amp2`, c 0 `M`, i 0 `j1`, i 1 `j2`, i 2 `j3`, i 3 `j4` -/
def m_amp2 : Method := ⟨0, 
  -- 154: ldouble amp2
  .seq (.set .r 0 (.lit 0)) <|
  -- 156: cdouble M
  .seq (.set .c 0 (.ofR (.lit 0))) <|
  -- 159: for(int j1=-1;j1<=1;j1+=2)
  .seq (.loop 0 (-1) true (.lit 1) 2 (
    -- 160: for(int j2=-1;j2<=1;j2+=2)
    .loop 1 (-1) true (.lit 1) 2 (
      -- 161: for(int j3=-1;j3<=1;j3+=2)
      .loop 2 (-1) true (.lit 1) 2 (
        -- 162: for(int j4=-1;j4<=1;j4+=2)
        .loop 3 (-1) true (.lit 1) 2 (
          -- 163: M=amp(j1,j2,j3,j4)
          .seq (.set .c 0 (.call 0 [.var 0, .var 1, .var 2, .var 3])) <|
          -- 164: amp2+=three*std::pow(std::abs(M),2)
          .set .r 0 (.add (.loc .r 0) (.mul (.lit 3) (.pow (.abs (.loc .c 0)) 2)))))))) <|
  -- 168: return amp2/36.0
  .ret .r (.div (.loc .r 0) (.lit 36))⟩

end uuee

/-- `class uuee` (SM/uuee.cpp, SM/include/uuee.h:25-33).  Members:
* ldouble: 0 `e`, 1 `mu`, 2 `me`, 3 `mh`, 4 `wh`, 5 `MZ`, 6 `WZ`, 7 `MW`, 8 `SW`, 9 `CW`, 10 `preh`, 11 `gLu`, 12 `gRu`, 13 `gLe`, 14 `gRe`, 15 `preZ`, 16 `preZ0`
* cdouble: 0 `pDenSA`, 1 `pDenSh`, 2 `pDenSZ`
* propagator: 0 `propA`, 1 `proph`, 2 `propZ`
* sproduct: 0 `a13a`, 1 `s13s`, 2 `a14a`, 3 `s14s`, 4 `a23a`, 5 `s23s`, 6 `a24a`, 7 `s24s`, 8 `s12s`, 9 `a12a`, 10 `s34s`, 11 `a34a` -/
def uuee : Proc where
  name := "uuee"
  nPar := 8
  ctor := uuee.ctor
  setMasses := uuee.setMasses
  massPar := [1, 2, 3, 5]
  setMomenta := uuee.setMomenta
  methods := [uuee.m_amp2, uuee.m_amp]
  amp2 := 1
  others := []

namespace uuhh

/-- constructor (SM/uuhh.cpp:32-45); parameters: 0 `echarge`, 1 `massu`, 2 `massh`, 3 `widthh`, 4 `massW`, 5 `sinW` -/
def ctor : List SInstr := [
  -- 32: e(echarge)
  .set .r 0 (.loc .r 0),
  -- 32: mu(massu)
  .set .r 1 (.loc .r 1),
  -- 32: mh(massh)
  .set .r 2 (.loc .r 2),
  -- 32: wh(widthh)
  .set .r 3 (.loc .r 3),
  -- 32: MW(massW)
  .set .r 4 (.loc .r 4),
  -- 32: SW(sinW)
  .set .r 5 (.loc .r 5),
  -- 32: p1(particle(mu))
  .part 0 (.mem .r 1),
  -- 32: p2(particle(mu))
  .part 1 (.mem .r 1),
  -- 32: p3(particle(mh))
  .part 2 (.mem .r 2),
  -- 32: p4(particle(mh))
  .part 3 (.mem .r 2),
  -- 32: proph(mh,wh)
  .prop 0 (.mem .r 2) (.mem .r 3),
  -- 32: propu(mu,0)
  .prop 1 (.mem .r 1) (.lit 0),
  -- 32: s12s(sproduct(SQUARE,&p1,&p2))
  .sprod 0 ⟨false, 0, true, [], 1, true⟩,
  -- 32: a12a(sproduct(ANGLE,&p1,&p2))
  .sprod 1 ⟨true, 0, true, [], 1, true⟩,
  -- 32: s132a(sproduct(SQUARE,&p1,&p3,&p2))
  .sprod 2 ⟨false, 0, true, [2], 1, true⟩,
  -- 32: s231a(sproduct(SQUARE,&p2,&p3,&p1))
  .sprod 3 ⟨false, 1, true, [2], 0, true⟩,
  -- 43: prehS=3.0*e*e*mu*mh*mh/(4.0*MW*MW*SW*SW)
  .set .r 6 (.div (.mul (.mul (.mul (.mul (.mul (.lit 3) (.mem .r 0)) (.mem .r 0)) (.mem .r 1)) (.mem .r 2)) (.mem .r 2)) (.mul (.mul (.mul (.mul (.lit 4) (.mem .r 4)) (.mem .r 4)) (.mem .r 5)) (.mem .r 5))),
  -- 44: prehTU=e*e*mu*mu/(4.0*MW*MW*SW*SW)
  .set .r 7 (.div (.mul (.mul (.mul (.mem .r 0) (.mem .r 0)) (.mem .r 1)) (.mem .r 1)) (.mul (.mul (.mul (.mul (.lit 4) (.mem .r 4)) (.mem .r 4)) (.mem .r 5)) (.mem .r 5)))]

/-- `set_masses` (SM/uuhh.cpp:46-59); parameters: 0 `massu`, 1 `massh`, 2 `massW` -/
def setMasses : List SInstr := [
  -- 48: mu=massu
  .set .r 1 (.loc .r 0),
  -- 49: propu.set_mass(mu)
  .propMass 1 (.mem .r 1),
  -- 50: mh=massh
  .set .r 2 (.loc .r 1),
  -- 51: proph.set_mass(mh)
  .propMass 0 (.mem .r 2),
  -- 52: MW=massW
  .set .r 4 (.loc .r 2),
  -- 53: p1.set_mass(mu)
  .setMass 0 (.mem .r 1),
  -- 54: p2.set_mass(mu)
  .setMass 1 (.mem .r 1),
  -- 55: p3.set_mass(mh)
  .setMass 2 (.mem .r 2),
  -- 56: p4.set_mass(mh)
  .setMass 3 (.mem .r 2),
  -- 57: prehS=3.0*e*e*mu*mh*mh/(4.0*MW*MW*SW*SW)
  .set .r 6 (.div (.mul (.mul (.mul (.mul (.mul (.lit 3) (.mem .r 0)) (.mem .r 0)) (.mem .r 1)) (.mem .r 2)) (.mem .r 2)) (.mul (.mul (.mul (.mul (.lit 4) (.mem .r 4)) (.mem .r 4)) (.mem .r 5)) (.mem .r 5))),
  -- 58: prehTU=e*e*mu*mu/(4.0*MW*MW*SW*SW)
  .set .r 7 (.div (.mul (.mul (.mul (.mem .r 0) (.mem .r 0)) (.mem .r 1)) (.mem .r 1)) (.mul (.mul (.mul (.mul (.lit 4) (.mem .r 4)) (.mem .r 4)) (.mem .r 5)) (.mem .r 5)))]

/-- `set_momenta` (SM/uuhh.cpp:60-80); parameters: 0 `mom1`, 1 `mom2`, 2 `mom3`, 3 `mom4` -/
def setMomenta : List SInstr := [
  -- 62: p1.set_momentum(mom1)
  .setMom 0 0,
  -- 63: p2.set_momentum(mom2)
  .setMom 1 1,
  -- 64: p3.set_momentum(mom3)
  .setMom 2 2,
  -- 65: p4.set_momentum(mom4)
  .setMom 3 3,
  -- 66: s12s.update()
  .update 0,
  -- 67: a12a.update()
  .update 1,
  -- 68: s132a.update()
  .update 2,
  -- 69: s231a.update()
  .update 3,
  -- 77: pDenSh=proph.denominator(propPS)
  .den .c 0 0 (.add 0 1),
  -- 78: pDenTu=propu.denominator(propPT)
  .den .c 1 1 (.sub 0 2),
  -- 79: pDenUu=propu.denominator(propPU)
  .den .c 2 1 (.sub 0 3)]

/-- `cdouble amp(ds1,ds2)` (SM/uuhh.cpp:85-111); variables: i 0 `ds1`, i 1 `ds2`, c 0 `amplitude` -/
def m_amp : Method := ⟨2, 
  -- 87: cdouble amplitude
  .seq (.set .c 0 (.ofR (.lit 0))) <|
  -- 93: amplitude+=prehS*(s12s.v(ds1,ds2)+a12a.v(ds1,ds2))/pDenSh
  .seq (.set .c 0 (.add (.loc .c 0) (.div (.smul (.mem .r 6) (.add (.v 0 [.var 0, .var 1]) (.v 1 [.var 0, .var 1]))) (.mem .c 0)))) <|
  -- 99: amplitude+=prehTU*(two*mu*(s12s.v(ds1,ds2)+a12a.v(ds1,ds2))-s132a.v(ds1,ds2)-s231a.v(ds2,ds1))/pDenTu
  .seq (.set .c 0 (.add (.loc .c 0) (.div (.smul (.mem .r 7) (.sub (.sub (.smul (.mul (.lit 2) (.mem .r 1)) (.add (.v 0 [.var 0, .var 1]) (.v 1 [.var 0, .var 1]))) (.v 2 [.var 0, .var 1])) (.v 3 [.var 1, .var 0]))) (.mem .c 1)))) <|
  -- 105: amplitude+=prehTU*(two*mu*(s12s.v(ds1,ds2)+a12a.v(ds1,ds2))+s132a.v(ds1,ds2)+s231a.v(ds2,ds1))/pDenUu
  .seq (.set .c 0 (.add (.loc .c 0) (.div (.smul (.mem .r 7) (.add (.add (.smul (.mul (.lit 2) (.mem .r 1)) (.add (.v 0 [.var 0, .var 1]) (.v 1 [.var 0, .var 1]))) (.v 2 [.var 0, .var 1])) (.v 3 [.var 1, .var 0]))) (.mem .c 2)))) <|
  -- 110: return amplitude
  .ret .c (.loc .c 0)⟩

/-- `ldouble amp2()` (SM/uuhh.cpp:114-128); variables: r 0 `amp2`, c 0 `M`, i 0 `j1`, i 1 `j2` -/
def m_amp2 : Method := ⟨0, 
  -- 115: ldouble amp2
  .seq (.set .r 0 (.lit 0)) <|
  -- 116: cdouble M
  .seq (.set .c 0 (.ofR (.lit 0))) <|
  -- 119: for(int j1=-1;j1<=1;j1+=2)
  .seq (.loop 0 (-1) true (.lit 1) 2 (
    -- 120: for(int j2=-1;j2<=1;j2+=2)
    .loop 1 (-1) true (.lit 1) 2 (
      -- 121: M=amp(j1,j2)
      .seq (.set .c 0 (.call 0 [.var 0, .var 1])) <|
      -- 122: amp2+=3.0*std::pow(std::abs(M),2)
      .set .r 0 (.add (.loc .r 0) (.mul (.lit 3) (.pow (.abs (.loc .c 0)) 2)))))) <|
  -- 127: return amp2/72.0
  .ret .r (.div (.loc .r 0) (.lit 72))⟩

end uuhh

/-- `class uuhh` (SM/uuhh.cpp, SM/include/uuhh.h:25-32).  Members:
* ldouble: 0 `e`, 1 `mu`, 2 `mh`, 3 `wh`, 4 `MW`, 5 `SW`, 6 `prehS`, 7 `prehTU`
* cdouble: 0 `pDenSh`, 1 `pDenTu`, 2 `pDenUu`
* propagator: 0 `proph`, 1 `propu`
* sproduct: 0 `s12s`, 1 `a12a`, 2 `s132a`, 3 `s231a` -/
def uuhh : Proc where
  name := "uuhh"
  nPar := 6
  ctor := uuhh.ctor
  setMasses := uuhh.setMasses
  massPar := [1, 2, 4]
  setMomenta := uuhh.setMomenta
  methods := [uuhh.m_amp2, uuhh.m_amp]
  amp2 := 1
  others := []

namespace uunn

/-- constructor (SM/uunn.cpp:32-57); parameters: 0 `echarge`, 1 `massu`, 2 `massW`, 3 `sinW`, 4 `widthZ` -/
def ctor : List SInstr := [
  -- 32: e(echarge)
  .set .r 0 (.loc .r 0),
  -- 32: mu(massu)
  .set .r 1 (.loc .r 1),
  -- 32: WZ(widthZ)
  .set .r 3 (.loc .r 4),
  -- 32: MW(massW)
  .set .r 4 (.loc .r 2),
  -- 32: SW(sinW)
  .set .r 5 (.loc .r 3),
  -- 32: CW(std::sqrt(1.0-sinW*sinW))
  .set .r 6 (.sqrt (.sub (.lit 1) (.mul (.loc .r 3) (.loc .r 3)))),
  -- 32: p1(particle(mu))
  .part 0 (.mem .r 1),
  -- 32: p2(particle(mu))
  .part 1 (.mem .r 1),
  -- 32: p3(particle(0))
  .part 2 (.lit 0),
  -- 32: p4(particle(0))
  .part 3 (.lit 0),
  -- 32: a13a(sproduct(ANGLE,&p1,&p3))
  .sprod 0 ⟨true, 0, true, [], 2, true⟩,
  -- 32: s13s(sproduct(SQUARE,&p1,&p3))
  .sprod 1 ⟨false, 0, true, [], 2, true⟩,
  -- 32: a14a(sproduct(ANGLE,&p1,&p4))
  .sprod 2 ⟨true, 0, true, [], 3, true⟩,
  -- 32: s14s(sproduct(SQUARE,&p1,&p4))
  .sprod 3 ⟨false, 0, true, [], 3, true⟩,
  -- 32: a23a(sproduct(ANGLE,&p2,&p3))
  .sprod 4 ⟨true, 1, true, [], 2, true⟩,
  -- 32: s23s(sproduct(SQUARE,&p2,&p3))
  .sprod 5 ⟨false, 1, true, [], 2, true⟩,
  -- 32: a24a(sproduct(ANGLE,&p2,&p4))
  .sprod 6 ⟨true, 1, true, [], 3, true⟩,
  -- 32: s24s(sproduct(SQUARE,&p2,&p4))
  .sprod 7 ⟨false, 1, true, [], 3, true⟩,
  -- 32: s12s(sproduct(SQUARE,&p1,&p2))
  .sprod 8 ⟨false, 0, true, [], 1, true⟩,
  -- 32: a12a(sproduct(ANGLE,&p1,&p2))
  .sprod 9 ⟨true, 0, true, [], 1, true⟩,
  -- 32: s34s(sproduct(SQUARE,&p3,&p4))
  .sprod 10 ⟨false, 2, true, [], 3, true⟩,
  -- 32: a34a(sproduct(ANGLE,&p3,&p4))
  .sprod 11 ⟨true, 2, true, [], 3, true⟩,
  -- 50: MZ=MW/CW
  .set .r 2 (.div (.mem .r 4) (.mem .r 6)),
  -- 51: propZ.set_mass(MZ)
  .propMass 0 (.mem .r 2),
  -- 52: gLu=1.0-4.0/3.0*SW*SW
  .set .r 8 (.sub (.lit 1) (.mul (.mul (.div (.lit 4) (.lit 3)) (.mem .r 5)) (.mem .r 5))),
  -- 53: gRu=-4.0/3.0*SW*SW
  .set .r 9 (.mul (.mul (.div (.neg (.lit 4)) (.lit 3)) (.mem .r 5)) (.mem .r 5)),
  -- 54: gLn=1.0
  .set .r 10 (.lit 1),
  -- 55: gRn=0
  .set .r 11 (.lit 0),
  -- 56: preZ=e*e/(4.0*CW*CW*SW*SW)
  .set .r 12 (.div (.mul (.mem .r 0) (.mem .r 0)) (.mul (.mul (.mul (.mul (.lit 4) (.mem .r 6)) (.mem .r 6)) (.mem .r 5)) (.mem .r 5)))]

/-- `set_masses` (SM/uunn.cpp:58-65); parameters: 0 `massu`, 1 `massW` -/
def setMasses : List SInstr := [
  -- 59: mu=massu
  .set .r 1 (.loc .r 0),
  -- 60: MW=massW
  .set .r 4 (.loc .r 1),
  -- 61: MZ=MW/CW
  .set .r 2 (.div (.mem .r 4) (.mem .r 6)),
  -- 62: propZ.set_mass(MZ)
  .propMass 0 (.mem .r 2),
  -- 63: p1.set_mass(mu)
  .setMass 0 (.mem .r 1),
  -- 64: p2.set_mass(mu)
  .setMass 1 (.mem .r 1)]

/-- `set_momenta` (SM/uunn.cpp:66-89); parameters: 0 `mom1`, 1 `mom2`, 2 `mom3`, 3 `mom4` -/
def setMomenta : List SInstr := [
  -- 68: p1.set_momentum(mom1)
  .setMom 0 0,
  -- 69: p2.set_momentum(mom2)
  .setMom 1 1,
  -- 70: p3.set_momentum(mom3)
  .setMom 2 2,
  -- 71: p4.set_momentum(mom4)
  .setMom 3 3,
  -- 72: a13a.update()
  .update 0,
  -- 73: s13s.update()
  .update 1,
  -- 74: a14a.update()
  .update 2,
  -- 75: s14s.update()
  .update 3,
  -- 76: a23a.update()
  .update 4,
  -- 77: s23s.update()
  .update 5,
  -- 78: a24a.update()
  .update 6,
  -- 79: s24s.update()
  .update 7,
  -- 80: s12s.update()
  .update 8,
  -- 81: a12a.update()
  .update 9,
  -- 82: s34s.update()
  .update 10,
  -- 83: a34a.update()
  .update 11,
  -- 88: pDenSZ=propZ.denominator(propP)
  .den .c 0 0 (.add 0 1)]

/-- `cdouble amp(ds1,ds2)` (SM/uunn.cpp:94-116); variables: i 0 `ds1`, i 1 `ds2`, c 0 `amplitude` -/
def m_amp : Method := ⟨2, 
  -- 96: cdouble amplitude
  .seq (.set .c 0 (.ofR (.lit 0))) <|
  -- 109: amplitude+=+two*preZ*(gLu*gLn*s23s.v(ds2)*a14a.v(ds1)+gLn*gRu*s13s.v(ds1)*a24a.v(ds2))/pDenSZ
  .seq (.set .c 0 (.add (.loc .c 0) (.div (.smul (.mul (.lit 2) (.mem .r 12)) (.add (.mul (.smul (.mul (.mem .r 8) (.mem .r 10)) (.v 5 [.var 1])) (.v 2 [.var 0])) (.mul (.smul (.mul (.mem .r 10) (.mem .r 9)) (.v 1 [.var 0])) (.v 6 [.var 1])))) (.mem .c 0)))) <|
  -- 115: return amplitude
  .ret .c (.loc .c 0)⟩

/-- `ldouble amp2()` (SM/uunn.cpp:119-133); variables: r 0 `amp2`, c 0 `M`, i 0 `j1`, i 1 `j2` -/
def m_amp2 : Method := ⟨0, 
  -- 120: ldouble amp2
  .seq (.set .r 0 (.lit 0)) <|
  -- 122: cdouble M
  .seq (.set .c 0 (.ofR (.lit 0))) <|
  -- 125: for(int j1=-1;j1<=1;j1+=2)
  .seq (.loop 0 (-1) true (.lit 1) 2 (
    -- 126: for(int j2=-1;j2<=1;j2+=2)
    .loop 1 (-1) true (.lit 1) 2 (
      -- 127: M=amp(j1,j2)
      .seq (.set .c 0 (.call 0 [.var 0, .var 1])) <|
      -- 128: amp2+=three*std::pow(std::abs(M),2)
      .set .r 0 (.add (.loc .r 0) (.mul (.lit 3) (.pow (.abs (.loc .c 0)) 2)))))) <|
  -- 132: return amp2/36.0
  .ret .r (.div (.loc .r 0) (.lit 36))⟩

end uunn

/-- `class uunn` (SM/uunn.cpp, SM/include/uunn.h:25-33).  Members:
* ldouble: 0 `e`, 1 `mu`, 2 `MZ`, 3 `WZ`, 4 `MW`, 5 `SW`, 6 `CW`, 7 `preh`, 8 `gLu`, 9 `gRu`, 10 `gLn`, 11 `gRn`, 12 `preZ`, 13 `preZ0`
* cdouble: 0 `pDenSZ`
* propagator: 0 `propZ`
* sproduct: 0 `a13a`, 1 `s13s`, 2 `a14a`, 3 `s14s`, 4 `a23a`, 5 `s23s`, 6 `a24a`, 7 `s24s`, 8 `s12s`, 9 `a12a`, 10 `s34s`, 11 `a34a` -/
def uunn : Proc where
  name := "uunn"
  nPar := 5
  ctor := uunn.ctor
  setMasses := uunn.setMasses
  massPar := [1, 2]
  setMomenta := uunn.setMomenta
  methods := [uunn.m_amp2, uunn.m_amp]
  amp2 := 1
  others := []

namespace uuss

/-- constructor (SM/uuss.cpp:32-60); parameters: 0 `echarge`, 1 `gscharge`, 2 `massu`, 3 `masss`, 4 `massh`, 5 `widthh`, 6 `massW`, 7 `sinW`, 8 `widthZ` -/
def ctor : List SInstr := [
  -- 32: e(echarge)
  .set .r 0 (.loc .r 0),
  -- 32: gs(gscharge)
  .set .r 1 (.loc .r 1),
  -- 32: mu(massu)
  .set .r 2 (.loc .r 2),
  -- 32: ms(masss)
  .set .r 3 (.loc .r 3),
  -- 32: mh(massh)
  .set .r 4 (.loc .r 4),
  -- 32: wh(widthh)
  .set .r 5 (.loc .r 5),
  -- 32: WZ(widthZ)
  .set .r 7 (.loc .r 8),
  -- 32: MW(massW)
  .set .r 8 (.loc .r 6),
  -- 32: SW(sinW)
  .set .r 9 (.loc .r 7),
  -- 32: CW(std::sqrt(1.0-sinW*sinW))
  .set .r 10 (.sqrt (.sub (.lit 1) (.mul (.loc .r 7) (.loc .r 7)))),
  -- 32: p1(particle(mu))
  .part 0 (.mem .r 2),
  -- 32: p2(particle(mu))
  .part 1 (.mem .r 2),
  -- 32: p3(particle(ms))
  .part 2 (.mem .r 3),
  -- 32: p4(particle(ms))
  .part 3 (.mem .r 3),
  -- 32: propAG(0,0)
  .prop 0 (.lit 0) (.lit 0),
  -- 32: proph(mh,wh)
  .prop 1 (.mem .r 4) (.mem .r 5),
  -- 32: a13a(sproduct(ANGLE,&p1,&p3))
  .sprod 0 ⟨true, 0, true, [], 2, true⟩,
  -- 32: s13s(sproduct(SQUARE,&p1,&p3))
  .sprod 1 ⟨false, 0, true, [], 2, true⟩,
  -- 32: a14a(sproduct(ANGLE,&p1,&p4))
  .sprod 2 ⟨true, 0, true, [], 3, true⟩,
  -- 32: s14s(sproduct(SQUARE,&p1,&p4))
  .sprod 3 ⟨false, 0, true, [], 3, true⟩,
  -- 32: a23a(sproduct(ANGLE,&p2,&p3))
  .sprod 4 ⟨true, 1, true, [], 2, true⟩,
  -- 32: s23s(sproduct(SQUARE,&p2,&p3))
  .sprod 5 ⟨false, 1, true, [], 2, true⟩,
  -- 32: a24a(sproduct(ANGLE,&p2,&p4))
  .sprod 6 ⟨true, 1, true, [], 3, true⟩,
  -- 32: s24s(sproduct(SQUARE,&p2,&p4))
  .sprod 7 ⟨false, 1, true, [], 3, true⟩,
  -- 32: s12s(sproduct(SQUARE,&p1,&p2))
  .sprod 8 ⟨false, 0, true, [], 1, true⟩,
  -- 32: a12a(sproduct(ANGLE,&p1,&p2))
  .sprod 9 ⟨true, 0, true, [], 1, true⟩,
  -- 32: s34s(sproduct(SQUARE,&p3,&p4))
  .sprod 10 ⟨false, 2, true, [], 3, true⟩,
  -- 32: a34a(sproduct(ANGLE,&p3,&p4))
  .sprod 11 ⟨true, 2, true, [], 3, true⟩,
  -- 51: MZ=MW/CW
  .set .r 6 (.div (.mem .r 8) (.mem .r 10)),
  -- 52: propZ.set_mass(MZ)
  .propMass 2 (.mem .r 6),
  -- 53: preh=e*e*mu*ms/(4.0*MW*MW*SW*SW)
  .set .r 11 (.div (.mul (.mul (.mul (.mem .r 0) (.mem .r 0)) (.mem .r 2)) (.mem .r 3)) (.mul (.mul (.mul (.mul (.lit 4) (.mem .r 8)) (.mem .r 8)) (.mem .r 9)) (.mem .r 9))),
  -- 54: gLu=1.0-4.0/3.0*SW*SW
  .set .r 12 (.sub (.lit 1) (.mul (.mul (.div (.lit 4) (.lit 3)) (.mem .r 9)) (.mem .r 9))),
  -- 55: gRu=-4.0/3.0*SW*SW
  .set .r 13 (.mul (.mul (.div (.neg (.lit 4)) (.lit 3)) (.mem .r 9)) (.mem .r 9)),
  -- 56: gLd=-1.0+2.0/3.0*SW*SW
  .set .r 14 (.add (.neg (.lit 1)) (.mul (.mul (.div (.lit 2) (.lit 3)) (.mem .r 9)) (.mem .r 9))),
  -- 57: gRd=2.0/3.0*SW*SW
  .set .r 15 (.mul (.mul (.div (.lit 2) (.lit 3)) (.mem .r 9)) (.mem .r 9)),
  -- 58: preZ=e*e/(4.0*CW*CW*SW*SW)
  .set .r 16 (.div (.mul (.mem .r 0) (.mem .r 0)) (.mul (.mul (.mul (.mul (.lit 4) (.mem .r 10)) (.mem .r 10)) (.mem .r 9)) (.mem .r 9))),
  -- 59: preZ0=preZ*(gLu-gRu)*(gLd-gRd)*mu*ms/MZ/MZ
  .set .r 17 (.div (.div (.mul (.mul (.mul (.mul (.mem .r 16) (.sub (.mem .r 12) (.mem .r 13))) (.sub (.mem .r 14) (.mem .r 15))) (.mem .r 2)) (.mem .r 3)) (.mem .r 6)) (.mem .r 6))]

/-- `set_masses` (SM/uuss.cpp:61-75); parameters: 0 `massu`, 1 `masss`, 2 `massh`, 3 `massW` -/
def setMasses : List SInstr := [
  -- 62: mu=massu
  .set .r 2 (.loc .r 0),
  -- 63: ms=masss
  .set .r 3 (.loc .r 1),
  -- 64: mh=massh
  .set .r 4 (.loc .r 2),
  -- 65: proph.set_mass(mh)
  .propMass 1 (.mem .r 4),
  -- 66: MW=massW
  .set .r 8 (.loc .r 3),
  -- 67: MZ=MW/CW
  .set .r 6 (.div (.mem .r 8) (.mem .r 10)),
  -- 68: propZ.set_mass(MZ)
  .propMass 2 (.mem .r 6),
  -- 69: p1.set_mass(mu)
  .setMass 0 (.mem .r 2),
  -- 70: p2.set_mass(mu)
  .setMass 1 (.mem .r 2),
  -- 71: p3.set_mass(ms)
  .setMass 2 (.mem .r 3),
  -- 72: p4.set_mass(ms)
  .setMass 3 (.mem .r 3),
  -- 73: preh=e*e*mu*ms/(4*MW*MW*SW*SW)
  .set .r 11 (.div (.mul (.mul (.mul (.mem .r 0) (.mem .r 0)) (.mem .r 2)) (.mem .r 3)) (.mul (.mul (.mul (.mul (.lit 4) (.mem .r 8)) (.mem .r 8)) (.mem .r 9)) (.mem .r 9))),
  -- 74: preZ0=preZ*(gLu-gRu)*(gLd-gRd)*mu*ms/MZ/MZ
  .set .r 17 (.div (.div (.mul (.mul (.mul (.mul (.mem .r 16) (.sub (.mem .r 12) (.mem .r 13))) (.sub (.mem .r 14) (.mem .r 15))) (.mem .r 2)) (.mem .r 3)) (.mem .r 6)) (.mem .r 6))]

/-- `set_momenta` (SM/uuss.cpp:76-101); parameters: 0 `mom1`, 1 `mom2`, 2 `mom3`, 3 `mom4` -/
def setMomenta : List SInstr := [
  -- 78: p1.set_momentum(mom1)
  .setMom 0 0,
  -- 79: p2.set_momentum(mom2)
  .setMom 1 1,
  -- 80: p3.set_momentum(mom3)
  .setMom 2 2,
  -- 81: p4.set_momentum(mom4)
  .setMom 3 3,
  -- 82: a13a.update()
  .update 0,
  -- 83: s13s.update()
  .update 1,
  -- 84: a14a.update()
  .update 2,
  -- 85: s14s.update()
  .update 3,
  -- 86: a23a.update()
  .update 4,
  -- 87: s23s.update()
  .update 5,
  -- 88: a24a.update()
  .update 6,
  -- 89: s24s.update()
  .update 7,
  -- 90: s12s.update()
  .update 8,
  -- 91: a12a.update()
  .update 9,
  -- 92: s34s.update()
  .update 10,
  -- 93: a34a.update()
  .update 11,
  -- 98: pDenSAG=propAG.denominator(propP)
  .den .c 0 0 (.add 0 1),
  -- 99: pDenSh=proph.denominator(propP)
  .den .c 1 1 (.add 0 1),
  -- 100: pDenSZ=propZ.denominator(propP)
  .den .c 2 2 (.add 0 1)]

/-- `cdouble amp_gluon(ds1,ds2,ds3,ds4)` (SM/uuss.cpp:109-122); variables: i 0 `ds1`, i 1 `ds2`, i 2 `ds3`, i 3 `ds4`, c 0 `amplitude` -/
def m_amp_gluon : Method := ⟨4, 
  -- 111: cdouble amplitude
  .seq (.set .c 0 (.ofR (.lit 0))) <|
  -- 116: amplitude=two*gs*gs*(a13a.v(ds1,ds3)*s24s.v(ds2,ds4)+a14a.v(ds1,ds4)*s23s.v(ds2,ds3)+s13s.v(ds1,ds3)*a24a.v(ds2,ds4)+s14s.v(ds1,ds4)*a23a.v(ds2,ds3))/pDenSAG
  .seq (.set .c 0 (.div (.smul (.mul (.mul (.lit 2) (.mem .r 1)) (.mem .r 1)) (.add (.add (.add (.mul (.v 0 [.var 0, .var 2]) (.v 7 [.var 1, .var 3])) (.mul (.v 2 [.var 0, .var 3]) (.v 5 [.var 1, .var 2]))) (.mul (.v 1 [.var 0, .var 2]) (.v 6 [.var 1, .var 3]))) (.mul (.v 3 [.var 0, .var 3]) (.v 4 [.var 1, .var 2])))) (.mem .c 0))) <|
  -- 121: return amplitude
  .ret .c (.loc .c 0)⟩

/-- `cdouble amp_rest(ds1,ds2,ds3,ds4)` (SM/uuss.cpp:123-167); variables: i 0 `ds1`, i 1 `ds2`, i 2 `ds3`, i 3 `ds4`, c 0 `amplitude` -/
def m_amp_rest : Method := ⟨4, 
  -- 125: cdouble amplitude
  .seq (.set .c 0 (.ofR (.lit 0))) <|
  -- 130: amplitude=-two*e*e*2.0/9.0*(a13a.v(ds1,ds3)*s24s.v(ds2,ds4)+a14a.v(ds1,ds4)*s23s.v(ds2,ds3)+s13s.v(ds1,ds3)*a24a.v(ds2,ds4)+s14s.v(ds1,ds4)*a23a.v(ds2,ds3))/pDenSAG
  .seq (.set .c 0 (.div (.smul (.div (.mul (.mul (.mul (.neg (.lit 2)) (.mem .r 0)) (.mem .r 0)) (.lit 2)) (.lit 9)) (.add (.add (.add (.mul (.v 0 [.var 0, .var 2]) (.v 7 [.var 1, .var 3])) (.mul (.v 2 [.var 0, .var 3]) (.v 5 [.var 1, .var 2]))) (.mul (.v 1 [.var 0, .var 2]) (.v 6 [.var 1, .var 3]))) (.mul (.v 3 [.var 0, .var 3]) (.v 4 [.var 1, .var 2])))) (.mem .c 0))) <|
  -- 138: amplitude+=preh*(s12s.v(ds1,ds2)+a12a.v(ds1,ds2))*(s34s.v(ds3,ds4)+a34a.v(ds3,ds4))/pDenSh
  .seq (.set .c 0 (.add (.loc .c 0) (.div (.mul (.smul (.mem .r 11) (.add (.v 8 [.var 0, .var 1]) (.v 9 [.var 0, .var 1]))) (.add (.v 10 [.var 2, .var 3]) (.v 11 [.var 2, .var 3]))) (.mem .c 1)))) <|
  -- 157: amplitude+=-preZ0*(a12a.v(ds1,ds2)-s12s.v(ds1,ds2))*(a34a.v(ds3,ds4)-s34s.v(ds3,ds4))/pDenSZ+two*preZ*(gLu*gLd*s23s.v(ds2,ds3)*a14a.v(ds1,ds4)+gLd*gRu*s13s.v(ds1,ds3)*a24a.v(ds2,ds4)+gLu*gRd*s24s.v(ds2,ds4)*a13a.v(ds1,ds3)+gRu*gRd*s14s.v(ds1,ds4)*a23a.v(ds2,ds3))/pDenSZ
  .seq (.set .c 0 (.add (.loc .c 0) (.add (.div (.mul (.smul (.neg (.mem .r 17)) (.sub (.v 9 [.var 0, .var 1]) (.v 8 [.var 0, .var 1]))) (.sub (.v 11 [.var 2, .var 3]) (.v 10 [.var 2, .var 3]))) (.mem .c 2)) (.div (.smul (.mul (.lit 2) (.mem .r 16)) (.add (.add (.add (.mul (.smul (.mul (.mem .r 12) (.mem .r 14)) (.v 5 [.var 1, .var 2])) (.v 2 [.var 0, .var 3])) (.mul (.smul (.mul (.mem .r 14) (.mem .r 13)) (.v 1 [.var 0, .var 2])) (.v 6 [.var 1, .var 3]))) (.mul (.smul (.mul (.mem .r 12) (.mem .r 15)) (.v 7 [.var 1, .var 3])) (.v 0 [.var 0, .var 2]))) (.mul (.smul (.mul (.mem .r 13) (.mem .r 15)) (.v 3 [.var 0, .var 3])) (.v 4 [.var 1, .var 2])))) (.mem .c 2))))) <|
  -- 166: return amplitude
  .ret .c (.loc .c 0)⟩

/-- `ldouble amp2()` (SM/uuss.cpp:170-189); variables: r 0 `amp2`, c 0 `M_rest`, c 1 `M_gluon`, i 0 `j1`, i 1 `j2`, i 2 `j3`, i 3 `j4` -/
def m_amp2 : Method := ⟨0, 
  -- 171: ldouble amp2
  .seq (.set .r 0 (.lit 0)) <|
  -- 173: cdouble M_rest
  .seq (.set .c 0 (.ofR (.lit 0))) <|
  -- 173: cdouble M_gluon
  .seq (.set .c 1 (.ofR (.lit 0))) <|
  -- 176: for(int j1=-1;j1<=1;j1+=2)
  .seq (.loop 0 (-1) true (.lit 1) 2 (
    -- 177: for(int j2=-1;j2<=1;j2+=2)
    .loop 1 (-1) true (.lit 1) 2 (
      -- 178: for(int j3=-1;j3<=1;j3+=2)
      .loop 2 (-1) true (.lit 1) 2 (
        -- 179: for(int j4=-1;j4<=1;j4+=2)
        .loop 3 (-1) true (.lit 1) 2 (
          -- 180: M_rest=amp_rest(j1,j2,j3,j4)
          .seq (.set .c 0 (.call 1 [.var 0, .var 1, .var 2, .var 3])) <|
          -- 181: M_gluon=amp_gluon(j1,j2,j3,j4)
          .seq (.set .c 1 (.call 0 [.var 0, .var 1, .var 2, .var 3])) <|
          -- 182: amp2+=nine*std::pow(std::abs(M_rest),2)
          .seq (.set .r 0 (.add (.loc .r 0) (.mul (.lit 9) (.pow (.abs (.loc .c 0)) 2)))) <|
          -- 184: amp2+=two*std::pow(std::abs(M_gluon),2)
          .set .r 0 (.add (.loc .r 0) (.mul (.lit 2) (.pow (.abs (.loc .c 1)) 2)))))))) <|
  -- 188: return amp2/36.0
  .ret .r (.div (.loc .r 0) (.lit 36))⟩

end uuss

/-- `class uuss` (SM/uuss.cpp, SM/include/uuss.h:25-33).  Members:
* ldouble: 0 `e`, 1 `gs`, 2 `mu`, 3 `ms`, 4 `mh`, 5 `wh`, 6 `MZ`, 7 `WZ`, 8 `MW`, 9 `SW`, 10 `CW`, 11 `preh`, 12 `gLu`, 13 `gRu`, 14 `gLd`, 15 `gRd`, 16 `preZ`, 17 `preZ0`
* cdouble: 0 `pDenSAG`, 1 `pDenSh`, 2 `pDenSZ`
* propagator: 0 `propAG`, 1 `proph`, 2 `propZ`
* sproduct: 0 `a13a`, 1 `s13s`, 2 `a14a`, 3 `s14s`, 4 `a23a`, 5 `s23s`, 6 `a24a`, 7 `s24s`, 8 `s12s`, 9 `a12a`, 10 `s34s`, 11 `a34a` -/
def uuss : Proc where
  name := "uuss"
  nPar := 9
  ctor := uuss.ctor
  setMasses := uuss.setMasses
  massPar := [2, 3, 4, 6]
  setMomenta := uuss.setMomenta
  methods := [uuss.m_amp2, uuss.m_amp_rest, uuss.m_amp_gluon]
  amp2 := 2
  others := []

namespace uuuu

/-- constructor (SM/uuuu.cpp:32-58); parameters: 0 `echarge`, 1 `gscharge`, 2 `massu`, 3 `massh`, 4 `widthh`, 5 `massW`, 6 `sinW`, 7 `widthZ` -/
def ctor : List SInstr := [
  -- 32: e(echarge)
  .set .r 0 (.loc .r 0),
  -- 32: gs(gscharge)
  .set .r 1 (.loc .r 1),
  -- 32: mu(massu)
  .set .r 2 (.loc .r 2),
  -- 32: mh(massh)
  .set .r 3 (.loc .r 3),
  -- 32: wh(widthh)
  .set .r 4 (.loc .r 4),
  -- 32: WZ(widthZ)
  .set .r 6 (.loc .r 7),
  -- 32: MW(massW)
  .set .r 7 (.loc .r 5),
  -- 32: SW(sinW)
  .set .r 8 (.loc .r 6),
  -- 32: CW(std::sqrt(1.0-sinW*sinW))
  .set .r 9 (.sqrt (.sub (.lit 1) (.mul (.loc .r 6) (.loc .r 6)))),
  -- 32: p1(particle(mu))
  .part 0 (.mem .r 2),
  -- 32: p2(particle(mu))
  .part 1 (.mem .r 2),
  -- 32: p3(particle(mu))
  .part 2 (.mem .r 2),
  -- 32: p4(particle(mu))
  .part 3 (.mem .r 2),
  -- 32: propAG(0,0)
  .prop 0 (.lit 0) (.lit 0),
  -- 32: proph(mh,wh)
  .prop 1 (.mem .r 3) (.mem .r 4),
  -- 32: a13a(sproduct(ANGLE,&p1,&p3))
  .sprod 0 ⟨true, 0, true, [], 2, true⟩,
  -- 32: s13s(sproduct(SQUARE,&p1,&p3))
  .sprod 1 ⟨false, 0, true, [], 2, true⟩,
  -- 32: a14a(sproduct(ANGLE,&p1,&p4))
  .sprod 2 ⟨true, 0, true, [], 3, true⟩,
  -- 32: s14s(sproduct(SQUARE,&p1,&p4))
  .sprod 3 ⟨false, 0, true, [], 3, true⟩,
  -- 32: a23a(sproduct(ANGLE,&p2,&p3))
  .sprod 4 ⟨true, 1, true, [], 2, true⟩,
  -- 32: s23s(sproduct(SQUARE,&p2,&p3))
  .sprod 5 ⟨false, 1, true, [], 2, true⟩,
  -- 32: a24a(sproduct(ANGLE,&p2,&p4))
  .sprod 6 ⟨true, 1, true, [], 3, true⟩,
  -- 32: s24s(sproduct(SQUARE,&p2,&p4))
  .sprod 7 ⟨false, 1, true, [], 3, true⟩,
  -- 32: s12s(sproduct(SQUARE,&p1,&p2))
  .sprod 8 ⟨false, 0, true, [], 1, true⟩,
  -- 32: a12a(sproduct(ANGLE,&p1,&p2))
  .sprod 9 ⟨true, 0, true, [], 1, true⟩,
  -- 32: s34s(sproduct(SQUARE,&p3,&p4))
  .sprod 10 ⟨false, 2, true, [], 3, true⟩,
  -- 32: a34a(sproduct(ANGLE,&p3,&p4))
  .sprod 11 ⟨true, 2, true, [], 3, true⟩,
  -- 51: MZ=MW/CW
  .set .r 5 (.div (.mem .r 7) (.mem .r 9)),
  -- 52: propZ.set_mass(MZ)
  .propMass 2 (.mem .r 5),
  -- 53: preh=e*e*mu*mu/(4.0*MW*MW*SW*SW)
  .set .r 10 (.div (.mul (.mul (.mul (.mem .r 0) (.mem .r 0)) (.mem .r 2)) (.mem .r 2)) (.mul (.mul (.mul (.mul (.lit 4) (.mem .r 7)) (.mem .r 7)) (.mem .r 8)) (.mem .r 8))),
  -- 54: gL=1.0-4.0/3.0*SW*SW
  .set .r 11 (.sub (.lit 1) (.mul (.mul (.div (.lit 4) (.lit 3)) (.mem .r 8)) (.mem .r 8))),
  -- 55: gR=-4.0/3.0*SW*SW
  .set .r 12 (.mul (.mul (.div (.neg (.lit 4)) (.lit 3)) (.mem .r 8)) (.mem .r 8)),
  -- 56: preZ=e*e/(4.0*CW*CW*SW*SW)
  .set .r 13 (.div (.mul (.mem .r 0) (.mem .r 0)) (.mul (.mul (.mul (.mul (.lit 4) (.mem .r 9)) (.mem .r 9)) (.mem .r 8)) (.mem .r 8))),
  -- 57: preZ0=preZ*(gL-gR)*(gL-gR)*mu*mu/MZ/MZ
  .set .r 14 (.div (.div (.mul (.mul (.mul (.mul (.mem .r 13) (.sub (.mem .r 11) (.mem .r 12))) (.sub (.mem .r 11) (.mem .r 12))) (.mem .r 2)) (.mem .r 2)) (.mem .r 5)) (.mem .r 5))]

/-- `set_masses` (SM/uuuu.cpp:59-72); parameters: 0 `massu`, 1 `massh`, 2 `massW` -/
def setMasses : List SInstr := [
  -- 60: mu=massu
  .set .r 2 (.loc .r 0),
  -- 61: mh=massh
  .set .r 3 (.loc .r 1),
  -- 62: proph.set_mass(mh)
  .propMass 1 (.mem .r 3),
  -- 63: MW=massW
  .set .r 7 (.loc .r 2),
  -- 64: MZ=MW/CW
  .set .r 5 (.div (.mem .r 7) (.mem .r 9)),
  -- 65: propZ.set_mass(MZ)
  .propMass 2 (.mem .r 5),
  -- 66: p1.set_mass(mu)
  .setMass 0 (.mem .r 2),
  -- 67: p2.set_mass(mu)
  .setMass 1 (.mem .r 2),
  -- 68: p3.set_mass(mu)
  .setMass 2 (.mem .r 2),
  -- 69: p4.set_mass(mu)
  .setMass 3 (.mem .r 2),
  -- 70: preh=e*e*mu*mu/(4*MW*MW*SW*SW)
  .set .r 10 (.div (.mul (.mul (.mul (.mem .r 0) (.mem .r 0)) (.mem .r 2)) (.mem .r 2)) (.mul (.mul (.mul (.mul (.lit 4) (.mem .r 7)) (.mem .r 7)) (.mem .r 8)) (.mem .r 8))),
  -- 71: preZ0=preZ*(gL-gR)*(gL-gR)*mu*mu/MZ/MZ
  .set .r 14 (.div (.div (.mul (.mul (.mul (.mul (.mem .r 13) (.sub (.mem .r 11) (.mem .r 12))) (.sub (.mem .r 11) (.mem .r 12))) (.mem .r 2)) (.mem .r 2)) (.mem .r 5)) (.mem .r 5))]

/-- `set_momenta` (SM/uuuu.cpp:73-103); parameters: 0 `mom1`, 1 `mom2`, 2 `mom3`, 3 `mom4` -/
def setMomenta : List SInstr := [
  -- 75: p1.set_momentum(mom1)
  .setMom 0 0,
  -- 76: p2.set_momentum(mom2)
  .setMom 1 1,
  -- 77: p3.set_momentum(mom3)
  .setMom 2 2,
  -- 78: p4.set_momentum(mom4)
  .setMom 3 3,
  -- 79: a13a.update()
  .update 0,
  -- 80: s13s.update()
  .update 1,
  -- 81: a14a.update()
  .update 2,
  -- 82: s14s.update()
  .update 3,
  -- 83: a23a.update()
  .update 4,
  -- 84: s23s.update()
  .update 5,
  -- 85: a24a.update()
  .update 6,
  -- 86: s24s.update()
  .update 7,
  -- 87: s12s.update()
  .update 8,
  -- 88: a12a.update()
  .update 9,
  -- 89: s34s.update()
  .update 10,
  -- 90: a34a.update()
  .update 11,
  -- 97: pDenSAG=propAG.denominator(propPS)
  .den .c 0 0 (.add 0 1),
  -- 98: pDenSh=proph.denominator(propPS)
  .den .c 1 1 (.add 0 1),
  -- 99: pDenSZ=propZ.denominator(propPS)
  .den .c 2 2 (.add 0 1),
  -- 100: pDenTAG=propAG.denominator(propPT)
  .den .c 3 0 (.sub 0 2),
  -- 101: pDenTh=proph.denominator(propPT)
  .den .c 4 1 (.sub 0 2),
  -- 102: pDenTZ=propZ.denominator(propPT)
  .den .c 5 2 (.sub 0 2)]

/-- `cdouble amp_gluon_S(ds1,ds2,ds3,ds4)` (SM/uuuu.cpp:109-122); variables: i 0 `ds1`, i 1 `ds2`, i 2 `ds3`, i 3 `ds4`, c 0 `amplitude` -/
def m_amp_gluon_S : Method := ⟨4, 
  -- 111: cdouble amplitude
  .seq (.set .c 0 (.ofR (.lit 0))) <|
  -- 116: amplitude=two*gs*gs*(a13a.v(ds1,ds3)*s24s.v(ds2,ds4)+a14a.v(ds1,ds4)*s23s.v(ds2,ds3)+s13s.v(ds1,ds3)*a24a.v(ds2,ds4)+s14s.v(ds1,ds4)*a23a.v(ds2,ds3))/pDenSAG
  .seq (.set .c 0 (.div (.smul (.mul (.mul (.lit 2) (.mem .r 1)) (.mem .r 1)) (.add (.add (.add (.mul (.v 0 [.var 0, .var 2]) (.v 7 [.var 1, .var 3])) (.mul (.v 2 [.var 0, .var 3]) (.v 5 [.var 1, .var 2]))) (.mul (.v 1 [.var 0, .var 2]) (.v 6 [.var 1, .var 3]))) (.mul (.v 3 [.var 0, .var 3]) (.v 4 [.var 1, .var 2])))) (.mem .c 0))) <|
  -- 121: return amplitude
  .ret .c (.loc .c 0)⟩

/-- `cdouble amp_gluon_T(ds1,ds2,ds3,ds4)` (SM/uuuu.cpp:123-137); variables: i 0 `ds1`, i 1 `ds2`, i 2 `ds3`, i 3 `ds4`, c 0 `amplitude` -/
def m_amp_gluon_T : Method := ⟨4, 
  -- 125: cdouble amplitude
  .seq (.set .c 0 (.ofR (.lit 0))) <|
  -- 131: amplitude=two*gs*gs*(a12a.v(ds1,ds2)*s34s.v(ds3,ds4)+a14a.v(ds1,ds4)*s23s.v(ds2,ds3)+s12s.v(ds1,ds2)*a34a.v(ds3,ds4)+s14s.v(ds1,ds4)*a23a.v(ds2,ds3))/pDenTAG
  .seq (.set .c 0 (.div (.smul (.mul (.mul (.lit 2) (.mem .r 1)) (.mem .r 1)) (.add (.add (.add (.mul (.v 9 [.var 0, .var 1]) (.v 10 [.var 2, .var 3])) (.mul (.v 2 [.var 0, .var 3]) (.v 5 [.var 1, .var 2]))) (.mul (.v 8 [.var 0, .var 1]) (.v 11 [.var 2, .var 3]))) (.mul (.v 3 [.var 0, .var 3]) (.v 4 [.var 1, .var 2])))) (.mem .c 3))) <|
  -- 136: return amplitude
  .ret .c (.loc .c 0)⟩

/-- `cdouble amp_rest_S(ds1,ds2,ds3,ds4)` (SM/uuuu.cpp:138-178); variables: i 0 `ds1`, i 1 `ds2`, i 2 `ds3`, i 3 `ds4`, c 0 `amplitude` -/
def m_amp_rest_S : Method := ⟨4, 
  -- 140: cdouble amplitude
  .seq (.set .c 0 (.ofR (.lit 0))) <|
  -- 145: amplitude=two*e*e*4.0/9.0*(a13a.v(ds1,ds3)*s24s.v(ds2,ds4)+a14a.v(ds1,ds4)*s23s.v(ds2,ds3)+s13s.v(ds1,ds3)*a24a.v(ds2,ds4)+s14s.v(ds1,ds4)*a23a.v(ds2,ds3))/pDenSAG
  .seq (.set .c 0 (.div (.smul (.div (.mul (.mul (.mul (.lit 2) (.mem .r 0)) (.mem .r 0)) (.lit 4)) (.lit 9)) (.add (.add (.add (.mul (.v 0 [.var 0, .var 2]) (.v 7 [.var 1, .var 3])) (.mul (.v 2 [.var 0, .var 3]) (.v 5 [.var 1, .var 2]))) (.mul (.v 1 [.var 0, .var 2]) (.v 6 [.var 1, .var 3]))) (.mul (.v 3 [.var 0, .var 3]) (.v 4 [.var 1, .var 2])))) (.mem .c 0))) <|
  -- 153: amplitude+=preh*(s12s.v(ds1,ds2)+a12a.v(ds1,ds2))*(s34s.v(ds3,ds4)+a34a.v(ds3,ds4))/pDenSh
  .seq (.set .c 0 (.add (.loc .c 0) (.div (.mul (.smul (.mem .r 10) (.add (.v 8 [.var 0, .var 1]) (.v 9 [.var 0, .var 1]))) (.add (.v 10 [.var 2, .var 3]) (.v 11 [.var 2, .var 3]))) (.mem .c 1)))) <|
  -- 169: amplitude+=-preZ0*(a12a.v(ds1,ds2)-s12s.v(ds1,ds2))*(a34a.v(ds3,ds4)-s34s.v(ds3,ds4))/pDenSZ+two*preZ*(gL*gL*s23s.v(ds2,ds3)*a14a.v(ds1,ds4)+gL*gR*(s13s.v(ds1,ds3)*a24a.v(ds2,ds4)+s24s.v(ds2,ds4)*a13a.v(ds1,ds3))+gR*gR*s14s.v(ds1,ds4)*a23a.v(ds2,ds3))/pDenSZ
  .seq (.set .c 0 (.add (.loc .c 0) (.add (.div (.mul (.smul (.neg (.mem .r 14)) (.sub (.v 9 [.var 0, .var 1]) (.v 8 [.var 0, .var 1]))) (.sub (.v 11 [.var 2, .var 3]) (.v 10 [.var 2, .var 3]))) (.mem .c 2)) (.div (.smul (.mul (.lit 2) (.mem .r 13)) (.add (.add (.mul (.smul (.mul (.mem .r 11) (.mem .r 11)) (.v 5 [.var 1, .var 2])) (.v 2 [.var 0, .var 3])) (.smul (.mul (.mem .r 11) (.mem .r 12)) (.add (.mul (.v 1 [.var 0, .var 2]) (.v 6 [.var 1, .var 3])) (.mul (.v 7 [.var 1, .var 3]) (.v 0 [.var 0, .var 2]))))) (.mul (.smul (.mul (.mem .r 12) (.mem .r 12)) (.v 3 [.var 0, .var 3])) (.v 4 [.var 1, .var 2])))) (.mem .c 2))))) <|
  -- 177: return amplitude
  .ret .c (.loc .c 0)⟩

/-- `cdouble amp_rest_T(ds1,ds2,ds3,ds4)` (SM/uuuu.cpp:179-218); variables: i 0 `ds1`, i 1 `ds2`, i 2 `ds3`, i 3 `ds4`, c 0 `amplitude` -/
def m_amp_rest_T : Method := ⟨4, 
  -- 181: cdouble amplitude
  .seq (.set .c 0 (.ofR (.lit 0))) <|
  -- 188: amplitude+=two*e*e*4.0/9.0*(a12a.v(ds1,ds2)*s34s.v(ds3,ds4)+a14a.v(ds1,ds4)*s23s.v(ds2,ds3)+s12s.v(ds1,ds2)*a34a.v(ds3,ds4)+s14s.v(ds1,ds4)*a23a.v(ds2,ds3))/pDenTAG
  .seq (.set .c 0 (.add (.loc .c 0) (.div (.smul (.div (.mul (.mul (.mul (.lit 2) (.mem .r 0)) (.mem .r 0)) (.lit 4)) (.lit 9)) (.add (.add (.add (.mul (.v 9 [.var 0, .var 1]) (.v 10 [.var 2, .var 3])) (.mul (.v 2 [.var 0, .var 3]) (.v 5 [.var 1, .var 2]))) (.mul (.v 8 [.var 0, .var 1]) (.v 11 [.var 2, .var 3]))) (.mul (.v 3 [.var 0, .var 3]) (.v 4 [.var 1, .var 2])))) (.mem .c 3)))) <|
  -- 198: amplitude+=-preh*(s13s.v(ds1,ds3)-a13a.v(ds1,ds3))*(s24s.v(ds2,ds4)-a24a.v(ds2,ds4))/pDenTh
  .seq (.set .c 0 (.add (.loc .c 0) (.div (.mul (.smul (.neg (.mem .r 10)) (.sub (.v 1 [.var 0, .var 2]) (.v 0 [.var 0, .var 2]))) (.sub (.v 7 [.var 1, .var 3]) (.v 6 [.var 1, .var 3]))) (.mem .c 4)))) <|
  -- 209: amplitude+=+preZ0*(a13a.v(ds1,ds3)+s13s.v(ds1,ds3))*(a24a.v(ds2,ds4)+s24s.v(ds2,ds4))/pDenTZ+two*preZ*(gL*gL*s23s.v(ds2,ds3)*a14a.v(ds1,ds4)+gL*gR*(s12s.v(ds1,ds2)*a34a.v(ds3,ds4)+s34s.v(ds3,ds4)*a12a.v(ds1,ds2))+gR*gR*s14s.v(ds1,ds4)*a23a.v(ds2,ds3))/pDenTZ
  .seq (.set .c 0 (.add (.loc .c 0) (.add (.div (.mul (.smul (.mem .r 14) (.add (.v 0 [.var 0, .var 2]) (.v 1 [.var 0, .var 2]))) (.add (.v 6 [.var 1, .var 3]) (.v 7 [.var 1, .var 3]))) (.mem .c 5)) (.div (.smul (.mul (.lit 2) (.mem .r 13)) (.add (.add (.mul (.smul (.mul (.mem .r 11) (.mem .r 11)) (.v 5 [.var 1, .var 2])) (.v 2 [.var 0, .var 3])) (.smul (.mul (.mem .r 11) (.mem .r 12)) (.add (.mul (.v 8 [.var 0, .var 1]) (.v 11 [.var 2, .var 3])) (.mul (.v 10 [.var 2, .var 3]) (.v 9 [.var 0, .var 1]))))) (.mul (.smul (.mul (.mem .r 12) (.mem .r 12)) (.v 3 [.var 0, .var 3])) (.v 4 [.var 1, .var 2])))) (.mem .c 5))))) <|
  -- 217: return amplitude
  .ret .c (.loc .c 0)⟩

/-- `ldouble amp2()` (SM/uuuu.cpp:221-250); variables: r 0 `amp2`, c 0 `M_rest_S`, c 1 `M_gluon_S`, c 2 `M_rest_T`, c 3 `M_gluon_T`, i 0 `j1`, i 1 `j2`, i 2 `j3`, i 3 `j4` -/
def m_amp2 : Method := ⟨0, 
  -- 222: ldouble amp2
  .seq (.set .r 0 (.lit 0)) <|
  -- 224: cdouble M_rest_S
  .seq (.set .c 0 (.ofR (.lit 0))) <|
  -- 224: cdouble M_gluon_S
  .seq (.set .c 1 (.ofR (.lit 0))) <|
  -- 224: cdouble M_rest_T
  .seq (.set .c 2 (.ofR (.lit 0))) <|
  -- 224: cdouble M_gluon_T
  .seq (.set .c 3 (.ofR (.lit 0))) <|
  -- 227: for(int j1=-1;j1<=1;j1+=2)
  .seq (.loop 0 (-1) true (.lit 1) 2 (
    -- 228: for(int j2=-1;j2<=1;j2+=2)
    .loop 1 (-1) true (.lit 1) 2 (
      -- 229: for(int j3=-1;j3<=1;j3+=2)
      .loop 2 (-1) true (.lit 1) 2 (
        -- 230: for(int j4=-1;j4<=1;j4+=2)
        .loop 3 (-1) true (.lit 1) 2 (
          -- 231: M_rest_S=amp_rest_S(j1,j2,j3,j4)
          .seq (.set .c 0 (.call 2 [.var 0, .var 1, .var 2, .var 3])) <|
          -- 232: M_rest_T=amp_rest_T(j1,j2,j3,j4)
          .seq (.set .c 2 (.call 3 [.var 0, .var 1, .var 2, .var 3])) <|
          -- 233: M_gluon_S=amp_gluon_S(j1,j2,j3,j4)
          .seq (.set .c 1 (.call 0 [.var 0, .var 1, .var 2, .var 3])) <|
          -- 234: M_gluon_T=amp_gluon_T(j1,j2,j3,j4)
          .seq (.set .c 3 (.call 1 [.var 0, .var 1, .var 2, .var 3])) <|
          -- 235: amp2+=nine*std::pow(std::abs(M_rest_S),2)
          .seq (.set .r 0 (.add (.loc .r 0) (.mul (.lit 9) (.pow (.abs (.loc .c 0)) 2)))) <|
          -- 236: amp2+=two*std::pow(std::abs(M_gluon_S),2)
          .seq (.set .r 0 (.add (.loc .r 0) (.mul (.lit 2) (.pow (.abs (.loc .c 1)) 2)))) <|
          -- 237: amp2+=nine*std::pow(std::abs(M_rest_T),2)
          .seq (.set .r 0 (.add (.loc .r 0) (.mul (.lit 9) (.pow (.abs (.loc .c 2)) 2)))) <|
          -- 238: amp2+=two*std::pow(std::abs(M_gluon_T),2)
          .seq (.set .r 0 (.add (.loc .r 0) (.mul (.lit 2) (.pow (.abs (.loc .c 3)) 2)))) <|
          -- 241: amp2+=three*two*std::real(M_rest_S*std::conj(M_rest_T))
          .seq (.set .r 0 (.add (.loc .r 0) (.mul (.mul (.lit 3) (.lit 2)) (.re (.mul (.loc .c 0) (.conj (.loc .c 2))))))) <|
          -- 242: amp2+=(-two/three)*two*std::real(M_gluon_S*std::conj(M_gluon_T))
          .seq (.set .r 0 (.add (.loc .r 0) (.mul (.mul (.div (.neg (.lit 2)) (.lit 3)) (.lit 2)) (.re (.mul (.loc .c 1) (.conj (.loc .c 3))))))) <|
          -- 243: amp2+=four*two*std::real(M_gluon_S*std::conj(M_rest_T))
          .seq (.set .r 0 (.add (.loc .r 0) (.mul (.mul (.lit 4) (.lit 2)) (.re (.mul (.loc .c 1) (.conj (.loc .c 2))))))) <|
          -- 244: amp2+=four*two*std::real(M_gluon_T*std::conj(M_rest_S))
          .set .r 0 (.add (.loc .r 0) (.mul (.mul (.lit 4) (.lit 2)) (.re (.mul (.loc .c 3) (.conj (.loc .c 0))))))))))) <|
  -- 249: return amp2/36.0
  .ret .r (.div (.loc .r 0) (.lit 36))⟩

end uuuu

/-- `class uuuu` (SM/uuuu.cpp, SM/include/uuuu.h:25-34).  Members:
* ldouble: 0 `e`, 1 `gs`, 2 `mu`, 3 `mh`, 4 `wh`, 5 `MZ`, 6 `WZ`, 7 `MW`, 8 `SW`, 9 `CW`, 10 `preh`, 11 `gL`, 12 `gR`, 13 `preZ`, 14 `preZ0`
* cdouble: 0 `pDenSAG`, 1 `pDenSh`, 2 `pDenSZ`, 3 `pDenTAG`, 4 `pDenTh`, 5 `pDenTZ`
* propagator: 0 `propAG`, 1 `proph`, 2 `propZ`
* sproduct: 0 `a13a`, 1 `s13s`, 2 `a14a`, 3 `s14s`, 4 `a23a`, 5 `s23s`, 6 `a24a`, 7 `s24s`, 8 `s12s`, 9 `a12a`, 10 `s34s`, 11 `a34a` -/
def uuuu : Proc where
  name := "uuuu"
  nPar := 8
  ctor := uuuu.ctor
  setMasses := uuuu.setMasses
  massPar := [2, 3, 5]
  setMomenta := uuuu.setMomenta
  methods := [uuuu.m_amp2, uuuu.m_amp_rest_T, uuuu.m_amp_rest_S, uuuu.m_amp_gluon_T, uuuu.m_amp_gluon_S]
  amp2 := 4
  others := []

namespace uuuu2

/-- constructor (SM/uuuu2.cpp:32-58); parameters: 0 `echarge`, 1 `gscharge`, 2 `massu`, 3 `massh`, 4 `widthh`, 5 `massW`, 6 `sinW`, 7 `widthZ` -/
def ctor : List SInstr := [
  -- 32: e(echarge)
  .set .r 0 (.loc .r 0),
  -- 32: gs(gscharge)
  .set .r 1 (.loc .r 1),
  -- 32: mu(massu)
  .set .r 2 (.loc .r 2),
  -- 32: mh(massh)
  .set .r 3 (.loc .r 3),
  -- 32: wh(widthh)
  .set .r 4 (.loc .r 4),
  -- 32: WZ(widthZ)
  .set .r 6 (.loc .r 7),
  -- 32: MW(massW)
  .set .r 7 (.loc .r 5),
  -- 32: SW(sinW)
  .set .r 8 (.loc .r 6),
  -- 32: CW(std::sqrt(1.0-sinW*sinW))
  .set .r 9 (.sqrt (.sub (.lit 1) (.mul (.loc .r 6) (.loc .r 6)))),
  -- 32: p1(particle(mu))
  .part 0 (.mem .r 2),
  -- 32: p2(particle(mu))
  .part 1 (.mem .r 2),
  -- 32: p3(particle(mu))
  .part 2 (.mem .r 2),
  -- 32: p4(particle(mu))
  .part 3 (.mem .r 2),
  -- 32: propAG(0,0)
  .prop 0 (.lit 0) (.lit 0),
  -- 32: proph(mh,wh)
  .prop 1 (.mem .r 3) (.mem .r 4),
  -- 32: a13a(sproduct(ANGLE,&p1,&p3))
  .sprod 0 ⟨true, 0, true, [], 2, true⟩,
  -- 32: s13s(sproduct(SQUARE,&p1,&p3))
  .sprod 1 ⟨false, 0, true, [], 2, true⟩,
  -- 32: a14a(sproduct(ANGLE,&p1,&p4))
  .sprod 2 ⟨true, 0, true, [], 3, true⟩,
  -- 32: s14s(sproduct(SQUARE,&p1,&p4))
  .sprod 3 ⟨false, 0, true, [], 3, true⟩,
  -- 32: a23a(sproduct(ANGLE,&p2,&p3))
  .sprod 4 ⟨true, 1, true, [], 2, true⟩,
  -- 32: s23s(sproduct(SQUARE,&p2,&p3))
  .sprod 5 ⟨false, 1, true, [], 2, true⟩,
  -- 32: a24a(sproduct(ANGLE,&p2,&p4))
  .sprod 6 ⟨true, 1, true, [], 3, true⟩,
  -- 32: s24s(sproduct(SQUARE,&p2,&p4))
  .sprod 7 ⟨false, 1, true, [], 3, true⟩,
  -- 32: s12s(sproduct(SQUARE,&p1,&p2))
  .sprod 8 ⟨false, 0, true, [], 1, true⟩,
  -- 32: a12a(sproduct(ANGLE,&p1,&p2))
  .sprod 9 ⟨true, 0, true, [], 1, true⟩,
  -- 32: s34s(sproduct(SQUARE,&p3,&p4))
  .sprod 10 ⟨false, 2, true, [], 3, true⟩,
  -- 32: a34a(sproduct(ANGLE,&p3,&p4))
  .sprod 11 ⟨true, 2, true, [], 3, true⟩,
  -- 51: MZ=MW/CW
  .set .r 5 (.div (.mem .r 7) (.mem .r 9)),
  -- 52: propZ.set_mass(MZ)
  .propMass 2 (.mem .r 5),
  -- 53: preh=e*e*mu*mu/(4.0*MW*MW*SW*SW)
  .set .r 10 (.div (.mul (.mul (.mul (.mem .r 0) (.mem .r 0)) (.mem .r 2)) (.mem .r 2)) (.mul (.mul (.mul (.mul (.lit 4) (.mem .r 7)) (.mem .r 7)) (.mem .r 8)) (.mem .r 8))),
  -- 54: gL=1.0-4.0/3.0*SW*SW
  .set .r 11 (.sub (.lit 1) (.mul (.mul (.div (.lit 4) (.lit 3)) (.mem .r 8)) (.mem .r 8))),
  -- 55: gR=-4.0/3.0*SW*SW
  .set .r 12 (.mul (.mul (.div (.neg (.lit 4)) (.lit 3)) (.mem .r 8)) (.mem .r 8)),
  -- 56: preZ=e*e/(4.0*CW*CW*SW*SW)
  .set .r 13 (.div (.mul (.mem .r 0) (.mem .r 0)) (.mul (.mul (.mul (.mul (.lit 4) (.mem .r 9)) (.mem .r 9)) (.mem .r 8)) (.mem .r 8))),
  -- 57: preZ0=preZ*(gL-gR)*(gL-gR)*mu*mu/MZ/MZ
  .set .r 14 (.div (.div (.mul (.mul (.mul (.mul (.mem .r 13) (.sub (.mem .r 11) (.mem .r 12))) (.sub (.mem .r 11) (.mem .r 12))) (.mem .r 2)) (.mem .r 2)) (.mem .r 5)) (.mem .r 5))]

/-- `set_masses` (SM/uuuu2.cpp:59-72); parameters: 0 `massu`, 1 `massh`, 2 `massW` -/
def setMasses : List SInstr := [
  -- 60: mu=massu
  .set .r 2 (.loc .r 0),
  -- 61: mh=massh
  .set .r 3 (.loc .r 1),
  -- 62: proph.set_mass(mh)
  .propMass 1 (.mem .r 3),
  -- 63: MW=massW
  .set .r 7 (.loc .r 2),
  -- 64: MZ=MW/CW
  .set .r 5 (.div (.mem .r 7) (.mem .r 9)),
  -- 65: propZ.set_mass(MZ)
  .propMass 2 (.mem .r 5),
  -- 66: p1.set_mass(mu)
  .setMass 0 (.mem .r 2),
  -- 67: p2.set_mass(mu)
  .setMass 1 (.mem .r 2),
  -- 68: p3.set_mass(mu)
  .setMass 2 (.mem .r 2),
  -- 69: p4.set_mass(mu)
  .setMass 3 (.mem .r 2),
  -- 70: preh=e*e*mu*mu/(4*MW*MW*SW*SW)
  .set .r 10 (.div (.mul (.mul (.mul (.mem .r 0) (.mem .r 0)) (.mem .r 2)) (.mem .r 2)) (.mul (.mul (.mul (.mul (.lit 4) (.mem .r 7)) (.mem .r 7)) (.mem .r 8)) (.mem .r 8))),
  -- 71: preZ0=preZ*(gL-gR)*(gL-gR)*mu*mu/MZ/MZ
  .set .r 14 (.div (.div (.mul (.mul (.mul (.mul (.mem .r 13) (.sub (.mem .r 11) (.mem .r 12))) (.sub (.mem .r 11) (.mem .r 12))) (.mem .r 2)) (.mem .r 2)) (.mem .r 5)) (.mem .r 5))]

/-- `set_momenta` (SM/uuuu2.cpp:73-103); parameters: 0 `mom1`, 1 `mom2`, 2 `mom3`, 3 `mom4` -/
def setMomenta : List SInstr := [
  -- 75: p1.set_momentum(mom1)
  .setMom 0 0,
  -- 76: p2.set_momentum(mom2)
  .setMom 1 1,
  -- 77: p3.set_momentum(mom3)
  .setMom 2 2,
  -- 78: p4.set_momentum(mom4)
  .setMom 3 3,
  -- 79: a13a.update()
  .update 0,
  -- 80: s13s.update()
  .update 1,
  -- 81: a14a.update()
  .update 2,
  -- 82: s14s.update()
  .update 3,
  -- 83: a23a.update()
  .update 4,
  -- 84: s23s.update()
  .update 5,
  -- 85: a24a.update()
  .update 6,
  -- 86: s24s.update()
  .update 7,
  -- 87: s12s.update()
  .update 8,
  -- 88: a12a.update()
  .update 9,
  -- 89: s34s.update()
  .update 10,
  -- 90: a34a.update()
  .update 11,
  -- 97: pDenUAG=propAG.denominator(propPU)
  .den .c 0 0 (.sub 0 3),
  -- 98: pDenUh=proph.denominator(propPU)
  .den .c 1 1 (.sub 0 3),
  -- 99: pDenUZ=propZ.denominator(propPU)
  .den .c 2 2 (.sub 0 3),
  -- 100: pDenTAG=propAG.denominator(propPT)
  .den .c 3 0 (.sub 0 2),
  -- 101: pDenTh=proph.denominator(propPT)
  .den .c 4 1 (.sub 0 2),
  -- 102: pDenTZ=propZ.denominator(propPT)
  .den .c 5 2 (.sub 0 2)]

/-- `cdouble amp_gluon_U(ds1,ds2,ds3,ds4)` (SM/uuuu2.cpp:109-127); variables: i 0 `ds1`, i 1 `ds2`, i 2 `ds3`, i 3 `ds4`, c 0 `amplitude` -/
def m_amp_gluon_U : Method := ⟨4, 
  -- 111: cdouble amplitude
  .seq (.set .c 0 (.ofR (.lit 0))) <|
  -- 121: amplitude=two*gs*gs*(-a13a.v(ds1,ds3)*s24s.v(ds2,ds4)+a12a.v(ds1,ds2)*s34s.v(ds3,ds4)-s13s.v(ds1,ds3)*a24a.v(ds2,ds4)+s12s.v(ds1,ds2)*a34a.v(ds3,ds4))/pDenUAG
  .seq (.set .c 0 (.div (.smul (.mul (.mul (.lit 2) (.mem .r 1)) (.mem .r 1)) (.add (.sub (.add (.mul (.neg (.v 0 [.var 0, .var 2])) (.v 7 [.var 1, .var 3])) (.mul (.v 9 [.var 0, .var 1]) (.v 10 [.var 2, .var 3]))) (.mul (.v 1 [.var 0, .var 2]) (.v 6 [.var 1, .var 3]))) (.mul (.v 8 [.var 0, .var 1]) (.v 11 [.var 2, .var 3])))) (.mem .c 0))) <|
  -- 126: return amplitude
  .ret .c (.loc .c 0)⟩

/-- `cdouble amp_gluon_T(ds1,ds2,ds3,ds4)` (SM/uuuu2.cpp:128-146); variables: i 0 `ds1`, i 1 `ds2`, i 2 `ds3`, i 3 `ds4`, c 0 `amplitude` -/
def m_amp_gluon_T : Method := ⟨4, 
  -- 130: cdouble amplitude
  .seq (.set .c 0 (.ofR (.lit 0))) <|
  -- 140: amplitude=two*gs*gs*(+a14a.v(ds1,ds4)*s23s.v(ds2,ds3)+a12a.v(ds1,ds2)*s34s.v(ds3,ds4)+s14s.v(ds1,ds4)*a23a.v(ds2,ds3)+s12s.v(ds1,ds2)*a34a.v(ds3,ds4))/pDenTAG
  .seq (.set .c 0 (.div (.smul (.mul (.mul (.lit 2) (.mem .r 1)) (.mem .r 1)) (.add (.add (.add (.mul (.v 2 [.var 0, .var 3]) (.v 5 [.var 1, .var 2])) (.mul (.v 9 [.var 0, .var 1]) (.v 10 [.var 2, .var 3]))) (.mul (.v 3 [.var 0, .var 3]) (.v 4 [.var 1, .var 2]))) (.mul (.v 8 [.var 0, .var 1]) (.v 11 [.var 2, .var 3])))) (.mem .c 3))) <|
  -- 145: return amplitude
  .ret .c (.loc .c 0)⟩

/-- `cdouble amp_rest_U(ds1,ds2,ds3,ds4)` (SM/uuuu2.cpp:147-200); variables: i 0 `ds1`, i 1 `ds2`, i 2 `ds3`, i 3 `ds4`, c 0 `amplitude` -/
def m_amp_rest_U : Method := ⟨4, 
  -- 149: cdouble amplitude
  .seq (.set .c 0 (.ofR (.lit 0))) <|
  -- 159: amplitude=two*e*e*4.0/9.0*(-a13a.v(ds1,ds3)*s24s.v(ds2,ds4)+a12a.v(ds1,ds2)*s34s.v(ds3,ds4)-s13s.v(ds1,ds3)*a24a.v(ds2,ds4)+s12s.v(ds1,ds2)*a34a.v(ds3,ds4))/pDenUAG
  .seq (.set .c 0 (.div (.smul (.div (.mul (.mul (.mul (.lit 2) (.mem .r 0)) (.mem .r 0)) (.lit 4)) (.lit 9)) (.add (.sub (.add (.mul (.neg (.v 0 [.var 0, .var 2])) (.v 7 [.var 1, .var 3])) (.mul (.v 9 [.var 0, .var 1]) (.v 10 [.var 2, .var 3]))) (.mul (.v 1 [.var 0, .var 2]) (.v 6 [.var 1, .var 3]))) (.mul (.v 8 [.var 0, .var 1]) (.v 11 [.var 2, .var 3])))) (.mem .c 0))) <|
  -- 173: amplitude+=-preh*(s14s.v(ds1,ds4)-a14a.v(ds1,ds4))*(s23s.v(ds2,ds3)-a23a.v(ds2,ds3))/pDenUh
  .seq (.set .c 0 (.add (.loc .c 0) (.div (.mul (.smul (.neg (.mem .r 10)) (.sub (.v 3 [.var 0, .var 3]) (.v 2 [.var 0, .var 3]))) (.sub (.v 5 [.var 1, .var 2]) (.v 4 [.var 1, .var 2]))) (.mem .c 1)))) <|
  -- 191: amplitude+=+preZ0*(a14a.v(ds1,ds4)+s14s.v(ds1,ds4))*(a23a.v(ds2,ds3)+s23s.v(ds2,ds3))/pDenUZ+two*preZ*(gL*gL*s34s.v(ds3,ds4)*a12a.v(ds1,ds2)-gL*gR*(s13s.v(ds1,ds3)*a24a.v(ds2,ds4)+s24s.v(ds2,ds4)*a13a.v(ds1,ds3))+gR*gR*s12s.v(ds1,ds2)*a34a.v(ds3,ds4))/pDenUZ
  .seq (.set .c 0 (.add (.loc .c 0) (.add (.div (.mul (.smul (.mem .r 14) (.add (.v 2 [.var 0, .var 3]) (.v 3 [.var 0, .var 3]))) (.add (.v 4 [.var 1, .var 2]) (.v 5 [.var 1, .var 2]))) (.mem .c 2)) (.div (.smul (.mul (.lit 2) (.mem .r 13)) (.add (.sub (.mul (.smul (.mul (.mem .r 11) (.mem .r 11)) (.v 10 [.var 2, .var 3])) (.v 9 [.var 0, .var 1])) (.smul (.mul (.mem .r 11) (.mem .r 12)) (.add (.mul (.v 1 [.var 0, .var 2]) (.v 6 [.var 1, .var 3])) (.mul (.v 7 [.var 1, .var 3]) (.v 0 [.var 0, .var 2]))))) (.mul (.smul (.mul (.mem .r 12) (.mem .r 12)) (.v 8 [.var 0, .var 1])) (.v 11 [.var 2, .var 3])))) (.mem .c 2))))) <|
  -- 199: return amplitude
  .ret .c (.loc .c 0)⟩

/-- `cdouble amp_rest_T(ds1,ds2,ds3,ds4)` (SM/uuuu2.cpp:201-249); variables: i 0 `ds1`, i 1 `ds2`, i 2 `ds3`, i 3 `ds4`, c 0 `amplitude` -/
def m_amp_rest_T : Method := ⟨4, 
  -- 203: cdouble amplitude
  .seq (.set .c 0 (.ofR (.lit 0))) <|
  -- 213: amplitude+=two*e*e*4.0/9.0*(+a14a.v(ds1,ds4)*s23s.v(ds2,ds3)+a12a.v(ds1,ds2)*s34s.v(ds3,ds4)+s14s.v(ds1,ds4)*a23a.v(ds2,ds3)+s12s.v(ds1,ds2)*a34a.v(ds3,ds4))/pDenTAG
  .seq (.set .c 0 (.add (.loc .c 0) (.div (.smul (.div (.mul (.mul (.mul (.lit 2) (.mem .r 0)) (.mem .r 0)) (.lit 4)) (.lit 9)) (.add (.add (.add (.mul (.v 2 [.var 0, .var 3]) (.v 5 [.var 1, .var 2])) (.mul (.v 9 [.var 0, .var 1]) (.v 10 [.var 2, .var 3]))) (.mul (.v 3 [.var 0, .var 3]) (.v 4 [.var 1, .var 2]))) (.mul (.v 8 [.var 0, .var 1]) (.v 11 [.var 2, .var 3])))) (.mem .c 3)))) <|
  -- 226: amplitude+=preh*(s13s.v(ds1,ds3)-a13a.v(ds1,ds3))*(s24s.v(ds2,ds4)-a24a.v(ds2,ds4))/pDenTh
  .seq (.set .c 0 (.add (.loc .c 0) (.div (.mul (.smul (.mem .r 10) (.sub (.v 1 [.var 0, .var 2]) (.v 0 [.var 0, .var 2]))) (.sub (.v 7 [.var 1, .var 3]) (.v 6 [.var 1, .var 3]))) (.mem .c 4)))) <|
  -- 240: amplitude+=-preZ0*(a13a.v(ds1,ds3)+s13s.v(ds1,ds3))*(a24a.v(ds2,ds4)+s24s.v(ds2,ds4))/pDenTZ+two*preZ*(gL*gL*s34s.v(ds3,ds4)*a12a.v(ds1,ds2)+gL*gR*(s14s.v(ds1,ds4)*a23a.v(ds2,ds3)+s23s.v(ds2,ds3)*a14a.v(ds1,ds4))+gR*gR*s12s.v(ds1,ds2)*a34a.v(ds3,ds4))/pDenTZ
  .seq (.set .c 0 (.add (.loc .c 0) (.add (.div (.mul (.smul (.neg (.mem .r 14)) (.add (.v 0 [.var 0, .var 2]) (.v 1 [.var 0, .var 2]))) (.add (.v 6 [.var 1, .var 3]) (.v 7 [.var 1, .var 3]))) (.mem .c 5)) (.div (.smul (.mul (.lit 2) (.mem .r 13)) (.add (.add (.mul (.smul (.mul (.mem .r 11) (.mem .r 11)) (.v 10 [.var 2, .var 3])) (.v 9 [.var 0, .var 1])) (.smul (.mul (.mem .r 11) (.mem .r 12)) (.add (.mul (.v 3 [.var 0, .var 3]) (.v 4 [.var 1, .var 2])) (.mul (.v 5 [.var 1, .var 2]) (.v 2 [.var 0, .var 3]))))) (.mul (.smul (.mul (.mem .r 12) (.mem .r 12)) (.v 8 [.var 0, .var 1])) (.v 11 [.var 2, .var 3])))) (.mem .c 5))))) <|
  -- 248: return amplitude
  .ret .c (.loc .c 0)⟩

/-- `ldouble amp2()` (SM/uuuu2.cpp:252-282); variables: r 0 `amp2`, c 0 `M_rest_U`, c 1 `M_gluon_U`, c 2 `M_rest_T`, c 3 `M_gluon_T`, i 0 `j1`, i 1 `j2`, i 2 `j3`, i 3 `j4` -/
def m_amp2 : Method := ⟨0, 
  -- 253: ldouble amp2
  .seq (.set .r 0 (.lit 0)) <|
  -- 255: cdouble M_rest_U
  .seq (.set .c 0 (.ofR (.lit 0))) <|
  -- 255: cdouble M_gluon_U
  .seq (.set .c 1 (.ofR (.lit 0))) <|
  -- 255: cdouble M_rest_T
  .seq (.set .c 2 (.ofR (.lit 0))) <|
  -- 255: cdouble M_gluon_T
  .seq (.set .c 3 (.ofR (.lit 0))) <|
  -- 258: for(int j1=-1;j1<=1;j1+=2)
  .seq (.loop 0 (-1) true (.lit 1) 2 (
    -- 259: for(int j2=-1;j2<=1;j2+=2)
    .loop 1 (-1) true (.lit 1) 2 (
      -- 260: for(int j3=-1;j3<=1;j3+=2)
      .loop 2 (-1) true (.lit 1) 2 (
        -- 261: for(int j4=-1;j4<=1;j4+=2)
        .loop 3 (-1) true (.lit 1) 2 (
          -- 262: M_rest_U=amp_rest_U(j1,j2,j3,j4)
          .seq (.set .c 0 (.call 2 [.var 0, .var 1, .var 2, .var 3])) <|
          -- 263: M_rest_T=amp_rest_T(j1,j2,j3,j4)
          .seq (.set .c 2 (.call 3 [.var 0, .var 1, .var 2, .var 3])) <|
          -- 264: M_gluon_U=amp_gluon_U(j1,j2,j3,j4)
          .seq (.set .c 1 (.call 0 [.var 0, .var 1, .var 2, .var 3])) <|
          -- 265: M_gluon_T=amp_gluon_T(j1,j2,j3,j4)
          .seq (.set .c 3 (.call 1 [.var 0, .var 1, .var 2, .var 3])) <|
          -- 266: amp2+=nine*std::pow(std::abs(M_rest_U),2)
          .seq (.set .r 0 (.add (.loc .r 0) (.mul (.lit 9) (.pow (.abs (.loc .c 0)) 2)))) <|
          -- 267: amp2+=two*std::pow(std::abs(M_gluon_U),2)
          .seq (.set .r 0 (.add (.loc .r 0) (.mul (.lit 2) (.pow (.abs (.loc .c 1)) 2)))) <|
          -- 268: amp2+=nine*std::pow(std::abs(M_rest_T),2)
          .seq (.set .r 0 (.add (.loc .r 0) (.mul (.lit 9) (.pow (.abs (.loc .c 2)) 2)))) <|
          -- 269: amp2+=two*std::pow(std::abs(M_gluon_T),2)
          .seq (.set .r 0 (.add (.loc .r 0) (.mul (.lit 2) (.pow (.abs (.loc .c 3)) 2)))) <|
          -- 272: amp2+=three*two*std::real(M_rest_U*std::conj(M_rest_T))
          .seq (.set .r 0 (.add (.loc .r 0) (.mul (.mul (.lit 3) (.lit 2)) (.re (.mul (.loc .c 0) (.conj (.loc .c 2))))))) <|
          -- 273: amp2+=(-two/three)*two*std::real(M_gluon_U*std::conj(M_gluon_T))
          .seq (.set .r 0 (.add (.loc .r 0) (.mul (.mul (.div (.neg (.lit 2)) (.lit 3)) (.lit 2)) (.re (.mul (.loc .c 1) (.conj (.loc .c 3))))))) <|
          -- 274: amp2+=four*two*std::real(M_gluon_U*std::conj(M_rest_T))
          .seq (.set .r 0 (.add (.loc .r 0) (.mul (.mul (.lit 4) (.lit 2)) (.re (.mul (.loc .c 1) (.conj (.loc .c 2))))))) <|
          -- 275: amp2+=four*two*std::real(M_gluon_T*std::conj(M_rest_U))
          .set .r 0 (.add (.loc .r 0) (.mul (.mul (.lit 4) (.lit 2)) (.re (.mul (.loc .c 3) (.conj (.loc .c 0))))))))))) <|
  -- 281: return amp2/72.0
  .ret .r (.div (.loc .r 0) (.lit 72))⟩

end uuuu2

/-- `class uuuu2` (SM/uuuu2.cpp, SM/include/uuuu2.h:25-34).  Members:
* ldouble: 0 `e`, 1 `gs`, 2 `mu`, 3 `mh`, 4 `wh`, 5 `MZ`, 6 `WZ`, 7 `MW`, 8 `SW`, 9 `CW`, 10 `preh`, 11 `gL`, 12 `gR`, 13 `preZ`, 14 `preZ0`
* cdouble: 0 `pDenUAG`, 1 `pDenUh`, 2 `pDenUZ`, 3 `pDenTAG`, 4 `pDenTh`, 5 `pDenTZ`
* propagator: 0 `propAG`, 1 `proph`, 2 `propZ`
* sproduct: 0 `a13a`, 1 `s13s`, 2 `a14a`, 3 `s14s`, 4 `a23a`, 5 `s23s`, 6 `a24a`, 7 `s24s`, 8 `s12s`, 9 `a12a`, 10 `s34s`, 11 `a34a` -/
def uuuu2 : Proc where
  name := "uuuu2"
  nPar := 8
  ctor := uuuu2.ctor
  setMasses := uuuu2.setMasses
  massPar := [2, 3, 5]
  setMomenta := uuuu2.setMomenta
  methods := [uuuu2.m_amp2, uuuu2.m_amp_rest_T, uuuu2.m_amp_rest_U, uuuu2.m_amp_gluon_T, uuuu2.m_amp_gluon_U]
  amp2 := 4
  others := []

end Spinas.SM.Cls
