import Verif.SM.Lang

/-! Generated by tools/sm/translate.py from SM/*.cpp: eeZh, eeee, eeee2, eeeeQED, eehh, eemm, eemmQED, eenene, eenmnm, eheh, emem, enAW. -/

namespace Spinas.SM.Cls

namespace eeZh

/-- constructor (SM/eeZh.cpp:32-62); parameters: 0 `echarge`, 1 `masse`, 2 `massh`, 3 `widthh`, 4 `massW`, 5 `sinW`, 6 `widthZ` -/
def ctor : List SInstr := [
  -- 32: e(echarge)
  .set .r 0 (.loc .r 0),
  -- 32: me(masse)
  .set .r 1 (.loc .r 1),
  -- 32: mh(massh)
  .set .r 2 (.loc .r 2),
  -- 32: wh(widthh)
  .set .r 3 (.loc .r 3),
  -- 32: MW(massW)
  .set .r 4 (.loc .r 4),
  -- 32: SW(sinW)
  .set .r 5 (.loc .r 5),
  -- 32: CW(std::sqrt(1.0-sinW*sinW))
  .set .r 6 (.sqrt (.sub (.lit 1) (.mul (.loc .r 5) (.loc .r 5)))),
  -- 32: MZ(massW/CW)
  .set .r 7 (.div (.loc .r 4) (.mem .r 6)),
  -- 32: WZ(widthZ)
  .set .r 8 (.loc .r 6),
  -- 32: prope(masse,0)
  .prop 1 (.loc .r 1) (.lit 0),
  -- 35: sqrt2=std::sqrt(two)
  .set .r 9 (.sqrt (.lit 2)),
  -- 36: MZ=MW/CW
  .set .r 7 (.div (.mem .r 4) (.mem .r 6)),
  -- 37: propZ=propagator(MZ,WZ)
  .prop 0 (.mem .r 7) (.mem .r 8),
  -- 38: p1=particle(me)
  .part 0 (.mem .r 1),
  -- 39: p2=particle(me)
  .part 1 (.mem .r 1),
  -- 40: p3=particle(MZ)
  .part 2 (.mem .r 7),
  -- 41: p4=particle(mh)
  .part 3 (.mem .r 2),
  -- 43: s12s=sproduct(SQUARE,&p1,&p2)
  .sprod 0 ⟨false, 0, true, [], 1, true⟩,
  -- 44: a12a=sproduct(ANGLE,&p1,&p2)
  .sprod 1 ⟨true, 0, true, [], 1, true⟩,
  -- 45: s23s=sproduct(SQUARE,&p2,&p3)
  .sprod 2 ⟨false, 1, true, [], 2, true⟩,
  -- 46: a23a=sproduct(ANGLE,&p2,&p3)
  .sprod 3 ⟨true, 1, true, [], 2, true⟩,
  -- 47: s13s=sproduct(SQUARE,&p1,&p3)
  .sprod 4 ⟨false, 0, true, [], 2, true⟩,
  -- 48: a13a=sproduct(ANGLE,&p1,&p3)
  .sprod 5 ⟨true, 0, true, [], 2, true⟩,
  -- 50: s312a=sproduct(SQUARE,&p3,&p1,&p2)
  .sprod 6 ⟨false, 2, true, [0], 1, true⟩,
  -- 51: s213a=sproduct(SQUARE,&p2,&p1,&p3)
  .sprod 7 ⟨false, 1, true, [0], 2, true⟩,
  -- 52: s343a=sproduct(SQUARE,&p3,&p4,&p3)
  .sprod 8 ⟨false, 2, true, [3], 2, true⟩,
  -- 53: s143a=sproduct(SQUARE,&p1,&p4,&p3)
  .sprod 9 ⟨false, 0, true, [3], 2, true⟩,
  -- 54: s341a=sproduct(SQUARE,&p3,&p4,&p1)
  .sprod 10 ⟨false, 2, true, [3], 0, true⟩,
  -- 55: s243a=sproduct(SQUARE,&p2,&p4,&p3)
  .sprod 11 ⟨false, 1, true, [3], 2, true⟩,
  -- 56: s342a=sproduct(SQUARE,&p3,&p4,&p2)
  .sprod 12 ⟨false, 2, true, [3], 1, true⟩,
  -- 58: preTU=sqrt2*e*e*me/(4.0*MW*MW*SW*SW)
  .set .r 10 (.div (.mul (.mul (.mul (.mem .r 9) (.mem .r 0)) (.mem .r 0)) (.mem .r 1)) (.mul (.mul (.mul (.mul (.lit 4) (.mem .r 4)) (.mem .r 4)) (.mem .r 5)) (.mem .r 5))),
  -- 59: gL=2.0*SW*SW-1.0
  .set .r 12 (.sub (.mul (.mul (.lit 2) (.mem .r 5)) (.mem .r 5)) (.lit 1)),
  -- 60: gR=2.0*SW*SW
  .set .r 13 (.mul (.mul (.lit 2) (.mem .r 5)) (.mem .r 5)),
  -- 61: preZ=sqrt2*e*e/(4.0*MW*MW*SW*SW)
  .set .r 11 (.div (.mul (.mul (.mem .r 9) (.mem .r 0)) (.mem .r 0)) (.mul (.mul (.mul (.mul (.lit 4) (.mem .r 4)) (.mem .r 4)) (.mem .r 5)) (.mem .r 5)))]

/-- `set_masses` (SM/eeZh.cpp:63-77); parameters: 0 `masse`, 1 `massh`, 2 `massW` -/
def setMasses : List SInstr := [
  -- 64: me=masse
  .set .r 1 (.loc .r 0),
  -- 65: mh=massh
  .set .r 2 (.loc .r 1),
  -- 66: MW=massW
  .set .r 4 (.loc .r 2),
  -- 67: MZ=MW/CW
  .set .r 7 (.div (.mem .r 4) (.mem .r 6)),
  -- 68: p1.set_mass(me)
  .setMass 0 (.mem .r 1),
  -- 69: p2.set_mass(me)
  .setMass 1 (.mem .r 1),
  -- 70: p3.set_mass(MZ)
  .setMass 2 (.mem .r 7),
  -- 71: p4.set_mass(mh)
  .setMass 3 (.mem .r 2),
  -- 72: prope.set_mass(me)
  .propMass 1 (.mem .r 1),
  -- 73: propZ.set_mass(MZ)
  .propMass 0 (.mem .r 7),
  -- 75: preTU=sqrt2*e*e*me/(4.0*MW*MW*SW*SW)
  .set .r 10 (.div (.mul (.mul (.mul (.mem .r 9) (.mem .r 0)) (.mem .r 0)) (.mem .r 1)) (.mul (.mul (.mul (.mul (.lit 4) (.mem .r 4)) (.mem .r 4)) (.mem .r 5)) (.mem .r 5))),
  -- 76: preZ=sqrt2*e*e/(4.0*MW*MW*SW*SW)
  .set .r 11 (.div (.mul (.mul (.mem .r 9) (.mem .r 0)) (.mem .r 0)) (.mul (.mul (.mul (.mul (.lit 4) (.mem .r 4)) (.mem .r 4)) (.mem .r 5)) (.mem .r 5)))]

/-- `set_momenta` (SM/eeZh.cpp:78-109); parameters: 0 `mom1`, 1 `mom2`, 2 `mom3`, 3 `mom4` -/
def setMomenta : List SInstr := [
  -- 80: p1.set_momentum(mom1)
  .setMom 0 0,
  -- 81: p2.set_momentum(mom2)
  .setMom 1 1,
  -- 82: p3.set_momentum(mom3)
  .setMom 2 2,
  -- 83: p4.set_momentum(mom4)
  .setMom 3 3,
  -- 85: s12s.update()
  .update 0,
  -- 86: a12a.update()
  .update 1,
  -- 87: s23s.update()
  .update 2,
  -- 88: a23a.update()
  .update 3,
  -- 89: s13s.update()
  .update 4,
  -- 90: a13a.update()
  .update 5,
  -- 92: s312a.update()
  .update 6,
  -- 93: s213a.update()
  .update 7,
  -- 94: s343a.update()
  .update 8,
  -- 95: s143a.update()
  .update 9,
  -- 96: s341a.update()
  .update 10,
  -- 97: s243a.update()
  .update 11,
  -- 98: s342a.update()
  .update 12,
  -- 106: pDenS=propZ.denominator(propSP)
  .den .c 0 0 (.add 0 1),
  -- 107: pDenT=prope.denominator(propTP)
  .den .c 1 1 (.sub 0 2),
  -- 108: pDenU=prope.denominator(propUP)
  .den .c 2 1 (.sub 0 3)]

/-- `cdouble amp(ds1,ds2,ds3)` (SM/eeZh.cpp:114-158); variables: i 0 `ds1`, i 1 `ds2`, i 2 `ds3`, c 0 `amplitude`, i 3 `ds3a`, i 4 `ds3b`, i 5 `nCombs`, r 0 `normFactor`, i 6 `i` -/
def m_amp : Method := ⟨3, 
  -- 115: cdouble amplitude
  .seq (.set .c 0 (.ofR (.lit 0))) <|
  -- 119: int nCombs
  .seq (.seti 5 (.loops [2])) <|
  -- 120: ldouble normFactor
  .seq (.set .r 0 (.norm [2])) <|
  -- 121: for(int i=0;i<nCombs;i++)
  .seq (.loop 6 0 false (.var 5) 1 (
    -- 122: get_spinor_spins(ds3,ds3a,ds3b,i)
    .seq (.spins [(2, 3, 4)] (.var 6)) <|
    -- 132: amplitude+=normFactor*preZ*(me*(gL-gR)*(a12a.v(ds1,ds2)-s12s.v(ds1,ds2))*s343a.v(ds3a,ds3b)-2.0*MZ*MZ*(gL*s23s.v(ds2,ds3a)*a13a.v(ds1,ds3b)+gR*a23a.v(ds2,ds3a)*s13s.v(ds1,ds3b)))/pDenS
    .seq (.set .c 0 (.add (.loc .c 0) (.div (.smul (.mul (.loc .r 0) (.mem .r 11)) (.sub (.mul (.smul (.mul (.mem .r 1) (.sub (.mem .r 12) (.mem .r 13))) (.sub (.v 1 [.var 0, .var 1]) (.v 0 [.var 0, .var 1]))) (.v 8 [.var 3, .var 4])) (.smul (.mul (.mul (.lit 2) (.mem .r 7)) (.mem .r 7)) (.add (.mul (.smul (.mem .r 12) (.v 2 [.var 1, .var 3])) (.v 5 [.var 0, .var 4])) (.mul (.smul (.mem .r 13) (.v 3 [.var 1, .var 3])) (.v 4 [.var 0, .var 4])))))) (.mem .c 0)))) <|
    -- 140: amplitude+=normFactor*preTU*(gR*s13s.v(ds1,ds3a)*(-2.0*me*a23a.v(ds2,ds3b)+s243a.v(ds2,ds3b))+gL*a13a.v(ds1,ds3a)*(-2.0*me*s23s.v(ds2,ds3b)+s342a.v(ds3b,ds2)))/pDenT
    .seq (.set .c 0 (.add (.loc .c 0) (.div (.smul (.mul (.loc .r 0) (.mem .r 10)) (.add (.mul (.smul (.mem .r 13) (.v 4 [.var 0, .var 3])) (.add (.smul (.mul (.neg (.lit 2)) (.mem .r 1)) (.v 3 [.var 1, .var 4])) (.v 11 [.var 1, .var 4]))) (.mul (.smul (.mem .r 12) (.v 5 [.var 0, .var 3])) (.add (.smul (.mul (.neg (.lit 2)) (.mem .r 1)) (.v 2 [.var 1, .var 4])) (.v 12 [.var 4, .var 1]))))) (.mem .c 1)))) <|
    -- 151: amplitude+=normFactor*preTU*(gL*s23s.v(ds2,ds3a)*(s143a.v(ds1,ds3b)-2.0*me*a13a.v(ds1,ds3b))+gR*a23a.v(ds2,ds3a)*(s341a.v(ds3b,ds1)-2.0*me*s13s.v(ds1,ds3b)))/pDenU
    .set .c 0 (.add (.loc .c 0) (.div (.smul (.mul (.loc .r 0) (.mem .r 10)) (.add (.mul (.smul (.mem .r 12) (.v 2 [.var 1, .var 3])) (.sub (.v 9 [.var 0, .var 4]) (.smul (.mul (.lit 2) (.mem .r 1)) (.v 5 [.var 0, .var 4])))) (.mul (.smul (.mem .r 13) (.v 3 [.var 1, .var 3])) (.sub (.v 10 [.var 4, .var 0]) (.smul (.mul (.lit 2) (.mem .r 1)) (.v 4 [.var 0, .var 4])))))) (.mem .c 2))))) <|
  -- 157: return amplitude
  .ret .c (.loc .c 0)⟩

/-- `ldouble amp2()` (SM/eeZh.cpp:161-174); variables: r 0 `amp2`, c 0 `M`, i 0 `j1`, i 1 `j2`, i 2 `j3` -/
def m_amp2 : Method := ⟨0, 
  -- 162: ldouble amp2
  .seq (.set .r 0 (.lit 0)) <|
  -- 163: cdouble M
  .seq (.set .c 0 (.ofR (.lit 0))) <|
  -- 166: for(int j1=-1;j1<=1;j1+=2)
  .seq (.loop 0 (-1) true (.lit 1) 2 (
    -- 167: for(int j2=-1;j2<=1;j2+=2)
    .loop 1 (-1) true (.lit 1) 2 (
      -- 168: for(int j3=-2;j3<=2;j3+=2)
      .loop 2 (-2) true (.lit 2) 2 (
        -- 169: M=amp(j1,j2,j3)
        .seq (.set .c 0 (.call 0 [.var 0, .var 1, .var 2])) <|
        -- 170: amp2+=std::pow(std::abs(M),2)
        .set .r 0 (.add (.loc .r 0) (.pow (.abs (.loc .c 0)) 2)))))) <|
  -- 173: return amp2/4.0
  .ret .r (.div (.loc .r 0) (.lit 4))⟩

end eeZh

/-- `class eeZh` (SM/eeZh.cpp, SM/include/eeZh.h:25-36).  Members:
* ldouble: 0 `e`, 1 `me`, 2 `mh`, 3 `wh`, 4 `MW`, 5 `SW`, 6 `CW`, 7 `MZ`, 8 `WZ`, 9 `sqrt2`, 10 `preTU`, 11 `preZ`, 12 `gL`, 13 `gR`
* cdouble: 0 `pDenS`, 1 `pDenT`, 2 `pDenU`
* propagator: 0 `propZ`, 1 `prope`
* sproduct: 0 `s12s`, 1 `a12a`, 2 `s23s`, 3 `a23a`, 4 `s13s`, 5 `a13a`, 6 `s312a`, 7 `s213a`, 8 `s343a`, 9 `s143a`, 10 `s341a`, 11 `s243a`, 12 `s342a` -/
def eeZh : Proc where
  name := "eeZh"
  nPar := 7
  ctor := eeZh.ctor
  setMasses := eeZh.setMasses
  massPar := [1, 2, 4]
  setMomenta := eeZh.setMomenta
  methods := [eeZh.m_amp2, eeZh.m_amp]
  amp2 := 1
  others := []

namespace eeee

/-- constructor (SM/eeee.cpp:32-58); parameters: 0 `echarge`, 1 `masse`, 2 `massh`, 3 `widthh`, 4 `massW`, 5 `sinW`, 6 `widthZ` -/
def ctor : List SInstr := [
  -- 32: e(echarge)
  .set .r 0 (.loc .r 0),
  -- 32: me(masse)
  .set .r 1 (.loc .r 1),
  -- 32: mh(massh)
  .set .r 2 (.loc .r 2),
  -- 32: wh(widthh)
  .set .r 3 (.loc .r 3),
  -- 32: WZ(widthZ)
  .set .r 5 (.loc .r 6),
  -- 32: MW(massW)
  .set .r 6 (.loc .r 4),
  -- 32: SW(sinW)
  .set .r 7 (.loc .r 5),
  -- 32: CW(std::sqrt(1.0-sinW*sinW))
  .set .r 8 (.sqrt (.sub (.lit 1) (.mul (.loc .r 5) (.loc .r 5)))),
  -- 32: p1(particle(me))
  .part 0 (.mem .r 1),
  -- 32: p2(particle(me))
  .part 1 (.mem .r 1),
  -- 32: p3(particle(me))
  .part 2 (.mem .r 1),
  -- 32: p4(particle(me))
  .part 3 (.mem .r 1),
  -- 32: propA(0,0)
  .prop 0 (.lit 0) (.lit 0),
  -- 32: proph(mh,wh)
  .prop 1 (.mem .r 2) (.mem .r 3),
  -- 32: a13a(sproduct(ANGLE,&p1,&p3))
  .sprod 0 ⟨true, 0, true, [], 2, true⟩,
  -- 32: s13s(sproduct(SQUARE,&p1,&p3))
  .sprod 1 ⟨false, 0, true, [], 2, true⟩,
  -- 32: a14a(sproduct(ANGLE,&p1,&p4))
  .sprod 2 ⟨true, 0, true, [], 3, true⟩,
  -- 32: s14s(sproduct(SQUARE,&p1,&p4))
  .sprod 3 ⟨false, 0, true, [], 3, true⟩,
  -- 32: a23a(sproduct(ANGLE,&p2,&p3))
  .sprod 4 ⟨true, 1, true, [], 2, true⟩,
  -- 32: s23s(sproduct(SQUARE,&p2,&p3))
  .sprod 5 ⟨false, 1, true, [], 2, true⟩,
  -- 32: a24a(sproduct(ANGLE,&p2,&p4))
  .sprod 6 ⟨true, 1, true, [], 3, true⟩,
  -- 32: s24s(sproduct(SQUARE,&p2,&p4))
  .sprod 7 ⟨false, 1, true, [], 3, true⟩,
  -- 32: s12s(sproduct(SQUARE,&p1,&p2))
  .sprod 8 ⟨false, 0, true, [], 1, true⟩,
  -- 32: a12a(sproduct(ANGLE,&p1,&p2))
  .sprod 9 ⟨true, 0, true, [], 1, true⟩,
  -- 32: s34s(sproduct(SQUARE,&p3,&p4))
  .sprod 10 ⟨false, 2, true, [], 3, true⟩,
  -- 32: a34a(sproduct(ANGLE,&p3,&p4))
  .sprod 11 ⟨true, 2, true, [], 3, true⟩,
  -- 51: MZ=MW/CW
  .set .r 4 (.div (.mem .r 6) (.mem .r 8)),
  -- 52: propZ.set_mass(MZ)
  .propMass 2 (.mem .r 4),
  -- 53: preh=e*e*me*me/(4.0*MW*MW*SW*SW)
  .set .r 9 (.div (.mul (.mul (.mul (.mem .r 0) (.mem .r 0)) (.mem .r 1)) (.mem .r 1)) (.mul (.mul (.mul (.mul (.lit 4) (.mem .r 6)) (.mem .r 6)) (.mem .r 7)) (.mem .r 7))),
  -- 54: gL=2.0*SW*SW-1.0
  .set .r 10 (.sub (.mul (.mul (.lit 2) (.mem .r 7)) (.mem .r 7)) (.lit 1)),
  -- 55: gR=2.0*SW*SW
  .set .r 11 (.mul (.mul (.lit 2) (.mem .r 7)) (.mem .r 7)),
  -- 56: preZ=e*e/(4.0*CW*CW*SW*SW)
  .set .r 12 (.div (.mul (.mem .r 0) (.mem .r 0)) (.mul (.mul (.mul (.mul (.lit 4) (.mem .r 8)) (.mem .r 8)) (.mem .r 7)) (.mem .r 7))),
  -- 57: preZ0=preZ*(gL-gR)*(gL-gR)*me*me/MZ/MZ
  .set .r 13 (.div (.div (.mul (.mul (.mul (.mul (.mem .r 12) (.sub (.mem .r 10) (.mem .r 11))) (.sub (.mem .r 10) (.mem .r 11))) (.mem .r 1)) (.mem .r 1)) (.mem .r 4)) (.mem .r 4))]

/-- `set_masses` (SM/eeee.cpp:59-72); parameters: 0 `masse`, 1 `massh`, 2 `massW` -/
def setMasses : List SInstr := [
  -- 60: me=masse
  .set .r 1 (.loc .r 0),
  -- 61: mh=massh
  .set .r 2 (.loc .r 1),
  -- 62: proph.set_mass(mh)
  .propMass 1 (.mem .r 2),
  -- 63: MW=massW
  .set .r 6 (.loc .r 2),
  -- 64: MZ=MW/CW
  .set .r 4 (.div (.mem .r 6) (.mem .r 8)),
  -- 65: propZ.set_mass(MZ)
  .propMass 2 (.mem .r 4),
  -- 66: p1.set_mass(me)
  .setMass 0 (.mem .r 1),
  -- 67: p2.set_mass(me)
  .setMass 1 (.mem .r 1),
  -- 68: p3.set_mass(me)
  .setMass 2 (.mem .r 1),
  -- 69: p4.set_mass(me)
  .setMass 3 (.mem .r 1),
  -- 70: preh=e*e*me*me/(4*MW*MW*SW*SW)
  .set .r 9 (.div (.mul (.mul (.mul (.mem .r 0) (.mem .r 0)) (.mem .r 1)) (.mem .r 1)) (.mul (.mul (.mul (.mul (.lit 4) (.mem .r 6)) (.mem .r 6)) (.mem .r 7)) (.mem .r 7))),
  -- 71: preZ0=preZ*(gL-gR)*(gL-gR)*me*me/MZ/MZ
  .set .r 13 (.div (.div (.mul (.mul (.mul (.mul (.mem .r 12) (.sub (.mem .r 10) (.mem .r 11))) (.sub (.mem .r 10) (.mem .r 11))) (.mem .r 1)) (.mem .r 1)) (.mem .r 4)) (.mem .r 4))]

/-- `set_momenta` (SM/eeee.cpp:73-103); parameters: 0 `mom1`, 1 `mom2`, 2 `mom3`, 3 `mom4` -/
def setMomenta : List SInstr := [
  -- 75: p1.set_momentum(mom1)
  .setMom 0 0,
  -- 76: p2.set_momentum(mom2)
  .setMom 1 1,
  -- 77: p3.set_momentum(mom3)
  .setMom 2 2,
  -- 78: p4.set_momentum(mom4)
  .setMom 3 3,
  -- 79: a13a.update()
  .update 0,
  -- 80: s13s.update()
  .update 1,
  -- 81: a14a.update()
  .update 2,
  -- 82: s14s.update()
  .update 3,
  -- 83: a23a.update()
  .update 4,
  -- 84: s23s.update()
  .update 5,
  -- 85: a24a.update()
  .update 6,
  -- 86: s24s.update()
  .update 7,
  -- 87: s12s.update()
  .update 8,
  -- 88: a12a.update()
  .update 9,
  -- 89: s34s.update()
  .update 10,
  -- 90: a34a.update()
  .update 11,
  -- 97: pDenSA=propA.denominator(propPS)
  .den .c 0 0 (.add 0 1),
  -- 98: pDenSh=proph.denominator(propPS)
  .den .c 1 1 (.add 0 1),
  -- 99: pDenSZ=propZ.denominator(propPS)
  .den .c 2 2 (.add 0 1),
  -- 100: pDenTA=propA.denominator(propPT)
  .den .c 3 0 (.sub 0 2),
  -- 101: pDenTh=proph.denominator(propPT)
  .den .c 4 1 (.sub 0 2),
  -- 102: pDenTZ=propZ.denominator(propPT)
  .den .c 5 2 (.sub 0 2)]

/-- `cdouble amp(ds1,ds2,ds3,ds4)` (SM/eeee.cpp:108-184); variables: i 0 `ds1`, i 1 `ds2`, i 2 `ds3`, i 3 `ds4`, c 0 `amplitude` -/
def m_amp : Method := ⟨4, 
  -- 110: cdouble amplitude
  .seq (.set .c 0 (.ofR (.lit 0))) <|
  -- 116: amplitude+=two*e*e*(a13a.v(ds1,ds3)*s24s.v(ds2,ds4)+a14a.v(ds1,ds4)*s23s.v(ds2,ds3)+s13s.v(ds1,ds3)*a24a.v(ds2,ds4)+s14s.v(ds1,ds4)*a23a.v(ds2,ds3))/pDenSA
  .seq (.set .c 0 (.add (.loc .c 0) (.div (.smul (.mul (.mul (.lit 2) (.mem .r 0)) (.mem .r 0)) (.add (.add (.add (.mul (.v 0 [.var 0, .var 2]) (.v 7 [.var 1, .var 3])) (.mul (.v 2 [.var 0, .var 3]) (.v 5 [.var 1, .var 2]))) (.mul (.v 1 [.var 0, .var 2]) (.v 6 [.var 1, .var 3]))) (.mul (.v 3 [.var 0, .var 3]) (.v 4 [.var 1, .var 2])))) (.mem .c 0)))) <|
  -- 125: amplitude+=two*e*e*(a12a.v(ds1,ds2)*s34s.v(ds3,ds4)+a14a.v(ds1,ds4)*s23s.v(ds2,ds3)+s12s.v(ds1,ds2)*a34a.v(ds3,ds4)+s14s.v(ds1,ds4)*a23a.v(ds2,ds3))/pDenTA
  .seq (.set .c 0 (.add (.loc .c 0) (.div (.smul (.mul (.mul (.lit 2) (.mem .r 0)) (.mem .r 0)) (.add (.add (.add (.mul (.v 9 [.var 0, .var 1]) (.v 10 [.var 2, .var 3])) (.mul (.v 2 [.var 0, .var 3]) (.v 5 [.var 1, .var 2]))) (.mul (.v 8 [.var 0, .var 1]) (.v 11 [.var 2, .var 3]))) (.mul (.v 3 [.var 0, .var 3]) (.v 4 [.var 1, .var 2])))) (.mem .c 3)))) <|
  -- 134: amplitude+=preh*(s12s.v(ds1,ds2)+a12a.v(ds1,ds2))*(s34s.v(ds3,ds4)+a34a.v(ds3,ds4))/pDenSh
  .seq (.set .c 0 (.add (.loc .c 0) (.div (.mul (.smul (.mem .r 9) (.add (.v 8 [.var 0, .var 1]) (.v 9 [.var 0, .var 1]))) (.add (.v 10 [.var 2, .var 3]) (.v 11 [.var 2, .var 3]))) (.mem .c 1)))) <|
  -- 140: amplitude+=-preh*(s13s.v(ds1,ds3)-a13a.v(ds1,ds3))*(s24s.v(ds2,ds4)-a24a.v(ds2,ds4))/pDenTh
  .seq (.set .c 0 (.add (.loc .c 0) (.div (.mul (.smul (.neg (.mem .r 9)) (.sub (.v 1 [.var 0, .var 2]) (.v 0 [.var 0, .var 2]))) (.sub (.v 7 [.var 1, .var 3]) (.v 6 [.var 1, .var 3]))) (.mem .c 4)))) <|
  -- 158: amplitude+=-preZ0*(a12a.v(ds1,ds2)-s12s.v(ds1,ds2))*(a34a.v(ds3,ds4)-s34s.v(ds3,ds4))/pDenSZ+two*preZ*(gL*gL*s23s.v(ds2,ds3)*a14a.v(ds1,ds4)+gL*gR*(s13s.v(ds1,ds3)*a24a.v(ds2,ds4)+s24s.v(ds2,ds4)*a13a.v(ds1,ds3))+gR*gR*s14s.v(ds1,ds4)*a23a.v(ds2,ds3))/pDenSZ
  .seq (.set .c 0 (.add (.loc .c 0) (.add (.div (.mul (.smul (.neg (.mem .r 13)) (.sub (.v 9 [.var 0, .var 1]) (.v 8 [.var 0, .var 1]))) (.sub (.v 11 [.var 2, .var 3]) (.v 10 [.var 2, .var 3]))) (.mem .c 2)) (.div (.smul (.mul (.lit 2) (.mem .r 12)) (.add (.add (.mul (.smul (.mul (.mem .r 10) (.mem .r 10)) (.v 5 [.var 1, .var 2])) (.v 2 [.var 0, .var 3])) (.smul (.mul (.mem .r 10) (.mem .r 11)) (.add (.mul (.v 1 [.var 0, .var 2]) (.v 6 [.var 1, .var 3])) (.mul (.v 7 [.var 1, .var 3]) (.v 0 [.var 0, .var 2]))))) (.mul (.smul (.mul (.mem .r 11) (.mem .r 11)) (.v 3 [.var 0, .var 3])) (.v 4 [.var 1, .var 2])))) (.mem .c 2))))) <|
  -- 174: amplitude+=+preZ0*(a13a.v(ds1,ds3)+s13s.v(ds1,ds3))*(a24a.v(ds2,ds4)+s24s.v(ds2,ds4))/pDenTZ+two*preZ*(gL*gL*s23s.v(ds2,ds3)*a14a.v(ds1,ds4)+gL*gR*(s12s.v(ds1,ds2)*a34a.v(ds3,ds4)+s34s.v(ds3,ds4)*a12a.v(ds1,ds2))+gR*gR*s14s.v(ds1,ds4)*a23a.v(ds2,ds3))/pDenTZ
  .seq (.set .c 0 (.add (.loc .c 0) (.add (.div (.mul (.smul (.mem .r 13) (.add (.v 0 [.var 0, .var 2]) (.v 1 [.var 0, .var 2]))) (.add (.v 6 [.var 1, .var 3]) (.v 7 [.var 1, .var 3]))) (.mem .c 5)) (.div (.smul (.mul (.lit 2) (.mem .r 12)) (.add (.add (.mul (.smul (.mul (.mem .r 10) (.mem .r 10)) (.v 5 [.var 1, .var 2])) (.v 2 [.var 0, .var 3])) (.smul (.mul (.mem .r 10) (.mem .r 11)) (.add (.mul (.v 8 [.var 0, .var 1]) (.v 11 [.var 2, .var 3])) (.mul (.v 10 [.var 2, .var 3]) (.v 9 [.var 0, .var 1]))))) (.mul (.smul (.mul (.mem .r 11) (.mem .r 11)) (.v 3 [.var 0, .var 3])) (.v 4 [.var 1, .var 2])))) (.mem .c 5))))) <|
  -- 183: return amplitude
  .ret .c (.loc .c 0)⟩

/-- `ldouble amp2()` (SM/eeee.cpp:187-202); variables: r 0 `amp2`, c 0 `M`, i 0 `j1`, i 1 `j2`, i 2 `j3`, i 3 `j4` -/
def m_amp2 : Method := ⟨0, 
  -- 188: ldouble amp2
  .seq (.set .r 0 (.lit 0)) <|
  -- 189: cdouble M
  .seq (.set .c 0 (.ofR (.lit 0))) <|
  -- 192: for(int j1=-1;j1<=1;j1+=2)
  .seq (.loop 0 (-1) true (.lit 1) 2 (
    -- 193: for(int j2=-1;j2<=1;j2+=2)
    .loop 1 (-1) true (.lit 1) 2 (
      -- 194: for(int j3=-1;j3<=1;j3+=2)
      .loop 2 (-1) true (.lit 1) 2 (
        -- 195: for(int j4=-1;j4<=1;j4+=2)
        .loop 3 (-1) true (.lit 1) 2 (
          -- 197: M=amp(j1,j2,j3,j4)
          .seq (.set .c 0 (.call 0 [.var 0, .var 1, .var 2, .var 3])) <|
          -- 198: amp2+=std::pow(std::abs(M),2)
          .set .r 0 (.add (.loc .r 0) (.pow (.abs (.loc .c 0)) 2))))))) <|
  -- 201: return amp2/4.0
  .ret .r (.div (.loc .r 0) (.lit 4))⟩

end eeee

/-- `class eeee` (SM/eeee.cpp, SM/include/eeee.h:25-33).  Members:
* ldouble: 0 `e`, 1 `me`, 2 `mh`, 3 `wh`, 4 `MZ`, 5 `WZ`, 6 `MW`, 7 `SW`, 8 `CW`, 9 `preh`, 10 `gL`, 11 `gR`, 12 `preZ`, 13 `preZ0`
* cdouble: 0 `pDenSA`, 1 `pDenSh`, 2 `pDenSZ`, 3 `pDenTA`, 4 `pDenTh`, 5 `pDenTZ`
* propagator: 0 `propA`, 1 `proph`, 2 `propZ`
* sproduct: 0 `a13a`, 1 `s13s`, 2 `a14a`, 3 `s14s`, 4 `a23a`, 5 `s23s`, 6 `a24a`, 7 `s24s`, 8 `s12s`, 9 `a12a`, 10 `s34s`, 11 `a34a` -/
def eeee : Proc where
  name := "eeee"
  nPar := 7
  ctor := eeee.ctor
  setMasses := eeee.setMasses
  massPar := [1, 2, 4]
  setMomenta := eeee.setMomenta
  methods := [eeee.m_amp2, eeee.m_amp]
  amp2 := 1
  others := []

namespace eeee2

/-- constructor (SM/eeee2.cpp:32-58); parameters: 0 `echarge`, 1 `masse`, 2 `massh`, 3 `widthh`, 4 `massW`, 5 `sinW`, 6 `widthZ` -/
def ctor : List SInstr := [
  -- 32: e(echarge)
  .set .r 0 (.loc .r 0),
  -- 32: me(masse)
  .set .r 1 (.loc .r 1),
  -- 32: mh(massh)
  .set .r 2 (.loc .r 2),
  -- 32: wh(widthh)
  .set .r 3 (.loc .r 3),
  -- 32: WZ(widthZ)
  .set .r 5 (.loc .r 6),
  -- 32: MW(massW)
  .set .r 6 (.loc .r 4),
  -- 32: SW(sinW)
  .set .r 7 (.loc .r 5),
  -- 32: CW(std::sqrt(1.0-sinW*sinW))
  .set .r 8 (.sqrt (.sub (.lit 1) (.mul (.loc .r 5) (.loc .r 5)))),
  -- 32: p1(particle(me))
  .part 0 (.mem .r 1),
  -- 32: p2(particle(me))
  .part 1 (.mem .r 1),
  -- 32: p3(particle(me))
  .part 2 (.mem .r 1),
  -- 32: p4(particle(me))
  .part 3 (.mem .r 1),
  -- 32: propA(0,0)
  .prop 0 (.lit 0) (.lit 0),
  -- 32: proph(mh,wh)
  .prop 1 (.mem .r 2) (.mem .r 3),
  -- 32: a13a(sproduct(ANGLE,&p1,&p3))
  .sprod 0 ⟨true, 0, true, [], 2, true⟩,
  -- 32: s13s(sproduct(SQUARE,&p1,&p3))
  .sprod 1 ⟨false, 0, true, [], 2, true⟩,
  -- 32: a14a(sproduct(ANGLE,&p1,&p4))
  .sprod 2 ⟨true, 0, true, [], 3, true⟩,
  -- 32: s14s(sproduct(SQUARE,&p1,&p4))
  .sprod 3 ⟨false, 0, true, [], 3, true⟩,
  -- 32: a23a(sproduct(ANGLE,&p2,&p3))
  .sprod 4 ⟨true, 1, true, [], 2, true⟩,
  -- 32: s23s(sproduct(SQUARE,&p2,&p3))
  .sprod 5 ⟨false, 1, true, [], 2, true⟩,
  -- 32: a24a(sproduct(ANGLE,&p2,&p4))
  .sprod 6 ⟨true, 1, true, [], 3, true⟩,
  -- 32: s24s(sproduct(SQUARE,&p2,&p4))
  .sprod 7 ⟨false, 1, true, [], 3, true⟩,
  -- 32: s12s(sproduct(SQUARE,&p1,&p2))
  .sprod 8 ⟨false, 0, true, [], 1, true⟩,
  -- 32: a12a(sproduct(ANGLE,&p1,&p2))
  .sprod 9 ⟨true, 0, true, [], 1, true⟩,
  -- 32: s34s(sproduct(SQUARE,&p3,&p4))
  .sprod 10 ⟨false, 2, true, [], 3, true⟩,
  -- 32: a34a(sproduct(ANGLE,&p3,&p4))
  .sprod 11 ⟨true, 2, true, [], 3, true⟩,
  -- 51: MZ=MW/CW
  .set .r 4 (.div (.mem .r 6) (.mem .r 8)),
  -- 52: propZ.set_mass(MZ)
  .propMass 2 (.mem .r 4),
  -- 53: preh=e*e*me*me/(4.0*MW*MW*SW*SW)
  .set .r 9 (.div (.mul (.mul (.mul (.mem .r 0) (.mem .r 0)) (.mem .r 1)) (.mem .r 1)) (.mul (.mul (.mul (.mul (.lit 4) (.mem .r 6)) (.mem .r 6)) (.mem .r 7)) (.mem .r 7))),
  -- 54: gL=2.0*SW*SW-1.0
  .set .r 10 (.sub (.mul (.mul (.lit 2) (.mem .r 7)) (.mem .r 7)) (.lit 1)),
  -- 55: gR=2.0*SW*SW
  .set .r 11 (.mul (.mul (.lit 2) (.mem .r 7)) (.mem .r 7)),
  -- 56: preZ=e*e/(4.0*CW*CW*SW*SW)
  .set .r 12 (.div (.mul (.mem .r 0) (.mem .r 0)) (.mul (.mul (.mul (.mul (.lit 4) (.mem .r 8)) (.mem .r 8)) (.mem .r 7)) (.mem .r 7))),
  -- 57: preZ0=preZ*(gL-gR)*(gL-gR)*me*me/MZ/MZ
  .set .r 13 (.div (.div (.mul (.mul (.mul (.mul (.mem .r 12) (.sub (.mem .r 10) (.mem .r 11))) (.sub (.mem .r 10) (.mem .r 11))) (.mem .r 1)) (.mem .r 1)) (.mem .r 4)) (.mem .r 4))]

/-- `set_masses` (SM/eeee2.cpp:59-72); parameters: 0 `masse`, 1 `massh`, 2 `massW` -/
def setMasses : List SInstr := [
  -- 60: me=masse
  .set .r 1 (.loc .r 0),
  -- 61: mh=massh
  .set .r 2 (.loc .r 1),
  -- 62: proph.set_mass(mh)
  .propMass 1 (.mem .r 2),
  -- 63: MW=massW
  .set .r 6 (.loc .r 2),
  -- 64: MZ=MW/CW
  .set .r 4 (.div (.mem .r 6) (.mem .r 8)),
  -- 65: propZ.set_mass(MZ)
  .propMass 2 (.mem .r 4),
  -- 66: p1.set_mass(me)
  .setMass 0 (.mem .r 1),
  -- 67: p2.set_mass(me)
  .setMass 1 (.mem .r 1),
  -- 68: p3.set_mass(me)
  .setMass 2 (.mem .r 1),
  -- 69: p4.set_mass(me)
  .setMass 3 (.mem .r 1),
  -- 70: preh=e*e*me*me/(4*MW*MW*SW*SW)
  .set .r 9 (.div (.mul (.mul (.mul (.mem .r 0) (.mem .r 0)) (.mem .r 1)) (.mem .r 1)) (.mul (.mul (.mul (.mul (.lit 4) (.mem .r 6)) (.mem .r 6)) (.mem .r 7)) (.mem .r 7))),
  -- 71: preZ0=preZ*(gL-gR)*(gL-gR)*me*me/MZ/MZ
  .set .r 13 (.div (.div (.mul (.mul (.mul (.mul (.mem .r 12) (.sub (.mem .r 10) (.mem .r 11))) (.sub (.mem .r 10) (.mem .r 11))) (.mem .r 1)) (.mem .r 1)) (.mem .r 4)) (.mem .r 4))]

/-- `set_momenta` (SM/eeee2.cpp:73-103); parameters: 0 `mom1`, 1 `mom2`, 2 `mom3`, 3 `mom4` -/
def setMomenta : List SInstr := [
  -- 75: p1.set_momentum(mom1)
  .setMom 0 0,
  -- 76: p2.set_momentum(mom2)
  .setMom 1 1,
  -- 77: p3.set_momentum(mom3)
  .setMom 2 2,
  -- 78: p4.set_momentum(mom4)
  .setMom 3 3,
  -- 79: a13a.update()
  .update 0,
  -- 80: s13s.update()
  .update 1,
  -- 81: a14a.update()
  .update 2,
  -- 82: s14s.update()
  .update 3,
  -- 83: a23a.update()
  .update 4,
  -- 84: s23s.update()
  .update 5,
  -- 85: a24a.update()
  .update 6,
  -- 86: s24s.update()
  .update 7,
  -- 87: s12s.update()
  .update 8,
  -- 88: a12a.update()
  .update 9,
  -- 89: s34s.update()
  .update 10,
  -- 90: a34a.update()
  .update 11,
  -- 97: pDenUA=propA.denominator(propPU)
  .den .c 0 0 (.sub 0 3),
  -- 98: pDenUh=proph.denominator(propPU)
  .den .c 1 1 (.sub 0 3),
  -- 99: pDenUZ=propZ.denominator(propPU)
  .den .c 2 2 (.sub 0 3),
  -- 100: pDenTA=propA.denominator(propPT)
  .den .c 3 0 (.sub 0 2),
  -- 101: pDenTh=proph.denominator(propPT)
  .den .c 4 1 (.sub 0 2),
  -- 102: pDenTZ=propZ.denominator(propPT)
  .den .c 5 2 (.sub 0 2)]

/-- `cdouble amp(ds1,ds2,ds3,ds4)` (SM/eeee2.cpp:108-203); variables: i 0 `ds1`, i 1 `ds2`, i 2 `ds3`, i 3 `ds4`, c 0 `amplitude` -/
def m_amp : Method := ⟨4, 
  -- 110: cdouble amplitude
  .seq (.set .c 0 (.ofR (.lit 0))) <|
  -- 120: amplitude+=-two*e*e*(+a13a.v(ds1,ds3)*s24s.v(ds2,ds4)-a12a.v(ds1,ds2)*s34s.v(ds3,ds4)+s13s.v(ds1,ds3)*a24a.v(ds2,ds4)-s12s.v(ds1,ds2)*a34a.v(ds3,ds4))/pDenUA
  .seq (.set .c 0 (.add (.loc .c 0) (.div (.smul (.mul (.mul (.neg (.lit 2)) (.mem .r 0)) (.mem .r 0)) (.sub (.add (.sub (.mul (.v 0 [.var 0, .var 2]) (.v 7 [.var 1, .var 3])) (.mul (.v 9 [.var 0, .var 1]) (.v 10 [.var 2, .var 3]))) (.mul (.v 1 [.var 0, .var 2]) (.v 6 [.var 1, .var 3]))) (.mul (.v 8 [.var 0, .var 1]) (.v 11 [.var 2, .var 3])))) (.mem .c 0)))) <|
  -- 133: amplitude+=two*e*e*(+a14a.v(ds1,ds4)*s23s.v(ds2,ds3)+a12a.v(ds1,ds2)*s34s.v(ds3,ds4)+s14s.v(ds1,ds4)*a23a.v(ds2,ds3)+s12s.v(ds1,ds2)*a34a.v(ds3,ds4))/pDenTA
  .seq (.set .c 0 (.add (.loc .c 0) (.div (.smul (.mul (.mul (.lit 2) (.mem .r 0)) (.mem .r 0)) (.add (.add (.add (.mul (.v 2 [.var 0, .var 3]) (.v 5 [.var 1, .var 2])) (.mul (.v 9 [.var 0, .var 1]) (.v 10 [.var 2, .var 3]))) (.mul (.v 3 [.var 0, .var 3]) (.v 4 [.var 1, .var 2]))) (.mul (.v 8 [.var 0, .var 1]) (.v 11 [.var 2, .var 3])))) (.mem .c 3)))) <|
  -- 147: amplitude+=-preh*(s14s.v(ds1,ds4)-a14a.v(ds1,ds4))*(s23s.v(ds2,ds3)-a23a.v(ds2,ds3))/pDenUh
  .seq (.set .c 0 (.add (.loc .c 0) (.div (.mul (.smul (.neg (.mem .r 9)) (.sub (.v 3 [.var 0, .var 3]) (.v 2 [.var 0, .var 3]))) (.sub (.v 5 [.var 1, .var 2]) (.v 4 [.var 1, .var 2]))) (.mem .c 1)))) <|
  -- 156: amplitude+=+preh*(s13s.v(ds1,ds3)-a13a.v(ds1,ds3))*(s24s.v(ds2,ds4)-a24a.v(ds2,ds4))/pDenTh
  .seq (.set .c 0 (.add (.loc .c 0) (.div (.mul (.smul (.mem .r 9) (.sub (.v 1 [.var 0, .var 2]) (.v 0 [.var 0, .var 2]))) (.sub (.v 7 [.var 1, .var 3]) (.v 6 [.var 1, .var 3]))) (.mem .c 4)))) <|
  -- 175: amplitude+=+preZ0*(a14a.v(ds1,ds4)+s14s.v(ds1,ds4))*(a23a.v(ds2,ds3)+s23s.v(ds2,ds3))/pDenUZ+two*preZ*(gL*gL*s34s.v(ds3,ds4)*a12a.v(ds1,ds2)-gL*gR*(s13s.v(ds1,ds3)*a24a.v(ds2,ds4)+s24s.v(ds2,ds4)*a13a.v(ds1,ds3))+gR*gR*s12s.v(ds1,ds2)*a34a.v(ds3,ds4))/pDenUZ
  .seq (.set .c 0 (.add (.loc .c 0) (.add (.div (.mul (.smul (.mem .r 13) (.add (.v 2 [.var 0, .var 3]) (.v 3 [.var 0, .var 3]))) (.add (.v 4 [.var 1, .var 2]) (.v 5 [.var 1, .var 2]))) (.mem .c 2)) (.div (.smul (.mul (.lit 2) (.mem .r 12)) (.add (.sub (.mul (.smul (.mul (.mem .r 10) (.mem .r 10)) (.v 10 [.var 2, .var 3])) (.v 9 [.var 0, .var 1])) (.smul (.mul (.mem .r 10) (.mem .r 11)) (.add (.mul (.v 1 [.var 0, .var 2]) (.v 6 [.var 1, .var 3])) (.mul (.v 7 [.var 1, .var 3]) (.v 0 [.var 0, .var 2]))))) (.mul (.smul (.mul (.mem .r 11) (.mem .r 11)) (.v 8 [.var 0, .var 1])) (.v 11 [.var 2, .var 3])))) (.mem .c 2))))) <|
  -- 193: amplitude+=-preZ0*(a13a.v(ds1,ds3)+s13s.v(ds1,ds3))*(a24a.v(ds2,ds4)+s24s.v(ds2,ds4))/pDenTZ+two*preZ*(gL*gL*s34s.v(ds3,ds4)*a12a.v(ds1,ds2)+gL*gR*(s14s.v(ds1,ds4)*a23a.v(ds2,ds3)+s23s.v(ds2,ds3)*a14a.v(ds1,ds4))+gR*gR*s12s.v(ds1,ds2)*a34a.v(ds3,ds4))/pDenTZ
  .seq (.set .c 0 (.add (.loc .c 0) (.add (.div (.mul (.smul (.neg (.mem .r 13)) (.add (.v 0 [.var 0, .var 2]) (.v 1 [.var 0, .var 2]))) (.add (.v 6 [.var 1, .var 3]) (.v 7 [.var 1, .var 3]))) (.mem .c 5)) (.div (.smul (.mul (.lit 2) (.mem .r 12)) (.add (.add (.mul (.smul (.mul (.mem .r 10) (.mem .r 10)) (.v 10 [.var 2, .var 3])) (.v 9 [.var 0, .var 1])) (.smul (.mul (.mem .r 10) (.mem .r 11)) (.add (.mul (.v 3 [.var 0, .var 3]) (.v 4 [.var 1, .var 2])) (.mul (.v 5 [.var 1, .var 2]) (.v 2 [.var 0, .var 3]))))) (.mul (.smul (.mul (.mem .r 11) (.mem .r 11)) (.v 8 [.var 0, .var 1])) (.v 11 [.var 2, .var 3])))) (.mem .c 5))))) <|
  -- 202: return amplitude
  .ret .c (.loc .c 0)⟩

/-- `ldouble amp2()` (SM/eeee2.cpp:206-222); variables: r 0 `amp2`, c 0 `M`, i 0 `j1`, i 1 `j2`, i 2 `j3`, i 3 `j4` -/
def m_amp2 : Method := ⟨0, 
  -- 207: ldouble amp2
  .seq (.set .r 0 (.lit 0)) <|
  -- 208: cdouble M
  .seq (.set .c 0 (.ofR (.lit 0))) <|
  -- 211: for(int j1=-1;j1<=1;j1+=2)
  .seq (.loop 0 (-1) true (.lit 1) 2 (
    -- 212: for(int j2=-1;j2<=1;j2+=2)
    .loop 1 (-1) true (.lit 1) 2 (
      -- 213: for(int j3=-1;j3<=1;j3+=2)
      .loop 2 (-1) true (.lit 1) 2 (
        -- 214: for(int j4=-1;j4<=1;j4+=2)
        .loop 3 (-1) true (.lit 1) 2 (
          -- 216: M=amp(j1,j2,j3,j4)
          .seq (.set .c 0 (.call 0 [.var 0, .var 1, .var 2, .var 3])) <|
          -- 217: amp2+=std::pow(std::abs(M),2)
          .set .r 0 (.add (.loc .r 0) (.pow (.abs (.loc .c 0)) 2))))))) <|
  -- 221: return amp2/8.0
  .ret .r (.div (.loc .r 0) (.lit 8))⟩

end eeee2

/-- `class eeee2` (SM/eeee2.cpp, SM/include/eeee2.h:25-33).  Members:
* ldouble: 0 `e`, 1 `me`, 2 `mh`, 3 `wh`, 4 `MZ`, 5 `WZ`, 6 `MW`, 7 `SW`, 8 `CW`, 9 `preh`, 10 `gL`, 11 `gR`, 12 `preZ`, 13 `preZ0`
* cdouble: 0 `pDenUA`, 1 `pDenUh`, 2 `pDenUZ`, 3 `pDenTA`, 4 `pDenTh`, 5 `pDenTZ`
* propagator: 0 `propA`, 1 `proph`, 2 `propZ`
* sproduct: 0 `a13a`, 1 `s13s`, 2 `a14a`, 3 `s14s`, 4 `a23a`, 5 `s23s`, 6 `a24a`, 7 `s24s`, 8 `s12s`, 9 `a12a`, 10 `s34s`, 11 `a34a` -/
def eeee2 : Proc where
  name := "eeee2"
  nPar := 7
  ctor := eeee2.ctor
  setMasses := eeee2.setMasses
  massPar := [1, 2, 4]
  setMomenta := eeee2.setMomenta
  methods := [eeee2.m_amp2, eeee2.m_amp]
  amp2 := 1
  others := []

namespace eeeeQED

/-- constructor (SM/eeeeQED.cpp:32-50); parameters: 0 `echarge`, 1 `masse` -/
def ctor : List SInstr := [
  -- 32: e(echarge)
  .set .r 0 (.loc .r 0),
  -- 32: me(masse)
  .set .r 1 (.loc .r 1),
  -- 32: prop(0,0)
  .prop 0 (.lit 0) (.lit 0),
  -- 34: p1=particle(me)
  .part 0 (.mem .r 1),
  -- 35: p2=particle(me)
  .part 1 (.mem .r 1),
  -- 36: p3=particle(me)
  .part 2 (.mem .r 1),
  -- 37: p4=particle(me)
  .part 3 (.mem .r 1),
  -- 38: a13a=sproduct(ANGLE,&p1,&p3)
  .sprod 0 ⟨true, 0, true, [], 2, true⟩,
  -- 39: s13s=sproduct(SQUARE,&p1,&p3)
  .sprod 1 ⟨false, 0, true, [], 2, true⟩,
  -- 40: a14a=sproduct(ANGLE,&p1,&p4)
  .sprod 2 ⟨true, 0, true, [], 3, true⟩,
  -- 41: s14s=sproduct(SQUARE,&p1,&p4)
  .sprod 3 ⟨false, 0, true, [], 3, true⟩,
  -- 42: a23a=sproduct(ANGLE,&p2,&p3)
  .sprod 4 ⟨true, 1, true, [], 2, true⟩,
  -- 43: s23s=sproduct(SQUARE,&p2,&p3)
  .sprod 5 ⟨false, 1, true, [], 2, true⟩,
  -- 44: a24a=sproduct(ANGLE,&p2,&p4)
  .sprod 6 ⟨true, 1, true, [], 3, true⟩,
  -- 45: s24s=sproduct(SQUARE,&p2,&p4)
  .sprod 7 ⟨false, 1, true, [], 3, true⟩,
  -- 46: a12a=sproduct(ANGLE,&p1,&p2)
  .sprod 8 ⟨true, 0, true, [], 1, true⟩,
  -- 47: s34s=sproduct(SQUARE,&p3,&p4)
  .sprod 9 ⟨false, 2, true, [], 3, true⟩,
  -- 48: s12s=sproduct(SQUARE,&p1,&p2)
  .sprod 10 ⟨false, 0, true, [], 1, true⟩,
  -- 49: a34a=sproduct(ANGLE,&p3,&p4)
  .sprod 11 ⟨true, 2, true, [], 3, true⟩]

/-- `set_masses` (SM/eeeeQED.cpp:51-57); parameters: 0 `masse` -/
def setMasses : List SInstr := [
  -- 52: me=masse
  .set .r 1 (.loc .r 0),
  -- 53: p1.set_mass(me)
  .setMass 0 (.mem .r 1),
  -- 54: p2.set_mass(me)
  .setMass 1 (.mem .r 1),
  -- 55: p3.set_mass(me)
  .setMass 2 (.mem .r 1),
  -- 56: p4.set_mass(me)
  .setMass 3 (.mem .r 1)]

/-- `set_momenta` (SM/eeeeQED.cpp:58-84); parameters: 0 `mom1`, 1 `mom2`, 2 `mom3`, 3 `mom4` -/
def setMomenta : List SInstr := [
  -- 60: p1.set_momentum(mom1)
  .setMom 0 0,
  -- 61: p2.set_momentum(mom2)
  .setMom 1 1,
  -- 62: p3.set_momentum(mom3)
  .setMom 2 2,
  -- 63: p4.set_momentum(mom4)
  .setMom 3 3,
  -- 64: a13a.update()
  .update 0,
  -- 65: s13s.update()
  .update 1,
  -- 66: a14a.update()
  .update 2,
  -- 67: s14s.update()
  .update 3,
  -- 68: a23a.update()
  .update 4,
  -- 69: s23s.update()
  .update 5,
  -- 70: a24a.update()
  .update 6,
  -- 71: s24s.update()
  .update 7,
  -- 72: a12a.update()
  .update 8,
  -- 73: s34s.update()
  .update 9,
  -- 74: s12s.update()
  .update 10,
  -- 75: a34a.update()
  .update 11,
  -- 82: pDenS=prop.denominator(propSP)
  .den .c 0 0 (.add 0 1),
  -- 83: pDenT=prop.denominator(propTP)
  .den .c 1 0 (.sub 0 2)]

/-- `cdouble amp(ds1,ds2,ds3,ds4)` (SM/eeeeQED.cpp:91-97); variables: i 0 `ds1`, i 1 `ds2`, i 2 `ds3`, i 3 `ds4` -/
def m_amp : Method := ⟨4, 
  -- 95: return -2.0*e*e*(a13a.v(ds1,ds3)*s24s.v(ds2,ds4)+a14a.v(ds1,ds4)*s23s.v(ds2,ds3)+s13s.v(ds1,ds3)*a24a.v(ds2,ds4)+s14s.v(ds1,ds4)*a23a.v(ds2,ds3))/pDenS-2.0*e*e*(a12a.v(ds1,ds2)*s34s.v(ds3,ds4)+a14a.v(ds1,ds4)*s23s.v(ds2,ds3)+s12s.v(ds1,ds2)*a34a.v(ds3,ds4)+s14s.v(ds1,ds4)*a23a.v(ds2,ds3))/pDenT
  .ret .c (.sub (.div (.smul (.mul (.mul (.neg (.lit 2)) (.mem .r 0)) (.mem .r 0)) (.add (.add (.add (.mul (.v 0 [.var 0, .var 2]) (.v 7 [.var 1, .var 3])) (.mul (.v 2 [.var 0, .var 3]) (.v 5 [.var 1, .var 2]))) (.mul (.v 1 [.var 0, .var 2]) (.v 6 [.var 1, .var 3]))) (.mul (.v 3 [.var 0, .var 3]) (.v 4 [.var 1, .var 2])))) (.mem .c 0)) (.div (.smul (.mul (.mul (.lit 2) (.mem .r 0)) (.mem .r 0)) (.add (.add (.add (.mul (.v 8 [.var 0, .var 1]) (.v 9 [.var 2, .var 3])) (.mul (.v 2 [.var 0, .var 3]) (.v 5 [.var 1, .var 2]))) (.mul (.v 10 [.var 0, .var 1]) (.v 11 [.var 2, .var 3]))) (.mul (.v 3 [.var 0, .var 3]) (.v 4 [.var 1, .var 2])))) (.mem .c 1)))⟩

/-- `ldouble amp2()` (SM/eeeeQED.cpp:99-113); variables: r 0 `amp2`, c 0 `M`, i 0 `j1`, i 1 `j2`, i 2 `j3`, i 3 `j4` -/
def m_amp2 : Method := ⟨0, 
  -- 100: ldouble amp2
  .seq (.set .r 0 (.lit 0)) <|
  -- 101: cdouble M
  .seq (.set .c 0 (.ofR (.lit 0))) <|
  -- 104: for(int j1=-1;j1<=1;j1+=2)
  .seq (.loop 0 (-1) true (.lit 1) 2 (
    -- 105: for(int j2=-1;j2<=1;j2+=2)
    .loop 1 (-1) true (.lit 1) 2 (
      -- 106: for(int j3=-1;j3<=1;j3+=2)
      .loop 2 (-1) true (.lit 1) 2 (
        -- 107: for(int j4=-1;j4<=1;j4+=2)
        .loop 3 (-1) true (.lit 1) 2 (
          -- 108: M=amp(j1,j2,j3,j4)
          .seq (.set .c 0 (.call 0 [.var 0, .var 1, .var 2, .var 3])) <|
          -- 109: amp2+=std::pow(std::abs(M),2)
          .set .r 0 (.add (.loc .r 0) (.pow (.abs (.loc .c 0)) 2))))))) <|
  -- 112: return amp2/4.0
  .ret .r (.div (.loc .r 0) (.lit 4))⟩

end eeeeQED

/-- `class eeeeQED` (SM/eeeeQED.cpp, SM/include/eeeeQED.h:25-32).  Members:
* ldouble: 0 `e`, 1 `me`
* cdouble: 0 `pDenS`, 1 `pDenT`
* propagator: 0 `prop`
* sproduct: 0 `a13a`, 1 `s13s`, 2 `a14a`, 3 `s14s`, 4 `a23a`, 5 `s23s`, 6 `a24a`, 7 `s24s`, 8 `a12a`, 9 `s34s`, 10 `s12s`, 11 `a34a` -/
def eeeeQED : Proc where
  name := "eeeeQED"
  nPar := 2
  ctor := eeeeQED.ctor
  setMasses := eeeeQED.setMasses
  massPar := [1]
  setMomenta := eeeeQED.setMomenta
  methods := [eeeeQED.m_amp2, eeeeQED.m_amp]
  amp2 := 1
  others := []

namespace eehh

/-- constructor (SM/eehh.cpp:32-44); parameters: 0 `echarge`, 1 `masse`, 2 `massh`, 3 `widthh`, 4 `massW`, 5 `sinW` -/
def ctor : List SInstr := [
  -- 32: e(echarge)
  .set .r 0 (.loc .r 0),
  -- 32: me(masse)
  .set .r 1 (.loc .r 1),
  -- 32: mh(massh)
  .set .r 2 (.loc .r 2),
  -- 32: wh(widthh)
  .set .r 3 (.loc .r 3),
  -- 32: MW(massW)
  .set .r 4 (.loc .r 4),
  -- 32: SW(sinW)
  .set .r 5 (.loc .r 5),
  -- 32: p1(particle(me))
  .part 0 (.mem .r 1),
  -- 32: p2(particle(me))
  .part 1 (.mem .r 1),
  -- 32: p3(particle(mh))
  .part 2 (.mem .r 2),
  -- 32: p4(particle(mh))
  .part 3 (.mem .r 2),
  -- 32: proph(mh,wh)
  .prop 0 (.mem .r 2) (.mem .r 3),
  -- 32: prope(me,0)
  .prop 1 (.mem .r 1) (.lit 0),
  -- 32: s12s(sproduct(SQUARE,&p1,&p2))
  .sprod 0 ⟨false, 0, true, [], 1, true⟩,
  -- 32: a12a(sproduct(ANGLE,&p1,&p2))
  .sprod 1 ⟨true, 0, true, [], 1, true⟩,
  -- 32: s132a(sproduct(SQUARE,&p1,&p3,&p2))
  .sprod 2 ⟨false, 0, true, [2], 1, true⟩,
  -- 32: s231a(sproduct(SQUARE,&p2,&p3,&p1))
  .sprod 3 ⟨false, 1, true, [2], 0, true⟩,
  -- 42: prehS=3*e*e*me*mh*mh/(4*MW*MW*SW*SW)
  .set .r 6 (.div (.mul (.mul (.mul (.mul (.mul (.lit 3) (.mem .r 0)) (.mem .r 0)) (.mem .r 1)) (.mem .r 2)) (.mem .r 2)) (.mul (.mul (.mul (.mul (.lit 4) (.mem .r 4)) (.mem .r 4)) (.mem .r 5)) (.mem .r 5))),
  -- 43: prehTU=e*e*me*me/(4.0*MW*MW*SW*SW)
  .set .r 7 (.div (.mul (.mul (.mul (.mem .r 0) (.mem .r 0)) (.mem .r 1)) (.mem .r 1)) (.mul (.mul (.mul (.mul (.lit 4) (.mem .r 4)) (.mem .r 4)) (.mem .r 5)) (.mem .r 5)))]

/-- `set_masses` (SM/eehh.cpp:45-57); parameters: 0 `masse`, 1 `massh`, 2 `massW` -/
def setMasses : List SInstr := [
  -- 46: me=masse
  .set .r 1 (.loc .r 0),
  -- 47: prope.set_mass(me)
  .propMass 1 (.mem .r 1),
  -- 48: mh=massh
  .set .r 2 (.loc .r 1),
  -- 49: proph.set_mass(mh)
  .propMass 0 (.mem .r 2),
  -- 50: MW=massW
  .set .r 4 (.loc .r 2),
  -- 51: p1.set_mass(me)
  .setMass 0 (.mem .r 1),
  -- 52: p2.set_mass(me)
  .setMass 1 (.mem .r 1),
  -- 53: p3.set_mass(mh)
  .setMass 2 (.mem .r 2),
  -- 54: p4.set_mass(mh)
  .setMass 3 (.mem .r 2),
  -- 55: prehS=3.0*e*e*me*mh*mh/(4.0*MW*MW*SW*SW)
  .set .r 6 (.div (.mul (.mul (.mul (.mul (.mul (.lit 3) (.mem .r 0)) (.mem .r 0)) (.mem .r 1)) (.mem .r 2)) (.mem .r 2)) (.mul (.mul (.mul (.mul (.lit 4) (.mem .r 4)) (.mem .r 4)) (.mem .r 5)) (.mem .r 5))),
  -- 56: prehTU=e*e*me*me/(4.0*MW*MW*SW*SW)
  .set .r 7 (.div (.mul (.mul (.mul (.mem .r 0) (.mem .r 0)) (.mem .r 1)) (.mem .r 1)) (.mul (.mul (.mul (.mul (.lit 4) (.mem .r 4)) (.mem .r 4)) (.mem .r 5)) (.mem .r 5)))]

/-- `set_momenta` (SM/eehh.cpp:58-78); parameters: 0 `mom1`, 1 `mom2`, 2 `mom3`, 3 `mom4` -/
def setMomenta : List SInstr := [
  -- 60: p1.set_momentum(mom1)
  .setMom 0 0,
  -- 61: p2.set_momentum(mom2)
  .setMom 1 1,
  -- 62: p3.set_momentum(mom3)
  .setMom 2 2,
  -- 63: p4.set_momentum(mom4)
  .setMom 3 3,
  -- 64: s12s.update()
  .update 0,
  -- 65: a12a.update()
  .update 1,
  -- 66: s132a.update()
  .update 2,
  -- 67: s231a.update()
  .update 3,
  -- 75: pDenSh=proph.denominator(propPS)
  .den .c 0 0 (.add 0 1),
  -- 76: pDenTe=prope.denominator(propPT)
  .den .c 1 1 (.sub 0 2),
  -- 77: pDenUe=prope.denominator(propPU)
  .den .c 2 1 (.sub 0 3)]

/-- `cdouble amp(ds1,ds2)` (SM/eehh.cpp:83-106); variables: i 0 `ds1`, i 1 `ds2`, c 0 `amplitude` -/
def m_amp : Method := ⟨2, 
  -- 85: cdouble amplitude
  .seq (.set .c 0 (.ofR (.lit 0))) <|
  -- 91: amplitude+=-prehS*(s12s.v(ds1,ds2)+a12a.v(ds1,ds2))/pDenSh
  .seq (.set .c 0 (.add (.loc .c 0) (.div (.smul (.neg (.mem .r 6)) (.add (.v 0 [.var 0, .var 1]) (.v 1 [.var 0, .var 1]))) (.mem .c 0)))) <|
  -- 97: amplitude+=-prehTU*(two*me*(s12s.v(ds1,ds2)+a12a.v(ds1,ds2))-s132a.v(ds1,ds2)-s231a.v(ds2,ds1))/pDenTe
  .seq (.set .c 0 (.add (.loc .c 0) (.div (.smul (.neg (.mem .r 7)) (.sub (.sub (.smul (.mul (.lit 2) (.mem .r 1)) (.add (.v 0 [.var 0, .var 1]) (.v 1 [.var 0, .var 1]))) (.v 2 [.var 0, .var 1])) (.v 3 [.var 1, .var 0]))) (.mem .c 1)))) <|
  -- 103: amplitude+=-prehTU*(two*me*(s12s.v(ds1,ds2)+a12a.v(ds1,ds2))+s132a.v(ds1,ds2)+s231a.v(ds2,ds1))/pDenUe
  .seq (.set .c 0 (.add (.loc .c 0) (.div (.smul (.neg (.mem .r 7)) (.add (.add (.smul (.mul (.lit 2) (.mem .r 1)) (.add (.v 0 [.var 0, .var 1]) (.v 1 [.var 0, .var 1]))) (.v 2 [.var 0, .var 1])) (.v 3 [.var 1, .var 0]))) (.mem .c 2)))) <|
  -- 105: return amplitude
  .ret .c (.loc .c 0)⟩

/-- `ldouble amp2()` (SM/eehh.cpp:109-122); variables: r 0 `amp2`, c 0 `M`, i 0 `j1`, i 1 `j2` -/
def m_amp2 : Method := ⟨0, 
  -- 110: ldouble amp2
  .seq (.set .r 0 (.lit 0)) <|
  -- 111: cdouble M
  .seq (.set .c 0 (.ofR (.lit 0))) <|
  -- 114: for(int j1=-1;j1<=1;j1+=2)
  .seq (.loop 0 (-1) true (.lit 1) 2 (
    -- 115: for(int j2=-1;j2<=1;j2+=2)
    .loop 1 (-1) true (.lit 1) 2 (
      -- 116: M=amp(j1,j2)
      .seq (.set .c 0 (.call 0 [.var 0, .var 1])) <|
      -- 117: amp2+=std::pow(std::abs(M),2)
      .set .r 0 (.add (.loc .r 0) (.pow (.abs (.loc .c 0)) 2))))) <|
  -- 121: return amp2/8.0
  .ret .r (.div (.loc .r 0) (.lit 8))⟩

end eehh

/-- `class eehh` (SM/eehh.cpp, SM/include/eehh.h:25-32).  Members:
* ldouble: 0 `e`, 1 `me`, 2 `mh`, 3 `wh`, 4 `MW`, 5 `SW`, 6 `prehS`, 7 `prehTU`
* cdouble: 0 `pDenSh`, 1 `pDenTe`, 2 `pDenUe`
* propagator: 0 `proph`, 1 `prope`
* sproduct: 0 `s12s`, 1 `a12a`, 2 `s132a`, 3 `s231a` -/
def eehh : Proc where
  name := "eehh"
  nPar := 6
  ctor := eehh.ctor
  setMasses := eehh.setMasses
  massPar := [1, 2, 4]
  setMomenta := eehh.setMomenta
  methods := [eehh.m_amp2, eehh.m_amp]
  amp2 := 1
  others := []

namespace eemm

/-- constructor (SM/eemm.cpp:32-61); parameters: 0 `echarge`, 1 `masse`, 2 `massmu`, 3 `massh`, 4 `widthh`, 5 `massW`, 6 `sinW`, 7 `widthZ` -/
def ctor : List SInstr := [
  -- 32: e(echarge)
  .set .r 0 (.loc .r 0),
  -- 32: me(masse)
  .set .r 1 (.loc .r 1),
  -- 32: mm(massmu)
  .set .r 2 (.loc .r 2),
  -- 32: mh(massh)
  .set .r 3 (.loc .r 3),
  -- 32: wh(widthh)
  .set .r 4 (.loc .r 4),
  -- 32: WZ(widthZ)
  .set .r 6 (.loc .r 7),
  -- 32: MW(massW)
  .set .r 7 (.loc .r 5),
  -- 32: SW(sinW)
  .set .r 8 (.loc .r 6),
  -- 32: CW(std::sqrt(1.0-sinW*sinW))
  .set .r 9 (.sqrt (.sub (.lit 1) (.mul (.loc .r 6) (.loc .r 6)))),
  -- 32: p1(particle(me))
  .part 0 (.mem .r 1),
  -- 32: p2(particle(me))
  .part 1 (.mem .r 1),
  -- 32: p3(particle(mm))
  .part 2 (.mem .r 2),
  -- 32: p4(particle(mm))
  .part 3 (.mem .r 2),
  -- 32: propA(0,0)
  .prop 0 (.lit 0) (.lit 0),
  -- 32: proph(mh,wh)
  .prop 1 (.mem .r 3) (.mem .r 4),
  -- 32: a13a(sproduct(ANGLE,&p1,&p3))
  .sprod 0 ⟨true, 0, true, [], 2, true⟩,
  -- 32: s13s(sproduct(SQUARE,&p1,&p3))
  .sprod 1 ⟨false, 0, true, [], 2, true⟩,
  -- 32: a14a(sproduct(ANGLE,&p1,&p4))
  .sprod 2 ⟨true, 0, true, [], 3, true⟩,
  -- 32: s14s(sproduct(SQUARE,&p1,&p4))
  .sprod 3 ⟨false, 0, true, [], 3, true⟩,
  -- 32: a23a(sproduct(ANGLE,&p2,&p3))
  .sprod 4 ⟨true, 1, true, [], 2, true⟩,
  -- 32: s23s(sproduct(SQUARE,&p2,&p3))
  .sprod 5 ⟨false, 1, true, [], 2, true⟩,
  -- 32: a24a(sproduct(ANGLE,&p2,&p4))
  .sprod 6 ⟨true, 1, true, [], 3, true⟩,
  -- 32: s24s(sproduct(SQUARE,&p2,&p4))
  .sprod 7 ⟨false, 1, true, [], 3, true⟩,
  -- 32: s12s(sproduct(SQUARE,&p1,&p2))
  .sprod 8 ⟨false, 0, true, [], 1, true⟩,
  -- 32: a12a(sproduct(ANGLE,&p1,&p2))
  .sprod 9 ⟨true, 0, true, [], 1, true⟩,
  -- 32: s34s(sproduct(SQUARE,&p3,&p4))
  .sprod 10 ⟨false, 2, true, [], 3, true⟩,
  -- 32: a34a(sproduct(ANGLE,&p3,&p4))
  .sprod 11 ⟨true, 2, true, [], 3, true⟩,
  -- 51: MZ=MW/CW
  .set .r 5 (.div (.mem .r 7) (.mem .r 9)),
  -- 52: propZ.set_mass(MZ)
  .propMass 2 (.mem .r 5),
  -- 53: preh=e*e*me*mm/(4.0*MW*MW*SW*SW)
  .set .r 10 (.div (.mul (.mul (.mul (.mem .r 0) (.mem .r 0)) (.mem .r 1)) (.mem .r 2)) (.mul (.mul (.mul (.mul (.lit 4) (.mem .r 7)) (.mem .r 7)) (.mem .r 8)) (.mem .r 8))),
  -- 54: gL=2.0*SW*SW-1.0
  .set .r 11 (.sub (.mul (.mul (.lit 2) (.mem .r 8)) (.mem .r 8)) (.lit 1)),
  -- 55: gR=2.0*SW*SW
  .set .r 12 (.mul (.mul (.lit 2) (.mem .r 8)) (.mem .r 8)),
  -- 56: preZ=e*e/(4.0*CW*CW*SW*SW)
  .set .r 13 (.div (.mul (.mem .r 0) (.mem .r 0)) (.mul (.mul (.mul (.mul (.lit 4) (.mem .r 9)) (.mem .r 9)) (.mem .r 8)) (.mem .r 8))),
  -- 57: preZ0=preZ*(gL-gR)*(gL-gR)*me*mm/MZ/MZ
  .set .r 14 (.div (.div (.mul (.mul (.mul (.mul (.mem .r 13) (.sub (.mem .r 11) (.mem .r 12))) (.sub (.mem .r 11) (.mem .r 12))) (.mem .r 1)) (.mem .r 2)) (.mem .r 5)) (.mem .r 5)),
  -- 58: preZLL=preZ*2.0*gL*gL
  .set .r 15 (.mul (.mul (.mul (.mem .r 13) (.lit 2)) (.mem .r 11)) (.mem .r 11)),
  -- 59: preZLR=preZ*2.0*gL*gR
  .set .r 16 (.mul (.mul (.mul (.mem .r 13) (.lit 2)) (.mem .r 11)) (.mem .r 12)),
  -- 60: preZRR=preZ*2.0*gR*gR
  .set .r 17 (.mul (.mul (.mul (.mem .r 13) (.lit 2)) (.mem .r 12)) (.mem .r 12))]

/-- `set_masses` (SM/eemm.cpp:62-76); parameters: 0 `masse`, 1 `massmu`, 2 `massh`, 3 `massW` -/
def setMasses : List SInstr := [
  -- 63: me=masse
  .set .r 1 (.loc .r 0),
  -- 64: mm=massmu
  .set .r 2 (.loc .r 1),
  -- 65: mh=massh
  .set .r 3 (.loc .r 2),
  -- 66: proph.set_mass(mh)
  .propMass 1 (.mem .r 3),
  -- 67: MW=massW
  .set .r 7 (.loc .r 3),
  -- 68: MZ=MW/CW
  .set .r 5 (.div (.mem .r 7) (.mem .r 9)),
  -- 69: propZ.set_mass(MZ)
  .propMass 2 (.mem .r 5),
  -- 70: p1.set_mass(me)
  .setMass 0 (.mem .r 1),
  -- 71: p2.set_mass(me)
  .setMass 1 (.mem .r 1),
  -- 72: p3.set_mass(mm)
  .setMass 2 (.mem .r 2),
  -- 73: p4.set_mass(mm)
  .setMass 3 (.mem .r 2),
  -- 74: preh=e*e*me*mm/(4*MW*MW*SW*SW)
  .set .r 10 (.div (.mul (.mul (.mul (.mem .r 0) (.mem .r 0)) (.mem .r 1)) (.mem .r 2)) (.mul (.mul (.mul (.mul (.lit 4) (.mem .r 7)) (.mem .r 7)) (.mem .r 8)) (.mem .r 8))),
  -- 75: preZ0=preZ*(gL-gR)*(gL-gR)*me*mm/MZ/MZ
  .set .r 14 (.div (.div (.mul (.mul (.mul (.mul (.mem .r 13) (.sub (.mem .r 11) (.mem .r 12))) (.sub (.mem .r 11) (.mem .r 12))) (.mem .r 1)) (.mem .r 2)) (.mem .r 5)) (.mem .r 5))]

/-- `set_momenta` (SM/eemm.cpp:77-102); parameters: 0 `mom1`, 1 `mom2`, 2 `mom3`, 3 `mom4` -/
def setMomenta : List SInstr := [
  -- 79: p1.set_momentum(mom1)
  .setMom 0 0,
  -- 80: p2.set_momentum(mom2)
  .setMom 1 1,
  -- 81: p3.set_momentum(mom3)
  .setMom 2 2,
  -- 82: p4.set_momentum(mom4)
  .setMom 3 3,
  -- 83: a13a.update()
  .update 0,
  -- 84: s13s.update()
  .update 1,
  -- 85: a14a.update()
  .update 2,
  -- 86: s14s.update()
  .update 3,
  -- 87: a23a.update()
  .update 4,
  -- 88: s23s.update()
  .update 5,
  -- 89: a24a.update()
  .update 6,
  -- 90: s24s.update()
  .update 7,
  -- 91: s12s.update()
  .update 8,
  -- 92: a12a.update()
  .update 9,
  -- 93: s34s.update()
  .update 10,
  -- 94: a34a.update()
  .update 11,
  -- 99: pDenSA=propA.denominator(propP)
  .den .c 0 0 (.add 0 1),
  -- 100: pDenSh=proph.denominator(propP)
  .den .c 1 1 (.add 0 1),
  -- 101: pDenSZ=propZ.denominator(propP)
  .den .c 2 2 (.add 0 1)]

/-- `cdouble amp(ds1,ds2,ds3,ds4)` (SM/eemm.cpp:107-150); variables: i 0 `ds1`, i 1 `ds2`, i 2 `ds3`, i 3 `ds4`, c 0 `amplitude` -/
def m_amp : Method := ⟨4, 
  -- 109: cdouble amplitude
  .seq (.set .c 0 (.ofR (.lit 0))) <|
  -- 114: amplitude+=two*e*e*(a13a.v(ds1,ds3)*s24s.v(ds2,ds4)+a14a.v(ds1,ds4)*s23s.v(ds2,ds3)+s13s.v(ds1,ds3)*a24a.v(ds2,ds4)+s14s.v(ds1,ds4)*a23a.v(ds2,ds3))/pDenSA
  .seq (.set .c 0 (.add (.loc .c 0) (.div (.smul (.mul (.mul (.lit 2) (.mem .r 0)) (.mem .r 0)) (.add (.add (.add (.mul (.v 0 [.var 0, .var 2]) (.v 7 [.var 1, .var 3])) (.mul (.v 2 [.var 0, .var 3]) (.v 5 [.var 1, .var 2]))) (.mul (.v 1 [.var 0, .var 2]) (.v 6 [.var 1, .var 3]))) (.mul (.v 3 [.var 0, .var 3]) (.v 4 [.var 1, .var 2])))) (.mem .c 0)))) <|
  -- 122: amplitude+=preh*(s12s.v(ds1,ds2)+a12a.v(ds1,ds2))*(s34s.v(ds3,ds4)+a34a.v(ds3,ds4))/pDenSh
  .seq (.set .c 0 (.add (.loc .c 0) (.div (.mul (.smul (.mem .r 10) (.add (.v 8 [.var 0, .var 1]) (.v 9 [.var 0, .var 1]))) (.add (.v 10 [.var 2, .var 3]) (.v 11 [.var 2, .var 3]))) (.mem .c 1)))) <|
  -- 141: amplitude+=-preZ0*(a12a.v(ds1,ds2)-s12s.v(ds1,ds2))*(a34a.v(ds3,ds4)-s34s.v(ds3,ds4))/pDenSZ+two*preZ*(gL*gL*s23s.v(ds2,ds3)*a14a.v(ds1,ds4)+gL*gR*(s13s.v(ds1,ds3)*a24a.v(ds2,ds4)+s24s.v(ds2,ds4)*a13a.v(ds1,ds3))+gR*gR*s14s.v(ds1,ds4)*a23a.v(ds2,ds3))/pDenSZ
  .seq (.set .c 0 (.add (.loc .c 0) (.add (.div (.mul (.smul (.neg (.mem .r 14)) (.sub (.v 9 [.var 0, .var 1]) (.v 8 [.var 0, .var 1]))) (.sub (.v 11 [.var 2, .var 3]) (.v 10 [.var 2, .var 3]))) (.mem .c 2)) (.div (.smul (.mul (.lit 2) (.mem .r 13)) (.add (.add (.mul (.smul (.mul (.mem .r 11) (.mem .r 11)) (.v 5 [.var 1, .var 2])) (.v 2 [.var 0, .var 3])) (.smul (.mul (.mem .r 11) (.mem .r 12)) (.add (.mul (.v 1 [.var 0, .var 2]) (.v 6 [.var 1, .var 3])) (.mul (.v 7 [.var 1, .var 3]) (.v 0 [.var 0, .var 2]))))) (.mul (.smul (.mul (.mem .r 12) (.mem .r 12)) (.v 3 [.var 0, .var 3])) (.v 4 [.var 1, .var 2])))) (.mem .c 2))))) <|
  -- 149: return amplitude
  .ret .c (.loc .c 0)⟩

/-- `ldouble amp2()` (SM/eemm.cpp:153-168); variables: r 0 `amp2`, c 0 `M`, i 0 `j1`, i 1 `j2`, i 2 `j3`, i 3 `j4` -/
def m_amp2 : Method := ⟨0, 
  -- 154: ldouble amp2
  .seq (.set .r 0 (.lit 0)) <|
  -- 155: cdouble M
  .seq (.set .c 0 (.ofR (.lit 0))) <|
  -- 158: for(int j1=-1;j1<=1;j1+=2)
  .seq (.loop 0 (-1) true (.lit 1) 2 (
    -- 159: for(int j2=-1;j2<=1;j2+=2)
    .loop 1 (-1) true (.lit 1) 2 (
      -- 160: for(int j3=-1;j3<=1;j3+=2)
      .loop 2 (-1) true (.lit 1) 2 (
        -- 161: for(int j4=-1;j4<=1;j4+=2)
        .loop 3 (-1) true (.lit 1) 2 (
          -- 163: M=amp(j1,j2,j3,j4)
          .seq (.set .c 0 (.call 0 [.var 0, .var 1, .var 2, .var 3])) <|
          -- 164: amp2+=std::pow(std::abs(M),2)
          .set .r 0 (.add (.loc .r 0) (.pow (.abs (.loc .c 0)) 2))))))) <|
  -- 167: return amp2/4.0
  .ret .r (.div (.loc .r 0) (.lit 4))⟩

end eemm

/-- `class eemm` (SM/eemm.cpp, SM/include/eemm.h:25-33).  Members:
* ldouble: 0 `e`, 1 `me`, 2 `mm`, 3 `mh`, 4 `wh`, 5 `MZ`, 6 `WZ`, 7 `MW`, 8 `SW`, 9 `CW`, 10 `preh`, 11 `gL`, 12 `gR`, 13 `preZ`, 14 `preZ0`, 15 `preZLL`, 16 `preZLR`, 17 `preZRR`
* cdouble: 0 `pDenSA`, 1 `pDenSh`, 2 `pDenSZ`
* propagator: 0 `propA`, 1 `proph`, 2 `propZ`
* sproduct: 0 `a13a`, 1 `s13s`, 2 `a14a`, 3 `s14s`, 4 `a23a`, 5 `s23s`, 6 `a24a`, 7 `s24s`, 8 `s12s`, 9 `a12a`, 10 `s34s`, 11 `a34a` -/
def eemm : Proc where
  name := "eemm"
  nPar := 8
  ctor := eemm.ctor
  setMasses := eemm.setMasses
  massPar := [1, 2, 3, 5]
  setMomenta := eemm.setMomenta
  methods := [eemm.m_amp2, eemm.m_amp]
  amp2 := 1
  others := []

namespace eemmQED

/-- constructor (SM/eemmQED.cpp:32-44); parameters: 0 `echarge`, 1 `masse`, 2 `massmu` -/
def ctor : List SInstr := [
  -- 32: e(echarge)
  .set .r 0 (.loc .r 0),
  -- 32: me(masse)
  .set .r 1 (.loc .r 1),
  -- 32: mm(massmu)
  .set .r 2 (.loc .r 2),
  -- 32: p1(particle(me))
  .part 0 (.mem .r 1),
  -- 32: p2(particle(me))
  .part 1 (.mem .r 1),
  -- 32: p3(particle(mm))
  .part 2 (.mem .r 2),
  -- 32: p4(particle(mm))
  .part 3 (.mem .r 2),
  -- 32: prop(0,0)
  .prop 0 (.lit 0) (.lit 0),
  -- 32: a13a(sproduct(ANGLE,&p1,&p3))
  .sprod 0 ⟨true, 0, true, [], 2, true⟩,
  -- 32: s13s(sproduct(SQUARE,&p1,&p3))
  .sprod 1 ⟨false, 0, true, [], 2, true⟩,
  -- 32: a14a(sproduct(ANGLE,&p1,&p4))
  .sprod 2 ⟨true, 0, true, [], 3, true⟩,
  -- 32: s14s(sproduct(SQUARE,&p1,&p4))
  .sprod 3 ⟨false, 0, true, [], 3, true⟩,
  -- 32: a23a(sproduct(ANGLE,&p2,&p3))
  .sprod 4 ⟨true, 1, true, [], 2, true⟩,
  -- 32: s23s(sproduct(SQUARE,&p2,&p3))
  .sprod 5 ⟨false, 1, true, [], 2, true⟩,
  -- 32: a24a(sproduct(ANGLE,&p2,&p4))
  .sprod 6 ⟨true, 1, true, [], 3, true⟩,
  -- 32: s24s(sproduct(SQUARE,&p2,&p4))
  .sprod 7 ⟨false, 1, true, [], 3, true⟩]

/-- `set_masses` (SM/eemmQED.cpp:45-52); parameters: 0 `masse`, 1 `massmu` -/
def setMasses : List SInstr := [
  -- 46: me=masse
  .set .r 1 (.loc .r 0),
  -- 47: mm=massmu
  .set .r 2 (.loc .r 1),
  -- 48: p1.set_mass(me)
  .setMass 0 (.mem .r 1),
  -- 49: p2.set_mass(me)
  .setMass 1 (.mem .r 1),
  -- 50: p3.set_mass(mm)
  .setMass 2 (.mem .r 2),
  -- 51: p4.set_mass(mm)
  .setMass 3 (.mem .r 2)]

/-- `set_momenta` (SM/eemmQED.cpp:53-72); parameters: 0 `mom1`, 1 `mom2`, 2 `mom3`, 3 `mom4` -/
def setMomenta : List SInstr := [
  -- 55: p1.set_momentum(mom1)
  .setMom 0 0,
  -- 56: p2.set_momentum(mom2)
  .setMom 1 1,
  -- 57: p3.set_momentum(mom3)
  .setMom 2 2,
  -- 58: p4.set_momentum(mom4)
  .setMom 3 3,
  -- 59: a13a.update()
  .update 0,
  -- 60: s13s.update()
  .update 1,
  -- 61: a14a.update()
  .update 2,
  -- 62: s14s.update()
  .update 3,
  -- 63: a23a.update()
  .update 4,
  -- 64: s23s.update()
  .update 5,
  -- 65: a24a.update()
  .update 6,
  -- 66: s24s.update()
  .update 7,
  -- 71: pDenS=prop.denominator(propP)
  .den .c 0 0 (.add 0 1)]

/-- `cdouble amp(ds1,ds2,ds3,ds4)` (SM/eemmQED.cpp:77-81); variables: i 0 `ds1`, i 1 `ds2`, i 2 `ds3`, i 3 `ds4` -/
def m_amp : Method := ⟨4, 
  -- 80: return -2.0*e*e*(a13a.v(ds1,ds3)*s24s.v(ds2,ds4)+a14a.v(ds1,ds4)*s23s.v(ds2,ds3)+s13s.v(ds1,ds3)*a24a.v(ds2,ds4)+s14s.v(ds1,ds4)*a23a.v(ds2,ds3))/pDenS
  .ret .c (.div (.smul (.mul (.mul (.neg (.lit 2)) (.mem .r 0)) (.mem .r 0)) (.add (.add (.add (.mul (.v 0 [.var 0, .var 2]) (.v 7 [.var 1, .var 3])) (.mul (.v 2 [.var 0, .var 3]) (.v 5 [.var 1, .var 2]))) (.mul (.v 1 [.var 0, .var 2]) (.v 6 [.var 1, .var 3]))) (.mul (.v 3 [.var 0, .var 3]) (.v 4 [.var 1, .var 2])))) (.mem .c 0))⟩

/-- `ldouble amp2()` (SM/eemmQED.cpp:83-97); variables: r 0 `amp2`, c 0 `M`, i 0 `j1`, i 1 `j2`, i 2 `j3`, i 3 `j4` -/
def m_amp2 : Method := ⟨0, 
  -- 84: ldouble amp2
  .seq (.set .r 0 (.lit 0)) <|
  -- 85: cdouble M
  .seq (.set .c 0 (.ofR (.lit 0))) <|
  -- 88: for(int j1=-1;j1<=1;j1+=2)
  .seq (.loop 0 (-1) true (.lit 1) 2 (
    -- 89: for(int j2=-1;j2<=1;j2+=2)
    .loop 1 (-1) true (.lit 1) 2 (
      -- 90: for(int j3=-1;j3<=1;j3+=2)
      .loop 2 (-1) true (.lit 1) 2 (
        -- 91: for(int j4=-1;j4<=1;j4+=2)
        .loop 3 (-1) true (.lit 1) 2 (
          -- 92: M=amp(j1,j2,j3,j4)
          .seq (.set .c 0 (.call 0 [.var 0, .var 1, .var 2, .var 3])) <|
          -- 93: amp2+=std::pow(std::abs(M),2)
          .set .r 0 (.add (.loc .r 0) (.pow (.abs (.loc .c 0)) 2))))))) <|
  -- 96: return amp2/4.0
  .ret .r (.div (.loc .r 0) (.lit 4))⟩

end eemmQED

/-- `class eemmQED` (SM/eemmQED.cpp, SM/include/eemmQED.h:25-31).  Members:
* ldouble: 0 `e`, 1 `me`, 2 `mm`
* cdouble: 0 `pDenS`
* propagator: 0 `prop`
* sproduct: 0 `a13a`, 1 `s13s`, 2 `a14a`, 3 `s14s`, 4 `a23a`, 5 `s23s`, 6 `a24a`, 7 `s24s` -/
def eemmQED : Proc where
  name := "eemmQED"
  nPar := 3
  ctor := eemmQED.ctor
  setMasses := eemmQED.setMasses
  massPar := [1, 2]
  setMomenta := eemmQED.setMomenta
  methods := [eemmQED.m_amp2, eemmQED.m_amp]
  amp2 := 1
  others := []

namespace eenene

/-- constructor (SM/eenene.cpp:32-56); parameters: 0 `echarge`, 1 `masse`, 2 `massW`, 3 `widthW`, 4 `sinW`, 5 `widthZ` -/
def ctor : List SInstr := [
  -- 32: e(echarge)
  .set .r 0 (.loc .r 0),
  -- 32: me(masse)
  .set .r 1 (.loc .r 1),
  -- 32: WZ(widthZ)
  .set .r 3 (.loc .r 5),
  -- 32: MW(massW)
  .set .r 4 (.loc .r 2),
  -- 32: WW(widthW)
  .set .r 5 (.loc .r 3),
  -- 32: SW(sinW)
  .set .r 6 (.loc .r 4),
  -- 32: CW(std::sqrt(1.0-sinW*sinW))
  .set .r 7 (.sqrt (.sub (.lit 1) (.mul (.loc .r 4) (.loc .r 4)))),
  -- 32: p1(particle(me))
  .part 0 (.mem .r 1),
  -- 32: p2(particle(me))
  .part 1 (.mem .r 1),
  -- 32: p3(particle(0))
  .part 2 (.lit 0),
  -- 32: p4(particle(0))
  .part 3 (.lit 0),
  -- 32: propW(MW,WW)
  .prop 1 (.mem .r 4) (.mem .r 5),
  -- 32: a13a(sproduct(ANGLE,&p1,&p3))
  .sprod 0 ⟨true, 0, true, [], 2, true⟩,
  -- 32: s13s(sproduct(SQUARE,&p1,&p3))
  .sprod 1 ⟨false, 0, true, [], 2, true⟩,
  -- 32: a14a(sproduct(ANGLE,&p1,&p4))
  .sprod 2 ⟨true, 0, true, [], 3, true⟩,
  -- 32: s14s(sproduct(SQUARE,&p1,&p4))
  .sprod 3 ⟨false, 0, true, [], 3, true⟩,
  -- 32: a23a(sproduct(ANGLE,&p2,&p3))
  .sprod 4 ⟨true, 1, true, [], 2, true⟩,
  -- 32: s23s(sproduct(SQUARE,&p2,&p3))
  .sprod 5 ⟨false, 1, true, [], 2, true⟩,
  -- 32: a24a(sproduct(ANGLE,&p2,&p4))
  .sprod 6 ⟨true, 1, true, [], 3, true⟩,
  -- 32: s24s(sproduct(SQUARE,&p2,&p4))
  .sprod 7 ⟨false, 1, true, [], 3, true⟩,
  -- 32: s12s(sproduct(SQUARE,&p1,&p2))
  .sprod 8 ⟨false, 0, true, [], 1, true⟩,
  -- 32: a12a(sproduct(ANGLE,&p1,&p2))
  .sprod 9 ⟨true, 0, true, [], 1, true⟩,
  -- 32: s34s(sproduct(SQUARE,&p3,&p4))
  .sprod 10 ⟨false, 2, true, [], 3, true⟩,
  -- 32: a34a(sproduct(ANGLE,&p3,&p4))
  .sprod 11 ⟨true, 2, true, [], 3, true⟩,
  -- 51: MZ=MW/CW
  .set .r 2 (.div (.mem .r 4) (.mem .r 7)),
  -- 52: propZ.set_mass(MZ)
  .propMass 0 (.mem .r 2),
  -- 53: gL=2.0*SW*SW-1.0
  .set .r 8 (.sub (.mul (.mul (.lit 2) (.mem .r 6)) (.mem .r 6)) (.lit 1)),
  -- 54: gR=2.0*SW*SW
  .set .r 9 (.mul (.mul (.lit 2) (.mem .r 6)) (.mem .r 6)),
  -- 55: preZ=e*e/(4.0*CW*CW*SW*SW)
  .set .r 10 (.div (.mul (.mem .r 0) (.mem .r 0)) (.mul (.mul (.mul (.mul (.lit 4) (.mem .r 7)) (.mem .r 7)) (.mem .r 6)) (.mem .r 6)))]

/-- `set_masses` (SM/eenene.cpp:57-65); parameters: 0 `masse`, 1 `massW` -/
def setMasses : List SInstr := [
  -- 58: me=masse
  .set .r 1 (.loc .r 0),
  -- 59: MW=massW
  .set .r 4 (.loc .r 1),
  -- 60: propW.set_mass(MW)
  .propMass 1 (.mem .r 4),
  -- 61: MZ=MW/CW
  .set .r 2 (.div (.mem .r 4) (.mem .r 7)),
  -- 62: propZ.set_mass(MZ)
  .propMass 0 (.mem .r 2),
  -- 63: p1.set_mass(me)
  .setMass 0 (.mem .r 1),
  -- 64: p2.set_mass(me)
  .setMass 1 (.mem .r 1)]

/-- `set_momenta` (SM/eenene.cpp:66-92); parameters: 0 `mom1`, 1 `mom2`, 2 `mom3`, 3 `mom4` -/
def setMomenta : List SInstr := [
  -- 68: p1.set_momentum(mom1)
  .setMom 0 0,
  -- 69: p2.set_momentum(mom2)
  .setMom 1 1,
  -- 70: p3.set_momentum(mom3)
  .setMom 2 2,
  -- 71: p4.set_momentum(mom4)
  .setMom 3 3,
  -- 72: a13a.update()
  .update 0,
  -- 73: s13s.update()
  .update 1,
  -- 74: a14a.update()
  .update 2,
  -- 75: s14s.update()
  .update 3,
  -- 76: a23a.update()
  .update 4,
  -- 77: s23s.update()
  .update 5,
  -- 78: a24a.update()
  .update 6,
  -- 79: s24s.update()
  .update 7,
  -- 80: s12s.update()
  .update 8,
  -- 81: a12a.update()
  .update 9,
  -- 82: s34s.update()
  .update 10,
  -- 83: a34a.update()
  .update 11,
  -- 90: pDenSZ=propZ.denominator(propPS)
  .den .c 0 0 (.add 0 1),
  -- 91: pDenTW=propW.denominator(propPT)
  .den .c 1 1 (.sub 0 2)]

/-- `cdouble amp(ds1,ds2)` (SM/eenene.cpp:97-121); variables: i 0 `ds1`, i 1 `ds2`, c 0 `amplitude` -/
def m_amp : Method := ⟨2, 
  -- 99: cdouble amplitude
  .seq (.set .c 0 (.ofR (.lit 0))) <|
  -- 111: amplitude=two*preZ*(gL*s23s.v(ds2)*a14a.v(ds1)+gR*s13s.v(ds1)*a24a.v(ds2))/pDenSZ
  .seq (.set .c 0 (.div (.smul (.mul (.lit 2) (.mem .r 10)) (.add (.mul (.smul (.mem .r 8) (.v 5 [.var 1])) (.v 2 [.var 0])) (.mul (.smul (.mem .r 9) (.v 1 [.var 0])) (.v 6 [.var 1])))) (.mem .c 0))) <|
  -- 116: amplitude+=e*e/SW/SW*(2.0*MW*MW*a14a.v(ds1)*s23s.v(ds2)+me*me*s13s.v(ds1)*a24a.v(ds2))/(2.0*MW*MW*pDenTW)
  .seq (.set .c 0 (.add (.loc .c 0) (.div (.smul (.div (.div (.mul (.mem .r 0) (.mem .r 0)) (.mem .r 6)) (.mem .r 6)) (.add (.mul (.smul (.mul (.mul (.lit 2) (.mem .r 4)) (.mem .r 4)) (.v 2 [.var 0])) (.v 5 [.var 1])) (.mul (.smul (.mul (.mem .r 1) (.mem .r 1)) (.v 1 [.var 0])) (.v 6 [.var 1])))) (.smul (.mul (.mul (.lit 2) (.mem .r 4)) (.mem .r 4)) (.mem .c 1))))) <|
  -- 120: return amplitude
  .ret .c (.loc .c 0)⟩

/-- `ldouble amp2()` (SM/eenene.cpp:124-136); variables: r 0 `amp2`, c 0 `M`, i 0 `j1`, i 1 `j2` -/
def m_amp2 : Method := ⟨0, 
  -- 125: ldouble amp2
  .seq (.set .r 0 (.lit 0)) <|
  -- 126: cdouble M
  .seq (.set .c 0 (.ofR (.lit 0))) <|
  -- 129: for(int j1=-1;j1<=1;j1+=2)
  .seq (.loop 0 (-1) true (.lit 1) 2 (
    -- 130: for(int j2=-1;j2<=1;j2+=2)
    .loop 1 (-1) true (.lit 1) 2 (
      -- 131: M=amp(j1,j2)
      .seq (.set .c 0 (.call 0 [.var 0, .var 1])) <|
      -- 132: amp2+=std::pow(std::abs(M),2)
      .set .r 0 (.add (.loc .r 0) (.pow (.abs (.loc .c 0)) 2))))) <|
  -- 135: return amp2/4.0
  .ret .r (.div (.loc .r 0) (.lit 4))⟩

end eenene

/-- `class eenene` (SM/eenene.cpp, SM/include/eenene.h:25-33).  Members:
* ldouble: 0 `e`, 1 `me`, 2 `MZ`, 3 `WZ`, 4 `MW`, 5 `WW`, 6 `SW`, 7 `CW`, 8 `gL`, 9 `gR`, 10 `preZ`
* cdouble: 0 `pDenSZ`, 1 `pDenTW`
* propagator: 0 `propZ`, 1 `propW`
* sproduct: 0 `a13a`, 1 `s13s`, 2 `a14a`, 3 `s14s`, 4 `a23a`, 5 `s23s`, 6 `a24a`, 7 `s24s`, 8 `s12s`, 9 `a12a`, 10 `s34s`, 11 `a34a` -/
def eenene : Proc where
  name := "eenene"
  nPar := 6
  ctor := eenene.ctor
  setMasses := eenene.setMasses
  massPar := [1, 2]
  setMomenta := eenene.setMomenta
  methods := [eenene.m_amp2, eenene.m_amp]
  amp2 := 1
  others := []

namespace eenmnm

/-- constructor (SM/eenmnm.cpp:32-55); parameters: 0 `echarge`, 1 `masse`, 2 `massW`, 3 `sinW`, 4 `widthZ` -/
def ctor : List SInstr := [
  -- 32: e(echarge)
  .set .r 0 (.loc .r 0),
  -- 32: me(masse)
  .set .r 1 (.loc .r 1),
  -- 32: WZ(widthZ)
  .set .r 3 (.loc .r 4),
  -- 32: MW(massW)
  .set .r 4 (.loc .r 2),
  -- 32: SW(sinW)
  .set .r 5 (.loc .r 3),
  -- 32: CW(std::sqrt(1.0-sinW*sinW))
  .set .r 6 (.sqrt (.sub (.lit 1) (.mul (.loc .r 3) (.loc .r 3)))),
  -- 32: p1(particle(me))
  .part 0 (.mem .r 1),
  -- 32: p2(particle(me))
  .part 1 (.mem .r 1),
  -- 32: p3(particle(0))
  .part 2 (.lit 0),
  -- 32: p4(particle(0))
  .part 3 (.lit 0),
  -- 32: a13a(sproduct(ANGLE,&p1,&p3))
  .sprod 0 ⟨true, 0, true, [], 2, true⟩,
  -- 32: s13s(sproduct(SQUARE,&p1,&p3))
  .sprod 1 ⟨false, 0, true, [], 2, true⟩,
  -- 32: a14a(sproduct(ANGLE,&p1,&p4))
  .sprod 2 ⟨true, 0, true, [], 3, true⟩,
  -- 32: s14s(sproduct(SQUARE,&p1,&p4))
  .sprod 3 ⟨false, 0, true, [], 3, true⟩,
  -- 32: a23a(sproduct(ANGLE,&p2,&p3))
  .sprod 4 ⟨true, 1, true, [], 2, true⟩,
  -- 32: s23s(sproduct(SQUARE,&p2,&p3))
  .sprod 5 ⟨false, 1, true, [], 2, true⟩,
  -- 32: a24a(sproduct(ANGLE,&p2,&p4))
  .sprod 6 ⟨true, 1, true, [], 3, true⟩,
  -- 32: s24s(sproduct(SQUARE,&p2,&p4))
  .sprod 7 ⟨false, 1, true, [], 3, true⟩,
  -- 32: s12s(sproduct(SQUARE,&p1,&p2))
  .sprod 8 ⟨false, 0, true, [], 1, true⟩,
  -- 32: a12a(sproduct(ANGLE,&p1,&p2))
  .sprod 9 ⟨true, 0, true, [], 1, true⟩,
  -- 32: s34s(sproduct(SQUARE,&p3,&p4))
  .sprod 10 ⟨false, 2, true, [], 3, true⟩,
  -- 32: a34a(sproduct(ANGLE,&p3,&p4))
  .sprod 11 ⟨true, 2, true, [], 3, true⟩,
  -- 50: MZ=MW/CW
  .set .r 2 (.div (.mem .r 4) (.mem .r 6)),
  -- 51: propZ.set_mass(MZ)
  .propMass 0 (.mem .r 2),
  -- 52: gL=2.0*SW*SW-1.0
  .set .r 7 (.sub (.mul (.mul (.lit 2) (.mem .r 5)) (.mem .r 5)) (.lit 1)),
  -- 53: gR=2.0*SW*SW
  .set .r 8 (.mul (.mul (.lit 2) (.mem .r 5)) (.mem .r 5)),
  -- 54: preZ=e*e/(4.0*CW*CW*SW*SW)
  .set .r 9 (.div (.mul (.mem .r 0) (.mem .r 0)) (.mul (.mul (.mul (.mul (.lit 4) (.mem .r 6)) (.mem .r 6)) (.mem .r 5)) (.mem .r 5)))]

/-- `set_masses` (SM/eenmnm.cpp:56-63); parameters: 0 `masse`, 1 `massW` -/
def setMasses : List SInstr := [
  -- 57: me=masse
  .set .r 1 (.loc .r 0),
  -- 58: MW=massW
  .set .r 4 (.loc .r 1),
  -- 59: MZ=MW/CW
  .set .r 2 (.div (.mem .r 4) (.mem .r 6)),
  -- 60: propZ.set_mass(MZ)
  .propMass 0 (.mem .r 2),
  -- 61: p1.set_mass(me)
  .setMass 0 (.mem .r 1),
  -- 62: p2.set_mass(me)
  .setMass 1 (.mem .r 1)]

/-- `set_momenta` (SM/eenmnm.cpp:64-87); parameters: 0 `mom1`, 1 `mom2`, 2 `mom3`, 3 `mom4` -/
def setMomenta : List SInstr := [
  -- 66: p1.set_momentum(mom1)
  .setMom 0 0,
  -- 67: p2.set_momentum(mom2)
  .setMom 1 1,
  -- 68: p3.set_momentum(mom3)
  .setMom 2 2,
  -- 69: p4.set_momentum(mom4)
  .setMom 3 3,
  -- 70: a13a.update()
  .update 0,
  -- 71: s13s.update()
  .update 1,
  -- 72: a14a.update()
  .update 2,
  -- 73: s14s.update()
  .update 3,
  -- 74: a23a.update()
  .update 4,
  -- 75: s23s.update()
  .update 5,
  -- 76: a24a.update()
  .update 6,
  -- 77: s24s.update()
  .update 7,
  -- 78: s12s.update()
  .update 8,
  -- 79: a12a.update()
  .update 9,
  -- 80: s34s.update()
  .update 10,
  -- 81: a34a.update()
  .update 11,
  -- 86: pDenSZ=propZ.denominator(propP)
  .den .c 0 0 (.add 0 1)]

/-- `cdouble amp(ds1,ds2)` (SM/eenmnm.cpp:92-106); variables: i 0 `ds1`, i 1 `ds2` -/
def m_amp : Method := ⟨2, 
  -- 105: return -two*preZ*(gL*s23s.v(ds2)*a14a.v(ds1)+gR*s13s.v(ds1)*a24a.v(ds2))/pDenSZ
  .ret .c (.div (.smul (.mul (.neg (.lit 2)) (.mem .r 9)) (.add (.mul (.smul (.mem .r 7) (.v 5 [.var 1])) (.v 2 [.var 0])) (.mul (.smul (.mem .r 8) (.v 1 [.var 0])) (.v 6 [.var 1])))) (.mem .c 0))⟩

/-- `ldouble amp2()` (SM/eenmnm.cpp:109-121); variables: r 0 `amp2`, c 0 `M`, i 0 `j1`, i 1 `j2` -/
def m_amp2 : Method := ⟨0, 
  -- 110: ldouble amp2
  .seq (.set .r 0 (.lit 0)) <|
  -- 111: cdouble M
  .seq (.set .c 0 (.ofR (.lit 0))) <|
  -- 114: for(int j1=-1;j1<=1;j1+=2)
  .seq (.loop 0 (-1) true (.lit 1) 2 (
    -- 115: for(int j2=-1;j2<=1;j2+=2)
    .loop 1 (-1) true (.lit 1) 2 (
      -- 116: M=amp(j1,j2)
      .seq (.set .c 0 (.call 0 [.var 0, .var 1])) <|
      -- 117: amp2+=std::pow(std::abs(M),2)
      .set .r 0 (.add (.loc .r 0) (.pow (.abs (.loc .c 0)) 2))))) <|
  -- 120: return amp2/4.0
  .ret .r (.div (.loc .r 0) (.lit 4))⟩

end eenmnm

/-- `class eenmnm` (SM/eenmnm.cpp, SM/include/eenmnm.h:25-33).  Members:
* ldouble: 0 `e`, 1 `me`, 2 `MZ`, 3 `WZ`, 4 `MW`, 5 `SW`, 6 `CW`, 7 `gL`, 8 `gR`, 9 `preZ`
* cdouble: 0 `pDenSZ`
* propagator: 0 `propZ`
* sproduct: 0 `a13a`, 1 `s13s`, 2 `a14a`, 3 `s14s`, 4 `a23a`, 5 `s23s`, 6 `a24a`, 7 `s24s`, 8 `s12s`, 9 `a12a`, 10 `s34s`, 11 `a34a` -/
def eenmnm : Proc where
  name := "eenmnm"
  nPar := 5
  ctor := eenmnm.ctor
  setMasses := eenmnm.setMasses
  massPar := [1, 2]
  setMomenta := eenmnm.setMomenta
  methods := [eenmnm.m_amp2, eenmnm.m_amp]
  amp2 := 1
  others := []

namespace eheh

/-- constructor (SM/eheh.cpp:32-44); parameters: 0 `echarge`, 1 `masse`, 2 `massh`, 3 `widthh`, 4 `massW`, 5 `sinW` -/
def ctor : List SInstr := [
  -- 32: e(echarge)
  .set .r 0 (.loc .r 0),
  -- 32: me(masse)
  .set .r 1 (.loc .r 1),
  -- 32: mh(massh)
  .set .r 2 (.loc .r 2),
  -- 32: wh(widthh)
  .set .r 3 (.loc .r 3),
  -- 32: MW(massW)
  .set .r 4 (.loc .r 4),
  -- 32: SW(sinW)
  .set .r 5 (.loc .r 5),
  -- 32: p1(particle(me))
  .part 0 (.mem .r 1),
  -- 32: p2(particle(mh))
  .part 1 (.mem .r 2),
  -- 32: p3(particle(me))
  .part 2 (.mem .r 1),
  -- 32: p4(particle(mh))
  .part 3 (.mem .r 2),
  -- 32: proph(mh,wh)
  .prop 0 (.mem .r 2) (.mem .r 3),
  -- 32: prope(me,0)
  .prop 1 (.mem .r 1) (.lit 0),
  -- 32: s13s(sproduct(SQUARE,&p1,&p3))
  .sprod 0 ⟨false, 0, true, [], 2, true⟩,
  -- 32: a13a(sproduct(ANGLE,&p1,&p3))
  .sprod 1 ⟨true, 0, true, [], 2, true⟩,
  -- 32: s123a(sproduct(SQUARE,&p1,&p2,&p3))
  .sprod 2 ⟨false, 0, true, [1], 2, true⟩,
  -- 32: s321a(sproduct(SQUARE,&p3,&p2,&p1))
  .sprod 3 ⟨false, 2, true, [1], 0, true⟩,
  -- 42: prehT=3*e*e*me*mh*mh/(4*MW*MW*SW*SW)
  .set .r 6 (.div (.mul (.mul (.mul (.mul (.mul (.lit 3) (.mem .r 0)) (.mem .r 0)) (.mem .r 1)) (.mem .r 2)) (.mem .r 2)) (.mul (.mul (.mul (.mul (.lit 4) (.mem .r 4)) (.mem .r 4)) (.mem .r 5)) (.mem .r 5))),
  -- 43: prehSU=e*e*me*me/(4.0*MW*MW*SW*SW)
  .set .r 7 (.div (.mul (.mul (.mul (.mem .r 0) (.mem .r 0)) (.mem .r 1)) (.mem .r 1)) (.mul (.mul (.mul (.mul (.lit 4) (.mem .r 4)) (.mem .r 4)) (.mem .r 5)) (.mem .r 5)))]

/-- `set_masses` (SM/eheh.cpp:45-57); parameters: 0 `masse`, 1 `massh`, 2 `massW` -/
def setMasses : List SInstr := [
  -- 46: me=masse
  .set .r 1 (.loc .r 0),
  -- 47: prope.set_mass(me)
  .propMass 1 (.mem .r 1),
  -- 48: mh=massh
  .set .r 2 (.loc .r 1),
  -- 49: proph.set_mass(mh)
  .propMass 0 (.mem .r 2),
  -- 50: MW=massW
  .set .r 4 (.loc .r 2),
  -- 51: p1.set_mass(me)
  .setMass 0 (.mem .r 1),
  -- 52: p2.set_mass(mh)
  .setMass 1 (.mem .r 2),
  -- 53: p3.set_mass(me)
  .setMass 2 (.mem .r 1),
  -- 54: p4.set_mass(mh)
  .setMass 3 (.mem .r 2),
  -- 55: prehT=3.0*e*e*me*mh*mh/(4.0*MW*MW*SW*SW)
  .set .r 6 (.div (.mul (.mul (.mul (.mul (.mul (.lit 3) (.mem .r 0)) (.mem .r 0)) (.mem .r 1)) (.mem .r 2)) (.mem .r 2)) (.mul (.mul (.mul (.mul (.lit 4) (.mem .r 4)) (.mem .r 4)) (.mem .r 5)) (.mem .r 5))),
  -- 56: prehSU=e*e*me*me/(4.0*MW*MW*SW*SW)
  .set .r 7 (.div (.mul (.mul (.mul (.mem .r 0) (.mem .r 0)) (.mem .r 1)) (.mem .r 1)) (.mul (.mul (.mul (.mul (.lit 4) (.mem .r 4)) (.mem .r 4)) (.mem .r 5)) (.mem .r 5)))]

/-- `set_momenta` (SM/eheh.cpp:58-78); parameters: 0 `mom1`, 1 `mom2`, 2 `mom3`, 3 `mom4` -/
def setMomenta : List SInstr := [
  -- 60: p1.set_momentum(mom1)
  .setMom 0 0,
  -- 61: p2.set_momentum(mom2)
  .setMom 1 1,
  -- 62: p3.set_momentum(mom3)
  .setMom 2 2,
  -- 63: p4.set_momentum(mom4)
  .setMom 3 3,
  -- 64: s13s.update()
  .update 0,
  -- 65: a13a.update()
  .update 1,
  -- 66: s123a.update()
  .update 2,
  -- 67: s321a.update()
  .update 3,
  -- 75: pDenTh=proph.denominator(propPT)
  .den .c 0 0 (.sub 0 2),
  -- 76: pDenSe=prope.denominator(propPS)
  .den .c 1 1 (.add 0 1),
  -- 77: pDenUe=prope.denominator(propPU)
  .den .c 2 1 (.sub 0 3)]

/-- `cdouble amp(ds1,ds3)` (SM/eheh.cpp:83-119); variables: i 0 `ds1`, i 1 `ds3`, c 0 `amplitude` -/
def m_amp : Method := ⟨2, 
  -- 85: cdouble amplitude
  .seq (.set .c 0 (.ofR (.lit 0))) <|
  -- 96: amplitude+=prehT*(s13s.v(ds1,ds3)-a13a.v(ds1,ds3))/pDenTh
  .seq (.set .c 0 (.add (.loc .c 0) (.div (.smul (.mem .r 6) (.sub (.v 0 [.var 0, .var 1]) (.v 1 [.var 0, .var 1]))) (.mem .c 0)))) <|
  -- 106: amplitude+=prehSU*(two*me*(s13s.v(ds1,ds3)-a13a.v(ds1,ds3))-s123a.v(ds1,ds3)+s321a.v(ds3,ds1))/pDenSe
  .seq (.set .c 0 (.add (.loc .c 0) (.div (.smul (.mem .r 7) (.add (.sub (.smul (.mul (.lit 2) (.mem .r 1)) (.sub (.v 0 [.var 0, .var 1]) (.v 1 [.var 0, .var 1]))) (.v 2 [.var 0, .var 1])) (.v 3 [.var 1, .var 0]))) (.mem .c 1)))) <|
  -- 115: amplitude+=prehSU*(two*me*(s13s.v(ds1,ds3)-a13a.v(ds1,ds3))+s123a.v(ds1,ds3)-s321a.v(ds3,ds1))/pDenUe
  .seq (.set .c 0 (.add (.loc .c 0) (.div (.smul (.mem .r 7) (.sub (.add (.smul (.mul (.lit 2) (.mem .r 1)) (.sub (.v 0 [.var 0, .var 1]) (.v 1 [.var 0, .var 1]))) (.v 2 [.var 0, .var 1])) (.v 3 [.var 1, .var 0]))) (.mem .c 2)))) <|
  -- 118: return amplitude
  .ret .c (.loc .c 0)⟩

/-- `ldouble amp2()` (SM/eheh.cpp:122-134); variables: r 0 `amp2`, c 0 `M`, i 0 `j1`, i 1 `j3` -/
def m_amp2 : Method := ⟨0, 
  -- 123: ldouble amp2
  .seq (.set .r 0 (.lit 0)) <|
  -- 124: cdouble M
  .seq (.set .c 0 (.ofR (.lit 0))) <|
  -- 127: for(int j1=-1;j1<=1;j1+=2)
  .seq (.loop 0 (-1) true (.lit 1) 2 (
    -- 128: for(int j3=-1;j3<=1;j3+=2)
    .loop 1 (-1) true (.lit 1) 2 (
      -- 129: M=amp(j1,j3)
      .seq (.set .c 0 (.call 0 [.var 0, .var 1])) <|
      -- 130: amp2+=std::pow(std::abs(M),2)
      .set .r 0 (.add (.loc .r 0) (.pow (.abs (.loc .c 0)) 2))))) <|
  -- 133: return amp2/2.0
  .ret .r (.div (.loc .r 0) (.lit 2))⟩

end eheh

/-- `class eheh` (SM/eheh.cpp, SM/include/eheh.h:25-32).  Members:
* ldouble: 0 `e`, 1 `me`, 2 `mh`, 3 `wh`, 4 `MW`, 5 `SW`, 6 `prehT`, 7 `prehSU`
* cdouble: 0 `pDenTh`, 1 `pDenSe`, 2 `pDenUe`
* propagator: 0 `proph`, 1 `prope`
* sproduct: 0 `s13s`, 1 `a13a`, 2 `s123a`, 3 `s321a` -/
def eheh : Proc where
  name := "eheh"
  nPar := 6
  ctor := eheh.ctor
  setMasses := eheh.setMasses
  massPar := [1, 2, 4]
  setMomenta := eheh.setMomenta
  methods := [eheh.m_amp2, eheh.m_amp]
  amp2 := 1
  others := []

namespace emem

/-- constructor (SM/emem.cpp:32-61); parameters: 0 `echarge`, 1 `masse`, 2 `massmu`, 3 `massh`, 4 `widthh`, 5 `massW`, 6 `sinW`, 7 `widthZ` -/
def ctor : List SInstr := [
  -- 32: e(echarge)
  .set .r 0 (.loc .r 0),
  -- 32: me(masse)
  .set .r 1 (.loc .r 1),
  -- 32: mm(massmu)
  .set .r 2 (.loc .r 2),
  -- 32: mh(massh)
  .set .r 3 (.loc .r 3),
  -- 32: wh(widthh)
  .set .r 4 (.loc .r 4),
  -- 32: WZ(widthZ)
  .set .r 6 (.loc .r 7),
  -- 32: MW(massW)
  .set .r 7 (.loc .r 5),
  -- 32: SW(sinW)
  .set .r 8 (.loc .r 6),
  -- 32: CW(std::sqrt(1.0-sinW*sinW))
  .set .r 9 (.sqrt (.sub (.lit 1) (.mul (.loc .r 6) (.loc .r 6)))),
  -- 32: p1(particle(me))
  .part 0 (.mem .r 1),
  -- 32: p2(particle(mm))
  .part 1 (.mem .r 2),
  -- 32: p3(particle(me))
  .part 2 (.mem .r 1),
  -- 32: p4(particle(mm))
  .part 3 (.mem .r 2),
  -- 32: propA(0,0)
  .prop 0 (.lit 0) (.lit 0),
  -- 32: proph(mh,wh)
  .prop 1 (.mem .r 3) (.mem .r 4),
  -- 32: a13a(sproduct(ANGLE,&p1,&p3))
  .sprod 0 ⟨true, 0, true, [], 2, true⟩,
  -- 32: s13s(sproduct(SQUARE,&p1,&p3))
  .sprod 1 ⟨false, 0, true, [], 2, true⟩,
  -- 32: a14a(sproduct(ANGLE,&p1,&p4))
  .sprod 2 ⟨true, 0, true, [], 3, true⟩,
  -- 32: s14s(sproduct(SQUARE,&p1,&p4))
  .sprod 3 ⟨false, 0, true, [], 3, true⟩,
  -- 32: a23a(sproduct(ANGLE,&p2,&p3))
  .sprod 4 ⟨true, 1, true, [], 2, true⟩,
  -- 32: s23s(sproduct(SQUARE,&p2,&p3))
  .sprod 5 ⟨false, 1, true, [], 2, true⟩,
  -- 32: a24a(sproduct(ANGLE,&p2,&p4))
  .sprod 6 ⟨true, 1, true, [], 3, true⟩,
  -- 32: s24s(sproduct(SQUARE,&p2,&p4))
  .sprod 7 ⟨false, 1, true, [], 3, true⟩,
  -- 32: s12s(sproduct(SQUARE,&p1,&p2))
  .sprod 8 ⟨false, 0, true, [], 1, true⟩,
  -- 32: a12a(sproduct(ANGLE,&p1,&p2))
  .sprod 9 ⟨true, 0, true, [], 1, true⟩,
  -- 32: s34s(sproduct(SQUARE,&p3,&p4))
  .sprod 10 ⟨false, 2, true, [], 3, true⟩,
  -- 32: a34a(sproduct(ANGLE,&p3,&p4))
  .sprod 11 ⟨true, 2, true, [], 3, true⟩,
  -- 51: MZ=MW/CW
  .set .r 5 (.div (.mem .r 7) (.mem .r 9)),
  -- 52: propZ.set_mass(MZ)
  .propMass 2 (.mem .r 5),
  -- 53: preh=e*e*me*mm/(4.0*MW*MW*SW*SW)
  .set .r 10 (.div (.mul (.mul (.mul (.mem .r 0) (.mem .r 0)) (.mem .r 1)) (.mem .r 2)) (.mul (.mul (.mul (.mul (.lit 4) (.mem .r 7)) (.mem .r 7)) (.mem .r 8)) (.mem .r 8))),
  -- 54: gL=2.0*SW*SW-1.0
  .set .r 11 (.sub (.mul (.mul (.lit 2) (.mem .r 8)) (.mem .r 8)) (.lit 1)),
  -- 55: gR=2.0*SW*SW
  .set .r 12 (.mul (.mul (.lit 2) (.mem .r 8)) (.mem .r 8)),
  -- 56: preZ=e*e/(4.0*CW*CW*SW*SW)
  .set .r 13 (.div (.mul (.mem .r 0) (.mem .r 0)) (.mul (.mul (.mul (.mul (.lit 4) (.mem .r 9)) (.mem .r 9)) (.mem .r 8)) (.mem .r 8))),
  -- 57: preZ0=preZ*(gL-gR)*(gL-gR)*me*mm/MZ/MZ
  .set .r 14 (.div (.div (.mul (.mul (.mul (.mul (.mem .r 13) (.sub (.mem .r 11) (.mem .r 12))) (.sub (.mem .r 11) (.mem .r 12))) (.mem .r 1)) (.mem .r 2)) (.mem .r 5)) (.mem .r 5)),
  -- 58: preZLL=preZ*2.0*gL*gL
  .set .r 15 (.mul (.mul (.mul (.mem .r 13) (.lit 2)) (.mem .r 11)) (.mem .r 11)),
  -- 59: preZLR=preZ*2.0*gL*gR
  .set .r 16 (.mul (.mul (.mul (.mem .r 13) (.lit 2)) (.mem .r 11)) (.mem .r 12)),
  -- 60: preZRR=preZ*2.0*gR*gR
  .set .r 17 (.mul (.mul (.mul (.mem .r 13) (.lit 2)) (.mem .r 12)) (.mem .r 12))]

/-- `set_masses` (SM/emem.cpp:62-76); parameters: 0 `masse`, 1 `massmu`, 2 `massh`, 3 `massW` -/
def setMasses : List SInstr := [
  -- 63: me=masse
  .set .r 1 (.loc .r 0),
  -- 64: mm=massmu
  .set .r 2 (.loc .r 1),
  -- 65: mh=massh
  .set .r 3 (.loc .r 2),
  -- 66: proph.set_mass(mh)
  .propMass 1 (.mem .r 3),
  -- 67: MW=massW
  .set .r 7 (.loc .r 3),
  -- 68: MZ=MW/CW
  .set .r 5 (.div (.mem .r 7) (.mem .r 9)),
  -- 69: propZ.set_mass(MZ)
  .propMass 2 (.mem .r 5),
  -- 70: p1.set_mass(me)
  .setMass 0 (.mem .r 1),
  -- 71: p2.set_mass(mm)
  .setMass 1 (.mem .r 2),
  -- 72: p3.set_mass(me)
  .setMass 2 (.mem .r 1),
  -- 73: p4.set_mass(mm)
  .setMass 3 (.mem .r 2),
  -- 74: preh=e*e*me*mm/(4*MW*MW*SW*SW)
  .set .r 10 (.div (.mul (.mul (.mul (.mem .r 0) (.mem .r 0)) (.mem .r 1)) (.mem .r 2)) (.mul (.mul (.mul (.mul (.lit 4) (.mem .r 7)) (.mem .r 7)) (.mem .r 8)) (.mem .r 8))),
  -- 75: preZ0=preZ*(gL-gR)*(gL-gR)*me*mm/MZ/MZ
  .set .r 14 (.div (.div (.mul (.mul (.mul (.mul (.mem .r 13) (.sub (.mem .r 11) (.mem .r 12))) (.sub (.mem .r 11) (.mem .r 12))) (.mem .r 1)) (.mem .r 2)) (.mem .r 5)) (.mem .r 5))]

/-- `set_momenta` (SM/emem.cpp:77-102); parameters: 0 `mom1`, 1 `mom2`, 2 `mom3`, 3 `mom4` -/
def setMomenta : List SInstr := [
  -- 79: p1.set_momentum(mom1)
  .setMom 0 0,
  -- 80: p2.set_momentum(mom2)
  .setMom 1 1,
  -- 81: p3.set_momentum(mom3)
  .setMom 2 2,
  -- 82: p4.set_momentum(mom4)
  .setMom 3 3,
  -- 83: a13a.update()
  .update 0,
  -- 84: s13s.update()
  .update 1,
  -- 85: a14a.update()
  .update 2,
  -- 86: s14s.update()
  .update 3,
  -- 87: a23a.update()
  .update 4,
  -- 88: s23s.update()
  .update 5,
  -- 89: a24a.update()
  .update 6,
  -- 90: s24s.update()
  .update 7,
  -- 91: s12s.update()
  .update 8,
  -- 92: a12a.update()
  .update 9,
  -- 93: s34s.update()
  .update 10,
  -- 94: a34a.update()
  .update 11,
  -- 99: pDenTA=propA.denominator(propP)
  .den .c 0 0 (.sub 0 2),
  -- 100: pDenTh=proph.denominator(propP)
  .den .c 1 1 (.sub 0 2),
  -- 101: pDenTZ=propZ.denominator(propP)
  .den .c 2 2 (.sub 0 2)]

/-- `cdouble amp(ds1,ds2,ds3,ds4)` (SM/emem.cpp:107-160); variables: i 0 `ds1`, i 1 `ds2`, i 2 `ds3`, i 3 `ds4`, c 0 `amplitude` -/
def m_amp : Method := ⟨4, 
  -- 109: cdouble amplitude
  .seq (.set .c 0 (.ofR (.lit 0))) <|
  -- 118: amplitude+=-two*e*e*(+a14a.v(ds1,ds4)*s23s.v(ds2,ds3)+a12a.v(ds1,ds2)*s34s.v(ds3,ds4)+s14s.v(ds1,ds4)*a23a.v(ds2,ds3)+s12s.v(ds1,ds2)*a34a.v(ds3,ds4))/pDenTA
  .seq (.set .c 0 (.add (.loc .c 0) (.div (.smul (.mul (.mul (.neg (.lit 2)) (.mem .r 0)) (.mem .r 0)) (.add (.add (.add (.mul (.v 2 [.var 0, .var 3]) (.v 5 [.var 1, .var 2])) (.mul (.v 9 [.var 0, .var 1]) (.v 10 [.var 2, .var 3]))) (.mul (.v 3 [.var 0, .var 3]) (.v 4 [.var 1, .var 2]))) (.mul (.v 8 [.var 0, .var 1]) (.v 11 [.var 2, .var 3])))) (.mem .c 0)))) <|
  -- 131: amplitude+=-preh*(s13s.v(ds1,ds3)-a13a.v(ds1,ds3))*(s24s.v(ds2,ds4)-a24a.v(ds2,ds4))/pDenTh
  .seq (.set .c 0 (.add (.loc .c 0) (.div (.mul (.smul (.neg (.mem .r 10)) (.sub (.v 1 [.var 0, .var 2]) (.v 0 [.var 0, .var 2]))) (.sub (.v 7 [.var 1, .var 3]) (.v 6 [.var 1, .var 3]))) (.mem .c 1)))) <|
  -- 151: amplitude+=+preZ0*(a13a.v(ds1,ds3)+s13s.v(ds1,ds3))*(a24a.v(ds2,ds4)+s24s.v(ds2,ds4))/pDenTZ-two*preZ*(gL*gL*s34s.v(ds3,ds4)*a12a.v(ds1,ds2)+gL*gR*(s14s.v(ds1,ds4)*a23a.v(ds2,ds3)+s23s.v(ds2,ds3)*a14a.v(ds1,ds4))+gR*gR*s12s.v(ds1,ds2)*a34a.v(ds3,ds4))/pDenTZ
  .seq (.set .c 0 (.add (.loc .c 0) (.sub (.div (.mul (.smul (.mem .r 14) (.add (.v 0 [.var 0, .var 2]) (.v 1 [.var 0, .var 2]))) (.add (.v 6 [.var 1, .var 3]) (.v 7 [.var 1, .var 3]))) (.mem .c 2)) (.div (.smul (.mul (.lit 2) (.mem .r 13)) (.add (.add (.mul (.smul (.mul (.mem .r 11) (.mem .r 11)) (.v 10 [.var 2, .var 3])) (.v 9 [.var 0, .var 1])) (.smul (.mul (.mem .r 11) (.mem .r 12)) (.add (.mul (.v 3 [.var 0, .var 3]) (.v 4 [.var 1, .var 2])) (.mul (.v 5 [.var 1, .var 2]) (.v 2 [.var 0, .var 3]))))) (.mul (.smul (.mul (.mem .r 12) (.mem .r 12)) (.v 8 [.var 0, .var 1])) (.v 11 [.var 2, .var 3])))) (.mem .c 2))))) <|
  -- 159: return amplitude
  .ret .c (.loc .c 0)⟩

/-- `ldouble amp2()` (SM/emem.cpp:163-178); variables: r 0 `amp2`, c 0 `M`, i 0 `j1`, i 1 `j2`, i 2 `j3`, i 3 `j4` -/
def m_amp2 : Method := ⟨0, 
  -- 164: ldouble amp2
  .seq (.set .r 0 (.lit 0)) <|
  -- 165: cdouble M
  .seq (.set .c 0 (.ofR (.lit 0))) <|
  -- 168: for(int j1=-1;j1<=1;j1+=2)
  .seq (.loop 0 (-1) true (.lit 1) 2 (
    -- 169: for(int j2=-1;j2<=1;j2+=2)
    .loop 1 (-1) true (.lit 1) 2 (
      -- 170: for(int j3=-1;j3<=1;j3+=2)
      .loop 2 (-1) true (.lit 1) 2 (
        -- 171: for(int j4=-1;j4<=1;j4+=2)
        .loop 3 (-1) true (.lit 1) 2 (
          -- 173: M=amp(j1,j2,j3,j4)
          .seq (.set .c 0 (.call 0 [.var 0, .var 1, .var 2, .var 3])) <|
          -- 174: amp2+=std::pow(std::abs(M),2)
          .set .r 0 (.add (.loc .r 0) (.pow (.abs (.loc .c 0)) 2))))))) <|
  -- 177: return amp2/4.0
  .ret .r (.div (.loc .r 0) (.lit 4))⟩

end emem

/-- `class emem` (SM/emem.cpp, SM/include/emem.h:25-33).  Members:
* ldouble: 0 `e`, 1 `me`, 2 `mm`, 3 `mh`, 4 `wh`, 5 `MZ`, 6 `WZ`, 7 `MW`, 8 `SW`, 9 `CW`, 10 `preh`, 11 `gL`, 12 `gR`, 13 `preZ`, 14 `preZ0`, 15 `preZLL`, 16 `preZLR`, 17 `preZRR`
* cdouble: 0 `pDenTA`, 1 `pDenTh`, 2 `pDenTZ`
* propagator: 0 `propA`, 1 `proph`, 2 `propZ`
* sproduct: 0 `a13a`, 1 `s13s`, 2 `a14a`, 3 `s14s`, 4 `a23a`, 5 `s23s`, 6 `a24a`, 7 `s24s`, 8 `s12s`, 9 `a12a`, 10 `s34s`, 11 `a34a` -/
def emem : Proc where
  name := "emem"
  nPar := 8
  ctor := emem.ctor
  setMasses := emem.setMasses
  massPar := [1, 2, 3, 5]
  setMomenta := emem.setMomenta
  methods := [emem.m_amp2, emem.m_amp]
  amp2 := 1
  others := []

namespace enAW

/-- constructor (SM/enAW.cpp:32-54); parameters: 0 `echarge`, 1 `masse`, 2 `massW`, 3 `sinW`, 4 `widthW` -/
def ctor : List SInstr := [
  -- 32: e(echarge)
  .set .r 0 (.loc .r 0),
  -- 32: me(masse)
  .set .r 1 (.loc .r 1),
  -- 32: MW(massW)
  .set .r 2 (.loc .r 2),
  -- 32: SW(sinW)
  .set .r 3 (.loc .r 3),
  -- 32: WW(widthW)
  .set .r 4 (.loc .r 4),
  -- 35: propW=propagator(MW,WW)
  .prop 0 (.mem .r 2) (.mem .r 4),
  -- 36: prope=propagator(me,0)
  .prop 1 (.mem .r 1) (.lit 0),
  -- 37: p1=particle(me)
  .part 0 (.mem .r 1),
  -- 38: p2=particle(0)
  .part 1 (.lit 0),
  -- 39: p3=particle(0)
  .part 2 (.lit 0),
  -- 40: p4=particle(MW)
  .part 3 (.mem .r 2),
  -- 42: s34s=sproduct(SQUARE,&p3,&p4)
  .sprod 0 ⟨false, 2, true, [], 3, true⟩,
  -- 43: a12a=sproduct(ANGLE,&p1,&p2)
  .sprod 1 ⟨true, 0, true, [], 1, true⟩,
  -- 44: a24a=sproduct(ANGLE,&p2,&p4)
  .sprod 2 ⟨true, 1, true, [], 3, true⟩,
  -- 45: s13s=sproduct(SQUARE,&p1,&p3)
  .sprod 3 ⟨false, 0, true, [], 2, true⟩,
  -- 46: s314a=sproduct(SQUARE,&p3,&p1,&p4)
  .sprod 4 ⟨false, 2, true, [0], 3, true⟩,
  -- 48: a23a=sproduct(ANGLE,&p2,&p3)
  .sprod 5 ⟨true, 1, true, [], 2, true⟩,
  -- 49: s14s=sproduct(SQUARE,&p1,&p4)
  .sprod 6 ⟨false, 0, true, [], 3, true⟩,
  -- 50: a34a=sproduct(ANGLE,&p3,&p4)
  .sprod 7 ⟨true, 2, true, [], 3, true⟩,
  -- 51: s413a=sproduct(SQUARE,&p4,&p1,&p3)
  .sprod 8 ⟨false, 3, true, [0], 2, true⟩,
  -- 53: pre=std::sqrt(2.0)*e*e/(MW*SW)
  .set .r 5 (.div (.mul (.mul (.sqrt (.lit 2)) (.mem .r 0)) (.mem .r 0)) (.mul (.mem .r 2) (.mem .r 3)))]

/-- `set_masses` (SM/enAW.cpp:55-64); parameters: 0 `masse`, 1 `massW` -/
def setMasses : List SInstr := [
  -- 57: me=masse
  .set .r 1 (.loc .r 0),
  -- 58: MW=massW
  .set .r 2 (.loc .r 1),
  -- 59: p1.set_mass(me)
  .setMass 0 (.mem .r 1),
  -- 60: p4.set_mass(MW)
  .setMass 3 (.mem .r 2),
  -- 61: propW.set_mass(MW)
  .propMass 0 (.mem .r 2),
  -- 62: prope.set_mass(me)
  .propMass 1 (.mem .r 1),
  -- 63: pre=std::sqrt(2.0)*e*e/(MW*SW)
  .set .r 5 (.div (.mul (.mul (.sqrt (.lit 2)) (.mem .r 0)) (.mem .r 0)) (.mul (.mem .r 2) (.mem .r 3)))]

/-- `set_momenta` (SM/enAW.cpp:65-90); parameters: 0 `mom1`, 1 `mom2`, 2 `mom3`, 3 `mom4` -/
def setMomenta : List SInstr := [
  -- 67: p1.set_momentum(mom1)
  .setMom 0 0,
  -- 68: p2.set_momentum(mom2)
  .setMom 1 1,
  -- 69: p3.set_momentum(mom3)
  .setMom 2 2,
  -- 70: p4.set_momentum(mom4)
  .setMom 3 3,
  -- 72: s34s.update()
  .update 0,
  -- 73: a12a.update()
  .update 1,
  -- 74: a24a.update()
  .update 2,
  -- 75: s13s.update()
  .update 3,
  -- 76: s314a.update()
  .update 4,
  -- 78: a23a.update()
  .update 5,
  -- 79: s14s.update()
  .update 6,
  -- 80: a34a.update()
  .update 7,
  -- 81: s413a.update()
  .update 8,
  -- 88: pDenS=propW.denominator(propSP)
  .den .c 0 0 (.add 0 1),
  -- 89: pDenT=prope.denominator(propTP)
  .den .c 1 1 (.sub 0 2)]

/-- `cdouble amp(ds1,ds3,ds4)` (SM/enAW.cpp:95-134); variables: i 0 `ds1`, i 1 `ds3`, i 2 `ds4`, c 0 `amplitude`, i 3 `ds4a`, i 4 `ds4b`, i 5 `nCombs`, r 0 `normFactor`, i 6 `i` -/
def m_amp : Method := ⟨3, 
  -- 96: cdouble amplitude
  .seq (.set .c 0 (.ofR (.lit 0))) <|
  -- 100: int nCombs
  .seq (.seti 5 (.loops [2])) <|
  -- 101: ldouble normFactor
  .seq (.set .r 0 (.norm [2])) <|
  -- 103: for(int i=0;i<nCombs;i++)
  .seq (.loop 6 0 false (.var 5) 1 (
    -- 104: get_spinor_spins(ds4,ds4a,ds4b,i)
    .seq (.spins [(2, 3, 4)] (.var 6)) <|
    -- 106: if(ds3>0)
    .ite (.lt (.lit 0) (.var 1)) (
      -- 114: amplitude+=-normFactor*pre*(me*s34s.v(ds4a)*a12a.v(ds1)-MW*a24a.v(ds4a)*s13s.v(ds1))*(MW*s34s.v(ds4b)+s314a.v(ds4b))/pDenS/pDenT
      .set .c 0 (.add (.loc .c 0) (.div (.div (.mul (.smul (.mul (.neg (.loc .r 0)) (.mem .r 5)) (.sub (.mul (.smul (.mem .r 1) (.v 0 [.var 3])) (.v 1 [.var 0])) (.mul (.smul (.mem .r 2) (.v 2 [.var 3])) (.v 3 [.var 0])))) (.add (.smul (.mem .r 2) (.v 0 [.var 4])) (.v 4 [.var 4]))) (.mem .c 0)) (.mem .c 1)))) (
      -- 118: if(ds3<0)
      .ite (.lt (.var 1) (.lit 0)) (
        -- 126: amplitude+=normFactor*pre*a23a.v()*s14s.v(ds1,ds4a)*(me*me*a34a.v(ds4b)+MW*s413a.v(ds4b))/pDenS/pDenT
        .set .c 0 (.add (.loc .c 0) (.div (.div (.mul (.mul (.smul (.mul (.loc .r 0) (.mem .r 5)) (.v 5 [])) (.v 6 [.var 0, .var 3])) (.add (.smul (.mul (.mem .r 1) (.mem .r 1)) (.v 7 [.var 4])) (.smul (.mem .r 2) (.v 8 [.var 4])))) (.mem .c 0)) (.mem .c 1)))) (
        .skip)))) <|
  -- 133: return amplitude
  .ret .c (.loc .c 0)⟩

/-- `ldouble amp2()` (SM/enAW.cpp:137-150); variables: r 0 `amp2`, c 0 `M`, i 0 `j1`, i 1 `j3`, i 2 `j4` -/
def m_amp2 : Method := ⟨0, 
  -- 138: ldouble amp2
  .seq (.set .r 0 (.lit 0)) <|
  -- 139: cdouble M
  .seq (.set .c 0 (.ofR (.lit 0))) <|
  -- 142: for(int j1=-1;j1<=1;j1+=2)
  .seq (.loop 0 (-1) true (.lit 1) 2 (
    -- 143: for(int j3=-2;j3<=2;j3+=4)
    .loop 1 (-2) true (.lit 2) 4 (
      -- 144: for(int j4=-2;j4<=2;j4+=2)
      .loop 2 (-2) true (.lit 2) 2 (
        -- 145: M=amp(j1,j3,j4)
        .seq (.set .c 0 (.call 0 [.var 0, .var 1, .var 2])) <|
        -- 146: amp2+=std::pow(std::abs(M),2)
        .set .r 0 (.add (.loc .r 0) (.pow (.abs (.loc .c 0)) 2)))))) <|
  -- 149: return amp2/2.0
  .ret .r (.div (.loc .r 0) (.lit 2))⟩

end enAW

/-- `class enAW` (SM/enAW.cpp, SM/include/enAW.h:25-35).  Members:
* ldouble: 0 `e`, 1 `me`, 2 `MW`, 3 `SW`, 4 `WW`, 5 `pre`
* cdouble: 0 `pDenS`, 1 `pDenT`
* propagator: 0 `propW`, 1 `prope`
* sproduct: 0 `s34s`, 1 `a12a`, 2 `a24a`, 3 `s13s`, 4 `s314a`, 5 `a23a`, 6 `s14s`, 7 `a34a`, 8 `s413a` -/
def enAW : Proc where
  name := "enAW"
  nPar := 5
  ctor := enAW.ctor
  setMasses := enAW.setMasses
  massPar := [1, 2]
  setMomenta := enAW.setMomenta
  methods := [enAW.m_amp2, enAW.m_amp]
  amp2 := 1
  others := []

end Spinas.SM.Cls
